import Verif.Props1

/-!
# C65: deletion votes

The vote of a rule is its set-size estimate times its numerosity; it is multiplied by the
ratio of the mean fitness of the population (per micro-classifier) to the rule's own fitness
(per micro-classifier) exactly for the rules that are experienced and unfit.
-/

set_option linter.unusedSectionVars false

namespace Xcsf
section Field
variable {K X B R : Type} [Field K] [LinearOrder K] [IsStrictOrderedRing K]
variable {par : Params K} {kit : Kit K X B R}

/-- Mean fitness of a micro-classifier of the population. -/
def meanFit (cs : List (Cl K B)) : K := (cs.map Cl.fit).sum / (micro cs : K)

/-- Fitness of one micro-classifier of a rule. -/
def ownFit (c : Cl K B) : K := c.fit / (c.num : K)

/-- Experienced enough to be judged, and with a fitness below the fraction `delta` of the
mean. -/
def Unfit (par : Params K) (mean : K) (c : Cl K B) : Prop :=
  par.thetaDel < c.exp ∧ ownFit c < par.delta * mean

instance (par : Params K) (mean : K) (c : Cl K B) : Decidable (Unfit par mean c) := by
  unfold Unfit; infer_instance

/-- The deletion vote of the XCSF literature. -/
def voteSpec (par : Params K) (mean : K) (c : Cl K B) : K :=
  c.size * (c.num : K) * if Unfit par mean c then mean / ownFit c else 1

/-- The votes the code computes are the votes of the specification. -/
theorem C65_votes {c : Cl K B} (hn : 0 < c.num) (mean : K) :
    delVote par c mean = voteSpec par mean c := by
  have hn' : (0 : K) < (c.num : K) := by exact_mod_cast hn
  have e : c.fit < par.delta * mean * (c.num : K) ↔ ownFit c < par.delta * mean := by
    rw [ownFit, div_lt_iff₀ hn']
  unfold delVote voteSpec
  by_cases h : Unfit par mean c
  · rw [if_pos ⟨h.1, e.2 h.2⟩, if_pos h, ownFit, mul_div_assoc]
  · rw [if_neg (fun g => h ⟨g.1, e.1 g.2⟩), if_neg h, mul_one]

/-- A vote is raised for unfit rules only, and then by more than the factor `1 / delta`. -/
theorem C65_raised {c : Cl K B} (hn : 0 < c.num) (hs : 0 < c.size) (hf : 0 < c.fit) {mean : K} :
    (¬ Unfit par mean c → delVote par c mean = c.size * (c.num : K)) ∧
    (Unfit par mean c → c.size * (c.num : K) < par.delta * delVote par c mean) := by
  have hn' : (0 : K) < (c.num : K) := by exact_mod_cast hn
  have ho : 0 < ownFit c := div_pos hf hn'
  rw [C65_votes hn]
  refine ⟨fun h => by rw [voteSpec, if_neg h, mul_one], fun h => ?_⟩
  rw [voteSpec, if_pos h]
  have h1 : 1 < par.delta * mean / ownFit c := by rw [lt_div_iff₀ ho, one_mul]; exact h.2
  have h2 : 0 < c.size * (c.num : K) := mul_pos hs hn'
  have h3 : par.delta * (c.size * (c.num : K) * (mean / ownFit c)) =
      c.size * (c.num : K) * (par.delta * mean / ownFit c) := by ring
  rw [h3]
  nlinarith

/-- Votes are positive in every population of well-formed rules, so each rule can be deleted. -/
theorem C65_positive {c : Cl K B} (hn : 0 < c.num) (hs : 0 < c.size) (hf : 0 < c.fit) {mean : K}
    (hd : 0 < par.delta) : 0 < delVote par c mean := by
  have hn' : (0 : K) < (c.num : K) := by exact_mod_cast hn
  obtain ⟨h1, h2⟩ := C65_raised (par := par) hn hs hf (mean := mean)
  have h0 : 0 < c.size * (c.num : K) := mul_pos hs hn'
  by_cases h : Unfit par mean c
  · have := h2 h
    by_contra hc
    nlinarith
  · rw [h1 h]; exact h0

/-- With the same record, a rule without enough experience never has a larger vote than an
experienced unfit one. -/
theorem C65_protects_inexperienced {c : Cl K B} (hn : 0 < c.num) {mean : K}
    (hx : c.exp ≤ par.thetaDel) : delVote par c mean = c.size * (c.num : K) := by
  rw [C65_votes hn, voteSpec, if_neg, mul_one]
  exact fun h => absurd h.1 (by omega)

/-- One spin: when no rule is overdue and compaction is not in force, a deletion takes one
micro-classifier from the rule on whose interval of the partial sums of the votes a point
drawn uniformly in `[0, total]` falls. -/
theorem C65_deletion_by_votes {s s' : St K X B R} {pend : List Nat} (inv : Inv s pend)
    (hpos : ∀ c ∈ population s, 0 < c.num)
    (h : psetDel par kit s = .ok s') (hno : ∀ c ∈ population s, ¬ NeverMatched par c)
    (hc : ¬ (par.compaction = true ∧ s.error < par.e0)) :
    ∃ pre c post, population s = pre ++ c :: post ∧ population s' = pre ++ loseOne c ++ post ∧
      (let vote := voteSpec par (meanFit (population s))
       let p := (kit.draw s.rng).1 * ((population s).map vote).sum
       p ≤ (pre.map vote).sum + vote c ∧ (pre = [] ∨ (pre.map vote).sum < p)) := by
  obtain ⟨pre, c, post, e1, e2, e3⟩ := C04_otherwise_roulette inv h hno
  refine ⟨pre, c, post, e1, e2, ?_⟩
  have hv : (population s).map (fun c => delVote par c (meanFit (population s))) =
      (population s).map (voteSpec par (meanFit (population s))) :=
    List.map_congr_left fun d hd => C65_votes (hpos d hd) _
  unfold delRoulette at e3
  simp only [if_neg hc, totalFit_eq] at e3
  rw [show ((population s).map Cl.fit).sum / ((micro (population s) : Int) : K) =
    meanFit (population s) from rfl, hv, foldl_add_sum, zero_add] at e3
  intro vote p
  generalize hl : (population s).map (voteSpec par (meanFit (population s))) = l at *
  have hp : (uniform kit 0 l.sum s.rng).1 = p := by simp [uniform, p, vote, hl]
  have hsp : spin p l = some pre.length := by
    unfold delSpins at e3
    obtain ⟨⟨p', r1⟩, hu⟩ : ∃ q, uniform kit 0 l.sum s.rng = q := ⟨_, rfl⟩
    have hp' : p' = p := by rw [← hp, hu]
    simp only [hu, hp'] at e3
    cases hs : spin p l with
    | none => simp only [hs] at e3; cases e3
    | some i =>
      simp only [hs] at e3
      cases hg : (population s)[i]? with
      | none => simp only [hg] at e3; cases e3
      | some d => simp only [hg, delSpins] at e3; cases e3; rfl
  have hlp : l = pre.map vote ++ vote c :: post.map vote := by
    rw [← hl, e1]; simp [vote, e1]
  cases l with
  | nil => cases hsp
  | cons v rest =>
    obtain ⟨_, h2, h3⟩ := wheel_interval rest v 0 pre.length hsp
    have t1 : (List.take (pre.length + 1) (v :: rest)).sum = (pre.map vote).sum + vote c := by
      rw [hlp, List.take_append, List.length_map, List.take_of_length_le (by simp)]
      simp
    have t2 : (List.take pre.length (v :: rest)).sum = (pre.map vote).sum := by
      rw [hlp, List.take_append, List.length_map, List.take_of_length_le (by simp)]
      simp
    refine ⟨?_, ?_⟩
    · rw [← t1]; simpa using h2
    · rcases h3 with h3 | h3
      · left; exact List.length_eq_zero_iff.1 h3
      · by_cases hz : pre = []
        · exact Or.inl hz
        · right
          rw [← t2]
          obtain ⟨k, hk⟩ : ∃ k, pre.length = k + 1 :=
            ⟨pre.length - 1, by have := List.length_pos_iff.2 hz; omega⟩
          rw [hk] at h3 ⊢
          simpa using h3

/-- One turn of the wheel with point `p` stops on the interval of position `k`. -/
theorem spin_spec {p : K} {l : List K} {k : Nat} (h : spin p l = some k) :
    p ≤ (l.take (k + 1)).sum ∧ (k = 0 ∨ (l.take k).sum < p) := by
  cases l with
  | nil => cases h
  | cons v rest =>
    obtain ⟨_, h2, h3⟩ := wheel_interval rest v 0 k h
    refine ⟨by simpa using h2, ?_⟩
    rcases h3 with h3 | h3
    · exact Or.inl h3
    · cases k with
      | zero => exact Or.inl rfl
      | succ k => right; simpa using h3

/-- Compaction: once it is in force (the system error is below the target), a deletion turns
the wheel twice and takes from the more complex (by condition and prediction size) of the
two rules it stops on, the first one on a tie. -/
theorem C65_compaction {s s' : St K X B R} {pend : List Nat} (inv : Inv s pend)
    (hpos : ∀ c ∈ population s, 0 < c.num)
    (h : psetDel par kit s = .ok s') (hno : ∀ c ∈ population s, ¬ NeverMatched par c)
    (hc : par.compaction = true ∧ s.error < par.e0) :
    let votes := (population s).map (voteSpec par (meanFit (population s)))
    let On : K → Nat → Prop := fun p k =>
      p ≤ (votes.take (k + 1)).sum ∧ (k = 0 ∨ (votes.take k).sum < p)
    let complexity : Cl K B → K := fun c => kit.condSize c.body + kit.predSize c.body
    ∃ pre c post i ci j cj, population s = pre ++ c :: post ∧
      population s' = pre ++ loseOne c ++ post ∧
      (population s)[i]? = some ci ∧ (population s)[j]? = some cj ∧
      On ((kit.draw s.rng).1 * votes.sum) i ∧
      On ((kit.draw (kit.draw s.rng).2).1 * votes.sum) j ∧
      pre.length = if complexity ci < complexity cj then j else i := by
  intro votes On complexity
  obtain ⟨pre, c, post, e1, e2, e3⟩ := C04_otherwise_roulette inv h hno
  have hv : (population s).map (fun c => delVote par c (meanFit (population s))) = votes :=
    List.map_congr_left fun d hd => C65_votes (hpos d hd) _
  unfold delRoulette at e3
  simp only [if_pos hc, totalFit_eq] at e3
  rw [show ((population s).map Cl.fit).sum / ((micro (population s) : Int) : K) =
    meanFit (population s) from rfl, hv, foldl_add_sum, zero_add] at e3
  have hu : ∀ r, uniform kit 0 votes.sum r = ((kit.draw r).1 * votes.sum, (kit.draw r).2) := by
    intro r; simp [uniform]
  unfold delSpins at e3
  simp only [hu] at e3
  cases hs : spin ((kit.draw s.rng).1 * votes.sum) votes with
  | none => simp only [hs] at e3; cases e3
  | some i =>
    simp only [hs] at e3
    cases hg : (population s)[i]? with
    | none => simp only [hg] at e3; cases e3
    | some ci =>
      simp only [hg] at e3
      unfold delSpins at e3
      simp only [hu] at e3
      cases hs' : spin ((kit.draw (kit.draw s.rng).2).1 * votes.sum) votes with
      | none => simp only [hs'] at e3; cases e3
      | some j =>
        simp only [hs'] at e3
        cases hg' : (population s)[j]? with
        | none => simp only [hg'] at e3; cases e3
        | some cj =>
          simp only [hg'] at e3
          refine ⟨pre, c, post, i, ci, j, cj, e1, e2, hg, hg', spin_spec hs, spin_spec hs', ?_⟩
          simp only [delSpins] at e3
          show pre.length = if kit.condSize ci.body + kit.predSize ci.body <
            kit.condSize cj.body + kit.predSize cj.body then j else i
          split
          · next hlt => rw [if_pos hlt] at e3; exact (congrArg Prod.fst (Except.ok.inj e3)).symm
          · next hlt => rw [if_neg hlt] at e3; exact (congrArg Prod.fst (Except.ok.inj e3)).symm

end Field

/-! ## The hypotheses are met by concrete executions -/

section Examples
open Demo

/-- An experienced unfit rule and an inexperienced copy of it: only the first vote is
raised, eightfold. -/
example :
    let c : Cl ℚ (Nat × Nat) := { clInit Demo.par 2 0 (1, 0) with fit := 1/4, exp := 50, num := 2 }
    let par := { Demo.par with thetaDel := 20, delta := 1/5 }
    Unfit par 1 c ∧ delVote par c 1 = 8 * (c.size * 2) ∧
      ¬ Unfit par 1 { c with exp := 20 } ∧ delVote par { c with exp := 20 } 1 = c.size * 2 := by
  decide +kernel

/-- A reachable state in which one spin decides. -/
example : ∃ s s', run Demo.par Demo.kit 0 Demo.ops = .ok s ∧
    psetDel Demo.par Demo.kit s = .ok s' ∧ (∀ c ∈ population s, 0 < c.num) ∧
    (∀ c ∈ population s, ¬ NeverMatched Demo.par c) ∧
    ¬ (Demo.par.compaction = true ∧ s.error < Demo.par.e0) := by
  obtain ⟨s, h1, h2⟩ := Res.test_iff (m := run Demo.par Demo.kit 0 Demo.ops)
    (p := fun s => Res.test (psetDel Demo.par Demo.kit s) (fun _ =>
      decide ((∀ c ∈ population s, 0 < c.num) ∧
        (∀ c ∈ population s, ¬ NeverMatched Demo.par c) ∧
        ¬ (Demo.par.compaction = true ∧ s.error < Demo.par.e0))))
    (by decide +kernel)
  obtain ⟨s', h3, h4⟩ := Res.test_iff h2
  exact ⟨s, s', h1, h3, of_decide_eq_true h4⟩

/-- A reachable state in which compaction is in force. -/
example : ∃ s s', let par := { Demo.par with compaction := true, e0 := 1000 }
    run par Demo.kit 0 Demo.ops = .ok s ∧
    psetDel par Demo.kit s = .ok s' ∧ (∀ c ∈ population s, 0 < c.num) ∧
    (∀ c ∈ population s, ¬ NeverMatched par c) ∧
    (par.compaction = true ∧ s.error < par.e0) := by
  obtain ⟨s, h1, h2⟩ := Res.test_iff
    (m := run { Demo.par with compaction := true, e0 := 1000 } Demo.kit 0 Demo.ops)
    (p := fun s => Res.test
      (psetDel { Demo.par with compaction := true, e0 := 1000 } Demo.kit s) (fun _ =>
      decide ((∀ c ∈ population s, 0 < c.num) ∧
        (∀ c ∈ population s, ¬ NeverMatched { Demo.par with compaction := true, e0 := 1000 } c) ∧
        (true = true ∧ s.error < 1000))))
    (by decide +kernel)
  obtain ⟨s', h3, h4⟩ := Res.test_iff h2
  exact ⟨s, s', h1, h3, of_decide_eq_true h4⟩

end Examples
end Xcsf
