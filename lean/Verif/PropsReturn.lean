import Verif.PropsRep
import Verif.PropsNRep

/-!
# Calls end (C94)

Apart from the loops over lists, XCSF has loops that are left only when something random happens:
covering repeats until every action is represented, tournaments repeat until somebody takes part,
and exploration repeats until it draws an action that some rule advocates.  In the model these loops
have a bound (`Params.loopBound` for the last two) and running out of it is the fault `hang`; the
program itself would never return.

This file says when that cannot happen, whatever the history of calls: then every call returns or
ends the program with a message, calls that do not learn return always, and calls that learn return
when there is room for the rules that covering may create.
-/

set_option linter.unusedSectionVars false

namespace Xcsf

section
variable {K X B R : Type} [Field K] [LinearOrder K] [IsStrictOrderedRing K]
variable {par : Params K} {kit : Kit K X B R} {W : B → Prop}

/-- Creating a rule for an input and mutating a rule return. -/
structure Prompt (par : Params K) (kit : Kit K X B R) (W : B → Prop) : Prop where
  cover : ∀ e b x (a : Nat) r, a < par.nActions → W b → ∃ q, kit.cover e b x a r = .ok q
  mutate : ∀ b r, W b → ∃ q, kit.mutate b r = .ok q

/-- The generator after `n` draws. -/
def drawn (kit : Kit K X B R) : Nat → R → R
  | 0, r => r
  | n + 1, r => drawn kit n (kit.draw r).2

/-- Among any `par.loopBound` consecutive random numbers one is below the tournament size (if
parents are chosen by tournament), and `par.loopBound` is not zero. -/
structure Fair (par : Params K) (kit : Kit K X B R) : Prop where
  bound : 1 ≤ par.loopBound
  small : par.eaTournament = true → ∀ r, ∃ n, n < par.loopBound ∧
    (kit.draw (drawn kit n r)).1 < par.eaSelectSize

/-! ## The two loops -/

theorem tournamentPass_some : ∀ (l : List (Nat × K)) (w : Option (Nat × K)) (r : R), w.isSome →
    (tournamentPass par kit l w r).1.isSome
  | [], w, r, h => h
  | (i, f) :: l, w, r, h => by
    unfold tournamentPass
    apply tournamentPass_some l
    split
    · rfl
    · exact h

/-- A pass without winner draws once for each rule and never a small number. -/
theorem tournamentPass_none : ∀ (l : List (Nat × K)) (r : R),
    (tournamentPass par kit l none r).1 = none →
    (tournamentPass par kit l none r).2 = drawn kit l.length r ∧
      ∀ n, n < l.length → ¬ (kit.draw (drawn kit n r)).1 < par.eaSelectSize
  | [], r, _ => ⟨rfl, fun n h => absurd h (Nat.not_lt_zero _)⟩
  | (i, f) :: l, r, h => by
    unfold tournamentPass at h ⊢
    have hu : uniform kit 0 1 r = (0 + (kit.draw r).1 * (1 - 0), (kit.draw r).2) := rfl
    have hv : (0 : K) + (kit.draw r).1 * (1 - 0) = (kit.draw r).1 := by ring
    simp only [hu, hv, Option.all_none, Bool.and_true] at h ⊢
    by_cases hs : (kit.draw r).1 < par.eaSelectSize
    · rw [if_pos (decide_eq_true hs)] at h
      have := tournamentPass_some (par := par) (kit := kit) l (some (i, f)) (kit.draw r).2 rfl
      rw [h] at this
      cases this
    · rw [if_neg (by simpa using hs)] at h ⊢
      obtain ⟨h1, h2⟩ := tournamentPass_none l (kit.draw r).2 h
      refine ⟨h1, fun n hn => ?_⟩
      cases n with
      | zero => exact hs
      | succ n => exact h2 n (by simpa using hn)

theorem drawn_add (m n : Nat) (r : R) : drawn kit (m + n) r = drawn kit n (drawn kit m r) := by
  induction m generalizing r with
  | zero => rw [Nat.zero_add]; rfl
  | succ m ih => rw [Nat.succ_add]; exact ih _

/-- A tournament ends within as many passes as there are draws up to a small one. -/
theorem selectTournament_ends {l : List (Nat × K)} (hl : l ≠ []) {E : Fault → Prop} :
    ∀ (N : Nat) (r : R), (∃ n, n < N ∧ (kit.draw (drawn kit n r)).1 < par.eaSelectSize) →
    Post (selectTournament par kit l N r) (fun p => ∃ f, (p.1, f) ∈ l) E
  | 0, r, h => absurd h (by rintro ⟨n, h, _⟩; exact absurd h (Nat.not_lt_zero _))
  | N + 1, r, h => by
    unfold selectTournament
    split
    · next i f r' e =>
      have := tournamentPass_mem (par := par) (kit := kit) l none r i f (by rw [e])
      simp only [reduceCtorEq, or_false] at this
      exact ⟨f, this⟩
    · next r' e =>
      obtain ⟨h1, h2⟩ := tournamentPass_none (par := par) (kit := kit) l r (by rw [e])
      rw [e] at h1
      have h1 : r' = drawn kit l.length r := h1
      apply selectTournament_ends hl N
      obtain ⟨n, hn, hs⟩ := h
      have hpos : 0 < l.length := List.length_pos_iff.2 hl
      have hge : l.length ≤ n := by
        by_contra hlt
        exact h2 n (by omega) hs
      refine ⟨n - l.length, by omega, ?_⟩
      rw [h1, ← drawn_add, Nat.add_sub_cancel' hge]
      exact hs

/-- With every action advocated by a rule of positive fitness, exploration takes the first draw. -/
theorem explore_ends (H : Regular par kit W) (hb : 1 ≤ par.loopBound) {E : Fault → Prop}
    (hE : ¬ E .ub) (cs : List (Cl K B)) (pa nr : List K) (hv : ∀ c ∈ cs, RuleOK par W c)
    (hadv : ∀ a, a < par.nActions → E .ub ∨ ∃ c ∈ cs, c.action = (a : Int))
    (e : paRules par.yDim cs (List.replicate (par.nActions * par.yDim) 0)
      (List.replicate (par.nActions * par.yDim) 0) = .ok (pa, nr))
    (hl : nr.length = par.nActions * par.yDim) (r : R) :
    Post (paRandAction par kit nr par.loopBound r) (fun p => 0 ≤ p.1 ∧
      (E .ub ∨ p.1 < par.nActions) ∧ ∃ v, nr[p.1.toNat]? = some v ∧ v ≠ 0) E := by
  have hpos : ∀ a j, a < par.nActions → j < par.yDim → 0 < nr.getD (a * par.yDim + j) 0 := by
    intro a j ha hj
    rw [(paRules_get (a := a) hj cs e).2.2.2]
    have hz : (List.replicate (par.nActions * par.yDim) (0 : K)).getD (a * par.yDim + j) 0 = 0 := by
      rw [List.getD_eq_getElem?_getD, List.getElem?_replicate]
      split <;> rfl
    rw [hz, zero_add]
    apply List.sum_pos
    · intro v hv'
      obtain ⟨c, hc, rfl⟩ := List.mem_map.1 hv'
      exact (hv c (List.mem_filter.1 hc).1).fit0
    · intro hnil
      rcases hadv a ha with h | ⟨c, hc, hca⟩
      · exact hE h
      · have : c ∈ cs.filter (fun c => decide (c.action = (a : Int))) :=
          List.mem_filter.2 ⟨hc, by simpa using hca⟩
        rw [List.map_eq_nil_iff] at hnil
        rw [hnil] at this
        cases this
  have hall : ∀ k, k < par.nActions → ∃ v, nr[k]? = some v ∧ v ≠ 0 := by
    intro k hk
    have hy := H.yDim
    have hlt : k < nr.length := by
      rw [hl]
      calc k < par.nActions * 1 := by omega
        _ ≤ _ := Nat.mul_le_mul_left _ hy
    refine ⟨nr[k], List.getElem?_eq_getElem hlt, ?_⟩
    have hq := hpos (k / par.yDim) (k % par.yDim)
      (lt_of_le_of_lt (Nat.div_le_self _ _) hk) (Nat.mod_lt _ hy)
    rw [Nat.mul_comm, Nat.div_add_mod, List.getD_eq_getElem?_getD, List.getElem?_eq_getElem hlt] at hq
    exact ne_of_gt hq
  obtain ⟨m, hm⟩ : ∃ m, par.loopBound = m + 1 := ⟨par.loopBound - 1, by omega⟩
  rw [hm]
  unfold paRandAction
  have hidx := uniformInt_range H (n := par.nActions) (by have := H.nActions; omega) r
  revert hidx
  show _ → Post (if 0 ≤ (uniformInt kit 0 (par.nActions : Int) r).1 then _ else _) _ _
  generalize uniformInt kit 0 (par.nActions : Int) r = k
  intro hidx
  rw [if_pos hidx.1]
  obtain ⟨v, e1, e2⟩ := hall k.1.toNat (by omega)
  rw [e1]
  show Post (if v = 0 then _ else _) _ _
  rw [if_neg e2]
  exact ⟨hidx.1, Or.inr hidx.2, v, e1, e2⟩

/-- A regular system whose loops end: the only fault left is the one that is tolerated. -/
theorem lawsEnd (H : Regular par kit W) (P : Prompt par kit W) (F : Fair par kit)
    {E : Fault → Prop} (hE : ¬ E .ub) : Laws par kit (RuleOK par W) E := by
  refine lawsGen H ?_ ?_ ?_ ?_
  · intro f b x a r e ha w h
    obtain ⟨q, hq⟩ := P.cover f b x a r ha w
    rw [hq] at h; cases h
  · intro b r e w h
    obtain ⟨q, hq⟩ := P.mutate b r w
    rw [hq] at h; cases h
  · exact fun ht l hl r => selectTournament_ends hl _ r (F.small ht r)
  · exact explore_ends H F.bound hE

instance : MayExit (fun e => e = Fault.exit) := ⟨rfl⟩

/-! ## Properties -/

/-- **C94.** In a regular system in which creating and mutating rules return and tournaments attract
somebody, no history of calls hangs: it returns or ends the program with a message. -/
theorem C94_history_ends_partial (H : Regular par kit W) (P : Prompt par kit W) (F : Fair par kit)
    (r : R) (ops : List (Op K X B)) (hv : ∀ op ∈ ops, op.legal par W) :
    (∃ s, run par kit r ops = .ok s) ∨ run par kit r ops = .error .exit := by
  have := run_post (lawsEnd H P F (E := fun e => e = .exit) nofun) r ops (fun op ho => (hv op ho).ok)
  cases e : run par kit r ops with
  | ok s => exact .inl ⟨s, rfl⟩
  | error f => rw [e] at this; exact .inr (congrArg _ this)

theorem returned {α : Type} {m : Res α} {P : α → Prop} (h : Post m P (fun _ => False)) :
    ∃ a, m = .ok a ∧ P a := by
  cases m with
  | ok a => exact ⟨a, rfl, h⟩
  | error e => exact h.elim

/-- What is known between calls, for laws that tolerate nothing. -/
theorem between_of_run (H : Regular par kit W) {r : R} {ops : List (Op K X B)}
    (hv : ∀ op ∈ ops, op.legal par W) {s : St K X B R} (h : run par kit r ops = .ok s) :
    Between (RuleOK par W) par s s := by
  have k := run_post (lawsField H) r ops (fun op ho => (hv op ho).ok)
  rw [h] at k
  exact k

/-- **C94**, calls that do not learn: after any history, predicting and scoring any rows, inserting
and importing rules, storing and retrieving the population return. -/
theorem C94_no_learning_returns_partial (H : Regular par kit W) (P : Prompt par kit W)
    (F : Fair par kit) {r : R} {ops : List (Op K X B)} (hv : ∀ op ∈ ops, op.legal par W)
    {s : St K X B R} (h : run par kit r ops = .ok s) :
    (∀ cv xs, ∃ q, predictBatch par kit cv xs s = .ok q) ∧
    (∀ cv rows, ∃ q, score par kit cv rows s = .ok q) ∧
    (∀ c, RuleOK par W c → 1 ≤ c.num → ∃ s', step par kit s (.insert c) = .ok s') ∧
    (∀ cs, cs ≠ [] → (∀ c ∈ cs, RuleOK par W c ∧ 1 ≤ c.num) →
      ∃ s', step par kit s (.import cs) = .ok s') ∧
    (∃ s', step par kit s .store = .ok s') ∧ (∃ s', step par kit s .retrieve = .ok s') := by
  have b := between_of_run H hv h
  have L := lawsEnd H P F (E := fun _ => False) (fun h => h)
  refine ⟨fun cv xs => ?_, fun cv rows => ?_, fun c hc hn => ?_, fun cs hne hcs => ?_, ?_, ?_⟩
  · exact (returned (predictBatch_post L cv xs b)).imp fun _ h => h.1
  · exact (returned (score_post L cv rows b)).imp fun _ h => h.1
  · exact (returned (insertCl_post L b hc hn)).imp fun _ h => h.1
  · exact (returned (jsonInsert_post L hne b hcs)).imp fun _ h => h.1
  · obtain ⟨s', new, e, _⟩ := store_spec L b
    exact ⟨s', e⟩
  · obtain ⟨s', e, _⟩ := retrieve_spec b
    exact ⟨s', e⟩

/-- **C94**, calls that may cover: if the population has room for one new rule per action, fitting
and testing a row return, and so does a single reinforcement step for an action that exists. -/
theorem C94_learning_returns_partial (H : Regular par kit W) (P : Prompt par kit W)
    (F : Fair par kit) (hm : 1 ≤ par.maxCover) {r : R} {ops : List (Op K X B)}
    (hv : ∀ op ∈ ops, op.legal par W) {s : St K X B R} (h : run par kit r ops = .ok s)
    (room : micro (population s) + par.nActions ≤ par.popSize) :
    (∀ x y, ∃ q, fitStep par kit x y s = .ok q) ∧ (∀ x y, ∃ q, testStep par kit x y s = .ok q) ∧
    (∀ x (a : Int) reward, 0 ≤ a → a < par.nActions → ∃ q, rlFit par kit x a reward s = .ok q) := by
  have b := between_of_run H hv h
  have L := lawsEnd H P F (E := fun _ => False) (fun h => h)
  have hr : Room par (fun _ => False) par.maxCover s.pset.num := by
    refine Or.inr ⟨hm, ?_⟩
    have : micro (population s) = s.pset.num := by
      rw [population, filterMap_micro b.good.inv.p.allLive, b.good.inv.p.num]
    omega
  refine ⟨fun x y => ?_, fun x y => ?_, fun x a reward h0 h1 => ?_⟩
  · exact (returned (fitStep_full L x y b hr)).imp fun _ h => h.1
  · exact (returned (testStep_full L x y b hr)).imp fun _ h => h.1
  · exact (returned (rlFit_full L x a reward b hr (fun h => by omega))).imp fun _ h => h.1

/-! ## Refutations -/

theorem tournamentPass_zero (hd : ∀ r, 0 < (kit.draw r).1) (hz : par.eaSelectSize ≤ 0) :
    ∀ (l : List (Nat × K)) (r : R), (tournamentPass par kit l none r).1 = none
  | [], _ => rfl
  | (i, f) :: l, r => by
    unfold tournamentPass
    have hu : uniform kit 0 1 r = (0 + (kit.draw r).1 * (1 - 0), (kit.draw r).2) := rfl
    have hv : (0 : K) + (kit.draw r).1 * (1 - 0) = (kit.draw r).1 := by ring
    have hn : ¬ (kit.draw r).1 < par.eaSelectSize := by have := hd r; intro h; linarith
    simp only [hu, hv, Option.all_none, Bool.and_true]
    rw [if_neg (by simpa using hn)]
    exact tournamentPass_zero hd hz l _

/-- **C94**, refuted for tournaments of size 0 (which the parameter allows): whatever the number of
passes, nobody ever takes part, and the evolutionary algorithm does not return once it is due. -/
theorem C94_empty_tournament_refuted (hd : ∀ r, 0 < (kit.draw r).1) (ht : par.eaTournament = true)
    (hz : par.eaSelectSize ≤ 0) :
    (∀ (l : List (Nat × K)) (N : Nat) (r : R), selectTournament par kit l N r = .error .hang) ∧
    (∀ (t : CSet) (s : St K X B R) cs, s.rds t.list = .ok cs → eaDue par t cs (s.time + 1) = true →
      ∀ s', ea par kit t s ≠ .ok s') := by
  have hsel : ∀ (l : List (Nat × K)) (N : Nat) (r : R),
      selectTournament par kit l N r = .error .hang := by
    intro l N
    induction N with
    | zero => intro r; rfl
    | succ N ih =>
      intro r
      unfold selectTournament
      have := tournamentPass_zero (par := par) hd hz l r
      split
      · next i f r' e => rw [e] at this; cases this
      · exact ih _
  refine ⟨hsel, fun t s cs hcs hdue s' h => ?_⟩
  have hes : ∀ (l : List Nat) (s : St K X B R) q, eaSelect par kit l s ≠ .ok q := by
    intro l s q h
    unfold eaSelect at h
    cases e : s.rds l with
    | error f => rw [e] at h; cases h
    | ok ds =>
      rw [e] at h
      have h : (if par.eaTournament = true then
          (selectTournament par kit (l.zip (ds.map Cl.fit)) par.loopBound s.rng >>= fun p =>
            selectTournament par kit (l.zip (ds.map Cl.fit)) par.loopBound p.2 >>= fun q =>
            Except.ok (p.1, q.1, q.2)) else _) = _ := h
      rw [if_pos ht, hsel] at h
      cases h
  unfold ea at h
  have hcs' : ({ s with time := s.time + 1 } : St K X B R).rds t.list = .ok cs := hcs
  have h : (({ s with time := s.time + 1 } : St K X B R).rds t.list >>= fun cs =>
    if eaDue par t cs (s.time + 1) then
      eaBreed par kit t { s with time := s.time + 1 } >>= fun s => enforce par kit s
    else .ok { s with time := s.time + 1 }) = .ok s' := h
  rw [hcs'] at h
  have h : (if eaDue par t cs (s.time + 1) then
      eaBreed par kit t { s with time := s.time + 1 } >>= fun s => enforce par kit s
    else .ok { s with time := s.time + 1 }) = .ok s' := h
  rw [if_pos hdue] at h
  cases e : eaBreed par kit t { s with time := s.time + 1 } with
  | error f => rw [e] at h; cases h
  | ok s1 =>
    unfold eaBreed at e
    cases e2 : setTimes ({ s with time := s.time + 1 } : St K X B R).time t.list
        { s with time := s.time + 1 } with
    | error f => rw [e2] at e; cases e
    | ok s2 =>
      rw [e2] at e
      have e : (eaSelect par kit t.list s2 >>= fun p =>
        eaLoop par kit t.list p.1 p.2.1 par.eaLambda.toNat 0 { s2 with rng := p.2.2 }) = .ok s1 := e
      cases e3 : eaSelect par kit t.list s2 with
      | error f => rw [e3] at e; cases e
      | ok q => exact hes _ _ _ e3
end

/-! ## Rules made of intervals, ellipsoids, ternary strings or no condition -/

section
variable {K R : Type} [Field K] [LinearOrder K] [IsStrictOrderedRing K] [FloorRing K]
variable (Y : System K R)

/-- Conditions other than trees and graphs. -/
def CondType.Direct : CondType → Prop
  | .gp => False
  | .dgp => False
  | _ => True

theorem cond_cover_returns {g : Rng K R} {S : Setup K} : ∀ {c : CondType}, c.Legal S → c.Direct →
    ∀ b x r, ∃ q, (c.vt g S).cover b x r = .ok q
  | .dummy, _, _, _, _, _ => ⟨_, rfl⟩
  | .rectangle, _, _, _, _, _ => ⟨_, rfl⟩
  | .ellipsoid, _, _, _, _, _ => ⟨_, rfl⟩
  | .ternary, h, _, b, x, r => by
    obtain ⟨c', r', e, _⟩ := C32_cover g S.cond h b x r
    exact ⟨_, e⟩
  | .gp, _, h, _, _, _ => h.elim
  | .dgp, _, h, _, _, _ => h.elim

/-- Mutation returns for every condition; creating a rule for an input returns for all conditions
but trees and graphs. -/
theorem System.prompt (hd : Y.cond.Direct) : Prompt Y.par Y.kit (fun _ => True) where
  cover := fun f b x a r ha _ => by
    have h : ∃ q, (systemRep Y.pf.rng Y.S Y.par.nActions Y.cond Y.pred).cover f b.1 x
        ((a : Int).toNat : Nat) r = .ok q := by
      obtain ⟨c, ec⟩ := cond_cover_returns (g := Y.pf.rng) Y.hcond hd b.1.cond x.1 r
      show ∃ q, ((Y.cond.vt Y.pf.rng Y.S).cover b.1.cond x.1 r >>= _) = .ok q
      rw [ec]
      exact ⟨_, rfl⟩
    show ∃ q, (if ha : 0 ≤ (a : Int) ∧ (a : Int).toNat < Y.par.nActions then _ else _) = _
    rw [dif_pos ⟨Int.natCast_nonneg a, by simpa using ha⟩]
    split
    · exact ⟨_, rfl⟩
    · next f' e =>
      obtain ⟨q, hq⟩ := h
      rw [hq] at e; cases e
  mutate := fun b r _ => by
    have h : ∃ q, (systemRep Y.pf.rng Y.S Y.par.nActions Y.cond Y.pred).mutate b.1 r = .ok q := by
      obtain ⟨c, ec, -⟩ := (cond_sound Y.hpf.rng Y.hcond).mutate b.1.cond r b.2.cond
      obtain ⟨p, ep, -⟩ := (pred_sound Y.hpf.rng Y.heta Y.pred).mutate b.1.pred c.2.2 b.2.pred
      obtain ⟨a, ea, -⟩ := (int_sound Y.hpf.rng Y.hpar.nActions).mutate b.1.act p.2.2 b.2.act
      show ∃ q, ((Y.cond.vt Y.pf.rng Y.S).mutate b.1.cond r >>= _) = .ok q
      rw [ec]
      show ∃ q, ((Y.pred.vt Y.pf.rng Y.S).mutate b.1.pred c.2.2 >>= _) = .ok q
      rw [ep]
      show ∃ q, ((if 1 < Y.par.nActions then (intAct Y.pf.rng Y.par.nActions).mutate b.1.act p.2.2
        else .ok (false, b.1.act, p.2.2)) >>= _) = .ok q
      split
      · rw [ea]; exact ⟨_, rfl⟩
      · exact ⟨_, rfl⟩
    unfold System.kit Rep.kit
    dsimp only
    split
    · exact ⟨_, rfl⟩
    · next f' e =>
      obtain ⟨q, hq⟩ := h
      rw [hq] at e; cases e

/-- **C94** for systems whose rules have an interval, ellipsoid, ternary or no condition, whatever
the prediction: no history of calls hangs. -/
theorem C94_system_ends_partial (hd : Y.cond.Direct) (F : Fair Y.par Y.kit) (r : R)
    (ops : List (Op K Y.In Y.Rule)) (hv : ∀ op ∈ ops, op.legal Y.par (fun _ => True)) :
    (∃ s, run Y.par Y.kit r ops = .ok s) ∨ run Y.par Y.kit r ops = .error .exit :=
  C94_history_ends_partial Y.regular (Y.prompt hd) F r ops hv

/-- **C94** for the same systems: after any history, what does not learn returns, and fitting,
testing and reinforcement steps return if there is room for one rule per action. -/
theorem C94_system_returns_partial (hd : Y.cond.Direct) (F : Fair Y.par Y.kit)
    (hm : 1 ≤ Y.par.maxCover) {r : R} {ops : List (Op K Y.In Y.Rule)}
    (hv : ∀ op ∈ ops, op.legal Y.par (fun _ => True)) {s : St K Y.In Y.Rule R}
    (h : run Y.par Y.kit r ops = .ok s) :
    (∀ cv xs, ∃ q, predictBatch Y.par Y.kit cv xs s = .ok q) ∧
    (∀ cv rows, ∃ q, score Y.par Y.kit cv rows s = .ok q) ∧
    (micro (population s) + Y.par.nActions ≤ Y.par.popSize →
      (∀ x y, ∃ q, fitStep Y.par Y.kit x y s = .ok q) ∧
      (∀ x y, ∃ q, testStep Y.par Y.kit x y s = .ok q) ∧
      (∀ x (a : Int) reward, 0 ≤ a → a < Y.par.nActions →
        ∃ q, rlFit Y.par Y.kit x a reward s = .ok q)) :=
  have k := C94_no_learning_returns_partial Y.regular (Y.prompt hd) F hv h
  ⟨k.1, k.2.1, C94_learning_returns_partial Y.regular (Y.prompt hd) F hm hv h⟩

theorem apply_zero (f : Fin 4) : GpExpr.apply f (GpExpr.limit (0 : K)) (GpExpr.limit 0) = 0 := by
  have h : GpExpr.limit (0 : K) = 0 := by unfold GpExpr.limit; norm_num
  rw [h]
  fin_cases f <;> simp [GpExpr.apply]

theorem value_zero {nc ni : Nat} {c : Fin nc → K} {x : Fin ni → K} (hc : ∀ i, c i = 0)
    (hx : ∀ i, x i = 0) : ∀ e : GpExpr nc ni, e.value c x = 0
  | .func f l r => by
    rw [GpExpr.value, value_zero hc hx l, value_zero hc hx r]
    exact apply_zero f
  | .const i => hc i
  | .input i => hx i

/-- **C94**, refuted for trees: if the constants are zero (both limits of the constants may be set
to zero), no tree contains the input zero, and covering it never returns: whatever the number of
trees tried. -/
theorem C94_tree_cover_refuted {g : Rng K R} (H : g.Open) {a : GpArgs K} (ha : a.Legal)
    (hc : ∀ v ∈ a.constants, v = 0) {x : List K} (hl : a.nInputs ≤ x.length) (hx : ∀ v ∈ x, v = 0)
    (fuelT : Nat) (mem : Nat → Int) : ∀ (fuel : Nat) (r : R),
    gpCover g a x (fuelT + 1) mem fuel r = .error .hang
  | 0, _ => rfl
  | fuel + 1, r => by
    unfold gpCover
    obtain ⟨t, r', e⟩ := C33_rand_terminates H ha.room fuelT mem 0 r
    obtain ⟨ex, h1, -⟩ := C33_rand H ha.leaf e
    obtain ⟨ex', h2⟩ := GpTree.Codes.widen hl (show t.Codes _ _ from ⟨ex, h1⟩)
    rw [e]
    show (gpMatch a x t >>= _) = _
    rw [C33_match h2, value_zero (fun i => hc _ (List.get_mem _ i)) (fun i => hx _ (List.get_mem _ i))]
    show (if decide ((1 : K) / 2 < 0) = true then _ else _) = _
    rw [if_neg (by simp)]
    exact C94_tree_cover_refuted H ha hc hl hx fuelT mem fuel r'
end

/-! ## Examples -/

section Examples

/-- Demonstration parameters with tournaments. -/
abbrev cupPar : Params ℚ := { Demo.par with eaTournament := true, loopBound := 101 }

/-- A platform whose generator runs through all of its states. -/
abbrev cupPf : Platform ℚ Nat :=
  { demoPf with
    rng := { demoPf.rng with
      draw := fun r => ((2 * ((r % 101 : Nat) : ℚ) + 1) / 202, (r + 37) % 101) } }

/-- A demonstration system with tournaments. -/
abbrev cupSystem (c : CondType) (q : PredType) : System ℚ Nat :=
  { demoSystem c q with
    par := cupPar
    pf := cupPf
    hpf := ⟨demoPf_legal.rng, demoPf_legal.loss⟩
    hpar := { (demoSystem c q).hpar with } }

theorem cup_draw (c : CondType) (q : PredType) : ∀ n r,
    (((cupSystem c q).kit).draw (drawn (cupSystem c q).kit n r)).1 =
      (((cupSystem c q).kit).draw (drawn (cupSystem c q).kit n (r % 101))).1
  | 0, r => by
    show ((2 * ((r % 101 : Nat) : ℚ) + 1) / 202) = ((2 * ((r % 101 % 101 : Nat) : ℚ) + 1) / 202)
    rw [Nat.mod_mod]
  | n + 1, r => by
    have : (r + 37) % 101 = (r % 101 + 37) % 101 := by omega
    show (((cupSystem c q).kit).draw (drawn (cupSystem c q).kit n ((r + 37) % 101))).1 =
      (((cupSystem c q).kit).draw (drawn (cupSystem c q).kit n ((r % 101 + 37) % 101))).1
    rw [this]

theorem cup_fair (c : CondType) (q : PredType) : Fair (cupSystem c q).par (cupSystem c q).kit where
  bound := show 1 ≤ 101 by decide
  small := fun _ r => by
    have h : ∀ k, k < 101 → ∃ n, n < 101 ∧
        (cupPf.rng.draw (drawn (cupSystem .dummy .constant).kit n k)).1 < (2 / 5 : ℚ) := by
      decide +kernel
    obtain ⟨n, hn, hs⟩ := h (r % 101) (Nat.mod_lt _ (by decide))
    refine ⟨n, hn, ?_⟩
    rw [cup_draw]
    have e : ∀ n k, drawn (cupSystem c q).kit n k = drawn (cupSystem .dummy .constant).kit n k := by
      intro n
      induction n with
      | zero => exact fun _ => rfl
      | succ n ih => exact fun k => ih _
    rw [e]
    exact hs

/-- A history with tournaments runs. -/
def cupRuns (c : CondType) (q : PredType) : Bool :=
  Demo.Res.test (run (cupSystem c q).par (cupSystem c q).kit 0
    [.fit ⟨[1 / 2, 1 / 4], rfl⟩ [1], .fit ⟨[1, 1 / 3], rfl⟩ [2], .rlFit ⟨[1, 1 / 3], rfl⟩ 1 1]) fun s =>
      0 < s.pset.num

example : cupRuns .rectangle .nlms = true := by decide +kernel

/-- The theorems apply to a system with tournaments. -/
example (r : Nat) (ops : List (Op ℚ (cupSystem .rectangle .nlms).In (cupSystem .rectangle .nlms).Rule))
    (hv : ∀ op ∈ ops, op.legal (cupSystem .rectangle .nlms).par (fun _ => True)) :
    (∃ s, run (cupSystem .rectangle .nlms).par (cupSystem .rectangle .nlms).kit r ops = .ok s) ∨
      run (cupSystem .rectangle .nlms).par (cupSystem .rectangle .nlms).kit r ops = .error .exit :=
  C94_system_ends_partial (cupSystem .rectangle .nlms) trivial (cup_fair _ _) r ops hv

/-- With an empty population there is room: the first call returns. -/
example (r : Nat) (x : (cupSystem .ternary .rls).In) (y : List ℚ) (s)
    (h : run (cupSystem .ternary .rls).par (cupSystem .ternary .rls).kit r [] = .ok s)
    (h0 : micro (population s) = 0) :
    ∃ q, fitStep (cupSystem .ternary .rls).par (cupSystem .ternary .rls).kit x y s = .ok q :=
  ((C94_system_returns_partial (cupSystem .ternary .rls) trivial (cup_fair _ _) (by decide)
    (by simp) h).2.2 (by rw [h0]; decide)).1 x y

/-- A call that fails in a given way. -/
def failsWith {α : Type} (f : Fault) : Res α → Bool
  | .ok _ => false
  | .error e => decide (e = f)

theorem failsWith_iff {α : Type} {f : Fault} : ∀ {m : Res α}, failsWith f m = true → m = .error f
  | .ok _, h => nomatch h
  | .error _, h => congrArg _ (of_decide_eq_true h)

/-- Tournaments of size 0. -/
abbrev emptyCup : System ℚ Nat :=
  { cupSystem .rectangle .nlms with
    par := { cupPar with eaSelectSize := 0 }
    hpar := { (demoSystem .rectangle .nlms).hpar with } }

/-- **C94**, refuted by a history: with legal parameters and tournaments of size 0 fitting two rows
does not return. -/
theorem C94_history_refuted : ∃ ops : List (Op ℚ emptyCup.In emptyCup.Rule),
    (∀ op ∈ ops, op.legal emptyCup.par (fun _ => True)) ∧
    run emptyCup.par emptyCup.kit 0 ops = .error .hang := by
  refine ⟨[.fit ⟨[1 / 2, 1 / 4], rfl⟩ [1], .fit ⟨[1, 1 / 3], rfl⟩ [2]], ?_, failsWith_iff (by decide +kernel)⟩
  intro op h
  simp only [List.mem_cons, List.not_mem_nil, or_false] at h
  rcases h with rfl | rfl <;> trivial

/-- A population of one rule and two actions. -/
abbrev smallSystem : System ℚ Nat :=
  { demoSystem .rectangle .nlms with
    par := { Demo.par with popSize := 1 }
    hpar := { (demoSystem .rectangle .nlms).hpar with popSize := by decide } }

/-- **C94**, fitting refuted when the population is smaller than the number of actions: covering
gives up and the program ends. -/
theorem C94_small_population_refuted : ∃ op : Op ℚ smallSystem.In smallSystem.Rule,
    op.legal smallSystem.par (fun _ => True) ∧
    run smallSystem.par smallSystem.kit 0 [op] = .error .exit :=
  ⟨.fit ⟨[1 / 2, 1 / 4], rfl⟩ [1], trivial, failsWith_iff (by decide +kernel)⟩

example : gpCover demoPf.rng { demoSetup.gp with constants := [0, 0] } [0, 0] 2 (fun _ => 0) 1000 7 =
    .error .hang :=
  C94_tree_cover_refuted demoPf_legal.rng ⟨by decide, by decide⟩ (by decide) (by decide) (by decide)
    1 _ _ _

end Examples
end Xcsf
