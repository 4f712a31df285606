import Verif.BadParam
import Verif.Props6

/-!
# C112: parameters that are not a number

The setters refuse values outside the documented range, but the comparisons are false for
not-a-number, which is stored.  What follows from that is shown here: no undefined behaviour, but
training errors that are lost, an evolutionary algorithm that does not return or runs in every trial,
and exploration that never happens.
-/

set_option linter.unusedSectionVars false

namespace Xcsf.Double

open Demo

variable {f : Format} {X B R : Type} {par : Params (Dbl f)} {kit : Kit (Dbl f) X B R}

/-! ## Specification -/

/-- The documented ranges: the unit interval, or what is not below zero.  (Infinity is not below zero.) -/
def Documented (unit : Bool) (a : Dbl f) : Prop :=
  (∃ q h, a = .fin q h ∧ 0 ≤ q ∧ (unit = true → q ≤ 1)) ∨ (unit = false ∧ a = .inf false)

/-- The parameters that are doubles, in the order of the setters. -/
def doubles (par : Params (Dbl f)) : List (Dbl f) :=
  [par.gamma, par.pExplore, par.alpha, par.beta, par.delta, par.e0, par.initErr, par.initFit, par.nu,
    par.eaSelectSize, par.eaTheta, par.eaErrReduc, par.eaFitReduc]

/-- The place of the parameter in this order. -/
def place : DSet f → Nat
  | .gamma _ => 0 | .pExplore _ => 1 | .alpha _ => 2 | .beta _ => 3 | .delta _ => 4 | .e0 _ => 5
  | .initError _ => 6 | .initFitness _ => 7 | .nu _ => 8 | .selectSize _ => 9 | .theta _ => 10
  | .errReduc _ => 11 | .fitReduc _ => 12

/-- The parameters that are probabilities, rates or fractions, documented as in the unit interval: all
but `e0`, `init_error`, `init_fitness`, `nu` and the threshold `theta` of evolution. -/
def fraction (c : DSet f) : Bool := place c ∉ [5, 6, 7, 8, 10]

/-! ## Theorems -/

/-- **C112**, what is stored: an accepted value becomes the value of its parameter; all other parameters
stay. -/
theorem C112_stored (c : DSet f) (h : c.accepted = true) :
    doubles (c.apply par) = (doubles par).set (place c) c.value ∧
    (c.apply par).popSize = par.popSize ∧ (c.apply par).nActions = par.nActions ∧
    (c.apply par).eaTournament = par.eaTournament ∧ (c.apply par).eaLambda = par.eaLambda := by
  unfold DSet.apply
  rw [if_pos h]
  cases c <;> exact ⟨rfl, rfl, rfl, rfl, rfl⟩

/-- **C112**, what is refused: exactly the numbers and infinities outside the range; the parameters
stay as they are. -/
theorem C112_refused (c : DSet f) :
    (c.accepted = true ↔ c.value = .nan ∨ Documented (fraction c) c.value) ∧
    (c.accepted = false → c.apply par = par) := by
  constructor
  · have key : ∀ (u : Bool) (a : Dbl f),
        (if u then !(decide (a < 0) || decide (1 < a)) else !decide (a < 0)) = true ↔
          a = .nan ∨ Documented u a := by
      intro u a
      rcases a with _ | s | ⟨q, h⟩
      · constructor
        · exact fun _ => .inl rfl
        · intro _
          have h1 : ¬ (.nan : Dbl f) < 0 := id
          have h2 : ¬ 1 < (.nan : Dbl f) := id
          cases u <;> simp [h1, h2]
      · have h1 : (.inf s : Dbl f) < 0 ↔ s = true := Iff.rfl
        have h2 : 1 < (.inf s : Dbl f) ↔ s = false := Iff.rfl
        cases u <;> cases s <;> simp [h1, h2, Documented]
      · have h1 : (.fin q h : Dbl f) < 0 ↔ q < 0 := Iff.rfl
        have h2 : 1 < (.fin q h : Dbl f) ↔ 1 < q := Iff.rfl
        cases u <;> simp [h1, h2, Documented, h]
    have hu : fraction c = c.unit := by cases c <;> rfl
    rw [hu]
    exact key c.unit c.value
  · intro h
    unfold DSet.apply
    rw [h]
    rfl

/-- **C112** (refuted): not-a-number is in no documented range, and every setter stores it. -/
theorem C112_nan_refuted (c : DSet f) (h : c.value = .nan) :
    ¬ Documented (fraction c) c.value ∧ c.apply par = c.assign par := by
  constructor
  · rw [h]
    rintro (⟨q, h, e, -⟩ | ⟨-, e⟩) <;> cases e
  · unfold DSet.apply
    rw [((C112_refused (par := par) c).1).2 (.inl h), if_pos rfl]

theorem Sane.set {W : B → Prop} (H : Sane par kit W) (c : DSet f) : Sane (c.apply par) kit W := by
  unfold DSet.apply
  split
  · rename_i h
    obtain ⟨h1, h2, h3, h4, h5, h6, h7, h8, h9, h10, h11, h12, h13, h14, h15, h16, h17, h18, h19, h20,
      h21, h22, h23, h24, h25⟩ := H
    cases c with
    | beta a =>
      have ha : ¬ a < 0 ∧ ¬ 1 < a := by
        simp [DSet.accepted, DSet.unit, DSet.value] at h
        exact ⟨of_decide_eq_false h.1, of_decide_eq_false h.2⟩
      exact ⟨h1, h2, h3, ha, h5, h6, h7, h8, h9, h10, h11, h12, h13, h14, h15, h16, h17, h18, h19,
        h20, h21, h22, h23, h24, h25⟩
    | initFitness a =>
      have ha : ¬ a < 0 := by
        simp [DSet.accepted, DSet.unit, DSet.value] at h
        exact of_decide_eq_false h
      exact ⟨h1, h2, h3, h4, ha, h6, h7, h8, h9, h10, h11, h12, h13, h14, h15, h16, h17, h18, h19,
        h20, h21, h22, h23, h24, h25⟩
    | fitReduc a =>
      have ha : ¬ a < 0 ∧ ¬ 1 < a := by
        simp [DSet.accepted, DSet.unit, DSet.value] at h
        exact ⟨of_decide_eq_false h.1, of_decide_eq_false h.2⟩
      exact ⟨h1, h2, h3, h4, h5, ha.1, h7, h8, h9, h10, h11, h12, h13, h14, h15, h16, h17, h18, h19,
        h20, h21, h22, h23, h24, h25⟩
    | _ =>
      exact ⟨h1, h2, h3, h4, h5, h6, h7, h8, h9, h10, h11, h12, h13, h14, h15, h16, h17, h18, h19,
        h20, h21, h22, h23, h24, h25⟩
  · exact H

/-- **C112**, memory: whatever doubles parameters are set to, in any order and number, histories of
calls have no undefined behaviour.  (They may not return, see `C112_endless_refuted`.) -/
theorem C112_safe_partial {W : B → Prop} (H : Sane par kit W) (cs : List (DSet f)) (r : R)
    {ops : List (Op (Dbl f) X B)} (ho : ∀ op ∈ ops, op.ok (RuleSane (cs.foldl DSet.apply par) W)) :
    run (cs.foldl DSet.apply par) kit r ops ≠ .error .ub ∧
    run (cs.foldl DSet.apply par) kit r ops ≠ .error .uaf := by
  have hs : ∀ (cs : List (DSet f)) (par : Params (Dbl f)), Sane par kit W →
      Sane (cs.foldl DSet.apply par) kit W := by
    intro cs
    induction cs with
    | nil => exact fun _ H => H
    | cons c cs ih => exact fun par H => ih _ (H.set c)
  exact C109_no_undefined_behaviour (hs cs par H) r ho

/-- **C112** (refuted), `beta`: after the first training sample the training error is lost for ever. -/
theorem C112_beta_refuted (hb : par.beta = .nan) {r : R} {x : X} {y : List (Dbl f)}
    {before after : List (Op (Dbl f) X B)} {s : St (Dbl f) X B R}
    (h : run par kit r (before ++ .fit x y :: after) = .ok s) : s.error = .nan := by
  unfold run at h
  cases h0 : xcsfInit par kit r with
  | error _ => rw [h0] at h; cases h
  | ok s0 =>
    rw [h0] at h
    simp only [bind, Except.bind] at h
    rw [List.foldlM_append] at h
    cases h1 : before.foldlM (step par kit) s0 with
    | error _ => rw [h1] at h; cases h
    | ok s1 =>
      rw [h1] at h
      simp only [bind, Except.bind, List.foldlM_cons] at h
      cases h2 : fitStep par kit x y s1 with
      | error _ => simp only [step, h2, bind, Except.bind] at h; cases h
      | ok q =>
        obtain ⟨e, s2⟩ := q
        simp only [step, h2, bind, Except.bind] at h
        refine steps_nan ?_ h
        obtain ⟨-, e2, -⟩ := C66_fit h2
        rw [e2]
        show s1.error + (e - s1.error) * par.beta = .nan
        rw [hb, mul_nan, add_nan]

theorem tournamentPass_nan (hz : par.eaSelectSize = .nan) :
    ∀ (l : List (Nat × Dbl f)) (r : R), (tournamentPass par kit l none r).1 = none
  | [], _ => rfl
  | (i, g) :: l, r => by
    unfold tournamentPass
    have hn : ¬ (uniform kit 0 1 r).1 < par.eaSelectSize := by
      rw [hz]
      cases (uniform kit 0 1 r).1 <;> exact id
    simp only [Option.all_none, Bool.and_true]
    rw [if_neg (by simpa using hn)]
    exact tournamentPass_nan hz l _

/-- **C112** (refuted), size of tournaments: nobody ever takes part, whatever the number of passes, and
the evolutionary algorithm does not return once it is due. -/
theorem C112_endless_refuted (ht : par.eaTournament = true) (hz : par.eaSelectSize = .nan) :
    (∀ (l : List (Nat × Dbl f)) (N : Nat) (r : R), selectTournament par kit l N r = .error .hang) ∧
    (∀ (t : CSet) (s : St (Dbl f) X B R) cs, s.rds t.list = .ok cs →
      eaDue par t cs (s.time + 1) = true → ∀ s', ea par kit t s ≠ .ok s') := by
  have hsel : ∀ (l : List (Nat × Dbl f)) (N : Nat) (r : R),
      selectTournament par kit l N r = .error .hang := by
    intro l N
    induction N with
    | zero => intro r; rfl
    | succ N ih =>
      intro r
      unfold selectTournament
      have := tournamentPass_nan (par := par) (kit := kit) hz l r
      split
      · next i g r' e => rw [e] at this; cases this
      · exact ih _
  refine ⟨hsel, fun t s cs hcs hdue s' h => ?_⟩
  have hes : ∀ (l : List Nat) (s : St (Dbl f) X B R) q, eaSelect par kit l s ≠ .ok q := by
    intro l s q h
    unfold eaSelect at h
    cases e : s.rds l with
    | error f => rw [e] at h; cases h
    | ok ds =>
      rw [e] at h
      have h : (if par.eaTournament = true then
          (selectTournament par kit (l.zip (ds.map Cl.fit)) par.loopBound s.rng >>= fun p =>
            selectTournament par kit (l.zip (ds.map Cl.fit)) par.loopBound p.2 >>= fun q =>
            Except.ok (p.1, q.1, q.2)) else _) = _ := h
      rw [if_pos ht, hsel] at h
      cases h
  unfold ea at h
  have hcs' : ({ s with time := s.time + 1 } : St (Dbl f) X B R).rds t.list = .ok cs := hcs
  have h : (({ s with time := s.time + 1 } : St (Dbl f) X B R).rds t.list >>= fun cs =>
    if eaDue par t cs (s.time + 1) then
      eaBreed par kit t { s with time := s.time + 1 } >>= fun s => enforce par kit s
    else .ok { s with time := s.time + 1 }) = .ok s' := h
  rw [hcs'] at h
  have h : (if eaDue par t cs (s.time + 1) then
      eaBreed par kit t { s with time := s.time + 1 } >>= fun s => enforce par kit s
    else .ok { s with time := s.time + 1 }) = .ok s' := h
  rw [if_pos hdue] at h
  cases e : eaBreed par kit t { s with time := s.time + 1 } with
  | error f => rw [e] at h; cases h
  | ok s1 =>
    unfold eaBreed at e
    cases e2 : setTimes ({ s with time := s.time + 1 } : St (Dbl f) X B R).time t.list
        { s with time := s.time + 1 } with
    | error f => rw [e2] at e; cases e
    | ok s2 =>
      rw [e2] at e
      have e : (eaSelect par kit t.list s2 >>= fun p =>
        eaLoop par kit t.list p.1 p.2.1 par.eaLambda.toNat 0 { s2 with rng := p.2.2 }) = .ok s1 := e
      cases e3 : eaSelect par kit t.list s2 with
      | error f => rw [e3] at e; cases e
      | ok q => exact hes _ _ _ e3

/-- **C112** (refuted), `theta`: the evolutionary algorithm runs on every set that is not empty, in
every trial, however recently it ran there. -/
theorem C112_theta_refuted (hz : par.eaTheta = .nan) {t : CSet} (ht : t.size ≠ 0)
    (cs : List (Cl (Dbl f) B)) (time : Int) : eaDue par t cs time = true := by
  have hn : ¬ ((time : Dbl f) - meanTime cs t.num) < par.eaTheta := by
    rw [hz]
    cases ((time : Dbl f) - meanTime cs t.num) <;> exact id
  unfold eaDue
  simp [ht, hn]

/-- With an infinite `theta`, which is in the documented range, it runs only if time itself is lost. -/
theorem C112_theta_infinite (hz : par.eaTheta = .inf false) {t : CSet} {cs : List (Cl (Dbl f) B)}
    {time : Int} {q : ℚ} {h : f.rep q} (hf : (time : Dbl f) - meanTime cs t.num = .fin q h) :
    eaDue par t cs time = false := by
  have hn : ((time : Dbl f) - meanTime cs t.num) < par.eaTheta := by
    rw [hz, hf]
    exact rfl
  unfold eaDue
  simp [hn]

/-- **C112** (refuted), `e0`: every rule counts as fully accurate, whatever its error, and still none may
subsume others. -/
theorem C112_e0_refuted (hz : par.e0 = .nan) (err : Dbl f) (c : Cl (Dbl f) B) :
    clAcc par kit err = 1 ∧ subsumer par c = false := by
  constructor
  · unfold clAcc
    rw [if_neg (by rw [hz]; exact id)]
  · have hn : ¬ c.err < par.e0 := by
      rw [hz]
      cases c.err <;> exact id
    unfold subsumer
    simp [hn]

/-- **C112** (refuted), `p_explore`: actions are never explored, as if the probability were zero: the best
action is chosen in every case, with one random number less left. -/
theorem C112_explore_refuted (hz : par.pExplore = .nan) {s s' : St (Dbl f) X B R} {a : Int}
    (h : chooseAction par kit s = .ok (a, s')) :
    ∃ r, (paBestAction par kit s.pa r).map Prod.fst = .ok a := by
  have hb : ∀ (s1 : St (Dbl f) X B R), (do
      let (a, r) ← paBestAction par kit s1.pa s1.rng
      .ok (a, { s1 with rng := r }) : Res (Int × St (Dbl f) X B R)) = .ok (a, s') →
      (paBestAction par kit s1.pa s1.rng).map Prod.fst = .ok a := by
    intro s1 h
    cases e : paBestAction par kit s1.pa s1.rng with
    | error _ => rw [e] at h; cases h
    | ok q =>
      rw [e] at h
      cases h
      rfl
  have hn : ∀ u : Dbl f, ¬ u < par.pExplore := by
    intro u
    rw [hz]
    cases u <;> exact id
  unfold chooseAction at h
  split at h
  · simp only at h
    rw [if_neg (hn _)] at h
    exact ⟨_, hb { s with rng := (uniform kit 0 1 s.rng).2 } h⟩
  · exact ⟨_, hb _ h⟩

/-- **C112** (refuted), `gamma`: the rules of every earlier action learn a payoff that is not a number,
whatever its reward and what follows. -/
theorem C112_gamma_refuted (hz : par.gamma = .nan) (hp : 0 ≤ par.popSize) {S s s' : St (Dbl f) X B R}
    (h : RlInv (fun _ => True) par S s) (hn : s.prevAset.list ≠ [])
    (hu : rlUpdatePrev par kit s = .ok s') :
    ∃ px s1, s.prevState = some px ∧
      Credited par kit (alive s s.prevAset.list) px .nan false s s1 := by
  rcases rlUpdatePrev_credit hp h hu with ⟨e, -⟩ | ⟨px, bv, s1, -, h1, -, h2, -⟩
  · exact absurd e hn
  · rw [hz, nan_mul, add_nan] at h2
    exact ⟨px, s1, h1, h2⟩

/-! ## The hypotheses hold -/

example : (DSet.gamma (half wide)).accepted = true ∧ (DSet.gamma (.inf false) : DSet wide).accepted = false ∧
    (DSet.theta (.inf false) : DSet wide).accepted = true := by decide +kernel

example : (DSet.beta .nan : DSet wide).apply (constPar wide) = { constPar wide with beta := .nan } :=
  (C112_nan_refuted _ rfl).2

example (s : St (Dbl wide) Nat (Nat × Nat) Nat)
    (h : run { constPar wide with beta := .nan } (constKit wide) 0 ([] ++ .fit 1 [1] :: [.fit 2 [1]]) =
      .ok s) : s.error = .nan := C112_beta_refuted rfl h

example : Res.test (run { constPar wide with beta := .nan } (constKit wide) 0 [.fit 1 [1], .fit 2 [1]])
    (fun s => s.error == .nan) = true := by decide +kernel

/-- Whether a call does not return. -/
def stuck {α : Type} : Res α → Bool
  | .error .hang => true
  | _ => false

theorem stuck_iff {α : Type} : ∀ {m : Res α}, stuck m = true → m = .error .hang
  | .error .hang, _ => rfl
  | .error .ub, h => nomatch h
  | .error .uaf, h => nomatch h
  | .error .exit, h => nomatch h
  | .ok _, h => nomatch h

/-- **C112** (refuted): a system that accepts a size of tournaments and then does not come back from
training. -/
theorem C112_history_refuted : ∃ c : DSet wide, c.accepted = true ∧
    run (c.apply { demoPar wide with eaTournament := true }) (demoKit wide) 0
      [.fit 1 [1], .fit 1 [1]] = .error .hang := by
  refine ⟨.selectSize .nan, by decide +kernel, ?_⟩
  exact stuck_iff (by decide +kernel)

example : run ([DSet.beta .nan, .theta (.inf false), .initFitness .nan, .alpha (.inf true)].foldl
    DSet.apply (demoPar binary64)) (demoKit binary64) 0 [.fit 1 [.nan], .fit 2 [1]] ≠ .error .ub :=
  (C112_safe_partial (demoSane binary64) _ 0 (by intro op h; fin_cases h <;> trivial)).1

end Xcsf.Double
