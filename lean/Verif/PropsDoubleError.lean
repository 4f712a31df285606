import Verif.PropsBadSample

/-!
# C109, continued: losses and errors

Over doubles, with rounding, infinities and values that are not a number: no loss, no training error
and no error of a rule is ever negative.
-/

set_option linter.unusedSectionVars false

namespace Xcsf.Double

open Demo

variable {f : Format} {X B R : Type} {par : Params (Dbl f)} {kit : Kit (Dbl f) X B R} {W : B → Prop}

theorem fabs_nonneg (a : Dbl f) : a.fabs.Nonneg := by
  cases a with
  | nan => exact trivial
  | inf _ => exact rfl
  | fin q h => exact abs_nonneg q

theorem square_nonneg (a : Dbl f) : (a * a).Nonneg := by
  cases a with
  | nan => exact trivial
  | inf s => cases s <;> exact rfl
  | fin q h => exact round_nonneg (mul_self_nonneg q)

theorem times_comm (a b : Dbl f) : a * b = b * a := by
  cases a with
  | nan => rw [nan_mul, mul_nan]
  | inf s =>
    cases b with
    | nan => rfl
    | inf t =>
      show Dbl.inf (s != t) = Dbl.inf (t != s)
      cases s <;> cases t <;> rfl
    | fin q h => rfl
  | fin p hp =>
    cases b with
    | nan => rfl
    | inf t => rfl
    | fin q h =>
      show Dbl.round f (p * q) = Dbl.round f (q * p)
      rw [mul_comm]

theorem less_nonneg {a b : Dbl f} (h : b < a) : (a - b).Nonneg := by
  cases a with
  | nan => exact trivial
  | inf s =>
    cases b with
    | nan => exact trivial
    | inf t =>
      cases s with
      | true => exact absurd h.2 nofun
      | false => cases t <;> first | exact trivial | rfl
    | fin q hq =>
      have : s = false := h
      subst this
      rfl
  | fin p hp =>
    cases b with
    | nan => exact trivial
    | inf t =>
      have : t = true := h
      subst this
      rfl
    | fin q hq =>
      have h : q < p := h
      exact round_nonneg (by linarith)

theorem huberOne_nonneg {c : ℚ} {hc : f.rep c} (c0 : 0 ≤ c) {delta : Dbl f} (hd : ¬ delta < 0)
    (a : Dbl f) : (huberOne (.fin c hc) delta a).Nonneg := by
  have hd := (nonneg_iff _).2 hd
  have hh : (.fin c hc : Dbl f).Nonneg := c0
  unfold huberOne
  split
  · next h =>
    exact add_nonneg' (mul_nonneg' (mul_nonneg' hh hd) hd) (mul_nonneg' hd (less_nonneg h))
  · cases a with
    | nan => exact trivial
    | inf s =>
      by_cases h0 : c = 0
      · subst h0
        have : (.fin 0 hc : Dbl f) * .inf s = .nan := by
          show Dbl.scaled s 0 = .nan
          simp [Dbl.scaled]
        rw [this]
        exact trivial
      · have : (.fin c hc : Dbl f) * .inf s = .inf s := by
          have hp : 0 < c := lt_of_le_of_ne c0 (Ne.symm h0)
          show Dbl.scaled s c = .inf s
          cases s <;> simp [Dbl.scaled, Dbl.sign, h0, hp, hp.le]
        rw [this]
        cases s <;> exact rfl
    | fin q hq =>
      rcases le_total 0 q with h | h
      · exact mul_nonneg' (mul_nonneg' hh h) h
      · have e : ∀ x : Dbl f, x * .fin q hq = (x.minus) * .fin (-q) (f.neg q hq) := by
          intro x
          cases x with
          | nan => rfl
          | inf s =>
            show Dbl.scaled s q = Dbl.scaled (!s) (-q)
            cases s <;> simp [Dbl.scaled, Dbl.sign]
          | fin p hp =>
            show Dbl.round f (p * q) = Dbl.round f (-p * -q)
            rw [neg_mul_neg]
        rw [e]
        have h' : 0 ≤ -q := by linarith
        refine mul_nonneg' ?_ h'
        show (Dbl.round f (c * q)).minus.Nonneg
        have hcq : c * q ≤ 0 := mul_nonpos_of_nonneg_of_nonpos c0 h
        unfold Dbl.round
        split
        · show 0 ≤ - f.rnd (c * q)
          have := f.mono _ _ hcq
          rw [rnd_zero] at this
          linarith
        · next hb =>
          show (!decide (c * q < 0)) = false
          have : c * q ≠ 0 := by
            intro e
            rw [e, abs_zero] at hb
            exact hb huge_pos
          simp [lt_of_le_of_ne hcq this]

/-- **C109**, losses: the mean absolute error, the mean squared error and the Huber loss (with a `delta`
that is accepted by its setter) are not negative, whatever was predicted and whatever is true. -/
theorem C109_losses_not_negative (n : Nat) (pred y : List (Dbl f)) :
    ¬ maeLoss n pred y < 0 ∧ ¬ mseLoss n pred y < 0 ∧
    ∀ delta, ¬ delta < 0 → ¬ huberLoss (half f) delta n pred y < 0 := by
  have hn : (((n : Nat) : Int) : Dbl f).Nonneg := int_nonneg (by omega)
  refine ⟨?_, ?_, fun delta hd => ?_⟩
  · exact (nonneg_iff _).1 (div_nonneg' (foldl_nonneg
      (g := fun i => (y.getD i 0 - pred.getD i 0).fabs) _ _ zero_nonneg fun i _ => fabs_nonneg _) hn)
  · exact (nonneg_iff _).1 (div_nonneg' (foldl_nonneg
      (g := fun i => (y.getD i 0 - pred.getD i 0) * (y.getD i 0 - pred.getD i 0)) _ _ zero_nonneg
      fun i _ => square_nonneg _) hn)
  · exact (nonneg_iff _).1 (div_nonneg' (foldl_nonneg
      (g := fun i => huberOne (half f) delta (y.getD i 0 - pred.getD i 0)) _ _ zero_nonneg
      fun i _ => huberOne_nonneg (by norm_num) hd _) hn)

theorem ema_nonneg (hb : ¬ par.beta < 0 ∧ ¬ 1 < par.beta) : ∀ (ls : List (Dbl f)) (e : Dbl f),
    e.Nonneg → (∀ l ∈ ls, l.Nonneg) → (ema par.beta e ls).Nonneg
  | [], _, h, _ => h
  | l :: ls, e, h, hl => by
    refine ema_nonneg hb ls _ ?_ fun v hv => hl v (List.mem_cons_of_mem _ hv)
    show (e + (l - e) * par.beta).Nonneg
    rw [times_comm]
    exact mix_nonneg hb h (hl l List.mem_cons_self)

/-- **C109**, the training error: if losses and its initial value are not negative, neither is the
training error after any history of single calls. -/
theorem C109_training_error_not_negative (hb : ¬ par.beta < 0 ∧ ¬ 1 < par.beta) (he : ¬ par.e0 < 0)
    (hl : ∀ p y, ¬ kit.loss p y < 0) {r : R} {ops : List (Op (Dbl f) X B)}
    (ho : ∀ o ∈ ops, o.single = true) {s : St (Dbl f) X B R} (h : run par kit r ops = .ok s) :
    ¬ s.error < 0 := by
  obtain ⟨-, ls, -, hls, e⟩ := C66_history ho h
  rw [e]
  refine (nonneg_iff _).1 (ema_nonneg hb ls _ ((nonneg_iff _).2 he) fun l hm => ?_)
  obtain ⟨p, y, rfl⟩ := hls l hm
  exact (nonneg_iff _).2 (hl p y)

theorem update_err (H : Sane par kit W) (hl : ∀ p y, ¬ kit.loss p y < 0) (e : Bool) (x : X)
    (y : List (Dbl f)) (n : Int) (cur : Bool) (r : R) {c : Cl (Dbl f) B} (hx : 0 ≤ c.exp)
    (hc : ¬ c.err < 0) : ¬ (clUpdate par kit e c x y n cur r).1.err < 0 := by
  have hz := (nonneg_iff _).2 hc
  have hx' : ((c.exp + 1 : Int) : Dbl f).Nonneg := int_nonneg (by omega)
  have s1 : ∀ v : Dbl f, ¬ v < 0 → ¬ (c.err * (((c.exp + 1 : Int) : Dbl f) - 1) + v) /
      ((c.exp + 1 : Int) : Dbl f) < 0 := fun v hv =>
    (nonneg_iff _).1 (div_nonneg' (add_nonneg' (mul_nonneg' hz (pred_nonneg hx))
      ((nonneg_iff _).2 hv)) hx')
  have s2 : ∀ v : Dbl f, ¬ v < 0 → ¬ c.err + par.beta * (v - c.err) < 0 := fun v hv =>
    (nonneg_iff _).1 (mix_nonneg H.beta hz ((nonneg_iff _).2 hv))
  unfold clUpdate
  cases cur with
  | true =>
    simp only [if_true]
    split
    · exact s1 _ (hl _ _)
    · exact s2 _ (hl _ _)
  | false =>
    simp only [Bool.false_eq_true, if_false]
    split
    · exact s1 _ (hl _ _)
    · exact s2 _ (hl _ _)

/-- The laws of the life cycle for rules whose error is not negative. -/
theorem lawsError (H : Sane par kit W) (hi : ¬ par.initErr < 0) (hr : ¬ par.eaErrReduc < 0)
    (hl : ∀ p y, ¬ kit.loss p y < 0) :
    Laws par kit (fun c => RuleSane par W c ∧ ¬ c.err < 0) NoUB :=
  have L := lawsDouble H
  { pop := L.pop
    num := fun c n h => ⟨L.num c n h.1, h.2⟩
    time := fun c n h => ⟨L.time c n h.1, h.2⟩
    cmatch := fun c e x r mt h => ⟨L.cmatch c e x r mt h.1, h.2⟩
    act := fun c e x r h => ⟨L.act c e x r h.1, h.2⟩
    predict := fun c e x r h => ⟨L.predict c e x r h.1, h.2⟩
    update := fun c e x y n cur r h hn => ⟨L.update c e x y n cur r h.1 hn,
      update_err H hl e x y n cur r h.1.exp h.2⟩
    fit := fun cs hcs c hc => ⟨L.fit cs (fun c hc => ⟨(hcs c hc).1.1, (hcs c hc).2⟩) c hc,
      (hcs c hc).1.2⟩
    coverErr := L.coverErr
    cover := fun g r x a b r' t n ha hn h => ⟨L.cover g r x a b r' t n ha hn h, hi⟩
    rand := fun r => ⟨L.rand r, hi⟩
    offspring := by
      intro p1 p2 r h1 h2 n1 n2 b1 b2 x
      have e1 := (nonneg_iff _).2 h1.2
      have e2 := (nonneg_iff _).2 h2.2
      have er := (nonneg_iff _).2 hr
      have key : ∀ c1 c2 m, ¬ (initOffspring par p1 p2 c1 c2 m).1.err < 0 ∧
          ¬ (initOffspring par p1 p2 c1 c2 m).2.err < 0 := by
        intro c1 c2 m
        unfold initOffspring
        cases m with
        | true =>
          have hs := (nonneg_iff _).1 (mul_nonneg' er (mul_nonneg' (add_nonneg' e1 e2) half_nonneg))
          exact ⟨hs, hs⟩
        | false => exact ⟨(nonneg_iff _).1 (mul_nonneg' er e1), (nonneg_iff _).1 (mul_nonneg' er e2)⟩
      refine post_mono (L.offspring p1 p2 r h1.1 h2.1 n1 n2) fun m1 q1 => post_mono q1 fun m2 q2 => ?_
      exact ⟨⟨q2.1, (key _ _ _).1⟩, ⟨q2.2, (key _ _ _).2⟩⟩
    clone := fun c r h => ⟨L.clone c r h.1, h.2⟩
    wheelDel := fun cs hne hcs => L.wheelDel cs hne fun c hc => ⟨(hcs c hc).1.1, (hcs c hc).2⟩
    wheelSel := fun t cs hne ht hcs => L.wheelSel t cs hne ht fun c hc => (hcs c hc).1
    index := L.index
    action := fun c h => L.action c h.1
    predLen := fun c h => L.predLen c h.1
    dims := L.dims
    tournament := L.tournament
    explore := fun cs pa nr hcs => L.explore cs pa nr fun c hc => (hcs c hc).1 }

/-- **C109**, errors of rules: after every history, with rules inserted that meet it, no rule has a
negative error. -/
theorem C109_rule_errors_not_negative (H : Sane par kit W) (hi : ¬ par.initErr < 0)
    (hr : ¬ par.eaErrReduc < 0) (hl : ∀ p y, ¬ kit.loss p y < 0) {r : R} {ops : List (Op (Dbl f) X B)}
    (hv : ∀ op ∈ ops, op.ok (fun c => RuleSane par W c ∧ ¬ c.err < 0)) {s : St (Dbl f) X B R}
    (h : run par kit r ops = .ok s) {c : Cl (Dbl f) B}
    (hc : c ∈ population s ∨ c ∈ storedPopulation s) : ¬ c.err < 0 := by
  have b := (post_of_ok (run_post (lawsError H hi hr hl) r ops hv) h).good.vals
  have hh : ∃ i, s.heap i = some c := by
    rcases hc with hc | hc
    · obtain ⟨i, _, hi⟩ := List.mem_filterMap.1 hc
      exact ⟨i, hi⟩
    · obtain ⟨i, _, hi⟩ := List.mem_filterMap.1 hc
      exact ⟨i, hi⟩
  obtain ⟨i, hi⟩ := hh
  exact (b i c hi).2

/-! ## The hypotheses hold -/

/-- A system over doubles that learns with the mean squared error. -/
def errorKit (f : Format) : Kit (Dbl f) Nat (Nat × Nat) Nat := { demoKit f with loss := mseLoss 1 }

theorem errorSane (f : Format) : Sane (demoPar f) (errorKit f) (fun _ => True) := by
  obtain ⟨h1, h2, h3, h4, h5, h6, h7, h8, h9, h10, h11, h12, h13, h14, h15, h16, h17, h18, h19, h20,
    h21, h22, h23, h24, h25⟩ := demoSane f
  exact ⟨h1, h2, h3, h4, h5, h6, h7, h8, h9, h10, h11, h12, h13, h14, h15, h16, h17, h18, h19, h20,
    h21, h22, h23, h24, h25⟩

example (s : St (Dbl binary64) Nat (Nat × Nat) Nat)
    (h : run (demoPar binary64) (errorKit binary64) 0 [.fit 1 [1], .fit 2 [.inf true]] = .ok s) :
    ¬ s.error < 0 ∧ ∀ c ∈ population s, ¬ c.err < 0 :=
  have hl := fun p y => (C109_losses_not_negative (f := binary64) 1 p y).2.1
  ⟨C109_training_error_not_negative (errorSane binary64).beta ((nonneg_iff _).1 one_nonneg) hl
      (by intro o ho; fin_cases ho <;> rfl) h,
    fun _ hc => C109_rule_errors_not_negative (errorSane binary64) ((nonneg_iff _).1 zero_nonneg)
      ((nonneg_iff _).1 one_nonneg) hl (by intro op ho; fin_cases ho <;> trivial) h (.inl hc)⟩

example : Res.test (run (demoPar wide) (errorKit wide) 0 [.fit 1 [1], .fit 2 [1]])
    (fun s => (population s).length != 0) = true := by decide +kernel

end Xcsf.Double
