import Verif.BadRls
import Verif.Binary64
import Verif.PropsBadOverflow

/-!
# C110, continued: predictions of recursive least squares

A missing input loses all weights and the gain matrix for ever; a missing target loses the weights of its
output for ever.  With a forgetting factor below one the same happens without any bad sample, to inputs
that stay zero.
-/

set_option linter.unusedSectionVars false

namespace Xcsf.Double

variable {f : Format}

/-! ## Specification -/

/-- All weights and the whole gain matrix are not a number. -/
def DRls.Lost (s : DRls f) : Prop :=
  (∀ o i, i < s.n → s.ws o i = .nan) ∧ ∀ i j, i < s.n → j < s.n → s.mat i j = .nan

/-! ## Lemmas -/

theorem sumD_hit {n k : Nat} {g : Nat → Dbl f} (hk : k < n) (hg : g k = .nan) (s : Dbl f) :
    sumD n g s = .nan := foldl_hit g hg _ _ (List.mem_range.2 hk)

theorem sumD_start (n : Nat) (g : Nat → Dbl f) : sumD n g .nan = .nan := sum_nan g _

theorem scalD_nan (a : Dbl f) : scalD .nan a = .nan := by
  unfold scalD
  rw [if_neg nofun, mul_nan]

/-- If one entry of the product of matrix and features is lost, everything is. -/
theorem lost_of_product {s : DRls f} {lambda : Dbl f} {t : Nat → Dbl f} (y : Nat → Dbl f) {k : Nat}
    (hk : k < s.n) (h : s.product t k = .nan) : (s.learn lambda t y).Lost := by
  have hg : ∀ i, s.gain lambda t i = .nan := by
    intro i
    unfold DRls.gain
    rw [sumD_hit hk (by rw [h, mul_nan]), nan_add, div_nan, scalD_nan]
  have hr : ∀ i j, s.rest lambda t i j = .nan := by
    intro i j
    unfold DRls.rest
    rw [hg, nan_mul, sub_nan]
    split <;> rfl
  refine ⟨fun o i _ => ?_, fun i j _ _ => ?_⟩
  · show (if _ then s.ws o i + _ * s.gain lambda t i else s.ws o i + s.gain lambda t i) = _
    rw [hg, mul_nan, add_nan, ite_self]
  · show sumD s.n _ _ / lambda = _
    rw [sumD_hit hk (by rw [hr, nan_mul]), nan_div]

/-! ## Bad samples -/

/-- **C110** (refuted), recursive least squares: a sample with a missing input makes all weights of all
outputs and the whole gain matrix not-a-number. -/
theorem C110_rls_lost (s : DRls f) (lambda : Dbl f) {t : Nat → Dbl f} (y : Nat → Dbl f) {k : Nat}
    (hk : k < s.n) (h : t k = .nan) : (s.learn lambda t y).Lost :=
  lost_of_product y hk (sumD_hit hk (by rw [h, mul_nan]) _)

/-- **C110** (refuted): they remain so whatever is learned later, and all predictions are not a number. -/
theorem C110_rls_stays_lost (lambda : Dbl f) : ∀ (l : List ((Nat → Dbl f) × (Nat → Dbl f))) {s : DRls f},
    0 < s.n → s.Lost → (s.train lambda l).Lost ∧ ∀ t o, (s.train lambda l).predict t o = .nan
  | [], s, h0, h => ⟨h, fun t o => sumD_hit h0 (by
      show s.ws o 0 * t 0 = _
      rw [h.1 o 0 h0, nan_mul]) _⟩
  | p :: l, s, h0, h => by
    have h1 : (s.learn lambda p.1 p.2).Lost :=
      lost_of_product p.2 h0 (sumD_hit h0 (by rw [h.2 0 0 h0 h0, nan_mul]) _)
    exact C110_rls_stays_lost lambda l (s := s.learn lambda p.1 p.2) h0 h1

/-- **C110** (refuted): a missing target makes all weights of its output not-a-number ... -/
theorem C110_rls_target_lost (s : DRls f) (lambda : Dbl f) (t : Nat → Dbl f) {y : Nat → Dbl f} {o : Nat}
    (h : y o = .nan) (i : Nat) : (s.learn lambda t y).ws o i = .nan := by
  show (if _ then s.ws o i + (y o - _) * s.gain lambda t i else _) = _
  rw [h, nan_sub, if_pos nofun, nan_mul, add_nan]

/-- ... and they remain so, in the rule and in copies of it, whatever is learned later. -/
theorem C110_rls_output_stays_lost (lambda : Dbl f) (o : Nat) :
    ∀ (l : List ((Nat → Dbl f) × (Nat → Dbl f))) {s : DRls f},
    (∃ i, i < s.n ∧ s.ws o i = .nan) → ∃ i, i < s.n ∧ (s.train lambda l).ws o i = .nan ∧
      ∀ x0 scale, ((s.train lambda l).copy x0 scale).ws o i = .nan
  | [], _, ⟨i, hi, h⟩ => ⟨i, hi, h, fun _ _ => h⟩
  | p :: l, s, ⟨i, hi, h⟩ => by
    refine C110_rls_output_stays_lost lambda o l (s := s.learn lambda p.1 p.2) ⟨i, hi, ?_⟩
    have hp : s.predict p.1 o = .nan := sumD_hit hi (by rw [h, nan_mul]) _
    show (if _ then s.ws o i + (p.2 o - s.predict p.1 o) * s.gain lambda p.1 i else _) = _
    rw [hp, sub_nan, if_pos nofun, nan_mul, add_nan]

/-- **C110** (part that holds): a missing target does not touch the other outputs, nor the gain matrix:
they are what they would be with any other value in its place. -/
theorem C110_rls_target_partial (s : DRls f) (lambda : Dbl f) (t : Nat → Dbl f) {y y' : Nat → Dbl f}
    {o : Nat} (h : ∀ o', o' ≠ o → y o' = y' o') :
    (∀ o', o' ≠ o → (s.learn lambda t y).ws o' = (s.learn lambda t y').ws o') ∧
    (s.learn lambda t y).mat = (s.learn lambda t y').mat := by
  refine ⟨fun o' ho => ?_, rfl⟩
  funext i
  show (if y o' - _ ≠ 1 then _ + (y o' - _) * _ else _) = _
  rw [h o' ho]
  rfl

/-! ## Inputs that stay zero -/

theorem plus_zero (a : Dbl f) : a + 0 = a := by
  cases a with
  | nan => rfl
  | inf a => rfl
  | fin q h =>
    show Dbl.round f (q + 0) = _
    rw [add_zero, round_rep h]

theorem times_zero {q : ℚ} (h : f.rep q) : (.fin q h : Dbl f) * 0 = 0 := by
  show Dbl.round f (q * 0) = _
  rw [mul_zero, round_rep (by simpa using f.rep_int 0 (by norm_num))]
  rfl

theorem zero_times {q : ℚ} (h : f.rep q) : 0 * (.fin q h : Dbl f) = 0 := by
  show Dbl.round f (0 * q) = _
  rw [zero_mul, round_rep (by simpa using f.rep_int 0 (by norm_num))]
  rfl

theorem times_one {q : ℚ} (h : f.rep q) : (.fin q h : Dbl f) * 1 = .fin q h := by
  show Dbl.round f (q * 1) = _
  rw [mul_one, round_rep h]

theorem one_times {q : ℚ} (h : f.rep q) : 1 * (.fin q h : Dbl f) = .fin q h := by
  show Dbl.round f (1 * q) = _
  rw [one_mul, round_rep h]

theorem rep_half (f : Format) : f.rep (1 / 2) := by
  have := f.dyadic 1 (by norm_num) 1 (by norm_num)
  simpa using this

theorem rep_quarter (f : Format) : f.rep (1 / 4) := by
  have := f.dyadic 1 (by norm_num) 2 (by norm_num)
  have e : ((1 : Int) : ℚ) / 2 ^ 2 = 1 / 4 := by norm_num
  rwa [e] at this

/-- One half. -/
def hlf (f : Format) : Dbl f := .fin (1 / 2) (rep_half f)

theorem hlf_zero : hlf f * 0 = 0 := times_zero _
theorem hlf_one : hlf f * 1 = hlf f := times_one _
theorem one_hlf : 1 * hlf f = hlf f := one_times _
theorem zero_hlf : 0 * hlf f = 0 := zero_times _
theorem o_o : (0 : Dbl f) * 0 = 0 := times_zero _
theorem o_i : (0 : Dbl f) * 1 = 0 := times_one _
theorem i_o : (1 : Dbl f) * 0 = 0 := times_zero _

theorem hlf_add : hlf f + hlf f = 1 := by
  show Dbl.round f (1 / 2 + 1 / 2) = _
  rw [show (1 / 2 + 1 / 2 : ℚ) = 1 by norm_num, round_rep (by simpa using f.rep_int 1 (by norm_num))]
  rfl

theorem one_sub_hlf : 1 - hlf f = hlf f := by
  show Dbl.round f (1 + -(1 / 2)) = _
  rw [show (1 + -(1 / 2) : ℚ) = 1 / 2 by norm_num, round_rep (rep_half f)]
  rfl

theorem hlf_sq : hlf f * hlf f = .fin (1 / 4) (rep_quarter f) := by
  show Dbl.round f (1 / 2 * (1 / 2)) = _
  rw [show (1 / 2 * (1 / 2) : ℚ) = 1 / 4 by norm_num, round_rep (rep_quarter f)]

theorem quarter_div : (.fin (1 / 4) (rep_quarter f) : Dbl f) / hlf f = hlf f := by
  show (if (1 / 2 : ℚ) = 0 then _ else Dbl.round f (1 / 4 / (1 / 2))) = _
  rw [if_neg (by norm_num), show (1 / 4 / (1 / 2) : ℚ) = 1 / 2 by norm_num, round_rep (rep_half f)]
  rfl

theorem fin_div_hlf {q : ℚ} (h : f.rep q) : (.fin q h : Dbl f) / hlf f = Dbl.round f (2 * q) := by
  show (if (1 / 2 : ℚ) = 0 then _ else Dbl.round f (q / (1 / 2))) = _
  rw [if_neg (by norm_num), show (q / (1 / 2) : ℚ) = 2 * q by ring]

theorem zero_div_hlf : (0 : Dbl f) / hlf f = 0 := by
  show (if (1 / 2 : ℚ) = 0 then _ else Dbl.round f (0 / (1 / 2))) = _
  rw [if_neg (by norm_num), zero_div, round_rep (by simpa using f.rep_int 0 (by norm_num))]
  rfl

theorem one_div_one : (1 : Dbl f) / 1 = 1 := by
  have h : f.rep 1 := by simpa using f.rep_int 1 (by norm_num)
  have e : (.fin 1 h : Dbl f) / .fin 1 h = Dbl.round f (1 / 1) := by
    show (if (1 : ℚ) = 0 then (if (1 : ℚ) = 0 then Dbl.nan else .inf (decide ((1 : ℚ) < 0))) else
      Dbl.round f (1 / 1)) = _
    rw [if_neg one_ne_zero]
  rw [div_one, round_rep h] at e
  exact e

theorem minus_o : (0 : Dbl f).minus = 0 := by
  show Dbl.fin (-0) _ = Dbl.fin 0 _
  exact fin_congr _ _ neg_zero

theorem sumD_two (g : Nat → Dbl f) (s : Dbl f) : sumD 2 g s = s + g 0 + g 1 := rfl

/-- One input that has been zero all the time: the entry of the gain matrix for it is `b`. -/
structure Winding (s : DRls f) (b : Dbl f) : Prop where
  n : s.n = 2
  m00 : s.mat 0 0 = hlf f
  m01 : s.mat 0 1 = 0
  m10 : s.mat 1 0 = 0
  m11 : s.mat 1 1 = b
  v0 : s.vec 0 * 0 = 0
  v1 : s.vec 1 * 0 = 0
  s00 : s.scr 0 0 * 0 = 0
  s01 : s.scr 0 1 * 0 = 0
  s10 : s.scr 1 0 * 0 = 0
  s11 : s.scr 1 1 * 0 = 0

theorem Winding.step {s : DRls f} {q : ℚ} {h : f.rep q} (w : Winding s (.fin q h)) {t : Nat → Dbl f}
    (y : Nat → Dbl f) (t0 : t 0 = 1) (t1 : t 1 = 0) :
    Winding (s.learn (hlf f) t y) (Dbl.round f (2 * q)) := by
  have p0 : s.product t 0 = hlf f := by
    unfold DRls.product
    rw [w.n, sumD_two, w.v0, w.m00, w.m01, t0, t1, hlf_one, o_o, zero_plus, plus_zero]
  have p1 : s.product t 1 = 0 := by
    unfold DRls.product
    rw [w.n, sumD_two, w.v1, w.m10, w.m11, t0, t1, o_i, times_zero, zero_plus, plus_zero]
  have d : (1 : Dbl f) / (sumD s.n (fun k => t k * s.product t k) 0 + hlf f) = 1 := by
    rw [w.n, sumD_two, p0, p1, t0, t1, one_hlf, o_o, zero_plus, plus_zero, hlf_add, one_div_one]
  have ne : (1 : Dbl f) ≠ 0 := by
    rw [one_def, zero_def]
    intro e
    injection e with e
    exact one_ne_zero e
  have g0 : s.gain (hlf f) t 0 = hlf f := by
    unfold DRls.gain
    rw [d, p0]
    unfold scalD
    rw [if_neg ne, hlf_one]
  have g1 : s.gain (hlf f) t 1 = 0 := by
    unfold DRls.gain
    rw [d, p1]
    unfold scalD
    rw [if_neg ne, o_i]
  have r00 : s.rest (hlf f) t 0 0 = hlf f := by
    unfold DRls.rest
    rw [if_pos rfl, g0, t0, hlf_one, one_sub_hlf]
  have r01 : s.rest (hlf f) t 0 1 = 0 := by
    unfold DRls.rest
    rw [if_neg (by decide), g0, t1, hlf_zero, minus_o]
  have r10 : s.rest (hlf f) t 1 0 = 0 := by
    unfold DRls.rest
    rw [if_neg (by decide), g1, t0, o_i, minus_o]
  have r11 : s.rest (hlf f) t 1 1 = 1 := by
    unfold DRls.rest
    rw [if_pos rfl, g1, t1, o_o, minus_zero]
  have e00 : (s.learn (hlf f) t y).scr 0 0 = .fin (1 / 4) (rep_quarter f) := by
    show sumD s.n _ _ = _
    rw [w.n, sumD_two, w.s00, r00, r01, w.m00, w.m10, hlf_sq, o_o, zero_plus, plus_zero]
  have e01 : (s.learn (hlf f) t y).scr 0 1 = 0 := by
    show sumD s.n _ _ = _
    rw [w.n, sumD_two, w.s01, r00, r01, w.m01, w.m11, hlf_zero, zero_times, zero_plus, plus_zero]
  have e10 : (s.learn (hlf f) t y).scr 1 0 = 0 := by
    show sumD s.n _ _ = _
    rw [w.n, sumD_two, w.s10, r10, r11, w.m00, w.m10, zero_hlf, i_o, zero_plus, plus_zero]
  have e11 : (s.learn (hlf f) t y).scr 1 1 = .fin q h := by
    show sumD s.n _ _ = _
    rw [w.n, sumD_two, w.s11, r10, r11, w.m01, w.m11, o_o, one_times, zero_plus, zero_plus]
  exact {
    n := w.n
    m00 := by
      show (s.learn (hlf f) t y).scr 0 0 / hlf f = _
      rw [e00, quarter_div]
    m01 := by
      show (s.learn (hlf f) t y).scr 0 1 / hlf f = _
      rw [e01, zero_div_hlf]
    m10 := by
      show (s.learn (hlf f) t y).scr 1 0 / hlf f = _
      rw [e10, zero_div_hlf]
    m11 := by
      show (s.learn (hlf f) t y).scr 1 1 / hlf f = _
      rw [e11, fin_div_hlf]
    v0 := by
      show s.gain (hlf f) t 0 * 0 = 0
      rw [g0, hlf_zero]
    v1 := by
      show s.gain (hlf f) t 1 * 0 = 0
      rw [g1, o_o]
    s00 := by rw [e00, times_zero]
    s01 := by rw [e01, o_o]
    s10 := by rw [e10, o_o]
    s11 := by rw [e11, times_zero] }

/-- When the entry is infinite, the next sample loses everything. -/
theorem Winding.over {s : DRls f} (w : Winding s (.inf false)) (lambda : Dbl f) {t : Nat → Dbl f}
    (y : Nat → Dbl f) (t1 : t 1 = 0) : (s.learn lambda t y).Lost := by
  refine lost_of_product y (k := 1) (by rw [w.n]; decide) ?_
  unfold DRls.product
  rw [w.n]
  refine sumD_hit (k := 1) (by decide) ?_ _
  rw [w.m11, t1]
  show Dbl.scaled false 0 = .nan
  unfold Dbl.scaled
  rw [if_pos rfl]

theorem rep_pow {k : Nat} (hk : k ≤ 1024) : binary64.rep (2 ^ k / 2) := by
  rcases Nat.lt_or_ge k 53 with h | h
  · refine ⟨2 ^ k, -1, ?_, by norm_num, by norm_num, ?_⟩
    · rw [abs_of_nonneg (by positivity)]
      exact pow_lt_pow_right₀ (by norm_num) h
    · push_cast
      rw [zpow_neg_one]
      rfl
  · refine ⟨2 ^ 52, (k : Int) - 53, ?_, by omega, by omega, ?_⟩
    · rw [abs_of_nonneg (by positivity)]
      exact pow_lt_pow_right₀ (by norm_num) (by norm_num)
    · push_cast
      rw [zpow_sub₀ (by norm_num), zpow_natCast, show (2 : ℚ) ^ (53 : Int) = 2 ^ 52 * 2 by norm_num]
      field_simp
      norm_num

theorem pow_over : binary64.huge ≤ 2 * ((2 : ℚ) ^ (1024 : Nat) / 2) := by
  show ((2 : ℚ) ^ 54 - 1) * (2 : ℚ) ^ 970 ≤ _
  have h1 : 2 * ((2 : ℚ) ^ (1024 : Nat) / 2) = 2 ^ 54 * 2 ^ 970 := by
    rw [mul_div_cancel₀ _ (by norm_num : (2 : ℚ) ≠ 0), ← pow_add]
  rw [h1]
  exact mul_le_mul_of_nonneg_right (by norm_num) (pow_nonneg (by norm_num) _)

theorem winds : ∀ (l : List ((Nat → Dbl binary64) × (Nat → Dbl binary64))) {s : DRls binary64} {k : Nat}
    (hk : k ≤ 1024), Winding s (.fin (2 ^ k / 2) (rep_pow hk)) → (∀ p ∈ l, p.1 0 = 1 ∧ p.1 1 = 0) →
    1026 ≤ l.length + k → (s.train (hlf _) l).Lost
  | [], _, k, hk, _, _, hl => by
    simp at hl
    omega
  | p :: l, s, k, hk, w, hp, hl => by
    obtain ⟨t0, t1⟩ := hp p List.mem_cons_self
    have w' := w.step p.2 t0 t1
    have hp' : ∀ q ∈ l, q.1 0 = 1 ∧ q.1 1 = 0 := fun q hq => hp q (List.mem_cons_of_mem _ hq)
    rw [List.length_cons] at hl
    rcases Nat.lt_or_ge k 1024 with h | h
    · have e : Dbl.round binary64 (2 * (2 ^ k / 2)) = .fin (2 ^ (k + 1) / 2) (rep_pow h) := by
        rw [show (2 * (2 ^ k / 2) : ℚ) = 2 ^ (k + 1) / 2 by ring, round_rep (rep_pow h)]
      rw [e] at w'
      exact winds l h w' hp' (by omega)
    · have hk' : k = 1024 := by omega
      subst hk'
      have e : Dbl.round binary64 (2 * (2 ^ 1024 / 2)) = .inf false := by
        unfold Dbl.round
        have h0 : (0 : ℚ) ≤ 2 * ((2 : ℚ) ^ (1024 : Nat) / 2) := by positivity
        rw [dif_neg (by rw [abs_of_nonneg h0]; exact not_lt.2 pow_over), decide_eq_false (not_lt.2 h0)]
      rw [e] at w'
      cases l with
      | nil =>
        simp at hl
      | cons q l =>
        have hq := hp' q List.mem_cons_self
        have w'' := w'.over (hlf _) q.2 hq.2
        have hn : 0 < ((s.learn (hlf _) p.1 p.2).learn (hlf _) q.1 q.2).n := by
          show 0 < s.n
          rw [w.n]
          decide
        exact (C110_rls_stays_lost (hlf _) l hn w'').1

/-- **C110** (refuted without any bad sample): with a forgetting factor of one half, bias one and a first
gain of one half, an input that is zero for 1026 samples loses all weights of the rule, whatever the
targets were and whatever comes later. -/
theorem C110_rls_windup_refuted (l : List ((Nat → Dbl binary64) × (Nat → Dbl binary64)))
    (hl : 1026 ≤ l.length) (hp : ∀ p ∈ l, p.1 0 = 1 ∧ p.1 1 = 0)
    (later : List ((Nat → Dbl binary64) × (Nat → Dbl binary64))) :
    (((rlsStart 2 1 (hlf binary64)).train (hlf _) l).train (hlf _) later).Lost ∧
    ∀ t o, (((rlsStart 2 1 (hlf binary64)).train (hlf _) l).train (hlf _) later).predict t o = .nan := by
  have w : Winding (rlsStart 2 1 (hlf binary64)) (.fin (2 ^ 0 / 2) (rep_pow (by decide))) :=
    { n := rfl, m00 := rfl, m01 := rfl, m10 := rfl
      m11 := fin_congr _ _ (by norm_num)
      v0 := o_o, v1 := o_o, s00 := o_o, s01 := o_o, s10 := o_o, s11 := o_o }
  have h := winds l (by decide) w hp (by omega)
  have hn : ∀ (l : List ((Nat → Dbl binary64) × (Nat → Dbl binary64))) (s : DRls binary64),
      (s.train (hlf _) l).n = s.n := by
    intro l
    induction l with
    | nil => exact fun _ => rfl
    | cons p l ih => exact fun s => ih _
  exact C110_rls_stays_lost (hlf _) later (by rw [hn]; decide) h

/-! ## Concrete cases -/

/-- A sample with bias one and the input zero. -/
example : ∀ p ∈ List.replicate 1026 ((fun i => if i = 0 then 1 else 0 : Nat → Dbl binary64),
    (fun _ => 1 : Nat → Dbl binary64)), p.1 0 = 1 ∧ p.1 1 = 0 := by
  intro p hp
  rw [List.eq_of_mem_replicate hp]
  exact ⟨rfl, rfl⟩

/-- A good sample is learned: the prediction for the input zero was one and moves halfway to zero. -/
example : (((rlsStart 2 1 (hlf wide)).learn (hlf wide) (fun i => if i = 0 then 1 else 0) (fun _ => 0)).predict
    (fun i => if i = 0 then 1 else 0) 0) = hlf wide := by decide +kernel

example : ((rlsStart 2 1 (hlf wide)).learn (hlf wide) (fun i => if i = 0 then 1 else .nan) (fun _ => 0)).Lost :=
  C110_rls_lost _ _ _ (k := 1) (by decide) rfl

end Xcsf.Double
