import Verif.Activ
import Mathlib.Analysis.SpecialFunctions.ExpDeriv
import Mathlib.Analysis.SpecialFunctions.Log.Deriv
import Mathlib.Analysis.SpecialFunctions.Trigonometric.DerivHyp
import Mathlib.Analysis.SpecialFunctions.Trigonometric.Deriv
import Mathlib.Analysis.Calculus.Deriv.Slope
import Mathlib.Tactic.FieldSimp
import Mathlib.Tactic.Positivity

/-!
# Properties C50 and C51: activation functions and softmax over the real numbers

`realLibm` is the specification of libm; rounding is not modelled.
-/

set_option linter.unusedSectionVars false

namespace Xcsf

open Real

/-- The real functions that libm approximates. -/
noncomputable def realLibm : Libm ℝ where
  exp := Real.exp
  log1p := fun x => Real.log (1 + x)
  expm1 := fun x => Real.exp x - 1
  tanh := Real.tanh
  sin := Real.sin
  cos := Real.cos

/-- The documented range of each activation function, neural_activations.h:28-38. -/
def actRange (a : Int) (y : ℝ) : Prop :=
  if a = 0 then 0 ≤ y ∧ y ≤ 1            -- logistic
  else if a = 1 then 0 ≤ y               -- relu
  else if a = 2 then -1 ≤ y ∧ y ≤ 1      -- tanh
  else if a = 3 then True                -- linear
  else if a = 4 then 0 < y ∧ y ≤ 1       -- gaussian
  else if a = 5 then -1 ≤ y ∧ y ≤ 1      -- sin
  else if a = 6 then -1 ≤ y ∧ y ≤ 1      -- cos
  else if a = 7 then 0 ≤ y               -- softplus
  else if a = 8 then True                -- leaky
  else if a = 9 then -17581 / 10000 ≤ y  -- selu
  else if a = 10 then -1 ≤ y ∧ y ≤ 1     -- loggy
  else False

/-- The mathematical function meant by each activation code. -/
noncomputable def actSpec (a : Int) (x : ℝ) : ℝ :=
  if a = 0 then 1 / (1 + Real.exp (-x))
  else if a = 1 then max x 0
  else if a = 2 then Real.tanh x
  else if a = 3 then x
  else if a = 4 then Real.exp (-(x ^ 2))
  else if a = 5 then Real.sin x
  else if a = 6 then Real.cos x
  else if a = 7 then Real.log (1 + Real.exp x)
  else if a = 8 then (if 0 < x then x else x / 10)
  else if a = 9 then (10507 / 10000) * (if 0 ≤ x then x else (16732 / 10000) * (Real.exp x - 1))
  else 2 / (1 + Real.exp (-x)) - 1

theorem codes {a : Int} (h0 : 0 ≤ a) (h1 : a < 11) :
    a = 0 ∨ a = 1 ∨ a = 2 ∨ a = 3 ∨ a = 4 ∨ a = 5 ∨ a = 6 ∨ a = 7 ∨ a = 8 ∨ a = 9 ∨ a = 10 := by
  omega

theorem relu_eq (x : ℝ) : reluAct x = max x 0 := by
  unfold reluAct b2d
  split
  · rw [max_eq_left (by linarith)]; ring
  · rw [max_eq_right (by linarith)]; ring

theorem leaky_eq (x : ℝ) : leakyAct x = if 0 < x then x else x / 10 := by
  unfold leakyAct; split <;> ring

theorem selu_eq (x : ℝ) : seluAct realLibm x =
    (10507 / 10000) * (if 0 ≤ x then x else (16732 / 10000) * (Real.exp x - 1)) := by
  unfold seluAct b2d realLibm
  by_cases h : 0 ≤ x
  · simp [h, not_lt.2 h]
  · simp [h, not_le.1 h]; ring

/-- C50: every activation code computes the intended mathematical function. -/
theorem C50_activation_function {a : Int} (h0 : 0 ≤ a) (h1 : a < 11) (x : ℝ) :
    activate realLibm a x = .ok (actSpec a x) := by
  rcases codes h0 h1 with rfl | rfl | rfl | rfl | rfl | rfl | rfl | rfl | rfl | rfl | rfl
  · rfl
  · simp [activate, actSpec, relu_eq]
  · rfl
  · rfl
  · simp [activate, actSpec, gaussianAct, realLibm]; ring_nf
  · rfl
  · rfl
  · rfl
  · simp [activate, actSpec, leaky_eq]
  · simp [activate, actSpec, selu_eq]
  · rfl

theorem sigmoid_range (x : ℝ) : 0 < 1 / (1 + Real.exp (-x)) ∧ 1 / (1 + Real.exp (-x)) < 1 := by
  have := Real.exp_pos (-x)
  constructor
  · positivity
  · rw [div_lt_one (by linarith)]; linarith

/-- C50: every activation function stays in its documented range, for every real input. -/
theorem C50_activation_range {a : Int} (h0 : 0 ≤ a) (h1 : a < 11) (x : ℝ) :
    ∃ y, activate realLibm a x = .ok y ∧ actRange a y := by
  refine ⟨_, C50_activation_function h0 h1 x, ?_⟩
  rcases codes h0 h1 with rfl | rfl | rfl | rfl | rfl | rfl | rfl | rfl | rfl | rfl | rfl
  · have := sigmoid_range x
    simp only [actRange, actSpec, if_true]
    exact ⟨this.1.le, this.2.le⟩
  · simp [actRange, actSpec]
  · simp only [actRange, actSpec]
    norm_num
    exact ⟨(Real.neg_one_lt_tanh x).le, (Real.tanh_lt_one x).le⟩
  · simp [actRange]
  · simp only [actRange, actSpec]
    norm_num
    exact ⟨Real.exp_pos _, by positivity⟩
  · simp only [actRange, actSpec]
    norm_num
    exact ⟨Real.neg_one_le_sin x, Real.sin_le_one x⟩
  · simp only [actRange, actSpec]
    norm_num
    exact ⟨Real.neg_one_le_cos x, Real.cos_le_one x⟩
  · simp only [actRange, actSpec]
    norm_num
    exact Real.log_nonneg (by have := Real.exp_pos x; linarith)
  · simp [actRange]
  · simp only [actRange, actSpec]
    norm_num
    have := Real.exp_pos x
    split
    · have : 0 ≤ x := ‹_›
      linarith
    · nlinarith
  · have := sigmoid_range x
    have e : actSpec 10 x = 2 * (1 / (1 + Real.exp (-x))) - 1 := by simp [actSpec]; ring
    rw [e]
    simp only [actRange]
    norm_num at this ⊢
    constructor <;> linarith

/-! ## Gradients -/

/-- A function with different one-sided slopes is not differentiable. -/
theorem not_diff_of_kink {f g k : ℝ → ℝ} {x a b : ℝ} (hg : HasDerivAt g a x)
    (hk : HasDerivAt k b x) (hr : ∀ y, x ≤ y → f y = g y) (hl : ∀ y, y ≤ x → f y = k y)
    (hab : a ≠ b) : ¬ DifferentiableAt ℝ f x := by
  intro hd
  have hf := hd.hasDerivAt
  have h1 : HasDerivWithinAt f a (Set.Ici x) x :=
    hg.hasDerivWithinAt.congr (fun y hy => hr y hy) (hr x le_rfl)
  have h2 : HasDerivWithinAt f b (Set.Iic x) x :=
    hk.hasDerivWithinAt.congr (fun y hy => hl y hy) (hl x le_rfl)
  have e1 := (uniqueDiffOn_Ici x x Set.self_mem_Ici).eq_deriv _ hf.hasDerivWithinAt h1
  have e2 := (uniqueDiffOn_Iic x x Set.self_mem_Iic).eq_deriv _ hf.hasDerivWithinAt h2
  exact hab (e1.symm.trans e2)

theorem deriv_sigmoid (x : ℝ) :
    HasDerivAt (fun x => 1 / (1 + Real.exp (-x)))
      (Real.exp (-x) / (1 + Real.exp (-x)) ^ 2) x := by
  have hp : (1 + Real.exp (-x)) ≠ 0 := by have := Real.exp_pos (-x); positivity
  have h1 : HasDerivAt (fun x => 1 + Real.exp (-x)) (-Real.exp (-x)) x := by
    have := ((hasDerivAt_neg x).exp).const_add 1
    simpa using this
  have h2 := h1.inv hp
  simp only [one_div]
  refine h2.congr_deriv ?_
  ring

theorem deriv_tanh (x : ℝ) : HasDerivAt Real.tanh (1 - Real.tanh x * Real.tanh x) x := by
  have hc : Real.cosh x ≠ 0 := (Real.cosh_pos x).ne'
  have h := (Real.hasDerivAt_sinh x).div (Real.hasDerivAt_cosh x) hc
  have e : Real.tanh = fun y => Real.sinh y / Real.cosh y := by
    funext y; exact Real.tanh_eq_sinh_div_cosh y
  rw [e]
  refine h.congr_deriv ?_
  field_simp

/-- The gradient of each code is the derivative of the function away from zero, and at zero unless
the function has a kink there. -/
theorem grad_deriv {a : Int} (h0 : 0 ≤ a) (h1 : a < 11) (x : ℝ)
    (hx : x ≠ 0 ∨ (a ≠ 1 ∧ a ≠ 8 ∧ a ≠ 9)) :
    ∃ g, gradient realLibm a x = .ok g ∧ HasDerivAt (actSpec a) g x := by
  have hcong : ∀ {f g : ℝ → ℝ} {d y : ℝ}, (∀ x, g x = f x) → HasDerivAt f d y →
      HasDerivAt g d y := by
    intro f g d y h hd
    rw [show g = f from funext h]; exact hd
  rcases codes h0 h1 with rfl | rfl | rfl | rfl | rfl | rfl | rfl | rfl | rfl | rfl | rfl
  · refine ⟨logisticGrad realLibm x, rfl, ?_⟩
    refine hcong (f := fun x => 1 / (1 + Real.exp (-x))) (fun x => by simp [actSpec]) ?_
    refine (deriv_sigmoid x).congr_deriv ?_
    have := Real.exp_pos (-x)
    simp only [logisticGrad, realLibm]
    field_simp
    ring
  · refine ⟨reluGrad x, rfl, ?_⟩
    have hx : x ≠ 0 := by simpa using hx
    rcases lt_or_gt_of_ne hx with h | h
    · rw [show reluGrad x = 0 by simp [reluGrad, b2d, not_lt.2 h.le]]
      refine (hasDerivAt_const x (0 : ℝ)).congr_of_eventuallyEq ?_
      filter_upwards [Iio_mem_nhds h] with y hy
      simp [actSpec, le_of_lt (Set.mem_Iio.1 hy)]
    · rw [show reluGrad x = 1 by simp [reluGrad, b2d, h]]
      refine (hasDerivAt_id x).congr_of_eventuallyEq ?_
      filter_upwards [Ioi_mem_nhds h] with y hy
      simp [actSpec, le_of_lt (Set.mem_Ioi.1 hy)]
  · refine ⟨tanhGrad realLibm x, rfl, ?_⟩
    exact hcong (fun x => by simp [actSpec]) (deriv_tanh x)
  · refine ⟨linearGrad x, rfl, ?_⟩
    exact hcong (f := id) (fun x => by simp [actSpec]) (hasDerivAt_id x)
  · refine ⟨gaussianGrad realLibm x, rfl, ?_⟩
    refine hcong (f := fun x => Real.exp (-(x ^ 2))) (fun x => by simp [actSpec]) ?_
    have := ((hasDerivAt_pow 2 x).neg).exp
    refine this.congr_deriv ?_
    simp only [gaussianGrad, realLibm]
    rw [show -x * x = -(x ^ 2) by ring]
    simp
    ring
  · refine ⟨Real.cos x, rfl, ?_⟩
    exact hcong (fun x => by simp [actSpec]) (Real.hasDerivAt_sin x)
  · refine ⟨-Real.sin x, rfl, ?_⟩
    exact hcong (fun x => by simp [actSpec]) (Real.hasDerivAt_cos x)
  · refine ⟨softPlusGrad realLibm x, rfl, ?_⟩
    refine hcong (f := fun x => Real.log (1 + Real.exp x)) (fun x => by simp [actSpec]) ?_
    have hp := Real.exp_pos x
    have := ((Real.hasDerivAt_exp x).const_add 1).log (by positivity)
    refine this.congr_deriv ?_
    simp only [softPlusGrad, realLibm]
    rw [Real.exp_neg]
    field_simp
    ring
  · refine ⟨leakyGrad x, rfl, ?_⟩
    have hx : x ≠ 0 := by simpa using hx
    rcases lt_or_gt_of_ne hx with h | h
    · rw [show leakyGrad x = 1 / 10 by simp [leakyGrad, h]]
      refine ((hasDerivAt_id x).div_const 10).congr_of_eventuallyEq ?_
      filter_upwards [Iio_mem_nhds h] with y hy
      simp [actSpec, not_lt.2 (le_of_lt (Set.mem_Iio.1 hy))]
    · rw [show leakyGrad x = 1 by simp [leakyGrad, not_lt.2 h.le]]
      refine (hasDerivAt_id x).congr_of_eventuallyEq ?_
      filter_upwards [Ioi_mem_nhds h] with y hy
      simp [actSpec, Set.mem_Ioi.1 hy]
  · refine ⟨seluGrad realLibm x, rfl, ?_⟩
    have hx : x ≠ 0 := by simpa using hx
    rcases lt_or_gt_of_ne hx with h | h
    · have e : seluGrad realLibm x = (10507 / 10000) * ((16732 / 10000) * Real.exp x) := by
        simp [seluGrad, b2d, realLibm, h, not_le.2 h]; ring
      rw [e]
      refine ((((Real.hasDerivAt_exp x).sub_const 1).const_mul (16732 / 10000)).const_mul
        (10507 / 10000)).congr_of_eventuallyEq ?_
      filter_upwards [Iio_mem_nhds h] with y hy
      simp [actSpec, not_le.2 (Set.mem_Iio.1 hy)]
    · have e : seluGrad realLibm x = 10507 / 10000 * 1 := by
        simp [seluGrad, b2d, h.le, not_lt.2 h.le]
      rw [e]
      refine ((hasDerivAt_id x).const_mul (10507 / 10000)).congr_of_eventuallyEq ?_
      filter_upwards [Ioi_mem_nhds h] with y hy
      simp [actSpec, le_of_lt (Set.mem_Ioi.1 hy)]
  · refine ⟨loggyGrad realLibm x, rfl, ?_⟩
    refine hcong (f := fun x => 2 * (1 / (1 + Real.exp (-x))) - 1)
      (fun x => by simp [actSpec]; ring) ?_
    refine (((deriv_sigmoid x).const_mul 2).sub_const 1).congr_deriv ?_
    have := Real.exp_pos x
    simp only [loggyGrad, realLibm]
    rw [Real.exp_neg]
    field_simp

/-- C50: the differentiable points: everywhere, except zero for relu, leaky relu and selu. -/
theorem C50_differentiable {a : Int} (h0 : 0 ≤ a) (h1 : a < 11) (x : ℝ) :
    DifferentiableAt ℝ (actSpec a) x ↔ x ≠ 0 ∨ (a ≠ 1 ∧ a ≠ 8 ∧ a ≠ 9) := by
  constructor
  · intro hd
    by_contra hx
    have hx0 : x = 0 := by
      by_contra h
      exact hx (Or.inl h)
    subst hx0
    have ha : a = 1 ∨ a = 8 ∨ a = 9 := by
      by_contra h
      exact hx (Or.inr (by omega))
    rcases ha with rfl | rfl | rfl
    · refine not_diff_of_kink (hasDerivAt_id (0 : ℝ)) (hasDerivAt_const (0 : ℝ) (0 : ℝ))
        (fun y hy => ?_) (fun y hy => ?_) one_ne_zero hd
      · simp [actSpec, hy]
      · simp [actSpec, hy]
    · refine not_diff_of_kink (hasDerivAt_id (0 : ℝ)) ((hasDerivAt_id (0 : ℝ)).div_const 10)
        (fun y hy => ?_) (fun y hy => ?_) (by norm_num) hd
      · rcases hy.lt_or_eq with h | rfl
        · simp [actSpec, h]
        · simp [actSpec]
      · simp [actSpec, not_lt.2 hy]
    · refine not_diff_of_kink (g := fun y => 10507 / 10000 * id y)
        (k := fun y => (10507 / 10000) * ((16732 / 10000) * (Real.exp y - 1)))
        ((hasDerivAt_id (0 : ℝ)).const_mul (10507 / 10000))
        ((((Real.hasDerivAt_exp 0).sub_const 1).const_mul (16732 / 10000)).const_mul
          (10507 / 10000)) (fun y hy => ?_) (fun y hy => ?_) (by norm_num) hd
      · simp [actSpec, hy]
      · rcases hy.lt_or_eq with h | rfl
        · simp [actSpec, not_le.2 h]
        · simp [actSpec]
  · intro hx
    obtain ⟨g, _, hg⟩ := grad_deriv h0 h1 x hx
    exact hg.differentiableAt

/-- C50: wherever the activation function is differentiable, the gradient function is its
derivative. -/
theorem C50_gradient_is_derivative {a : Int} (h0 : 0 ≤ a) (h1 : a < 11) (x : ℝ)
    (hd : DifferentiableAt ℝ (actSpec a) x) :
    gradient realLibm a x = .ok (deriv (actSpec a) x) := by
  obtain ⟨g, hg, hdg⟩ := grad_deriv h0 h1 x ((C50_differentiable h0 h1 x).1 hd)
  rw [hg, hdg.deriv]

/-- C50: any other code ends the program. -/
theorem C50_unknown_activation_exits {K : Type} [Field K] [LinearOrder K] (m : Libm K) {a : Int}
    (h : a < 0 ∨ 11 ≤ a) (x : K) :
    activate m a x = .error .exit ∧ gradient m a x = .error .exit := by
  unfold activate gradient
  constructor
  · repeat rw [if_neg (by omega)]
  · repeat rw [if_neg (by omega)]

/-- C50: a layer's states are clamped to [-100, 100] and its outputs are the activations of the
clamped states, in order. -/
theorem C50_activate_array {a : Int} (h0 : 0 ≤ a) (h1 : a < 11) (ss : List ℝ) :
    activateArray realLibm a ss =
      .ok (ss.map (fun s => max (-100) (min 100 s)),
        ss.map (fun s => actSpec a (max (-100) (min 100 s)))) := by
  have hc : ∀ s : ℝ, clampK s (-100) 100 = max (-100) (min 100 s) := by
    intro s
    unfold clampK
    split
    · rw [max_eq_left]; exact le_trans (min_le_right _ _) (le_of_lt ‹_›)
    · split
      · rw [min_eq_left (le_of_lt ‹_›)]; norm_num
      · rw [min_eq_right (not_lt.1 ‹_›), max_eq_right (not_lt.1 ‹_›)]
  induction ss with
  | nil => rfl
  | cons s ss ih => simp only [activateArray, hc, C50_activation_function h0 h1, ih, List.map_cons]

/-- C50: the deltas of a layer are multiplied by the derivative of its activation at each state. -/
theorem C50_gradient_array {a : Int} (h0 : 0 ≤ a) (h1 : a < 11) :
    ∀ (ss ds : List ℝ), ss.length = ds.length → (∀ s ∈ ss, DifferentiableAt ℝ (actSpec a) s) →
    gradientArray realLibm a ss ds =
      .ok (List.zipWith (fun s d => d * deriv (actSpec a) s) ss ds)
  | [], [], _, _ => rfl
  | s :: ss, d :: ds, hl, hd => by
    simp only [gradientArray, C50_gradient_is_derivative h0 h1 s (hd s List.mem_cons_self),
      C50_gradient_array h0 h1 ss ds (by simpa using hl)
        (fun t ht => hd t (List.mem_cons_of_mem _ ht)), List.zipWith_cons_cons]
  | [], _ :: _, hl, _ => by simp at hl
  | _ :: _, [], hl, _ => by simp at hl

example : DifferentiableAt ℝ (actSpec 9) (-2) :=
  (C50_differentiable (by norm_num) (by norm_num) (-2)).2 (Or.inl (by norm_num))

/-! ## Softmax -/

/-- The softmax function of a vector with temperature `T`. -/
noncomputable def softmaxSpec (T : ℝ) (xs : List ℝ) : List ℝ :=
  xs.map fun x => Real.exp (x / T) / (xs.map fun y => Real.exp (y / T)).sum

theorem softmaxSum_eq {T L : ℝ} (hT : T ≠ 0) : ∀ (xs : List ℝ) (s : ℝ),
    softmaxSum realLibm T L xs (some s) =
      some (s + (xs.map fun y => Real.exp (y / T - L / T)).sum)
  | [], s => by simp [softmaxSum]
  | x :: xs, s => by
    simp only [softmaxSum, softmaxExp, fdiv, if_neg hT]
    rw [softmaxSum_eq hT xs]
    simp [realLibm, add_assoc]

theorem sum_exp_pos (T : ℝ) {xs : List ℝ} (hx : xs ≠ []) :
    0 < (xs.map fun y => Real.exp (y / T)).sum := by
  apply List.sum_pos
  · intro y hy
    obtain ⟨z, _, rfl⟩ := List.mem_map.1 hy
    exact Real.exp_pos _
  · simpa using hx

theorem sum_exp_shift (T L : ℝ) (xs : List ℝ) :
    (xs.map fun y => Real.exp (y / T - L / T)).sum =
      (xs.map fun y => Real.exp (y / T)).sum * Real.exp (-(L / T)) := by
  induction xs with
  | nil => simp
  | cons x xs ih =>
    simp only [List.map_cons, List.sum_cons, ih, add_mul]
    rw [← Real.exp_add, ← sub_eq_add_neg]

/-- C51: with a temperature other than zero the softmax layer computes the softmax function. -/
theorem C51_softmax_function {T : ℝ} (hT : T ≠ 0) {xs : List ℝ} (hx : xs ≠ []) :
    softmaxForward realLibm T xs = .ok ((softmaxSpec T xs).map some) := by
  cases xs with
  | nil => exact absurd rfl hx
  | cons x xs =>
    simp only [softmaxForward]
    congr 1
    rw [softmaxSpec, List.map_map]
    apply List.map_congr_left
    intro v _
    have hs := sum_exp_pos T hx
    rw [softmaxSum_eq hT, zero_add, sum_exp_shift]
    set S := ((x :: xs).map fun y => Real.exp (y / T)).sum
    set L := softmaxLargest x xs
    have he := Real.exp_pos (-(L / T))
    simp only [softmaxExp, fdiv, if_neg hT, Function.comp]
    rw [if_neg (by positivity)]
    congr 1
    show Real.exp (v / T - L / T) / _ = _
    rw [sub_eq_add_neg, Real.exp_add]
    field_simp

/-- C51: the outputs are positive, at most one, and sum to one. -/
theorem C51_probability_vector {T : ℝ} (hT : T ≠ 0) {xs : List ℝ} (hx : xs ≠ []) :
    ∃ os : List ℝ, softmaxForward realLibm T xs = .ok (os.map some) ∧ os.length = xs.length ∧
      (∀ o ∈ os, 0 < o ∧ o ≤ 1) ∧ os.sum = 1 := by
  have hs := sum_exp_pos T hx
  refine ⟨_, C51_softmax_function hT hx, by simp [softmaxSpec], ?_, ?_⟩
  · intro o ho
    obtain ⟨x, hm, rfl⟩ := List.mem_map.1 ho
    refine ⟨div_pos (Real.exp_pos _) hs, (div_le_one hs).2 ?_⟩
    refine List.single_le_sum (l := xs.map fun y => Real.exp (y / T)) ?_ _
      (List.mem_map_of_mem (f := fun y => Real.exp (y / T)) hm)
    intro y hy
    obtain ⟨z, _, rfl⟩ := List.mem_map.1 hy
    exact (Real.exp_pos _).le
  · have : ∀ (l : List ℝ) (S : ℝ), (l.map fun x => Real.exp (x / T) / S).sum =
        (l.map fun x => Real.exp (x / T)).sum / S := by
      intro l S
      induction l with
      | nil => simp
      | cons a l ih => simp only [List.map_cons, List.sum_cons, ih, add_div]
    rw [softmaxSpec, this, div_self hs.ne']

/-- C51: with a positive temperature the outputs are ordered as the inputs are. -/
theorem C51_order {T : ℝ} (hT : 0 < T) {xs : List ℝ} {os : List ℝ} (hx : xs ≠ [])
    (h : softmaxForward realLibm T xs = .ok (os.map some)) (i j : Nat) (hi : i < xs.length)
    (hj : j < xs.length) (hi' : i < os.length) (hj' : j < os.length) :
    os[i] < os[j] ↔ xs[i] < xs[j] := by
  rw [C51_softmax_function hT.ne' hx] at h
  have : softmaxSpec T xs = os :=
    List.map_injective_iff.2 (Option.some_injective ℝ) (Except.ok.inj h)
  subst this
  have hs := sum_exp_pos T hx
  simp only [softmaxSpec, List.getElem_map]
  rw [div_lt_div_iff_of_pos_right hs, Real.exp_lt_exp, div_lt_div_iff_of_pos_right hT]

/-- C51: adding a constant to every input changes nothing. -/
theorem C51_shift {T : ℝ} (hT : T ≠ 0) {xs : List ℝ} (hx : xs ≠ []) (c : ℝ) :
    softmaxForward realLibm T (xs.map (· + c)) = softmaxForward realLibm T xs := by
  rw [C51_softmax_function hT hx, C51_softmax_function hT (by simpa using hx)]
  congr 2
  unfold softmaxSpec
  rw [List.map_map, List.map_map]
  apply List.map_congr_left
  intro x _
  simp only [Function.comp]
  have e : ∀ l : List ℝ, (l.map ((fun y => Real.exp (y / T)) ∘ (· + c))).sum =
      (l.map fun y => Real.exp (y / T)).sum * Real.exp (c / T) := by
    intro l
    induction l with
    | nil => simp
    | cons a l ih =>
      rw [List.map_cons, List.sum_cons, ih, List.map_cons, List.sum_cons, add_mul,
        ← Real.exp_add, ← add_div]
      rfl
  have hs := sum_exp_pos T hx
  have hc := Real.exp_pos (c / T)
  rw [e, add_div, Real.exp_add]
  field_simp

theorem largest_ge : ∀ (xs : List ℝ) (w : ℝ), w ≤ softmaxLargest w xs ∧
    ∀ x ∈ xs, x ≤ softmaxLargest w xs
  | [], w => ⟨le_rfl, by simp⟩
  | x :: xs, w => by
    have h := largest_ge xs (if w < x then x else w)
    have h1 : w ≤ (if w < x then x else w) ∧ x ≤ (if w < x then x else w) := by
      split
      · exact ⟨le_of_lt ‹_›, le_rfl⟩
      · exact ⟨le_rfl, not_lt.1 ‹_›⟩
    refine ⟨h1.1.trans h.1, ?_⟩
    intro y hy
    rcases List.mem_cons.1 hy with rfl | hy
    · exact h1.2.trans h.1
    · exact h.2 y hy

theorem largest_mem : ∀ (xs : List ℝ) (w : ℝ), softmaxLargest w xs ∈ w :: xs
  | [], w => by simp [softmaxLargest]
  | x :: xs, w => by
    have h := largest_mem xs (if w < x then x else w)
    simp only [softmaxLargest]
    rcases List.mem_cons.1 h with h | h
    · rw [h]; split <;> simp
    · simp [h]

/-- C51: with a positive temperature every exponential taken is between zero and one and one of
them is one, so neither the exponentials nor their sum can overflow or vanish, however large the
inputs are. -/
theorem C51_no_overflow {T : ℝ} (hT : 0 < T) (x : ℝ) (xs : List ℝ) :
    (∀ v ∈ x :: xs, ∃ e, softmaxExp realLibm T (softmaxLargest x xs) v = some e ∧ 0 < e ∧ e ≤ 1) ∧
      ∃ v ∈ x :: xs, softmaxExp realLibm T (softmaxLargest x xs) v = some 1 := by
  constructor
  · intro v hv
    refine ⟨Real.exp (v / T - softmaxLargest x xs / T),
      by simp only [softmaxExp, fdiv, if_neg hT.ne']; rfl, Real.exp_pos _, ?_⟩
    have hle : v ≤ softmaxLargest x xs := by
      rcases List.mem_cons.1 hv with rfl | hv
      · exact (largest_ge xs v).1
      · exact (largest_ge xs x).2 v hv
    show Real.exp _ ≤ 1
    rw [Real.exp_le_one_iff]
    have := (div_le_div_iff_of_pos_right hT).2 hle
    linarith
  · refine ⟨_, largest_mem xs x, ?_⟩
    simp [softmaxExp, fdiv, hT.ne', realLibm]

/-- C51 is false of temperature zero, the default of the layer parameters
(neural_layer_args.c:62): no output is a number. -/
theorem C51_zero_temperature_refuted {K : Type} [Field K] [LinearOrder K] (m : Libm K)
    {xs : List K} (hx : xs ≠ []) :
    softmaxForward m 0 xs = .ok (xs.map fun _ => none) := by
  cases xs with
  | nil => exact absurd rfl hx
  | cons x xs => simp [softmaxForward, softmaxExp, fdiv]

/-- The log-likelihood of a target distribution `t` as a function of input `i`. -/
noncomputable def logLik (T : ℝ) (t : List ℝ) (xs : List ℝ) (i : Nat) (v : ℝ) : ℝ :=
  (List.zipWith (fun a o => a * Real.log o) t (softmaxSpec T (xs.set i v))).sum

theorem logLik_eq (T : ℝ) (t xs : List ℝ) (i : Nat) (v : ℝ) (hx : xs ≠ []) :
    logLik T t xs i v =
      (List.zipWith (fun a x => a * (x / T)) t (xs.set i v)).sum -
        (List.zipWith (fun a _ => a) t (xs.set i v)).sum *
          Real.log ((xs.set i v).map fun y => Real.exp (y / T)).sum := by
  have hne : xs.set i v ≠ [] := by simpa using hx
  have hs := sum_exp_pos T hne
  unfold logLik softmaxSpec
  generalize hS : ((xs.set i v).map fun y => Real.exp (y / T)).sum = S at *
  rw [List.zipWith_map_right]
  generalize xs.set i v = ys
  induction t generalizing ys with
  | nil => simp
  | cons a t ih =>
    cases ys with
    | nil => simp
    | cons y ys =>
      simp only [List.zipWith_cons_cons, List.sum_cons, ih ys]
      rw [Real.log_div (Real.exp_pos _).ne' hs.ne', Real.log_exp]
      ring

theorem deriv_lin (T v : ℝ) : ∀ (i : Nat) (t xs : List ℝ) (hi : i < t.length)
    (_ : i < xs.length),
    HasDerivAt (fun v => (List.zipWith (fun a x => a * (x / T)) t (xs.set i v)).sum)
      (t[i] / T) v
  | 0, a :: t, x :: xs, _, _ => by
    simp only [List.set_cons_zero, List.zipWith_cons_cons, List.sum_cons,
      List.getElem_cons_zero]
    refine ((((hasDerivAt_id v).div_const T).const_mul a).add_const _).congr_deriv ?_
    ring
  | i + 1, a :: t, x :: xs, hi, hx => by
    simp only [List.set_cons_succ, List.zipWith_cons_cons, List.sum_cons,
      List.getElem_cons_succ]
    exact (deriv_lin T v i t xs (by simpa using hi) (by simpa using hx)).const_add _

theorem deriv_sum_exp (T v : ℝ) : ∀ (i : Nat) (xs : List ℝ) (_ : i < xs.length),
    HasDerivAt (fun v => ((xs.set i v).map fun y => Real.exp (y / T)).sum)
      (Real.exp (v / T) / T) v
  | 0, x :: xs, _ => by
    simp only [List.set_cons_zero, List.map_cons, List.sum_cons]
    refine ((((hasDerivAt_id v).div_const T).exp).add_const _).congr_deriv ?_
    simp; ring
  | i + 1, x :: xs, hx => by
    simp only [List.set_cons_succ, List.map_cons, List.sum_cons]
    exact (deriv_sum_exp T v i xs (by simpa using hx)).const_add _

/-- C51: if the target is a distribution, the error at the outputs (target minus output), which
the layer hands back unchanged, is the temperature times the derivative of the log-likelihood of
the target by the layer's input: the exact gradient at temperature one. -/
theorem C51_backward_gradient {T : ℝ} (hT : T ≠ 0) {xs t : List ℝ} (hl : t.length = xs.length)
    (ht : t.sum = 1) (i : Nat) (hi : i < xs.length) (hit : i < t.length)
    (hio : i < (softmaxSpec T xs).length) :
    HasDerivAt (logLik T t xs i) ((t[i] - (softmaxSpec T xs)[i]) / T) xs[i] := by
  have hx : xs ≠ [] := by rintro rfl; simp at hi
  have hs := sum_exp_pos T hx
  have hset : xs.set i xs[i] = xs := List.set_getElem_self hi
  have hw : ∀ v, (List.zipWith (fun a _ => a) t (xs.set i v)).sum = 1 := by
    intro v
    have : ∀ (a b : List ℝ), a.length = b.length → List.zipWith (fun x _ => x) a b = a := by
      intro a
      induction a with
      | nil => intro b _; simp
      | cons x a ih =>
        intro b hb
        cases b with
        | nil => simp at hb
        | cons y b => simp [ih b (by simpa using hb)]
    rw [this _ _ (by simpa using hl), ht]
  have e : logLik T t xs i = fun v =>
      (List.zipWith (fun a x => a * (x / T)) t (xs.set i v)).sum -
        Real.log ((xs.set i v).map fun y => Real.exp (y / T)).sum := by
    funext v
    rw [logLik_eq T t xs i v hx, hw v, one_mul]
  rw [e]
  have h1 := deriv_lin T xs[i] i t xs hit hi
  have h2 := (deriv_sum_exp T xs[i] i xs hi).log (by rw [hset]; exact hs.ne')
  refine (h1.sub h2).congr_deriv ?_
  rw [hset]
  simp only [softmaxSpec, List.getElem_map]
  field_simp

/-- The layer hands back its error unchanged. -/
theorem C51_backward_passes (ld d : List ℝ) (i : Nat)
    (hi : i < ld.length) (hi' : i < d.length) :
    (softmaxBackward ld d)[i]? = some (d[i] + ld[i]) := by
  simp [softmaxBackward, hi, hi']

example : ∃ os : List ℝ, softmaxForward realLibm 2 [1, -5, 700] = .ok (os.map some) ∧
    os.length = 3 ∧ (∀ o ∈ os, 0 < o ∧ o ≤ 1) ∧ os.sum = 1 :=
  C51_probability_vector two_ne_zero (by simp)

example : (softmaxForward realLibm 2 ([1, -5, 700].map (· + 1000)) : Res (List (Option ℝ))) =
    softmaxForward realLibm 2 [1, -5, 700] := C51_shift two_ne_zero (by simp) 1000

end Xcsf
