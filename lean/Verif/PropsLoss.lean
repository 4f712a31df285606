import Verif.Loss
import Verif.PropsBlas
import Verif.PropsUtil
import Mathlib.Algebra.Order.BigOperators.Group.Finset
import Mathlib.Analysis.SpecialFunctions.Log.Basic
import Mathlib.Algebra.BigOperators.Field
import Mathlib.Tactic.Positivity

/-!
# Property C42: loss functions
-/

set_option linter.unusedSectionVars false

namespace Xcsf
open Finset
variable {K : Type} [Field K] [LinearOrder K] [IsStrictOrderedRing K]

/-- A mean of non-negative terms is non-negative, and zero exactly if all terms are. -/
theorem mean_zero (n : Nat) (hn : 0 < n) (v : Nat → K) (hv : ∀ i, 0 ≤ v i) :
    0 ≤ forN n (fun i e => e + v i) 0 / (n : K) ∧
    (forN n (fun i e => e + v i) 0 / (n : K) = 0 ↔ ∀ i < n, v i = 0) := by
  have hc : (0 : K) < n := by exact_mod_cast hn
  rw [forN_sum, zero_add]
  refine ⟨div_nonneg (sum_nonneg fun i _ => hv i) hc.le, ?_⟩
  rw [div_eq_zero_iff, or_iff_left hc.ne', sum_eq_zero_iff_of_nonneg fun i _ => hv i]
  simp

/-- **C42**, mean absolute error: the mean of the distances, non-negative, and zero exactly for a
perfect prediction. -/
theorem C42_mae (n : Nat) (hn : 0 < n) (pred y : Nat → K) :
    lossMae n pred y = (∑ i ∈ range n, |y i - pred i|) / n ∧
    0 ≤ lossMae n pred y ∧ (lossMae n pred y = 0 ↔ ∀ i < n, pred i = y i) := by
  obtain ⟨h1, h2⟩ := mean_zero n hn (fun i => |y i - pred i|) (fun i => abs_nonneg _)
  refine ⟨by rw [lossMae, forN_sum, zero_add], h1, h2.trans (forall₂_congr fun i _ => ?_)⟩
  rw [abs_eq_zero, sub_eq_zero, eq_comm]

/-- **C42**, mean squared error. -/
theorem C42_mse (n : Nat) (hn : 0 < n) (pred y : Nat → K) :
    lossMse n pred y = (∑ i ∈ range n, (y i - pred i) ^ 2) / n ∧
    0 ≤ lossMse n pred y ∧ (lossMse n pred y = 0 ↔ ∀ i < n, pred i = y i) := by
  obtain ⟨h1, h2⟩ := mean_zero n hn (fun i => (y i - pred i) * (y i - pred i))
    (fun i => mul_self_nonneg _)
  refine ⟨?_, h1, h2.trans (forall₂_congr fun i _ => ?_)⟩
  · rw [lossMse, forN_sum, zero_add]
    simp only [pow_two]
  · rw [mul_self_eq_zero, sub_eq_zero, eq_comm]

/-- The contract of `sqrt` used: the non-negative root of non-negative numbers. -/
def IsSqrt (sqrt : K → K) : Prop := ∀ a, 0 ≤ a → 0 ≤ sqrt a ∧ sqrt a * sqrt a = a

/-- **C42**, root mean squared error: non-negative, its square is the mean squared error, zero
exactly for a perfect prediction. -/
theorem C42_rmse (sqrt : K → K) (hs : IsSqrt sqrt) (n : Nat) (hn : 0 < n) (pred y : Nat → K) :
    0 ≤ lossRmse sqrt n pred y ∧
    lossRmse sqrt n pred y ^ 2 = (∑ i ∈ range n, (y i - pred i) ^ 2) / n ∧
    (lossRmse sqrt n pred y = 0 ↔ ∀ i < n, pred i = y i) := by
  obtain ⟨h1, h2, h3⟩ := C42_mse n hn pred y
  obtain ⟨h4, h5⟩ := hs _ h2
  refine ⟨h4, ?_, ?_⟩
  · rw [lossRmse, pow_two, h5, h1]
  · rw [← h3, lossRmse]
    constructor
    · intro h; rw [← h5, h, mul_zero]
    · intro h; rw [h] at h5 ⊢; exact mul_self_eq_zero.1 h5

/-- The contract of `log` used: zero at one, monotone on positive numbers. -/
def IsLog (log : K → K) : Prop := log 1 = 0 ∧ ∀ a b, 0 < a → a ≤ b → log a ≤ log b

/-- **C42**, log loss: non-negative for non-negative targets and predictions of at most one. -/
theorem C42_log_nonneg (log : K → K) (hlog : IsLog log) (eps : K) (h0 : 0 < eps) (h1 : eps ≤ 1)
    (n : Nat) (pred y : Nat → K) (hy : ∀ i < n, 0 ≤ y i) (hp : ∀ i < n, pred i ≤ 1) :
    0 ≤ lossLog log eps n pred y := by
  rw [lossLog, forN_sum, zero_add, Left.nonneg_neg_iff]
  refine sum_nonpos fun i hi => ?_
  rw [mem_range] at hi
  refine mul_nonpos_of_nonneg_of_nonpos (hy i hi) ?_
  rw [← hlog.1]
  exact hlog.2 _ _ (lt_of_lt_of_le h0 (le_max_right _ _)) (max_le (hp i hi) h1)

/-- **C42**, log loss of a single true class `c`: minus the logarithm of the probability given to
it (bounded below by `DBL_EPSILON`); zero if that is one. -/
theorem C42_log_class (log : K → K) (eps : K) (n c : Nat) (hc : c < n)
    (pred y : Nat → K) (hy : ∀ i < n, y i = if i = c then 1 else 0) :
    lossLog log eps n pred y = -log (max (pred c) eps) ∧
    (IsLog log → eps ≤ 1 → pred c = 1 → lossLog log eps n pred y = 0) := by
  have h : lossLog log eps n pred y = -log (max (pred c) eps) := by
    rw [lossLog, forN_sum, zero_add]
    congr 1
    rw [sum_eq_single_of_mem c (mem_range.2 hc), hy c hc, if_pos rfl, one_mul]
    intro i hi hne
    rw [hy i (mem_range.1 hi), if_neg hne, zero_mul]
  refine ⟨h, fun hl he hp => ?_⟩
  rw [h, hp, max_eq_left he, hl.1, neg_zero]

/-- **C42**, binary log loss: non-negative for targets and predictions in [0, 1], and zero for a
perfect prediction of targets 0 and 1. -/
theorem C42_binary_log (log : K → K) (hlog : IsLog log) (eps : K) (h0 : 0 < eps) (h1 : eps ≤ 1)
    (n : Nat) (pred y : Nat → K) :
    ((∀ i < n, 0 ≤ y i ∧ y i ≤ 1 ∧ 0 ≤ pred i ∧ pred i ≤ 1) →
      0 ≤ lossBinaryLog log eps n pred y) ∧
    ((∀ i < n, (y i = 0 ∨ y i = 1) ∧ pred i = y i) → lossBinaryLog log eps n pred y = 0) := by
  have hneg : ∀ v : K, v ≤ 1 → log (max v eps) ≤ 0 := by
    intro v hv
    rw [← hlog.1]
    exact hlog.2 _ _ (lt_of_lt_of_le h0 (le_max_right _ _)) (max_le hv h1)
  rw [lossBinaryLog, forN_sum, zero_add]
  constructor
  · intro h
    rw [Left.nonneg_neg_iff]
    refine sum_nonpos fun i hi => ?_
    obtain ⟨a1, a2, a3, a4⟩ := h i (mem_range.1 hi)
    exact add_nonpos (mul_nonpos_of_nonneg_of_nonpos a1 (hneg _ a4))
      (mul_nonpos_of_nonneg_of_nonpos (by linarith) (hneg _ (by linarith)))
  · intro h
    rw [neg_eq_zero]
    refine sum_eq_zero fun i hi => ?_
    obtain ⟨a1, a2⟩ := h i (mem_range.1 hi)
    rcases a1 with a | a <;> rw [a2, a] <;> simp [max_eq_left h1, hlog.1]

/-- **C42**, one-hot error: it is 0 or 1; for a target with a single true class `c` it is 0
exactly if `c` is the predicted class, the first of those with the largest prediction. -/
theorem C42_onehot (n c : Nat) (hc : c < n) (pred y : Nat → K) (hy : ∀ i < n, y i = 1 ↔ i = c) :
    ∃ v, lossOnehot n pred y = .ok v ∧ (v = 0 ∨ v = 1) ∧
      (v = 0 ↔ (∀ j < n, pred j ≤ pred c) ∧ ∀ j < c, pred j < pred c) := by
  have hne : (List.range n).map pred ≠ [] := by
    intro h
    rw [List.map_eq_nil_iff, List.range_eq_nil] at h
    omega
  obtain ⟨i, m, a1, a2, a3, a4⟩ := C45_argmax _ hne
  have hi : i < n := by
    obtain ⟨h, _⟩ := List.getElem?_eq_some_iff.1 a2
    simpa using h
  have get : ∀ j < n, ((List.range n).map pred)[j]? = some (pred j) := by
    intro j hj
    rw [List.getElem?_map, List.getElem?_range hj]
    rfl
  have hm : pred i = m := Option.some.inj ((get i hi).symm.trans a2)
  have key : i = c ↔ (∀ j < n, pred j ≤ pred c) ∧ ∀ j < c, pred j < pred c := by
    constructor
    · rintro rfl
      exact ⟨fun j hj => hm ▸ a3 _ (List.mem_iff_getElem?.2 ⟨j, get j hj⟩),
        fun j hj => hm ▸ a4 j _ hj (get j (by omega))⟩
    · rintro ⟨b1, b2⟩
      rcases Nat.lt_trichotomy i c with h | h | h
      · have := b2 i h
        have h2 := a3 _ (List.mem_iff_getElem?.2 ⟨c, get c hc⟩)
        rw [← hm] at h2
        exact absurd this (not_lt.2 h2)
      · exact h
      · have := a4 c _ h (get c hc)
        rw [← hm] at this
        exact absurd (b1 i hi) (not_le.2 this)
  by_cases h : i = c
  · refine ⟨0, ?_, Or.inl rfl, ⟨fun _ => key.1 h, fun _ => rfl⟩⟩
    simp only [lossOnehot, a1]
    show (if y i ≠ 1 then .ok 1 else .ok 0 : Res K) = _
    rw [if_neg (not_not.2 ((hy i hi).2 h))]
  · refine ⟨1, ?_, Or.inr rfl, ⟨fun e => absurd e one_ne_zero, fun e => absurd (key.2 e) h⟩⟩
    simp only [lossOnehot, a1]
    show (if y i ≠ 1 then .ok 1 else .ok 0 : Res K) = _
    rw [if_pos (fun e => h ((hy i hi).1 e))]

theorem huber1_nonneg {delta : K} (hd : 0 ≤ delta) (a : K) : 0 ≤ huber1 delta a := by
  unfold huber1
  split
  · next h =>
    have : 0 ≤ |a| - delta := by linarith
    positivity
  · have := mul_self_nonneg a
    nlinarith

theorem huber1_zero {delta : K} (hd : 0 < delta) (a : K) : huber1 delta a = 0 ↔ a = 0 := by
  unfold huber1
  split
  · next h =>
    have h1 : 0 ≤ delta * (|a| - delta) := mul_nonneg hd.le (by linarith)
    have h2 : 0 < 1 / 2 * delta * delta := by positivity
    refine ⟨fun e => by linarith, fun e => ?_⟩
    rw [e, abs_zero] at h; linarith
  · rw [mul_eq_zero, mul_eq_zero]
    simp

/-- **C42**, Huber loss: non-negative, zero exactly for a perfect prediction, and at most half
the mean squared error. -/
theorem C42_huber (delta : K) (hd : 0 < delta) (n : Nat) (hn : 0 < n) (pred y : Nat → K) :
    0 ≤ lossHuber delta n pred y ∧ (lossHuber delta n pred y = 0 ↔ ∀ i < n, pred i = y i) ∧
    lossHuber delta n pred y ≤ lossMse n pred y / 2 := by
  obtain ⟨h1, h2⟩ := mean_zero n hn (fun i => huber1 delta (y i - pred i))
    (fun i => huber1_nonneg hd.le _)
  refine ⟨h1, h2.trans (forall₂_congr fun i _ => ?_), ?_⟩
  · rw [huber1_zero hd, sub_eq_zero, eq_comm]
  · have hc : (0 : K) < n := by exact_mod_cast hn
    rw [lossHuber, lossMse, forN_sum, forN_sum, zero_add, zero_add, div_right_comm]
    refine div_le_div_of_nonneg_right ?_ hc.le
    rw [sum_div]
    refine sum_le_sum fun i _ => ?_
    unfold huber1
    split
    · have := sq_nonneg (|y i - pred i| - delta)
      have h3 := abs_mul_abs_self (y i - pred i)
      nlinarith
    · linarith

/-- **C42**, Huber loss of one output: quadratic up to `delta`, linear beyond, and without a jump:
it changes by at most `delta` times the change of the difference. -/
theorem C42_huber_shape (delta : K) (hd : 0 ≤ delta) (a b : K) :
    (|a| ≤ delta → huber1 delta a = a ^ 2 / 2) ∧
    (delta ≤ |a| → huber1 delta a = delta * (|a| - delta / 2)) ∧
    |huber1 delta a - huber1 delta b| ≤ delta * |a - b| := by
  have q : ∀ a : K, |a| ≤ delta → huber1 delta a = |a| ^ 2 / 2 := by
    intro a h
    rw [huber1, if_neg (not_lt.2 h), sq_abs]; ring
  have l : ∀ a : K, delta ≤ |a| → huber1 delta a = delta * (|a| - delta / 2) := by
    intro a h
    rcases h.lt_or_eq with h' | h'
    · rw [huber1, if_pos h']; ring
    · rw [q a h'.ge, ← h']; ring
  refine ⟨fun h => by rw [q a h, sq_abs], l a, ?_⟩
  have key : ∀ a b : K, |a| ≤ |b| → |huber1 delta a - huber1 delta b| ≤ delta * (|b| - |a|) := by
    intro a b hab
    have ha := abs_nonneg a
    rw [abs_le]
    rcases le_total |a| delta with h1 | h1 <;> rcases le_total |b| delta with h2 | h2
    · rw [q a h1, q b h2]
      constructor <;> nlinarith
    · rw [q a h1, l b h2]
      constructor <;> nlinarith [sq_nonneg (delta - |a|), mul_nonneg hd (sub_nonneg.2 hab),
        mul_nonneg (sub_nonneg.2 h1) ha, mul_nonneg hd (sub_nonneg.2 h2)]
    · have e1 : |a| = delta := le_antisymm (hab.trans h2) h1
      have e2 : |b| = delta := le_antisymm h2 (e1 ▸ hab)
      rw [q a e1.le, q b e2.le, e1, e2]
      constructor <;> linarith
    · rw [l a h1, l b h2]
      constructor <;> nlinarith
  rcases le_total |a| |b| with h | h
  · refine (key a b h).trans (mul_le_mul_of_nonneg_left ?_ hd)
    rw [abs_sub_comm]; exact abs_sub_abs_le_abs_sub b a
  · rw [abs_sub_comm]
    exact (key b a h).trans (mul_le_mul_of_nonneg_left (abs_sub_abs_le_abs_sub a b) hd)

/-- With `delta = 0`, which the setter accepts, the Huber loss is zero for every prediction. -/
theorem C42_huber_zero_delta (n : Nat) (pred y : Nat → K) : lossHuber 0 n pred y = 0 := by
  rw [lossHuber, forN_sum, zero_add, sum_eq_zero, zero_div]
  intro i _
  rw [huber1]
  split
  · ring
  · next h =>
    have := abs_eq_zero.1 (le_antisymm (not_lt.1 h) (abs_nonneg _))
    rw [this]; ring

-- the contracts are met by the real square root and logarithm
example : IsSqrt Real.sqrt := fun a ha => ⟨Real.sqrt_nonneg a, Real.mul_self_sqrt ha⟩
example : IsLog Real.log := ⟨Real.log_one, fun _ _ h hab => Real.log_le_log h hab⟩

-- two outputs, prediction (1, 0), target (3, 0): mae 1, mse 2, huber (delta 1) 3/4
example : (fun p y : Nat → ℚ => [lossMae 2 p y, lossMse 2 p y, lossHuber 1 2 p y])
    (fun i => if i = 0 then 1 else 0) (fun i => if i = 0 then 3 else 0) = [1, 2, 3 / 4] := by
  decide +kernel

-- predictions (1, 3, 3): class 1 is predicted
example : (match lossOnehot 3 (fun i => if i = 0 then (1 : ℚ) else 3)
    (fun i => if i = 1 then 1 else 0) with | .ok v => decide (v = 0) | .error _ => false) = true := by
  decide +kernel

end Xcsf
