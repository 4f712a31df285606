import Verif.PropsBadReward

/-!
# C110, continued: large numbers

All numbers of a sample can be good and the sample still be a bad one: the squared error of a large
target is infinite, and the training error is lost with the sample after it.
-/

set_option linter.unusedSectionVars false

namespace Xcsf.Double

variable {f : Format}

/-- The squared error of a target whose square is too large. -/
theorem C110_square_overflows {q : ℚ} (h : f.rep q) (hq : f.huge ≤ q * q) :
    mseLoss 1 [(0 : Dbl f)] [.fin q h] = .inf false := by
  have e : (.fin q h : Dbl f) * .fin q h = .inf false := by
    show Dbl.round f (q * q) = _
    unfold Dbl.round
    rw [dif_neg (by rw [abs_of_nonneg (mul_self_nonneg q)]; exact not_lt.2 hq)]
    rw [decide_eq_false (not_lt.2 (mul_self_nonneg q))]
  show ((0 : Dbl f) + ((.fin q h : Dbl f) - 0) * ((.fin q h : Dbl f) - 0)) / ((1 : Int) : Dbl f) = _
  rw [minus_zero, e, zero_plus]
  show Dbl.inf (decide (Dbl.sign false * ((toInt32 1 : Int) : ℚ) < 0)) = _
  have : ¬ Dbl.sign false * ((toInt32 1 : Int) : ℚ) < 0 := by
    have e : toInt32 1 = 1 := by decide
    rw [e]
    simp [Dbl.sign]
  rw [decide_eq_false this]

/-- **C110** (refuted, for good numbers): if the loss of one sample overflows, the training error is
infinite, and after the next sample with a finite loss it is not a number and remains so. -/
theorem C110_overflow {β e l : ℚ} (hb : f.rep β) (he : f.rep e) (hl : f.rep l) (h0 : 0 < β)
    (ls : List (Dbl f)) :
    ema (.fin β hb) (.fin e he) [(.inf false : Dbl f)] = .inf false ∧
    ema (.fin β hb) (.fin e he) ((.inf false : Dbl f) :: .fin l hl :: ls) = .nan := by
  have h1 : (.fin e he : Dbl f) + ((.inf false : Dbl f) - .fin e he) * .fin β hb = .inf false := by
    show Dbl.add (.fin e he) (Dbl.scaled false β) = _
    unfold Dbl.scaled
    rw [if_neg h0.ne', decide_eq_false (by simp [Dbl.sign, h0.le])]
    rfl
  constructor
  · exact h1
  · show ema (.fin β hb) ((.fin e he : Dbl f) + ((.inf false : Dbl f) - .fin e he) * .fin β hb)
      (.fin l hl :: ls) = .nan
    rw [h1]
    exact C110_infinite hb hl h0 ls

theorem rep_big : binary64.rep ((2 : ℚ) ^ (600 : Nat)) :=
  ⟨1, 600, by norm_num, by norm_num, by norm_num, by rw [Int.cast_one, one_mul]; rfl⟩

theorem big_overflows : binary64.huge ≤ (2 : ℚ) ^ (600 : Nat) * (2 : ℚ) ^ (600 : Nat) := by
  show ((2 : ℚ) ^ 54 - 1) * (2 : ℚ) ^ 970 ≤ _
  rw [← pow_add]
  have h1 : (2 : ℚ) ^ (600 + 600) = 2 ^ 230 * 2 ^ 970 := by rw [← pow_add]
  rw [h1]
  exact mul_le_mul_of_nonneg_right (by norm_num) (pow_nonneg (by norm_num) _)

/-- **C110** (refuted, binary64): a target of `2 ^ 600` that was predicted as zero, then any further
samples: the training error is not a number. -/
theorem C110_overflow_refuted {β e l : ℚ} (hb : binary64.rep β) (he : binary64.rep e) (hl : binary64.rep l)
    (h0 : 0 < β) (ls : List (Dbl binary64)) :
    ema (.fin β hb) (.fin e he)
      (mseLoss 1 [0] [(.fin ((2 : ℚ) ^ (600 : Nat)) rep_big : Dbl binary64)] :: .fin l hl :: ls) = .nan := by
  rw [C110_square_overflows rep_big big_overflows]
  exact (C110_overflow hb he hl h0 ls).2

/-! ## A system -/

open Demo

/-- The system of `constKit` with squared errors. -/
def squareKit : Kit (Dbl wide) Nat (Nat × Nat) Nat := { constKit wide with loss := mseLoss 1 }

/-- A training history of good numbers after which the training error is not a number; before the last
sample it is infinite. -/
theorem C110_overflow_run :
    Res.test (run (constPar wide) squareKit 0 [.fit 1 [1], .fit 1 [((2147483647 : Int) : Dbl wide)]])
      (fun s => decide (s.error = .inf false)) = true ∧
    Res.test (run (constPar wide) squareKit 0 [.fit 1 [1], .fit 1 [((2147483647 : Int) : Dbl wide)], .fit 1 [1]])
      (fun s => decide (s.error = .nan)) = true := by
  constructor <;> decide +kernel

example : 0 < (1 / 2 : ℚ) ∧ binary64.rep (1 / 2) :=
  ⟨by norm_num, by simpa using binary64.dyadic 1 (by norm_num) 1 (by norm_num)⟩

end Xcsf.Double
