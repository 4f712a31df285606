import Verif.BadLinear

/-!
# C110, continued: linear predictions

What a bad sample does to predictions of normalised least mean squares - and that with a bias of zero
the input zero is such a sample, although all of its numbers are good.
-/

set_option linter.unusedSectionVars false

namespace Xcsf.Double

variable {f : Format}

/-- All weights are lost. -/
def AllLost (w : List (Dbl f)) : Prop := ∀ v ∈ w, v = .nan

/-- **C110** (refuted): a sample with any missing input, or a missing target, makes all weights of a
linear prediction not-a-number, also those of the other inputs. -/
theorem C110_weights_lost (x0 eta : Dbl f) (quad : Bool) {p y : Dbl f} {x : List (Dbl f)} (w : List (Dbl f))
    (h : .nan ∈ x ∨ y = .nan ∨ p = .nan) : AllLost (linLearn x0 eta quad p y x w) := by
  have e : eta * (y - p) / (x0 * x0 + scalar x x) = .nan := by
    rcases h with h | h | h
    · rw [scalar_nan_left rfl h, add_nan, div_nan]
    · rw [h, nan_sub, mul_nan, nan_div]
    · rw [h, sub_nan, mul_nan, nan_div]
  unfold linLearn
  rw [e]
  exact plusTimes_nan

/-- The prediction is then not a number for every input. -/
theorem C110_linear_prediction_lost (x0 : Dbl f) (quad : Bool) {w x : List (Dbl f)} (hw : AllLost w)
    (hl : w.length = (features x0 quad x).length) : linPredict x0 quad w x = .nan := by
  refine scalar_nan_left hl.symm ?_
  cases w with
  | nil => simp [features] at hl
  | cons v w =>
    have := hw v (by simp)
    rw [this]
    simp

/-- And no further sample brings the weights back. -/
theorem C110_weights_stay_lost (x0 eta : Dbl f) (quad : Bool) (y : Dbl f) {w x : List (Dbl f)}
    (hw : AllLost w) (hl : w.length = (features x0 quad x).length) :
    AllLost (linLearn x0 eta quad (linPredict x0 quad w x) y x w) :=
  C110_weights_lost x0 eta quad w (.inr (.inr (C110_linear_prediction_lost x0 quad hw hl)))

theorem zero_add_zero : (0 : Dbl f) + 0 = 0 := zero_plus 0

theorem sum_zeros : ∀ l : List (Dbl f), (∀ v ∈ l, v = 0) → l.foldl (· + ·) 0 = 0
  | [], _ => rfl
  | v :: l, h => by
    rw [List.foldl_cons, h v (by simp), zero_add_zero]
    exact sum_zeros l fun v hv => h v (by simp [hv])

theorem pairTerms_zero : ∀ x : List (Dbl f), (∀ v ∈ x, v = 0) → ∀ v ∈ pairTerms x, v = 0
  | [], _ => by simp [pairTerms]
  | a :: l, h => by
    intro v hv
    rw [pairTerms, List.mem_append] at hv
    rcases hv with hv | hv
    · obtain ⟨b, hb, rfl⟩ := List.mem_map.1 hv
      rw [h a (by simp), h b hb, zero_mul_zero]
    · exact pairTerms_zero l (fun v hv => h v (by simp [hv])) v hv

theorem features_zero (quad : Bool) {x : List (Dbl f)} (h : ∀ v ∈ x, v = 0) :
    ∀ v ∈ features 0 quad x, v = 0 := by
  intro v hv
  unfold features at hv
  rw [List.mem_append, List.mem_cons] at hv
  rcases hv with (hv | hv) | hv
  · exact hv
  · exact h v hv
  · cases quad with
    | false => simp at hv
    | true => exact pairTerms_zero x h v (by simpa using hv)

/-- Anything over zero, times zero. -/
theorem over_zero_times_zero (a : Dbl f) : a / 0 * 0 = .nan ∧ a / 0 ≠ 1 := by
  cases a with
  | nan => exact ⟨rfl, nofun⟩
  | inf b => exact ⟨rfl, nofun⟩
  | fin q h =>
    show ((if (0 : ℚ) = 0 then (if q = 0 then .nan else .inf (decide (q < 0))) else Dbl.round f (q / 0)) *
      (0 : Dbl f) = .nan) ∧ (if (0 : ℚ) = 0 then (if q = 0 then .nan else .inf (decide (q < 0)))
        else Dbl.round f (q / 0)) ≠ (1 : Dbl f)
    rw [if_pos rfl]
    split
    · exact ⟨rfl, nofun⟩
    · exact ⟨rfl, nofun⟩

/-- **C110** (refuted, for good numbers): with a bias of zero, which the parameters allow, learning
from the input zero loses all weights, whatever target, prediction and rate - also if the prediction was
right. -/
theorem C110_zero_input_refuted (eta : Dbl f) (quad : Bool) (p y : Dbl f) {x w : List (Dbl f)}
    (hx : ∀ v ∈ x, v = 0) : AllLost (linLearn 0 eta quad p y x w) := by
  have h0 : (0 : Dbl f) * 0 + scalar x x = 0 := by
    have : scalar x x = 0 := by
      refine sum_zeros _ fun v hv => ?_
      obtain ⟨i, hi, e⟩ := List.mem_iff_getElem.1 hv
      rw [← e, List.getElem_zipWith, hx _ (List.getElem_mem _), zero_mul_zero]
    rw [this, zero_mul_zero, zero_add_zero]
  unfold linLearn plusTimes
  rw [h0, if_pos (over_zero_times_zero _).2]
  intro v hv
  obtain ⟨i, hi, e⟩ := List.mem_iff_getElem.1 hv
  rw [← e, List.getElem_zipWith, features_zero quad hx _ (List.getElem_mem _), (over_zero_times_zero _).1, add_nan]

/-! ## Concrete cases -/

open Demo

/-- Two weights that predict, before and after the input zero. -/
example : linPredict (0 : Dbl wide) false [1, 1] [1] = 1 ∧
    linPredict 0 false (linLearn 0 (half wide) false 0 0 [0] [1, 1]) [1] = .nan := by
  constructor <;> decide +kernel

example : AllLost (linLearn (1 : Dbl wide) (half wide) true 1 1 [1, .nan] [1, 1, 1, 1, 1, 1]) :=
  C110_weights_lost _ _ _ _ (.inl (by simp))

/-- With a bias the input zero is harmless: one step towards the target. -/
example : linLearn (1 : Dbl wide) (half wide) false 1 1 [0] [1, 1] = [1, 1] := by decide +kernel

example : ([.nan, .nan] : List (Dbl wide)).length = (features (1 : Dbl wide) false [1]).length := rfl

end Xcsf.Double
