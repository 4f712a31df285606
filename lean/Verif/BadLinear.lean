import Verif.PropsBadInput

/-!
# Linear predictions over doubles

Normalised least mean squares (`pred_nlms.c`, `prediction.c`, `blas.c`) for one output over doubles with
infinities and values that are not a number (`Double.lean`).
-/

namespace Xcsf.Double

variable {f : Format}

/-- The quadratic terms, prediction.c:278-283. -/
def pairTerms : List (Dbl f) → List (Dbl f)
  | [] => []
  | a :: l => (a :: l).map (fun b => a * b) ++ pairTerms l

/-- `pred_transform_input`, prediction.c:264-286. -/
def features (x0 : Dbl f) (quad : Bool) (x : List (Dbl f)) : List (Dbl f) :=
  x0 :: x ++ if quad then pairTerms x else []

/-- `blas_dot`, blas.c:197-206, with strides of one. -/
def scalar (a b : List (Dbl f)) : Dbl f := (List.zipWith (· * ·) a b).foldl (· + ·) 0

/-- `blas_axpy`, blas.c:137-150, with strides of one. -/
def plusTimes (a : Dbl f) (t w : List (Dbl f)) : List (Dbl f) :=
  if a ≠ 1 then List.zipWith (fun w t => w + a * t) w t else List.zipWith (fun w t => w + t) w t

/-- `pred_nlms_compute`, pred_nlms.c:137-147, for one output. -/
def linPredict (x0 : Dbl f) (quad : Bool) (w x : List (Dbl f)) : Dbl f := scalar w (features x0 quad x)

/-- `pred_nlms_update`, pred_nlms.c:114-129, for one output with the prediction `p`; the transformed
input is that of the same input (the prediction has been computed for it). -/
def linLearn (x0 eta : Dbl f) (quad : Bool) (p y : Dbl f) (x w : List (Dbl f)) : List (Dbl f) :=
  plusTimes (eta * (y - p) / (x0 * x0 + scalar x x)) (features x0 quad x) w

/-! ## Lemmas -/

theorem scalar_nan_right {a b : List (Dbl f)} (hl : b.length = a.length) (h : .nan ∈ b) :
    scalar a b = .nan := by
  refine foldl_nan _ _ (.inr ?_)
  obtain ⟨i, hi, e⟩ := List.mem_iff_getElem.1 h
  refine List.mem_iff_getElem.2 ⟨i, by simp; omega, ?_⟩
  rw [List.getElem_zipWith, e, mul_nan]

theorem scalar_nan_left {a b : List (Dbl f)} (hl : b.length = a.length) (h : .nan ∈ a) :
    scalar a b = .nan := by
  refine foldl_nan _ _ (.inr ?_)
  obtain ⟨i, hi, e⟩ := List.mem_iff_getElem.1 h
  refine List.mem_iff_getElem.2 ⟨i, by simp; omega, ?_⟩
  rw [List.getElem_zipWith, e, nan_mul]

/-- Adding a multiple by a factor that is not a number. -/
theorem plusTimes_nan {t w : List (Dbl f)} : ∀ v ∈ plusTimes .nan t w, v = .nan := by
  unfold plusTimes
  rw [if_pos nofun]
  intro v hv
  obtain ⟨i, hi, e⟩ := List.mem_iff_getElem.1 hv
  rw [← e, List.getElem_zipWith, nan_mul, add_nan]

theorem plusTimes_length {a : Dbl f} {t w : List (Dbl f)} (hl : t.length = w.length) :
    (plusTimes a t w).length = w.length := by
  unfold plusTimes
  split <;> simp [hl]

theorem div_nan (a : Dbl f) : a / .nan = .nan := by cases a <;> rfl

end Xcsf.Double
