import Verif.Blas
import Mathlib.Algebra.BigOperators.Group.Finset.Basic
import Mathlib.Algebra.BigOperators.Ring.Finset
import Mathlib.Algebra.BigOperators.Group.Finset.Piecewise
import Mathlib.Algebra.BigOperators.Group.Finset.Sigma
import Mathlib.Tactic.Ring
import Mathlib.Tactic.Linarith
import Mathlib.Tactic.NormNum
import Mathlib.Algebra.Field.Rat

/-!
# Property C43: the linear algebra routines
-/

set_option linter.unusedSectionVars false

namespace Xcsf
open Finset
variable {K : Type} [Field K]

theorem forN_sum (n : Nat) (v : Nat → K) (s : K) :
    forN n (fun i s => s + v i) s = s + ∑ i ∈ range n, v i := by
  induction n with
  | zero => simp [forN]
  | succ n ih => rw [forN, ih, sum_range_succ]; ring

/-- A loop whose steps each add a fixed array adds the sum of them. -/
theorem forN_adds (n : Nat) (F : Nat → (Nat → K) → (Nat → K)) (d : Nat → Nat → K)
    (h : ∀ i < n, ∀ C m, F i C m = C m + d i m) (C : Nat → K) (m : Nat) :
    forN n F C m = C m + ∑ i ∈ range n, d i m := by
  induction n with
  | zero => simp [forN]
  | succ n ih =>
    rw [forN, h n (by omega), ih (fun i hi => h i (by omega)), sum_range_succ]; ring

theorem arrAdd_adds (C : Nat → K) (n : Nat) (v : K) (m : Nat) :
    arrAdd C n v m = C m + if m = n then v else 0 := by
  unfold arrAdd; split <;> simp

theorem forN_arrAdd (n : Nat) (p : Nat → Nat) (v : Nat → K) (C : Nat → K) (m : Nat) :
    forN n (fun j C => arrAdd C (p j) (v j)) C m =
      C m + ∑ j ∈ range n, if m = p j then v j else 0 :=
  forN_adds n _ (fun j m => if m = p j then v j else 0) (fun _ _ C m => arrAdd_adds C _ _ m) C m

/-- A loop that overwrites distinct elements by functions of themselves. -/
theorem forN_arrSet (n : Nat) (p : Nat → Nat) (hp : ∀ i < n, ∀ j < n, p i = p j → i = j)
    (f : Nat → K → K) (X : Nat → K) :
    (∀ i < n, forN n (fun i X => arrSet X (p i) (f i (X (p i)))) X (p i) = f i (X (p i))) ∧
    (∀ m, (∀ i < n, m ≠ p i) → forN n (fun i X => arrSet X (p i) (f i (X (p i)))) X m = X m) := by
  induction n with
  | zero => exact ⟨by omega, fun m _ => rfl⟩
  | succ n ih =>
    obtain ⟨h1, h2⟩ := ih (fun i hi j hj => hp i (by omega) j (by omega))
    constructor
    · intro i hi
      rw [forN]
      unfold arrSet
      by_cases hin : i = n
      · subst hin
        rw [if_pos rfl]
        congr 1
        exact h2 _ (fun j hj e => by have := hp i (by omega) j (by omega) e; omega)
      · rw [if_neg (fun e => hin (hp i (by omega) n (by omega) e))]
        exact h1 i (by omega)
    · intro m hm
      rw [forN]
      unfold arrSet
      rw [if_neg (hm n (by omega))]
      exact h2 m (fun i hi => hm i (by omega))

/-- Element (i, j) of `op(A)` for a matrix stored by rows with leading dimension `ld`. -/
def opAt (T : Bool) (A : Nat → K) (ld i j : Nat) : K := if T then A (j * ld + i) else A (i * ld + j)

/-- The scaling loops of gemm. -/
theorem gemm_scaled (M N : Nat) (be : K) (C : Nat → K) (ldc : Nat) (hld : N ≤ ldc) :
    let D := forN M (fun i C => forN N (fun j C =>
      arrSet C (i * ldc + j) (C (i * ldc + j) * be)) C) C
    (∀ i < M, ∀ j < N, D (i * ldc + j) = C (i * ldc + j) * be) ∧
    (∀ m, (∀ i < M, ∀ j < N, m ≠ i * ldc + j) → D m = C m) := by
  have row : ∀ (i : Nat) (C : Nat → K),
      (∀ j < N, forN N (fun j C => arrSet C (i * ldc + j) (C (i * ldc + j) * be)) C (i * ldc + j) =
        C (i * ldc + j) * be) ∧
      (∀ m, (∀ j < N, m ≠ i * ldc + j) →
        forN N (fun j C => arrSet C (i * ldc + j) (C (i * ldc + j) * be)) C m = C m) := by
    intro i C
    exact forN_arrSet N (fun j => i * ldc + j) (fun a _ b _ h => by omega) (fun _ v => v * be) C
  intro D
  have key : (∀ i < M, ∀ j < N, D (i * ldc + j) = C (i * ldc + j) * be) ∧
    (∀ m, (∀ i < M, ∀ j < N, m ≠ i * ldc + j) → D m = C m) := by
    show (∀ i < M, ∀ j < N, forN M _ C (i * ldc + j) = _) ∧ _
    induction M with
    | zero => exact ⟨by omega, fun m _ => rfl⟩
    | succ M ih =>
      obtain ⟨h1, h2⟩ := ih
      obtain ⟨r1, r2⟩ := row M (forN M (fun i C => forN N (fun j C =>
        arrSet C (i * ldc + j) (C (i * ldc + j) * be)) C) C)
      have off : ∀ i < M, ∀ j < N, ∀ j' < N, i * ldc + j ≠ M * ldc + j' := by
        intro i hi j hj j' _ e
        have h3 : (i + 1) * ldc ≤ M * ldc := Nat.mul_le_mul_right _ hi
        rw [Nat.add_mul] at h3; omega
      constructor
      · intro i hi j hj
        rw [forN]
        by_cases hiM : i = M
        · subst hiM
          rw [r1 j hj, h2]
          intro i' hi' j' hj' e
          exact off i' hi' j' hj' j hj e.symm
        · rw [r2 _ (fun j' hj' => off i (by omega) j hj j' hj')]
          exact h1 i (by omega) j hj
      · intro m hm
        show forN (M + 1) _ C m = C m
        rw [forN, r2 m (fun j hj => hm M (by omega) j hj)]
        exact h2 m (fun i hi => hm i (by omega))
  exact key

/-- The sum of the contributions of a product, at any index of the output. -/
theorem gemm_adds (TA TB : Bool) (M N P : Nat) (al : K) (A : Nat → K) (lda : Nat) (B : Nat → K)
    (ldb : Nat) (C : Nat → K) (ldc m : Nat) :
    (if !TA && !TB then gemmNN M N P al A lda B ldb C ldc
     else if TA && !TB then gemmTN M N P al A lda B ldb C ldc
     else if !TA && TB then gemmNT M N P al A lda B ldb C ldc
     else gemmTT M N P al A lda B ldb C ldc) m =
    C m + ∑ i ∈ range M, ∑ j ∈ range N, if m = i * ldc + j then
      al * ∑ k ∈ range P, opAt TA A lda i k * opAt TB B ldb k j else 0 := by
  cases TA <;> cases TB <;> simp only [Bool.not_true, Bool.not_false, Bool.and_true, Bool.and_false,
    if_true, Bool.false_eq_true, if_false]
  · unfold gemmNN
    rw [forN_adds M _ (fun i m => ∑ j ∈ range N, if m = i * ldc + j then
      al * ∑ k ∈ range P, opAt false A lda i k * opAt false B ldb k j else 0)]
    intro i _ C m'
    rw [forN_adds P _ (fun k m => ∑ j ∈ range N, if m = i * ldc + j then
      al * A (i * lda + k) * B (k * ldb + j) else 0)]
    · congr 1
      rw [sum_comm]
      refine sum_congr rfl fun j _ => ?_
      split
      · rw [mul_sum]; refine sum_congr rfl fun k _ => ?_; simp [opAt]; ring
      · simp
    · intro k _ C m''
      exact forN_arrAdd N (fun j => i * ldc + j) _ C m''
  · unfold gemmNT
    rw [forN_adds M _ (fun i m => ∑ j ∈ range N, if m = i * ldc + j then
      al * ∑ k ∈ range P, opAt false A lda i k * opAt true B ldb k j else 0)]
    intro i _ C m'
    simp only
    rw [forN_arrAdd N (fun j => i * ldc + j)]
    congr 1
    refine sum_congr rfl fun j _ => ?_
    rw [forN_sum]
    split
    · rw [zero_add, mul_sum]; refine sum_congr rfl fun k _ => ?_; simp [opAt]; ring
    · rfl
  · unfold gemmTN
    rw [forN_adds M _ (fun i m => ∑ j ∈ range N, if m = i * ldc + j then
      al * ∑ k ∈ range P, opAt true A lda i k * opAt false B ldb k j else 0)]
    intro i _ C m'
    rw [forN_adds P _ (fun k m => ∑ j ∈ range N, if m = i * ldc + j then
      al * A (k * lda + i) * B (k * ldb + j) else 0)]
    · congr 1
      rw [sum_comm]
      refine sum_congr rfl fun j _ => ?_
      split
      · rw [mul_sum]; refine sum_congr rfl fun k _ => ?_; simp [opAt]; ring
      · simp
    · intro k _ C m''
      exact forN_arrAdd N (fun j => i * ldc + j) _ C m''
  · unfold gemmTT
    rw [forN_adds M _ (fun i m => ∑ j ∈ range N, if m = i * ldc + j then
      al * ∑ k ∈ range P, opAt true A lda i k * opAt true B ldb k j else 0)]
    intro i _ C m'
    simp only
    rw [forN_arrAdd N (fun j => i * ldc + j)]
    congr 1
    refine sum_congr rfl fun j _ => ?_
    rw [forN_sum]
    split
    · rw [zero_add, mul_sum]; refine sum_congr rfl fun k _ => ?_; simp [opAt]
      rw [show i + k * lda = k * lda + i by omega, show k + j * ldb = j * ldb + k by omega]; ring
    · rfl

/-- **C43**, gemm: for all four transposition modes, shapes, leading dimensions (at least as
long as a row of the output) and contents, `C := beta C + alpha op(A) op(B)` on the block and
nothing else is written. -/
theorem C43_gemm (TA TB : Bool) (M N P : Nat) (al : K) (A : Nat → K) (lda : Nat) (B : Nat → K)
    (ldb : Nat) (be : K) (C : Nat → K) (ldc : Nat) (hld : N ≤ ldc) :
    (∀ i < M, ∀ j < N, gemm TA TB M N P al A lda B ldb be C ldc (i * ldc + j) =
      be * C (i * ldc + j) + al * ∑ k ∈ range P, opAt TA A lda i k * opAt TB B ldb k j) ∧
    (∀ m, (∀ i < M, ∀ j < N, m ≠ i * ldc + j) →
      gemm TA TB M N P al A lda B ldb be C ldc m = C m) := by
  obtain ⟨s1, s2⟩ := gemm_scaled M N be C ldc hld
  unfold gemm
  constructor
  · intro i hi j hj
    rw [gemm_adds, s1 i hi j hj, mul_comm be]
    congr 1
    rw [sum_eq_single i, sum_eq_single j, if_pos rfl]
    · intro j' _ hne
      rw [if_neg (by omega)]
    · intro h; exact absurd (mem_range.2 hj) h
    · intro i' hi' hne
      refine sum_eq_zero fun j' hj' => ?_
      rw [if_neg]
      intro e
      have hj'' := mem_range.1 hj'
      rcases Nat.lt_or_ge i i' with h | h
      · have h3 : (i + 1) * ldc ≤ i' * ldc := Nat.mul_le_mul_right _ h
        rw [Nat.add_mul] at h3; omega
      · have h3 : (i' + 1) * ldc ≤ i * ldc := Nat.mul_le_mul_right _ (by omega)
        rw [Nat.add_mul] at h3; omega
    · intro h; exact absurd (mem_range.2 hi) h
  · intro m hm
    rw [gemm_adds, s2 m hm]
    have : (∑ i ∈ range M, ∑ j ∈ range N, if m = i * ldc + j then
        al * ∑ k ∈ range P, opAt TA A lda i k * opAt TB B ldb k j else 0) = 0 := by
      refine sum_eq_zero fun i hi => sum_eq_zero fun j hj => ?_
      rw [if_neg (hm i (mem_range.1 hi) j (mem_range.1 hj))]
    rw [this, add_zero]

variable [DecidableEq K]

/-- **C43**, axpy: `y := y + alpha x` on the strided elements, nothing else is written. -/
theorem C43_axpy (n : Nat) (al : K) (X : Nat → K) (incx : Nat) (Y : Nat → K) (off incy : Nat)
    (hs : 0 < incy) :
    (∀ i < n, axpy n al X incx Y off incy (off + i * incy) = Y (off + i * incy) + al * X (i * incx)) ∧
    (∀ m, (∀ i < n, m ≠ off + i * incy) → axpy n al X incx Y off incy m = Y m) := by
  have key : ∀ m, axpy n al X incx Y off incy m =
      Y m + ∑ i ∈ range n, if m = off + i * incy then al * X (i * incx) else 0 := by
    intro m
    unfold axpy
    split
    · exact forN_arrAdd n (fun i => off + i * incy) _ Y m
    · next h =>
      rw [not_not] at h
      rw [forN_arrAdd n (fun i => off + i * incy) _ Y m, h]
      simp
  constructor
  · intro i hi
    rw [key, sum_eq_single i, if_pos rfl]
    · intro i' _ hne
      rw [if_neg]
      intro e
      exact hne (Nat.eq_of_mul_eq_mul_right hs (by omega))
    · intro h; exact absurd (mem_range.2 hi) h
  · intro m hm
    rw [key, sum_eq_zero, add_zero]
    intro i hi
    rw [if_neg (hm i (mem_range.1 hi))]

/-- **C43**, scal. -/
theorem C43_scal (n : Nat) (al : K) (X : Nat → K) (incx : Nat) (hs : 0 < incx) :
    (∀ i < n, scal n al X incx (i * incx) = al * X (i * incx)) ∧
    (∀ m, (∀ i < n, m ≠ i * incx) → scal n al X incx m = X m) := by
  have hinj : ∀ i < n, ∀ j < n, i * incx = j * incx → i = j :=
    fun i _ j _ h => Nat.eq_of_mul_eq_mul_right hs h
  unfold scal
  split
  · obtain ⟨h1, h2⟩ := forN_arrSet n (fun i => i * incx) hinj (fun _ v => v * al) X
    exact ⟨fun i hi => by rw [h1 i hi, mul_comm], h2⟩
  · next h =>
    rw [not_not] at h
    obtain ⟨h1, h2⟩ := forN_arrSet n (fun i => i * incx) hinj (fun _ _ => 0) X
    exact ⟨fun i hi => by rw [h1 i hi, h, zero_mul], h2⟩

/-- **C43**, fill. -/
theorem C43_fill (n : Nat) (al : K) (X : Nat → K) (incx : Nat) (hs : 0 < incx) :
    (∀ i < n, fill n al X incx (i * incx) = al) ∧
    (∀ m, (∀ i < n, m ≠ i * incx) → fill n al X incx m = X m) :=
  forN_arrSet n (fun i => i * incx) (fun _ _ _ _ h => Nat.eq_of_mul_eq_mul_right hs h)
    (fun _ _ => al) X

/-- **C43**, element-wise product. -/
theorem C43_mul (n : Nat) (X : Nat → K) (incx : Nat) (Y : Nat → K) (incy : Nat) (hs : 0 < incy) :
    (∀ i < n, mulV n X incx Y incy (i * incy) = Y (i * incy) * X (i * incx)) ∧
    (∀ m, (∀ i < n, m ≠ i * incy) → mulV n X incx Y incy m = Y m) :=
  forN_arrSet n (fun i => i * incy) (fun _ _ _ _ h => Nat.eq_of_mul_eq_mul_right hs h)
    (fun i v => v * X (i * incx)) Y

/-- **C43**, dot product and sum. -/
theorem C43_dot_sum (n : Nat) (X : Nat → K) (offx incx : Nat) (Y : Nat → K) (incy : Nat) :
    dot n X offx incx Y incy = ∑ i ∈ range n, X (offx + i * incx) * Y (i * incy) ∧
    sumV X n = ∑ i ∈ range n, X i := by
  unfold dot sumV
  exact ⟨by rw [forN_sum n (fun i => X (offx + i * incx) * Y (i * incy)), zero_add],
    by rw [forN_sum n X, zero_add]⟩

-- [1 2; 3 4] * [5 6; 7 8]^T + 10 * ones, in an array with leading dimension 3: row 0 is 27 33
example :
    let a : Nat → ℚ := fun i => [1, 2, 3, 4].getD i 0
    let b : Nat → ℚ := fun i => [5, 6, 7, 8].getD i 0
    let c := gemm false true 2 2 2 1 a 2 b 2 10 (fun _ => 1) 3
    [c 0, c 1, c 2, c 3, c 4, c 5] = [27, 33, 1, 49, 63, 1] := by decide +kernel

end Xcsf
