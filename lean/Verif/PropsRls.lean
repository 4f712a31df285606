import Verif.PropsPred
import Mathlib.Data.Matrix.Mul
import Mathlib.LinearAlgebra.Matrix.NonsingularInverse

/-!
# Property C39: recursive least squares
-/

set_option linter.unusedSectionVars false

namespace Xcsf
open Finset Matrix
variable {K : Type} [Field K] [LinearOrder K] [IsStrictOrderedRing K]

/-! ## The algebra of one update -/

section algebra
variable {n : Nat} {P R : Matrix (Fin n) (Fin n) K} {x k : Fin n → K} {lam : K}

theorem quad_nonneg (hPR : P * R = 1) (hpos : ∀ v, 0 ≤ v ⬝ᵥ (R *ᵥ v)) : 0 ≤ x ⬝ᵥ (P *ᵥ x) := by
  have h : R *ᵥ (P *ᵥ x) = x := by
    rw [mulVec_mulVec, mul_eq_one_comm.1 hPR, one_mulVec]
  have := hpos (P *ᵥ x)
  rw [h, dotProduct_comm] at this
  exact this

/-- The gain solves the new system. -/
theorem gain_solves (hPR : P * R = 1) (hd : lam + x ⬝ᵥ (P *ᵥ x) ≠ 0)
    (hk : k = (lam + x ⬝ᵥ (P *ᵥ x))⁻¹ • (P *ᵥ x)) :
    (lam • R + vecMulVec x x) *ᵥ k = x := by
  have h : R *ᵥ (P *ᵥ x) = x := by
    rw [mulVec_mulVec, mul_eq_one_comm.1 hPR, one_mulVec]
  rw [hk, mulVec_smul, add_mulVec, smul_mulVec, h, vecMulVec_mulVec]
  rw [show (MulOpposite.op (x ⬝ᵥ P *ᵥ x)) • x = (x ⬝ᵥ P *ᵥ x) • x from by
    ext i; simp [mul_comm]]
  rw [← add_smul, smul_smul, inv_mul_cancel₀ hd, one_smul]

/-- Sherman-Morrison: the new matrix inverts the new system. -/
theorem gain_inverse (hPR : P * R = 1) (hlam : lam ≠ 0) (hd : lam + x ⬝ᵥ (P *ᵥ x) ≠ 0)
    (hk : k = (lam + x ⬝ᵥ (P *ᵥ x))⁻¹ • (P *ᵥ x)) :
    (lam⁻¹ • ((1 - vecMulVec k x) * P)) * (lam • R + vecMulVec x x) = 1 := by
  have h1 : P * (lam • R + vecMulVec x x) = lam • 1 + vecMulVec (P *ᵥ x) x := by
    rw [mul_add, Matrix.mul_smul, hPR, mul_vecMulVec]
  have h2 : vecMulVec k x * (lam • (1 : Matrix (Fin n) (Fin n) K) + vecMulVec (P *ᵥ x) x) =
      vecMulVec (P *ᵥ x) x := by
    rw [mul_add, Matrix.mul_smul, mul_one]
    have : vecMulVec k x * vecMulVec (P *ᵥ x) x = (x ⬝ᵥ P *ᵥ x) • vecMulVec k x := by
      ext i j
      simp only [Matrix.mul_apply, vecMulVec_apply, Matrix.smul_apply, smul_eq_mul, dotProduct]
      rw [sum_mul]
      refine sum_congr rfl fun m _ => by ring
    rw [this, ← add_smul, hk]
    ext i j
    simp only [Matrix.smul_apply, vecMulVec_apply, Pi.smul_apply, smul_eq_mul]
    rw [← mul_assoc, ← mul_assoc, mul_inv_cancel₀ hd, one_mul]
  rw [Matrix.smul_mul, mul_assoc, h1, sub_mul, one_mul, h2, add_sub_cancel_right, smul_smul,
    inv_mul_cancel₀ hlam, one_smul]

theorem sym_step (hsym : Rᵀ = R) : (lam • R + vecMulVec x x)ᵀ = lam • R + vecMulVec x x := by
  ext i j
  have : R j i = R i j := congrFun (congrFun hsym i) j
  simp [vecMulVec_apply, this, mul_comm]

theorem pos_step (hlam : 0 ≤ lam) (hpos : ∀ v, 0 ≤ v ⬝ᵥ (R *ᵥ v)) (v : Fin n → K) :
    v ⬝ᵥ ((lam • R + vecMulVec x x) *ᵥ v) = lam * (v ⬝ᵥ (R *ᵥ v)) + (v ⬝ᵥ x) ^ 2 ∧
    0 ≤ v ⬝ᵥ ((lam • R + vecMulVec x x) *ᵥ v) := by
  have e : v ⬝ᵥ ((lam • R + vecMulVec x x) *ᵥ v) = lam * (v ⬝ᵥ (R *ᵥ v)) + (v ⬝ᵥ x) ^ 2 := by
    rw [add_mulVec, smul_mulVec, vecMulVec_mulVec, dotProduct_add, dotProduct_smul,
      dotProduct_smul, smul_eq_mul]
    simp only [MulOpposite.smul_eq_mul_unop, MulOpposite.unop_op]
    rw [dotProduct_comm x v]; ring
  refine ⟨e, ?_⟩
  rw [e]
  have := mul_nonneg hlam (hpos v)
  positivity

/-- Completing the square: the cost with the new sample has its minimum at the new weights. -/
theorem cost_step (hsym : Rᵀ = R) (hlam : 0 ≤ lam) (hpos : ∀ v, 0 ≤ v ⬝ᵥ (R *ᵥ v))
    (hgain : (lam • R + vecMulVec x x) *ᵥ k = x) (w w0 : Fin n → K) (y m : K) :
    lam * (m + (w - w0) ⬝ᵥ (R *ᵥ (w - w0))) + (y - w ⬝ᵥ x) ^ 2 =
      (lam * m + (y - w0 ⬝ᵥ x) ^ 2 * (1 - k ⬝ᵥ x)) +
      (w - (w0 + (y - w0 ⬝ᵥ x) • k)) ⬝ᵥ
        ((lam • R + vecMulVec x x) *ᵥ (w - (w0 + (y - w0 ⬝ᵥ x) • k))) := by
  set e := y - w0 ⬝ᵥ x with he
  set u := w - w0 with hu
  have hw : w - (w0 + e • k) = u - e • k := by rw [hu, sub_sub]
  have hwx : w ⬝ᵥ x = u ⬝ᵥ x + w0 ⬝ᵥ x := by rw [hu, sub_dotProduct]; ring
  have hk : k ⬝ᵥ ((lam • R + vecMulVec x x) *ᵥ u) = u ⬝ᵥ x := by
    rw [dotProduct_mulVec, ← mulVec_transpose, sym_step hsym, hgain, dotProduct_comm]
  clear_value u
  rw [hw, mulVec_sub, mulVec_smul, hgain, sub_dotProduct, dotProduct_sub, dotProduct_sub,
    dotProduct_smul, smul_dotProduct, smul_dotProduct, dotProduct_smul, hk,
    (pos_step hlam hpos u).1, hwx]
  simp only [smul_eq_mul]
  have : y = e + w0 ⬝ᵥ x := by rw [he]; ring
  rw [this]
  ring

end algebra

/-! ## From arrays to matrices -/

/-- An array as a square matrix, by rows. -/
def toMat (n : Nat) (a : Nat → K) : Matrix (Fin n) (Fin n) K := fun i j => a (i * n + j)

/-- The first `n` elements of an array. -/
def toVec (n : Nat) (a : Nat → K) : Fin n → K := fun i => a i

/-- The weights of one output. -/
def rowVec (n : Nat) (w : Nat → K) (o : Nat) : Fin n → K := fun j => w (o * n + j)

/-- Filling a square array element by element. -/
theorem fill_square (n : Nat) (f : Nat → Nat → K) (M : Nat → K) :
    toMat n (forN n (fun i M => forN n (fun j M => arrSet M (i * n + j) (f i j)) M) M) =
      fun (i j : Fin n) => f i j := by
  have row : ∀ (i : Nat) (M : Nat → K),
      (∀ j < n, forN n (fun j M => arrSet M (i * n + j) (f i j)) M (i * n + j) = f i j) ∧
      (∀ m, (∀ j < n, m ≠ i * n + j) → forN n (fun j M => arrSet M (i * n + j) (f i j)) M m = M m) :=
    fun i M => forN_arrSet n (fun j => i * n + j) (fun a _ b _ h => by omega) (fun j _ => f i j) M
  have key : ∀ r ≤ n, ∀ i < r, ∀ j < n,
      forN r (fun i M => forN n (fun j M => arrSet M (i * n + j) (f i j)) M) M (i * n + j) = f i j := by
    intro r
    induction r with
    | zero => omega
    | succ r ih =>
      intro hr i hi j hj
      rw [forN]
      by_cases h : i = r
      · subst h; exact (row i _).1 j hj
      · rw [(row r _).2]
        · exact ih (by omega) i (by omega) j hj
        · intro j' hj' e
          have h3 : (i + 1) * n ≤ r * n := Nat.mul_le_mul_right _ (by omega)
          rw [Nat.add_mul] at h3; omega
  ext i j
  exact key n (le_refl _) i i.2 j j.2

/-- One update in terms of matrices and vectors. -/
theorem rlsUpdate_spec (p : PredPar K) (s : Rls K) (prediction y : Nat → K) :
    let P := toMat s.n s.matrix
    let f := toVec s.n s.tmp
    let k := (p.lambda + f ⬝ᵥ (P *ᵥ f))⁻¹ • (P *ᵥ f)
    (rlsUpdate p s prediction y).n = s.n ∧
    toMat s.n (rlsUpdate p s prediction y).matrix =
      p.lambda⁻¹ • ((1 - vecMulVec k f) * P) ∧
    ∀ o < p.yDim, rowVec s.n (rlsUpdate p s prediction y).weights o =
      rowVec s.n s.weights o + (y o - prediction o) • k := by
  intro P f k
  set v0 := gemm false false s.n 1 s.n 1 s.matrix s.n s.tmp 1 0 s.tmpVec 1 with hv0
  set v := scal s.n (1 / (dot s.n s.tmp 0 1 v0 1 + p.lambda)) v0 1 with hv
  have e0 : ∀ i : Fin s.n, v0 i = (P *ᵥ f) i := by
    intro i
    have := (C43_gemm false false s.n 1 s.n 1 s.matrix s.n s.tmp 1 0 s.tmpVec 1 (le_refl _)).1 i i.2 0
      (by omega)
    simp only [Nat.mul_one, Nat.add_zero, opAt, Bool.false_eq_true, if_false, zero_mul, zero_add,
      one_mul] at this
    rw [hv0, this, sum_range]
    rfl
  have ed : dot s.n s.tmp 0 1 v0 1 = f ⬝ᵥ (P *ᵥ f) := by
    rw [(C43_dot_sum s.n s.tmp 0 1 v0 1).1, sum_range]
    refine sum_congr rfl fun i _ => ?_
    simp only [Nat.mul_one, Nat.zero_add]
    rw [e0]; rfl
  have ev : ∀ i : Fin s.n, v i = k i := by
    intro i
    have := (C43_scal s.n (1 / (dot s.n s.tmp 0 1 v0 1 + p.lambda)) v0 1 (by omega)).1 i i.2
    simp only [Nat.mul_one] at this
    rw [hv, this, e0, ed, one_div, add_comm]
    rfl
  set m1 := forN s.n (fun i M => forN s.n (fun j M =>
    arrSet M (i * s.n + j) (if i = j then 1 - v i * s.tmp j else -(v i * s.tmp j))) M) s.tmpM1 with hm1
  have em1 : toMat s.n m1 = 1 - vecMulVec k f := by
    rw [hm1, fill_square s.n (fun i j => if i = j then 1 - v i * s.tmp j else -(v i * s.tmp j))]
    ext i j
    simp only [Matrix.sub_apply, Matrix.one_apply, vecMulVec_apply, ev i, Fin.ext_iff]
    split
    · rfl
    · rw [zero_sub]; rfl
  set m2 := gemm false false s.n s.n s.n 1 m1 s.n s.matrix s.n 0 s.tmpM2 s.n with hm2
  have em2 : toMat s.n m2 = (1 - vecMulVec k f) * P := by
    ext i j
    have := (C43_gemm false false s.n s.n s.n 1 m1 s.n s.matrix s.n 0 s.tmpM2 s.n (le_refl _)).1 i i.2 j j.2
    simp only [opAt, Bool.false_eq_true, if_false, zero_mul, zero_add, one_mul] at this
    rw [← em1]
    show m2 (i * s.n + j) = _
    rw [hm2, this, sum_range]
    rfl
  refine ⟨rfl, ?_, ?_⟩
  · show toMat s.n (forN s.n (fun i M => forN s.n (fun j M =>
      arrSet M (i * s.n + j) (m2 (i * s.n + j) / p.lambda)) M) s.matrix) = _
    rw [fill_square s.n (fun i j => m2 (i * s.n + j) / p.lambda), ← em2]
    ext i j
    simp only [Matrix.smul_apply, smul_eq_mul, toMat]
    rw [div_eq_inv_mul]
  · intro o ho
    ext j
    have := (rows_axpy s.n p.yDim (fun i => y i - prediction i) v s.weights).1 o ho j j.2
    refine Eq.trans this ?_
    rw [ev j]
    rfl

/-! ## Specification and property -/

/-- The forgetting-weighted correlation of a history of feature vectors (latest first):
initially the inverse of the scaled identity; every sample multiplies it by lambda and adds the
outer product. -/
def corr {n : Nat} (lam scale : K) : List (Fin n → K) → Matrix (Fin n) (Fin n) K
  | [] => scale⁻¹ • 1
  | f :: fs => lam • corr lam scale fs + vecMulVec f f

/-- The forgetting-weighted squared error of weights `w` on a history of (features, target),
regularised by the distance to the initial weights. -/
def rlsCost {n : Nat} (lam scale : K) (w0 w : Fin n → K) : List ((Fin n → K) × K) → K
  | [] => scale⁻¹ * ((w - w0) ⬝ᵥ (w - w0))
  | (f, y) :: h => lam * rlsCost lam scale w0 w h + (y - w ⬝ᵥ f) ^ 2

/-- A rule trained on a history of (input, target) pairs, latest first: each time the prediction
is computed and then updated (cl.c:183-201). -/
def rlsRun (p : PredPar K) (tmp prediction : Nat → K) : List ((Nat → K) × (Nat → K)) → Rls K
  | [] => rlsInit p tmp
  | (x, y) :: h =>
    let o := rlsCompute p (rlsRun p tmp prediction h) prediction x
    rlsUpdate p o.1 o.2 y

/-- The features of an input as a vector. -/
def featVec (p : PredPar K) (x : Nat → K) : Fin (nFeatures p) → K := toVec _ (transform p x (fun _ => 0)).2

theorem rlsInit_spec (p : PredPar K) (tmp : Nat → K) :
    toMat (nFeatures p) (rlsInit p tmp).matrix = p.scale • 1 ∧
    ∀ o < p.yDim, rowVec (nFeatures p) (rlsInit p tmp).weights o =
      fun (j : Fin (nFeatures p)) => if (j : Nat) = 0 then p.x0 else 0 := by
  have hn : 0 < nFeatures p := by unfold nFeatures; split <;> omega
  constructor
  · obtain ⟨f1, f2⟩ := forN_arrSet (nFeatures p) (fun i => i * nFeatures p + i) (fun i _ j _ h => by
      have h' : i * (nFeatures p + 1) = j * (nFeatures p + 1) := by linarith
      exact Nat.eq_of_mul_eq_mul_right (by omega) h') (fun _ _ => p.scale) (fun _ => (0 : K))
    ext i j
    show forN (nFeatures p) (fun i M => arrSet M (i * nFeatures p + i) p.scale) (fun _ => 0)
      (i * nFeatures p + j) = _
    by_cases hij : i = j
    · subst hij; rw [f1 i i.2]; simp
    · have hij' : (i : Nat) ≠ (j : Nat) := fun h => hij (Fin.ext h)
      rw [f2]
      · simp [hij]
      · intro m hm e
        have hj := j.2
        rcases Nat.lt_trichotomy (i : Nat) m with h | h | h
        · have h3 : ((i : Nat) + 1) * nFeatures p ≤ m * nFeatures p := Nat.mul_le_mul_right _ h
          rw [Nat.add_mul] at h3; omega
        · subst h; omega
        · have h3 : (m + 1) * nFeatures p ≤ i * nFeatures p := Nat.mul_le_mul_right _ h
          rw [Nat.add_mul] at h3; omega
  · intro o ho
    ext j
    obtain ⟨f1, f2⟩ := C43_fill p.yDim p.x0 (fun _ => (0 : K)) (nFeatures p) hn
    show fill p.yDim p.x0 (fun _ => 0) (nFeatures p) (o * nFeatures p + j) = _
    have hj := j.2
    split
    · next h => rw [h]; exact f1 o ho
    · next h =>
      refine f2 _ (fun m _ e => h ?_)
      rcases Nat.lt_trichotomy o m with h' | h' | h'
      · have h3 : (o + 1) * nFeatures p ≤ m * nFeatures p := Nat.mul_le_mul_right _ h'
        rw [Nat.add_mul] at h3; omega
      · subst h'; omega
      · have h3 : (m + 1) * nFeatures p ≤ o * nFeatures p := Nat.mul_le_mul_right _ h'
        rw [Nat.add_mul] at h3; omega

theorem rlsRun_inv (p : PredPar K) (hl : 0 < p.lambda) (hsc : 0 < p.scale) (tmp prediction : Nat → K)
    (h : List ((Nat → K) × (Nat → K))) :
    (rlsRun p tmp prediction h).n = nFeatures p ∧
    toMat (nFeatures p) (rlsRun p tmp prediction h).matrix *
      corr p.lambda p.scale (h.map fun q => featVec p q.1) = 1 ∧
    (corr p.lambda p.scale (h.map fun q => featVec p q.1))ᵀ =
      corr p.lambda p.scale (h.map fun q => featVec p q.1) ∧
    (∀ v, 0 ≤ v ⬝ᵥ (corr p.lambda p.scale (h.map fun q => featVec p q.1) *ᵥ v)) ∧
    ∀ o < p.yDim, ∃ m, ∀ w,
      rlsCost p.lambda p.scale (fun j => if (j : Nat) = 0 then p.x0 else 0) w
        (h.map fun q => (featVec p q.1, q.2 o)) =
      m + (w - rowVec _ (rlsRun p tmp prediction h).weights o) ⬝ᵥ
        (corr p.lambda p.scale (h.map fun q => featVec p q.1) *ᵥ
          (w - rowVec _ (rlsRun p tmp prediction h).weights o)) := by
  induction h with
  | nil =>
    obtain ⟨i1, i2⟩ := rlsInit_spec p tmp
    refine ⟨rfl, ?_, ?_, ?_, ?_⟩
    · show toMat _ (rlsInit p tmp).matrix * (p.scale⁻¹ • 1) = 1
      rw [i1, Matrix.mul_smul, mul_one, smul_smul, inv_mul_cancel₀ hsc.ne', one_smul]
    · show (p.scale⁻¹ • (1 : Matrix _ _ K))ᵀ = p.scale⁻¹ • 1
      rw [transpose_smul, transpose_one]
    · intro v
      show 0 ≤ v ⬝ᵥ ((p.scale⁻¹ • (1 : Matrix _ _ K)) *ᵥ v)
      rw [smul_mulVec, one_mulVec, dotProduct_smul, smul_eq_mul]
      refine mul_nonneg (inv_nonneg.2 hsc.le) ?_
      exact sum_nonneg fun i _ => mul_self_nonneg _
    · intro o ho
      refine ⟨0, fun w => ?_⟩
      show p.scale⁻¹ * _ = 0 + (w - rowVec _ (rlsInit p tmp).weights o) ⬝ᵥ
        ((p.scale⁻¹ • (1 : Matrix _ _ K)) *ᵥ (w - rowVec _ (rlsInit p tmp).weights o))
      rw [i2 o ho, smul_mulVec, one_mulVec, dotProduct_smul, smul_eq_mul, zero_add]
  | cons q h ih =>
    obtain ⟨x, y⟩ := q
    obtain ⟨j1, j2, j3, j4, j5⟩ := ih
    set s := rlsRun p tmp prediction h with hs
    set C := corr p.lambda p.scale (h.map fun q => featVec p q.1) with hC
    set o1 := rlsCompute p s prediction x with ho1
    have hn1 : o1.1.n = nFeatures p := j1
    have hm1 : o1.1.matrix = s.matrix := rfl
    have hw1 : o1.1.weights = s.weights := rfl
    have hf : toVec (nFeatures p) o1.1.tmp = featVec p x := by
      ext i
      exact transform_agree p x s.tmp (fun _ => 0) i i.2
    have hpred : ∀ o < p.yDim, o1.2 o = rowVec (nFeatures p) s.weights o ⬝ᵥ featVec p x := by
      intro o ho
      have := compute_spec p s.n s.weights (transform p x s.tmp).2 prediction o ho
      refine Eq.trans this ?_
      rw [j1, sum_range, ← hf]
      rfl
    have hU := rlsUpdate_spec p o1.1 o1.2 y
    simp only at hU
    rw [hn1] at hU
    obtain ⟨u1, u2, u3⟩ := hU
    rw [hm1, hf] at u2 u3
    rw [hw1] at u3
    set P := toMat (nFeatures p) s.matrix with hP
    set f := featVec p x with hfx
    have hq : 0 ≤ f ⬝ᵥ (P *ᵥ f) := quad_nonneg j2 j4
    have hd : p.lambda + f ⬝ᵥ (P *ᵥ f) ≠ 0 := by
      have := add_pos_of_pos_of_nonneg hl hq; exact this.ne'
    have hgain := gain_solves (R := C) j2 hd rfl
    refine ⟨u1, ?_, ?_, ?_, ?_⟩
    · show toMat _ (rlsUpdate p o1.1 o1.2 y).matrix * (p.lambda • C + vecMulVec f f) = 1
      rw [u2]
      exact gain_inverse j2 hl.ne' hd rfl
    · exact sym_step j3
    · exact fun v => (pos_step hl.le j4 v).2
    · intro o ho
      obtain ⟨m, hm⟩ := j5 o ho
      refine ⟨p.lambda * m + (y o - rowVec _ s.weights o ⬝ᵥ f) ^ 2 *
        (1 - ((p.lambda + f ⬝ᵥ (P *ᵥ f))⁻¹ • (P *ᵥ f)) ⬝ᵥ f), fun w => ?_⟩
      show p.lambda * rlsCost p.lambda p.scale (fun j => if (j : Nat) = 0 then p.x0 else 0) w (h.map fun q => (featVec p q.1, q.2 o)) + (y o - w ⬝ᵥ f) ^ 2 =
        _ + (w - rowVec _ (rlsUpdate p o1.1 o1.2 y).weights o) ⬝ᵥ
          ((p.lambda • C + vecMulVec f f) *ᵥ (w - rowVec _ (rlsUpdate p o1.1 o1.2 y).weights o))
      rw [hm w, u3 o ho, hpred o ho]
      exact cost_step j3 hl.le j4 hgain w (rowVec _ s.weights o) (y o) m

/-- **C39**, gain matrix: after any history of samples, for any dimensions and both feature
sets, the matrix of a rule is the inverse of the forgetting-weighted correlation of the features
seen plus the scaled identity. -/
theorem C39_inverse_correlation (p : PredPar K) (hl : 0 < p.lambda) (hs : 0 < p.scale)
    (tmp prediction : Nat → K) (h : List ((Nat → K) × (Nat → K))) :
    toMat (nFeatures p) (rlsRun p tmp prediction h).matrix *
      corr p.lambda p.scale (h.map fun q => featVec p q.1) = 1 :=
  (rlsRun_inv p hl hs tmp prediction h).2.1

/-- **C39**, weights: for every output they minimise the forgetting-weighted, regularised squared
error over the whole history. -/
theorem C39_least_squares (p : PredPar K) (hl : 0 < p.lambda) (hs : 0 < p.scale)
    (tmp prediction : Nat → K) (h : List ((Nat → K) × (Nat → K))) (o : Nat) (ho : o < p.yDim)
    (w : Fin (nFeatures p) → K) :
    let w0 : Fin (nFeatures p) → K := fun j => if (j : Nat) = 0 then p.x0 else 0
    let samples := h.map fun q => (featVec p q.1, q.2 o)
    rlsCost p.lambda p.scale w0 (rowVec _ (rlsRun p tmp prediction h).weights o) samples ≤
      rlsCost p.lambda p.scale w0 w samples := by
  obtain ⟨_, _, _, j4, j5⟩ := rlsRun_inv p hl hs tmp prediction h
  obtain ⟨m, hm⟩ := j5 o ho
  intro w0 samples
  rw [hm w, hm (rowVec _ (rlsRun p tmp prediction h).weights o), sub_self, zero_dotProduct]
  have := j4 (w - rowVec _ (rlsRun p tmp prediction h).weights o)
  linarith

/-- **C39**, copies: a copy (every offspring is one) keeps the weights but starts with a fresh
gain matrix, so its next update is not the one the original would make. -/
theorem C39_copy_forgets (p : PredPar K) (src : Rls K) (tmp : Nat → K) :
    (∀ i < src.nWeights, (rlsCopy p src tmp).weights i = src.weights i) ∧
    toMat (nFeatures p) (rlsCopy p src tmp).matrix = p.scale • 1 :=
  ⟨fun _ hi => if_pos hi, (rlsInit_spec p tmp).1⟩

-- lambda = 1, scale = 1000: one linear sample x = (1), y = 2 on features (1, 1), initial weights
-- (1, 0): the gain is 1000 / 2001 for both, the error 1
example : (fun s : Rls ℚ => [s.weights 0, s.weights 1])
    (rlsRun ⟨1, 1, false, (1 : ℚ), 0, 0, false, 1, 1000, 0⟩ (fun _ => 0) (fun _ => 0)
      [(fun _ => 1, fun _ => 2)]) = [1 + 1000 / 2001, 1000 / 2001] := by decide +kernel

end Xcsf
