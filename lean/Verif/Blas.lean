import Mathlib.Algebra.Order.Field.Basic

/-!
# Linear algebra on flat arrays (`blas.c`)

A C array of `double` is a function from indices to values (bounds of the allocation are not
part of the array; which elements an operation writes is part of the theorems).  The `const`
input arrays and the output array are different objects, as in every call in the program.
-/

namespace Xcsf

/-- `for (int i = 0; i < n; ++i) s = f(i, s);` -/
def forN {σ : Type} : Nat → (Nat → σ → σ) → σ → σ
  | 0, _, s => s
  | n + 1, f, s => f n (forN n f s)

section
variable {K : Type} [Field K]

/-- `C[n] = v`. -/
def arrSet (C : Nat → K) (n : Nat) (v : K) : Nat → K := fun m => if m = n then v else C m

/-- `C[n] += v`. -/
def arrAdd (C : Nat → K) (n : Nat) (v : K) : Nat → K := fun m => if m = n then C m + v else C m

/-- `gemm_nn`, blas.c:26-39. -/
def gemmNN (M N P : Nat) (al : K) (A : Nat → K) (lda : Nat) (B : Nat → K) (ldb : Nat)
    (C : Nat → K) (ldc : Nat) : Nat → K :=
  forN M (fun i C => forN P (fun k C =>
    let aPart := al * A (i * lda + k)
    forN N (fun j C => arrAdd C (i * ldc + j) (aPart * B (k * ldb + j))) C) C) C

/-- `gemm_nt`, blas.c:41-55. -/
def gemmNT (M N P : Nat) (al : K) (A : Nat → K) (lda : Nat) (B : Nat → K) (ldb : Nat)
    (C : Nat → K) (ldc : Nat) : Nat → K :=
  forN M (fun i C => forN N (fun j C =>
    let sum := forN P (fun k s => s + al * A (i * lda + k) * B (j * ldb + k)) 0
    arrAdd C (i * ldc + j) sum) C) C

/-- `gemm_tn`, blas.c:57-70. -/
def gemmTN (M N P : Nat) (al : K) (A : Nat → K) (lda : Nat) (B : Nat → K) (ldb : Nat)
    (C : Nat → K) (ldc : Nat) : Nat → K :=
  forN M (fun i C => forN P (fun k C =>
    let aPart := al * A (k * lda + i)
    forN N (fun j C => arrAdd C (i * ldc + j) (aPart * B (k * ldb + j))) C) C) C

/-- `gemm_tt`, blas.c:72-86. -/
def gemmTT (M N P : Nat) (al : K) (A : Nat → K) (lda : Nat) (B : Nat → K) (ldb : Nat)
    (C : Nat → K) (ldc : Nat) : Nat → K :=
  forN M (fun i C => forN N (fun j C =>
    let sum := forN P (fun k s => s + al * A (i + k * lda) * B (k + j * ldb)) 0
    arrAdd C (i * ldc + j) sum) C) C

/-- `blas_gemm`, blas.c:107-126. -/
def gemm (TA TB : Bool) (M N P : Nat) (al : K) (A : Nat → K) (lda : Nat) (B : Nat → K)
    (ldb : Nat) (be : K) (C : Nat → K) (ldc : Nat) : Nat → K :=
  let C := forN M (fun i C => forN N (fun j C =>
    arrSet C (i * ldc + j) (C (i * ldc + j) * be)) C) C
  if !TA && !TB then gemmNN M N P al A lda B ldb C ldc
  else if TA && !TB then gemmTN M N P al A lda B ldb C ldc
  else if !TA && TB then gemmNT M N P al A lda B ldb C ldc
  else gemmTT M N P al A lda B ldb C ldc

variable [DecidableEq K]

/-- `blas_axpy`, blas.c:137-150; `off` is the offset of the pointer `Y` in its array. -/
def axpy (n : Nat) (al : K) (X : Nat → K) (incx : Nat) (Y : Nat → K) (off incy : Nat) : Nat → K :=
  if al ≠ 1 then forN n (fun i Y => arrAdd Y (off + i * incy) (al * X (i * incx))) Y
  else forN n (fun i Y => arrAdd Y (off + i * incy) (X (i * incx))) Y

/-- `blas_scal`, blas.c:159-171. -/
def scal (n : Nat) (al : K) (X : Nat → K) (incx : Nat) : Nat → K :=
  if al ≠ 0 then forN n (fun i X => arrSet X (i * incx) (X (i * incx) * al)) X
  else forN n (fun i X => arrSet X (i * incx) 0) X

omit [DecidableEq K]

/-- `blas_fill`, blas.c:180-186. -/
def fill (n : Nat) (al : K) (X : Nat → K) (incx : Nat) : Nat → K :=
  forN n (fun i X => arrSet X (i * incx) al) X

/-- `blas_dot`, blas.c:197-206; `offx` is the offset of the pointer `X`. -/
def dot (n : Nat) (X : Nat → K) (offx incx : Nat) (Y : Nat → K) (incy : Nat) : K :=
  forN n (fun i d => d + X (offx + i * incx) * Y (i * incy)) 0

/-- `blas_mul`, blas.c:216-223. -/
def mulV (n : Nat) (X : Nat → K) (incx : Nat) (Y : Nat → K) (incy : Nat) : Nat → K :=
  forN n (fun i Y => arrSet Y (i * incy) (Y (i * incy) * X (i * incx))) Y

/-- `blas_sum`, blas.c:231-239. -/
def sumV (X : Nat → K) (n : Nat) : K := forN n (fun i s => s + X i) 0

end
end Xcsf
