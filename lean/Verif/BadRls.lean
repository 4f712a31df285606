import Verif.BadLinear
import Verif.BadNeural

/-!
# Recursive least squares over doubles

Predictions of recursive least squares (`pred_rls.c`) over doubles with infinities and values that are not
a number (`Double.lean`), with the scratch memory that is kept between updates.  Arrays are functions;
elements from `n` on are not looked at.
-/

namespace Xcsf.Double

variable {f : Format}

/-- `struct PredRLS`, pred_rls.h:31-40: weights of each output, gain matrix, `tmp_vec` and `tmp_matrix2`. -/
structure DRls (f : Format) where
  n : Nat
  ws : Nat → Nat → Dbl f
  mat : Nat → Nat → Dbl f
  vec : Nat → Dbl f
  scr : Nat → Nat → Dbl f

/-- The sums of `gemm_nn`, blas.c:26-39, and `blas_dot`, blas.c:197-206, in their order. -/
def sumD (n : Nat) (g : Nat → Dbl f) (s : Dbl f) : Dbl f := (List.range n).foldl (fun s k => s + g k) s

/-- `pred_rls_init`, pred_rls.c:33-60. -/
def rlsStart (n : Nat) (x0 scale : Dbl f) : DRls f :=
  { n := n
    ws := fun _ i => if i = 0 then x0 else 0
    mat := fun i j => if i = j then scale else 0
    vec := fun _ => 0
    scr := fun _ _ => 0 }

/-- `pred_rls_compute`, pred_rls.c:157-167: output `o` for the features `t`. -/
def DRls.predict (s : DRls f) (t : Nat → Dbl f) (o : Nat) : Dbl f := sumD s.n (fun k => s.ws o k * t k) 0

/-- The product of matrix and features, pred_rls.c:116; what was in the scratch memory is multiplied by
zero, blas.c:112-116. Multiplications by one are left out. -/
def DRls.product (s : DRls f) (t : Nat → Dbl f) (i : Nat) : Dbl f :=
  sumD s.n (fun k => s.mat i k * t k) (s.vec i * 0)

/-- The gain vector, pred_rls.c:116-120. -/
def DRls.gain (s : DRls f) (lambda : Dbl f) (t : Nat → Dbl f) (i : Nat) : Dbl f :=
  scalD (1 / (sumD s.n (fun k => t k * s.product t k) 0 + lambda)) (s.product t i)

/-- The entries of `tmp_matrix1`, pred_rls.c:127-136. -/
def DRls.rest (s : DRls f) (lambda : Dbl f) (t : Nat → Dbl f) (i j : Nat) : Dbl f :=
  if i = j then 1 - s.gain lambda t i * t j else (s.gain lambda t i * t j).minus

/-- `pred_rls_update`, pred_rls.c:105-149, after the prediction for the same input. -/
def DRls.learn (s : DRls f) (lambda : Dbl f) (t y : Nat → Dbl f) : DRls f :=
  let m2 : Nat → Nat → Dbl f := fun i j =>
    sumD s.n (fun k => s.rest lambda t i k * s.mat k j) (s.scr i j * 0)
  { s with
    ws := fun o i =>
      let e := y o - s.predict t o
      if e ≠ 1 then s.ws o i + e * s.gain lambda t i else s.ws o i + s.gain lambda t i
    mat := fun i j => m2 i j / lambda
    vec := s.gain lambda t
    scr := m2 }

/-- Updates with one sample after another, pred_rls.c:105-149. -/
def DRls.train (s : DRls f) (lambda : Dbl f) : List ((Nat → Dbl f) × (Nat → Dbl f)) → DRls f
  | [] => s
  | p :: l => (s.learn lambda p.1 p.2).train lambda l

/-- `pred_rls_copy`, pred_rls.c:68-76: the weights are copied, the rest is new. -/
def DRls.copy (s : DRls f) (x0 scale : Dbl f) : DRls f := { rlsStart s.n x0 scale with ws := s.ws }

end Xcsf.Double
