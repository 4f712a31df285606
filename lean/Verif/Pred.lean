import Verif.Blas
import Verif.Rand

/-!
# Predictions (`pred_constant.c`, `pred_nlms.c`, `pred_rls.c`, `prediction.c`)

Arrays are functions of the index (see `Blas.lean`); `x` has `xDim` elements, targets and
predictions have `yDim`.  `double` is a linear ordered field (exact arithmetic).
-/

namespace Xcsf

/-- The parameters predictions read (prediction.h:38-52, `x_dim`, `y_dim`, `BETA`). -/
structure PredPar (K : Type) where
  xDim : Nat
  yDim : Nat
  /-- the type is one of the two quadratic ones -/
  quad : Bool
  x0 : K
  eta : K
  etaMin : K
  evolveEta : Bool
  lambda : K
  scale : K
  beta : K

section
variable {K R : Type} [Field K] [LinearOrder K] [IsStrictOrderedRing K]

/-! ## Features -/

/-- `tmp_input[idx] = v; ++idx;` -/
def push (s : Nat × (Nat → K)) (v : K) : Nat × (Nat → K) := (s.1 + 1, arrSet s.2 s.1 v)

/-- `pred_transform_input`, prediction.c:264-286: the final index and the array. -/
def transform (p : PredPar K) (x : Nat → K) (tmp : Nat → K) : Nat × (Nat → K) :=
  let s := (1, arrSet tmp 0 p.x0)
  let s := forN p.xDim (fun i s => push s (x i)) s
  if p.quad then
    forN p.xDim (fun i s => forN (p.xDim - i) (fun d s => push s (x i * x (i + d))) s) s
  else s

/-- The length of the weights per output, pred_nlms.c:49-54, pred_rls.c:39-44. -/
def nFeatures (p : PredPar K) : Nat :=
  if p.quad then 1 + 2 * p.xDim + p.xDim * (p.xDim - 1) / 2 else p.xDim + 1

/-! ## Constant prediction -/

/-- `pred_constant_update`, pred_constant.c:73-88. -/
def constUpdate (p : PredPar K) (exp : Nat) (prediction y : Nat → K) : Nat → K :=
  if (exp : K) * p.beta < 1 then
    forN p.yDim (fun i P => arrSet P i ((P i * ((exp : K) - 1) + y i) / (exp : K))) prediction
  else forN p.yDim (fun i P => arrSet P i (P i + p.beta * (y i - P i))) prediction

/-! ## Normalised least mean squares -/

/-- `struct PredNLMS`, pred_nlms.h:31-38. -/
structure Nlms (K : Type) where
  n : Nat
  nWeights : Nat
  weights : Nat → K
  mu : K
  eta : K
  tmp : Nat → K

/-- `pred_nlms_init`, pred_nlms.c:43-70 (`tmp_input` is not initialised: any contents). -/
def nlmsInit [FloorRing K] (g : Rng K R) (p : PredPar K) (tmp : Nat → K) (r : R) :
    Res (Nlms K × R) := do
  let n := nFeatures p
  let weights := fill p.yDim p.x0 (fun _ => 0) n
  if p.evolveEta then
    let (mu, r) ← samInit1 g .logNormal r
    let e := g.uni p.etaMin p.eta r
    .ok (⟨n, n * p.yDim, weights, mu, e.1, tmp⟩, e.2)
  else .ok (⟨n, n * p.yDim, weights, 0, p.eta, tmp⟩, r)

/-- `pred_nlms_compute`, pred_nlms.c:137-147: new state and prediction. -/
def nlmsCompute (p : PredPar K) (s : Nlms K) (prediction x : Nat → K) : Nlms K × (Nat → K) :=
  let tmp := (transform p x s.tmp).2
  ({ s with tmp := tmp },
    forN p.yDim (fun i P => arrSet P i (dot s.n s.weights (i * s.n) 1 tmp 1)) prediction)

/-- `pred_nlms_update`, pred_nlms.c:114-129. -/
def nlmsUpdate (p : PredPar K) (s : Nlms K) (prediction x y : Nat → K) : Nlms K :=
  let norm := p.x0 * p.x0 + dot p.xDim x 0 1 x 1
  { s with weights := forN p.yDim (fun i w =>
      let error := y i - prediction i
      let correction := (s.eta * error) / norm
      axpy s.n correction s.tmp 1 w (i * s.n) 1) s.weights }

/-- `pred_nlms_mutate`, pred_nlms.c:185-199. -/
def nlmsMutate [FloorRing K] (g : Rng K R) (p : PredPar K) (s : Nlms K) (r : R) :
    Res (Nlms K × Bool × R) :=
  if p.evolveEta then do
    let (mu, r) ← samAdapt1 g .logNormal s.mu r
    let z := g.normal 0 mu r
    let eta := clampK (s.eta + z.1) p.etaMin p.eta
    .ok ({ s with mu := mu, eta := eta }, decide (s.eta ≠ eta), z.2)
  else .ok (s, false, r)

/-- `pred_nlms_copy`, pred_nlms.c:78-88 (draws as in `pred_nlms_init`). -/
def nlmsCopy [FloorRing K] (g : Rng K R) (p : PredPar K) (src : Nlms K) (tmp : Nat → K) (r : R) :
    Res (Nlms K × R) := do
  let (d, r) ← nlmsInit g p tmp r
  .ok ({ d with
    weights := fun i => if i < src.nWeights then src.weights i else d.weights i
    mu := src.mu, eta := src.eta }, r)

/-! ## Recursive least squares -/

/-- `struct PredRLS`, pred_rls.h:31-40. -/
structure Rls (K : Type) where
  n : Nat
  nWeights : Nat
  weights : Nat → K
  matrix : Nat → K
  tmp : Nat → K
  tmpVec : Nat → K
  tmpM1 : Nat → K
  tmpM2 : Nat → K

/-- `pred_rls_init`, pred_rls.c:33-60. -/
def rlsInit (p : PredPar K) (tmp : Nat → K) : Rls K :=
  let n := nFeatures p
  { n := n
    nWeights := n * p.yDim
    weights := fill p.yDim p.x0 (fun _ => 0) n
    matrix := forN n (fun i M => arrSet M (i * n + i) p.scale) (fun _ => 0)
    tmp := tmp
    tmpVec := fun _ => 0
    tmpM1 := fun _ => 0
    tmpM2 := fun _ => 0 }

/-- `pred_rls_compute`, pred_rls.c:157-167. -/
def rlsCompute (p : PredPar K) (s : Rls K) (prediction x : Nat → K) : Rls K × (Nat → K) :=
  let tmp := (transform p x s.tmp).2
  ({ s with tmp := tmp },
    forN p.yDim (fun i P => arrSet P i (dot s.n s.weights (i * s.n) 1 tmp 1)) prediction)

/-- `pred_rls_update`, pred_rls.c:105-149. -/
def rlsUpdate (p : PredPar K) (s : Rls K) (prediction y : Nat → K) : Rls K :=
  let n := s.n
  let v := gemm false false n 1 n 1 s.matrix n s.tmp 1 0 s.tmpVec 1
  let divisor := dot n s.tmp 0 1 v 1
  let divisor := 1 / (divisor + p.lambda)
  let v := scal n divisor v 1
  let weights := forN p.yDim (fun i w =>
    let error := y i - prediction i
    axpy n error v 1 w (i * n) 1) s.weights
  let m1 := forN n (fun i M => forN n (fun j M =>
    let t := v i * s.tmp j
    arrSet M (i * n + j) (if i = j then 1 - t else -t)) M) s.tmpM1
  let m2 := gemm false false n n n 1 m1 n s.matrix n 0 s.tmpM2 n
  let matrix := forN n (fun i M => forN n (fun j M =>
    arrSet M (i * n + j) (m2 (i * n + j) / p.lambda)) M) s.matrix
  { s with weights := weights, matrix := matrix, tmpVec := v, tmpM1 := m1, tmpM2 := m2 }

/-- `pred_rls_copy`, pred_rls.c:68-76: the weights are copied, the gain matrix starts afresh. -/
def rlsCopy (p : PredPar K) (src : Rls K) (tmp : Nat → K) : Rls K :=
  let d := rlsInit p tmp
  { d with weights := fun i => if i < src.nWeights then src.weights i else d.weights i }

end
end Xcsf
