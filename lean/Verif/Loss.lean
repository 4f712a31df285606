import Verif.Blas
import Verif.Pa
import Mathlib.Algebra.Order.Field.Basic
import Mathlib.Algebra.Order.Group.Abs

/-!
# Loss functions (`loss.c`)

`sqrt` and `log` of libm are parameters.  Vectors are functions on indices; `n` is `y_dim`.
-/

namespace Xcsf
section
variable {K : Type} [Field K] [LinearOrder K] [IsStrictOrderedRing K]

/-- `loss_mae`, loss.c:34-43. -/
def lossMae (n : Nat) (pred y : Nat → K) : K :=
  forN n (fun i e => e + |y i - pred i|) 0 / (n : K)

/-- `loss_mse`, loss.c:52-61. -/
def lossMse (n : Nat) (pred y : Nat → K) : K :=
  forN n (fun i e => e + (y i - pred i) * (y i - pred i)) 0 / (n : K)

/-- `loss_rmse`, loss.c:70-74. -/
def lossRmse (sqrt : K → K) (n : Nat) (pred y : Nat → K) : K := sqrt (lossMse n pred y)

/-- `loss_log`, loss.c:84-92; `eps` is `DBL_EPSILON`. -/
def lossLog (log : K → K) (eps : K) (n : Nat) (pred y : Nat → K) : K :=
  -forN n (fun i e => e + y i * log (max (pred i) eps)) 0

/-- `loss_binary_log`, loss.c:101-110. -/
def lossBinaryLog (log : K → K) (eps : K) (n : Nat) (pred y : Nat → K) : K :=
  -forN n (fun i e => e + (y i * log (max (pred i) eps) +
    (1 - y i) * log (max (1 - pred i) eps))) 0

/-- `loss_onehot`, loss.c:119-127 (`argmax` exits for an empty vector). -/
def lossOnehot (n : Nat) (pred y : Nat → K) : Res K := do
  let i ← argmax ((List.range n).map pred)
  if y i ≠ 1 then .ok 1 else .ok 0

/-- The summand of `loss_huber`, loss.c:142-147, for the difference `a`. -/
def huber1 (delta a : K) : K :=
  if delta < |a| then 1 / 2 * delta * delta + delta * (|a| - delta) else 1 / 2 * a * a

/-- `loss_huber`, loss.c:136-151. -/
def lossHuber (delta : K) (n : Nat) (pred y : Nat → K) : K :=
  forN n (fun i e => e + huber1 delta (y i - pred i)) 0 / (n : K)

end
end Xcsf
