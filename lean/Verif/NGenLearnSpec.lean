import Verif.NGenLearn
import Verif.NGenSpec

/-!
# Specification for property C78: training networks of all kinds of layers
-/

set_option linter.unusedSectionVars false

namespace Xcsf
variable {K R : Type} [Field K] [LinearOrder K] [IsStrictOrderedRing K] [FloorRing K]

/-- What is done with a network that is also trained: `learn t x` adjusts it to the desired outputs
`t` for the input `x`. -/
inductive NTask (K : Type) where
  | net (o : NOp K)
  | learn (t x : Nat → K)

/-- The number of outputs of the output layer. -/
def headSize (ls : List (GLay K)) : Nat :=
  match ls.getLast? with
  | none => 0
  | some l => l.dim.n.toNat

/-- One step of the history of a network that is also trained; `n` is the length of the input, and
there are as many desired outputs as outputs. -/
def nworkStep (g : Rng K R) (m : Libm K) (lo : K) (fuel n : Nat) (ls : List (GLay K)) (r : R) :
    NTask K → Res (List (GLay K) × R)
  | .net o => nstep g m lo fuel n ls r o
  | .learn t x =>
    match genLearn m ls (ofArr (headSize ls) t) (ofArr n x) with
    | .error e => .error e
    | .ok ls => .ok (ls, r)

/-- A history of a network that is also trained. -/
def nwork (g : Rng K R) (m : Libm K) (lo : K) (fuel n : Nat) : List (NTask K) → List (GLay K) → R →
    Res (List (GLay K) × R)
  | [], ls, r => .ok (ls, r)
  | o :: os, ls, r =>
    match nworkStep g m lo fuel n ls r o with
    | .error e => .error e
    | .ok (ls, r) => nwork g m lo fuel n os ls r

/-- The network is only trained after an input has been propagated through it since it was last
created, copied, mutated or resized; `b` tells whether that is so at the start. -/
def trainedAfterUse : Bool → List (NTask K) → Bool
  | _, [] => true
  | _, .net (.forward _ _) :: os => trainedAfterUse true os
  | b, .net .rand :: os => trainedAfterUse b os
  | _, .net _ :: os => trainedAfterUse false os
  | b, .learn _ _ :: os => b && trainedAfterUse b os

/-- A recurrent layer is either not trained by gradient descent or has a fixed number of neurons. -/
def GArgs.Teachable : GArgs K → Prop
  | .recu a => a.opt.sgd = false ∨ a.opt.neurons = false
  | _ => True

end Xcsf
