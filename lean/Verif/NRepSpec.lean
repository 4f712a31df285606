import Verif.NRep
import Verif.NGenLearnSpec

/-!
# Specification for property C79: legal networks of rules
-/

set_option linter.unusedSectionVars false

namespace Xcsf
variable {K R : Type} [Field K] [LinearOrder K] [IsStrictOrderedRing K] [FloorRing K]

/-- Bounds on the sizes of a network and the sizes of its input: `lim` bounds channels, weights and
outputs and tells whether numbers of neurons may evolve, `image` tells whether the input is an
image, `dim` are its sizes. -/
structure NetPlan where
  lim : Lim
  image : Bool
  dim : Dim

/-- The sizes of the last layer to be created behind a layer of sizes `d`. -/
def netDim : Dim → List (GArgs K) → Dim
  | d, [] => d
  | d, a :: as => netDim (a.dim d) as

/-- The layer has weights or is a softmax layer. -/
def GArgs.plain : GArgs K → Bool
  | .conn _ | .recu _ | .lstm _ _ | .conv _ | .soft _ => true
  | _ => false

/-- Whether the layer keeps its number of outputs, if `s` tells it of the layer before: the number of
neurons does not evolve, or there is an output for each input. -/
def GArgs.settles (s : Bool) : GArgs K → Bool
  | .conn a | .recu a | .lstm a _ => !a.opt.neurons
  | .soft _ | .drop _ | .noise _ => s
  | _ => false

/-- Whether the last layer keeps its number of outputs. -/
def settled : Bool → List (GArgs K) → Bool
  | s, [] => s
  | s, a :: as => settled (a.settles s) as

/-- If the layer is convolutional it is trained by gradient descent. -/
def GArgs.tuned : GArgs K → Bool
  | .conv a => a.base.opt.sgd
  | _ => true

/-- The layers a user may set for a network with `n` inputs: the sizes are within the limits of the
program and fit each other, there is no maxpool layer, and the output layer has weights or is a
softmax layer and keeps its size. -/
structure NetPlan.Legal (p : NetPlan) (n : Nat) (as : List (GArgs K)) : Prop where
  lim : p.lim.Ok
  pool : p.lim.maxpool = false
  weights : p.lim.M ≤ 20000000
  outputs : p.lim.N ≤ 2000000
  ne : as ≠ []
  dim : p.dim.Ok p.lim p.image
  ins : p.dim.n = n
  fit : ArgsFit p.lim p.image p.dim as
  first : ∀ a ∈ as.head?, a.first p.dim
  last : ∀ a ∈ as.getLast?, a.plain = true
  fixed : p.lim.evolve = true → settled true as = true

/-- Networks that are trained: recurrent layers trained by gradient descent have a fixed number of
neurons, convolutional layers are trained by gradient descent, and if numbers of neurons evolve then
all layers have weights or are softmax layers. -/
structure NetPlan.Trains (p : NetPlan) (as : List (GArgs K)) : Prop where
  teach : ∀ a ∈ as, a.Teachable
  conv : ∀ a ∈ as, a.tuned = true
  plain : p.lim.evolve = true → ∀ a ∈ as, a.plain = true

/-- The number of outputs of a network. -/
def NetPlan.outs (p : NetPlan) (as : List (GArgs K)) : Int := (netDim p.dim as).n

end Xcsf
