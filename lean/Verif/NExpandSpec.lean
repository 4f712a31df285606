import Verif.NExpand
import Verif.NRepSpec

/-!
# Specification for properties C90 and C91: networks that can grow
-/

set_option linter.unusedSectionVars false

namespace Xcsf
variable {K R : Type} [Field K] [LinearOrder K] [IsStrictOrderedRing K] [FloorRing K]

/-- Whether the layer has at most as many outputs as a layer may have neurons, if `s` tells it of
the layer before. -/
def GArgs.slim (s : Bool) : GArgs K → Bool
  | .conn _ | .recu _ | .lstm _ _ | .avgp _ => true
  | .soft _ | .drop _ | .noise _ => s
  | _ => false

/-- Whether the last layer has at most as many outputs as a layer may have neurons. -/
def slender : Bool → List (GArgs K) → Bool
  | s, [] => s
  | s, a :: as => slender (a.slim s) as

/-- A network whose layers can be increased: there is a hidden layer, the top one is not larger than
a layer of neurons may be, and the output layer does not work on an image. -/
structure Extensible (as : List (GArgs K)) : Prop where
  top : slender false as.dropLast = true
  out : ∀ a ∈ as.getLast?, a.image = false

end Xcsf
