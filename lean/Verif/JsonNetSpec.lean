import Verif.JsonNet
import Verif.NGenSpec
import Verif.SerialSpec

/-!
# What the JSON of a network should show
-/

set_option linter.unusedSectionVars false

namespace Xcsf.JsonNet
open Xcsf
variable {K R : Type} [Field K] [LinearOrder K] [IsStrictOrderedRing K] [FloorRing K]

/-- The name of the type of a layer. -/
def typeName : GLay K → String
  | .conn _ => "connected"
  | .recu _ => "recurrent"
  | .lstm _ => "lstm"
  | .conv _ => "convolutional"
  | .maxp _ => "maxpool"
  | .avgp _ => "avgpool"
  | .ups _ => "upsample"
  | .drop _ => "dropout"
  | .noise _ => "noise"
  | .soft _ => "softmax"

/-- The activation functions of a layer, with the names they are shown under. -/
def functions : GLay K → List (String × Int)
  | .conn l => [("activation", l.fn)]
  | .recu l => [("activation", l.fn)]
  | .lstm l => [("activation", l.fn), ("recurrent_activation", l.rfn)]
  | .conv l => [("activation", l.core.fn)]
  | _ => []

/-- The arrays of weights and biases of a layer, with the names they are shown under. -/
def matrices : GLay K → List (String × CLay K)
  | .conn l => [("weights", l)]
  | .recu l => [("input_layer", l.inp), ("self_layer", l.self), ("output_layer", l.out)]
  | .lstm l => [("uf_layer", l.u.f), ("ui_layer", l.u.i), ("ug_layer", l.u.g), ("uo_layer", l.u.o),
      ("wf_layer", l.w.f), ("wi_layer", l.w.i), ("wg_layer", l.w.g), ("wo_layer", l.w.o)]
  | .conv l => [("weights", l.core)]
  | _ => []

/-- The learning rate of a layer with weights, and its mutation rates. -/
def learning : GLay K → Option (K × List K)
  | .conn l => some (l.eta, l.mu)
  | .recu l => some (l.eta, l.mu)
  | .lstm l => some (l.eta, l.mu)
  | .conv l => some (l.core.eta, l.core.mu)
  | _ => none

/-- `j` shows the weights of `c`: how many there are, how many are active and, if `w`, each one. -/
structure ShowsMatrix (w : Bool) (c : CLay K) (j : Json K) : Prop where
  weights : j.item "n_weights" = some (.num ((c.nOutputs * c.nInputs : Nat) : K))
  biases : j.item "n_biases" = some (.num (c.nOutputs : K))
  active : j.item "n_active" = some (.num ((c.ws.countP fun v => v.on : Nat) : K))
  each : j.item "weights" = if w then some (jsonNums (c.ws.map fun v => v.w)) else none
  offset : j.item "biases" = if w then some (jsonNums (c.ns.map fun n => n.bias)) else none

/-- `j` shows the layer `l`. The name of an activation function is the one by which the function is
chosen in the parameters of a network (`codeOf activationCodes`). -/
structure ShowsLayer (w : Bool) (l : GLay K) (j : Json K) : Prop where
  type : j.item "type" = some (.str (typeName l))
  ins : j.item "n_inputs" = some (.num (l.nIn : K))
  outs : j.item "n_outputs" = some (.num (l.dim.n : K))
  fns : ∀ p ∈ functions l, ∃ s : List Char, j.item p.1 = some (.str (String.ofList s)) ∧
    codeOf activationCodes s = some p.2
  arrays : ∀ p ∈ matrices l, ∃ a, j.item p.1 = some a ∧ ShowsMatrix w p.2 a
  rates : ∀ e, learning l = some e →
    j.item "eta" = some (.num e.1) ∧ j.item "mutation" = some (jsonNums e.2)

/-- The name of the `i`th layer. -/
def layerName (i : Nat) : String := "layer_" ++ toString i

/-- `j` shows the network: its members are its layers, in their order. -/
def ShowsNet (w : Bool) (ls : List (GLay K)) (j : Json K) : Prop :=
  (∃ m, j = .obj m ∧ m.map Prod.fst = (List.range ls.length).map layerName) ∧
  ∀ i l, ls[i]? = some l → ∃ o, j.item (layerName i) = some o ∧ ShowsLayer w l o

/-- What a network computes: the outputs of all layers, and the random numbers left. -/
def computes (g : Rng K R) (m : Libm K) (lo : K) (ls : List (GLay K)) (x : List K) (r : R) :
    Res (List (Res (List K)) × R) :=
  match genForward g m lo false ls x r with
  | .error e => .error e
  | .ok z => .ok (z.1.map GLay.outs, z.2)

end Xcsf.JsonNet
