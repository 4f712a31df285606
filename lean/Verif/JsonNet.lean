import Verif.Json
import Verif.Types
import Verif.NGen

/-!
# The JSON shown for neural networks

`neural_json_export` and what it uses. As in `Json.lean`, printing and reading back a JSON text is
taken to be the identity on values.
-/

set_option linter.unusedSectionVars false

namespace Xcsf.JsonNet
open Xcsf
variable {K : Type} [Field K] [LinearOrder K] [IsStrictOrderedRing K] [FloorRing K]

/-- `cJSON_AddStringToObject` of `neural_activation_string`, neural_activations.c:108-141: the
program ends if there is no such function. -/
def fnName (fn : Int) : Res (Json K) :=
  match nameOf activationNames fn with
  | .error e => .error e
  | .ok s => .ok (.str (String.ofList s))

/-- `cJSON_CreateDoubleArray(l->mu, N_MU)` with six rates, neural_layer_connected.c:30 and 364. -/
def rates (mu : List K) : Res (Json K) :=
  if mu.length < 6 then .error .ub else .ok (jsonNums (mu.take 6))

/-- `layer_weight_json`, neural_layer.c:323-341. The numbers of weights and biases are those of
the arrays. -/
def weightJson (w : Bool) (l : CLay K) : Json K :=
  .obj ([("n_weights", jsonOfInt l.ws.length)] ++
    (if w then [("weights", jsonNums (l.ws.map Wt.w))] else []) ++
    [("n_biases", jsonOfInt l.ns.length)] ++
    (if w then [("biases", jsonNums (l.ns.map Neuron.bias))] else []) ++
    [("n_active", jsonOfInt l.nActive)])

/-- `neural_layer_connected_json_export`, neural_layer_connected.c:353-373. -/
def connJson (w : Bool) (l : CLay K) : Res (Json K) := do
  let a ← fnName l.fn
  let mu ← rates l.mu
  .ok (.obj [("type", .str "connected"), ("activation", a), ("n_inputs", jsonOfInt l.nInputs),
    ("n_outputs", jsonOfInt l.nOutputs), ("eta", .num l.eta), ("mutation", mu),
    ("weights", weightJson w l)])

/-- `neural_layer_recurrent_json_export`, neural_layer_recurrent.c:457-485. -/
def recJson (w : Bool) (l : RLay K) : Res (Json K) := do
  let a ← fnName l.fn
  let mu ← rates l.mu
  .ok (.obj [("type", .str "recurrent"), ("activation", a), ("n_inputs", jsonOfInt l.nInputs),
    ("n_outputs", jsonOfInt l.nOutputs), ("eta", .num l.eta), ("mutation", mu),
    ("input_layer", weightJson w l.inp), ("self_layer", weightJson w l.self),
    ("output_layer", weightJson w l.out)])

/-- `neural_layer_lstm_json_export`, neural_layer_lstm.c:604-653. -/
def lstmJson (w : Bool) (l : TLay K) : Res (Json K) := do
  let a ← fnName l.fn
  let b ← fnName l.rfn
  let mu ← rates l.mu
  .ok (.obj [("type", .str "lstm"), ("activation", a), ("recurrent_activation", b),
    ("n_inputs", jsonOfInt l.nInputs), ("n_outputs", jsonOfInt l.nOutputs), ("eta", .num l.eta),
    ("mutation", mu), ("uf_layer", weightJson w l.u.f), ("ui_layer", weightJson w l.u.i),
    ("ug_layer", weightJson w l.u.g), ("uo_layer", weightJson w l.u.o),
    ("wf_layer", weightJson w l.w.f), ("wi_layer", weightJson w l.w.i),
    ("wg_layer", weightJson w l.w.g), ("wo_layer", weightJson w l.w.o)])

/-- `neural_layer_convolutional_json_export`, neural_layer_convolutional.c:513-537. -/
def convJson (w : Bool) (l : VLay K) : Res (Json K) := do
  let a ← fnName l.core.fn
  let mu ← rates l.core.mu
  .ok (.obj [("type", .str "convolutional"), ("activation", a), ("n_inputs", jsonOfInt l.nIn),
    ("n_outputs", jsonOfInt l.nOut), ("n_filters", jsonOfInt l.core.nOutputs),
    ("size", jsonOfInt l.size), ("stride", jsonOfInt l.stride), ("pad", jsonOfInt l.pad),
    ("eta", .num l.core.eta), ("mutation", mu), ("weights", weightJson w l.core)])

/-- `neural_layer_maxpool_json_export`, neural_layer_maxpool.c:291-312. -/
def maxJson (l : PLay K) : Json K :=
  .obj [("type", .str "maxpool"), ("n_inputs", jsonOfInt l.nIn), ("n_outputs", jsonOfInt l.nOut),
    ("height", jsonOfInt l.height), ("width", jsonOfInt l.width),
    ("channels", jsonOfInt l.channels), ("size", jsonOfInt l.size), ("stride", jsonOfInt l.stride),
    ("pad", jsonOfInt l.pad), ("out_w", jsonOfInt l.outW), ("out_h", jsonOfInt l.outH),
    ("out_c", jsonOfInt l.outC)]

/-- `neural_layer_avgpool_json_export`, neural_layer_avgpool.c:240-255. -/
def avgJson (l : PLay K) : Json K :=
  .obj [("type", .str "avgpool"), ("n_inputs", jsonOfInt l.nIn), ("n_outputs", jsonOfInt l.nOut),
    ("height", jsonOfInt l.height), ("width", jsonOfInt l.width),
    ("channels", jsonOfInt l.channels)]

/-- `neural_layer_upsample_json_export`, neural_layer_upsample.c:253-269. -/
def upJson (l : PLay K) : Json K :=
  .obj [("type", .str "upsample"), ("n_inputs", jsonOfInt l.nIn), ("n_outputs", jsonOfInt l.nOut),
    ("height", jsonOfInt l.height), ("width", jsonOfInt l.width),
    ("channels", jsonOfInt l.channels), ("stride", jsonOfInt l.stride)]

/-- `neural_layer_dropout_json_export`, neural_layer_dropout.c:239-252. -/
def dropJson (l : PLay K) : Json K :=
  .obj [("type", .str "dropout"), ("n_inputs", jsonOfInt l.nIn), ("n_outputs", jsonOfInt l.nOut),
    ("probability", .num l.probability)]

/-- `neural_layer_noise_json_export`, neural_layer_noise.c:237-250. -/
def noiseJson (l : PLay K) : Json K :=
  .obj [("type", .str "noise"), ("n_inputs", jsonOfInt l.nIn), ("n_outputs", jsonOfInt l.nOut),
    ("probability", .num l.probability), ("stdev", .num l.scale)]

/-- `neural_layer_softmax_json_export`, neural_layer_softmax.c:184-197. -/
def softJson (l : SLay K) : Json K :=
  .obj [("type", .str "softmax"), ("n_inputs", jsonOfInt l.nIn), ("n_outputs", jsonOfInt l.nOut),
    ("temperature", .num l.scale)]

/-- `layer_json_export`, neural_layer.h:281-284, for each type. -/
def layerJson (w : Bool) : GLay K → Res (Json K)
  | .conn l => connJson w l
  | .recu l => recJson w l
  | .lstm l => lstmJson w l
  | .conv l => convJson w l
  | .maxp l => .ok (maxJson l)
  | .avgp l => .ok (avgJson l)
  | .ups l => .ok (upJson l)
  | .drop l => .ok (dropJson l)
  | .noise l => .ok (noiseJson l)
  | .soft l => .ok (softJson l)

/-- The loop of `neural_json_export`, neural.c:413-421, from the layer with number `i`. -/
def netMembers (w : Bool) (i : Nat) : List (GLay K) → Res (List (String × Json K))
  | [] => .ok []
  | l :: ls => do
    let j ← layerJson w l
    let rest ← netMembers w (i + 1) ls
    .ok (("layer_" ++ toString i, j) :: rest)

/-- `neural_json_export`, neural.c:406-425; the layers are listed from the first one, where
`net->tail` points. -/
def netJson (w : Bool) (ls : List (GLay K)) : Res (Json K) := do
  let m ← netMembers w 0 ls
  .ok (.obj m)

/-- `cond_neural_json_export`, cond_neural.c:311-325, `act_neural_json_export`, act_neural.c:231-245,
`pred_neural_json_export`, pred_neural.c:391-405, of type "neural", and
`rule_neural_cond_json_export`, rule_neural.c:163-178, of type "rule_neural": what `json()` returns
for a condition, action or prediction that is a network. -/
def partJson (type : String) (ls : List (GLay K)) : Res (Json K) := do
  let n ← netJson false ls
  .ok (.obj [("type", .str type), ("network", n)])

/-- `cond_neural_json_import`, cond_neural.c:333-344, `act_neural_json_import`, act_neural.c:253-263,
`pred_neural_json_import`, pred_neural.c:413-424, and `rule_neural_cond_json_import`,
rule_neural.c:180-191, with `neural_json_import`, neural.c:433-442: the program ends whatever the JSON holds. -/
def partImport (j : Json K) : Res (List (GLay K)) :=
  match j.item "network" with
  | none => .error .exit
  | some _ => .error .exit

end Xcsf.JsonNet
