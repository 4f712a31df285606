import Verif.Json
import Verif.SerialSys
import Verif.Param

/-!
# Parameters as JSON (`param.c`, `ea.c`, `condition.c`, `prediction.c`, `action.c`,
`neural_layer_args.c`, the JSON functions of GP, DGP, ternary, NLMS and RLS arguments)

This is the interface of `xcsf.XCS(...)`, `set_params`, `internal_params` and `get_params`
(pybind_wrapper.cpp) and of the parameter files of the executable.

The state is the parameters (`SysPar`) and the state of the random number generator.  As in
`Json.lean` a document is its tree of values.  Every `..._json_import` function is a chain of tests
for the name of a member and the kind of its value; the names of a chain differ, so a chain is a
table looked up by name, and a member with a wrong kind of value is treated like one with an
unknown name.

Simplifications: strings contain no zero character except where `population_file` says so, and
`cJSON_GetObjectItem` (for `type` and `args`) minds the case of letters here.
-/

namespace Xcsf

section
variable {K R : Type} [Field K] [LinearOrder K] [IsStrictOrderedRing K] [FloorRing K]

/-! ## Reading -/

/-- `json->child`, as far as its names are used: an array with elements has members without names,
on which `strncmp` is called. -/
def Json.members : Json K → Res (List (String × Json K))
  | .obj l => .ok l
  | .arr (_ :: _) => .error .ub
  | _ => .ok []

/-- `json->child` where names are not used. -/
def Json.children : Json K → List (Json K)
  | .obj l => l.map Prod.snd
  | .arr l => l
  | _ => []

/-- What a member of a document does to a state, if its value is of the right kind. -/
abbrev Setter (K S : Type) := Json K → Option (S → Res S)

/-- `cJSON_IsNumber(json)` and a setter for `json->valuedouble`; a value the setter refuses ends the
program (`catch_error`, utils.h:133-140). -/
def numSet {S : Type} (ok : K → Bool) (put : K → S → S) : Setter K S
  | .num v => some fun s => if ok v then .ok (put v s) else .error .exit
  | _ => none

/-- `cJSON_IsNumber(json)` and a setter for `json->valueint`. -/
def intSet {S : Type} (ok : Int → Bool) (put : Int → S → S) : Setter K S
  | .num v => some fun s => if ok (jsonInt v) then .ok (put (jsonInt v) s) else .error .exit
  | _ => none

/-- `cJSON_IsBool(json)` and a setter. -/
def boolSet {S : Type} (put : Bool → S → S) : Setter K S
  | .bool b => some fun s => .ok (put b s)
  | _ => none

/-- `cJSON_IsString(json)` and a setter for the code of that name; unknown names end the program. -/
def nameSet {S : Type} (codes : List (List Char × Nat × Int)) (put : Int → S → S) : Setter K S
  | .str t => some fun s =>
    match codeOf codes t.toList with
    | some c => .ok (put c s)
    | none => .error .exit
  | _ => none

/-- One member of a document; those that are not found end the program. -/
def importMember {S : Type} (table : List (String × Setter K S)) (s : S) (m : String × Json K) :
    Res S :=
  match table.lookup m.1 with
  | none => .error .exit
  | some f =>
    match f m.2 with
    | none => .error .exit
    | some h => h s

/-- A loop over the members of a document. -/
def importAll {S : Type} (table : List (String × Setter K S)) (s : S)
    (l : List (String × Json K)) : Res S :=
  l.foldlM (importMember table) s

/-- `if (a < 0 || a > 1)`. -/
def unitK (v : K) : Bool := !(decide (v < 0) || decide (1 < v))

/-- `if (a < 0)`. -/
def nonnegK (v : K) : Bool := !decide (v < 0)

/-- The setters that print a warning and take the nearest limit, condition.c:377-426,
prediction.c:290-316. -/
def clamp01 (v : K) : K := if v < 0 then 0 else if 1 < v then 1 else v

/-- The setters of integers that print a warning and take one instead, condition.c:428-436,
gp.c:564-607, dgp.c:718-761. -/
def clamp1 (a : Int) : Int := if a < 1 then 1 else a

/-- A value without a limit. -/
def anyK {α : Type} (_ : α) : Bool := true

/-! ## Evolutionary algorithm, ea.c -/

/-- `ea_param_json_import`, ea.c:282-327, with the setters ea.c:408-500. -/
def eaTable : List (String × Setter K (EaFile K)) :=
  [("select_type", nameSet eaCodes fun c p => { p with selectType := c }),
   ("select_size", numSet unitK fun v p => { p with selectSize := v }),
   ("theta_ea", numSet nonnegK fun v p => { p with theta := v }),
   ("lambda", intSet (fun a => decide (2 ≤ a)) fun a p => { p with lambda := a }),
   ("p_crossover", numSet unitK fun v p => { p with pCrossover := v }),
   ("err_reduc", numSet unitK fun v p => { p with errReduc := v }),
   ("fit_reduc", numSet unitK fun v p => { p with fitReduc := v }),
   ("subsumption", boolSet fun b p => { p with subsumption := b }),
   ("pred_reset", boolSet fun b p => { p with predReset := b })]

/-- `ea_param_json_export`, ea.c:256-275. -/
def eaExport (p : EaFile K) : Res (Json K) := do
  let t ← nameOf eaNames p.selectType
  .ok (.obj ([("select_type", .str (String.ofList t))] ++
    (if p.selectType = 1 then [("select_size", .num p.selectSize)] else []) ++
    [("theta_ea", .num p.theta), ("lambda", jsonOfInt p.lambda),
     ("p_crossover", .num p.pCrossover), ("err_reduc", .num p.errReduc),
     ("fit_reduc", .num p.fitReduc), ("subsumption", .bool p.subsumption),
     ("pred_reset", .bool p.predReset)]))

/-! ## Layers, neural_layer_args.c -/

/-- `layer_receives_images`, neural_layer.c:521-532. -/
def receivesImages (t : Int) : Bool := t = 8 ∨ t = 6 ∨ t = 9 ∨ t = 7

/-- `layer_args_json_import`, neural_layer_args.c:414-442, with the functions it calls: 147-173,
201-227, 250-276, 311-325, 356-369 (`recurrent_activation` is treated in `layerMember`).  `n_inputs` is accepted and ignored. -/
def layerTable0 : List (String × Setter K (LArg K)) :=
  [("type", nameSet layerCodes fun c a => { a with type := c }),
   ("activation", nameSet activationCodes fun c a => { a with fn := c }),
   ("height", intSet anyK fun v a => { a with height := v }),
   ("width", intSet anyK fun v a => { a with width := v }),
   ("channels", intSet anyK fun v a => { a with channels := v }),
   ("size", intSet anyK fun v a => { a with size := v }),
   ("stride", intSet anyK fun v a => { a with stride := v }),
   ("pad", intSet anyK fun v a => { a with pad := v }),
   ("n_inputs", intSet anyK fun _ a => a),
   ("probability", numSet anyK fun v a => { a with probability := v }),
   ("scale", numSet anyK fun v a => { a with scale := v }),
   ("n_init", intSet anyK fun v a => { a with nInit := v }),
   ("evolve_weights", boolSet fun b a => { a with evolveWeights := b }),
   ("evolve_functions", boolSet fun b a => { a with evolveFunctions := b }),
   ("evolve_connect", boolSet fun b a => { a with evolveConnect := b }),
   ("evolve_neurons", boolSet fun b a => { a with evolveNeurons := b }),
   ("n_max", intSet anyK fun v a => { a with nMax := v }),
   ("max_neuron_grow", intSet anyK fun v a => { a with maxGrow := v }),
   ("sgd_weights", boolSet fun b a => { a with sgdWeights := b }),
   ("eta", numSet anyK fun v a => { a with eta := v }),
   ("evolve_eta", boolSet fun b a => { a with evolveEta := b }),
   ("eta_min", numSet anyK fun v a => { a with etaMin := v }),
   ("momentum", numSet anyK fun v a => { a with momentum := v }),
   ("decay", numSet anyK fun v a => { a with decay := v })]

/-- `recurrent_activation`, neural_layer_args.c:317-319: 17 characters are compared. -/
def isRecurrentActivation (name : String) : Bool :=
  strncmpEq 17 name.toList "recurrent_activation".toList

/-- One round of the loop of `layer_args_json_import`, neural_layer_args.c:417-440. -/
def layerMember (a : LArg K) (m : String × Json K) : Res (LArg K) :=
  if isRecurrentActivation m.1 then
    importMember [(m.1, nameSet activationCodes fun c a => { a with rfn := c })] a m
  else importMember layerTable0 a m

/-- `layer_args_validate_inputs`, neural_layer_args.c:464-493; the product of the three sizes
must fit into an `int`. -/
def validateInputs (a : LArg K) : Res (LArg K) := do
  let a ← (if a.type = 1 ∨ a.type = 2 then
      (if a.nInputs < 1 then
        (if overflows (a.channels * a.height) ∨ overflows (a.channels * a.height * a.width) then
          .error .ub
        else .ok { a with nInputs := a.channels * a.height * a.width })
      else if a.channels < 1 ∨ a.height < 1 ∨ a.width < 1 then
        .ok { a with channels := 1, height := 1, width := a.nInputs }
      else .ok a)
    else .ok a)
  if receivesImages a.type then
    (if a.channels < 1 ∨ a.height < 1 ∨ a.width < 1 then .error .exit else .ok a)
  else if a.nInputs < 1 then .error .exit
  else .ok a

/-- The loop of `layer_args_validate`, neural_layer_args.c:508-517, for one layer. -/
def validateLayer (a : LArg K) : Res (LArg K) :=
  if a.evolveNeurons ∧ a.maxGrow < 1 then .error .exit
  else .ok (if a.nMax < a.nInit then { a with nMax := a.nInit } else a)

/-- `layer_args_validate`, neural_layer_args.c:499-518. -/
def validateLayers : List (LArg K) → Res (List (LArg K))
  | [] => .error .exit
  | a :: as => do
    let a ← validateInputs a
    (a :: as).mapM validateLayer

/-- One layer of `cond_neural_param_json_import`, cond_neural.c:356-371. -/
def importLayer (xDim : Int) (j : Json K) : Res (LArg K) := do
  let l ← j.members
  l.foldlM layerMember { LArg.zero with nInputs := xDim }

/-- `cond_neural_param_json_import`, cond_neural.c:353-376, `act_neural_param_json_import`,
act_neural.c:304-328, and `pred_neural_param_json_import`, pred_neural.c:464-488; names of the
layers are not used. -/
def importLayers (xDim : Int) (j : Json K) : Res (List (LArg K)) := do
  let as ← j.children.mapM (importLayer xDim)
  validateLayers as

/-- The options of a layer. -/
def LArg.opt (a : LArg K) : LOpt :=
  ⟨a.evolveWeights, a.evolveNeurons, a.evolveFunctions, a.sgdWeights, a.evolveEta,
    a.evolveConnect⟩

/-- The arguments as a connected, recurrent or LSTM layer reads them.  Numbers of inputs or neurons
below zero are those of an empty layer here: both end the program. -/
def LArg.cargs (a : LArg K) : CArgs K :=
  { nInputs := a.nInputs.toNat, nInit := a.nInit.toNat, nMax := a.nMax, maxGrow := a.maxGrow,
    fn := a.fn, opt := a.opt, eta := a.eta, etaMin := a.etaMin, momentum := a.momentum,
    decay := a.decay }

/-- The arguments as the layers without weights read them. -/
def LArg.pargs (a : LArg K) : PArgs K :=
  { height := a.height, width := a.width, channels := a.channels, pad := a.pad, size := a.size,
    stride := a.stride, nInputs := a.nInputs, probability := a.probability, scale := a.scale }

/-- The arguments as a convolutional layer reads them. -/
def LArg.vargs (a : LArg K) : VArgs K :=
  { base := a.cargs, height := a.height, width := a.width, channels := a.channels, size := a.size,
    stride := a.stride, pad := a.pad }

/-- `layer_set_vptr`, neural_layer.c:41-80: the layer to build; other types end the program. -/
def LArg.gargs (a : LArg K) : Res (GArgs K) :=
  if a.type = 0 then .ok (.conn a.cargs)
  else if a.type = 1 then .ok (.drop a.pargs)
  else if a.type = 2 then .ok (.noise a.pargs)
  else if a.type = 3 then .ok (.soft a.pargs)
  else if a.type = 4 then .ok (.recu a.cargs)
  else if a.type = 5 then .ok (.lstm a.cargs a.rfn)
  else if a.type = 6 then .ok (.maxp a.pargs)
  else if a.type = 7 then .ok (.conv a.vargs)
  else if a.type = 8 then .ok (.avgp a.pargs)
  else if a.type = 9 then .ok (.ups a.pargs)
  else .error .exit

/-- What `neural_create` writes into the arguments of a layer behind another, neural.c:59-76. -/
def LArg.behind (d : Dim) (a : LArg K) : LArg K :=
  let a := { a with height := d.h, width := d.w, channels := d.c, nInputs := d.n }
  if a.type = 8 ∨ a.type = 6 ∨ a.type = 1 ∨ a.type = 9 ∨ a.type = 3 ∨ a.type = 2 then
    { a with nInit := d.n }
  else a

/-- The arguments of a layer when it is built, neural.c:59-77: nothing is written for the first. -/
def LArg.placed (d : Option Dim) (a : LArg K) : LArg K :=
  match d with
  | none => a
  | some d => a.behind d

/-- The loop of `neural_create`, neural.c:58-82: the layers, and the arguments it leaves. -/
def createLoop (g : Rng K R) : Option Dim → List (LArg K) → R →
    Res ((List (GLay K) × List (LArg K)) × R)
  | _, [], r => .ok (([], []), r)
  | d, a :: as, r => do
    let ga ← (a.placed d).gargs
    let (l, r) ← layerInit g ga r
    let ((ls, as), r) ← createLoop g (some l.dim) as r
    .ok ((l :: ls, a.placed d :: as), r)

/-- `neural_create`, neural.c:53-87: the network, and the arguments it leaves. -/
def createNet (g : Rng K R) (as : List (LArg K)) (r : R) :
    Res ((List (GLay K) × List (LArg K)) × R) := do
  let ((ls, as), r) ← createLoop g none as r
  match ls.head?, ls.getLast? with
  | some l, some o => if l.nIn < 1 ∨ o.dim.n < 1 then .error .exit else .ok ((ls, as), r)
  | _, _ => .error .exit

/-- `layer_args_json_export_inputs`, neural_layer_args.c:114-139. -/
def inputMembers (a : LArg K) : List (String × Json K) :=
  if receivesImages a.type then
    (if 0 < a.height then [("height", jsonOfInt a.height)] else []) ++
    (if 0 < a.width then [("width", jsonOfInt a.width)] else []) ++
    (if 0 < a.channels then [("channels", jsonOfInt a.channels)] else []) ++
    (if 0 < a.size then [("size", jsonOfInt a.size)] else []) ++
    (if 0 < a.stride then [("stride", jsonOfInt a.stride)] else []) ++
    (if 0 < a.pad then [("pad", jsonOfInt a.pad)] else [])
  else [("n_inputs", jsonOfInt a.nInputs)]

/-- `layer_args_json_export_activation`, neural_layer_args.c:282-304. -/
def activationMembers (a : LArg K) : Res (List (String × Json K)) :=
  if a.type = 8 ∨ a.type = 6 ∨ a.type = 9 ∨ a.type = 1 ∨ a.type = 2 ∨ a.type = 3 then .ok []
  else do
    let f ← nameOf activationNames a.fn
    if a.type = 5 then do
      let h ← nameOf activationNames a.rfn
      .ok [("activation", .str (String.ofList f)), ("recurrent_activation", .str (String.ofList h))]
    else .ok [("activation", .str (String.ofList f))]

/-- `layer_args_json_export_scale`, neural_layer_args.c:332-349: the members and whether the layer
ends there. -/
def scaleMembers (a : LArg K) : List (String × Json K) × Bool :=
  ((if a.type = 2 ∨ a.type = 1 then [("probability", .num a.probability)] else []) ++
    (if a.type = 2 ∨ a.type = 3 then [("scale", .num a.scale)] else []),
   a.type = 2 ∨ a.type = 1 ∨ a.type = 3 ∨ a.type = 6)

/-- `layer_args_json_export_evo`, neural_layer_args.c:231-242. -/
def evoMembers (a : LArg K) : List (String × Json K) :=
  [("evolve_weights", .bool a.evolveWeights), ("evolve_functions", .bool a.evolveFunctions),
   ("evolve_connect", .bool a.evolveConnect), ("evolve_neurons", .bool a.evolveNeurons)] ++
  (if a.evolveNeurons then
    [("n_max", jsonOfInt a.nMax), ("max_neuron_grow", jsonOfInt a.maxGrow)] else [])

/-- `layer_args_json_export_sgd`, neural_layer_args.c:180-193. -/
def sgdMembers (a : LArg K) : List (String × Json K) :=
  [("sgd_weights", .bool a.sgdWeights)] ++
  (if a.sgdWeights then
    [("eta", .num a.eta), ("evolve_eta", .bool a.evolveEta)] ++
    (if a.evolveEta then [("eta_min", .num a.etaMin)] else []) ++
    [("momentum", .num a.momentum), ("decay", .num a.decay)] else [])

/-- The loop of `layer_args_json_export`, neural_layer_args.c:385-404, for one layer. -/
def layerMembers (a : LArg K) : Res (List (String × Json K)) := do
  let t ← nameOf layerNames a.type
  let f ← activationMembers a
  let l := [("type", .str (String.ofList t))] ++ f ++ inputMembers a ++ (scaleMembers a).1
  .ok (if (scaleMembers a).2 then l
    else l ++ (if 0 < a.nInit then [("n_init", jsonOfInt a.nInit)] else []) ++ evoMembers a ++
      sgdMembers a)

/-- The members of the exported object: the layers under `layer_0`, `layer_1`, ... -/
def numbered (js : List (Json K)) : List (String × Json K) :=
  (js.zipIdx).map fun q => ("layer_" ++ toString q.2, q.1)

/-- `layer_args_json_export`, neural_layer_args.c:376-408: a network is built to fill in the
arguments, which stay changed, and random numbers are drawn for it. -/
def exportLayers (g : Rng K R) (as : List (LArg K)) (r : R) : Res ((Json K × List (LArg K)) × R) := do
  let ((_, as), r) ← createNet g as r
  let ls ← as.mapM layerMembers
  .ok ((.obj (numbered (ls.map .obj)), as), r)

/-! ## Conditions, condition.c -/

/-- `cond_param_json_import_csr`, condition.c:205-225. -/
def csrTable : List (String × Setter K (CondFile K)) :=
  [("eta", numSet anyK fun v c => { c with eta := clamp01 v }),
   ("min", numSet anyK fun v c => { c with min := v }),
   ("max", numSet anyK fun v c => { c with max := v }),
   ("spread_min", numSet anyK fun v c => { c with spreadMin := if v < 0 then 0 else v })]

/-- `cond_ternary_param_json_import`, cond_ternary.c:405-419. -/
def ternTable : List (String × Setter K (CondFile K)) :=
  [("p_dontcare", numSet anyK fun v c => { c with pDontcare := clamp01 v }),
   ("bits", intSet anyK fun a c => { c with bits := clamp1 a })]

/-- `tree_args_json_import`, gp.c:469-494. -/
def treeTable : List (String × Setter K (TreePar K)) :=
  [("min_constant", numSet anyK fun v t => { t with min := v }),
   ("max_constant", numSet anyK fun v t => { t with max := v }),
   ("n_constants", intSet anyK fun a t => { t with nConstants := clamp1 a }),
   ("init_depth", intSet anyK fun a t => { t with initDepth := clamp1 a }),
   ("max_len", intSet anyK fun a t => { t with maxLen := clamp1 a })]

/-- `graph_args_json_import`, dgp.c:658-680. -/
def graphTable : List (String × Setter K GraphPar) :=
  [("max_k", intSet anyK fun a d => { d with maxK := clamp1 a }),
   ("max_t", intSet anyK fun a d => { d with maxT := clamp1 a }),
   ("n", intSet anyK fun a d => { d with n := clamp1 a }),
   ("evolve_cycles", boolSet fun b d => { d with evolve := b })]

/-- `tree_args_init_constants`, gp.c:539-549. -/
def drawConstants (g : Rng K R) (t : TreePar K) (r : R) : TreePar K × R :=
  let z := drawN (g.uni t.min t.max) t.nConstants.toNat r
  ({ t with constants := z.1 }, z.2)

/-- `cond_param_json_import`, condition.c:280-309. -/
def condArgsImport (g : Rng K R) (xDim : Int) (c : CondFile K) (j : Json K) (r : R) :
    Res (CondFile K × R) :=
  if c.type = 7 then do
    let c ← importAll ternTable c (← j.members)
    .ok (c, r)
  else if c.type = 3 ∨ c.type = 1 ∨ c.type = 2 then do
    let c ← importAll csrTable c (← j.members)
    .ok (c, r)
  else if c.type = 5 then do
    let t ← importAll treeTable c.targs (← j.members)
    let z := drawConstants g t r
    .ok ({ c with targs := z.1 }, z.2)
  else if c.type = 6 ∨ c.type = 11 then do
    let d ← importAll graphTable c.dargs (← j.members)
    .ok ({ c with dargs := d }, r)
  else if c.type = 4 ∨ c.type = 12 ∨ c.type = 13 then do
    let l ← importLayers xDim j
    .ok ({ c with largs := l }, r)
  else .error .exit

/-- The code of the `type` member; the program ends if there is none or it is unknown. -/
def typeMember (codes : List (List Char × Nat × Int)) (j : Json K) : Res Int :=
  match j.item "type" with
  | some (.str t) =>
    match codeOf codes t.toList with
    | some c => .ok c
    | none => .error .exit
  | _ => .error .exit

/-- `param_json_import_condition`, param.c:376-399. -/
def condParImport (g : Rng K R) (xDim : Int) (c : CondFile K) (j : Json K) (r : R) :
    Res (CondFile K × R) := do
  let t ← typeMember condCodes j
  match j.item "args" with
  | none => .ok ({ c with type := t }, r)
  | some a => condArgsImport g xDim { c with type := t } a r

/-- `cond_param_json_export`, condition.c:232-273, with 185-197, cond_ternary.c:387-396,
gp.c:449-461 and dgp.c:639-650. -/
def condParExport (g : Rng K R) (c : CondFile K) (r : R) : Res ((Json K × CondFile K) × R) := do
  let t ← nameOf condNames c.type
  let head : String × Json K := ("type", .str (String.ofList t))
  if c.type = 7 then
    .ok ((.obj [head, ("args", .obj [("p_dontcare", .num c.pDontcare),
      ("bits", jsonOfInt c.bits)])], c), r)
  else if c.type = 3 ∨ c.type = 1 ∨ c.type = 2 then
    .ok ((.obj [head, ("args", .obj [("eta", .num c.eta), ("min", .num c.min), ("max", .num c.max),
      ("spread_min", .num c.spreadMin)])], c), r)
  else if c.type = 5 then
    .ok ((.obj [head, ("args", .obj [("min_constant", .num c.targs.min),
      ("max_constant", .num c.targs.max), ("n_constants", jsonOfInt c.targs.nConstants),
      ("init_depth", jsonOfInt c.targs.initDepth), ("max_len", jsonOfInt c.targs.maxLen)])], c), r)
  else if c.type = 6 ∨ c.type = 11 then
    .ok ((.obj [head, ("args", .obj [("max_k", jsonOfInt c.dargs.maxK),
      ("max_t", jsonOfInt c.dargs.maxT), ("n", jsonOfInt c.dargs.n),
      ("evolve_cycles", .bool c.dargs.evolve)])], c), r)
  else if c.type = 4 ∨ c.type = 12 ∨ c.type = 13 then do
    let ((j, l), r) ← exportLayers g c.largs r
    .ok ((.obj [head, ("args", j)], { c with largs := l }), r)
  else .ok ((.obj [head], c), r)

/-! ## Actions, action.c -/

/-- `param_json_import_action`, param.c:346-369, with `action_param_json_import`,
action.c:132-148. -/
def actParImport (xDim : Int) (a : ActFile K) (j : Json K) : Res (ActFile K) := do
  let t ← typeMember actCodes j
  match j.item "args" with
  | none => .ok { a with type := t }
  | some k =>
    if t = 1 then do
      let l ← importLayers xDim k
      .ok { type := t, largs := l }
    else .ok { a with type := t }

/-- `action_param_json_export`, action.c:103-123. -/
def actParExport (g : Rng K R) (a : ActFile K) (r : R) : Res ((Json K × ActFile K) × R) := do
  let t ← nameOf actNames a.type
  let head : String × Json K := ("type", .str (String.ofList t))
  if a.type = 1 then do
    let ((j, l), r) ← exportLayers g a.largs r
    .ok ((.obj [head, ("args", j)], { a with largs := l }), r)
  else .ok ((.obj [head], a), r)

/-! ## Predictions, prediction.c -/

/-- `pred_nlms_param_json_import`, pred_nlms.c:341-363. -/
def nlmsTable : List (String × Setter K (PredFile K)) :=
  [("x0", numSet anyK fun v p => { p with x0 := v }),
   ("eta", numSet anyK fun v p => { p with eta := clamp01 v }),
   ("evolve_eta", boolSet fun b p => { p with evolveEta := b }),
   ("eta_min", numSet anyK fun v p => { p with etaMin := clamp01 v })]

/-- `pred_rls_param_json_import`, pred_rls.c:342-360. -/
def rlsTable : List (String × Setter K (PredFile K)) :=
  [("x0", numSet anyK fun v p => { p with x0 := v }),
   ("lambda", numSet anyK fun v p => { p with lambda := v }),
   ("scale_factor", numSet anyK fun v p => { p with scaleFactor := v })]

/-- `param_json_import_prediction`, param.c:406-429, with `pred_param_json_import`,
prediction.c:182-205. -/
def predParImport (xDim : Int) (p : PredFile K) (j : Json K) : Res (PredFile K) := do
  let t ← typeMember predCodes j
  match j.item "args" with
  | none => .ok { p with type := t }
  | some k =>
    if t = 1 ∨ t = 2 then do importAll nlmsTable { p with type := t } (← k.members)
    else if t = 3 ∨ t = 4 then do importAll rlsTable { p with type := t } (← k.members)
    else if t = 5 then do
      let l ← importLayers xDim k
      .ok { p with type := t, largs := l }
    else .ok { p with type := t }

/-- `pred_param_json_export`, prediction.c:138-174, with pred_nlms.c:319-333 and
pred_rls.c:323-334. -/
def predParExport (g : Rng K R) (p : PredFile K) (r : R) : Res ((Json K × PredFile K) × R) := do
  let t ← nameOf predNames p.type
  let head : String × Json K := ("type", .str (String.ofList t))
  if p.type = 1 ∨ p.type = 2 then
    .ok ((.obj [head, ("args", .obj ([("x0", .num p.x0), ("eta", .num p.eta),
      ("evolve_eta", .bool p.evolveEta)] ++
      (if p.evolveEta then [("eta_min", .num p.etaMin)] else [])))], p), r)
  else if p.type = 3 ∨ p.type = 4 then
    .ok ((.obj [head, ("args", .obj [("x0", .num p.x0), ("lambda", .num p.lambda),
      ("scale_factor", .num p.scaleFactor)])], p), r)
  else if p.type = 5 then do
    let ((j, l), r) ← exportLayers g p.largs r
    .ok ((.obj [head, ("args", j)], { p with largs := l }), r)
  else .ok ((.obj [head], p), r)

/-! ## All parameters, param.c -/

/-- The seeds of the random number generator: `rand_init` (from the clock) and `rand_init_seed`,
utils.c:33-58. -/
structure Seeds (R : Type) where
  clock : R
  seed : Int → R

/-- `param_set_population_file`, param.c:637-645: at most 513 characters are copied, the terminator
included if it is among them. -/
def setPopFile (s : List Char) : List Char := (s ++ [Char.ofNat 0]).take 513

/-- `population_file`, param.c:212-214. -/
def fileSet : Setter K (SysPar K × R)
  | .str t => some fun s =>
    .ok ({ s.1 with popFile := setPopFile (t.toList.takeWhile (· ≠ Char.ofNat 0)) }, s.2)
  | _ => none

/-- The member `ea`, param.c:454-457. -/
def eaStep (j : Json K) (s : SysPar K × R) : Res (SysPar K × R) := do
  let e ← importAll eaTable s.1.ea (← j.members)
  .ok ({ s.1 with ea := e }, s.2)

/-- The member `action`, param.c:458-461. -/
def actStep (j : Json K) (s : SysPar K × R) : Res (SysPar K × R) := do
  let a ← actParImport s.1.xDim s.1.act j
  .ok ({ s.1 with act := a }, s.2)

/-- The member `condition`, param.c:462-465. -/
def condStep (g : Rng K R) (j : Json K) (s : SysPar K × R) : Res (SysPar K × R) := do
  let (c, r) ← condParImport g s.1.xDim s.1.cond j s.2
  .ok ({ s.1 with cond := c }, r)

/-- The member `prediction`, param.c:466-469. -/
def predStep (j : Json K) (s : SysPar K × R) : Res (SysPar K × R) := do
  let q ← predParImport s.1.xDim s.1.pred j
  .ok ({ s.1 with pred := q }, s.2)

/-- `param_json_import_general`, param.c:193-245, `..._multi`, 253-270, `..._subsump`, 278-293,
`..._cl_general`, 301-339, and the remaining members, 454-469; `version` is skipped.  Setters:
param.c:614-905. -/
def paramTable (g : Rng K R) (sd : Seeds R) : List (String × Setter K (SysPar K × R)) :=
  let int (lo : Int) (put : Int → SysPar K → SysPar K) : Setter K (SysPar K × R) :=
    intSet (fun a => decide (lo ≤ a)) fun a s => (put a s.1, s.2)
  let num (ok : K → Bool) (put : K → SysPar K → SysPar K) : Setter K (SysPar K × R) :=
    numSet ok fun v s => (put v s.1, s.2)
  let bool (put : Bool → SysPar K → SysPar K) : Setter K (SysPar K × R) :=
    boolSet fun b s => (put b s.1, s.2)
  [("version", fun _ => some .ok),
   ("x_dim", int 1 fun a p => { p with xDim := a }),
   ("y_dim", int 1 fun a p => { p with yDim := a }),
   ("n_actions", int 1 fun a p => { p with nActions := a }),
   ("omp_num_threads", intSet (fun a => decide (1 ≤ a) && decide (a ≤ 1000)) fun a s =>
      ({ s.1 with ompNumThreads := a }, s.2)),
   ("random_state", intSet anyK fun a s =>
      ({ s.1 with randomState := a }, if a < 0 then sd.clock else sd.seed a)),
   ("population_file", fileSet),
   ("pop_size", int 1 fun a p => { p with popSize := a }),
   ("max_trials", int 1 fun a p => { p with maxTrials := a }),
   ("pop_init", bool fun b p => { p with popInit := b }),
   ("perf_trials", int 1 fun a p => { p with perfTrials := a }),
   ("loss_func", nameSet lossCodes fun c s => ({ s.1 with lossFunc := c }, s.2)),
   ("huber_delta", num nonnegK fun v p => { p with huberDelta := v }),
   ("teletransportation", int 1 fun a p => { p with teletransportation := a }),
   ("gamma", num unitK fun v p => { p with gamma := v }),
   ("p_explore", num unitK fun v p => { p with pExplore := v }),
   ("set_subsumption", bool fun b p => { p with setSubsumption := b }),
   ("theta_sub", int 0 fun a p => { p with thetaSub := a }),
   ("alpha", num unitK fun v p => { p with alpha := v }),
   ("beta", num unitK fun v p => { p with beta := v }),
   ("delta", num unitK fun v p => { p with delta := v }),
   ("nu", num nonnegK fun v p => { p with nu := v }),
   ("theta_del", int 0 fun a p => { p with thetaDel := a }),
   ("init_fitness", num nonnegK fun v p => { p with initFitness := v }),
   ("init_error", num nonnegK fun v p => { p with initError := v }),
   ("e0", num nonnegK fun v p => { p with e0 := v }),
   ("m_probation", int 0 fun a p => { p with mProbation := a }),
   ("stateful", bool fun b p => { p with stateful := b }),
   ("compaction", bool fun b p => { p with compaction := b }),
   ("ea", fun j => some (eaStep j)), ("action", fun j => some (actStep j)),
   ("condition", fun j => some (condStep g j)), ("prediction", fun j => some (predStep j))]

/-- `param_json_import`, param.c:437-474, of a document that could be parsed. -/
def paramImport (g : Rng K R) (sd : Seeds R) (j : Json K) (s : SysPar K × R) :
    Res (SysPar K × R) := do
  importAll (paramTable g sd) s (← j.members)

/-- A string that is printed, `cJSON_AddStringToObject`: undefined without a terminator. -/
def cstring (l : List Char) : Res String :=
  if Char.ofNat 0 ∈ l then .ok (String.ofList (l.takeWhile (· ≠ Char.ofNat 0))) else .error .ub

/-- The members of the report before `ea`, param.c:117-157, given the two names. -/
def scalarList (p : SysPar K) (file : String) (loss : List Char) : List (String × Json K) :=
  [("version", .str "1.4.7"), ("x_dim", jsonOfInt p.xDim), ("y_dim", jsonOfInt p.yDim),
      ("n_actions", jsonOfInt p.nActions), ("omp_num_threads", jsonOfInt p.ompNumThreads),
      ("random_state", jsonOfInt p.randomState), ("population_file", .str file),
      ("pop_init", .bool p.popInit), ("max_trials", jsonOfInt p.maxTrials),
      ("perf_trials", jsonOfInt p.perfTrials), ("pop_size", jsonOfInt p.popSize),
      ("loss_func", .str (String.ofList loss))] ++
    (if p.lossFunc = 6 then [("huber_delta", .num p.huberDelta)] else []) ++
    (if 1 < p.nActions then [("gamma", .num p.gamma),
      ("teletransportation", jsonOfInt p.teletransportation), ("p_explore", .num p.pExplore)]
      else []) ++
    [("set_subsumption", .bool p.setSubsumption), ("theta_sub", jsonOfInt p.thetaSub),
     ("e0", .num p.e0), ("alpha", .num p.alpha), ("nu", .num p.nu), ("beta", .num p.beta),
     ("delta", .num p.delta), ("theta_del", jsonOfInt p.thetaDel),
     ("init_fitness", .num p.initFitness), ("init_error", .num p.initError),
     ("m_probation", jsonOfInt p.mProbation), ("stateful", .bool p.stateful),
     ("compaction", .bool p.compaction)]

/-- The members of the report before `ea`, param.c:117-157. -/
def scalarMembers (p : SysPar K) : Res (List (String × Json K)) := do
  let file ← cstring p.popFile
  let loss ← nameOf lossNames p.lossFunc
  .ok (scalarList p file loss)

/-- Whether the report has a member `action`, param.c:162-175. -/
def SysPar.reportsAction (p : SysPar K) : Bool :=
  !(p.cond.type = 11 || p.cond.type = 12 || p.cond.type = 13) && decide (1 < p.nActions)

/-- The member `action`, if any, param.c:162-175. -/
def actionMembers (g : Rng K R) (b : Bool) (a : ActFile K) (r : R) :
    Res ((List (String × Json K) × ActFile K) × R) :=
  if b then do
    let ((j, a), r) ← actParExport g a r
    .ok (([("action", j)], a), r)
  else .ok (([], a), r)

/-- `param_json_export`, param.c:113-184 (`xcsf.XCS.internal_params`): the document, the parameters
and the random state afterwards. -/
def paramExport (g : Rng K R) (p : SysPar K) (r : R) : Res ((Json K × SysPar K) × R) := do
  let l ← scalarMembers p
  let e ← eaExport p.ea
  let ((a, act), r) ← actionMembers g p.reportsAction p.act r
  let ((c, cond), r) ← condParExport g p.cond r
  let ((q, pred), r) ← predParExport g p.pred r
  .ok ((.obj (l ++ [("ea", e)] ++ a ++ [("condition", c), ("prediction", q)]),
    { p with act := act, cond := cond, pred := pred }), r)

/-! ## Defaults -/

/-- The hidden layer of the defaults, cond_neural.c:386-398. -/
def hiddenDefault (xDim n : Int) : LArg K :=
  { LArg.zero with
    nInputs := xDim, nInit := n, nMax := 100, maxGrow := 1, evolveWeights := true,
    evolveNeurons := true, evolveConnect := true }

/-- `cond_neural_param_defaults`, cond_neural.c:382-405; the output layer keeps `n_init` of the
hidden layer. -/
def condLayersDefault (xDim : Int) : List (LArg K) :=
  [hiddenDefault xDim 10,
   { hiddenDefault 10 10 with fn := 3, nMax := 1, evolveNeurons := false }]

/-- `act_neural_param_defaults`, act_neural.c:269-297. -/
def actLayersDefault (xDim nActions : Int) : List (LArg K) :=
  let out : LArg K :=
    { hiddenDefault 1 nActions with fn := 3, nMax := nActions, evolveNeurons := false }
  [hiddenDefault xDim 1, out, { out with nInputs := nActions, type := 3, scale := 1 }]

/-- `pred_neural_param_defaults`, pred_neural.c:430-457. -/
def predLayersDefault (xDim yDim : Int) : List (LArg K) :=
  let hid : LArg K :=
    { hiddenDefault xDim 10 with
      evolveEta := true, sgdWeights := true, eta := 1 / 100, momentum := 9 / 10 }
  [hid, { hid with nInputs := 10, nInit := yDim, nMax := yDim, evolveNeurons := false }]

/-- The arguments as trees read them (gp.c, `struct ArgsGPTree` of gp.h). -/
def TreePar.gpArgs (t : TreePar K) : GpArgs K :=
  { nInputs := t.nInputs.toNat, initDepth := t.initDepth.toNat, maxLen := t.maxLen.toNat,
    constants := t.constants }

/-- The arguments as graphs read them (dgp.c, `struct ArgsDGP` of dgp.h). -/
def GraphPar.dgpArgs (d : GraphPar) : DgpArgs :=
  { evolve := d.evolve, maxK := d.maxK.toNat, maxT := d.maxT.toNat, n := d.n.toNat,
    nInputs := d.nInputs.toNat }

/-- `param_init`, param.c:45-91, with the defaults of ea.c:237-248, action.c:91-95,
condition.c:166-177, cond_ternary.c:426-430, cond_dgp.c:301-313, cond_gp.c:285-299 and
prediction.c:120-130.  `error` is set from memory that has not been written and `explore` is not
set: both are arguments.  The constants of GP are drawn from a generator seeded by the clock. -/
def sysInit (g : Rng K R) (sd : Seeds R) (error : K) (explore : Bool)
    (xDim yDim nActions : Int) : SysPar K × R :=
  let t := drawConstants g
    { max := 1, min := 0, nInputs := clamp1 xDim, nConstants := 100, initDepth := 5,
      maxLen := 10000, constants := [] } sd.clock
  ({ popFile := [Char.ofNat 0], time := 0, error := error, msetSize := 0, asetSize := 0,
     mfrac := 0, explore := explore, xDim := xDim, yDim := yDim, nActions := nActions,
     ompNumThreads := 8, randomState := -1, popInit := true, maxTrials := 100000,
     perfTrials := 1000, popSize := 2000, lossFunc := 0, huberDelta := 1, gamma := 95 / 100,
     teletransportation := 50, pExplore := 9 / 10, setSubsumption := false, thetaSub := 100,
     e0 := 1 / 100, alpha := 1 / 10, nu := 5, beta := 1 / 10, delta := 1 / 10, thetaDel := 20,
     initFitness := 1 / 100, initError := 0, mProbation := 10000, stateful := true,
     compaction := false,
     ea := { selectType := 0, selectSize := 4 / 10, theta := 50, lambda := 2,
             pCrossover := 8 / 10, errReduc := 1, fitReduc := 1 / 10, subsumption := false,
             predReset := false },
     act := { type := 0, largs := actLayersDefault xDim nActions },
     cond := { type := 1, eta := 0, min := 0, max := 1, spreadMin := 1 / 10, pDontcare := 1 / 2,
               bits := 1,
               dargs := { evolve := true, maxK := 2, maxT := 10, n := 10,
                          nInputs := clamp1 xDim },
               targs := t.1, largs := condLayersDefault xDim },
     pred := { type := 1, eta := 1 / 10, etaMin := 1 / 100000, lambda := 1, scaleFactor := 1000,
               x0 := 1, evolveEta := true, largs := predLayersDefault xDim yDim } }, t.2)

/-- `xcsf.XCS(...)`, pybind_wrapper.cpp:96-129 and 853-875: the defaults for one input, one output
and one action, then the given parameters.  Later calls of `set_params` are further documents. -/
def pyInit (g : Rng K R) (sd : Seeds R) (error : K) (explore : Bool) (kwargs : Json K) :
    Res (SysPar K × R) :=
  paramImport g sd kwargs (sysInit g sd error explore 1 1 1)

/-- Calls of `set_params` after construction. -/
def pySet (g : Rng K R) (sd : Seeds R) (docs : List (Json K)) (s : SysPar K × R) :
    Res (SysPar K × R) :=
  docs.foldlM (fun s j => paramImport g sd j s) s

/-- The parameters of a system: the defaults for a problem, then documents.  For the executable these
are the dimensions of the problem (main.c) and the parameter file, for Python one input, output and
action, and the arguments of the constructor and of `set_params`. -/
def sysMade (g : Rng K R) (sd : Seeds R) (error : K) (explore : Bool) (xDim yDim nActions : Int)
    (docs : List (Json K)) : Res (SysPar K × R) :=
  pySet g sd docs (sysInit g sd error explore xDim yDim nActions)

end
end Xcsf
