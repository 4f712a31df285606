import Verif.SerialFile
import Verif.Core
import Verif.Cond
import Verif.Gp
import Verif.Dgp
import Verif.NGen

/-!
# Saving and loading a system (`xcsf_save`, `xcsf_load`)

What is saved is a list of elements; what is loaded is a program that reads elements
(`SerialFile.lean`).  Arrays are lists; a count that the file holds beside an array is the length of
the list, and a file whose counts contradict each other is reported as undefined behaviour: no
saved system produces one.
-/

namespace Xcsf

/-! ## Parameters -/

/-- `struct ArgsLayer`, neural_layer_args.h:31-58. -/
structure LArg (K : Type) where
  type : Int
  nInputs : Int
  nInit : Int
  nMax : Int
  maxGrow : Int
  fn : Int
  rfn : Int
  height : Int
  width : Int
  channels : Int
  size : Int
  stride : Int
  pad : Int
  eta : K
  etaMin : K
  momentum : K
  decay : K
  probability : K
  scale : K
  evolveWeights : Bool
  evolveNeurons : Bool
  evolveFunctions : Bool
  evolveEta : Bool
  evolveConnect : Bool
  sgdWeights : Bool
  deriving DecidableEq, Repr

/-- `struct ArgsDGP`, dgp.h. -/
structure GraphPar where
  evolve : Bool
  maxK : Int
  maxT : Int
  n : Int
  nInputs : Int
  deriving DecidableEq, Repr

/-- `struct ArgsGPTree`, gp.h; `constants` is the whole array that has been allocated. -/
structure TreePar (K : Type) where
  max : K
  min : K
  nInputs : Int
  nConstants : Int
  initDepth : Int
  maxLen : Int
  constants : List K
  deriving DecidableEq, Repr

/-- `struct ArgsEA`, ea.h. -/
structure EaFile (K : Type) where
  selectType : Int
  selectSize : K
  theta : K
  lambda : Int
  pCrossover : K
  errReduc : K
  fitReduc : K
  subsumption : Bool
  predReset : Bool
  deriving DecidableEq, Repr

/-- `struct ArgsAct`, action.h. -/
structure ActFile (K : Type) where
  type : Int
  largs : List (LArg K)
  deriving DecidableEq, Repr

/-- `struct ArgsCond`, condition.h. -/
structure CondFile (K : Type) where
  type : Int
  eta : K
  min : K
  max : K
  spreadMin : K
  pDontcare : K
  bits : Int
  dargs : GraphPar
  targs : TreePar K
  largs : List (LArg K)
  deriving DecidableEq, Repr

/-- `struct ArgsPred`, prediction.h. -/
structure PredFile (K : Type) where
  type : Int
  eta : K
  etaMin : K
  lambda : K
  scaleFactor : K
  x0 : K
  evolveEta : Bool
  largs : List (LArg K)
  deriving DecidableEq, Repr

/-- The fields of `struct XCSF` (xcsf.h) that are saved, except the population.  `popFile` is the
memory `population_file` points to, with the terminating zero. -/
structure SysPar (K : Type) where
  popFile : List Char
  time : Int
  error : K
  msetSize : K
  asetSize : K
  mfrac : K
  explore : Bool
  xDim : Int
  yDim : Int
  nActions : Int
  ompNumThreads : Int
  randomState : Int
  popInit : Bool
  maxTrials : Int
  perfTrials : Int
  popSize : Int
  lossFunc : Int
  huberDelta : K
  gamma : K
  teletransportation : Int
  pExplore : K
  setSubsumption : Bool
  thetaSub : Int
  e0 : K
  alpha : K
  nu : K
  beta : K
  delta : K
  thetaDel : Int
  initFitness : K
  initError : K
  mProbation : Int
  stateful : Bool
  compaction : Bool
  ea : EaFile K
  act : ActFile K
  cond : CondFile K
  pred : PredFile K
  deriving DecidableEq, Repr

/-! ## Rules -/

/-- A layer of a network and whether its `output` and `delta` point to memory. -/
structure FLay (K : Type) where
  lay : GLay K
  wired : Bool
  deriving DecidableEq

/-- `struct Net`, neural.h: `n_inputs`, `n_outputs` and the layers from the first one on; `n_layers`
is their number. -/
structure FNet (K : Type) where
  nInputs : Int
  nOutputs : Int
  layers : List (FLay K)
  deriving DecidableEq

/-- The kinds of conditions, with what they hold. -/
inductive FCond (K : Type) where
  | dummy
  | rect (b : Box K)
  | ell (b : Box K)
  | neural (n : FNet K)
  | gp (t : GpTree K)
  | dgp (g : Graph K)
  | tern (t : Tern K)
  | ruleDgp (g : Graph K) (nOutputs : Int)
  | ruleNeural (n : FNet K)
  deriving DecidableEq

/-- The kinds of actions; a rule type has none of its own. -/
inductive FAct (K : Type) where
  | int (a : ActInt K)
  | neural (n : FNet K)
  | none
  deriving DecidableEq

/-- `struct PredNLMS`, pred_nlms.h: the length per output, the weights, the mutation rate and the
learning rate. -/
structure FNlms (K : Type) where
  n : Int
  weights : List K
  mu : K
  eta : K
  deriving DecidableEq, Repr

/-- `struct PredRLS`, pred_rls.h. -/
structure FRls (K : Type) where
  n : Int
  weights : List K
  matrix : List K
  deriving DecidableEq, Repr

/-- The kinds of predictions. -/
inductive FPred (K : Type) where
  | const
  | nlms (p : FNlms K)
  | rls (p : FRls K)
  | neural (n : FNet K)
  deriving DecidableEq

/-- What a classifier consists of beside its numbers. -/
structure Body (K : Type) where
  cond : FCond K
  act : FAct K
  pred : FPred K
  deriving DecidableEq

/-- The state a system is saved from and loaded into: its parameters, the population with its two
counts, the number of elements of the prediction array and the state of the generator. -/
structure Sys (K R : Type) where
  par : SysPar K
  rules : List (Cl K (Body K))
  size : Int
  num : Int
  paSize : Int
  rng : R

section
variable {K R : Type} [Field K] [LinearOrder K] [IsStrictOrderedRing K] [FloorRing K]

/-! ## Layers -/

/-- The bits of `options`, neural_layer.h:51-56. -/
def optBits (o : LOpt) : Nat :=
  o.weights.toNat + 2 * o.neurons.toNat + 4 * o.functions.toNat + 8 * o.sgd.toNat +
    16 * o.eta.toNat + 32 * o.connect.toNat

/-- The options in a number. -/
def bitsOpt (n : Nat) : LOpt :=
  ⟨n % 2 = 1, n / 2 % 2 = 1, n / 4 % 2 = 1, n / 8 % 2 = 1, n / 16 % 2 = 1, n / 32 % 2 = 1⟩

/-- A result that does not depend on the file. -/
def Rd.lift {α : Type} : Res α → Rd K α
  | .ok a => .ret a
  | .error e => .fail e

/-- Undefined unless two counts agree. -/
def agree (a b : Int) : Rd K Unit := if a = b then .ret () else .fail .ub

/-- The connections from their three arrays. -/
def zipWts (w u : List K) (b : List Bool) : List (Wt K) :=
  List.zipWith (fun (x : K × K) o => ⟨x.1, x.2, o⟩) (w.zip u) b

/-- The neurons from their two saved arrays; the others are new and zero. -/
def zipNs (b u : List K) : List (Neuron K) := List.zipWith (fun x y => ⟨x, y, 0, 0, 0⟩) b u

/-- `neural_layer_connected_save`, neural_layer_connected.c:382-406. -/
def connSave (l : CLay K) : List (Item K) :=
  [.int l.nInputs, .int l.nOutputs, .int l.ns.length, .int l.maxOutputs, .int l.ws.length,
    .u32 (optBits l.opt), .int l.fn, .int l.maxGrow, .dbl l.eta, .dbl l.etaMax, .dbl l.etaMin,
    .dbl l.momentum, .dbl l.decay, .int l.nActive] ++
  (l.ws.map fun w => .dbl w.w) ++ (l.ws.map fun w => .bool w.on) ++
  (l.ns.map fun n => .dbl n.bias) ++ (l.ns.map fun n => .dbl n.bupd) ++
  (l.ws.map fun w => .dbl w.upd) ++ l.mu.map .dbl

/-- `neural_layer_connected_load`, neural_layer_connected.c:415-447, with `malloc_layer_arrays`,
51-65. -/
def connLoad : Rd K (CLay K) := do
  let nInputs ← newNat
  let nOutputs ← newNat
  let nBiases ← newNat
  let maxOutputs ← newInt
  let nWeights ← newNat
  let opt ← newU32
  let fn ← newInt
  let maxGrow ← newInt
  let eta ← newDbl
  let etaMax ← newDbl
  let etaMin ← newDbl
  let momentum ← newDbl
  let decay ← newDbl
  let nActive ← newInt
  Rd.lift (guardOutputs nOutputs)
  Rd.lift (guardWeights nWeights)
  agree nBiases nOutputs
  let w ← getArr newDbl nWeights
  let on ← getArr newBool nWeights
  let b ← getArr newDbl nBiases
  let bu ← getArr newDbl nBiases
  let wu ← getArr newDbl nWeights
  let mu ← getArr newDbl 6
  .ret {
    nInputs := nInputs, nOutputs := nOutputs, maxOutputs := maxOutputs, maxGrow := maxGrow,
    nActive := nActive, outW := nOutputs, outH := 1, outC := 1, fn := fn, opt := bitsOpt opt,
    eta := eta, etaMax := etaMax, etaMin := etaMin, momentum := momentum, decay := decay,
    ws := zipWts w wu on, ns := zipNs b bu, mu := mu }

/-- `layer_save` of a connected layer, neural_layer.h:372-377. -/
def connSub (l : CLay K) : List (Item K) := .int 0 :: connSave l

/-- `layer_load` of the parts of recurrent and LSTM layers, neural_layer.h:385-393: only connected
layers are saved as parts. -/
def connSubLoad : Rd K (CLay K) := do
  let t ← newInt
  agree t 0
  connLoad

/-- The value of an element; one that was not written yet is saved with whatever is there. -/
def valOf (o : Option K) : K := o.getD 0

/-- `neural_layer_recurrent_save`, neural_layer_recurrent.c:494-511. -/
def recSave (l : RLay K) : List (Item K) :=
  [.int l.nInputs, .int l.nOutputs, .int l.maxOutputs, .u32 (optBits l.opt), .int l.fn, .dbl l.eta,
    .int l.nActive] ++ l.mu.map .dbl ++
  (l.state.map fun v => .dbl (valOf v)) ++ (l.prev.map fun v => .dbl (valOf v)) ++
  connSub l.inp ++ connSub l.self ++ connSub l.out

/-- `neural_layer_recurrent_load`, neural_layer_recurrent.c:520-545, with `malloc_layer_arrays`,
51-57.  `output` and `delta` stay null pointers; `eta_max` and `eta_min` stay zero. -/
def recLoad : Rd K (RLay K) := do
  let nInputs ← newNat
  let nOutputs ← newNat
  let maxOutputs ← newInt
  let opt ← newU32
  let fn ← newInt
  let eta ← newDbl
  let nActive ← newInt
  Rd.lift (guardOutputs nOutputs)
  let mu ← getArr newDbl 6
  let state ← getArr newDbl nOutputs
  let prev ← getArr newDbl nOutputs
  let inp ← connSubLoad
  let self ← connSubLoad
  let out ← connSubLoad
  .ret {
    nInputs := nInputs, nOutputs := nOutputs, maxOutputs := maxOutputs, nActive := nActive,
    outW := nOutputs, fn := fn, opt := bitsOpt opt, eta := eta, etaMax := 0, etaMin := 0,
    state := state.map some, prev := prev.map some, inp := inp, self := self, out := out, mu := mu }

/-- The number of weights of the parts of an LSTM layer, neural_layer_lstm.c:61-73. -/
def lstmWeights (l : TLay K) : Nat :=
  l.u.f.ws.length + l.u.i.ws.length + l.u.g.ws.length + l.u.o.ws.length +
    l.w.f.ws.length + l.w.i.ws.length + l.w.g.ws.length + l.w.o.ws.length

/-- The number of biases of the parts of an LSTM layer, neural_layer_lstm.c:48-59. -/
def lstmBiases (l : TLay K) : Nat :=
  l.u.f.ns.length + l.u.i.ns.length + l.u.g.ns.length + l.u.o.ns.length +
    l.w.f.ns.length + l.w.i.ns.length + l.w.g.ns.length + l.w.o.ns.length

/-- An array of zeros: the elements of `state`, `temp`, `temp2` and `temp3`, which carry nothing from
one call to the next, are saved as zeros. -/
def zeros (n : Nat) : List (Item K) := List.replicate n (.dbl 0)

/-- `neural_layer_lstm_save`, neural_layer_lstm.c:662-700.  `cell` is a copy of `c`. -/
def lstmSave (l : TLay K) : List (Item K) :=
  [.int l.nInputs, .int l.nOutputs, .int (lstmWeights l), .int (lstmBiases l), .int l.maxOutputs,
    .int l.nActive, .dbl l.eta, .dbl l.etaMax, .dbl l.momentum, .dbl l.decay, .int l.maxGrow,
    .u32 (optBits l.opt)] ++ l.mu.map .dbl ++
  zeros l.nOutputs ++ l.prevState.map .dbl ++ l.c.map .dbl ++
  l.gate.f.map .dbl ++ l.gate.i.map .dbl ++ l.gate.g.map .dbl ++ l.gate.o.map .dbl ++
  l.c.map .dbl ++ l.h.map .dbl ++
  zeros l.nOutputs ++ zeros l.nOutputs ++ zeros l.nOutputs ++ l.dc.map .dbl ++
  connSub l.u.f ++ connSub l.u.i ++ connSub l.u.g ++ connSub l.u.o ++
  connSub l.w.f ++ connSub l.w.i ++ connSub l.w.g ++ connSub l.w.o

/-- `neural_layer_lstm_load`, neural_layer_lstm.c:709-752, with `malloc_layer_arrays`, 87-107.
`function` and `recurrent_function` stay zero. -/
def lstmLoad : Rd K (TLay K) := do
  let nInputs ← newNat
  let nOutputs ← newNat
  let _ ← newInt
  let _ ← newInt
  let maxOutputs ← newInt
  let nActive ← newInt
  let eta ← newDbl
  let etaMax ← newDbl
  let momentum ← newDbl
  let decay ← newDbl
  let maxGrow ← newInt
  let opt ← newU32
  Rd.lift (guardOutputs nOutputs)
  let mu ← getArr newDbl 6
  let _ ← getArr newDbl nOutputs
  let prevState ← getArr newDbl nOutputs
  let _ ← getArr newDbl nOutputs
  let f ← getArr newDbl nOutputs
  let i ← getArr newDbl nOutputs
  let g ← getArr newDbl nOutputs
  let o ← getArr newDbl nOutputs
  let c ← getArr newDbl nOutputs
  let h ← getArr newDbl nOutputs
  let _ ← getArr newDbl nOutputs
  let _ ← getArr newDbl nOutputs
  let _ ← getArr newDbl nOutputs
  let dc ← getArr newDbl nOutputs
  let uf ← connSubLoad
  let ui ← connSubLoad
  let ug ← connSubLoad
  let uo ← connSubLoad
  let wf ← connSubLoad
  let wi ← connSubLoad
  let wg ← connSubLoad
  let wo ← connSubLoad
  .ret {
    nInputs := nInputs, nOutputs := nOutputs, maxOutputs := maxOutputs, maxGrow := maxGrow,
    nActive := nActive, outW := nOutputs, fn := 0, rfn := 0, opt := bitsOpt opt, eta := eta,
    etaMax := etaMax, momentum := momentum, decay := decay, u := ⟨uf, ui, ug, uo⟩,
    w := ⟨wf, wi, wg, wo⟩, gate := ⟨f, i, g, o⟩, c := c, h := h, dc := dc,
    output := List.replicate nOutputs 0, delta := List.replicate nOutputs 0,
    prevState := prevState, prevCell := List.replicate nOutputs 0, mu := mu }

/-- `neural_layer_convolutional_save`, neural_layer_convolutional.c:546-581. -/
def convSave (l : VLay K) : List (Item K) :=
  [.u32 (optBits l.core.opt), .int l.core.fn, .int l.height, .int l.width, .int l.channels,
    .int l.core.nOutputs, .int l.stride, .int l.size, .int l.pad, .int l.outH, .int l.outW,
    .int l.core.nOutputs, .int l.core.ns.length, .int l.nOut, .int l.nIn, .int l.core.maxOutputs,
    .int l.core.ws.length, .int l.core.nActive, .dbl l.core.eta, .dbl l.core.etaMax,
    .dbl l.core.etaMin, .dbl l.core.momentum, .dbl l.core.decay, .int l.core.maxGrow] ++
  (l.core.ws.map fun w => .dbl w.w) ++ (l.core.ws.map fun w => .dbl w.upd) ++
  (l.core.ws.map fun w => .bool w.on) ++ (l.core.ns.map fun n => .dbl n.bias) ++
  (l.core.ns.map fun n => .dbl n.bupd) ++ l.core.mu.map .dbl

/-- `neural_layer_convolutional_load`, neural_layer_convolutional.c:589-625, with
`malloc_layer_arrays`, 103-118.  The workspace is new and not written. -/
def convLoad : Rd K (VLay K) := do
  let opt ← newU32
  let fn ← newInt
  let height ← newInt
  let width ← newInt
  let channels ← newInt
  let nFilters ← newNat
  let stride ← newInt
  let size ← newInt
  let pad ← newInt
  let outH ← newInt
  let outW ← newInt
  let outC ← newNat
  let nBiases ← newNat
  let nOut ← newInt
  let nIn ← newInt
  let maxOutputs ← newInt
  let nWeights ← newNat
  let nActive ← newInt
  let eta ← newDbl
  let etaMax ← newDbl
  let etaMin ← newDbl
  let momentum ← newDbl
  let decay ← newDbl
  let maxGrow ← newInt
  Rd.lift (convGuard nBiases nOut nWeights)
  agree nBiases nFilters
  agree outC nFilters
  let w ← getArr newDbl nWeights
  let wu ← getArr newDbl nWeights
  let on ← getArr newBool nWeights
  let b ← getArr newDbl nBiases
  let bu ← getArr newDbl nBiases
  let mu ← getArr newDbl 6
  .ret {
    core := {
      nInputs := (size * size * channels).toNat, nOutputs := nFilters, maxOutputs := maxOutputs,
      maxGrow := maxGrow, nActive := nActive, outW := 0, outH := 0, outC := 0, fn := fn,
      opt := bitsOpt opt, eta := eta, etaMax := etaMax, etaMin := etaMin, momentum := momentum,
      decay := decay, ws := zipWts w wu on, ns := zipNs b bu, mu := mu },
    height := height, width := width, channels := channels, size := size, stride := stride,
    pad := pad, outH := outH, outW := outW, nIn := nIn, nOut := nOut,
    cells := List.replicate nOut.toNat ⟨0, 0, 0⟩,
    temp := List.replicate (convTemp outH outW size channels) none }

/-- A layer of images without weights with the given fields, after `malloc_layer_arrays`:
`calloc` fills the arrays with zeros. -/
def poolNew (l : PLay K) : Rd K (PLay K) := do
  Rd.lift (guardOutputs l.nOut)
  .ret { l with
    indexes := List.replicate l.nOut.toNat (some 0)
    output := List.replicate l.nOut.toNat (some 0)
    delta := List.replicate l.nOut.toNat 0
    state := List.replicate l.nOut.toNat 0 }

/-- `layer_defaults`, neural_layer.c:412-478, for the fields of these layers. -/
def poolZero : PLay K :=
  { height := 0, width := 0, channels := 0, pad := 0, size := 0, stride := 0, outW := 0, outH := 0,
    outC := 0, nIn := 0, nOut := 0, probability := 0, scale := 0, indexes := [], output := [],
    delta := [], state := [] }

/-- `neural_layer_maxpool_save`, neural_layer_maxpool.c:321-338.  `max_outputs` is `n_outputs`. -/
def maxSave (l : PLay K) : List (Item K) :=
  [.int l.height, .int l.width, .int l.channels, .int l.pad, .int l.outW, .int l.outH, .int l.outC,
    .int l.nOut, .int l.nOut, .int l.nIn, .int l.size, .int l.stride]

/-- `neural_layer_maxpool_load`, neural_layer_maxpool.c:346-365. -/
def maxLoad : Rd K (PLay K) := do
  let height ← newInt
  let width ← newInt
  let channels ← newInt
  let pad ← newInt
  let outW ← newInt
  let outH ← newInt
  let outC ← newInt
  let nOut ← newInt
  let _ ← newInt
  let nIn ← newInt
  let size ← newInt
  let stride ← newInt
  poolNew { poolZero with
    height := height, width := width, channels := channels, pad := pad, outW := outW, outH := outH,
    outC := outC, nOut := nOut, nIn := nIn, size := size, stride := stride }

/-- `neural_layer_avgpool_save`, neural_layer_avgpool.c:264-278. -/
def avgSave (l : PLay K) : List (Item K) :=
  [.int l.height, .int l.width, .int l.channels, .int l.outW, .int l.outH, .int l.outC,
    .int l.nOut, .int l.nOut, .int l.nIn]

/-- `neural_layer_avgpool_load`, neural_layer_avgpool.c:286-302. -/
def avgLoad : Rd K (PLay K) := do
  let height ← newInt
  let width ← newInt
  let channels ← newInt
  let outW ← newInt
  let outH ← newInt
  let outC ← newInt
  let nOut ← newInt
  let _ ← newInt
  let nIn ← newInt
  poolNew { poolZero with
    height := height, width := width, channels := channels, outW := outW, outH := outH,
    outC := outC, nOut := nOut, nIn := nIn }

/-- `neural_layer_upsample_save`, neural_layer_upsample.c:278-293. -/
def upsSave (l : PLay K) : List (Item K) :=
  [.int l.height, .int l.width, .int l.channels, .int l.outW, .int l.outH, .int l.outC,
    .int l.nOut, .int l.nOut, .int l.nIn, .int l.stride]

/-- `neural_layer_upsample_load`, neural_layer_upsample.c:301-318. -/
def upsLoad : Rd K (PLay K) := do
  let height ← newInt
  let width ← newInt
  let channels ← newInt
  let outW ← newInt
  let outH ← newInt
  let outC ← newInt
  let nOut ← newInt
  let _ ← newInt
  let nIn ← newInt
  let stride ← newInt
  poolNew { poolZero with
    height := height, width := width, channels := channels, outW := outW, outH := outH,
    outC := outC, nOut := nOut, nIn := nIn, stride := stride }

/-- `neural_layer_dropout_save`, neural_layer_dropout.c:261-274, and `neural_layer_noise_save`,
neural_layer_noise.c:259-272. -/
def maskSave (l : PLay K) : List (Item K) :=
  [.int l.nIn, .int l.nOut, .int l.nOut, .dbl l.probability, .dbl l.scale, .int l.outW, .int l.outH,
    .int l.outC]

/-- `neural_layer_dropout_load`, neural_layer_dropout.c:282-297, and `neural_layer_noise_load`,
neural_layer_noise.c:280-295. -/
def maskLoad : Rd K (PLay K) := do
  let nIn ← newInt
  let nOut ← newInt
  let _ ← newInt
  let probability ← newDbl
  let scale ← newDbl
  let outW ← newInt
  let outH ← newInt
  let outC ← newInt
  poolNew { poolZero with
    nIn := nIn, nOut := nOut, probability := probability, scale := scale, outW := outW,
    outH := outH, outC := outC }

/-- `neural_layer_softmax_save`, neural_layer_softmax.c:257-266. -/
def softSave (l : SLay K) : List (Item K) :=
  [.int l.nIn, .int l.nOut, .int l.nOut, .dbl l.scale]

/-- `neural_layer_softmax_load`, neural_layer_softmax.c:274-287. -/
def softLoad : Rd K (SLay K) := do
  let nIn ← newInt
  let nOut ← newInt
  let _ ← newInt
  let scale ← newDbl
  Rd.lift (guardOutputs nOut)
  .ret {
    scale := scale, nIn := nIn, nOut := nOut, outW := nOut, outH := 1, outC := 1,
    output := List.replicate nOut.toNat 0, delta := List.replicate nOut.toNat 0 }

/-- `layer_save`, neural_layer.h:372-377. -/
def layerSave : GLay K → List (Item K)
  | .conn l => .int 0 :: connSave l
  | .recu l => .int 4 :: recSave l
  | .lstm l => .int 5 :: lstmSave l
  | .conv l => .int 7 :: convSave l
  | .maxp l => .int 6 :: maxSave l
  | .avgp l => .int 8 :: avgSave l
  | .ups l => .int 9 :: upsSave l
  | .drop l => .int 1 :: maskSave l
  | .noise l => .int 2 :: maskSave l
  | .soft l => .int 3 :: softSave l

/-- The part of `layer_load` after the type, with `layer_set_vptr`, neural_layer.c:42-79.  A
recurrent layer has no memory to point to. -/
def layerLoadAs (t : Int) : Rd K (FLay K) :=
  if t = 0 then do let l ← connLoad; .ret ⟨.conn l, true⟩
  else if t = 1 then do let l ← maskLoad; .ret ⟨.drop l, true⟩
  else if t = 2 then do let l ← maskLoad; .ret ⟨.noise l, true⟩
  else if t = 3 then do let l ← softLoad; .ret ⟨.soft l, true⟩
  else if t = 4 then do let l ← recLoad; .ret ⟨.recu l, false⟩
  else if t = 5 then do let l ← lstmLoad; .ret ⟨.lstm l, true⟩
  else if t = 6 then do let l ← maxLoad; .ret ⟨.maxp l, true⟩
  else if t = 7 then do let l ← convLoad; .ret ⟨.conv l, true⟩
  else if t = 8 then do let l ← avgLoad; .ret ⟨.avgp l, true⟩
  else if t = 9 then do let l ← upsLoad; .ret ⟨.ups l, true⟩
  else .fail .exit

/-- `layer_load`, neural_layer.h:385-393: the type of a new layer is zero. -/
def layerLoad : Rd K (FLay K) := do
  let t ← getInt 0
  layerLoadAs t

/-! ## Networks -/

/-- `neural_save`, neural.c:478-490. -/
def netSave (n : FNet K) : List (Item K) :=
  [.int n.layers.length, .int n.nInputs, .int n.nOutputs] ++
    n.layers.flatMap fun l => layerSave l.lay

/-- The network with the given layers pushed one after the other, `neural_push`, neural.c:196-200,
with neural.c:93-128: the inputs are those of the first layer, the outputs those of the last. -/
def netOf (ls : List (FLay K)) : FNet K :=
  { nInputs := (ls.head?.map fun l => l.lay.nIn).getD 0
    nOutputs := (ls.getLast?.map fun l => l.lay.dim.n).getD 0
    layers := ls }

/-- `neural_load`, neural.c:498-515: the saved numbers of inputs and outputs are not used. -/
def netLoad : Rd K (FNet K) := do
  let n ← getInt 0
  let _ ← getInt 0
  let _ ← getInt 0
  let ls ← getArr layerLoad n.toNat
  .ret (netOf ls)

end

end Xcsf
