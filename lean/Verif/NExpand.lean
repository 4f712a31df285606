import Verif.NRep
import Verif.Trial

/-!
# Changing the networks of a population

`pred_expand` adds a hidden layer to every network that predicts, and `ae_to_classifier` turns
networks that reproduce their input into classifiers (`pred_neural.c`, `xcsf.c`; methods of the
Python class, pybind_wrapper.cpp).  Networks are lists of layers here, from the input to the output;
that the linked lists of `neural.c` behave so is C48.
-/

namespace Xcsf
variable {K R : Type} [Field K] [LinearOrder K] [IsStrictOrderedRing K] [FloorRing K]

/-- `max_outputs` of a layer: that of the parameters for layers with weights
(neural_layer_connected.c:76, neural_layer_convolutional.c:170, neural_layer_lstm.c:291,
neural_layer_recurrent.c:252), the number of outputs for the others
(e.g. neural_layer_dropout.c:63 and 200, neural_layer_avgpool.c:78 and 204). -/
def GLay.maxOuts : GLay K → Int
  | .conn l => l.maxOutputs
  | .recu l => l.maxOutputs
  | .lstm l => l.maxOutputs
  | .conv l => l.core.maxOutputs
  | l => l.dim.n

/-- The parameters of the layer added by `pred_neural_expand`, pred_neural.c:319-336; `o` are the
parameters of the first layer, `xcsf->pred->largs`.  The number of neurons does not evolve
(layer_args_init, neural_layer_args.c:61). -/
def expandArgs (o : CArgs K) (nIn nOut mx : Int) : CArgs K :=
  { nInputs := nIn.toNat, nInit := nOut.toNat, nMax := mx, maxGrow := 0, fn := o.fn,
    opt := { o.opt with neurons := false }, eta := o.eta, etaMin := o.etaMin,
    momentum := o.momentum, decay := o.decay }

/-- `pred_neural_expand`, pred_neural.c:305-341: a connected layer of the size of the top hidden
layer is put before the output layer; `neural_resize`, neural.c:289-301.  A network with a single
layer is dereferenced through a null pointer (C48). -/
def netExpand (g : Rng K R) (fuel : Nat) (o : CArgs K) (b : NetBody K) (r : R) :
    Res (NetBody K × R) :=
  match b.lays.reverse with
  | [] => .error .ub
  | [l] =>
    match connInit g (expandArgs o l.nIn l.dim.n l.maxOuts) r with
    | .error e => .error e
    | .ok _ => .error .ub
  | out :: h :: rest =>
    match connInit g (expandArgs o h.dim.n h.dim.n h.maxOuts) r with
    | .error e => .error e
    | .ok (l, r) =>
      match genResize g fuel none ((h :: rest).reverse ++ [.conn l, out]) r with
      | .error e => .error e
      | .ok (ls, r) => .ok ({ b with lays := ls }, r)

/-- The loop of `pred_neural_ae_to_classifier` that removes layers, pred_neural.c:356-358. -/
def popGo {α : Type} : Nat → List α → List α
  | 0, ls => ls
  | n + 1, ls => if 1 < ls.length then popGo n ls.dropLast else ls

/-- The parameters of the connected layer added by `pred_neural_ae_to_classifier`,
pred_neural.c:360-376. -/
def classArgs (o : CArgs K) (nIn : Int) (yDim : Nat) : CArgs K :=
  { nInputs := nIn.toNat, nInit := yDim, nMax := yDim, maxGrow := 0, fn := 3,
    opt := { o.opt with neurons := false, functions := false }, eta := o.eta, etaMin := o.etaMin,
    momentum := o.momentum, decay := o.decay }

/-- `pred_neural_ae_to_classifier`, pred_neural.c:348-383: up to `nDel` layers are removed (a
negative number removes none), a linear layer with `yDim` outputs and a softmax layer are added.
The number of inputs of the new layer is the number of outputs noted by the network: that of the
last layer left if one has been removed (neural.c:160). -/
def netToClassifier (g : Rng K R) (o : CArgs K) (yDim : Nat) (nDel : Int) (b : NetBody K) (r : R) :
    Res (NetBody K × R) :=
  let ls := popGo nDel.toNat b.lays
  let n := if ls.length < b.lays.length then headOuts ls else b.nOut
  match connInit g (classArgs o n yDim) r with
  | .error e => .error e
  | .ok (l, r) =>
    match softSet 1 (yDim : Int) with
    | .error e => .error e
    | .ok t => .ok (⟨yDim, ls ++ [.conn l, .soft t]⟩, r)

section Population
variable {X B B' : Type}

/-- What the loops of `xcsf_pred_expand` and `xcsf_ae_to_classifier` reset in a rule,
xcsf.c:156-159 and 179-185. -/
def Cl.renew (par : Params K) (time : Int) (p : List K) (c : Cl K B) (body : B') : Cl K B' :=
  { err := par.initErr, fit := par.initFit, num := c.num, exp := 0, size := c.size, time := time,
    m := c.m, prediction := p, action := c.action, age := c.age, mtotal := c.mtotal, body := body }

/-- The loop of `xcsf_pred_expand`, xcsf.c:153-161, where `f` is what is done with the body of a
rule. -/
def expandGo (par : Params K) (f : B → R → Res (B × R)) (s : St K X B R) :
    List Nat → Res (St K X B R)
  | [] => .ok s
  | i :: l => do
    let c ← s.rd i
    let q ← f c.body s.rng
    expandGo par f (St.put { s with rng := q.2 } i (c.renew par s.time c.prediction q.1)) l

/-- `xcsf_pred_expand`, xcsf.c:150-162: all rules of the population, not those of the stored one. -/
def expandPset (par : Params K) (f : B → R → Res (B × R)) (s : St K X B R) : Res (St K X B R) :=
  expandGo par f s s.pset.list

/-- The loop of `xcsf_ae_to_classifier`, xcsf.c:177-187: the rules that have been converted. -/
def convertGo (par : Params K) (f : B → R → Res (B' × R)) (s : St K X B R) :
    List Nat → (Nat → Option (Cl K B')) → R → Res ((Nat → Option (Cl K B')) × R)
  | [], h, r => .ok (h, r)
  | i :: l, h, r => do
    let c ← s.rd i
    let q ← f c.body r
    convertGo par f s l (fun j => if j = i then
      some (c.renew par s.time (List.replicate par.yDim 0) q.1) else h j) q.2

/-- `xcsf_ae_to_classifier`, xcsf.c:170-188: `par` are the parameters with the new number of
outputs.  Simplification: rules of a stored population, which are not converted, are left out; they
are not rules of the new number of outputs.  The prediction array is allocated anew
(pa.c:45-52); what it holds is not read before it is reset. -/
def convertPset (par : Params K) (f : B → R → Res (B' × R)) (s : St K X B R) :
    Res (St K X B' R) := do
  let q ← convertGo par f s s.pset.list (fun _ => none) s.rng
  .ok { heap := q.1, next := s.next, pset := s.pset, prevPset := s.prevPset, mset := s.mset,
        aset := s.aset, kset := s.kset, prevAset := s.prevAset, error := s.error,
        msetSize := s.msetSize, asetSize := s.asetSize, mfrac := s.mfrac,
        prevReward := s.prevReward, prevPred := s.prevPred, prevState := s.prevState,
        pa := List.replicate (par.nActions * par.yDim) 0, nr := List.replicate (par.nActions * par.yDim) 0,
        time := s.time, explore := s.explore, rng := q.2 }

/-- An event in the life of a system whose predictions are networks. -/
inductive GrowEv (K X B : Type) where
  | call (op : Op K X B)
  | expand

/-- One event. -/
def growStep (par : Params K) (kit : Kit K X B R) (f : B → R → Res (B × R)) (s : St K X B R) :
    GrowEv K X B → Res (St K X B R)
  | .call op => step par kit s op
  | .expand => expandPset par f s

/-- A history of calls and expansions from an initialised system. -/
def runGrow (par : Params K) (kit : Kit K X B R) (f : B → R → Res (B × R)) (r : R)
    (evs : List (GrowEv K X B)) : Res (St K X B R) := do
  let s ← xcsfInit par kit r
  evs.foldlM (growStep par kit f) s

end Population
end Xcsf
