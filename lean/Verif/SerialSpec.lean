import Verif.SerialSys

/-!
# What saving and loading promise

`…Whole` says that a structure is one the library builds: its arrays have the sizes its counts give.
`…fresh` is the same structure with working memory that has just been allocated: what a forward pass
overwrites before anything reads it is zero, as are the fields a type of layer does not use.
-/

namespace Xcsf

section
variable {K R : Type} [Field K] [LinearOrder K] [IsStrictOrderedRing K] [FloorRing K]

/-! ## Layers -/

/-- The arrays of a connected layer have the sizes its counts give. -/
structure CLay.Whole (l : CLay K) : Prop where
  outs : 1 ≤ l.nOutputs ∧ l.nOutputs ≤ 2000000
  wts : 1 ≤ l.ws.length ∧ l.ws.length ≤ 20000000
  ns : l.ns.length = l.nOutputs
  mu : l.mu.length = 6

/-- A neuron that has not been used yet. -/
def Neuron.fresh (n : Neuron K) : Neuron K := ⟨n.bias, n.bupd, 0, 0, 0⟩

/-- A connected layer with new states, outputs and errors; its outputs form a row. -/
def CLay.fresh (l : CLay K) : CLay K :=
  { l with
    outW := l.nOutputs
    outH := 1
    outC := 1
    ns := l.ns.map Neuron.fresh }

/-- The same for a convolutional layer. -/
structure VLay.Whole (l : VLay K) : Prop where
  wts : 1 ≤ l.core.ws.length ∧ l.core.ws.length ≤ 20000000
  flt : 1 ≤ l.core.nOutputs ∧ l.core.nOutputs ≤ 2000000
  outs : 1 ≤ l.nOut ∧ l.nOut ≤ 2000000
  ns : l.core.ns.length = l.core.nOutputs
  ins : l.core.nInputs = (l.size * l.size * l.channels).toNat
  mu : l.core.mu.length = 6

/-- A convolutional layer with new states, outputs, errors and workspace. -/
def VLay.fresh (l : VLay K) : VLay K :=
  { l with
    core := { l.core with
      outW := 0
      outH := 0
      outC := 0
      ns := l.core.ns.map Neuron.fresh }
    cells := List.replicate l.nOut.toNat ⟨0, 0, 0⟩
    temp := List.replicate (convTemp l.outH l.outW l.size l.channels) none }

/-- New arrays of a layer of images. -/
def PLay.fresh (l : PLay K) : PLay K :=
  { l with
    indexes := List.replicate l.nOut.toNat (some 0)
    output := List.replicate l.nOut.toNat (some 0)
    delta := List.replicate l.nOut.toNat 0
    state := List.replicate l.nOut.toNat 0 }

/-- The arrays of a recurrent layer and its parts have the sizes its counts give. -/
structure RLay.Whole (l : RLay K) : Prop where
  outs : 1 ≤ l.nOutputs ∧ l.nOutputs ≤ 2000000
  state : l.state.length = l.nOutputs
  prev : l.prev.length = l.nOutputs
  mu : l.mu.length = 6
  inp : l.inp.Whole
  self : l.self.Whole
  out : l.out.Whole

/-- A recurrent layer whose parts have new states, outputs and errors; its own states are kept. -/
def RLay.fresh (l : RLay K) : RLay K :=
  { l with
    outW := l.nOutputs
    inp := l.inp.fresh
    self := l.self.fresh
    out := l.out.fresh }

/-- What comes back of a recurrent layer: the limits of its learning rate are lost. -/
def RLay.reload (l : RLay K) : RLay K :=
  { l.fresh with
    etaMax := 0
    etaMin := 0
    state := l.state.map fun v => some (valOf v)
    prev := l.prev.map fun v => some (valOf v) }

/-- The arrays of an LSTM layer and its parts have the sizes its counts give. -/
structure TLay.Whole (l : TLay K) : Prop where
  outs : 1 ≤ l.nOutputs ∧ l.nOutputs ≤ 2000000
  mu : l.mu.length = 6
  prev : l.prevState.length = l.nOutputs
  gf : l.gate.f.length = l.nOutputs
  gi : l.gate.i.length = l.nOutputs
  gg : l.gate.g.length = l.nOutputs
  go : l.gate.o.length = l.nOutputs
  c : l.c.length = l.nOutputs
  h : l.h.length = l.nOutputs
  dc : l.dc.length = l.nOutputs
  uf : l.u.f.Whole
  ui : l.u.i.Whole
  ug : l.u.g.Whole
  uo : l.u.o.Whole
  wf : l.w.f.Whole
  wi : l.w.i.Whole
  wg : l.w.g.Whole
  wo : l.w.o.Whole

/-- An LSTM layer with new outputs and errors whose parts have new states; its memory is kept. -/
def TLay.fresh (l : TLay K) : TLay K :=
  { l with
    outW := l.nOutputs
    u := l.u.map CLay.fresh
    w := l.w.map CLay.fresh
    output := List.replicate l.nOutputs 0
    delta := List.replicate l.nOutputs 0
    prevCell := List.replicate l.nOutputs 0 }

/-- What comes back of an LSTM layer: its activation functions are lost. -/
def TLay.reload (l : TLay K) : TLay K := { l.fresh with fn := 0, rfn := 0 }

/-- The arrays of the layer have the sizes its counts give. -/
def GLay.Whole : GLay K → Prop
  | .conn l => l.Whole
  | .recu l => l.Whole
  | .lstm l => l.Whole
  | .conv l => l.Whole
  | .maxp l => 1 ≤ l.nOut ∧ l.nOut ≤ 2000000
  | .avgp l => 1 ≤ l.nOut ∧ l.nOut ≤ 2000000
  | .ups l => 1 ≤ l.nOut ∧ l.nOut ≤ 2000000
  | .drop l => 1 ≤ l.nOut ∧ l.nOut ≤ 2000000
  | .noise l => 1 ≤ l.nOut ∧ l.nOut ≤ 2000000
  | .soft l => 1 ≤ l.nOut ∧ l.nOut ≤ 2000000

/-- The layer with new working memory. -/
def GLay.fresh : GLay K → GLay K
  | .conn l => .conn l.fresh
  | .recu l => .recu l.fresh
  | .lstm l => .lstm l.fresh
  | .conv l => .conv l.fresh
  | .maxp l => .maxp { l.fresh with probability := 0, scale := 0 }
  | .avgp l => .avgp { l.fresh with probability := 0, scale := 0, pad := 0, size := 0, stride := 0 }
  | .ups l => .ups { l.fresh with probability := 0, scale := 0, pad := 0, size := 0 }
  | .drop l => .drop { l.fresh with
      height := 0, width := 0, channels := 0, pad := 0, size := 0, stride := 0 }
  | .noise l => .noise { l.fresh with
      height := 0, width := 0, channels := 0, pad := 0, size := 0, stride := 0 }
  | .soft l => .soft { l with
      outW := l.nOut
      outH := 1
      outC := 1
      output := List.replicate l.nOut.toNat 0
      delta := List.replicate l.nOut.toNat 0 }

/-- The layer has memory of its own: a recurrent or LSTM layer. -/
def GLay.remembers : GLay K → Bool
  | .recu _ => true
  | .lstm _ => true
  | _ => false

/-- What comes back of a layer, and whether its outputs point to memory. -/
def GLay.reload : GLay K → FLay K
  | .recu l => ⟨.recu l.reload, false⟩
  | .lstm l => ⟨.lstm l.reload, true⟩
  | l => ⟨l.fresh, true⟩

/-! ## Networks and rules -/

/-- The layers are whole and the network knows the sizes of its first and last one. -/
structure FNet.Whole (n : FNet K) : Prop where
  layers : ∀ l ∈ n.layers, l.lay.Whole
  ins : n.nInputs = (n.layers.head?.map fun l => l.lay.nIn).getD 0
  outs : n.nOutputs = (n.layers.getLast?.map fun l => l.lay.dim.n).getD 0

/-- No layer of the network is recurrent, and all layers have their memory. -/
def FNet.plain (n : FNet K) : Bool := n.layers.all fun l => l.wired && !l.lay.remembers

/-- The network with new working memory. -/
def FNet.fresh (n : FNet K) : FNet K :=
  { n with layers := n.layers.map fun l => ⟨l.lay.fresh, l.wired⟩ }

/-- What comes back of a network. -/
def FNet.reload (n : FNet K) : FNet K := { n with layers := n.layers.map fun l => l.lay.reload }

/-- The same change of every network in a condition. -/
def FCond.mapNet (f : FNet K → FNet K) : FCond K → FCond K
  | .neural n => .neural (f n)
  | .ruleNeural n => .ruleNeural (f n)
  | c => c

/-- The same change of the network of an action. -/
def FAct.mapNet (f : FNet K → FNet K) : FAct K → FAct K
  | .neural n => .neural (f n)
  | a => a

/-- The same change of the network of a prediction. -/
def FPred.mapNet (f : FNet K → FNet K) : FPred K → FPred K
  | .neural n => .neural (f n)
  | p => p

/-- The same change of every network in a rule. -/
def ruleMapNet (f : FNet K → FNet K) (c : Cl K (Body K)) : Cl K (Body K) :=
  { c with body := ⟨c.body.cond.mapNet f, c.body.act.mapNet f, c.body.pred.mapNet f⟩ }

/-- The arrays of a graph have the sizes its counts give. -/
structure Graph.Whole (d : Graph K) : Prop where
  n : 1 ≤ d.n
  klen : 1 ≤ d.klen
  state : d.state.length = d.n
  initial : d.initial.length = d.n
  func : d.func.length = d.n
  conn : d.conn.length = d.klen
  mu : d.mu.length = 3

/-- The condition of a rule is of the type the parameters name and is whole. -/
def FCond.Whole (p : SysPar K) : FCond K → Prop
  | .dummy => p.cond.type = 0
  | .rect b => (p.cond.type = 1 ∨ p.cond.type = 2) ∧ b.genes.length = p.xDim.toNat
  | .ell b => p.cond.type = 3 ∧ b.genes.length = p.xDim.toNat
  | .neural n => p.cond.type = 4 ∧ n.Whole
  | .gp t => p.cond.type = 5 ∧ 1 ≤ t.tree.length
  | .dgp g => p.cond.type = 6 ∧ g.Whole
  | .tern t => p.cond.type = 7 ∧ 1 ≤ t.string.length
  | .ruleDgp g n => p.cond.type = 11 ∧ g.Whole ∧ n = actionBits p.nActions.toNat
  | .ruleNeural n => p.cond.type = 12 ∧ n.Whole

/-- The action of a rule is of the type the parameters name and is whole. -/
def FAct.Whole (p : SysPar K) : FAct K → Prop
  | .int _ => p.act.type = 0 ∧ ¬ruleType p.cond.type
  | .neural n => p.act.type = 1 ∧ ¬ruleType p.cond.type ∧ n.Whole
  | .none => (p.act.type = 0 ∨ p.act.type = 1) ∧ ruleType p.cond.type

/-- The prediction of a rule is of the type the parameters name and is whole. -/
def FPred.Whole (p : SysPar K) : FPred K → Prop
  | .const => p.pred.type = 0
  | .nlms q => (p.pred.type = 1 ∨ p.pred.type = 2) ∧
      (q.weights.length : Int) = fileFeatures p * p.yDim
  | .rls q => (p.pred.type = 3 ∨ p.pred.type = 4) ∧ q.n = fileFeatures p ∧
      (q.weights.length : Int) = fileFeatures p * p.yDim ∧ (q.matrix.length : Int) = q.n * q.n
  | .neural n => p.pred.type = 5 ∧ n.Whole

/-- The rule is one of a system with the given parameters. -/
structure RuleWhole (p : SysPar K) (c : Cl K (Body K)) : Prop where
  prediction : c.prediction.length = p.yDim.toNat
  cond : c.body.cond.Whole p
  act : c.body.act.Whole p
  pred : c.body.pred.Whole p

/-- The parameters are those of a system the library has set up: the name of the population file is
a string of at most 512 characters, the dimensions are positive, the array of constants holds as
many as are in use. -/
structure SysPar.Whole (p : SysPar K) : Prop where
  name : ∃ s : List Char, p.popFile = s ++ ['\x00'] ∧ '\x00' ∉ s ∧ s.length ≤ 512
  dims : 1 ≤ p.xDim ∧ 1 ≤ p.yDim ∧ 1 ≤ p.nActions
  constants : 0 ≤ p.cond.targs.nConstants ∧
    p.cond.targs.nConstants ≤ p.cond.targs.constants.length

/-- The system is one the library has set up. -/
structure Sys.Whole (s : Sys K R) : Prop where
  par : s.par.Whole
  rules : ∀ c ∈ s.rules, RuleWhole s.par c
  size : s.size = s.rules.length
  num : s.num = (s.rules.map fun c => c.num).sum

/-- All networks in the rule satisfy a condition. -/
def ruleNets (f : FNet K → Bool) (c : Cl K (Body K)) : Bool :=
  (match c.body.cond with
    | .neural n => f n
    | .ruleNeural n => f n
    | _ => true) &&
  (match c.body.act with
    | .neural n => f n
    | _ => true) &&
  (match c.body.pred with
    | .neural n => f n
    | _ => true)

/-- The same parameters, with the constants of GP trees in the memory of another system: as many as
are in use, the elements behind them are those of the other system. -/
def SysPar.onto (p old : SysPar K) : SysPar K :=
  { p with
    cond := { p.cond with
      targs := { p.cond.targs with
        constants := p.cond.targs.constants.take p.cond.targs.nConstants.toNat ++
          old.cond.targs.constants.drop p.cond.targs.nConstants.toNat } } }

end

end Xcsf
