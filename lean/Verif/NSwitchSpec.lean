import Verif.NGenLearnSpec
import Verif.NSeqSpec

/-!
# Specification for properties C80 and C81: learning rates and switches of the layers of a network
-/

set_option linter.unusedSectionVars false

namespace Xcsf
variable {K R : Type} [Field K] [LinearOrder K] [IsStrictOrderedRing K] [FloorRing K]

/-- What describes a connected part besides its neurons and connections. -/
structure Gist (K : Type) where
  opt : LOpt
  eta : K
  etaMax : K
  etaMin : K
  momentum : K
  decay : K
  fn : Int
  maxOutputs : Int
  maxGrow : Int
  shape : Nat × Nat × Nat

/-- The description of a connected part. -/
def CLay.gist (l : CLay K) : Gist K :=
  ⟨l.opt, l.eta, l.etaMax, l.etaMin, l.momentum, l.decay, l.fn, l.maxOutputs, l.maxGrow,
    (l.outW, l.outH, l.outC)⟩

/-- The parts of an LSTM layer. -/
def Gates.list {α : Type} (g : Gates α) : List α := [g.f, g.i, g.g, g.o]

/-- The connected parts of a layer: these have the weights and biases. -/
def GLay.parts : GLay K → List (CLay K)
  | .conn l => [l]
  | .recu l => [l.inp, l.self, l.out]
  | .lstm l => l.u.list ++ l.w.list
  | .conv l => [l.core]
  | _ => []

/-- All switches off. -/
def optOff : LOpt := ⟨false, false, false, false, false, false⟩

/-- The switches of a layer. -/
def GLay.opt : GLay K → LOpt
  | .conn l => l.opt
  | .recu l => l.opt
  | .lstm l => l.opt
  | .conv l => l.core.opt
  | _ => optOff

/-- Learning rates kept by the layer itself besides those of its parts. -/
def GLay.ownRates : GLay K → List K
  | .recu l => [l.eta]
  | .lstm l => [l.eta]
  | _ => []

/-- Activation functions kept by the layer itself besides those of its parts. -/
def GLay.ownFns : GLay K → List Int
  | .recu l => [l.fn]
  | .lstm l => [l.fn, l.rfn]
  | _ => []

/-- All learning rates of a layer. -/
def GLay.rates (l : GLay K) : List K := l.ownRates ++ l.parts.map CLay.eta

/-- All activation functions of a layer. -/
def GLay.fns (l : GLay K) : List Int := l.ownFns ++ l.parts.map CLay.fn

/-- The parameters of the neurons of a layer. -/
def GArgs.base : GArgs K → Option (CArgs K)
  | .conn a => some a
  | .recu a => some a
  | .lstm a _ => some a
  | .conv a => some a.base
  | _ => none

/-- Whether it is a recurrent layer whose learning rate evolves. -/
def GArgs.recEta : GArgs K → Bool
  | .recu a => a.opt.eta
  | _ => false

/-- The rates of a layer are those its parameters allow: within the limits, and exactly as given if
they do not evolve. -/
def RatesOk (a : GArgs K) (l : GLay K) : Prop :=
  ∀ c ∈ a.base, ∀ e ∈ l.rates, c.etaMin ≤ e ∧ e ≤ c.eta ∧ (c.opt.eta = false → e = c.eta)

/-- What a mutation may do to a connected part of a layer with switches `o`; `s` tells whether the
number of inputs may have changed. -/
structure CLay.Switched (s : Bool) (o : LOpt) (l l' : CLay K) : Prop where
  opt : l'.opt = l.opt
  etaMax : l'.etaMax = l.etaMax
  etaMin : l'.etaMin = l.etaMin
  momentum : l'.momentum = l.momentum
  decay : l'.decay = l.decay
  maxOutputs : l'.maxOutputs = l.maxOutputs
  maxGrow : l'.maxGrow = l.maxGrow
  shape : o.neurons = false → l'.outW = l.outW ∧ l'.outH = l.outH ∧ l'.outC = l.outC
  eta : o.eta = false → l'.eta = l.eta
  fn : o.functions = false → l'.fn = l.fn
  nOut : o.neurons = false → l'.nOutputs = l.nOutputs
  nIn : s = false → o.neurons = false → l'.nInputs = l.nInputs
  links : s = false → o.neurons = false → o.connect = false → l'.ws.map Wt.on = l.ws.map Wt.on
  weights : s = false → o.neurons = false → o.connect = false → o.weights = false → l'.ws = l.ws
  biases : o.neurons = false → o.weights = false → l'.ns = l.ns

/-- What a mutation may do to a layer. -/
structure GLay.Switched (s : Bool) (l l' : GLay K) : Prop where
  opt : l'.opt = l.opt
  eta : l.opt.eta = false → l'.rates = l.rates
  fn : l.opt.functions = false → l'.fns = l.fns
  dim : s = false → l.opt.neurons = false → l'.dim = l.dim
  parts : List.Forall₂ (CLay.Switched s l.opt) l.parts l'.parts

/-- What a mutation may do to a network: the number of inputs of a layer may change only if the
number of neurons of an earlier layer evolves. -/
def AllSwitched : Bool → List (GLay K) → List (GLay K) → Prop
  | _, [], [] => True
  | s, l :: ls, l' :: ls' => l.Switched s l' ∧ AllSwitched (s || l.opt.neurons) ls ls'
  | _, _, _ => False

/-- What propagation and learning may do to a connected part; `s` tells whether it learns by
gradient descent. -/
structure CLay.Fed (s : Bool) (l l' : CLay K) : Prop where
  gist : l'.gist = l.gist
  nOut : l'.nOutputs = l.nOutputs
  nIn : l'.nInputs = l.nInputs
  links : l'.ws.map Wt.on = l.ws.map Wt.on
  weights : s = false → l'.ws.map Wt.w = l.ws.map Wt.w
  biases : s = false → l'.ns.map Neuron.bias <+: l.ns.map Neuron.bias

/-- The weights and biases of all parts of a layer. -/
def GLay.params (l : GLay K) : List (List K × List K) := l.parts.map CLay.params

/-- A layer without its mutation rates and its count of active connections. -/
def CLay.bare (l : CLay K) : CLay K := { l with mu := [], nActive := 0 }

/-- The layer as far as it matters for what it computes and learns: without mutation rates and counts
of active connections. -/
def GLay.bare : GLay K → GLay K
  | .conn l => .conn l.bare
  | .recu l => .recu { l with
      mu := [], nActive := 0, inp := l.inp.bare, self := l.self.bare, out := l.out.bare }
  | .lstm l => .lstm { l with
      mu := [], nActive := 0, u := l.u.map CLay.bare, w := l.w.map CLay.bare }
  | .conv l => .conv { l with core := l.core.bare }
  | l => l

/-- What stays when inputs are propagated through a layer or it is trained: its switches, learning
rates, activation functions, sizes and connections, and unless it learns (`s`), all weights and
biases. -/
structure GLay.KeptBy (s : Bool) (l l' : GLay K) : Prop where
  opt : l'.opt = l.opt
  rates : l'.rates = l.rates
  fns : l'.fns = l.fns
  sizes : l'.parts.map (fun p => (p.nInputs, p.nOutputs)) =
    l.parts.map fun p => (p.nInputs, p.nOutputs)
  links : l'.parts.map (fun p => p.ws.map Wt.on) = l.parts.map fun p => p.ws.map Wt.on
  params : s = false → l'.params = l.params

/-- Propagation of an input or training. -/
def NTask.uses : NTask K → Bool
  | .net (.forward _ _) => true
  | .learn _ _ => true
  | _ => false

/-- The outputs of all layers after a history, and the state of the random numbers. -/
def shown (z : Res (List (GLay K) × R)) : Res (List (Res (List K)) × R) :=
  z.map fun p => (p.1.map GLay.outs, p.2)

end Xcsf
