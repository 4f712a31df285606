import Verif.NRec
import Verif.NLayerSpec

/-!
# Specification for property C53: legal recurrent and LSTM layers and their histories
-/

set_option linter.unusedSectionVars false

namespace Xcsf
variable {K R : Type} [Field K] [LinearOrder K] [IsStrictOrderedRing K] [FloorRing K]

/-- A connected layer that is part of another layer: legal, with the given numbers of inputs and
neurons, the given limit of neurons and the given options. -/
structure Part (B M nIn nOut : Nat) (mx : Int) (o : LOpt) (c : CLay K) : Prop where
  sound : c.Sound
  fits : c.Fits B M
  ins : c.nInputs = nIn
  outs : c.nOutputs = nOut
  max : c.maxOutputs = mx
  opt : c.opt = o

/-- A legal recurrent layer: its three connected layers are legal and have the sizes that belong
together, the memory has one element for each neuron and, if the number of neurons does not evolve,
is written. -/
structure RLay.Legal (B M : Nat) (l : RLay K) : Prop where
  inp : Part B M l.nInputs l.nOutputs l.maxOutputs l.opt l.inp
  self : Part B M l.nOutputs l.nOutputs l.maxOutputs l.opt l.self
  out : Part B M l.nOutputs l.nOutputs l.maxOutputs l.opt l.out
  state : l.state.length = l.nOutputs
  prev : l.prev.length = l.nOutputs
  known : l.opt.neurons = false → (∀ v ∈ l.state, v ≠ none) ∧ ∀ v ∈ l.prev, v ≠ none
  mu : l.mu.length = 6 ∧ ∀ v ∈ l.mu, LegalRate v
  fn : 0 ≤ l.fn ∧ l.fn < 11
  wide : l.outW = l.nOutputs

/-- The number of active connections of a connected layer. -/
def CLay.active (c : CLay K) : Nat := (c.ws.filter fun w => w.on).length

/-- The layer reports the number of its active connections. -/
def RLay.Counted (l : RLay K) : Prop :=
  l.nActive = ((l.inp.active + l.self.active + l.out.active : Nat) : Int)

/-- `rand` is the operation that makes all weights random (`neural_rand`). -/
def COp.isRand : COp K → Bool
  | .rand => true
  | _ => false

/-- The error that arrives at the outputs (`neural_learn`, neural.c:333-341). -/
def recDelta (l : RLay K) (d : Nat → K) : RLay K := { l with out := setDelta l.out d }

/-- One learning step of a layer, neural.c:327-359. -/
def recLearn (m : Libm K) (l : RLay K) (x d : Nat → K) (p : Bool) : Res (RLay K) := do
  let l1 ← recForward m l (ofArr l.nInputs x)
  let (l2, _) ← recBackward m (recDelta l1 d) (ofArr l.nInputs x)
    (if p then some (List.replicate l.nInputs 0) else none)
  .ok (recUpdate l2)

/-- One step of a layer's history. -/
def rstep (g : Rng K R) (m : Libm K) (fuel : Nat) (l : RLay K) (r : R) :
    COp K → Res (RLay K × R)
  | .mutate => do
    let (a, r) ← recMutate g fuel l r
    .ok (a.1, r)
  | .resize prev => recResize g fuel l prev r
  | .learn x d p => do
    let l ← recLearn m l x d p
    .ok (l, r)
  | .forward x => do
    let l ← recForward m l (ofArr l.nInputs x)
    .ok (l, r)
  | .rand => .ok (recRand g l r)
  | .copy => do
    let l ← recCopy l
    .ok (l, r)

/-- A history of a layer. -/
def rrun (g : Rng K R) (m : Libm K) (fuel : Nat) : List (COp K) → RLay K → R → Res (RLay K × R)
  | [], l, r => .ok (l, r)
  | o :: os, l, r => do
    let (l, r) ← rstep g m fuel l r o
    rrun g m fuel os l r

/-! ## Long short-term memory -/

/-- All four parts have a property. -/
structure Gates.All {α : Type} (P : α → Prop) (a : Gates α) : Prop where
  f : P a.f
  i : P a.i
  g : P a.g
  o : P a.o

/-- A legal LSTM layer: its eight connected layers are legal and have the sizes that belong
together, all arrays have one element for each neuron. -/
structure TLay.Legal (B M : Nat) (l : TLay K) : Prop where
  u : l.u.All (Part B M l.nInputs l.nOutputs l.maxOutputs l.opt)
  w : l.w.All (Part B M l.nOutputs l.nOutputs l.maxOutputs l.opt)
  gate : l.gate.All fun a => a.length = l.nOutputs
  c : l.c.length = l.nOutputs
  h : l.h.length = l.nOutputs
  dc : l.dc.length = l.nOutputs
  output : l.output.length = l.nOutputs
  delta : l.delta.length = l.nOutputs
  prevState : l.prevState = List.replicate l.nOutputs 0
  prevCell : l.prevCell = List.replicate l.nOutputs 0
  mu : l.mu.length = 6 ∧ ∀ v ∈ l.mu, LegalRate v
  fn : 0 ≤ l.fn ∧ l.fn < 11
  rfn : 0 ≤ l.rfn ∧ l.rfn < 11
  wide : l.outW = l.nOutputs

/-- The layer reports the number of its active connections. -/
def TLay.Counted (l : TLay K) : Prop :=
  l.nActive = ((l.u.f.active + l.u.i.active + l.u.g.active + l.u.o.active + l.w.f.active +
    l.w.i.active + l.w.g.active + l.w.o.active : Nat) : Int)

/-- The error that arrives at the outputs (`neural_learn`, neural.c:333-341). -/
def lstmDelta (l : TLay K) (d : Nat → K) : TLay K := { l with delta := ofArr l.delta.length d }

/-- One learning step of a layer, neural.c:327-359. -/
def lstmLearn (m : Libm K) (l : TLay K) (x d : Nat → K) (p : Bool) : Res (TLay K) := do
  let l1 ← lstmForward m l (ofArr l.nInputs x)
  let (l2, _) ← lstmBackward m (lstmDelta l1 d) (ofArr l.nInputs x)
    (if p then some (List.replicate l.nInputs 0) else none)
  .ok (lstmUpdate l2)

/-- One step of a layer's history. -/
def tstep (g : Rng K R) (m : Libm K) (fuel : Nat) (l : TLay K) (r : R) :
    COp K → Res (TLay K × R)
  | .mutate => do
    let (a, r) ← lstmMutate g fuel l r
    .ok (a.1, r)
  | .resize prev => lstmResize g fuel l prev r
  | .learn x d p => do
    let l ← lstmLearn m l x d p
    .ok (l, r)
  | .forward x => do
    let l ← lstmForward m l (ofArr l.nInputs x)
    .ok (l, r)
  | .rand => lstmRand g l r
  | .copy => do
    let l ← lstmCopy l
    .ok (l, r)

/-- A history of a layer. -/
def trun (g : Rng K R) (m : Libm K) (fuel : Nat) : List (COp K) → TLay K → R → Res (TLay K × R)
  | [], l, r => .ok (l, r)
  | o :: os, l, r => do
    let (l, r) ← tstep g m fuel l r o
    trun g m fuel os l r

end Xcsf
