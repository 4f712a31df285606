import Verif.NLayer
import Verif.PropsUtil

/-!
# Specification for property C53: legal connected layers and their histories
-/

set_option linter.unusedSectionVars false

namespace Xcsf
variable {K R : Type} [Field K] [LinearOrder K] [IsStrictOrderedRing K] [FloorRing K]

/-! ## Specification -/

/-- The standard normal values of `rand_normal` are bounded: the Box–Muller transform of a number
greater than DBL_EPSILON (utils.c:90-96) is at most 8.5 in absolute value. -/
def Rng.Bounded (g : Rng K R) : Prop := ∀ r, -10 ≤ (g.gauss r).1 ∧ (g.gauss r).1 ≤ 10

/-- A legal connection: weight within limits, and zero if disconnected. -/
def WtOk (w : Wt K) : Prop := -10 ≤ w.w ∧ w.w ≤ 10 ∧ (w.on = false → w.w = 0)

/-- A legal connected layer: array sizes agree with the layer's dimensions, weights and biases are
within limits, disconnected weights are zero and the reported number of active connections is
their number. -/
structure CLay.Sound (l : CLay K) : Prop where
  ins : 1 ≤ l.nInputs
  outs : 1 ≤ l.nOutputs
  wlen : l.ws.length = l.nOutputs * l.nInputs
  nlen : l.ns.length = l.nOutputs
  wt : ∀ w ∈ l.ws, WtOk w
  bias : ∀ n ∈ l.ns, -10 ≤ n.bias ∧ n.bias ≤ 10
  active : l.nActive = ((l.ws.filter fun w => w.on).length : Nat)
  mu : l.mu.length = 6 ∧ ∀ v ∈ l.mu, LegalRate v
  fn : 0 ≤ l.fn ∧ l.fn < 11

/-- Whether the connection of neuron `i` with input `j` is active. -/
def CLay.conn (l : CLay K) (i j : Nat) : Bool :=
  match l.ws[i * l.nInputs + j]? with
  | some w => w.on
  | none => false

/-- Every neuron has an active input and every input feeds a neuron. -/
def CLay.Represented (l : CLay K) : Prop :=
  (∀ i < l.nOutputs, ∃ j < l.nInputs, l.conn i j = true) ∧
  (∀ j < l.nInputs, ∃ i < l.nOutputs, l.conn i j = true)

/-- What is done with a layer.  `learn x d p`: forward with input `x`, error `d` arrives at the
outputs, backward (`p`: there is a layer before), update. -/
inductive COp (K : Type) where
  | mutate
  | resize (prev : Nat)
  | learn (x d : Nat → K) (p : Bool)
  | forward (x : Nat → K)
  | rand
  | copy

/-- The error that arrives at the outputs (`neural_learn`, neural.c:333-341). -/
def setDelta (l : CLay K) (d : Nat → K) : CLay K :=
  { l with ns := l.ns.mapIdx fun i n => { n with delta := d i } }

/-- One learning step of a layer, neural.c:327-359. -/
def connLearn (m : Libm K) (l : CLay K) (x d : Nat → K) (p : Bool) : Res (CLay K) :=
  match connForward m l (ofArr l.nInputs x) with
  | .error e => .error e
  | .ok l1 =>
    match connBackward m (setDelta l1 d) (ofArr l.nInputs x)
        (if p then some (List.replicate l.nInputs 0) else none) with
    | .error e => .error e
    | .ok (l2, _) => .ok (connUpdate l2)

/-- One step of a layer's history. -/
def cstep (g : Rng K R) (m : Libm K) (fuel : Nat) (l : CLay K) (r : R) : COp K → Res (CLay K × R)
  | .mutate =>
    match connMutate g fuel l r with
    | .error e => .error e
    | .ok (a, r) => .ok (a.1, r)
  | .resize prev => connResize g fuel l prev r
  | .learn x d p =>
    match connLearn m l x d p with
    | .error e => .error e
    | .ok l => .ok (l, r)
  | .forward x =>
    match connForward m l (ofArr l.nInputs x) with
    | .error e => .error e
    | .ok l => .ok (l, r)
  | .rand => .ok (weightRand g l r)
  | .copy => .ok (connCopy l, r)

/-- A history of a layer. -/
def crun (g : Rng K R) (m : Libm K) (fuel : Nat) : List (COp K) → CLay K → R → Res (CLay K × R)
  | [], l, r => .ok (l, r)
  | o :: os, l, r =>
    match cstep g m fuel l r o with
    | .error e => .error e
    | .ok (l, r) => crun g m fuel os l r

/-- The layer was created with limits under which no size computation overflows: at most `B`
neurons, at most `M` connections. -/
structure CLay.Fits (B M : Nat) (l : CLay K) : Prop where
  cur : l.nOutputs ≤ B
  max : l.maxOutputs ≤ (B : Int)
  le : l.opt.neurons = true → (l.nOutputs : Int) ≤ l.maxOutputs
  prod : B * l.nInputs ≤ M
  grow : l.opt.neurons = true → -2000000 ≤ l.maxGrow ∧ l.maxGrow ≤ 2000000
  big : B ≤ 2000000

/-- The allowed faults: exceeding the program's size limits ends it; the growth loop may run as long
as the draws are too small. -/
def CFault (M : Nat) (neurons : Bool) (e : Fault) : Prop :=
  (e = .exit ∧ 20000000 < M) ∨ (e = .hang ∧ neurons = true)

/-- All connections are active in a layer whose connectivity does not evolve, and every neuron and
input is represented. -/
structure CLay.Rep (l : CLay K) : Prop where
  rep : l.Represented
  full : l.opt.connect = false → ∀ w ∈ l.ws, w.on = true

/-- The limits of an operation of a history. -/
def COp.fits (B M : Nat) : COp K → Prop
  | .resize prev => 1 ≤ prev ∧ B * prev ≤ M
  | _ => True

/-- Arguments of a new layer that respect the limits; the last three are what
`layer_args_validate` (neural_layer_args.c:500-517) establishes. -/
structure CArgs.Fits (B M : Nat) (a : CArgs K) : Prop where
  ins : 1 ≤ a.nInputs
  init : 1 ≤ a.nInit
  cur : a.nInit ≤ B
  max : a.nMax ≤ (B : Int)
  prod : B * a.nInputs ≤ M
  big : B ≤ 2000000
  le : (a.nInit : Int) ≤ a.nMax
  grow : a.opt.neurons = true → -2000000 ≤ a.maxGrow ∧ a.maxGrow ≤ 2000000
  fn : 0 ≤ a.fn ∧ a.fn < 11

end Xcsf
