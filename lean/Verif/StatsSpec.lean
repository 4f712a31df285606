import Verif.Stats

/-!
# Specification for property C104: what the statistics should be
-/

set_option linter.unusedSectionVars false

namespace Xcsf.Stats
variable {K R : Type} [Field K] [LinearOrder K] [IsStrictOrderedRing K] [FloorRing K]

/-- The arithmetic mean. -/
def mean (vs : List K) : K := vs.sum / vs.length

/-- The number of weights of a layer that are in use. -/
def inUse : GLay K → Nat
  | .conn l => l.active
  | .recu l => l.inp.active + l.self.active + l.out.active
  | .lstm l => l.u.f.active + l.u.i.active + l.u.g.active + l.u.o.active + l.w.f.active +
      l.w.i.active + l.w.g.active + l.w.o.active
  | .conv l => l.core.active
  | _ => 0

/-- The number of neurons of a layer: of convolutional layers the number of filters (each has one
bias), of layers without weights the number of outputs. -/
def cells : GLay K → Nat
  | .conn l => l.ns.length
  | .recu l => l.out.ns.length
  | .lstm l => l.output.length
  | .conv l => l.core.ns.length
  | .maxp l => l.output.length
  | .avgp l => l.output.length
  | .ups l => l.output.length
  | .drop l => l.output.length
  | .noise l => l.output.length
  | .soft l => l.output.length

/-- The learning rate of a layer. -/
def rate : GLay K → K
  | .conn l => l.eta
  | .recu l => l.eta
  | .lstm l => l.eta
  | .conv l => l.core.eta
  | _ => 0

/-- A quantity of the layer at a position, the first being at zero; zero if there is none. -/
def atLayer (f : GLay K → K) (layer : Int) (b : NetBody K) : K :=
  if 0 ≤ layer then ((b.lays[layer.toNat]?).map f).getD 0 else 0

/-- The size of a network: all its weights in use. -/
def weights (b : NetBody K) : Nat := (b.lays.map inUse).sum

/-- The size of a condition that is no network: the intervals of a hyperrectangle or axes of an
ellipsoid, the characters of a ternary string, the functions and arguments of a tree, the nodes of a
graph. -/
def condElems : (c : CondType) → c.Body K → Nat
  | .dummy, _ => 0
  | .rectangle, b => Box.genes b |>.length
  | .ellipsoid, b => Box.genes b |>.length
  | .ternary, b => Tern.string b |>.length
  | .gp, b => GpTree.tree b |>.length
  | .dgp, b => Graph.func b |>.length

/-- The size of a prediction that is no network: one number per output of a constant, one weight per
feature and output of a linear or quadratic function. -/
def predElems (p : PredPar K) : PredType → Nat
  | .constant => p.yDim
  | .nlms => nFeatures p * p.yDim
  | .rls => nFeatures p * p.yDim

variable (Y : NetSystem K R)

/-- The size of the condition of a rule. -/
def sizeOfCond : (t : RuleKind) → t.CBody K → Nat
  | .parts (some c) _, b => condElems c b
  | .parts none _, b => weights b
  | .dgp, b => Graph.func b |>.length
  | .neural, b => weights b

/-- The size of the prediction of a rule. -/
def sizeOfPred (p : PredPar K) : (q : Option PredType) → predBody K q → Nat
  | some q, _ => predElems p q
  | none, b => weights b

/-- The quantity of a network in the condition, zero if the condition is none. -/
def ofCond (f : NetBody K → K) (b : Y.Rule) : K := ((condNet Y.rule b.1.cond).map f).getD 0

/-- The quantity of a network in the prediction, zero if the prediction is none. -/
def ofPred (f : NetBody K → K) (b : Y.Rule) : K := ((predNet Y.pred b.1.pred).map f).getD 0

/-- What each statistic is about. -/
def quantity (q : Stat) (b : Y.Rule) : K :=
  match q with
  | .condSize => sizeOfCond Y.rule b.1.cond
  | .predSize => sizeOfPred Y.S.pred Y.pred b.1.pred
  | .predEta i => ofPred Y (atLayer rate i) b
  | .predNeurons i => ofPred Y (atLayer (fun l => (cells l : K)) i) b
  | .predConns i => ofPred Y (atLayer (fun l => (inUse l : K)) i) b
  | .predLayers => ofPred Y (fun n => (n.lays.length : K)) b
  | .condConns i => ofCond Y (atLayer (fun l => (inUse l : K)) i) b
  | .condNeurons i => ofCond Y (atLayer (fun l => (cells l : K)) i) b
  | .condLayers => ofCond Y (fun n => (n.lays.length : K)) b

/-- Recurrent and LSTM layers have noted how many weights are in use, which they do in every history
in which the weights of a network are not replaced after some were switched off (C53). -/
def Noted : GLay K → Prop
  | .recu l => l.Counted
  | .lstm l => l.Counted
  | _ => True

/-- All layers of the networks of a rule have noted their numbers of weights in use. -/
def RuleNoted (b : Y.Rule) : Prop :=
  (∀ n, condNet Y.rule b.1.cond = some n → ∀ l ∈ n.lays, Noted l) ∧
  ∀ n, predNet Y.pred b.1.pred = some n → ∀ l ∈ n.lays, Noted l

/-- The largest `int`. -/
def intMax : K := ((2147483647 : Int) : K)

/-- The limit of `int` is not exceeded: by the size of a network, and by the sum of a number of
layers, neurons or connections over the rules.  Sums of sizes and rates are no `int`. -/
def Small (q : Stat) (cs : List (Cl K Y.Rule)) : Prop :=
  match q with
  | .predEta _ => True
  | .condSize => ∀ c ∈ cs, quantity Y q c.body ≤ intMax
  | .predSize => ∀ c ∈ cs, quantity Y q c.body ≤ intMax
  | _ => (cs.map fun c => quantity Y q c.body).sum ≤ intMax

end Xcsf.Stats
