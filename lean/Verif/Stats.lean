import Verif.PropsNRep

/-!
# Statistics of the population

The mean sizes of conditions and predictions, and of the layers of networks, that the Python object
reports (`pset_mean_*`), pybind_wrapper.cpp:725-775.  A walk over a set reads the rules; sums of the
C type `int` are undefined if they overflow.  Means are taken over the listed rules, each of which
counts once whatever its numerosity.
-/

set_option linter.unusedSectionVars false

namespace Xcsf.Stats
variable {K X B R : Type} [Field K] [LinearOrder K] [IsStrictOrderedRing K] [FloorRing K]

/-- Addition of values of type `int`. -/
def addInt (a b : Int) : Res Int :=
  if -2147483648 ≤ a + b ∧ a + b ≤ 2147483647 then .ok (a + b) else .error .ub

/-! ## Networks -/

/-- The loop of `pred_neural_eta`, `pred_neural_neurons`, `pred_neural_connections`,
pred_neural.c:216-283, `cond_neural_neurons` and `cond_neural_connections`, cond_neural.c:245-288:
from the first layer on (the tail of the list) until position `layer`. -/
def layerAt (layer : Int) : List (GLay K) → Int → Option (GLay K)
  | [], _ => none
  | l :: ls, i => if i = layer then some l else layerAt layer ls (i + 1)

/-- `n_filters` of convolutional layers and `n_outputs` of others, pred_neural.c:252-255,
cond_neural.c:254-257. -/
def layerNeurons : GLay K → Int
  | .conv l => l.core.nOutputs
  | l => l.dim.n

/-- `l->n_active`; zero in layers without weights, neural_layer.c:413-478. -/
def layerActive : GLay K → Int
  | .conn l => l.nActive
  | .recu l => l.nActive
  | .lstm l => l.nActive
  | .conv l => l.core.nActive
  | _ => 0

/-- `l->eta`; zero in layers without weights, neural_layer.c:426. -/
def layerEta : GLay K → K
  | .conn l => l.eta
  | .recu l => l.eta
  | .lstm l => l.eta
  | .conv l => l.core.eta
  | _ => 0

/-- `pred_neural_neurons`, pred_neural.c:240-258; `cond_neural_neurons`, cond_neural.c:245-263. -/
def netNeurons (layer : Int) (b : NetBody K) : Int :=
  match layerAt layer b.lays 0 with
  | some l => layerNeurons l
  | none => 0

/-- `pred_neural_connections`, pred_neural.c:268-283; `cond_neural_connections`,
cond_neural.c:273-288. -/
def netConns (layer : Int) (b : NetBody K) : Int :=
  match layerAt layer b.lays 0 with
  | some l => layerActive l
  | none => 0

/-- `pred_neural_eta`, pred_neural.c:216-231. -/
def netEta (layer : Int) (b : NetBody K) : K :=
  match layerAt layer b.lays 0 with
  | some l => layerEta l
  | none => 0

/-- `pred_neural_layers`, pred_neural.c:292-298, and `cond_neural_layers`, cond_neural.c:297-303:
`n_layers`, counted in `neural_insert`, neural.c:131. -/
def netLayers (b : NetBody K) : Int := b.lays.length

/-- The loop of `neural_size`, neural.c:450-469, with the sum so far. -/
def neuralSize : List (GLay K) → Int → Res Int
  | [], n => .ok n
  | .conn l :: ls, n => do neuralSize ls (← addInt n l.nActive)
  | .recu l :: ls, n => do neuralSize ls (← addInt n l.nActive)
  | .lstm l :: ls, n => do neuralSize ls (← addInt n l.nActive)
  | .conv l :: ls, n => do neuralSize ls (← addInt n l.core.nActive)
  | _ :: ls, n => neuralSize ls n

/-! ## Walks over a set -/

/-- The loop of the functions of clset_neural.c with sums of type `int`, clset_neural.c:47-51: sum
and number of rules. -/
def sumInts (s : St K X B R) (f : B → Int) : List Nat → Int → Int → Res (Int × Int)
  | [], sum, cnt => .ok (sum, cnt)
  | i :: is, sum, cnt => do
    let c ← s.rd i
    let sum ← addInt sum (f c.body)
    let cnt ← addInt cnt 1
    sumInts s f is sum cnt

/-- The same with a sum of type `double`, clset_neural.c:184-188 and clset.c:679-683. -/
def sumReals (s : St K X B R) (f : B → Res K) : List Nat → K → Int → Res (K × Int)
  | [], sum, cnt => .ok (sum, cnt)
  | i :: is, sum, cnt => do
    let c ← s.rd i
    let v ← f c.body
    let cnt ← addInt cnt 1
    sumReals s f is (sum + v) cnt

/-- The last lines of the functions of clset_neural.c, 53-56. -/
def guarded (sum : K) (cnt : Int) : K := if cnt ≠ 0 then sum / cnt else 0

/-- `sum / cnt` of clset.c:684 and 703; 0/0 is not a number, `none`. -/
def divided (sum : K) (cnt : Int) : Option K := if cnt ≠ 0 then some (sum / cnt) else none

/-! ## The functions -/

variable (Y : NetSystem K R)

/-- The network `c->cond` of conditions of type `COND_TYPE_NEURAL` and `RULE_TYPE_NEURAL`, both
structures with the network as only member (cond_neural.h:35-37, rule_neural.h:34-36). -/
def condNet : (t : RuleKind) → t.CBody K → Option (NetBody K)
  | .parts none _, b => some b
  | .neural, b => some b
  | .parts (some _) _, _ => none
  | .dgp, _ => none

/-- The network `c->pred` of predictions of type `PRED_TYPE_NEURAL`. -/
def predNet : (q : Option PredType) → predBody K q → Option (NetBody K)
  | none, b => some b
  | some _, _ => none

/-- The test of the type of the conditions, clset_neural.c:43-44. -/
def neuralCond : RuleKind → Bool
  | .parts none _ => true
  | .neural => true
  | _ => false

/-- What the loop over the rules adds for a condition, clset_neural.c:47, 74 and 103: the network is
found through the type of the conditions. -/
def onCond (f : NetBody K → Int) (b : Y.Rule) : Int :=
  match condNet Y.rule b.1.cond with
  | some n => f n
  | none => 0

/-- What the loop over the rules adds for a prediction, clset_neural.c:130, 157 and 216. -/
def onPred (f : NetBody K → Int) (b : Y.Rule) : Int :=
  match predNet Y.pred b.1.pred with
  | some n => f n
  | none => 0

/-- What the loop over the rules adds for a prediction, clset_neural.c:185. -/
def etaOn (layer : Int) (b : Y.Rule) : Res K :=
  match predNet Y.pred b.1.pred with
  | some n => .ok (netEta layer n)
  | none => .ok 0

/-- The pattern of `clset_mean_cond_layers`, `clset_mean_cond_neurons` and
`clset_mean_cond_connections`, clset_neural.c:39-111. -/
def meanCond (f : NetBody K → Int) (s : St K Y.In Y.Rule R) (l : List Nat) : Res K :=
  if neuralCond Y.rule then do
    let q ← sumInts s (onCond Y f) l 0 0
    .ok (guarded (q.1 : K) q.2)
  else .ok 0

/-- The pattern of `clset_mean_pred_neurons`, `clset_mean_pred_layers` and
`clset_mean_pred_connections`, clset_neural.c:121-163 and 200-217. -/
def meanPred (f : NetBody K → Int) (s : St K Y.In Y.Rule R) (l : List Nat) : Res K :=
  if Y.pred.isNone then do
    let q ← sumInts s (onPred Y f) l 0 0
    .ok (guarded (q.1 : K) q.2)
  else .ok 0

/-- `clset_mean_pred_eta`, clset_neural.c:173-190. -/
def meanPredEta (layer : Int) (s : St K Y.In Y.Rule R) (l : List Nat) : Res K :=
  if Y.pred.isNone then do
    let q ← sumReals s (etaOn Y layer) l 0 0
    .ok (guarded q.1 q.2)
  else .ok 0

/-- `cl_cond_size`, cl.c:398-402: of networks `neural_size` (cond_neural.c:196-201,
rule_neural.c:136-142), of other conditions the function in `RuleKind.cond`. -/
def condSize (b : Y.Rule) : Res K :=
  match condNet Y.rule b.1.cond with
  | some n => do .ok ((← neuralSize n.lays 0 : Int) : K)
  | none => .ok ((Y.rule.cond Y.pf.rng Y.S Y.par.nActions).size b.1.cond)

/-- `cl_pred_size`, cl.c:410-414: of networks `neural_size` (pred_neural.c:168-173), of other
predictions the function in `predFn`. -/
def predSize (b : Y.Rule) : Res K :=
  match predNet Y.pred b.1.pred with
  | some n => do .ok ((← neuralSize n.lays 0 : Int) : K)
  | none => .ok ((predFn Y.pf.rng Y.S Y.pred).size b.1.pred)

/-- The statistics the Python object reports, pybind_wrapper.cpp:725-775. -/
inductive Stat where
  | condSize
  | predSize
  | predEta (layer : Int)
  | predNeurons (layer : Int)
  | predConns (layer : Int)
  | predLayers
  | condConns (layer : Int)
  | condNeurons (layer : Int)
  | condLayers
  deriving DecidableEq, Repr

/-- The value reported, pybind_wrapper.cpp:725-775, of the population. -/
def report (q : Stat) (s : St K Y.In Y.Rule R) : Res (Option K) :=
  match q with
  | .condSize => do
    let q ← sumReals s (condSize Y) s.pset.list 0 0
    .ok (divided q.1 q.2)
  | .predSize => do
    let q ← sumReals s (predSize Y) s.pset.list 0 0
    .ok (divided q.1 q.2)
  | .predEta layer => do .ok (some (← meanPredEta Y layer s s.pset.list))
  | .predNeurons layer => do .ok (some (← meanPred Y (netNeurons layer) s s.pset.list))
  | .predConns layer => do .ok (some (← meanPred Y (netConns layer) s s.pset.list))
  | .predLayers => do .ok (some (← meanPred Y netLayers s s.pset.list))
  | .condConns layer => do .ok (some (← meanCond Y (netConns layer) s s.pset.list))
  | .condNeurons layer => do .ok (some (← meanCond Y (netNeurons layer) s s.pset.list))
  | .condLayers => do .ok (some (← meanCond Y netLayers s s.pset.list))

end Xcsf.Stats
