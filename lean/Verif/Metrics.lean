import Verif.Fit
import Verif.Wrapper

/-!
# The record of training kept by the Python class

`fit` appends to lists after every epoch; `get_metrics()` returns them, and callbacks see them.  The
numbers of trials are natural numbers: overflow of `int` is not modelled.
-/

namespace Xcsf
namespace Metrics
variable {K X B R : Type} [Zero K] [One K] [Add K] [Sub K] [Mul K] [Div K]
  [LT K] [DecidableLT K] [IntCast K] [DecidableEq K]

/-- The lists `metric_…` and `metric_counter`, pybind_wrapper.cpp:74-81; `get_metrics`, lines
693-704. -/
structure Log (K : Type) where
  train : List K := []
  val : List K := []
  trials : List Nat := []
  psize : List Int := []
  msize : List K := []
  mfrac : List K := []
  counter : Nat := 0

/-- `update_metrics`, pybind_wrapper.cpp:408-419. -/
def Log.note (g : Log K) (te ve : K) (n : Nat) (s : St K X B R) : Log K :=
  { train := g.train ++ [te]
    val := g.val ++ [ve]
    trials := g.trials ++ [(1 + g.counter) * n]
    psize := g.psize ++ [s.pset.size]
    msize := g.msize ++ [s.msetSize]
    mfrac := g.mfrac ++ [s.mfrac]
    counter := g.counter + 1 }

/-- `callbacks_run`, pybind_wrapper.cpp:451-469: callbacks see the record, may change the system, and
decide whether to stop. -/
abbrev Watch (K X B R : Type) := Log K → St K X B R → Res (Bool × St K X B R)

/-- The arguments of a call of `fit`, with the parameters it uses.  `finish` is `callbacks_finish`,
pybind_wrapper.cpp:475-486. -/
structure Job (K X B R : Type) where
  train : List (X × List K)
  val : Option (List (X × List K))
  shuffle : Bool
  warm : Bool
  maxTrials : Nat
  perfTrials : Nat
  watch : Watch K X B R
  finish : St K X B R → Res (St K X B R)

/-- The trials of an epoch of the call. -/
def Job.n (j : Job K X B R) : Nat := epochTrials j.maxTrials j.perfTrials

/-- The error on the validation data, pybind_wrapper.cpp:523-526: predictions of inputs that no rule
contains are zero (line 442). -/
def validate (par : Params K) (kit : Kit K X B R) (val : Option (List (X × List K)))
    (s : St K X B R) : Res (K × St K X B R) :=
  match val with
  | none => .ok (0, s)
  | some v => score par kit (List.replicate (par.nActions * par.yDim) 0) v s

/-- The epoch loop of `fit`, pybind_wrapper.cpp:517-534: `k` epochs are left, `i` are done. -/
def fitGo (par : Params K) (kit : Kit K X B R) (j : Job K X B R) :
    Nat → Nat → Log K → St K X B R → Res (Log K × St K X B R)
  | 0, _, g, s => .ok (g, s)
  | k + 1, i, g, s => do
    let (te, s) ← supFit par kit j.train none j.shuffle (i * j.n) j.n s
    let (ve, s) ← validate par kit j.val s
    let g := g.note te ve j.n s
    let (stop, s) ← j.watch g s
    if stop then .ok (g, s) else fitGo par kit j k (i + 1) g s

/-- The start of `fit`, pybind_wrapper.cpp:503-506: without a warm start the system is made anew. -/
def begin (par : Params K) (kit : Kit K X B R) (j : Job K X B R) (s : St K X B R) :
    Res (St K X B R) :=
  if j.warm then .ok s else xcsfInit par kit s.rng

/-- `fit`, pybind_wrapper.cpp:498-537; the record stays when the system is made anew. -/
def fit (par : Params K) (kit : Kit K X B R) (j : Job K X B R) (g : Log K) (s : St K X B R) :
    Res (Log K × St K X B R) := do
  let s ← begin par kit j s
  let (g, s) ← fitGo par kit j (nEpochs j.maxTrials j.perfTrials) 0 g s
  let s ← j.finish s
  .ok (g, s)

/-- What a program does with an object. -/
inductive Call (K X B R : Type) where
  | fit (j : Job K X B R)
  | other (o : Op K X B)

/-- One call. -/
def call (par : Params K) (kit : Kit K X B R) (q : Log K × St K X B R) :
    Call K X B R → Res (Log K × St K X B R)
  | .fit j => fit par kit j q.1 q.2
  | .other o => do
    let s ← step par kit q.2 o
    .ok (q.1, s)

/-- A sequence of calls. -/
def session (par : Params K) (kit : Kit K X B R) (cs : List (Call K X B R)) (q : Log K × St K X B R) :
    Res (Log K × St K X B R) :=
  cs.foldlM (call par kit) q

/-! ## Where the validation data is -/

/-- An array argument: an array of doubles, or an object that pybind converts to a temporary array
(a list, or an array of another type). -/
inductive ArrArg (K : Type) where
  | arr (a : PyArr)
  | other (vals : List K) (shape : List Nat)

/-- `data[0].cast<py::array_t<double>>()`, pybind_wrapper.cpp:436-437: the array itself, or a new one
in a new buffer. -/
def ArrArg.cast (w : Wr K) : ArrArg K → PyArr × Wr K
  | .arr a => (a, w)
  | .other vals shape =>
    (⟨w.next, 0, shape, []⟩,
      { w with mem := Function.update w.mem w.next (some (false, vals)), next := w.next + 1 })

/-- The end of the scope of a converted array, pybind_wrapper.cpp:443: Python releases it. -/
def ArrArg.release (a : PyArr) (w : Wr K) : ArrArg K → Wr K
  | .arr _ => w
  | .other _ _ => { w with mem := Function.update w.mem a.buf none }

/-- `load_validation_data` with a pair of arrays, pybind_wrapper.cpp:426-445: `none` is an
exception. -/
def loadVal (d : WDims) (w : Wr K) (x y : ArrArg K) : Res (Option WInput × Wr K) := do
  let p := x.cast w
  let q := y.cast p.2
  match loadInput d p.1 q.1 with
  | none => .ok (none, x.release p.1 (y.release q.1 q.2))
  | some v => do
    let mem ← memZero q.2.mem q.2.cover d.paSize
    .ok (some v, x.release p.1 (y.release q.1 { q.2 with mem := mem }))

end Metrics
end Xcsf
