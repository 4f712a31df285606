import Verif.Dgp

/-!
# The Python wrapper: array arguments (`pybind_wrapper.cpp`)

NumPy arrays are views of buffers: a shape, a stride per axis and a start.  The wrapper only takes
the address of the first element and reads on from there.  Memory is a table of live buffers, each
marked as allocated by the library (`malloc`) or by Python.  The learning system itself appears as
a function `sys` that gives the prediction for an input, or `none` if no rule matches and the
cover array is returned instead (`xcs_supervised_trial`, xcs_supervised.c:58-82; modelled in full
in `Trial`).  The output buffer of `predict`, which is never freed, is not modelled.
-/

namespace Xcsf

/-- A pointer: a buffer and an index in it. -/
abbrev Ptr := Nat × Nat

/-- A NumPy array of doubles (`py::buffer_info`).  Strides count elements. -/
structure PyArr where
  buf : Nat
  off : Nat
  shape : List Nat
  strides : List Int

/-- The buffers that are alive; `true` marks those allocated with `malloc` by the library. -/
abbrev Mem (K : Type) := Nat → Option (Bool × List K)

/-- The dimensions the system is configured with (`x_dim`, `y_dim`, `n_actions`). -/
structure WDims where
  xDim : Nat
  yDim : Nat
  nActions : Nat

/-- `xcsf->pa_size`, pa.c:48. -/
def WDims.paSize (d : WDims) : Nat := d.nActions * d.yDim

/-- The wrapper: memory, the next unused buffer, `xcs.cover` and `state`
(pybind_wrapper.cpp:67-68, xcsf.h:107). -/
structure Wr (K : Type) where
  mem : Mem K
  next : Nat
  cover : Ptr
  state : Option Ptr

section
variable {K : Type}

/-- `p[i]`. -/
def readAt (mem : Mem K) (p : Ptr) (i : Nat) : Res K :=
  match mem p.1 with
  | none => .error .uaf
  | some (_, l) => getR l (p.2 + i)

/-- `p[0]`, …, `p[n-1]`. -/
def readN (mem : Mem K) (p : Ptr) (n : Nat) : Res (List K) :=
  (List.range n).mapM (readAt mem p)

/-- `memset(p, 0, n * sizeof(double))`. -/
def memZero [Zero K] (mem : Mem K) (p : Ptr) (n : Nat) : Res (Mem K) :=
  match mem p.1 with
  | none => .error .uaf
  | some (own, l) =>
    if p.2 + n ≤ l.length then
      .ok (Function.update mem p.1
        (some (own, l.take p.2 ++ List.replicate n 0 ++ l.drop (p.2 + n))))
    else .error .ub

/-- `free(p)`: only for the start of a live block obtained from `malloc`. -/
def memFree (mem : Mem K) (p : Ptr) : Res (Mem K) :=
  match mem p.1 with
  | none => .error .uaf
  | some (own, _) =>
    if own = true ∧ p.2 = 0 then .ok (Function.update mem p.1 none) else .error .ub

/-- The data set of `fit` and `score` (`struct Input`, xcsf.h). -/
structure WInput where
  nSamples : Nat
  x : Ptr
  y : Ptr

/-- The shape test shared by `load_input` (pybind_wrapper.cpp:344-367) and `predict` (588-599):
one or two axes, and with two the second has the right length. -/
def shapeOk (dim : Nat) : List Nat → Bool
  | [_] => true
  | [_, d] => d == dim
  | _ => false

/-- `load_input`, pybind_wrapper.cpp:336-374; `none` is an exception. -/
def loadInput (d : WDims) (X Y : PyArr) : Option WInput :=
  if shapeOk d.xDim X.shape ∧ shapeOk d.yDim Y.shape ∧ X.shape.head? = Y.shape.head? then
    some ⟨X.shape.headD 0, (X.buf, X.off), (Y.buf, Y.off)⟩
  else none

/-- The features of sample `row`: `&data->x[row * x_dim]` followed by `x_dim` reads,
xcs_supervised.c:110-112, 168 and 195. -/
def wRowAt (mem : Mem K) (p : Ptr) (dim row : Nat) : Res (List K) :=
  readN mem (p.1, p.2 + row * dim) dim

/-- The cover argument of `predict` and `score`: absent, a NumPy array of doubles, or an object
that pybind converts to a temporary array (e.g. a list). -/
inductive CoverArg (K : Type) where
  | none
  | arr (a : PyArr)
  | other (vals : List K)

/-- `get_cover`, pybind_wrapper.cpp:542-560: `none` is an exception. -/
def getCover (d : WDims) (a : PyArr) : Option Ptr :=
  if a.shape.length = 1 then
    if a.shape.head? = some d.yDim then some (a.buf, a.off) else none
  else none

/-- `set_cover`, pybind_wrapper.cpp:565-574.  The result says whether it returned without an
exception.  A converted object lives in a temporary array that is released when the function
returns. -/
def setCover [Zero K] (d : WDims) (w : Wr K) : CoverArg K → Res (Bool × Wr K)
  | .none => do
    let mem ← memZero w.mem w.cover d.paSize
    .ok (true, { w with mem := mem })
  | .arr a =>
    match getCover d a with
    | none => .ok (false, w)
    | some p => .ok (true, { w with cover := p })
  | .other vals =>
    if vals.length = d.yDim then .ok (true, { w with cover := (w.next, 0), next := w.next + 1 })
    else .ok (false, w)

/-- One row of `xcs_supervised_predict`, xcs_supervised.c:141-150, with the trial of lines
64-75: without a matching rule the result is copied from the cover array. -/
def wPredictRow (d : WDims) (sys : List K → Option (List K)) (mem : Mem K) (p cover : Ptr)
    (row : Nat) : Res (List K) := do
  let x ← wRowAt mem p d.xDim row
  match sys x with
  | some v => .ok v
  | none => readN mem cover d.paSize

/-- `predict`, pybind_wrapper.cpp:583-606: `none` is an exception. -/
def wPredict [Zero K] (d : WDims) (sys : List K → Option (List K)) (w : Wr K) (X : PyArr)
    (cover : CoverArg K) : Res (Option (List (List K)) × Wr K) :=
  if shapeOk d.xDim X.shape then do
    let (ok, w) ← setCover d w cover
    if ok then
      let out ← (List.range (X.shape.headD 0)).mapM
        (wPredictRow d sys w.mem (X.buf, X.off) w.cover)
      .ok (some out, w)
    else .ok (none, w)
  else .ok (none, w)

/-- `pa_free` followed by `pa_init` (pa.c:45-52, 191-197), as far as the cover array is concerned:
the start of `fit` without `warm_start`, pybind_wrapper.cpp:503-506. -/
def wReinit [Zero K] (d : WDims) (w : Wr K) : Res (Wr K) := do
  let mem ← memFree w.mem w.cover
  .ok { w with
    mem := Function.update mem w.next (some (true, List.replicate d.paSize 0))
    cover := (w.next, 0)
    next := w.next + 1 }

/-- A freshly constructed system: pybind_wrapper.cpp:85-101 with pa.c:45-52. -/
def wNew [Zero K] (d : WDims) : Wr K :=
  { mem := fun b => if b = 0 then some (true, List.replicate d.paSize 0) else none
    next := 1
    cover := (0, 0)
    state := none }

/-- The address `decision` remembers, pybind_wrapper.cpp:287-295.  `shape[0]` does not exist for an
array without axes. -/
def wDecision (d : WDims) (w : Wr K) (x : PyArr) : Res (Option (List K) × Wr K) :=
  match x.shape with
  | [] => .error .ub
  | n :: _ =>
    if n = d.xDim then do
      let v ← readN w.mem (x.buf, x.off) d.xDim
      .ok (some v, { w with state := some (x.buf, x.off) })
    else .ok (none, w)

/-- The state the following `update` and `end_step` refer to (pybind_wrapper.cpp:306-311,
273-277; xcs_rl.c:179): whatever is at the remembered address now. -/
def wState (d : WDims) (w : Wr K) : Res (List K) :=
  match w.state with
  | none => .error .ub
  | some p => readN w.mem p d.xDim

/-- What the Python program does between and with calls. -/
inductive WOp (K : Type) where
  /-- create an array with these elements in a new buffer -/
  | make (vals : List K)
  /-- the last reference to an array of Python disappears -/
  | drop (b : Nat)
  /-- assign new elements in place -/
  | assign (b : Nat) (vals : List K)
  | predict (X : PyArr) (cover : CoverArg K)
  | refit

/-- One step; the output of `predict` is reported. -/
def wStep [Zero K] (d : WDims) (sys : List K → Option (List K)) (w : Wr K) :
    WOp K → Res (Option (List (List K)) × Wr K)
  | .make vals => .ok (none,
      { w with mem := Function.update w.mem w.next (some (false, vals)), next := w.next + 1 })
  | .drop b => .ok (none, { w with mem := Function.update w.mem b none })
  | .assign b vals => .ok (none, { w with mem := Function.update w.mem b (some (false, vals)) })
  | .predict X c => wPredict d sys w X c
  | .refit => do
    let w ← wReinit d w
    .ok (none, w)

/-- A history; all outputs are reported. -/
def wRun [Zero K] (d : WDims) (sys : List K → Option (List K)) :
    List (WOp K) → Wr K → Res (List (Option (List (List K))) × Wr K)
  | [], w => .ok ([], w)
  | op :: ops, w => do
    let (o, w) ← wStep d sys w op
    let (os, w) ← wRun d sys ops w
    .ok (o :: os, w)

end

end Xcsf
