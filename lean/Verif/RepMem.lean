import Verif.Basic

/-!
Memory of rules: the blocks that conditions, actions, predictions and the layers of their networks
obtain and release (`neural.c`, `neural_layer*.c`, `cond_*.c`, `act_*.c`, `pred_*.c`, `rule_*.c`,
`gp.c`, `dgp.c`, `cl.c`).

The model keeps the pointers and forgets the numbers: a heap is the list of the blocks that are
allocated, a structure of the code is the block it lives in together with its pointer fields.
Releasing a block that is not allocated and reading or writing through a pointer to such a block is
the fault `uaf`, reading or writing through a null pointer is the fault `ub`. The sizes of the blocks
and their contents are the subject of other parts of the model (`Net.lean`, `NRec.lean`, `Dgp.lean`, …).
What depends on contents (how often covering draws another tree, which layers of a network change
their size) is given to the functions as arguments.
-/

namespace Xcsf

namespace RepMem

/-! ### The allocator -/

/-- The heap. Models the C library: `live` are the allocated blocks, `next` numbers the calls, and
`moves` says of each call of `realloc` whether the block is moved. -/
structure Heap where
  live : List Nat
  next : Nat
  moves : Nat → Bool

/-- Computations that use the heap. -/
abbrev M := StateT Heap Res

/-- `malloc` and `calloc`, which are assumed to succeed. -/
def malloc : M Nat := fun h =>
  .ok (h.next, { h with live := h.next :: h.live, next := h.next + 1 })

/-- `free`: does nothing for a null pointer; a block must be allocated. -/
def free (p : Option Nat) : M Unit := fun h =>
  match p with
  | none => .ok ((), h)
  | some p => if p ∈ h.live then .ok ((), { h with live := h.live.erase p }) else .error .uaf

/-- `realloc`: the block stays where it is or is moved to a new one, the old one being released. -/
def realloc (p : Option Nat) : M Nat := fun h =>
  match p with
  | none => malloc h
  | some p =>
    if p ∈ h.live then
      if h.moves h.next then
        .ok (h.next, { h with live := h.next :: h.live.erase p, next := h.next + 1 })
      else .ok (p, { h with next := h.next + 1 })
    else .error .uaf

/-- Reading or writing through a pointer. -/
def touch (p : Option Nat) : M Unit := fun h =>
  match p with
  | none => .error .ub
  | some p => if p ∈ h.live then .ok ((), h) else .error .uaf

/-- `if (b) a = act;` -/
def doIf {α : Type} (b : Bool) (act : M α) (a : α) : M α := if b then act else pure a

/-! ### Structures with arrays -/

/-- The pointer fields of `struct Layer` (neural_layer.h:73-136) other than its parts, of the
conditions (cond_ellipsoid.h, cond_rectangle.h, cond_ternary.h), of `struct GPTree` (gp.h), of
`struct Graph` (dgp.h), of the actions (act_integer.h) and of the predictions (pred_nlms.h,
pred_rls.h). -/
inductive Fld
  | state | output | weights | weightActive | biases | biasUpdates | weightUpdates | delta | mu
  | prevState | cell | prevCell | lf | li | lg | lo | lc | lh | temp | temp2 | temp3 | dc | indexes
  | center | spread | b1 | b2 | string | tmpInput | tree
  | initialState | tmpState | function | connectivity
  | matrix | tmpVec | tmpMatrix1 | tmpMatrix2
  deriving DecidableEq, Repr

/-- The pointers of a structure; `none` is the null pointer. -/
abbrev Ptrs := Fld → Option Nat

/-- All pointers null (`layer_defaults`, neural_layer.c:413-478). -/
def null : Ptrs := fun _ => none

/-- Assignment to a pointer field. -/
def assign (q : Ptrs) (f : Fld) (p : Option Nat) : Ptrs := fun g => if g = f then p else q g

/-- `x->f = malloc(…)` for each of the fields. -/
def mallocs : List Fld → Ptrs → M Ptrs
  | [], q => pure q
  | f :: fs, q => do
    let p ← malloc
    mallocs fs (assign q f (some p))

/-- `free(x->f)` for each of the fields. -/
def frees : List Fld → Ptrs → M Unit
  | [], _ => pure ()
  | f :: fs, q => do
    free (q f)
    frees fs q

/-- `x->f = realloc(x->f, …)` for each of the fields. -/
def reallocs : List Fld → Ptrs → M Ptrs
  | [], q => pure q
  | f :: fs, q => do
    let p ← realloc (q f)
    reallocs fs (assign q f (some p))

/-- Reading or writing the arrays of each of the fields. -/
def touches : List Fld → Ptrs → M Unit
  | [], _ => pure ()
  | f :: fs, q => do
    touch (q f)
    touches fs q

/-- A structure: its block and its pointers. -/
structure Obj where
  self : Nat
  ptr : Ptrs

/-- Access to a structure and some of its arrays. -/
def Obj.use (x : Obj) (fs : List Fld) : M Unit := do
  touch (some x.self)
  touches fs x.ptr

/-! ### Layers -/

/-- The kinds of layers (neural_layer.h:29-38). -/
inductive LKind
  | connected | dropout | noise | recurrent | lstm | softmax | maxpool | convolutional | avgpool
  | upsample
  deriving DecidableEq, Repr

/-- A layer: its structure and, for recurrent layers, the connected layers it is composed of: input,
self and output layer of a recurrent layer (neural_layer_recurrent.c:88-93), the eight gates of an
LSTM layer in the order `uf ui ug uo wf wi wg wo` (neural_layer_lstm.c:114-124). -/
structure Lay where
  kind : LKind
  obj : Obj
  subs : List Obj

/-- The arrays a layer allocates (`malloc_layer_arrays`): neural_layer_connected.c:48-62,
neural_layer_dropout.c:32-39, neural_layer_noise.c:32-39, neural_layer_recurrent.c:50-57,
neural_layer_lstm.c:87-107 (and `mu`, neural_layer_lstm.c:317), neural_layer_softmax.c:32-38,
neural_layer_maxpool.c:32-39, neural_layer_convolutional.c:101-115, neural_layer_avgpool.c:32-38,
neural_layer_upsample.c:32-38. -/
def mallocFlds : LKind → List Fld
  | .connected => [.state, .output, .biases, .biasUpdates, .delta, .weightUpdates, .weightActive,
      .weights, .mu]
  | .dropout => [.output, .delta, .state]
  | .noise => [.output, .delta, .state]
  | .recurrent => [.state, .prevState, .mu]
  | .lstm => [.delta, .output, .state, .prevState, .prevCell, .cell, .lf, .li, .lg, .lo, .lc, .lh, .temp,
      .temp2, .temp3, .dc, .mu]
  | .softmax => [.output, .delta]
  | .maxpool => [.indexes, .output, .delta]
  | .convolutional => [.delta, .state, .output, .weights, .weightUpdates, .weightActive, .biases,
      .biasUpdates, .temp, .mu]
  | .avgpool => [.output, .delta]
  | .upsample => [.output, .delta]

/-- The arrays a layer releases: neural_layer_connected.c:102-114, neural_layer_dropout.c:45-51,
neural_layer_noise.c:45-51, neural_layer_recurrent.c:75-81, neural_layer_lstm.c:130-149 (and `mu`,
neural_layer_lstm.c:392), neural_layer_softmax.c:44-49, neural_layer_maxpool.c:114-120,
neural_layer_convolutional.c:141-154, neural_layer_avgpool.c:56-61, neural_layer_upsample.c:44-49. -/
def freeFlds : LKind → List Fld
  | .connected => [.state, .output, .biases, .biasUpdates, .delta, .weightUpdates, .weightActive,
      .weights, .mu]
  | .dropout => [.output, .delta, .state]
  | .noise => [.output, .delta, .state]
  | .recurrent => [.state, .prevState, .mu]
  | .lstm => [.delta, .output, .state, .prevState, .prevCell, .cell, .lf, .li, .lg, .lo, .lc, .lh, .temp,
      .temp2, .temp3, .dc, .mu]
  | .softmax => [.output, .delta]
  | .maxpool => [.indexes, .output, .delta]
  | .convolutional => [.delta, .state, .output, .weights, .weightUpdates, .weightActive, .biases,
      .biasUpdates, .temp, .mu]
  | .avgpool => [.output, .delta]
  | .upsample => [.output, .delta]

/-- A layer without parts: the structure and its arrays (`layer_init`, neural_layer.h:355-364, with
the `_init` function of the kind; the `_copy` and `_load` functions allocate the same). -/
def objInit (k : LKind) : M Obj := do
  let s ← malloc
  let q ← mallocs (mallocFlds k) null
  pure ⟨s, q⟩

/-- `n` connected layers, one after the other. -/
def connInits : Nat → M (List Obj)
  | 0 => pure []
  | n + 1 => do
    let x ← objInit .connected
    let xs ← connInits n
    pure (x :: xs)

/-- The output and the error of a recurrent layer are those of its output layer:
`l->output = l->output_layer->output; l->delta = l->output_layer->delta`
(neural_layer_recurrent.c:265-266, 306-307 and 165-166). -/
def link (q : Ptrs) : List Obj → Ptrs
  | [_, _, out] => assign (assign q .output (out.ptr .output)) .delta (out.ptr .delta)
  | _ => q

/-- Initialises a layer (`layer_init`, neural_layer.h:355-364). Recurrent and LSTM layers allocate a
copy of the arguments (neural_layer_args.c:76-108) for their parts and release it again
(neural_layer_recurrent.c:246-275, neural_layer_lstm.c:283-320). -/
def layInit : LKind → M Lay
  | .recurrent => do
    let s ← malloc
    let cargs ← malloc
    let xs ← connInits 3
    free (some cargs)
    let q ← mallocs (mallocFlds .recurrent) (link null xs)
    pure ⟨.recurrent, ⟨s, q⟩, xs⟩
  | .lstm => do
    let s ← malloc
    let cargs ← malloc
    let xs ← connInits 8
    free (some cargs)
    let q ← mallocs (mallocFlds .lstm) null
    pure ⟨.lstm, ⟨s, q⟩, xs⟩
  | k => do
    let x ← objInit k
    pure ⟨k, x, []⟩

/-- The arrays of the source that copying a layer reads: neural_layer_connected.c:150-153,
neural_layer_recurrent.c:309-310, neural_layer_lstm.c:364, neural_layer_convolutional.c:238-241; the
others copy no array. -/
def copyReads : LKind → List Fld
  | .connected => [.biases, .weights, .weightActive, .mu]
  | .recurrent => [.mu, .prevState]
  | .lstm => [.mu]
  | .convolutional => [.weights, .weightActive, .biases, .mu]
  | _ => []

/-- Copies a layer without parts (`_copy` of the kind, e.g. neural_layer_connected.c:121-155). -/
def objCopy (k : LKind) (src : Obj) : M Obj := do
  src.use []
  let x ← objInit k
  src.use (copyReads k)
  pure x

/-- Copies the parts of a layer. -/
def connCopies : List Obj → M (List Obj)
  | [] => pure []
  | x :: xs => do
    let y ← objCopy .connected x
    let ys ← connCopies xs
    pure (y :: ys)

/-- Copies a layer (`layer_copy`, neural_layer.h:239-242; neural_layer_recurrent.c:283-312,
neural_layer_lstm.c:326-366). -/
def layCopy (l : Lay) : M Lay :=
  match l.kind with
  | .recurrent => do
    l.obj.use []
    let s ← malloc
    let xs ← connCopies l.subs
    let q ← mallocs (mallocFlds .recurrent) (link null xs)
    l.obj.use (copyReads .recurrent)
    pure ⟨.recurrent, ⟨s, q⟩, xs⟩
  | .lstm => do
    l.obj.use []
    let s ← malloc
    let xs ← connCopies l.subs
    let q ← mallocs (mallocFlds .lstm) null
    l.obj.use (copyReads .lstm)
    pure ⟨.lstm, ⟨s, q⟩, xs⟩
  | k => do
    let x ← objCopy k l.obj
    pure ⟨k, x, []⟩

/-- Reads a layer from a file (`layer_load`, neural_layer.h:386-394). A recurrent layer does not set
its output and error (neural_layer_recurrent.c:519-543). -/
def layLoad : LKind → M Lay
  | .recurrent => do
    let s ← malloc
    let q ← mallocs (mallocFlds .recurrent) null
    let xs ← connInits 3
    pure ⟨.recurrent, ⟨s, q⟩, xs⟩
  | .lstm => do
    let s ← malloc
    let q ← mallocs (mallocFlds .lstm) null
    let xs ← connInits 8
    pure ⟨.lstm, ⟨s, q⟩, xs⟩
  | k => do
    let x ← objInit k
    pure ⟨k, x, []⟩

/-- `layer_free` of the parts (neural_layer_recurrent.c:321-323, neural_layer_lstm.c:375-382). -/
def connFrees : List Obj → M Unit
  | [] => pure ()
  | x :: xs => do
    touch (some x.self)
    frees (freeFlds .connected) x.ptr
    connFrees xs

/-- `free` of the structures of the parts (neural_layer_recurrent.c:324-326,
neural_layer_lstm.c:383-390). -/
def selfFrees : List Obj → M Unit
  | [] => pure ()
  | x :: xs => do
    free (some x.self)
    selfFrees xs

/-- Releases a layer: `layer_free(l); free(l)` (neural_layer.h:248-252, neural.c:228-229;
neural_layer_recurrent.c:318-328, neural_layer_lstm.c:372-393). -/
def layFree (l : Lay) : M Unit := do
  touch (some l.obj.self)
  connFrees l.subs
  selfFrees l.subs
  frees (freeFlds l.kind) l.obj.ptr
  free (some l.obj.self)

/-- The arrays that adding neurons to a connected layer reallocates (`layer_add_neurons`,
neural_layer.c:129-165). -/
def growFlds : List Fld :=
  [.weights, .weightActive, .weightUpdates, .state, .output, .biases, .biasUpdates, .delta]

/-- Adds neurons to a connected layer (`layer_add_neurons`, neural_layer.c:129-165). -/
def objGrow (x : Obj) : M Obj := do
  touch (some x.self)
  let q ← reallocs growFlds x.ptr
  pure ⟨x.self, q⟩

/-- Resizes a connected layer (neural_layer_connected.c:245-285): new arrays for the weights, then
the old ones are released. -/
def objResize (x : Obj) : M Obj := do
  touch (some x.self)
  let w ← malloc
  let u ← malloc
  let a ← malloc
  touches [.weights, .weightUpdates, .weightActive] x.ptr
  free (x.ptr .weights)
  free (x.ptr .weightUpdates)
  free (x.ptr .weightActive)
  pure ⟨x.self, assign (assign (assign x.ptr .weights (some w)) .weightUpdates (some u))
    .weightActive (some a)⟩

/-- The same function for each part. -/
def eachObj (act : Obj → M Obj) : List Obj → M (List Obj)
  | [] => pure []
  | x :: xs => do
    let y ← act x
    let ys ← eachObj act xs
    pure (y :: ys)

/-- The arrays a layer reallocates when its shape changes: neural_layer_maxpool.c:46-53,
neural_layer_convolutional.c:121-135, neural_layer_avgpool.c:44-50, neural_layer_recurrent.c:63-69. -/
def reallocFlds : LKind → List Fld
  | .recurrent => [.state, .prevState]
  | .maxpool => [.indexes, .output, .delta]
  | .convolutional => [.delta, .state, .output, .weights, .weightUpdates, .weightActive, .biases,
      .biasUpdates, .temp]
  | .avgpool => [.output, .delta]
  | _ => []

/-- Adapts a layer to another number of inputs (`layer_resize`, neural_layer.h:228-231):
neural_layer_connected.c:245-285, neural_layer_convolutional.c:360-384, neural_layer_maxpool.c:243-258,
neural_layer_avgpool.c:193-207 (reallocate), neural_layer_dropout.c:195-206,
neural_layer_noise.c:195-204, neural_layer_softmax.c:216-227, neural_layer_upsample.c:206-220 (release
and allocate), neural_layer_recurrent.c:399-406 (the input layer), neural_layer_lstm.c:531-543 (the
four input layers, the first of them twice). -/
def layResize (l : Lay) : M Lay :=
  match l.kind with
  | .connected => do
    let x ← objResize l.obj
    pure { l with obj := x }
  | .recurrent =>
    match l.subs with
    | [a, b, c] => do
      touch (some l.obj.self)
      let a ← objResize a
      pure { l with subs := [a, b, c] }
    | _ => throw .ub
  | .lstm =>
    match l.subs with
    | uf :: ui :: ug :: uo :: ws => do
      touch (some l.obj.self)
      let uf ← objResize uf
      let ui ← objResize ui
      let ug ← objResize ug
      let uo ← objResize uo
      let uf ← objResize uf
      pure { l with subs := uf :: ui :: ug :: uo :: ws }
    | _ => throw .ub
  | .convolutional => do
    touch (some l.obj.self)
    let q ← reallocs (reallocFlds .convolutional) l.obj.ptr
    pure { l with obj := ⟨l.obj.self, q⟩ }
  | .maxpool => do
    touch (some l.obj.self)
    let q ← reallocs (reallocFlds .maxpool) l.obj.ptr
    pure { l with obj := ⟨l.obj.self, q⟩ }
  | .avgpool => do
    touch (some l.obj.self)
    let q ← reallocs (reallocFlds .avgpool) l.obj.ptr
    pure { l with obj := ⟨l.obj.self, q⟩ }
  | k => do
    touch (some l.obj.self)
    frees (freeFlds k) l.obj.ptr
    let q ← mallocs (mallocFlds k) l.obj.ptr
    pure { l with obj := ⟨l.obj.self, q⟩ }

/-- The arrays mutation of weights and connections reads and writes (neural_layer.c:176-274). -/
def mutReads : List Fld := [.weights, .weightActive, .biases]

/-- Access to arrays of all parts. -/
def usesObj (fs : List Fld) : List Obj → M Unit
  | [] => pure ()
  | x :: xs => do
    x.use fs
    usesObj fs xs

/-- The arrays of an LSTM layer that its growth releases and allocates again, `mu` being kept
(neural_layer_lstm.c:130-149 and 87-107, called at 230-231). -/
def lstmFlds : List Fld :=
  [.delta, .output, .state, .prevState, .prevCell, .cell, .lf, .li, .lg, .lo, .lc, .lh, .temp, .temp2,
    .temp3, .dc]

/-- Mutates a layer (`layer_mutate`, neural_layer.h:216-219). `grow` says whether a number of neurons
other than zero is added: neural_layer_connected.c:291-321, neural_layer_convolutional.c:418-479,
neural_layer_recurrent.c:151-175 and 425-435, neural_layer_lstm.c:207-236 and 561-582. The other
kinds of layers are not mutated. -/
def layMutate (grow : Bool) (l : Lay) : M Lay :=
  match l.kind with
  | .connected => do
    l.obj.use [.mu]
    let x ← doIf grow (objGrow l.obj) l.obj
    x.use mutReads
    pure { l with obj := x }
  | .convolutional => do
    l.obj.use [.mu]
    let q ← doIf grow (reallocs (reallocFlds .convolutional) l.obj.ptr) l.obj.ptr
    touches mutReads q
    pure { l with obj := ⟨l.obj.self, q⟩ }
  | .recurrent => do
    l.obj.use [.mu]
    if grow then
      match l.subs with
      | [a, b, c] => do
        let a ← objGrow a
        let b ← objGrow b
        let c ← objGrow c
        let b ← objResize b
        let c ← objResize c
        let q ← reallocs (reallocFlds .recurrent) (link l.obj.ptr [a, b, c])
        usesObj mutReads [a, b, c]
        pure { l with obj := ⟨l.obj.self, q⟩, subs := [a, b, c] }
      | _ => throw .ub
    else do
      usesObj mutReads l.subs
      pure l
  | .lstm => do
    l.obj.use [.mu]
    if grow then do
      let xs ← eachObj objGrow l.subs
      let ws ← eachObj objResize (xs.drop 4)
      frees lstmFlds l.obj.ptr
      let q ← mallocs lstmFlds l.obj.ptr
      usesObj mutReads (xs.take 4 ++ ws)
      pure { l with obj := ⟨l.obj.self, q⟩, subs := xs.take 4 ++ ws }
    else do
      usesObj mutReads l.subs
      pure l
  | _ => do
    touch (some l.obj.self)
    pure l

/-- Randomises the weights of a layer (`layer_rand`; `layer_weight_rand`, neural_layer.c:348-358;
neural_layer_recurrent.c:335-340, neural_layer_lstm.c:400-410). -/
def layRand (l : Lay) : M Unit :=
  match l.kind with
  | .connected => l.obj.use mutReads
  | .convolutional => l.obj.use mutReads
  | .recurrent => do
    touch (some l.obj.self)
    usesObj mutReads l.subs
  | .lstm => do
    touch (some l.obj.self)
    usesObj mutReads l.subs
  | _ => touch (some l.obj.self)

/-- What a layer is given: `none` is memory of the caller, `some p` is the pointer `p`. -/
abbrev Given := Option (Option Nat)

/-- Access to what a layer is given. -/
def touchGiven : Given → M Unit
  | none => pure ()
  | some p => touch p

/-- The arrays of a layer that its forward pass reads and writes: neural_layer_connected.c:173-187,
neural_layer_dropout.c:126-142, neural_layer_noise.c:126-144, neural_layer_recurrent.c:348-359,
neural_layer_lstm.c:419-451, neural_layer_softmax.c:112-133, neural_layer_maxpool.c:177-193,
neural_layer_convolutional.c:262-286, neural_layer_avgpool.c:128-142, neural_layer_upsample.c:128-147. -/
def forwardFlds : LKind → List Fld
  | .connected => [.weights, .state, .biases, .output]
  | .dropout => [.output, .state]
  | .noise => [.output, .state]
  | .recurrent => [.prevState, .state]
  | .lstm => [.lh, .lf, .li, .lg, .lo, .temp, .lc, .cell, .output]
  | .softmax => [.output]
  | .maxpool => [.indexes, .output]
  | .convolutional => [.weights, .temp, .state, .biases, .output]
  | .avgpool => [.output]
  | .upsample => [.output]

/-- Forward pass of the parts of a recurrent layer and of an LSTM layer: the input layers are given
the input, the others an array of the layer or, for the self layer of a recurrent layer, the output
of the output layer (neural_layer_recurrent.c:351-358, neural_layer_lstm.c:421-436). -/
def forwardObjs : List Obj → M Unit := usesObj (forwardFlds .connected)

/-- Forward pass of a layer (`layer_forward`, neural_layer.h:181-184). -/
def layForward (inp : Given) (l : Lay) : M Unit := do
  touchGiven inp
  l.obj.use (forwardFlds l.kind)
  forwardObjs l.subs

/-- The arrays of a layer that its backward pass reads and writes: neural_layer_connected.c:196-218,
neural_layer_dropout.c:152-166, neural_layer_noise.c:154-165, neural_layer_recurrent.c:367-379,
neural_layer_lstm.c:461-504, neural_layer_softmax.c:141-152, neural_layer_maxpool.c:203-214,
neural_layer_convolutional.c:295-334, neural_layer_avgpool.c:150-165, neural_layer_upsample.c:155-178. -/
def backwardFlds : LKind → List Fld
  | .connected => [.state, .delta, .biasUpdates, .weightUpdates, .weights]
  | .dropout => [.state, .delta]
  | .noise => [.delta]
  | .recurrent => [.state, .prevState]
  | .lstm => [.temp3, .delta, .temp, .lc, .temp2, .lo, .dc, .prevState, .li, .lg,
      .prevCell, .lf]
  | .softmax => [.delta]
  | .maxpool => [.indexes, .delta]
  | .convolutional => [.state, .delta, .biasUpdates, .temp, .weightUpdates, .weights]
  | .avgpool => [.delta]
  | .upsample => [.delta]

/-- Backward pass of a layer (`layer_backward`, neural_layer.h:194-198) that is given the input of the
forward pass and the error of the previous layer. -/
def layBackward (inp err : Given) (l : Lay) : M Unit := do
  touchGiven inp
  l.obj.use (backwardFlds l.kind)
  usesObj (backwardFlds .connected) l.subs
  touchGiven err

/-- The arrays gradient descent changes (neural_layer_connected.c:224-238,
neural_layer_convolutional.c:339-353, `layer_weight_clamp`, neural_layer.c:365-377). -/
def updateFlds : List Fld := [.biasUpdates, .biases, .weights, .weightUpdates, .weightActive]

/-- Updates the weights of a layer (`layer_update`; neural_layer_recurrent.c:384-392,
neural_layer_lstm.c:511-523). -/
def layUpdate (l : Lay) : M Unit :=
  match l.kind with
  | .connected => l.obj.use updateFlds
  | .convolutional => l.obj.use updateFlds
  | .recurrent => do
    touch (some l.obj.self)
    usesObj updateFlds l.subs
  | .lstm => do
    touch (some l.obj.self)
    usesObj updateFlds l.subs
  | _ => touch (some l.obj.self)

/-! ### Networks -/

/-- A layer in the list of a network: the node and the layer (`struct Llist`, neural.h:39-43). -/
structure Node where
  node : Nat
  lay : Lay

/-- A network: its layers from the input (tail) to the output (head). The links between the nodes are
the subject of `NetList.lean`. -/
abbrev Net := List Node

/-- Creates a network of the given kinds of layers (`neural_create`, neural.c:53-86, and
`neural_push`, neural.c:186-190). -/
def netInit : List LKind → M Net
  | [] => pure []
  | k :: ks => do
    let l ← layInit k
    let n ← malloc
    let ns ← netInit ks
    pure (⟨n, l⟩ :: ns)

/-- Copies a network (`neural_copy`, neural.c:207-217). -/
def netCopy : Net → M Net
  | [] => pure []
  | x :: xs => do
    touch (some x.node)
    let l ← layCopy x.lay
    let n ← malloc
    let ns ← netCopy xs
    pure (⟨n, l⟩ :: ns)

/-- Reads a network from a file (`neural_load`, neural.c:498-515). -/
def netLoad : List LKind → M Net
  | [] => pure []
  | k :: ks => do
    let l ← layLoad k
    let n ← malloc
    let ns ← netLoad ks
    pure (⟨n, l⟩ :: ns)

/-- Releases a network (`neural_free`, neural.c:223-234). -/
def netFree : Net → M Unit
  | [] => pure ()
  | x :: xs => do
    touch (some x.node)
    layFree x.lay
    free (some x.node)
    netFree xs

/-- Randomises a network (`neural_rand`, neural.c:241-249). -/
def netRand : Net → M Unit
  | [] => pure ()
  | x :: xs => do
    touch (some x.node)
    layRand x.lay
    netRand xs

/-- What chance decides for a layer in a mutation: whether neurons are added or removed, and whether
the number of outputs is another one afterwards. -/
structure Luck where
  grow : Bool
  changed : Bool

/-- The luck of the next layer. -/
def luck : List Luck → Luck
  | [] => ⟨false, false⟩
  | c :: _ => c

/-- Mutates a network (`neural_mutate`, neural.c:256-283); `resize` is the local variable
`do_resize`. -/
def netMutate (resize : Bool) : List Luck → Net → M Net
  | _, [] => pure []
  | cs, x :: xs => do
    touch (some x.node)
    let l ← doIf resize (layResize x.lay) x.lay
    let l ← layMutate (luck cs).grow l
    let ns ← netMutate (luck cs).changed cs.tail xs
    pure (⟨x.node, l⟩ :: ns)

/-- Resizes the layers of a network whose number of inputs is wrong (`neural_resize`,
neural.c:289-301); `bs` says which. -/
def netResize : List Bool → Net → M Net
  | _, [] => pure []
  | bs, x :: xs => do
    touch (some x.node)
    let l ← doIf (bs.head?.getD false) (layResize x.lay) x.lay
    let ns ← netResize bs.tail xs
    pure (⟨x.node, l⟩ :: ns)

/-- Forward pass of a network (`neural_propagate`, neural.c:309-319): each layer is given the output
of the one before. -/
def netForward (inp : Given) : Net → M Unit
  | [] => pure ()
  | x :: xs => do
    touch (some x.node)
    layForward inp x.lay
    netForward (some (x.lay.obj.ptr .output)) xs

/-- Reads the output of a network (`neural_output`, `neural_outputs`, neural.c:368-388). -/
def netOutput (n : Net) : M Unit :=
  match n.getLast? with
  | none => throw .ub
  | some x => do
    touch (some x.node)
    x.lay.obj.use [.output]

/-- Sets the errors of all layers to zero (neural.c:330-335). -/
def netReset : Net → M Unit
  | [] => pure ()
  | x :: xs => do
    touch (some x.node)
    x.lay.obj.use [.delta]
    netReset xs

/-- Backward pass of a network, from the output to the input (neural.c:341-352). -/
def netBackward (inp err : Given) : Net → M Unit
  | [] => pure ()
  | x :: xs => do
    netBackward (some (x.lay.obj.ptr .output)) (some (x.lay.obj.ptr .delta)) xs
    touch (some x.node)
    layBackward inp err x.lay

/-- Updates all layers (neural.c:354-359). -/
def netUpdate : Net → M Unit
  | [] => pure ()
  | x :: xs => do
    touch (some x.node)
    layUpdate x.lay
    netUpdate xs

/-- Sets the error of the output layer (neural.c:336-340). -/
def netTarget (n : Net) : M Unit :=
  match n.getLast? with
  | none => throw .ub
  | some x => do
    touch (some x.node)
    x.lay.obj.use [.delta, .output]

/-- Gradient descent (`neural_learn`, neural.c:327-360). -/
def netLearn (n : Net) : M Unit := do
  netReset n
  netTarget n
  netBackward none none n
  netUpdate n

/-- Removes the output layer (`neural_pop`, neural.c:196-200, 139-180): there must be another. -/
def netPop (n : Net) : M Net :=
  match n.getLast? with
  | none => throw .exit
  | some x =>
    if n.length ≤ 1 then throw .exit
    else do
      touch (some x.node)
      layFree x.lay
      free (some x.node)
      pure n.dropLast

/-- Removes `k` output layers as long as there is more than one layer (pred_neural.c:355-358). -/
def netPops : Nat → Net → M Net
  | 0, n => pure n
  | k + 1, n =>
    if n.length ≤ 1 then pure n
    else do
      let n ← netPop n
      netPops k n

/-- Inserts a connected layer before the output layer and resizes the network (`pred_neural_expand`,
pred_neural.c:305-341, with `neural_insert`, neural.c:94-132). With a single layer the insertion
follows a null pointer (C48). -/
def netExpand (bs : List Bool) (n : Net) : M Net := do
  let l ← layInit .connected
  let m ← malloc
  match n.getLast? with
  | none => throw .ub
  | some x =>
    if n.length ≤ 1 then throw .ub
    else netResize bs (n.dropLast ++ [⟨m, l⟩, x])

/-- Replaces output layers by a connected and a softmax layer (`pred_neural_ae_to_classifier`,
pred_neural.c:349-383). -/
def netClassify (k : Nat) (n : Net) : M Net := do
  let n ← netPops k n
  let l ← layInit .connected
  let a ← malloc
  let l' ← layInit .softmax
  let b ← malloc
  pure (n ++ [⟨a, l⟩, ⟨b, l'⟩])

/-! ### Conditions, actions and predictions -/

/-- The kinds of conditions, actions and predictions that are not networks. -/
inductive FKind
  | ellipsoid | rectangle | ternary | gp | dgp | integer | nlms | rls
  deriving DecidableEq, Repr

/-- What a rule has as condition, action or prediction: nothing (cond_dummy.c, pred_constant.c, the
actions of rule_dgp.c and rule_neural.c), arrays, or a network (cond_neural.c, act_neural.c,
pred_neural.c, rule_neural.c). -/
inductive RKind
  | none
  | flat (k : FKind)
  | net (ks : List LKind)
  deriving DecidableEq, Repr

/-- The memory of a condition, action or prediction. -/
inductive Rep
  | none
  | flat (k : FKind) (x : Obj)
  | net (self : Nat) (n : Net)

/-- The arrays allocated when a representation is created: cond_ellipsoid.c:64-77,
cond_rectangle.c:41-61, cond_ternary.c:63-74, gp.c:101-112 (the tree is reallocated to its length,
see `flatInit`), dgp.c:225-242, act_integer.c:177-186, pred_nlms.c:43-70, pred_rls.c:33-60. -/
def initFlds : FKind → List Fld
  | .ellipsoid => [.center, .spread, .mu]
  | .rectangle => [.b1, .b2, .mu]
  | .ternary => [.string, .tmpInput, .mu]
  | .gp => [.tree, .mu]
  | .dgp => [.state, .initialState, .tmpState, .tmpInput, .function, .connectivity, .mu]
  | .integer => [.mu]
  | .nlms => [.weights, .mu, .tmpInput]
  | .rls => [.weights, .matrix, .tmpInput, .tmpVec, .tmpMatrix1, .tmpMatrix2]

/-- The arrays allocated for a copy: cond_ellipsoid.c:102-116, cond_rectangle.c:85-99,
cond_ternary.c:98-112, gp.c:301-311, cond_dgp.c:62-70, act_integer.c:116-127, pred_nlms.c:78-88,
pred_rls.c:68-76 (the last two and graphs call the initialisation). -/
def copyFlds : FKind → List Fld
  | .ellipsoid => [.center, .spread, .mu]
  | .rectangle => [.b1, .b2, .mu]
  | .ternary => [.string, .tmpInput, .mu]
  | .gp => [.tree, .mu]
  | .dgp => [.state, .initialState, .tmpState, .tmpInput, .function, .connectivity, .mu]
  | .integer => [.mu]
  | .nlms => [.weights, .mu, .tmpInput]
  | .rls => [.weights, .matrix, .tmpInput, .tmpVec, .tmpMatrix1, .tmpMatrix2]

/-- The arrays of the source a copy reads: cond_ellipsoid.c:112-114, cond_rectangle.c:94-96,
cond_ternary.c:108-110, gp.c:306-309, dgp.c:260-264, act_integer.c:124, pred_nlms.c:84-86,
pred_rls.c:74-75. -/
def srcFlds : FKind → List Fld
  | .ellipsoid => [.center, .spread, .mu]
  | .rectangle => [.b1, .b2, .mu]
  | .ternary => [.string, .mu]
  | .gp => [.tree, .mu]
  | .dgp => [.state, .initialState, .function, .connectivity, .mu]
  | .integer => [.mu]
  | .nlms => [.weights, .mu]
  | .rls => [.weights]

/-- The arrays allocated when reading from a file: cond_ellipsoid.c:320-332, cond_rectangle.c:337-349,
cond_ternary.c:311-329, gp.c:399-416, dgp.c:587-617, act_integer.c:229-240, pred_nlms.c:243-256,
pred_rls.c:255-267. -/
def loadFlds : FKind → List Fld
  | .ellipsoid => [.center, .spread, .mu]
  | .rectangle => [.b1, .b2, .mu]
  | .ternary => [.string, .tmpInput, .mu]
  | .gp => [.tree, .mu]
  | .dgp => [.state, .initialState, .tmpState, .tmpInput, .function, .connectivity, .mu]
  | .integer => [.mu]
  | .nlms => [.weights, .mu, .tmpInput]
  | .rls => [.weights, .matrix, .tmpInput, .tmpVec, .tmpMatrix1, .tmpMatrix2]

/-- The arrays that are released: cond_ellipsoid.c:85-94, cond_rectangle.c:68-77, cond_ternary.c:81-90,
gp.c:118-123, dgp.c:522-532, act_integer.c:163-170, pred_nlms.c:95-104, pred_rls.c:83-95. -/
def dropFlds : FKind → List Fld
  | .ellipsoid => [.center, .spread, .mu]
  | .rectangle => [.b1, .b2, .mu]
  | .ternary => [.string, .tmpInput, .mu]
  | .gp => [.tree, .mu]
  | .dgp => [.connectivity, .state, .initialState, .tmpState, .tmpInput, .function, .mu]
  | .integer => [.mu]
  | .nlms => [.weights, .tmpInput, .mu]
  | .rls => [.weights, .matrix, .tmpInput, .tmpVec, .tmpMatrix1, .tmpMatrix2]

/-- The arrays of a tree or of another representation (`tree_rand`, gp.c:101-112: the tree is
allocated with the greatest length and reallocated to its length). -/
def flatArrays (k : FKind) (q : Ptrs) : M Ptrs := do
  let q ← mallocs (initFlds k) q
  match k with
  | .gp => reallocs [.tree] q
  | _ => pure q

/-- Creates a condition, an action or a prediction (`cond_init`, `act_init`, `pred_init`). -/
def repInit : RKind → M Rep
  | .none => pure .none
  | .flat k => do
    let s ← malloc
    let q ← flatArrays k null
    pure (.flat k ⟨s, q⟩)
  | .net ks => do
    let s ← malloc
    let n ← netInit ks
    pure (.net s n)

/-- Copies a condition, an action or a prediction (`cond_copy`, `act_copy`, `pred_copy`). -/
def repCopy : Rep → M Rep
  | .none => pure .none
  | .flat k x => do
    let s ← malloc
    let q ← mallocs (copyFlds k) null
    x.use (srcFlds k)
    pure (.flat k ⟨s, q⟩)
  | .net s n => do
    let s' ← malloc
    touch (some s)
    let n' ← netCopy n
    pure (.net s' n')

/-- Reads a condition, an action or a prediction from a file (`cond_load`, `act_load`, `pred_load`). -/
def repLoad : RKind → M Rep
  | .none => pure .none
  | .flat k => do
    let s ← malloc
    let q ← mallocs (loadFlds k) null
    pure (.flat k ⟨s, q⟩)
  | .net ks => do
    let s ← malloc
    let n ← netLoad ks
    pure (.net s n)

/-- Releases a condition, an action or a prediction (`cond_free`, `act_free`, `pred_free`). -/
def repFree : Rep → M Unit
  | .none => pure ()
  | .flat k x => do
    touch (some x.self)
    frees (dropFlds k) x.ptr
    free (some x.self)
  | .net s n => do
    touch (some s)
    netFree n
    free (some s)

/-- `n` times another random tree: `tree_free` and `tree_rand` (cond_gp.c:82-85). -/
def treeRetries : Nat → Obj → M Obj
  | 0, x => pure x
  | n + 1, x => do
    touch (some x.self)
    frees (dropFlds .gp) x.ptr
    let q ← flatArrays .gp x.ptr
    Obj.use ⟨x.self, q⟩ [.tree]
    treeRetries n ⟨x.self, q⟩

/-- Makes a representation match or choose: at least one tree is drawn (cond_gp.c:78-86); networks are
randomised and propagated until they match or choose the action (cond_neural.c:85-92,
act_neural.c:151-158); graphs, intervals and strings are changed in place (cond_dgp.c:78-86,
cond_rectangle.c:106-125, cond_ellipsoid.c:123-133, cond_ternary.c:119-134). -/
def repCover (n : Nat) : Rep → M Rep
  | .none => pure .none
  | .flat .gp x => do
    let x ← treeRetries (n + 1) x
    pure (.flat .gp x)
  | .flat k x => do
    x.use (dropFlds k)
    pure (.flat k x)
  | .net s ns => do
    touch (some s)
    netRand ns
    netForward none ns
    netOutput ns
    pure (.net s ns)

/-- Asks a representation: matching, choosing an action, computing a prediction (`cond_match`,
`act_compute`, `pred_compute`). Representations other than networks read some of their arrays; the
model accesses all. -/
def repAsk : Rep → M Unit
  | .none => pure ()
  | .flat k x => x.use (dropFlds k)
  | .net s n => do
    touch (some s)
    netForward none n
    netOutput n

/-- Updates a representation (`cond_update`, `act_update`, `pred_update`); networks of predictions
learn (pred_neural.c:91-97). -/
def repUpdate : Rep → M Unit
  | .none => pure ()
  | .flat k x => x.use (dropFlds k)
  | .net s n => do
    touch (some s)
    netLearn n

/-- Mutates a representation (`cond_mutate`, `act_mutate`, `pred_mutate`). -/
def repMutate (cs : List Luck) : Rep → M Rep
  | .none => pure .none
  | .flat k x => do
    x.use (dropFlds k)
    pure (.flat k x)
  | .net s n => do
    touch (some s)
    let n ← netMutate false cs n
    pure (.net s n)

/-- Crossover (`cond_crossover`): trees exchange branches, each gets a new array (gp.c:317-345);
intervals and strings are exchanged in place, the others not at all. -/
def repCross : Rep → Rep → M (Rep × Rep)
  | .flat .gp x, .flat .gp y => do
    touch (some x.self)
    touch (some y.self)
    let a ← malloc
    let b ← malloc
    touch (x.ptr .tree)
    touch (y.ptr .tree)
    free (x.ptr .tree)
    free (y.ptr .tree)
    let x : Obj := ⟨x.self, assign x.ptr .tree (some a)⟩
    let y : Obj := ⟨y.self, assign y.ptr .tree (some b)⟩
    x.use [.tree]
    y.use [.tree]
    pure (.flat .gp x, .flat .gp y)
  | .flat k x, .flat k' y => do
    x.use (dropFlds k)
    y.use (dropFlds k')
    pure (.flat k x, .flat k' y)
  | r, r' => pure (r, r')

/-- Whether one condition is more general than another (`cond_general`): ellipsoids use a temporary
array, released on each way out (cond_ellipsoid.c:240-266). -/
def repGeneral : Rep → Rep → M Unit
  | .flat .ellipsoid x, .flat k y => do
    let t ← malloc
    x.use [.center, .spread]
    y.use (dropFlds k)
    touch (some t)
    free (some t)
  | .flat k x, .flat k' y => do
    x.use (dropFlds k)
    y.use (dropFlds k')
  | _, _ => pure ()

/-- Imports a condition from JSON: graphs are released and made anew (cond_dgp.c:259-270,
rule_dgp.c:170-182, dgp.c:476-512); trees and networks cannot be imported (gp.c:272-280,
neural.c:433-442); the others are overwritten in place. -/
def repImport : Rep → M Rep
  | .none => pure .none
  | .flat .gp _ => throw .exit
  | .flat .dgp x => do
    touch (some x.self)
    frees (dropFlds .dgp) x.ptr
    let q ← mallocs (initFlds .dgp) x.ptr
    Obj.use ⟨x.self, q⟩ (dropFlds .dgp)
    pure (.flat .dgp ⟨x.self, q⟩)
  | .flat k x => do
    x.use (dropFlds k)
    pure (.flat k x)
  | .net _ _ => throw .exit

/-! ### Rules -/

/-- The types of the conditions, actions and predictions of a system. -/
structure Types where
  cond : RKind
  act : RKind
  pred : RKind

/-- A rule: its block, the block of its prediction, and its three representations (`struct Cl`,
cl.h). -/
structure Cl where
  self : Nat
  prediction : Nat
  cond : Rep
  act : Rep
  pred : Rep

/-- A new random rule (`cl_init`, cl.c:39-54, and `cl_rand`, cl.c:128-137). -/
def clInit (T : Types) : M Cl := do
  let s ← malloc
  let p ← malloc
  let pred ← repInit T.pred
  let act ← repInit T.act
  let cond ← repInit T.cond
  pure ⟨s, p, cond, act, pred⟩

/-- A new rule that covers an input (`cl_cover`, cl.c:112-122). -/
def clCover (T : Types) (n m : Nat) : M Cl := do
  let c ← clInit T
  let cond ← repCover n c.cond
  let act ← repCover m c.act
  pure { c with cond := cond, act := act }

/-- The prediction of an offspring (cl.c:70-74); `reset` is the parameter `pred_reset`. -/
def childPred (T : Types) (reset : Bool) (r : Rep) : M Rep :=
  if reset then repInit T.pred else repCopy r

/-- An offspring (`cl_init` and `cl_copy`, cl.c:39-75). -/
def clChild (T : Types) (reset : Bool) (src : Cl) : M Cl := do
  let s ← malloc
  let p ← malloc
  touch (some src.self)
  let act ← repCopy src.act
  let cond ← repCopy src.cond
  let pred ← childPred T reset src.pred
  pure ⟨s, p, cond, act, pred⟩

/-- A copy for the stored population (`cl_init_copy`, cl.c:83-103). -/
def clCopy (src : Cl) : M Cl := do
  let s ← malloc
  let p ← malloc
  touch (some src.self)
  let act ← repCopy src.act
  let cond ← repCopy src.cond
  let pred ← repCopy src.pred
  pure ⟨s, p, cond, act, pred⟩

/-- A rule read from a file (`cl_load`, cl.c:452-474, called at clset.c:658-659). -/
def clLoad (T : Types) : M Cl := do
  let s ← malloc
  let p ← malloc
  let act ← repLoad T.act
  let pred ← repLoad T.pred
  let cond ← repLoad T.cond
  pure ⟨s, p, cond, act, pred⟩

/-- A rule imported from JSON (`cl_json_import`, cl.c:607-627): a random rule, then the parts the
JSON has. -/
def clImport (T : Types) (hasAct hasPred hasCond : Bool) : M Cl := do
  let c ← clInit T
  touch (some c.prediction)
  let act ← doIf hasAct (repImport c.act) c.act
  let pred ← doIf hasPred (repImport c.pred) c.pred
  let cond ← doIf hasCond (repImport c.cond) c.cond
  pure { c with cond := cond, act := act, pred := pred }

/-- Releases a rule (`cl_free`, cl.c:222-230). -/
def clFree (c : Cl) : M Unit := do
  touch (some c.self)
  free (some c.prediction)
  repFree c.cond
  repFree c.act
  repFree c.pred
  free (some c.self)

/-- Asks a rule (`cl_match`, `cl_action`, `cl_predict`, cl.c:257-265 and 304-322): the prediction is written into
the rule's array. -/
def clAsk (c : Cl) : M Unit := do
  touch (some c.self)
  repAsk c.cond
  repAsk c.act
  repAsk c.pred
  touch (some c.prediction)

/-- Updates a condition: networks do not learn (cond_neural.c:101-109), nor do neural actions
(act_neural.c:183-190). -/
def condUpdate : Rep → M Unit
  | .net _ _ => pure ()
  | r => repUpdate r

/-- Updates a rule (`cl_update`, cl.c:183-201). -/
def clUpdate (c : Cl) : M Unit := do
  touch (some c.self)
  repAsk c.pred
  condUpdate c.cond
  repUpdate c.pred
  touch (some c.prediction)

/-- Mutates a rule (`cl_mutate`, cl.c:361-372). -/
def clMutate (a b d : List Luck) (c : Cl) : M Cl := do
  touch (some c.self)
  let cond ← repMutate a c.cond
  let pred ← repMutate d c.pred
  let act ← repMutate b c.act
  pure { c with cond := cond, act := act, pred := pred }

/-- Crosses two rules (`cl_crossover`, cl.c:380-391). -/
def clCross (c d : Cl) : M (Cl × Cl) := do
  touch (some c.self)
  touch (some d.self)
  let (x, y) ← repCross c.cond d.cond
  pure ({ c with cond := x }, { d with cond := y })

/-- Whether a rule is more general than another (`cl_general`, cl.c:346-353). -/
def clGeneral (c d : Cl) : M Unit := do
  touch (some c.self)
  touch (some d.self)
  repGeneral c.cond d.cond

/-- Expands the network of a prediction (`xcsf_pred_expand`, xcsf.c:151-162). -/
def clExpand (bs : List Bool) (c : Cl) : M Cl := do
  touch (some c.self)
  match c.pred with
  | .net s n => do
    touch (some s)
    let n ← netExpand bs n
    pure { c with pred := .net s n }
  | _ => throw .ub

/-- Turns the network of a prediction into a classifier (`xcsf_ae_to_classifier`, xcsf.c:170-189):
also the array of the rule's prediction is renewed. -/
def clClassify (k : Nat) (c : Cl) : M Cl := do
  touch (some c.self)
  free (some c.prediction)
  let p ← malloc
  match c.pred with
  | .net s n => do
    touch (some s)
    let n ← netClassify k n
    pure { c with prediction := p, pred := .net s n }
  | _ => throw .ub

end RepMem

end Xcsf
