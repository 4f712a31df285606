import Verif.Basic

/-!
# The list of layers of a neural network (`neural.c`), with its pointers

A network keeps its layers in a doubly linked list.  `tail` is the input layer, `prev` leads
towards the output layer `head`.  The heap has two tables: list nodes (`struct Llist`) and layers
(`struct Layer`), of which only the numbers of inputs and outputs matter here.  Layers are
identified by their address; `net->output`, the address of the output array of the output layer,
is represented by that layer.  Following a NULL pointer is `ub`, following the address of freed
memory is `uaf`.
-/

namespace Xcsf

/-- `struct Llist`, neural.h:32-36. -/
structure LNode where
  layer : Nat
  prev : Option Nat
  next : Option Nat
  deriving DecidableEq, Repr

/-- The sizes in `struct Layer`, neural_layer.h:75-137. -/
structure LInfo where
  nInputs : Int
  nOutputs : Int
  deriving DecidableEq, Repr

/-- Allocated list nodes and layers, and the next address of each kind. -/
structure LHeap where
  nodes : Nat → Option LNode
  layers : Nat → Option LInfo
  nextNode : Nat
  nextLayer : Nat

/-- `struct Net`, neural.h:41-49, without `train`. -/
structure LNet where
  head : Option Nat
  tail : Option Nat
  nLayers : Int
  nInputs : Int
  nOutputs : Int
  output : Option Nat
  deriving DecidableEq, Repr

/-- `*p` for a list node. -/
def LHeap.node (h : LHeap) (p : Option Nat) : Res LNode :=
  match p with
  | none => .error .ub
  | some a =>
    match h.nodes a with
    | none => .error .uaf
    | some n => .ok n

/-- `*l` for a layer. -/
def LHeap.layer (h : LHeap) (a : Nat) : Res LInfo :=
  match h.layers a with
  | none => .error .uaf
  | some n => .ok n

/-- Overwrite a live list node. -/
def LHeap.setNode (h : LHeap) (a : Nat) (n : LNode) : LHeap :=
  { h with nodes := fun b => if b = a then some n else h.nodes b }

/-- `malloc` of a list node. -/
def LHeap.newNode (h : LHeap) (n : LNode) : Nat × LHeap :=
  (h.nextNode, { h with
    nodes := fun b => if b = h.nextNode then some n else h.nodes b
    nextNode := h.nextNode + 1 })

/-- `malloc` of a layer (`layer_init`, neural_layer.h:355-364, or `layer_copy`, 238-242). -/
def LHeap.newLayer (h : LHeap) (n : LInfo) : Nat × LHeap :=
  (h.nextLayer, { h with
    layers := fun b => if b = h.nextLayer then some n else h.layers b
    nextLayer := h.nextLayer + 1 })

/-- `free` of a list node. -/
def LHeap.freeNode (h : LHeap) (a : Nat) : Res LHeap :=
  match h.nodes a with
  | none => .error .uaf
  | some _ => .ok { h with nodes := fun b => if b = a then none else h.nodes b }

/-- `layer_free` and `free` of a layer. -/
def LHeap.freeLayer (h : LHeap) (a : Nat) : Res LHeap :=
  match h.layers a with
  | none => .error .uaf
  | some _ => .ok { h with layers := fun b => if b = a then none else h.layers b }

/-- `neural_init`, neural.c:36-46. -/
def lnetInit : LNet := ⟨none, none, 0, 0, 0, none⟩

/-- `for (int i = 0; i < pos && iter != NULL; ++i) iter = iter->prev;`, neural.c:108-110 and
144-146. -/
def lnetWalk (h : LHeap) : Nat → Option Nat → Res (Option Nat)
  | 0, p => .ok p
  | _ + 1, none => .ok none
  | n + 1, some a =>
    match h.node (some a) with
    | .error e => .error e
    | .ok nd => lnetWalk h n nd.prev

/-- The part of `neural_insert` for a list that is not empty, once the place `iter` is found,
neural.c:111-131. -/
def lnetInsertAt (h : LHeap) (net : LNet) (l : Nat) (info : LInfo) (iter : Option Nat) :
    Res (LHeap × LNet) :=
  match iter with
  | none => do
    -- new head: `new->next = net->head; net->head->prev = new; net->head = new;`
    let (a, h) := h.newNode ⟨l, none, net.head⟩
    let hd ← h.node net.head
    let h := h.setNode (net.head.getD 0) { hd with prev := some a }
    pure (h, { net with head := some a, nOutputs := info.nOutputs, output := some l,
                        nLayers := net.nLayers + 1 })
  | some it => do
    -- `new->next = iter->next; iter->next = new;`
    let itn ← h.node (some it)
    let (a, h) := h.newNode ⟨l, some it, itn.next⟩
    let h := h.setNode it { itn with next := some a }
    -- `if (iter->next == NULL)`: reads the pointer that was just set
    let itn' ← h.node (some it)
    match itn'.next with
    | none => pure (h, { net with tail := some a, nInputs := info.nInputs,
                                  nLayers := net.nLayers + 1 })
    | some _ =>
      -- `new->next->prev = new;`
      let nw ← h.node (some a)
      let nx ← h.node nw.next
      let h := h.setNode (nw.next.getD 0) { nx with prev := some a }
      pure (h, { net with nLayers := net.nLayers + 1 })

/-- `neural_insert`, neural.c:94-132. -/
def lnetInsert (h : LHeap) (net : LNet) (l : Nat) (pos : Int) : Res (LHeap × LNet) := do
  let info ← h.layer l
  if net.head = none ∨ net.tail = none then
    let (a, h) := h.newNode ⟨l, none, none⟩
    pure (h, { net with head := some a, tail := some a, nInputs := info.nInputs,
                        nOutputs := info.nOutputs, output := some l,
                        nLayers := net.nLayers + 1 })
  else
    let iter ← lnetWalk h pos.toNat net.tail
    lnetInsertAt h net l info iter

/-- Unlinking of the node `it` in `neural_remove`, neural.c:154-174. -/
def lnetUnlink (h : LHeap) (net : LNet) (it : LNode) : Res (LHeap × LNet) := do
  -- head
  let (h, net) ← (match it.prev with
    | some _ => pure (h, net)
    | none => do
      let h ← (match it.next with
        | none => pure h
        | some nx => do
          let n ← h.node (some nx)
          pure (h.setNode nx { n with prev := none }))
      let hd ← h.node it.next
      let info ← h.layer hd.layer
      pure (h, { net with head := it.next, output := some hd.layer,
                          nOutputs := info.nOutputs }) : Res (LHeap × LNet))
  -- tail
  let (h, net) ← (match it.next with
    | some _ => pure (h, net)
    | none => do
      let h ← (match it.prev with
        | none => pure h
        | some pv => do
          let n ← h.node (some pv)
          pure (h.setNode pv { n with next := none }))
      pure (h, { net with tail := it.prev }) : Res (LHeap × LNet))
  -- middle
  match it.prev, it.next with
  | some pv, some nx => do
    let n ← h.node (some nx)
    let h := h.setNode nx { n with prev := some pv }
    let p ← h.node (some pv)
    let h := h.setNode pv { p with next := some nx }
    pure (h, net)
  | _, _ => pure (h, net)

/-- `neural_remove`, neural.c:139-179. -/
def lnetRemove (h : LHeap) (net : LNet) (pos : Int) : Res (LHeap × LNet) := do
  let iter ← lnetWalk h pos.toNat net.tail
  match iter with
  | none => .error .exit
  | some a =>
    let it ← h.node (some a)
    if it.next = none ∧ it.prev = none then .error .exit
    else
      let (h, net) ← lnetUnlink h net it
      let h ← h.freeLayer it.layer
      let h ← h.freeNode a
      pure (h, { net with nLayers := net.nLayers - 1 })

/-- `neural_push`, neural.c:186-190. -/
def lnetPush (h : LHeap) (net : LNet) (l : Nat) : Res (LHeap × LNet) :=
  lnetInsert h net l net.nLayers

/-- `neural_pop`, neural.c:196-200. -/
def lnetPop (h : LHeap) (net : LNet) : Res (LHeap × LNet) :=
  lnetRemove h net (net.nLayers - 1)

/-- The loop of `neural_copy`, neural.c:211-216, for at most `fuel` layers. -/
def lnetCopyLoop : Nat → LHeap → LNet → Option Nat → Res (LHeap × LNet)
  | _, h, dest, none => .ok (h, dest)
  | 0, _, _, some _ => .error .hang
  | fuel + 1, h, dest, some a => do
    let nd ← h.node (some a)
    let info ← h.layer nd.layer
    let (l, h) := h.newLayer info
    let (h, dest) ← lnetPush h dest l
    -- `iter = iter->prev` is read after the push
    let nd ← h.node (some a)
    lnetCopyLoop fuel h dest nd.prev

/-- `neural_copy`, neural.c:207-217. -/
def lnetCopy (fuel : Nat) (h : LHeap) (src : LNet) : Res (LHeap × LNet) :=
  lnetCopyLoop fuel h lnetInit src.tail

/-- `neural_free`, neural.c:223-235, for at most `fuel` layers. -/
def lnetFree : Nat → LHeap → LNet → Res (LHeap × LNet)
  | 0, h, net =>
    match net.tail with
    | none => .ok (h, net)
    | some _ => .error .hang
  | fuel + 1, h, net =>
    match net.tail with
    | none => .ok (h, net)
    | some a => do
      let nd ← h.node (some a)
      let h ← h.freeLayer nd.layer
      let nd ← h.node (some a)
      let h ← h.freeNode a
      lnetFree fuel h { net with tail := nd.prev, nLayers := net.nLayers - 1 }

/-- The sizes of the layer built by `pred_neural_expand` and its place, pred_neural.c:305-340:
`n_inputs` and `n_init` of the new layer follow the top hidden layer, or the output layer if it is
the only one.  `neural_resize` (modelled in `Neural`) is left out. -/
def lnetExpand (h : LHeap) (net : LNet) : Res (LHeap × LNet) := do
  let hd ← h.node net.head
  let info ← (if 1 < net.nLayers then do
      let top ← h.node hd.next
      let i ← h.layer top.layer
      pure ⟨i.nOutputs, i.nOutputs⟩
    else do
      let i ← h.layer hd.layer
      pure ⟨i.nInputs, i.nOutputs⟩ : Res LInfo)
  let (l, h) := h.newLayer info
  lnetInsert h net l (net.nLayers - 1)

/-- The loop of `pred_neural_ae_to_classifier` that removes layers, pred_neural.c:356-358. -/
def lnetPops : Nat → LHeap → LNet → Res (LHeap × LNet)
  | 0, h, net => .ok (h, net)
  | n + 1, h, net =>
    if 1 < net.nLayers then do
      let (h, net) ← lnetPop h net
      lnetPops n h net
    else .ok (h, net)

/-- `pred_neural_ae_to_classifier`, pred_neural.c:348-383: remove up to `nDel` output layers, then
add a connected layer with `yDim` outputs and a softmax layer. -/
def lnetToClassifier (h : LHeap) (net : LNet) (nDel : Int) (yDim : Int) : Res (LHeap × LNet) := do
  let (h, net) ← lnetPops nDel.toNat h net
  let (l, h) := h.newLayer ⟨net.nOutputs, yDim⟩
  let (h, net) ← lnetPush h net l
  let (l, h) := h.newLayer ⟨yDim, yDim⟩
  lnetPush h net l

/-- Operations on one network, for histories. -/
inductive LOp where
  /-- `neural_insert` of a new layer of the given sizes -/
  | insert (info : LInfo) (pos : Int)
  /-- `neural_push` of a new layer of the given sizes -/
  | push (info : LInfo)
  /-- `neural_remove` -/
  | remove (pos : Int)
  /-- `neural_pop` -/
  | pop
  deriving DecidableEq, Repr

/-- One operation. -/
def lnetStep (h : LHeap) (net : LNet) : LOp → Res (LHeap × LNet)
  | .insert info pos =>
    let (l, h) := h.newLayer info
    lnetInsert h net l pos
  | .push info =>
    let (l, h) := h.newLayer info
    lnetPush h net l
  | .remove pos => lnetRemove h net pos
  | .pop => lnetPop h net

/-- A history of operations. -/
def lnetRun : List LOp → LHeap → LNet → Res (LHeap × LNet)
  | [], h, net => .ok (h, net)
  | o :: os, h, net =>
    match lnetStep h net o with
    | .error e => .error e
    | .ok (h, net) => lnetRun os h net

end Xcsf
