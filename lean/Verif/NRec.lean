import Verif.NNet

/-!
# Recurrent and long short-term memory layers (`neural_layer_recurrent.c`, `neural_layer_lstm.c`)

Both are made of connected layers (`CLay`).  An element of an array that has been allocated and not
written is `none`; using its value is undefined.
-/

namespace Xcsf

/-- The fields of `struct Layer` (neural_layer.h) of a recurrent layer.  `output` and `delta` are
those of `out`; `outW` is `out_w`, and `out_h`, `out_c` are always one. -/
structure RLay (K : Type) where
  nInputs : Nat
  nOutputs : Nat
  maxOutputs : Int
  nActive : Int
  outW : Nat
  fn : Int
  opt : LOpt
  eta : K
  etaMax : K
  etaMin : K
  state : List (Option K)
  prev : List (Option K)
  inp : CLay K
  self : CLay K
  out : CLay K
  mu : List K
  deriving DecidableEq, Repr

section
variable {K R : Type} [Field K] [LinearOrder K] [IsStrictOrderedRing K] [FloorRing K]

/-- The values of an array; undefined if one of them has not been written. -/
def readAll (xs : List (Option K)) : Res (List K) := xs.mapM fun v =>
  match v with
  | some v => .ok v
  | none => .error .ub

/-- An array that is read only if `b`; otherwise its values do not matter. -/
def readIf (b : Bool) (xs : List (Option K)) : Res (List K) :=
  if b then readAll xs else .ok (xs.map fun _ => 0)

/-- `blas_axpy` with factor one and steps one on the first `n` elements, blas.c:137-150:
`y[i] += x[i]`. -/
def addArr (n : Nat) (x y : List K) : List K := ofArr n fun i => arrOf y i + 1 * arrOf x i

/-- `blas_mul` with steps one on the first `n` elements, blas.c:216-223: `y[i] *= x[i]`. -/
def mulArr (n : Nat) (x y : List K) : List K := ofArr n fun i => arrOf y i * arrOf x i

/-- `realloc`: elements kept, added ones not written. -/
def reallocArr {α : Type} (xs : List (Option α)) (n : Nat) : List (Option α) :=
  xs.take n ++ List.replicate (n - xs.length) none

/-- `MU_TYPE` of recurrent layers and of LSTM layers: six rates, neural_layer_recurrent.c:38-45,
neural_layer_lstm.c:38-45. -/
def recMu : List SamType := List.replicate 6 .rateSelect

/-- `set_layer_n_active`, neural_layer_recurrent.c:99-104. -/
def recActive (l : RLay K) : RLay K :=
  { l with nActive := l.inp.nActive + l.self.nActive + l.out.nActive }

/-- `neural_layer_recurrent_init`, neural_layer_recurrent.c:245-275, with `malloc_layer_arrays`,
50-57.  The limits of the learning rate of the layer itself are never set: `layer_defaults`
(neural_layer.c:412-479) leaves zero. -/
def recInit (g : Rng K R) (a : CArgs K) (r : R) : Res (RLay K × R) := do
  let (i, r) ← connInit g { a with fn := 3 } r
  let (s, r) ← connInit g { a with fn := 3, nInputs := a.nInit } r
  let (o, r) ← connInit g { a with nInputs := a.nInit } r
  guardOutputs (a.nInit : Int)
  let (mu, r) ← samInit g recMu r
  .ok (recActive
    { nInputs := a.nInputs, nOutputs := a.nInit, maxOutputs := a.nMax, nActive := 0,
      outW := a.nInit, fn := a.fn, opt := a.opt, eta := i.eta, etaMax := 0, etaMin := 0,
      state := List.replicate a.nInit (some 0), prev := List.replicate a.nInit (some 0),
      inp := i, self := { s with eta := i.eta }, out := { o with eta := i.eta }, mu := mu }, r)

/-- `neural_layer_recurrent_copy`, neural_layer_recurrent.c:282-312. -/
def recCopy (l : RLay K) : Res (RLay K) :=
  if l.prev.length < l.nOutputs then .error .ub
  else match guardOutputs (l.nOutputs : Int) with
  | .error e => .error e
  | .ok _ =>
    .ok { l with
      etaMax := 0, etaMin := 0,
      state := List.replicate l.nOutputs (some 0), prev := l.prev.take l.nOutputs,
      inp := connCopy l.inp, self := connCopy l.self, out := connCopy l.out }

/-- `neural_layer_recurrent_rand`, neural_layer_recurrent.c:334-340: the number of active weights
is not set. -/
def recRand (g : Rng K R) (l : RLay K) (r : R) : RLay K × R :=
  let a := weightRand g l.inp r
  let b := weightRand g l.self a.2
  let c := weightRand g l.out b.2
  ({ l with inp := a.1, self := b.1, out := c.1 }, c.2)

/-- `neural_layer_recurrent_forward`, neural_layer_recurrent.c:348-358. -/
def recForward (m : Libm K) (l : RLay K) (x : List K) : Res (RLay K) := do
  if l.state.length < l.nOutputs ∨ l.prev.length < l.nOutputs then .error .ub
  let prev := l.state.take l.nOutputs ++ l.prev.drop l.nOutputs
  let i ← connForward m l.inp x
  let s ← connForward m l.self l.out.outs
  if i.ns.length < l.nOutputs ∨ s.ns.length < l.nOutputs then .error .ub
  let st := addArr l.nOutputs s.outs i.outs
  let o ← connForward m l.out st
  .ok { l with
    prev := prev, state := st.map some ++ l.state.drop l.nOutputs, inp := i, self := s, out := o }

/-- `memset` of the first `n` errors of a layer to zero. -/
def zeroDelta (n : Nat) (l : CLay K) : CLay K :=
  l.withDelta (List.replicate n 0 ++ l.deltas.drop n)

/-- `neural_layer_recurrent_backward`, neural_layer_recurrent.c:367-379.  The input of a connected
layer is read by its backward pass only if its weights are learned by gradient descent. -/
def recBackward (m : Libm K) (l : RLay K) (x : List K) (d : Option (List K)) :
    Res (RLay K × Option (List K)) := do
  if l.inp.ns.length < l.nOutputs ∨ l.self.ns.length < l.nOutputs then .error .ub
  let i := zeroDelta l.nOutputs l.inp
  let s := zeroDelta l.nOutputs l.self
  let st ← readIf l.out.opt.sgd l.state
  let (o, e) ← connBackward m l.out st (some s.deltas)
  match e with
  | none => .error .ub
  | some e =>
    let s := s.withDelta e
    let i := i.withDelta (s.deltas.take l.nOutputs ++ i.deltas.drop l.nOutputs)
    let pv ← readIf s.opt.sgd l.prev
    let (s, _) ← connBackward m s pv none
    let (i, d) ← connBackward m i x d
    .ok ({ l with inp := i, self := s, out := o }, d)

/-- `neural_layer_recurrent_update`, neural_layer_recurrent.c:384-392. -/
def recUpdate (l : RLay K) : RLay K :=
  if l.opt.sgd ∧ 0 < l.eta then
    { l with inp := connUpdate l.inp, self := connUpdate l.self, out := connUpdate l.out }
  else l

/-- `neural_layer_recurrent_resize`, neural_layer_recurrent.c:399-406; `prev` is the number of
outputs of the layer before. -/
def recResize (g : Rng K R) (fuel : Nat) (l : RLay K) (prev : Nat) (r : R) : Res (RLay K × R) := do
  let (i, r) ← connResize g fuel l.inp prev r
  .ok (recActive { l with inp := i, nInputs := i.nInputs }, r)

/-- `mutate_eta`, neural_layer_recurrent.c:133-143. -/
def recMutEta (g : Rng K R) (l : RLay K) (mu : K) (r : R) : (RLay K × Bool) × R :=
  if l.opt.eta then
    let z := g.normal 0 mu r
    let eta := clampK (l.eta + z.1) l.etaMin l.etaMax
    if eta ≠ l.eta then
      (({ l with
          eta := eta, inp := { l.inp with eta := eta }, self := { l.self with eta := eta },
          out := { l.out with eta := eta } }, true), z.2)
    else (({ l with eta := eta }, false), z.2)
  else ((l, false), r)

/-- `mutate_neurons`, neural_layer_recurrent.c:150-175, with `realloc_layer_arrays`, 63-69. -/
def recMutNeurons (g : Rng K R) (fuel : Nat) (l : RLay K) (mu : K) (r : R) :
    Res ((RLay K × Bool) × R) :=
  if l.opt.neurons then do
    let (n, r) ← mutateNeurons g fuel l.self mu r
    if n = 0 then .ok ((l, false), r)
    else do
      let (i, r) ← addNeurons g l.inp n r
      let (s, r) ← addNeurons g l.self n r
      let (o, r) ← addNeurons g l.out n r
      let (s, r) ← connResize g fuel s i.nOutputs r
      let (o, r) ← connResize g fuel o i.nOutputs r
      guardOutputs (o.nOutputs : Int)
      .ok ((recActive { l with
        nOutputs := o.nOutputs, outW := o.nOutputs, inp := i, self := s, out := o,
        state := reallocArr l.state o.nOutputs, prev := reallocArr l.prev o.nOutputs }, true), r)
  else .ok ((l, false), r)

/-- `mutate_connectivity`, neural_layer_recurrent.c:182-199. -/
def recMutConn (g : Rng K R) (l : RLay K) (muE muD : K) (r : R) : (RLay K × Bool) × R :=
  if l.opt.connect then
    let a := mutateConn g l.inp muE muD r
    let b := mutateConn g l.self muE muD a.2
    let c := mutateConn g l.out muE muD b.2
    ((recActive { l with inp := a.1.1, self := b.1.1, out := c.1.1 },
      a.1.2 || b.1.2 || c.1.2), c.2)
  else ((l, false), r)

/-- `mutate_weights`, neural_layer_recurrent.c:206-222. -/
def recMutWeights (g : Rng K R) (l : RLay K) (mu : K) (r : R) : (RLay K × Bool) × R :=
  if l.opt.weights then
    let a := mutateWeights g l.inp mu r
    let b := mutateWeights g l.self mu a.2
    let c := mutateWeights g l.out mu b.2
    (({ l with inp := a.1.1, self := b.1.1, out := c.1.1 }, a.1.2 || b.1.2 || c.1.2), c.2)
  else ((l, false), r)

/-- `mutate_functions`, neural_layer_recurrent.c:229-238, with `layer_mutate_functions`,
neural_layer.c:282-301. -/
def recMutFn (g : Rng K R) (l : RLay K) (mu : K) (r : R) : (RLay K × Bool) × R :=
  if l.opt.functions then
    let u := g.uni 0 1 r
    if u.1 < mu then
      let f := g.uniInt 0 11 u.2
      if f.1 ≠ l.fn then (({ l with fn := f.1, out := { l.out with fn := f.1 } }, true), f.2)
      else ((l, false), f.2)
    else ((l, false), u.2)
  else ((l, false), r)

/-- `neural_layer_recurrent_mutate`, neural_layer_recurrent.c:424-435. -/
def recMutate (g : Rng K R) (fuel : Nat) (l : RLay K) (r : R) : Res ((RLay K × Bool) × R) := do
  let (mu, r) ← samAdapt g (List.zip recMu l.mu) r
  match mu with
  | [m0, m1, m2, m3, m4, m5] =>
    let a := recMutEta g { l with mu := mu } m0 r
    let (b, r) ← recMutNeurons g fuel a.1.1 m1 a.2
    let c := recMutConn g b.1 m2 m3 r
    let d := recMutWeights g c.1.1 m4 c.2
    let e := recMutFn g d.1.1 m5 d.2
    .ok ((e.1.1, a.1.2 || b.2 || c.1.2 || d.1.2 || e.1.2), e.2)
  | _ => .error .ub

end

/-! ## Long short-term memory -/

/-- The four parts of an LSTM cell: forget gate, input gate, modulation, output gate. -/
structure Gates (α : Type) where
  f : α
  i : α
  g : α
  o : α
  deriving DecidableEq, Repr

/-- The fields of `struct Layer` (neural_layer.h) of an LSTM layer: `u` are the connected layers
`uf`, `ui`, `ug`, `uo` from the input, `w` the layers `wf`, `wi`, `wg`, `wo` from the layer's own
output, `gate` the arrays `f`, `i`, `g`, `o`.  `temp`, `temp2`, `temp3` and `state` carry nothing
from one call to the next, `cell` is a copy of `c`. -/
structure TLay (K : Type) where
  nInputs : Nat
  nOutputs : Nat
  maxOutputs : Int
  maxGrow : Int
  nActive : Int
  outW : Nat
  fn : Int
  rfn : Int
  opt : LOpt
  eta : K
  etaMax : K
  momentum : K
  decay : K
  u : Gates (CLay K)
  w : Gates (CLay K)
  gate : Gates (List K)
  c : List K
  h : List K
  dc : List K
  output : List K
  delta : List K
  prevState : List K
  prevCell : List K
  mu : List K
  deriving DecidableEq, Repr

section
variable {K R : Type} [Field K] [LinearOrder K] [IsStrictOrderedRing K] [FloorRing K]

/-- The same operation on the four parts, in the order forget, input, modulation, output. -/
def Gates.mapR {α β : Type} (op : α → R → Res (β × R)) (a : Gates α) (r : R) :
    Res (Gates β × R) := do
  let (f, r) ← op a.f r
  let (i, r) ← op a.i r
  let (g, r) ← op a.g r
  let (o, r) ← op a.o r
  .ok (⟨f, i, g, o⟩, r)

/-- The same operation on the four parts. -/
def Gates.map {α β : Type} (op : α → β) (a : Gates α) : Gates β := ⟨op a.f, op a.i, op a.g, op a.o⟩

/-- `set_layer_n_active`, neural_layer_lstm.c:75-81. -/
def lstmActive (l : TLay K) : TLay K :=
  { l with nActive := l.u.f.nActive + l.u.i.nActive + l.u.g.nActive + l.u.o.nActive +
      l.w.f.nActive + l.w.i.nActive + l.w.g.nActive + l.w.o.nActive }

/-- `set_eta`, neural_layer_lstm.c:154-165. -/
def lstmSetEta (l : TLay K) : TLay K :=
  { l with
    eta := l.u.f.eta
    u := ⟨l.u.f, { l.u.i with eta := l.u.f.eta }, { l.u.g with eta := l.u.f.eta },
      { l.u.o with eta := l.u.f.eta }⟩
    w := l.w.map fun x => { x with eta := l.u.f.eta } }

/-- `malloc_layer_arrays`, neural_layer_lstm.c:87-107: all arrays are zero. -/
def lstmArrays (l : TLay K) : Res (TLay K) :=
  match guardOutputs (l.nOutputs : Int) with
  | .error e => .error e
  | .ok _ =>
    let z : List K := List.replicate l.nOutputs 0
    .ok { l with
      gate := ⟨z, z, z, z⟩, c := z, h := z, dc := z, output := z, delta := z, prevState := z,
      prevCell := z }

/-- `neural_layer_lstm_init`, neural_layer_lstm.c:283-319; `rfn` is the recurrent activation. -/
def lstmInit (g : Rng K R) (a : CArgs K) (rfn : Int) (r : R) : Res (TLay K × R) := do
  let ci : CArgs K → R → Res (CLay K × R) := connInit g
  let au : CArgs K := { a with fn := 3 }
  let aw : CArgs K := { a with fn := 3, nInputs := a.nInit }
  let (u, r) ← Gates.mapR ci ⟨au, au, au, au⟩ r
  let (w, r) ← Gates.mapR ci ⟨aw, aw, aw, aw⟩ r
  let l ← lstmArrays (lstmSetEta (lstmActive
    { nInputs := a.nInputs, nOutputs := a.nInit, maxOutputs := a.nMax, maxGrow := a.maxGrow,
      nActive := 0, outW := a.nInit, fn := a.fn, rfn := rfn, opt := a.opt, eta := 0,
      etaMax := a.eta, momentum := a.momentum, decay := a.decay, u := u, w := w,
      gate := ⟨[], [], [], []⟩, c := [], h := [], dc := [], output := [], delta := [],
      prevState := [], prevCell := [], mu := [] }))
  let (mu, r) ← samInit g recMu r
  .ok ({ l with mu := mu }, r)

/-- `neural_layer_lstm_copy`, neural_layer_lstm.c:326-368. -/
def lstmCopy (l : TLay K) : Res (TLay K) :=
  lstmArrays { l with u := l.u.map connCopy, w := l.w.map connCopy }

/-- `neural_layer_lstm_rand`, neural_layer_lstm.c:401-412: the number of active weights is not
set. -/
def lstmRand (g : Rng K R) (l : TLay K) (r : R) : Res (TLay K × R) := do
  let (u, r) ← l.u.mapR (fun x r => .ok (weightRand g x r)) r
  let (w, r) ← l.w.mapR (fun x r => .ok (weightRand g x r)) r
  .ok ({ l with u := u, w := w }, r)

/-- The value of one gate: `memcpy` and `blas_axpy` of neural_layer_lstm.c:430-437 and the
activation of 438-441.  `neural_activate_array` limits its array before it overwrites it. -/
def gateVal (m : Libm K) (n : Nat) (fn : Int) (u w : CLay K) : Res (List K) :=
  if u.ns.length < n ∨ w.ns.length < n then .error .ub
  else
    match activateArray m fn (addArr n u.outs w.outs) with
    | .error e => .error e
    | .ok (_, os) => .ok os

/-- The activation of an array, where only the outputs are kept. -/
def actArr (m : Libm K) (fn : Int) (xs : List K) : Res (List K) :=
  match activateArray m fn xs with
  | .error e => .error e
  | .ok (_, os) => .ok os

/-- `neural_layer_lstm_forward`, neural_layer_lstm.c:420-452. -/
def lstmForward (m : Libm K) (l : TLay K) (x : List K) : Res (TLay K) := do
  let n := l.nOutputs
  let (u, _) ← l.u.mapR (fun y (_ : Unit) => (connForward m y x).map (·, ())) ()
  let (w, _) ← l.w.mapR (fun y (_ : Unit) => (connForward m y l.h).map (·, ())) ()
  let f ← gateVal m n l.rfn u.f w.f
  let i ← gateVal m n l.rfn u.i w.i
  let g ← gateVal m n l.fn u.g w.g
  let o ← gateVal m n l.rfn u.o w.o
  if l.c.length < n then .error .ub
  let c := addArr n (mulArr n g i) (mulArr n f l.c)
  let a ← actArr m l.fn c
  let h := mulArr n o a
  .ok { l with u := u, w := w, gate := ⟨f, i, g, o⟩, c := c, h := h, output := h }

/-- One gate in `neural_layer_lstm_backward`: the errors of its two connected layers are set, and
both propagate, the one from the layer's own output without handing on an error
(neural_layer_lstm.c:477-480 and the corresponding lines of the other gates). -/
def gateBack (m : Libm K) (e prevState x : List K) (u w : CLay K) (d : Option (List K)) :
    Res ((CLay K × CLay K) × Option (List K)) := do
  if u.ns.length ≠ e.length ∨ w.ns.length ≠ e.length then .error .ub
  let (w, _) ← connBackward m (w.withDelta e) prevState none
  let (u, d) ← connBackward m (u.withDelta e) x d
  .ok ((u, w), d)

/-- `neural_layer_lstm_backward`, neural_layer_lstm.c:461-507. -/
def lstmBackward (m : Libm K) (l : TLay K) (x : List K) (d : Option (List K)) :
    Res (TLay K × Option (List K)) := do
  let n := l.nOutputs
  if l.delta.length < n ∨ l.c.length < n ∨ l.dc.length < n ∨ l.prevCell.length < n then .error .ub
  let t3 := l.delta.take n
  let act ← actArr m l.fn (l.c.take n)
  let t2 ← gradientArray m l.fn act (mulArr n l.gate.o t3)
  let t2 := addArr n l.dc t2
  let eo ← gradientArray m l.rfn l.gate.o (mulArr n t3 act)
  let ((uo, wo), d) ← gateBack m eo l.prevState x l.u.o l.w.o d
  let eg ← gradientArray m l.fn l.gate.g (mulArr n l.gate.i t2)
  let ((ug, wg), d) ← gateBack m eg l.prevState x l.u.g l.w.g d
  let ei ← gradientArray m l.rfn l.gate.i (mulArr n l.gate.g t2)
  let ((ui, wi), d) ← gateBack m ei l.prevState x l.u.i l.w.i d
  let ef ← gradientArray m l.rfn l.gate.f (mulArr n l.prevCell t2)
  let ((uf, wf), d) ← gateBack m ef l.prevState x l.u.f l.w.f d
  .ok ({ l with u := ⟨uf, ui, ug, uo⟩, w := ⟨wf, wi, wg, wo⟩, dc := mulArr n l.gate.f t2 }, d)

/-- `neural_layer_lstm_update`, neural_layer_lstm.c:512-526. -/
def lstmUpdate (l : TLay K) : TLay K :=
  if l.opt.sgd ∧ 0 < l.eta then { l with u := l.u.map connUpdate, w := l.w.map connUpdate }
  else l

/-- `neural_layer_lstm_resize`, neural_layer_lstm.c:533-545: the forget gate is resized twice. -/
def lstmResize (g : Rng K R) (fuel : Nat) (l : TLay K) (prev : Nat) (r : R) :
    Res (TLay K × R) := do
  let (u, r) ← l.u.mapR (fun x r => connResize g fuel x prev r) r
  let (f, r) ← connResize g fuel u.f prev r
  .ok (lstmActive { l with u := { u with f := f }, nInputs := prev }, r)

/-- `mutate_eta`, neural_layer_lstm.c:191-199, where it is called, 565-567. -/
def lstmMutEta (g : Rng K R) (l : TLay K) (mu : K) (r : R) : (TLay K × Bool) × R :=
  if l.opt.eta then
    let z := mutateEta g l.u.f mu r
    let l := { l with u := { l.u with f := z.1.1 } }
    if z.1.2 then ((lstmSetEta l, true), z.2) else ((l, false), z.2)
  else ((l, false), r)

/-- `mutate_neurons`, neural_layer_lstm.c:206-235, where it is called, 568-570. -/
def lstmMutNeurons (g : Rng K R) (fuel : Nat) (l : TLay K) (mu : K) (r : R) :
    Res ((TLay K × Bool) × R) :=
  if l.opt.neurons then do
    let (n, r) ← mutateNeurons g fuel l.u.f mu r
    if n = 0 then .ok ((l, false), r)
    else do
      let (u, r) ← l.u.mapR (fun x r => addNeurons g x n r) r
      let (w, r) ← l.w.mapR (fun x r => addNeurons g x n r) r
      let (w, r) ← w.mapR (fun x r => connResize g fuel x u.f.nOutputs r) r
      let l ← lstmArrays (lstmActive
        { l with u := u, w := w, nOutputs := u.f.nOutputs, outW := u.f.nOutputs })
      .ok ((l, true), r)
  else .ok ((l, false), r)

/-- `mutate_connectivity`, neural_layer_lstm.c:242-256, where it is called, 571-573. -/
def lstmMutConn (g : Rng K R) (l : TLay K) (muE muD : K) (r : R) : Res ((TLay K × Bool) × R) :=
  if l.opt.connect then do
    let (u, r) ← l.u.mapR (fun x r => .ok (mutateConn g x muE muD r)) r
    let (w, r) ← l.w.mapR (fun x r => .ok (mutateConn g x muE muD r)) r
    .ok ((lstmActive { l with u := u.map (·.1), w := w.map (·.1) },
      u.f.2 || u.i.2 || u.g.2 || u.o.2 || w.f.2 || w.i.2 || w.g.2 || w.o.2), r)
  else .ok ((l, false), r)

/-- `mutate_weights`, neural_layer_lstm.c:263-276, where it is called, 574-576. -/
def lstmMutWeights (g : Rng K R) (l : TLay K) (mu : K) (r : R) : Res ((TLay K × Bool) × R) :=
  if l.opt.weights then do
    let (u, r) ← l.u.mapR (fun x r => .ok (mutateWeights g x mu r)) r
    let (w, r) ← l.w.mapR (fun x r => .ok (mutateWeights g x mu r)) r
    .ok (({ l with u := u.map (·.1), w := w.map (·.1) },
      u.f.2 || u.i.2 || u.g.2 || u.o.2 || w.f.2 || w.i.2 || w.g.2 || w.o.2), r)
  else .ok ((l, false), r)

/-- One function in `layer_mutate_functions`, neural_layer.c:285-291 and 293-299. -/
def drawFn (g : Rng K R) (fn : Int) (mu : K) (r : R) : Int × R :=
  let u := g.uni 0 1 r
  if u.1 < mu then g.uniInt 0 11 u.2 else (fn, u.2)

/-- `layer_mutate_functions` for an LSTM layer, neural_layer.c:282-301, where it is called,
neural_layer_lstm.c:577-580. -/
def lstmMutFn (g : Rng K R) (l : TLay K) (mu : K) (r : R) : (TLay K × Bool) × R :=
  if l.opt.functions then
    let a := drawFn g l.fn mu r
    let b := drawFn g l.rfn mu a.2
    (({ l with fn := a.1, rfn := b.1 }, decide (a.1 ≠ l.fn) || decide (b.1 ≠ l.rfn)), b.2)
  else ((l, false), r)

/-- `neural_layer_lstm_mutate`, neural_layer_lstm.c:560-582. -/
def lstmMutate (g : Rng K R) (fuel : Nat) (l : TLay K) (r : R) : Res ((TLay K × Bool) × R) := do
  let (mu, r) ← samAdapt g (List.zip recMu l.mu) r
  match mu with
  | [m0, m1, m2, m3, m4, m5] =>
    let a := lstmMutEta g { l with mu := mu } m0 r
    let (b, r) ← lstmMutNeurons g fuel a.1.1 m1 a.2
    let (c, r) ← lstmMutConn g b.1 m2 m3 r
    let (d, r) ← lstmMutWeights g c.1 m4 r
    let e := lstmMutFn g d.1 m5 r
    .ok ((e.1.1, a.1.2 || b.2 || c.2 || d.2 || e.1.2), e.2)
  | _ => .error .ub

end
end Xcsf
