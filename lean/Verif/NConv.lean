import Verif.NPool

/-!
# Convolutional layers (`neural_layer_convolutional.c`, `image.c`)

The parts a convolutional layer shares with a connected layer (options, rates, weights, biases and
the operations on them, `neural_layer.c`) are those of a connected layer whose neurons are the
filters and whose inputs are the `size * size * channels` weights of a filter: the arrays of
`n_weights` and `n_biases` elements have the same layout.  States, outputs and errors, of which
there are `n_outputs`, are apart.
-/

namespace Xcsf

/-- One output: `state[i]`, `output[i]`, `delta[i]`. -/
structure Cell (K : Type) where
  state : K
  out : K
  delta : K
  deriving DecidableEq, Repr

/-- The fields of `struct Layer` (neural_layer.h:75-137) used by a convolutional layer.
`core.nOutputs` is `n_filters`, which equals `n_biases` and `out_c`; the states, outputs, errors and
output dimensions of `core` are not used. -/
structure VLay (K : Type) where
  core : CLay K
  height : Int
  width : Int
  channels : Int
  size : Int
  stride : Int
  pad : Int
  outH : Int
  outW : Int
  nIn : Int
  nOut : Int
  cells : List (Cell K)
  temp : List (Option K)
  deriving DecidableEq, Repr

/-- The fields of `struct ArgsLayer` (neural_layer_args.h) used by a convolutional layer;
`base.nInit` is the number of filters. -/
structure VArgs (K : Type) where
  base : CArgs K
  height : Int
  width : Int
  channels : Int
  size : Int
  stride : Int
  pad : Int

/-- `get_out_height` and `get_out_width`, neural_layer_convolutional.c:51-66. -/
def convDim (n pad size stride : Int) : Res Int :=
  if stride = 0 ∨ overflows (2 * pad) ∨ overflows (n + 2 * pad) ∨ overflows (n + 2 * pad - size) then
    .error .ub
  else .ok ((n + 2 * pad - size).tdiv stride + 1)

/-- `channels * n_filters * size * size` in `int` arithmetic,
neural_layer_convolutional.c:180, 372 and 427. -/
def convWeights (c f s : Int) : Res Int :=
  if overflows (c * f) || overflows (c * f * s) || overflows (c * f * s * s) then .error .ub
  else .ok (c * f * s * s)

/-- `guard_malloc`, neural_layer_convolutional.c:90-96, with `layer_guard_biases`,
neural_layer.c:581-588, which has the same limit as `layer_guard_outputs`. -/
def convGuard (f no nw : Int) : Res Unit :=
  match guardOutputs f with
  | .error e => .error e
  | .ok _ =>
    match guardOutputs no with
    | .error e => .error e
    | .ok _ => guardWeights nw

/-- `get_workspace_size`, neural_layer_convolutional.c:73-84, in elements.  After `guard_malloc` the
factors have a positive product: the check in there never fails. -/
def convTemp (oh ow s c : Int) : Nat := (oh * ow * s * s * c).toNat

section
variable {K R : Type} [Field K] [LinearOrder K] [IsStrictOrderedRing K] [FloorRing K]

/-- `neural_layer_convolutional_init`, neural_layer_convolutional.c:162-195, with
`malloc_layer_arrays`, 102-116. -/
def convInit (g : Rng K R) (a : VArgs K) (r : R) : Res (VLay K × R) :=
  let f : Int := a.base.nInit
  match convWeights a.channels f a.size with
  | .error e => .error e
  | .ok nw =>
    match convDim a.height a.pad a.size a.stride with
    | .error e => .error e
    | .ok oh =>
      match convDim a.width a.pad a.size a.stride with
      | .error e => .error e
      | .ok ow =>
        match size3 a.width a.height a.channels with
        | .error e => .error e
        | .ok ni =>
          match size3 oh ow f with
          | .error e => .error e
          | .ok no =>
            let e := initEta g a.base.opt a.base.etaMin a.base.eta r
            match convGuard f no nw with
            | .error e => .error e
            | .ok _ =>
              let z := drawN (g.normal 0 (1 / 10)) nw.toNat e.2
              match samInit g connMu z.2 with
              | .error e => .error e
              | .ok (mu, r) =>
                let core : CLay K :=
                  { nInputs := (a.size * a.size * a.channels).toNat, nOutputs := a.base.nInit,
                    maxOutputs := a.base.nMax, maxGrow := a.base.maxGrow, nActive := nw,
                    outW := 0, outH := 0, outC := 0, fn := a.base.fn, opt := a.base.opt,
                    eta := e.1, etaMax := a.base.eta, etaMin := a.base.etaMin,
                    momentum := a.base.momentum, decay := a.base.decay,
                    ws := z.1.map fun v => ⟨v, 0, true⟩,
                    ns := List.replicate a.base.nInit ⟨0, 0, 0, 0, 0⟩, mu := mu }
                .ok ({ core := core, height := a.height, width := a.width, channels := a.channels,
                       size := a.size, stride := a.stride, pad := a.pad, outH := oh, outW := ow,
                       nIn := ni, nOut := no, cells := List.replicate no.toNat ⟨0, 0, 0⟩,
                       temp := List.replicate (convTemp oh ow a.size a.channels) none }, r)

/-- `neural_layer_convolutional_copy`, neural_layer_convolutional.c:203-243: updates, states, outputs
and errors start from zero, the workspace is not written. -/
def convCopy (l : VLay K) : Res (VLay K) :=
  match convGuard l.core.nOutputs l.nOut l.core.ws.length with
  | .error e => .error e
  | .ok _ =>
    .ok { l with
          core := connCopy l.core,
          cells := List.replicate l.nOut.toNat ⟨0, 0, 0⟩,
          temp := List.replicate (convTemp l.outH l.outW l.size l.channels) none }

/-- `im2col_get_pixel`, image.c:38-48. -/
def getPixel (x : List K) (h w row col ch pad : Int) : Res K :=
  if row - pad < 0 ∨ col - pad < 0 ∨ h ≤ row - pad ∨ w ≤ col - pad then .ok 0
  else rd x ((col - pad) + w * ((row - pad) + h * ch))

/-- One round of the loops of `im2col`, image.c:113-117. -/
def im2colCell (x : List K) (h w ks st pad hc wc : Int) (t : Nat × Nat × Nat)
    (d : List (Option K)) : Res (List (Option K)) :=
  let c : Int := t.1
  match getPixel x h w ((c.tdiv ks).tmod ks + (t.2.1 : Int) * st) (c.tmod ks + (t.2.2 : Int) * st)
      ((c.tdiv ks).tdiv ks) pad with
  | .error e => .error e
  | .ok v => wr d ((c * hc + (t.2.1 : Int)) * wc + (t.2.2 : Int)) (some v)

/-- `im2col`, image.c:97-121. -/
def im2col (x : List K) (c h w ks st pad : Int) (d : List (Option K)) : Res (List (Option K)) :=
  let hc := (h + 2 * pad - ks).tdiv st + 1
  let wc := (w + 2 * pad - ks).tdiv st + 1
  forL (im2colCell x h w ks st pad hc wc) (idx3 (c * ks * ks).toNat hc.toNat wc.toNat) d

/-- One round of the loops of `col2im`, image.c:74-81, with `col2im_add_pixel`, 25-35. -/
def col2imCell (a : List K) (h w ks st pad hc wc : Int) (t : Nat × Nat × Nat) (d : List K) :
    Res (List K) :=
  let c : Int := t.1
  let row := (c.tdiv ks).tmod ks + (t.2.1 : Int) * st
  let col := c.tmod ks + (t.2.2 : Int) * st
  match rd a ((c * hc + (t.2.1 : Int)) * wc + (t.2.2 : Int)) with
  | .error e => .error e
  | .ok v =>
    if row - pad < 0 ∨ col - pad < 0 ∨ h ≤ row - pad ∨ w ≤ col - pad then .ok d
    else accAt d ((col - pad) + w * ((row - pad) + h * (c.tdiv ks).tdiv ks)) v

/-- `col2im`, image.c:62-84. -/
def col2im (a : List K) (c h w ks st pad : Int) (d : List K) : Res (List K) :=
  let hc := (h + 2 * pad - ks).tdiv st + 1
  let wc := (w + 2 * pad - ks).tdiv st + 1
  forL (col2imCell a h w ks st pad hc wc) (idx3 (c * ks * ks).toNat hc.toNat wc.toNat) d

/-- The columns the weights are multiplied with, and the workspace,
neural_layer_convolutional.c:273-279 and 312-318: the input itself if kernels have size one. -/
def convCols (l : VLay K) (x : List K) : Res (List K × List (Option K)) :=
  let k := (l.size * l.size * l.channels).toNat
  let n := (l.outW * l.outH).toNat
  if l.size = 1 then
    if x.length < k * n then .error .ub else .ok (x, l.temp)
  else
    match im2col x l.channels l.height l.width l.size l.stride l.pad l.temp with
    | .error e => .error e
    | .ok t =>
      if t.length < k * n then .error .ub
      else
        match written (t.take (k * n)) with
        | .error e => .error e
        | .ok c => .ok (c, t)

/-- `neural_layer_convolutional_forward`, neural_layer_convolutional.c:262-286. -/
def convForward (m : Libm K) (l : VLay K) (x : List K) : Res (VLay K) :=
  let f := l.core.nOutputs
  let k := (l.size * l.size * l.channels).toNat
  let n := (l.outW * l.outH).toNat
  if l.core.ws.length < f * k ∨ l.cells.length < f * n ∨ l.cells.length ≠ l.nOut.toNat ∨
      l.cells.length < l.core.ns.length * n then
    .error .ub
  else
    match convCols l x with
    | .error e => .error e
    | .ok (b, t) =>
      let c := gemm false false f n k 1 (arrOf (l.core.ws.map Wt.w)) k (arrOf b) n 1 (fun _ => 0) n
      let bs := arrOf (l.core.ns.map Neuron.bias)
      let c := forN l.core.ns.length (fun i C => forN n (fun j C => arrAdd C (i * n + j) (bs i)) C) c
      match activateArray m l.core.fn (ofArr l.nOut.toNat c) with
      | .error e => .error e
      | .ok (ss, os) =>
        .ok { l with
              temp := t,
              cells := List.zipWith (fun (x : Cell K) (so : K × K) =>
                { x with state := so.1, out := so.2 }) l.cells (List.zip ss os) }

/-- The updates of weights and biases, neural_layer_convolutional.c:304-319. -/
def convUpdates (m : Libm K) (l : VLay K) (x : List K) : Res (VLay K) :=
  let f := l.core.nOutputs
  let n := (l.size * l.size * l.channels).toNat
  let k := (l.outW * l.outH).toNat
  match gradientArray m l.core.fn (l.cells.map Cell.state) (l.cells.map Cell.delta) with
  | .error e => .error e
  | .ok ds =>
    let bu := fun i => arrOf (l.core.ns.map Neuron.bupd) i + sumV (fun j => arrOf ds (k * i + j)) k
    match convCols l x with
    | .error e => .error e
    | .ok (b, t) =>
      let wu := gemm false true f n k 1 (arrOf ds) k (arrOf b) k 1 (arrOf (l.core.ws.map Wt.upd)) n
      .ok { l with
            temp := t,
            cells := List.zipWith (fun (x : Cell K) d => { x with delta := d }) l.cells ds,
            core :=
              { l.core with
                ns := List.zipWith (fun (x : Neuron K) u => { x with bupd := u }) l.core.ns
                  (ofArr l.core.ns.length bu),
                ws := List.zipWith (fun (x : Wt K) u => { x with upd := u }) l.core.ws
                  (ofArr l.core.ws.length wu) } }

/-- The error of the layer before, neural_layer_convolutional.c:320-332.  For kernels of size one it
is overwritten in place; otherwise the workspace is scaled by zero, filled, and added to it. -/
def convDelta (l : VLay K) (d : List K) : Res (VLay K × List K) :=
  let f := l.core.nOutputs
  let n := (l.size * l.size * l.channels).toNat
  let k := (l.outW * l.outH).toNat
  let a := arrOf (l.core.ws.map Wt.w)
  let b := arrOf (l.cells.map Cell.delta)
  if l.size = 1 then
    if d.length < n * k then .error .ub
    else .ok (l, ofArr d.length (gemm true false n k f 1 a n b k 0 (arrOf d) k))
  else if l.temp.length < n * k then .error .ub
  else
    match written (l.temp.take (n * k)) with
    | .error e => .error e
    | .ok t0 =>
      let t := ofArr (n * k) (gemm true false n k f 1 a n b k 0 (arrOf t0) k)
      match col2im t l.channels l.height l.width l.size l.stride l.pad d with
      | .error e => .error e
      | .ok d => .ok ({ l with temp := t.map some ++ l.temp.drop (n * k) }, d)

/-- `neural_layer_convolutional_backward`, neural_layer_convolutional.c:296-333. -/
def convBackward (m : Libm K) (l : VLay K) (x : List K) (d : Option (List K)) :
    Res (VLay K × Option (List K)) :=
  let f := l.core.nOutputs
  let n := (l.size * l.size * l.channels).toNat
  let k := (l.outW * l.outH).toNat
  if l.core.ws.length < f * n ∨ l.cells.length < f * k ∨ l.cells.length < l.core.ns.length * k then
    .error .ub
  else
    match (if l.core.opt.sgd then convUpdates m l x else .ok l) with
    | .error e => .error e
    | .ok l =>
      match d with
      | none => .ok (l, none)
      | some d =>
        match convDelta l d with
        | .error e => .error e
        | .ok (l, d) => .ok (l, some d)

/-- `neural_layer_convolutional_update`, neural_layer_convolutional.c:340-353: the same as for a
connected layer. -/
def convUpdate (l : VLay K) : VLay K := { l with core := connUpdate l.core }

/-- `neural_layer_convolutional_rand`, neural_layer_convolutional.c:250-253. -/
def convRand (g : Rng K R) (l : VLay K) (r : R) : VLay K × R :=
  let a := weightRand g l.core r
  ({ l with core := a.1 }, a.2)

/-- Weights after `realloc_layer_arrays` and the first loop after it,
neural_layer_convolutional.c:373-378 and 428-433: kept in the order of the array, new ones at the
end. -/
def convFill (g : Rng K R) (ws : List (Wt K)) (nw : Nat) (r : R) : List (Wt K) × R :=
  let fresh := drawN (freshWt g) (nw - ws.length) r
  (ws.take nw ++ fresh.1, fresh.2)

/-- Outputs after `realloc_layer_arrays` and the loop for them. -/
def cellsTo (cs : List (Cell K)) (n : Nat) : List (Cell K) :=
  cs.take n ++ List.replicate (n - cs.length) ⟨0, 0, 0⟩

/-- `neural_layer_convolutional_resize`, neural_layer_convolutional.c:361-385, for a layer before of
width `w`, height `h` and `c` channels. -/
def convResize (g : Rng K R) (l : VLay K) (w h c : Int) (r : R) : Res (VLay K × R) :=
  match convDim w l.pad l.size l.stride with
  | .error e => .error e
  | .ok ow =>
    match convDim h l.pad l.size l.stride with
    | .error e => .error e
    | .ok oh =>
      match size3 oh ow l.core.nOutputs with
      | .error e => .error e
      | .ok no =>
        match size3 w h c with
        | .error e => .error e
        | .ok ni =>
          match convWeights c l.core.nOutputs l.size with
          | .error e => .error e
          | .ok nw =>
            match convGuard l.core.nOutputs no nw with
            | .error e => .error e
            | .ok _ =>
              let ws := convFill g l.core.ws nw.toNat r
              .ok ({ l with
                     width := w, height := h, channels := c, outW := ow, outH := oh, nIn := ni,
                     nOut := no, cells := cellsTo l.cells no.toNat,
                     temp := realloc l.temp (convTemp oh ow l.size c),
                     core := { l.core with
                               nInputs := (l.size * l.size * c).toNat, ws := ws.1,
                               nActive := calcActive ws.1 } }, ws.2)

/-- `neural_layer_convolutional_add_filters`, neural_layer_convolutional.c:418-444. -/
def addFilters (g : Rng K R) (l : VLay K) (n : Int) (r : R) : Res (VLay K × R) :=
  let f := (l.core.nOutputs : Int) + n
  if overflows f then .error .ub
  else match convWeights l.channels f l.size with
  | .error e => .error e
  | .ok nw =>
    match size3 l.outH l.outW f with
    | .error e => .error e
    | .ok no =>
      match convGuard f no nw with
      | .error e => .error e
      | .ok _ =>
        let ws := convFill g l.core.ws nw.toNat r
        .ok ({ l with
               nOut := no, cells := cellsTo l.cells no.toNat,
               temp := realloc l.temp (convTemp l.outH l.outW l.size l.channels),
               core := { l.core with
                         nOutputs := f.toNat, ws := ws.1, nActive := calcActive ws.1,
                         ns := l.core.ns.take f.toNat ++
                           List.replicate (f.toNat - l.core.ns.length) ⟨0, 0, 0, 0, 0⟩ } }, ws.2)

/-- The filter step of `neural_layer_convolutional_mutate`, neural_layer_convolutional.c:459-465;
`neural_layer_convolutional_mutate_filter`, 394-409, is `layer_mutate_neurons` for the number of
filters. -/
def convMutFilters (g : Rng K R) (fuel : Nat) (l : VLay K) (mu : K) (r : R) :
    Res ((VLay K × Bool) × R) :=
  if l.core.opt.neurons then
    match mutateNeurons g fuel l.core mu r with
    | .error e => .error e
    | .ok (n, r) =>
      if n = 0 then .ok ((l, false), r)
      else
        match addFilters g l n r with
        | .error e => .error e
        | .ok (l, r) => .ok ((l, true), r)
  else .ok ((l, false), r)

/-- The connectivity step of `neural_layer_convolutional_mutate`,
neural_layer_convolutional.c:466-469, with `layer_mutate_connectivity`, neural_layer.c:174-196. -/
def convMutConn (g : Rng K R) (l : VLay K) (muE muD : K) (r : R) : (VLay K × Bool) × R :=
  if l.core.opt.connect ∧ 1 < l.nIn ∧ 1 < l.nOut then
    let c := connGo g muE muD l.core.ws r
    (({ l with core := { l.core with ws := c.1.1, nActive := l.core.nActive + c.1.2.1 } }, c.1.2.2),
      c.2)
  else ((l, false), r)

/-- `neural_layer_convolutional_mutate`, neural_layer_convolutional.c:452-479. -/
def convMutate (g : Rng K R) (fuel : Nat) (l : VLay K) (r : R) : Res ((VLay K × Bool) × R) :=
  match samAdapt g (List.zip connMu l.core.mu) r with
  | .error e => .error e
  | .ok ([m0, m1, m2, m3, m4, m5], r) =>
    let a := connMutEta g { l.core with mu := [m0, m1, m2, m3, m4, m5] } m0 r
    match convMutFilters g fuel { l with core := a.1.1 } m1 a.2 with
    | .error e => .error e
    | .ok ((l, b1), r) =>
      let b := convMutConn g l m2 m3 r
      let c := connMutWeights g b.1.1.core m4 b.2
      let d := connMutFn g c.1.1 m5 c.2
      .ok (({ b.1.1 with core := d.1.1 }, a.1.2 || b1 || b.1.2 || c.1.2 || d.1.2), d.2)
  | .ok _ => .error .ub

end
end Xcsf
