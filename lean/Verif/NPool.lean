import Verif.NLayer

/-!
# Image layers without weights: pooling, up-sampling, dropout and noise

`neural_layer_maxpool.c`, `neural_layer_avgpool.c`, `neural_layer_upsample.c`,
`neural_layer_dropout.c`, `neural_layer_noise.c`.

Arrays are lists; an element `none` of an output array has been allocated by `realloc` and not
written yet.  Access outside an array, and reading an element that was never written, is
undefined behaviour.  Index arithmetic is done in unbounded integers: the sizes of arrays are
checked against overflow where they are computed.  The library's `-DBL_MAX` is the parameter `lo`.
-/

namespace Xcsf

/-! ## Loops and arrays -/

/-- A `for` loop over the given indices. -/
def forL {α S : Type} (f : α → S → Res S) : List α → S → Res S
  | [], s => .ok s
  | a :: as, s =>
    match f a s with
    | .error e => .error e
    | .ok s => forL f as s

/-- The indices of two nested loops. -/
def idx2 (a b : Nat) : List (Nat × Nat) :=
  (List.range a).flatMap fun i => (List.range b).map fun j => (i, j)

/-- The indices of three nested loops. -/
def idx3 (a b c : Nat) : List (Nat × Nat × Nat) :=
  (List.range a).flatMap fun i => (idx2 b c).map fun p => (i, p.1, p.2)

/-- Reading an array. -/
def rd {α : Type} (a : List α) (i : Int) : Res α :=
  if i < 0 then .error .ub
  else match a[i.toNat]? with
    | some v => .ok v
    | none => .error .ub

/-- Writing an array. -/
def wr {α : Type} (a : List α) (i : Int) (v : α) : Res (List α) :=
  if i < 0 ∨ (a.length : Int) ≤ i then .error .ub else .ok (a.set i.toNat v)

/-- `a[i] += v`. -/
def accAt {K : Type} [Add K] (a : List K) (i : Int) (v : K) : Res (List K) :=
  match rd a i with
  | .error e => .error e
  | .ok u => wr a i (u + v)

/-- The values of an array that has been written completely. -/
def written {K : Type} : List (Option K) → Res (List K)
  | [] => .ok []
  | none :: _ => .error .ub
  | some v :: l =>
    match written l with
    | .error e => .error e
    | .ok vs => .ok (v :: vs)

/-- A product of three sizes in `int` arithmetic. -/
def size3 (a b c : Int) : Res Int :=
  if overflows (a * b) || overflows (a * b * c) then .error .ub else .ok (a * b * c)

/-- `realloc`: what was there is kept as far as it fits, the rest is not written. -/
def realloc {K : Type} (a : List (Option K)) (n : Nat) : List (Option K) :=
  a.take n ++ List.replicate (n - a.length) none

/-! ## Layers -/

/-- The fields of `struct Layer` (neural_layer.h:75-137) used by these layers.  `delta` is always
zeroed before it is read (neural.c:330-334), `state` holds the draws of dropout and noise layers. -/
structure PLay (K : Type) where
  height : Int
  width : Int
  channels : Int
  pad : Int
  size : Int
  stride : Int
  outW : Int
  outH : Int
  outC : Int
  nIn : Int
  nOut : Int
  probability : K
  scale : K
  indexes : List (Option Int)
  output : List (Option K)
  delta : List K
  state : List K
  deriving DecidableEq, Repr

/-- The fields of `struct ArgsLayer` (neural_layer_args.h) used by these layers. -/
structure PArgs (K : Type) where
  height : Int
  width : Int
  channels : Int
  pad : Int
  size : Int
  stride : Int
  nInputs : Int
  probability : K
  scale : K
  deriving DecidableEq, Repr

section
variable {K R : Type} [Field K] [LinearOrder K] [IsStrictOrderedRing K] [FloorRing K]

/-- `(w + pad - size) / stride + 1`, the output width and height of a maxpool layer. -/
def poolOut (w pad size stride : Int) : Res Int :=
  if stride = 0 ∨ overflows (w + pad) ∨ overflows (w + pad - size) then .error .ub
  else .ok ((w + pad - size).tdiv stride + 1)

/-- `neural_layer_maxpool_init`, neural_layer_maxpool.c:60-77, with `malloc_layer_arrays`,
33-40. -/
def maxpoolInit (a : PArgs K) : Res (PLay K) :=
  match poolOut a.width a.pad a.size a.stride with
  | .error e => .error e
  | .ok ow =>
    match poolOut a.height a.pad a.size a.stride with
    | .error e => .error e
    | .ok oh =>
      match size3 oh ow a.channels with
      | .error e => .error e
      | .ok no =>
        match size3 a.height a.width a.channels with
        | .error e => .error e
        | .ok ni =>
          match guardOutputs no with
          | .error e => .error e
          | .ok _ =>
            .ok { height := a.height, width := a.width, channels := a.channels, pad := a.pad,
                  size := a.size, stride := a.stride, outW := ow, outH := oh, outC := a.channels,
                  nIn := ni, nOut := no, probability := 0, scale := 0,
                  indexes := List.replicate no.toNat (some 0),
                  output := List.replicate no.toNat (some 0),
                  delta := List.replicate no.toNat 0, state := [] }

/-- `neural_layer_maxpool_copy`, neural_layer_maxpool.c:84-110: the arrays start from zero; the
size is checked again. -/
def maxpoolCopy (l : PLay K) : Res (PLay K) :=
  match guardOutputs l.nOut with
  | .error e => .error e
  | .ok _ =>
    .ok { l with
          indexes := List.replicate l.nOut.toNat (some 0),
          output := List.replicate l.nOut.toNat (some 0),
          delta := List.replicate l.nOut.toNat 0}

/-- One round of the loops of `max_pool`, neural_layer_maxpool.c:150-159. -/
def maxStep (l : PLay K) (x : List K) (i j k : Nat) (p : Nat × Nat) (s : K × Int) : Res (K × Int) :=
  let off := (-l.pad).tdiv 2
  let ch := off + (i : Int) * l.stride + (p.1 : Int)
  let cw := off + (j : Int) * l.stride + (p.2 : Int)
  let index := cw + l.width * (ch + l.height * (k : Int))
  if 0 ≤ ch ∧ ch < l.height ∧ 0 ≤ cw ∧ cw < l.width ∧ index < l.nIn then
    match rd x index with
    | .error e => .error e
    | .ok v => if s.1 < v then .ok (v, index) else .ok s
  else .ok s

/-- `max_pool`, neural_layer_maxpool.c:142-168. -/
def maxPool (lo : K) (l : PLay K) (x : List K) (i j k : Nat) : Res Int :=
  match forL (maxStep l x i j k) (idx2 l.size.toNat l.size.toNat) (lo, -1) with
  | .error e => .error e
  | .ok (_, m) => if m < 0 ∨ l.nIn ≤ m then .error .exit else .ok m

/-- One round of the loops of `neural_layer_maxpool_forward`, neural_layer_maxpool.c:184-189. -/
def maxpoolCell (lo : K) (x : List K) (t : Nat × Nat × Nat) (l : PLay K) : Res (PLay K) :=
  let o := (t.2.2 : Int) + l.outW * ((t.2.1 : Int) + l.outH * (t.1 : Int))
  if o < l.nOut then
    match maxPool lo l x t.2.1 t.2.2 t.1 with
    | .error e => .error e
    | .ok m =>
      match rd x m with
      | .error e => .error e
      | .ok v =>
        match wr l.indexes o (some m) with
        | .error e => .error e
        | .ok is =>
          match wr l.output o (some v) with
          | .error e => .error e
          | .ok os => .ok { l with indexes := is, output := os }
  else .ok l

/-- `neural_layer_maxpool_forward`, neural_layer_maxpool.c:176-193. -/
def maxpoolForward (lo : K) (l : PLay K) (x : List K) : Res (PLay K) :=
  forL (maxpoolCell lo x) (idx3 l.channels.toNat l.outH.toNat l.outW.toNat) l

/-- One round of the loop of `neural_layer_maxpool_backward`, neural_layer_maxpool.c:208-210. -/
def maxpoolBackCell (l : PLay K) (i : Nat) (d : List K) : Res (List K) :=
  match rd l.indexes (i : Int) with
  | .error e => .error e
  | .ok none => .error .ub
  | .ok (some m) =>
    match rd l.delta (i : Int) with
    | .error e => .error e
    | .ok v => accAt d m v

/-- `neural_layer_maxpool_backward`, neural_layer_maxpool.c:202-213. -/
def maxpoolBackward (l : PLay K) (d : Option (List K)) : Res (Option (List K)) :=
  match d with
  | none => .ok none
  | some d =>
    match forL (maxpoolBackCell l) (List.range l.nOut.toNat) d with
    | .error e => .error e
    | .ok d => .ok (some d)

/-- `neural_layer_maxpool_resize`, neural_layer_maxpool.c:242-259; the arguments are the output
width, height and number of channels of the layer before. -/
def maxpoolResize (l : PLay K) (w h c : Int) : Res (PLay K) :=
  match size3 h w c with
  | .error e => .error e
  | .ok ni =>
    match poolOut w l.pad l.size l.stride with
    | .error e => .error e
    | .ok ow =>
      match poolOut h l.pad l.size l.stride with
      | .error e => .error e
      | .ok oh =>
        match size3 oh ow c with
        | .error e => .error e
        | .ok no =>
          match guardOutputs no with
          | .error e => .error e
          | .ok _ =>
            .ok { l with
                  height := h, width := w, channels := c, nIn := ni, outW := ow, outH := oh,
                  outC := c, nOut := no,
                  indexes := realloc l.indexes no.toNat,
                  output := realloc l.output no.toNat,
                  delta := List.replicate no.toNat 0}

/-- `neural_layer_avgpool_init`, neural_layer_avgpool.c:68-81. -/
def avgpoolInit (a : PArgs K) : Res (PLay K) :=
  match size3 a.height a.width a.channels with
  | .error e => .error e
  | .ok ni =>
    match guardOutputs a.channels with
    | .error e => .error e
    | .ok _ =>
      .ok { height := a.height, width := a.width, channels := a.channels, pad := 0, size := 0,
            stride := 0, outW := 1, outH := 1, outC := a.channels, nIn := ni, nOut := a.channels,
            probability := 0, scale := 0, indexes := [],
            output := List.replicate a.channels.toNat (some 0),
            delta := List.replicate a.channels.toNat 0, state := [] }

/-- `neural_layer_avgpool_copy`, neural_layer_avgpool.c:88-110, and
`neural_layer_upsample_copy`, neural_layer_upsample.c:86-110. -/
def poolCopy (l : PLay K) : Res (PLay K) :=
  match guardOutputs l.nOut with
  | .error e => .error e
  | .ok _ =>
    .ok { l with
          output := List.replicate l.nOut.toNat (some 0),
          delta := List.replicate l.nOut.toNat 0}

/-- The inner loop of `neural_layer_avgpool_forward`, neural_layer_avgpool.c:135-138. -/
def avgStep (x : List K) (n : Int) (k i : Nat) (s : K) : Res K :=
  match rd x ((i : Int) + n * (k : Int)) with
  | .error e => .error e
  | .ok v => .ok (s + v)

/-- One round of the outer loop of `neural_layer_avgpool_forward`, neural_layer_avgpool.c:133-140. -/
def avgpoolCell (x : List K) (n : Int) (k : Nat) (o : List (Option K)) : Res (List (Option K)) :=
  match forL (avgStep x n k) (List.range n.toNat) 0 with
  | .error e => .error e
  | .ok s => wr o (k : Int) (some (s / (n : K)))

/-- `neural_layer_avgpool_forward`, neural_layer_avgpool.c:128-141. -/
def avgpoolForward (l : PLay K) (x : List K) : Res (PLay K) :=
  match forL (avgpoolCell x (l.height * l.width)) (List.range l.channels.toNat) l.output with
  | .error e => .error e
  | .ok o => .ok { l with output := o }

/-- One round of the loops of `neural_layer_avgpool_backward`, neural_layer_avgpool.c:157-162. -/
def avgpoolBackCell (l : PLay K) (n : Int) (t : Nat × Nat) (d : List K) : Res (List K) :=
  match rd l.delta (t.1 : Int) with
  | .error e => .error e
  | .ok v => accAt d ((t.2 : Int) + n * (t.1 : Int)) (v / (n : K))

/-- `neural_layer_avgpool_backward`, neural_layer_avgpool.c:150-164. -/
def avgpoolBackward (l : PLay K) (d : Option (List K)) : Res (Option (List K)) :=
  match d with
  | none => .ok none
  | some d =>
    let n := l.height * l.width
    match forL (avgpoolBackCell l n) (idx2 l.channels.toNat n.toNat) d with
    | .error e => .error e
    | .ok d => .ok (some d)

/-- `neural_layer_avgpool_resize`, neural_layer_avgpool.c:194-207. -/
def avgpoolResize (l : PLay K) (w h c : Int) : Res (PLay K) :=
  match size3 h w c with
  | .error e => .error e
  | .ok ni =>
    match guardOutputs c with
    | .error e => .error e
    | .ok _ =>
      .ok { l with
            height := h, width := w, channels := c, outC := c, nOut := c, nIn := ni,
            output := realloc l.output c.toNat,
            delta := List.replicate c.toNat 0}

/-- The dimensions of an up-sampling layer, neural_layer_upsample.c:67-79. -/
def upsampleSet (l : PLay K) (w h c : Int) : Res (PLay K) :=
  if overflows (w * l.stride) || overflows (h * l.stride) then .error .ub
  else match size3 (h * l.stride) (w * l.stride) c with
  | .error e => .error e
  | .ok no =>
    match size3 h w c with
    | .error e => .error e
    | .ok ni =>
      match guardOutputs no with
      | .error e => .error e
      | .ok _ =>
        .ok { l with
              height := h, width := w, channels := c, outW := w * l.stride, outH := h * l.stride,
              outC := c, nIn := ni, nOut := no,
              output := List.replicate no.toNat (some 0),
              delta := List.replicate no.toNat 0}

/-- A layer before its sizes are set. -/
def maskNew (p s : K) : PLay K :=
  { height := 0, width := 0, channels := 0, pad := 0, size := 0, stride := 0, outW := 0, outH := 0,
    outC := 0, nIn := 0, nOut := 0, probability := p, scale := s, indexes := [], output := [],
    delta := [], state := [] }

/-- `neural_layer_upsample_init`, neural_layer_upsample.c:65-79. -/
def upsampleInit (a : PArgs K) : Res (PLay K) :=
  upsampleSet { maskNew 0 0 with stride := a.stride } a.width a.height a.channels

/-- `neural_layer_upsample_resize`, neural_layer_upsample.c:206-219. -/
def upsampleResize (l : PLay K) (w h c : Int) : Res (PLay K) := upsampleSet l w h c

/-- `in_index` of an up-sampling layer, neural_layer_upsample.c:140 and 170. -/
def upIn (l : PLay K) (t : Nat × Nat × Nat) : Int :=
  (t.1 : Int) * l.width * l.height + (t.2.1 : Int).tdiv l.stride * l.width
    + (t.2.2 : Int).tdiv l.stride

/-- `out_index` of an up-sampling layer, neural_layer_upsample.c:141 and 171. -/
def upOut (l : PLay K) (t : Nat × Nat × Nat) : Int :=
  (t.1 : Int) * l.width * l.height * l.stride * l.stride + (t.2.1 : Int) * l.width * l.stride
    + (t.2.2 : Int)

/-- One round of the loops of `neural_layer_upsample_forward`, neural_layer_upsample.c:140-142. -/
def upsampleCell (l : PLay K) (x : List K) (t : Nat × Nat × Nat) (o : List (Option K)) :
    Res (List (Option K)) :=
  match rd x (upIn l t) with
  | .error e => .error e
  | .ok v => wr o (upOut l t) (some v)

/-- `neural_layer_upsample_forward`, neural_layer_upsample.c:128-146. -/
def upsampleForward (l : PLay K) (x : List K) : Res (PLay K) :=
  match forL (upsampleCell l x)
      (idx3 l.channels.toNat (l.height * l.stride).toNat (l.width * l.stride).toNat) l.output with
  | .error e => .error e
  | .ok o => .ok { l with output := o }

/-- One round of the loops of `neural_layer_upsample_backward`, neural_layer_upsample.c:170-172. -/
def upsampleBackCell (l : PLay K) (t : Nat × Nat × Nat) (d : List K) : Res (List K) :=
  match rd l.delta (upOut l t) with
  | .error e => .error e
  | .ok v => accAt d (upIn l t) v

/-- `neural_layer_upsample_backward`, neural_layer_upsample.c:155-177. -/
def upsampleBackward (l : PLay K) (d : Option (List K)) : Res (Option (List K)) :=
  match d with
  | none => .ok none
  | some d =>
    match forL (upsampleBackCell l)
        (idx3 l.channels.toNat (l.height * l.stride).toNat (l.width * l.stride).toNat) d with
    | .error e => .error e
    | .ok d => .ok (some d)

/-- The sizes of a dropout or noise layer, neural_layer_dropout.c:59-69 and
neural_layer_noise.c:59-69. -/
def maskSet (l : PLay K) (n w h c : Int) : Res (PLay K) :=
  match guardOutputs n with
  | .error e => .error e
  | .ok _ =>
    .ok { l with
          nIn := n, nOut := n, outW := w, outH := h, outC := c,
          output := List.replicate n.toNat (some 0),
          delta := List.replicate n.toNat 0,
          state := List.replicate n.toNat 0}

/-- `neural_layer_dropout_init`, neural_layer_dropout.c:60-73; the scale is not a number if the
probability is one. -/
def dropoutInit (a : PArgs K) : Res (PLay K) :=
  maskSet (maskNew a.probability (1 / (1 - a.probability))) a.nInputs a.width a.height a.channels

/-- `neural_layer_noise_init`, neural_layer_noise.c:60-73. -/
def noiseInit (a : PArgs K) : Res (PLay K) :=
  maskSet (maskNew a.probability a.scale) a.nInputs a.width a.height a.channels

/-- `neural_layer_dropout_copy`, neural_layer_dropout.c:90-113, and `neural_layer_noise_copy`,
neural_layer_noise.c:76-99. -/
def maskCopy (l : PLay K) : Res (PLay K) :=
  maskSet l l.nIn l.outW l.outH l.outC

/-- `neural_layer_dropout_resize`, neural_layer_dropout.c:194-205, and
`neural_layer_noise_resize`; arguments: number of outputs, width, height and channels of the layer
before. -/
def maskResize (l : PLay K) (n w h c : Int) : Res (PLay K) := maskSet l n w h c

/-- The training loop of `neural_layer_dropout_forward`, neural_layer_dropout.c:133-140: draws and
outputs. -/
def dropoutGo (g : Rng K R) (p s : K) : List K → R → (List K × List K) × R
  | [], r => (([], []), r)
  | x :: xs, r =>
    let u := g.uni 0 1 r
    let rest := dropoutGo g p s xs u.2
    ((u.1 :: rest.1.1, (if u.1 < p then 0 else x * s) :: rest.1.2), rest.2)

/-- The training loop of `neural_layer_noise_forward`, neural_layer_noise.c:133-140. -/
def noiseGo (g : Rng K R) (p s : K) : List K → R → (List K × List K) × R
  | [], r => (([], []), r)
  | x :: xs, r =>
    let u := g.uni 0 1 r
    if u.1 < p then
      let z := g.normal 0 s u.2
      let rest := noiseGo g p s xs z.2
      ((u.1 :: rest.1.1, (x + z.1) :: rest.1.2), rest.2)
    else
      let rest := noiseGo g p s xs u.2
      ((u.1 :: rest.1.1, x :: rest.1.2), rest.2)

/-- Writing the first elements of the output and state arrays. -/
def maskStore (l : PLay K) (st : Option (List K)) (o : List K) : PLay K :=
  { l with
    output := o.map some ++ l.output.drop o.length,
    state := match st with
      | none => l.state
      | some s => s ++ l.state.drop s.length}

/-- `neural_layer_dropout_forward`, neural_layer_dropout.c:126-142. -/
def dropoutForward (g : Rng K R) (train : Bool) (l : PLay K) (x : List K) (r : R) :
    Res (PLay K × R) :=
  if (x.length : Int) < l.nIn ∨ (l.output.length : Int) < l.nIn ∨ (l.state.length : Int) < l.nIn then
    .error .ub
  else
    let x := x.take l.nIn.toNat
    if train then
      let a := dropoutGo g l.probability l.scale x r
      .ok (maskStore l (some a.1.1) a.1.2, a.2)
    else .ok (maskStore l none x, r)

/-- `neural_layer_noise_forward`, neural_layer_noise.c:125-142. -/
def noiseForward (g : Rng K R) (train : Bool) (l : PLay K) (x : List K) (r : R) :
    Res (PLay K × R) :=
  if (x.length : Int) < l.nIn ∨ (l.output.length : Int) < l.nIn ∨ (l.state.length : Int) < l.nIn then
    .error .ub
  else
    let x := x.take l.nIn.toNat
    if train then
      let a := noiseGo g l.probability l.scale x r
      .ok (maskStore l (some a.1.1) a.1.2, a.2)
    else .ok (maskStore l none x, r)

/-- One round of the loop of `neural_layer_dropout_backward`, neural_layer_dropout.c:159-163. -/
def dropoutBackCell (l : PLay K) (i : Nat) (d : List K) : Res (List K) :=
  match rd l.state (i : Int) with
  | .error e => .error e
  | .ok s =>
    if s < l.probability then wr d (i : Int) 0
    else
      match rd l.delta (i : Int) with
      | .error e => .error e
      | .ok v => accAt d (i : Int) (v * l.scale)

/-- `neural_layer_dropout_backward`, neural_layer_dropout.c:151-166. -/
def dropoutBackward (l : PLay K) (d : Option (List K)) : Res (Option (List K)) :=
  match d with
  | none => .ok none
  | some d =>
    match forL (dropoutBackCell l) (List.range l.nIn.toNat) d with
    | .error e => .error e
    | .ok d => .ok (some d)

/-- One round of the loop of `neural_layer_noise_backward`, neural_layer_noise.c:158-160. -/
def noiseBackCell (l : PLay K) (i : Nat) (d : List K) : Res (List K) :=
  match rd l.delta (i : Int) with
  | .error e => .error e
  | .ok v => accAt d (i : Int) v

/-- `neural_layer_noise_backward`, neural_layer_noise.c:151-163. -/
def noiseBackward (l : PLay K) (d : Option (List K)) : Res (Option (List K)) :=
  match d with
  | none => .ok none
  | some d =>
    match forL (noiseBackCell l) (List.range l.nIn.toNat) d with
    | .error e => .error e
    | .ok d => .ok (some d)

end
end Xcsf
