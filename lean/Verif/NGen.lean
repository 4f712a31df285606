import Verif.NRec
import Verif.NConv
import Verif.Activ

/-!
# Networks of all kinds of layers (`neural.c`, `neural_layer.c`, `neural_layer_softmax.c`)

The list of layers is the one from the first layer (`net->tail`) to the output layer
(`net->head`); its pointers are the subject of `NetList.lean`.
-/

namespace Xcsf

/-- The sizes a layer hands on: `n_outputs`, `out_w`, `out_h` and `out_c` of `struct Layer`,
neural_layer.h:75-137. -/
structure Dim where
  n : Int
  w : Int
  h : Int
  c : Int
  deriving DecidableEq, Repr

/-- The fields of `struct Layer` (neural_layer.h:75-137) used by a softmax layer. -/
structure SLay (K : Type) where
  scale : K
  nIn : Int
  nOut : Int
  outW : Int
  outH : Int
  outC : Int
  output : List K
  delta : List K
  deriving DecidableEq, Repr

/-- A layer of one of the types of neural_layer.h:29-38. -/
inductive GLay (K : Type) where
  | conn (l : CLay K)
  | recu (l : RLay K)
  | lstm (l : TLay K)
  | conv (l : VLay K)
  | maxp (l : PLay K)
  | avgp (l : PLay K)
  | ups (l : PLay K)
  | drop (l : PLay K)
  | noise (l : PLay K)
  | soft (l : SLay K)
  deriving DecidableEq

/-- The parameters of a layer (`struct ArgsLayer`, neural_layer_args.h) of each type; `rfn` is the
recurrent activation. -/
inductive GArgs (K : Type) where
  | conn (a : CArgs K)
  | recu (a : CArgs K)
  | lstm (a : CArgs K) (rfn : Int)
  | conv (a : VArgs K)
  | maxp (a : PArgs K)
  | avgp (a : PArgs K)
  | ups (a : PArgs K)
  | drop (a : PArgs K)
  | noise (a : PArgs K)
  | soft (a : PArgs K)

section
variable {K R : Type} [Field K] [LinearOrder K] [IsStrictOrderedRing K] [FloorRing K]

/-! ## Softmax layers -/

/-- The sizes of a softmax layer, neural_layer_softmax.c:57-67 and 216-227, with
`malloc_layer_arrays`, 33-38. -/
def softSet (scale : K) (n : Int) : Res (SLay K) :=
  match guardOutputs n with
  | .error e => .error e
  | .ok _ =>
    .ok { scale := scale, nIn := n, nOut := n, outW := n, outH := 1, outC := 1,
          output := List.replicate n.toNat 0, delta := List.replicate n.toNat 0 }

/-- `neural_layer_softmax_copy`, neural_layer_softmax.c:70-90. -/
def softCopy (l : SLay K) : Res (SLay K) :=
  match guardOutputs l.nOut with
  | .error e => .error e
  | .ok _ =>
    .ok { l with
          output := List.replicate l.nOut.toNat 0
          delta := List.replicate l.nOut.toNat 0 }

/-- `neural_layer_softmax_forward`, neural_layer_softmax.c:112-132.  A result that is not a finite
number leaves the model: it is reported as undefined. -/
def softForward (m : Libm K) (l : SLay K) (x : List K) : Res (SLay K) :=
  if (x.length : Int) < l.nIn ∨ (l.output.length : Int) < l.nIn then .error .ub
  else
    match softmaxForward m l.scale (x.take l.nIn.toNat) with
    | .error e => .error e
    | .ok o =>
      match written o with
      | .error e => .error e
      | .ok o => .ok { l with output := o ++ l.output.drop o.length }

/-! ## What all layers have in common -/

/-- `l->n_inputs`. -/
def GLay.nIn : GLay K → Int
  | .conn l => l.nInputs
  | .recu l => l.nInputs
  | .lstm l => l.nInputs
  | .conv l => l.nIn
  | .maxp l => l.nIn
  | .avgp l => l.nIn
  | .ups l => l.nIn
  | .drop l => l.nIn
  | .noise l => l.nIn
  | .soft l => l.nIn

/-- `out_w`, `out_h` and `out_c` of an image layer or dropout or noise layer. -/
def PLay.dim (l : PLay K) : Dim := ⟨l.nOut, l.outW, l.outH, l.outC⟩

/-- `n_outputs`, `out_w`, `out_h` and `out_c`; the last two are one for recurrent and LSTM layers,
neural_layer_recurrent.c:253-255, neural_layer_lstm.c:292-294; the number of channels of a
convolutional layer is that of its filters, neural_layer_convolutional.c:184 and 425. -/
def GLay.dim : GLay K → Dim
  | .conn l => ⟨l.nOutputs, l.outW, l.outH, l.outC⟩
  | .recu l => ⟨l.nOutputs, l.outW, 1, 1⟩
  | .lstm l => ⟨l.nOutputs, l.outW, 1, 1⟩
  | .conv l => ⟨l.nOut, l.outW, l.outH, l.core.nOutputs⟩
  | .maxp l => l.dim
  | .avgp l => l.dim
  | .ups l => l.dim
  | .drop l => l.dim
  | .noise l => l.dim
  | .soft l => ⟨l.nOut, l.outW, l.outH, l.outC⟩

/-- `layer_output`, neural_layer.h:168-172: what the next layer reads; undefined if it has not been
written. -/
def GLay.outs : GLay K → Res (List K)
  | .conn l => .ok l.outs
  | .recu l => .ok l.out.outs
  | .lstm l => .ok l.output
  | .conv l => .ok (l.cells.map Cell.out)
  | .maxp l => written l.output
  | .avgp l => written l.output
  | .ups l => written l.output
  | .drop l => written l.output
  | .noise l => written l.output
  | .soft l => .ok l.output

/-- A result that changes no random state. -/
def keepR {α β : Type} (f : α → β) (x : Res α) (r : R) : Res (β × R) :=
  match x with
  | .error e => .error e
  | .ok a => .ok (f a, r)

/-- A result with the random state after it. -/
def liftR {α β : Type} (f : α → β) (x : Res (α × R)) : Res (β × R) :=
  match x with
  | .error e => .error e
  | .ok (a, r) => .ok (f a, r)

/-- The result of a mutation: the layer, whether it changed, and the random state. -/
def liftM {α β : Type} (f : α → β) (x : Res ((α × Bool) × R)) : Res ((β × Bool) × R) :=
  match x with
  | .error e => .error e
  | .ok ((a, b), r) => .ok ((f a, b), r)

/-- `layer_init`, neural_layer.h:355-364, with the initialisation of each type. -/
def layerInit (g : Rng K R) (a : GArgs K) (r : R) : Res (GLay K × R) :=
  match a with
  | .conn a => liftR .conn (connInit g a r)
  | .recu a => liftR .recu (recInit g a r)
  | .lstm a f => liftR .lstm (lstmInit g a f r)
  | .conv a => liftR .conv (convInit g a r)
  | .maxp a => keepR .maxp (maxpoolInit a) r
  | .avgp a => keepR .avgp (avgpoolInit a) r
  | .ups a => keepR .ups (upsampleInit a) r
  | .drop a => keepR .drop (dropoutInit a) r
  | .noise a => keepR .noise (noiseInit a) r
  | .soft a => keepR .soft (softSet a.scale a.nInputs) r

/-- `layer_copy`, neural_layer.h:238-242. -/
def layerCopy : GLay K → Res (GLay K)
  | .conn l => .ok (.conn (connCopy l))
  | .recu l => (recCopy l).map .recu
  | .lstm l => (lstmCopy l).map .lstm
  | .conv l => (convCopy l).map .conv
  | .maxp l => (maxpoolCopy l).map .maxp
  | .avgp l => (poolCopy l).map .avgp
  | .ups l => (poolCopy l).map .ups
  | .drop l => (maskCopy l).map .drop
  | .noise l => (maskCopy l).map .noise
  | .soft l => (softCopy l).map .soft

/-- `layer_rand`, neural_layer.h:258-262: nothing for layers without weights. -/
def layerRand (g : Rng K R) (l : GLay K) (r : R) : Res (GLay K × R) :=
  match l with
  | .conn l => .ok (.conn (weightRand g l r).1, (weightRand g l r).2)
  | .recu l => .ok (.recu (recRand g l r).1, (recRand g l r).2)
  | .lstm l => liftR .lstm (lstmRand g l r)
  | .conv l => .ok (.conv (convRand g l r).1, (convRand g l r).2)
  | l => .ok (l, r)

/-- `layer_mutate`, neural_layer.h:215-219: layers without weights do not change. -/
def layerMutate (g : Rng K R) (fuel : Nat) (l : GLay K) (r : R) : Res ((GLay K × Bool) × R) :=
  match l with
  | .conn l => liftM .conn (connMutate g fuel l r)
  | .recu l => liftM .recu (recMutate g fuel l r)
  | .lstm l => liftM .lstm (lstmMutate g fuel l r)
  | .conv l => liftM .conv (convMutate g fuel l r)
  | l => .ok ((l, false), r)

/-- `layer_resize`, neural_layer.h:227-231, for a layer before with sizes `d`. -/
def layerResize (g : Rng K R) (fuel : Nat) (l : GLay K) (d : Dim) (r : R) : Res (GLay K × R) :=
  match l with
  | .conn l => liftR .conn (connResize g fuel l d.n.toNat r)
  | .recu l => liftR .recu (recResize g fuel l d.n.toNat r)
  | .lstm l => liftR .lstm (lstmResize g fuel l d.n.toNat r)
  | .conv l => liftR .conv (convResize g l d.w d.h d.c r)
  | .maxp l => keepR .maxp (maxpoolResize l d.w d.h d.c) r
  | .avgp l => keepR .avgp (avgpoolResize l d.w d.h d.c) r
  | .ups l => keepR .ups (upsampleResize l d.w d.h d.c) r
  | .drop l => keepR .drop (maskResize l d.n d.w d.h d.c) r
  | .noise l => keepR .noise (maskResize l d.n d.w d.h d.c) r
  | .soft l => keepR .soft (softSet l.scale d.n) r

/-- `layer_forward`, neural_layer.h:180-184; `lo` is -DBL_MAX. -/
def layerForward (g : Rng K R) (m : Libm K) (lo : K) (train : Bool) (l : GLay K) (x : List K)
    (r : R) : Res (GLay K × R) :=
  match l with
  | .conn l => keepR .conn (connForward m l x) r
  | .recu l => keepR .recu (recForward m l x) r
  | .lstm l => keepR .lstm (lstmForward m l x) r
  | .conv l => keepR .conv (convForward m l x) r
  | .maxp l => keepR .maxp (maxpoolForward lo l x) r
  | .avgp l => keepR .avgp (avgpoolForward l x) r
  | .ups l => keepR .ups (upsampleForward l x) r
  | .drop l => liftR .drop (dropoutForward g train l x r)
  | .noise l => liftR .noise (noiseForward g train l x r)
  | .soft l => keepR .soft (softForward m l x) r

/-! ## Networks -/

/-- What `neural_create` writes into the parameters of a layer that has a layer before,
neural.c:60-78.  A convolutional layer takes its number of inputs from the image. -/
def GArgs.after (d : Dim) : GArgs K → GArgs K
  | .conn a => .conn { a with nInputs := d.n.toNat }
  | .recu a => .recu { a with nInputs := d.n.toNat }
  | .lstm a f => .lstm { a with nInputs := d.n.toNat } f
  | .conv a => .conv { a with height := d.h, width := d.w, channels := d.c }
  | .maxp a => .maxp { a with height := d.h, width := d.w, channels := d.c, nInputs := d.n }
  | .avgp a => .avgp { a with height := d.h, width := d.w, channels := d.c, nInputs := d.n }
  | .ups a => .ups { a with height := d.h, width := d.w, channels := d.c, nInputs := d.n }
  | .drop a => .drop { a with height := d.h, width := d.w, channels := d.c, nInputs := d.n }
  | .noise a => .noise { a with height := d.h, width := d.w, channels := d.c, nInputs := d.n }
  | .soft a => .soft { a with height := d.h, width := d.w, channels := d.c, nInputs := d.n }

/-- The loop of `neural_create`, neural.c:57-84, after the first layer. -/
def createGo (g : Rng K R) : Dim → List (GArgs K) → R → Res (List (GLay K) × R)
  | _, [], r => .ok ([], r)
  | d, a :: as, r =>
    match layerInit g (a.after d) r with
    | .error e => .error e
    | .ok (l, r) =>
      match createGo g l.dim as r with
      | .error e => .error e
      | .ok (ls, r) => .ok (l :: ls, r)

/-- `neural_create`, neural.c:52-90. -/
def genCreate (g : Rng K R) (as : List (GArgs K)) (r : R) : Res (List (GLay K) × R) :=
  match as with
  | [] => .error .exit
  | a :: as =>
    match layerInit g a r with
    | .error e => .error e
    | .ok (l, r) =>
      match createGo g l.dim as r with
      | .error e => .error e
      | .ok (ls, r) =>
        if l.nIn < 1 ∨ ((l :: ls).getLast (by simp)).dim.n < 1 then .error .exit
        else .ok (l :: ls, r)

/-- The resizing step of `neural_mutate`, neural.c:264-267, and of `neural_resize`, 294-296; the
argument is the size of the layer before if this layer is to be resized. -/
def resizeOn (g : Rng K R) (fuel : Nat) (l : GLay K) (d : Option Dim) (r : R) :
    Res (GLay K × R) :=
  match d with
  | some d => layerResize g fuel l d r
  | none => .ok (l, r)

/-- The loop of `neural_mutate`, neural.c:262-281; `d` is the size of the layer before if its number
of outputs has changed. -/
def genMutate (g : Rng K R) (fuel : Nat) : Option Dim → List (GLay K) → R →
    Res ((List (GLay K) × Bool) × R)
  | _, [], r => .ok (([], false), r)
  | d, l :: ls, r =>
    match resizeOn g fuel l d r with
    | .error e => .error e
    | .ok (l1, r) =>
      match layerMutate g fuel l1 r with
      | .error e => .error e
      | .ok ((l2, b), r) =>
        match genMutate g fuel (if l2.dim.n ≠ l.dim.n then some l2.dim else none) ls r with
        | .error e => .error e
        | .ok ((ls, bs), r) => .ok ((l2 :: ls, b || bs), r)

/-- The loop of `neural_resize`, neural.c:289-301; `d` is the size of the layer before. -/
def genResize (g : Rng K R) (fuel : Nat) : Option Dim → List (GLay K) → R →
    Res (List (GLay K) × R)
  | _, [], r => .ok ([], r)
  | d, l :: ls, r =>
    match resizeOn g fuel l (match d with
        | some d => if l.nIn ≠ d.n then some d else none
        | none => none) r with
    | .error e => .error e
    | .ok (l, r) =>
      match genResize g fuel (some l.dim) ls r with
      | .error e => .error e
      | .ok (ls, r) => .ok (l :: ls, r)

/-- `neural_propagate`, neural.c:309-319. -/
def genForward (g : Rng K R) (m : Libm K) (lo : K) (train : Bool) : List (GLay K) → List K → R →
    Res (List (GLay K) × R)
  | [], _, r => .ok ([], r)
  | l :: ls, x, r =>
    match layerForward g m lo train l x r with
    | .error e => .error e
    | .ok (l, r) =>
      match l.outs with
      | .error e => .error e
      | .ok o =>
        match genForward g m lo train ls o r with
        | .error e => .error e
        | .ok (ls, r) => .ok (l :: ls, r)

/-- `neural_output`, neural.c:367-376, for a network with `net->n_outputs` = `n`, which is set when
the head layer is added, neural.c:104 and 118, and when one is removed, 161. -/
def genOutput (n : Int) (ls : List (GLay K)) (i : Int) : Res K :=
  if i < 0 ∨ n ≤ i then .error .exit
  else
    match ls.getLast? with
    | none => .error .ub
    | some l =>
      match l.outs with
      | .error e => .error e
      | .ok o => rd o i

/-- `neural_rand`, neural.c:241-249. -/
def genRand (g : Rng K R) : List (GLay K) → R → Res (List (GLay K) × R)
  | [], r => .ok ([], r)
  | l :: ls, r =>
    match layerRand g l r with
    | .error e => .error e
    | .ok (l, r) =>
      match genRand g ls r with
      | .error e => .error e
      | .ok (ls, r) => .ok (l :: ls, r)

/-- `neural_copy`, neural.c:206-217. -/
def genCopy : List (GLay K) → Res (List (GLay K))
  | [] => .ok []
  | l :: ls =>
    match layerCopy l with
    | .error e => .error e
    | .ok l =>
      match genCopy ls with
      | .error e => .error e
      | .ok ls => .ok (l :: ls)

end
end Xcsf
