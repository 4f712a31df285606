import Verif.NGen
import Verif.NConvSpec
import Verif.NRecSpec

/-!
# Specification for property C49: the sizes of the layers of a network agree
-/

set_option linter.unusedSectionVars false

namespace Xcsf
variable {K R : Type} [Field K] [LinearOrder K] [IsStrictOrderedRing K] [FloorRing K]

/-- Width, height and channels of the image an image layer works on. -/
def GLay.takes : GLay K → Option (Int × Int × Int)
  | .conv l => some (l.width, l.height, l.channels)
  | .maxp l => some (l.width, l.height, l.channels)
  | .avgp l => some (l.width, l.height, l.channels)
  | .ups l => some (l.width, l.height, l.channels)
  | _ => none

/-- The layer `l` reads what a layer with sizes `d` writes: as many inputs as there are outputs, and
an image layer works on an image of the same width, height and number of channels. -/
structure Agrees (d : Dim) (l : GLay K) : Prop where
  ins : l.nIn = d.n
  image : ∀ t, l.takes = some t → t = (d.w, d.h, d.c)

/-- Each layer agrees with the one before. -/
def Chained (ls : List (GLay K)) : Prop :=
  ∀ i a b, ls[i]? = some a → ls[i + 1]? = some b → Agrees a.dim b

/-- Whether the number of neurons or filters evolves. -/
def GLay.evolves : GLay K → Bool
  | .conn l => l.opt.neurons
  | .recu l => l.opt.neurons
  | .lstm l => l.opt.neurons
  | .conv l => l.core.opt.neurons
  | _ => false

/-- Whether the layer's outputs form an image of constant width and height; the argument tells it of
the layer before.  Layers of neurons forget the image before; a softmax layer puts all outputs into
one row. -/
def GLay.still (b : Bool) : GLay K → Bool
  | .conn l => !l.opt.neurons
  | .recu l => !l.opt.neurons
  | .lstm l => !l.opt.neurons
  | .soft _ => false
  | _ => b

/-- Limits of a network: at most `B` neurons or filters and channels per layer, `M` connections and
`N` outputs; whether there may be maxpool layers and whether sizes may evolve. -/
structure Lim where
  B : Nat
  M : Nat
  N : Nat
  maxpool : Bool
  evolve : Bool

/-- No size computation overflows. -/
structure Lim.Ok (k : Lim) : Prop where
  M : k.M < 2147483648
  N : k.N < 2147483648
  prod : k.B * k.N ≤ k.M
  le : k.B ≤ k.N
  big : k.B ≤ 2000000

/-- The allowed faults: exceeding the program's limits ends it, and so does a maxpool layer if no
input under its window is greater than -DBL_MAX; a growth loop may run as long as the draws are too
small. -/
def GFault (k : Lim) (e : Fault) : Prop :=
  (e = .exit ∧ (20000000 < k.M ∨ 2000000 < k.N ∨ k.maxpool = true)) ∨ (e = .hang ∧ k.evolve = true)

/-- A pooling or up-sampling layer with at most `k.B` channels computes its sizes without
overflow. -/
structure PLay.Room (k : Lim) (l : PLay K) : Prop where
  cha : l.channels ≤ k.B
  ins : l.height * l.width * (k.B : Int) < 2147483648
  outs : l.outH * l.outW * (k.B : Int) ≤ k.N
  padW : l.width + l.pad < 2147483648
  padH : l.height + l.pad < 2147483648

/-- A legal softmax layer. -/
structure SLay.Ok (l : SLay K) : Prop where
  n : 1 ≤ l.nIn
  nOut : l.nOut = l.nIn
  ol : l.output.length = l.nOut.toNat
  dl : l.delta.length = l.nOut.toNat
  sc : l.scale ≠ 0

/-- A legal layer of each type, within the limits. -/
def GLay.Legal (k : Lim) : GLay K → Prop
  | .conn l => l.Sound ∧ l.Fits k.B k.M ∧ (l.opt.neurons = true → k.evolve = true) ∧
      (l.opt.neurons = false → l.outW = l.nOutputs ∧ l.outH = 1 ∧ l.outC = 1)
  | .recu l => l.Legal k.B k.M ∧ (l.opt.neurons = true → k.evolve = true)
  | .lstm l => l.Legal k.B k.M ∧ (l.opt.neurons = true → k.evolve = true)
  | .conv l => l.Legal ∧ l.Fits k.B k.M k.N ∧ (l.core.opt.neurons = true → k.evolve = true) ∧
      l.channels ≤ k.B ∧ Geo k.B k.M k.N l.size l.stride l.pad l.width l.height k.B
  | .maxp l => l.MaxOk ∧ l.Room k ∧ k.maxpool = true
  | .avgp l => l.AvgOk ∧ l.outW = 1 ∧ l.outH = 1 ∧ l.channels ≤ k.B ∧
      l.height * l.width * (k.B : Int) < 2147483648
  | .ups l => l.UpOk ∧ l.Room k ∧ l.outW < 2147483648 ∧ l.outH < 2147483648
  | .drop l => l.MaskOk ∧ l.nIn ≤ k.N
  | .noise l => l.MaskOk ∧ l.nIn ≤ k.N
  | .soft l => l.Ok ∧ l.nIn ≤ k.N

/-- Dropout and noise layers hand on the image. -/
def GLay.passes : GLay K → Bool
  | .drop _ => true
  | .noise _ => true
  | _ => false

/-- A legal network behind a layer of sizes `d`; `b` tells whether the outputs of that layer form an
image of constant width and height, without which there must be no image layer. -/
def NetLegal (k : Lim) : Bool → Dim → List (GLay K) → Prop
  | _, _, [] => True
  | b, d, l :: ls =>
    l.Legal k ∧ Agrees d l ∧ (l.takes.isSome = true → b = true) ∧
    (l.passes = true → b = true → l.dim = d) ∧ NetLegal k (l.still b) l.dim ls

/-- The outputs are an image. -/
structure Dim.Full (k : Lim) (d : Dim) : Prop where
  w : 1 ≤ d.w
  h : 1 ≤ d.h
  c : 1 ≤ d.c
  cB : d.c ≤ k.B
  n : d.n = d.w * d.h * d.c

/-- Possible sizes of the input of a network or of a layer. -/
structure Dim.Ok (k : Lim) (b : Bool) (d : Dim) : Prop where
  pos : 1 ≤ d.n
  le : d.n ≤ k.N
  full : b = true → d.Full k

/-! ## Histories -/

/-- What is done with a network. -/
inductive NOp (K : Type) where
  | mutate
  | resize
  | forward (train : Bool) (x : Nat → K)
  | rand
  | copy

/-- One step of a network's history; `n` is the length of the input. -/
def nstep (g : Rng K R) (m : Libm K) (lo : K) (fuel n : Nat) (ls : List (GLay K)) (r : R) :
    NOp K → Res (List (GLay K) × R)
  | .mutate =>
    match genMutate g fuel none ls r with
    | .error e => .error e
    | .ok (a, r) => .ok (a.1, r)
  | .resize => genResize g fuel none ls r
  | .forward t x => genForward g m lo t ls (ofArr n x) r
  | .rand => genRand g ls r
  | .copy =>
    match genCopy ls with
    | .error e => .error e
    | .ok ls => .ok (ls, r)

/-- A history of a network. -/
def nrun (g : Rng K R) (m : Libm K) (lo : K) (fuel n : Nat) : List (NOp K) → List (GLay K) → R →
    Res (List (GLay K) × R)
  | [], ls, r => .ok (ls, r)
  | o :: os, ls, r =>
    match nstep g m lo fuel n ls r o with
    | .error e => .error e
    | .ok (ls, r) => nrun g m lo fuel n os ls r

/-! ## Creation -/

/-- Whether the layer works on an image. -/
def GArgs.image : GArgs K → Bool
  | .conv _ => true
  | .maxp _ => true
  | .avgp _ => true
  | .ups _ => true
  | _ => false

/-- `GLay.still` of the layer to be created. -/
def GArgs.still (b : Bool) : GArgs K → Bool
  | .conn a => !a.opt.neurons
  | .recu a => !a.opt.neurons
  | .lstm a _ => !a.opt.neurons
  | .soft _ => false
  | _ => b

/-- The sizes of the layer to be created behind one of sizes `d`. -/
def GArgs.dim (d : Dim) : GArgs K → Dim
  | .conn a => ⟨a.nInit, a.nInit, 1, 1⟩
  | .recu a => ⟨a.nInit, a.nInit, 1, 1⟩
  | .lstm a _ => ⟨a.nInit, a.nInit, 1, 1⟩
  | .conv a =>
    let w := (d.w + 2 * a.pad - a.size) / a.stride + 1
    let h := (d.h + 2 * a.pad - a.size) / a.stride + 1
    ⟨h * w * a.base.nInit, w, h, a.base.nInit⟩
  | .maxp a =>
    let w := (d.w + a.pad - a.size) / a.stride + 1
    let h := (d.h + a.pad - a.size) / a.stride + 1
    ⟨h * w * d.c, w, h, d.c⟩
  | .avgp _ => ⟨d.c, 1, 1, d.c⟩
  | .ups a => ⟨d.h * a.stride * (d.w * a.stride) * d.c, d.w * a.stride, d.h * a.stride, d.c⟩
  | .drop _ => d
  | .noise _ => d
  | .soft _ => ⟨d.n, d.n, 1, 1⟩

/-- The parameters of a layer behind one of sizes `d` respect the limits. -/
def GArgs.Fits (k : Lim) (d : Dim) : GArgs K → Prop
  | .conn a => ({ a with nInputs := d.n.toNat } : CArgs K).Fits k.B k.M ∧
      (a.opt.neurons = true → k.evolve = true)
  | .recu a => ({ a with nInputs := d.n.toNat } : CArgs K).Fits k.B k.M ∧
      (a.opt.neurons = true → k.evolve = true)
  | .lstm a f => ({ a with nInputs := d.n.toNat } : CArgs K).Fits k.B k.M ∧
      (a.opt.neurons = true → k.evolve = true) ∧ 0 ≤ f ∧ f < 11
  | .conv a => ({ a with height := d.h, width := d.w, channels := d.c } : VArgs K).Fits k.B k.M k.N ∧
      (a.base.opt.neurons = true → k.evolve = true) ∧
      Geo k.B k.M k.N a.size a.stride a.pad d.w d.h k.B
  | .maxp a => 1 ≤ a.size ∧ 1 ≤ a.stride ∧ 0 ≤ a.pad ∧ (a.pad + 1) / 2 < a.size ∧
      a.size ≤ d.w + a.pad ∧ a.size ≤ d.h + a.pad ∧ k.maxpool = true ∧
      d.w + a.pad < 2147483648 ∧ d.h + a.pad < 2147483648 ∧
      d.h * d.w * (k.B : Int) < 2147483648 ∧
      ((d.h + a.pad - a.size) / a.stride + 1) * ((d.w + a.pad - a.size) / a.stride + 1) *
        (k.B : Int) ≤ k.N
  | .avgp _ => d.h * d.w * (k.B : Int) < 2147483648
  | .ups a => 1 ≤ a.stride ∧ d.h * d.w * (k.B : Int) < 2147483648 ∧
      d.w < 2147483648 ∧ d.h < 2147483648 ∧
      d.w * a.stride < 2147483648 ∧ d.h * a.stride < 2147483648 ∧
      d.h * a.stride * (d.w * a.stride) * (k.B : Int) ≤ k.N
  | .drop _ => True
  | .noise _ => True
  | .soft a => a.scale ≠ 0

/-- The parameters of a network behind an input of sizes `d` respect the limits, and an image layer
follows only a layer whose outputs form an image of constant width and height. -/
def ArgsFit (k : Lim) : Bool → Dim → List (GArgs K) → Prop
  | _, _, [] => True
  | b, d, a :: as =>
    a.Fits k d ∧ (a.image = true → b = true) ∧ ArgsFit k (a.still b) (a.dim d) as

/-- The parameters of the first layer describe the input `d`. -/
def GArgs.first (d : Dim) (a : GArgs K) : Prop := a.after d = a

end Xcsf
