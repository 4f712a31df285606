import Verif.NConv
import Verif.NPoolSpec
import Verif.NLayerSpec

/-!
# Specification for property C54, convolution

The sliding-window sum, independent of the model's columns and matrix products.
-/

set_option linter.unusedSectionVars false

namespace Xcsf
open Finset
variable {K R : Type} [Field K] [LinearOrder K] [IsStrictOrderedRing K] [FloorRing K]

/-- Pixel of channel `k`, row `y`, column `z`; zero outside the image. -/
def padPix (x : List K) (h w : Int) (k : Nat) (y z : Int) : K :=
  if 0 ≤ y ∧ y < h ∧ 0 ≤ z ∧ z < w then pixel x h w k y z else 0

/-- Weight of filter `f` for channel `c`, kernel row `a` and kernel column `b`. -/
def VLay.wpos (l : VLay K) (f c a b : Nat) : Nat :=
  ((f * l.channels.toNat + c) * l.size.toNat + a) * l.size.toNat + b

/-- Output of filter `f` in row `i` and column `j`. -/
def VLay.opos (l : VLay K) (f i j : Nat) : Nat := (f * l.outH.toNat + i) * l.outW.toNat + j

/-- The pixel of channel `c` under kernel row `a` and column `b` when the kernel is in position
`i`, `j`. -/
def VLay.under (l : VLay K) (x : List K) (c a b i j : Nat) : K :=
  padPix x l.height l.width c ((i : Int) * l.stride + (a : Int) - l.pad)
    ((j : Int) * l.stride + (b : Int) - l.pad)

/-- The sliding-window sum of filter `f` in row `i` and column `j`. -/
def VLay.slide (l : VLay K) (x : List K) (f i j : Nat) : K :=
  ∑ c ∈ range l.channels.toNat, ∑ a ∈ range l.size.toNat, ∑ b ∈ range l.size.toNat,
    (l.core.ws.map Wt.w).getD (l.wpos f c a b) 0 * l.under x c a b i j

/-- A legal convolutional layer: sizes as computed from its parameters, the kernel fits into the
padded image, kernels of size one are applied with stride one and without padding. -/
structure VLay.ConvOk (l : VLay K) : Prop where
  h : 1 ≤ l.height
  w : 1 ≤ l.width
  c : 1 ≤ l.channels
  s : 1 ≤ l.size
  st : 1 ≤ l.stride
  p : 0 ≤ l.pad
  fitH : l.size ≤ l.height + 2 * l.pad
  fitW : l.size ≤ l.width + 2 * l.pad
  one : l.size = 1 → l.stride = 1 ∧ l.pad = 0
  outH : l.outH = (l.height + 2 * l.pad - l.size) / l.stride + 1
  outW : l.outW = (l.width + 2 * l.pad - l.size) / l.stride + 1
  nIn : l.nIn = l.width * l.height * l.channels
  nOut : l.nOut = l.outH * l.outW * (l.core.nOutputs : Int)
  fan : l.core.nInputs = (l.size * l.size * l.channels).toNat
  wlen : l.core.ws.length = l.core.nOutputs * l.core.nInputs
  blen : l.core.ns.length = l.core.nOutputs
  cl : l.cells.length = l.nOut.toNat
  tl : l.temp.length = (l.outH * l.outW * l.size * l.size * l.channels).toNat
  fn : 0 ≤ l.core.fn ∧ l.core.fn < 11

/-- The workspace has been written, which a forward pass does, or is not needed. -/
def VLay.Filled (l : VLay K) : Prop :=
  l.size ≠ 1 → ∀ i < l.temp.length, ∃ v, l.temp[i]? = some (some v)

/-! ## Histories -/

/-- A legal layer whose weights, biases, mask, rates and function are legal too (`CLay.Sound`). -/
structure VLay.Legal (l : VLay K) : Prop where
  ok : l.ConvOk
  core : l.core.Sound

/-- An image of `w` times `h` pixels and `c` channels fits kernels of size `s` with stride `t` and
padding `p`, and with at most `B` filters there are at most `M` weights and `N` outputs; nothing
overflows. -/
structure Geo (B M N : Nat) (s t p w h c : Int) : Prop where
  wid : 1 ≤ w
  hei : 1 ≤ h
  cha : 1 ≤ c
  fitW : s ≤ w + 2 * p
  fitH : s ≤ h + 2 * p
  maxW : w + 2 * p < 2147483648
  maxH : h + 2 * p < 2147483648
  ins : w * h * c < 2147483648
  prod : B * (s * s * c).toNat ≤ M
  area : ((h + 2 * p - s) / t + 1) * ((w + 2 * p - s) / t + 1) * (B : Int) ≤ N

/-- The limits of a layer. -/
structure VLay.Fits (B M N : Nat) (l : VLay K) : Prop where
  core : l.core.Fits B M
  geo : Geo B M N l.size l.stride l.pad l.width l.height l.channels

/-- What is done with a convolutional layer. -/
inductive VOp (K : Type) where
  | mutate
  | resize (w h c : Int)
  | learn (x d : Nat → K) (p : Bool)
  | forward (x : Nat → K)
  | rand
  | copy

/-- The error that arrives at the outputs. -/
def setCells (l : VLay K) (d : Nat → K) : VLay K :=
  { l with cells := l.cells.mapIdx fun i n => { n with delta := d i } }

/-- One learning step of a layer, neural.c:327-359. -/
def convLearn (m : Libm K) (l : VLay K) (x d : Nat → K) (p : Bool) : Res (VLay K) :=
  match convForward m l (ofArr l.nIn.toNat x) with
  | .error e => .error e
  | .ok l1 =>
    match convBackward m (setCells l1 d) (ofArr l.nIn.toNat x)
        (if p then some (List.replicate l.nIn.toNat 0) else none) with
    | .error e => .error e
    | .ok (l2, _) => .ok (convUpdate l2)

/-- One step of a layer's history. -/
def vstep (g : Rng K R) (m : Libm K) (fuel : Nat) (l : VLay K) (r : R) : VOp K → Res (VLay K × R)
  | .mutate =>
    match convMutate g fuel l r with
    | .error e => .error e
    | .ok (a, r) => .ok (a.1, r)
  | .resize w h c => convResize g l w h c r
  | .learn x d p =>
    match convLearn m l x d p with
    | .error e => .error e
    | .ok l => .ok (l, r)
  | .forward x =>
    match convForward m l (ofArr l.nIn.toNat x) with
    | .error e => .error e
    | .ok l => .ok (l, r)
  | .rand => .ok (convRand g l r)
  | .copy =>
    match convCopy l with
    | .error e => .error e
    | .ok l => .ok (l, r)

/-- A history of a layer. -/
def vrun (g : Rng K R) (m : Libm K) (fuel : Nat) : List (VOp K) → VLay K → R → Res (VLay K × R)
  | [], l, r => .ok (l, r)
  | o :: os, l, r =>
    match vstep g m fuel l r o with
    | .error e => .error e
    | .ok (l, r) => vrun g m fuel os l r

/-- The limits of an operation. -/
def VOp.fits (B M N : Nat) (s t p : Int) : VOp K → Prop
  | .resize w h c => Geo B M N s t p w h c
  | _ => True

/-- Arguments of a new layer that respect the limits. -/
structure VArgs.Fits (B M N : Nat) (a : VArgs K) : Prop where
  s : 1 ≤ a.size
  st : 1 ≤ a.stride
  p : 0 ≤ a.pad
  one : a.size = 1 → a.stride = 1 ∧ a.pad = 0
  geo : Geo B M N a.size a.stride a.pad a.width a.height a.channels
  init : 1 ≤ a.base.nInit
  cur : a.base.nInit ≤ B
  max : a.base.nMax ≤ (B : Int)
  big : B ≤ 2000000
  le : (a.base.nInit : Int) ≤ a.base.nMax
  grow : a.base.opt.neurons = true → -2000000 ≤ a.base.maxGrow ∧ a.base.maxGrow ≤ 2000000
  fn : 0 ≤ a.base.fn ∧ a.base.fn < 11

/-- The allowed faults: exceeding the program's size limits ends it; the growth loop may run as long
as the draws are too small. -/
def VFault (M N : Nat) (filters : Bool) (e : Fault) : Prop :=
  (e = .exit ∧ (20000000 < M ∨ 2000000 < N)) ∨ (e = .hang ∧ filters = true)

end Xcsf
