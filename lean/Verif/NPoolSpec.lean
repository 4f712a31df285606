import Verif.NPool
import Mathlib.Algebra.BigOperators.Group.Finset.Basic

/-!
# Specification for property C54: what the image layers without weights compute
-/

set_option linter.unusedSectionVars false

namespace Xcsf
open Finset
variable {K : Type} [Field K] [LinearOrder K] [IsStrictOrderedRing K] [FloorRing K]

/-- The inner product of an array with values `v`. -/
def inner (d : List K) (v : Nat → K) : K := ∑ i ∈ range d.length, d.getD i 0 * v i

/-- The pixel in row `y`, column `z` of channel `k` of an image of height `h` and width `w`. -/
def pixel (x : List K) (h w : Int) (k : Nat) (y z : Int) : K :=
  x.getD (z + w * (y + h * (k : Int))).toNat 0

/-- The pixels of the image that belong to the window of output row `i` and column `j`. -/
structure InWin (l : PLay K) (i j : Nat) (y z : Int) : Prop where
  y0 : 0 ≤ y
  y1 : y < l.height
  z0 : 0 ≤ z
  z1 : z < l.width
  top : (i : Int) * l.stride - l.pad / 2 ≤ y
  bottom : y < (i : Int) * l.stride - l.pad / 2 + l.size
  left : (j : Int) * l.stride - l.pad / 2 ≤ z
  right : z < (j : Int) * l.stride - l.pad / 2 + l.size

/-- A legal maxpool layer: sizes as computed from its parameters, the window fits into the padded
image, and is wider than the padding of one side. -/
structure PLay.MaxOk (l : PLay K) : Prop where
  h : 1 ≤ l.height
  w : 1 ≤ l.width
  c : 1 ≤ l.channels
  s : 1 ≤ l.size
  st : 1 ≤ l.stride
  p : 0 ≤ l.pad
  covers : (l.pad + 1) / 2 < l.size
  fitW : l.size ≤ l.width + l.pad
  fitH : l.size ≤ l.height + l.pad
  outW : l.outW = (l.width + l.pad - l.size) / l.stride + 1
  outH : l.outH = (l.height + l.pad - l.size) / l.stride + 1
  outC : l.outC = l.channels
  nIn : l.nIn = l.height * l.width * l.channels
  nOut : l.nOut = l.outH * l.outW * l.outC
  il : l.indexes.length = l.nOut.toNat
  ol : l.output.length = l.nOut.toNat
  dl : l.delta.length = l.nOut.toNat

/-- A legal average pooling layer. -/
structure PLay.AvgOk (l : PLay K) : Prop where
  h : 1 ≤ l.height
  w : 1 ≤ l.width
  c : 1 ≤ l.channels
  outC : l.outC = l.channels
  nIn : l.nIn = l.height * l.width * l.channels
  nOut : l.nOut = l.channels
  ol : l.output.length = l.nOut.toNat
  dl : l.delta.length = l.nOut.toNat

/-- A legal up-sampling layer. -/
structure PLay.UpOk (l : PLay K) : Prop where
  h : 1 ≤ l.height
  w : 1 ≤ l.width
  c : 1 ≤ l.channels
  st : 1 ≤ l.stride
  outW : l.outW = l.width * l.stride
  outH : l.outH = l.height * l.stride
  outC : l.outC = l.channels
  nIn : l.nIn = l.height * l.width * l.channels
  nOut : l.nOut = l.outH * l.outW * l.outC
  ol : l.output.length = l.nOut.toNat
  dl : l.delta.length = l.nOut.toNat

/-- A legal dropout or noise layer. -/
structure PLay.MaskOk (l : PLay K) : Prop where
  n : 1 ≤ l.nIn
  nOut : l.nOut = l.nIn
  ol : l.output.length = l.nOut.toNat
  dl : l.delta.length = l.nOut.toNat
  sl : l.state.length = l.nOut.toNat

end Xcsf
