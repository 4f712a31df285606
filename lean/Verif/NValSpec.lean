import Verif.NSeqSpec
import Verif.NConvSpec
import Verif.NGenSpec

/-!
# Specification for property C93: what a network computes

The outputs of each kind of layer as a function of its inputs, its parameters and, for recurrent and
LSTM layers, of its memory; a network is the composition of its layers.
-/

set_option linter.unusedSectionVars false

namespace Xcsf
open Finset

/-- An image of `c` channels, `h` rows and `w` columns as a list. -/
def image {α : Type} (c h w : Nat) (f : Nat → Nat → Nat → α) : List α :=
  (List.range (c * h * w)).map fun m => f (m / w / h) (m / w % h) (m % w)

/-- The outputs of a layer for the inputs `x` when it is not trained: weighted sums with an activation
function; the recurrence of a recurrent or LSTM layer; sums over the window of the kernel; the
greatest pixel of each window; the mean of each channel; each pixel repeated; the inputs themselves
(dropout, noise); exponentials divided by their sum (softmax). -/
noncomputable def layVal : GLay ℝ → List ℝ → List ℝ
  | .conn l => l.par.out
  | .recu l => recCell l.inp.par l.self.par l.out.par l.out.outs
  | .lstm l => fun x =>
      (lstmCell l.fn l.rfn (l.u.map CLay.par) (l.w.map CLay.par) (l.c, l.h) x).2
  | .conv l => fun x => image l.core.nOutputs l.outH.toNat l.outW.toNat fun f i j =>
      actSpec l.core.fn (clip ((l.core.ns.map Neuron.bias).getD f 0 + l.slide x f i j))
  | .maxp l => fun x => image l.channels.toNat l.outH.toNat l.outW.toNat fun k i j =>
      sSup {v | ∃ y z, InWin l i j y z ∧ v = pixel x l.height l.width k y z}
  | .avgp l => fun x => (List.range l.channels.toNat).map fun k =>
      (∑ i ∈ range (l.height * l.width).toNat, x.getD (k * (l.height * l.width).toNat + i) 0) /
        ((l.height * l.width).toNat : ℝ)
  | .ups l => fun x => image l.channels.toNat l.outH.toNat l.outW.toNat fun k i j =>
      pixel x l.height l.width k ((i : Int) / l.stride) ((j : Int) / l.stride)
  | .drop _ => fun x => x
  | .noise _ => fun x => x
  | .soft l => softmaxSpec l.scale

/-- The outputs of a network, given by its layers from the first one. -/
noncomputable def netVal (ls : List (GLay ℝ)) (x : List ℝ) : List ℝ :=
  ls.foldl (fun x l => layVal l x) x

/-- The layer has no memory of former inputs. -/
def GLay.memoryless : GLay ℝ → Bool
  | .recu _ => false
  | .lstm _ => false
  | _ => true

/-- What reaches the maxpool layers is greater than `lo`, the number -DBL_MAX they start from. -/
def Above (lo : ℝ) : List (GLay ℝ) → List ℝ → Prop
  | [], _ => True
  | l :: ls, x => (∀ p, l = .maxp p → ∀ v ∈ x, lo < v) ∧ Above lo ls (layVal l x)

end Xcsf
