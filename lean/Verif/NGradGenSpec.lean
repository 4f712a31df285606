import Verif.NGenLearn
import Verif.NConvSpec
import Verif.NGradSpec

/-!
# Specification for property C92: gradients in networks of several kinds of layers

The error is that of the outputs the program itself computes; what its layers compute is the subject
of properties C50, C52 and C54.
-/

set_option linter.unusedSectionVars false

namespace Xcsf
open Finset

/-- A parameter of a layer: the weight in place `j` or the bias in place `i` of its array. -/
inductive Prm where
  | w (j : Nat)
  | b (i : Nat)

/-- The layer has this parameter. -/
def Prm.Of (c : CLay ℝ) : Prm → Prop
  | .w j => j < c.ws.length
  | .b i => i < c.ns.length

/-- The value of a parameter. -/
def Prm.val (c : CLay ℝ) : Prm → ℝ
  | .w j => (c.ws.map Wt.w).getD j 0
  | .b i => (c.ns.map Neuron.bias).getD i 0

/-- The accumulated update of a parameter. -/
def Prm.upd (c : CLay ℝ) : Prm → ℝ
  | .w j => (c.ws.map Wt.upd).getD j 0
  | .b i => (c.ns.map Neuron.bupd).getD i 0

/-- The parameters with another value for one of them. -/
def Prm.put (v : ℝ) (c : CLay ℝ) : Prm → CLay ℝ
  | .w j => { c with ws := c.ws.modify j fun x => { x with w := v } }
  | .b i => { c with ns := c.ns.modify i fun x => { x with bias := v } }

/-- Where a layer has parameters: connected and convolutional layers have them in one place,
recurrent layers in three connected parts. -/
inductive Place where
  | whole
  | inp
  | self
  | out

/-- The parameters a layer has in a place. -/
def GLay.part? : Place → GLay ℝ → Option (CLay ℝ)
  | .whole, .conn l => some l
  | .whole, .conv l => some l.core
  | .inp, .recu l => some l.inp
  | .self, .recu l => some l.self
  | .out, .recu l => some l.out
  | _, _ => none

/-- A layer with other parameters in a place. -/
def GLay.onPart (c : CLay ℝ) : Place → GLay ℝ → GLay ℝ
  | .whole, .conn _ => .conn c
  | .whole, .conv l => .conv { l with core := c }
  | .inp, .recu l => .recu { l with inp := c }
  | .self, .recu l => .recu { l with self := c }
  | .out, .recu l => .recu { l with out := c }
  | _, l => l

/-- The parameters the property is about: all but the weights with which a recurrent layer reads its
last outputs, for which it is false (`C71_recurrent_self_gradient_refuted`). -/
def Prm.Claimed : Place → Prm → Prop
  | .self, .w _ => False
  | _, _ => True

section
variable {R : Type}

/-- The outputs of a layer for the input `x`, and the state of the random numbers after it; no
outputs if the program fails. -/
noncomputable def layOut (g : Rng ℝ R) (lo : ℝ) (l : GLay ℝ) (x : List ℝ) (r : R) : List ℝ × R :=
  match layerForward g realLibm lo true l x r with
  | .error _ => ([], r)
  | .ok (l, r) =>
    match l.outs with
    | .error _ => ([], r)
    | .ok o => (o, r)

/-- The outputs of a network in training for the input `x`; no outputs if the program fails. -/
noncomputable def netOut (g : Rng ℝ R) (lo : ℝ) (ls : List (GLay ℝ)) (x : List ℝ) (r : R) : List ℝ :=
  match genForward g realLibm lo true ls x r with
  | .error _ => []
  | .ok (ls, _) =>
    match ls.getLast? with
    | none => x
    | some l =>
      match l.outs with
      | .error _ => []
      | .ok o => o

/-- The negative half squared error of outputs `o`. -/
noncomputable def halfError (t o : List ℝ) : ℝ :=
  -(1 / 2) * ∑ i ∈ range t.length, (t.getD i 0 - o.getD i 0) ^ 2

/-- The logarithmic likelihood of the desired distribution `t` under the outputs `o`. -/
noncomputable def likelihood (t o : List ℝ) : ℝ :=
  ∑ i ∈ range t.length, t.getD i 0 * Real.log (o.getD i 0)

/-- A recurrent layer whose parts fit together and learn, and whose memory is written. -/
structure RLay.Fits (l : RLay ℝ) : Prop where
  inp : l.inp.par.Shaped ∧ l.inp.nInputs = l.nInputs ∧ l.inp.nOutputs = l.nOutputs
  self : l.self.par.Shaped ∧ l.self.nInputs = l.nOutputs ∧ l.self.nOutputs = l.nOutputs
  out : l.out.par.Shaped ∧ l.out.nInputs = l.nOutputs ∧ l.out.nOutputs = l.nOutputs
  sgd : l.inp.opt.sgd = true ∧ l.self.opt.sgd = true ∧ l.out.opt.sgd = true
  state : l.state.length = l.nOutputs ∧ ∀ v ∈ l.state, v ≠ none
  prev : l.prev.length = l.nOutputs

/-- A legal layer that learns and is differentiable at its input `x`: no state is at its limit and
the activation function has a derivative there; in every window of a maxpool layer one pixel is
greater than all others.  LSTM and softmax layers are not covered. -/
def GLay.Diff (lo : ℝ) (x : List ℝ) : GLay ℝ → Prop
  | .conn l => l.par.Shaped ∧ x.length = l.nInputs ∧ l.opt.sgd = true ∧ l.par.Smooth x
  | .conv l => l.ConvOk ∧ x.length = l.nIn.toNat ∧ l.core.opt.sgd = true ∧
      ∀ f < l.core.nOutputs, ∀ i < l.outH.toNat, ∀ j < l.outW.toNat,
        -100 < (l.core.ns.map Neuron.bias).getD f 0 + l.slide x f i j ∧
        (l.core.ns.map Neuron.bias).getD f 0 + l.slide x f i j < 100 ∧
        DifferentiableAt ℝ (actSpec l.core.fn)
          ((l.core.ns.map Neuron.bias).getD f 0 + l.slide x f i j)
  | .maxp l => l.MaxOk ∧ x.length = l.nIn.toNat ∧ (∀ v ∈ x, lo < v) ∧
      ∀ k i j : Nat, (k : Int) < l.channels → (i : Int) < l.outH → (j : Int) < l.outW →
        ∃ y z, InWin l i j y z ∧ ∀ y' z', InWin l i j y' z' → ¬ (y' = y ∧ z' = z) →
          pixel x l.height l.width k y' z' < pixel x l.height l.width k y z
  | .avgp l => l.AvgOk ∧ x.length = l.nIn.toNat
  | .ups l => l.UpOk ∧ x.length = l.nIn.toNat
  | .drop l => l.MaskOk ∧ x.length = l.nIn.toNat
  | .noise l => l.MaskOk ∧ x.length = l.nIn.toNat
  | .recu l => l.Fits ∧ x.length = l.nInputs ∧ l.inp.par.Smooth x ∧
      l.self.par.Smooth l.out.outs ∧
      l.out.par.Smooth (List.zipWith (· + ·) (l.inp.par.out x) (l.self.par.out l.out.outs))
  | .lstm _ => False
  | .soft _ => False

/-- Every layer is differentiable at the input that reaches it. -/
def NetDiff (g : Rng ℝ R) (lo : ℝ) : List (GLay ℝ) → List ℝ → R → Prop
  | [], _, _ => True
  | l :: ls, x, r => l.Diff lo x ∧ NetDiff g lo ls (layOut g lo l x r).1 (layOut g lo l x r).2

/-- The accumulated updates of layer `b` exceed those of layer `a` by the derivatives of `F` with
respect to the parameters of `a`. -/
def Climbs (a b : GLay ℝ) (F : GLay ℝ → ℝ) : Prop :=
  ∀ k c, a.part? k = some c → ∃ c', b.part? k = some c' ∧ ∀ p : Prm, p.Of c → p.Claimed k →
    HasDerivAt (fun v => F (a.onPart (p.put v c) k)) (p.upd c' - p.upd c) (p.val c)

end
end Xcsf
