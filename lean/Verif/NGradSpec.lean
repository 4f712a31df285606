import Verif.NNet
import Verif.PropsActiv

/-!
# Specification for property C52: the function computed by a network and its error

Independent of the model: a layer is given by its parameters, the network is the composition of
its layers, the error is half the negative squared distance from the desired output.
-/

namespace Xcsf
open Finset

/-- The parameters of a fully connected layer: weight `w[i * nIn + j]` connects input `j` with
neuron `i`. -/
structure Par where
  nIn : Nat
  nOut : Nat
  fn : Int
  w : List ℝ
  b : List ℝ

/-- The limits of a neuron's state, neural_layer.h:58-59. -/
noncomputable def clip (s : ℝ) : ℝ := max (-100) (min 100 s)

/-- The weighted sum of neuron `i`. -/
def Par.pre (p : Par) (x : List ℝ) (i : Nat) : ℝ :=
  p.b.getD i 0 + ∑ j ∈ range p.nIn, p.w.getD (i * p.nIn + j) 0 * x.getD j 0

/-- The outputs of a layer. -/
noncomputable def Par.out (p : Par) (x : List ℝ) : List ℝ :=
  (List.range p.nOut).map fun i => actSpec p.fn (clip (p.pre x i))

/-- The outputs of a network, given by its layers from the first one. -/
noncomputable def netFn (ps : List Par) (x : List ℝ) : List ℝ := ps.foldl (fun x p => p.out x) x

/-- The negative half squared error of the network's outputs. -/
noncomputable def negError (ps : List Par) (x t : List ℝ) : ℝ :=
  -(1 / 2) * ∑ i ∈ range t.length, (t.getD i 0 - (netFn ps x).getD i 0) ^ 2

/-- A layer at whose input `x` it is differentiable: no state is at its limit, the activation
function has a derivative there. -/
def Par.Smooth (p : Par) (x : List ℝ) : Prop :=
  ∀ i < p.nOut, -100 < p.pre x i ∧ p.pre x i < 100 ∧ DifferentiableAt ℝ (actSpec p.fn) (p.pre x i)

/-- The parameters are complete, and layers fit together. -/
structure Par.Shaped (p : Par) : Prop where
  wlen : p.w.length = p.nOut * p.nIn
  blen : p.b.length = p.nOut
  fn : 0 ≤ p.fn ∧ p.fn < 11

/-- Layers that fit together on input `x`, all differentiable there. -/
def NetSmooth : List Par → List ℝ → Prop
  | [], _ => True
  | p :: ps, x => p.Shaped ∧ p.nIn = x.length ∧ p.Smooth x ∧ NetSmooth ps (p.out x)

/-- The parameters of a layer of the model. -/
def CLay.par (l : CLay ℝ) : Par :=
  ⟨l.nInputs, l.nOutputs, l.fn, l.ws.map Wt.w, l.ns.map Neuron.bias⟩

/-- The accumulated updates of layer `b` exceed those of layer `a` by the derivatives of `F` with
respect to the parameters of `a`. -/
def UpdatesAre (a b : CLay ℝ) (F : Par → ℝ) : Prop :=
  (∀ i < a.nOutputs, ∀ j < a.nInputs,
    HasDerivAt (fun v => F { a.par with w := a.par.w.set (i * a.nInputs + j) v })
      ((b.ws.map Wt.upd).getD (i * a.nInputs + j) 0 - (a.ws.map Wt.upd).getD (i * a.nInputs + j) 0)
      (a.par.w.getD (i * a.nInputs + j) 0)) ∧
  (∀ i < a.nOutputs,
    HasDerivAt (fun v => F { a.par with b := a.par.b.set i v })
      ((b.ns.map Neuron.bupd).getD i 0 - (a.ns.map Neuron.bupd).getD i 0)
      (a.par.b.getD i 0))

/-- `d` is the gradient of `C` at `o`: along every curve through `o` the derivative of `C` is the
inner product. -/
def IsGrad (C : List ℝ → ℝ) (o d : List ℝ) : Prop :=
  ∀ (c : ℝ → List ℝ) (v : ℝ) (c' : Nat → ℝ), c v = o → (∀ u, (c u).length = o.length) →
    (∀ i < o.length, HasDerivAt (fun u => (c u).getD i 0) (c' i) v) →
    HasDerivAt (fun u => C (c u)) (∑ i ∈ range o.length, d.getD i 0 * c' i) v

end Xcsf
