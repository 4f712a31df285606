import Verif.NSeqSpec
import Verif.NGradGenSpec

/-!
# Specification for property C105: the gradient of an LSTM layer's outputs
-/

namespace Xcsf.LstmGrad
open Xcsf

/-- The state of neuron `k` of a gate: the sum of what its two parts say. -/
noncomputable def gateState (u w : Par) (x h : List ℝ) (k : Nat) : ℝ :=
  (u.out x).getD k 0 + (w.out h).getD k 0

/-- The negative half squared error of the output of an LSTM layer in one step on input `x`, as a
function of the parameters of that part of its output gate that reads the input. -/
noncomputable def outError (l : TLay ℝ) (x t : List ℝ) (p : Par) : ℝ :=
  halfError t (lstmCell l.fn l.rfn { l.u.map CLay.par with o := p } (l.w.map CLay.par) (l.c, l.h) x).2

/-- What the code is to learn from: the layer's output is differentiable in the parameters of the
output gate, at the state of the gate, and the code's derivatives exist where it takes them. -/
structure GateDiff (l : TLay ℝ) (x : List ℝ) : Prop where
  sgd : l.opt.sgd = true
  linear : l.u.o.fn = 3
  inp : ∀ k < l.nOutputs, -100 < l.u.o.par.pre x k ∧ l.u.o.par.pre x k < 100
  gate : ∀ k < l.nOutputs, -100 < gateState l.u.o.par l.w.o.par x l.h k ∧
    gateState l.u.o.par l.w.o.par x l.h k < 100 ∧
    DifferentiableAt ℝ (actSpec l.rfn) (gateState l.u.o.par l.w.o.par x l.h k) ∧
    DifferentiableAt ℝ (actSpec l.rfn) (actSpec l.rfn (gateState l.u.o.par l.w.o.par x l.h k))

/-- The error at the outputs, times what the output gate lets through. -/
noncomputable def through (l : TLay ℝ) (x t : List ℝ) (k : Nat) : ℝ :=
  let s := lstmCell l.fn l.rfn (l.u.map CLay.par) (l.w.map CLay.par) (l.c, l.h) x
  (t.getD k 0 - s.2.getD k 0) * actSpec l.fn (clip (s.1.getD k 0))

/-- The layer after one step on `x`, with the errors of its outputs against `t` (neural.c:333-341). -/
noncomputable def withErr (l1 : TLay ℝ) (t : List ℝ) : TLay ℝ :=
  { l1 with delta := List.zipWith (fun t o => t - o) t l1.output }

end Xcsf.LstmGrad
