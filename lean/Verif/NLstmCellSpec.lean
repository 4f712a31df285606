import Verif.NLstmGradSpec

/-!
# Specification for property C105: the gates that write an LSTM layer's memory
-/

namespace Xcsf.LstmGrad
open Xcsf

/-- The gates from which the new memory is made: forget, input and candidate. -/
inductive Writer | f | i | g
  deriving DecidableEq

/-- The part of a gate. -/
def Writer.sel {α : Type} (G : Gates α) : Writer → α
  | .f => G.f
  | .i => G.i
  | .g => G.g

/-- Another part for a gate. -/
def Writer.put {α : Type} (G : Gates α) (a : α) : Writer → Gates α
  | .f => { G with f := a }
  | .i => { G with i := a }
  | .g => { G with g := a }

/-- The activation function of a gate. -/
def Writer.fn (l : TLay ℝ) : Writer → Int
  | .f => l.rfn
  | .i => l.rfn
  | .g => l.fn

/-- The state of neuron `k` of a gate. -/
noncomputable def stateOf (l : TLay ℝ) (x : List ℝ) (q : Writer) (k : Nat) : ℝ :=
  gateState (q.sel (l.u.map CLay.par)) (q.sel (l.w.map CLay.par)) x l.h k

/-- Memory and output after one step. -/
noncomputable def after (l : TLay ℝ) (x : List ℝ) : List ℝ × List ℝ :=
  lstmCell l.fn l.rfn (l.u.map CLay.par) (l.w.map CLay.par) (l.c, l.h) x

/-- The negative half squared error of the output of an LSTM layer in one step on input `x`, as a
function of the parameters of that part of a gate that reads the input. -/
noncomputable def cellError (l : TLay ℝ) (x t : List ℝ) (q : Writer) (p : Par) : ℝ :=
  halfError t (lstmCell l.fn l.rfn (q.put (l.u.map CLay.par) p) (l.w.map CLay.par) (l.c, l.h) x).2

/-- The error of output `k` times the output gate's value: what reaches the activated memory. -/
noncomputable def reaches (l : TLay ℝ) (x t : List ℝ) (k : Nat) : ℝ :=
  (t.getD k 0 - (after l x).2.getD k 0) *
    (gateFn l.rfn l.u.o.par l.w.o.par x l.h).getD k 0

/-- What a gate's value is multiplied by in the new memory: the old memory for the forget gate, the
candidate for the input gate, the input gate for the candidate. -/
noncomputable def partner (l : TLay ℝ) (x : List ℝ) (k : Nat) : Writer → ℝ
  | .f => l.c.getD k 0
  | .i => (gateFn l.fn l.u.g.par l.w.g.par x l.h).getD k 0
  | .g => (gateFn l.rfn l.u.i.par l.w.i.par x l.h).getD k 0

/-- What the code uses for it: for the forget gate always zero, as `prev_cell` is never written. -/
noncomputable def used (l : TLay ℝ) (x : List ℝ) (k : Nat) : Writer → ℝ
  | .f => 0
  | .i => partner l x k .i
  | .g => partner l x k .g

/-- The layer's output is differentiable in the parameters of the gate, and the code's derivatives
exist where it takes them. -/
structure CellDiff (l : TLay ℝ) (x : List ℝ) (q : Writer) : Prop where
  sgd : l.opt.sgd = true
  linear : (q.sel l.u).fn = 3
  inp : ∀ k < l.nOutputs, -100 < (q.sel l.u).par.pre x k ∧ (q.sel l.u).par.pre x k < 100
  gate : ∀ k < l.nOutputs, -100 < stateOf l x q k ∧ stateOf l x q k < 100 ∧
    DifferentiableAt ℝ (actSpec (q.fn l)) (stateOf l x q k) ∧
    DifferentiableAt ℝ (actSpec (q.fn l)) (actSpec (q.fn l) (stateOf l x q k))
  memory : ∀ k < l.nOutputs, -100 < (after l x).1.getD k 0 ∧ (after l x).1.getD k 0 < 100 ∧
    DifferentiableAt ℝ (actSpec l.fn) ((after l x).1.getD k 0) ∧
    DifferentiableAt ℝ (actSpec l.fn) (actSpec l.fn ((after l x).1.getD k 0))

end Xcsf.LstmGrad
