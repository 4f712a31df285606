import Verif.NGradSpec
import Verif.NRecSpec

/-!
# Specification for property C71: what recurrent and LSTM layers compute on a sequence of inputs

Independent of the model: a connected part is given by its parameters (`Par`, `Par.out`).
-/

namespace Xcsf

/-- One step of a recurrent layer: the new output, from the last output `y` and the input `x`. -/
noncomputable def recCell (inp self out : Par) (y x : List ℝ) : List ℝ :=
  out.out (List.zipWith (· + ·) (inp.out x) (self.out y))

/-- A gate: the activation of the sum of a part fed by the input and a part fed by the last
output. -/
noncomputable def gateFn (fn : Int) (u w : Par) (x h : List ℝ) : List ℝ :=
  List.zipWith (fun a b => actSpec fn (clip (a + b))) (u.out x) (w.out h)

/-- One step of an LSTM layer: the new memory and output from the last ones. -/
noncomputable def lstmCell (fn rfn : Int) (u w : Gates Par) (s : List ℝ × List ℝ) (x : List ℝ) :
    List ℝ × List ℝ :=
  let f := gateFn rfn u.f w.f x s.2
  let i := gateFn rfn u.i w.i x s.2
  let g := gateFn fn u.g w.g x s.2
  let o := gateFn rfn u.o w.o x s.2
  let c := List.zipWith (· + ·) (List.zipWith (· * ·) f s.1) (List.zipWith (· * ·) i g)
  (c, List.zipWith (fun a b => a * actSpec fn (clip b)) o c)

section
variable {K R : Type} [Field K] [LinearOrder K] [IsStrictOrderedRing K] [FloorRing K]

/-- Forward propagation of one input after the other. -/
def recSeq (m : Libm K) : List (List K) → RLay K → Res (RLay K)
  | [], l => .ok l
  | x :: xs, l => recForward m l x >>= recSeq m xs

/-- Forward propagation of one input after the other. -/
def lstmSeq (m : Libm K) : List (List K) → TLay K → Res (TLay K)
  | [], l => .ok l
  | x :: xs, l => lstmForward m l x >>= lstmSeq m xs

/-- One training example: inputs, errors at the outputs, and whether the error is handed on. -/
structure Example (K : Type) where
  x : Nat → K
  d : Nat → K
  p : Bool

/-- Learning from one example after the other. -/
def recTrain (m : Libm K) : List (Example K) → RLay K → Res (RLay K)
  | [], l => .ok l
  | e :: es, l => recLearn m l e.x e.d e.p >>= recTrain m es

/-- Learning from one example after the other. -/
def lstmTrain (m : Libm K) : List (Example K) → TLay K → Res (TLay K)
  | [], l => .ok l
  | e :: es, l => lstmLearn m l e.x e.d e.p >>= lstmTrain m es

/-- The weights and biases of a connected part. -/
def CLay.params (c : CLay K) : List K × List K := (c.ws.map Wt.w, c.ns.map Neuron.bias)

/-- No weight update is pending, and weights do not decay. -/
structure Idle (c : CLay K) : Prop where
  decay : c.decay ≤ 0
  upd : ∀ w ∈ c.ws, w.upd = 0

/-- No bias update is pending. -/
def IdleBias (c : CLay K) : Prop := ∀ n ∈ c.ns, n.bupd = 0

/-- The layer's parameters are those of another one. -/
def RLay.SamePar (l l' : RLay K) : Prop :=
  l'.inp.params = l.inp.params ∧ l'.self.params = l.self.params ∧ l'.out.params = l.out.params

/-- A gate whose parts have nothing pending. -/
structure GateIdle (a b : CLay K) : Prop where
  u : Idle a
  w : Idle b
  ub : IdleBias a
  wb : IdleBias b

/-- An LSTM layer with nothing pending in its recurrent parts and in its forget gate. -/
structure TIdle (l : TLay K) : Prop where
  f : GateIdle l.u.f l.w.f
  i : Idle l.w.i
  g : Idle l.w.g
  o : Idle l.w.o

/-- The forget gate and the recurrent weights are the same. -/
structure TSame (l l' : TLay K) : Prop where
  uf : l'.u.f.params = l.u.f.params
  wf : l'.w.f.params = l.w.f.params
  wi : l'.w.i.ws.map Wt.w = l.w.i.ws.map Wt.w
  wg : l'.w.g.ws.map Wt.w = l.w.g.ws.map Wt.w
  wo : l'.w.o.ws.map Wt.w = l.w.o.ws.map Wt.w

end
end Xcsf
