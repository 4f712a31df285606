import Verif.BadNeural

/-!
# Neural conditions and actions over doubles

Matching and covering of conditions, and choice and covering of actions, that are networks of fully
connected and softmax layers, over doubles.
-/

namespace Xcsf.Double

variable {f : Format} {R : Type}

/-- The functions of the library, as doubles; what is asked of them is that they return not-a-number for
not-a-number. -/
structure DLibm (f : Format) where
  exp : Dbl f → Dbl f
  expm1 : Dbl f → Dbl f
  log1p : Dbl f → Dbl f
  tanh : Dbl f → Dbl f
  sin : Dbl f → Dbl f
  cos : Dbl f → Dbl f
  /-- The constants `.1`, `1.0507` and `1.6732`. -/
  tenth : Dbl f
  seluA : Dbl f
  seluB : Dbl f

/-- A comparison used as a number. -/
def truth (b : Bool) : Dbl f := if b then 1 else 0

/-- `neural_activate`, neural_activations.c:34-64, with neural_activations.h:74-202.  Other numbers than
those of activations end the program there (62); here they are left as the last case. -/
def activateD (m : DLibm f) (a : Nat) (x : Dbl f) : Dbl f :=
  match a with
  | 0 => 1 / (1 + m.exp x.minus)
  | 1 => x * truth (decide (0 < x))
  | 2 => m.tanh x
  | 3 => x
  | 4 => m.exp (x.minus * x)
  | 5 => m.sin x
  | 6 => m.cos x
  | 7 => m.log1p (m.exp x)
  | 8 => if 0 < x then x else m.tenth * x
  | 9 => truth (decide (0 < x) || decide (x = 0)) * m.seluA * x +
      truth (decide (x < 0)) * m.seluA * m.seluB * m.expm1 x
  | _ => (1 + 1) / (1 + m.exp x.minus) - 1

/-- A layer: fully connected with its neurons and its activation function, or softmax with its scale. -/
inductive DLay (f : Format) where
  | conn (ns : List (DNeuron f)) (fn : Nat)
  | soft (scale : Dbl f)

/-- The exponentials of `neural_layer_softmax_forward`, neural_layer_softmax.c:117-128. -/
def softExps (m : DLibm f) (scale : Dbl f) (x : List (Dbl f)) : List (Dbl f) :=
  let largest := x.tail.foldl (fun a v => if a < v then v else a) (x.headD 0)
  x.map fun v => m.exp (v / scale - largest / scale)

/-- `neural_layer_connected_forward`, neural_layer_connected.c:174-186, and
`neural_layer_softmax_forward`, neural_layer_softmax.c:112-132. -/
def DLay.forward (m : DLibm f) (x : List (Dbl f)) : DLay f → List (Dbl f)
  | .conn ns fn => ns.map fun n => activateD m fn (n.state x)
  | .soft scale =>
    let es := softExps m scale x
    es.map fun e => e / es.foldl (· + ·) 0

/-- `neural_propagate`, neural.c:309-319: the output of the last layer. -/
def propagateD (m : DLibm f) (net : List (DLay f)) (x : List (Dbl f)) : List (Dbl f) :=
  net.foldl (fun x l => l.forward m x) x

/-- `cond_neural_match`, cond_neural.c:117-126, and `rule_neural_cond_match`, rule_neural.c:88-98. -/
def netMatchD (m : DLibm f) (net : List (DLay f)) (x : List (Dbl f)) : Bool :=
  decide (Xcsf.half < (propagateD m net x).getD 0 0)

/-- The weights of a neuron are drawn, neural_layer.c:351-354. -/
def randWts (draw : R → Dbl f × R) : List (DWt f) → R → List (DWt f) × R
  | [], r => ([], r)
  | p :: l, r =>
    let v := draw r
    let q := randWts draw l v.2
    ({ p with w := v.1, on := true } :: q.1, q.2)

/-- All weights of a layer, then all biases, neural_layer.c:347-358. -/
def randRows (draw : R → Dbl f × R) : List (DNeuron f) → R → List (DNeuron f) × R
  | [], r => ([], r)
  | n :: l, r =>
    let w := randWts draw n.ws r
    let q := randRows draw l w.2
    ({ n with ws := w.1 } :: q.1, q.2)

/-- The biases, neural_layer.c:355-357. -/
def randBiases (draw : R → Dbl f × R) : List (DNeuron f) → R → List (DNeuron f) × R
  | [], r => ([], r)
  | n :: l, r =>
    let b := draw r
    let q := randBiases draw l b.2
    ({ n with bias := b.1 } :: q.1, q.2)

/-- `neural_rand`, neural.c:241-249; softmax layers have nothing to draw, neural_layer_softmax.c:100-104. -/
def randNet (draw : R → Dbl f × R) : List (DLay f) → R → List (DLay f) × R
  | [], r => ([], r)
  | .conn ns fn :: net, r =>
    let w := randRows draw ns r
    let b := randBiases draw w.1 w.2
    let q := randNet draw net b.2
    (.conn b.1 fn :: q.1, q.2)
  | .soft scale :: net, r =>
    let q := randNet draw net r
    (.soft scale :: q.1, q.2)

/-- `cond_neural_cover`, cond_neural.c:85-92, with a bound on the number of tries. -/
def netCoverD (m : DLibm f) (draw : R → Dbl f × R) (x : List (Dbl f)) :
    Nat → List (DLay f) → R → Res (List (DLay f) × R)
  | 0, _, _ => .error .hang
  | n + 1, net, r =>
    let q := randNet draw net r
    if netMatchD m q.1 x then .ok q else netCoverD m draw x n q.1 q.2

/-- `act_neural_compute`, act_neural.c:106-113; `argmax` exits without actions. -/
def actComputeD (m : DLibm f) (nActions : Nat) (net : List (DLay f)) (x : List (Dbl f)) : Res Nat :=
  if (propagateD m net x).length < nActions then .error .ub
  else argmax ((propagateD m net x).take nActions)

/-- `act_neural_cover`, act_neural.c:151-159, with a bound on the number of tries. -/
def actCoverD (m : DLibm f) (draw : R → Dbl f × R) (nActions action : Nat) (x : List (Dbl f)) :
    Nat → List (DLay f) → R → Res (List (DLay f) × R)
  | 0, _, _ => .error .hang
  | n + 1, net, r =>
    let q := randNet draw net r
    match actComputeD m nActions q.1 x with
    | .error e => .error e
    | .ok a => if a = action then .ok q else actCoverD m draw nActions action x n q.1 q.2

/-- The loop of `rule_neural_act_compute`, rule_neural.c:244-248: bit `i` is output `i + 1`. -/
def ruleBitsD (out : List (Dbl f)) : Nat → Nat
  | 0 => 0
  | i + 1 => if Xcsf.half < out.getD (i + 1) 0 then ruleBitsD out i + 2 ^ i else ruleBitsD out i

/-- `rule_neural_act_compute`, rule_neural.c:237-252, with the outputs of the last propagation. -/
def ruleActionD (nActions : Nat) (out : List (Dbl f)) : Nat :=
  min (ruleBitsD out (out.length - 1)) (nActions - 1)

/-- `rule_neural_act_cover`, rule_neural.c:226-235, with a bound on the number of tries. -/
def ruleCoverD (m : DLibm f) (draw : R → Dbl f × R) (nActions action : Nat) (x : List (Dbl f)) :
    Nat → List (DLay f) → R → Res (List (DLay f) × R)
  | 0, _, _ => .error .hang
  | n + 1, net, r =>
    let q := randNet draw net r
    if netMatchD m q.1 x || ruleActionD nActions (propagateD m q.1 x) == action then .ok q
    else ruleCoverD m draw nActions action x n q.1 q.2

end Xcsf.Double
