import Verif.BadSample

/-!
# A neuron over doubles

One neuron of a fully connected output layer that learns by gradient descent, over doubles with
infinities and values that are not a number.  Neurons of such a layer do not depend on each other
(softmax is another layer), so a layer is a list of these.
-/

namespace Xcsf.Double

variable {f : Format}

/-- `clamp`, utils.h:59-63. -/
def clampD (a lo hi : Dbl f) : Dbl f := if a < lo then lo else if hi < a then hi else a

/-- A connection, neural_layer.h:78-82: weight, accumulated update, and whether it is active. -/
structure DWt (f : Format) where
  w : Dbl f
  upd : Dbl f
  on : Bool

/-- A neuron, neural_layer.h:78-82: bias, accumulated update, connections. -/
structure DNeuron (f : Format) where
  bias : Dbl f
  bupd : Dbl f
  ws : List (DWt f)

/-- How a layer is set up: rate, momentum, decay (neural_layer.h:85-89), activation function and its
gradient (neural_activations.c:34-102). -/
structure DLearn (f : Format) where
  eta : Dbl f
  momentum : Dbl f
  decay : Dbl f
  act : Dbl f → Dbl f
  grad : Dbl f → Dbl f

/-- The state of a neuron for an input, neural_layer_connected.c:174-185 with blas.c:41-55 and
neural_activations.c:199-205; the multiplications by one are left out. -/
def DNeuron.state (n : DNeuron f) (x : List (Dbl f)) : Dbl f :=
  clampD (n.bias + (List.zip n.ws x).foldl (fun s p => s + p.2 * p.1.w) 0)
    (((-100 : Int)) : Dbl f) ((100 : Int) : Dbl f)

/-- The output, neural_activations.c:203. -/
def DNeuron.output (c : DLearn f) (n : DNeuron f) (x : List (Dbl f)) : Dbl f := c.act (n.state x)

/-- The error of the neuron, neural.c:339 and neural_activations.c:219. -/
def DNeuron.delta (c : DLearn f) (n : DNeuron f) (x : List (Dbl f)) (y : Dbl f) : Dbl f :=
  (y - n.output c x) * c.grad (n.state x)

/-- `blas_scal` for one element, blas.c:158-171. -/
def scalD (m a : Dbl f) : Dbl f := if m = 0 then 0 else a * m

/-- The limits of weights, neural_layer.h:60-61. -/
def limitD (a : Dbl f) : Dbl f := clampD a (((-10 : Int)) : Dbl f) ((10 : Int) : Dbl f)

/-- The accumulated update of a connection, neural_layer_connected.c:208 (with blas.c:57-70) and
230-233. -/
def DWt.gather (c : DLearn f) (d : Dbl f) (p : DWt f) (x : Dbl f) : Dbl f :=
  let u := p.upd + d * x
  if 0 < c.decay then u + c.decay.minus * p.w else u

/-- A connection learns, neural_layer_connected.c:234-236 and neural_layer.c:367-373. -/
def DWt.learn (c : DLearn f) (d : Dbl f) (p : DWt f) (x : Dbl f) : DWt f :=
  let u := p.gather c d x
  { p with w := if p.on then limitD (p.w + c.eta * u) else 0, upd := scalD c.momentum u }

/-- The neuron learns from a sample: `neural_layer_connected_backward` and `_update`,
neural_layer_connected.c:195-238, with neural_layer.c:374-376.  The input has as many elements as there
are connections.  Without a positive rate only the updates are accumulated. -/
def DNeuron.learn (c : DLearn f) (n : DNeuron f) (x : List (Dbl f)) (y : Dbl f) : DNeuron f :=
  let d := n.delta c x y
  if 0 < c.eta then
    { bias := limitD (n.bias + c.eta * (n.bupd + d))
      bupd := scalD c.momentum (n.bupd + d)
      ws := List.zipWith (fun p x => p.learn c d x) n.ws x }
  else
    { n with bupd := n.bupd + d, ws := List.zipWith (fun p x => { p with upd := p.upd + d * x }) n.ws x }

/-- Learning from samples one after the other. -/
def DNeuron.train (c : DLearn f) (n : DNeuron f) (samples : List (List (Dbl f) × Dbl f)) : DNeuron f :=
  samples.foldl (fun n p => n.learn c p.1 p.2) n

end Xcsf.Double
