import Verif.Rand

/-!
# Activation functions and the softmax layer (`neural_activations.h`, `neural_activations.c`,
`neural_layer_softmax.c`)

`double` is a linear ordered field; the functions of libm are a parameter.  The literals 1.0507,
1.6732 and .1 are exact decimals here.
-/

namespace Xcsf

/-- The libm functions used by activation functions. -/
structure Libm (K : Type) where
  exp : K → K
  log1p : K → K
  expm1 : K → K
  tanh : K → K
  sin : K → K
  cos : K → K

section
variable {K : Type} [Field K] [LinearOrder K]

/-- A C comparison used as a number. -/
def b2d (p : Prop) [Decidable p] : K := if p then 1 else 0

/-- `logistic_activate`, neural_activations.h:74-78. -/
def logisticAct (m : Libm K) (x : K) : K := 1 / (1 + m.exp (-x))

/-- `logistic_gradient`, neural_activations.h:80-85. -/
def logisticGrad (m : Libm K) (x : K) : K :=
  let fx := 1 / (1 + m.exp (-x))
  (1 - fx) * fx

/-- `loggy_activate`, neural_activations.h:87-91. -/
def loggyAct (m : Libm K) (x : K) : K := 2 / (1 + m.exp (-x)) - 1

/-- `loggy_gradient`, neural_activations.h:93-98. -/
def loggyGrad (m : Libm K) (x : K) : K :=
  let fx := m.exp x
  (2 * fx) / ((fx + 1) * (fx + 1))

/-- `gaussian_activate`, neural_activations.h:100-104. -/
def gaussianAct (m : Libm K) (x : K) : K := m.exp (-x * x)

/-- `gaussian_gradient`, neural_activations.h:106-110. -/
def gaussianGrad (m : Libm K) (x : K) : K := -2 * x * m.exp (-x * x)

/-- `relu_activate`, neural_activations.h:112-116. -/
def reluAct (x : K) : K := x * b2d (0 < x)

/-- `relu_gradient`, neural_activations.h:118-122. -/
def reluGrad (x : K) : K := b2d (0 < x)

/-- `selu_activate`, neural_activations.h:124-128. -/
def seluAct (m : Libm K) (x : K) : K :=
  b2d (0 ≤ x) * (10507 / 10000) * x +
    b2d (x < 0) * (10507 / 10000) * (16732 / 10000) * m.expm1 x

/-- `selu_gradient`, neural_activations.h:130-134. -/
def seluGrad (m : Libm K) (x : K) : K :=
  b2d (0 ≤ x) * (10507 / 10000) +
    b2d (x < 0) * ((10507 / 10000) * (16732 / 10000) * m.exp x)

/-- `linear_activate`, neural_activations.h:136-140. -/
def linearAct (x : K) : K := x

/-- `linear_gradient`, neural_activations.h:142-147. -/
def linearGrad (_ : K) : K := 1

/-- `soft_plus_activate`, neural_activations.h:149-153. -/
def softPlusAct (m : Libm K) (x : K) : K := m.log1p (m.exp x)

/-- `soft_plus_gradient`, neural_activations.h:155-159. -/
def softPlusGrad (m : Libm K) (x : K) : K := 1 / (1 + m.exp (-x))

/-- `tanh_gradient`, neural_activations.h:167-172. -/
def tanhGrad (m : Libm K) (x : K) : K :=
  let t := m.tanh x
  1 - t * t

/-- `leaky_activate`, neural_activations.h:174-178. -/
def leakyAct (x : K) : K := if 0 < x then x else (1 / 10) * x

/-- `leaky_gradient`, neural_activations.h:180-184. -/
def leakyGrad (x : K) : K := if x < 0 then 1 / 10 else 1

/-- `neural_activate`, neural_activations.c:34-64.  The codes are those of
neural_activations.h:28-40.  `tanh_activate`, `sin_activate` and `cos_activate`
(neural_activations.h:161-165, 186-190, 198-202) are the libm functions. -/
def activate (m : Libm K) (a : Int) (x : K) : Res K :=
  if a = 0 then .ok (logisticAct m x)
  else if a = 1 then .ok (reluAct x)
  else if a = 4 then .ok (gaussianAct m x)
  else if a = 2 then .ok (m.tanh x)
  else if a = 5 then .ok (m.sin x)
  else if a = 6 then .ok (m.cos x)
  else if a = 7 then .ok (softPlusAct m x)
  else if a = 3 then .ok (linearAct x)
  else if a = 8 then .ok (leakyAct x)
  else if a = 9 then .ok (seluAct m x)
  else if a = 10 then .ok (loggyAct m x)
  else .error .exit

/-- `neural_gradient`, neural_activations.c:72-102; `sin_gradient` and `cos_gradient` are
neural_activations.h:192-196 and 204-208. -/
def gradient (m : Libm K) (a : Int) (x : K) : Res K :=
  if a = 0 then .ok (logisticGrad m x)
  else if a = 1 then .ok (reluGrad x)
  else if a = 4 then .ok (gaussianGrad m x)
  else if a = 2 then .ok (tanhGrad m x)
  else if a = 5 then .ok (m.cos x)
  else if a = 6 then .ok (-m.sin x)
  else if a = 7 then .ok (softPlusGrad m x)
  else if a = 3 then .ok (linearGrad x)
  else if a = 8 then .ok (leakyGrad x)
  else if a = 9 then .ok (seluGrad m x)
  else if a = 10 then .ok (loggyGrad m x)
  else .error .exit

/-- `neural_activate_array`, neural_activations.c:198-205: the states are clamped to
`[NEURON_MIN, NEURON_MAX]` (neural_layer.h:58-59) in place; result: states and outputs. -/
def activateArray (m : Libm K) (a : Int) : List K → Res (List K × List K)
  | [] => .ok ([], [])
  | s :: ss =>
    let s := clampK s (-100) 100
    match activate m a s with
    | .error e => .error e
    | .ok o =>
      match activateArray m a ss with
      | .error e => .error e
      | .ok (ss, os) => .ok (s :: ss, o :: os)

/-- `neural_gradient_array`, neural_activations.c:214-221.  Reading past the end of `state` or
`delta` is undefined; the arrays have the same length here. -/
def gradientArray (m : Libm K) (a : Int) : List K → List K → Res (List K)
  | [], [] => .ok []
  | s :: ss, d :: ds =>
    match gradient m a s with
    | .error e => .error e
    | .ok g =>
      match gradientArray m a ss ds with
      | .error e => .error e
      | .ok ds => .ok (d * g :: ds)
  | _, _ => .error .ub

/-! ## Softmax -/

/-- Division of doubles; `none` when the result is not a finite number. -/
def fdiv (a b : K) : Option K := if b = 0 then none else some (a / b)

/-- The first loop of `neural_layer_softmax_forward`, neural_layer_softmax.c:117-122. -/
def softmaxLargest : K → List K → K
  | w, [] => w
  | w, x :: xs => softmaxLargest (if w < x then x else w) xs

/-- One exponential of the second loop, neural_layer_softmax.c:125. -/
def softmaxExp (m : Libm K) (scale largest x : K) : Option K :=
  match fdiv x scale, fdiv largest scale with
  | some a, some b => some (m.exp (a - b))
  | _, _ => none

/-- The running sum of the second loop, neural_layer_softmax.c:123-126. -/
def softmaxSum (m : Libm K) (scale largest : K) : List K → Option K → Option K
  | [], s => s
  | x :: xs, s =>
    softmaxSum m scale largest xs
      (match s, softmaxExp m scale largest x with
       | some s, some e => some (s + e)
       | _, _ => none)

/-- `neural_layer_softmax_forward`, neural_layer_softmax.c:112-132, on an input of `n_inputs`
values; `none` is an output that is not a finite number. -/
def softmaxForward (m : Libm K) (scale : K) : List K → Res (List (Option K))
  | [] => .error .ub
  | x :: xs =>
    let largest := softmaxLargest x xs
    let sum := softmaxSum m scale largest (x :: xs) (some 0)
    .ok ((x :: xs).map fun v =>
      match softmaxExp m scale largest v, sum with
      | some e, some s => fdiv e s
      | _, _ => none)

/-- `neural_layer_softmax_backward`, neural_layer_softmax.c:141-152: the error is passed on to the
layer before. -/
def softmaxBackward (ldelta delta : List K) : List K :=
  List.zipWith (fun l d => d + l) ldelta delta

end
end Xcsf
