import Verif.BadNet

/-!
# Gradients of activation functions over doubles
-/

namespace Xcsf.Double

variable {f : Format}

/-- `neural_gradient`, neural_activations.c:72-102, with neural_activations.h:80-208.  Other numbers than
those of activations end the program there; here they are left as the last case. -/
def gradientD (m : DLibm f) (a : Nat) (x : Dbl f) : Dbl f :=
  match a with
  | 0 =>
    let fx := 1 / (1 + m.exp x.minus)
    (1 - fx) * fx
  | 1 => truth (decide (0 < x))
  | 2 => 1 - m.tanh x * m.tanh x
  | 3 => 1
  | 4 => (1 + 1 : Dbl f).minus * x * m.exp (x.minus * x)
  | 5 => m.cos x
  | 6 => (m.sin x).minus
  | 7 => 1 / (1 + m.exp x.minus)
  | 8 => if x < 0 then m.tenth else 1
  | 9 => truth (decide (0 < x) || decide (x = 0)) * m.seluA +
      truth (decide (x < 0)) * (m.seluA * m.seluB * m.exp x)
  | _ =>
    let fx := m.exp x
    (1 + 1) * fx / ((fx + 1) * (fx + 1))

end Xcsf.Double
