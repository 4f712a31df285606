import Mathlib.Data.Rat.Floor
import Mathlib.Algebra.Order.Field.Basic
import Mathlib.Algebra.Order.Field.Rat
import Verif.Core

/-!
# Arithmetic of doubles

Numbers with rounding, infinities and not-a-numbers, as the C program calculates (`double` in all of
/repo/xcsf, IEEE 754).  A format says which rational numbers can be represented and how other results
are rounded to them; nothing is assumed about the direction of rounding but that it is monotone and
exact on representable numbers.  Simplifications: the two zeros are one number (dividing by zero is
dividing by the positive one), and there is one not-a-number, which counts as equal to itself where
the program asks for equal values (pa.c:133, ties between best actions) and as different from zero.
-/

namespace Xcsf.Double

/-- A format: the representable numbers, the rounding of a rational number, and the size from which
results are infinite. -/
structure Format where
  rep : ℚ → Prop
  rnd : ℚ → ℚ
  huge : ℚ
  rep_rnd : ∀ q, |q| < huge → rep (rnd q)
  mono : ∀ p q, p ≤ q → rnd p ≤ rnd q
  exact : ∀ q, rep q → rnd q = q
  bound : ∀ q, rep q → |q| < huge
  neg : ∀ q, rep q → rep (-q)
  /-- Numbers with 53 binary digits around one: all values of an `int`, and those between. -/
  dyadic : ∀ m : Int, |m| < 2 ^ 53 → ∀ e : Nat, e ≤ 52 → rep ((m : ℚ) / 2 ^ e)

/-- `double`, for example `fit`, `err` and `size` of a rule, xcsf.h:45-60. -/
inductive Dbl (f : Format) where
  | nan
  | inf (neg : Bool)
  | fin (q : ℚ) (h : f.rep q)

variable {f : Format}

instance : DecidableEq (Dbl f)
  | .nan, .nan => isTrue rfl
  | .nan, .inf _ => isFalse nofun
  | .nan, .fin _ _ => isFalse nofun
  | .inf _, .nan => isFalse nofun
  | .inf a, .inf b => if h : a = b then isTrue (by rw [h]) else isFalse fun e => h (Dbl.inf.inj e)
  | .inf _, .fin _ _ => isFalse nofun
  | .fin _ _, .nan => isFalse nofun
  | .fin _ _, .inf _ => isFalse nofun
  | .fin p _, .fin q _ =>
    if h : p = q then isTrue (by subst h; rfl) else isFalse fun e => h (Dbl.fin.inj e)

/-- The result of an operation whose exact result is `q`: rounded, or infinite. -/
def Dbl.round (f : Format) (q : ℚ) : Dbl f :=
  if h : |q| < f.huge then .fin (f.rnd q) (f.rep_rnd q h) else .inf (decide (q < 0))

theorem Format.rep_int (f : Format) (n : Int) (h : |n| < 2 ^ 53) : f.rep (n : ℚ) := by
  have := f.dyadic n h 0 (by omega)
  simpa using this

/-- The sign of an infinity. -/
def Dbl.sign (neg : Bool) : ℚ := if neg then -1 else 1

/-- An infinity times or divided by a number, by sign; nothing sensible for zero. -/
def Dbl.scaled (neg : Bool) (q : ℚ) : Dbl f :=
  if q = 0 then .nan else .inf (decide (Dbl.sign neg * q < 0))

/-- Addition. -/
def Dbl.add : Dbl f → Dbl f → Dbl f
  | .nan, _ => .nan
  | _, .nan => .nan
  | .inf a, .inf b => if a = b then .inf a else .nan
  | .inf a, .fin _ _ => .inf a
  | .fin _ _, .inf b => .inf b
  | .fin p _, .fin q _ => .round f (p + q)

/-- Change of sign. -/
def Dbl.minus : Dbl f → Dbl f
  | .nan => .nan
  | .inf a => .inf !a
  | .fin q h => .fin (-q) (f.neg q h)

/-- Multiplication. -/
def Dbl.mul : Dbl f → Dbl f → Dbl f
  | .nan, _ => .nan
  | _, .nan => .nan
  | .inf a, .inf b => .inf (a != b)
  | .inf a, .fin q _ => .scaled a q
  | .fin p _, .inf b => .scaled b p
  | .fin p _, .fin q _ => .round f (p * q)

/-- Division: dividing a number by zero is infinite, zero by zero is not a number. -/
def Dbl.div : Dbl f → Dbl f → Dbl f
  | .nan, _ => .nan
  | _, .nan => .nan
  | .inf _, .inf _ => .nan
  | .inf a, .fin q _ => .inf (decide (Dbl.sign a * q < 0))
  | .fin _ _, .inf _ => .fin 0 (by simpa using f.rep_int 0 (by norm_num))
  | .fin p _, .fin q _ =>
    if q = 0 then (if p = 0 then .nan else .inf (decide (p < 0))) else .round f (p / q)

/-- Comparison: false with anything that is not a number. -/
def Dbl.less : Dbl f → Dbl f → Prop
  | .nan, _ => False
  | _, .nan => False
  | .inf a, .inf b => a = true ∧ b = false
  | .inf a, .fin _ _ => a = true
  | .fin _ _, .inf b => b = false
  | .fin p _, .fin q _ => p < q

instance : LT (Dbl f) := ⟨Dbl.less⟩
instance : DecidableLT (Dbl f)
  | .nan, .nan => isFalse nofun
  | .nan, .inf _ => isFalse nofun
  | .nan, .fin _ _ => isFalse nofun
  | .inf _, .nan => isFalse nofun
  | .inf a, .inf b => inferInstanceAs (Decidable (a = true ∧ b = false))
  | .inf a, .fin _ _ => inferInstanceAs (Decidable (a = true))
  | .fin _ _, .nan => isFalse nofun
  | .fin _ _, .inf b => inferInstanceAs (Decidable (b = false))
  | .fin p _, .fin q _ => inferInstanceAs (Decidable (p < q))
instance : Zero (Dbl f) := ⟨.fin 0 (by simpa using f.rep_int 0 (by norm_num))⟩
instance : One (Dbl f) := ⟨.fin 1 (by simpa using f.rep_int 1 (by norm_num))⟩
instance : Add (Dbl f) := ⟨Dbl.add⟩
instance : Sub (Dbl f) := ⟨fun a b => Dbl.add a b.minus⟩
instance : Mul (Dbl f) := ⟨Dbl.mul⟩
instance : Div (Dbl f) := ⟨Dbl.div⟩

/-- An `int` is between -2147483648 and 2147483647; integers outside, which do not occur, are
converted like the nearest one. -/
def toInt32 (n : Int) : Int := max (-2147483648) (min n 2147483647)

theorem toInt32_rep (f : Format) (n : Int) : f.rep ((toInt32 n : Int) : ℚ) := by
  refine f.rep_int _ ?_
  unfold toInt32
  rw [abs_lt]
  constructor <;> omega

/-- Conversion of an `int`, which is exact. -/
instance : IntCast (Dbl f) := ⟨fun n => .fin (toInt32 n) (toInt32_rep f n)⟩

/-- `(int) floor(x)`, utils.c:76, of a double; for what is not a finite number the conversion is
undefined and the value here is never used. -/
def Dbl.floor : Dbl f → Int
  | .fin q _ => ⌊q⌋
  | _ => 0

end Xcsf.Double
