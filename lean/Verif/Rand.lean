import Verif.Basic
import Mathlib.Algebra.Order.Field.Basic
import Mathlib.Algebra.Order.Floor.Ring
import Mathlib.Data.Rat.Floor
import Mathlib.Tactic.Linarith
import Mathlib.Tactic.Ring
import Mathlib.Tactic.NormNum

/-!
# Random numbers, small helpers and self-adaptive mutation (`utils.h`, `utils.c`, `sam.c`)

`double` is a linear ordered field (exact arithmetic).  The generator is a parameter.
-/

namespace Xcsf

/-- The source of random numbers and the libm function used with it.  `R` holds the state of
dSFMT and the two static variables of `rand_normal`. -/
structure Rng (K R : Type) where
  /-- `dsfmt_gv_genrand_open_open()` -/
  draw : R → K × R
  /-- the standard normal value computed by `rand_normal`, utils.c:88-100 -/
  gauss : R → K × R
  /-- `exp` of libm -/
  exp : K → K

/-- dSFMT's contract: draws lie strictly between zero and one. -/
def Rng.Open {K R : Type} [Zero K] [One K] [LT K] (g : Rng K R) : Prop :=
  ∀ r, 0 < (g.draw r).1 ∧ (g.draw r).1 < 1

section
variable {K R : Type} [Field K] [LinearOrder K] [IsStrictOrderedRing K]

/-- `rand_uniform`, utils.c:61-65. -/
def Rng.uni (g : Rng K R) (lo hi : K) (r : R) : K × R :=
  let d := g.draw r
  (lo + d.1 * (hi - lo), d.2)

/-- `rand_uniform_int`, utils.c:73-77. -/
def Rng.uniInt [FloorRing K] (g : Rng K R) (lo hi : Int) (r : R) : Int × R :=
  let d := g.uni (lo : K) (hi : K) r
  (⌊d.1⌋, d.2)

/-- `rand_normal`, utils.c:86-101. -/
def Rng.normal (g : Rng K R) (mu sigma : K) (r : R) : K × R :=
  let z := g.gauss r
  (z.1 * sigma + mu, z.2)

/-- `clamp`, utils.h:59-63. -/
def clampK (a lo hi : K) : K := if a < lo then lo else if hi < a then hi else a

/-- `clamp_int`, utils.h:72-76. -/
def clampInt (a lo hi : Int) : Int := if a < lo then lo else if hi < a then hi else a

/-- The loop of `float_to_binary`, utils.h:122-125: digits of `a` from the least significant
one, written from the end.  `a` is positive there, so C's `%` and `/` are those of `Nat`. -/
def binDigits : Nat → Nat → List Char → List Char
  | 0, _, acc => acc
  | n + 1, a, acc => binDigits n (a / 2) ((if a % 2 = 0 then '0' else '1') :: acc)

/-- `float_to_binary`, utils.h:108-127.  The conversion to `int` of a value that does not fit
is undefined. -/
def floatToBinary [FloorRing K] (f : K) (bits : Nat) : Res (List Char) :=
  if 1 ≤ f then .ok (List.replicate bits '1')
  else if f ≤ 0 then .ok (List.replicate bits '0')
  else if 2147483648 ≤ f * 2 ^ bits then .error .ub
  else .ok (binDigits bits ⌊f * 2 ^ bits⌋.toNat [])

/-! ## Self-adaptive mutation -/

/-- The kinds of adaptation, sam.h:30-32. -/
inductive SamType where
  | logNormal | rateSelect | uniform
  deriving DecidableEq, Repr

/-- `MU_EPSILON`, sam.c:27. -/
def muEps : K := 5 / 10000

/-- `mrates`, sam.c:33-34. -/
def mrates : List K := [5 / 10000, 1 / 1000, 2 / 1000, 3 / 1000, 5 / 1000,
  1 / 100, 15 / 1000, 2 / 100, 5 / 100, 1 / 10]

/-- `mrates[i]`. -/
def mrateAt (i : Int) : Res K :=
  if 0 ≤ i then match (mrates (K := K))[i.toNat]? with
    | some v => .ok v
    | none => .error .ub
  else .error .ub

/-- `sam_init` for one rate, sam.c:46-57. -/
def samInit1 [FloorRing K] (g : Rng K R) (t : SamType) (r : R) : Res (K × R) :=
  match t with
  | .logNormal => .ok (g.uni muEps 1 r)
  | .uniform => .ok (g.uni muEps 1 r)
  | .rateSelect => do
    let i := g.uniInt 0 10 r
    let v ← mrateAt i.1
    .ok (v, i.2)

/-- `sam_init`, sam.c:42-59. -/
def samInit [FloorRing K] (g : Rng K R) : List SamType → R → Res (List K × R)
  | [], r => .ok ([], r)
  | t :: ts, r => do
    let (v, r) ← samInit1 g t r
    let (vs, r) ← samInit g ts r
    .ok (v :: vs, r)

/-- `sam_adapt` for one rate, sam.c:71-89. -/
def samAdapt1 [FloorRing K] (g : Rng K R) (t : SamType) (mu : K) (r : R) : Res (K × R) :=
  match t with
  | .logNormal =>
    let z := g.normal 0 1 r
    .ok (clampK (mu * g.exp z.1) muEps 1, z.2)
  | .rateSelect =>
    let u := g.uni 0 1 r
    if u.1 < 1 / 10 then do
      let i := g.uniInt 0 10 u.2
      let v ← mrateAt i.1
      .ok (v, i.2)
    else .ok (mu, u.2)
  | .uniform =>
    let u := g.uni 0 1 r
    if u.1 < 1 / 10 then .ok (g.uni muEps 1 u.2) else .ok (mu, u.2)

/-- `sam_adapt`, sam.c:67-91 (`mu` has as many elements as `types`). -/
def samAdapt [FloorRing K] (g : Rng K R) : List (SamType × K) → R → Res (List K × R)
  | [], r => .ok ([], r)
  | (t, m) :: ts, r => do
    let (v, r) ← samAdapt1 g t m r
    let (vs, r) ← samAdapt g ts r
    .ok (v :: vs, r)

end
end Xcsf
