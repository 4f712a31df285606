import Verif.Rand

/-!
# Conditions over vectors and strings
(`cond_rectangle.c`, `cond_ellipsoid.c`, `cond_ternary.c`)

`double` is a linear ordered field (exact arithmetic).  The two arrays of `x_dim` parameters of
a rectangle or an ellipsoid are one list of pairs (first array, second array) and the loops
`for (i = 0; i < x_dim; ++i)` recurse over lists.  Where a loop reads two vectors they are
traversed together: both have `x_dim` elements in the program.  `malloc` succeeds.
-/

namespace Xcsf

/-- The parameters the conditions read (condition.h:57-73, ea.h). -/
structure CondPar (K : Type) where
  /-- the type is `COND_TYPE_HYPERRECTANGLE_CSR` (else `..._UBR`) -/
  csr : Bool
  /-- `cond->min`, `cond->max`, `cond->spread_min` -/
  min : K
  max : K
  spreadMin : K
  /-- `cond->eta` -/
  eta : K
  /-- `cond->p_dontcare`, `cond->bits` -/
  pDontcare : K
  bits : Nat
  /-- `ea->p_crossover` -/
  pCross : K

section
variable {K R : Type} [Field K] [LinearOrder K] [IsStrictOrderedRing K]

/-- `DBL_EPSILON` of float.h. -/
def dblEps : K := 1 / 2 ^ 52

/-- `spread_max`, cond_rectangle.c:47,111, cond_ellipsoid.c:71,128. -/
def CondPar.spreadMax (p : CondPar K) : K := |p.max - p.min|

/-- A hyperrectangle or hyperellipsoid: pairs (b1, b2) or (center, spread), and the mutation
rate `mu[0]` (cond_rectangle.h:32-36, cond_ellipsoid.h:31-35). -/
structure Box (K : Type) where
  genes : List (K × K)
  mu : K
  deriving DecidableEq, Repr

/-! ## Hyperrectangles -/

/-- First loop of `cond_rectangle_init`, cond_rectangle.c:48-51. -/
def rectInitGo (g : Rng K R) (p : CondPar K) : Nat → R → List (K × K) × R
  | 0, r => ([], r)
  | n + 1, r =>
    let a := g.uni p.min p.max r
    let b := g.uni p.min p.max a.2
    let rest := rectInitGo g p n b.2
    ((a.1, b.1) :: rest.1, rest.2)

/-- Second loop of `cond_rectangle_init`, cond_rectangle.c:54-56. -/
def rectSpreadGo (g : Rng K R) (p : CondPar K) : List (K × K) → R → List (K × K) × R
  | [], r => ([], r)
  | c :: cs, r =>
    let b := g.uni p.spreadMin p.spreadMax r
    let rest := rectSpreadGo g p cs b.2
    ((c.1, b.1) :: rest.1, rest.2)

/-- `cond_rectangle_init`, cond_rectangle.c:41-61. -/
def rectInit [FloorRing K] (g : Rng K R) (p : CondPar K) (xDim : Nat) (r : R) :
    Res (Box K × R) := do
  let a := rectInitGo g p xDim r
  let a := if p.csr then rectSpreadGo g p a.1 a.2 else a
  let (mu, r) ← samInit1 g .logNormal a.2
  .ok (⟨a.1, mu⟩, r)

/-- The loops of `cond_rectangle_cover`, cond_rectangle.c:112-124. -/
def rectCoverGo (g : Rng K R) (p : CondPar K) : List K → R → List (K × K) × R
  | [], r => ([], r)
  | x :: xs, r =>
    if p.csr then
      let s := g.uni p.spreadMin p.spreadMax r
      let rest := rectCoverGo g p xs s.2
      ((x, s.1) :: rest.1, rest.2)
    else
      let r1 := g.uni p.spreadMin p.spreadMax r
      let r2 := g.uni p.spreadMin p.spreadMax r1.2
      let rest := rectCoverGo g p xs r2.2
      ((x - r1.1 * (1 / 2), x + r2.1 * (1 / 2)) :: rest.1, rest.2)

/-- `cond_rectangle_cover`, cond_rectangle.c:106-125. -/
def rectCover (g : Rng K R) (p : CondPar K) (c : Box K) (x : List K) (r : R) : Box K × R :=
  let a := rectCoverGo g p x r
  ({ c with genes := a.1 }, a.2)

/-- The loop of `cond_rectangle_update`, cond_rectangle.c:142-144. -/
def boxUpdateGo (eta : K) : List (K × K) → List K → List (K × K)
  | c :: cs, x :: xs => (c.1 + eta * (x - c.1), c.2) :: boxUpdateGo eta cs xs
  | cs, _ => cs

/-- `cond_rectangle_update`, cond_rectangle.c:134-146. -/
def rectUpdate (p : CondPar K) (c : Box K) (x : List K) : Box K :=
  if p.csr ∧ 0 < p.eta then { c with genes := boxUpdateGo p.eta c.genes x } else c

/-- Lower end of a gene, cond_rectangle.c:162,170 (and 263,273). -/
def rectLb (csr : Bool) (c : K × K) : K := if csr then c.1 - c.2 else min c.1 c.2

/-- Upper end of a gene, cond_rectangle.c:163,171 (and 265,275). -/
def rectUb (csr : Bool) (c : K × K) : K := if csr then c.1 + c.2 else max c.1 c.2

/-- The loops of `cond_rectangle_match`, cond_rectangle.c:160-177. -/
def rectMatchGo (csr : Bool) : List (K × K) → List K → Bool
  | c :: cs, x :: xs =>
    if x < rectLb csr c ∨ rectUb csr c < x then false else rectMatchGo csr cs xs
  | _, _ => true

/-- `cond_rectangle_match`, cond_rectangle.c:155-178. -/
def rectMatch (p : CondPar K) (c : Box K) (x : List K) : Bool := rectMatchGo p.csr c.genes x

/-- The loop of `cond_rectangle_crossover` and `cond_ellipsoid_crossover`,
cond_rectangle.c:195-208, cond_ellipsoid.c:184-197. -/
def boxCrossGo (g : Rng K R) : List (K × K) → List (K × K) → Bool → R →
    List (K × K) × List (K × K) × Bool × R
  | a :: as, b :: bs, ch, r =>
    let u := g.uni 0 1 r
    let v := g.uni 0 1 u.2
    let s1 := decide (u.1 < 1 / 2)
    let s2 := decide (v.1 < 1 / 2)
    let a' := (if s1 then b.1 else a.1, if s2 then b.2 else a.2)
    let b' := (if s1 then a.1 else b.1, if s2 then a.2 else b.2)
    let rest := boxCrossGo g as bs (ch || s1 || s2) v.2
    (a' :: rest.1, b' :: rest.2.1, rest.2.2.1, rest.2.2.2)
  | as, bs, ch, r => (as, bs, ch, r)

/-- `cond_rectangle_crossover`, cond_rectangle.c:187-211, and `cond_ellipsoid_crossover`,
cond_ellipsoid.c:176-200. -/
def boxCross (g : Rng K R) (p : CondPar K) (c d : Box K) (r : R) : Box K × Box K × Bool × R :=
  let u := g.uni 0 1 r
  if u.1 < p.pCross then
    let a := boxCrossGo g c.genes d.genes false u.2
    ({ c with genes := a.1 }, { d with genes := a.2.1 }, a.2.2.1, a.2.2.2)
  else (c, d, false, u.2)

/-- The loop of `cond_rectangle_mutate`, cond_rectangle.c:227-244, and of
`cond_ellipsoid_mutate`, cond_ellipsoid.c:216-229 (`spread = true`: the second parameter is a
spread, bounded below by `DBL_EPSILON`; else it is a bound, clamped like the first). -/
def boxMutateGo (g : Rng K R) (p : CondPar K) (spread : Bool) (mu : K) :
    List (K × K) → Bool → R → List (K × K) × Bool × R
  | [], ch, r => ([], ch, r)
  | c :: cs, ch, r =>
    let n1 := g.normal 0 mu r
    let b1 := clampK (c.1 + n1.1) p.min p.max
    let ch := if c.1 ≠ b1 then true else ch
    let n2 := g.normal 0 mu n1.2
    let b2 := c.2 + n2.1
    let b2 := if spread then max dblEps b2 else clampK b2 p.min p.max
    let ch := if c.2 ≠ b2 then true else ch
    let rest := boxMutateGo g p spread mu cs ch n2.2
    ((b1, b2) :: rest.1, rest.2.1, rest.2.2)

/-- `cond_rectangle_mutate` (`spread = csr`), cond_rectangle.c:219-246, and
`cond_ellipsoid_mutate` (`spread = true`), cond_ellipsoid.c:208-231. -/
def boxMutate [FloorRing K] (g : Rng K R) (p : CondPar K) (spread : Bool) (c : Box K) (r : R) :
    Res (Box K × Bool × R) := do
  let (mu, r) ← samAdapt1 g .logNormal c.mu r
  let a := boxMutateGo g p spread mu c.genes false r
  .ok (⟨a.1, mu⟩, a.2.1, a.2.2)

/-- The loops of `cond_rectangle_general`, cond_rectangle.c:261-282. -/
def rectGeneralGo (csr : Bool) : List (K × K) → List (K × K) → Bool
  | c :: cs, d :: ds =>
    if rectLb csr d < rectLb csr c ∨ rectUb csr c < rectUb csr d then false
    else rectGeneralGo csr cs ds
  | _, _ => true

/-- `cond_rectangle_general`, cond_rectangle.c:255-283. -/
def rectGeneral (p : CondPar K) (c d : Box K) : Bool := rectGeneralGo p.csr c.genes d.genes

/-! ## Hyperellipsoids -/

/-- The value of a sum of squares of quotients: division by zero gives an infinity or, for 0/0,
not-a-number, which the sum then carries (IEEE 754). -/
inductive Flt (K : Type) where
  | fin (v : K)
  | inf
  | nan
  deriving DecidableEq, Repr

/-- `dist += d * d` with `d = (x - center) / spread`, cond_ellipsoid.c:52-53. -/
def Flt.addSq (acc : Flt K) (c : K × K) (x : K) : Flt K :=
  if c.2 = 0 then
    if x = c.1 then .nan else match acc with
      | .nan => .nan
      | _ => .inf
  else match acc with
    | .fin v => .fin (v + (x - c.1) / c.2 * ((x - c.1) / c.2))
    | a => a

/-- The loop of `cond_ellipsoid_dist`, cond_ellipsoid.c:51-54. -/
def ellDistGo : List (K × K) → List K → Flt K → Flt K
  | c :: cs, x :: xs, acc => ellDistGo cs xs (acc.addSq c x)
  | _, _, acc => acc

/-- `cond_ellipsoid_dist`, cond_ellipsoid.c:45-56. -/
def ellDist (c : List (K × K)) (x : List K) : Flt K := ellDistGo c x (.fin 0)

/-- `dist < 1`: false for infinity and not-a-number. -/
def Flt.ltOne : Flt K → Bool
  | .fin v => decide (v < 1)
  | _ => false

/-- `dist > 1`: true for infinity, false for not-a-number. -/
def Flt.gtOne : Flt K → Bool
  | .fin v => decide (1 < v)
  | .inf => true
  | .nan => false

/-- `cond_ellipsoid_match`, cond_ellipsoid.c:162-167. -/
def ellMatch (c : Box K) (x : List K) : Bool := (ellDist c.genes x).ltOne

/-- The loop of `cond_ellipsoid_init`, cond_ellipsoid.c:72-75. -/
def ellInitGo (g : Rng K R) (p : CondPar K) : Nat → R → List (K × K) × R
  | 0, r => ([], r)
  | n + 1, r =>
    let a := g.uni p.min p.max r
    let b := g.uni p.spreadMin p.spreadMax a.2
    let rest := ellInitGo g p n b.2
    ((a.1, b.1) :: rest.1, rest.2)

/-- `cond_ellipsoid_init`, cond_ellipsoid.c:64-78. -/
def ellInit [FloorRing K] (g : Rng K R) (p : CondPar K) (xDim : Nat) (r : R) :
    Res (Box K × R) := do
  let a := ellInitGo g p xDim r
  let (mu, r) ← samInit1 g .logNormal a.2
  .ok (⟨a.1, mu⟩, r)

/-- The loop of `cond_ellipsoid_cover`, cond_ellipsoid.c:129-132. -/
def ellCoverGo (g : Rng K R) (p : CondPar K) : List K → R → List (K × K) × R
  | [], r => ([], r)
  | x :: xs, r =>
    let s := g.uni p.spreadMin p.spreadMax r
    let rest := ellCoverGo g p xs s.2
    ((x, s.1) :: rest.1, rest.2)

/-- `cond_ellipsoid_cover`, cond_ellipsoid.c:123-133. -/
def ellCover (g : Rng K R) (p : CondPar K) (c : Box K) (x : List K) (r : R) : Box K × R :=
  let a := ellCoverGo g p x r
  ({ c with genes := a.1 }, a.2)

/-- `cond_ellipsoid_update`, cond_ellipsoid.c:142-153. -/
def ellUpdate (p : CondPar K) (c : Box K) (x : List K) : Box K :=
  if 0 < p.eta then { c with genes := boxUpdateGo p.eta c.genes x } else c

/-- The loop of `cond_ellipsoid_general`, cond_ellipsoid.c:248-263: `i` is the index, `temp` is
the centre of the second ellipsoid except at `i`. -/
def ellGeneralGo (e1 : List (K × K)) (cen2 : List K) :
    Nat → List (K × K) → List (K × K) → Bool
  | i, c :: cs, d :: ds =>
    if c.1 ≠ d.1 ∨ c.2 ≠ d.2 then
      if (ellDist e1 (cen2.set i (d.1 + d.2))).gtOne then false
      else if (ellDist e1 (cen2.set i (d.1 + d.2 - 2 * d.2))).gtOne then false
      else ellGeneralGo e1 cen2 (i + 1) cs ds
    else ellGeneralGo e1 cen2 (i + 1) cs ds
  | _, _, _ => true

/-- `cond_ellipsoid_general`, cond_ellipsoid.c:240-266. -/
def ellGeneral (c d : Box K) : Bool :=
  ellGeneralGo c.genes (d.genes.map Prod.fst) 0 c.genes d.genes

/-! ## Ternary strings -/

/-- A ternary condition (cond_ternary.h:34-40; `tmp_input` is scratch space). -/
structure Tern (K : Type) where
  string : List Char
  mu : K
  deriving DecidableEq, Repr

/-- `cond_ternary_rand`, cond_ternary.c:43-56. -/
def ternRand (g : Rng K R) (p : CondPar K) : Nat → R → List Char × R
  | 0, r => ([], r)
  | n + 1, r =>
    let u := g.uni 0 1 r
    if u.1 < p.pDontcare then
      let rest := ternRand g p n u.2
      ('#' :: rest.1, rest.2)
    else
      let v := g.uni 0 1 u.2
      let rest := ternRand g p n v.2
      ((if v.1 < 1 / 2 then '0' else '1') :: rest.1, rest.2)

/-- `cond_ternary_init`, cond_ternary.c:63-74. -/
def ternInit [FloorRing K] (g : Rng K R) (p : CondPar K) (xDim : Nat) (r : R) :
    Res (Tern K × R) := do
  let (mu, r) ← samInit1 g .logNormal r
  let a := ternRand g p (xDim * p.bits) r
  .ok (⟨a.1, mu⟩, a.2)

/-- Inner loop of `cond_ternary_cover`, cond_ternary.c:126-132. -/
def ternCoverBits (g : Rng K R) (p : CondPar K) : List Char → R → List Char × R
  | [], r => ([], r)
  | b :: bs, r =>
    let u := g.uni 0 1 r
    let rest := ternCoverBits g p bs u.2
    ((if u.1 < p.pDontcare then '#' else b) :: rest.1, rest.2)

/-- Outer loop of `cond_ternary_cover`, cond_ternary.c:124-133. -/
def ternCoverGo [FloorRing K] (g : Rng K R) (p : CondPar K) : List K → R → Res (List Char × R)
  | [], r => .ok ([], r)
  | x :: xs, r => do
    let bs ← floatToBinary x p.bits
    let a := ternCoverBits g p bs r
    let rest ← ternCoverGo g p xs a.2
    .ok (a.1 ++ rest.1, rest.2)

/-- `cond_ternary_cover`, cond_ternary.c:119-134. -/
def ternCover [FloorRing K] (g : Rng K R) (p : CondPar K) (c : Tern K) (x : List K) (r : R) :
    Res (Tern K × R) := do
  let a ← ternCoverGo g p x r
  .ok ({ c with string := a.1 }, a.2)

/-- Inner loop of `cond_ternary_match`, cond_ternary.c:167-172: compares the encoded element
with the string; `some rest` is the rest of the string, `none` means `return false`. -/
def ternMatchBits : List Char → List Char → Res (Option (List Char))
  | [], s => .ok (some s)
  | _ :: _, [] => .error .ub
  | b :: bs, s :: ss => if s ≠ '#' ∧ s ≠ b then .ok none else ternMatchBits bs ss

/-- Outer loop of `cond_ternary_match`, cond_ternary.c:165-174. -/
def ternMatchGo [FloorRing K] (bits : Nat) : List K → List Char → Res Bool
  | [], _ => .ok true
  | x :: xs, s => do
    let bs ← floatToBinary x bits
    match ← ternMatchBits bs s with
    | none => .ok false
    | some s => ternMatchGo bits xs s

/-- `cond_ternary_match`, cond_ternary.c:160-175. -/
def ternMatch [FloorRing K] (p : CondPar K) (c : Tern K) (x : List K) : Res Bool :=
  ternMatchGo p.bits x c.string

/-- The loop of `cond_ternary_crossover`, cond_ternary.c:192-199. -/
def ternCrossGo (g : Rng K R) : List Char → List Char → Bool → R →
    List Char × List Char × Bool × R
  | a :: as, b :: bs, ch, r =>
    let u := g.uni 0 1 r
    let s := decide (u.1 < 1 / 2)
    let rest := ternCrossGo g as bs (ch || s) u.2
    ((if s then b else a) :: rest.1, (if s then a else b) :: rest.2.1, rest.2.2.1, rest.2.2.2)
  | as, bs, ch, r => (as, bs, ch, r)

/-- `cond_ternary_crossover`, cond_ternary.c:184-202. -/
def ternCross (g : Rng K R) (p : CondPar K) (c d : Tern K) (r : R) : Tern K × Tern K × Bool × R :=
  let u := g.uni 0 1 r
  if u.1 < p.pCross then
    let a := ternCrossGo g c.string d.string false u.2
    ({ c with string := a.1 }, { d with string := a.2.1 }, a.2.2.1, a.2.2.2)
  else (c, d, false, u.2)

/-- The loop of `cond_ternary_mutate`, cond_ternary.c:217-226. -/
def ternMutateGo (g : Rng K R) (mu : K) : List Char → Bool → R → List Char × Bool × R
  | [], ch, r => ([], ch, r)
  | s :: ss, ch, r =>
    let u := g.uni 0 1 r
    if u.1 < mu then
      if s = '#' then
        let v := g.uni 0 1 u.2
        let rest := ternMutateGo g mu ss true v.2
        ((if v.1 < 1 / 2 then '0' else '1') :: rest.1, rest.2)
      else
        let rest := ternMutateGo g mu ss true u.2
        ('#' :: rest.1, rest.2)
    else
      let rest := ternMutateGo g mu ss ch u.2
      (s :: rest.1, rest.2)

/-- `cond_ternary_mutate`, cond_ternary.c:210-228. -/
def ternMutate [FloorRing K] (g : Rng K R) (c : Tern K) (r : R) : Res (Tern K × Bool × R) := do
  let (mu, r) ← samAdapt1 g .logNormal c.mu r
  let a := ternMutateGo g mu c.string false r
  .ok (⟨a.1, mu⟩, a.2.1, a.2.2)

/-- The loop of `cond_ternary_general`, cond_ternary.c:245-254. -/
def ternGeneralGo : List Char → List Char → Bool → Bool
  | a :: as, b :: bs, ge =>
    if a ≠ '#' ∧ a ≠ b then false
    else ternGeneralGo as bs (if a ≠ b then true else ge)
  | _, _, ge => ge

/-- `cond_ternary_general`, cond_ternary.c:237-255. -/
def ternGeneral (c d : Tern K) : Bool := ternGeneralGo c.string d.string false

end
end Xcsf
