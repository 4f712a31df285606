import Verif.Rand

/-!
# Tree genetic programming (`gp.c`, `cond_gp.c`)

`double` is a linear ordered field (exact arithmetic).  A tree is the list of the `len`
integers of its array; reading past the end is undefined.  The recursions of the C functions
descend over array positions; they take a depth budget here and exhausting it is `hang`.
The budget used, one more than the number of remaining elements, is never exhausted
(`gpTraverse_total`), because every nested call starts at a larger position.
-/

namespace Xcsf

/-- `GP_NUM_FUNC`, gp.c:29. -/
abbrev gpFuncs : Int := 4

/-- `struct ArgsGPTree`, gp.h:33-41; `constants` has `n_constants` elements and the input has
`n_inputs` elements. -/
structure GpArgs (K : Type) where
  nInputs : Nat
  initDepth : Nat
  maxLen : Nat
  constants : List K

/-- `struct GPTree`, gp.h:46-51 (`len` is the length of the list; `mu` has one element). -/
structure GpTree (K : Type) where
  tree : List Int
  pos : Nat
  mu : K
  deriving DecidableEq, Repr

/-- `tree_traverse`, gp.c:55-64. -/
def gpTraverse (tree : List Int) : Nat → Nat → Res Nat
  | 0, _ => .error .hang
  | fuel + 1, pos =>
    match tree[pos]? with
    | none => .error .ub
    | some node =>
      if gpFuncs ≤ node then .ok (pos + 1)
      else do
        let a ← gpTraverse tree fuel (pos + 1)
        gpTraverse tree fuel a

/-- `tree_traverse` with the budget that always suffices. -/
def gpEnd (tree : List Int) (pos : Nat) : Res Nat := gpTraverse tree (tree.length + 1) pos

section
variable {K R : Type} [Field K] [LinearOrder K] [IsStrictOrderedRing K]

/-- `max_term` of gp.c:84,359. -/
def GpArgs.maxTerm (a : GpArgs K) : Int := gpFuncs + (a.constants.length : Int) + (a.nInputs : Int)

/-- `tree_grow`, gp.c:76-94: `none` is the result -1.  The array is a function from positions;
positions are tested against `max` before they are written. -/
def gpGrow [FloorRing K] (g : Rng K R) (a : GpArgs K) :
    Nat → Nat → (Nat → Int) → R → Option Nat × (Nat → Int) × R
  | 0, pos, t, r =>
    if a.maxLen ≤ pos then (none, t, r)
    else
      let d := g.uniInt gpFuncs a.maxTerm r
      (some (pos + 1), Function.update t pos d.1, d.2)
  | depth + 1, pos, t, r =>
    if a.maxLen ≤ pos then (none, t, r)
    else
      let u := if pos = 0 then (false, r) else (decide ((g.uni 0 1 r).1 < 1 / 2), (g.uni 0 1 r).2)
      if u.1 then
        let d := g.uniInt gpFuncs a.maxTerm u.2
        (some (pos + 1), Function.update t pos d.1, d.2)
      else
        let d := g.uniInt 0 gpFuncs u.2
        let c := gpGrow g a depth (pos + 1) (Function.update t pos d.1) d.2
        match c.1 with
        | none => (none, c.2)
        | some child => gpGrow g a depth child c.2.1 c.2.2

/-- The loop of `tree_rand`, gp.c:106-108, with a bound on the number of attempts. -/
def gpRandGo [FloorRing K] (g : Rng K R) (a : GpArgs K) :
    Nat → (Nat → Int) → R → Res (Nat × (Nat → Int) × R)
  | 0, _, _ => .error .hang
  | fuel + 1, t, r =>
    match gpGrow g a a.initDepth 0 t r with
    | (some n, t, r) => .ok (n, t, r)
    | (none, t, r) => gpRandGo g a fuel t r

/-- `tree_rand`, gp.c:101-112; `t` is the content of the fresh memory and `pos` (not
initialised by the function) that of the record. -/
def gpRand [FloorRing K] (g : Rng K R) (a : GpArgs K) (fuel : Nat) (t : Nat → Int) (pos : Nat)
    (r : R) : Res (GpTree K × R) := do
  let (n, t, r) ← gpRandGo g a fuel t r
  let (mu, r) ← samInit1 g .rateSelect r
  .ok (⟨(List.range n).map t, pos, mu⟩, r)

/-- `tree_eval`, gp.c:132-158: the value and the new `pos`. -/
def gpEvalGo (a : GpArgs K) (x : List K) (tree : List Int) : Nat → Nat → Res (K × Nat)
  | 0, _ => .error .hang
  | fuel + 1, pos =>
    match tree[pos]? with
    | none => .error .ub
    | some node =>
      if gpFuncs + (a.constants.length : Int) ≤ node then
        match x[(node - gpFuncs - (a.constants.length : Int)).toNat]? with
        | none => .error .ub
        | some v => .ok (v, pos + 1)
      else if gpFuncs ≤ node then
        match a.constants[(node - gpFuncs).toNat]? with
        | none => .error .ub
        | some v => .ok (v, pos + 1)
      else do
        let (va, pos) ← gpEvalGo a x tree fuel (pos + 1)
        let (vb, pos) ← gpEvalGo a x tree fuel pos
        let va := clampK va (-1000) 1000
        let vb := clampK vb (-1000) 1000
        if node = 0 then .ok (va + vb, pos)
        else if node = 1 then .ok (va - vb, pos)
        else if node = 2 then .ok (va * vb, pos)
        else if node = 3 then .ok (if vb ≠ 0 then va / vb else va, pos)
        else .error .exit

/-- `tree_eval` from the stored position. -/
def gpEval (a : GpArgs K) (x : List K) (t : GpTree K) : Res (K × GpTree K) := do
  let (v, pos) ← gpEvalGo a x t.tree (t.tree.length + 1) t.pos
  .ok (v, { t with pos := pos })

/-- `cond_gp_match`, cond_gp.c:112-121: the result and the condition with its new position. -/
def gpMatch (a : GpArgs K) (x : List K) (t : GpTree K) : Res (Bool × GpTree K) := do
  let (v, t) ← gpEval a x { t with pos := 0 }
  .ok (decide (1 / 2 < v), t)

/-- `cond_gp_cover`, cond_gp.c:78-86, with a bound on the number of trees tried. -/
def gpCover [FloorRing K] (g : Rng K R) (a : GpArgs K) (x : List K) (fuelT : Nat)
    (mem : Nat → Int) : Nat → R → Res (GpTree K × R)
  | 0, _ => .error .hang
  | fuel + 1, r => do
    let (t, r) ← gpRand g a fuelT mem 0 r
    let (m, t) ← gpMatch a x t
    if m then .ok (t, r) else gpCover g a x fuelT mem fuel r

/-- The items `tree_string` adds to the JSON array. -/
inductive GpTok (K : Type) where
  | lpar | rpar
  | func (f : Int)
  | const (v : K)
  | input (i : Nat)
  deriving DecidableEq, Repr

/-- `tree_string`, gp.c:214-244: the items and the position after the subtree. -/
def gpString (a : GpArgs K) (tree : List Int) : Nat → Nat → Res (List (GpTok K) × Nat)
  | 0, _ => .error .hang
  | fuel + 1, pos =>
    match tree[pos]? with
    | none => .error .ub
    | some node =>
      if gpFuncs ≤ node then
        if gpFuncs + (a.constants.length : Int) ≤ node then
          .ok ([.input (node - gpFuncs - (a.constants.length : Int)).toNat], pos + 1)
        else
          match a.constants[(node - gpFuncs).toNat]? with
          | none => .error .ub
          | some v => .ok ([.const v], pos + 1)
      else do
        let (s1, p1) ← gpString a tree fuel (pos + 1)
        -- `tree_function_string`, gp.c:165-181
        if node < 0 then .error .exit
        else
          let (s2, p2) ← gpString a tree fuel p1
          .ok (.lpar :: s1 ++ .func node :: s2 ++ [.rpar], p2)

/-- `tree_copy`, gp.c:301-310. -/
def gpCopy (t : GpTree K) : GpTree K := { tree := t.tree, pos := t.pos, mu := t.mu }

/-- `tree_crossover`, gp.c:317-344.  `memcpy` of the `n` elements from a position `i` is
`(l.drop i).take n`; `tree_traverse` returns only positions up to the end of the array, so
the sizes are those of the C expressions. -/
def gpCrossover [FloorRing K] (g : Rng K R) (p1 p2 : GpTree K) (r : R) :
    Res (GpTree K × GpTree K × R) := do
  let d1 := g.uniInt 0 (p1.tree.length : Int) r
  let start1 := d1.1.toNat
  let end1 ← gpEnd p1.tree start1
  let d2 := g.uniInt 0 (p2.tree.length : Int) d1.2
  let start2 := d2.1.toNat
  let end2 ← gpEnd p2.tree start2
  let new1 := p1.tree.take start1 ++ (p2.tree.drop start2).take (end2 - start2) ++ p1.tree.drop end1
  let new2 := p2.tree.take start2 ++ (p1.tree.drop start1).take (end1 - start1) ++ p2.tree.drop end2
  let len1 ← gpEnd new1 0
  let len2 ← gpEnd new2 0
  .ok ({ p1 with tree := new1.take len1 }, { p2 with tree := new2.take len2 }, d2.2)

/-- `cond_gp_crossover`, cond_gp.c:144-156. -/
def gpCondCrossover [FloorRing K] (g : Rng K R) (pCross : K) (p1 p2 : GpTree K) (r : R) :
    Res (Bool × GpTree K × GpTree K × R) :=
  let u := g.uni 0 1 r
  if u.1 < pCross then do
    let (q1, q2, r) ← gpCrossover g p1 p2 u.2
    .ok (true, q1, q2, r)
  else .ok (false, p1, p2, u.2)

/-- The loop of `tree_mutate`, gp.c:360-372: the array, whether an element changed, and the
generator. -/
def gpMutateGo [FloorRing K] (g : Rng K R) (a : GpArgs K) (mu : K) :
    List Int → R → List Int × Bool × R
  | [], r => ([], false, r)
  | node :: rest, r =>
    let u := g.uni 0 1 r
    if u.1 < mu then
      let d := if gpFuncs ≤ node then g.uniInt gpFuncs a.maxTerm u.2 else g.uniInt 0 gpFuncs u.2
      let q := gpMutateGo g a mu rest d.2
      (d.1 :: q.1, decide (d.1 ≠ node) || q.2.1, q.2.2)
    else
      let q := gpMutateGo g a mu rest u.2
      (node :: q.1, q.2.1, q.2.2)

/-- `tree_mutate`, gp.c:354-374. -/
def gpMutate [FloorRing K] (g : Rng K R) (a : GpArgs K) (t : GpTree K) (r : R) :
    Res (GpTree K × Bool × R) := do
  let (mu, r) ← samAdapt1 g .rateSelect t.mu r
  let q := gpMutateGo g a mu t.tree r
  .ok ({ t with tree := q.1, mu := mu }, q.2.1, q.2.2)

end
end Xcsf
