import Verif.BadNeural
import Verif.Gp
import Verif.Dgp

/-!
# Tree and graph conditions over doubles

Matching of conditions that are trees (`gp.c`) or graphs (`dgp.c`), over doubles with infinities and values
that are not a number.  Trees and graphs are those of `Gp.lean` and `Dgp.lean`.
-/

namespace Xcsf.Double

variable {f : Format}

/-- A function node of `tree_eval`, gp.c:143-157. -/
def treeOp (node : Int) (a b : Dbl f) : Res (Dbl f) :=
  let a := clampD a ((-1000 : Int) : Dbl f) ((1000 : Int) : Dbl f)
  let b := clampD b ((-1000 : Int) : Dbl f) ((1000 : Int) : Dbl f)
  if node = 0 then .ok (a + b)
  else if node = 1 then .ok (a - b)
  else if node = 2 then .ok (a * b)
  else if node = 3 then .ok (if b = 0 then a else a / b)
  else .error .exit

/-- `tree_eval`, gp.c:132-158: the value and the new position; reading outside an array is undefined. -/
def treeEvalD (consts x : List (Dbl f)) (tree : List Int) : Nat → Nat → Res (Dbl f × Nat)
  | 0, _ => .error .hang
  | fuel + 1, pos => do
    let node ← getR tree pos
    if gpFuncs + (consts.length : Int) ≤ node then do
      let v ← getR x (node - gpFuncs - (consts.length : Int)).toNat
      .ok (v, pos + 1)
    else if gpFuncs ≤ node then do
      let v ← getR consts (node - gpFuncs).toNat
      .ok (v, pos + 1)
    else do
      let a ← treeEvalD consts x tree fuel (pos + 1)
      let b ← treeEvalD consts x tree fuel a.2
      let v ← treeOp node a.1 b.1
      .ok (v, b.2)

/-- `cond_gp_match`, cond_gp.c:112-121; every nested call reads further on in the array, so its length
bounds their depth. -/
def treeMatchD (consts : List (Dbl f)) (tree : List Int) (x : List (Dbl f)) : Res Bool := do
  let v ← treeEvalD consts x tree (tree.length + 1) 0
  .ok (decide (Xcsf.half < v.1))

/-- `node_activate`, dgp.c:128-154. -/
def nodeActivateD (fn : Int) (ins : List (Dbl f)) : Res (Dbl f) :=
  match ins with
  | [] => .error .ub
  | a :: l =>
    if fn = 0 then .ok (clampD (1 - a) 0 1)
    else if fn = 1 then .ok (clampD (l.foldl (· * ·) a) 0 1)
    else if fn = 2 then .ok (clampD (l.foldl (· + ·) a) 0 1)
    else .error .exit

/-- One input of a node, dgp.c:206-212; `st` holds the states of the nodes. -/
def nodeInputD (d : Graph (Dbl f)) (st x : List (Dbl f)) (i k : Nat) : Res (Dbl f) := do
  let c ← getR d.conn (i * d.maxK + k)
  if c < d.nInputs then getI x c else getI st (c - d.nInputs)

/-- The new state of a node, dgp.c:205-215. -/
def nodeNextD (d : Graph (Dbl f)) (st x : List (Dbl f)) (i : Nat) : Res (Dbl f) := do
  let ins ← (List.range d.maxK).mapM (nodeInputD d st x i)
  let fn ← getR d.func i
  nodeActivateD fn ins

/-- The loop of `graph_update`, dgp.c:323-325, with `synchronous_update`, dgp.c:202-218. -/
def cyclesD (d : Graph (Dbl f)) (x : List (Dbl f)) : Nat → List (Dbl f) → Res (List (Dbl f))
  | 0, st => .ok st
  | k + 1, st => do
    let st ← (List.range d.n).mapM (nodeNextD d st x)
    cyclesD d x k st

/-- `cond_dgp_match`, cond_dgp.c:112-121, and `rule_dgp_cond_match`, rule_dgp.c:79-89, with `graph_update`,
dgp.c:317-326: the result and the new states. -/
def graphMatchD (stateful : Bool) (d : Graph (Dbl f)) (st x : List (Dbl f)) :
    Res (Bool × List (Dbl f)) := do
  let st ← cyclesD d x d.t.toNat (if stateful then st else d.initial)
  let v ← getR st 0
  .ok (decide (Xcsf.half < v), st)

/-- The results for inputs presented one after another, each matched with the states the one before it left
(cond_dgp.c:112-121). -/
def graphMatchesD (stateful : Bool) (d : Graph (Dbl f)) :
    List (Dbl f) → List (List (Dbl f)) → Res (List Bool × List (Dbl f))
  | st, [] => .ok ([], st)
  | st, x :: xs => do
    let a ← graphMatchD stateful d st x
    let b ← graphMatchesD stateful d a.2 xs
    .ok (a.1 :: b.1, b.2)

end Xcsf.Double
