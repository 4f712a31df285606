import Verif.Rand
import Verif.Pa
import Mathlib.Data.Nat.Log

/-!
# Dynamical genetic programming graphs and computed actions
(`dgp.c`, `cond_dgp.c`, `rule_dgp.c`, `rule_neural.c`, `act_integer.c`, `act_neural.c`)

`double` is a linear ordered field (exact arithmetic).  C arrays are lists; reading outside
of one is undefined (`ub`).  A `do … while` loop that keeps trying takes a bound on the number
of tries and exhausting it is `hang`.
-/

namespace Xcsf

/-- `a[i]` for an index that is not negative. -/
def getR {α : Type} (l : List α) (i : Nat) : Res α :=
  match l[i]? with
  | some a => .ok a
  | none => .error .ub

/-- `a[i]` for an `int` index. -/
def getI {α : Type} (l : List α) (i : Int) : Res α :=
  if 0 ≤ i then getR l i.toNat else .error .ub

/-- Fill an array of `n` elements from the generator, first to last. -/
def drawN {α R : Type} (f : R → α × R) : Nat → R → List α × R
  | 0, r => ([], r)
  | n + 1, r =>
    let a := f r
    let l := drawN f n a.2
    (a.1 :: l.1, l.2)

/-- `NUM_FUNC`, dgp.c:31. -/
abbrev dgpFuncs : Int := 3

/-- `struct ArgsDGP`, dgp.h:31-37. -/
structure DgpArgs where
  evolve : Bool
  maxK : Nat
  maxT : Nat
  n : Nat
  nInputs : Nat
  deriving DecidableEq, Repr

/-- `struct Graph`, dgp.h:42-57, without the scratch arrays `tmp_state` and `tmp_input`. -/
structure Graph (K : Type) where
  evolve : Bool
  nInputs : Nat
  n : Nat
  t : Int
  klen : Nat
  maxT : Nat
  maxK : Nat
  state : List K
  initial : List K
  func : List Int
  conn : List Int
  mu : List K
  deriving DecidableEq, Repr

section
variable {K R : Type} [Field K] [LinearOrder K] [IsStrictOrderedRing K]

/-- `MU_TYPE`, dgp.c:41-45. -/
def dgpMuTypes : List SamType := [.logNormal, .logNormal, .uniform]

/-- `random_connection`, dgp.c:52-61. -/
def randConn [FloorRing K] (g : Rng K R) (n nInputs : Nat) (r : R) : Int × R :=
  let u := g.uni 0 1 r
  if u.1 < 1 / 2 then
    let i := g.uniInt 0 n u.2
    (i.1 + nInputs, i.2)
  else g.uniInt 0 nInputs u.2

/-- `graph_mutate_functions`, dgp.c:68-82, and the shape shared with
`graph_mutate_connectivity`, dgp.c:89-103: each element is replaced with probability `rate`. -/
def mutateInts (g : Rng K R) (rate : K) (fresh : R → Int × R) :
    List Int → R → Bool × List Int × R
  | [], r => (false, [], r)
  | a :: l, r =>
    let u := g.uni 0 1 r
    if u.1 < rate then
      let b := fresh u.2
      let q := mutateInts g rate fresh l b.2
      (decide (a ≠ b.1) || q.1, b.1 :: q.2.1, q.2.2)
    else
      let q := mutateInts g rate fresh l u.2
      (q.1, a :: q.2.1, q.2.2)

/-- C's `round`: to the nearest integer, halves away from zero. -/
def cRound [FloorRing K] (x : K) : Int := if 0 ≤ x then ⌊x + 1 / 2⌋ else -⌊-x + 1 / 2⌋

/-- `graph_mutate_cycles`, dgp.c:110-119. -/
def mutateCycles [FloorRing K] (d : Graph K) : Res (Bool × Graph K) := do
  let m ← getR d.mu 2
  let n := cRound (2 * m - 1)
  if d.t + n < 1 ∨ (d.maxT : Int) < d.t + n then .ok (false, d)
  else .ok (true, { d with t := d.t + n })

/-- `node_activate`, dgp.c:128-154. -/
def nodeActivate (f : Int) (ins : List K) : Res K :=
  match ins with
  | [] => .error .ub
  | a :: l =>
    if f = 0 then .ok (clampK (1 - a) 0 1)
    else if f = 1 then .ok (clampK (l.foldl (· * ·) a) 0 1)
    else if f = 2 then .ok (clampK (l.foldl (· + ·) a) 0 1)
    else .error .exit

/-- One input of a node, dgp.c:206-212. -/
def nodeInput (d : Graph K) (x : List K) (i k : Nat) : Res K := do
  let c ← getR d.conn (i * d.maxK + k)
  if c < d.nInputs then getI x c else getI d.state (c - d.nInputs)

/-- The new state of a node, dgp.c:204-215. -/
def nodeNext (d : Graph K) (x : List K) (i : Nat) : Res K := do
  let ins ← (List.range d.maxK).mapM (nodeInput d x i)
  let f ← getR d.func i
  nodeActivate f ins

/-- `synchronous_update`, dgp.c:202-218. -/
def syncUpdate (d : Graph K) (x : List K) : Res (Graph K) := do
  let st ← (List.range d.n).mapM (nodeNext d x)
  .ok { d with state := st }

/-- The loop of `graph_update`, dgp.c:323-325. -/
def cyclesGo (x : List K) : Nat → Graph K → Res (Graph K)
  | 0, d => .ok d
  | k + 1, d => do
    let d ← syncUpdate d x
    cyclesGo x k d

/-- `graph_reset`, dgp.c:283-289. -/
def graphReset (d : Graph K) : Graph K := { d with state := d.initial }

/-- `graph_update`, dgp.c:317-326. -/
def graphUpdate (d : Graph K) (x : List K) (reset : Bool) : Res (Graph K) :=
  cyclesGo x d.t.toNat (if reset then graphReset d else d)

/-- One node of the loop of `graph_rand`, dgp.c:301-305. -/
def randNode [FloorRing K] (g : Rng K R) (r : R) : (Int × K × K) × R :=
  let f := g.uniInt 0 dgpFuncs r
  let i := g.uni 0 1 f.2
  let s := g.uni 0 1 i.2
  ((f.1, i.1, s.1), s.2)

/-- `graph_rand`, dgp.c:295-309. -/
def graphRand [FloorRing K] (g : Rng K R) (d : Graph K) (r : R) : Graph K × R :=
  let t := if d.evolve then g.uniInt 1 d.maxT r else (d.t, r)
  let nodes := drawN (randNode g) d.n t.2
  let cs := drawN (randConn g d.n d.nInputs) d.klen nodes.2
  ({ d with t := t.1, func := nodes.1.map (·.1), initial := nodes.1.map (·.2.1),
            state := nodes.1.map (·.2.2), conn := cs.1 }, cs.2)

/-- `graph_init`, dgp.c:225-243, followed by `graph_rand` in every caller but `graph_copy`'s
(cond_dgp.c:33-40, rule_dgp.c:29-37): the arrays are uninitialised until then. -/
def graphInit [FloorRing K] (g : Rng K R) (a : DgpArgs) (r : R) : Res (Graph K × R) := do
  let (mu, r) ← samInit g dgpMuTypes r
  let d : Graph K :=
    { evolve := a.evolve, nInputs := a.nInputs, n := a.n, t := a.maxT, klen := a.n * a.maxK,
      maxT := a.maxT, maxK := a.maxK, state := [], initial := [], func := [], conn := [], mu := mu }
  .ok (graphRand g d r)

/-- `cond_dgp_copy` and `rule_dgp_cond_copy`, cond_dgp.c:62-70 and rule_dgp.c:48-58:
`graph_init` allocates for the current arguments and draws mutation rates (lost), then
`graph_copy` (dgp.c:250-265) copies; a larger source writes past the new arrays. -/
def graphCopy [FloorRing K] (g : Rng K R) (a : DgpArgs) (src : Graph K) (r : R) :
    Res (Graph K × R) := do
  let (_, r) ← samInit g dgpMuTypes r
  if a.n < src.n ∨ a.n * a.maxK < src.klen then .error .ub
  else .ok (src, r)

/-- `graph_mutate`, dgp.c:539-554. -/
def graphMutate [FloorRing K] (g : Rng K R) (d : Graph K) (r : R) :
    Res (Bool × Graph K × R) := do
  let (mu, r) ← samAdapt g (dgpMuTypes.zip d.mu) r
  let m0 ← getR mu 0
  let f := mutateInts g m0 (g.uniInt 0 dgpFuncs) d.func r
  let m1 ← getR mu 1
  let c := mutateInts g m1 (randConn g d.n d.nInputs) d.conn f.2.2
  let d := { d with mu := mu, func := f.2.1, conn := c.2.1 }
  let mod := f.1 || c.1
  if d.evolve then
    let q ← mutateCycles d
    .ok (mod || q.1, q.2, c.2.2)
  else .ok (mod, d, c.2.2)

/-! ## JSON -/

/-- `function_string`, dgp.c:161-176. -/
def funcString (f : Int) : Res String :=
  if f = 0 then .ok "Fuzzy NOT" else if f = 1 then .ok "Fuzzy AND"
  else if f = 2 then .ok "Fuzzy OR" else .error .exit

/-- `function_int`, dgp.c:183-195: the compared lengths include the terminator. -/
def funcInt (s : String) : Res Int :=
  if s = "Fuzzy NOT" then .ok 0 else if s = "Fuzzy AND" then .ok 1
  else if s = "Fuzzy OR" then .ok 2 else .error .exit

/-- The members of the JSON object that `graph_json_import` reads; `none` is a member that is
absent (or, for the arrays, of another type). A function that is not a string is `none`. -/
structure GraphJson (K : Type) where
  n : Option Int
  t : Option Int
  current : Option (List K)
  initial : Option (List K)
  functions : Option (List (Option String))
  connectivity : Option (List Int)
  mutation : Option (List K)
  deriving DecidableEq, Repr

/-- `graph_json_export`, dgp.c:346-370. -/
def graphExport (d : Graph K) : Res (GraphJson K) := do
  let fs ← d.func.mapM funcString
  .ok { n := some d.n, t := some d.t, current := some d.state, initial := some d.initial,
        functions := some (fs.map some), connectivity := some d.conn, mutation := some d.mu }

/-- `graph_json_import_current_state`, dgp.c:377-395, and `…_initial_state`, dgp.c:402-420. -/
def importUnit (n : Nat) (old : List K) (j : Option (List K)) : Res (List K) :=
  match j with
  | none => .ok old
  | some l =>
    if l.length ≠ n then .error .exit
    else if l.any (fun v => decide (v < 0) || decide (1 < v)) then .error .exit
    else .ok l

/-- One entry of the list, dgp.c:436-439. -/
def importFunc (f : Int) : Option String → Res Int
  | some s => funcInt s
  | none => .ok f

/-- The loop of `graph_json_import_functions`, dgp.c:436-441. -/
def importFuncs : List Int → List (Option String) → Res (List Int)
  | f :: fs, s :: ss => do
    let f ← importFunc f s
    let fs ← importFuncs fs ss
    .ok (f :: fs)
  | fs, _ => .ok fs

/-- The size, dgp.c:480-488. -/
def importSize (n : Nat) : Option Int → Res Nat
  | none => .ok n
  | some m => if m < 1 then .error .exit else .ok m.toNat

/-- The number of cycles, dgp.c:502-510. -/
def importCycles (t : Int) : Option Int → Res Int
  | none => .ok t
  | some t => if t < 1 then .error .exit else .ok t

/-- `graph_json_import_functions`, dgp.c:426-442. -/
def importFuncList (n : Nat) (old : List Int) : Option (List (Option String)) → Res (List Int)
  | none => .ok old
  | some l => if l.length ≠ n then .error .exit else importFuncs old l

/-- `graph_json_import_connectivity`, dgp.c:450-469. -/
def importConn (n nIn klen : Nat) (old : List Int) : Option (List Int) → Res (List Int)
  | none => .ok old
  | some l =>
    if l.length ≠ klen then .error .exit
    else if l.any (fun c => decide (c < 0) || decide ((n : Int) + nIn < c)) then .error .exit
    else .ok l

/-- `graph_json_import`, dgp.c:476-516.  `junk` is the uninitialised content of `mu` and
`t0` the number of cycles of the graph that is replaced. -/
def graphImport [FloorRing K] (g : Rng K R) (a : DgpArgs) (junk : List K) (t0 : Int)
    (j : GraphJson K) (r : R) : Res (Graph K × R) := do
  let n ← importSize a.n j.n
  let d : Graph K :=
    { evolve := a.evolve, nInputs := a.nInputs, n := n, t := t0, klen := n * a.maxK,
      maxT := a.maxT, maxK := a.maxK, state := [], initial := [], func := [], conn := [], mu := junk }
  let (d, r) := graphRand g d r
  let t ← importCycles d.t j.t
  let st ← importUnit n d.state j.current
  let ini ← importUnit n d.initial j.initial
  let fs ← importFuncList n d.func j.functions
  let cs ← importConn n a.nInputs d.klen d.conn j.connectivity
  let mu ← importUnit 3 d.mu j.mutation
  .ok ({ d with t := t, state := st, initial := ini, func := fs, conn := cs, mu := mu }, r)

/-! ## DGP conditions -/

/-- `cond_dgp_match`, cond_dgp.c:112-121, and `rule_dgp_cond_match`, rule_dgp.c:79-89. -/
def dgpMatch (stateful : Bool) (d : Graph K) (x : List K) : Res (Bool × Graph K) := do
  let d ← graphUpdate d x (!stateful)
  let v ← getR d.state 0
  .ok (decide (1 / 2 < v), d)

/-- `cond_dgp_cover`, cond_dgp.c:78-86, with a bound on the tries. -/
def dgpCover [FloorRing K] (g : Rng K R) (stateful : Bool) (x : List K) :
    Nat → Graph K → R → Res (Graph K × R)
  | 0, _, _ => .error .hang
  | k + 1, d, r => do
    let d := graphRand g d r
    let (m, d') ← dgpMatch stateful d.1 x
    if m then .ok (d', d.2) else dgpCover g stateful x k d' d.2

/-! ## Rules that compute their action -/

/-- The loop that reads a binary number off the outputs, rule_dgp.c:236-240 and
rule_neural.c:244-248: bit `i` is output `i + 1`. -/
def bitsGo (out : Nat → Res K) : Nat → Res Int
  | 0 => .ok 0
  | i + 1 => do
    let a ← bitsGo out i
    let v ← out (i + 1)
    .ok (if 1 / 2 < v then a + 2 ^ i else a)

/-- `rule_dgp_act_compute`, rule_dgp.c:228-243, and `rule_neural_act_compute`,
rule_neural.c:237-252.  `out` reads an output, `bits` is the number of action outputs. -/
def bitsAction (nActions : Nat) (bits : Nat) (out : Nat → Res K) : Res Int := do
  let a ← bitsGo out bits
  .ok (clampInt a 0 ((nActions : Int) - 1))

/-- `(int) fmax(1, ceil(log2(n_actions)))`, rule_dgp.c:33. -/
def actionBits (nActions : Nat) : Nat := max 1 (Nat.clog 2 nActions)

/-- `rule_dgp_act_compute`, rule_dgp.c:228-243. -/
def ruleDgpAction (nActions : Nat) (d : Graph K) : Res Int :=
  bitsAction nActions (actionBits nActions) (getR d.state)

/-- `rule_dgp_act_cover`, rule_dgp.c:217-226, with a bound on the tries.  The action is
computed only if the rule does not match. -/
def ruleDgpCover [FloorRing K] (g : Rng K R) (stateful : Bool) (nActions : Nat) (x : List K)
    (action : Int) : Nat → Graph K → R → Res (Graph K × R)
  | 0, _, _ => .error .hang
  | k + 1, d, r => do
    let d := graphRand g d r
    let (m, d') ← dgpMatch stateful d.1 x
    if m then .ok (d', d.2)
    else do
      let a ← ruleDgpAction nActions d'
      if a = action then .ok (d', d.2)
      else ruleDgpCover g stateful nActions x action k d' d.2

/-- What the rules and actions built on a neural network use of it: randomising, propagating
an input and the outputs. -/
structure NetOps (K X R N : Type) where
  /-- `neural_rand` -/
  rand : N → R → N × R
  /-- `neural_propagate` (the noise and dropout layers draw) -/
  propagate : N → X → R → N × R
  /-- `neural_outputs`, `n_outputs` elements -/
  outputs : N → List K

variable {X N : Type}

/-- `rule_neural_cond_match`, rule_neural.c:88-98. -/
def ruleNetMatch (o : NetOps K X R N) (net : N) (x : X) (r : R) : Res (Bool × N × R) := do
  let p := o.propagate net x r
  let v ← getR (o.outputs p.1) 0
  .ok (decide (1 / 2 < v), p.1, p.2)

/-- `rule_neural_act_compute`, rule_neural.c:237-252. -/
def ruleNetAction (o : NetOps K X R N) (nActions : Nat) (net : N) : Res Int :=
  bitsAction nActions ((o.outputs net).length - 1) (getR (o.outputs net))

/-- `rule_neural_act_cover`, rule_neural.c:226-235, with a bound on the tries. -/
def ruleNetCover (o : NetOps K X R N) (nActions : Nat) (x : X) (action : Int) :
    Nat → N → R → Res (N × R)
  | 0, _, _ => .error .hang
  | k + 1, net, r => do
    let q := o.rand net r
    let (m, net, r) ← ruleNetMatch o q.1 x q.2
    if m then .ok (net, r)
    else do
      let a ← ruleNetAction o nActions net
      if a = action then .ok (net, r)
      else ruleNetCover o nActions x action k net r

/-- `act_neural_compute`, act_neural.c:106-113: the first `n_actions` outputs are compared,
however many there are. -/
def actNetAction (o : NetOps K X R N) (nActions : Nat) (net : N) (x : X) (r : R) :
    Res (Nat × N × R) := do
  let p := o.propagate net x r
  if (o.outputs p.1).length < nActions then .error .ub
  else
    let a ← argmax ((o.outputs p.1).take nActions)
    .ok (a, p.1, p.2)

/-- `act_neural_cover`, act_neural.c:151-159, with a bound on the tries. -/
def actNetCover (o : NetOps K X R N) (nActions : Nat) (x : X) (action : Int) :
    Nat → N → R → Res (N × R)
  | 0, _, _ => .error .hang
  | k + 1, net, r => do
    let q := o.rand net r
    let (a, net, r) ← actNetAction o nActions q.1 x q.2
    if (a : Int) = action then .ok (net, r)
    else actNetCover o nActions x action k net r

/-! ## Integer actions -/

/-- `struct ActInteger`, act_integer.h:32-35. -/
structure ActInt (K : Type) where
  action : Int
  mu : K
  deriving DecidableEq, Repr

/-- `act_integer_init`, act_integer.c:177-185. -/
def actIntInit [FloorRing K] (g : Rng K R) (nActions : Nat) (r : R) : Res (ActInt K × R) := do
  let (m, r) ← samInit1 g .logNormal r
  let a := g.uniInt 0 nActions r
  .ok ({ action := a.1, mu := m }, a.2)

/-- `act_integer_mutate`, act_integer.c:78-91. -/
def actIntMutate [FloorRing K] (g : Rng K R) (nActions : Nat) (a : ActInt K) (r : R) :
    Res (Bool × ActInt K × R) := do
  let (m, r) ← samAdapt1 g .logNormal a.mu r
  let u := g.uni 0 1 r
  if u.1 < m then
    let b := g.uniInt 0 nActions u.2
    .ok (decide (a.action ≠ b.1), { action := b.1, mu := m }, b.2)
  else .ok (false, { action := a.action, mu := m }, u.2)

/-- `act_integer_cover`, act_integer.c:148-156. -/
def actIntCover (a : ActInt K) (action : Int) : ActInt K := { a with action := action }

/-- `act_integer_compute`, act_integer.c:100-108. -/
def actIntCompute (a : ActInt K) : Int := a.action

/-- `act_integer_general`, act_integer.c:59-70. -/
def actIntGeneral (a b : ActInt K) : Bool := decide (a.action = b.action)

/-- `act_integer_json_import`, act_integer.c:269-280: any number is taken as the action
(`j.1`), mutation rates are checked (`j.2`). -/
def actIntImport (a : ActInt K) (j : Option Int × Option (List K)) : Res (ActInt K) := do
  let act := j.1.getD a.action
  let mu ← importUnit 1 [a.mu] j.2
  let m ← getR mu 0
  .ok { action := act, mu := m }

end
end Xcsf
