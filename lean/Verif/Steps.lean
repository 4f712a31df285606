import Verif.Trial

/-!
# Sets in memory and the step-by-step interface of reinforcement learning

`Core.lean` and `Trial.lean` treat the match set, the action set and the previous action set as
values.  In the code they are linked lists of nodes that each function allocates and frees, and
`end_step` copies the structure of one set into another, so that two sets share their nodes.  This
file models the three sets as the code has them: a pointer to the first node and two counters.
The seven functions that Python offers to drive a trial step by step (`pybind_wrapper.cpp`) can be
called in any order.

The lists of the population, the stored population and the kill list stay values.  Rules are in
the heap of `St` as before.  The fields `mset`, `aset`, `prevAset` and `prevState` of the `St`
inside are only copies of what the memory holds; no function reads them without having refreshed
them from memory (`peek`), except as an accumulator that it writes itself.
-/

namespace Xcsf
namespace Steps

/-- The heap of list nodes (`struct Clist`, xcsf.h:68-71): a live node holds the rule it points to
and the pointer to the next node; `top` is the next fresh address. -/
structure Nodes where
  node : Nat → Option (Nat × Option Nat) := fun _ => none
  top : Nat := 0

/-- `struct Set`, xcsf.h:76-80: the pointer to the first node and the counters. -/
structure SetVar where
  head : Option Nat := none
  size : Int := 0
  num : Int := 0
  deriving DecidableEq

/-- Writes a node. -/
def Nodes.write (h : Nodes) (q : Nat) (nd : Nat × Option Nat) : Nodes :=
  { h with node := fun k => if k = q then some nd else h.node k }

/-- `free(node)` of a live node. -/
def Nodes.drop (h : Nodes) (q : Nat) : Nodes :=
  { h with node := fun k => if k = q then none else h.node k }

/-- `clset_add`, clset.c:422-437: a new node in front of the list (both branches do the same). -/
def nodeAdd (h : Nodes) (t : SetVar) (i : Nat) (num : Int) : Nodes × SetVar :=
  ({ h.write h.top (i, t.head) with top := h.top + 1 },
   { head := some h.top, size := t.size + 1, num := t.num + num })

/-- Following the list: `while (iter != NULL) { … iter = iter->next; }`.  The first argument bounds
the number of nodes: a list of live nodes is not longer than the number of addresses. -/
def walk (h : Nodes) : Nat → Option Nat → Res (List Nat)
  | _, none => .ok []
  | 0, some _ => .error .hang
  | n + 1, some q =>
    match h.node q with
    | none => .error .uaf
    | some nd => do
      let l ← walk h n nd.2
      .ok (nd.1 :: l)

/-- The rules of a set, with its counters. -/
def peek (h : Nodes) (t : SetVar) : Res CSet := do
  let l ← walk h h.top t.head
  .ok { list := l, size := t.size, num := t.num }

/-- The loop of `clset_free`, clset.c:574-579. -/
def freeGo : Nat → Option Nat → Nodes → Res Nodes
  | _, none, h => .ok h
  | 0, some _, _ => .error .hang
  | n + 1, some q, h =>
    match h.node q with
    | none => .error .uaf
    | some nd => freeGo n nd.2 (h.drop q)

/-- `clset_free`, clset.c:571-582: the nodes are freed, the set is empty afterwards. -/
def nodeFree (h : Nodes) (t : SetVar) : Res (Nodes × SetVar) := do
  let h ← freeGo h.top t.head h
  .ok (h, {})

/-- The loop of `clset_validate`, clset.c:484-503, with the pointers `prev` and `iter`; the rules
are read through `rd`. -/
def validGo {C : Type} (rd : Nat → Res C) (num : C → Int) :
    Nat → Option Nat → Option Nat → Nodes → SetVar → Res (Nodes × SetVar)
  | _, _, none, h, t => .ok (h, t)
  | 0, _, some _, _, _ => .error .hang
  | n + 1, prev, some q, h, t =>
    match h.node q with
    | none => .error .uaf
    | some nd => do
      let c ← rd nd.1
      if num c = 0 then
        match prev with
        | none => validGo rd num n none nd.2 (h.drop q) { t with head := nd.2 }
        | some p =>
          match h.node p with
          | none => .error .uaf
          | some np => validGo rd num n (some p) nd.2 ((h.write p (np.1, nd.2)).drop q) t
      else validGo rd num n (some q) nd.2 h { t with size := t.size + 1, num := t.num + num c }

/-- `clset_validate`, clset.c:479-504. -/
def nodeValidate {C : Type} (rd : Nat → Res C) (num : C → Int) (h : Nodes) (t : SetVar) :
    Res (Nodes × SetVar) :=
  validGo rd num h.top none t.head h { t with size := 0, num := 0 }

/-- `struct XCSF`, xcsf.h:85-141, with the three sets and the remembered state in memory.
`arr` are the arrays allocated for remembered states: a live array is uninitialised or holds a
state; `prev` is the pointer `prev_state`, which nobody initialises before the first trial. -/
structure Low (K X B R : Type) where
  s : St K X B R
  h : Nodes
  m : SetVar
  a : SetVar
  p : SetVar
  arr : Nat → Option (Option X)
  atop : Nat
  prev : Option Nat

section
variable {K X B R : Type} [Zero K] [One K] [Add K] [Sub K] [Mul K] [Div K]
  [LT K] [DecidableLT K] [IntCast K] [DecidableEq K]

/-- `clset_add(&xcsf->mset, c)`, clset.c:422-437. -/
def Low.addM (L : Low K X B R) (i : Nat) (num : Int) : Low K X B R :=
  { L with
    h := (nodeAdd L.h L.m i num).1
    m := (nodeAdd L.h L.m i num).2
    s := { L.s with mset := L.s.mset.add i num } }

/-- The matching loop of `clset_match`, clset.c:380-387 (see `matchGo`). -/
def lowMatchGo (kit : Kit K X B R) (x : X) : List Nat → Low K X B R → Res (Low K X B R)
  | [], L => .ok L
  | i :: l, L => do
    let c ← L.s.rd i
    let (m, b, r) := kit.cmatch L.s.explore c.body x L.s.rng
    let c := { c with m := m, body := b, mtotal := if m then c.mtotal + 1 else c.mtotal,
                      age := c.age + 1 }
    let L := { L with s := { L.s.put i c with rng := r } }
    let L := if m then L.addM i c.num else L
    if m || kit.parallel then
      let (a, b, r) := kit.act L.s.explore c.body x L.s.rng
      lowMatchGo kit x l
        { L with s := { L.s.put i { c with action := a, body := b } with rng := r } }
    else lowMatchGo kit x l L

/-- `clset_action_coverage`, clset.c:136-151, over the list in memory. -/
def lowCoverage (par : Params K) (L : Low K X B R) : Res (List Bool × Bool) := do
  let t ← peek L.h L.m
  let cov ← markActions L.s t.list (List.replicate par.nActions false)
  .ok (cov, cov.all id)

/-- A covering rule joins the population and the match set, clset.c:169-173. -/
def lowCoverOne (par : Params K) (kit : Kit K X B R) (x : X) (a : Nat) (L : Low K X B R) :
    Res (Low K X B R) := do
  let (b, r) := kit.rand L.s.rng
  let (b, r) ← kit.cover L.s.explore b x a r
  let c := { clInit par ((L.m.num : K) + 1) L.s.time b with m := true, action := a }
  let (i, s) := { L.s with rng := r }.alloc c
  let L := { L with s := { s with pset := s.pset.add i c.num } }
  .ok (L.addM i c.num)

/-- The loop over actions, clset.c:166-175. -/
def lowCoverActions (par : Params K) (kit : Kit K X B R) (x : X) :
    List Bool → Nat → Low K X B R → Res (Low K X B R)
  | [], _, L => .ok L
  | true :: cov, a, L => lowCoverActions par kit x cov (a + 1) L
  | false :: cov, a, L => do
    let L ← lowCoverOne par kit x a L
    lowCoverActions par kit x cov (a + 1) L

/-- One iteration of the loop of `clset_cover`, clset.c:165-189. -/
def lowCoverIter (par : Params K) (kit : Kit K X B R) (x : X) (cov : List Bool)
    (L : Low K X B R) : Res (List Bool × Bool × Low K X B R) := do
  let L ← lowCoverActions par kit x cov 0 L
  let prevP := L.s.pset.size
  let s ← enforce par kit L.s
  let L := { L with s := s }
  if L.s.pset.size < prevP then
    let prevM := L.m.size
    let (h, t) ← nodeValidate L.s.rd Cl.num L.h L.m
    let v ← peek h t
    let L := { L with h := h, m := t, s := { L.s with mset := v } }
    if L.m.size < prevM then
      let (cov, covered) ← lowCoverage par L
      .ok (cov, covered, L)
    else .ok (cov, true, L)
  else .ok (cov, true, L)

/-- The loop of `clset_cover`, clset.c:164-195 (see `coverLoop`). -/
def lowCoverLoop (par : Params K) (kit : Kit K X B R) (x : X) :
    Nat → List Bool → Bool → Low K X B R → Res (Low K X B R)
  | _, _, true, L => .ok L
  | 0, cov, false, L => do
    let _ ← lowCoverIter par kit x cov L
    .error .exit
  | n + 1, cov, false, L => do
    let (cov, covered, L) ← lowCoverIter par kit x cov L
    lowCoverLoop par kit x n cov covered L

/-- `clset_cover`, clset.c:158-197. -/
def lowCover (par : Params K) (kit : Kit K X B R) (x : X) (L : Low K X B R) :
    Res (Low K X B R) := do
  let (cov, covered) ← lowCoverage par L
  lowCoverLoop par kit x par.maxCover cov covered L

/-- `clset_match`, clset.c:355-396. -/
def lowMatch (par : Params K) (kit : Kit K X B R) (x : X) (doCover : Bool) (L : Low K X B R) :
    Res (Low K X B R) := do
  let L ← lowMatchGo kit x L.s.pset.list L
  let L ← if doCover ∧ (1 < par.nActions ∨ L.m.size < 1) then lowCover par kit x L else .ok L
  let cs ← L.s.rds L.s.pset.list
  .ok { L with s := { L.s with
    msetSize := L.s.msetSize + ((L.m.size : K) - L.s.msetSize) * par.beta
    mfrac := L.s.mfrac + (mfracOf par kit cs - L.s.mfrac) * par.beta } }

/-- `pa_build`, pa.c:61-114, over the match set in memory. -/
def lowPaBuild (par : Params K) (kit : Kit K X B R) (x : X) (L : Low K X B R) :
    Res (Low K X B R) := do
  let t ← peek L.h L.m
  let s ← paBuild par kit x { L.s with mset := t }
  .ok { L with s := s }

/-- The loop of `clset_action`, clset.c:406-412: the rules of the match set (read beforehand: the
loop changes only the action set) that advocate the action join the action set. -/
def lowActionGo (s : St K X B R) (a : Int) : List Nat → Nodes → SetVar → Res (Nodes × SetVar)
  | [], h, t => .ok (h, t)
  | i :: l, h, t => do
    let c ← s.rd i
    if c.action = a then
      lowActionGo s a l (nodeAdd h t i c.num).1 (nodeAdd h t i c.num).2
    else lowActionGo s a l h t

/-- `clset_action`, clset.c:403-415. -/
def lowAction (par : Params K) (a : Int) (L : Low K X B R) : Res (Low K X B R) := do
  let v ← peek L.h L.m
  let (h, t) ← lowActionGo L.s a v.list L.h L.a
  let w ← peek h t
  .ok { L with h := h, a := t, s := { L.s with
    aset := w
    asetSize := L.s.asetSize + ((t.size : K) - L.s.asetSize) * par.beta } }

/-- `clset_subsumption`, clset.c:229-261, on the set `t`. -/
def lowSubsumption (par : Params K) (kit : Kit K X B R) (h : Nodes) (t : SetVar)
    (s : St K X B R) : Res (Nodes × SetVar × St K X B R) := do
  let v ← peek h t
  let best ← findSubsumer par kit s v.list none
  match best with
  | none => .ok (h, t, s)
  | some sid =>
    let (done, s) ← subsumeGo kit sid v.list false s
    if done then
      let (h, t) ← nodeValidate s.rd Cl.num h t
      let p ← validate s s.pset
      .ok (h, t, { s with pset := p })
    else .ok (h, t, s)

/-- `clset_update`, clset.c:447-473, on the set `t`. -/
def lowUpdateSet (par : Params K) (kit : Kit K X B R) (h : Nodes) (t : SetVar) (x : X)
    (y : List K) (cur : Bool) (s : St K X B R) : Res (Nodes × SetVar × St K X B R) := do
  let v ← peek h t
  let s ← updateGo par kit x y t.num cur v.list s
  let s ← updateFit par kit v s
  if par.setSubsumption then lowSubsumption par kit h t s else .ok (h, t, s)

/-- The remembered state: reading through a pointer that was never set is undefined, and so is
reading an array that nothing was written to. -/
def Low.readPrev (L : Low K X B R) : Res X :=
  match L.prev with
  | none => .error .ub
  | some q =>
    match L.arr q with
    | none => .error .uaf
    | some none => .error .ub
    | some (some x) => .ok x

/-- Update of the previous action set, xcs_rl.c:196-203. -/
def lowUpdatePrev (par : Params K) (kit : Kit K X B R) (L : Low K X B R) :
    Res (Low K X B R) := do
  if L.p.head = none then .ok L
  else
    let bv ← paBestVal L.s.pa
    let y := L.s.prevReward + par.gamma * bv
    let (h, t) ← nodeValidate L.s.rd Cl.num L.h L.p
    let px ← L.readPrev
    let (h, t, s) ← lowUpdateSet par kit h t px [y] false L.s
    let v ← peek h t
    let L := { L with h := h, p := t, s := { s with prevAset := v } }
    if L.s.explore then do
      let s ← ea par kit v L.s
      .ok { L with s := s }
    else .ok L

/-- Update of the current action set in a terminal state, xcs_rl.c:204-210. -/
def lowUpdateCur (par : Params K) (kit : Kit K X B R) (x : X) (reward : K) (done : Bool)
    (L : Low K X B R) : Res (Low K X B R) := do
  if done then
    let (h, t) ← nodeValidate L.s.rd Cl.num L.h L.a
    let (h, t, s) ← lowUpdateSet par kit h t x [reward] true L.s
    let v ← peek h t
    let L := { L with h := h, a := t, s := { s with aset := v } }
    if L.s.explore then do
      let s ← ea par kit v L.s
      .ok { L with s := s }
    else .ok L
  else .ok L

/-- `xcs_rl_update`, xcs_rl.c:191-211. -/
def lowUpdate (par : Params K) (kit : Kit K X B R) (x : X) (a : Int) (reward : K) (done : Bool)
    (L : Low K X B R) : Res (Low K X B R) := do
  let L ← lowAction par a L
  let L ← lowUpdatePrev par kit L
  lowUpdateCur par kit x reward done L

/-- `xcs_rl_error`, xcs_rl.c:222-237: the previous action set is only compared with NULL. -/
def lowError (par : Params K) (kit : Kit K X B R) (a : Int) (reward : K) (done : Bool) (maxP : K)
    (L : Low K X B R) : Res (K × Low K X B R) := do
  let pred ← paVal par L.s.pa a
  let e : K := if L.p.head = none then 0
    else 0 + kit.loss [L.s.prevPred] [L.s.prevReward + par.gamma * pred] / maxP
  let e : K := if done then e + kit.loss [pred] [reward] / maxP else e
  .ok (e, { L with s := { L.s with error := L.s.error + (e - L.s.error) * par.beta } })

/-- `xcs_rl_decision`, xcs_rl.c:246-255. -/
def lowDecision (par : Params K) (kit : Kit K X B R) (x : X) (L : Low K X B R) :
    Res (Int × Low K X B R) := do
  let L ← lowMatch par kit x true L
  let L ← lowPaBuild par kit x L
  if L.s.explore then
    let u := uniform kit 0 1 L.s.rng
    let L := { L with s := { L.s with rng := u.2 } }
    if u.1 < par.pExplore then
      let (a, r) ← paRandAction par kit L.s.nr par.loopBound L.s.rng
      .ok (a, { L with s := { L.s with rng := r } })
    else
      let (a, r) ← paBestAction par kit L.s.pa L.s.rng
      .ok (a, { L with s := { L.s with rng := r } })
  else
    let (a, r) ← paBestAction par kit L.s.pa L.s.rng
    .ok (a, { L with s := { L.s with rng := r } })

/-- `xcs_rl_init_trial`, xcs_rl.c:125-138 (`x_dim ≥ 1` assumed): a new array for the remembered
state; the sets are set to NULL, whatever they were before. -/
def lowInitTrial (L : Low K X B R) : Low K X B R :=
  { L with
    s := rlInitTrial L.s
    p := {}
    arr := fun q => if q = L.atop then some none else L.arr q
    atop := L.atop + 1
    prev := some L.atop }

/-- `xcs_rl_init_step`, xcs_rl.c:156-161: the sets are set to NULL. -/
def lowInitStep (L : Low K X B R) : Low K X B R :=
  { L with s := rlInitStep L.s, m := {}, a := {} }

/-- `xcs_rl_end_step`, xcs_rl.c:170-180: `prev_aset = aset` copies the structure, so that both sets
have the same nodes from now on. -/
def lowEndStep (par : Params K) (x : X) (a : Int) (reward : K) (L : Low K X B R) :
    Res (Low K X B R) := do
  let (h, m) ← nodeFree L.h L.m
  let (h, _) ← nodeFree h L.p
  let v ← paVal par L.s.pa a
  match L.prev with
  | none => .error .ub
  | some q =>
    match L.arr q with
    | none => .error .uaf
    | some _ =>
      .ok { L with
        h := h, m := m, p := L.a
        arr := fun k => if k = q then some (some x) else L.arr k
        s := { L.s with mset := {}, prevAset := L.s.aset, prevReward := reward, prevPred := v,
                        prevState := some x } }

/-- `xcs_rl_end_trial`, xcs_rl.c:144-150: the pointer `prev_state` keeps its value. -/
def lowEndTrial (L : Low K X B R) : Res (Low K X B R) := do
  let (h, p) ← nodeFree L.h L.p
  let s ← killKset { L.s with prevAset := {}, prevState := none }
  match L.prev with
  | none => .error .ub
  | some q =>
    match L.arr q with
    | none => .error .uaf
    | some _ => .ok { L with
        h := h, p := p, s := s
        arr := fun k => if k = q then none else L.arr k }

/-- `xcs_rl_fit`, xcs_rl.c:103-119. -/
def lowFit (par : Params K) (kit : Kit K X B R) (x : X) (a : Int) (reward : K)
    (L : Low K X B R) : Res (K × Low K X B R) := do
  let L := lowInitStep (lowInitTrial L)
  let L ← lowMatch par kit x true L
  let L ← lowPaBuild par kit x L
  let pred ← paVal par L.s.pa a
  let e := kit.loss [pred] [reward]
  let L ← lowUpdate par kit x a reward true { L with s := { L.s with explore := true } }
  let L ← lowEndStep par x a reward L
  let L ← lowEndTrial L
  .ok (e, { L with s := { L.s with error := L.s.error + (e - L.s.error) * par.beta } })

/-- Match set and system prediction of a supervised trial, xcs_supervised.c:64-74 (see
`supSense`). -/
def lowSense (par : Params K) (kit : Kit K X B R) (x : X) (coverArr : Option (List K))
    (L : Low K X B R) : Res (Low K X B R) :=
  match coverArr with
  | some cv => do
    let L ← lowMatch par kit x false L
    if L.m.size < 1 then .ok { L with s := { L.s with pa := cv } } else lowPaBuild par kit x L
  | none => do
    let L ← lowMatch par kit x true L
    lowPaBuild par kit x L

/-- Update and rule discovery of a supervised trial, xcs_supervised.c:75-78 (see `supLearn`). -/
def lowLearn (par : Params K) (kit : Kit K X B R) (x : X) (y : Option (List K))
    (L : Low K X B R) : Res (Low K X B R) :=
  if L.s.explore then
    match y with
    | none => .error .ub
    | some y => do
      let (h, t, s) ← lowUpdateSet par kit L.h L.m x y true L.s
      let v ← peek h t
      let s ← ea par kit v { s with mset := v }
      .ok { L with h := h, m := t, s := s }
  else .ok L

/-- `xcs_supervised_trial`, xcs_supervised.c:58-85: `clset_kill` of the kill list comes before
`clset_free` of the match set. -/
def lowSupTrial (par : Params K) (kit : Kit K X B R) (x : X) (y : Option (List K))
    (coverArr : Option (List K)) (L : Low K X B R) : Res (Low K X B R) := do
  let L ← lowSense par kit x coverArr { L with m := {}, s := { L.s with mset := {}, kset := {} } }
  let L ← lowLearn par kit x y L
  let s ← killKset L.s
  let (h, m) ← nodeFree L.h L.m
  .ok { L with h := h, m := m, s := { s with mset := {} } }

/-! ## The Python class -/

/-- The private fields of the Python class that belong to reinforcement learning,
pybind_wrapper.cpp:66-69, with the system.  `state` is the array given to the last `decision`,
which is assumed to be alive and unchanged (that it need not be is the subject of
`PropsWrapper.lean`); `none` is the NULL of the constructor, pybind_wrapper.cpp:108. -/
structure Py (K X B R : Type) where
  low : Low K X B R
  state : Option X
  action : Int
  payoff : K

/-- The calls, pybind_wrapper.cpp:221-328 and (one row of) 430-606. -/
inductive Call (K X : Type) where
  | initTrial
  | endTrial
  | initStep
  | endStep
  | decision (x : X) (explore : Bool)
  | update (reward : K) (done : Bool)
  | error (reward : K) (done : Bool) (maxP : K)
  | fit (x : X) (a : Int) (reward : K)
  | supervised (x : X) (y cover : Option (List K)) (explore : Bool)

/-- What a call returns. -/
inductive Out (K : Type) where
  | nothing
  | act (a : Int)
  | num (e : K)

/-- One call: `fit` (pybind_wrapper.cpp:221-241), `init_trial` (246-250), `end_trial` (255-259),
`init_step` (264-268), `end_step` (273-277), `decision` (286-299), `update` (307-312), `error`
(321-326); the checks of the shapes and of the action of `fit` are left out.  `supervised` is one row
of `fit`, `predict` or `score`. -/
def call (par : Params K) (kit : Kit K X B R) (c : Py K X B R) : Call K X →
    Res (Out K × Py K X B R)
  | .initTrial => .ok (.nothing, { c with low := lowInitTrial c.low })
  | .endTrial => do
    let L ← lowEndTrial c.low
    .ok (.nothing, { c with low := L })
  | .initStep => .ok (.nothing, { c with low := lowInitStep c.low })
  | .endStep =>
    match c.state with
    | none => .error .ub
    | some x => do
      let L ← lowEndStep par x c.action c.payoff c.low
      .ok (.nothing, { c with low := L })
  | .decision x explore => do
    let (a, L) ← lowDecision par kit x { c.low with s := { c.low.s with explore := explore } }
    .ok (.act a, { c with low := L, state := some x, action := a })
  | .update reward done =>
    match c.state with
    | none => .error .ub
    | some x => do
      let L ← lowUpdate par kit x c.action reward done c.low
      .ok (.nothing, { c with low := L, payoff := reward })
  | .error reward done maxP => do
    let (e, L) ← lowError par kit c.action reward done maxP c.low
    .ok (.num e, { c with low := L, payoff := reward })
  | .fit x a reward => do
    let (e, L) ← lowFit par kit x a reward c.low
    .ok (.num e, { c with low := L, state := some x })
  | .supervised x y cv explore => do
    let L ← lowSupTrial par kit x y cv { c.low with s := { c.low.s with explore := explore } }
    .ok (.nothing, { c with low := L })

/-- A sequence of calls. -/
def calls (par : Params K) (kit : Kit K X B R) :
    List (Call K X) → Py K X B R → Res (List (Out K) × Py K X B R)
  | [], c => .ok ([], c)
  | k :: ks, c => do
    let (o, c) ← call par kit c k
    let (os, c) ← calls par kit ks c
    .ok (o :: os, c)

/-- The loop of the documented program for a trial, python/example_maze.py:244-255, with the
environment of the program; the first argument is the number of steps left. -/
def driveGo (par : Params K) (kit : Kit K X B R) (env : Nat → EnvStep K X) (explore : Bool) :
    Nat → Nat → K → Py K X B R → Res (Nat × K × Py K X B R)
  | 0, n, e, c => .ok (n, e, c)
  | k + 1, n, e, c => do
    let (_, c) ← call par kit c .initStep
    let (o, c) ← call par kit c (.decision (env n).state explore)
    let a := match o with | .act a => a | _ => 0
    let rd := (env n).respond a
    let (_, c) ← call par kit c (.update rd.1 rd.2)
    let (o, c) ← call par kit c (.error rd.1 rd.2 (env n).maxPayoff)
    let de := match o with | .num e => e | _ => 0
    let (_, c) ← call par kit c .endStep
    if rd.2 then .ok (n + 1, e + de, c) else driveGo par kit env explore k (n + 1) (e + de) c

/-- The documented program for a trial, python/example_maze.py:238-257: the number of steps and the
mean error. -/
def drive (par : Params K) (kit : Kit K X B R) (env : Nat → EnvStep K X) (explore : Bool)
    (c : Py K X B R) : Res (Nat × K × Py K X B R) := do
  let (_, c) ← call par kit c .initTrial
  let (n, e, c) ← driveGo par kit env explore par.teletransportation 0 0 c
  let (_, c) ← call par kit c .endTrial
  .ok (n, e / ((n : Int) : K), c)

end

end Steps
end Xcsf
