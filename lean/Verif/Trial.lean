import Verif.Ea
import Verif.Pa

/-!
# Learning steps and histories (`xcs_supervised.c`, `xcs_rl.c`, `xcsf.c`)
-/

namespace Xcsf
variable {K X B R : Type} [Zero K] [One K] [Add K] [Sub K] [Mul K] [Div K]
  [LT K] [DecidableLT K] [IntCast K] [DecidableEq K]

/-- Match set and system prediction of a supervised trial, xcs_supervised.c:64-74.
`coverArr = none` is the NULL cover array that `fit` passes: covering is enabled.
With a cover array nothing is covered and an empty match set predicts that array. -/
def supSense (par : Params K) (kit : Kit K X B R) (x : X) (coverArr : Option (List K))
    (s : St K X B R) : Res (St K X B R) :=
  match coverArr with
  | some cv => do
    let s ← clsetMatch par kit x false s
    if s.mset.size < 1 then .ok { s with pa := cv } else paBuild par kit x s
  | none => do
    let s ← clsetMatch par kit x true s
    paBuild par kit x s

/-- Update and rule discovery of a supervised trial, xcs_supervised.c:75-78; `y = none`
is the NULL target that `predict` passes. -/
def supLearn (par : Params K) (kit : Kit K X B R) (x : X) (y : Option (List K))
    (s : St K X B R) : Res (St K X B R) :=
  if s.explore then
    match y with
    | none => .error .ub
    | some y => do
      let p ← clsetUpdate par kit s.mset x y true s
      ea par kit p.1 { p.2 with mset := p.1 }
  else .ok s

/-- `xcs_supervised_trial`, xcs_supervised.c:58-85. -/
def supTrial (par : Params K) (kit : Kit K X B R) (x : X) (y : Option (List K))
    (coverArr : Option (List K)) (s : St K X B R) : Res (St K X B R) := do
  let s ← supSense par kit x coverArr { s with mset := {}, kset := {} }
  let s ← supLearn par kit x y s
  let s ← killKset s
  .ok { s with mset := {} }

/-- The training part of one iteration of `xcs_supervised_fit`,
xcs_supervised.c:111-116. -/
def fitStep (par : Params K) (kit : Kit K X B R) (x : X) (y : List K) (s : St K X B R) :
    Res (K × St K X B R) := do
  let s ← supTrial par kit x (some y) none { s with explore := true }
  let e := kit.loss s.pa y
  .ok (e, { s with error := s.error + (e - s.error) * par.beta })

/-- The validation part of one iteration of `xcs_supervised_fit`,
xcs_supervised.c:118-125: the trial runs with covering enabled. -/
def testStep (par : Params K) (kit : Kit K X B R) (x : X) (y : List K) (s : St K X B R) :
    Res (K × St K X B R) := do
  let s ← supTrial par kit x (some y) none { s with explore := false }
  .ok (kit.loss s.pa y, s)

/-- One row of `xcs_supervised_predict`, xcs_supervised.c:144-149. -/
def predictRow (par : Params K) (kit : Kit K X B R) (cv : List K) (x : X)
    (s : St K X B R) : Res (List K × St K X B R) := do
  let s ← supTrial par kit x none (some cv) { s with explore := false }
  .ok (s.pa, s)

/-- `xcs_supervised_predict`, xcs_supervised.c:140-150. -/
def predictBatch (par : Params K) (kit : Kit K X B R) (cv : List K) :
    List X → St K X B R → Res (List (List K) × St K X B R)
  | [], s => .ok ([], { s with explore := false })
  | x :: xs, s => do
    let (p, s) ← predictRow par kit cv x s
    let (ps, s) ← predictBatch par kit cv xs s
    .ok (p :: ps, s)

/-- The loop of `xcs_supervised_score`, xcs_supervised.c:166-171. -/
def scoreGo (par : Params K) (kit : Kit K X B R) (cv : List K) :
    List (X × List K) → K → St K X B R → Res (K × St K X B R)
  | [], e, s => .ok (e, { s with explore := false })
  | (x, y) :: rows, e, s => do
    let s ← supTrial par kit x (some y) (some cv) { s with explore := false }
    scoreGo par kit cv rows (e + kit.loss s.pa y) s

/-- `xcs_supervised_score`, xcs_supervised.c:160-173. -/
def score (par : Params K) (kit : Kit K X B R) (cv : List K) (rows : List (X × List K))
    (s : St K X B R) : Res (K × St K X B R) := do
  let (e, s) ← scoreGo par kit cv rows 0 s
  .ok (e / ((rows.length : Int) : K), s)

/-! ## Reinforcement learning -/

/-- `xcs_rl_init_trial`, xcs_rl.c:125-138 (`x_dim ≥ 1` assumed; `prev_state` is
uninitialised memory: `none`). -/
def rlInitTrial (s : St K X B R) : St K X B R :=
  { s with prevReward := 0, prevPred := 0, prevState := none, prevAset := {}, kset := {} }

/-- `xcs_rl_init_step`, xcs_rl.c:156-161. -/
def rlInitStep (s : St K X B R) : St K X B R := { s with mset := {}, aset := {} }

/-- `xcs_rl_end_step`, xcs_rl.c:170-180. -/
def rlEndStep (par : Params K) (x : X) (a : Int) (reward : K) (s : St K X B R) :
    Res (St K X B R) := do
  let v ← paVal par s.pa a
  .ok { s with mset := {}, prevAset := s.aset, prevReward := reward, prevPred := v,
               prevState := some x }

/-- `xcs_rl_end_trial`, xcs_rl.c:144-150. -/
def rlEndTrial (s : St K X B R) : Res (St K X B R) :=
  killKset { s with prevAset := {}, prevState := none }

/-- `xcs_rl_decision`, xcs_rl.c:246-255. -/
def rlDecision (par : Params K) (kit : Kit K X B R) (x : X) (s : St K X B R) :
    Res (Int × St K X B R) := do
  let s ← clsetMatch par kit x true s
  let s ← paBuild par kit x s
  if s.explore then
    let u := uniform kit 0 1 s.rng
    let s := { s with rng := u.2 }
    if u.1 < par.pExplore then
      let (a, r) ← paRandAction par kit s.nr par.loopBound s.rng
      .ok (a, { s with rng := r })
    else
      let (a, r) ← paBestAction par kit s.pa s.rng
      .ok (a, { s with rng := r })
  else
    let (a, r) ← paBestAction par kit s.pa s.rng
    .ok (a, { s with rng := r })

/-- Update of the previous action set, xcs_rl.c:196-203. -/
def rlUpdatePrev (par : Params K) (kit : Kit K X B R) (s : St K X B R) :
    Res (St K X B R) := do
  if s.prevAset.list = [] then .ok s
  else
    let bv ← paBestVal s.pa
    let p := s.prevReward + par.gamma * bv
    let t ← validate s s.prevAset
    match s.prevState with
    | none => .error .ub
    | some px => do
      let (t, s) ← clsetUpdate par kit t px [p] false s
      let s := { s with prevAset := t }
      if s.explore then ea par kit t s else .ok s

/-- Update of the current action set in a terminal state, xcs_rl.c:204-210. -/
def rlUpdateCur (par : Params K) (kit : Kit K X B R) (x : X) (reward : K) (done : Bool)
    (s : St K X B R) : Res (St K X B R) := do
  if done then
    let t ← validate s s.aset
    let (t, s) ← clsetUpdate par kit t x [reward] true s
    let s := { s with aset := t }
    if s.explore then ea par kit t s else .ok s
  else .ok s

/-- `xcs_rl_update`, xcs_rl.c:191-211. -/
def rlUpdate (par : Params K) (kit : Kit K X B R) (x : X) (a : Int) (reward : K)
    (done : Bool) (s : St K X B R) : Res (St K X B R) := do
  let s ← clsetAction par a s
  let s ← rlUpdatePrev par kit s
  rlUpdateCur par kit x reward done s

/-- `xcs_rl_error`, xcs_rl.c:222-237. -/
def rlError (par : Params K) (kit : Kit K X B R) (a : Int) (reward : K) (done : Bool)
    (maxP : K) (s : St K X B R) : Res (K × St K X B R) := do
  let pred ← paVal par s.pa a
  let e : K := if s.prevAset.list = [] then 0
    else 0 + kit.loss [s.prevPred] [s.prevReward + par.gamma * pred] / maxP
  let e : K := if done then e + kit.loss [pred] [reward] / maxP else e
  .ok (e, { s with error := s.error + (e - s.error) * par.beta })

/-- An environment as seen during one trial: at step `n` it shows a state and
answers an action with a reward and the `done` flag.  Every environment (built-in or
user supplied) is such a stream along any given run. -/
structure EnvStep (K X : Type) where
  state : X
  respond : Int → K × Bool
  maxPayoff : K

/-- The loop of `xcs_rl_trial`, xcs_rl.c:52-63; the first argument is the number of
steps left before teletransportation. -/
def rlTrialGo (par : Params K) (kit : Kit K X B R) (env : Nat → EnvStep K X) :
    Nat → Nat → K → St K X B R → Res (Nat × K × St K X B R)
  | 0, n, e, s => .ok (n, e, s)
  | k + 1, n, e, s => do
    let s := rlInitStep s
    let x := (env n).state
    let (a, s) ← rlDecision par kit x s
    let rd := (env n).respond a
    let s ← rlUpdate par kit x a rd.1 rd.2 s
    let (de, s) ← rlError par kit a rd.1 rd.2 (env n).maxPayoff s
    let s ← rlEndStep par x a rd.1 s
    if rd.2 then .ok (n + 1, e + de, s)
    else rlTrialGo par kit env k (n + 1) (e + de) s

/-- `xcs_rl_trial`, xcs_rl.c:42-70: the number of steps and the mean error. -/
def rlTrial (par : Params K) (kit : Kit K X B R) (env : Nat → EnvStep K X)
    (explore : Bool) (s : St K X B R) : Res (Nat × K × St K X B R) := do
  let s := rlInitTrial { s with explore := explore }
  let (n, e, s) ← rlTrialGo par kit env par.teletransportation 0 0 s
  let s ← rlEndTrial s
  .ok (n, e / ((n : Int) : K), s)

/-- `xcs_rl_fit`, xcs_rl.c:103-119. -/
def rlFit (par : Params K) (kit : Kit K X B R) (x : X) (a : Int) (reward : K)
    (s : St K X B R) : Res (K × St K X B R) := do
  let s := rlInitStep (rlInitTrial s)
  let s ← clsetMatch par kit x true s
  let s ← paBuild par kit x s
  let pred ← paVal par s.pa a
  let e := kit.loss [pred] [reward]
  let s ← rlUpdate par kit x a reward true { s with explore := true }
  let s ← rlEndStep par x a reward s
  let s ← rlEndTrial s
  .ok (e, { s with error := s.error + (e - s.error) * par.beta })

/-! ## Whole-population operations -/

/-- The loop of `clset_pset_init`, clset.c:314-319, with a bound on the iterations. -/
def psetInitGo (par : Params K) (kit : Kit K X B R) : Nat → St K X B R → Res (St K X B R)
  | 0, s => if s.pset.num < par.popSize then .error .hang else .ok s
  | n + 1, s =>
    if s.pset.num < par.popSize then
      let b := kit.rand s.rng
      let c := clInit par (par.popSize : K) 0 b.1
      let a := { s with rng := b.2 }.alloc c
      psetInitGo par kit n { a.2 with pset := s.pset.add a.1 c.num }
    else .ok s

/-- The empty system of `xcsf_init`, xcsf.c:36-49, before the population is
initialised.  Fields that C leaves uninitialised until a trial initialises
them are empty here. -/
def initSt (par : Params K) (r : R) : St K X B R :=
    { heap := fun _ => none, next := 0, pset := {}, prevPset := {}, mset := {}, aset := {},
      kset := {}, prevAset := {}, error := par.e0, msetSize := 0, asetSize := 0, mfrac := 0,
      prevReward := 0, prevPred := 0, prevState := none,
      pa := List.replicate (par.nActions * par.yDim) 0,
      nr := List.replicate (par.nActions * par.yDim) 0, time := 0, explore := false, rng := r }

/-- `xcsf_init` with `clset_pset_init`, xcsf.c:36-49 and clset.c:307-321, without a
population file. -/
def xcsfInit (par : Params K) (kit : Kit K X B R) (r : R) : Res (St K X B R) :=
  if par.popInit then psetInitGo par kit par.popSize.toNat (initSt par r) else .ok (initSt par r)

/-- `cl_init_copy`, cl.c:83-103: the current prediction is zeroed, everything else
is copied. -/
def initCopy (par : Params K) (kit : Kit K X B R) (c : Cl K B) (r : R) : Cl K B × R :=
  ({ c with prediction := List.replicate par.yDim 0, body := (kit.clone c.body r).1 },
    (kit.clone c.body r).2)

/-- The loop of `xcsf_store_pset`, xcsf.c:198-205. -/
def storeGo (par : Params K) (kit : Kit K X B R) : List Nat → St K X B R → Res (St K X B R)
  | [], s => .ok s
  | i :: l, s => do
    let c ← s.rd i
    let c := initCopy par kit c s.rng
    let a := s.alloc c.1
    storeGo par kit l { a.2 with prevPset := s.prevPset.add a.1 c.1.num, rng := c.2 }

/-- `xcsf_store_pset`, xcsf.c:194-206. -/
def store (par : Params K) (kit : Kit K X B R) (s : St K X B R) : Res (St K X B R) := do
  let s ← killGo s s.prevPset.list
  storeGo par kit s.pset.list { s with prevPset := {} }

/-- `xcsf_retrieve_pset`, xcsf.c:212-222. -/
def retrieve (s : St K X B R) : Res (St K X B R) := do
  if s.prevPset.size < 1 then .ok s
  else
    let s ← killGo s s.pset.list
    .ok { s with pset := s.prevPset, prevPset := {} }

/-- `clset_json_insert_cl`, clset.c:779-788, for a rule already parsed by
`cl_json_import` (cl.c:608-626). -/
def insertCl (par : Params K) (kit : Kit K X B R) (c : Cl K B) (s : St K X B R) :
    Res (St K X B R) := do
  let a := s.alloc c
  let s ← enforce par kit { a.2 with pset := s.pset.add a.1 c.num, kset := {} }
  killKset s

/-- `clset_json_insert`, clset.c:796-812: from the last array element to the
first.  An empty array dereferences NULL (clset.c:802). -/
def jsonInsert (par : Params K) (kit : Kit K X B R) (cs : List (Cl K B)) (s : St K X B R) :
    Res (St K X B R) :=
  match cs with
  | [] => .error .ub
  | _ => cs.reverse.foldlM (fun s c => insertCl par kit c s) s

/-! ## Histories -/

/-- The calls a program can make on a system (with the arguments that matter to the
rule life-cycle). -/
inductive Op (K X B : Type) where
  | fit (x : X) (y : List K)
  | test (x : X) (y : List K)
  | predict (xs : List X) (cv : List K)
  | score (rows : List (X × List K)) (cv : List K)
  | rlFit (x : X) (a : Int) (reward : K)
  | rlTrial (env : Nat → EnvStep K X) (explore : Bool)
  | insert (c : Cl K B)
  | import (cs : List (Cl K B))
  | store
  | retrieve

/-- One call. -/
def step (par : Params K) (kit : Kit K X B R) (s : St K X B R) : Op K X B → Res (St K X B R)
  | .fit x y => do let (_, s) ← fitStep par kit x y s; .ok s
  | .test x y => do let (_, s) ← testStep par kit x y s; .ok s
  | .predict xs cv => do let (_, s) ← predictBatch par kit cv xs s; .ok s
  | .score rows cv => do let (_, s) ← score par kit cv rows s; .ok s
  | .rlFit x a reward => do let (_, s) ← rlFit par kit x a reward s; .ok s
  | .rlTrial env explore => do let (_, _, s) ← rlTrial par kit env explore s; .ok s
  | .insert c => insertCl par kit c s
  | .import cs => jsonInsert par kit cs s
  | .store => store par kit s
  | .retrieve => retrieve s

/-- A history of calls from an initialised system. -/
def run (par : Params K) (kit : Kit K X B R) (r : R) (ops : List (Op K X B)) :
    Res (St K X B R) := do
  let s ← xcsfInit par kit r
  ops.foldlM (step par kit) s

end Xcsf
