import Verif.Trial

/-!
# The multi-threaded program (`PARALLEL_MATCH`, `PARALLEL_PRED`, `PARALLEL_UPDATE`)

The default build (CMakeLists.txt:34, 122-129) runs three loops over rules with `#pragma omp
parallel for`: matching with the actions (clset.c:359-377), the predictions (pa.c:68-84) and the
update of a set (clset.c:451-461).  Here the body of such a loop is a program of small steps, each
of which either reads and writes the rule of its iteration or uses the generator of random numbers,
which all threads share (the global state of dSFMT, and the static variables of `rand_normal`,
utils.c:92-95).  Everything else a body reads (parameters, the input, the target, the numerosity of
the set, `explore`) is not written while the loop runs.

The iterations are distributed over threads in any way, and the steps of the threads are
interleaved in any way.  There is no synchronisation inside a loop, so two threads that access one
rule, or both use the generator, race whatever the interleaving: undefined behaviour (C11
5.1.2.4p25).  At the end of the loop all threads have finished their iterations.

The result of a computation is the set of its possible outcomes.  Not modelled: steps of different
threads that overlap in time (without a race they have the effect of some interleaving, C11
5.1.2.4), the start and end of threads, their number `omp_set_num_threads`.
-/

namespace Xcsf

/-! ## Loop bodies and threads -/

/-- The work that remains to be done on a rule: nothing; a step that changes the rule and goes on
depending on what it read of it; a use of the generator, which yields a value (of type `A`). -/
inductive Prog (A C R : Type) where
  | done
  | own (f : C → C) (k : C → Prog A C R)
  | draw (g : R → A × R) (k : A → Prog A C R)

section Machine
variable {A C R : Type}

/-- The whole body of an iteration, executed alone. -/
def Prog.run : Prog A C R → C → R → C × R
  | .done, c, r => (c, r)
  | .own f k, c, r => (k c).run (f c) r
  | .draw g k, c, r => (k (g r).1).run c (g r).2

/-- A body that does not use the generator. -/
def Prog.Quiet : Prog A C R → Prop
  | .done => True
  | .own _ k => ∀ c, (k c).Quiet
  | .draw _ _ => False

/-- The threads of a loop: the rules, the generator, which thread has accessed a rule, which
thread has used the generator, and the iterations each thread has to do, the first of them perhaps
begun. -/
structure Threads (A C R : Type) where
  heap : Nat → Option C
  rng : R
  owner : Nat → Option Nat
  drew : Option Nat
  todo : List (List (Nat × Prog A C R))

/-- No thread other than `t` has accessed the object. -/
def unshared (t : Nat) (o : Option Nat) : Bool := o.all (· == t)

/-- The next step of thread `t`; a thread that has finished waits. -/
def Threads.tick (z : Threads A C R) (t : Nat) : Res (Threads A C R) :=
  match z.todo[t]? with
  | some ((_, .done) :: q) => .ok { z with todo := z.todo.set t q }
  | some ((i, .own f k) :: q) =>
    if unshared t (z.owner i) then
      match z.heap i with
      | none => .error .uaf
      | some c => .ok
          { z with
            heap := fun j => if j = i then some (f c) else z.heap j
            owner := fun j => if j = i then some t else z.owner j
            todo := z.todo.set t ((i, k c) :: q) }
    else .error .ub
  | some ((i, .draw g k) :: q) =>
    if unshared t z.drew then
      .ok { z with rng := (g z.rng).2, drew := some t, todo := z.todo.set t ((i, k (g z.rng).1) :: q) }
    else .error .ub
  | _ => .ok z

/-- An interleaving: which thread makes the next step. -/
def Threads.ticks : List Nat → Threads A C R → Res (Threads A C R)
  | [], z => .ok z
  | t :: σ, z => do
    let z ← z.tick t
    z.ticks σ

/-- All iterations are done. -/
def Threads.Finished (z : Threads A C R) : Prop := ∀ q ∈ z.todo, q = []

end Machine

/-! ## Computations with several outcomes -/

/-- The possible outcomes of a computation. -/
def Nd (α : Type) := Res α → Prop

/-- A computation with a single outcome. -/
def Nd.lift {α : Type} (m : Res α) : Nd α := fun o => o = m

/-- One computation after another. -/
def Nd.bind {α β : Type} (m : Nd α) (f : α → Nd β) : Nd β := fun o =>
  (∃ e, m (.error e) ∧ o = .error e) ∨ ∃ a, m (.ok a) ∧ f a o

instance : Monad Nd where
  pure a := Nd.lift (.ok a)
  bind := Nd.bind

/-! ## The loops over rules -/

section Program
variable {A K X B R : Type}

/-- The state in which the threads of a loop over the rules of `s` start. -/
def St.threads (s : St K X B R) (todo : List (List (Nat × Prog A (Cl K B) R))) :
    Threads A (Cl K B) R :=
  { heap := s.heap, rng := s.rng, owner := fun _ => none, drew := none, todo := todo }

/-- `#pragma omp parallel for` over a list of rules: the iterations are distributed over threads,
the steps of the threads interleaved, both arbitrarily. -/
def parLoop (body : Prog A (Cl K B) R) (l : List Nat) (s : St K X B R) : Nd (St K X B R) := fun o =>
  ∃ todo σ, todo.flatten.Perm (l.map fun i => (i, body)) ∧
    ((∃ z, (s.threads todo).ticks σ = .ok z ∧ z.Finished ∧
        o = .ok { s with heap := z.heap, rng := z.rng }) ∨
      ∃ e, (s.threads todo).ticks σ = .error e ∧ o = .error e)

/-- The bodies of the three loops: `cl_match` and `cl_action` (clset.c:368-369), `cl_predict`
(pa.c:82), `cl_update` (clset.c:460). -/
structure Bodies (A K X B R : Type) where
  sense : Bool → X → Prog A (Cl K B) R
  predict : Bool → X → Prog A (Cl K B) R
  update : Bool → X → List K → Int → Bool → Prog A (Cl K B) R

end Program

section Calls
variable {A K X B R : Type} [Zero K] [One K] [Add K] [Sub K] [Mul K] [Div K]
  [LT K] [DecidableLT K] [IntCast K] [DecidableEq K]

/-- `cl_match` and `cl_action` of one rule, cl.c:256-265 and 303-308. -/
def senseCl (kit : Kit K X B R) (e : Bool) (x : X) (c : Cl K B) (r : R) : Cl K B × R :=
  let (m, b, r) := kit.cmatch e c.body x r
  let c := { c with m := m, body := b, mtotal := if m then c.mtotal + 1 else c.mtotal,
                    age := c.age + 1 }
  let (a, b, r) := kit.act e c.body x r
  ({ c with action := a, body := b }, r)

/-- `cl_predict` of one rule, cl.c:317-321. -/
def predictCl (kit : Kit K X B R) (e : Bool) (x : X) (c : Cl K B) (r : R) : Cl K B × R :=
  let (p, b, r) := kit.predict e c.body c.prediction x r
  ({ c with prediction := p, body := b }, r)

/-- The bodies, executed alone, compute what the functions of the rules do. -/
structure Bodies.Of (lp : Bodies A K X B R) (par : Params K) (kit : Kit K X B R) : Prop where
  sense : ∀ e x c r, (lp.sense e x).run c r = senseCl kit e x c r
  predict : ∀ e x c r, (lp.predict e x).run c r = predictCl kit e x c r
  update : ∀ e x y n cur c r,
    (lp.update e x y n cur).run c r = clUpdate par kit e c x y n cur r

/-- No body uses the generator. -/
structure Bodies.Quiet (lp : Bodies A K X B R) : Prop where
  sense : ∀ e x, (lp.sense e x).Quiet
  predict : ∀ e x, (lp.predict e x).Quiet
  update : ∀ e x y n cur, (lp.update e x y n cur).Quiet

/-- The match set is built in series, clset.c:372-376. -/
def buildMset : List Nat → St K X B R → Res (St K X B R)
  | [], s => .ok s
  | i :: l, s => do
    let c ← s.rd i
    buildMset l (if c.m then { s with mset := s.mset.add i c.num } else s)

variable (par : Params K) (kit : Kit K X B R) (lp : Bodies A K X B R)

/-- `clset_match`, clset.c:355-396. -/
def parMatch (x : X) (doCover : Bool) (s : St K X B R) : Nd (St K X B R) := do
  let s ← parLoop (lp.sense s.explore x) s.pset.list s
  let s ← Nd.lift (buildMset s.pset.list s)
  let s ← Nd.lift
    (if doCover ∧ (1 < par.nActions ∨ s.mset.size < 1) then cover par kit x s else .ok s)
  let cs ← Nd.lift (s.rds s.pset.list)
  Nd.lift (.ok { s with msetSize := s.msetSize + ((s.mset.size : K) - s.msetSize) * par.beta,
                        mfrac := s.mfrac + (mfracOf par kit cs - s.mfrac) * par.beta })

/-- `pa_build`, pa.c:61-114: the prediction array is computed in series. -/
def parBuild (x : X) (s : St K X B R) : Nd (St K X B R) := do
  let s ← parLoop (lp.predict s.explore x) s.mset.list s
  let cs ← Nd.lift (s.rds s.mset.list)
  let n := par.nActions * par.yDim
  let p ← Nd.lift (paRules par.yDim cs (List.replicate n 0) (List.replicate n 0))
  Nd.lift (.ok { s with pa := paNorm p.1 p.2, nr := p.2 })

/-- `clset_update`, clset.c:447-473: fitness and subsumption in series. -/
def parUpdate (t : CSet) (x : X) (y : List K) (cur : Bool) (s : St K X B R) :
    Nd (CSet × St K X B R) := do
  let s ← parLoop (lp.update s.explore x y t.num cur) t.list s
  let s ← Nd.lift (updateFit par kit t s)
  Nd.lift (if par.setSubsumption then subsumption par kit t s else .ok (t, s))

/-! ## Trials and histories -/

/-- `supSense` with parallel loops, xcs_supervised.c:64-74. -/
def parSense (x : X) (coverArr : Option (List K)) (s : St K X B R) : Nd (St K X B R) :=
  match coverArr with
  | some cv => do
    let s ← parMatch par kit lp x false s
    if s.mset.size < 1 then Nd.lift (.ok { s with pa := cv }) else parBuild par lp x s
  | none => do
    let s ← parMatch par kit lp x true s
    parBuild par lp x s

/-- `supLearn` with parallel loops, xcs_supervised.c:75-78. -/
def parLearn (x : X) (y : Option (List K)) (s : St K X B R) : Nd (St K X B R) :=
  if s.explore then
    match y with
    | none => Nd.lift (.error .ub)
    | some y => do
      let p ← parUpdate par kit lp s.mset x y true s
      Nd.lift (ea par kit p.1 { p.2 with mset := p.1 })
  else Nd.lift (.ok s)

/-- `xcs_supervised_trial`, xcs_supervised.c:58-85. -/
def parTrial (x : X) (y : Option (List K)) (coverArr : Option (List K)) (s : St K X B R) :
    Nd (St K X B R) := do
  let s ← parSense par kit lp x coverArr { s with mset := {}, kset := {} }
  let s ← parLearn par kit lp x y s
  let s ← Nd.lift (killKset s)
  Nd.lift (.ok { s with mset := {} })

/-- The training part of `xcs_supervised_fit`, xcs_supervised.c:111-116. -/
def parFit (x : X) (y : List K) (s : St K X B R) : Nd (K × St K X B R) := do
  let s ← parTrial par kit lp x (some y) none { s with explore := true }
  let e := kit.loss s.pa y
  Nd.lift (.ok (e, { s with error := s.error + (e - s.error) * par.beta }))

/-- The validation part of `xcs_supervised_fit`, xcs_supervised.c:118-125. -/
def parTest (x : X) (y : List K) (s : St K X B R) : Nd (K × St K X B R) := do
  let s ← parTrial par kit lp x (some y) none { s with explore := false }
  Nd.lift (.ok (kit.loss s.pa y, s))

/-- One row of `xcs_supervised_predict`, xcs_supervised.c:144-149. -/
def parPredictRow (cv : List K) (x : X) (s : St K X B R) : Nd (List K × St K X B R) := do
  let s ← parTrial par kit lp x none (some cv) { s with explore := false }
  Nd.lift (.ok (s.pa, s))

/-- `xcs_supervised_predict`, xcs_supervised.c:140-150. -/
def parPredict (cv : List K) : List X → St K X B R → Nd (List (List K) × St K X B R)
  | [], s => Nd.lift (.ok ([], { s with explore := false }))
  | x :: xs, s => do
    let p ← parPredictRow par kit lp cv x s
    let q ← parPredict cv xs p.2
    Nd.lift (.ok (p.1 :: q.1, q.2))

/-- The loop of `xcs_supervised_score`, xcs_supervised.c:166-171. -/
def parScoreGo (cv : List K) : List (X × List K) → K → St K X B R → Nd (K × St K X B R)
  | [], e, s => Nd.lift (.ok (e, { s with explore := false }))
  | (x, y) :: rows, e, s => do
    let s ← parTrial par kit lp x (some y) (some cv) { s with explore := false }
    parScoreGo cv rows (e + kit.loss s.pa y) s

/-- `xcs_supervised_score`, xcs_supervised.c:160-173. -/
def parScore (cv : List K) (rows : List (X × List K)) (s : St K X B R) : Nd (K × St K X B R) := do
  let p ← parScoreGo par kit lp cv rows 0 s
  Nd.lift (.ok (p.1 / ((rows.length : Int) : K), p.2))

/-- The choice of an action from the prediction array, xcs_rl.c:250-254. -/
def chooseAction (s : St K X B R) : Res (Int × St K X B R) := do
  if s.explore then
    let u := uniform kit 0 1 s.rng
    let s := { s with rng := u.2 }
    if u.1 < par.pExplore then
      let (a, r) ← paRandAction par kit s.nr par.loopBound s.rng
      .ok (a, { s with rng := r })
    else
      let (a, r) ← paBestAction par kit s.pa s.rng
      .ok (a, { s with rng := r })
  else
    let (a, r) ← paBestAction par kit s.pa s.rng
    .ok (a, { s with rng := r })

/-- `xcs_rl_decision`, xcs_rl.c:246-255. -/
def parDecision (x : X) (s : St K X B R) : Nd (Int × St K X B R) := do
  let s ← parMatch par kit lp x true s
  let s ← parBuild par lp x s
  Nd.lift (chooseAction par kit s)

/-- Update of the previous action set, xcs_rl.c:196-203. -/
def parUpdatePrev (s : St K X B R) : Nd (St K X B R) :=
  if s.prevAset.list = [] then Nd.lift (.ok s)
  else do
    let bv ← Nd.lift (paBestVal s.pa)
    let t ← Nd.lift (validate s s.prevAset)
    match s.prevState with
    | none => Nd.lift (.error .ub)
    | some px => do
      let p ← parUpdate par kit lp t px [s.prevReward + par.gamma * bv] false s
      Nd.lift (if p.2.explore then ea par kit p.1 { p.2 with prevAset := p.1 }
        else .ok { p.2 with prevAset := p.1 })

/-- Update of the current action set in a terminal state, xcs_rl.c:204-210. -/
def parUpdateCur (x : X) (reward : K) (done : Bool) (s : St K X B R) : Nd (St K X B R) :=
  if done then do
    let t ← Nd.lift (validate s s.aset)
    let p ← parUpdate par kit lp t x [reward] true s
    Nd.lift (if p.2.explore then ea par kit p.1 { p.2 with aset := p.1 }
      else .ok { p.2 with aset := p.1 })
  else Nd.lift (.ok s)

/-- `xcs_rl_update`, xcs_rl.c:191-211. -/
def parRlUpdate (x : X) (a : Int) (reward : K) (done : Bool) (s : St K X B R) :
    Nd (St K X B R) := do
  let s ← Nd.lift (clsetAction par a s)
  let s ← parUpdatePrev par kit lp s
  parUpdateCur par kit lp x reward done s

/-- The loop of `xcs_rl_trial`, xcs_rl.c:52-63. -/
def parRlTrialGo (env : Nat → EnvStep K X) :
    Nat → Nat → K → St K X B R → Nd (Nat × K × St K X B R)
  | 0, n, e, s => Nd.lift (.ok (n, e, s))
  | k + 1, n, e, s => do
    let p ← parDecision par kit lp (env n).state (rlInitStep s)
    let rd := (env n).respond p.1
    let s ← parRlUpdate par kit lp (env n).state p.1 rd.1 rd.2 p.2
    let q ← Nd.lift (rlError par kit p.1 rd.1 rd.2 (env n).maxPayoff s)
    let s ← Nd.lift (rlEndStep par (env n).state p.1 rd.1 q.2)
    if rd.2 then Nd.lift (.ok (n + 1, e + q.1, s))
    else parRlTrialGo env k (n + 1) (e + q.1) s

/-- `xcs_rl_trial`, xcs_rl.c:42-70. -/
def parRlTrial (env : Nat → EnvStep K X) (explore : Bool) (s : St K X B R) :
    Nd (Nat × K × St K X B R) := do
  let p ← parRlTrialGo par kit lp env par.teletransportation 0 0
    (rlInitTrial { s with explore := explore })
  let s ← Nd.lift (rlEndTrial p.2.2)
  Nd.lift (.ok (p.1, p.2.1 / ((p.1 : Int) : K), s))

/-- `xcs_rl_fit`, xcs_rl.c:103-119. -/
def parRlFit (x : X) (a : Int) (reward : K) (s : St K X B R) : Nd (K × St K X B R) := do
  let s ← parMatch par kit lp x true (rlInitStep (rlInitTrial s))
  let s ← parBuild par lp x s
  let pred ← Nd.lift (paVal par s.pa a)
  let e := kit.loss [pred] [reward]
  let s ← parRlUpdate par kit lp x a reward true { s with explore := true }
  let s ← Nd.lift (rlEndStep par x a reward s)
  let s ← Nd.lift (rlEndTrial s)
  Nd.lift (.ok (e, { s with error := s.error + (e - s.error) * par.beta }))

/-- One call on the multi-threaded program. -/
def parStep (s : St K X B R) : Op K X B → Nd (St K X B R)
  | .fit x y => do let p ← parFit par kit lp x y s; Nd.lift (.ok p.2)
  | .test x y => do let p ← parTest par kit lp x y s; Nd.lift (.ok p.2)
  | .predict xs cv => do let p ← parPredict par kit lp cv xs s; Nd.lift (.ok p.2)
  | .score rows cv => do let p ← parScore par kit lp cv rows s; Nd.lift (.ok p.2)
  | .rlFit x a reward => do let p ← parRlFit par kit lp x a reward s; Nd.lift (.ok p.2)
  | .rlTrial env explore => do
    let p ← parRlTrial par kit lp env explore s
    Nd.lift (.ok p.2.2)
  | op => Nd.lift (step par kit s op)

/-- The calls of a history, one after another. -/
def parSteps : List (Op K X B) → St K X B R → Nd (St K X B R)
  | [], s => Nd.lift (.ok s)
  | op :: ops, s => do
    let s ← parStep par kit lp s op
    parSteps ops s

/-- A history of calls from an initialised system. -/
def parRun (r : R) (ops : List (Op K X B)) : Nd (St K X B R) := do
  let s ← Nd.lift (xcsfInit par kit r)
  parSteps par kit lp ops s

end Calls
end Xcsf
