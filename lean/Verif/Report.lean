import Verif.Fit

/-!
# Experiments and their progress report (`perf.c`, `xcs_supervised.c`, `xcs_rl.c`, `main.c`)

The two loops of experiments, supervised learning (xcs_supervised.c:106-127) and reinforcement
learning (xcs_rl.c:84-91), are one: a trial yields two numbers, both are added to windowed totals, the
first also to a grand total, and `perf_print` is called with the totals and the number of the trial.
What is printed is a list of lines.  `int` counters are natural numbers.
-/

namespace Xcsf
variable {K X B R : Type} [Zero K] [One K] [Add K] [Sub K] [Mul K] [Div K]
  [LT K] [DecidableLT K] [IntCast K] [DecidableEq K]

/-- A line `"%d %.5f %.5f %d\n"` that is printed, perf.c:40.  Rounding to five digits is not
modelled. -/
structure PerfLine (K : Type) where
  trial : Nat
  err : K
  terr : K
  size : Int
  deriving DecidableEq

/-- `perf_print`, perf.c:32-45: the totals and what has been printed.  `trial % 0` is undefined. -/
def perfPrint (perf : Nat) (size : Int) (trial : Nat) (w : K × K) (out : List (PerfLine K)) :
    Res ((K × K) × List (PerfLine K)) :=
  if perf = 0 then .error .ub
  else if trial % perf = 0 ∧ 0 < trial then
    .ok ((0, 0), out ++ [⟨trial, w.1 / ((perf : Int) : K), w.2 / ((perf : Int) : K), size⟩])
  else .ok (w, out)

/-- What a trial of an experiment does: it is given its number. -/
abbrev TrialFn (K X B R : Type) := Nat → St K X B R → Res (K × K × St K X B R)

/-- The loop of an experiment, xcs_supervised.c:106-127 and xcs_rl.c:84-91: `k` trials are left, `cnt`
are done, `tot` is the grand total, `w` are the windowed totals. -/
def expGo (perf : Nat) (body : TrialFn K X B R) : Nat → Nat → K → K × K → List (PerfLine K) →
    St K X B R → Res (K × List (PerfLine K) × St K X B R)
  | 0, _, tot, _, out, s => .ok (tot, out, s)
  | k + 1, cnt, tot, w, out, s => do
    let (a, b, s) ← body cnt s
    let (w, out) ← perfPrint perf s.pset.size cnt (w.1 + a, w.2 + b) out
    expGo perf body k (cnt + 1) (tot + a) w out s

/-- A trial of supervised learning, xcs_supervised.c:107-125: the error of the training sample and
that of the test sample. -/
def supBody (par : Params K) (kit : Kit K X B R) (train : List (X × List K))
    (test : Option (List (X × List K))) (shuffle : Bool) (start : Nat) : TrialFn K X B R :=
  fun cnt s => do
    let (i, r) ← sample kit train.length (cnt + start) shuffle s.rng
    let d ← rowAt train i
    let (e, s) ← fitStep par kit d.1 d.2 { s with rng := r }
    match test with
    | none => .ok (e, 0, s)
    | some t => do
      let (i, r) ← sample kit t.length (cnt + start) shuffle s.rng
      let d ← rowAt t i
      let (te, s) ← testStep par kit d.1 d.2 { s with rng := r }
      .ok (e, te, s)

/-- `xcs_supervised_fit`, xcs_supervised.c:98-129, with what it prints. -/
def supExp (par : Params K) (kit : Kit K X B R) (train : List (X × List K))
    (test : Option (List (X × List K))) (shuffle : Bool) (start trials perf : Nat)
    (s : St K X B R) : Res (K × List (PerfLine K) × St K X B R) := do
  let (e, out, s) ← expGo perf (supBody par kit train test shuffle start) trials 0 0 (0, 0) [] s
  .ok (e / ((trials : Int) : K), out, s)

/-- The loop of `xcs_rl_trial`, xcs_rl.c:52-63, with the last reward. -/
def rlLoop (par : Params K) (kit : Kit K X B R) (env : Nat → EnvStep K X) :
    Nat → Nat → K → K → St K X B R → Res (Nat × K × K × St K X B R)
  | 0, n, e, reward, s => .ok (n, e, reward, s)
  | k + 1, n, e, _, s => do
    let s := rlInitStep s
    let x := (env n).state
    let (a, s) ← rlDecision par kit x s
    let rd := (env n).respond a
    let s ← rlUpdate par kit x a rd.1 rd.2 s
    let (de, s) ← rlError par kit a rd.1 rd.2 (env n).maxPayoff s
    let s ← rlEndStep par x a rd.1 s
    if rd.2 then .ok (n + 1, e + de, rd.1, s)
    else rlLoop par kit env k (n + 1) (e + de) rd.1 s

/-- `xcs_rl_trial`, xcs_rl.c:42-70: the returned performance and the mean error. `multistep` says
whether the environment is a multi-step problem. -/
def rlPerf (par : Params K) (kit : Kit K X B R) (multistep : Bool) (env : Nat → EnvStep K X)
    (explore : Bool) (s : St K X B R) : Res (K × K × St K X B R) := do
  let s := rlInitTrial { s with explore := explore }
  let (n, e, reward, s) ← rlLoop par kit env par.teletransportation 0 0 0 s
  let s ← rlEndTrial s
  let perf : K := if multistep then ((n : Int) : K) else if 0 < reward then 1 else 0
  .ok (perf, e / ((n : Int) : K), s)

/-- A trial of reinforcement learning, xcs_rl.c:85-89: one trial that explores, then one that exploits,
whose performance and error count.  `envs i` is the environment as seen in the `i`-th trial. -/
def rlBody (par : Params K) (kit : Kit K X B R) (multistep : Bool)
    (envs : Nat → Nat → EnvStep K X) : TrialFn K X B R :=
  fun cnt s => do
    let (_, _, s) ← rlPerf par kit multistep (envs (2 * cnt)) true s
    rlPerf par kit multistep (envs (2 * cnt + 1)) false s

/-- `xcs_rl_exp`, xcs_rl.c:77-93. -/
def rlExp (par : Params K) (kit : Kit K X B R) (multistep : Bool) (envs : Nat → Nat → EnvStep K X)
    (trials perf : Nat) (s : St K X B R) : Res (K × List (PerfLine K) × St K X B R) := do
  let (p, out, s) ← expGo perf (rlBody par kit multistep envs) trials 0 0 (0, 0) [] s
  .ok (p / ((trials : Int) : K), out, s)

end Xcsf
