import Verif.Trial

/-!
# Supervised training and scoring on data sets (`xcs_supervised.c`, `pybind_wrapper.cpp`)

A data set (`struct Input`) is the list of its rows `(x, y)`.  `int` counters are natural
numbers: overflow of `cnt + start` beyond `INT_MAX` is not modelled.
-/

namespace Xcsf
variable {K X B R : Type} [Zero K] [One K] [Add K] [Sub K] [Mul K] [Div K]
  [LT K] [DecidableLT K] [IntCast K] [DecidableEq K]

/-- `xcs_supervised_sample`, xcs_supervised.c:40-48: the row index and the generator.
`cnt % 0` is undefined. -/
def sample (kit : Kit K X B R) (n cnt : Nat) (shuffle : Bool) (r : R) : Res (Int × R) :=
  if shuffle then .ok (uniformInt kit 0 (n : Int) r)
  else if n = 0 then .error .ub
  else .ok (((cnt % n : Nat) : Int), r)

/-- `&data->x[row * data->x_dim]`, xcs_supervised.c:109-110: a row outside is undefined. -/
def rowAt (data : List (X × List K)) (i : Int) : Res (X × List K) :=
  if 0 ≤ i then
    match data[i.toNat]? with
    | some d => .ok d
    | none => .error .ub
  else .error .ub

/-- The loop of `xcs_supervised_fit`, xcs_supervised.c:106-127: `k` trials are left, `cnt`
trials are done, `err` is the sum of the errors so far.  `perf_print` only prints. -/
def supFitGo (par : Params K) (kit : Kit K X B R) (train : List (X × List K))
    (test : Option (List (X × List K))) (shuffle : Bool) (start : Nat) :
    Nat → Nat → K → St K X B R → Res (K × St K X B R)
  | 0, _, err, s => .ok (err, s)
  | k + 1, cnt, err, s => do
    let (i, r) ← sample kit train.length (cnt + start) shuffle s.rng
    let d ← rowAt train i
    let (e, s) ← fitStep par kit d.1 d.2 { s with rng := r }
    let s ← match test with
      | none => .ok s
      | some t => do
        let (i, r) ← sample kit t.length (cnt + start) shuffle s.rng
        let d ← rowAt t i
        let (_, s) ← testStep par kit d.1 d.2 { s with rng := r }
        .ok s
    supFitGo par kit train test shuffle start k (cnt + 1) (err + e) s

/-- `xcs_supervised_fit`, xcs_supervised.c:98-129. -/
def supFit (par : Params K) (kit : Kit K X B R) (train : List (X × List K))
    (test : Option (List (X × List K))) (shuffle : Bool) (start trials : Nat)
    (s : St K X B R) : Res (K × St K X B R) := do
  let (e, s) ← supFitGo par kit train test shuffle start trials 0 0 s
  .ok (e / ((trials : Int) : K), s)

/-- The sampling loop of `xcs_supervised_score_n`, xcs_supervised.c:193-199. -/
def scoreNGo (par : Params K) (kit : Kit K X B R) (data : List (X × List K)) (cv : List K) :
    Nat → K → St K X B R → Res (K × St K X B R)
  | 0, e, s => .ok (e, { s with explore := false })
  | k + 1, e, s => do
    let (i, r) ← sample kit data.length 0 true s.rng
    let d ← rowAt data i
    let s ← supTrial par kit d.1 (some d.2) (some cv) { s with explore := false, rng := r }
    scoreNGo par kit data cv k (e + kit.loss s.pa d.2) s

/-- `xcs_supervised_score_n`, xcs_supervised.c:184-201. -/
def scoreN (par : Params K) (kit : Kit K X B R) (data : List (X × List K)) (N : Nat)
    (cv : List K) (s : St K X B R) : Res (K × St K X B R) := do
  if data.length < N then score par kit cv data s
  else
    let (e, s) ← scoreNGo par kit data cv N 0 s
    .ok (e / ((N : Int) : K), s)

/-- What the callbacks do after an epoch (`callbacks_run`, pybind_wrapper.cpp): they see the
epoch, the training and validation errors and the system, may store its population, and
decide whether to stop. -/
abbrev Callbacks (K X B R : Type) := Nat → K → K → St K X B R → Res (Bool × St K X B R)

/-- The epoch loop of the Python `fit`, pybind_wrapper.cpp:515-532: `k` epochs are left, `i`
are done.  Returns the number of epochs run. -/
def pyFitGo (par : Params K) (kit : Kit K X B R) (train : List (X × List K))
    (val : Option (List (X × List K))) (cv : List K) (shuffle : Bool) (nTrials : Nat)
    (cb : Callbacks K X B R) : Nat → Nat → St K X B R → Res (Nat × St K X B R)
  | 0, i, s => .ok (i, s)
  | k + 1, i, s => do
    let (te, s) ← supFit par kit train none shuffle (i * nTrials) nTrials s
    let (ve, s) ← match val with
      | none => .ok (0, s)
      | some v => score par kit cv v s
    let (stop, s) ← cb i te ve s
    if stop then .ok (i + 1, s)
    else pyFitGo par kit train val cv shuffle nTrials cb k (i + 1) s

/-- `ceil(MAX_TRIALS / (double) PERF_TRIALS)`, pybind_wrapper.cpp:513, for positive
`PERF_TRIALS` (the quotient of two `int`s is rounded by at most one ulp, too little to cross
an integer). -/
def nEpochs (maxTrials perfTrials : Nat) : Nat := (maxTrials + perfTrials - 1) / perfTrials

/-- The trials of an epoch, pybind_wrapper.cpp:514. -/
def epochTrials (maxTrials perfTrials : Nat) : Nat := min maxTrials perfTrials

/-- The training part of the Python `fit` with a warm start, pybind_wrapper.cpp:498-535. -/
def pyFit (par : Params K) (kit : Kit K X B R) (train : List (X × List K))
    (val : Option (List (X × List K))) (cv : List K) (shuffle : Bool)
    (maxTrials perfTrials : Nat) (cb : Callbacks K X B R) (s : St K X B R) :
    Res (Nat × St K X B R) :=
  pyFitGo par kit train val cv shuffle (epochTrials maxTrials perfTrials) cb
    (nEpochs maxTrials perfTrials) 0 s

end Xcsf
