import Verif.Basic

/-!
# Rules, sets and the system state (`xcsf.h`, `cl.c`, `clset.c`)

Rules live in a heap; sets hold rule identifiers, like the C sets hold pointers.
`double` is an arbitrary type `K` with bare operations: no law of arithmetic is
assumed in this file.  Condition, action and prediction code is reached through
the table `Kit`, like the C code reaches it through the vtables of `struct Cl`.

Simplifications: list nodes (`struct Clist`) are Lean lists, so allocation and
freeing of nodes is not modelled (only that of rules); the OpenMP loops of
`clset_match`, `clset_update` and `pa_build` run in the order of the list here, all other
orders are the subject of `Par.lean`.
-/

namespace Xcsf

/-- `struct Cl`, xcsf.h:46-63.  `body` is the condition, action and prediction
data behind the three `void *` pointers. -/
structure Cl (K B : Type) where
  err : K
  fit : K
  num : Int
  exp : Int
  size : K
  time : Int
  m : Bool
  prediction : List K
  action : Int
  age : Int
  mtotal : Int
  body : B

/-- `struct Set`, xcsf.h:76-80. -/
structure CSet where
  list : List Nat := []
  size : Int := 0
  num : Int := 0
  deriving DecidableEq, Repr

/-- The parameters of `struct XCSF` (xcsf.h:85-141) and `struct ArgsEA` (ea.h)
that the rule life-cycle reads.  `maxCover` is `MAX_COVER` (clset.c:28). -/
structure Params (K : Type) where
  popSize : Int
  nActions : Nat
  yDim : Nat
  alpha : K
  beta : K
  delta : K
  e0 : K
  nu : K
  initErr : K
  initFit : K
  gamma : K
  pExplore : K
  thetaDel : Int
  thetaSub : Int
  mProbation : Int
  setSubsumption : Bool
  compaction : Bool
  popInit : Bool
  teletransportation : Nat
  maxCover : Nat
  /-- bound of the model for the two rejection loops (tournament selection and
  `pa_rand_action`); theorems quantify over it -/
  loopBound : Nat
  eaTournament : Bool
  eaSelectSize : K
  eaTheta : K
  eaLambda : Int
  eaErrReduc : K
  eaFitReduc : K
  eaSubsumption : Bool
  eaPredReset : Bool

/-- The vtables of a rule (condition.h, action.h, prediction.h), the loss
function pointer, the random number generator and the libm functions used by
the life-cycle code.  `X` is the type of inputs, `R` the state of the
generator.  Every entry is an arbitrary function; the Boolean argument of
`cmatch`, `act`, `predict` is `xcsf->explore`. -/
structure Kit (K X B R : Type) where
  /-- `dsfmt_gv_genrand_open_open()`, utils.c:64 -/
  draw : R → K × R
  /-- `floor` with the conversion to `int`, utils.c:76 -/
  floor : K → Int
  pow : K → K → K
  /-- `DBL_EPSILON` -/
  eps : K
  /-- `DBL_MAX` -/
  dblMax : K
  loss : List K → List K → K
  /-- `cond_init; pred_init; act_init`, cl.c:134-136 -/
  rand : R → B × R
  /-- `cond_cover; act_cover`, cl.c:117-118 (may loop or exit) -/
  cover : Bool → B → X → Int → R → Res (B × R)
  cmatch : Bool → B → X → R → Bool × B × R
  act : Bool → B → X → R → Int × B × R
  predict : Bool → B → List K → X → R → List K × B × R
  /-- `cond_update; pred_update; act_update`, cl.c:198-200, given `exp` -/
  update : Int → B → List K → X → List K → R → B × List K × R
  /-- `cond_general && act_general`, cl.c:349-352 -/
  general : B → B → Bool
  crossover : B → B → R → Bool × B × B × R
  mutate : B → R → Res (Bool × B × R)
  /-- `act_copy; cond_copy; pred_copy` or `pred_init`, cl.c:68-74 -/
  copy : Bool → B → R → B × R
  /-- `act_copy; cond_copy; pred_copy`, cl.c:100-102 (`pred_nlms_copy` draws random numbers,
  pred_nlms.c:81) -/
  clone : B → R → B × R
  condSize : B → K
  predSize : B → K
  /-- whether the program is built with `PARALLEL_MATCH`, clset.c:358 -/
  parallel : Bool := false

/-- The mutable part of `struct XCSF`, xcsf.h:85-111, with the heap of rules. -/
structure St (K X B R : Type) where
  heap : Nat → Option (Cl K B)
  next : Nat
  pset : CSet
  prevPset : CSet
  mset : CSet
  aset : CSet
  kset : CSet
  prevAset : CSet
  error : K
  msetSize : K
  asetSize : K
  mfrac : K
  prevReward : K
  prevPred : K
  prevState : Option X
  pa : List K
  nr : List K
  time : Int
  explore : Bool
  rng : R

section Defs
variable {K X B R : Type}

/-- Reading a rule through a pointer. -/
def St.rd (s : St K X B R) (i : Nat) : Res (Cl K B) :=
  match s.heap i with
  | some c => .ok c
  | none => .error .uaf

/-- Overwriting a rule in place. -/
def St.put (s : St K X B R) (i : Nat) (c : Cl K B) : St K X B R :=
  { s with heap := fun j => if j = i then some c else s.heap j }

/-- `malloc(sizeof(struct Cl))`: a fresh identifier holding `c`. -/
def St.alloc (s : St K X B R) (c : Cl K B) : Nat × St K X B R :=
  (s.next, { s with heap := fun j => if j = s.next then some c else s.heap j,
                    next := s.next + 1 })

/-- `cl_free`, cl.c:222-230: freeing a rule that was freed already is undefined. -/
def St.freeCl (s : St K X B R) (i : Nat) : Res (St K X B R) :=
  match s.heap i with
  | some _ => .ok { s with heap := fun j => if j = i then none else s.heap j }
  | none => .error .uaf

/-- Reads all the rules of a list. -/
def St.rds (s : St K X B R) (l : List Nat) : Res (List (Cl K B)) := l.mapM s.rd

/-- `clset_add`, clset.c:422-437: prepend, count and add the numerosity of the
rule (which is read). -/
def CSet.add (t : CSet) (i : Nat) (num : Int) : CSet :=
  { list := i :: t.list, size := t.size + 1, num := t.num + num }

/-- The loop of `clset_validate`, clset.c:486-503, over the list: nodes whose
rule has numerosity zero are dropped; the others are counted. -/
def validateGo (s : St K X B R) : List Nat → Res CSet
  | [] => .ok {}
  | i :: l => do
    let c ← s.rd i
    let t ← validateGo s l
    if c.num = 0 then .ok t
    else .ok { list := i :: t.list, size := t.size + 1, num := t.num + c.num }

/-- `clset_validate`, clset.c:479-504 (the counters are sums, so the order in which
the loop adds them is immaterial for integers). -/
def validate (s : St K X B R) (t : CSet) : Res CSet := validateGo s t.list

/-- The loop of `clset_kill`, clset.c:593-598. -/
def killGo (s : St K X B R) : List Nat → Res (St K X B R)
  | [] => .ok s
  | i :: l => do
    let s ← s.freeCl i
    killGo s l

end Defs

section Arith
variable {K X B R : Type} [Zero K] [One K] [Add K] [Sub K] [Mul K] [Div K]
  [LT K] [DecidableLT K] [IntCast K] [DecidableEq K]

/-- `rand_uniform`, utils.c:61-65. -/
def uniform (kit : Kit K X B R) (lo hi : K) (r : R) : K × R :=
  let (u, r) := kit.draw r
  (lo + u * (hi - lo), r)

/-- `rand_uniform_int`, utils.c:73-77. -/
def uniformInt (kit : Kit K X B R) (lo hi : Int) (r : R) : Int × R :=
  let (v, r) := uniform kit (lo : K) (hi : K) r
  (kit.floor v, r)

/-- `cl_init`, cl.c:39-54. -/
def clInit (par : Params K) (size : K) (time : Int) (body : B) : Cl K B :=
  { fit := par.initFit, err := par.initErr, num := 1, exp := 0, size := size,
    time := time, prediction := List.replicate par.yDim 0, action := 0, m := false,
    age := 0, mtotal := 0, body := body }

/-- `cl_del_vote`, cl.c:146-153. -/
def delVote (par : Params K) (c : Cl K B) (avgFit : K) : K :=
  if par.thetaDel < c.exp ∧ c.fit < par.delta * avgFit * (c.num : K) then
    c.size * (c.num : K) * avgFit / (c.fit / (c.num : K))
  else c.size * (c.num : K)

/-- `fmax(a, b)`, for a number `b`: if `a` is not a number the result is `b`. -/
def fmax (a b : K) : K := if b < a then a else b

/-- `cl_acc`, cl.c:161-169. -/
def clAcc (par : Params K) (kit : Kit K X B R) (err : K) : K :=
  if par.e0 < err then fmax (par.alpha * kit.pow (err / par.e0) (0 - par.nu)) kit.eps
  else 1

/-- `clset_total_fit`, clset.c:544-554. -/
def totalFit (cs : List (Cl K B)) : K := cs.foldl (fun a c => a + c.fit) 0

/-- `clset_total_time`, clset.c:268-278 (`int * int` added to a double). -/
def totalTime (cs : List (Cl K B)) : K :=
  cs.foldl (fun a c => a + ((c.time * c.num : Int) : K)) 0

/-- `clset_mean_time`, clset.c:561-565. -/
def meanTime (cs : List (Cl K B)) (num : Int) : K := totalTime cs / (num : K)

/-- `clset_pset_never_match`, clset.c:36-51: position of the first rule that never
matched although it is older than the probation period. -/
def neverMatch (par : Params K) : List (Cl K B) → Option Nat
  | [] => none
  | c :: cs =>
    if c.mtotal = 0 ∧ par.mProbation < c.age then some 0
    else (neverMatch par cs).map (· + 1)

/-- The loop `while (p > sum)` of a roulette wheel, clset.c:82-87 and
ea.c:140-145: `sum` includes the weight of position `i`, `rest` holds the
weights behind it.  `none`: the wheel ran off the list (NULL dereference). -/
def wheel (p : K) : K → List K → Nat → Option Nat
  | sum, [], i => if sum < p then none else some i
  | sum, v :: rest, i => if sum < p then wheel p (sum + v) rest (i + 1) else some i

/-- Spinning a wheel over a list of weights from its head. -/
def spin (p : K) : List K → Option Nat
  | [] => none
  | v :: rest => wheel p v rest 0

/-- The loop over spins of `clset_pset_roulette`, clset.c:77-96.  `best` is the
pair of the position selected so far and its size. -/
def delSpins (kit : Kit K X B R) (cs : List (Cl K B)) (votes : List K) (total : K) :
    Nat → Option (Nat × K) → R → Res (Option (Nat × K) × R)
  | 0, best, r => .ok (best, r)
  | n + 1, best, r => do
    let (p, r) := uniform kit 0 total r
    match spin p votes with
    | none => .error .ub
    | some i =>
      match cs[i]? with
      | none => .error .ub
      | some c =>
        let sz := kit.condSize c.body + kit.predSize c.body
        let best := match best with
          | none => some (i, sz)
          | some (j, d) => if d < sz then some (i, sz) else some (j, d)
        delSpins kit cs votes total n best r

/-- `clset_pset_roulette`, clset.c:64-97. -/
def delRoulette (par : Params K) (kit : Kit K X B R) (cs : List (Cl K B)) (num : Int)
    (sysErr : K) (r : R) : Res (Nat × R) := do
  let avg := totalFit cs / (num : K)
  let votes := cs.map (fun c => delVote par c avg)
  let total := votes.foldl (· + ·) 0
  let n := if par.compaction ∧ sysErr < par.e0 then 2 else 1
  let (best, r) ← delSpins kit cs votes total n none r
  match best with
  | none => .error .ub
  | some (i, _) => .ok (i, r)

/-- The choice of the rule to delete, clset.c:106-113: the position in the
population list. -/
def delChoose (par : Params K) (kit : Kit K X B R) (s : St K X B R) : Res (Nat × R) := do
  let cs ← s.rds s.pset.list
  match neverMatch par cs with
  | some i => .ok (i, s.rng)
  | none => delRoulette par kit cs s.pset.num s.error s.rng

/-- Removing one micro-classifier of the rule at position `i`, clset.c:114-127. -/
def delAt (s : St K X B R) (i : Nat) : Res (St K X B R) := do
  match s.pset.list[i]? with
  | none => .error .ub
  | some id =>
    let c ← s.rd id
    let c := { c with num := c.num - 1 }
    let s := s.put id c
    let s := { s with pset := { s.pset with num := s.pset.num - 1 } }
    if c.num = 0 then
      .ok { s with kset := s.kset.add id c.num,
                   pset := { s.pset with size := s.pset.size - 1,
                                         list := s.pset.list.eraseIdx i } }
    else .ok s

/-- `clset_pset_del`, clset.c:103-128. -/
def psetDel (par : Params K) (kit : Kit K X B R) (s : St K X B R) : Res (St K X B R) := do
  let (i, r) ← delChoose par kit s
  delAt { s with rng := r } i

/-- The loop of `clset_pset_enforce_limit`, clset.c:342-344, with a bound on the
number of iterations. -/
def enforceGo (par : Params K) (kit : Kit K X B R) : Nat → St K X B R → Res (St K X B R)
  | 0, s => if par.popSize < s.pset.num then .error .hang else .ok s
  | n + 1, s =>
    if par.popSize < s.pset.num then do
      let s ← psetDel par kit s
      enforceGo par kit n s
    else .ok s

/-- `clset_pset_enforce_limit`, clset.c:339-345.  The bound is the excess: each
iteration lowers `pset.num` by one (`hang` is proved unreachable). -/
def enforce (par : Params K) (kit : Kit K X B R) (s : St K X B R) : Res (St K X B R) :=
  enforceGo par kit (s.pset.num - par.popSize).toNat s

/-- The marking loop of `clset_action_coverage`, clset.c:139-144: writing outside
`act_covered` is undefined. -/
def markActions (s : St K X B R) : List Nat → List Bool → Res (List Bool)
  | [], cov => .ok cov
  | i :: l, cov => do
    let c ← s.rd i
    if 0 ≤ c.action ∧ c.action.toNat < cov.length then
      markActions s l (cov.set c.action.toNat true)
    else .error .ub

/-- `clset_action_coverage`, clset.c:136-151. -/
def actionCoverage (par : Params K) (s : St K X B R) : Res (List Bool × Bool) := do
  let cov ← markActions s s.mset.list (List.replicate par.nActions false)
  .ok (cov, cov.all id)

/-- `cl_init` and `cl_cover` of a new rule, clset.c:169-173 and cl.c:112-121:
the new rule joins the population and the match set. -/
def coverOne (par : Params K) (kit : Kit K X B R) (x : X) (a : Nat) (s : St K X B R) :
    Res (St K X B R) := do
  let (b, r) := kit.rand s.rng
  let (b, r) ← kit.cover s.explore b x a r
  let c := { clInit par ((s.mset.num : K) + 1) s.time b with m := true, action := a }
  let (i, s) := { s with rng := r }.alloc c
  .ok { s with pset := s.pset.add i c.num, mset := s.mset.add i c.num }

/-- The loop over actions, clset.c:166-175; `cov` holds the flags of the actions
from `a` on. -/
def coverActions (par : Params K) (kit : Kit K X B R) (x : X) :
    List Bool → Nat → St K X B R → Res (St K X B R)
  | [], _, s => .ok s
  | true :: cov, a, s => coverActions par kit x cov (a + 1) s
  | false :: cov, a, s => do
    let s ← coverOne par kit x a s
    coverActions par kit x cov (a + 1) s

/-- One iteration of the loop of `clset_cover`, clset.c:165-189: returns the new
flags and the value of `covered`. -/
def coverIter (par : Params K) (kit : Kit K X B R) (x : X) (cov : List Bool)
    (s : St K X B R) : Res (List Bool × Bool × St K X B R) := do
  let s ← coverActions par kit x cov 0 s
  let prevP := s.pset.size
  let s ← enforce par kit s
  if s.pset.size < prevP then
    let prevM := s.mset.size
    let m ← validate s s.mset
    let s := { s with mset := m }
    if s.mset.size < prevM then
      let (cov, covered) ← actionCoverage par s
      .ok (cov, covered, s)
    else .ok (cov, true, s)
  else .ok (cov, true, s)

/-- The loop of `clset_cover`, clset.c:164-195; the first argument is the number of
attempts that may still follow (`attempts > MAX_COVER` exits even if the attempt
succeeded). -/
def coverLoop (par : Params K) (kit : Kit K X B R) (x : X) :
    Nat → List Bool → Bool → St K X B R → Res (St K X B R)
  | _, _, true, s => .ok s
  | 0, cov, false, s => do
    let _ ← coverIter par kit x cov s
    .error .exit
  | n + 1, cov, false, s => do
    let (cov, covered, s) ← coverIter par kit x cov s
    coverLoop par kit x n cov covered s

/-- `clset_cover`, clset.c:158-197. -/
def cover (par : Params K) (kit : Kit K X B R) (x : X) (s : St K X B R) :
    Res (St K X B R) := do
  let (cov, covered) ← actionCoverage par s
  coverLoop par kit x par.maxCover cov covered s

/-- `cl_mfrac`, cl.c:273-281. -/
def clMfrac (c : Cl K B) : K := if 0 < c.age then (c.mtotal : K) / (c.age : K) else 0

/-- First loop of `clset_mfrac`, clset.c:717-727. -/
def mfracBest (par : Params K) : List (Cl K B) → K → K
  | [], best => best
  | c :: cs, best =>
    if c.err < par.e0 ∧ 1 < (c.exp : K) * par.beta ∧ best < clMfrac c then
      mfracBest par cs (clMfrac c)
    else mfracBest par cs best

/-- Second loop of `clset_mfrac`, clset.c:730-739. -/
def mfracLow (par : Params K) : List (Cl K B) → K → K → K
  | [], _, best => best
  | c :: cs, error, best =>
    if c.err < error ∧ 1 < (c.exp : K) * par.beta then mfracLow par cs c.err (clMfrac c)
    else mfracLow par cs error best

/-- `clset_mfrac`, clset.c:712-742. -/
def mfracOf (par : Params K) (kit : Kit K X B R) (cs : List (Cl K B)) : K :=
  let b := mfracBest par cs 0
  if b = 0 then mfracLow par cs kit.dblMax b else b

/-- The matching loop of `clset_match`, clset.c:380-387, or, if built with `PARALLEL_MATCH`, the
loops 359-377, which compute the action of every rule, in the order of the population; with
`cl_match` (cl.c:256-265) and `cl_action` (cl.c:303-308). -/
def matchGo (kit : Kit K X B R) (x : X) : List Nat → St K X B R → Res (St K X B R)
  | [], s => .ok s
  | i :: l, s => do
    let c ← s.rd i
    let (m, b, r) := kit.cmatch s.explore c.body x s.rng
    let c := { c with m := m, body := b, mtotal := if m then c.mtotal + 1 else c.mtotal,
                      age := c.age + 1 }
    let s := { s.put i c with rng := r }
    let s := if m then { s with mset := s.mset.add i c.num } else s
    if m || kit.parallel then
      let (a, b, r) := kit.act s.explore c.body x s.rng
      let s := { s.put i { c with action := a, body := b } with rng := r }
      matchGo kit x l s
    else matchGo kit x l s

/-- `clset_match`, clset.c:355-396. -/
def clsetMatch (par : Params K) (kit : Kit K X B R) (x : X) (doCover : Bool)
    (s : St K X B R) : Res (St K X B R) := do
  let s ← matchGo kit x s.pset.list s
  let s ← if doCover ∧ (1 < par.nActions ∨ s.mset.size < 1) then cover par kit x s else .ok s
  let cs ← s.rds s.pset.list
  .ok { s with msetSize := s.msetSize + ((s.mset.size : K) - s.msetSize) * par.beta,
               mfrac := s.mfrac + (mfracOf par kit cs - s.mfrac) * par.beta }

/-- The loop of `clset_action`, clset.c:406-412. -/
def actionGo (s : St K X B R) (a : Int) : List Nat → CSet → Res CSet
  | [], t => .ok t
  | i :: l, t => do
    let c ← s.rd i
    actionGo s a l (if c.action = a then t.add i c.num else t)

/-- `clset_action`, clset.c:403-415. -/
def clsetAction (par : Params K) (a : Int) (s : St K X B R) : Res (St K X B R) := do
  let t ← actionGo s a s.mset.list s.aset
  .ok { s with aset := t,
               asetSize := s.asetSize + ((t.size : K) - s.asetSize) * par.beta }

/-- `cl_update`, cl.c:182-201. -/
def clUpdate (par : Params K) (kit : Kit K X B R) (explore : Bool) (c : Cl K B) (x : X)
    (y : List K) (setNum : Int) (cur : Bool) (r : R) : Cl K B × R :=
  let c := { c with exp := c.exp + 1 }
  let (p, b, r) := if cur then (c.prediction, c.body, r)
                   else kit.predict explore c.body c.prediction x r
  let c := { c with prediction := p, body := b }
  let error := kit.loss c.prediction y
  let c := if (c.exp : K) * par.beta < 1 then
      { c with err := (c.err * ((c.exp : K) - 1) + error) / (c.exp : K),
               size := (c.size * ((c.exp : K) - 1) + (setNum : K)) / (c.exp : K) }
    else
      { c with err := c.err + par.beta * (error - c.err),
               size := c.size + par.beta * ((setNum : K) - c.size) }
  let (b, p, r) := kit.update c.exp c.body c.prediction x y r
  ({ c with body := b, prediction := p }, r)

/-- The loop of `clset_update` over the set, clset.c:463-467. -/
def updateGo (par : Params K) (kit : Kit K X B R) (x : X) (y : List K) (setNum : Int)
    (cur : Bool) : List Nat → St K X B R → Res (St K X B R)
  | [], s => .ok s
  | i :: l, s => do
    let c ← s.rd i
    let (c, r) := clUpdate par kit s.explore c x y setNum cur s.rng
    updateGo par kit x y setNum cur l { s.put i c with rng := r }

/-- `cl_update_fit`, cl.c:210-215. -/
def clUpdateFit (par : Params K) (c : Cl K B) (accSum acc : K) : Cl K B :=
  { c with fit := c.fit + par.beta * (acc * (c.num : K) / accSum - c.fit) }

/-- First loop of `clset_update_fit`, clset.c:207-215: the sum of the
numerosity-weighted accuracies. -/
def accSum (par : Params K) (kit : Kit K X B R) (cs : List (Cl K B)) : K :=
  cs.foldl (fun a c => a + clAcc par kit c.err * (c.num : K)) 0

/-- Second loop of `clset_update_fit`, clset.c:217-221.  The accuracy, stored in
`accs[i]` by the first loop, is recomputed: it depends on `err` only, which this
loop does not write. -/
def fitGo (par : Params K) (kit : Kit K X B R) (sum : K) :
    List Nat → St K X B R → Res (St K X B R)
  | [], s => .ok s
  | i :: l, s => do
    let c ← s.rd i
    fitGo par kit sum l (s.put i (clUpdateFit par c sum (clAcc par kit c.err)))

/-- `clset_update_fit`, clset.c:204-222.  The C loops stop at `set->size`
elements; the model takes the whole list after checking that the counter agrees
(`accs[set->size]` with a wrong counter is outside the model: `ub`). -/
def updateFit (par : Params K) (kit : Kit K X B R) (t : CSet) (s : St K X B R) :
    Res (St K X B R) := do
  if t.size ≠ t.list.length then .error .ub
  else
    let cs ← s.rds t.list
    fitGo par kit (accSum par kit cs) t.list s

/-- `cl_subsumer`, cl.c:330-337. -/
def subsumer (par : Params K) (c : Cl K B) : Bool :=
  decide (par.thetaSub < c.exp) && decide (c.err < par.e0)

/-- The search for the most general subsumer, clset.c:233-241. -/
def findSubsumer (par : Params K) (kit : Kit K X B R) (s : St K X B R) :
    List Nat → Option Nat → Res (Option Nat)
  | [], best => .ok best
  | i :: l, best => do
    let c ← s.rd i
    let better ← match best with
      | none => pure true
      | some b => do
        let cb ← s.rd b
        pure (kit.general c.body cb.body)
    findSubsumer par kit s l (if subsumer par c && better then some i else best)

/-- The absorbing loop, clset.c:244-255.  Returns whether something was absorbed. -/
def subsumeGo (kit : Kit K X B R) (sid : Nat) :
    List Nat → Bool → St K X B R → Res (Bool × St K X B R)
  | [], done, s => .ok (done, s)
  | i :: l, done, s => do
    let c ← s.rd i
    let sc ← s.rd sid
    if sid ≠ i ∧ kit.general sc.body c.body then
      let s := s.put sid { sc with num := sc.num + c.num }
      let s := s.put i { c with num := 0 }
      subsumeGo kit sid l true { s with kset := s.kset.add i 0 }
    else subsumeGo kit sid l done s

/-- `clset_subsumption`, clset.c:229-261, on a set `t`: returns the validated set. -/
def subsumption (par : Params K) (kit : Kit K X B R) (t : CSet) (s : St K X B R) :
    Res (CSet × St K X B R) := do
  let best ← findSubsumer par kit s t.list none
  match best with
  | none => .ok (t, s)
  | some sid =>
    let (done, s) ← subsumeGo kit sid t.list false s
    if done then
      let t ← validate s t
      let p ← validate s s.pset
      .ok (t, { s with pset := p })
    else .ok (t, s)

/-- `clset_update`, clset.c:447-473: returns the set (which subsumption may shrink). -/
def clsetUpdate (par : Params K) (kit : Kit K X B R) (t : CSet) (x : X) (y : List K)
    (cur : Bool) (s : St K X B R) : Res (CSet × St K X B R) := do
  let s ← updateGo par kit x y t.num cur t.list s
  let s ← updateFit par kit t s
  if par.setSubsumption then subsumption par kit t s else .ok (t, s)

/-- The loop of `clset_set_times`, clset.c:529-537. -/
def setTimes (time : Int) : List Nat → St K X B R → Res (St K X B R)
  | [], s => .ok s
  | i :: l, s => do
    let c ← s.rd i
    setTimes time l (s.put i { c with time := time })

/-- `clset_kill` of the kill list, clset.c:589-601. -/
def killKset (s : St K X B R) : Res (St K X B R) := do
  let s ← killGo s s.kset.list
  .ok { s with kset := {} }

end Arith
end Xcsf
