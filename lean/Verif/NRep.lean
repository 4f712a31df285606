import Verif.Rep
import Verif.NGenLearn

/-!
# Rules made of neural networks

The functions of conditions, actions and predictions that are neural networks
(`cond_neural.c`, `act_neural.c`, `pred_neural.c`) and of rules whose one graph or network gives
both condition and action (`rule_dgp.c`, `rule_neural.c`), put together with the other conditions,
actions and predictions as `cl.c` does.  Unlike those of `Rep.lean` these functions draw random
numbers when they match, act and predict, and depend on `xcsf->explore`.
-/

namespace Xcsf

/-- `struct CondVtbl`, condition.h:104-128; the first argument of `cover` and `cmatch` is
`xcsf->explore`. -/
structure CondFn (K C R : Type) where
  init : R → Res (C × R)
  cover : Bool → C → List K → R → Res (C × R)
  cmatch : Bool → C → List K → R → Res (Bool × C × R)
  update : C → List K → C
  general : C → C → Bool
  crossover : C → C → R → Res (Bool × C × C × R)
  mutate : C → R → Res (Bool × C × R)
  copy : C → R → Res (C × R)
  size : C → K

/-- `struct ActVtbl`, action.h:76-100; the functions have the whole rule, of which some read or
write the condition. -/
structure ActFn (K C A R : Type) where
  init : R → Res (A × R)
  cover : Bool → C → A → List K → Int → R → Res (C × A × R)
  compute : Bool → C → A → List K → R → Res (Int × A × R)
  general : A → A → Bool
  mutate : A → R → Res (Bool × A × R)
  copy : A → Res A

/-- `struct PredVtbl`, prediction.h:96-117; `compute` and `update` take the current prediction
`c->prediction` and return the new one. -/
structure PredFn (K P R : Type) where
  init : R → Res (P × R)
  compute : Bool → P → List K → List K → R → Res (P × List K × R)
  update : Int → P → List K → List K → List K → Res (P × List K)
  mutate : P → R → Res (Bool × P × R)
  copy : P → R → Res (P × R)
  size : P → K

section
variable {K C A P R : Type}

/-- The functions of a rule, from those of its parts. -/
def mkRepG (n nActions : Nat) (cv : CondFn K C R) (av : ActFn K C A R) (pv : PredFn K P R) :
    Rep K (Input K n) (RuleBody C A P) R where
  -- `cl_rand`, cl.c:128-137
  rand := fun r => do
    let c ← cv.init r
    let p ← pv.init c.2
    let a ← av.init p.2
    .ok (⟨c.1, a.1, p.1⟩, a.2)
  -- `cl_cover`, cl.c:117-118
  cover := fun e b x a r => do
    let c ← cv.cover e b.cond x.1 r
    let q ← av.cover e c.1 b.act x.1 a c.2
    .ok (⟨q.1, q.2.1, b.pred⟩, q.2.2)
  -- `cl_match`, cl.c:257-265
  cmatch := fun e b x r => do
    let q ← cv.cmatch e b.cond x.1 r
    .ok (q.1, { b with cond := q.2.1 }, q.2.2)
  -- `cl_action`, cl.c:304-308
  act := fun e b x r => do
    let q ← av.compute e b.cond b.act x.1 r
    .ok (q.1, { b with act := q.2.1 }, q.2.2)
  -- `cl_predict`, cl.c:318-322
  predict := fun e b p x r => do
    let q ← pv.compute e b.pred p x.1 r
    .ok (q.2.1, { b with pred := q.1 }, q.2.2)
  -- cl.c:198-200 (no action has anything to update)
  update := fun n b p x y r => do
    let q ← pv.update n b.pred p x.1 y
    .ok ({ b with cond := cv.update b.cond x.1, pred := q.1 }, q.2, r)
  -- `cl_general`, cl.c:347-353
  general := fun a b => if cv.general a.cond b.cond then av.general a.act b.act else false
  -- `cl_crossover`, cl.c:381-390 (predictions and actions have no crossover)
  crossover := fun a b r => do
    let q ← cv.crossover a.cond b.cond r
    .ok (q.1, { a with cond := q.2.1 }, { b with cond := q.2.2.1 }, q.2.2.2)
  -- `cl_mutate`, cl.c:362-371
  mutate := fun b r => do
    let c ← cv.mutate b.cond r
    let p ← pv.mutate b.pred c.2.2
    let a ← (if 1 < nActions then av.mutate b.act p.2.2 else .ok (false, b.act, p.2.2))
    .ok (c.1 || p.1 || a.1, ⟨c.2.1, a.2.1, p.2.1⟩, a.2.2)
  -- `cl_copy`, cl.c:62-75
  copy := fun reset b r => do
    let a ← av.copy b.act
    let c ← cv.copy b.cond r
    let p ← (if reset then pv.init c.2 else pv.copy b.pred c.2)
    .ok (⟨c.1, a, p.1⟩, p.2)
  -- cl.c:100-102
  clone := fun b r => do
    let a ← av.copy b.act
    let c ← cv.copy b.cond r
    let p ← pv.copy b.pred c.2
    .ok (⟨c.1, a, p.1⟩, p.2)
  condSize := fun b => cv.size b.cond
  predSize := fun b => pv.size b.pred

/-- A condition that neither draws when it matches nor depends on `xcsf->explore`. -/
def CondVt.fn (v : CondVt K C R) : CondFn K C R where
  init := v.init
  cover := fun _ => v.cover
  cmatch := fun _ c x r => do
    let q ← v.cmatch c x
    .ok (q.1, q.2, r)
  update := v.update
  general := v.general
  crossover := v.crossover
  mutate := v.mutate
  copy := v.copy
  size := v.size

/-- An action that does not depend on the input. -/
def ActVt.fn (v : ActVt A R) : ActFn K C A R where
  init := v.init
  cover := fun _ c a _ k r => .ok (c, v.cover a k, r)
  compute := fun _ _ a _ r => .ok (v.compute a, a, r)
  general := v.general
  mutate := v.mutate
  copy := fun a => .ok (v.copy a)

/-- A prediction that does not draw. -/
def PredVt.fn (v : PredVt K P R) : PredFn K P R where
  init := v.init
  compute := fun _ s p x r => .ok ((v.compute s p x).1, (v.compute s p x).2, r)
  update := fun n s p x y => .ok (v.update n s p x y)
  mutate := v.mutate
  copy := v.copy
  size := v.size

end

/-- `struct Net`, neural.h:48-56: the number of outputs noted when the last layer was added, and
the layers (the number of layers is their length; the number of inputs, the buffer of the outputs
and the pointers to the ends are not used by what is modelled here). -/
structure NetBody (K : Type) where
  nOut : Int
  lays : List (GLay K)
  deriving DecidableEq

section
variable {K R : Type} [Field K] [LinearOrder K] [IsStrictOrderedRing K] [FloorRing K]

/-- The number of outputs of the last layer, which `neural_push` notes, neural.c:104 and 118. -/
def headOuts (ls : List (GLay K)) : Int :=
  match ls.getLast? with
  | none => 0
  | some l => l.dim.n

/-- `neural_create`, neural.c:52-90. -/
def netNew (g : Rng K R) (as : List (GArgs K)) (r : R) : Res (NetBody K × R) :=
  match genCreate g as r with
  | .error e => .error e
  | .ok (ls, r) => .ok (⟨headOuts ls, ls⟩, r)

/-- `neural_copy`, neural.c:206-217, which notes the number of outputs again. -/
def netCopy (b : NetBody K) (r : R) : Res (NetBody K × R) :=
  match genCopy b.lays with
  | .error e => .error e
  | .ok ls => .ok (⟨headOuts ls, ls⟩, r)

/-- `neural_rand`, neural.c:241-249. -/
def netRandom (g : Rng K R) (b : NetBody K) (r : R) : Res (NetBody K × R) :=
  match genRand g b.lays r with
  | .error e => .error e
  | .ok (ls, r) => .ok ({ b with lays := ls }, r)

/-- `neural_mutate`, neural.c:257-282; the noted number of outputs stays. -/
def netEvolve (g : Rng K R) (fuel : Nat) (b : NetBody K) (r : R) : Res (Bool × NetBody K × R) :=
  match genMutate g fuel none b.lays r with
  | .error e => .error e
  | .ok ((ls, m), r) => .ok (m, { b with lays := ls }, r)

/-- `neural_propagate`, neural.c:309-319; `lo` is -DBL_MAX. -/
def netPropagate (g : Rng K R) (m : Libm K) (lo : K) (explore : Bool) (b : NetBody K) (x : List K)
    (r : R) : Res (NetBody K × R) :=
  match genForward g m lo explore b.lays x r with
  | .error e => .error e
  | .ok (ls, r) => .ok ({ b with lays := ls }, r)

/-- `neural_size`, neural.c:450-469: the active connections of the layers that have some. -/
def netSize (b : NetBody K) : K :=
  (b.lays.map fun l => match l with
    | .conn l => (l.nActive : K)
    | .recu l => (l.nActive : K)
    | .lstm l => (l.nActive : K)
    | .conv l => (l.core.nActive : K)
    | _ => 0).sum

/-! ## Conditions -/

/-- `cond_neural_match`, cond_neural.c:117-126, and `rule_neural_cond_match`,
rule_neural.c:88-98. -/
def netMatch (g : Rng K R) (m : Libm K) (lo : K) (explore : Bool) (b : NetBody K) (x : List K)
    (r : R) : Res (Bool × NetBody K × R) :=
  match netPropagate g m lo explore b x r with
  | .error e => .error e
  | .ok (b, r) =>
    match genOutput b.nOut b.lays 0 with
    | .error e => .error e
    | .ok v => .ok (decide (1 / 2 < v), b, r)

/-- `cond_neural_cover`, cond_neural.c:85-92, with a bound on the tries. -/
def netCover (g : Rng K R) (m : Libm K) (lo : K) (explore : Bool) (x : List K) :
    Nat → NetBody K → R → Res (NetBody K × R)
  | 0, _, _ => .error .hang
  | k + 1, b, r =>
    match netRandom g b r with
    | .error e => .error e
    | .ok (b, r) =>
      match netMatch g m lo explore b x r with
      | .error e => .error e
      | .ok (true, b, r) => .ok (b, r)
      | .ok (false, b, r) => netCover g m lo explore x k b r

/-- `cond_neural.c`; crossover and generality do nothing, cond_neural.c:149-175. -/
def netCond (g : Rng K R) (m : Libm K) (lo : K) (as : List (GArgs K)) (fuel : Nat) :
    CondFn K (NetBody K) R where
  init := netNew g as
  cover := fun e b x r => netCover g m lo e x fuel b r
  cmatch := netMatch g m lo
  update := fun b _ => b
  general := fun _ _ => false
  crossover := fun c d r => .ok (false, c, d, r)
  mutate := netEvolve g (fuel + 1)
  copy := netCopy
  size := netSize

/-! ## Actions -/

/-- `act_neural_compute`, act_neural.c:106-113: the first `n_actions` outputs are compared, however
many there are. -/
def netAction (g : Rng K R) (m : Libm K) (lo : K) (nActions : Nat) (explore : Bool) (b : NetBody K)
    (x : List K) (r : R) : Res (Int × NetBody K × R) :=
  match netPropagate g m lo explore b x r with
  | .error e => .error e
  | .ok (b, r) =>
    match b.lays.getLast? with
    | none => .error .ub
    | some l =>
      match l.outs with
      | .error e => .error e
      | .ok o =>
        if o.length < nActions then .error .ub
        else
          match argmax (o.take nActions) with
          | .error e => .error e
          | .ok a => .ok (a, b, r)

/-- `act_neural_cover`, act_neural.c:151-159, with a bound on the tries. -/
def netActCover (g : Rng K R) (m : Libm K) (lo : K) (nActions : Nat) (explore : Bool) (x : List K)
    (action : Int) : Nat → NetBody K → R → Res (NetBody K × R)
  | 0, _, _ => .error .hang
  | k + 1, b, r =>
    match netRandom g b r with
    | .error e => .error e
    | .ok (b, r) =>
      match netAction g m lo nActions explore b x r with
      | .error e => .error e
      | .ok (a, b, r) =>
        if a = action then .ok (b, r) else netActCover g m lo nActions explore x action k b r

/-- `act_neural.c`; crossover and generality do nothing, act_neural.c:58-84. -/
def netAct {C : Type} (g : Rng K R) (m : Libm K) (lo : K) (as : List (GArgs K)) (nActions : Nat)
    (fuel : Nat) : ActFn K C (NetBody K) R where
  init := netNew g as
  cover := fun e c b x a r =>
    match netActCover g m lo nActions e x a fuel b r with
    | .error e => .error e
    | .ok (b, r) => .ok (c, b, r)
  compute := fun e _ b x r => netAction g m lo nActions e b x r
  general := fun _ _ => false
  mutate := netEvolve g (fuel + 1)
  copy := fun b =>
    match netCopy b () with
    | .error e => .error e
    | .ok (b, _) => .ok b

/-! ## Predictions -/

/-- The loop of `pred_neural_compute`, pred_neural.c:111-113. -/
def netReadGo (b : NetBody K) : Nat → Res (List K)
  | 0 => .ok []
  | i + 1 =>
    match netReadGo b i with
    | .error e => .error e
    | .ok vs =>
      match genOutput b.nOut b.lays i with
      | .error e => .error e
      | .ok v => .ok (vs ++ [v])

/-- `pred_neural_compute`, pred_neural.c:105-114. -/
def netPredict (g : Rng K R) (m : Libm K) (lo : K) (yDim : Nat) (explore : Bool) (b : NetBody K)
    (x : List K) (r : R) : Res (NetBody K × List K × R) :=
  match netPropagate g m lo explore b x r with
  | .error e => .error e
  | .ok (b, r) =>
    match netReadGo b yDim with
    | .error e => .error e
    | .ok vs => .ok (b, vs, r)

/-- `pred_neural_update`, pred_neural.c:90-97: trains with the `y_dim` target values. -/
def netTrain (m : Libm K) (yDim : Nat) (b : NetBody K) (x y : List K) : Res (NetBody K) :=
  match genLearn m b.lays (ofArr yDim (arrOf y)) x with
  | .error e => .error e
  | .ok ls => .ok { b with lays := ls }

/-- `pred_neural.c`. -/
def netPred (g : Rng K R) (m : Libm K) (lo : K) (as : List (GArgs K)) (yDim : Nat) (fuel : Nat) :
    PredFn K (NetBody K) R where
  init := netNew g as
  compute := fun e b _ x r => netPredict g m lo yDim e b x r
  update := fun _ b p x y =>
    match netTrain m yDim b x y with
    | .error e => .error e
    | .ok b => .ok (b, p)
  mutate := netEvolve g (fuel + 1)
  copy := netCopy
  size := netSize

/-! ## Rules with one graph or network for condition and action -/

/-- The condition of `rule_dgp.c`, 29-133: a dynamical GP graph; covering is left to the action,
rule_dgp.c:60-67. -/
def ruleDgpCond (g : Rng K R) (a : DgpArgs) (stateful : Bool) : CondFn K (Graph K) R :=
  { (dgpCond g a stateful 0).fn with cover := fun _ d _ r => .ok (d, r) }

/-- The action of `rule_dgp.c`, 186-281: the other outputs of the graph are the bits of the
action. -/
def ruleDgpAct (g : Rng K R) (stateful : Bool) (nActions fuel : Nat) :
    ActFn K (Graph K) Unit R where
  init := fun r => .ok ((), r)
  cover := fun _ d _ x a r =>
    match ruleDgpCover g stateful nActions x a fuel d r with
    | .error e => .error e
    | .ok (d, r) => .ok (d, (), r)
  compute := fun _ d _ _ r =>
    match ruleDgpAction nActions d with
    | .error e => .error e
    | .ok a => .ok (a, (), r)
  general := fun _ _ => false
  mutate := fun _ r => .ok (false, (), r)
  copy := fun _ => .ok ()

/-- `rule_neural_cond_init`, rule_neural.c:34-47. -/
def ruleNetNew (g : Rng K R) (as : List (GArgs K)) (nActions : Nat) (r : R) :
    Res (NetBody K × R) :=
  match netNew g as r with
  | .error e => .error e
  | .ok (b, r) => if b.nOut ≠ (actionBits nActions : Int) + 1 then .error .exit else .ok (b, r)

/-- The condition of `rule_neural.c`, 34-142. -/
def ruleNetCond (g : Rng K R) (m : Libm K) (lo : K) (as : List (GArgs K)) (nActions fuel : Nat) :
    CondFn K (NetBody K) R :=
  { netCond g m lo as fuel with
    init := ruleNetNew g as nActions
    cover := fun _ b _ r => .ok (b, r) }

/-- `rule_neural_act_compute`, rule_neural.c:237-252: the outputs of the last propagation. -/
def ruleNetBits (nActions : Nat) (b : NetBody K) : Res Int :=
  bitsAction nActions (b.nOut - 1).toNat fun i => genOutput b.nOut b.lays i

/-- `rule_neural_act_cover`, rule_neural.c:226-235, with a bound on the tries.  The action is
computed only if the rule does not match. -/
def ruleNetDraw (g : Rng K R) (m : Libm K) (lo : K) (nActions : Nat) (explore : Bool) (x : List K)
    (action : Int) : Nat → NetBody K → R → Res (NetBody K × R)
  | 0, _, _ => .error .hang
  | k + 1, b, r =>
    match netRandom g b r with
    | .error e => .error e
    | .ok (b, r) =>
      match netMatch g m lo explore b x r with
      | .error e => .error e
      | .ok (true, b, r) => .ok (b, r)
      | .ok (false, b, r) =>
        match ruleNetBits nActions b with
        | .error e => .error e
        | .ok a =>
          if a = action then .ok (b, r) else ruleNetDraw g m lo nActions explore x action k b r

/-- The action of `rule_neural.c`, 195-290. -/
def ruleNetAct (g : Rng K R) (m : Libm K) (lo : K) (nActions fuel : Nat) :
    ActFn K (NetBody K) Unit R where
  init := fun r => .ok ((), r)
  cover := fun e b _ x a r =>
    match ruleNetDraw g m lo nActions e x a fuel b r with
    | .error e => .error e
    | .ok (b, r) => .ok (b, (), r)
  compute := fun _ b _ _ r =>
    match ruleNetBits nActions b with
    | .error e => .error e
    | .ok a => .ok (a, (), r)
  general := fun _ _ => false
  mutate := fun _ r => .ok (false, (), r)
  copy := fun _ => .ok ()

/-! ## Systems -/

/-- The ways to set condition and action, condition.h:28-39 and action.h:28-29: a condition and an
action of their own, each perhaps a network, or one graph or network for both. -/
inductive RuleKind where
  | parts (c : Option CondType) (netAct : Bool)
  | dgp
  | neural
  deriving DecidableEq, Repr

/-- The structure `c->cond` points to; `none` is `COND_TYPE_NEURAL`. -/
def RuleKind.CBody (K : Type) : RuleKind → Type
  | .parts (some c) _ => c.Body K
  | .parts none _ => NetBody K
  | .dgp => Graph K
  | .neural => NetBody K

/-- The structure `c->act` points to. -/
def RuleKind.ABody (K : Type) : RuleKind → Type
  | .parts _ false => ActInt K
  | .parts _ true => NetBody K
  | .dgp => Unit
  | .neural => Unit

/-- The structure `c->pred` points to; `none` is `PRED_TYPE_NEURAL`. -/
def predBody (K : Type) : Option PredType → Type
  | some q => q.Body K
  | none => NetBody K

/-- The parameters of the parts of a rule, with the layers of the networks (`xcsf->cond->largs`,
`xcsf->act->largs`, `xcsf->pred->largs`), the mathematical functions and -DBL_MAX. -/
structure NetSetup (K : Type) extends Setup K where
  condNet : List (GArgs K)
  actNet : List (GArgs K)
  predNet : List (GArgs K)
  libm : Libm K
  lo : K

/-- `condition_set`, condition.c:41-78. -/
def RuleKind.cond (g : Rng K R) (S : NetSetup K) (nActions : Nat) :
    (t : RuleKind) → CondFn K (t.CBody K) R
  | .parts (some c) _ => (c.vt g S.toSetup).fn
  | .parts none _ => netCond g S.libm S.lo S.condNet S.fuel
  | .dgp => ruleDgpCond g S.dgp S.stateful
  | .neural => ruleNetCond g S.libm S.lo S.condNet nActions S.fuel

/-- `action_set`, action.c:36-50, and `condition_set`, condition.c:66-73, which comes later. -/
def RuleKind.act (g : Rng K R) (S : NetSetup K) (nActions : Nat) :
    (t : RuleKind) → ActFn K (t.CBody K) (t.ABody K) R
  | .parts _ false => (intAct g nActions).fn
  | .parts _ true => netAct g S.libm S.lo S.actNet nActions S.fuel
  | .dgp => ruleDgpAct g S.stateful nActions S.fuel
  | .neural => ruleNetAct g S.libm S.lo nActions S.fuel

/-- `prediction_set`, prediction.c:36-57. -/
def predFn (g : Rng K R) (S : NetSetup K) : (q : Option PredType) → PredFn K (predBody K q) R
  | some q => (q.vt g S.toSetup).fn
  | none => netPred g S.libm S.lo S.predNet S.pred.yDim S.fuel

/-- The rules of a system. -/
abbrev NetParts (K : Type) (t : RuleKind) (q : Option PredType) :=
  RuleBody (t.CBody K) (t.ABody K) (predBody K q)

/-- The functions of the rules of a system. -/
def netSystemRep (g : Rng K R) (S : NetSetup K) (nActions : Nat) (t : RuleKind)
    (q : Option PredType) : Rep K (Input K S.xDim) (NetParts K t q) R :=
  mkRepG S.xDim nActions (t.cond g S nActions) (t.act g S nActions) (predFn g S q)

end
end Xcsf
