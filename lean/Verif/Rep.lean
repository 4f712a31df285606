import Verif.Core
import Verif.Cond
import Verif.Pred
import Verif.Gp
import Verif.Dgp
import Verif.NLayer

/-!
# Complete rule representations

The life cycle (`Core.lean`, `Trial.lean`) is parametric in the functions of a rule.  Here these
functions are put together from a condition, an action and a prediction as `cl.c` does, for the
conditions dummy, hyperrectangle, hyperellipsoid, ternary, tree GP and dynamical GP, for integer
actions and for constant, NLMS and RLS predictions.

The functions of a representation may be undefined or not return (`Res`).  Those of `Kit` are
total, so a `Kit` is built from a representation together with a proof that its functions return
on the rules that satisfy an invariant `W`; the bodies of the resulting `Kit` are the bodies that
satisfy `W` and the inputs are the vectors of the right length.
-/

namespace Xcsf

/-- The functions of a rule as `cl.c` composes them; the entries are those of `Kit`. -/
structure Rep (K X B R : Type) where
  rand : R → Res (B × R)
  cover : Bool → B → X → Int → R → Res (B × R)
  cmatch : Bool → B → X → R → Res (Bool × B × R)
  act : Bool → B → X → R → Res (Int × B × R)
  predict : Bool → B → List K → X → R → Res (List K × B × R)
  update : Int → B → List K → X → List K → R → Res (B × List K × R)
  general : B → B → Bool
  crossover : B → B → R → Res (Bool × B × B × R)
  mutate : B → R → Res (Bool × B × R)
  copy : Bool → B → R → Res (B × R)
  clone : B → R → Res (B × R)
  condSize : B → K
  predSize : B → K

/-- The functions of a representation return on every rule satisfying `W` and keep `W`; covering
may only fail by not returning or by ending the program, mutation only by not returning. -/
structure Rep.Sound {K X B R : Type} (v : Rep K X B R) (nActions yDim : Nat) (W : B → Prop) :
    Prop where
  rand : ∀ r, ∃ q, v.rand r = .ok q ∧ W q.1
  cover : ∀ e b x (a : Nat) r, W b → a < nActions → (∃ q, v.cover e b x a r = .ok q ∧ W q.1) ∨
    v.cover e b x a r = .error .hang ∨ v.cover e b x a r = .error .exit
  cmatch : ∀ e b x r, W b → ∃ q, v.cmatch e b x r = .ok q ∧ W q.2.1
  act : ∀ e b x r, W b → ∃ q, v.act e b x r = .ok q ∧ 0 ≤ q.1 ∧ q.1 < nActions ∧ W q.2.1
  predict : ∀ e b p x r, W b → ∃ q, v.predict e b p x r = .ok q ∧ W q.2.1 ∧
    (p.length = yDim → q.1.length = yDim)
  update : ∀ n b p x y r, W b → ∃ q, v.update n b p x y r = .ok q ∧ W q.1 ∧
    (p.length = yDim → q.2.1.length = yDim)
  crossover : ∀ a b r, W a → W b → ∃ q, v.crossover a b r = .ok q ∧ W q.2.1 ∧ W q.2.2.1
  mutate : ∀ b r, W b → (∃ q, v.mutate b r = .ok q ∧ W q.2.1) ∨ v.mutate b r = .error .hang
  copy : ∀ f b r, W b → ∃ q, v.copy f b r = .ok q ∧ W q.1
  clone : ∀ b r, W b → ∃ q, v.clone b r = .ok q ∧ W q.1

/-- The value of a computation that returns. -/
def got {α : Type} {P : α → Prop} : (m : Res α) → (∃ q, m = .ok q ∧ P q) → { q : α // P q }
  | .ok q, h => ⟨q, by obtain ⟨q', e, h⟩ := h; cases e; exact h⟩
  | .error _, h => absurd h (by rintro ⟨_, e, _⟩; cases e)

theorem got_eq {α : Type} {P : α → Prop} : ∀ {m : Res α} (h : ∃ q, m = .ok q ∧ P q),
    m = .ok (got m h).1
  | .ok _, _ => rfl
  | .error _, h => by obtain ⟨_, e, _⟩ := h; cases e

/-- What the program uses of the platform besides the representation: the generator of random
numbers, `pow`, `DBL_MAX` and the loss function. -/
structure Platform (K R : Type) where
  rng : Rng K R
  pow : K → K → K
  dblMax : K
  loss : List K → List K → K
  /-- built with `PARALLEL_MATCH`, the default of the build (CMakeLists.txt:34, 122-129) -/
  parallel : Bool := false

section
variable {K X B R : Type} [Field K] [LinearOrder K] [IsStrictOrderedRing K] [FloorRing K]

/-- The life-cycle functions of a system with a given representation.  Covering an action that
does not exist is undefined (and never happens, see C74). -/
def Rep.kit (v : Rep K X B R) {nActions yDim : Nat} {W : B → Prop} (h : v.Sound nActions yDim W)
    (pf : Platform K R) : Kit K X { b : B // W b } R where
  draw := pf.rng.draw
  floor := fun x => ⌊x⌋
  pow := pf.pow
  eps := dblEps
  dblMax := pf.dblMax
  loss := pf.loss
  rand := fun r =>
    let q := got (v.rand r) (h.rand r)
    (⟨q.1.1, q.2⟩, q.1.2)
  cover := fun f b x a r =>
    if ha : 0 ≤ a ∧ a.toNat < nActions then
      match e : v.cover f b.1 x a.toNat r with
      | .ok q => .ok (⟨q.1, by
          rcases h.cover f b.1 x a.toNat r b.2 ha.2 with ⟨q', e', w⟩ | e' | e' <;>
            rw [e] at e' <;> cases e'
          exact w⟩, q.2)
      | .error f => .error f
    else .error .ub
  cmatch := fun e b x r =>
    let q := got (v.cmatch e b.1 x r) (h.cmatch e b.1 x r b.2)
    (q.1.1, ⟨q.1.2.1, q.2⟩, q.1.2.2)
  act := fun e b x r =>
    let q := got (v.act e b.1 x r) (h.act e b.1 x r b.2)
    (q.1.1, ⟨q.1.2.1, q.2.2.2⟩, q.1.2.2)
  predict := fun e b p x r =>
    let q := got (v.predict e b.1 p x r) (h.predict e b.1 p x r b.2)
    (q.1.1, ⟨q.1.2.1, q.2.1⟩, q.1.2.2)
  update := fun n b p x y r =>
    let q := got (v.update n b.1 p x y r) (h.update n b.1 p x y r b.2)
    (⟨q.1.1, q.2.1⟩, q.1.2.1, q.1.2.2)
  general := fun a b => v.general a.1 b.1
  crossover := fun a b r =>
    let q := got (v.crossover a.1 b.1 r) (h.crossover a.1 b.1 r a.2 b.2)
    (q.1.1, ⟨q.1.2.1, q.2.1⟩, ⟨q.1.2.2.1, q.2.2⟩, q.1.2.2.2)
  mutate := fun b r =>
    match e : v.mutate b.1 r with
    | .ok q => .ok (q.1, ⟨q.2.1, by
        rcases h.mutate b.1 r b.2 with ⟨q', e', w⟩ | e' <;> rw [e] at e' <;> cases e'
        exact w⟩, q.2.2)
    | .error f => .error f
  copy := fun f b r =>
    let q := got (v.copy f b.1 r) (h.copy f b.1 r b.2)
    (⟨q.1.1, q.2⟩, q.1.2)
  clone := fun b r =>
    let q := got (v.clone b.1 r) (h.clone b.1 r b.2)
    (⟨q.1.1, q.2⟩, q.1.2)
  condSize := fun b => v.condSize b.1
  predSize := fun b => v.predSize b.1
  parallel := pf.parallel

end

/-! ## The vtables of condition, action and prediction -/

/-- `struct CondVtbl`, condition.h:104-128 (saving, loading and printing are modelled
elsewhere). -/
structure CondVt (K C R : Type) where
  init : R → Res (C × R)
  cover : C → List K → R → Res (C × R)
  cmatch : C → List K → Res (Bool × C)
  update : C → List K → C
  general : C → C → Bool
  crossover : C → C → R → Res (Bool × C × C × R)
  mutate : C → R → Res (Bool × C × R)
  copy : C → R → Res (C × R)
  size : C → K

/-- `struct ActVtbl`, action.h:76-100. -/
structure ActVt (A R : Type) where
  init : R → Res (A × R)
  cover : A → Int → A
  compute : A → Int
  general : A → A → Bool
  mutate : A → R → Res (Bool × A × R)
  copy : A → A

/-- `struct PredVtbl`, prediction.h:96-117; `compute` and `update` take the current prediction
`c->prediction` and return the new one. -/
structure PredVt (K P R : Type) where
  init : R → Res (P × R)
  compute : P → List K → List K → P × List K
  update : Int → P → List K → List K → List K → P × List K
  mutate : P → R → Res (Bool × P × R)
  copy : P → R → Res (P × R)
  size : P → K

/-- The three parts of a rule, xcsf.h:49-51. -/
structure RuleBody (C A P : Type) where
  cond : C
  act : A
  pred : P
  deriving DecidableEq, Repr

section
variable {K C A P R : Type}

/-- An input of the system: `x_dim` numbers. -/
abbrev Input (K : Type) (n : Nat) := { x : List K // x.length = n }

/-- The functions of a rule, from those of its parts. -/
def mkRep (n nActions : Nat) (cv : CondVt K C R) (av : ActVt A R) (pv : PredVt K P R) :
    Rep K (Input K n) (RuleBody C A P) R where
  -- `cl_rand`, cl.c:128-137
  rand := fun r => do
    let c ← cv.init r
    let p ← pv.init c.2
    let a ← av.init p.2
    .ok (⟨c.1, a.1, p.1⟩, a.2)
  -- `cl_cover`, cl.c:117-118
  cover := fun _ b x a r => do
    let c ← cv.cover b.cond x.1 r
    .ok ({ b with cond := c.1, act := av.cover b.act a }, c.2)
  -- `cl_match`, cl.c:257-265
  cmatch := fun _ b x r => do
    let q ← cv.cmatch b.cond x.1
    .ok (q.1, { b with cond := q.2 }, r)
  -- `cl_action`, cl.c:304-308
  act := fun _ b _ r => .ok (av.compute b.act, b, r)
  -- `cl_predict`, cl.c:318-322
  predict := fun _ b p x r =>
    let q := pv.compute b.pred p x.1
    .ok (q.2, { b with pred := q.1 }, r)
  -- cl.c:198-200 (`act_integer_update` does nothing)
  update := fun n b p x y r =>
    let q := pv.update n b.pred p x.1 y
    .ok ({ b with cond := cv.update b.cond x.1, pred := q.1 }, q.2, r)
  -- `cl_general`, cl.c:347-353
  general := fun a b => if cv.general a.cond b.cond then av.general a.act b.act else false
  -- `cl_crossover`, cl.c:381-390 (predictions and integer actions have no crossover)
  crossover := fun a b r => do
    let q ← cv.crossover a.cond b.cond r
    .ok (q.1, { a with cond := q.2.1 }, { b with cond := q.2.2.1 }, q.2.2.2)
  -- `cl_mutate`, cl.c:362-371
  mutate := fun b r => do
    let c ← cv.mutate b.cond r
    let p ← pv.mutate b.pred c.2.2
    let a ← (if 1 < nActions then av.mutate b.act p.2.2 else .ok (false, b.act, p.2.2))
    .ok (c.1 || p.1 || a.1, ⟨c.2.1, a.2.1, p.2.1⟩, a.2.2)
  -- `cl_copy`, cl.c:62-75
  copy := fun reset b r => do
    let c ← cv.copy b.cond r
    let p ← (if reset then pv.init c.2 else pv.copy b.pred c.2)
    .ok (⟨c.1, av.copy b.act, p.1⟩, p.2)
  -- cl.c:100-102
  clone := fun b r => do
    let c ← cv.copy b.cond r
    let p ← pv.copy b.pred c.2
    .ok (⟨c.1, av.copy b.act, p.1⟩, p.2)
  condSize := fun b => cv.size b.cond
  predSize := fun b => pv.size b.pred

end

section
variable {K R : Type} [Field K] [LinearOrder K] [IsStrictOrderedRing K] [FloorRing K]

/-! ## Conditions -/

/-- `cond_dummy.c`: always matches, is never more general. -/
def dummyCond : CondVt K Unit R where
  init := fun r => .ok ((), r)
  cover := fun _ _ r => .ok ((), r)
  cmatch := fun _ _ => .ok (true, ())
  update := fun _ _ => ()
  general := fun _ _ => false
  crossover := fun _ _ r => .ok (false, (), (), r)
  mutate := fun _ r => .ok (false, (), r)
  copy := fun _ r => .ok ((), r)
  size := fun _ => 0

/-- `cond_rectangle.c`; `cond_rectangle_copy`, cond_rectangle.c:86-98, copies all arrays. -/
def rectCond (g : Rng K R) (p : CondPar K) (n : Nat) : CondVt K (Box K) R where
  init := rectInit g p n
  cover := fun c x r => .ok (rectCover g p c x r)
  cmatch := fun c x => .ok (rectMatch p c x, c)
  update := rectUpdate p
  general := rectGeneral p
  crossover := fun c d r =>
    let o := boxCross g p c d r
    .ok (o.2.2.1, o.1, o.2.1, o.2.2.2)
  mutate := fun c r => do
    let o ← boxMutate g p p.csr c r
    .ok (o.2.1, o.1, o.2.2)
  copy := fun c r => .ok (c, r)
  size := fun _ => n

/-- `cond_ellipsoid.c`; `cond_ellipsoid_copy`, cond_ellipsoid.c:103-115. -/
def ellCond (g : Rng K R) (p : CondPar K) (n : Nat) : CondVt K (Box K) R where
  init := ellInit g p n
  cover := fun c x r => .ok (ellCover g p c x r)
  cmatch := fun c x => .ok (ellMatch c x, c)
  update := ellUpdate p
  general := ellGeneral
  crossover := fun c d r =>
    let o := boxCross g p c d r
    .ok (o.2.2.1, o.1, o.2.1, o.2.2.2)
  mutate := fun c r => do
    let o ← boxMutate g p true c r
    .ok (o.2.1, o.1, o.2.2)
  copy := fun c r => .ok (c, r)
  size := fun _ => n

/-- `cond_ternary.c`; `cond_ternary_copy`, cond_ternary.c:99-111. -/
def ternCond (g : Rng K R) (p : CondPar K) (n : Nat) : CondVt K (Tern K) R where
  init := ternInit g p n
  cover := ternCover g p
  cmatch := fun c x => do
    let m ← ternMatch p c x
    .ok (m, c)
  update := fun c _ => c
  general := ternGeneral
  crossover := fun c d r =>
    let o := ternCross g p c d r
    .ok (o.2.2.1, o.1, o.2.1, o.2.2.2)
  mutate := fun c r => do
    let o ← ternMutate g c r
    .ok (o.2.1, o.1, o.2.2)
  copy := fun c r => .ok (c, r)
  size := fun c => c.string.length

/-- `cond_gp.c`; `mem` is the content of fresh memory, `fuel` bounds the attempts of the loops
(see `Gp.lean`).  `cond_gp_general`, cond_gp.c:166-174, is false. -/
def gpCond (g : Rng K R) (a : GpArgs K) (pCross : K) (mem : Nat → Int) (fuel : Nat) :
    CondVt K (GpTree K) R where
  init := fun r => gpRand g a (fuel + 1) mem 0 r
  cover := fun _ x r => gpCover g a x (fuel + 1) mem fuel r
  cmatch := fun t x => gpMatch a x t
  update := fun t _ => t
  general := fun _ _ => false
  crossover := gpCondCrossover g pCross
  mutate := fun t r => do
    let o ← gpMutate g a t r
    .ok (o.2.1, o.1, o.2.2)
  copy := fun t r => .ok (gpCopy t, r)
  size := fun t => t.tree.length

/-- `cond_dgp.c`; `fuel` bounds the attempts of covering.  `cond_dgp_crossover`,
cond_dgp.c:145-153, and `cond_dgp_general`, cond_dgp.c:162-170, do nothing. -/
def dgpCond (g : Rng K R) (a : DgpArgs) (stateful : Bool) (fuel : Nat) : CondVt K (Graph K) R where
  init := graphInit g a
  cover := fun d x r => dgpCover g stateful x fuel d r
  cmatch := fun d x => dgpMatch stateful d x
  update := fun d _ => d
  general := fun _ _ => false
  crossover := fun c d r => .ok (false, c, d, r)
  mutate := graphMutate g
  copy := graphCopy g a
  size := fun d => d.state.length

/-! ## Actions -/

/-- `act_integer.c`; `act_integer_copy`, act_integer.c:117-126. -/
def intAct (g : Rng K R) (nActions : Nat) : ActVt (ActInt K) R where
  init := actIntInit g nActions
  cover := actIntCover
  compute := actIntCompute
  general := actIntGeneral
  mutate := actIntMutate g nActions
  copy := fun a => a

/-! ## Predictions -/

/-- `pred_constant.c`: the prediction is `c->prediction` itself, which only updates change. -/
def constPred (p : PredPar K) : PredVt K Unit R where
  init := fun r => .ok ((), r)
  compute := fun _ q _ => ((), q)
  update := fun n _ q _ y => ((), ofArr p.yDim (constUpdate p n.toNat (arrOf q) (arrOf y)))
  mutate := fun _ r => .ok (false, (), r)
  copy := fun _ r => .ok ((), r)
  size := fun _ => p.yDim

/-- `pred_nlms.c`; `tmp` is the content of fresh memory. -/
def nlmsPred (g : Rng K R) (p : PredPar K) (tmp : Nat → K) : PredVt K (Nlms K) R where
  init := nlmsInit g p tmp
  compute := fun s q x =>
    let o := nlmsCompute p s (arrOf q) (arrOf x)
    (o.1, ofArr p.yDim o.2)
  update := fun _ s q x y => (nlmsUpdate p s (arrOf q) (arrOf x) (arrOf y), q)
  mutate := fun s r => do
    let o ← nlmsMutate g p s r
    .ok (o.2.1, o.1, o.2.2)
  copy := fun s r => nlmsCopy g p s tmp r
  size := fun s => s.nWeights

/-- `pred_rls.c`; `tmp` is the content of fresh memory. -/
def rlsPred (p : PredPar K) (tmp : Nat → K) : PredVt K (Rls K) R where
  init := fun r => .ok (rlsInit p tmp, r)
  compute := fun s q x =>
    let o := rlsCompute p s (arrOf q) (arrOf x)
    (o.1, ofArr p.yDim o.2)
  update := fun _ s q _ y => (rlsUpdate p s (arrOf q) (arrOf y), q)
  mutate := fun s r => .ok (false, s, r)
  copy := fun s r => .ok (rlsCopy p s tmp, r)
  size := fun s => s.nWeights

/-! ## Systems -/

/-- The condition types modelled here, condition.h:28-35 (`COND_TYPE_DUMMY` to
`COND_TYPE_TERNARY`, `COND_TYPE_GP`, `COND_TYPE_DGP`; which of the two rectangle types is
`CondPar.csr`). -/
inductive CondType where
  | dummy
  | rectangle
  | ellipsoid
  | ternary
  | gp
  | dgp
  deriving DecidableEq, Repr

/-- The prediction types modelled here, prediction.h:28-32 (linear or quadratic is
`PredPar.quad`). -/
inductive PredType where
  | constant
  | nlms
  | rls
  deriving DecidableEq, Repr

/-- The structure `c->cond` points to. -/
def CondType.Body (K : Type) : CondType → Type
  | .dummy => Unit
  | .rectangle => Box K
  | .ellipsoid => Box K
  | .ternary => Tern K
  | .gp => GpTree K
  | .dgp => Graph K

/-- The structure `c->pred` points to. -/
def PredType.Body (K : Type) : PredType → Type
  | .constant => Unit
  | .nlms => Nlms K
  | .rls => Rls K

/-- The parameters of the parts of a rule, with the contents of fresh memory and the bounds on
the loops that keep trying. -/
structure Setup (K : Type) where
  xDim : Nat
  cond : CondPar K
  gp : GpArgs K
  dgp : DgpArgs
  /-- `xcsf->STATEFUL` -/
  stateful : Bool
  pred : PredPar K
  mem : Nat → Int
  tmp : Nat → K
  fuel : Nat

/-- `condition_set`, condition.c:41-78. -/
def CondType.vt (g : Rng K R) (S : Setup K) : (t : CondType) → CondVt K (t.Body K) R
  | .dummy => dummyCond
  | .rectangle => rectCond g S.cond S.xDim
  | .ellipsoid => ellCond g S.cond S.xDim
  | .ternary => ternCond g S.cond S.xDim
  | .gp => gpCond g S.gp S.cond.pCross S.mem S.fuel
  | .dgp => dgpCond g S.dgp S.stateful S.fuel

/-- `prediction_set`, prediction.c:36-57. -/
def PredType.vt (g : Rng K R) (S : Setup K) : (t : PredType) → PredVt K (t.Body K) R
  | .constant => constPred S.pred
  | .nlms => nlmsPred g S.pred S.tmp
  | .rls => rlsPred S.pred S.tmp

/-- The rules of a system with a condition, an integer action and a prediction. -/
abbrev Parts (K : Type) (c : CondType) (q : PredType) := RuleBody (c.Body K) (ActInt K) (q.Body K)

/-- The functions of the rules of a system. -/
def systemRep (g : Rng K R) (S : Setup K) (nActions : Nat) (c : CondType) (q : PredType) :
    Rep K (Input K S.xDim) (Parts K c q) R :=
  mkRep S.xDim nActions (c.vt g S) (intAct g nActions) (q.vt g S)

end
end Xcsf
