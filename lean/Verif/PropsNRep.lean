import Verif.NRepLemmas
import Verif.PropsRep
import Verif.PropsNGen

/-!
# Property C79: systems whose rules are made of neural networks

The life cycle of rules put together with conditions, actions and predictions that are neural
networks of any kinds of layers, and with rules whose one graph or network gives both condition and
action.
-/

set_option linter.unusedSectionVars false
set_option linter.unusedVariables false

namespace Xcsf
variable {K R : Type} [Field K] [LinearOrder K] [IsStrictOrderedRing K] [FloorRing K]

/-! ## Systems -/

/-- Parameters of condition and action a user may set: a network as condition has an output, one as
action has an output for each action; a graph has a node for matching and one for each bit of the
action, and so has a network that is the whole rule. -/
def RuleKind.Legal (S : NetSetup K) (nActions : Nat) (pc pa : NetPlan) : RuleKind → Prop
  | .parts c net =>
    (match c with
      | some c => c.Legal S.toSetup
      | none => pc.Legal S.xDim S.condNet ∧ 1 ≤ pc.outs S.condNet) ∧
    (net = true → pa.Legal S.xDim S.actNet ∧ (nActions : Int) ≤ pa.outs S.actNet)
  | .dgp => S.dgp.Legal ∧ S.dgp.nInputs ≤ S.xDim ∧ actionBits nActions < S.dgp.n
  | .neural => pc.Legal S.xDim S.condNet ∧ pc.outs S.condNet = (actionBits nActions : Int) + 1

/-- Parameters of predictions a user may set: a network has one output for each element of the
prediction. -/
def PredLegal (S : NetSetup K) (pp : NetPlan) : Option PredType → Prop
  | some _ => S.pred.etaMin ≤ S.pred.eta
  | none => pp.Legal S.xDim S.predNet ∧ pp.Trains S.predNet ∧ pp.outs S.predNet = S.pred.yDim

/-- Well-formed conditions. -/
def RuleKind.WC (S : NetSetup K) (pc : NetPlan) : (t : RuleKind) → t.CBody K → Prop
  | .parts (some c) _ => c.W S.toSetup
  | .parts none _ => NetOk pc S.condNet false
  | .dgp => Wired S.dgp
  | .neural => NetOk pc S.condNet false

/-- Well-formed actions. -/
def RuleKind.WA (S : NetSetup K) (nActions : Nat) (pa : NetPlan) : (t : RuleKind) → t.ABody K → Prop
  | .parts _ false => ActInt.Valid nActions
  | .parts _ true => NetOk pa S.actNet false
  | .dgp => fun _ => True
  | .neural => fun _ => True

/-- Well-formed predictions. -/
def predW (S : NetSetup K) (pp : NetPlan) : (q : Option PredType) → predBody K q → Prop
  | some q => q.W S.toSetup
  | none => NetOk pp S.predNet true

/-- A system with legal parameters; the mathematical function `exp` is positive. -/
structure NetSystem (K R : Type) [Field K] [LinearOrder K] [IsStrictOrderedRing K] [FloorRing K]
    where
  par : Params K
  pf : Platform K R
  S : NetSetup K
  rule : RuleKind
  pred : Option PredType
  condPlan : NetPlan
  actPlan : NetPlan
  predPlan : NetPlan
  hpar : par.Legal
  hpf : pf.Legal
  hnormal : pf.rng.Bounded
  hexp : ∀ x, 0 < S.libm.exp x
  hrule : rule.Legal S par.nActions condPlan actPlan
  hpred : PredLegal S predPlan pred
  hyDim : S.pred.yDim = par.yDim

variable (Y : NetSystem K R)

/-- The inputs of the system. -/
abbrev NetSystem.In := Input K Y.S.xDim

/-- Well-formed rules of the system. -/
abbrev NetSystem.Ok (b : NetParts K Y.rule Y.pred) : Prop :=
  b.Ok (Y.rule.WC Y.S Y.condPlan) (Y.rule.WA Y.S Y.par.nActions Y.actPlan)
    (predW Y.S Y.predPlan Y.pred)

/-- The rules of the system. -/
abbrev NetSystem.Rule := { b : NetParts K Y.rule Y.pred // Y.Ok b }

theorem rule_cond_sound {g : Rng K R} (O : g.Open) (Bd : g.Bounded) {S : NetSetup K}
    (hm : ∀ x, 0 < S.libm.exp x) {nA : Nat} {pc pa : NetPlan} :
    ∀ {t : RuleKind}, t.Legal S nA pc pa → (t.cond g S nA).Sound S.xDim (t.WC S pc)
  | .parts (some c) _, h => (cond_sound O h.1).fn
  | .parts none _, h => netCond_sound O Bd hm _ h.1.1 h.1.2 _
  | .dgp, h => ruleDgpCond_sound O h.1 S.stateful h.2.1
  | .neural, h => ruleNetCond_sound O Bd hm _ h.1 h.2 _

theorem rule_act_sound {g : Rng K R} (O : g.Open) (Bd : g.Bounded) {S : NetSetup K}
    (hm : ∀ x, 0 < S.libm.exp x) {nA : Nat} (hA : 1 ≤ nA) {pc pa : NetPlan} :
    ∀ {t : RuleKind}, t.Legal S nA pc pa →
      (t.act g S nA).Sound S.xDim nA (t.WC S pc) (t.WA S nA pa)
  | .parts _ false, h => (int_sound O hA).fn _
  | .parts _ true, h => netAct_sound O Bd hm _ (h.2 rfl).1 hA (h.2 rfl).2 _ _
  | .dgp, h => ruleDgpAct_sound O h.1 S.stateful hA h.2.2 S.fuel h.2.1
  | .neural, h => ruleNetAct_sound Bd hm _ h.1 hA (by rw [h.2]; omega) _

theorem pred_fn_sound {g : Rng K R} (O : g.Open) (Bd : g.Bounded) {S : NetSetup K}
    (hm : ∀ x, 0 < S.libm.exp x) {pp : NetPlan} :
    ∀ {q : Option PredType}, PredLegal S pp q →
      (predFn g S q).Sound S.xDim S.pred.yDim (predW S pp q)
  | some q, h => (pred_sound O h q).fn
  | none, h => netPred_sound O Bd hm _ h.1 h.2.1 h.2.2 _

/-- **C79**, the functions of a rule: on well-formed rules every function returns and keeps the rule
well-formed, actions exist and predictions have `y_dim` elements.  Only covering can fail to return,
if the rule is drawn until it matches, and mutation, in the loop that draws how many neurons to add. -/
theorem C79_rules_sound : (netSystemRep Y.pf.rng Y.S Y.par.nActions Y.rule Y.pred).Sound
    Y.par.nActions Y.par.yDim Y.Ok := by
  have h := mkRepG_sound (rule_cond_sound Y.hpf.rng Y.hnormal Y.hexp Y.hrule)
    (rule_act_sound Y.hpf.rng Y.hnormal Y.hexp Y.hpar.nActions Y.hrule)
    (pred_fn_sound Y.hpf.rng Y.hnormal Y.hexp Y.hpred)
  rw [Y.hyDim] at h
  exact h

/-- The life cycle functions of the system. -/
def NetSystem.kit : Kit K Y.In Y.Rule R :=
  (netSystemRep Y.pf.rng Y.S Y.par.nActions Y.rule Y.pred).kit (C79_rules_sound Y) Y.pf

theorem NetSystem.regular : Regular Y.par Y.kit (fun _ => True) :=
  Rep.kit_regular Y.hpar (C79_rules_sound Y) Y.hpf

/-- **C79.** No history of calls on a system with legal parameters whose conditions, actions or
predictions are neural networks, or whose rules are one graph or network, has undefined behaviour
or uses freed memory: predictions are trained, networks evolve, are copied, resized and randomised
without an array being accessed outside of its bounds or memory being read before it is written.
Missing of the full claim: the output layer of a network must keep its number of outputs
(`NetPlan.Legal`), without which the claim is false, see below, and the restrictions of C49 and C78
apply (image layers behind layers of fixed size, recurrent layers trained by gradient descent of
fixed size, no maxpool layers, and only layers with weights or softmax layers in predictions whose
numbers of neurons evolve). -/
theorem C79_no_undefined_behaviour_partial (r : R) {ops : List (Op K Y.In Y.Rule)}
    (hv : ∀ op ∈ ops, op.ok (RuleOK Y.par (fun _ : Y.Rule => True))) :
    run Y.par Y.kit r ops ≠ .error .ub ∧ run Y.par Y.kit r ops ≠ .error .uaf :=
  C05_no_undefined_behaviour Y.regular r hv

/-! ## Concrete systems -/

section Examples

/-- A platform over the rationals with varying normal values. -/
def netPf : Platform ℚ Nat :=
  { demoPf with
    rng := { demoPf.rng with gauss := fun r => (((r % 7 : Nat) : ℚ) - 3, (r * 5 + 3) % 101) } }

theorem netPf_legal : netPf.Legal where
  rng := demoPf_legal.rng
  loss := demoPf_legal.loss

theorem netPf_bounded : netPf.rng.Bounded := by
  intro r
  have h : ((r % 7 : Nat) : ℚ) ≤ 6 := by exact_mod_cast (by omega : r % 7 ≤ 6)
  have h0 : (0 : ℚ) ≤ ((r % 7 : Nat) : ℚ) := Nat.cast_nonneg _
  simp only [netPf]
  constructor <;> linarith

/-- Limits of the networks; the flag tells whether numbers of neurons evolve. -/
def netPlan (evolve : Bool) : NetPlan := ⟨⟨5, 1000, 100, false, evolve⟩, false, ⟨2, 2, 1, 1⟩⟩

/-- Conditions: evolving recurrent neurons, noise, and two outputs; actions: three neurons, dropout,
two neurons and softmax; predictions: evolving neurons and one output, trained by gradient descent. -/
def netSetup : NetSetup ℚ :=
  { demoSetup with
    condNet := [.recu { demoNeurons 2 true with nInputs := 2 }, .noise noPar,
      .conn (demoNeurons 2 false)]
    actNet := [.conn { demoNeurons 3 false with nInputs := 2 },
      .drop { noPar with probability := 1 / 2 }, .conn (demoNeurons 2 false),
      .soft { noPar with scale := 1 }]
    predNet := [.conn { demoNeurons 2 true with nInputs := 2 }, .conn (demoNeurons 1 false)]
    libm := { demoLibm with exp := fun x => 1 + x * x }
    lo := -1000 }

theorem netPlan_cond : (netPlan true).Legal 2 netSetup.condNet where
  lim := ⟨by decide, by decide, by decide, by decide, by decide⟩
  pool := rfl
  weights := by decide
  outputs := by decide
  ne := by simp [netSetup]
  dim := ⟨by decide, by decide, fun h => by cases h⟩
  ins := rfl
  fit := ⟨⟨⟨by decide, by decide, by decide, by decide, by decide, by decide, by decide,
      fun _ => by decide, by decide⟩, fun _ => rfl⟩, by decide, trivial, by decide,
    ⟨⟨by decide, by decide, by decide, by decide, by decide, by decide, by decide,
      fun _ => by decide, by decide⟩, fun _ => rfl⟩, by decide, trivial⟩
  first := by
    intro a ha
    simp [netSetup] at ha
    subst ha
    rfl
  last := by
    intro a ha
    simp [netSetup] at ha
    subst ha
    rfl
  fixed := fun _ => rfl

theorem netPlan_act : (netPlan false).Legal 2 netSetup.actNet where
  lim := ⟨by decide, by decide, by decide, by decide, by decide⟩
  pool := rfl
  weights := by decide
  outputs := by decide
  ne := by simp [netSetup]
  dim := ⟨by decide, by decide, fun h => by cases h⟩
  ins := rfl
  fit := ⟨⟨⟨by decide, by decide, by decide, by decide, by decide, by decide, by decide,
      fun _ => by decide, by decide⟩, fun h => by cases h⟩, by decide, trivial, by decide,
    ⟨⟨by decide, by decide, by decide, by decide, by decide, by decide, by decide,
      fun _ => by decide, by decide⟩, fun h => by cases h⟩, by decide,
    (show (1 : ℚ) ≠ 0 by norm_num), by decide, trivial⟩
  first := by
    intro a ha
    simp [netSetup] at ha
    subst ha
    rfl
  last := by
    intro a ha
    simp [netSetup] at ha
    subst ha
    rfl
  fixed := fun h => by cases h

theorem netPlan_pred : (netPlan true).Legal 2 netSetup.predNet where
  lim := ⟨by decide, by decide, by decide, by decide, by decide⟩
  pool := rfl
  weights := by decide
  outputs := by decide
  ne := by simp [netSetup]
  dim := ⟨by decide, by decide, fun h => by cases h⟩
  ins := rfl
  fit := ⟨⟨⟨by decide, by decide, by decide, by decide, by decide, by decide, by decide,
      fun _ => by decide, by decide⟩, fun _ => rfl⟩, by decide,
    ⟨⟨by decide, by decide, by decide, by decide, by decide, by decide, by decide,
      fun _ => by decide, by decide⟩, fun _ => rfl⟩, by decide, trivial⟩
  first := by
    intro a ha
    simp [netSetup] at ha
    subst ha
    rfl
  last := by
    intro a ha
    simp [netSetup] at ha
    subst ha
    rfl
  fixed := fun _ => rfl

/-- A classifier with evolving neurons: a softmax layer behind neurons of fixed number. -/
example : (netPlan true).Legal (K := ℚ) 2 [.conn { demoNeurons 3 true with nInputs := 2 },
    .drop { noPar with probability := 1 / 2 }, .conn (demoNeurons 2 false),
    .soft { noPar with scale := 1 }] :=
  { netPlan_act with
    lim := ⟨by decide, by decide, by decide, by decide, by decide⟩
    dim := ⟨by decide, by decide, fun h => by cases h⟩
    ne := by simp
    fit := ⟨⟨⟨by decide, by decide, by decide, by decide, by decide, by decide, by decide,
        fun _ => by decide, by decide⟩, fun _ => rfl⟩, by decide, trivial, by decide,
      ⟨⟨by decide, by decide, by decide, by decide, by decide, by decide, by decide,
        fun _ => by decide, by decide⟩, fun _ => rfl⟩, by decide,
      (show (1 : ℚ) ≠ 0 by norm_num), by decide, trivial⟩
    first := by
      intro a ha
      simp at ha
      subst ha
      rfl
    last := by
      intro a ha
      simp at ha
      subst ha
      rfl
    fixed := fun _ => rfl }

theorem netPlan_trains : (netPlan true).Trains netSetup.predNet where
  teach := by
    intro a ha
    simp [netSetup] at ha
    rcases ha with rfl | rfl <;> trivial
  conv := by
    intro a ha
    simp [netSetup] at ha
    rcases ha with rfl | rfl <;> rfl
  plain := by
    intro _ a ha
    simp [netSetup] at ha
    rcases ha with rfl | rfl <;> rfl

/-- A system for each kind of rules and predictions. -/
def netSystem (t : RuleKind) (q : Option PredType) : NetSystem ℚ Nat where
  par := Demo.par
  pf := netPf
  S := netSetup
  rule := t
  pred := q
  condPlan := netPlan true
  actPlan := netPlan false
  predPlan := netPlan true
  hpar := (demoSystem .dummy .constant).hpar
  hpf := netPf_legal
  hnormal := netPf_bounded
  hexp := fun x => by show (0 : ℚ) < 1 + x * x; nlinarith [mul_self_nonneg x]
  hrule := by
    cases t with
    | parts c a =>
      refine ⟨?_, fun _ => ⟨netPlan_act, by decide +kernel⟩⟩
      cases c with
      | some c => exact (demoSystem c .constant).hcond
      | none => exact ⟨netPlan_cond, by decide +kernel⟩
    | dgp => exact ⟨⟨by decide, by decide, by decide, by decide⟩, Nat.le_refl _, by decide +kernel⟩
    | neural => exact ⟨netPlan_cond, by decide +kernel⟩
  hpred := by
    cases q with
    | some q => show (1 / 100 : ℚ) ≤ 1 / 10; norm_num
    | none => exact ⟨netPlan_pred, netPlan_trains, by decide +kernel⟩
  hyDim := rfl

/-- A history of learning, prediction, and a reward. -/
def netCalls (t : RuleKind) (q : Option PredType) :
    List (Op ℚ (netSystem t q).In (netSystem t q).Rule) :=
  [.fit ⟨[1 / 2, 1 / 4], rfl⟩ [1], .fit ⟨[1, 1 / 3], rfl⟩ [2], .rlFit ⟨[1, 1 / 3], rfl⟩ 1 1,
    .predict [⟨[1 / 2, 1 / 2], rfl⟩] [0, 0]]

/-- The history runs and leaves rules. -/
def netRuns (t : RuleKind) (q : Option PredType) : Bool :=
  Demo.Res.test (run Demo.par (netSystem t q).kit 0 (netCalls t q)) fun s => 0 < s.pset.num

example : netRuns (.parts none true) none = true := by decide +kernel
example : netRuns (.parts none false) (some .rls) = true := by decide +kernel
example : netRuns (.parts (some .rectangle) true) (some .nlms) = true := by decide +kernel
example : netRuns .dgp none = true := by decide +kernel
example : netRuns .neural none = true := by decide +kernel

end Examples

/-! ## Where the property fails -/

/-- One input and output layers whose number of neurons evolves, for two actions and one predicted
value. -/
def looseSetup : NetSetup ℚ :=
  { netSetup with
    xDim := 1
    actNet := [.conn (growing 2 1)]
    pred := { demoSetup.pred with xDim := 1 }
    predNet := [.conn (growing 1 1)] }

/-- **C79 fails for an action whose output layer evolves its number of neurons**: a rule is created
and mutated without complaint, its network then has one output for two actions, and the computation
of the action reads beyond the outputs. -/
theorem C79_action_refuted :
    let v := netSystemRep (stepRng 6 fun _ => -2) looseSetup 2 (.parts (some .dummy) true)
      (some .constant)
    ∃ b r c m r', v.rand 0 = .ok (b, r) ∧ v.mutate b r = .ok (m, c, r') ∧
      ∀ e, v.act e c ⟨[1], rfl⟩ r' = .error .ub := by
  intro v
  have h : (match v.rand 0 with
      | .ok (b, r) => (match v.mutate b r with
        | .ok (_, c, r') => (match v.act false c ⟨[1], rfl⟩ r', v.act true c ⟨[1], rfl⟩ r' with
          | .error .ub, .error .ub => true
          | _, _ => false)
        | _ => false)
      | _ => false) = true := by decide +kernel
  split at h
  · next b r e =>
    split at h
    · next m c r' e2 =>
      split at h
      · next h1 h2 =>
        refine ⟨b, r, c, m, r', e, e2, fun e => ?_⟩
        cases e
        · exact h1
        · exact h2
      · cases h
    · cases h
  · cases h

/-- **C79 fails for a prediction whose output layer evolves its number of neurons**: a rule is
created, mutated and asked for its prediction without complaint, its network then has two outputs
for one predicted value, and learning reads beyond the desired output. -/
theorem C79_prediction_refuted :
    let v := netSystemRep (stepRng 6 fun _ => 2) looseSetup 2 (.parts (some .dummy) false) none
    ∃ b r c m r' p d r'', v.rand 0 = .ok (b, r) ∧ v.mutate b r = .ok (m, c, r') ∧
      v.predict true c [0] ⟨[1], rfl⟩ r' = .ok (p, d, r'') ∧ p.length = 1 ∧
      v.update 1 d p ⟨[1], rfl⟩ [5] r'' = .error .ub := by
  intro v
  have h : (match v.rand 0 with
      | .ok (b, r) => (match v.mutate b r with
        | .ok (_, c, r') => (match v.predict true c [0] ⟨[1], rfl⟩ r' with
          | .ok (p, d, r'') => (match v.update 1 d p ⟨[1], rfl⟩ [5] r'' with
            | .error .ub => decide (p.length = 1)
            | _ => false)
          | _ => false)
        | _ => false)
      | _ => false) = true := by decide +kernel
  split at h
  · next b r e =>
    split at h
    · next m c r' e2 =>
      split at h
      · next p d r'' e3 =>
        split at h
        · next e4 => exact ⟨b, r, c, m, r', p, d, r'', e, e2, e3, of_decide_eq_true h, e4⟩
        · cases h
      · cases h
    · cases h
  · cases h

/-- The generators are legal. -/
example (z : ℚ) (h : -10 ≤ z ∧ z ≤ 10) : (stepRng 6 fun _ => z).Open ∧
    (stepRng 6 fun _ => z).Bounded := ⟨stepRng_open _ _, stepRng_bounded _ fun _ => h⟩

end Xcsf
