import Verif.RepLemmas
import Verif.Props2
import Verif.Props5
import Verif.Demo

/-!
# Properties C74 and C75: complete systems

The theorems about the life cycle of rules apply to every representation.  Here they are put
together with those about conditions, actions and predictions into statements about systems as
a user sets them up: a condition type, integer actions and a prediction type.
-/

set_option linter.unusedSectionVars false
set_option linter.unusedVariables false

open Finset (range)

namespace Xcsf
variable {K R : Type} [Field K] [LinearOrder K] [IsStrictOrderedRing K] [FloorRing K]

/-! ## Systems -/

/-- Parameters of a condition a user may set: the bounds are in order, a ternary element has at
most 31 bits, the first GP tree fits, a graph has nodes, inputs and connections, and trees and
graphs read at most the inputs there are. -/
def CondType.Legal (S : Setup K) : CondType → Prop
  | .dummy => True
  | .rectangle => S.cond.min ≤ S.cond.max
  | .ellipsoid => S.cond.min ≤ S.cond.max
  | .ternary => S.cond.bits ≤ 31
  | .gp => S.gp.Legal ∧ S.gp.nInputs ≤ S.xDim
  | .dgp => S.dgp.Legal ∧ S.dgp.nInputs ≤ S.xDim

/-- Well-formed conditions. -/
def CondType.W (S : Setup K) : (c : CondType) → c.Body K → Prop
  | .dummy => fun _ => True
  | .rectangle => Box.Dim S.xDim
  | .ellipsoid => Box.Dim S.xDim
  | .ternary => Tern.Dim S.cond S.xDim
  | .gp => GpTree.Codes S.gp.constants.length S.gp.nInputs
  | .dgp => Wired S.dgp

/-- Well-formed predictions. -/
def PredType.W (S : Setup K) : (q : PredType) → q.Body K → Prop
  | .constant => fun _ => True
  | .nlms => Nlms.Dim S.pred
  | .rls => Rls.Dim S.pred

/-- A system with legal parameters. -/
structure System (K R : Type) [Field K] [LinearOrder K] [IsStrictOrderedRing K] [FloorRing K] where
  par : Params K
  pf : Platform K R
  S : Setup K
  cond : CondType
  pred : PredType
  hpar : par.Legal
  hpf : pf.Legal
  hcond : cond.Legal S
  hxDim : S.pred.xDim = S.xDim
  hyDim : S.pred.yDim = par.yDim
  hbeta : S.pred.beta = par.beta
  heta : S.pred.etaMin ≤ S.pred.eta

variable (Y : System K R)

/-- The inputs of the system. -/
abbrev System.In := Input K Y.S.xDim

/-- Well-formed rules of the system. -/
abbrev System.Ok (b : Parts K Y.cond Y.pred) : Prop :=
  b.Ok (Y.cond.W Y.S) (ActInt.Valid Y.par.nActions) (Y.pred.W Y.S)

/-- The rules of the system. -/
abbrev System.Rule := { b : Parts K Y.cond Y.pred // Y.Ok b }

theorem cond_sound {g : Rng K R} (H : g.Open) {S : Setup K} : ∀ {c : CondType}, c.Legal S →
    (c.vt g S).Sound S.xDim (c.W S)
  | .dummy, _ => dummy_sound _
  | .rectangle, h => rect_sound H _ h _
  | .ellipsoid, h => ell_sound H _ h _
  | .ternary, h => tern_sound H _ h _
  | .gp, h => gp_sound H h.1 S.cond.pCross S.mem S.fuel h.2
  | .dgp, h => dgp_sound H h.1 S.stateful S.fuel h.2

theorem pred_sound {g : Rng K R} (H : g.Open) {S : Setup K} (h : S.pred.etaMin ≤ S.pred.eta) :
    ∀ q : PredType, (q.vt g S).Sound S.pred.yDim (q.W S)
  | .constant => const_sound _
  | .nlms => nlms_sound H _ h _
  | .rls => rls_sound _ _

/-- **C74**, the functions of a rule: on well-formed rules every function of every modelled
representation returns and keeps the rule well-formed, actions exist and predictions have
`y_dim` elements.  Only covering can fail to return, for conditions that are drawn until one
matches. -/
theorem C74_rules_sound : (systemRep Y.pf.rng Y.S Y.par.nActions Y.cond Y.pred).Sound
    Y.par.nActions Y.par.yDim Y.Ok := by
  have h := mkRep_sound (cond_sound Y.hpf.rng Y.hcond) (int_sound Y.hpf.rng Y.hpar.nActions)
    (pred_sound Y.hpf.rng Y.heta Y.pred)
  rw [Y.hyDim] at h
  exact h

/-- The life cycle functions of the system. -/
def System.kit : Kit K Y.In Y.Rule R :=
  (systemRep Y.pf.rng Y.S Y.par.nActions Y.cond Y.pred).kit (C74_rules_sound Y) Y.pf

theorem System.regular : Regular Y.par Y.kit (fun _ => True) :=
  Rep.kit_regular Y.hpar (C74_rules_sound Y) Y.hpf

/-- **C74.** No history of calls on a system with legal parameters, whatever its condition and
prediction types, has undefined behaviour or uses freed memory. -/
theorem C74_no_undefined_behaviour (r : R) {ops : List (Op K Y.In Y.Rule)}
    (hv : ∀ op ∈ ops, op.ok (RuleOK Y.par (fun _ : Y.Rule => True))) :
    run Y.par Y.kit r ops ≠ .error .ub ∧ run Y.par Y.kit r ops ≠ .error .uaf :=
  C05_no_undefined_behaviour Y.regular r hv

/-! ## Specification of what a condition contains and a prediction answers -/

/-- The inputs in the region of a condition: all; the product of the intervals; the points whose
scaled distance from the centre is below one; those whose binary form agrees with the string
up to `#`; those for which the expression exceeds one half; those for which the state of the
first node exceeds one half after `t` synchronous updates from the initial states. -/
def CondType.Contains (S : Setup K) : (c : CondType) → c.Body K → List K → Prop
  | .dummy => fun _ _ => True
  | .rectangle => fun (b : Box K) x => AtEach (InInterval S.cond.csr) b.genes x
  | .ellipsoid => fun (b : Box K) x => Proper b.genes ∧ ellForm b.genes x < 1
  | .ternary => fun (b : Tern K) x => AtEach Admits b.string (encode S.cond.bits x)
  | .gp => fun (t : GpTree K) x => ∃ e : GpExpr S.gp.constants.length x.length,
      t.tree = e.code ∧ 1 / 2 < e.value S.gp.constants.get x.get
  | .dgp => fun (d : Graph K) x =>
      1 / 2 < statesAfter d (fun j => x.getD j 0) (startStates d true) d.t.toNat 0

/-- Output `j` of a rule at `x`: its current prediction, or the linear form of the features. -/
def PredType.Output (S : Setup K) : (q : PredType) → q.Body K → List K → List K → Nat → K
  | .constant => fun _ p _ j => p.getD j 0
  | .nlms => fun (s : Nlms K) _ x j => ∑ i ∈ range (nFeatures S.pred),
      s.weights (j * nFeatures S.pred + i) * (features S.pred (arrOf x)).getD i 0
  | .rls => fun (s : Rls K) _ x j => ∑ i ∈ range (nFeatures S.pred),
      s.weights (j * nFeatures S.pred + i) * (features S.pred (arrOf x)).getD i 0

/-- The condition of a rule of the system contains an input. -/
def System.Contains (b : Y.Rule) (x : List K) : Prop := Y.cond.Contains Y.S b.1.cond x

/-- The action of a rule of the system. -/
def System.action (b : Y.Rule) : Int := b.1.act.action

/-- Output `j` of a rule of the system. -/
def System.output (c : Cl K Y.Rule) (x : List K) (j : Nat) : K :=
  Y.pred.Output Y.S c.body.1.pred c.prediction x j

open Classical in
/-- The rules containing an input and advocating an action. -/
noncomputable def System.advocates (cs : List (Cl K Y.Rule)) (x : List K) (a : Nat) :
    List (Cl K Y.Rule) :=
  cs.filter fun c => decide (Y.Contains c.body x ∧ Y.action c.body = a)

/-- Matching does not depend on the previous inputs: a graph restarts from its initial states. -/
def System.Static : Prop := Y.cond = .dgp → Y.S.stateful = false

/-- Covering puts the input in the region: spreads are not negative, those of ellipsoids not all
zero. -/
def System.Covers : Prop := match Y.cond with
  | .rectangle => 0 ≤ Y.S.cond.spreadMin
  | .ellipsoid => 0 ≤ Y.S.cond.spreadMin ∧ (0 < Y.S.cond.spreadMin ∨ Y.S.cond.min ≠ Y.S.cond.max)
  | _ => True

/-! ## Matching -/

/-- What matching does not change: all but the position in a tree and the states of a graph. -/
def CondType.strip : (c : CondType) → c.Body K → c.Body K
  | .dummy => id
  | .rectangle => id
  | .ellipsoid => id
  | .ternary => id
  | .gp => fun t => { t with pos := 0 }
  | .dgp => fun d => { d with state := d.initial }

theorem ellDistGo_notFin : ∀ (cs : List (K × K)) (xs : List K) (acc : Flt K),
    (∀ v, acc ≠ .fin v) → ∀ v, ellDistGo cs xs acc ≠ .fin v
  | [], xs, acc, h => by cases xs <;> exact h
  | c :: cs, [], acc, h => h
  | c :: cs, x :: xs, acc, h => by
    refine ellDistGo_notFin cs xs _ (fun v e => ?_)
    unfold Flt.addSq at e
    cases acc with
    | fin v => exact h v rfl
    | inf =>
      split at e
      · split at e <;> cases e
      · cases e
    | nan =>
      split at e
      · split at e <;> cases e
      · cases e

theorem ellDistGo_improper : ∀ (cs : List (K × K)) (xs : List K) (acc : Flt K),
    cs.length = xs.length → ¬ Proper cs → ∀ v, ellDistGo cs xs acc ≠ .fin v
  | [], xs, acc, _, h => absurd (fun _ hg => nomatch hg) h
  | c :: cs, [], acc, hl, _ => by simp at hl
  | c :: cs, x :: xs, acc, hl, h => by
    by_cases hc : c.2 = 0
    · refine ellDistGo_notFin cs xs _ (fun v e => ?_)
      unfold Flt.addSq at e
      rw [if_pos hc] at e
      split at e
      · cases e
      · split at e <;> cases e
    · refine ellDistGo_improper cs xs _ (by simpa using hl) (fun hp => h ?_)
      intro g hg
      rcases List.mem_cons.1 hg with rfl | hg
      · exact hc
      · exact hp g hg

theorem ellMatch_contains {c : Box K} {x : List K} (hl : c.genes.length = x.length) :
    ellMatch c x = true ↔ Proper c.genes ∧ ellForm c.genes x < 1 := by
  by_cases h : Proper c.genes
  · rw [ellMatch_iff h]; exact ⟨fun k => ⟨h, k⟩, fun k => k.2⟩
  · constructor
    · intro hm
      unfold ellMatch at hm
      have := ellDistGo_improper c.genes x (.fin 0) hl h
      unfold ellDist at hm
      cases e : ellDistGo c.genes x (.fin 0) with
      | fin v => exact absurd e (this v)
      | inf => rw [e] at hm; cases hm
      | nan => rw [e] at hm; cases hm
    · exact fun k => absurd k.1 h

theorem contains_strip (S : Setup K) : ∀ (c : CondType) (b : c.Body K) (x : List K),
    c.Contains S (c.strip b) x ↔ c.Contains S b x
  | .dummy, _, _ => Iff.rfl
  | .rectangle, _, _ => Iff.rfl
  | .ellipsoid, _, _ => Iff.rfl
  | .ternary, _, _ => Iff.rfl
  | .gp, _, _ => Iff.rfl
  | .dgp, d, x => by
    have e := statesAfter_state (d : Graph K) (d : Graph K).initial (fun j => x.getD j 0)
      (startStates d true) (d : Graph K).t.toNat
    show 1 / 2 < statesAfter _ _ _ _ 0 ↔ 1 / 2 < statesAfter _ _ _ _ 0
    exact iff_of_eq (congrArg (fun f : Nat → K => 1 / 2 < f 0) e)

theorem cond_match {g : Rng K R} {S : Setup K} : ∀ {c : CondType}, c.Legal S →
    (c = .dgp → S.stateful = false) → ∀ {b : c.Body K}, c.W S b → ∀ {x : List K},
    x.length = S.xDim → ∃ m b', (c.vt g S).cmatch b x = .ok (m, b') ∧
      (m = true ↔ c.Contains S b x) ∧ c.strip b' = c.strip b
  | .dummy, _, _, b, _, x, _ => ⟨true, (), rfl, ⟨fun _ => trivial, fun _ => rfl⟩, rfl⟩
  | .rectangle, _, _, b, _, x, _ => ⟨_, b, rfl, C28_match_meaning _ _ _, rfl⟩
  | .ellipsoid, _, _, b, w, x, hx => ⟨_, b, rfl, ellMatch_contains (Eq.trans w.1 hx.symm), rfl⟩
  | .ternary, h, _, b, w, x, hx => by
    obtain ⟨m, e, hm⟩ := C32_match S.cond h (b : Tern K) x
      (Eq.trans w.1 (by rw [hx]))
    refine ⟨m, b, ?_, hm, rfl⟩
    show (ternMatch S.cond b x >>= _) = _
    rw [e]; rfl
  | .gp, h, _, b, w, x, hx => by
    have w : GpTree.Codes S.gp.constants.length S.gp.nInputs b := w
    obtain ⟨e, he⟩ := w.widen (h.2.trans_eq hx.symm)
    refine ⟨_, _, C33_match (x := x) he, ?_, rfl⟩
    rw [decide_eq_true_iff]
    refine ⟨fun k => ⟨e, he, k⟩, ?_⟩
    rintro ⟨e', he', k⟩
    have h1 := C33_match (a := S.gp) (x := x) he
    rw [C33_match (a := S.gp) (x := x) he'] at h1
    have h2 := congrArg (fun q : Res (Bool × GpTree K) => match q with
      | .ok p => p.1
      | .error _ => false) h1
    have h2 : decide _ = decide _ := h2
    rw [decide_eq_decide] at h2
    exact h2.1 k
  | .dgp, h, hs, b, w, x, hx => by
    have w : Wired S.dgp b := w
    obtain ⟨m, d', e, -, hm⟩ := C34_match h.1 w (h.2.trans_eq hx.symm) false
    obtain ⟨st, e1, -, -⟩ := C34_update h.1 w (h.2.trans_eq hx.symm) true
    have e2 := e
    unfold dgpMatch at e2
    rw [show (!false) = true from rfl, e1] at e2
    have hd : d' = { (b : Graph K) with state := st } := by
      change (getR st 0 >>= fun v => Except.ok (decide (1 / 2 < v), { (b : Graph K) with state := st }))
        = _ at e2
      cases e3 : getR st 0 with
      | error f => rw [e3] at e2; cases e2
      | ok v =>
        rw [e3] at e2
        change Except.ok _ = _ at e2
        cases e2
        rfl
    refine ⟨m, d', ?_, hm, ?_⟩
    · show dgpMatch S.stateful b x = _
      rw [hs rfl]; exact e
    · rw [hd]; rfl

theorem got_val {α : Type} {P : α → Prop} {m : Res α} {q : α} (h : ∃ q, m = .ok q ∧ P q)
    (e : m = .ok q) : (got m h).1 = q := by
  have := (got_eq h).symm.trans e
  cases this
  rfl

theorem System.cmatch_eq (hs : Y.Static) (e : Bool) (b : Y.Rule) (x : Y.In) (r : R) :
    ((Y.kit.cmatch e b x r).1 = true ↔ Y.Contains b x.1) ∧
    Y.cond.strip (Y.kit.cmatch e b x r).2.1.1.cond = Y.cond.strip b.1.cond ∧
    (Y.kit.cmatch e b x r).2.1.1.act = b.1.act ∧ (Y.kit.cmatch e b x r).2.1.1.pred = b.1.pred := by
  obtain ⟨m, c', h1, h2, h3⟩ := cond_match (g := Y.pf.rng) Y.hcond hs b.2.cond x.2
  have h4 : (systemRep Y.pf.rng Y.S Y.par.nActions Y.cond Y.pred).cmatch e b.1 x r =
      .ok (m, { b.1 with cond := c' }, r) := by
    show ((Y.cond.vt Y.pf.rng Y.S).cmatch b.1.cond x.1 >>= _) = _
    rw [h1]; rfl
  have h5 := got_val ((C74_rules_sound Y).cmatch e b.1 x r b.2) h4
  have k1 : (Y.kit.cmatch e b x r).1 = m := congrArg Prod.fst h5
  have k2 : (Y.kit.cmatch e b x r).2.1.1 = { b.1 with cond := c' } :=
    congrArg (fun q => q.2.1) h5
  rw [k1, k2]
  exact ⟨h2, h3, rfl, rfl⟩

/-- Covering gives a condition that contains the input. -/
theorem cond_cover {g : Rng K R} (H : g.Open) {S : Setup K} : ∀ {c : CondType}, c.Legal S →
    (c = .dgp → S.stateful = false) →
    (match c with
      | .rectangle => 0 ≤ S.cond.spreadMin
      | .ellipsoid => 0 ≤ S.cond.spreadMin ∧ (0 < S.cond.spreadMin ∨ S.cond.min ≠ S.cond.max)
      | _ => True) →
    ∀ {b b' : c.Body K}, c.W S b → ∀ {x : List K}, x.length = S.xDim → ∀ {r r' : R},
    (c.vt g S).cover b x r = .ok (b', r') → c.Contains S b' x
  | .dummy, _, _, _, _, _, _, _, _, _, _, _ => trivial
  | .rectangle, _, _, hc, b, b', _, x, _, r, r', h => by
    cases h
    exact (C28_match_meaning _ _ _).1 (C28_cover_matches H S.cond hc b x r).1
  | .ellipsoid, _, _, hc, b, b', _, x, _, r, r', h => by
    cases h
    obtain ⟨h1, h2, h3⟩ := C63_ellipsoid_cover_matches H S.cond hc.1 hc.2 b x r
    exact ⟨h2, (ellMatch_iff h2 x).1 h1⟩
  | .ternary, hb, _, _, b, b', _, x, hx, r, r', h => by
    obtain ⟨c', r1, e, h1, -, h3⟩ := C32_cover g S.cond hb b x r
    have h : ternCover g S.cond b x r = .ok (b', r') := h
    rw [e] at h
    cases h
    obtain ⟨m, e2, hm⟩ := C32_match S.cond hb b' x h1
    rw [h3] at e2
    cases e2
    exact hm.1 rfl
  | .gp, hl, _, _, b, b', _, x, hx, r, r', h => by
    obtain ⟨u, hu⟩ := C33_cover h
    rcases gp_cover_sound H hl.1 (hl.2.trans_eq hx.symm) S.fuel S.mem S.fuel r with ⟨q, e, w⟩ | e
    · rw [show gpCover g S.gp x (S.fuel + 1) S.mem S.fuel r = .ok (b', r') from h] at e
      cases e
      obtain ⟨e, he⟩ := w.widen (hl.2.trans_eq hx.symm)
      refine ⟨e, he, ?_⟩
      rw [C33_match (x := x) he] at hu
      have h2 := congrArg (fun q : Res (Bool × GpTree K) => match q with
        | .ok p => p.1
        | .error _ => false) hu
      exact of_decide_eq_true h2
    · rw [show gpCover g S.gp x (S.fuel + 1) S.mem S.fuel r = .ok (b', r') from h] at e
      cases e
  | .dgp, hl, hs, _, b, b', w, x, hx, r, r', h => by
    obtain ⟨w', -, h3⟩ := C34_cover H hl.1 (hl.2.trans_eq hx.symm) (show Wired S.dgp b from w) h
    obtain ⟨m, d', e, -, hm⟩ := C34_match hl.1 w' (hl.2.trans_eq hx.symm) false
    rw [h3 (hs rfl)] at e
    cases e
    exact hm.1 rfl

/-! ## Covering -/

theorem System.cover_contains (hs : Y.Static) (hc : Y.Covers) {b b' : Y.Rule} {x : Y.In}
    {f : Bool} {a : Int} {r r' : R} (h : Y.kit.cover f b x a r = .ok (b', r')) : Y.Contains b' x.1 := by
  unfold System.kit Rep.kit at h
  dsimp only at h
  split at h
  · split at h
    · next q e =>
      cases h
      have e : ((Y.cond.vt Y.pf.rng Y.S).cover b.1.cond x.1 r >>= fun c =>
        Except.ok ({ b.1 with
          cond := c.1
          act := (intAct Y.pf.rng Y.par.nActions).cover b.1.act ((a.toNat : Nat) : Int) }, c.2)) =
        .ok q := e
      cases e1 : (Y.cond.vt Y.pf.rng Y.S).cover b.1.cond x.1 r with
      | error f => rw [e1] at e; cases e
      | ok p =>
        rw [e1] at e
        cases e
        exact cond_cover Y.hpf.rng Y.hcond hs hc b.2.cond x.2 e1
    · cases h
  · cases h

open Classical in
/-- **C75**, covering: in every state a history of calls leads to, the match set built for an
input with covering has a rule for every action, and the conditions of all its members contain
the input. -/
theorem C75_every_action_covered (hs : Y.Static) (hc : Y.Covers) {r : R}
    {ops : List (Op K Y.In Y.Rule)} (hv : ∀ op ∈ ops, op.valid) {s s' : St K Y.In Y.Rule R}
    (h : run Y.par Y.kit r ops = .ok s) (x : Y.In)
    (h' : clsetMatch Y.par Y.kit x true { s with mset := {} } = .ok s') :
    (∀ a : Nat, a < Y.par.nActions → ∃ i ∈ s'.mset.list, ∃ c, s'.heap i = some c ∧
      c.action = a ∧ Y.Contains c.body x.1) ∧
    (∀ i ∈ s'.mset.list, i ∈ s'.pset.list ∧ ∃ c, s'.heap i = some c ∧ Y.Contains c.body x.1) := by
  have hb := reachable_between Y.hpar.popSize hv h
  have hdec : ∀ e b (x : Y.In) r, (Y.kit.cmatch e b x r).1 = decide (Y.Contains b x.1) := by
    intro e b x r
    have := (Y.cmatch_eq hs e b x r).1
    rw [Bool.eq_iff_iff, this, decide_eq_true_iff]
  have hstrip : ∀ b b' : Y.Rule, Y.cond.strip b'.1.cond = Y.cond.strip b.1.cond → ∀ x,
      (Y.Contains b' x ↔ Y.Contains b x) := by
    intro b b' e x
    unfold System.Contains
    rw [← contains_strip, e, contains_strip]
  obtain ⟨k1, k2⟩ := C08_every_action_covered (kit := Y.kit)
    (M := fun b x => decide (Y.Contains b x.1)) hdec
    (fun e b x r => by
      simp only [decide_eq_decide]
      exact hstrip _ _ (Y.cmatch_eq hs e b x r).2.1 _)
    (fun e b x r => by
      simp only [decide_eq_decide]
      have h5 : (Y.kit.act e b x r).2.1.1 = b.1 := congrArg (fun q => q.2.1)
        (got_val ((C74_rules_sound Y).act e b.1 x r b.2) rfl)
      unfold System.Contains
      rw [h5])
    (fun _ b x a r b' r' e => decide_eq_true_iff.2 (Y.cover_contains hs hc e))
    (fun e b x r => ⟨Y.regular.act0 e b x r trivial, Y.regular.act1 e b x r trivial⟩)
    Y.hpar.popSize (s := { s with mset := {} })
    (hb.good.inv.congr rfl rfl rfl rfl rfl) rfl x h'
  refine ⟨fun a ha => ?_, fun i hi => ?_⟩
  · obtain ⟨i, h1, c, h2, h3, h4⟩ := k1 a ha
    exact ⟨i, h1, c, h2, h3, of_decide_eq_true h4⟩
  · obtain ⟨h1, c, h2, h3⟩ := k2 i hi
    exact ⟨h1, c, h2, of_decide_eq_true h3⟩

/-! ## Predictions of the system -/

/-- What predicting does not change. -/
def PredType.strip : (q : PredType) → q.Body K → q.Body K
  | .constant => id
  | .nlms => fun (s : Nlms K) => { s with tmp := fun _ => 0 }
  | .rls => fun (s : Rls K) => { s with tmp := fun _ => 0 }

/-- The current prediction is part of what a rule with constant prediction has learned. -/
def PredType.keep : PredType → List K → List K
  | .constant, p => p
  | _, _ => []

/-- The outputs of a rule as a vector. -/
def PredType.outputs (S : Setup K) : (q : PredType) → q.Body K → List K → List K → List K
  | .constant => fun _ p _ => p
  | .nlms => fun s p x => ofArr S.pred.yDim (PredType.Output S .nlms s p x)
  | .rls => fun s p x => ofArr S.pred.yDim (PredType.Output S .rls s p x)

theorem linear_outputs (p : PredPar K) (n : Nat) (hn : n = nFeatures p) (w tmp q x : Nat → K) :
    ofArr p.yDim (forN p.yDim (fun i P => arrSet P i
      (dot n w (i * n) 1 (transform p x tmp).2 1)) q) =
    ofArr p.yDim (fun j => ∑ i ∈ range (nFeatures p), w (j * nFeatures p + i) *
      (features p x).getD i 0) := by
  subst hn
  unfold ofArr
  refine List.map_congr_left fun j hj => ?_
  rw [compute_spec p _ w _ q j (List.mem_range.1 hj)]
  refine Finset.sum_congr rfl fun i hi => ?_
  have := (C40_features p x tmp).2.2.1 i (Finset.mem_range.1 hi)
  rw [List.getD_eq_getElem?_getD, this]
  rfl

theorem pred_compute {g : Rng K R} (S : Setup K) : ∀ {q : PredType} {s : q.Body K}, q.W S s →
    ∀ (p x : List K), q.strip ((q.vt g S).compute s p x).1 = q.strip s ∧
      q.keep ((q.vt g S).compute s p x).2 = q.keep p ∧
      ((q.vt g S).compute s p x).2 = q.outputs S (q.strip s) (q.keep p) x
  | .constant, _, _, p, x => ⟨rfl, rfl, rfl⟩
  | .nlms, s, w, p, x => ⟨rfl, rfl, linear_outputs S.pred _ w.1 _ _ _ _⟩
  | .rls, s, w, p, x => ⟨rfl, rfl, linear_outputs S.pred _ w.1 _ _ _ _⟩

theorem outputs_get (S : Setup K) : ∀ (q : PredType) (s : q.Body K) (p x : List K) (j : Nat),
    j < S.pred.yDim →
    (q.outputs S (q.strip s) (q.keep p) x).getD j 0 = q.Output S s p x j
  | .constant, _, _, _, _, _ => rfl
  | .nlms, s, p, x, j, hj => by
    show (ofArr S.pred.yDim _).getD j 0 = _
    simp [ofArr, List.getD, hj]
    rfl
  | .rls, s, p, x, j, hj => by
    show (ofArr S.pred.yDim _).getD j 0 = _
    simp [ofArr, List.getD, hj]
    rfl

/-- What a rule of the system has learned. -/
def System.learned (b : Y.Rule) (p : List K) :
    Y.cond.Body K × Int × Y.pred.Body K × List K :=
  (Y.cond.strip b.1.cond, b.1.act.action, Y.pred.strip b.1.pred, Y.pred.keep p)

open Classical in
theorem System.stateless (hs : Y.Static) : Stateless Y.kit Y.learned
    (fun s x => decide (Y.cond.Contains Y.S s.1 x.1)) (fun s _ => s.2.1)
    (fun s x => Y.pred.outputs Y.S s.2.2.1 s.2.2.2 x.1) where
  passive :=
    { cmatch := fun b p x r => by
        obtain ⟨-, h1, h2, h3⟩ := Y.cmatch_eq hs false b x r
        unfold System.learned
        rw [h1, h2, h3]
      act := fun b p x r => by
        have h5 : (Y.kit.act false b x r).2.1.1 = b.1 := congrArg (fun q => q.2.1)
          (got_val ((C74_rules_sound Y).act false b.1 x r b.2) rfl)
        unfold System.learned
        rw [h5]
      predict := fun b p x r => by
        have h5 := got_val ((C74_rules_sound Y).predict false b.1 p x r b.2) rfl
        have h6 : (Y.kit.predict false b p x r).2.1.1 =
          { b.1 with pred := ((Y.pred.vt Y.pf.rng Y.S).compute b.1.pred p x.1).1 } :=
          congrArg (fun q => q.2.1) h5
        have h7 : (Y.kit.predict false b p x r).1 =
          ((Y.pred.vt Y.pf.rng Y.S).compute b.1.pred p x.1).2 := congrArg (fun q => q.1) h5
        obtain ⟨k1, k2, -⟩ := pred_compute (g := Y.pf.rng) Y.S b.2.pred p x.1
        unfold System.learned
        rw [h6, h7]
        dsimp only
        rw [k1, k2] }
  cmatch := fun b p x r => by
    rw [Bool.eq_iff_iff, (Y.cmatch_eq hs false b x r).1, decide_eq_true_iff]
    exact (contains_strip _ _ _ _).symm
  act := fun b p x r r' => by
    have h := congrArg (fun q => q.1) (got_val ((C74_rules_sound Y).act false
      (Y.kit.cmatch false b x r).2.1.1 x r' (Y.kit.cmatch false b x r).2.1.2) rfl)
    refine h.trans ?_
    show (Y.kit.cmatch false b x r).2.1.1.act.action = b.1.act.action
    rw [(Y.cmatch_eq hs false b x r).2.2.1]
  predict := fun b p x r => by
    have h5 := got_val ((C74_rules_sound Y).predict false b.1 p x r b.2) rfl
    have h7 : (Y.kit.predict false b p x r).1 =
      ((Y.pred.vt Y.pf.rng Y.S).compute b.1.pred p x.1).2 := congrArg (fun q => q.1) h5
    rw [h7]
    exact (pred_compute (g := Y.pf.rng) Y.S b.2.pred p x.1).2.2

open Classical in
theorem System.weightedMean_eq (cs : List (Cl K Y.Rule)) (x : Y.In) (a j : Nat)
    (hj : j < Y.S.pred.yDim) :
    weightedMean (advocating (answers Y.learned
      (fun s x => decide (Y.cond.Contains Y.S s.1 x.1)) (fun s _ => s.2.1)
      (fun s x => Y.pred.outputs Y.S s.2.2.1 s.2.2.2 x.1) cs x) a) j =
    (if ((Y.advocates cs x.1 a).map Cl.fit).sum = 0 then 0 else
      ((Y.advocates cs x.1 a).map fun c => Y.output c x.1 j * c.fit).sum /
        ((Y.advocates cs x.1 a).map Cl.fit).sum) := by
  have e : advocating (answers Y.learned
      (fun s x => decide (Y.cond.Contains Y.S s.1 x.1)) (fun s _ => s.2.1)
      (fun s x => Y.pred.outputs Y.S s.2.2.1 s.2.2.2 x.1) cs x) a =
      ((Y.advocates cs x.1 a).map (answer Y.learned (fun s _ => s.2.1)
        (fun s (x : Y.In) => Y.pred.outputs Y.S s.2.2.1 s.2.2.2 x.1) x)).reverse := by
    unfold advocating answers System.advocates
    rw [List.filter_reverse, List.filter_map, List.filter_filter]
    congr 2
    refine List.filter_congr fun c _ => ?_
    rw [Bool.eq_iff_iff, Bool.and_eq_true, decide_eq_true_iff, decide_eq_true_iff,
      Function.comp, decide_eq_true_iff]
    exact ⟨fun h => ⟨(contains_strip _ _ _ _).1 h.2, h.1⟩,
      fun h => ⟨h.2, (contains_strip _ _ _ _).2 h.1⟩⟩
  unfold weightedMean
  rw [e]
  have e1 : ((Y.advocates cs x.1 a).map (answer Y.learned (fun s _ => s.2.1)
        (fun s (x : Y.In) => Y.pred.outputs Y.S s.2.2.1 s.2.2.2 x.1) x)).reverse.map Cl.fit =
      ((Y.advocates cs x.1 a).map Cl.fit).reverse := by
    rw [List.map_reverse, List.map_map]; rfl
  have e2 : ((Y.advocates cs x.1 a).map (answer Y.learned (fun s _ => s.2.1)
        (fun s (x : Y.In) => Y.pred.outputs Y.S s.2.2.1 s.2.2.2 x.1) x)).reverse.map
          (fun c => c.prediction.getD j 0 * c.fit) =
      ((Y.advocates cs x.1 a).map fun c => Y.output c x.1 j * c.fit).reverse := by
    rw [List.map_reverse, List.map_map]
    congr 1
    refine List.map_congr_left fun c _ => ?_
    show (Y.pred.outputs Y.S _ _ x.1).getD j 0 * c.fit = _
    rw [show (Y.learned c.body c.prediction).2.2.1 = Y.pred.strip c.body.1.pred from rfl,
      show (Y.learned c.body c.prediction).2.2.2 = Y.pred.keep c.prediction from rfl,
      outputs_get _ _ _ _ _ _ hj]
    rfl
  rw [e1, e2, List.sum_reverse, List.sum_reverse]

/-- The prediction of a system, from the invariant of reachable states. -/
theorem System.prediction_of (hs : Y.Static) {s s' : St K Y.In Y.Rule R}
    (b : Between (fun _ => True) Y.par s s)
    {cv p : List K} {x : Y.In} (hp : predictRow Y.par Y.kit cv x s = .ok (p, s')) :
    ((∀ c ∈ population s, ¬ Y.Contains c.body x.1) → p = cv) ∧
    ((∃ c ∈ population s, Y.Contains c.body x.1) →
      ∀ a j, a < Y.par.nActions → j < Y.par.yDim →
      p[a * Y.par.yDim + j]? = some (
        let adv := Y.advocates (population s) x.1 a
        if (adv.map Cl.fit).sum = 0 then 0
        else (adv.map fun c => Y.output c x.1 j * c.fit).sum / (adv.map Cl.fit).sum)) := by
  classical
  obtain ⟨h1, h2⟩ := row_values_of (Y.stateless hs) b hp
  refine ⟨fun k => h1 fun c hc => ?_, fun ⟨c, hc, k⟩ a j ha hj => ?_⟩
  · rw [decide_eq_false_iff_not]
    exact fun e => k c hc ((contains_strip _ _ _ _).1 e)
  · rw [h2 ⟨c, hc, decide_eq_true_iff.2 ((contains_strip _ _ _ _).2 k)⟩ a j ha hj,
      Y.weightedMean_eq _ _ _ _ (by rw [Y.hyDim]; exact hj)]

/-- **C75**, prediction: after any history of calls the prediction for an input is the covering
value the caller gave if no rule contains the input; else output `j` of action `a` is the mean of
the outputs of the rules that contain the input and advocate `a`, weighted by their fitness
(zero if there is none). -/
theorem C75_prediction (hs : Y.Static) {r : R} {ops : List (Op K Y.In Y.Rule)}
    (hv : ∀ op ∈ ops, op.valid) {s s' : St K Y.In Y.Rule R} (h : run Y.par Y.kit r ops = .ok s)
    {cv p : List K} {x : Y.In} (hp : predictRow Y.par Y.kit cv x s = .ok (p, s')) :
    ((∀ c ∈ population s, ¬ Y.Contains c.body x.1) → p = cv) ∧
    ((∃ c ∈ population s, Y.Contains c.body x.1) →
      ∀ a j, a < Y.par.nActions → j < Y.par.yDim →
      p[a * Y.par.yDim + j]? = some (
        let adv := Y.advocates (population s) x.1 a
        if (adv.map Cl.fit).sum = 0 then 0
        else (adv.map fun c => Y.output c x.1 j * c.fit).sum / (adv.map Cl.fit).sum)) :=
  Y.prediction_of hs (reachable_between Y.hpar.popSize hv h) hp

/-! ## Concrete systems -/

section Examples

/-- A platform over the rationals. -/
def demoPf : Platform ℚ Nat where
  rng :=
    { draw := fun r => ((2 * ((r % 101 : Nat) : ℚ) + 1) / 202, (r * 5 + 3) % 101)
      gauss := fun r => (1 / 2, r + 1)
      exp := fun x => 1 + x }
  pow := fun _ _ => 1 / 2
  dblMax := 1000000
  loss := fun p y => (p.headD 0 - y.headD 0) * (p.headD 0 - y.headD 0)

theorem demoPf_legal : demoPf.Legal where
  rng := by
    intro r
    have : ((r % 101 : Nat) : ℚ) ≤ 100 := by exact_mod_cast (by omega : r % 101 ≤ 100)
    have h0 : (0 : ℚ) ≤ ((r % 101 : Nat) : ℚ) := Nat.cast_nonneg _
    simp only [demoPf]
    constructor <;> linarith
  loss := fun p y => mul_self_nonneg _

/-- Parameters of the parts of a rule. -/
def demoSetup : Setup ℚ where
  xDim := 2
  cond :=
    { csr := true, min := 0, max := 1, spreadMin := 1 / 10, eta := 1 / 10, pDontcare := 1 / 2,
      bits := 2, pCross := 4 / 5 }
  gp := { nInputs := 2, initDepth := 1, maxLen := 8, constants := [1, 2] }
  dgp := { evolve := true, maxK := 2, maxT := 3, n := 3, nInputs := 2 }
  stateful := false
  pred :=
    { xDim := 2, yDim := 1, quad := true, x0 := 1, eta := 1 / 10, etaMin := 1 / 100,
      evolveEta := true, lambda := 1, scale := 100, beta := 1 / 5 }
  mem := fun _ => 0
  tmp := fun _ => 0
  fuel := 20

/-- A system for every combination of types. -/
def demoSystem (c : CondType) (q : PredType) : System ℚ Nat where
  par := Demo.par
  pf := demoPf
  S := demoSetup
  cond := c
  pred := q
  hpar :=
    { popSize := by decide, nActions := by decide, yDim := by decide, beta0 := by norm_num [Demo.par]
      beta1 := by norm_num [Demo.par], initErr := by norm_num [Demo.par]
      initFit0 := by norm_num [Demo.par], initFit1 := by norm_num [Demo.par]
      errReduc := by norm_num [Demo.par], fitReduc0 := by norm_num [Demo.par]
      fitReduc1 := by norm_num [Demo.par] }
  hpf := demoPf_legal
  hcond := by
    cases c with
    | dummy => trivial
    | rectangle => show (0 : ℚ) ≤ 1; norm_num
    | ellipsoid => show (0 : ℚ) ≤ 1; norm_num
    | ternary => show 2 ≤ 31; decide
    | gp => exact ⟨⟨by decide, by decide⟩, Nat.le_refl _⟩
    | dgp => exact ⟨⟨by decide, by decide, by decide, by decide⟩, Nat.le_refl _⟩
  hxDim := rfl
  hyDim := rfl
  hbeta := rfl
  heta := by show (1 / 100 : ℚ) ≤ 1 / 10; norm_num

/-- A history of learning, prediction, and a reward. -/
def demoCalls (c : CondType) (q : PredType) :
    List (Op ℚ (demoSystem c q).In (demoSystem c q).Rule) :=
  [.fit ⟨[1 / 2, 1 / 4], rfl⟩ [1], .fit ⟨[1, 1 / 3], rfl⟩ [2], .rlFit ⟨[1, 1 / 3], rfl⟩ 1 1,
    .predict [⟨[1 / 2, 1 / 2], rfl⟩] [0, 0]]

theorem demoStatic (c : CondType) (q : PredType) : (demoSystem c q).Static := fun _ => rfl

theorem demoCovers (c : CondType) (q : PredType) : (demoSystem c q).Covers := by
  cases c with
  | rectangle => show (0 : ℚ) ≤ 1 / 10; norm_num
  | ellipsoid => show (0 : ℚ) ≤ 1 / 10 ∧ ((0 : ℚ) < 1 / 10 ∨ (0 : ℚ) ≠ 1); norm_num
  | dummy => trivial
  | ternary => trivial
  | gp => trivial
  | dgp => trivial

/-- The history runs and then matching and predicting an input give something. -/
def demoRuns (c : CondType) (q : PredType) (x : (demoSystem c q).In) : Bool :=
  Demo.Res.test (run Demo.par (demoSystem c q).kit 0 (demoCalls c q)) fun s =>
    0 < s.pset.num &&
    Demo.Res.test (clsetMatch Demo.par (demoSystem c q).kit x true { s with mset := {} })
      (fun s' => 0 < s'.mset.num) &&
    Demo.Res.test (predictRow Demo.par (demoSystem c q).kit [0, 0] x s) (fun p => p.1.length == 2)

example : demoRuns .rectangle .nlms ⟨[1 / 3, 1 / 3], rfl⟩ = true := by decide +kernel
example : demoRuns .ellipsoid .rls ⟨[1 / 3, 1 / 3], rfl⟩ = true := by decide +kernel
example : demoRuns .ternary .constant ⟨[1 / 3, 1 / 3], rfl⟩ = true := by decide +kernel
example : demoRuns .dgp .nlms ⟨[1 / 3, 1 / 3], rfl⟩ = true := by decide +kernel
example : demoRuns .gp .nlms ⟨[1 / 3, 1 / 3], rfl⟩ = true := by decide +kernel
example : demoRuns .dummy .nlms ⟨[1 / 3, 1 / 3], rfl⟩ = true := by decide +kernel

end Examples
end Xcsf
