import Verif.PropsNVal
import Verif.PropsNGen
import Verif.Demo

/-!
# C97: covering with rules made of networks

A rule that is made to cover an input contains it and advocates the action it is made for, also if
its condition or its action is a network: random networks are drawn until one does.  So after every
history the match set has a rule for every action.  It is not so for networks with dropout, which are
tried out with some of their neurons switched off, nor for networks with memory, nor for rules that are
one single network or graph.
-/

set_option linter.unusedSectionVars false

namespace Xcsf
variable {R : Type}

/-! ## Specification -/

/-- Layers that work by chance while a system learns. -/
def GArgs.steady : GArgs ℝ → Bool
  | .drop _ => false
  | .noise _ => false
  | _ => true

/-- The networks of conditions and actions do not work by chance. -/
def RuleKind.Steady (S : NetSetup ℝ) : RuleKind → Prop
  | .parts c a => (c = none → ∀ l ∈ S.condNet, l.steady = true) ∧
      (a = true → ∀ l ∈ S.actNet, l.steady = true)
  | .dgp => True
  | .neural => ∀ l ∈ S.condNet, l.steady = true

/-- Condition and action are two things. -/
def RuleKind.separate : RuleKind → Bool
  | .parts _ _ => true
  | _ => false

/-- Covering puts the input in the region: spreads are not negative, those of ellipsoids not all
zero. -/
def RuleKind.Spreads (S : NetSetup ℝ) : RuleKind → Prop
  | .parts (some .rectangle) _ => 0 ≤ S.cond.spreadMin
  | .parts (some .ellipsoid) _ =>
    0 ≤ S.cond.spreadMin ∧ (0 < S.cond.spreadMin ∨ S.cond.min ≠ S.cond.max)
  | _ => True

/-! ## Networks -/

/-- Layers that do not work by chance. -/
def GLay.steady : GLay ℝ → Bool
  | .drop _ => false
  | .noise _ => false
  | _ => true

variable {p : NetPlan} {as : List (GArgs ℝ)} {tr : Bool} {b : NetBody ℝ} {n : Nat} {g : Rng ℝ R}

theorem steady_trait {l : GLay ℝ} {a : GArgs ℝ} (h : l.trait = a.trait) : l.steady = a.steady := by
  have h1 := congrArg Prod.fst h
  cases l <;> cases a <;> first | rfl | (simp [GLay.trait, GArgs.trait] at h1)

theorem forward_steady {m : Libm ℝ} {lo : ℝ} (e : Bool) : ∀ (ls : List (GLay ℝ)) (x : List ℝ) (r : R),
    (∀ l ∈ ls, l.steady = true) → genForward g m lo e ls x r = genForward g m lo false ls x r
  | [], _, _, _ => rfl
  | l :: ls, x, r, h => by
    have hl : layerForward g m lo e l x r = layerForward g m lo false l x r := by
      have := h l (by simp)
      cases l <;> first | rfl | cases this
    unfold genForward
    rw [hl]
    have ih : ∀ o r, genForward g m lo e ls o r = genForward g m lo false ls o r := fun o r =>
      forward_steady e ls o r fun l hl => h l (List.mem_cons_of_mem _ hl)
    simp only [ih]

theorem propagate_steady {m : Libm ℝ} {lo : ℝ} (e : Bool) (h : NetOk p as tr b)
    (hs : ∀ a ∈ as, a.steady = true) (x : List ℝ) (r : R) :
    netPropagate g m lo e b x r = netPropagate g m lo false b x r := by
  unfold netPropagate
  rw [forward_steady e]
  intro l hl
  obtain ⟨a, ha, e⟩ := map_mem_eq h.trait hl
  rw [steady_trait e]
  exact hs a ha

theorem match_steady {m : Libm ℝ} {lo : ℝ} (e : Bool) (h : NetOk p as tr b)
    (hs : ∀ a ∈ as, a.steady = true) (x : List ℝ) (r : R) :
    netMatch g m lo e b x r = netMatch g m lo false b x r := by
  unfold netMatch
  rw [propagate_steady e h hs]

theorem action_steady {m : Libm ℝ} {lo : ℝ} (e : Bool) (h : NetOk p as tr b)
    (hs : ∀ a ∈ as, a.steady = true) (k : Nat) (x : List ℝ) (r : R) :
    netAction g m lo k e b x r = netAction g m lo k false b x r := by
  unfold netAction
  rw [propagate_steady e h hs]

theorem netCover_value {lo : ℝ} (Bd : g.Bounded) (L : p.Legal n as) (h1 : 1 ≤ p.outs as)
    (hm : ∀ a ∈ as, a.memoryless = true) (hs : ∀ a ∈ as, a.steady = true) {x : List ℝ}
    (hx : x.length = n) (e : Bool) : ∀ (fuel : Nat) (b : NetBody ℝ) (r : R), NetOk p as tr b →
    ∀ {b' r'}, netCover g realLibm lo e x fuel b r = .ok (b', r') → Fires (netVal b'.lays x)
  | 0, _, _, _, _, _, h => by cases h
  | fuel + 1, b, r, w, b', r', h => by
    obtain ⟨⟨b1, r1⟩, e1, w1⟩ := netRandom_ok Bd L w r
    obtain ⟨m, b2, e2, t, hm'⟩ := netMatch_value (g := g) (lo := lo) L h1 w1 hm hx r1
    unfold netCover at h
    rw [e1] at h
    dsimp only at h
    rw [match_steady e w1 hs, e2] at h
    cases m with
    | true =>
      cases h
      rw [t.val]
      exact hm'.1 rfl
    | false => exact netCover_value Bd L h1 hm hs hx e fuel b2 r1 t.ok h

theorem netActCover_value {lo : ℝ} (Bd : g.Bounded) (L : p.Legal n as) {nA : Nat} (hA : 1 ≤ nA)
    (ho : (nA : Int) ≤ p.outs as) (hm : ∀ a ∈ as, a.memoryless = true)
    (hs : ∀ a ∈ as, a.steady = true) {x : List ℝ} (hx : x.length = n) (e : Bool) (k : Int) :
    ∀ (fuel : Nat) (b : NetBody ℝ) (r : R), NetOk p as tr b → ∀ {b' r'},
    netActCover g realLibm lo nA e x k fuel b r = .ok (b', r') →
    chosen nA (netVal b'.lays x) = k
  | 0, _, _, _, _, _, h => by cases h
  | fuel + 1, b, r, w, b', r', h => by
    obtain ⟨⟨b1, r1⟩, e1, w1⟩ := netRandom_ok Bd L w r
    obtain ⟨b2, e2, t⟩ := netAction_value (g := g) (lo := lo) L hA ho w1 hm hx r1
    unfold netActCover at h
    rw [e1] at h
    dsimp only at h
    rw [action_steady e w1 hs, e2] at h
    dsimp only at h
    split at h
    · next hk =>
      cases h
      rw [t.val]
      exact hk
    · exact netActCover_value Bd L hA ho hm hs hx e k fuel b2 r1 t.ok h

/-! ## Rules -/

variable {S : NetSetup ℝ} {nA : Nat} {pc pa : NetPlan}

theorem rule_cond_cover (hg : g.Open) (hb : g.Bounded) (hl : S.libm = realLibm) : ∀ {t : RuleKind},
    t.separate = true → t.Legal S nA pc pa → t.Forgets S → t.Steady S → t.Spreads S →
    ∀ {c c' : t.CBody ℝ}, t.WC S pc c → ∀ {x : List ℝ}, x.length = S.xDim → ∀ {e : Bool} {r r' : R},
    (t.cond g S nA).cover e c x r = .ok (c', r') → t.Holds S c' x
  | .parts (some q) na, _, h, hf, _, hc, c, c', wc, x, hx, e, r, r', hk => by
    refine cond_cover (g := g) hg h.1 (fun e => hf.1 (by rw [e])) ?_ wc hx hk
    cases q <;> exact hc
  | .parts none na, _, h, hf, hs, _, c, c', wc, x, hx, e, r, r', hk => by
    have hk : netCover g S.libm S.lo e x S.fuel c r = .ok (c', r') := hk
    rw [hl] at hk
    exact netCover_value hb h.1.1 h.1.2 (hf.2.1 rfl) (hs.1 rfl) hx e S.fuel c r wc hk

theorem rule_act_cover (hb : g.Bounded) (hl : S.libm = realLibm) (hA : 1 ≤ nA) : ∀ {t : RuleKind},
    t.separate = true → t.Legal S nA pc pa → t.Forgets S → t.Steady S →
    ∀ {c c' : t.CBody ℝ} {a a' : t.ABody ℝ}, t.WA S nA pa a → ∀ {x : List ℝ}, x.length = S.xDim →
    ∀ {e : Bool} {k : Nat} {r r' : R}, (t.act g S nA).cover e c a x k r = .ok (c', a', r') →
    c' = c ∧ t.actionOf nA c' a' x = k
  | .parts _ false, _, _, _, _, c, c', a, a', _, x, hx, e, k, r, r', hk => by
    cases hk
    exact ⟨rfl, rfl⟩
  | .parts _ true, _, h, hf, hs, c, c', a, a', wa, x, hx, e, k, r, r', hk => by
    have wa : NetOk pa S.actNet false a := wa
    have hk : (netAct g S.libm S.lo S.actNet nA S.fuel).cover e c a x k r = .ok (c', a', r') := hk
    unfold netAct at hk
    dsimp only at hk
    split at hk
    · cases hk
    · next b r1 e1 =>
      cases hk
      rw [hl] at e1
      exact ⟨rfl, netActCover_value hb (h.2 rfl).1 hA (h.2 rfl).2 (hf.2.2 rfl) (hs.2 rfl) hx e k
        S.fuel a r wa e1⟩

theorem rule_match_steady : ∀ {t : RuleKind}, t.Legal S nA pc pa → t.Steady S →
    ∀ {c : t.CBody ℝ}, t.WC S pc c → ∀ (x : List ℝ) (e : Bool) (r : R),
    (t.cond g S nA).cmatch e c x r = (t.cond g S nA).cmatch false c x r
  | .parts (some _) _, _, _, _, _, _, _, _ => rfl
  | .parts none _, _, hs, _, wc, x, e, r => match_steady e wc (hs.1 rfl) x r
  | .dgp, _, _, _, _, _, _, _ => rfl
  | .neural, _, hs, _, wc, x, e, r => match_steady e wc hs x r

/-! ## Theorems -/

variable (Y : NetSystem ℝ R)

theorem NetSystem.cmatch_steady (hs : Y.rule.Steady Y.S) (e : Bool) (b : Y.Rule) (x : Y.In) (r : R) :
    Y.kit.cmatch e b x r = Y.kit.cmatch false b x r := by
  have h : (netSystemRep Y.pf.rng Y.S Y.par.nActions Y.rule Y.pred).cmatch e b.1 x r =
      (netSystemRep Y.pf.rng Y.S Y.par.nActions Y.rule Y.pred).cmatch false b.1 x r := by
    show ((Y.rule.cond Y.pf.rng Y.S Y.par.nActions).cmatch e b.1.cond x.1 r >>= _) =
      ((Y.rule.cond Y.pf.rng Y.S Y.par.nActions).cmatch false b.1.cond x.1 r >>= _)
    rw [rule_match_steady Y.hrule hs b.2.cond x.1 e r]
  obtain ⟨q, e1, _⟩ := (C79_rules_sound Y).cmatch e b.1 x r b.2
  have h1 := got_val ((C79_rules_sound Y).cmatch e b.1 x r b.2) e1
  have h2 := got_val ((C79_rules_sound Y).cmatch false b.1 x r b.2) (h.symm.trans e1)
  refine Prod.ext ?_ (Prod.ext (Subtype.ext ?_) ?_)
  · exact (congrArg (fun q => q.1) h1).trans (congrArg (fun q => q.1) h2).symm
  · exact (congrArg (fun q => q.2.1) h1).trans (congrArg (fun q => q.2.1) h2).symm
  · exact (congrArg (fun q => q.2.2) h1).trans (congrArg (fun q => q.2.2) h2).symm

theorem NetSystem.act_cond (e : Bool) (b : Y.Rule) (x : Y.In) (r : R) :
    (Y.kit.act e b x r).2.1.1.cond = b.1.cond := by
  obtain ⟨q, e1, _⟩ := (C79_rules_sound Y).act e b.1 x r b.2
  have h1 : (Y.kit.act e b x r).2.1.1 = q.2.1 :=
    congrArg (fun q => q.2.1) (got_val ((C79_rules_sound Y).act e b.1 x r b.2) e1)
  rw [h1]
  have e1 : ((Y.rule.act Y.pf.rng Y.S Y.par.nActions).compute e b.1.cond b.1.act x.1 r >>= fun q =>
    (Except.ok (q.1, ({ b.1 with act := q.2.1 } : NetParts ℝ Y.rule Y.pred), q.2.2) : Res _)) =
    .ok q := e1
  cases e2 : (Y.rule.act Y.pf.rng Y.S Y.par.nActions).compute e b.1.cond b.1.act x.1 r with
  | error f => rw [e2] at e1; cases e1
  | ok z =>
    rw [e2] at e1
    have e1 : (Except.ok (z.1, ({ b.1 with act := z.2.1 } : NetParts ℝ Y.rule Y.pred), z.2.2) :
      Res _) = .ok q := e1
    rw [← Except.ok.inj e1]

/-- **C97 (partial), rules.** A rule that is made to cover an input for an action contains the input
and advocates the action, in learning and in prediction.  Missing of the full claim: layers with
memory and layers that work by chance, and rules that are one network or graph. -/
theorem C97_covering_rule_partial (hf : Y.Forgets) (hs : Y.rule.Steady Y.S)
    (hp : Y.rule.separate = true) (hc : Y.rule.Spreads Y.S) {e : Bool} {b b' : Y.Rule} {x : Y.In}
    {a : Int} {r r' : R} (h : Y.kit.cover e b x a r = .ok (b', r')) :
    Y.Holds b' x.1 ∧ Y.Advises b' x.1 a := by
  unfold NetSystem.kit Rep.kit at h
  dsimp only at h
  split at h
  · next ha =>
    split at h
    · next q eq =>
      have hq : q.1 = b'.1 := congrArg (fun z : Res (Y.Rule × R) => match z with
        | .ok z => z.1.1
        | .error _ => q.1) h
      have eq : ((Y.rule.cond Y.pf.rng Y.S Y.par.nActions).cover e b.1.cond x.1 r >>= fun c =>
        (Y.rule.act Y.pf.rng Y.S Y.par.nActions).cover e c.1 b.1.act x.1 (a.toNat : Nat) c.2 >>=
          fun q => Except.ok ((⟨q.1, q.2.1, b.1.pred⟩ : NetParts ℝ Y.rule Y.pred), q.2.2)) =
        .ok q := eq
      cases e1 : (Y.rule.cond Y.pf.rng Y.S Y.par.nActions).cover e b.1.cond x.1 r with
      | error f => rw [e1] at eq; cases eq
      | ok c =>
        rw [e1] at eq
        replace eq : ((Y.rule.act Y.pf.rng Y.S Y.par.nActions).cover e c.1 b.1.act x.1
          (a.toNat : Nat) c.2 >>= fun q => Except.ok ((⟨q.1, q.2.1, b.1.pred⟩ :
            NetParts ℝ Y.rule Y.pred), q.2.2)) = .ok q := eq
        cases e2 : (Y.rule.act Y.pf.rng Y.S Y.par.nActions).cover e c.1 b.1.act x.1
          (a.toNat : Nat) c.2 with
        | error f => rw [e2] at eq; cases eq
        | ok d =>
          rw [e2] at eq
          have eq : (Except.ok ((⟨d.1, d.2.1, b.1.pred⟩ : NetParts ℝ Y.rule Y.pred), d.2.2) :
            Res _) = .ok q := eq
          have eq := Except.ok.inj eq
          obtain ⟨h1, h2⟩ := rule_act_cover (c := c.1) (c' := d.1) (a' := d.2.1) (r' := d.2.2)
            Y.hnormal hf.libm Y.hpar.nActions hp Y.hrule hf.rule hs b.2.act x.2 e2
          have h3 := rule_cond_cover (c' := c.1) (r' := c.2) Y.hpf.rng Y.hnormal hf.libm hp Y.hrule
            hf.rule hs hc b.2.cond x.2 e1
          rw [← eq] at hq
          have k1 : b'.1.cond = d.1 := congrArg (fun z : NetParts ℝ Y.rule Y.pred => z.cond) hq.symm
          have k2 : b'.1.act = d.2.1 := congrArg (fun z : NetParts ℝ Y.rule Y.pred => z.act) hq.symm
          constructor
          · unfold NetSystem.Holds
            rw [k1, h1]
            exact h3
          · refine (advises_iff Y.hpar.nActions Y.hrule hf.rule b'.2.act x.2 a).2 ?_
            rw [k1, k2, h2]
            omega
    · cases h
  · cases h

open Classical in
/-- **C97 (partial), systems.** In every state a history of calls leads to, the match set built for an
input with covering has a rule for every action, and all its members contain the input.  Missing of
the full claim: as above. -/
theorem C97_every_action_covered_partial (hf : Y.Forgets) (hs : Y.rule.Steady Y.S)
    (hp : Y.rule.separate = true) (hc : Y.rule.Spreads Y.S) {r : R}
    {ops : List (Op ℝ Y.In Y.Rule)} (hv : ∀ op ∈ ops, op.valid) {s s' : St ℝ Y.In Y.Rule R}
    (h : run Y.par Y.kit r ops = .ok s) (x : Y.In)
    (h' : clsetMatch Y.par Y.kit x true { s with mset := {} } = .ok s') :
    (∀ a : Nat, a < Y.par.nActions → ∃ i ∈ s'.mset.list, ∃ c, s'.heap i = some c ∧
      c.action = a ∧ Y.Holds c.body x.1) ∧
    (∀ i ∈ s'.mset.list, i ∈ s'.pset.list ∧ ∃ c, s'.heap i = some c ∧ Y.Holds c.body x.1) := by
  have hb := reachable_between Y.hpar.popSize hv h
  obtain ⟨k1, k2⟩ := C08_every_action_covered (kit := Y.kit)
    (M := fun b x => decide (Y.Holds b x.1))
    (fun e b x r => by
      rw [Y.cmatch_steady hs, Bool.eq_iff_iff, (Y.cmatch_value hf b x r).1, decide_eq_true_iff])
    (fun e b x r => by
      rw [Y.cmatch_steady hs]
      have := congrArg Prod.fst ((Y.cmatch_value hf b x r).2.1 [])
      simp only [decide_eq_decide]
      exact iff_of_eq (congrFun this x.1))
    (fun e b x r => by
      simp only [decide_eq_decide]
      unfold NetSystem.Holds
      rw [Y.act_cond])
    (fun _ b x a r b' r' e => decide_eq_true_iff.2 (C97_covering_rule_partial Y hf hs hp hc e).1)
    (fun e b x r => ⟨Y.regular.act0 e b x r trivial, Y.regular.act1 e b x r trivial⟩)
    Y.hpar.popSize (s := { s with mset := {} })
    (hb.good.inv.congr rfl rfl rfl rfl rfl) rfl x h'
  refine ⟨fun a ha => ?_, fun i hi => ?_⟩
  · obtain ⟨i, h1, c, h2, h3, h4⟩ := k1 a ha
    exact ⟨i, h1, c, h2, h3, of_decide_eq_true h4⟩
  · obtain ⟨h1, c, h2, h3⟩ := k2 i hi
    exact ⟨h1, c, h2, of_decide_eq_true h3⟩

/-! ## Examples -/

open Demo

/-- The example system satisfies the hypotheses. -/
example : realSystem.Forgets ∧ realSystem.rule.Steady realSystem.S ∧
    realSystem.rule.separate = true ∧ realSystem.rule.Spreads realSystem.S :=
  ⟨realSystem_forgets,
    ⟨fun _ l hl => by
        have hl : l ∈ [GArgs.conn (realNeurons 1)] := hl
        simp at hl; subst hl; rfl,
      fun _ l hl => by
        have hl : l ∈ [GArgs.conn (realNeurons 2)] := hl
        simp at hl; subst hl; rfl⟩,
    rfl, trivial⟩

/-- A generator whose draws are 3/4 and whose normal values are 1/5. -/
def fifthRng : Rng ℚ Nat := ⟨fun i => (3 / 4, i + 1), fun i => (1 / 5, i), fun x => x⟩

/-- A linear neuron of fixed size followed by `rest`. -/
def neuronAnd (rest : List (GArgs ℚ)) : List (GArgs ℚ) :=
  .conn { growing 1 0 with nMax := 1, opt := ⟨true, false, false, false, false, false⟩ } :: rest

/-- A network is made from a configuration and covers the input one; what it answers afterwards. -/
def coverThen (g : Rng ℚ Nat) (as : List (GArgs ℚ)) (explore : Bool) : Res (Bool × NetBody ℚ × Nat) :=
  netNew g as 0 >>= fun p =>
    netCover g demoLibm 0 true [1] 5 p.1 p.2 >>= fun p =>
      netMatch g demoLibm 0 explore p.1 [1] p.2

theorem coverThen_iff {g : Rng ℚ Nat} {as : List (GArgs ℚ)} {explore : Bool}
    (h : Res.test (coverThen g as explore) (fun q => decide (q.1 = false)) = true) :
    ∃ b b' r r' b'' r'', netNew g as 0 = .ok (b, r) ∧
      netCover g demoLibm 0 true [1] 5 b r = .ok (b', r') ∧
      netMatch g demoLibm 0 explore b' [1] r' = .ok (false, b'', r'') := by
  obtain ⟨q, h1, h2⟩ := Res.test_iff h
  unfold coverThen at h1
  cases e1 : netNew g as 0 with
  | error f => rw [e1] at h1; cases h1
  | ok p =>
    rw [e1] at h1
    have h1 : (netCover g demoLibm 0 true [1] 5 p.1 p.2 >>= fun p =>
      netMatch g demoLibm 0 explore p.1 [1] p.2) = .ok q := h1
    cases e2 : netCover g demoLibm 0 true [1] 5 p.1 p.2 with
    | error f => rw [e2] at h1; cases h1
    | ok p' =>
      rw [e2] at h1
      have h1 : netMatch g demoLibm 0 explore p'.1 [1] p'.2 = .ok q := h1
      obtain ⟨m, b'', r''⟩ := q
      have h2 : m = false := of_decide_eq_true h2
      subst h2
      exact ⟨p.1, p'.1, p.2, p'.2, b'', r'', rfl, e2, h1⟩

/-- Covering with a network, concretely: in front of the threshold is a dropout layer that keeps its
input and doubles it, so covering succeeds. -/
example : Res.test (coverThen fifthRng (neuronAnd [.drop { noPar with probability := 1 / 2 }]) true)
    (fun q => q.1 = true) = true := by decide +kernel

/-! ## Where the property fails -/

/-- **C97, refuted for networks with dropout**: a network with a dropout layer is made for an input and
covers it while some outputs are dropped and the other ones scaled up; asked for a prediction at the
same input right after, the rule does not contain it. -/
theorem C97_dropout_refuted : ∃ b b' r r' b'' r'',
    netNew fifthRng (neuronAnd [.drop { noPar with probability := 1 / 2 }]) 0 = .ok (b, r) ∧
    netCover fifthRng demoLibm 0 true [1] 5 b r = .ok (b', r') ∧
    netMatch fifthRng demoLibm 0 false b' [1] r' = .ok (false, b'', r'') :=
  coverThen_iff (by decide +kernel)

/-- A generator whose normal values are one but for the sixth. -/
def signedRng : Rng ℚ Nat := ⟨fun i => (3 / 4, i), fun i => (if i = 5 then -1 else 1, i + 1), fun x => x⟩

/-- A recurrent neuron of fixed size. -/
def recNeuron : List (GArgs ℚ) :=
  [.recu { growing 1 0 with nMax := 1, opt := ⟨true, false, false, false, false, false⟩ }]

/-- **C97, refuted for networks with memory**: a recurrent network made for an input covers it, and
does not contain it any more when the same input comes again. -/
theorem C97_recurrent_refuted : ∃ b b' r r' b'' r'',
    netNew signedRng recNeuron 0 = .ok (b, r) ∧
    netCover signedRng demoLibm 0 true [1] 5 b r = .ok (b', r') ∧
    netMatch signedRng demoLibm 0 true b' [1] r' = .ok (false, b'', r'') :=
  coverThen_iff (by decide +kernel)

end Xcsf
