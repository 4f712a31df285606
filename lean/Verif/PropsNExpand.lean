import Verif.NExpandSys
import Verif.PropsNRep
import Verif.PropsTune

/-!
# Properties C90 and C91: networks that are expanded and converted

`pred_expand` and `ae_to_classifier` change the networks of all rules of a population; the rules are
then used, evolved and trained as before.
-/

set_option linter.unusedSectionVars false
set_option linter.unusedVariables false

namespace Xcsf
variable {K R : Type} [Field K] [LinearOrder K] [IsStrictOrderedRing K] [FloorRing K]

/-! ## Networks -/

/-- A well-formed network for `n` inputs and `y` outputs that can be trained and expanded, whatever
layers it has. -/
def DeepOk (p : NetPlan) (n : Nat) (y : Nat) (b : NetBody K) : Prop :=
  ∃ as, p.Legal n as ∧ p.Trains as ∧ p.outs as = y ∧ Extensible as ∧ NetOk p as true b

theorem DeepOk.outs {p : NetPlan} {n y : Nat} {b : NetBody K} (h : DeepOk p n y b) :
    b.nOut = y ∧ headOuts b.lays = y := by
  obtain ⟨as, L, T, ho, X, h⟩ := h
  exact ⟨h.noted.trans ho, h.head.trans ho⟩

/-- **C90**, one network: expanding a network adds one layer, just before the output layer, with as
many inputs and outputs as the hidden layer below has outputs; all other layers, their weights
included, are as before, the network has as many outputs as before, and it is again one that can be
used, trained and expanded.  Missing of the full claim: the networks are those of C79 which have a
hidden layer, whose top hidden layer is not larger than a layer of neurons may be, and whose output
layer is not convolutional; without a hidden layer, or with a wide one, the claim is false, see
below. -/
theorem C90_network_partial {g : Rng K R} (O : g.Open) (Bd : g.Bounded) {p : NetPlan} {n y : Nat}
    {b : NetBody K} (h : DeepOk p n y b) {o : CArgs K} (ho : 0 ≤ o.fn ∧ o.fn < 11) (fuel : Nat)
    (r : R) : ∃ b' r' pre hid out l, netExpand g fuel o b r = .ok (b', r') ∧
      b.lays = pre ++ [hid, out] ∧ b'.lays = pre ++ [hid, .conn l, out] ∧
      (l.nInputs : Int) = hid.dim.n ∧ (l.nOutputs : Int) = hid.dim.n ∧ l.fn = o.fn ∧
      l.opt.neurons = false ∧ l.opt.sgd = o.opt.sgd ∧ b'.nOut = b.nOut ∧ DeepOk p n y b' := by
  obtain ⟨as, L, T, hy, X, h⟩ := h
  obtain ⟨pre, hid, out, l, r', e1, e2, e3, e4, e5, as', L', T', hy', X', h'⟩ :=
    netExpand_ok O Bd L T X h ho fuel r
  refine ⟨_, r', pre, hid, out, l, e3, e1, rfl, e4, e5, ?_, ?_, ?_, rfl, as', L', T', hy'.trans hy, X',
    h'⟩
  all_goals
    unfold connInit at e2
    dsimp only at e2
    repeat' split at e2
    all_goals cases e2
    rfl

/-- **C91**, one network: the conversion removes up to the given number of layers from the output
end, never the last one, leaves the others, their weights included, as they are, and adds a linear
layer that reads the outputs of the last of them, and a softmax layer; the network then has as many
outputs as there are classes and can be used, trained and expanded.  Missing of the full claim: the
networks are those of C79. -/
theorem C91_network_partial {g : Rng K R} (O : g.Open) (Bd : g.Bounded) {p : NetPlan} {n y : Nat}
    {b : NetBody K} (h : DeepOk p n y b) (o : CArgs K) {y' : Nat} (h1 : 1 ≤ y') (hB : y' ≤ p.lim.B)
    (nDel : Int) (r : R) : ∃ b' r' ls us l t, netToClassifier g o y' nDel b r = .ok (b', r') ∧
      b.lays = ls ++ us ∧ b'.lays = ls ++ [.conn l, .soft t] ∧
      us.length = min nDel.toNat (b.lays.length - 1) ∧
      (l.nInputs : Int) = headOuts ls ∧ l.nOutputs = y' ∧ l.fn = 3 ∧ t.nOut = (y' : Int) ∧
      b'.nOut = y' ∧ DeepOk p n y' b' := by
  obtain ⟨as, L, T, hy, X, h⟩ := h
  obtain ⟨l, t, r', e1, e2, e3, e4, as', L', T', hy', X', h'⟩ :=
    netToClassifier_ok O Bd L T h o h1 hB nDel r
  obtain ⟨us, hus⟩ := popGo_prefix nDel.toNat b.lays
  refine ⟨_, r', popGo nDel.toNat b.lays, us, l, t, e1, hus, rfl, ?_, e2, e3, ?_, e4, rfl, as', L',
    T', hy', X', h'⟩
  · have h1 := congrArg List.length hus
    rw [List.length_append] at h1
    have h2 := popGo_length nDel.toNat b.lays
    have h3 := List.length_pos_of_ne_nil (h.ne L)
    omega
  · unfold netToClassifier at e1
    dsimp only at e1
    split at e1
    · cases e1
    · next l' r1 e7 =>
      split at e1
      · cases e1
      · have e5 := (List.append_cancel_left (NetBody.mk.inj (Prod.mk.inj (Except.ok.inj e1)).1).2)
        have e6 : l' = l := by simpa using (List.cons.inj e5).1
        subst e6
        unfold connInit at e7
        dsimp only at e7
        repeat' split at e7
        all_goals cases e7
        all_goals rfl

/-! ## Systems -/

/-- What `pred_expand` does with a rule: condition and action are kept, xcsf.c:155. -/
def ruleExpand (g : Rng K R) (fuel : Nat) (o : CArgs K) {t : RuleKind} (b : NetParts K t none) (r : R) :
    Res (NetParts K t none × R) :=
  match netExpand g fuel o b.pred r with
  | .error e => .error e
  | .ok (q, r) => .ok (⟨b.cond, b.act, q⟩, r)

/-- What `ae_to_classifier` does with a rule: condition and action are kept, xcsf.c:181. -/
def ruleToClassifier (g : Rng K R) (o : CArgs K) (y : Nat) (nDel : Int) {t : RuleKind}
    (b : NetParts K t none) (r : R) : Res (NetParts K t none × R) :=
  match netToClassifier g o y nDel b.pred r with
  | .error e => .error e
  | .ok (q, r) => .ok (⟨b.cond, b.act, q⟩, r)

/-- A system with legal parameters whose predictions are networks that can be expanded; `first` are
the parameters of the first layer, of which the function of neurons and the options are used. -/
structure DeepSystem (K R : Type) [Field K] [LinearOrder K] [IsStrictOrderedRing K] [FloorRing K]
    where
  par : Params K
  pf : Platform K R
  S : NetSetup K
  rule : RuleKind
  condPlan : NetPlan
  actPlan : NetPlan
  predPlan : NetPlan
  first : CArgs K
  hpar : par.Legal
  hpf : pf.Legal
  hnormal : pf.rng.Bounded
  hexp : ∀ x, 0 < S.libm.exp x
  hrule : rule.Legal S par.nActions condPlan actPlan
  hpred : PredLegal S predPlan none
  hyDim : S.pred.yDim = par.yDim
  hgrow : Extensible S.predNet
  hfirst : 0 ≤ first.fn ∧ first.fn < 11

variable (Y : DeepSystem K R)

/-- The inputs of the system. -/
abbrev DeepSystem.In := Input K Y.S.xDim

/-- Well-formed rules of the system: their networks may have different numbers of layers. -/
abbrev DeepSystem.Ok (b : NetParts K Y.rule none) : Prop :=
  b.Ok (Y.rule.WC Y.S Y.condPlan) (Y.rule.WA Y.S Y.par.nActions Y.actPlan)
    (DeepOk Y.predPlan Y.S.xDim Y.par.yDim)

/-- The rules of the system. -/
abbrev DeepSystem.Rule := { b : NetParts K Y.rule none // Y.Ok b }

theorem deepPred_sound {g : Rng K R} (O : g.Open) (Bd : g.Bounded) {m : Libm K}
    (hm : ∀ x, 0 < m.exp x) (lo : K) {p : NetPlan} {n : Nat} {as : List (GArgs K)}
    (L : p.Legal n as) (T : p.Trains as) {y : Nat} (hy : p.outs as = y) (X : Extensible as)
    (fuel : Nat) : (netPred g m lo as y fuel).Sound n y (DeepOk p n y) where
  init := fun r => by
    obtain ⟨q, e, w⟩ := (netPred_sound O Bd hm lo L T hy fuel).init r
    exact ⟨q, e, as, L, T, hy, X, w⟩
  compute := fun e s q x r w hx => by
    obtain ⟨bs, L', T', hy', X', w⟩ := w
    obtain ⟨z, ez, w', hl⟩ := (netPred_sound O Bd hm lo L' T' hy' fuel).compute e s q x r w hx
    exact ⟨z, ez, ⟨bs, L', T', hy', X', w'⟩, hl⟩
  update := fun k s q x t w hx => by
    obtain ⟨bs, L', T', hy', X', w⟩ := w
    obtain ⟨z, ez, w', hl⟩ := (netPred_sound O Bd hm lo L' T' hy' fuel).update k s q x t w hx
    exact ⟨z, ez, ⟨bs, L', T', hy', X', w'⟩, hl⟩
  mutate := fun s r w => by
    obtain ⟨bs, L', T', hy', X', w⟩ := w
    rcases (netPred_sound O Bd hm lo L' T' hy' fuel).mutate s r w with ⟨z, ez, w'⟩ | e
    · exact .inl ⟨z, ez, bs, L', T', hy', X', w'⟩
    · exact .inr e
  copy := fun s r w => by
    obtain ⟨bs, L', T', hy', X', w⟩ := w
    obtain ⟨z, ez, w'⟩ := (netPred_sound O Bd hm lo L' T' hy' fuel).copy s r w
    exact ⟨z, ez, bs, L', T', hy', X', w'⟩

theorem DeepSystem.sound : (netSystemRep Y.pf.rng Y.S Y.par.nActions Y.rule none).Sound
    Y.par.nActions Y.par.yDim Y.Ok := by
  have h := mkRepG_sound (rule_cond_sound Y.hpf.rng Y.hnormal Y.hexp Y.hrule)
    (rule_act_sound Y.hpf.rng Y.hnormal Y.hexp Y.hpar.nActions Y.hrule)
    (deepPred_sound Y.hpf.rng Y.hnormal Y.hexp Y.S.lo Y.hpred.1 Y.hpred.2.1 Y.hpred.2.2 Y.hgrow
      Y.S.fuel)
  rw [Y.hyDim] at h
  unfold netSystemRep predFn
  rw [Y.hyDim]
  exact h

/-- The life cycle functions of the system. -/
def DeepSystem.kit : Kit K Y.In Y.Rule R :=
  (netSystemRep Y.pf.rng Y.S Y.par.nActions Y.rule none).kit Y.sound Y.pf

theorem DeepSystem.regular : Regular Y.par Y.kit (fun _ => True) :=
  Rep.kit_regular Y.hpar Y.sound Y.hpf

theorem DeepSystem.expand_ok (b : Y.Rule) (r : R) :
    ∃ q, ruleExpand Y.pf.rng Y.S.fuel Y.first b.1 r = .ok q ∧ Y.Ok q.1 := by
  obtain ⟨b', r', _, _, _, _, e, -, -, -, -, -, -, -, -, w⟩ :=
    C90_network_partial Y.hpf.rng Y.hnormal b.2.pred Y.hfirst Y.S.fuel r
  exact ⟨(⟨b.1.cond, b.1.act, b'⟩, r'), by unfold ruleExpand; rw [e], b.2.cond, b.2.act, w⟩

/-- What `pred_expand` does with a rule of the system. -/
def DeepSystem.expand (b : Y.Rule) (r : R) : Res (Y.Rule × R) :=
  let q := got (ruleExpand Y.pf.rng Y.S.fuel Y.first b.1 r) (Y.expand_ok b r)
  .ok (⟨q.1.1, q.2⟩, q.1.2)

theorem DeepSystem.expand_eq {b : Y.Rule} {r : R} {q : Y.Rule × R} (h : Y.expand b r = .ok q) :
    ruleExpand Y.pf.rng Y.S.fuel Y.first b.1 r = .ok (q.1.1, q.2) := by
  have e := got_eq (Y.expand_ok b r)
  unfold DeepSystem.expand at h
  cases h
  exact e

/-- Histories of calls and expansions of a system. -/
def DeepSystem.run (r : R) (evs : List (GrowEv K Y.In Y.Rule)) : Res (St K Y.In Y.Rule R) :=
  runGrow Y.par Y.kit Y.expand r evs

theorem renew_ok {B B' : Type} {par par' : Params K} (hp : par'.Legal) {W : B → Prop}
    {W' : B' → Prop} (ha : par'.nActions = par.nActions) {c : Cl K B} (h : RuleOK par W c) {b : B'}
    (hb : W' b) {p : List K} (hl : p.length = par'.yDim) (t : Int) :
    RuleOK par' W' (c.renew par' t p b) :=
  ⟨hp.initErr, hp.initFit0, hp.initFit1, h.size, le_refl _, h.act0, by rw [ha]; exact h.act1, hl, hb⟩

theorem DeepSystem.expand_total (b : Y.Rule) (r : R) : ∃ q, Y.expand b r = .ok q := ⟨_, rfl⟩

theorem DeepSystem.run_post (r : R) {evs : List (GrowEv K Y.In Y.Rule)}
    (hv : ∀ op, GrowEv.call op ∈ evs → op.ok (RuleOK Y.par (fun _ : Y.Rule => True))) :
    Post (Y.run r evs) (fun s => Between (RuleOK Y.par (fun _ : Y.Rule => True)) Y.par s s) NoUB :=
  runGrow_post (lawsField Y.regular) Y.expand_total
    (fun c r q t h _ => renew_ok Y.hpar rfl h trivial h.pred t) r hv

/-- **C90.** No history of calls and expansions, in any order and number, on a system with legal
parameters whose networks can be expanded has undefined behaviour or uses freed memory, although
rules with different numbers of layers live, mate and are stored side by side.  Missing of the full
claim: see `C90_network_partial`. -/
theorem C90_no_undefined_behaviour_partial (r : R) {evs : List (GrowEv K Y.In Y.Rule)}
    (hv : ∀ op, GrowEv.call op ∈ evs → op.ok (RuleOK Y.par (fun _ : Y.Rule => True))) :
    Y.run r evs ≠ .error .ub ∧ Y.run r evs ≠ .error .uaf :=
  have p := Y.run_post r hv
  ⟨fun h => post_of_error p h, fun h => post_of_error p h⟩

/-- What an expansion does with a rule: the network is expanded, error, fitness and experience start
anew, and the rest is kept. -/
structure Expanded (c c' : Cl K Y.Rule) (time : Int) : Prop where
  net : ∃ r r', netExpand Y.pf.rng Y.S.fuel Y.first c.body.1.pred r = .ok (c'.body.1.pred, r')
  deeper : c'.body.1.pred.lays.length = c.body.1.pred.lays.length + 1
  cond : c'.body.1.cond = c.body.1.cond
  act : c'.body.1.act = c.body.1.act
  err : c'.err = Y.par.initErr
  fit : c'.fit = Y.par.initFit
  exp : c'.exp = 0
  time : c'.time = time
  num : c'.num = c.num
  size : c'.size = c.size
  action : c'.action = c.action
  prediction : c'.prediction = c.prediction

/-- **C90**, the population: after every history the population can be expanded.  Each of its rules
gets one more layer and starts to collect experience anew; the number of rules, their numerosities
and their order, the stored population and all other values of the system are as before. -/
theorem C90_population_partial (r : R) {evs : List (GrowEv K Y.In Y.Rule)}
    (hv : ∀ op, GrowEv.call op ∈ evs → op.ok (RuleOK Y.par (fun _ : Y.Rule => True)))
    {s : St K Y.In Y.Rule R} (hs : Y.run r evs = .ok s) :
    ∃ s', Y.run r (evs ++ [.expand]) = .ok s' ∧
      List.Forall₂ (fun c c' => Expanded Y c c' s.time) (population s) (population s') ∧
      storedPopulation s' = storedPopulation s ∧
      s' = { s with heap := s'.heap, rng := s'.rng } := by
  have b := post_of_ok (Y.run_post r hv) hs
  obtain ⟨s', e, -, h1, h2, h3⟩ := expandPset_spec (par := Y.par) Y.expand_total
    (fun c r q t h _ => renew_ok Y.hpar rfl h trivial h.pred t) b
  refine ⟨s', ?_, h2.imp ?_, h3, h1⟩
  · unfold DeepSystem.run runGrow at hs ⊢
    cases e0 : xcsfInit Y.par Y.kit r with
    | error f => rw [e0] at hs; cases hs
    | ok s0 =>
      rw [e0] at hs
      have hs : evs.foldlM (growStep Y.par Y.kit Y.expand) s0 = .ok s := hs
      show (evs ++ [GrowEv.expand]).foldlM (growStep Y.par Y.kit Y.expand) s0 = .ok s'
      rw [List.foldlM_append, hs]
      show [GrowEv.expand].foldlM (growStep Y.par Y.kit Y.expand) s = .ok s'
      rw [List.foldlM_cons]
      show (expandPset Y.par Y.expand s >>= _) = _
      rw [e]
      rfl
  · rintro c c' ⟨r1, q, hq, rfl⟩
    have h := Y.expand_eq hq
    unfold ruleExpand at h
    obtain ⟨b', r', pre, hid, out, l, e1, e2, e3, -⟩ :=
      C90_network_partial Y.hpf.rng Y.hnormal c.body.2.pred Y.hfirst Y.S.fuel r1
    rw [e1] at h
    have h4 : (⟨c.body.1.cond, c.body.1.act, b'⟩ : NetParts K Y.rule none) = q.1.1 :=
      (Prod.mk.inj (Except.ok.inj h)).1
    have h5 : q.1.1.pred = b' := by rw [← h4]
    exact { net := ⟨r1, r', e1.trans (congrArg (fun z => Except.ok (z, r')) h5.symm)⟩
            deeper := by
              show q.1.1.pred.lays.length = _
              rw [h5, e2, e3]
              simp
            cond := by show q.1.1.cond = _; rw [← h4]
            act := by show q.1.1.act = _; rw [← h4]
            err := rfl, fit := rfl, exp := rfl, time := rfl, num := rfl, size := rfl
            action := rfl, prediction := rfl }

/-! ## From autoencoders to classifiers -/

/-- What a user sets when they turn a system into a classifier: the number of classes, and, before the
next call that creates rules, the layers of new networks, which must have as many outputs as there
are classes.  The loss function is replaced (`LOSS_ONEHOT`). -/
structure Classes (Y : DeepSystem K R) where
  classes : Nat
  layers : List (GArgs K)
  first : CArgs K
  loss : List K → List K → K
  hclasses : 1 ≤ classes
  hlimit : classes ≤ Y.predPlan.lim.B
  hlegal : Y.predPlan.Legal Y.S.xDim layers
  htrains : Y.predPlan.Trains layers
  houts : Y.predPlan.outs layers = classes
  hgrow : Extensible layers
  hfirst : 0 ≤ first.fn ∧ first.fn < 11
  hloss : ∀ p t, 0 ≤ loss p t

variable {Y} (C : Classes Y)

theorem rule_legal_pred {S : NetSetup K} {nA : Nat} {pc pa : NetPlan} (as : List (GArgs K))
    (pp : PredPar K) : ∀ {t : RuleKind}, t.Legal S nA pc pa →
      t.Legal { S with predNet := as, pred := pp } nA pc pa
  | .parts none _, h => h
  | .parts (some .dummy) _, h => h
  | .parts (some .rectangle) _, h => h
  | .parts (some .ellipsoid) _, h => h
  | .parts (some .ternary) _, h => h
  | .parts (some .gp) _, h => h
  | .parts (some .dgp) _, h => h
  | .dgp, h => h
  | .neural, h => h

theorem rule_wc_pred {S : NetSetup K} {pc : NetPlan} (as : List (GArgs K)) (pp : PredPar K) :
    ∀ {t : RuleKind} {b : t.CBody K}, t.WC S pc b → t.WC { S with predNet := as, pred := pp } pc b
  | .parts none _, _, h => h
  | .parts (some .dummy) _, _, h => h
  | .parts (some .rectangle) _, _, h => h
  | .parts (some .ellipsoid) _, _, h => h
  | .parts (some .ternary) _, _, h => h
  | .parts (some .gp) _, _, h => h
  | .parts (some .dgp) _, _, h => h
  | .dgp, _, h => h
  | .neural, _, h => h

theorem rule_wa_pred {S : NetSetup K} {nA : Nat} {pa : NetPlan} (as : List (GArgs K))
    (pp : PredPar K) : ∀ {t : RuleKind} {b : t.ABody K}, t.WA S nA pa b →
      t.WA { S with predNet := as, pred := pp } nA pa b
  | .parts _ false, _, h => h
  | .parts _ true, _, h => h
  | .dgp, _, h => h
  | .neural, _, h => h

/-- The system after the conversion. -/
def Classes.system : DeepSystem K R :=
  { Y with
    par := { Y.par with yDim := C.classes }
    pf := { Y.pf with loss := C.loss }
    S := { Y.S with predNet := C.layers, pred := { Y.S.pred with yDim := C.classes } }
    first := C.first
    hpar := { Y.hpar with yDim := C.hclasses }
    hpf := { Y.hpf with loss := C.hloss }
    hrule := rule_legal_pred _ _ Y.hrule
    hpred := ⟨C.hlegal, C.htrains, C.houts⟩
    hyDim := rfl
    hgrow := C.hgrow
    hfirst := C.hfirst }

theorem Classes.convert_ok (nDel : Int) (b : Y.Rule) (r : R) :
    ∃ q, ruleToClassifier Y.pf.rng Y.first C.classes nDel b.1 r = .ok q ∧ C.system.Ok q.1 := by
  obtain ⟨b', r', _, _, _, _, e, -, -, -, -, -, -, -, -, w⟩ :=
    C91_network_partial Y.hpf.rng Y.hnormal b.2.pred Y.first C.hclasses C.hlimit nDel r
  exact ⟨(⟨b.1.cond, b.1.act, b'⟩, r'), by unfold ruleToClassifier; rw [e],
    rule_wc_pred _ _ b.2.cond, rule_wa_pred _ _ b.2.act, w⟩

/-- What `ae_to_classifier` does with a rule of the system. -/
def Classes.convert (nDel : Int) (b : Y.Rule) (r : R) : Res (C.system.Rule × R) :=
  let q := got (ruleToClassifier Y.pf.rng Y.first C.classes nDel b.1 r) (C.convert_ok nDel b r)
  .ok (⟨q.1.1, q.2⟩, q.1.2)

theorem Classes.convert_eq {nDel : Int} {b : Y.Rule} {r : R} {q : C.system.Rule × R}
    (h : C.convert nDel b r = .ok q) :
    ruleToClassifier Y.pf.rng Y.first C.classes nDel b.1 r = .ok (q.1.1, q.2) := by
  have e := got_eq (C.convert_ok nDel b r)
  unfold Classes.convert at h
  cases h
  exact e

theorem Classes.convert_total (nDel : Int) (b : Y.Rule) (r : R) : ∃ q, C.convert nDel b r = .ok q :=
  ⟨_, rfl⟩

/-- `ae_to_classifier` on the state of a system. -/
def Classes.apply (nDel : Int) (s : St K Y.In Y.Rule R) : Res (St K Y.In C.system.Rule R) :=
  convertPset C.system.par (C.convert nDel) s

/-- What the conversion does with a rule. -/
structure Converted (nDel : Int) (time : Int) (c : Cl K Y.Rule) (c' : Cl K C.system.Rule) : Prop where
  net : ∃ r r', netToClassifier Y.pf.rng Y.first C.classes nDel c.body.1.pred r =
    .ok (c'.body.1.pred, r')
  outs : c'.body.1.pred.nOut = C.classes ∧ headOuts c'.body.1.pred.lays = C.classes
  cond : c'.body.1.cond = c.body.1.cond
  act : c'.body.1.act = c.body.1.act
  prediction : c'.prediction = List.replicate C.classes 0
  err : c'.err = Y.par.initErr
  fit : c'.fit = Y.par.initFit
  exp : c'.exp = 0
  time : c'.time = time
  num : c'.num = c.num
  action : c'.action = c.action

theorem Classes.apply_spec (nDel : Int) {s : St K Y.In Y.Rule R}
    (b : Between (RuleOK Y.par (fun _ : Y.Rule => True)) Y.par s s) (h0 : storedPopulation s = []) :
    ∃ s', C.apply nDel s = .ok s' ∧
      Between (RuleOK C.system.par (fun _ : C.system.Rule => True)) C.system.par s' s' ∧
      s'.pset = s.pset ∧ s'.time = s.time ∧
      List.Forall₂ (Converted C nDel s.time) (population s) (population s') := by
  have hq : s.prevPset.list = [] := by
    cases e : s.prevPset.list with
    | nil => rfl
    | cons i l =>
      have hi : i ∈ s.prevPset.list := by rw [e]; exact List.mem_cons_self
      obtain ⟨c, hc⟩ := Option.isSome_iff_exists.1 (b.good.inv.q.isSome hi)
      unfold storedPopulation at h0
      rw [e, List.filterMap_cons_some hc] at h0
      cases h0
  obtain ⟨s', e, b', h1, h2, h3⟩ := convertPset_spec (par := Y.par) (par' := C.system.par)
    (V' := RuleOK C.system.par (fun _ : C.system.Rule => True)) (C.convert_total nDel)
    (fun c r q t h _ => renew_ok (par := Y.par) C.system.hpar rfl h trivial (by simp) t) rfl b hq
  refine ⟨s', e, b', h1, h2, h3.imp ?_⟩
  rintro c c' ⟨r1, q, hq, rfl⟩
  have h := C.convert_eq hq
  unfold ruleToClassifier at h
  have hd := q.1.2.pred.outs
  obtain ⟨b', r', _, _, _, _, e1, -⟩ :=
    C91_network_partial Y.hpf.rng Y.hnormal c.body.2.pred Y.first C.hclasses C.hlimit nDel r1
  rw [e1] at h
  have h4 : (⟨c.body.1.cond, c.body.1.act, b'⟩ : NetParts K Y.rule none) = q.1.1 :=
    (Prod.mk.inj (Except.ok.inj h)).1
  have h5 : q.1.1.pred = b' := by rw [← h4]
  exact { net := ⟨r1, r', e1.trans (congrArg (fun z => Except.ok (z, r')) h5.symm)⟩
          outs := hd
          cond := by show q.1.1.cond = _; rw [← h4]
          act := by show q.1.1.act = _; rw [← h4]
          prediction := rfl, err := rfl, fit := rfl, exp := rfl, time := rfl, num := rfl
          action := rfl }

/-- **C91**, the population: after every history after which no population is stored, the networks
of all rules can be converted; numerosities, conditions and actions are kept, and all rules start to
collect experience anew, with a prediction of one element for each class. -/
theorem C91_population_partial (r : R) {evs : List (GrowEv K Y.In Y.Rule)}
    (hv : ∀ op, GrowEv.call op ∈ evs → op.ok (RuleOK Y.par (fun _ : Y.Rule => True)))
    {s : St K Y.In Y.Rule R} (hs : Y.run r evs = .ok s) (h0 : storedPopulation s = [])
    (nDel : Int) : ∃ s', C.apply nDel s = .ok s' ∧ s'.pset = s.pset ∧ s'.time = s.time ∧
      List.Forall₂ (Converted C nDel s.time) (population s) (population s') := by
  have b0 := post_of_ok (Y.run_post r hv) hs
  obtain ⟨s', h1, -, h2⟩ := C.apply_spec nDel b0 h0
  exact ⟨s', h1, h2⟩

/-- **C91.** A system that has been used in any way and holds no stored population can be turned into
a classifier and then be used in any way, expansions included, without undefined behaviour or use of
freed memory.  Missing of the full claim: the layers of new networks are set to have one output for
each class before rules are created again, without which the claim is false, see below; no
population is stored when the system is converted; and the networks are those of C79. -/
theorem C91_no_undefined_behaviour_partial (r : R) {evs : List (GrowEv K Y.In Y.Rule)}
    (hv : ∀ op, GrowEv.call op ∈ evs → op.ok (RuleOK Y.par (fun _ : Y.Rule => True)))
    {s : St K Y.In Y.Rule R} (hs : Y.run r evs = .ok s) (h0 : storedPopulation s = [])
    (nDel : Int) {evs' : List (GrowEv K C.system.In C.system.Rule)}
    (hv' : ∀ op, GrowEv.call op ∈ evs' →
      op.ok (RuleOK C.system.par (fun _ : C.system.Rule => True))) :
    ∃ s', C.apply nDel s = .ok s' ∧
      evs'.foldlM (growStep C.system.par C.system.kit C.system.expand) s' ≠ .error .ub ∧
      evs'.foldlM (growStep C.system.par C.system.kit C.system.expand) s' ≠ .error .uaf := by
  have b0 := post_of_ok (Y.run_post r hv) hs
  obtain ⟨s', h1, b, -⟩ := C.apply_spec nDel b0 h0
  have p := growEvs_post (lawsField C.system.regular) C.system.expand_total
    (fun c r q t h _ => renew_ok C.system.hpar rfl h trivial h.pred t) evs' b hv'
  exact ⟨s', h1, fun h => post_of_error p h, fun h => post_of_error p h⟩

/-! ## Concrete systems -/

section Examples

theorem netSetup_grow : Extensible netSetup.predNet where
  top := rfl
  out := by
    intro a ha
    simp [netSetup] at ha
    subst ha
    rfl

/-- Predictions of two layers, of which the first has evolving neurons. -/
def deepSystem : DeepSystem ℚ Nat where
  par := Demo.par
  pf := netPf
  S := netSetup
  rule := .parts (some .rectangle) false
  condPlan := netPlan true
  actPlan := netPlan false
  predPlan := netPlan true
  first := { demoNeurons 2 true with nInputs := 2 }
  hpar := (demoSystem .dummy .constant).hpar
  hpf := netPf_legal
  hnormal := netPf_bounded
  hexp := (netSystem .dgp none).hexp
  hrule := (netSystem (.parts (some .rectangle) false) none).hrule
  hpred := (netSystem .dgp none).hpred
  hyDim := rfl
  hgrow := netSetup_grow
  hfirst := ⟨by decide, by decide⟩

/-- The layers for three classes. -/
def classLayers : List (GArgs ℚ) :=
  [.conn { demoNeurons 2 true with nInputs := 2 }, .conn (demoNeurons 3 false),
    .soft { noPar with scale := 1 }]

/-- Three classes. -/
def deepClasses : Classes deepSystem where
  classes := 3
  layers := classLayers
  first := { demoNeurons 2 true with nInputs := 2 }
  loss := fun p t => ((p.zip t).map fun z => (z.1 - z.2) * (z.1 - z.2)).sum
  hclasses := by decide
  hlimit := by decide
  hlegal :=
    { netPlan_pred with
      ne := by simp [classLayers]
      fit := ⟨⟨⟨by decide, by decide, by decide, by decide, by decide, by decide, by decide,
          fun _ => by decide, by decide⟩, fun _ => rfl⟩, by decide,
        ⟨⟨by decide, by decide, by decide, by decide, by decide, by decide, by decide,
          fun _ => by decide, by decide⟩, fun _ => rfl⟩, by decide,
        (show (1 : ℚ) ≠ 0 by norm_num), by decide, trivial⟩
      first := by
        intro a ha
        simp [classLayers] at ha
        subst ha
        rfl
      last := by
        intro a ha
        simp [classLayers] at ha
        subst ha
        rfl
      fixed := fun _ => rfl }
  htrains :=
    { teach := by
        intro a ha
        simp [classLayers] at ha
        rcases ha with rfl | rfl | rfl <;> trivial
      conv := by
        intro a ha
        simp [classLayers] at ha
        rcases ha with rfl | rfl | rfl <;> rfl
      plain := by
        intro _ a ha
        simp [classLayers] at ha
        rcases ha with rfl | rfl | rfl <;> rfl }
  houts := by decide +kernel
  hgrow :=
    { top := rfl
      out := by
        intro a ha
        simp [classLayers] at ha
        subst ha
        rfl }
  hfirst := ⟨by decide, by decide⟩
  hloss := by
    intro p t
    refine List.sum_nonneg fun v hv => ?_
    obtain ⟨z, -, rfl⟩ := List.mem_map.1 hv
    exact mul_self_nonneg _

/-- Learning, an expansion, learning, another expansion, and prediction. -/
def deepEvs : List (GrowEv ℚ deepSystem.In deepSystem.Rule) :=
  [.call (.fit ⟨[1 / 2, 1 / 4], rfl⟩ [1]), .expand, .call (.fit ⟨[1, 1 / 3], rfl⟩ [2]), .expand,
    .call (.predict [⟨[1 / 2, 1 / 2], rfl⟩] [0, 0])]

/-- The history runs, and networks of different depths are in the population. -/
example : Demo.Res.test (deepSystem.run 0 deepEvs) (fun s =>
    (population s).any (fun c => c.body.1.pred.lays.length = 4) &&
    (storedPopulation s).isEmpty) = true := by decide +kernel

/-- The history, the conversion, and learning of the classes. -/
example : Demo.Res.test (do
      let s ← deepSystem.run 0 deepEvs
      let s ← deepClasses.apply 2 s
      [GrowEv.call (.fit ⟨[1 / 2, 1 / 4], rfl⟩ [0, 1, 0]), .expand].foldlM
        (growStep deepClasses.system.par deepClasses.system.kit deepClasses.system.expand) s)
    (fun s => (population s).all fun c => c.prediction.length = 3 && c.body.1.pred.nOut = 3) = true := by
  decide +kernel

end Examples

/-! ## Where the properties fail -/

/-- **C90 fails for networks of one layer**, which a user may set: expanding reads through a null
pointer. -/
theorem C90_single_layer_refuted :
    let v := netSystemRep netPf.rng { netSetup with predNet := [.conn { demoNeurons 1 false with
      nInputs := 2 }] } 2 (.parts (some .dummy) false) none
    ∃ b r, v.rand 0 = .ok (b, r) ∧
      ruleExpand netPf.rng 9 { demoNeurons 1 false with nInputs := 2 } b r = .error .ub := by
  intro v
  have h : (match v.rand 0 with
      | .ok (b, r) =>
        (match ruleExpand netPf.rng 9 { demoNeurons 1 false with nInputs := 2 } b r with
        | .error .ub => true
        | _ => false)
      | _ => false) = true := by decide +kernel
  split at h
  · next b r e =>
    split at h
    · next e2 => exact ⟨b, r, e, e2⟩
    · cases h
  · cases h

/-- The layers are legal. -/
example : (netPlan true).Legal (K := ℚ) 2 [.conn { demoNeurons 1 false with nInputs := 2 }] :=
  { netPlan_pred with
    ne := by simp
    fit := ⟨⟨⟨by decide, by decide, by decide, by decide, by decide, by decide, by decide,
        fun _ => by decide, by decide⟩, fun _ => rfl⟩, by decide, trivial⟩
    first := by
      intro a ha
      simp at ha
      subst ha
      rfl
    last := by
      intro a ha
      simp at ha
      subst ha
      rfl
    fixed := fun _ => rfl }

theorem connInit_wide (g : Rng K R) (a : CArgs K) {n : Nat} (h1 : a.nInputs = n) (h2 : a.nInit = n)
    (hw : 4472 < n) (hm : n ≤ 2000000) (r : R) :
    connInit g a r = .error (if (n : Int) ≤ 46340 then .exit else .ub) := by
  unfold connInit
  dsimp only
  rw [h1, h2]
  by_cases h : (n : Int) ≤ 46340
  · have h3 : (n : Int) * n ≤ 46340 * 46340 := Int.mul_le_mul h h (by omega) (by omega)
    have h4 : (4473 : Int) * 4473 ≤ n * n :=
      Int.mul_le_mul (by omega) (by omega) (by omega) (by omega)
    have e1 : overflows ((n : Int) * n) = false := by simp [overflows]; omega
    have e2 : guardOutputs (n : Int) = .ok () := if_neg (by omega)
    have e3 : guardWeights ((n : Int) * n) = .error .exit := if_pos (by omega)
    simp only [e1, e2, e3, h, if_true, Bool.false_eq_true, if_false]
  · have h4 : (46341 : Int) * 46341 ≤ n * n :=
      Int.mul_le_mul (by omega) (by omega) (by omega) (by omega)
    have e1 : overflows ((n : Int) * n) = true := by simp [overflows]; omega
    simp only [e1, h, if_true, if_false]

/-- **C90 fails for wide networks**: with more than 4472 outputs of the top hidden layer the new layer
has more weights than a layer may have, and the program ends; with more than 46340 the number of
weights overflows.  A layer may have up to 2000000 outputs. -/
theorem C90_wide_refuted (g : Rng K R) (fuel : Nat) (o : CArgs K) (b : NetBody K)
    {pre : List (GLay K)} {hid out : GLay K} (hb : b.lays = pre ++ [hid, out])
    (hw : 4472 < hid.dim.n) (hm : hid.dim.n ≤ 2000000) (r : R) :
    netExpand g fuel o b r = .error (if hid.dim.n ≤ 46340 then .exit else .ub) := by
  have hr : b.lays.reverse = out :: hid :: pre.reverse := by rw [hb]; simp
  have hn : ((hid.dim.n.toNat : Nat) : Int) = hid.dim.n := Int.toNat_of_nonneg (by omega)
  have e := connInit_wide g (expandArgs o hid.dim.n hid.dim.n hid.maxOuts) (n := hid.dim.n.toNat)
    rfl rfl (by omega) (by omega) r
  rw [hn] at e
  unfold netExpand
  rw [hr]
  dsimp only
  rw [e]

/-- A layer of 5000 neurons behind two inputs can be created. -/
example : ∃ l r, connInit netPf.rng { demoNeurons 5000 false with nInputs := 2, nMax := 5000 } 0 = .ok (l, r) ∧
    4472 < (GLay.conn l).dim.n ∧ (GLay.conn l).dim.n ≤ 2000000 := by
  have p := connInit_step (B := 5000) (M := 10000) (by decide) netPf_legal.rng netPf_bounded
    (a := { demoNeurons 5000 false with nInputs := 2, nMax := 5000 })
    ⟨by decide, by decide, by decide, by decide, by decide, by decide, by decide,
      (fun h => nomatch h), by decide⟩ 0
  cases e : connInit netPf.rng { demoNeurons 5000 false with nInputs := 2, nMax := 5000 } 0 with
  | error f =>
    rw [e] at p
    rcases (p : CFault 10000 false f) with h | h
    · exact absurd h.2 (by decide)
    · exact absurd h.2 (by decide)
  | ok q =>
    have h2 : (GLay.conn q.1).dim.n = 5000 := congrArg Nat.cast (connInit_dims e).2.1
    exact ⟨q.1, q.2, rfl, by omega, by omega⟩

/-- **C91 fails if rules are created with the layers of the autoencoder** and there are more classes
than outputs: the first prediction of such a rule ends the program. -/
theorem C91_more_classes_refuted :
    let v := netSystemRep netPf.rng { netSetup with pred := { netSetup.pred with yDim := 3 } } 2
      (.parts (some .dummy) false) none
    ∃ b r, v.rand 0 = .ok (b, r) ∧ v.predict true b [0, 0, 0] ⟨[1, 1], rfl⟩ r = .error .exit := by
  intro v
  have h : (match v.rand 0 with
      | .ok (b, r) => (match v.predict true b [0, 0, 0] ⟨[1, 1], rfl⟩ r with
        | .error .exit => true
        | _ => false)
      | _ => false) = true := by decide +kernel
  split at h
  · next b r e =>
    split at h
    · next e2 => exact ⟨b, r, e, e2⟩
    · cases h
  · cases h

/-- **C91 fails if rules are created with the layers of the autoencoder** and there are fewer classes
than outputs: the rule predicts, and learning reads beyond the desired output. -/
theorem C91_fewer_classes_refuted :
    let v := netSystemRep netPf.rng { netSetup with
      predNet := [.conn { demoNeurons 2 true with nInputs := 2 }, .conn (demoNeurons 2 false)]
      pred := { netSetup.pred with yDim := 1 } } 2 (.parts (some .dummy) false) none
    ∃ b r p c r', v.rand 0 = .ok (b, r) ∧ v.predict true b [0] ⟨[1, 1], rfl⟩ r = .ok (p, c, r') ∧
      v.update 1 c p ⟨[1, 1], rfl⟩ [1] r' = .error .ub := by
  intro v
  have h : (match v.rand 0 with
      | .ok (b, r) => (match v.predict true b [0] ⟨[1, 1], rfl⟩ r with
        | .ok (p, c, r') => (match v.update 1 c p ⟨[1, 1], rfl⟩ [1] r' with
          | .error .ub => true
          | _ => false)
        | _ => false)
      | _ => false) = true := by decide +kernel
  split at h
  · next b r e =>
    split at h
    · next p c r' e2 =>
      split at h
      · next e3 => exact ⟨b, r, p, c, r', e, e2, e3⟩
      · cases h
    · cases h
  · cases h

end Xcsf
