import Verif.TuneLemmas
import Verif.PropsRep
import Verif.PropsNRep

/-!
# Parameters may change between calls (C89)

`set_params` can be called at any time.  As long as the sizes of rules and of the prediction array
are kept, every history of calls and changes is safe, rules keep legal values and the population
stays within the largest limit that has been in force.  A lowered limit is not applied by the change
itself, and changes of sizes are not refused although they make later calls write outside of arrays.
-/

set_option linter.unusedSectionVars false

namespace Xcsf

section Any
variable {K X B R : Type} [Zero K] [One K] [Add K] [Sub K] [Mul K] [Div K]
  [LT K] [DecidableLT K] [IntCast K] [DecidableEq K]

theorem foldlM_calls : ∀ (ops : List (Op K X B)) (c : Conf K X B R) (s : St K X B R),
    (ops.map Ev.call).foldlM evStep ⟨c, c.par.nActions * c.par.yDim, s⟩ =
      (ops.foldlM (step c.par c.kit) s).map fun s => ⟨c, c.par.nActions * c.par.yDim, s⟩
  | [], c, s => rfl
  | op :: ops, c, s => by
    rw [List.map_cons, List.foldlM_cons, List.foldlM_cons]
    unfold evStep
    dsimp only
    rw [if_neg (Nat.lt_irrefl _)]
    cases h : step c.par c.kit s op with
    | error e => rfl
    | ok s1 => exact foldlM_calls ops c s1

/-- **C89**, the two notions of history agree: a history without changes of parameters is a history
of calls. -/
theorem C89_calls_only (c : Conf K X B R) (r : R) (ops : List (Op K X B)) :
    runEv c r (ops.map Ev.call) =
      (run c.par c.kit r ops).map fun s => ⟨c, c.par.nActions * c.par.yDim, s⟩ := by
  unfold runEv run
  cases h : xcsfInit c.par c.kit r with
  | error e => rfl
  | ok s => exact foldlM_calls ops c s

/-- The population is within every bound of all limits that have been in force, and the reported
counters are exact. -/
theorem C89_population_capped {M : Int} {c : Conf K X B R} (h0 : 0 ≤ c.par.popSize)
    (hM : c.par.popSize ≤ M) {r : R} {evs : List (Ev K X B R)}
    (hs : ∀ c' r', Ev.set c' r' ∈ evs → c'.par.nActions = c.par.nActions ∧
      c'.par.yDim = c.par.yDim ∧ 0 ≤ c'.par.popSize ∧ c'.par.popSize ≤ M)
    (ho : ∀ op, Ev.call op ∈ evs → op.valid) {l : Live K X B R} (h : runEv c r evs = .ok l) :
    micro (population l.st) ≤ M ∧ l.st.pset.num = micro (population l.st) ∧
      l.st.pset.size = (population l.st).length ∧ ∀ c ∈ population l.st, 1 ≤ c.num := by
  obtain ⟨_, b⟩ := post_of_ok (runEv_post (V := fun _ => True) (E := fun _ => True)
    (n := c.par.nActions) (d := c.par.yDim) ⟨lawsTriv c.par c.kit h0, rfl, rfl⟩ hM r
    (fun c' r' hc => by
      obtain ⟨h1, h2, h3, h4⟩ := hs c' r' hc
      exact ⟨⟨lawsTriv c'.par c'.kit h3, h1, h2⟩, h4⟩)
    (fun op hop => (ho op hop).ok)) h
  refine ⟨b.micro ▸ b.cap.2, b.micro.symm, ?_, fun c hc => (b.rules c hc).2⟩
  rw [population, filterMap_length b.good.inv.p.allLive]
  exact b.good.inv.p.size

end Any

section Field
variable {K X B R : Type} [Field K] [LinearOrder K] [IsStrictOrderedRing K] [FloorRing K]

/-- A change of parameters that keeps the sizes: the new parameters are legal for rules of the same
kind, and the numbers of actions and outputs stay. -/
structure Conf.Keeps (W : B → Prop) (c c' : Conf K X B R) : Prop where
  regular : Regular c'.par c'.kit W
  nActions : c'.par.nActions = c.par.nActions
  yDim : c'.par.yDim = c.par.yDim

/-- **C89.** Whatever legal parameters are set between calls, as long as the sizes are kept, no
history has undefined behaviour or uses freed memory.  Missing of the full claim: changes of the
sizes, for which it is false, see below. -/
theorem C89_no_undefined_behaviour_partial {W : B → Prop} {c : Conf K X B R}
    (H : Regular c.par c.kit W) (r : R) {evs : List (Ev K X B R)}
    (hs : ∀ c' r', Ev.set c' r' ∈ evs → c.Keeps W c')
    (ho : ∀ op, Ev.call op ∈ evs → op.ok (RuleOK c.par W)) :
    runEv c r evs ≠ .error .ub ∧ runEv c r evs ≠ .error .uaf := by
  obtain ⟨M, h0, hM⟩ := exists_limit c evs
  have hp := runEv_post (M := M) (H.fits (c0 := c) rfl rfl) h0 r
    (fun c' r' h => ⟨(hs c' r' h).regular.fits (hs c' r' h).nActions (hs c' r' h).yDim, hM c' r' h⟩)
    ho
  constructor <;> intro e <;> rw [e] at hp <;> revert hp <;> simp [Post, NoUB]

/-- **C89.** And the rules keep legal values: errors and niche sizes are not negative, fitnesses are
in the unit interval, actions exist, predictions have the right length, and the parts of the rule
are well-formed. -/
theorem C89_rules_stay_legal_partial {W : B → Prop} {c : Conf K X B R}
    (H : Regular c.par c.kit W) {r : R} {evs : List (Ev K X B R)}
    (hs : ∀ c' r', Ev.set c' r' ∈ evs → c.Keeps W c')
    (ho : ∀ op, Ev.call op ∈ evs → op.ok (RuleOK c.par W)) {l : Live K X B R}
    (h : runEv c r evs = .ok l) :
    ∀ z ∈ population l.st, RuleOK c.par W z ∧ RuleOK l.conf.par W z := by
  obtain ⟨M, h0, hM⟩ := exists_limit c evs
  obtain ⟨hf, b⟩ := post_of_ok (runEv_post (M := M) (H.fits (c0 := c) rfl rfl) h0 r
    (fun c' r' h => ⟨(hs c' r' h).regular.fits (hs c' r' h).nActions (hs c' r' h).yDim, hM c' r' h⟩)
    ho) h
  intro z hz
  have hv := (b.rules z hz).1
  exact ⟨hv, hv.reshape hf.nActions hf.yDim⟩

/-- **C89**, the limit is applied: inserting a rule brings the population to the limit that is in
force, however large it was before. -/
theorem C89_insert_applies_limit {c : Conf K X B R} (h0 : 0 ≤ c.par.popSize) {r : R}
    {evs : List (Ev K X B R)} (hs : ∀ c' r', Ev.set c' r' ∈ evs → c'.par.nActions = c.par.nActions ∧
      c'.par.yDim = c.par.yDim ∧ 0 ≤ c'.par.popSize)
    (ho : ∀ op, Ev.call op ∈ evs → op.valid) {l l' : Live K X B R} (h : runEv c r evs = .ok l)
    {z : Cl K B} (hz : 1 ≤ z.num) (h' : evStep l (.call (.insert z)) = .ok l') :
    micro (population l'.st) = min (micro (population l.st) + z.num) l.conf.par.popSize := by
  obtain ⟨M, hM, hMs⟩ := exists_limit c evs
  obtain ⟨hf, b⟩ := post_of_ok (runEv_post (V := fun _ => True) (E := fun _ => True)
    (n := c.par.nActions) (d := c.par.yDim) ⟨lawsTriv c.par c.kit h0, rfl, rfl⟩ hM r
    (fun c' r' hc => by
      obtain ⟨h1, h2, h3⟩ := hs c' r' hc
      exact ⟨⟨lawsTriv c'.par c'.kit h3, h1, h2⟩, hMs c' r' hc⟩)
    (fun op hop => (ho op hop).ok)) h
  unfold evStep at h'
  dsimp only at h'
  split at h'
  · cases h'
  · change (insertCl l.conf.par l.conf.kit z l.st >>= _) = _ at h'
    cases e : insertCl l.conf.par l.conf.kit z l.st with
    | error f => rw [e] at h'; cases h'
    | ok s1 =>
      rw [e] at h'
      cases h'
      obtain ⟨b1, hn⟩ := post_of_ok (insertCl_post hf.laws b trivial hz) e
      rw [b1.micro, b.micro]
      exact hn

end Field

/-! ## Complete systems -/

section Systems
variable {K R : Type} [Field K] [LinearOrder K] [IsStrictOrderedRing K] [FloorRing K]

/-- Two settings of the representation that give rules the same sizes: all parameters that are not
mentioned (ranges, learning rates, probabilities, the values of constants and so on) may differ. -/
structure Setup.SameSizes (S S' : Setup K) : Prop where
  xDim : S'.xDim = S.xDim
  bits : S'.cond.bits = S.cond.bits
  constants : S'.gp.constants.length = S.gp.constants.length
  treeInputs : S'.gp.nInputs = S.gp.nInputs
  dgp : S'.dgp = S.dgp
  predX : S'.pred.xDim = S.pred.xDim
  predY : S'.pred.yDim = S.pred.yDim
  quad : S'.pred.quad = S.pred.quad

theorem Setup.SameSizes.cond {S S' : Setup K} (h : S.SameSizes S') : ∀ c : CondType, c.W S' = c.W S
  | .dummy => rfl
  | .rectangle => by show Box.Dim _ = Box.Dim _; rw [h.xDim]
  | .ellipsoid => by show Box.Dim _ = Box.Dim _; rw [h.xDim]
  | .ternary => by
    funext b
    show (_ ∧ _ ∧ _) = (_ ∧ _ ∧ _)
    rw [h.xDim, h.bits]
  | .gp => by show GpTree.Codes _ _ = GpTree.Codes _ _; rw [h.constants, h.treeInputs]
  | .dgp => by show Wired _ = Wired _; rw [h.dgp]

theorem Setup.SameSizes.features {S S' : Setup K} (h : S.SameSizes S') :
    nFeatures S'.pred = nFeatures S.pred := by
  unfold nFeatures
  rw [h.quad, h.predX]

theorem Setup.SameSizes.pred {S S' : Setup K} (h : S.SameSizes S') : ∀ q : PredType, q.W S' = q.W S
  | .constant => rfl
  | .nlms => by
    funext b
    show (_ ∧ _ ∧ _) = (_ ∧ _ ∧ _)
    rw [h.features, h.predY]
  | .rls => by
    funext b
    show (_ ∧ _) = (_ ∧ _)
    rw [h.features, h.predY]

/-- Parameters that may be set on a system: legal ones that keep the sizes. -/
structure System.Tune (Y : System K R) where
  par : Params K
  pf : Platform K R
  S : Setup K
  hpar : par.Legal
  hpf : pf.Legal
  hcond : Y.cond.Legal S
  heta : S.pred.etaMin ≤ S.pred.eta
  nActions : par.nActions = Y.par.nActions
  yDim : par.yDim = Y.par.yDim
  sizes : Y.S.SameSizes S

variable {Y : System K R}

theorem System.Tune.sound (T : Y.Tune) :
    (mkRep Y.S.xDim Y.par.nActions (Y.cond.vt T.pf.rng T.S) (intAct T.pf.rng Y.par.nActions)
      (Y.pred.vt T.pf.rng T.S)).Sound T.par.nActions T.par.yDim Y.Ok := by
  have h := mkRep_sound (cond_sound T.hpf.rng T.hcond) (int_sound T.hpf.rng Y.hpar.nActions)
    (pred_sound T.hpf.rng T.heta Y.pred)
  rw [T.sizes.cond, T.sizes.pred, T.sizes.xDim, T.sizes.predY, Y.hyDim] at h
  rw [T.nActions, T.yDim]
  exact h

/-- The system with the parameters. -/
def System.Tune.conf (T : Y.Tune) : Conf K Y.In Y.Rule R where
  par := T.par
  kit := (mkRep Y.S.xDim Y.par.nActions (Y.cond.vt T.pf.rng T.S) (intAct T.pf.rng Y.par.nActions)
    (Y.pred.vt T.pf.rng T.S)).kit T.sound T.pf

/-- The parameters the system is made with. -/
def System.conf (Y : System K R) : Conf K Y.In Y.Rule R := ⟨Y.par, Y.kit⟩

/-- **C89.** No history of calls on a system with legal parameters, whatever its condition and
prediction types, between which legal parameters are set has undefined behaviour or uses freed
memory.  Missing of the full claim: the new parameters must keep the sizes of rules. -/
theorem C89_systems_partial (r : R) {evs : List (Ev K Y.In Y.Rule R)}
    (hs : ∀ c r', Ev.set c r' ∈ evs → ∃ T : Y.Tune, c = T.conf)
    (ho : ∀ op, Ev.call op ∈ evs → op.ok (RuleOK Y.par (fun _ : Y.Rule => True))) :
    runEv Y.conf r evs ≠ .error .ub ∧ runEv Y.conf r evs ≠ .error .uaf := by
  refine C89_no_undefined_behaviour_partial (c := Y.conf) Y.regular r (fun c r' h => ?_) ho
  obtain ⟨T, rfl⟩ := hs c r' h
  exact ⟨Rep.kit_regular T.hpar T.sound T.hpf, T.nActions, T.yDim⟩

/-- Parameters that may be set on a system with networks: legal ones that keep the sizes and the
arguments of layers. -/
structure NetSystem.Tune (Y : NetSystem K R) where
  par : Params K
  pf : Platform K R
  hpar : par.Legal
  hpf : pf.Legal
  hnormal : pf.rng.Bounded
  nActions : par.nActions = Y.par.nActions
  yDim : par.yDim = Y.par.yDim

variable {Z : NetSystem K R}

theorem NetSystem.Tune.sound (T : Z.Tune) :
    (netSystemRep T.pf.rng Z.S Z.par.nActions Z.rule Z.pred).Sound T.par.nActions T.par.yDim Z.Ok := by
  have h := mkRepG_sound (rule_cond_sound T.hpf.rng T.hnormal Z.hexp Z.hrule)
    (rule_act_sound T.hpf.rng T.hnormal Z.hexp Z.hpar.nActions Z.hrule)
    (pred_fn_sound T.hpf.rng T.hnormal Z.hexp Z.hpred)
  rw [Z.hyDim] at h
  rw [T.nActions, T.yDim]
  exact h

/-- The system with the parameters. -/
def NetSystem.Tune.conf (T : Z.Tune) : Conf K Z.In Z.Rule R where
  par := T.par
  kit := (netSystemRep T.pf.rng Z.S Z.par.nActions Z.rule Z.pred).kit T.sound T.pf

/-- **C89.** The same for systems with networks, if the arguments of layers are kept. -/
theorem C89_networks_partial (r : R) {evs : List (Ev K Z.In Z.Rule R)}
    (hs : ∀ c r', Ev.set c r' ∈ evs → ∃ T : Z.Tune, c = T.conf)
    (ho : ∀ op, Ev.call op ∈ evs → op.ok (RuleOK Z.par (fun _ : Z.Rule => True))) :
    runEv ⟨Z.par, Z.kit⟩ r evs ≠ .error .ub ∧ runEv ⟨Z.par, Z.kit⟩ r evs ≠ .error .uaf := by
  refine C89_no_undefined_behaviour_partial (c := ⟨Z.par, Z.kit⟩) Z.regular r (fun c r' h => ?_) ho
  obtain ⟨T, rfl⟩ := hs c r' h
  exact ⟨Rep.kit_regular T.hpar T.sound T.hpf, T.nActions, T.yDim⟩

/-! ## Changes that are not safe -/

/-- **C89 refuted**, features: linear predictions whose type is changed to quadratic.  Rules keep
their arrays, but the features are computed for the new type: for every rule that is well-formed for
linear features, the transformed input has more elements than the rule has room for (prediction.c:
265-286 writes behind `tmp_input`). -/
theorem C89_features_refuted (p : PredPar K) (hp : p.quad = false) (hx : 1 ≤ p.xDim)
    {s : Nlms K} (hs : s.Dim p) (x tmp : Nat → K) :
    s.n < (transform { p with quad := true } x tmp).1 := by
  rw [(C40_features _ x tmp).1, hs.1]
  unfold nFeatures
  rw [hp]
  simp only [Bool.false_eq_true, if_false, if_true]
  omega

end Systems


/-! ## Witnesses and examples -/

section Examples
open Demo

/-- Other legal parameters: half of the limit, another learning rate, another threshold for the
evolutionary algorithm. -/
def tunedPar : Params ℚ := { Demo.par with popSize := 2, beta := 1 / 10, eaTheta := 5 }

theorem tuned_regular : Regular tunedPar Demo.kit (fun _ => True) :=
  { Demo.regular with popSize := by decide, beta0 := by norm_num [tunedPar], beta1 := by norm_num [tunedPar] }

/-- A history in which the parameters change twice. -/
def tunedHist : List (Ev ℚ Nat (Nat × Nat) Nat) :=
  [.call (.fit 1 [1]), .call (.fit 2 [2]), .set ⟨tunedPar, Demo.kit⟩ (some 3), .call (.predict [1, 2] [0, 0]),
    .call .store, .call (.fit 3 [1]), .set ⟨Demo.par, Demo.kit⟩ none, .call .retrieve, .call (.fit 2 [1])]

theorem tunedHist_keeps : ∀ c' r', Ev.set c' r' ∈ tunedHist →
    Conf.Keeps (fun _ => True) ⟨Demo.par, Demo.kit⟩ c' := by
  intro c' r' h
  simp only [tunedHist, List.mem_cons, List.not_mem_nil, or_false, reduceCtorEq, false_or,
    Ev.set.injEq] at h
  rcases h with ⟨rfl, _⟩ | ⟨rfl, _⟩
  · exact ⟨tuned_regular, rfl, rfl⟩
  · exact ⟨Demo.regular, rfl, rfl⟩

theorem tunedHist_calls : ∀ op, Ev.call op ∈ tunedHist → op.ok (RuleOK Demo.par fun _ => True) := by
  intro op h
  simp only [tunedHist, List.mem_cons, List.not_mem_nil, or_false, reduceCtorEq, false_or,
    Ev.call.injEq] at h
  rcases h with rfl | rfl | rfl | rfl | rfl | rfl | rfl <;> trivial

/-- The history runs, and ends with four micro-classifiers. -/
example : ∃ l, runEv ⟨Demo.par, Demo.kit⟩ 0 tunedHist = .ok l ∧ micro (population l.st) = 4 := by
  obtain ⟨l, h1, h2⟩ := Res.test_iff (m := runEv ⟨Demo.par, Demo.kit⟩ 0 tunedHist)
    (p := fun l => decide (micro (population l.st) = 4)) (by decide +kernel)
  exact ⟨l, h1, of_decide_eq_true h2⟩

example : runEv ⟨Demo.par, Demo.kit⟩ 0 tunedHist ≠ .error .ub :=
  (C89_no_undefined_behaviour_partial (c := ⟨Demo.par, Demo.kit⟩) Demo.regular 0 tunedHist_keeps tunedHist_calls).1

example {l} (h : runEv ⟨Demo.par, Demo.kit⟩ 0 tunedHist = .ok l) :
    ∀ z ∈ population l.st, RuleOK Demo.par (fun _ => True) z := fun z hz =>
  (C89_rules_stay_legal_partial (c := ⟨Demo.par, Demo.kit⟩) Demo.regular tunedHist_keeps tunedHist_calls h z hz).1

/-- **C89 refuted**, the limit: setting a lower population limit does not remove rules, and neither
does predicting: the population stays above the limit in force until a call adds rules.  The new
parameters are legal and keep the sizes. -/
theorem C89_lowered_limit_refuted : Conf.Keeps (fun _ => True) ⟨Demo.par, Demo.kit⟩ ⟨tunedPar, Demo.kit⟩ ∧
    ∃ l, runEv ⟨Demo.par, Demo.kit⟩ 0 [.call (.fit 1 [1]), .call (.fit 2 [2]),
      .set ⟨tunedPar, Demo.kit⟩ none, .call (.predict [1, 2] [0, 0])] = .ok l ∧
      l.conf.par.popSize = 2 ∧ micro (population l.st) = 4 := by
  refine ⟨⟨tuned_regular, rfl, rfl⟩, ?_⟩
  obtain ⟨l, h1, h2⟩ := Res.test_iff (m := runEv ⟨Demo.par, Demo.kit⟩ 0 [.call (.fit 1 [1]), .call (.fit 2 [2]),
      .set ⟨tunedPar, Demo.kit⟩ none, .call (.predict [1, 2] [0, 0])])
    (p := fun l => decide (l.conf.par.popSize = 2 ∧ micro (population l.st) = 4)) (by decide +kernel)
  exact ⟨l, h1, of_decide_eq_true h2⟩

/-- The demonstration system with three actions and a higher limit. -/
def threePar : Params ℚ := { Demo.par with nActions := 3, popSize := 8 }

/-- And its rules. -/
def threeKit : Kit ℚ Nat (Nat × Nat) Nat :=
  { Demo.kit with act := fun _ b _ r => ((b.2 % 3 : Nat), b, r) }

theorem three_regular : Regular threePar threeKit (fun _ => True) :=
  { Demo.regular with
    nActions := by decide
    popSize := by decide
    wCover := fun _ _ _ _ _ _ _ _ _ _ => trivial
    coverErr := fun _ _ _ _ _ _ _ => ⟨nofun, nofun⟩
    act0 := fun _ b _ _ _ => by simp only [threeKit]; omega
    act1 := fun _ b _ _ _ => by simp only [threeKit, threePar]; omega }

/-- **C89 refuted**, the sizes: the number of actions is raised from two to three (and the population limit to eight), which is accepted;
the prediction array keeps its two elements and the next `fit` writes behind it.  The last part says
where: the rules the call would make include one for the new action, and adding up their predictions
leaves the array. -/
theorem C89_more_actions_refuted : Regular threePar threeKit (fun _ => True) ∧
    runEv ⟨Demo.par, Demo.kit⟩ 0 [.call (.fit 1 [1]), .set ⟨threePar, threeKit⟩ none,
      .call (.fit 2 [2])] = .error .ub ∧
    ∃ s s', run Demo.par Demo.kit 0 [.fit 1 [1]] = .ok s ∧
      step threePar threeKit s (.fit 2 [2]) = .ok s' ∧
      paRules 1 (population s') (List.replicate 2 0) (List.replicate 2 0) = .error .ub := by
  refine ⟨three_regular, ?_, ?_⟩
  · obtain ⟨l, h1, h2⟩ := Res.test_iff (m := runEv ⟨Demo.par, Demo.kit⟩ 0 [.call (.fit 1 [1])])
      (p := fun l => decide (l.paSize = 2)) (by decide +kernel)
    have e : ∀ a b : Ev ℚ Nat (Nat × Nat) Nat, runEv ⟨Demo.par, Demo.kit⟩ 0 [.call (.fit 1 [1]), a, b] =
        runEv ⟨Demo.par, Demo.kit⟩ 0 [.call (.fit 1 [1])] >>= fun l => [a, b].foldlM evStep l := by
      intro a b
      unfold runEv
      rw [bind_assoc]
      congr 1
      funext s
      rw [← List.foldlM_append]
      rfl
    rw [e, h1]
    show (evStep { l with conf := ⟨threePar, threeKit⟩, st := { l.st with rng := l.st.rng } }
      (.call (.fit 2 [2])) >>= fun l => .ok l) = _
    unfold evStep
    dsimp only
    rw [if_pos (by rw [of_decide_eq_true h2]; decide)]
    rfl
  · obtain ⟨s, h1, h2⟩ := Res.test_iff (m := run Demo.par Demo.kit 0 [.fit 1 [1]])
      (p := fun s => Res.test (step threePar threeKit s (.fit 2 [2])) fun s' => 
        match paRules 1 (population s') (List.replicate 2 0) (List.replicate 2 0) with
        | .error .ub => true
        | _ => false) (by decide +kernel)
    obtain ⟨s', h3, h4⟩ := Res.test_iff h2
    refine ⟨s, s', h1, h3, ?_⟩
    split at h4
    · assumption
    · cases h4

/-- Parameters set on the complete demonstration systems: lower limit, narrower ranges, other
learning rates and constants. -/
def demoTune (c : CondType) (q : PredType) : (demoSystem c q).Tune where
  par := tunedPar
  pf := demoPf
  S := { demoSetup with
    cond := { demoSetup.cond with max := 1 / 2, eta := 1 / 5 }
    gp := { demoSetup.gp with constants := [3, 4] }
    pred := { demoSetup.pred with eta := 1 / 20, beta := 1 / 10 } }
  hpar := { (demoSystem c q).hpar with
    popSize := by decide, beta0 := by norm_num [tunedPar], beta1 := by norm_num [tunedPar] }
  hpf := demoPf_legal
  hcond := by
    cases c with
    | dummy => trivial
    | rectangle => show (0 : ℚ) ≤ 1 / 2; norm_num
    | ellipsoid => show (0 : ℚ) ≤ 1 / 2; norm_num
    | ternary => show 2 ≤ 31; decide
    | gp => exact ⟨⟨by decide, by decide⟩, Nat.le_refl _⟩
    | dgp => exact ⟨⟨by decide, by decide, by decide, by decide⟩, Nat.le_refl _⟩
  heta := by show (1 / 100 : ℚ) ≤ 1 / 20; norm_num
  nActions := rfl
  yDim := rfl
  sizes := ⟨rfl, rfl, rfl, rfl, rfl, rfl, rfl, rfl⟩

/-- The history of C74, then new parameters, then the history again. -/
def demoEvs (c : CondType) (q : PredType) :
    List (Ev ℚ (demoSystem c q).In (demoSystem c q).Rule Nat) :=
  (demoCalls c q).map .call ++ .set (demoTune c q).conf (some 5) :: (demoCalls c q).map .call

example (c : CondType) (q : PredType) (r : Nat) :
    runEv (demoSystem c q).conf r (demoEvs c q) ≠ .error .ub := by
  refine (C89_systems_partial r (fun d r' h => ⟨demoTune c q, ?_⟩) (fun op h => ?_)).1
  · simp [demoEvs, demoCalls] at h
    exact h.1
  · simp only [demoEvs, demoCalls, List.map_cons, List.map_nil, List.cons_append, List.nil_append,
      List.mem_cons, List.not_mem_nil, or_false, reduceCtorEq, false_or, Ev.call.injEq] at h
    rcases h with rfl | rfl | rfl | rfl | rfl | rfl | rfl | rfl <;> trivial

example : Res.test (runEv (demoSystem .rectangle .nlms).conf 0 (demoEvs .rectangle .nlms))
    (fun l => decide (0 < micro (population l.st) ∧ micro (population l.st) ≤ 2)) = true := by
  decide +kernel

/-- Parameters set on the demonstration systems with networks. -/
def netTune (t : RuleKind) (q : Option PredType) : (netSystem t q).Tune where
  par := tunedPar
  pf := netPf
  hpar := { (netSystem t q).hpar with
    popSize := by decide, beta0 := by norm_num [tunedPar], beta1 := by norm_num [tunedPar] }
  hpf := netPf_legal
  hnormal := netPf_bounded
  nActions := rfl
  yDim := rfl

/-- Rules with linear features of two inputs, and the type changed to quadratic: six features are
written to an array of three. -/
example : (3 : Nat) < (transform { demoSetup.pred with quad := true } (fun _ => (1 : ℚ)) (fun _ => 0)).1 :=
  C89_features_refuted { demoSetup.pred with quad := false } rfl (by decide)
    (s := { n := 3, nWeights := 3, weights := fun _ => 0, tmp := fun _ => 0, eta := 0, mu := 0 })
    ⟨rfl, rfl, by norm_num [UnitRate]⟩ _ _

end Examples
end Xcsf
