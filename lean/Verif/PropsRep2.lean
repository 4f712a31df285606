import Verif.PropsRep
import Verif.Props3
import Verif.PropsCallback
import Verif.PropsRls

/-!
# Properties C76 and C77: what subsumption and storing do to a complete system
-/

set_option linter.unusedSectionVars false
set_option linter.unusedVariables false

open Finset (range)

namespace Xcsf
variable {K R : Type} [Field K] [LinearOrder K] [IsStrictOrderedRing K] [FloorRing K]
variable (Y : System K R)

/-! ## Subsumption -/

theorem cond_general {g : Rng K R} {S : Setup K} : ∀ {c : CondType}, c ≠ .ellipsoid → c.Legal S →
    ∀ {a b : c.Body K}, c.W S a → c.W S b → (c.vt g S).general a b = true →
    ∀ x : List K, x.length = S.xDim → c.Contains S b x → c.Contains S a x
  | .dummy, _, _, _, _, _, _, h, _, _, _ => by cases h
  | .rectangle, _, _, a, b, wa, wb, h, x, _, hx =>
    (C28_match_meaning _ _ _).1 (C29_general_covers S.cond a b (Eq.trans wa.1 (Eq.symm wb.1)) h x
      ((C28_match_meaning _ _ _).2 hx))
  | .ellipsoid, h, _, _, _, _, _, _, _, _, _ => absurd rfl h
  | .ternary, _, hb, a, b, wa, wb, h, x, hl, hx => by
    have la : (a : Tern K).string.length = x.length * S.cond.bits := Eq.trans wa.1 (by rw [hl])
    have lb : (b : Tern K).string.length = x.length * S.cond.bits := Eq.trans wb.1 (by rw [hl])
    obtain ⟨m, e, hm⟩ := C32_match S.cond hb (b : Tern K) x lb
    have e1 : m = true := hm.2 hx
    subst e1
    have k := (C32_general_covers S.cond hb a b x la lb h e).1
    obtain ⟨m', e', hm'⟩ := C32_match S.cond hb (a : Tern K) x la
    rw [k] at e'
    cases e'
    exact hm'.1 rfl
  | .gp, _, _, _, _, _, _, h, _, _, _ => by cases h
  | .dgp, _, _, _, _, _, _, h, _, _, _ => by cases h

theorem System.general_covers (he : Y.cond ≠ .ellipsoid) {a b : Y.Rule}
    (h : Y.kit.general a b = true) :
    Y.action a = Y.action b ∧ ∀ x : Y.In, Y.Contains b x.1 → Y.Contains a x.1 := by
  have h : (if (Y.cond.vt Y.pf.rng Y.S).general a.1.cond b.1.cond then
    decide (a.1.act.action = b.1.act.action) else false) = true := h
  split at h
  · next hc =>
    exact ⟨of_decide_eq_true h,
      fun x hx => cond_general he Y.hcond a.2.cond b.2.cond hc x.1 x.2 hx⟩
  · cases h

/-- **C76.** Set subsumption never leaves an input without rules: every input and action that
some rule of the population stands for before is stood for by a rule afterwards.  (All condition
types but ellipsoids.) -/
theorem C76_subsumption_keeps_coverage_partial (he : Y.cond ≠ .ellipsoid) {r : R}
    {ops : List (Op K Y.In Y.Rule)} (hv : ∀ op ∈ ops, op.valid) {s : St K Y.In Y.Rule R}
    (h : run Y.par Y.kit r ops = .ok s) {t : CSet} (hnd : t.list.Nodup)
    (hsub : ∀ i ∈ t.list, i ∈ s.pset.list) (hsize : t.size = t.list.length) (hnum : 0 ≤ t.num) :
    ∃ t' s', subsumption Y.par Y.kit t s = .ok (t', s') ∧
      ∀ (x : Y.In), ∀ c ∈ population s, Y.Contains c.body x.1 →
        ∃ c' ∈ population s', Y.Contains c'.body x.1 ∧ Y.action c'.body = Y.action c.body := by
  have hb := reachable_between Y.hpar.popSize hv h
  obtain ⟨t', s', e, -, k⟩ := C11_subsumption_conserves (par := Y.par) (kit := Y.kit)
    Y.hpar.popSize hb.good.inv hnd hsub hsize hnum
  refine ⟨t', s', e, fun x c hc hx => ?_⟩
  rcases k with ⟨-, rfl⟩ | ⟨sid, hs, sc, esc, -, gone, -, hgone, -, hp, hsid, hother⟩
  · exact ⟨c, hc, hx, rfl⟩
  · obtain ⟨i, hi, ei⟩ := List.mem_filterMap.1 hc
    have hkeep : ∀ j ∈ s.pset.list, j ∉ gone → j ∈ s'.pset.list := by
      intro j hj hg
      rw [hp]
      exact List.mem_filter.2 ⟨hj, decide_eq_true hg⟩
    have hsg : sid ∉ gone := fun hg => ((hgone sid).1 hg).2.1 rfl
    by_cases hg : i ∈ gone
    · obtain ⟨-, -, c2, e2, hgen⟩ := (hgone i).1 hg
      rw [e2] at ei
      cases ei
      obtain ⟨ha, hcov⟩ := Y.general_covers he hgen
      exact ⟨_, List.mem_filterMap.2 ⟨sid, hkeep _ (hsub _ hs) hsg, hsid⟩, hcov x hx, ha⟩
    · by_cases hsi : i = sid
      · subst hsi
        rw [esc] at ei
        cases ei
        exact ⟨_, List.mem_filterMap.2 ⟨i, hkeep _ hi hg, hsid⟩, hx, rfl⟩
      · exact ⟨c, List.mem_filterMap.2 ⟨i, hkeep _ hi hg, (hother i hsi hg).trans ei⟩, hx, rfl⟩

/-! ## Storing and retrieving -/

theorem cond_copy {g : Rng K R} (H : g.Open) {S : Setup K} : ∀ {c : CondType} {b : c.Body K},
    c.W S b → ∀ r, ∃ b' r', (c.vt g S).copy b r = .ok (b', r') ∧
      ∀ x, c.Contains S b' x ↔ c.Contains S b x
  | .dummy, b, _, r => ⟨b, r, rfl, fun _ => Iff.rfl⟩
  | .rectangle, b, _, r => ⟨b, r, rfl, fun _ => Iff.rfl⟩
  | .ellipsoid, b, _, r => ⟨b, r, rfl, fun _ => Iff.rfl⟩
  | .ternary, b, _, r => ⟨b, r, rfl, fun _ => Iff.rfl⟩
  | .gp, b, _, r => ⟨b, r, rfl, fun _ => Iff.rfl⟩
  | .dgp, b, w, r => by
    obtain ⟨r', e⟩ := C34_copy H (show Wired S.dgp b from w) r
    exact ⟨b, r', e, fun _ => Iff.rfl⟩

/-- The entries of the gain matrix of a rule with recursive least squares prediction. -/
def PredType.gain (S : Setup K) : (q : PredType) → q.Body K → Nat → Nat → K
  | .rls => fun (s : Rls K) i j => s.matrix (i * nFeatures S.pred + j)
  | .constant => fun _ _ _ => 0
  | .nlms => fun _ _ _ => 0

theorem output_congr {p : PredPar K} {w w' : Nat → K} (f : Nat → K)
    (h : ∀ i < nFeatures p * p.yDim, w' i = w i) {j : Nat} (hj : j < p.yDim) :
    ∑ i ∈ range (nFeatures p), w' (j * nFeatures p + i) * f i =
    ∑ i ∈ range (nFeatures p), w (j * nFeatures p + i) * f i := by
  refine Finset.sum_congr rfl fun i hi => ?_
  rw [h]
  have h3 : (j + 1) * nFeatures p ≤ p.yDim * nFeatures p := Nat.mul_le_mul_right _ hj
  rw [Nat.add_mul] at h3
  have := Finset.mem_range.1 hi
  rw [Nat.mul_comm (nFeatures p)]; omega

theorem pred_copy {g : Rng K R} {S : Setup K} : ∀ {q : PredType} {s : q.Body K}, q.W S s →
    ∀ r, ∃ s' r', (q.vt g S).copy s r = .ok (s', r') ∧
      (q ≠ .constant → ∀ p p' x j, j < S.pred.yDim → q.Output S s' p' x j = q.Output S s p x j) ∧
      (q = .rls → ∀ i j, i < nFeatures S.pred → j < nFeatures S.pred →
        q.gain S s' i j = if i = j then S.pred.scale else 0)
  | .constant, s, _, r => ⟨s, r, rfl, fun h => absurd rfl h, nofun⟩
  | .nlms, s, w, r => by
    have w : Nlms.Dim S.pred s := w
    have key : ∀ d : Nlms K, ∀ p p' x j, j < S.pred.yDim → PredType.Output S .nlms { d with
        weights := fun i => if i < (s : Nlms K).nWeights then (s : Nlms K).weights i else d.weights i
        mu := (s : Nlms K).mu, eta := (s : Nlms K).eta } p' x j = PredType.Output S .nlms s p x j := by
      intro d p p' x j hj
      exact output_congr (w := (s : Nlms K).weights)
        (w' := fun i => if i < (s : Nlms K).nWeights then (s : Nlms K).weights i else d.weights i) _
        (fun i hi => if_pos (by rw [w.2.1, w.1]; exact hi)) hj
    have e : ∀ r, (PredType.nlms.vt g S).copy s r = nlmsCopy g S.pred s S.tmp r := fun _ => rfl
    rw [e]
    unfold nlmsCopy nlmsInit
    cases he : S.pred.evolveEta with
    | true => exact ⟨_, _, rfl, fun _ => key _, nofun⟩
    | false => exact ⟨_, _, rfl, fun _ => key _, nofun⟩
  | .rls, s, w, r => by
    have w : Rls.Dim S.pred s := w
    refine ⟨rlsCopy S.pred s S.tmp, r, rfl, fun _ p p' x j hj => ?_, fun _ i j hi hj => ?_⟩
    · exact output_congr (w := (s : Rls K).weights) (w' := (rlsCopy S.pred s S.tmp).weights) _
        (fun i hi => (C39_copy_forgets S.pred s S.tmp).1 i (by rw [w.2, w.1]; exact hi)) hj
    · have := congrFun (congrFun (C39_copy_forgets S.pred s S.tmp).2 ⟨i, hi⟩) ⟨j, hj⟩
      refine Eq.trans this ?_
      simp [Matrix.one_apply]

/-- `c'` stands for the same as `c`: region, action, numerosity, error, fitness, experience and
(unless predictions are constant) outputs. -/
def System.Same (c c' : Cl K Y.Rule) : Prop :=
  (∀ x, Y.Contains c'.body x ↔ Y.Contains c.body x) ∧ Y.action c'.body = Y.action c.body ∧
  c' = { c with prediction := c'.prediction, body := c'.body } ∧
  (Y.pred ≠ .constant → ∀ x j, j < Y.par.yDim → Y.output c' x j = Y.output c x j)

theorem System.clone_spec (b : Y.Rule) (r : R) :
    (∀ x, Y.Contains (Y.kit.clone b r).1 x ↔ Y.Contains b x) ∧
    Y.action (Y.kit.clone b r).1 = Y.action b ∧
    (Y.pred ≠ .constant → ∀ p p' x j, j < Y.par.yDim →
      Y.pred.Output Y.S (Y.kit.clone b r).1.1.pred p' x j = Y.pred.Output Y.S b.1.pred p x j) ∧
    (Y.pred = .rls → ∀ i j, i < nFeatures Y.S.pred → j < nFeatures Y.S.pred →
      Y.pred.gain Y.S (Y.kit.clone b r).1.1.pred i j = if i = j then Y.S.pred.scale else 0) := by
  obtain ⟨c', r1, e1, h1⟩ := cond_copy Y.hpf.rng b.2.cond r
  obtain ⟨p', r2, e2, h2, h3⟩ := pred_copy (g := Y.pf.rng) b.2.pred r1
  have h4 : (systemRep Y.pf.rng Y.S Y.par.nActions Y.cond Y.pred).clone b.1 r =
      .ok (⟨c', b.1.act, p'⟩, r2) := by
    show ((Y.cond.vt Y.pf.rng Y.S).copy b.1.cond r >>= _) = _
    rw [e1]
    show ((Y.pred.vt Y.pf.rng Y.S).copy b.1.pred r1 >>= _) = _
    rw [e2]
    rfl
  have h5 := got_val ((C74_rules_sound Y).clone b.1 r b.2) h4
  have h6 : (Y.kit.clone b r).1.1 = ⟨c', b.1.act, p'⟩ := congrArg (fun q => q.1) h5
  unfold System.Contains System.action
  rw [h6]
  refine ⟨h1, rfl, ?_, h3⟩
  rw [← Y.hyDim]
  exact h2

/-- What every copied rule satisfies. -/
theorem System.copies_spec : ∀ (cs : List (Cl K Y.Rule)) (r : R),
    List.Forall₂ Y.Same cs (copies Y.par Y.kit cs r).1 ∧
    ∀ c ∈ (copies Y.par Y.kit cs r).1, c.prediction = List.replicate Y.par.yDim 0 ∧
      (Y.pred = .rls → ∀ i j, i < nFeatures Y.S.pred → j < nFeatures Y.S.pred →
        Y.pred.gain Y.S c.body.1.pred i j = if i = j then Y.S.pred.scale else 0)
  | [], r => ⟨.nil, nofun⟩
  | c :: cs, r => by
    obtain ⟨h1, h2⟩ := System.copies_spec cs (Y.kit.clone c.body r).2
    obtain ⟨k1, k2, k3, k4⟩ := Y.clone_spec c.body r
    refine ⟨.cons ⟨k1, k2, rfl, fun hq x j hj => k3 hq _ _ x j hj⟩ h1, fun c' hc => ?_⟩
    rcases List.mem_cons.1 hc with rfl | hc
    · exact ⟨rfl, k4⟩
    · exact h2 c' hc

open Classical in
theorem System.same_advocates {cs cs' : List (Cl K Y.Rule)} (h : List.Forall₂ Y.Same cs cs')
    (x : List K) (a : Nat) :
    List.Forall₂ Y.Same (Y.advocates cs x a) (Y.advocates cs' x a) := by
  induction h with
  | nil => exact .nil
  | @cons c c' cs cs' hc _ ih =>
    unfold System.advocates at ih ⊢
    have e : decide (Y.Contains c'.body x ∧ Y.action c'.body = a) =
        decide (Y.Contains c.body x ∧ Y.action c.body = a) := by
      rw [decide_eq_decide, hc.1 x, hc.2.1]
    rw [List.filter_cons, List.filter_cons, e]
    split
    · exact .cons hc ih
    · exact ih

theorem System.same_fit {cs cs' : List (Cl K Y.Rule)} (h : List.Forall₂ Y.Same cs cs') :
    cs'.map Cl.fit = cs.map Cl.fit := by
  induction h with
  | nil => rfl
  | @cons c c' cs cs' hc _ ih =>
    have : c'.fit = c.fit := by rw [hc.2.2.1]
    rw [List.map_cons, List.map_cons, ih, this]

theorem System.same_out (hq : Y.pred ≠ .constant) {x : List K} {j : Nat} (hj : j < Y.par.yDim)
    {cs cs' : List (Cl K Y.Rule)} (h : List.Forall₂ Y.Same cs cs') :
    cs'.map (fun c => Y.output c x j * c.fit) = cs.map (fun c => Y.output c x j * c.fit) := by
  induction h with
  | nil => rfl
  | @cons c c' cs cs' hc _ ih =>
    have : c'.fit = c.fit := by rw [hc.2.2.1]
    rw [List.map_cons, List.map_cons, ih, this, hc.2.2.2 hq x j hj]

theorem System.same_mem {cs cs' : List (Cl K Y.Rule)} (h : List.Forall₂ Y.Same cs cs') (x : List K) :
    (∃ c ∈ cs', Y.Contains c.body x) ↔ ∃ c ∈ cs, Y.Contains c.body x := by
  induction h with
  | nil => simp
  | @cons c c' cs cs' hc _ ih =>
    simp only [List.mem_cons, exists_eq_or_imp]
    rw [ih, hc.1 x]

section restore
variable {r : R} {ops mid : List (Op K Y.In Y.Rule)} {s s1 s2 s3 : St K Y.In Y.Rule R}

/-- **C77.** Retrieving a stored population restores the predictions of the system: whatever
happened since, every entry of the prediction for every input is what it was when the population
was stored.  (Linear and quadratic predictions; false for constant ones.) -/
theorem C77_predictions_restored_partial (hs : Y.Static) (hq : Y.pred ≠ .constant)
    (hv : ∀ op ∈ ops, op.valid) (h : run Y.par Y.kit r ops = .ok s)
    (h1 : store Y.par Y.kit s = .ok s1)
    (hmid : ∀ op ∈ mid, op.valid ∧ op ≠ .store ∧ op ≠ .retrieve)
    (h2 : mid.foldlM (step Y.par Y.kit) s1 = .ok s2) (h3 : retrieve s2 = .ok s3)
    (hne : population s ≠ []) {cv p p' : List K} {x : Y.In} {t t' : St K Y.In Y.Rule R}
    (hp : predictRow Y.par Y.kit cv x s = .ok (p, t))
    (hp' : predictRow Y.par Y.kit cv x s3 = .ok (p', t')) :
    ((∀ c ∈ population s, ¬ Y.Contains c.body x.1) → p' = p) ∧
    ∀ a j, a < Y.par.nActions → j < Y.par.yDim →
      p'[a * Y.par.yDim + j]? = p[a * Y.par.yDim + j]? := by
  classical
  have hrun : run Y.par Y.kit r (ops ++ ([.store] ++ mid ++ [.retrieve])) = .ok s3 := by
    refine run_append h ?_
    rw [List.foldlM_append, List.foldlM_append]
    show ((do
      let s1 ← [Op.store].foldlM (step Y.par Y.kit) s
      mid.foldlM (step Y.par Y.kit) s1) >>= _) = _
    have e1 : [Op.store].foldlM (step Y.par Y.kit) s = .ok s1 := by
      show (store Y.par Y.kit s >>= fun s => Except.ok s) = _
      rw [h1]; rfl
    rw [e1]
    show (mid.foldlM (step Y.par Y.kit) s1 >>= _) = _
    rw [h2]
    show (retrieve s2 >>= fun s => Except.ok s) = _
    rw [h3]; rfl
  have hv3 : ∀ op ∈ ops ++ ([.store] ++ mid ++ [.retrieve]), op.valid := by
    intro op hop
    simp only [List.mem_append, List.mem_singleton] at hop
    rcases hop with hop | (rfl | hop) | rfl
    · exact hv op hop
    · trivial
    · exact (hmid op hop).1
    · trivial
  obtain ⟨hpop, -⟩ := C24_store_retrieve Y.hpar.popSize hv h h1 hmid h2 h3 hne
  obtain ⟨hF, -⟩ := Y.copies_spec (population s) s.rng
  have hmem : ∀ x, (∃ c ∈ population s3, Y.Contains c.body x) ↔
      ∃ c ∈ population s, Y.Contains c.body x := by
    intro x
    rw [hpop, ← Y.same_mem hF x]
    simp only [List.mem_reverse]
  obtain ⟨a1, a2⟩ := C75_prediction Y hs hv h hp
  obtain ⟨b1, b2⟩ := C75_prediction Y hs hv3 hrun hp'
  have hnone : (∀ c ∈ population s, ¬ Y.Contains c.body x.1) → p' = p := by
    intro hn
    rw [a1 hn, b1 fun c hc hx => ?_]
    obtain ⟨c', hc', hx'⟩ := (hmem x.1).1 ⟨c, hc, hx⟩
    exact hn c' hc' hx'
  refine ⟨hnone, fun a j ha hj => ?_⟩
  by_cases hm : ∃ c ∈ population s, Y.Contains c.body x.1
  · rw [a2 hm a j ha hj, b2 ((hmem _).2 hm) a j ha hj]
    dsimp only
    have e : Y.advocates (population s3) x.1 a =
        (Y.advocates (copies Y.par Y.kit (population s) s.rng).1 x.1 a).reverse := by
      unfold System.advocates
      rw [hpop, List.filter_reverse]
    have hA := Y.same_advocates hF x.1 a
    rw [e, List.map_reverse, List.map_reverse, List.sum_reverse, List.sum_reverse,
      Y.same_fit hA, Y.same_out hq hj hA]
  · rw [hnone fun c hc hx => hm ⟨c, hc, hx⟩]

/-- Storing and retrieving forgets what constant predictions have learned: every retrieved rule
predicts zero. -/
theorem C77_constant_forgotten (hv : ∀ op ∈ ops, op.valid) (h : run Y.par Y.kit r ops = .ok s)
    (h1 : store Y.par Y.kit s = .ok s1)
    (hmid : ∀ op ∈ mid, op.valid ∧ op ≠ .store ∧ op ≠ .retrieve)
    (h2 : mid.foldlM (step Y.par Y.kit) s1 = .ok s2) (h3 : retrieve s2 = .ok s3)
    (hne : population s ≠ []) :
    ∀ c ∈ population s3, c.prediction = List.replicate Y.par.yDim 0 := by
  obtain ⟨hpop, -⟩ := C24_store_retrieve Y.hpar.popSize hv h h1 hmid h2 h3 hne
  intro c hc
  rw [hpop, List.mem_reverse] at hc
  exact ((Y.copies_spec _ _).2 c hc).1

/-- Storing and retrieving forgets the gain matrices of recursive least squares: further learning
starts as from new rules. -/
theorem C77_gain_forgotten (hq : Y.pred = .rls) (hv : ∀ op ∈ ops, op.valid)
    (h : run Y.par Y.kit r ops = .ok s) (h1 : store Y.par Y.kit s = .ok s1)
    (hmid : ∀ op ∈ mid, op.valid ∧ op ≠ .store ∧ op ≠ .retrieve)
    (h2 : mid.foldlM (step Y.par Y.kit) s1 = .ok s2) (h3 : retrieve s2 = .ok s3)
    (hne : population s ≠ []) :
    ∀ c ∈ population s3, ∀ i j, i < nFeatures Y.S.pred → j < nFeatures Y.S.pred →
      Y.pred.gain Y.S c.body.1.pred i j = if i = j then Y.S.pred.scale else 0 := by
  obtain ⟨hpop, -⟩ := C24_store_retrieve Y.hpar.popSize hv h h1 hmid h2 h3 hne
  intro c hc
  rw [hpop, List.mem_reverse] at hc
  exact ((Y.copies_spec _ _).2 c hc).2 hq

end restore

/-! ## Counterexamples and concrete cases -/

section Examples

/-- A rule of the demonstration system with a given condition. -/
def demoBody (c : CondType) (q : PredType) (b : c.Body ℚ) (h : c.W demoSetup b) :
    (demoSystem c q).Rule :=
  let b0 := ((demoSystem c q).kit.rand 0).1
  ⟨{ b0.1 with cond := b, act := { b0.1.act with action := 0 } },
    ⟨h, ⟨⟨by show (0 : Int) ≤ 0; decide, by show (0 : Int) < 2; decide⟩, b0.2.act.2⟩, b0.2.pred⟩⟩

/-- An experienced and accurate rule. -/
def demoCl {B : Type} (b : B) (exp : Int) (p : List ℚ) : Cl ℚ B :=
  { err := 0, fit := 1 / 2, num := 1, exp := exp, size := 1, time := 0, m := false,
    prediction := p, action := 0, age := 0, mtotal := 0, body := b }

/-- Two ellipses, the first declared more general. -/
def demoEllipses : List (Op ℚ (demoSystem .ellipsoid .nlms).In (demoSystem .ellipsoid .nlms).Rule) :=
  [.insert (demoCl (demoBody .ellipsoid .nlms ⟨[(1 / 2, 1 / 2), (0, 4 / 5)], 1⟩
      ⟨rfl, zero_le_one, le_rfl⟩) 0 [0]),
   .insert (demoCl (demoBody .ellipsoid .nlms ⟨[(0, 1), (0, 1)], 1⟩ ⟨rfl, zero_le_one, le_rfl⟩) 10 [0])]

/-- **C76** is false for ellipsoids: two rules are inserted, set subsumption is applied to the
population, and an input that a rule contained is contained in none any more. -/
theorem C76_ellipsoid_refuted : ∃ s t' s', ∃ x : (demoSystem .ellipsoid .nlms).In,
    run Demo.par (demoSystem .ellipsoid .nlms).kit 0 demoEllipses = .ok s ∧
    subsumption Demo.par (demoSystem .ellipsoid .nlms).kit s.pset s = .ok (t', s') ∧
    (∃ c ∈ population s, (demoSystem .ellipsoid .nlms).Contains c.body x.1) ∧
    ∀ c ∈ population s', ¬ (demoSystem .ellipsoid .nlms).Contains c.body x.1 := by
  let x : (demoSystem .ellipsoid .nlms).In := ⟨[4 / 5, 31 / 50], rfl⟩
  have hm : ∀ b : (demoSystem .ellipsoid .nlms).Rule,
      ((demoSystem .ellipsoid .nlms).kit.cmatch false b x 0).1 = true ↔
        (demoSystem .ellipsoid .nlms).Contains b x.1 :=
    fun b => ((demoSystem .ellipsoid .nlms).cmatch_eq (demoStatic _ _) false b x 0).1
  obtain ⟨s, h1, h2⟩ := Demo.Res.test_iff
    (m := run Demo.par (demoSystem .ellipsoid .nlms).kit 0 demoEllipses)
    (p := fun s =>
      (population s).any (fun c => ((demoSystem .ellipsoid .nlms).kit.cmatch false c.body x 0).1) &&
      Demo.Res.test (subsumption Demo.par (demoSystem .ellipsoid .nlms).kit s.pset s) fun q =>
        (population q.2).all fun c =>
          !((demoSystem .ellipsoid .nlms).kit.cmatch false c.body x 0).1)
    (by decide +kernel)
  rw [Bool.and_eq_true] at h2
  obtain ⟨⟨t', s'⟩, h3, h4⟩ := Demo.Res.test_iff h2.2
  refine ⟨s, t', s', x, h1, h3, ?_, fun c hc hx => ?_⟩
  · obtain ⟨c, hc, hx⟩ := List.any_eq_true.1 h2.1
    exact ⟨c, hc, (hm _).1 hx⟩
  · have := List.all_eq_true.1 h4 c hc
    rw [(hm _).2 hx] at this
    cases this

/-- Two boxes, the first more general. -/
example : Demo.Res.test (run Demo.par (demoSystem .rectangle .nlms).kit 0
    [.insert (demoCl (demoBody .rectangle .nlms ⟨[(1 / 2, 1 / 4), (0, 1 / 5)], 1⟩
      ⟨rfl, zero_le_one, le_rfl⟩) 0 [0]),
     .insert (demoCl (demoBody .rectangle .nlms ⟨[(1 / 2, 1), (0, 1)], 1⟩ ⟨rfl, zero_le_one, le_rfl⟩) 10 [0])]) (fun s =>
    s.pset.list.length == 2 &&
    decide (s.pset.list.Nodup ∧ s.pset.size = s.pset.list.length ∧ 0 ≤ s.pset.num) &&
    Demo.Res.test (subsumption Demo.par (demoSystem .rectangle .nlms).kit s.pset s)
      fun q => q.2.pset.list.length == 1) = true := by decide +kernel

/-- **C77** is false for constant predictions: a rule that has learned 5 predicts 0 after the
population is stored and retrieved. -/
theorem C77_constant_refuted : ∃ (ops : List (Op ℚ (demoSystem .dummy .constant).In
      (demoSystem .dummy .constant).Rule)) (s s1 s3 t t' : _) (x : (demoSystem .dummy .constant).In)
      (p p' : List ℚ), (∀ op ∈ ops, op.valid) ∧
    run Demo.par (demoSystem .dummy .constant).kit 0 ops = .ok s ∧
    store Demo.par (demoSystem .dummy .constant).kit s = .ok s1 ∧ retrieve s1 = .ok s3 ∧
    predictRow Demo.par (demoSystem .dummy .constant).kit [0, 0] x s = .ok (p, t) ∧
    predictRow Demo.par (demoSystem .dummy .constant).kit [0, 0] x s3 = .ok (p', t') ∧
    p = [5, 0] ∧ p' = [0, 0] := by
  obtain ⟨s, h1, h2⟩ := Demo.Res.test_iff
    (m := run Demo.par (demoSystem .dummy .constant).kit 0
      [.insert (demoCl (demoBody .dummy .constant () trivial) 10 [5])])
    (p := fun s =>
      Demo.Res.test (store Demo.par (demoSystem .dummy .constant).kit s) (fun s1 =>
        Demo.Res.test (retrieve s1) fun s3 =>
          Demo.Res.test (predictRow Demo.par (demoSystem .dummy .constant).kit [0, 0]
            ⟨[1, 2], rfl⟩ s3) (fun q => q.1 == [0, 0])) &&
      Demo.Res.test (predictRow Demo.par (demoSystem .dummy .constant).kit [0, 0]
        ⟨[1, 2], rfl⟩ s) (fun q => q.1 == [5, 0]))
    (by decide +kernel)
  rw [Bool.and_eq_true] at h2
  obtain ⟨s1, e1, h3⟩ := Demo.Res.test_iff h2.1
  obtain ⟨s3, e3, h4⟩ := Demo.Res.test_iff h3
  obtain ⟨⟨p', t'⟩, e4, h5⟩ := Demo.Res.test_iff h4
  obtain ⟨⟨p, t⟩, e5, h6⟩ := Demo.Res.test_iff h2.2
  refine ⟨_, s, s1, s3, t, t', _, p, p', ?_, h1, e1, e3, e5, e4, eq_of_beq h6, eq_of_beq h5⟩
  intro op hop
  rw [List.mem_singleton.1 hop]
  show (1 : Int) ≤ 1
  decide

/-- A history with learning between storing and retrieving. -/
example : Demo.Res.test (run Demo.par (demoSystem .rectangle .rls).kit 0
    (demoCalls .rectangle .rls)) (fun s => decide (population s ≠ [] ) &&
    Demo.Res.test (store Demo.par (demoSystem .rectangle .rls).kit s) (fun s1 =>
      Demo.Res.test ((demoCalls .rectangle .rls).foldlM
        (step Demo.par (demoSystem .rectangle .rls).kit) s1) (fun s2 =>
        Demo.Res.test (retrieve s2) fun s3 =>
          Demo.Res.test (predictRow Demo.par (demoSystem .rectangle .rls).kit [0, 0]
            ⟨[1 / 2, 1 / 4], rfl⟩ s3) (fun q => q.1 != [0, 0])))) = true := by decide +kernel

end Examples

end Xcsf
