import Verif.Props2

/-!
# C14, C15, C24, C27: prediction does not learn, validation, store/retrieve, import
-/

set_option linter.unusedSectionVars false

namespace Xcsf

theorem pointwise_filterMap {K B : Type} {rel : Cl K B → Cl K B → Prop}
    {f g : Nat → Option (Cl K B)} : ∀ {l : List Nat},
    (∀ i ∈ l, ∃ c c', f i = some c ∧ g i = some c' ∧ rel c c') →
    Pointwise rel (l.filterMap f) (l.filterMap g)
  | [], _ => trivial
  | i :: l, h => by
    obtain ⟨c, c', h1, h2, h3⟩ := h i List.mem_cons_self
    rw [List.filterMap_cons_some h1, List.filterMap_cons_some h2]
    exact ⟨h3, pointwise_filterMap (fun j hj => h j (List.mem_cons_of_mem _ hj))⟩

section Any
variable {K X B R P : Type} [Zero K] [One K] [Add K] [Sub K] [Mul K] [Div K]
  [LT K] [DecidableLT K] [IntCast K] [DecidableEq K]
variable {par : Params K} {kit : Kit K X B R} {π : B → List K → P}

/-- Effect of a call that does not learn, on the whole state. -/
structure NoLearn (π : B → List K → P) (s s' : St K X B R) : Prop where
  pset : s'.pset = s.pset
  prevPset : s'.prevPset = s.prevPset
  cells : ∀ i ∈ s.pset.list, ∀ c, s.heap i = some c → ∃ c', s'.heap i = some c' ∧ Unlearned π c c'
  rest : ∀ i, i ∉ s.pset.list → s'.heap i = s.heap i
  time : s'.time = s.time
  error : s'.error = s.error

theorem Unlearned.refl (c : Cl K B) : Unlearned π c c := ⟨⟨rfl, rfl, rfl, rfl, rfl, rfl⟩, rfl⟩

theorem Unlearned.trans {a b c : Cl K B} (h : Unlearned π a b) (k : Unlearned π b c) :
    Unlearned π a c :=
  ⟨⟨k.1.err.trans h.1.err, k.1.fit.trans h.1.fit, k.1.num.trans h.1.num, k.1.exp.trans h.1.exp,
    k.1.size.trans h.1.size, k.1.time.trans h.1.time⟩, k.2.trans h.2⟩

theorem NoLearn.refl (s : St K X B R) : NoLearn π s s :=
  ⟨rfl, rfl, fun _ _ c h => ⟨c, h, Unlearned.refl c⟩, fun _ _ => rfl, rfl, rfl⟩

theorem NoLearn.trans {a b c : St K X B R} (h : NoLearn π a b) (k : NoLearn π b c) :
    NoLearn π a c := by
  refine ⟨k.pset.trans h.pset, k.prevPset.trans h.prevPset, ?_, ?_, k.time.trans h.time,
    k.error.trans h.error⟩
  · intro i hi d hd
    obtain ⟨d1, e1, u1⟩ := h.cells i hi d hd
    obtain ⟨d2, e2, u2⟩ := k.cells i (h.pset ▸ hi) d1 e1
    exact ⟨d2, e2, u1.trans u2⟩
  · intro i hi
    rw [k.rest i (by rw [h.pset]; exact hi), h.rest i hi]

theorem NoLearn.observed {s s' : St K X B R} {pend : List Nat} (inv : Inv s pend)
    (h : NoLearn π s s') :
    Pointwise (Unlearned π) (population s) (population s') ∧
    storedPopulation s' = storedPopulation s := by
  constructor
  · unfold population
    rw [h.pset]
    apply pointwise_filterMap
    intro i hi
    obtain ⟨c, hc, _⟩ := inv.p.live hi
    obtain ⟨c', hc', u⟩ := h.cells i hi c hc
    exact ⟨c, c', hc, hc', u⟩
  · unfold storedPopulation
    rw [h.prevPset]
    exact filterMap_congr' (fun i hi => h.rest i (fun hp => inv.pq i hp hi))

/-- The representation keeps the learned part `π` of a rule when it is only evaluated
(`explore` off). -/
structure Passive (kit : Kit K X B R) (π : B → List K → P) : Prop where
  cmatch : ∀ b p x r, π (kit.cmatch false b x r).2.1 p = π b p
  act : ∀ b p x r, π (kit.act false b x r).2.1 p = π b p
  predict : ∀ b p x r, π (kit.predict false b p x r).2.1 (kit.predict false b p x r).1 = π b p

theorem Matched.unlearned (H : Passive kit π) {x : X} {c c' : Cl K B}
    (h : Matched kit false x c c') : Unlearned π c c' := by
  refine ⟨h.stats.1, ?_⟩
  obtain ⟨r, ⟨_, h⟩ | ⟨_, h⟩⟩ := h
  · subst h; exact H.cmatch _ _ _ _
  · subst h; exact (H.act _ _ _ _).trans (H.cmatch _ _ _ _)

theorem matchGo_noLearn (par : Params K) (H : Passive kit π) {x : X} {s s1 : St K X B R}
    (inv : Inv s []) (hm : s.mset = {}) (he : s.explore = false)
    (h : matchGo kit x s.pset.list s = .ok s1) :
    NoLearn π s s1 ∧ Inv s1 [] ∧ Within s1 s1.mset ∧ s1.kset = s.kset ∧ s1.explore = false := by
  obtain ⟨t, e2, h1, h2, h3, h4, h5, h6, h7, h8, h9, h10, h11, _⟩ := matchGo_good
    (V := fun _ => True) (E := fun _ => True) (par := { par with popSize := 0 })
    (lawsTriv { par with popSize := 0 } kit (Int.le_refl _)) x inv.good hm
  rw [h] at e2; cases e2
  refine ⟨⟨h3, h1.prevPset, ?_, h7, h5, h11⟩, h1.good.inv, h2, h4, h1.explore.trans he⟩
  intro i hi c hc
  obtain ⟨c', hc', hmt⟩ := h8 i hi c hc
  rw [he] at hmt
  exact ⟨c', hc', hmt.unlearned H⟩

theorem paBuild_noLearn (H : Passive kit π) {x : X} {s s1 : St K X B R} (inv : Inv s [])
    (w : Within s s.mset) (he : s.explore = false) (h : paBuild par kit x s = .ok s1) :
    NoLearn π s s1 ∧ Inv s1 [] ∧ s1.kset = s.kset ∧ s1.explore = false := by
  have g := inv.good
  obtain ⟨q1, q2, q3, q4, q5, _⟩ := post_of_ok (paBuild_post
    (lawsTriv { par with popSize := 0 } kit (Int.le_refl _)) x g w) h
  unfold paBuild at h
  rw [predictGo_eq] at h
  obtain ⟨hh, r, e, k1, k2⟩ := forEachCl_spec (fun r c => ({ c with
        prediction := (kit.predict s.explore c.body c.prediction x r).1,
        body := (kit.predict s.explore c.body c.prediction x r).2.1 },
        (kit.predict s.explore c.body c.prediction x r).2.2)) s.mset.list s w.nodup
        (fun i hi => inv.p.isSome (w.sub i hi))
  rw [e] at h
  have heap : s1.heap = hh ∧ s1.error = s.error := by
    have h : (({ s with heap := hh, rng := r } : St K X B R).rds s.mset.list >>= _) = _ := h
    cases e2 : ({ s with heap := hh, rng := r } : St K X B R).rds s.mset.list with
    | error e' => rw [e2] at h; cases h
    | ok cs =>
      rw [e2] at h
      have h : (paRules par.yDim cs _ _ >>= _) = _ := h
      cases e3 : paRules par.yDim cs (List.replicate (par.nActions * par.yDim) 0)
          (List.replicate (par.nActions * par.yDim) 0) with
      | error e' => rw [e3] at h; cases h
      | ok p => rw [e3] at h; cases h; exact ⟨rfl, rfl⟩
  refine ⟨⟨q3, q1.prevPset, ?_, ?_, q5, heap.2⟩, q1.good.inv, q4, q1.explore.trans he⟩
  · intro i hi c hc
    rw [heap.1]
    by_cases hm : i ∈ s.mset.list
    · obtain ⟨r', e1⟩ := k2 i hm c hc
      refine ⟨_, e1, ⟨rfl, rfl, rfl, rfl, rfl, rfl⟩, ?_⟩
      show π (kit.predict s.explore c.body c.prediction x r').2.1
        (kit.predict s.explore c.body c.prediction x r').1 = π c.body c.prediction
      rw [he]; exact H.predict _ _ _ _
    · exact ⟨c, (k1 i hm).trans hc, Unlearned.refl c⟩
  · intro i hi
    rw [heap.1]; exact k1 i (fun hm => hi (w.sub i hm))

theorem killKset_nil {s : St K X B R} (h : s.kset.list = []) :
    killKset s = .ok { s with kset := {} } := by
  unfold killKset; rw [h]; rfl

/-- A supervised trial that does not learn and does not cover. -/
theorem supTrial_noLearn (H : Passive kit π) {x : X} {y : Option (List K)}
    {cv : List K} {s s' : St K X B R} (inv : Inv s []) (hk : s.kset.list = [])
    (he : s.explore = false) (h : supTrial par kit x y (some cv) s = .ok s') :
    NoLearn π s s' := by
  unfold supTrial at h
  have g0 : Inv ({ s with mset := {}, kset := {} } : St K X B R) [] := (inv.good.emptyK hk).inv
  cases e : supSense par kit x (some cv) { s with mset := {}, kset := {} } with
  | error e' => rw [e] at h; cases h
  | ok s1 =>
    rw [e] at h
    have hs : NoLearn π { s with mset := {}, kset := {} } s1 ∧ s1.kset.list = [] ∧
        s1.explore = false := by
      unfold supSense at e
      obtain ⟨s2, sz, mf, e1, s3, e2, rfl⟩ := clsetMatch_false (par := par) (kit := kit) g0 rfl x
      obtain ⟨n1, i1, w1, k1, x1⟩ := matchGo_noLearn par H g0 rfl he e2
      have e : (clsetMatch par kit x false { s with mset := {}, kset := {} } >>= _) = _ := e
      rw [e1] at e
      have n2 : NoLearn π ({ s with mset := {}, kset := {} } : St K X B R)
        { s3 with msetSize := sz, mfrac := mf } := ⟨n1.1, n1.2, n1.3, n1.4, n1.5, n1.6⟩
      have i2 : Inv ({ s3 with msetSize := sz, mfrac := mf } : St K X B R) [] :=
        i1.congr rfl rfl rfl rfl rfl
      have e : (if s3.mset.size < 1 then
          Except.ok ({ s3 with msetSize := sz, mfrac := mf, pa := cv } : St K X B R)
          else paBuild par kit x { s3 with msetSize := sz, mfrac := mf }) = .ok s1 := e
      split at e
      · cases e; exact ⟨⟨n1.1, n1.2, n1.3, n1.4, n1.5, n1.6⟩, by rw [k1], x1⟩
      · obtain ⟨n3, i3, k3, x3⟩ := paBuild_noLearn H i2 ⟨w1.nodup, w1.sub, w1.size, w1.num⟩ x1 e
        exact ⟨n2.trans n3, by rw [k3, k1], x3⟩
    obtain ⟨n1, k1, x1⟩ := hs
    have hl : supLearn par kit x y s1 = .ok s1 := by
      unfold supLearn; rw [x1]; rfl
    have h : (supLearn par kit x y s1 >>= _) = _ := h
    rw [hl] at h
    have h : (killKset s1 >>= _) = _ := h
    rw [killKset_nil k1] at h
    cases h
    exact ⟨n1.1, n1.2, n1.3, n1.4, n1.5, n1.6⟩

theorem supTrial_between (hp : 0 ≤ par.popSize) {x : X} {y cv : Option (List K)}
    {s s' : St K X B R} (b : Between (fun _ => True) par s s) (hy : s.explore = true → y ≠ none)
    (h : supTrial par kit x y cv s = .ok s') : Between (fun _ => True) par s' s' :=
  (post_of_ok (supTrial_post (lawsTriv par kit hp) x y cv b hy) h).self

theorem predictBatch_noLearn (H : Passive kit π) (hp : 0 ≤ par.popSize) {cv : List K} :
    ∀ {xs : List X} {ps : List (List K)} {s s' : St K X B R},
    Between (fun _ => True) par s s → predictBatch par kit cv xs s = .ok (ps, s') →
    NoLearn π s s'
  | [], ps, s, s', b, h => by
    unfold predictBatch at h; cases h
    exact ⟨rfl, rfl, fun _ _ c h => ⟨c, h, Unlearned.refl c⟩, fun _ _ => rfl, rfl, rfl⟩
  | x :: xs, ps, s, s', b, h => by
    unfold predictBatch predictRow at h
    have b0 := (b.explore false).self
    cases e : supTrial par kit x none (some cv) { s with explore := false } with
    | error e' => rw [e] at h; cases h
    | ok s1 =>
      rw [e] at h
      have n1 : NoLearn π { s with explore := false } s1 :=
        supTrial_noLearn H b0.good.inv b0.kset rfl e
      have b1 := supTrial_between hp b0 (by intro h; cases h) e
      have h : (predictBatch par kit cv xs s1 >>= _) = _ := h
      cases e2 : predictBatch par kit cv xs s1 with
      | error e' => rw [e2] at h; cases h
      | ok p =>
        obtain ⟨ps', s2⟩ := p
        rw [e2] at h
        cases h
        exact (⟨n1.1, n1.2, n1.3, n1.4, n1.5, n1.6⟩ : NoLearn π s s1).trans
          (predictBatch_noLearn H hp b1 e2)

theorem scoreGo_noLearn (H : Passive kit π) (hp : 0 ≤ par.popSize) {cv : List K} :
    ∀ {rows : List (X × List K)} {e e' : K} {s s' : St K X B R},
    Between (fun _ => True) par s s → scoreGo par kit cv rows e s = .ok (e', s') →
    NoLearn π s s'
  | [], e, e', s, s', b, h => by
    unfold scoreGo at h; cases h
    exact ⟨rfl, rfl, fun _ _ c h => ⟨c, h, Unlearned.refl c⟩, fun _ _ => rfl, rfl, rfl⟩
  | (x, y) :: rows, e, e', s, s', b, h => by
    unfold scoreGo at h
    have b0 := (b.explore false).self
    have h : (supTrial par kit x (some y) (some cv) { s with explore := false } >>= _) = _ := h
    cases e : supTrial par kit x (some y) (some cv) { s with explore := false } with
    | error e' => rw [e] at h; cases h
    | ok s1 =>
      rw [e] at h
      have n1 : NoLearn π { s with explore := false } s1 :=
        supTrial_noLearn H b0.good.inv b0.kset rfl e
      have b1 := supTrial_between hp b0 (by intro h; cases h) e
      exact (⟨n1.1, n1.2, n1.3, n1.4, n1.5, n1.6⟩ : NoLearn π s s1).trans
          (scoreGo_noLearn H hp b1 h)

/-- **C14**, `predict()`: in any reachable system the population keeps its rules, their order,
numerosity, error, fitness, experience, set size, time stamp and the learned part `π` of
condition, action and prediction; counters, stored population, clock and system error stay. -/
theorem C14_predict_does_not_learn (H : Passive kit π) (hp : 0 ≤ par.popSize) {r : R}
    {ops : List (Op K X B)} (hv : ∀ op ∈ ops, op.valid) {s s' : St K X B R}
    (h : run par kit r ops = .ok s) {cv : List K} {xs : List X} {ps : List (List K)}
    (hpr : predictBatch par kit cv xs s = .ok (ps, s')) :
    Pointwise (Unlearned π) (population s) (population s') ∧
    storedPopulation s' = storedPopulation s ∧ s'.pset = s.pset ∧ s'.time = s.time ∧
    s'.error = s.error := by
  have b := reachable_between hp hv h
  have n := predictBatch_noLearn H hp b hpr
  exact ⟨(n.observed b.good.inv).1, (n.observed b.good.inv).2, n.pset, n.time, n.error⟩

/-- **C14**, `score()`. -/
theorem C14_score_does_not_learn (H : Passive kit π) (hp : 0 ≤ par.popSize) {r : R}
    {ops : List (Op K X B)} (hv : ∀ op ∈ ops, op.valid) {s s' : St K X B R}
    (h : run par kit r ops = .ok s) {cv : List K} {rows : List (X × List K)} {e : K}
    (hpr : score par kit cv rows s = .ok (e, s')) :
    Pointwise (Unlearned π) (population s) (population s') ∧
    storedPopulation s' = storedPopulation s ∧ s'.pset = s.pset ∧ s'.time = s.time ∧
    s'.error = s.error := by
  have b := reachable_between hp hv h
  unfold score at hpr
  cases e2 : scoreGo par kit cv rows 0 s with
  | error e' => rw [e2] at hpr; cases hpr
  | ok p =>
    obtain ⟨e1, s1⟩ := p
    rw [e2] at hpr
    cases hpr
    have n := scoreGo_noLearn H hp b e2
    exact ⟨(n.observed b.good.inv).1, (n.observed b.good.inv).2, n.pset, n.time, n.error⟩

/-! ### Validation during fit -/

theorem cover_complete (hp : 0 ≤ par.popSize) {x : X} {s s' : St K X B R} {pend : List Nat}
    (inv : Inv s pend) (w : Within s s.mset)
    (hall : ∀ a, a < par.nActions → Advocated s s.mset.list a)
    (h : cover par kit x s = .ok s') : s' = s := by
  unfold cover actionCoverage at h
  have q := markActions_post (lawsTriv par kit hp) inv.good.vals s.mset.list
    (List.replicate par.nActions false) (fun i hi => inv.p.isSome (w.sub i hi)) (by simp)
  cases e : markActions s s.mset.list (List.replicate par.nActions false) with
  | error e' => rw [e] at h; cases h
  | ok cov =>
    rw [e] at h q
    obtain ⟨q1, q2⟩ := q
    have hcov : cov.all id = true := by
      rw [List.all_eq_true]
      intro v hv
      obtain ⟨k, hk, e2⟩ := List.getElem_of_mem hv
      have := (q2 k).2 ⟨q1 ▸ hk, Or.inr (hall k (q1 ▸ hk))⟩
      rw [List.getElem?_eq_getElem hk, e2] at this
      simpa using this
    have h : coverLoop par kit x par.maxCover cov (cov.all id) s = .ok s' := h
    rw [hcov] at h
    cases hm : par.maxCover <;> rw [hm] at h <;> unfold coverLoop at h <;> cases h <;> rfl

/-- **C15, the part that holds.** Processing a validation sample during `fit` does not change
the population if for every action some rule of the population matches the sample and
advocates that action.  Missing: samples for which an action is not represented; then the
validation step covers, see `C15_refuted`.

`M` and `A` are match relation and computed action of the representation. -/
theorem C15_validation_partial (H : Passive kit π) {M : B → X → Bool} {A : B → X → Int}
    (hM : ∀ e b x r, (kit.cmatch e b x r).1 = M b x)
    (hA : ∀ e b x r r', (kit.act e (kit.cmatch e b x r).2.1 x r').1 = A b x)
    (hp : 0 ≤ par.popSize) {r : R}
    {ops : List (Op K X B)} (hv : ∀ op ∈ ops, op.valid) {s s' : St K X B R}
    (h : run par kit r ops = .ok s) {x : X} {y : List K} {e : K}
    (hrep : ∀ a : Nat, a < par.nActions →
      ∃ c ∈ population s, M c.body x = true ∧ A c.body x = (a : Int))
    (ht : testStep par kit x y s = .ok (e, s')) :
    Pointwise (Unlearned π) (population s) (population s') ∧
    storedPopulation s' = storedPopulation s ∧ s'.pset = s.pset := by
  have b := ((reachable_between hp hv h).explore false).self
  have inv := b.good.inv
  unfold testStep supTrial at ht
  have g0 : Inv ({ s with explore := false, mset := {}, kset := {} } : St K X B R) [] :=
    (inv.good.emptyK b.kset).inv
  have ht : ((supSense par kit x none { s with explore := false, mset := {}, kset := {} } >>=
    fun s => supLearn par kit x (some y) s >>= fun s => killKset s >>= fun s =>
      .ok { s with mset := {} }) >>= fun s => Except.ok (kit.loss s.pa y, s)) = .ok (e, s') := ht
  cases e1 : supSense par kit x none { s with explore := false, mset := {}, kset := {} } with
  | error e' => rw [e1] at ht; cases ht
  | ok s1 =>
    rw [e1] at ht
    have hs : NoLearn π { s with explore := false, mset := {}, kset := {} } s1 ∧
        s1.kset.list = [] ∧ s1.explore = false := by
      unfold supSense at e1
      have e1 : (clsetMatch par kit x true { s with explore := false, mset := {}, kset := {} } >>=
        fun s => paBuild par kit x s) = _ := e1
      cases e2 : clsetMatch par kit x true { s with explore := false, mset := {}, kset := {} } with
      | error e' => rw [e2] at e1; cases e1
      | ok s2 =>
        rw [e2] at e1
        have e1 : paBuild par kit x s2 = .ok s1 := e1
        obtain ⟨s3, s4, sz, mf, m1, rfl, hh⟩ := clsetMatch_cases e2
        obtain ⟨n1, i1, w1, k1, x1⟩ := matchGo_noLearn par H g0 rfl rfl m1
        obtain ⟨t, m2, h1, h2, h3, h4, h5, h6, h7, h8, h9, h10, h11, _⟩ := matchGo_good
          (lawsTriv par kit hp) x g0.good rfl
        rw [m1] at m2; cases m2
        have hadv : ∀ a, a < par.nActions → Advocated s3 s3.mset.list a := by
          intro a ha
          obtain ⟨c, hc, q1, q2⟩ := hrep a ha
          obtain ⟨i, hi, e⟩ := List.mem_filterMap.1 hc
          obtain ⟨c', hc', hmt⟩ := h8 i hi c e
          have ho := (hmt.outcome hM).1
          refine ⟨i, ?_, c', hc', ?_⟩
          · rw [h9, List.mem_reverse, List.mem_filter]
            refine ⟨hi, ?_⟩
            rw [hc']; exact ho.trans q1
          · obtain ⟨r, ⟨z1, z2⟩ | ⟨z1, z2⟩⟩ := hmt
            · rw [hM] at z1; rw [q1] at z1; cases z1
            · rw [z2]; exact (hA _ _ _ _ _).trans q2
        have hs4 : s4 = s3 := by
          rcases hh with ⟨_, hc⟩ | ⟨_, hc⟩
          · exact cover_complete hp i1 w1 hadv hc
          · exact hc
        subst hs4
        have i2 : Inv ({ s4 with msetSize := sz, mfrac := mf } : St K X B R) [] :=
          i1.congr rfl rfl rfl rfl rfl
        obtain ⟨n3, i3, k3, x3⟩ := paBuild_noLearn H i2 ⟨w1.nodup, w1.sub, w1.size, w1.num⟩ x1 e1
        exact ⟨(⟨n1.1, n1.2, n1.3, n1.4, n1.5, n1.6⟩ : NoLearn π
          ({ s with explore := false, mset := {}, kset := {} } : St K X B R)
          { s4 with msetSize := sz, mfrac := mf }).trans n3, by rw [k3]; rw [k1], x3⟩
    obtain ⟨n1, k1, x1⟩ := hs
    have hl : supLearn par kit x (some y) s1 = .ok s1 := by
      unfold supLearn; rw [x1]; rfl
    have ht : ((supLearn par kit x (some y) s1 >>= fun s => killKset s >>= fun s =>
      Except.ok { s with mset := {} }) >>= fun s => Except.ok (kit.loss s.pa y, s)) = _ := ht
    rw [hl] at ht
    have ht : ((killKset s1 >>= fun s =>
      Except.ok { s with mset := {} }) >>= fun s => Except.ok (kit.loss s.pa y, s)) = _ := ht
    rw [killKset_nil k1] at ht
    cases ht
    have n : NoLearn π s ({ s1 with kset := {}, mset := {} } : St K X B R) :=
      ⟨n1.1, n1.2, n1.3, n1.4, n1.5, n1.6⟩
    have inv' : Inv s [] := inv.congr rfl rfl rfl rfl rfl
    exact ⟨(n.observed inv').1, (n.observed inv').2, n.pset⟩

/-! ### Store and retrieve -/

theorem filterMap_of_map {f : Nat → Option (Cl K B)} {l : List (Cl K B)} {new : List Nat}
    (h : new.map f = l.map some) : new.filterMap f = l := by
  have e1 : new.filterMap f = (new.map f).filterMap id := by rw [List.filterMap_map]; rfl
  rw [e1, h, List.filterMap_map]
  simp

theorem copies_nil {l : List (Cl K B)} {r : R} (h : (copies par kit l r).1 = []) : l = [] := by
  cases l with
  | nil => rfl
  | cons c cs => simp [copies] at h

/-- **C24.** Storing the population of a reachable system, making any further calls (other
than store and retrieve) and retrieving yields the stored rules with the same record, with
bodies copied by the representation's copy function and current predictions reset, in
reverse order, and leaves nothing stored. -/
theorem C24_store_retrieve (hp : 0 ≤ par.popSize) {r : R} {ops mid : List (Op K X B)}
    (hv : ∀ op ∈ ops, op.valid) {s s1 s2 s3 : St K X B R} (h : run par kit r ops = .ok s)
    (h1 : store par kit s = .ok s1)
    (hmid : ∀ op ∈ mid, op.valid ∧ op ≠ .store ∧ op ≠ .retrieve)
    (h2 : mid.foldlM (step par kit) s1 = .ok s2) (h3 : retrieve s2 = .ok s3)
    (hne : population s ≠ []) :
    population s3 = (copies par kit (population s) s.rng).1.reverse ∧
    storedPopulation s3 = [] ∧ population s1 = population s ∧
    s1.rng = (copies par kit (population s) s.rng).2 := by
  have b := reachable_between hp hv h
  obtain ⟨t, new, e1, b1, q1, q2, q3, q4, q5, q5', q6⟩ := store_spec (lawsTriv par kit hp) b
  rw [h1] at e1; cases e1
  have b2 : Between (fun _ => True) par s1 s2 := post_of_ok (foldlM_keeps (lawsTriv par kit hp) mid
    (fun op ho => ⟨(hmid op ho).1.ok, by
      have := hmid op ho
      cases op <;> first | trivial | exact absurd rfl this.2.1 | exact absurd rfl this.2.2⟩) b1) h2
  obtain ⟨t, e3, b3, k1, k2⟩ := retrieve_spec b2
  rw [h3] at e3; cases e3
  have hpop1 : storedPopulation s1 = (copies par kit (population s) s.rng).1.reverse := by
    unfold storedPopulation
    rw [q3, List.filterMap_reverse, filterMap_of_map q5]
  have hsame := b2.snap
  have hst2 : s2.prevPset = s1.prevPset := hsame.1
  have hne2 : s2.prevPset.list ≠ [] := by
    intro e
    rw [hst2] at e
    unfold storedPopulation at hpop1
    rw [e] at hpop1
    simp only [List.filterMap_nil] at hpop1
    exact hne (copies_nil (List.reverse_eq_nil_iff.1 hpop1.symm))
  obtain ⟨m1, m2, m3, m4, m5⟩ := k2 hne2
  refine ⟨?_, ?_, ?_, q5'⟩
  · rw [population, m1, filterMap_congr' (fun i hi => m4 i hi), hst2,
      filterMap_congr' (fun i hi => hsame.2 i hi)]
    exact hpop1
  · rw [storedPopulation, m2]; rfl
  · rw [population, q1]; exact filterMap_congr' (fun i hi => q6 i hi)

/-- **C24**, nothing stored: retrieving changes nothing. -/
theorem C24_retrieve_nothing (hp : 0 ≤ par.popSize) {r : R} {ops : List (Op K X B)}
    (hv : ∀ op ∈ ops, op.valid) {s s' : St K X B R} (h : run par kit r ops = .ok s)
    (hno : storedPopulation s = []) (h' : retrieve s = .ok s') : s' = s := by
  have b := reachable_between hp hv h
  obtain ⟨t, e, _, k, _⟩ := retrieve_spec b
  rw [h'] at e; cases e
  apply k
  have := filterMap_length b.good.inv.q.allLive
  unfold storedPopulation at hno
  rw [hno] at this
  exact List.length_eq_zero_iff.1 this.symm

/-! ### JSON import -/

theorem insertCl_room (hp : 0 ≤ par.popSize) {s : St K X B R} {c : Cl K B}
    (b : Between (fun _ => True) par s s) (hc : 1 ≤ c.num)
    (hroom : micro (population s) + c.num ≤ par.popSize) :
    ∃ s', insertCl par kit c s = .ok s' ∧ Between (fun _ => True) par s' s' ∧
      population s' = c :: population s := by
  have hm : micro (population s) = s.pset.num := by
    rw [population, filterMap_micro b.good.inv.p.allLive, b.good.inv.p.num]
  have hok : ∃ s', insertCl par kit c s = .ok s' := by
    unfold insertCl
    refine ⟨{ (s.alloc c).2 with pset := s.pset.add s.next c.num, kset := {} }, ?_⟩
    · show (enforce par kit { (s.alloc c).2 with pset := s.pset.add s.next c.num, kset := {} } >>=
        fun s => killKset s) = _
      have : enforce par kit { (s.alloc c).2 with pset := s.pset.add s.next c.num, kset := {} } =
          .ok { (s.alloc c).2 with pset := s.pset.add s.next c.num, kset := {} } := by
        unfold enforce
        have hn : (s.pset.add s.next c.num).num = s.pset.num + c.num := rfl
        show enforceGo par kit ((s.pset.add s.next c.num).num - par.popSize).toNat _ = _
        rw [hn, show (s.pset.num + c.num - par.popSize).toNat = 0 by omega]
        unfold enforceGo
        rw [if_neg]
        show ¬ par.popSize < s.pset.num + c.num
        omega
      rw [this]
      exact killKset_nil (s := { (s.alloc c).2 with
        pset := s.pset.add s.next c.num, kset := {} }) rfl
  obtain ⟨s', e⟩ := hok
  refine ⟨s', e, (post_of_ok (insertCl_post (lawsTriv par kit hp) b trivial hc) e).1.self, ?_⟩
  have d := insert_deletes hp b hc e
  rw [show (micro (population s) + c.num - par.popSize).toNat = 0 by omega] at d
  generalize population s' = l at d
  cases d; rfl

/-- **C27.** Importing a non-empty list of rules with positive numerosities into a reachable
system with enough room succeeds and puts the rules, unchanged and in the given order,
before the present population (an empty one in particular). -/
theorem C27_import_keeps_order (hp : 0 ≤ par.popSize) {r : R} {ops : List (Op K X B)}
    (hv : ∀ op ∈ ops, op.valid) {s : St K X B R} (h : run par kit r ops = .ok s)
    {cs : List (Cl K B)} (hne : cs ≠ []) (hc : ∀ c ∈ cs, 1 ≤ c.num)
    (hroom : micro (population s) + micro cs ≤ par.popSize) :
    ∃ s', jsonInsert par kit cs s = .ok s' ∧ population s' = cs ++ population s := by
  have key : ∀ (l : List (Cl K B)) {s : St K X B R}, Between (fun _ => True) par s s →
      (∀ c ∈ l, 1 ≤ c.num) → micro (population s) + micro l ≤ par.popSize →
      ∃ s', l.foldlM (fun s c => insertCl par kit c s) s = .ok s' ∧
        population s' = l.reverse ++ population s := by
    intro l
    induction l with
    | nil => intro s _ _ _; exact ⟨s, rfl, rfl⟩
    | cons c l ih =>
      intro s b hc hroom
      have hl : 0 ≤ micro l := by
        apply List.sum_nonneg
        intro n hn
        obtain ⟨d, hd, rfl⟩ := List.mem_map.1 hn
        have := hc d (List.mem_cons_of_mem _ hd); omega
      have hm : micro (c :: l) = c.num + micro l := by simp [micro]
      obtain ⟨s1, e1, b1, p1⟩ := insertCl_room (kit := kit) hp b (hc c List.mem_cons_self)
        (by omega)
      obtain ⟨s2, e2, p2⟩ := ih b1 (fun d hd => hc d (List.mem_cons_of_mem _ hd)) (by
        rw [p1]
        have : micro (c :: population s) = c.num + micro (population s) := by simp [micro]
        omega)
      refine ⟨s2, ?_, ?_⟩
      · rw [List.foldlM_cons, e1]; exact e2
      · rw [p2, p1]; simp
  obtain ⟨s', e, p⟩ := key cs.reverse (reachable_between hp hv h)
    (fun c hc' => hc c (List.mem_reverse.1 hc')) (by
      have : micro cs.reverse = micro cs := by
        unfold micro; rw [List.map_reverse, List.sum_reverse]
      omega)
  refine ⟨s', ?_, ?_⟩
  · unfold jsonInsert
    cases cs with
    | nil => exact absurd rfl hne
    | cons c cs => exact e
  · rw [p, List.reverse_reverse]

/-- **C27**, an empty import dereferences NULL. -/
theorem C27_refuted_for_empty_import (s : St K X B R) :
    jsonInsert par kit [] s = .error .ub := rfl

end Any

/-! ## The hypotheses are met by concrete executions -/

section Examples
open Demo

/-- The demonstration representation is passive: its bodies never change in use. -/
theorem demo_passive : Passive Demo.kit (fun b _ => b) :=
  ⟨fun _ _ _ _ => rfl, fun _ _ _ _ => rfl, fun _ _ _ _ => rfl⟩

example : ∃ s ps s', run Demo.par Demo.kit 0 Demo.ops = .ok s ∧
    predictBatch Demo.par Demo.kit [7] [1, 2, 9] s = .ok (ps, s') ∧ ps.length = 3 := by
  obtain ⟨s, h1, h2⟩ := Res.test_iff (m := run Demo.par Demo.kit 0 Demo.ops)
    (p := fun s => Res.test (predictBatch Demo.par Demo.kit [7] [1, 2, 9] s)
      (fun p => decide (p.1.length = 3))) (by decide +kernel)
  obtain ⟨⟨ps, s'⟩, h3, h4⟩ := Res.test_iff h2
  exact ⟨s, ps, s', h1, h3, of_decide_eq_true h4⟩

/-- **C15 is false**: from an empty system, processing a validation sample creates rules. -/
theorem C15_refuted :
    ∃ s e s', run Demo.par Demo.kit 0 [] = .ok s ∧ testStep Demo.par Demo.kit 5 [5] s = .ok (e, s') ∧
      (population s).length = 0 ∧ (population s').length = 2 := by
  obtain ⟨s, h1, h2⟩ := Res.test_iff (m := run Demo.par Demo.kit 0 [])
    (p := fun s => Res.test (testStep Demo.par Demo.kit 5 [5] s)
      (fun p => decide ((population s).length = 0 ∧ (population p.2).length = 2)))
    (by decide +kernel)
  obtain ⟨⟨e, s'⟩, h3, h4⟩ := Res.test_iff h2
  exact ⟨s, e, s', h1, h3, of_decide_eq_true h4⟩

/-- **C15 is false**, with displacement: in a full system processing one validation sample
removes rules that were there. -/
theorem C15_refuted_displaces :
    ∃ s e s', run Demo.par Demo.kit 0 [.fit 1 [1], .fit 2 [2]] = .ok s ∧
      testStep Demo.par Demo.kit 5 [5] s = .ok (e, s') ∧
      micro (population s) = 4 ∧ ¬ (∀ i ∈ s.pset.list, i ∈ s'.pset.list) := by
  obtain ⟨s, h1, h2⟩ := Res.test_iff (m := run Demo.par Demo.kit 0 [.fit 1 [1], .fit 2 [2]])
    (p := fun s => Res.test (testStep Demo.par Demo.kit 5 [5] s)
      (fun p => decide (micro (population s) = 4 ∧ ¬ (∀ i ∈ s.pset.list, i ∈ p.2.pset.list))))
    (by decide +kernel)
  obtain ⟨⟨e, s'⟩, h3, h4⟩ := Res.test_iff h2
  exact ⟨s, e, s', h1, h3, of_decide_eq_true h4⟩

/-- The representation condition of the partial theorem is met after training on input 1. -/
example : ∃ s e s', run Demo.par Demo.kit 0 [.fit 1 [1]] = .ok s ∧
    (∀ a : Nat, a < Demo.par.nActions → ∃ c ∈ population s, demoM c.body 1 = true ∧
      (c.body.2 % 2 : Nat) = (a : Int)) ∧ testStep Demo.par Demo.kit 1 [5] s = .ok (e, s') := by
  obtain ⟨s, h1, h2⟩ := Res.test_iff (m := run Demo.par Demo.kit 0 [.fit 1 [1]])
    (p := fun s => decide (∀ a : Nat, a < Demo.par.nActions → ∃ c ∈ population s,
      demoM c.body 1 = true ∧ (c.body.2 % 2 : Nat) = (a : Int)) &&
      Res.test (testStep Demo.par Demo.kit 1 [5] s) (fun _ => true)) (by decide +kernel)
  rw [Bool.and_eq_true, decide_eq_true_eq] at h2
  obtain ⟨⟨e, s'⟩, h3, _⟩ := Res.test_iff h2.2
  exact ⟨s, e, s', h1, h2.1, h3⟩

/-- Store, learn and predict, retrieve. -/
example : ∃ s s1 s2 s3, run Demo.par Demo.kit 0 Demo.ops = .ok s ∧
    store Demo.par Demo.kit s = .ok s1 ∧
    [Op.fit 3 [1], .predict [1] [0], .insert (demoRule (1, 0) 3 0)].foldlM
      (step Demo.par Demo.kit) s1 = .ok s2 ∧
    retrieve s2 = .ok s3 ∧ population s ≠ [] := by
  obtain ⟨s, h1, h2⟩ := Res.test_iff (m := run Demo.par Demo.kit 0 Demo.ops)
    (p := fun s => decide (population s ≠ []) && Res.test (store Demo.par Demo.kit s) (fun s1 =>
      Res.test ([Op.fit 3 [1], .predict [1] [0], .insert (demoRule (1, 0) 3 0)].foldlM
      (step Demo.par Demo.kit) s1) (fun s2 => Res.test (retrieve s2) (fun _ => true))))
    (by decide +kernel)
  rw [Bool.and_eq_true, decide_eq_true_eq] at h2
  obtain ⟨s1, h3, h4⟩ := Res.test_iff h2.2
  obtain ⟨s2, h5, h6⟩ := Res.test_iff h4
  obtain ⟨s3, h7, _⟩ := Res.test_iff h6
  exact ⟨s, s1, s2, s3, h1, h3, h5, h7, h2.1⟩

example : ∃ s, run Demo.par Demo.kit 0 [] = .ok s ∧
    micro (population s) + micro [demoRule (1, 0) 2 0, demoRule (2, 1) 1 0] ≤ Demo.par.popSize := by
  obtain ⟨s, h1, h2⟩ := Res.test_iff (m := run Demo.par Demo.kit 0 [])
    (p := fun s => decide (micro (population s) +
      micro [demoRule (1, 0) 2 0, demoRule (2, 1) 1 0] ≤ Demo.par.popSize)) (by decide +kernel)
  exact ⟨s, h1, of_decide_eq_true h2⟩

end Examples
end Xcsf
