import Verif.Props1

/-!
# C07–C13: match set, covering, action set, subsumption, evolutionary algorithm
-/

set_option linter.unusedSectionVars false

namespace Xcsf
section Any
variable {K X B R : Type} [Zero K] [One K] [Add K] [Sub K] [Mul K] [Div K]
  [LT K] [DecidableLT K] [IntCast K] [DecidableEq K]
variable {par : Params K} {kit : Kit K X B R}

theorem Matched.stats {e : Bool} {x : X} {c c' : Cl K B} (h : Matched kit e x c c') :
    SameStats c c' ∧ c'.prediction = c.prediction ∧ c'.age = c.age + 1 := by
  obtain ⟨r, ⟨_, h⟩ | ⟨_, h⟩⟩ := h <;> subst h <;> exact ⟨⟨rfl, rfl, rfl, rfl, rfl, rfl⟩, rfl, rfl⟩

theorem Matched.outcome {e : Bool} {x : X} {c c' : Cl K B} (h : Matched kit e x c c')
    {M : B → X → Bool} (hM : ∀ e b x r, (kit.cmatch e b x r).1 = M b x) :
    c'.m = M c.body x ∧ c'.mtotal = c.mtotal + (if M c.body x then 1 else 0) := by
  obtain ⟨r, ⟨h0, h⟩ | ⟨h0, h⟩⟩ := h
  · subst h
    exact ⟨hM .., by simp only [evalCond, hM]; split <;> simp⟩
  · subst h
    exact ⟨hM .., by simp only [evalAct, evalCond, hM]; split <;> simp⟩

/-- Matching without covering, in full. -/
theorem clsetMatch_false {s : St K X B R} {pend : List Nat} (inv : Inv s pend)
    (hm : s.mset = {}) (x : X) :
    ∃ s' sz mf, clsetMatch par kit x false s = .ok s' ∧
      ∃ s1, matchGo kit x s.pset.list s = .ok s1 ∧ s' = { s1 with msetSize := sz, mfrac := mf } := by
  obtain ⟨s1, e, h1, h2, h3, _⟩ := matchGo_good
    (V := fun _ => True) (E := fun _ => True) (par := { par with popSize := 0 })
    (lawsTriv { par with popSize := 0 } kit (Int.le_refl _)) x inv.good hm
  unfold clsetMatch
  rw [e]
  refine ⟨_, s1.msetSize + ((s1.mset.size : K) - s1.msetSize) * par.beta,
    s1.mfrac + (mfracOf par kit (s1.pset.list.filterMap s1.heap) - s1.mfrac) * par.beta,
    ?_, s1, rfl, rfl⟩
  show (s1.rds s1.pset.list >>= _) = _
  rw [rds_eq_filterMap h1.good.inv.p.allLive]
  rfl

/-- Matching with or without covering: the two phases. -/
theorem clsetMatch_cases {x : X} {dc : Bool} {s s' : St K X B R}
    (h : clsetMatch par kit x dc s = .ok s') :
    ∃ s1 s2 sz mf, matchGo kit x s.pset.list s = .ok s1 ∧
      s' = { s2 with msetSize := sz, mfrac := mf } ∧
      (((dc = true ∧ (1 < par.nActions ∨ s1.mset.size < 1)) ∧ cover par kit x s1 = .ok s2) ∨
       (¬ (dc = true ∧ (1 < par.nActions ∨ s1.mset.size < 1)) ∧ s2 = s1)) := by
  unfold clsetMatch at h
  cases e : matchGo kit x s.pset.list s with
  | error e' => rw [e] at h; cases h
  | ok s1 =>
    rw [e] at h
    have fin : ∀ s2 : St K X B R, (s2.rds s2.pset.list >>= fun cs => Except.ok
        { s2 with msetSize := s2.msetSize + ((s2.mset.size : K) - s2.msetSize) * par.beta,
                  mfrac := s2.mfrac + (mfracOf par kit cs - s2.mfrac) * par.beta }) = .ok s' →
        ∃ sz mf, s' = { s2 with msetSize := sz, mfrac := mf } := by
      intro s2 h
      cases e2 : s2.rds s2.pset.list with
      | error e' => rw [e2] at h; cases h
      | ok cs => rw [e2] at h; cases h; exact ⟨_, _, rfl⟩
    by_cases hc : dc = true ∧ (1 < par.nActions ∨ s1.mset.size < 1)
    · have h : ((if dc = true ∧ (1 < par.nActions ∨ s1.mset.size < 1) then cover par kit x s1
          else .ok s1) >>= fun s2 => s2.rds s2.pset.list >>= fun cs => Except.ok
        { s2 with msetSize := s2.msetSize + ((s2.mset.size : K) - s2.msetSize) * par.beta,
                  mfrac := s2.mfrac + (mfracOf par kit cs - s2.mfrac) * par.beta }) = .ok s' := by
        rw [if_pos hc]
        have h : (if dc = true ∧ (1 < par.nActions ∨ s1.mset.size < 1) then _ else _) = _ := h
        rw [if_pos hc] at h
        exact h
      rw [if_pos hc] at h
      cases e2 : cover par kit x s1 with
      | error e' => rw [e2] at h; cases h
      | ok s2 =>
        rw [e2] at h
        obtain ⟨sz, mf, e3⟩ := fin s2 h
        exact ⟨s1, s2, sz, mf, rfl, e3, Or.inl ⟨hc, e2⟩⟩
    · have h : (if dc = true ∧ (1 < par.nActions ∨ s1.mset.size < 1) then _ else _) = _ := h
      rw [if_neg hc] at h
      obtain ⟨sz, mf, e3⟩ := fin s1 h
      exact ⟨s1, s1, sz, mf, rfl, e3, Or.inr ⟨hc, rfl⟩⟩

/-- **C07.** Matching an input without covering always succeeds; the match set holds exactly
the rules whose condition matches, each once; every rule of the population ages by one and
those that match count one more match; nothing else about any rule's record changes. -/
theorem C07_match_set_exact {M : B → X → Bool}
    (hM : ∀ e b x r, (kit.cmatch e b x r).1 = M b x)
    {s : St K X B R} {pend : List Nat} (inv : Inv s pend) (hm : s.mset = {}) (x : X) :
    ∃ s', clsetMatch par kit x false s = .ok s' ∧ s'.pset = s.pset ∧ s'.mset.list.Nodup ∧
      (∀ i, i ∈ s'.mset.list ↔
        i ∈ s.pset.list ∧ ∃ c, s.heap i = some c ∧ M c.body x = true) ∧
      s'.mset.size = s'.mset.list.length ∧
      s'.mset.num = micro (s'.mset.list.filterMap s'.heap) ∧
      (∀ i ∈ s.pset.list, ∀ c, s.heap i = some c → ∃ c', s'.heap i = some c' ∧
        c'.age = c.age + 1 ∧ c'.mtotal = c.mtotal + (if M c.body x then 1 else 0) ∧
        c'.m = M c.body x ∧ SameStats c c' ∧ c'.prediction = c.prediction) ∧
      (∀ i, i ∉ s.pset.list → s'.heap i = s.heap i) ∧
      storedPopulation s' = storedPopulation s ∧ s'.time = s.time ∧ s'.error = s.error := by
  obtain ⟨s', sz, mf, e, s1, e1, rfl⟩ := clsetMatch_false (par := par) (kit := kit) inv hm x
  obtain ⟨s2, e2, h1, h2, h3, h4, h5, h6, h7, h8, h9, h10, h11, _⟩ := matchGo_good
    (V := fun _ => True) (E := fun _ => True) (par := { par with popSize := 0 })
    (lawsTriv { par with popSize := 0 } kit (Int.le_refl _)) x inv.good hm
  rw [e1] at e2; cases e2
  refine ⟨_, e, h3, h2.nodup, ?_, h2.size, ?_, ?_, h7, ?_, h5, h11⟩
  · intro i
    show i ∈ s1.mset.list ↔ _
    rw [h9, List.mem_reverse, List.mem_filter]
    constructor
    · rintro ⟨hi, ha⟩
      obtain ⟨c, hc, _⟩ := inv.p.live hi
      obtain ⟨c', hc', hmt⟩ := h8 i hi c hc
      rw [hc'] at ha
      exact ⟨hi, c, hc, (hmt.outcome hM).1.symm.trans ha⟩
    · rintro ⟨hi, c, hc, hmc⟩
      obtain ⟨c', hc', hmt⟩ := h8 i hi c hc
      refine ⟨hi, ?_⟩
      rw [hc']; exact (hmt.outcome hM).1.trans hmc
  · show s1.mset.num = micro (s1.mset.list.filterMap s1.heap)
    rw [h10, filterMap_micro (fun i hi => h1.good.inv.p.isSome (h2.sub i hi))]
  · intro i hi c hc
    obtain ⟨c', hc', hmt⟩ := h8 i hi c hc
    exact ⟨c', hc', hmt.stats.2.2, (hmt.outcome hM).2, (hmt.outcome hM).1, hmt.stats.1,
      hmt.stats.2.1⟩
  · show s1.prevPset.list.filterMap s1.heap = s.prevPset.list.filterMap s.heap
    rw [h1.prevPset]
    exact filterMap_congr' (fun i hi => h1.keep.cells i hi)

/-! ### Covering -/

/-- The members of the match set all satisfy `Q` of their body. -/
def MsetAll (Q : B → Prop) (s : St K X B R) : Prop :=
  ∀ i ∈ s.mset.list, ∃ c, s.heap i = some c ∧ Q c.body

theorem coverActions_all {Q : B → Prop} {x : X}
    (hcov : ∀ e b a r b' r', kit.cover e b x a r = .ok (b', r') → Q b') (hp : 0 ≤ par.popSize) :
    ∀ (cov : List Bool) (a : Nat) {s : St K X B R} {pend : List Nat}, Inv s pend →
    Within s s.mset → a + cov.length ≤ par.nActions → MsetAll Q s →
    Post (coverActions par kit x cov a s) (MsetAll Q) (fun _ => True)
  | [], a, s, pend, _, _, _, h => h
  | true :: cov, a, s, pend, g, w, ha, h => by
    unfold coverActions
    exact coverActions_all hcov hp cov (a + 1) g w (by simp at ha; omega) h
  | false :: cov, a, s, pend, g, w, ha, h => by
    unfold coverActions
    simp at ha
    refine post_bind (coverOne_post (lawsTriv par kit hp) g.good w x (a := a) (by omega)) ?_
    rintro s1 ⟨q1, q2, q3, q4, q5, q6, q7, b, r', q8, q9⟩
    refine coverActions_all hcov hp cov (a + 1) q1.good.inv q2 (by omega) ?_
    intro i hi
    rw [q3] at hi
    by_cases e : i = s.next
    · subst e; exact ⟨_, q9, hcov _ _ _ _ _ _ q8⟩
    · obtain ⟨c, hc, hQ⟩ := h i (by simpa [e] using hi)
      exact ⟨c, (q7 i e).trans hc, hQ⟩

theorem coverIter_all {Q : B → Prop} {x : X}
    (hcov : ∀ e b a r b' r', kit.cover e b x a r = .ok (b', r') → Q b') (hp : 0 ≤ par.popSize)
    {cov : List Bool} {s : St K X B R} {pend : List Nat} (g : Inv s pend)
    (w : Within s s.mset) (hl : cov.length = par.nActions) (h : MsetAll Q s) :
    Post (coverIter par kit x cov s) (fun p => MsetAll Q p.2.2) (fun _ => True) := by
  unfold coverIter
  refine post_bind (post_and (coverActions_post (lawsTriv par kit hp) x cov 0 g.good w (by omega))
    (coverActions_all hcov hp cov 0 g w (by omega) h)) ?_
  rintro s1 ⟨⟨q1, q2, _⟩, q3⟩
  refine post_bind (enforce_post (lawsTriv par kit hp) q1.good) ?_
  rintro s2 ⟨k1, k2⟩
  have h2 : MsetAll Q s2 := by
    intro i hi
    rw [k1.frame.mset] at hi
    obtain ⟨c, hc, hQ⟩ := q3 i hi
    obtain ⟨n, e⟩ := k1.cells.1 i c hc
    exact ⟨_, e, hQ⟩
  have w2 : Weak s2 s2.mset := by
    rw [k1.frame.mset]; exact q2.weak.keep k1.keep
  show Post (if s2.pset.size < s1.pset.size then _ else _) _ _
  split
  · obtain ⟨t, e1, e2, e3, e4, e5⟩ := validate_weak k1.good w2
    rw [e1]
    have h3 : MsetAll Q { s2 with mset := t } := fun i hi => h2 i (e5.subset hi)
    show Post (if t.size < s2.mset.size then _ else _) _ _
    split
    · refine post_bind (Q := fun _ => True) ?_ (fun p _ => h3)
      cases actionCoverage par { s2 with mset := t } <;> trivial
    · exact h3
  · exact h2

theorem coverLoop_all {Q : B → Prop} {x : X}
    (hcov : ∀ e b a r b' r', kit.cover e b x a r = .ok (b', r') → Q b') (hp : 0 ≤ par.popSize) :
    ∀ (n : Nat) (cov : List Bool) (covered : Bool) {s : St K X B R} {pend : List Nat},
    Inv s pend → Within s s.mset → cov.length = par.nActions → CovFlags s cov → MsetAll Q s →
    Post (coverLoop par kit x n cov covered s) (MsetAll Q) (fun _ => True)
  | n, cov, true, s, pend, g, w, hl, hf, h => by unfold coverLoop; exact h
  | 0, cov, false, s, pend, g, w, hl, hf, h => by
    unfold coverLoop
    exact post_bind (coverIter_all hcov hp g w hl h) (fun _ _ => trivial)
  | n + 1, cov, false, s, pend, g, w, hl, hf, h => by
    unfold coverLoop
    refine post_bind (post_and (coverIter_post (lawsTriv par kit hp) x g.good w hl hf)
      (coverIter_all hcov hp g w hl h)) ?_
    rintro ⟨cov', covered', s1⟩ ⟨⟨h1, h2, h3, h4, h5, h6⟩, h7⟩
    exact coverLoop_all hcov hp n cov' covered' h3.good.inv h4 h1 h2 h7

theorem cover_all {Q : B → Prop} {x : X}
    (hcov : ∀ e b a r b' r', kit.cover e b x a r = .ok (b', r') → Q b') (hp : 0 ≤ par.popSize)
    {s : St K X B R} {pend : List Nat} (g : Inv s pend) (w : Within s s.mset)
    (h : MsetAll Q s) : Post (cover par kit x s) (MsetAll Q) (fun _ => True) := by
  unfold cover
  refine post_bind (actionCoverage_post (lawsTriv par kit hp) g.good w.sub) ?_
  rintro ⟨cov, covered⟩ ⟨h1, h2, h3⟩
  exact coverLoop_all hcov hp _ cov covered g w h1 (fun a ha => ((h2 a).1 ha).2) h

/-- **C08.** If matching with covering returns, then for every action the match set holds a
rule that matches the input and advocates that action, and every rule of the match set is
in the population and matches the input.

`M` is the match relation of the representation; `hM`, `hMm`, `hMa` say that evaluating a
condition or an action does not change what the rule matches, `hcov` that a covered body
matches the covering input, `hact` that computed actions are in range. -/
theorem C08_every_action_covered {M : B → X → Bool}
    (hM : ∀ e b x r, (kit.cmatch e b x r).1 = M b x)
    (hMm : ∀ e b x r, M (kit.cmatch e b x r).2.1 x = M b x)
    (hMa : ∀ e b x r, M (kit.act e b x r).2.1 x = M b x)
    (hcov : ∀ e b x a r b' r', kit.cover e b x a r = .ok (b', r') → M b' x = true)
    (hact : ∀ e b x r, 0 ≤ (kit.act e b x r).1 ∧ (kit.act e b x r).1 < par.nActions)
    (hp : 0 ≤ par.popSize) {s s' : St K X B R} {pend : List Nat} (inv : Inv s pend)
    (hm : s.mset = {}) (x : X) (h : clsetMatch par kit x true s = .ok s') :
    (∀ a : Nat, a < par.nActions → ∃ i ∈ s'.mset.list, ∃ c, s'.heap i = some c ∧
      c.action = a ∧ M c.body x = true) ∧
    (∀ i ∈ s'.mset.list, i ∈ s'.pset.list ∧ ∃ c, s'.heap i = some c ∧ M c.body x = true) := by
  obtain ⟨s1, s2, sz, mf, e1, rfl, hh⟩ := clsetMatch_cases h
  obtain ⟨t, e2, h1, h2, h3, h4, h5, h6, h7, h8, h9, h10, h11, _⟩ := matchGo_good
    (lawsTriv par kit hp) x inv.good hm
  rw [e1] at e2; cases e2
  -- every rule matched by its condition still matches afterwards, with an action in range
  have hmt : ∀ i ∈ s1.mset.list, ∃ c, s1.heap i = some c ∧ M c.body x = true ∧
      0 ≤ c.action ∧ c.action < par.nActions := by
    intro i hi
    rw [h9, List.mem_reverse, List.mem_filter] at hi
    obtain ⟨c, hc, _⟩ := inv.p.live hi.1
    obtain ⟨c', hc', r, ⟨q1, q2⟩ | ⟨q1, q2⟩⟩ := h8 i hi.1 c hc
    · have := hi.2
      rw [hc', q2] at this
      simp [evalCond, (Bool.or_eq_false_iff.1 q1).1] at this
    · have q3 : (kit.cmatch s.explore c.body x r).1 = true := by
        have := hi.2
        rw [hc', q2] at this
        exact this
      refine ⟨c', hc', ?_, ?_, ?_⟩
      · rw [q2]; show M (kit.act _ (kit.cmatch _ _ _ _).2.1 _ _).2.1 x = true
        rw [hMa, hMm]; rw [hM] at q3; exact q3
      · rw [q2]; exact (hact _ _ _ _).1
      · rw [q2]; exact (hact _ _ _ _).2
  have hall1 : MsetAll (fun b => M b x = true) s1 := fun i hi =>
    let ⟨c, hc, hq, _⟩ := hmt i hi; ⟨c, hc, hq⟩
  rcases hh with ⟨_, hcv⟩ | ⟨hno, rfl⟩
  · obtain ⟨k1, k2, k3, k4⟩ := post_of_ok (cover_post (lawsTriv par kit hp) x h1.good h2
      ⟨Int.le_max_left _ s1.pset.num, Int.le_max_right _ _⟩ Room.may) hcv
    have hall := post_of_ok (cover_all (fun e b a r b' r' => hcov e b x a r b' r') hp h1.good.inv h2
      hall1) hcv
    refine ⟨fun a ha => ?_, fun i hi => ⟨k2.sub i hi, hall i hi⟩⟩
    obtain ⟨i, hi, c, hc, hca⟩ := k4 a ha
    obtain ⟨c', hc', hq⟩ := hall i hi
    rw [hc] at hc'; cases hc'
    exact ⟨i, hi, c, hc, hca, hq⟩
  · refine ⟨fun a ha => ?_, fun i hi => ⟨h2.sub i hi, hall1 i hi⟩⟩
    have hne : s2.mset.list ≠ [] := by
      intro e
      apply hno
      refine ⟨rfl, Or.inr ?_⟩
      rw [h2.size, e]; decide
    obtain ⟨i, l, e⟩ := List.exists_cons_of_ne_nil hne
    have hi : i ∈ s2.mset.list := by rw [e]; exact List.mem_cons_self
    obtain ⟨c, hc, hq, ha0, ha1⟩ := hmt i hi
    have : ¬ 1 < par.nActions := fun e => hno ⟨rfl, Or.inl e⟩
    exact ⟨i, hi, c, hc, by omega, hq⟩

/-! ### Numerosity of the match set -/

theorem coverActions_num (hp : 0 ≤ par.popSize) (x : X) :
    ∀ (cov : List Bool) (a : Nat) {s : St K X B R} {pend : List Nat}, Inv s pend →
    Within s s.mset → a + cov.length ≤ par.nActions → s.mset.num = nsum s.nums s.mset.list →
    Post (coverActions par kit x cov a s) (fun s' => s'.mset.num = nsum s'.nums s'.mset.list ∧
      s'.pset.num ≤ s.pset.num + cov.length) (fun _ => True)
  | [], a, s, pend, _, _, _, h => ⟨h, by simp⟩
  | true :: cov, a, s, pend, g, w, ha, h => by
    unfold coverActions
    refine post_mono (coverActions_num hp x cov (a + 1) g w (by simp at ha; omega) h) ?_
    rintro s' ⟨h1, h2⟩
    exact ⟨h1, by simp; omega⟩
  | false :: cov, a, s, pend, g, w, ha, h => by
    unfold coverActions
    simp at ha
    have hnum : Post (coverOne par kit x a s) (fun s' => s'.mset.num = s.mset.num + 1)
        (fun _ => True) := by
      unfold coverOne
      show Post (kit.cover _ _ x a _ >>= _) _ _
      refine post_bind (Q := fun _ => True) ?_ ?_
      · cases kit.cover s.explore (kit.rand s.rng).1 x a (kit.rand s.rng).2 <;> trivial
      · rintro ⟨b, r⟩ _; rfl
    refine post_bind (post_and (coverOne_post (lawsTriv par kit hp) g.good w x (a := a) (by omega))
      hnum) ?_
    rintro s1 ⟨⟨q1, q2, q3, q4, q5, q6, q7, b, r', q8, q9⟩, q10⟩
    have hn1 : s1.mset.num = nsum s1.nums s1.mset.list := by
      rw [q10, q3, nsum_cons, h]
      have e1 : s1.nums s.next = some 1 := by unfold St.nums; rw [q9]; rfl
      have e2 : nsum s1.nums s.mset.list = nsum s.nums s.mset.list := by
        apply nsum_congr
        intro j hj
        have : j ≠ s.next := fun e => g.notMem_next.1 (e ▸ w.sub j hj)
        unfold St.nums; rw [q7 j this]
      rw [e1, e2]; simp; omega
    refine post_mono (coverActions_num hp x cov (a + 1) q1.good.inv q2 (by omega) hn1) ?_
    rintro s' ⟨k1, k2⟩
    exact ⟨k1, by simp; omega⟩

/-- **C09, the part that holds.** The recorded total of the match set is exact whenever no
deletion is needed to make room for the covered rules, in particular without covering.
Missing: matching with covering into a (nearly) full population, where the claim is false
(`C09_refuted`). -/
theorem C09_match_set_numerosity_partial (hp : 0 ≤ par.popSize) {s s' : St K X B R}
    {pend : List Nat} (inv : Inv s pend) (hm : s.mset = {}) (x : X) (doCover : Bool)
    (hroom : doCover = false ∨ s.pset.num + par.nActions ≤ par.popSize)
    (h : clsetMatch par kit x doCover s = .ok s') :
    s'.mset.num = micro (s'.mset.list.filterMap s'.heap) := by
  obtain ⟨s1, s2, sz, mf, e1, rfl, hh⟩ := clsetMatch_cases h
  obtain ⟨t, e2, h1, h2, h3, h4, h5, h6, h7, h8, h9, h10, h11, _⟩ := matchGo_good
    (lawsTriv par kit hp) x inv.good hm
  rw [e1] at e2; cases e2
  rcases hh with ⟨⟨hd, _⟩, hcv⟩ | ⟨hno, rfl⟩
  · subst hd
    have hroom : s1.pset.num + par.nActions ≤ par.popSize := by
      rw [h3]; simpa using hroom
    -- the covering loop: nothing is deleted, one attempt suffices
    have key : ∀ (n : Nat) (cov : List Bool) (covered : Bool), cov.length = par.nActions →
        Post (coverLoop par kit x n cov covered s1) (fun s2 =>
          s2.mset.num = nsum s2.nums s2.mset.list ∧ ∀ i ∈ s2.mset.list, (s2.heap i).isSome)
          (fun _ => True) := by
      intro n cov covered hl
      have hiter : Post (coverIter par kit x cov s1) (fun p => p.2.1 = true ∧
          p.2.2.mset.num = nsum p.2.2.nums p.2.2.mset.list ∧
          ∀ i ∈ p.2.2.mset.list, (p.2.2.heap i).isSome) (fun _ => True) := by
        unfold coverIter
        refine post_bind (post_and (coverActions_post (lawsTriv par kit hp) x cov 0 h1.good h2
          (by omega)) (coverActions_num hp x cov 0 h1.good.inv h2 (by omega) h10)) ?_
        rintro s2 ⟨⟨q1, q2, _⟩, q3, q4⟩
        have henf : enforce par kit s2 = .ok s2 := by
          unfold enforce
          rw [show (s2.pset.num - par.popSize).toNat = 0 by omega]
          unfold enforceGo
          rw [if_neg (by omega)]
        rw [henf]
        show Post (if s2.pset.size < s2.pset.size then _ else _) _ _
        rw [if_neg (by omega)]
        exact ⟨rfl, q3, fun i hi => q1.good.inv.p.isSome (q2.sub i hi)⟩
      cases covered with
      | true => unfold coverLoop; exact ⟨h10, fun i hi => h1.good.inv.p.isSome (h2.sub i hi)⟩
      | false =>
        cases n with
        | zero => unfold coverLoop; exact post_bind hiter (fun _ _ => trivial)
        | succ n =>
          unfold coverLoop
          refine post_bind hiter ?_
          rintro ⟨cov', covered', s2⟩ ⟨q1, q2, q3⟩
          have q1 : covered' = true := q1
          subst q1
          show Post (coverLoop par kit x n cov' true s2) _ _
          unfold coverLoop
          exact ⟨q2, q3⟩
    have hc : Post (cover par kit x s1) (fun s2 =>
          s2.mset.num = nsum s2.nums s2.mset.list ∧ ∀ i ∈ s2.mset.list, (s2.heap i).isSome)
          (fun _ => True) := by
      unfold cover
      refine post_bind (actionCoverage_post (lawsTriv par kit hp) h1.good h2.sub) ?_
      rintro ⟨cov, covered⟩ ⟨q1, _⟩
      exact key _ cov covered q1
    obtain ⟨k1, k2⟩ := post_of_ok hc hcv
    show s2.mset.num = micro (s2.mset.list.filterMap s2.heap)
    rw [filterMap_micro k2, k1]
  · show s2.mset.num = micro (s2.mset.list.filterMap s2.heap)
    rw [filterMap_micro (fun i hi => h1.good.inv.p.isSome (h2.sub i hi)), h10]

/-! ### The action set -/

/-- **C10.** The action set built for `a` holds exactly the rules of the match set that
advocate `a`, each once, with exact counters; nothing else changes. -/
theorem C10_action_set_exact {s : St K X B R} {pend : List Nat} (inv : Inv s pend)
    (hnd : s.mset.list.Nodup) (hsub : ∀ i ∈ s.mset.list, i ∈ s.pset.list) (ha : s.aset = {})
    (a : Int) :
    ∃ s', clsetAction par a s = .ok s' ∧ s'.aset.list.Nodup ∧
      (∀ i, i ∈ s'.aset.list ↔ i ∈ s.mset.list ∧ ∃ c, s.heap i = some c ∧ c.action = a) ∧
      s'.aset.size = s'.aset.list.length ∧
      s'.aset.num = micro (s'.aset.list.filterMap s'.heap) ∧
      s'.heap = s.heap ∧ s'.pset = s.pset ∧ s'.mset = s.mset := by
  have hlive : ∀ i ∈ s.mset.list, (s.heap i).isSome := fun i hi => inv.p.isSome (hsub i hi)
  obtain ⟨t, h1, h2, h3, h4⟩ := actionGo_spec (s := s) a s.mset.list s.aset hlive
  rw [ha] at h2 h3 h4
  have hl : t.list = (s.mset.list.filter
        (fun i => (s.heap i).any (fun c => decide (c.action = a)))).reverse := by rw [h2]; simp
  have hmem : ∀ i, i ∈ t.list ↔ i ∈ s.mset.list ∧ ∃ c, s.heap i = some c ∧ c.action = a := by
    intro i
    rw [hl, List.mem_reverse, List.mem_filter, Option.any_eq_true]
    simp
  refine ⟨{ s with aset := t, asetSize := s.asetSize + ((t.size : K) - s.asetSize) * par.beta },
    ?_, ?_, hmem, ?_, ?_, rfl, rfl, rfl⟩
  · unfold clsetAction; rw [h1]; rfl
  · show t.list.Nodup
    rw [hl]; exact List.nodup_reverse.2 (hnd.sublist List.filter_sublist)
  · show t.size = _
    rw [h3, hl]; simp
  · show t.num = micro (t.list.filterMap s.heap)
    rw [filterMap_micro (fun i hi => hlive i ((hmem i).1 hi).1), h4, hl,
      nsum_perm (List.reverse_perm _)]
    simp

/-! ### Set subsumption -/

/-- **C11.** Set subsumption on a set of rules of the population always succeeds and keeps the
total numerosity.  Either nothing changes, or one experienced, accurate rule `sid` of the
set absorbs exactly those other rules of the set it is more general than: they leave the
set and the population, `sid` gains exactly their numerosity, and every other rule and the
order of the survivors stay as they were. -/
theorem C11_subsumption_conserves {t : CSet} {s : St K X B R} {pend : List Nat}
    (hp : 0 ≤ par.popSize) (inv : Inv s pend) (hnd : t.list.Nodup)
    (hsub : ∀ i ∈ t.list, i ∈ s.pset.list) (hsize : t.size = t.list.length) (hnum : 0 ≤ t.num) :
    ∃ t' s', subsumption par kit t s = .ok (t', s') ∧
      micro (population s') = micro (population s) ∧
      ((t' = t ∧ s' = s) ∨
       ∃ sid ∈ t.list, ∃ sc, s.heap sid = some sc ∧ CanSubsume par sc ∧
        ∃ gone : List Nat, gone.Nodup ∧
        (∀ i, i ∈ gone ↔ i ∈ t.list ∧ i ≠ sid ∧
          ∃ c, s.heap i = some c ∧ kit.general sc.body c.body = true) ∧
        t'.list = t.list.filter (fun i => decide (i ∉ gone)) ∧
        s'.pset.list = s.pset.list.filter (fun i => decide (i ∉ gone)) ∧
        s'.heap sid = some { sc with num := sc.num + micro (gone.filterMap s.heap) } ∧
        ∀ i, i ≠ sid → i ∉ gone → s'.heap i = s.heap i) := by
  obtain ⟨t', s', e, h1, h2, h3, _, _, _, _, h4⟩ := subsumption_post (lawsTriv par kit hp)
    inv.good (t := t) ⟨hnd, hsub, hsize, hnum⟩
  refine ⟨t', s', e, ?_, ?_⟩
  · rw [population, population, filterMap_micro h1.good.inv.p.allLive,
      filterMap_micro inv.p.allLive, ← h1.good.inv.p.num, ← inv.p.num, h3]
  · rcases h4 with h4 | ⟨sid, hs, sc, hsc, hsb, k1, k2, k3, k4, k5⟩
    · exact Or.inl h4
    · refine Or.inr ⟨sid, hs, sc, hsc, ?_, absorbed kit s sid t.list, ?_, ?_, k1, k3, ?_, k5⟩
      · simpa [subsumer, CanSubsume] using hsb
      · exact hnd.sublist List.filter_sublist
      · intro i
        unfold absorbed
        rw [List.mem_filter, hsc, Bool.and_eq_true, decide_eq_true_eq]
        constructor
        · rintro ⟨q1, q2, q3⟩
          refine ⟨q1, q2, ?_⟩
          cases hi : s.heap i with
          | none => rw [hi] at q3; cases q3
          | some c => rw [hi] at q3; exact ⟨c, rfl, q3⟩
        · rintro ⟨q1, q2, c, hc, q3⟩
          refine ⟨q1, q2, ?_⟩
          rw [hc]; exact q3
      · rw [k4, filterMap_micro]
        intro i hi
        exact inv.p.isSome (hsub i (List.mem_filter.1 hi).1)

/-! ### Offspring -/

theorem filterMap_raise {s s' : St K X B R} {p : Nat} {c : Cl K B} : ∀ {l : List Nat}, l.Nodup →
    p ∈ l → s.heap p = some c → s'.heap p = some { c with num := c.num + 1 } →
    (∀ j ∈ l, j ≠ p → s'.heap j = s.heap j) →
    ∃ pre post, l.filterMap s.heap = pre ++ c :: post ∧
      l.filterMap s'.heap = pre ++ { c with num := c.num + 1 } :: post := by
  intro l hn hp hc hc' hj
  obtain ⟨l1, l2, rfl⟩ := List.append_of_mem hp
  have hd := List.nodup_append.1 hn
  have hd2 := List.nodup_cons.1 hd.2.1
  refine ⟨l1.filterMap s.heap, l2.filterMap s.heap, ?_, ?_⟩
  · rw [List.filterMap_append, List.filterMap_cons_some hc]
  · rw [List.filterMap_append, List.filterMap_cons_some hc']
    congr 1
    · apply filterMap_congr'
      intro j hj1
      exact hj j (by simp [hj1]) (fun e => hd.2.2 j hj1 p List.mem_cons_self e)
    · congr 1
      apply filterMap_congr'
      intro j hj2
      exact hj j (by simp [hj2]) (fun e => hd2.1 (e ▸ hj2))

/-- **C12**, one offspring `c` of the parents `p1`, `p2`: it becomes one new rule of
numerosity one at the head of the population, or exactly one rule of the population gains
one: the parent if the offspring was left unmodified, otherwise an experienced, accurate,
more general rule. -/
theorem C12_offspring_adds_one (hp : 0 ≤ par.popSize) {t : List Nat} {s s' : St K X B R}
    {pend : List Nat} {i p1 p2 : Nat} {c : Cl K B} (cmod mmod : Bool) (inv : Inv s (i :: pend))
    (hi : s.heap i = some c) (h1 : p1 ∈ s.pset.list) (h2 : p2 ∈ s.pset.list)
    (ht : ∀ j ∈ t, j ∈ s.pset.list) (h : eaAdd par kit t p1 p2 i cmod mmod s = .ok s') :
    micro (population s') = micro (population s) + 1 ∧
    ((population s' = c :: population s ∧ c.num = 1 ∧ (cmod = true ∨ mmod = true)) ∨
     RaisesOne (fun d => (cmod = false ∧ mmod = false ∧ s.heap p1 = some d) ∨
       ((cmod = true ∨ mmod = true) ∧ par.eaSubsumption = true ∧ CanSubsume par d ∧
         kit.general d.body c.body = true)) (population s) (population s')) := by
  have q := post_of_ok (eaAdd_post (lawsTriv par kit hp) cmod mmod inv.good h1 h2 ht) h
  obtain ⟨n1, n2, n3⟩ := inv.p1 i List.mem_cons_self
  refine ⟨?_, ?_⟩
  · rw [population, population, filterMap_micro q.good.inv.p.allLive,
      filterMap_micro inv.p.allLive, ← q.good.inv.p.num, ← inv.p.num, q.num]
  · rcases q.how with ⟨k1, k2⟩ | ⟨k1, k2, p, hpm, hJ, d, hd, k3, k4⟩
    · refine Or.inl ⟨?_, ?_, ?_⟩
      · rw [population, k1, k2, List.filterMap_cons_some hi]; rfl
      · rw [nums_of_heap hi] at n1; exact Option.some.inj n1
      · cases cmod
        · cases mmod
          · exfalso
            unfold eaAdd at h
            have h : (incNum s p1 >>= fun s => s.freeCl i) = .ok s' := h
            obtain ⟨s2, e2, q2⟩ := absorb_post (lawsTriv par kit hp)
              (J := fun _ => True) inv.good h1 trivial
            rw [e2] at h; cases h
            obtain ⟨d, hd, e3, _⟩ := incNum_post (lawsTriv par kit hp) inv.good h1
            rw [e3] at e2
            have e2 : ({ s.put p1 { d with num := d.num + 1 } with
              pset := { s.pset with num := s.pset.num + 1 } } : St K X B R).freeCl i = .ok s' := e2
            have hne : i ≠ p1 := fun e => n2 (e ▸ h1)
            have hl : s'.pset.list = s.pset.list := by
              unfold St.freeCl at e2
              split at e2
              · cases e2; rfl
              · cases e2
            rw [hl] at k1
            have := congrArg List.length k1
            simp at this
          · exact Or.inr rfl
        · exact Or.inl rfl
    · right
      have hne : ∀ j ∈ s.pset.list, j ≠ i := fun j hj e => n2 (e ▸ hj)
      obtain ⟨pre, post, e1, e2⟩ := filterMap_raise inv.p.nodup hpm hd k3
        (fun j hj hjp => k4 j (hne j hj) hjp)
      refine ⟨pre, d, post, e1, ?_, ?_⟩
      · rw [population, k1]; exact e2
      · rcases hJ with ⟨j1, j2, rfl⟩ | ⟨j1, j2, d', c', j3, j4, j5, j6, j7⟩
        · exact Or.inl ⟨j1, j2, hd⟩
        · rw [hd] at j3; cases j3
          rw [hi] at j4; cases j4
          exact Or.inr ⟨j1, j2, ⟨j5, j6⟩, j7⟩

/-- **C12**, the whole run: before the population limit is enforced the total numerosity has
grown by exactly `2 * ceil(lambda / 2)`. -/
theorem C12_run_adds_lambda (hp : 0 ≤ par.popSize) (hlam : 0 ≤ par.eaLambda) {t : CSet}
    {s s' : St K X B R} {pend : List Nat} (inv : Inv s pend) (hnd : t.list.Nodup)
    (hsub : ∀ i ∈ t.list, i ∈ s.pset.list) (hsize : t.size = t.list.length) (hnum : 0 ≤ t.num)
    (hne : t.list ≠ []) (h : eaBreed par kit t s = .ok s') :
    micro (population s') = micro (population s) + 2 * ((par.eaLambda + 1) / 2) := by
  obtain ⟨q1, q2, _⟩ := post_of_ok (eaBreed_post (lawsTriv par kit hp) inv.good (t := t)
    ⟨hnd, hsub, hsize, hnum⟩ hne) h
  rw [population, population, filterMap_micro q1.inv.p.allLive,
      filterMap_micro inv.p.allLive, ← q1.inv.p.num, ← inv.p.num, q2, brood]
  omega

/-! ### The time gate -/

/-- The EA is due for a set: it is not empty and the current time exceeds the
numerosity-weighted mean time stamp of its rules by at least `theta_ea`. -/
def EaDue (par : Params K) (rules : List (Cl K B)) (now : Int) : Prop :=
  rules ≠ [] ∧ ¬ ((now : K) -
    rules.foldl (fun a c => a + ((c.time * c.num : Int) : K)) 0 / (micro rules : K) < par.eaTheta)

/-- **C13.** For a set of rules of the population with exact counters: the clock advances by
exactly one; if the EA is not due nothing but the clock changes; if it is due, every rule
of the set that still exists afterwards carries the current time. -/
theorem C13_ea_gate (hp : 0 ≤ par.popSize) {t : CSet} {s s' : St K X B R} {pend : List Nat}
    (inv : Inv s pend) (hnd : t.list.Nodup) (hsub : ∀ i ∈ t.list, i ∈ s.pset.list)
    (hsize : t.size = t.list.length) (hnum : t.num = micro (t.list.filterMap s.heap))
    (h : ea par kit t s = .ok s') :
    s'.time = s.time + 1 ∧
    (¬ EaDue par (t.list.filterMap s.heap) (s.time + 1) → s' = { s with time := s.time + 1 }) ∧
    (EaDue par (t.list.filterMap s.heap) (s.time + 1) →
      ∀ i ∈ t.list, ∀ c', s'.heap i = some c' → c'.time = s.time + 1) := by
  have hlive : ∀ i ∈ t.list, (s.heap i).isSome := fun i hi => inv.p.isSome (hsub i hi)
  have hnn : 0 ≤ t.num := by
    rw [hnum, filterMap_micro hlive]
    have : SetOK s.nums { list := t.list, size := t.size, num := nsum s.nums t.list } :=
      ⟨hnd, fun i hi => inv.p.pos i (hsub i hi), hsize, rfl⟩
    have := this.num_nonneg
    simp at this; omega
  have w : Within s t := ⟨hnd, hsub, hsize, hnn⟩
  have q := post_of_ok (ea_post (lawsTriv par kit hp) inv.good w) h
  have hdue : eaDue par t (t.list.filterMap s.heap) (s.time + 1) = true ↔
      EaDue par (t.list.filterMap s.heap) (s.time + 1) := by
    unfold eaDue EaDue meanTime totalTime
    rw [← hnum]
    have : t.size = 0 ↔ t.list.filterMap s.heap = [] := by
      rw [hsize, ← filterMap_length hlive]
      simp
    simp [this]
  refine ⟨q.2.1, fun hn => ?_, fun hd => ?_⟩
  · unfold ea at h
    have h : (s.rds t.list >>= _) = _ := h
    rw [rds_eq_filterMap hlive] at h
    have h : (if eaDue par t (t.list.filterMap s.heap) (s.time + 1) = true then _ else
      Except.ok { s with time := s.time + 1 }) = _ := h
    rw [if_neg (fun e => hn (hdue.1 e))] at h
    cases h; rfl
  · unfold ea at h
    have h : (s.rds t.list >>= _) = _ := h
    rw [rds_eq_filterMap hlive] at h
    have h : (if eaDue par t (t.list.filterMap s.heap) (s.time + 1) = true then
      (eaBreed par kit t { s with time := s.time + 1 } >>= fun s => enforce par kit s) else
      Except.ok { s with time := s.time + 1 }) = _ := h
    rw [if_pos (hdue.2 hd)] at h
    have g1 : Good (fun _ => True) { s with time := s.time + 1 } pend :=
      inv.good.congr rfl rfl rfl rfl rfl
    have hne : t.list ≠ [] := by
      intro e; apply hd.1; rw [e]; rfl
    cases e : eaBreed par kit t { s with time := s.time + 1 } with
    | error e' => rw [e] at h; cases h
    | ok s1 =>
      rw [e] at h
      have h : enforce par kit s1 = .ok s' := h
      obtain ⟨k1, k2, _, _, _, _, k3, _⟩ := post_of_ok (eaBreed_post (lawsTriv par kit hp) g1
        (t := t) ⟨w.nodup, w.sub, w.size, w.num⟩ hne) e
      obtain ⟨m1, _⟩ := post_of_ok (enforce_post (lawsTriv par kit hp) k1) h
      intro i hi c' hc'
      obtain ⟨c, hc⟩ := Option.isSome_iff_exists.1 (hlive i hi)
      obtain ⟨n, e1⟩ := k3 i c hc
      obtain ⟨n2, e2⟩ := m1.cells.1 i _ e1
      rw [hc'] at e2
      cases e2
      simp [hi]

end Any

/-! ## The hypotheses are met by concrete executions -/

section Examples
open Demo

/-- Match relation of the demonstration system. -/
def demoM (b : Nat × Nat) (x : Nat) : Bool := b.1 == 0 || b.1 == x

example : (∀ e b x r, (Demo.kit.cmatch e b x r).1 = demoM b x) ∧
    (∀ e b x r, demoM (Demo.kit.cmatch e b x r).2.1 x = demoM b x) ∧
    (∀ e b x r, demoM (Demo.kit.act e b x r).2.1 x = demoM b x) ∧
    (∀ e b x a r b' r', Demo.kit.cover e b x a r = .ok (b', r') → demoM b' x = true) ∧
    (∀ e b x r, 0 ≤ (Demo.kit.act e b x r).1 ∧ (Demo.kit.act e b x r).1 < Demo.par.nActions) :=
  ⟨fun _ _ _ _ => rfl, fun _ _ _ _ => rfl, fun _ _ _ _ => rfl,
    fun e b x a r b' r' h => by cases h; simp [demoM],
    fun e b x r => ⟨Demo.regular.act0 e b x r trivial, Demo.regular.act1 e b x r trivial⟩⟩

/-- After the demonstration history, matching input 2 with covering succeeds and yields a
match set with fewer rules than the population; the system is ready for C07–C10. -/
example : ∃ s s', run Demo.par Demo.kit 0 Demo.ops = .ok s ∧ Inv s [] ∧ s.mset = {} ∧
    s.pset.num ≤ Demo.par.popSize ∧ clsetMatch Demo.par Demo.kit 2 true s = .ok s' ∧
    2 ≤ s'.mset.list.length ∧ s'.mset.list.length < s'.pset.list.length := by
  obtain ⟨s, h1, h2⟩ := Res.test_iff (m := run Demo.par Demo.kit 0 Demo.ops)
    (p := fun s => decide (s.mset = {}) && Res.test (clsetMatch Demo.par Demo.kit 2 true s)
      (fun s' => decide (2 ≤ s'.mset.list.length ∧ s'.mset.list.length < s'.pset.list.length)))
    (by decide +kernel)
  rw [Bool.and_eq_true, decide_eq_true_eq] at h2
  obtain ⟨s', h3, h4⟩ := Res.test_iff h2.2
  have b := reachable_between (by decide) (by decide +kernel) h1
  exact ⟨s, s', h1, b.good.inv, h2.1, b.cap.2, h3, of_decide_eq_true h4⟩

/-- Rule with a given body, numerosity, experience and error. -/
def demoRule (b : Nat × Nat) (num exp : Int) : Cl ℚ (Nat × Nat) :=
  { clInit Demo.par 10 0 b with num := num, exp := exp, action := (b.2 : Int) }

/-- A population in which set subsumption and the EA act: an experienced general rule and a
specific one; the EA is due. -/
def demoPop : List (Op ℚ Nat (Nat × Nat)) :=
  [.insert (demoRule (1, 0) 1 0), .insert (demoRule (0, 0) 1 5), .insert (demoRule (7, 1) 1 5)]

example : ∃ s t' s', run Demo.par Demo.kit 0 demoPop = .ok s ∧ Inv s [] ∧
    s.pset.list = [2, 1, 0] ∧
    subsumption Demo.par Demo.kit { list := [0, 1], size := 2, num := 2 } s = .ok (t', s') ∧
    t'.list = [1] ∧ s'.pset.list = [2, 1] ∧ s'.pset.num = 3 := by
  obtain ⟨s, h1, h2⟩ := Res.test_iff (m := run Demo.par Demo.kit 0 demoPop)
    (p := fun s => decide (s.pset.list = [2, 1, 0]) && Res.test
      (subsumption Demo.par Demo.kit { list := [0, 1], size := 2, num := 2 } s)
      (fun s' => decide (s'.1.list = [1] ∧ s'.2.pset.list = [2, 1] ∧ s'.2.pset.num = 3)))
    (by decide +kernel)
  rw [Bool.and_eq_true, decide_eq_true_eq] at h2
  obtain ⟨⟨t', s'⟩, h3, h4⟩ := Res.test_iff h2.2
  exact ⟨s, t', s', h1, (reachable_between (by decide) (by decide +kernel) h1).good.inv, h2.1, h3,
    of_decide_eq_true h4⟩

/-- The EA runs on a set of two rules and adds two micro-classifiers before deletion; one
of them is a new rule. -/
example : ∃ s s', run Demo.par Demo.kit 0 demoPop = .ok s ∧ Inv s [] ∧
    EaDue Demo.par ([0, 1].filterMap s.heap) (s.time + 1) ∧
    eaBreed Demo.par Demo.kit { list := [0, 1], size := 2, num := 2 } s = .ok s' ∧
    s'.pset.list.length = 4 ∧ s'.pset.num = 5 := by
  obtain ⟨s, h1, h2⟩ := Res.test_iff (m := run Demo.par Demo.kit 0 demoPop)
    (p := fun s => decide ([0, 1].filterMap s.heap ≠ []) && decide (¬ (((s.time + 1 : Int) : ℚ) -
        ([0, 1].filterMap s.heap).foldl (fun a c => a + ((c.time * c.num : Int) : ℚ)) 0 /
          (micro ([0, 1].filterMap s.heap) : ℚ) < Demo.par.eaTheta)) && Res.test
      (eaBreed Demo.par Demo.kit { list := [0, 1], size := 2, num := 2 } s)
      (fun s' => decide (s'.pset.list.length = 4 ∧ s'.pset.num = 5)))
    (by decide +kernel)
  rw [Bool.and_eq_true, Bool.and_eq_true, decide_eq_true_eq, decide_eq_true_eq] at h2
  obtain ⟨s', h3, h4⟩ := Res.test_iff h2.2
  refine ⟨s, s', h1, (reachable_between (by decide) (by decide +kernel) h1).good.inv,
    ⟨h2.1.1, ?_⟩, h3, of_decide_eq_true h4⟩
  exact h2.1.2

/-- Parameters of the C09 witness: room for two micro-classifiers. -/
def tightPar : Params ℚ := { Demo.par with popSize := 2 }

/-- **C09 is false.** A rule of numerosity 2 fills the population and matches the input with
action 0; covering action 1 deletes one of its two micro-classifiers, but the match set
still records three although its rules represent two. -/
theorem C09_refuted :
    ∃ s s', run tightPar Demo.kit 1 [.insert (demoRule (1, 0) 2 0)] = .ok s ∧
      Inv s [] ∧ s.mset = {} ∧ clsetMatch tightPar Demo.kit 1 true s = .ok s' ∧
      s'.mset.num = 3 ∧ micro (s'.mset.list.filterMap s'.heap) = 2 := by
  obtain ⟨s, h1, h2⟩ := Res.test_iff
    (m := run tightPar Demo.kit 1 [.insert (demoRule (1, 0) 2 0)])
    (p := fun s => decide (s.mset = {}) && Res.test (clsetMatch tightPar Demo.kit 1 true s)
      (fun s' => decide (s'.mset.num = 3 ∧ micro (s'.mset.list.filterMap s'.heap) = 2)))
    (by decide +kernel)
  rw [Bool.and_eq_true, decide_eq_true_eq] at h2
  obtain ⟨s', h3, h4⟩ := Res.test_iff h2.2
  have b := reachable_between (by decide) (by decide +kernel) h1
  exact ⟨s, s', h1, b.good.inv, h2.1, h3, of_decide_eq_true h4⟩

/-- The room condition of the partial theorem is met by the demonstration parameters with
two rules in the population. -/
example : ∃ s s', run Demo.par Demo.kit 1 [.insert (demoRule (1, 0) 2 0)] = .ok s ∧
    s.mset = {} ∧ s.pset.num + Demo.par.nActions ≤ Demo.par.popSize ∧
    clsetMatch Demo.par Demo.kit 1 true s = .ok s' ∧ s'.mset.num = 3 := by
  obtain ⟨s, h1, h2⟩ := Res.test_iff
    (m := run Demo.par Demo.kit 1 [.insert (demoRule (1, 0) 2 0)])
    (p := fun s => decide (s.mset = {} ∧ s.pset.num + Demo.par.nActions ≤ Demo.par.popSize) &&
      Res.test (clsetMatch Demo.par Demo.kit 1 true s) (fun s' => decide (s'.mset.num = 3)))
    (by decide +kernel)
  rw [Bool.and_eq_true, decide_eq_true_eq] at h2
  obtain ⟨s', h3, h4⟩ := Res.test_iff h2.2
  exact ⟨s, s', h1, h2.1.1, h2.1.2, h3, of_decide_eq_true h4⟩

end Examples
end Xcsf
