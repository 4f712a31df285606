import Verif.CoreOps

/-!
# Validation, covering and matching: invariant preservation
-/

set_option linter.unusedSectionVars false

namespace Xcsf
variable {K X B R : Type} [Zero K] [One K] [Add K] [Sub K] [Mul K] [Div K]
  [LT K] [DecidableLT K] [IntCast K] [DecidableEq K]
variable {par : Params K} {kit : Kit K X B R} {V : Cl K B → Prop} {E : Fault → Prop}

/-! ## Validation -/

theorem validateGo_spec {s : St K X B R} : ∀ {l : List Nat}, (∀ i ∈ l, (s.heap i).isSome) →
    ∃ t, validateGo s l = .ok t ∧ t.list = l.filter (fun i => s.nums i ≠ some 0) ∧
      t.size = t.list.length ∧ t.num = nsum s.nums t.list
  | [], _ => ⟨{}, rfl, rfl, rfl, rfl⟩
  | i :: l, h => by
    obtain ⟨t, h1, h2, h3, h4⟩ := validateGo_spec (s := s) (l := l)
      (fun j hj => h j (List.mem_cons_of_mem _ hj))
    obtain ⟨c, hc⟩ := Option.isSome_iff_exists.1 (h i List.mem_cons_self)
    have hn := nums_of_heap hc
    unfold validateGo
    rw [rd_ok hc, h1]
    by_cases e : c.num = 0
    · refine ⟨t, ?_, ?_, h3, h4⟩
      · show (if c.num = 0 then _ else _) = _
        rw [if_pos e]
      · rw [List.filter_cons_of_neg (by simp [hn, e])]; exact h2
    · refine ⟨{ list := i :: t.list, size := t.size + 1, num := t.num + c.num }, ?_, ?_, ?_, ?_⟩
      · show (if c.num = 0 then _ else _) = _
        rw [if_neg e]
      · rw [List.filter_cons_of_pos (by simp [hn, e]), h2]
      · simp [h3]
      · simp [h4, hn]; omega

/-- A set of rules of the population (or of the kill list), listed once each. -/
structure Weak (s : St K X B R) (t : CSet) : Prop where
  nodup : t.list.Nodup
  sub : ∀ i ∈ t.list, i ∈ s.pset.list ∨ i ∈ s.kset.list

/-- A set of rules of the population, listed once each, with a correct size and a
non-negative recorded numerosity. -/
structure Within (s : St K X B R) (t : CSet) : Prop where
  nodup : t.list.Nodup
  sub : ∀ i ∈ t.list, i ∈ s.pset.list
  size : t.size = t.list.length
  num : 0 ≤ t.num

theorem Within.weak {s : St K X B R} {t : CSet} (h : Within s t) : Weak s t :=
  ⟨h.nodup, fun i hi => Or.inl (h.sub i hi)⟩

theorem Weak.keep {s s' : St K X B R} {t : CSet} (h : Weak s t) (k : Keep s s') : Weak s' t :=
  ⟨h.nodup, fun i hi => k.sub i (h.sub i hi)⟩

theorem Weak.nil (s : St K X B R) : Weak s {} := ⟨List.nodup_nil, by simp⟩

theorem Within.nil (s : St K X B R) : Within s {} := ⟨List.nodup_nil, by simp, rfl, Int.le_refl _⟩

theorem Good.liveP {s : St K X B R} {pend : List Nat} (g : Good V s pend) {i : Nat}
    (hi : i ∈ s.pset.list) : ∃ c, s.heap i = some c ∧ 1 ≤ c.num ∧ V c := by
  obtain ⟨c, hc, h1⟩ := g.inv.p.live hi
  exact ⟨c, hc, h1, g.vals i c hc⟩

theorem Good.liveK {s : St K X B R} {pend : List Nat} (g : Good V s pend) {i : Nat}
    (hi : i ∈ s.kset.list) : ∃ c, s.heap i = some c ∧ c.num = 0 := by
  obtain ⟨c, hc, e⟩ := heap_of_nums (g.inv.kz i hi)
  exact ⟨c, hc, e⟩

/-- Validating a weak set leaves exactly its members that are still in the
population, with exact counters. -/
theorem validate_weak {s : St K X B R} {pend : List Nat} (g : Good V s pend) {t : CSet}
    (w : Weak s t) : ∃ t', validate s t = .ok t' ∧ Within s t' ∧ t'.num = nsum s.nums t'.list ∧
      t'.list = t.list.filter (fun i => s.nums i ≠ some 0) ∧ t'.list.Sublist t.list := by
  obtain ⟨t', h1, h2, h3, h4⟩ := validateGo_spec (s := s) (l := t.list) (by
    intro i hi
    rcases w.sub i hi with h | h
    · exact g.inv.p.isSome h
    · obtain ⟨c, hc, _⟩ := g.liveK h; simp [hc])
  have hsl : t'.list.Sublist t.list := h2 ▸ List.filter_sublist
  have hsub : ∀ i ∈ t'.list, i ∈ s.pset.list := by
    intro i hi
    rw [h2] at hi
    obtain ⟨hi1, hi2⟩ := List.mem_filter.1 hi
    rcases w.sub i hi1 with h | h
    · exact h
    · have := g.inv.kz i h; simp [this] at hi2
  refine ⟨t', h1, ⟨w.nodup.sublist hsl, hsub, h3, ?_⟩, h4, h2, hsl⟩
  rw [h4]
  clear h4 h3 h2 h1
  have : ∀ l : List Nat, (∀ i ∈ l, i ∈ s.pset.list) → 0 ≤ nsum s.nums l := by
    intro l
    induction l with
    | nil => simp
    | cons i l ih =>
      intro hl
      have h1 := ih (fun j hj => hl j (List.mem_cons_of_mem _ hj))
      obtain ⟨n, hn, hn1⟩ := g.inv.p.pos i (hl i List.mem_cons_self)
      simp only [nsum_cons, hn, Option.getD_some]; omega
  exact this _ hsub

/-! ## New rules -/

theorem alloc_fst (s : St K X B R) (c : Cl K B) : (s.alloc c).1 = s.next := rfl

theorem alloc_heap (s : St K X B R) (c : Cl K B) (j : Nat) :
    (s.alloc c).2.heap j = if j = s.next then some c else s.heap j := rfl

theorem alloc_nums (s : St K X B R) (c : Cl K B) (j : Nat) :
    (s.alloc c).2.nums j = if j = s.next then some c.num else s.nums j := by
  simp only [St.nums, alloc_heap]; split <;> rfl

theorem Inv.notMem_next {s : St K X B R} {pend : List Nat} (h : Inv s pend) :
    s.next ∉ s.pset.list ∧ s.next ∉ s.prevPset.list ∧ s.next ∉ s.kset.list ∧ s.next ∉ pend := by
  have hf := h.fresh s.next (Nat.le_refl _)
  refine ⟨fun hi => ?_, fun hi => ?_, fun hi => ?_, fun hi => ?_⟩
  · obtain ⟨n, hn, _⟩ := h.p.pos _ hi; rw [hf] at hn; simp at hn
  · obtain ⟨n, hn, _⟩ := h.q.pos _ hi; rw [hf] at hn; simp at hn
  · have := h.kz _ hi; rw [hf] at this; simp at this
  · have := (h.p1 _ hi).1; rw [hf] at this; simp at this

/-- Allocating a rule of numerosity one that is not yet in a set. -/
theorem Good.alloc {s : St K X B R} {pend : List Nat} (g : Good V s pend) {c : Cl K B} (hv : V c)
    (hn : c.num = 1) : Good V (s.alloc c).2 (s.next :: pend) := by
  have inv := g.inv
  obtain ⟨n1, n2, n3, n4⟩ := inv.notMem_next
  have hnums : ∀ j, j ≠ s.next → (s.alloc c).2.nums j = s.nums j := by
    intro j hj; rw [alloc_nums]; simp [hj]
  have hself : (s.alloc c).2.nums s.next = some 1 := by rw [alloc_nums]; simp [hn]
  refine ⟨?_, ?_⟩
  · constructor
    · exact inv.p.congr (fun j hj => hnums j (fun e => n1 (e ▸ hj)))
    · exact inv.q.congr (fun j hj => hnums j (fun e => n2 (e ▸ hj)))
    · exact inv.pq
    · intro j hj; exact (hnums j (fun e => n3 (e ▸ hj))).trans (inv.kz j hj)
    · exact inv.knd
    · exact List.nodup_cons.2 ⟨n4, inv.pnd⟩
    · intro j hj
      rcases List.mem_cons.1 hj with e | hj
      · subst e; exact ⟨hself, n1, n2⟩
      · exact ⟨(hnums j (fun e => n4 (e ▸ hj))).trans (inv.p1 j hj).1, (inv.p1 j hj).2⟩
    · intro j hj
      by_cases e : j = s.next
      · subst e; exact Or.inr (Or.inr (Or.inr List.mem_cons_self))
      · have : (s.nums j).isSome := by rw [← hnums j e]; exact hj
        rcases inv.own j this with h | h | h | h
        · exact Or.inl h
        · exact Or.inr (Or.inl h)
        · exact Or.inr (Or.inr (Or.inl h))
        · exact Or.inr (Or.inr (Or.inr (List.mem_cons_of_mem _ h)))
    · intro j hj
      have hj' : s.next + 1 ≤ j := hj
      rw [hnums j (by omega)]; exact inv.fresh j (by omega)
  · intro j d hd
    rw [alloc_heap] at hd
    split at hd
    · cases hd; exact hv
    · exact g.vals j d hd

/-- Allocating a rule and adding it to the population. -/
theorem Good.insert {s : St K X B R} {pend : List Nat} (g : Good V s pend) {c : Cl K B} (hv : V c)
    (hn : 1 ≤ c.num) :
    Good V { (s.alloc c).2 with pset := s.pset.add s.next c.num } pend := by
  have inv := g.inv
  obtain ⟨n1, n2, n3, n4⟩ := inv.notMem_next
  have hnums : ∀ j, j ≠ s.next → (s.alloc c).2.nums j = s.nums j := by
    intro j hj; rw [alloc_nums]; simp [hj]
  have hself : (s.alloc c).2.nums s.next = some c.num := by rw [alloc_nums]; simp
  have hp := inv.p.congr (g := (s.alloc c).2.nums) (fun j hj => hnums j (fun e => n1 (e ▸ hj)))
  refine ⟨?_, ?_⟩
  · constructor
    · refine ⟨List.nodup_cons.2 ⟨n1, hp.nodup⟩, ?_, ?_, ?_⟩
      · intro j hj
        rcases List.mem_cons.1 hj with e | hj
        · subst e; exact ⟨_, hself, hn⟩
        · exact hp.pos j hj
      · have := hp.size; simp only [CSet.add, List.length_cons]; omega
      · show s.pset.num + c.num = nsum (s.alloc c).2.nums (s.next :: s.pset.list)
        rw [nsum_cons, hself, hp.num]; simp; omega
    · exact inv.q.congr (fun j hj => hnums j (fun e => n2 (e ▸ hj)))
    · intro j hj
      rcases List.mem_cons.1 hj with e | hj
      · subst e; exact n2
      · exact inv.pq j hj
    · intro j hj; exact (hnums j (fun e => n3 (e ▸ hj))).trans (inv.kz j hj)
    · exact inv.knd
    · exact inv.pnd
    · intro j hj
      refine ⟨(hnums j (fun e => n4 (e ▸ hj))).trans (inv.p1 j hj).1, ?_, (inv.p1 j hj).2.2⟩
      intro h
      rcases List.mem_cons.1 h with e | h
      · subst e; exact n4 hj
      · exact (inv.p1 j hj).2.1 h
    · intro j hj
      by_cases e : j = s.next
      · subst e; exact Or.inl List.mem_cons_self
      · have : (s.nums j).isSome := by rw [← hnums j e]; exact hj
        rcases inv.own j this with h | h | h | h
        · exact Or.inl (List.mem_cons_of_mem _ h)
        · exact Or.inr (Or.inl h)
        · exact Or.inr (Or.inr (Or.inl h))
        · exact Or.inr (Or.inr (Or.inr h))
    · intro j hj
      have hj' : s.next + 1 ≤ j := hj
      exact (hnums j (by omega)).trans (inv.fresh j (by omega))
  · intro j d hd
    have hd' : (s.alloc c).2.heap j = some d := hd
    rw [alloc_heap] at hd'
    split at hd'
    · cases hd'; exact hv
    · exact g.vals j d hd'

/-! ## Covering -/

/-- A rule of the list advocates action `a`. -/
def Advocated (s : St K X B R) (l : List Nat) (a : Nat) : Prop :=
  ∃ i ∈ l, ∃ c, s.heap i = some c ∧ c.action = a

theorem markActions_post (L : Laws par kit V E) {s : St K X B R} (hV : Vals s V) :
    ∀ (l : List Nat) (cov : List Bool), (∀ i ∈ l, (s.heap i).isSome) →
    cov.length = par.nActions →
    Post (markActions s l cov) (fun cov' => cov'.length = par.nActions ∧
      ∀ a, cov'[a]? = some true ↔ (a < par.nActions ∧ (cov[a]? = some true ∨ Advocated s l a))) E
  | [], cov, _, hc => by
    unfold markActions
    refine ⟨hc, fun a => ⟨fun h => ⟨?_, Or.inl h⟩, ?_⟩⟩
    · rw [← hc]; exact (List.getElem?_eq_some_iff.1 h).1
    · rintro ⟨_, h | ⟨i, hi, _⟩⟩
      · exact h
      · simp at hi
  | i :: l, cov, hl, hc => by
    unfold markActions
    obtain ⟨c, hci⟩ := Option.isSome_iff_exists.1 (hl i List.mem_cons_self)
    rw [rd_ok hci]
    show Post (if 0 ≤ c.action ∧ c.action.toNat < cov.length then _ else _) _ _
    split
    · next h =>
      refine post_mono (markActions_post L hV l _ (fun j hj => hl j (List.mem_cons_of_mem _ hj))
        (by simpa using hc)) ?_
      rintro cov' ⟨h1, h2⟩
      refine ⟨h1, fun a => ?_⟩
      rw [h2 a, List.getElem?_set]
      constructor
      · rintro ⟨ha, h3 | ⟨j, hj, d, hd, e⟩⟩
        · refine ⟨ha, ?_⟩
          split at h3
          · next e => exact Or.inr ⟨i, List.mem_cons_self, c, hci, by omega⟩
          · exact Or.inl h3
        · exact ⟨ha, Or.inr ⟨j, List.mem_cons_of_mem _ hj, d, hd, e⟩⟩
      · rintro ⟨ha, h3 | ⟨j, hj, d, hd, e⟩⟩
        · refine ⟨ha, Or.inl ?_⟩
          split
          · simp [h.2]
          · exact h3
        · rcases List.mem_cons.1 hj with ej | hj
          · subst ej
            rw [hci] at hd; cases hd
            refine ⟨ha, Or.inl ?_⟩
            have : c.action.toNat = a := by omega
            simp [this, h.2 |> (this ▸ ·)]
          · exact ⟨ha, Or.inr ⟨j, hj, d, hd, e⟩⟩
    · next h =>
      rcases L.action c (hV i c hci) with h1 | h1
      · exact h1
      · exact absurd ⟨h1.1, by omega⟩ h

theorem actionCoverage_post (L : Laws par kit V E) {s : St K X B R} {pend : List Nat}
    (g : Good V s pend) (hm : ∀ i ∈ s.mset.list, i ∈ s.pset.list) :
    Post (actionCoverage par s) (fun p => p.1.length = par.nActions ∧
      (∀ a, p.1[a]? = some true ↔ (a < par.nActions ∧ Advocated s s.mset.list a)) ∧
      (p.2 = true → ∀ a, a < par.nActions → Advocated s s.mset.list a)) E := by
  unfold actionCoverage
  refine post_bind (markActions_post L g.vals s.mset.list _
    (fun i hi => g.inv.p.isSome (hm i hi)) (by simp)) ?_
  rintro cov ⟨h1, h2⟩
  have h3 : ∀ a, cov[a]? = some true ↔ (a < par.nActions ∧ Advocated s s.mset.list a) := by
    intro a
    rw [h2 a]
    constructor
    · rintro ⟨ha, h | h⟩
      · rw [List.getElem?_replicate] at h; simp at h
      · exact ⟨ha, h⟩
    · rintro ⟨ha, h⟩; exact ⟨ha, Or.inr h⟩
  refine ⟨h1, h3, ?_⟩
  intro hall a ha
  have hall' : cov.all id = true := hall
  rw [List.all_eq_true] at hall'
  have hlt : a < cov.length := by omega
  have := hall' cov[a] (List.getElem_mem hlt)
  exact ((h3 a).1 (by rw [List.getElem?_eq_getElem hlt]; simpa using this)).2

/-- What matching and covering may change: the population gains rules, the kill list
gains the deleted ones; existing rules change at most their numerosity. -/
structure Grown (V : Cl K B → Prop) (s s' : St K X B R) (pend : List Nat) : Prop where
  good : Good V s' pend
  keep : Keep s s'
  prevPset : s'.prevPset = s.prevPset
  aset : s'.aset = s.aset
  prevAset : s'.prevAset = s.prevAset
  explore : s'.explore = s.explore
  prevState : s'.prevState = s.prevState
  prevReward : s'.prevReward = s.prevReward
  prevPred : s'.prevPred = s.prevPred
  time : s'.time = s.time
  cells : ∀ i c, s.heap i = some c → ∃ n, s'.heap i = some { c with num := n }

theorem Grown.refl {s : St K X B R} {pend : List Nat} (g : Good V s pend) : Grown V s s pend :=
  ⟨g, Keep.refl _, rfl, rfl, rfl, rfl, rfl, rfl, rfl, rfl, fun _ c h => ⟨c.num, h⟩⟩

theorem Grown.trans {a b c : St K X B R} {pend : List Nat} (h : Grown V a b pend)
    (k : Grown V b c pend) : Grown V a c pend :=
  ⟨k.good, h.keep.trans k.keep, k.prevPset.trans h.prevPset, k.aset.trans h.aset,
   k.prevAset.trans h.prevAset, k.explore.trans h.explore, k.prevState.trans h.prevState,
   k.prevReward.trans h.prevReward, k.prevPred.trans h.prevPred, k.time.trans h.time,
   fun i d hd => by
    obtain ⟨n, hn⟩ := h.cells i d hd
    obtain ⟨m, hm⟩ := k.cells i _ hn
    exact ⟨m, hm⟩⟩

/-- Covering one action: the new rule is first in both sets. -/
theorem coverOne_post (L : Laws par kit V E) {s : St K X B R} {pend : List Nat}
    (g : Good V s pend) (hm : Within s s.mset) (x : X) {a : Nat} (ha : a < par.nActions) :
    Post (coverOne par kit x a s) (fun s' => Grown V s s' pend ∧ Within s' s'.mset ∧
      s'.mset.list = s.next :: s.mset.list ∧ s'.pset.list = s.next :: s.pset.list ∧
      s'.pset.num = s.pset.num + 1 ∧ s'.kset = s.kset ∧
      (∀ i, i ≠ s.next → s'.heap i = s.heap i) ∧
      ∃ b r', kit.cover s.explore (kit.rand s.rng).1 x a (kit.rand s.rng).2 = .ok (b, r') ∧
        s'.heap s.next = some { clInit par ((s.mset.num : K) + 1) s.time b with
          m := true, action := a }) E := by
  unfold coverOne
  cases hcv : kit.cover s.explore (kit.rand s.rng).1 x a (kit.rand s.rng).2 with
  | error e => 
    show Post ((kit.cover _ _ x a _) >>= _) _ _
    rw [hcv]; exact L.coverErr _ _ _ _ _ ha hcv
  | ok p =>
    obtain ⟨b, r'⟩ := p
    show Post ((kit.cover _ _ x a _) >>= _) _ _
    rw [hcv]
    have hv := L.cover s.explore s.rng x a b r' s.time s.mset.num ha hm.num hcv
    have g1 : Good V { s with rng := r' } pend := g.congr rfl rfl rfl rfl rfl
    have g2 := g1.insert hv (by simp [clInit])
    obtain ⟨n1, n2, n3, n4⟩ := g.inv.notMem_next
    show Post (.ok _) _ _
    refine ⟨⟨g2.congr rfl rfl rfl rfl rfl, ?_, rfl, rfl, rfl, rfl, rfl, rfl, rfl, rfl, ?_⟩,
      ?_, rfl, rfl, rfl, rfl, ?_, b, r', rfl, ?_⟩
    · refine ⟨fun i hi => ?_, rfl, fun i hi => ?_⟩
      · rcases hi with h | h
        · exact Or.inl (List.mem_cons_of_mem _ h)
        · exact Or.inr h
      · show (if i = s.next then _ else s.heap i) = s.heap i
        rw [if_neg (by intro e; exact n2 (e ▸ hi))]
    · intro i c hc
      refine ⟨c.num, ?_⟩
      show (if i = s.next then _ else s.heap i) = some c
      rw [if_neg]
      · exact hc
      · intro e; subst e
        have := g.inv.fresh s.next (Nat.le_refl _)
        rw [nums_of_heap hc] at this; simp at this
    · refine ⟨List.nodup_cons.2 ⟨fun h => n1 (hm.sub _ h), hm.nodup⟩, ?_, ?_, ?_⟩
      · intro i hi
        rcases List.mem_cons.1 hi with e | h
        · subst e; exact List.mem_cons_self
        · exact List.mem_cons_of_mem _ (hm.sub i h)
      · have := hm.size
        simp only [CSet.add, List.length_cons]; omega
      · have := hm.num
        simp only [CSet.add, clInit]; omega
    · intro i hi
      show (if i = s.next then _ else s.heap i) = s.heap i
      rw [if_neg hi]
    · show (if s.next = s.next then _ else _) = _
      rw [if_pos rfl]

/-- Covering all unrepresented actions. -/
theorem coverActions_post (L : Laws par kit V E) (x : X) : ∀ (cov : List Bool) (a : Nat)
    {s : St K X B R} {pend : List Nat}, Good V s pend → Within s s.mset →
    a + cov.length ≤ par.nActions →
    Post (coverActions par kit x cov a s) (fun s' => Grown V s s' pend ∧ Within s' s'.mset ∧
      s'.kset = s.kset ∧
      (∀ i c, s.heap i = some c → s'.heap i = some c) ∧
      (∀ i, i ∈ s.mset.list → i ∈ s'.mset.list) ∧
      (∀ k, cov[k]? = some false → Advocated s' s'.mset.list (a + k)) ∧
      s'.pset.num ≤ s.pset.num + cov.length) E
  | [], a, s, pend, g, hm, _ => by
    unfold coverActions
    exact ⟨Grown.refl g, hm, rfl, fun _ _ h => h, fun _ h => h, by simp, by simp⟩
  | true :: cov, a, s, pend, g, hm, ha => by
    unfold coverActions
    refine post_mono (coverActions_post L x cov (a + 1) g hm (by simp at ha; omega)) ?_
    rintro s' ⟨h1, h2, h3, h4, h5, h6, h7⟩
    refine ⟨h1, h2, h3, h4, h5, fun k hk => ?_, by simp only [List.length_cons]; omega⟩
    cases k with
    | zero => simp at hk
    | succ k =>
      have := h6 k (by simpa using hk)
      rwa [show a + 1 + k = a + (k + 1) by omega] at this
  | false :: cov, a, s, pend, g, hm, ha => by
    unfold coverActions
    refine post_bind (coverOne_post L g hm x (a := a) (by simp at ha; omega)) ?_
    rintro s1 ⟨k1, k2, k3, k4, k5, k6, k7, b, r', kc, kh⟩
    refine post_mono (coverActions_post L x cov (a + 1) k1.good k2 (by simp at ha; omega)) ?_
    rintro s' ⟨h1, h2, h3, h4, h5, h6, h7⟩
    refine ⟨k1.trans h1, h2, h3.trans k6, ?_, ?_, ?_, ?_⟩
    · intro i c hc
      have : i ≠ s.next := by
        intro e; subst e
        have := g.inv.fresh s.next (Nat.le_refl _)
        rw [nums_of_heap hc] at this; simp at this
      exact h4 i c ((k7 i this).trans hc)
    · intro i hi
      exact h5 i (by rw [k3]; exact List.mem_cons_of_mem _ hi)
    · intro k hk
      cases k with
      | zero =>
        exact ⟨s.next, h5 _ (by rw [k3]; exact List.mem_cons_self), _, h4 _ _ kh, rfl⟩
      | succ k =>
        have := h6 k (by simpa using hk)
        rwa [show a + 1 + k = a + (k + 1) by omega] at this
    · simp only [List.length_cons]; omega

theorem Shrunk.grown {s s' : St K X B R} {pend : List Nat} (h : Shrunk V s s' pend) :
    Grown V s s' pend :=
  ⟨h.good, h.keep, h.frame.prevPset, h.frame.aset, h.frame.prevAset, h.frame.explore,
   h.frame.prevState, h.frame.prevReward, h.frame.prevPred, h.time, h.cells.1⟩

theorem Advocated.mono {s s' : St K X B R} {l : List Nat} {a : Nat}
    (h : Advocated s l a) (hc : ∀ i c, s.heap i = some c → ∃ n, s'.heap i = some { c with num := n }) :
    Advocated s' l a := by
  obtain ⟨i, hi, c, hci, e⟩ := h
  obtain ⟨n, hn⟩ := hc i c hci
  exact ⟨i, hi, _, hn, e⟩

/-- Loop invariant of `clset_cover`: flags that are set are justified. -/
def CovFlags (s : St K X B R) (cov : List Bool) : Prop :=
  ∀ a, cov[a]? = some true → Advocated s s.mset.list a

theorem coverIter_post (L : Laws par kit V E) (x : X) {cov : List Bool}
    {s : St K X B R} {pend : List Nat} (g : Good V s pend) (hm : Within s s.mset)
    (hl : cov.length = par.nActions) (hf : CovFlags s cov) :
    Post (coverIter par kit x cov s) (fun p => p.1.length = par.nActions ∧
      CovFlags p.2.2 p.1 ∧ Grown V s p.2.2 pend ∧ Within p.2.2 p.2.2.mset ∧
      p.2.2.pset.num ≤ par.popSize ∧
      (p.2.1 = true → ∀ a, a < par.nActions → Advocated p.2.2 p.2.2.mset.list a) ∧
      (s.pset.num + par.nActions ≤ par.popSize → p.2.1 = true)) E := by
  unfold coverIter
  refine post_bind (coverActions_post L x cov 0 g hm (by omega)) ?_
  rintro s1 ⟨h1, h2, h3, h4, h5, h6, h7⟩
  have hadv1 : ∀ a, a < par.nActions → Advocated s1 s1.mset.list a := by
    intro a ha
    have hlt : a < cov.length := by omega
    cases hv : cov[a] with
    | true =>
      obtain ⟨i, hi, c, hc, e⟩ := hf a (by rw [List.getElem?_eq_getElem hlt, hv])
      exact ⟨i, h5 i hi, c, h4 i c hc, e⟩
    | false =>
      have := h6 a (by rw [List.getElem?_eq_getElem hlt, hv])
      simpa using this
  have roomy : s.pset.num + par.nActions ≤ par.popSize → enforce par kit s1 = .ok s1 := by
    intro h
    unfold enforce
    have : (s1.pset.num - par.popSize).toNat = 0 := by omega
    rw [this]
    exact if_neg (by omega)
  refine post_bind (Q := fun s2 => (Shrunk V s1 s2 pend ∧
    s2.pset.num = min s1.pset.num par.popSize) ∧
    (s.pset.num + par.nActions ≤ par.popSize → s2 = s1)) ?_ ?_
  · have := enforce_post L h1.good
    cases e : enforce par kit s1 with
    | error f => rw [e] at this; exact this
    | ok s2 =>
      rw [e] at this
      refine ⟨this, fun h => ?_⟩
      have := e.symm.trans (roomy h)
      exact Except.ok.inj this
  rintro s2 ⟨⟨k, kn⟩, hroom⟩
  have hms : s2.mset = s1.mset := k.frame.mset
  have hadv2 : ∀ a, a < par.nActions → Advocated s2 s2.mset.list a := by
    intro a ha
    rw [hms]; exact (hadv1 a ha).mono k.cells.1
  have hg := h1.trans k.grown
  have hcap : s2.pset.num ≤ par.popSize := by omega
  have hfl : ∀ s3 : St K X B R, (∀ a, a < par.nActions → Advocated s3 s3.mset.list a) →
      CovFlags s3 cov := by
    intro s3 hs3 a ha
    exact hs3 a (by rw [← hl]; exact (List.getElem?_eq_some_iff.1 ha).1)
  split
  · next hsz =>
    have hw : Weak s2 s2.mset := by
      rw [hms]; exact h2.weak.keep k.keep
    obtain ⟨t, e1, e2, e3, e4, e5⟩ := validate_weak k.good hw
    show Post ((validate s2 s2.mset) >>= _) _ _
    rw [e1]
    have g3 : Good V { s2 with mset := t } pend := k.good.congr rfl rfl rfl rfl rfl
    have hs3 : Within { s2 with mset := t } t := ⟨e2.nodup, e2.sub, e2.size, e2.num⟩
    have hgr : Grown V s { s2 with mset := t } pend :=
      ⟨g3, ⟨hg.keep.sub, hg.keep.prev, hg.keep.cells⟩, hg.prevPset, hg.aset, hg.prevAset, hg.explore, hg.prevState, hg.prevReward,
        hg.prevPred, hg.time, hg.cells⟩
    show Post (if t.size < s2.mset.size then _ else _) _ _
    split
    · next hlt =>
      refine post_bind (actionCoverage_post L g3 e2.sub) ?_
      rintro ⟨cov', covered⟩ ⟨a1, a2, a3⟩
      refine ⟨a1, fun a ha => ((a2 a).1 ha).2, hgr, hs3, hcap, a3, fun h => ?_⟩
      rw [hroom h] at hsz; omega
    · next hlt =>
      have heq : t.list = s2.mset.list := by
        have hz : s2.mset.size = s2.mset.list.length := by rw [hms]; exact h2.size
        have := e2.size
        exact e5.eq_of_length_le (by omega)
      have hadv3 : ∀ a, a < par.nActions → Advocated { s2 with mset := t } t.list a := by
        intro a ha; rw [heq]; exact hadv2 a ha
      exact ⟨hl, hfl _ hadv3, hgr, hs3, hcap, fun _ => hadv3, fun _ => rfl⟩
  · next hsz =>
    have hlist : s2.pset.list = s1.pset.list := by
      have a1 := h1.good.inv.p.size
      have a2 := k.good.inv.p.size
      exact k.sub.eq_of_length_le (by omega)
    have hs2 : Within s2 s2.mset := by
      rw [hms]
      exact ⟨h2.nodup, fun i hi => hlist ▸ h2.sub i hi, h2.size, h2.num⟩
    exact ⟨hl, hfl _ hadv2, hg, hs2, hcap, fun _ => hadv2, fun _ => rfl⟩

/-- `n` is within a limit `M` that is at least the population size `par` asks for.  With `M` equal
to that size this is the limit itself; a larger `M` is a limit left over from earlier parameters. -/
def Cap (par : Params K) (M n : Int) : Prop := par.popSize ≤ M ∧ n ≤ M

theorem Cap.min {M n : Int} (h : Cap par M n) (k : Int) : Cap par M (min k par.popSize) :=
  ⟨h.1, Int.le_trans (Int.min_le_right _ _) h.1⟩

/-- Covering cannot fail: either exits are tolerated, or there is room in the population for one new
rule per action (and at least one attempt is allowed). -/
def Room (par : Params K) (E : Fault → Prop) (n : Nat) (num : Int) : Prop :=
  E .exit ∨ (1 ≤ n ∧ num + par.nActions ≤ par.popSize)

theorem Room.may [MayExit E] {n : Nat} {num : Int} : Room par E n num := Or.inl MayExit.exit

theorem coverLoop_post {M : Int} (L : Laws par kit V E) (x : X) : ∀ (n : Nat) (cov : List Bool)
    (covered : Bool) {s : St K X B R} {pend : List Nat}, Good V s pend → Within s s.mset →
    cov.length = par.nActions → CovFlags s cov → Cap par M s.pset.num →
    (covered = true → ∀ a, a < par.nActions → Advocated s s.mset.list a) →
    (covered = false → Room par E n s.pset.num) →
    Post (coverLoop par kit x n cov covered s) (fun s' => Grown V s s' pend ∧
      Within s' s'.mset ∧ Cap par M s'.pset.num ∧
      ∀ a, a < par.nActions → Advocated s' s'.mset.list a) E
  | n, cov, true, s, pend, g, hm, hl, hf, hcap, hc, hx => by
    unfold coverLoop
    exact ⟨Grown.refl g, hm, hcap, hc rfl⟩
  | 0, cov, false, s, pend, g, hm, hl, hf, hcap, hc, hx => by
    unfold coverLoop
    refine post_bind (coverIter_post L x g hm hl hf) (fun _ _ => ?_)
    rcases hx rfl with h | h
    · exact h
    · exact absurd h.1 (by omega)
  | n + 1, cov, false, s, pend, g, hm, hl, hf, hcap, hc, hx => by
    unfold coverLoop
    refine post_bind (coverIter_post L x g hm hl hf) ?_
    rintro ⟨cov', covered', s1⟩ ⟨h1, h2, h3, h4, h5, h6, h7⟩
    refine post_mono (coverLoop_post L x n cov' covered' h3.good h4 h1 h2
      ⟨hcap.1, Int.le_trans h5 hcap.1⟩ h6 (fun hc' => ?_)) ?_
    · rcases hx rfl with h | h
      · exact Or.inl h
      · have := h7 h.2
        exact absurd (hc'.symm.trans this) (by decide)
    rintro s2 ⟨k1, k2, k3, k4⟩
    exact ⟨h3.trans k1, k2, k3, k4⟩

theorem cover_post {M : Int} (L : Laws par kit V E) (x : X) {s : St K X B R} {pend : List Nat}
    (g : Good V s pend) (hm : Within s s.mset) (hcap : Cap par M s.pset.num)
    (hx : Room par E par.maxCover s.pset.num) :
    Post (cover par kit x s) (fun s' => Grown V s s' pend ∧
      Within s' s'.mset ∧ Cap par M s'.pset.num ∧
      ∀ a, a < par.nActions → Advocated s' s'.mset.list a) E := by
  unfold cover
  refine post_bind (actionCoverage_post L g hm.sub) ?_
  rintro ⟨cov, covered⟩ ⟨h1, h2, h3⟩
  exact coverLoop_post L x _ cov covered g hm h1 (fun a ha => ((h2 a).1 ha).2) hcap h3
    (fun _ => hx)

end Xcsf
