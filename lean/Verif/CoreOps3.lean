import Verif.CoreOps2

/-!
# Loops over rules, matching, updates, subsumption and freeing: invariant preservation
-/

set_option linter.unusedSectionVars false

namespace Xcsf
variable {K X B R : Type} [Zero K] [One K] [Add K] [Sub K] [Mul K] [Div K]
  [LT K] [DecidableLT K] [IntCast K] [DecidableEq K]
variable {par : Params K} {kit : Kit K X B R} {V : Cl K B → Prop} {E : Fault → Prop}

/-! ## Loops that rewrite each rule of a list -/

/-- A loop that rewrites each rule of a list in place, threading the generator. -/
def forEachCl (upd : R → Cl K B → Cl K B × R) : List Nat → St K X B R → Res (St K X B R)
  | [], s => .ok s
  | i :: l, s => do
    let c ← s.rd i
    forEachCl upd l { s.put i (upd s.rng c).1 with rng := (upd s.rng c).2 }

theorem forEachCl_spec (upd : R → Cl K B → Cl K B × R) : ∀ (l : List Nat) (s : St K X B R),
    l.Nodup → (∀ i ∈ l, (s.heap i).isSome) →
    ∃ h r, forEachCl upd l s = .ok { s with heap := h, rng := r } ∧
      (∀ i, i ∉ l → h i = s.heap i) ∧
      (∀ i ∈ l, ∀ c, s.heap i = some c → ∃ r, h i = some (upd r c).1)
  | [], s, _, _ => ⟨s.heap, s.rng, rfl, fun _ _ => rfl, by simp⟩
  | i :: l, s, hn, hl => by
    obtain ⟨c, hc⟩ := Option.isSome_iff_exists.1 (hl i List.mem_cons_self)
    rw [List.nodup_cons] at hn
    obtain ⟨h, r, e, h1, h2⟩ := forEachCl_spec upd l
      { s.put i (upd s.rng c).1 with rng := (upd s.rng c).2 } hn.2 (by
        intro j hj
        have : j ≠ i := fun e => hn.1 (e ▸ hj)
        show ((s.put i _).heap j).isSome
        rw [put_heap_ne _ _ this]; exact hl j (List.mem_cons_of_mem _ hj))
    refine ⟨h, r, ?_, ?_, ?_⟩
    · unfold forEachCl
      rw [rd_ok hc]; exact e
    · intro j hj
      rw [List.mem_cons, not_or] at hj
      rw [h1 j hj.2]; exact put_heap_ne _ _ hj.1
    · intro j hj d hd
      rcases List.mem_cons.1 hj with e' | hj'
      · subst e'
        rw [hc] at hd; cases hd
        exact ⟨s.rng, (h1 j hn.1).trans (put_heap_self _ _ _)⟩
      · have : j ≠ i := fun e => hn.1 (e ▸ hj')
        exact h2 j hj' d ((put_heap_ne _ _ this).trans hd)

/-- Rewriting rules without touching their numerosity keeps the invariant. -/
theorem Good.rewrite {s : St K X B R} {pend : List Nat} (g : Good V s pend)
    {h : Nat → Option (Cl K B)} {r : R}
    (hh : ∀ i, (s.heap i = none → h i = none) ∧
      ∀ c, s.heap i = some c → ∃ c', h i = some c' ∧ c'.num = c.num ∧ V c') :
    Good V { s with heap := h, rng := r } pend := by
  refine ⟨g.inv.congr ?_ rfl rfl rfl rfl, ?_⟩
  · funext i
    simp only [St.nums]
    cases hc : s.heap i with
    | none => rw [(hh i).1 hc]
    | some c => obtain ⟨c', e, e2, _⟩ := (hh i).2 c hc; rw [e]; simp [e2]
  · intro i d hd
    cases hc : s.heap i with
    | none =>
      have hd' : h i = some d := hd
      rw [(hh i).1 hc] at hd'; cases hd'
    | some c =>
      obtain ⟨c', e, _, e3⟩ := (hh i).2 c hc
      have : h i = some d := hd
      rw [e] at this; cases this; exact e3

theorem Good.forEach {s : St K X B R} {pend : List Nat} (g : Good V s pend)
    {upd : R → Cl K B → Cl K B × R} {l : List Nat} (hn : l.Nodup)
    (hl : ∀ i ∈ l, i ∈ s.pset.list)
    (hu : ∀ r c, V c → 1 ≤ c.num → (upd r c).1.num = c.num ∧ V (upd r c).1) :
    ∃ h r, forEachCl upd l s = .ok { s with heap := h, rng := r } ∧
      Good V { s with heap := h, rng := r } pend ∧
      (∀ i, i ∉ l → h i = s.heap i) ∧
      (∀ i ∈ l, ∀ c, s.heap i = some c → ∃ r, h i = some (upd r c).1) := by
  obtain ⟨h, r, e, h1, h2⟩ := forEachCl_spec upd l s hn (fun i hi => g.inv.p.isSome (hl i hi))
  refine ⟨h, r, e, g.rewrite ?_, h1, h2⟩
  intro i
  by_cases hi : i ∈ l
  · obtain ⟨c, hc, hc1, hv⟩ := g.liveP (hl i hi)
    obtain ⟨r', hr'⟩ := h2 i hi c hc
    refine ⟨fun hnone => (by rw [hc] at hnone; cases hnone), fun d hd => ?_⟩
    rw [hc] at hd; cases hd
    exact ⟨_, hr', hu r' c hv hc1⟩
  · rw [h1 i hi]
    exact ⟨id, fun c hc => ⟨c, hc, rfl, g.vals i c hc⟩⟩

theorem updateGo_eq (x : X) (y : List K) (n : Int) (cur : Bool) : ∀ (l : List Nat)
    (s : St K X B R), updateGo par kit x y n cur l s =
      forEachCl (fun r c => clUpdate par kit s.explore c x y n cur r) l s
  | [], s => rfl
  | i :: l, s => by
    unfold updateGo forEachCl
    cases h : s.rd i with
    | error e => rfl
    | ok c => exact updateGo_eq x y n cur l _

theorem fitGo_eq (sum : K) : ∀ (l : List Nat) (s : St K X B R), fitGo par kit sum l s =
      forEachCl (fun r c => (clUpdateFit par c sum (clAcc par kit c.err), r)) l s
  | [], s => rfl
  | i :: l, s => by
    unfold fitGo forEachCl
    cases h : s.rd i with
    | error e => rfl
    | ok c => exact fitGo_eq sum l _

theorem setTimes_eq (t : Int) : ∀ (l : List Nat) (s : St K X B R), setTimes t l s =
      forEachCl (fun r c => ({ c with time := t }, r)) l s
  | [], s => rfl
  | i :: l, s => by
    unfold setTimes forEachCl
    cases h : s.rd i with
    | error e => rfl
    | ok c => exact setTimes_eq t l _

theorem predictGo_eq (x : X) : ∀ (l : List Nat) (s : St K X B R), predictGo kit x l s =
      forEachCl (fun r c => ({ c with
        prediction := (kit.predict s.explore c.body c.prediction x r).1,
        body := (kit.predict s.explore c.body c.prediction x r).2.1 },
        (kit.predict s.explore c.body c.prediction x r).2.2)) l s
  | [], s => rfl
  | i :: l, s => by
    unfold predictGo forEachCl
    cases h : s.rd i with
    | error e => rfl
    | ok c => exact predictGo_eq x l _

/-! ## Matching -/

/-- A rule after its condition was evaluated with generator state `r`. -/
def evalCond (kit : Kit K X B R) (e : Bool) (x : X) (c : Cl K B) (r : R) : Cl K B :=
  { c with m := (kit.cmatch e c.body x r).1, body := (kit.cmatch e c.body x r).2.1,
           mtotal := if (kit.cmatch e c.body x r).1 then c.mtotal + 1 else c.mtotal,
           age := c.age + 1 }

/-- A rule after its action was computed with generator state `r`. -/
def evalAct (kit : Kit K X B R) (e : Bool) (x : X) (c : Cl K B) (r : R) : Cl K B :=
  { c with action := (kit.act e c.body x r).1, body := (kit.act e c.body x r).2.1 }

/-- A rule after `cl_match` and, if it matched or the program is the parallel one, `cl_action`. -/
def Matched (kit : Kit K X B R) (e : Bool) (x : X) (c c' : Cl K B) : Prop :=
  ∃ r, (((kit.cmatch e c.body x r).1 || kit.parallel) = false ∧ c' = evalCond kit e x c r) ∨
    (((kit.cmatch e c.body x r).1 || kit.parallel) = true ∧
      c' = evalAct kit e x (evalCond kit e x c r) (kit.cmatch e c.body x r).2.2)

theorem Matched.num {e : Bool} {x : X} {c c' : Cl K B} (h : Matched kit e x c c') :
    c'.num = c.num := by
  obtain ⟨r, ⟨_, h⟩ | ⟨_, h⟩⟩ := h <;> subst h <;> rfl

theorem Matched.val (L : Laws par kit V E) {e : Bool} {x : X} {c c' : Cl K B}
    (h : Matched kit e x c c') (hv : V c) : V c' := by
  obtain ⟨r, ⟨_, h⟩ | ⟨_, h⟩⟩ := h
  · subst h; exact L.cmatch c e x r _ hv
  · subst h; exact L.act _ e x _ (L.cmatch c e x r _ hv)

theorem matchGo_spec (x : X) : ∀ (l : List Nat) (s : St K X B R), l.Nodup →
    (∀ i ∈ l, (s.heap i).isSome) →
    ∃ h r t, matchGo kit x l s = .ok { s with heap := h, rng := r, mset := t } ∧
      (∀ i, i ∉ l → h i = s.heap i) ∧
      (∀ i ∈ l, ∀ c, s.heap i = some c → ∃ c', h i = some c' ∧ Matched kit s.explore x c c') ∧
      t.list = (l.filter (fun i => (h i).any Cl.m)).reverse ++ s.mset.list ∧
      t.size = s.mset.size + (l.filter (fun i => (h i).any Cl.m)).length ∧
      t.num = s.mset.num + nsum s.nums (l.filter (fun i => (h i).any Cl.m))
  | [], s, _, _ => ⟨s.heap, s.rng, s.mset, rfl, fun _ _ => rfl, by simp, by simp, by simp, by simp⟩
  | i :: l, s, hn, hl => by
    obtain ⟨c, hc⟩ := Option.isSome_iff_exists.1 (hl i List.mem_cons_self)
    rw [List.nodup_cons] at hn
    have hnei : ∀ j ∈ l, j ≠ i := fun j hj e => hn.1 (e ▸ hj)
    generalize ht : (if (kit.cmatch s.explore c.body x s.rng).1 = true then
      s.mset.add i c.num else s.mset) = t0
    have hset : ∀ {h : Nat → Option (Cl K B)} {t : CSet} {f : Nat → Option Int} {n : Int},
        f i = some n → n = c.num →
        (h i).any Cl.m = (kit.cmatch s.explore c.body x s.rng).1 →
        t.list = (l.filter (fun i => (h i).any Cl.m)).reverse ++ t0.list ∧
        t.size = t0.size + (l.filter (fun i => (h i).any Cl.m)).length ∧
        t.num = t0.num + nsum f (l.filter (fun i => (h i).any Cl.m)) →
        t.list = ((i :: l).filter (fun i => (h i).any Cl.m)).reverse ++ s.mset.list ∧
        t.size = s.mset.size + ((i :: l).filter (fun i => (h i).any Cl.m)).length ∧
        t.num = s.mset.num + nsum f ((i :: l).filter (fun i => (h i).any Cl.m)) := by
      intro h t f n hf hn hflag hh
      cases hm : (kit.cmatch s.explore c.body x s.rng).1 with
      | false =>
        rw [hm] at hflag ht
        rw [List.filter_cons_of_neg (by simp [hflag])]
        rw [← ht] at hh
        exact hh
      | true =>
        rw [hm] at hflag ht
        rw [List.filter_cons_of_pos (by simp [hflag])]
        rw [← ht] at hh
        obtain ⟨h3, h4, h5⟩ := hh
        refine ⟨?_, ?_, ?_⟩
        · rw [h3]; simp [CSet.add]
        · rw [h4]; simp [CSet.add]; omega
        · rw [h5, nsum_cons, hf, hn]; simp [CSet.add]; omega
    cases hm : ((kit.cmatch s.explore c.body x s.rng).1 || kit.parallel) with
    | false =>
      obtain ⟨h, r, t, e, h1, h2, h3⟩ := matchGo_spec x l
        { s.put i (evalCond kit s.explore x c s.rng) with
          rng := (kit.cmatch s.explore c.body x s.rng).2.2
          mset := t0 } hn.2 (by
          intro j hj
          show ((s.put i _).heap j).isSome
          rw [put_heap_ne _ _ (hnei j hj)]; exact hl j (List.mem_cons_of_mem _ hj))
      have hhi : h i = some (evalCond kit s.explore x c s.rng) :=
        (h1 i hn.1).trans (put_heap_self _ _ _)
      refine ⟨h, r, t, ?_, ?_, ?_, ?_⟩
      · unfold matchGo
        rw [rd_ok hc]
        show (if ((kit.cmatch s.explore c.body x s.rng).1 || kit.parallel) = true then _
          else _) = _
        rw [if_neg (by simp [hm])]
        refine Eq.trans ?_ e
        congr 1
        rw [← ht]
        unfold evalCond
        by_cases hmm : (kit.cmatch s.explore c.body x s.rng).1 = true
        · simp only [if_pos hmm]; rfl
        · simp only [if_neg hmm]; rfl
      · intro j hj
        rw [List.mem_cons, not_or] at hj
        rw [h1 j hj.2]; exact put_heap_ne _ _ hj.1
      · intro j hj d hd
        rcases List.mem_cons.1 hj with e' | hj'
        · subst e'
          rw [hc] at hd; cases hd
          exact ⟨_, hhi, s.rng, Or.inl ⟨hm, rfl⟩⟩
        · exact h2 j hj' d ((put_heap_ne _ _ (hnei j hj')).trans hd)
      · refine hset (nums_of_heap hc) rfl (by rw [hhi]; rfl) ?_
        have e' := put_nums_same (s := s) (c' := evalCond kit s.explore x c s.rng) hc rfl
        rw [← e']
        exact h3
    | true =>
      obtain ⟨h, r, t, e, h1, h2, h3⟩ := matchGo_spec x l
        { s.put i (evalAct kit s.explore x (evalCond kit s.explore x c s.rng)
            (kit.cmatch s.explore c.body x s.rng).2.2) with
          rng := (kit.act s.explore (kit.cmatch s.explore c.body x s.rng).2.1 x
            (kit.cmatch s.explore c.body x s.rng).2.2).2.2
          mset := t0 } hn.2 (by
          intro j hj
          show ((s.put i _).heap j).isSome
          rw [put_heap_ne _ _ (hnei j hj)]; exact hl j (List.mem_cons_of_mem _ hj))
      have hhi := (h1 i hn.1).trans (put_heap_self _ _ _)
      refine ⟨h, r, t, ?_, ?_, ?_, ?_⟩
      · unfold matchGo
        rw [rd_ok hc]
        show (if ((kit.cmatch s.explore c.body x s.rng).1 || kit.parallel) = true then _
          else _) = _
        rw [if_pos hm]
        refine Eq.trans ?_ e
        show matchGo kit x l _ = _
        congr 1
        rw [← ht]
        have hput : ∀ d : Cl K B, (fun j => if j = i then some d
            else if j = i then some (evalCond kit s.explore x c s.rng) else s.heap j) =
            fun j => if j = i then some d else s.heap j := by
          intro d
          funext j
          by_cases ej : j = i
          · simp [ej]
          · simp [ej]
        unfold evalCond at hput ⊢
        by_cases hmm : (kit.cmatch s.explore c.body x s.rng).1 = true
        · simp only [if_pos hmm, St.put, evalAct] at hput ⊢
          congr 1
          exact hput _
        · simp only [if_neg hmm, St.put, evalAct] at hput ⊢
          congr 1
          exact hput _
      · intro j hj
        rw [List.mem_cons, not_or] at hj
        rw [h1 j hj.2]; exact put_heap_ne _ _ hj.1
      · intro j hj d hd
        rcases List.mem_cons.1 hj with e' | hj'
        · subst e'
          rw [hc] at hd; cases hd
          exact ⟨_, hhi, s.rng, Or.inr ⟨hm, rfl⟩⟩
        · exact h2 j hj' d ((put_heap_ne _ _ (hnei j hj')).trans hd)
      · refine hset (nums_of_heap hc) rfl (by rw [hhi]; rfl) ?_
        have e' := put_nums_same (s := s) (c' := evalAct kit s.explore x
          (evalCond kit s.explore x c s.rng) (kit.cmatch s.explore c.body x s.rng).2.2) hc rfl
        rw [← e']
        exact h3

/-- What a step of a trial may do to the state, as far as later steps care. -/
structure Evolved (V : Cl K B → Prop) (s s' : St K X B R) (pend : List Nat) : Prop where
  good : Good V s' pend
  keep : Keep s s'
  prevPset : s'.prevPset = s.prevPset
  aset : s'.aset = s.aset
  prevAset : s'.prevAset = s.prevAset
  explore : s'.explore = s.explore
  prevState : s'.prevState = s.prevState
  prevReward : s'.prevReward = s.prevReward
  prevPred : s'.prevPred = s.prevPred

theorem Evolved.refl {s : St K X B R} {pend : List Nat} (g : Good V s pend) :
    Evolved V s s pend := ⟨g, Keep.refl _, rfl, rfl, rfl, rfl, rfl, rfl, rfl⟩

theorem Evolved.trans {a b c : St K X B R} {pend : List Nat} (h : Evolved V a b pend)
    (k : Evolved V b c pend) : Evolved V a c pend :=
  ⟨k.good, h.keep.trans k.keep, k.prevPset.trans h.prevPset, k.aset.trans h.aset,
   k.prevAset.trans h.prevAset, k.explore.trans h.explore, k.prevState.trans h.prevState,
   k.prevReward.trans h.prevReward, k.prevPred.trans h.prevPred⟩

theorem Grown.evolved {s s' : St K X B R} {pend : List Nat} (h : Grown V s s' pend) :
    Evolved V s s' pend :=
  ⟨h.good, h.keep, h.prevPset, h.aset, h.prevAset, h.explore, h.prevState, h.prevReward, h.prevPred⟩

/-- Matching the population against an empty match set. -/
theorem matchGo_good (L : Laws par kit V E) (x : X) {s : St K X B R} {pend : List Nat}
    (g : Good V s pend) (hm : s.mset = {}) :
    ∃ s', matchGo kit x s.pset.list s = .ok s' ∧ Evolved V s s' pend ∧ Within s' s'.mset ∧
      s'.pset = s.pset ∧ s'.kset = s.kset ∧ s'.time = s.time ∧ s'.next = s.next ∧
      (∀ i, i ∉ s.pset.list → s'.heap i = s.heap i) ∧
      (∀ i ∈ s.pset.list, ∀ c, s.heap i = some c →
        ∃ c', s'.heap i = some c' ∧ Matched kit s.explore x c c') ∧
      s'.mset.list = (s.pset.list.filter (fun i => (s'.heap i).any Cl.m)).reverse ∧
      s'.mset.num = nsum s'.nums s'.mset.list ∧
      s'.error = s.error ∧ s'.msetSize = s.msetSize ∧ s'.asetSize = s.asetSize ∧
      s'.mfrac = s.mfrac ∧ s'.pa = s.pa ∧ s'.nr = s.nr := by
  obtain ⟨h, r, t, e, h1, h2, h3, h4, h5⟩ := matchGo_spec (kit := kit) x s.pset.list s
    g.inv.p.nodup (fun i hi => g.inv.p.isSome hi)
  rw [hm] at h3 h4 h5
  have g1 : Good V { s with heap := h, rng := r } pend := by
    refine g.rewrite (fun i => ?_)
    by_cases hi : i ∈ s.pset.list
    · obtain ⟨c, hc, hc1, hv⟩ := g.liveP hi
      refine ⟨fun hnone => (by rw [hc] at hnone; cases hnone), fun d hd => ?_⟩
      obtain ⟨c', hc', hM⟩ := h2 i hi d hd
      exact ⟨c', hc', hM.num, hM.val L (g.vals i d hd)⟩
    · rw [h1 i hi]
      exact ⟨id, fun c hc => ⟨c, hc, rfl, g.vals i c hc⟩⟩
  have hnums : ({ s with heap := h, rng := r, mset := t } : St K X B R).nums = s.nums := by
    funext i
    by_cases hi : i ∈ s.pset.list
    · obtain ⟨c, hc, _, _⟩ := g.liveP hi
      obtain ⟨c', hc', hM⟩ := h2 i hi c hc
      rw [nums_of_heap hc, nums_of_heap (s := { s with heap := h, rng := r, mset := t }) hc', hM.num]
    · show (h i).map _ = (s.heap i).map _
      rw [h1 i hi]
  have hrev : ∀ (f : Nat → Option Int) (l : List Nat), nsum f l.reverse = nsum f l := by
    intro f l; simp [nsum, List.sum_reverse]
  have hlist : t.list = (s.pset.list.filter (fun i => (h i).any Cl.m)).reverse := by
    rw [h3]; simp
  have hnum : t.num = nsum s.nums t.list := by
    rw [h5, hlist, hrev]; simp
  have hsub : ∀ i ∈ t.list, i ∈ s.pset.list := by
    intro i hi
    rw [hlist, List.mem_reverse] at hi
    exact (List.mem_filter.1 hi).1
  refine ⟨_, e, ⟨g1.congr rfl rfl rfl rfl rfl,
    ⟨fun _ h => h, rfl, fun i hi => h1 i (fun hp => g.inv.pq i hp hi)⟩, rfl, rfl, rfl, rfl, rfl, rfl, rfl⟩,
    ⟨?_, hsub, ?_, ?_⟩, rfl, rfl, rfl, rfl, h1, h2, hlist, ?_, rfl, rfl, rfl, rfl, rfl, rfl⟩
  · show t.list.Nodup
    rw [hlist]; exact List.nodup_reverse.2 (g.inv.p.nodup.sublist List.filter_sublist)
  · show t.size = _
    rw [h4]; show (0 : Int) + _ = (t.list.length : Int)
    rw [hlist]; simp
  · show 0 ≤ t.num
    rw [hnum]
    have : ∀ l : List Nat, (∀ i ∈ l, i ∈ s.pset.list) → 0 ≤ nsum s.nums l := by
      intro l
      induction l with
      | nil => simp
      | cons i l ih =>
        intro hl
        have h1 := ih (fun j hj => hl j (List.mem_cons_of_mem _ hj))
        obtain ⟨n, hn, hn1⟩ := g.inv.p.pos i (hl i List.mem_cons_self)
        simp only [nsum_cons, hn, Option.getD_some]; omega
    exact this _ hsub
  · show t.num = _
    rw [hnums]; exact hnum

/-- `clset_match` on an empty match set; when it may cover, every action ends up advocated. -/
theorem clsetMatch_full {M : Int} (L : Laws par kit V E) (x : X) (doCover : Bool) {s : St K X B R}
    {pend : List Nat} (g : Good V s pend) (hm : s.mset = {}) (hcap : Cap par M s.pset.num)
    (hx : doCover = true → Room par E par.maxCover s.pset.num) :
    Post (clsetMatch par kit x doCover s) (fun s' => Evolved V s s' pend ∧ Within s' s'.mset ∧
      Cap par M s'.pset.num ∧ (doCover = true →
        ∀ a, a < par.nActions → E .ub ∨ Advocated s' s'.mset.list a)) E := by
  unfold clsetMatch
  obtain ⟨s1, e, h1, h2, h3, h4, h5, h6, h7, h8, h9, h10, h11⟩ := matchGo_good L x g hm
  have fin : ∀ s2 : St K X B R, Evolved V s s2 pend → Within s2 s2.mset →
      Cap par M s2.pset.num →
      (doCover = true → ∀ a, a < par.nActions → E .ub ∨ Advocated s2 s2.mset.list a) →
      Post (s2.rds s2.pset.list >>= fun cs => Except.ok
        { s2 with msetSize := s2.msetSize + ((s2.mset.size : K) - s2.msetSize) * par.beta,
                  mfrac := s2.mfrac + (mfracOf par kit cs - s2.mfrac) * par.beta })
        (fun s' => Evolved V s s' pend ∧ Within s' s'.mset ∧ Cap par M s'.pset.num ∧
          (doCover = true → ∀ a, a < par.nActions → E .ub ∨ Advocated s' s'.mset.list a)) E := by
    intro s2 k1 k2 k3 k4
    obtain ⟨cs, hcs, _⟩ := rds_ok (s := s2) (l := s2.pset.list)
      (fun i hi => k1.good.inv.p.isSome hi)
    rw [hcs]
    exact ⟨⟨k1.good.congr rfl rfl rfl rfl rfl, ⟨k1.keep.sub, k1.keep.prev, k1.keep.cells⟩, k1.prevPset, k1.aset, k1.prevAset,
      k1.explore, k1.prevState, k1.prevReward, k1.prevPred⟩, ⟨k2.nodup, k2.sub, k2.size, k2.num⟩, k3, k4⟩
  rw [e]
  show Post (if doCover = true ∧ (1 < par.nActions ∨ s1.mset.size < 1) then _ else _) _ _
  split
  · next hd =>
    refine post_bind (cover_post L x h1.good h2 (by rw [h3]; exact hcap)
      (by rw [h3]; exact hx hd.1)) ?_
    rintro s2 ⟨k1, k2, k3, k4⟩
    exact fin s2 (h1.trans k1.evolved) k2 k3 (fun _ a ha => Or.inr (k4 a ha))
  · next hd =>
    refine fin s1 h1 h2 (by rw [h3]; exact hcap) (fun hc a ha => ?_)
    have hsz : ¬ (1 < par.nActions ∨ s1.mset.size < 1) := fun h => hd ⟨hc, h⟩
    have hlen := h2.size
    obtain ⟨i, hi⟩ := List.exists_mem_of_length_pos (l := s1.mset.list) (by omega)
    obtain ⟨c, hc1, _, hv⟩ := h1.good.liveP (h2.sub i hi)
    rcases L.action c hv with h | h
    · exact Or.inl h
    · exact Or.inr ⟨i, hi, c, hc1, by omega⟩

/-- `clset_match` on an empty match set. -/
theorem clsetMatch_post [MayExit E] {M : Int} (L : Laws par kit V E) (x : X) (doCover : Bool)
    {s : St K X B R} {pend : List Nat} (g : Good V s pend) (hm : s.mset = {})
    (hcap : Cap par M s.pset.num) :
    Post (clsetMatch par kit x doCover s) (fun s' => Evolved V s s' pend ∧ Within s' s'.mset ∧
      Cap par M s'.pset.num) E :=
  post_mono (clsetMatch_full L x doCover g hm hcap (fun _ => Room.may))
    (fun _ h => ⟨h.1, h.2.1, h.2.2.1⟩)

/-! ## Updates -/

theorem updateGo_post (L : Laws par kit V E) (x : X) (y : List K) {n : Int} (hn0 : 0 ≤ n)
    (cur : Bool) {l : List Nat} {s : St K X B R} {pend : List Nat} (g : Good V s pend)
    (hn : l.Nodup) (hl : ∀ i ∈ l, i ∈ s.pset.list) :
    ∃ h r, updateGo par kit x y n cur l s = .ok { s with heap := h, rng := r } ∧
      Good V { s with heap := h, rng := r } pend ∧ (∀ i, i ∉ l → h i = s.heap i) ∧
      (∀ i ∈ l, ∀ c, s.heap i = some c →
        ∃ r, h i = some (clUpdate par kit s.explore c x y n cur r).1) := by
  rw [updateGo_eq]
  refine g.forEach hn hl (fun r c hv hc => ⟨?_, L.update c _ x y n cur r hv hn0⟩)
  simp only [clUpdate]
  split <;> split <;> rfl

theorem updateFit_post (L : Laws par kit V E) {t : CSet} {s : St K X B R} {pend : List Nat}
    (g : Good V s pend) (w : Within s t) :
    ∃ h cs, updateFit par kit t s = .ok { s with heap := h } ∧
      s.rds t.list = .ok cs ∧ t.list.map s.heap = cs.map some ∧
      Good V { s with heap := h } pend ∧ (∀ i, i ∉ t.list → h i = s.heap i) ∧
      (∀ i ∈ t.list, ∀ c, s.heap i = some c →
        h i = some (clUpdateFit par c (accSum par kit cs) (clAcc par kit c.err))) := by
  obtain ⟨cs, h1, h2⟩ := rds_ok (s := s) (l := t.list) (fun i hi => g.inv.p.isSome (w.sub i hi))
  obtain ⟨h, r, e, k1, k2⟩ := forEachCl_spec
    (fun r c => (clUpdateFit par c (accSum par kit cs) (clAcc par kit c.err), r)) t.list s
    w.nodup (fun i hi => g.inv.p.isSome (w.sub i hi))
  have hr : ∀ (l : List Nat) (s s' : St K X B R), forEachCl
    (fun r c => (clUpdateFit par c (accSum par kit cs) (clAcc par kit c.err), r)) l s = .ok s' →
      s'.rng = s.rng := by
    intro l
    induction l with
    | nil => intro s s' h; cases h; rfl
    | cons i l ih =>
      intro s s' h
      unfold forEachCl at h
      cases hrd : s.rd i with
      | error e => rw [hrd] at h; cases h
      | ok c =>
        rw [hrd] at h
        exact (ih _ _ h).trans rfl
  have hr' : r = s.rng := hr _ _ _ e
  subst hr'
  have hcsV : ∀ c ∈ cs, V c ∧ 1 ≤ c.num := by
    intro c hc
    obtain ⟨i, hi, e⟩ := rds_mem h2 hc
    obtain ⟨c', hc', h1', hv⟩ := g.liveP (w.sub i hi)
    rw [e] at hc'; cases hc'; exact ⟨hv, h1'⟩
  have hmem : ∀ i ∈ t.list, ∀ c, s.heap i = some c → c ∈ cs := by
    intro i hi c hc
    have : some c ∈ t.list.map s.heap := List.mem_map.2 ⟨i, hi, hc⟩
    rw [h2] at this
    obtain ⟨d, hd, e⟩ := List.mem_map.1 this
    cases e; exact hd
  refine ⟨h, cs, ?_, h1, h2, ?_, k1, ?_⟩
  · unfold updateFit
    rw [if_neg (by simpa using w.size), h1]
    show fitGo par kit (accSum par kit cs) t.list s = _
    rw [fitGo_eq]; exact e
  · refine g.rewrite (r := s.rng) (fun i => ?_)
    by_cases hi : i ∈ t.list
    · obtain ⟨c, hc, hc1, hv⟩ := g.liveP (w.sub i hi)
      refine ⟨fun hnone => (by rw [hc] at hnone; cases hnone), fun d hd => ?_⟩
      obtain ⟨_, hr'⟩ := k2 i hi d hd
      exact ⟨_, hr', rfl, L.fit cs hcsV d (hmem i hi d hd)⟩
    · rw [k1 i hi]
      exact ⟨id, fun c hc => ⟨c, hc, rfl, g.vals i c hc⟩⟩
  · intro i hi c hc
    obtain ⟨_, hr'⟩ := k2 i hi c hc
    exact hr'

/-! ## Subsumption -/

theorem findSubsumer_post {s : St K X B R} : ∀ (l : List Nat) (best : Option Nat),
    (∀ i ∈ l, (s.heap i).isSome) →
    (∀ b, best = some b → ∃ c, s.heap b = some c ∧ subsumer par c = true) →
    ∃ res, findSubsumer par kit s l best = .ok res ∧
      ∀ b, res = some b → (b ∈ l ∨ best = some b) ∧
        ∃ c, s.heap b = some c ∧ subsumer par c = true
  | [], best, _, hb => ⟨best, rfl, fun b h => ⟨Or.inr h, hb b h⟩⟩
  | i :: l, best, hl, hb => by
    obtain ⟨c, hc⟩ := Option.isSome_iff_exists.1 (hl i List.mem_cons_self)
    unfold findSubsumer
    rw [rd_ok hc]
    have hl' : ∀ j ∈ l, (s.heap j).isSome := fun j hj => hl j (List.mem_cons_of_mem _ hj)
    have key : ∀ better : Bool, ∃ res, findSubsumer par kit s l
        (if (subsumer par c && better) = true then some i else best) = .ok res ∧
        ∀ b, res = some b → (b ∈ i :: l ∨ best = some b) ∧
          ∃ c, s.heap b = some c ∧ subsumer par c = true := by
      intro better
      obtain ⟨res, h1, h2⟩ := findSubsumer_post l
        (if (subsumer par c && better) = true then some i else best) hl' (by
          intro b hb'
          split at hb'
          · next h => cases hb'; rw [Bool.and_eq_true] at h; exact ⟨c, hc, h.1⟩
          · exact hb b hb')
      refine ⟨res, h1, fun b hr => ?_⟩
      obtain ⟨h3, h4⟩ := h2 b hr
      refine ⟨?_, h4⟩
      rcases h3 with h | h
      · exact Or.inl (List.mem_cons_of_mem _ h)
      · split at h
        · cases h; exact Or.inl List.mem_cons_self
        · exact Or.inr h
    cases best with
    | none => exact key true
    | some b =>
      obtain ⟨cb, hcb, _⟩ := hb b rfl
      have := key (kit.general c.body cb.body)
      simpa [rd_ok hcb, bind, Except.bind, pure, Except.pure] using this

/-- The rules of `l` that the subsumer absorbs. -/
def absorbed (kit : Kit K X B R) (s : St K X B R) (sid : Nat) (l : List Nat) : List Nat :=
  l.filter (fun i => decide (i ≠ sid) &&
    match s.heap sid, s.heap i with
    | some sc, some c => kit.general sc.body c.body
    | _, _ => false)

theorem absorbed_congr {s s' : St K X B R} {sid : Nat} {l : List Nat}
    (hs : (s'.heap sid).map Cl.body = (s.heap sid).map Cl.body)
    (hl : ∀ i ∈ l, (s'.heap i).map Cl.body = (s.heap i).map Cl.body) :
    absorbed kit s' sid l = absorbed kit s sid l := by
  unfold absorbed
  apply List.filter_congr
  intro i hi
  have := hl i hi
  congr 1
  cases h1 : s.heap sid <;> cases h2 : s'.heap sid <;> rw [h1, h2] at hs <;>
    cases h3 : s.heap i <;> cases h4 : s'.heap i <;> rw [h3, h4] at this <;> simp_all

theorem subsumeGo_spec (sid : Nat) : ∀ (l : List Nat) (done : Bool) (s : St K X B R),
    l.Nodup → (∀ i ∈ l, (s.heap i).isSome) → (s.heap sid).isSome →
    ∃ h, subsumeGo kit sid l done s =
        .ok (done || decide (absorbed kit s sid l ≠ []),
          { s with heap := h,
                   kset := { list := (absorbed kit s sid l).reverse ++ s.kset.list,
                             size := s.kset.size + (absorbed kit s sid l).length,
                             num := s.kset.num } }) ∧
      (∀ c, s.heap sid = some c →
        h sid = some { c with num := c.num + nsum s.nums (absorbed kit s sid l) }) ∧
      (∀ i ∈ absorbed kit s sid l, ∀ c, s.heap i = some c → h i = some { c with num := 0 }) ∧
      (∀ i, i ≠ sid → i ∉ absorbed kit s sid l → h i = s.heap i)
  | [], done, s, _, _, hs => by
    refine ⟨s.heap, ?_, ?_, ?_, fun _ _ _ => rfl⟩
    · simp [subsumeGo, absorbed]
    · intro c hc; rw [hc]; simp [absorbed]
    · simp [absorbed]
  | i :: l, done, s, hn, hl, hs => by
    obtain ⟨c, hc⟩ := Option.isSome_iff_exists.1 (hl i List.mem_cons_self)
    obtain ⟨sc, hsc⟩ := Option.isSome_iff_exists.1 hs
    rw [List.nodup_cons] at hn
    have hnei : ∀ j ∈ l, j ≠ i := fun j hj e => hn.1 (e ▸ hj)
    have hl' : ∀ j ∈ l, (s.heap j).isSome := fun j hj => hl j (List.mem_cons_of_mem _ hj)
    by_cases hcond : sid ≠ i ∧ kit.general sc.body c.body = true
    · have hab : absorbed kit s sid (i :: l) = i :: absorbed kit s sid l := by
        unfold absorbed
        rw [List.filter_cons_of_pos]
        simp [hsc, hc, hcond.2, Ne.symm hcond.1]
      -- the state after absorbing `i`
      generalize hs1 : ({ (s.put sid { sc with num := sc.num + c.num }).put i { c with num := 0 } with
          kset := s.kset.add i 0 } : St K X B R) = s1
      have h1sid : s1.heap sid = some { sc with num := sc.num + c.num } := by
        subst hs1
        show ((s.put sid _).put i _).heap sid = _
        rw [put_heap_ne _ _ hcond.1, put_heap_self]
      have h1i : s1.heap i = some { c with num := 0 } := by
        subst hs1
        show ((s.put sid _).put i _).heap i = _
        rw [put_heap_self]
      have h1o : ∀ j, j ≠ sid → j ≠ i → s1.heap j = s.heap j := by
        subst hs1
        intro j h1 h2
        show ((s.put sid _).put i _).heap j = _
        rw [put_heap_ne _ _ h2, put_heap_ne _ _ h1]
      have hbody : ∀ j, (s1.heap j).map Cl.body = (s.heap j).map Cl.body := by
        intro j
        by_cases e1 : j = sid
        · subst e1; rw [h1sid, hsc]; rfl
        · by_cases e2 : j = i
          · subst e2; rw [h1i, hc]; rfl
          · rw [h1o j e1 e2]
      have hA : absorbed kit s1 sid l = absorbed kit s sid l :=
        absorbed_congr (hbody sid) (fun j _ => hbody j)
      have hnA : ∀ j ∈ absorbed kit s sid l, j ∈ l ∧ j ≠ sid := by
        intro j hj
        have := List.mem_filter.1 hj
        simp only [Bool.and_eq_true, decide_eq_true_eq] at this
        exact ⟨this.1, this.2.1⟩
      obtain ⟨h, e, k1, k2, k3⟩ := subsumeGo_spec sid l true s1 hn.2 (by
        intro j hj
        have := hl' j hj
        have hb := hbody j
        cases h1 : s1.heap j with
        | none => rw [h1] at hb; cases h2 : s.heap j <;> rw [h2] at hb this <;> simp at hb this
        | some _ => rfl) (by rw [h1sid]; rfl)
      rw [hA] at e k1 k2 k3
      refine ⟨h, ?_, ?_, ?_, ?_⟩
      · unfold subsumeGo
        rw [rd_ok hc, rd_ok hsc]
        show (if sid ≠ i ∧ kit.general sc.body c.body = true then
          subsumeGo kit sid l true { (s.put sid { sc with num := sc.num + c.num }).put i
            { c with num := 0 } with kset := s.kset.add i 0 } else _) = _
        rw [if_pos hcond, hs1, e, hab]
        subst hs1
        simp [CSet.add, St.put]; omega
      · intro d hd
        rw [hsc] at hd; cases hd
        rw [k1 _ h1sid, hab]
        congr 2
        rw [nsum_cons, nums_of_heap hc]
        rw [nsum_congr (f := s1.nums) (g := s.nums)]
        · simp; omega
        · intro j hj
          obtain ⟨q1, q2⟩ := hnA j hj
          simp only [St.nums, h1o j q2 (hnei j q1)]
      · intro j hj d hd
        rw [hab] at hj
        rcases List.mem_cons.1 hj with ej | hj'
        · subst ej
          rw [hc] at hd; cases hd
          have : j ∉ absorbed kit s sid l := fun hh => hn.1 (hnA j hh).1
          rw [k3 j (Ne.symm hcond.1) this, h1i]
        · obtain ⟨q1, q2⟩ := hnA j hj'
          exact k2 j hj' d ((h1o j q2 (hnei j q1)).trans hd)
      · intro j q1 q2
        rw [hab, List.mem_cons, not_or] at q2
        rw [k3 j q1 q2.2, h1o j q1 q2.1]
    · have hab : absorbed kit s sid (i :: l) = absorbed kit s sid l := by
        unfold absorbed
        rw [List.filter_cons_of_neg]
        simp only [hsc, hc, Bool.and_eq_true, decide_eq_true_eq]
        intro hh; exact hcond ⟨fun e => hh.1 e.symm, hh.2⟩
      obtain ⟨h, e, k1, k2, k3⟩ := subsumeGo_spec sid l done s hn.2 hl' hs
      refine ⟨h, ?_, ?_, ?_, ?_⟩
      · unfold subsumeGo
        rw [rd_ok hc, rd_ok hsc]
        show (if sid ≠ i ∧ kit.general sc.body c.body = true then _ else _) = _
        rw [if_neg hcond, e, hab]
      · rw [hab]; exact k1
      · rw [hab]; exact k2
      · rw [hab]; exact k3

theorem nsum_filter_zero (f : Nat → Option Int) : ∀ l : List Nat,
    nsum f (l.filter (fun i => f i ≠ some 0)) = nsum f l
  | [] => rfl
  | i :: l => by
    have ih := nsum_filter_zero f l
    by_cases h : f i = some 0
    · rw [List.filter_cons_of_neg (by simp [h]), nsum_cons, h, ih]; simp
    · rw [List.filter_cons_of_pos (by simpa using h), nsum_cons, nsum_cons, ih]

theorem nsum_split (f : Nat → Option Int) (p : Nat → Bool) : ∀ l : List Nat,
    nsum f l = nsum f (l.filter p) + nsum f (l.filter (fun i => !p i))
  | [] => rfl
  | i :: l => by
    have ih := nsum_split f p l
    by_cases h : p i = true
    · rw [List.filter_cons_of_pos h, List.filter_cons_of_neg (by simp [h]), nsum_cons, nsum_cons, ih]
      omega
    · rw [List.filter_cons_of_neg h, List.filter_cons_of_pos (by simpa using h), nsum_cons, nsum_cons,
        ih]
      omega

theorem nsum_perm {f : Nat → Option Int} {l l' : List Nat} (h : l.Perm l') :
    nsum f l = nsum f l' := by
  induction h with
  | nil => rfl
  | cons x _ ih => rw [nsum_cons, nsum_cons, ih]
  | swap x y l => simp only [nsum_cons]; omega
  | trans _ _ ih1 ih2 => exact ih1.trans ih2

/-- Set subsumption: some set `A` of rules of the set is absorbed by one accurate and
experienced rule of the set; the total numerosity does not change. -/
theorem subsumption_post {t : CSet} {s : St K X B R} {pend : List Nat}
    (L : Laws par kit V E) (g : Good V s pend) (w : Within s t) :
    ∃ t' s', subsumption par kit t s = .ok (t', s') ∧ Evolved V s s' pend ∧ Within s' t' ∧
      s'.pset.num = s.pset.num ∧ s'.mset = s.mset ∧ s'.time = s.time ∧ s'.pa = s.pa ∧ s'.nr = s.nr ∧
      ((t' = t ∧ s' = s) ∨
       ∃ sid ∈ t.list, ∃ sc, s.heap sid = some sc ∧ subsumer par sc = true ∧
        t'.list = t.list.filter (fun i => decide (i ∉ absorbed kit s sid t.list)) ∧
        t'.num = nsum s'.nums t'.list ∧
        s'.pset.list = s.pset.list.filter (fun i => decide (i ∉ absorbed kit s sid t.list)) ∧
        s'.heap sid = some { sc with num := sc.num + nsum s.nums (absorbed kit s sid t.list) } ∧
        ∀ i, i ≠ sid → i ∉ absorbed kit s sid t.list → s'.heap i = s.heap i) := by
  have hlive : ∀ i ∈ t.list, (s.heap i).isSome := fun i hi => g.inv.p.isSome (w.sub i hi)
  obtain ⟨res, e, hres⟩ := findSubsumer_post (par := par) (kit := kit) t.list none hlive (by simp)
  unfold subsumption
  rw [e]
  cases res with
  | none =>
    exact ⟨t, s, rfl, Evolved.refl g, w, rfl, rfl, rfl, rfl, rfl, Or.inl ⟨rfl, rfl⟩⟩
  | some sid =>
    obtain ⟨hsid, sc, hsc, hsub⟩ := hres sid rfl
    have hsid : sid ∈ t.list := by simpa using hsid
    obtain ⟨h, e2, k1, k2, k3⟩ := subsumeGo_spec (kit := kit) sid t.list false s w.nodup hlive
      (by rw [hsc]; rfl)
    simp only [Bool.false_or] at e2
    by_cases hA : absorbed kit s sid t.list = []
    · refine ⟨t, s, ?_, Evolved.refl g, w, rfl, rfl, rfl, rfl, rfl, Or.inl ⟨rfl, rfl⟩⟩
      show (subsumeGo kit sid t.list false s >>= _) = _
      rw [e2, hA]
      show Except.ok (t, _) = Except.ok (t, s)
      congr 2
      have hh : h = s.heap := by
        funext i
        by_cases ei : i = sid
        · subst ei; rw [k1 sc hsc, hA, hsc]; simp
        · exact k3 i ei (by rw [hA]; simp)
      rw [hh]; simp
    · generalize hAd : absorbed kit s sid t.list = A at e2 k1 k2 k3 hA
      have hAmem : ∀ i ∈ A, i ∈ t.list ∧ i ≠ sid := by
        intro i hi
        rw [← hAd] at hi
        have := List.mem_filter.1 hi
        simp only [Bool.and_eq_true, decide_eq_true_eq] at this
        exact ⟨this.1, this.2.1⟩
      have hAnd : A.Nodup := hAd ▸ w.nodup.sublist List.filter_sublist
      have inv := g.inv
      -- the intermediate state
      generalize hs1 : ({ s with
        heap := h
        kset := ⟨A.reverse ++ s.kset.list, s.kset.size + (A.length : Int), s.kset.num⟩ } :
          St K X B R) = s1
      rw [hs1] at e2
      have h1h : s1.heap = h := by subst hs1; rfl
      have h1p : s1.pset = s.pset := by subst hs1; rfl
      have h1k : s1.kset.list = A.reverse ++ s.kset.list := by subst hs1; rfl
      have nA : ∀ i ∈ A, s1.nums i = some 0 := by
        intro i hi
        obtain ⟨c, hc⟩ := Option.isSome_iff_exists.1 (hlive i (hAmem i hi).1)
        simp only [St.nums, h1h, k2 i hi c hc]; rfl
      have nO : ∀ i, i ≠ sid → i ∉ A → s1.nums i = s.nums i := by
        intro i h1 h2
        simp only [St.nums, h1h, k3 i h1 h2]
      obtain ⟨sc', hsc', hscn, hscv⟩ := g.liveP (w.sub sid hsid)
      rw [hsc] at hsc'; cases hsc'
      have hposA : ∀ i ∈ A, ∃ n, s.nums i = some n ∧ 1 ≤ n := fun i hi =>
        inv.p.pos i (w.sub i (hAmem i hi).1)
      have hAnn : 0 ≤ nsum s.nums A := by
        clear hAd nA nO e2 k1 k2 k3 hA hAmem hAnd hs1 h1k
        induction A with
        | nil => simp
        | cons a A ih =>
          have h1 := ih (fun i hi => hposA i (List.mem_cons_of_mem _ hi))
          obtain ⟨n, hn, hn1⟩ := hposA a List.mem_cons_self
          simp only [nsum_cons, hn, Option.getD_some]; omega
      have nS : s1.nums sid = some (sc.num + nsum s.nums A) := by
        simp only [St.nums, h1h, k1 sc hsc]; rfl
      have hsidA : sid ∉ A := fun hh => (hAmem sid hh).2 rfl
      -- the zero rules of population and set are the absorbed ones
      have hz : ∀ i ∈ s.pset.list, (s1.nums i ≠ some 0) ↔ i ∉ A := by
        intro i hi
        by_cases e1 : i = sid
        · subst e1
          rw [nS]
          simp only [ne_eq, Option.some.injEq]
          exact ⟨fun _ => hsidA, fun _ => by omega⟩
        · by_cases e2 : i ∈ A
          · rw [nA i e2]; simp [e2]
          · rw [nO i e1 e2]
            obtain ⟨n, hn, hn1⟩ := inv.p.pos i hi
            rw [hn]; simp [e2]; omega
      have hsome : ∀ i ∈ s.pset.list, (s1.heap i).isSome := by
        intro i hi
        by_cases e1 : i = sid
        · subst e1; rw [h1h, k1 sc hsc]; rfl
        · by_cases e2 : i ∈ A
          · obtain ⟨c, hc⟩ := Option.isSome_iff_exists.1 (hlive i (hAmem i e2).1)
            rw [h1h, k2 i e2 c hc]; rfl
          · rw [h1h, k3 i e1 e2]; exact inv.p.isSome hi
      obtain ⟨t', et, t1, t2, t3⟩ := validateGo_spec (s := s1) (l := t.list)
        (fun i hi => hsome i (w.sub i hi))
      obtain ⟨p', ep, p1, p2, p3⟩ := validateGo_spec (s := s1) (l := s.pset.list) hsome
      have t1' : t'.list = t.list.filter (fun i => decide (i ∉ A)) := by
        rw [t1]; apply List.filter_congr; intro i hi
        have := hz i (w.sub i hi)
        simp only [this]
      have p1' : p'.list = s.pset.list.filter (fun i => decide (i ∉ A)) := by
        rw [p1]; apply List.filter_congr; intro i hi
        have := hz i hi
        simp only [this]
      have hpm : ∀ i, i ∈ p'.list ↔ (i ∈ s.pset.list ∧ i ∉ A) := by
        intro i; rw [p1', List.mem_filter]; simp
      have htm : ∀ i, i ∈ t'.list ↔ (i ∈ t.list ∧ i ∉ A) := by
        intro i; rw [t1', List.mem_filter]; simp
      -- conservation
      have hpermA : (s.pset.list.filter (fun i => decide (i ∈ A))).Perm A := by
        rw [List.perm_ext_iff_of_nodup (inv.p.nodup.sublist List.filter_sublist) hAnd]
        intro i; rw [List.mem_filter]
        constructor
        · intro hh; simpa using hh.2
        · intro hh; exact ⟨w.sub i (hAmem i hh).1, by simpa using hh⟩
      have hnum : p'.num = s.pset.num := by
        have hnd : (s.pset.list.filter (fun i => decide (i ∉ A))).Nodup :=
          inv.p.nodup.sublist List.filter_sublist
        have hsm : sid ∈ s.pset.list.filter (fun i => decide (i ∉ A)) := by
          rw [List.mem_filter]; exact ⟨w.sub sid hsid, by simpa using hsidA⟩
        rw [p3, p1', inv.p.num, nsum_split s.nums (fun i => decide (i ∈ A)) s.pset.list,
          nsum_perm hpermA]
        have := nsum_update_mem (f := fun i => if i = sid then some (sc.num) else s1.nums i)
          (g := s1.nums) (i := sid) (fun j hj => by simp [hj]) nS hnd hsm
        rw [this]
        have e3 : nsum (fun i => if i = sid then some (sc.num) else s1.nums i)
            (s.pset.list.filter (fun i => decide (i ∉ A))) =
            nsum s.nums (s.pset.list.filter (fun i => !decide (i ∈ A))) := by
          have e4 : (s.pset.list.filter (fun i => decide (i ∉ A))) =
            (s.pset.list.filter (fun i => !decide (i ∈ A))) := by
            apply List.filter_congr; intro i _; simp
          rw [e4]
          apply nsum_congr
          intro i hi
          have hi2 := (List.mem_filter.1 hi).2
          have hiA : i ∉ A := by simpa using hi2
          by_cases e1 : i = sid
          · subst e1; simp [nums_of_heap hsc]
          · simp only [e1, if_false]; exact nO i e1 hiA
        rw [e3]; simp; omega
      have hkA : ∀ i ∈ A, i ∉ s.kset.list := by
        intro i hi hh
        obtain ⟨n, hn, hn1⟩ := hposA i hi
        rw [inv.kz i hh] at hn; cases hn; omega
      have nOut : ∀ i, i ∉ s.pset.list → s1.nums i = s.nums i := by
        intro i hi
        exact nO i (fun e => hi (e ▸ w.sub sid hsid)) (fun hh => hi (w.sub i (hAmem i hh).1))
      have g2 : Good V { s1 with pset := p' } pend := by
        refine ⟨?_, ?_⟩
        · constructor
          · refine ⟨p1' ▸ inv.p.nodup.sublist List.filter_sublist, ?_, p2, p3⟩
            intro i hi
            obtain ⟨q1, q2⟩ := (hpm i).1 hi
            by_cases e1 : i = sid
            · subst e1; exact ⟨_, nS, by omega⟩
            · obtain ⟨n, hn, hn1⟩ := inv.p.pos i q1
              exact ⟨n, (nO i e1 q2).trans hn, hn1⟩
          · have : ({ s1 with pset := p' } : St K X B R).prevPset = s.prevPset := by subst hs1; rfl
            rw [this]
            exact inv.q.congr (fun i hi => nOut i (fun hh => inv.pq i hh hi))
          · intro i hi
            have : ({ s1 with pset := p' } : St K X B R).prevPset = s.prevPset := by subst hs1; rfl
            rw [this]
            exact inv.pq i ((hpm i).1 hi).1
          · intro i hi
            have hi' : i ∈ A.reverse ++ s.kset.list := h1k ▸ hi
            rcases List.mem_append.1 hi' with hh | hh
            · exact nA i (List.mem_reverse.1 hh)
            · have hnp : i ∉ s.pset.list := by
                intro hp
                obtain ⟨n, hn, hn1⟩ := inv.p.pos i hp
                rw [inv.kz i hh] at hn; cases hn; omega
              exact (nOut i hnp).trans (inv.kz i hh)
          · show s1.kset.list.Nodup
            rw [h1k, List.nodup_append]
            refine ⟨List.nodup_reverse.2 hAnd, inv.knd, ?_⟩
            intro a ha b hb e
            subst e; exact hkA a (List.mem_reverse.1 ha) hb
          · exact inv.pnd
          · intro i hi
            obtain ⟨q1, q2, q3⟩ := inv.p1 i hi
            refine ⟨(nOut i q2).trans q1, fun hh => q2 ((hpm i).1 hh).1, ?_⟩
            have : ({ s1 with pset := p' } : St K X B R).prevPset = s.prevPset := by subst hs1; rfl
            rw [this]; exact q3
          · intro i hi
            have hi' : (s1.nums i).isSome := hi
            show i ∈ p'.list ∨ i ∈ s1.prevPset.list ∨ i ∈ s1.kset.list ∨ i ∈ pend
            rw [h1k]
            have hq : s1.prevPset = s.prevPset := by subst hs1; rfl
            rw [hq]
            by_cases e1 : i ∈ s.pset.list
            · by_cases e2 : i ∈ A
              · exact Or.inr (Or.inr (Or.inl (List.mem_append.2 (Or.inl (List.mem_reverse.2 e2)))))
              · exact Or.inl ((hpm i).2 ⟨e1, e2⟩)
            · rw [nOut i e1] at hi'
              rcases inv.own i hi' with q | q | q | q
              · exact absurd q e1
              · exact Or.inr (Or.inl q)
              · exact Or.inr (Or.inr (Or.inl (List.mem_append.2 (Or.inr q))))
              · exact Or.inr (Or.inr (Or.inr q))
          · intro i hi
            have hi' : s.next ≤ i := by subst hs1; exact hi
            have hf := inv.fresh i hi'
            have : i ∉ s.pset.list := by
              intro hp
              obtain ⟨n, hn, hn1⟩ := inv.p.pos i hp
              rw [hf] at hn; cases hn
            exact (nOut i this).trans hf
        · intro i d hd
          have hd' : h i = some d := by rw [← h1h]; exact hd
          by_cases e1 : i = sid
          · subst e1; rw [k1 sc hsc] at hd'; cases hd'; exact L.num _ _ hscv
          · by_cases e2 : i ∈ A
            · obtain ⟨c, hc, _, hv⟩ := g.liveP (w.sub i (hAmem i e2).1)
              rw [k2 i e2 c hc] at hd'; cases hd'; exact L.num _ _ hv
            · rw [k3 i e1 e2] at hd'; exact g.vals i d hd'
      refine ⟨t', { s1 with pset := p' }, ?_, ?_, ?_, hnum, ?_, ?_, ?_, ?_, Or.inr ⟨sid, hsid, sc, hsc,
        hsub, ?_, t3, ?_, ?_, ?_⟩⟩
      · show (subsumeGo kit sid t.list false s >>= _) = _
        rw [e2]
        show (if decide (A ≠ []) = true then _ else _) = _
        rw [if_pos (by simpa using hA)]
        show (validateGo s1 t.list >>= fun t => validateGo s1 s1.pset.list >>= _) = _
        rw [et, h1p, ep]; rfl
      · refine ⟨g2, ?_, ?_, ?_, ?_, ?_, ?_, ?_, ?_⟩
        · refine ⟨fun i hi => ?_, by subst hs1; rfl, fun i hi => ?_⟩
          · show i ∈ p'.list ∨ i ∈ s1.kset.list
            rw [h1k]
            rcases hi with hh | hh
            · by_cases e2 : i ∈ A
              · exact Or.inr (List.mem_append.2 (Or.inl (List.mem_reverse.2 e2)))
              · exact Or.inl ((hpm i).2 ⟨hh, e2⟩)
            · exact Or.inr (List.mem_append.2 (Or.inr hh))
          · show s1.heap i = s.heap i
            rw [h1h]
            exact k3 i (fun e => inv.pq sid (w.sub sid hsid) (e ▸ hi))
              (fun e => inv.pq i (w.sub i (hAmem i e).1) hi)
        all_goals (subst hs1; rfl)
      · refine ⟨t1' ▸ w.nodup.sublist List.filter_sublist, ?_, t2, ?_⟩
        · intro i hi
          obtain ⟨q1, q2⟩ := (htm i).1 hi
          exact (hpm i).2 ⟨w.sub i q1, q2⟩
        · rw [t3]
          have : ∀ l : List Nat, (∀ i ∈ l, i ∈ p'.list) → 0 ≤ nsum s1.nums l := by
            intro l
            induction l with
            | nil => simp
            | cons i l ih =>
              intro hl
              have h1 := ih (fun j hj => hl j (List.mem_cons_of_mem _ hj))
              obtain ⟨n, hn, hn1⟩ := g2.inv.p.pos i (hl i List.mem_cons_self)
              have hn' : s1.nums i = some n := hn
              simp only [nsum_cons, hn', Option.getD_some]; omega
          apply this
          intro i hi
          obtain ⟨q1, q2⟩ := (htm i).1 hi
          exact (hpm i).2 ⟨w.sub i q1, q2⟩
      · subst hs1; rfl
      · subst hs1; rfl
      · subst hs1; rfl
      · subst hs1; rfl
      · rw [hAd]; exact t1'
      · rw [hAd]; exact p1'
      · rw [hAd]; show s1.heap sid = _; rw [h1h]; exact k1 sc hsc
      · rw [hAd]; intro i q1 q2; show s1.heap i = _; rw [h1h]; exact k3 i q1 q2

/-! ## Freeing -/

theorem killGo_spec : ∀ (l : List Nat) (s : St K X B R), l.Nodup → (∀ i ∈ l, (s.heap i).isSome) →
    killGo s l = .ok { s with heap := fun j => if j ∈ l then none else s.heap j }
  | [], s, _, _ => by simp [killGo]
  | i :: l, s, hn, hl => by
    rw [List.nodup_cons] at hn
    obtain ⟨c, hc⟩ := Option.isSome_iff_exists.1 (hl i List.mem_cons_self)
    unfold killGo
    simp only [St.freeCl, hc]
    show killGo _ l = _
    rw [killGo_spec l _ hn.2 (by
      intro j hj
      have : j ≠ i := fun e => hn.1 (e ▸ hj)
      simp only [this, if_false]; exact hl j (List.mem_cons_of_mem _ hj))]
    congr 1
    congr 1
    funext j
    by_cases e : j = i
    · subst e; simp
    · simp [e]

/-- Freeing the rules of the kill list at the end of a trial. -/
theorem killKset_post {s : St K X B R} (g : Good V s []) :
    ∃ s', killKset s = .ok s' ∧ Good V s' [] ∧ s'.kset = {} ∧
      s' = { s with heap := s'.heap, kset := {} } ∧
      (∀ i, i ∈ s.kset.list → s'.heap i = none) ∧ (∀ i, i ∉ s.kset.list → s'.heap i = s.heap i) := by
  have inv := g.inv
  have hlive : ∀ i ∈ s.kset.list, (s.heap i).isSome := by
    intro i hi; obtain ⟨c, hc, _⟩ := g.liveK hi; rw [hc]; rfl
  have hno : ∀ i n, s.nums i = some n → 1 ≤ n → i ∉ s.kset.list := by
    intro i n hn h1 hh
    rw [inv.kz i hh] at hn; cases hn; omega
  have hnums : ∀ i, i ∉ s.kset.list →
      ({ s with heap := fun j => if j ∈ s.kset.list then none else s.heap j, kset := {} } :
        St K X B R).nums i = s.nums i := by
    intro i hi; simp only [St.nums, hi, if_false]
  refine ⟨{ s with heap := fun j => if j ∈ s.kset.list then none else s.heap j, kset := {} },
    ?_, ⟨?_, ?_⟩, rfl, rfl, fun i hi => by simp [hi], fun i hi => by simp [hi]⟩
  · unfold killKset
    rw [killGo_spec _ s inv.knd hlive]; rfl
  · constructor
    · exact inv.p.congr (fun i hi => by
        obtain ⟨n, hn, h1⟩ := inv.p.pos i hi; exact hnums i (hno i n hn h1))
    · exact inv.q.congr (fun i hi => by
        obtain ⟨n, hn, h1⟩ := inv.q.pos i hi; exact hnums i (hno i n hn h1))
    · exact inv.pq
    · intro i hi; simp at hi
    · exact List.nodup_nil
    · exact List.nodup_nil
    · intro i hi; simp at hi
    · intro i hi
      by_cases hk : i ∈ s.kset.list
      · simp [St.nums, hk] at hi
      · rw [hnums i hk] at hi
        rcases inv.own i hi with q | q | q | q
        · exact Or.inl q
        · exact Or.inr (Or.inl q)
        · exact absurd q hk
        · simp at q
    · intro i hi
      have hf := inv.fresh i hi
      by_cases hk : i ∈ s.kset.list
      · simp [St.nums, hk]
      · rw [hnums i hk]; exact hf
  · intro i d hd
    have hd' : (if i ∈ s.kset.list then none else s.heap i) = some d := hd
    split at hd'
    · cases hd'
    · exact g.vals i d hd'

theorem clsetUpdate_post (L : Laws par kit V E) {t : CSet} {s : St K X B R} {pend : List Nat}
    (x : X) (y : List K) (cur : Bool) (g : Good V s pend) (w : Within s t) :
    ∃ t' s', clsetUpdate par kit t x y cur s = .ok (t', s') ∧ Evolved V s s' pend ∧
      Within s' t' ∧ s'.pset.num = s.pset.num ∧ s'.mset = s.mset ∧ s'.time = s.time ∧
      s'.pa = s.pa ∧ s'.nr = s.nr := by
  unfold clsetUpdate
  obtain ⟨h, r, e1, g1, u1, _⟩ := updateGo_post L x y w.num cur g w.nodup w.sub
  rw [e1]
  have w1 : Within { s with heap := h, rng := r } t := ⟨w.nodup, w.sub, w.size, w.num⟩
  obtain ⟨h2, cs, e2, _, _, g2, u2, _⟩ := updateFit_post (par := par) (kit := kit) L g1 w1
  show ∃ t' s', (updateFit par kit t { s with heap := h, rng := r } >>= _) = _ ∧ _
  rw [e2]
  show ∃ t' s', (if par.setSubsumption = true then
    subsumption par kit t { s with heap := h2, rng := r } else
    .ok (t, { s with heap := h2, rng := r })) = _ ∧ _
  have w2 : Within { s with heap := h2, rng := r } t := ⟨w.nodup, w.sub, w.size, w.num⟩
  have ev : Evolved V s { s with heap := h2, rng := r } pend :=
    ⟨g2, ⟨fun _ h => h, rfl, fun i hi => by
      have hit : i ∉ t.list := fun e => g.inv.pq i (w.sub i e) hi
      exact (u2 i hit).trans (u1 i hit)⟩, rfl, rfl, rfl, rfl, rfl, rfl, rfl⟩
  split
  · obtain ⟨t', s', e3, k1, k2, k3, k4, k5, k6, k7, _⟩ := subsumption_post (par := par) L g2 w2
    exact ⟨t', s', e3, ev.trans k1, k2, k3, k4, k5, k6, k7⟩
  · exact ⟨t, _, rfl, ev, w2, rfl, rfl, rfl, rfl, rfl⟩

end Xcsf
