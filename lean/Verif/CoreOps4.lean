import Verif.CoreOps3

/-!
# The evolutionary algorithm: invariant preservation and exact counts
-/

set_option linter.unusedSectionVars false

namespace Xcsf
variable {K X B R : Type} [Zero K] [One K] [Add K] [Sub K] [Mul K] [Div K]
  [LT K] [DecidableLT K] [IntCast K] [DecidableEq K]
variable {par : Params K} {kit : Kit K X B R} {V : Cl K B → Prop} {E : Fault → Prop}

theorem Good.perm {s : St K X B R} {pend pend' : List Nat} (g : Good V s pend)
    (h : pend.Perm pend') : Good V s pend' := by
  refine ⟨?_, g.vals⟩
  have inv := g.inv
  exact ⟨inv.p, inv.q, inv.pq, inv.kz, inv.knd, (h.nodup_iff).1 inv.pnd,
    fun i hi => inv.p1 i (h.mem_iff.2 hi),
    fun i hi => by
      rcases inv.own i hi with q | q | q | q
      · exact Or.inl q
      · exact Or.inr (Or.inl q)
      · exact Or.inr (Or.inr (Or.inl q))
      · exact Or.inr (Or.inr (Or.inr (h.mem_iff.1 q))), inv.fresh⟩

/-- One more micro-classifier of a rule of the population. -/
theorem incNum_post (L : Laws par kit V E) {s : St K X B R} {pend : List Nat}
    (g : Good V s pend) {p : Nat} (hp : p ∈ s.pset.list) :
    ∃ c, s.heap p = some c ∧
      incNum s p = .ok { s.put p { c with num := c.num + 1 } with
        pset := { s.pset with num := s.pset.num + 1 } } ∧
      Good V { s.put p { c with num := c.num + 1 } with
        pset := { s.pset with num := s.pset.num + 1 } } pend := by
  obtain ⟨c, hc, hc1, hv⟩ := g.liveP hp
  have inv := g.inv
  have hni := nums_of_heap hc
  have hnums : ∀ j, j ≠ p → (s.put p { c with num := c.num + 1 }).nums j = s.nums j := by
    intro j hj; rw [put_nums]; simp [hj]
  have hnp : (s.put p { c with num := c.num + 1 }).nums p = some (c.num + 1) := by
    rw [put_nums]; simp
  have hpq : p ∉ s.prevPset.list := inv.pq p hp
  have hpk : p ∉ s.kset.list := by
    intro h; have := inv.kz p h; rw [hni] at this; simp at this; omega
  have hpp : p ∉ pend := fun h => (inv.p1 p h).2.1 hp
  refine ⟨c, hc, ?_, ⟨?_, (g.vals.put (i := p) (L.num c (c.num + 1) hv) : Vals (s.put p _) V)⟩⟩
  · unfold incNum
    rw [rd_ok hc]; rfl
  · constructor
    · refine ⟨inv.p.nodup, ?_, inv.p.size, ?_⟩
      · intro j hj
        by_cases e : j = p
        · subst e; exact ⟨_, hnp, by omega⟩
        · obtain ⟨n, hn, h1⟩ := inv.p.pos j hj
          exact ⟨n, (hnums j e).trans hn, h1⟩
      · show s.pset.num + 1 = nsum (s.put p _).nums s.pset.list
        rw [nsum_update_mem hnums hnp inv.p.nodup hp, inv.p.num, hni]; simp; omega
    · exact inv.q.congr (fun j hj => hnums j (fun e => hpq (e ▸ hj)))
    · exact inv.pq
    · intro j hj; exact (hnums j (fun e => hpk (e ▸ hj))).trans (inv.kz j hj)
    · exact inv.knd
    · exact inv.pnd
    · intro j hj
      exact ⟨(hnums j (fun e => hpp (e ▸ hj))).trans (inv.p1 j hj).1, (inv.p1 j hj).2⟩
    · intro j hj
      by_cases e : j = p
      · subst e; exact Or.inl hp
      · have : (s.nums j).isSome := by rw [← hnums j e]; exact hj
        exact inv.own j this
    · intro j hj
      have : j ≠ p := by
        intro e; subst e
        have := inv.fresh j hj; rw [hni] at this; cases this
      exact (hnums j this).trans (inv.fresh j hj)

/-- Freeing an offspring that is in no set. -/
theorem freePend_post {s : St K X B R} {pend : List Nat} {i : Nat} (g : Good V s (i :: pend)) :
    s.freeCl i = .ok { s with heap := fun j => if j = i then none else s.heap j } ∧
      Good V { s with heap := fun j => if j = i then none else s.heap j } pend := by
  have inv := g.inv
  obtain ⟨h1, h2, h3⟩ := inv.p1 i List.mem_cons_self
  obtain ⟨c, hc, hn⟩ := heap_of_nums h1
  have hpn := List.nodup_cons.1 inv.pnd
  have hik : i ∉ s.kset.list := by
    intro h; have := inv.kz i h; rw [h1] at this; cases this
  have hnums : ∀ j, j ≠ i →
      ({ s with heap := fun j => if j = i then none else s.heap j } : St K X B R).nums j = s.nums j := by
    intro j hj; simp [St.nums, hj]
  refine ⟨by simp [St.freeCl, hc], ?_, ?_⟩
  · constructor
    · exact inv.p.congr (fun j hj => hnums j (fun e => h2 (e ▸ hj)))
    · exact inv.q.congr (fun j hj => hnums j (fun e => h3 (e ▸ hj)))
    · exact inv.pq
    · intro j hj; exact (hnums j (fun e => hik (e ▸ hj))).trans (inv.kz j hj)
    · exact inv.knd
    · exact hpn.2
    · intro j hj
      have h := inv.p1 j (List.mem_cons_of_mem _ hj)
      exact ⟨(hnums j (fun e => hpn.1 (e ▸ hj))).trans h.1, h.2⟩
    · intro j hj
      by_cases e : j = i
      · subst e; simp [St.nums] at hj
      · rw [hnums j e] at hj
        rcases inv.own j hj with q | q | q | q
        · exact Or.inl q
        · exact Or.inr (Or.inl q)
        · exact Or.inr (Or.inr (Or.inl q))
        · rcases List.mem_cons.1 q with e' | q
          · exact absurd e' e
          · exact Or.inr (Or.inr (Or.inr q))
    · intro j hj
      by_cases e : j = i
      · subst e; simp [St.nums]
      · exact (hnums j e).trans (inv.fresh j hj)
  · intro j d hd
    have hd' : (if j = i then none else s.heap j) = some d := hd
    split at hd'
    · cases hd'
    · exact g.vals j d hd'

/-- Moving an offspring into the population. -/
theorem addPset_post {s : St K X B R} {pend : List Nat} {i : Nat} (g : Good V s (i :: pend)) :
    addPset s i = .ok { s with pset := s.pset.add i 1 } ∧
      Good V { s with pset := s.pset.add i 1 } pend := by
  have inv := g.inv
  obtain ⟨h1, h2, h3⟩ := inv.p1 i List.mem_cons_self
  obtain ⟨c, hc, hn⟩ := heap_of_nums h1
  have hpn := List.nodup_cons.1 inv.pnd
  refine ⟨?_, ?_, g.vals⟩
  · unfold addPset
    rw [rd_ok hc, ← hn]; rfl
  · constructor
    · refine ⟨List.nodup_cons.2 ⟨h2, inv.p.nodup⟩, ?_, ?_, ?_⟩
      · intro j hj
        rcases List.mem_cons.1 hj with e | hj
        · subst e; exact ⟨1, h1, Int.le_refl _⟩
        · exact inv.p.pos j hj
      · have := inv.p.size
        simp only [CSet.add, List.length_cons]; omega
      · show s.pset.num + 1 = nsum s.nums (i :: s.pset.list)
        rw [nsum_cons, h1, inv.p.num]; simp; omega
    · exact inv.q
    · intro j hj
      rcases List.mem_cons.1 hj with e | hj
      · subst e; exact h3
      · exact inv.pq j hj
    · exact inv.kz
    · exact inv.knd
    · exact hpn.2
    · intro j hj
      have h := inv.p1 j (List.mem_cons_of_mem _ hj)
      refine ⟨h.1, ?_, h.2.2⟩
      intro hh
      rcases List.mem_cons.1 hh with e | hh
      · subst e; exact hpn.1 hj
      · exact h.2.1 hh
    · intro j hj
      rcases inv.own j hj with q | q | q | q
      · exact Or.inl (List.mem_cons_of_mem _ q)
      · exact Or.inr (Or.inl q)
      · exact Or.inr (Or.inr (Or.inl q))
      · rcases List.mem_cons.1 q with e' | q
        · subst e'; exact Or.inl List.mem_cons_self
        · exact Or.inr (Or.inr (Or.inr q))
    · exact inv.fresh

theorem candidates_post {s : St K X B R} (b : B) : ∀ (l : List Nat), (∀ i ∈ l, (s.heap i).isSome) →
    ∃ cand, candidates par kit s b l = .ok cand ∧ ∀ i ∈ cand, i ∈ l ∧
      ∃ c, s.heap i = some c ∧ subsumer par c = true ∧ kit.general c.body b = true
  | [], _ => ⟨[], rfl, by simp⟩
  | i :: l, hl => by
    obtain ⟨c, hc⟩ := Option.isSome_iff_exists.1 (hl i List.mem_cons_self)
    obtain ⟨cand, e, h⟩ := candidates_post b l (fun j hj => hl j (List.mem_cons_of_mem _ hj))
    unfold candidates
    rw [rd_ok hc, e]
    refine ⟨_, rfl, ?_⟩
    intro j hj
    split at hj
    · next hcond =>
      rcases List.mem_cons.1 hj with ej | hj
      · subst ej
        rw [Bool.and_eq_true] at hcond
        exact ⟨List.mem_cons_self, c, hc, hcond.1, hcond.2⟩
      · exact ⟨List.mem_cons_of_mem _ (h j hj).1, (h j hj).2⟩
    · exact ⟨List.mem_cons_of_mem _ (h j hj).1, (h j hj).2⟩

/-- What placing one offspring `i` does: the total numerosity rises by exactly one.
`J p` is the justification for letting rule `p` absorb it. -/
structure Placed (V : Cl K B → Prop) (i : Nat) (J : Nat → Prop) (s s' : St K X B R)
    (pend : List Nat) : Prop where
  good : Good V s' pend
  num : s'.pset.num = s.pset.num + 1
  frame : Frame s s'
  kset : s'.kset = s.kset
  time : s'.time = s.time
  next : s'.next = s.next
  sub : ∀ j ∈ s.pset.list, j ∈ s'.pset.list
  cells : ∀ j c, j ≠ i → s.heap j = some c → ∃ n, s'.heap j = some { c with num := n }
  /-- either the offspring joined, nothing else changed, or one rule of the population
  gained one and the offspring is gone -/
  how : (s'.pset.list = i :: s.pset.list ∧ s'.heap = s.heap) ∨
    (s'.pset.list = s.pset.list ∧ s'.heap i = none ∧ ∃ p ∈ s.pset.list, J p ∧ ∃ c, s.heap p = some c ∧
      s'.heap p = some { c with num := c.num + 1 } ∧
      ∀ j, j ≠ i → j ≠ p → s'.heap j = s.heap j)

theorem Placed.stored {i : Nat} {J : Nat → Prop} {s s' : St K X B R} {pend : List Nat}
    (h : Placed V i J s s' pend) (g : Good V s (i :: pend)) :
    ∀ j ∈ s.prevPset.list, s'.heap j = s.heap j := by
  intro j hj
  rcases h.how with ⟨_, e⟩ | ⟨_, _, p, hp, _, c, _, _, e⟩
  · rw [e]
  · exact e j (fun e => (g.inv.p1 i List.mem_cons_self).2.2 (e ▸ hj))
      (fun e => g.inv.pq p hp (e ▸ hj))

/-- Absorbing the offspring `i` in rule `p`. -/
theorem absorb_post (L : Laws par kit V E) {s : St K X B R} {pend : List Nat} {i p : Nat}
    {J : Nat → Prop} (g : Good V s (i :: pend)) (hp : p ∈ s.pset.list) (hJ : J p) :
    ∃ s', (incNum s p >>= fun s => s.freeCl i) = .ok s' ∧ Placed V i J s s' pend := by
  obtain ⟨c, hc, e, g1⟩ := incNum_post L g hp
  obtain ⟨e2, g2⟩ := freePend_post g1
  have hip : p ≠ i := fun e => (g.inv.p1 i List.mem_cons_self).2.1 (e ▸ hp)
  refine ⟨_, ?_, ⟨g2, rfl, ⟨rfl, rfl, rfl, rfl, rfl, rfl, rfl, rfl, rfl, rfl⟩, rfl, rfl, rfl,
    fun j hj => hj, ?_, Or.inr ⟨rfl, by simp, p, hp, hJ, c, hc, ?_, ?_⟩⟩⟩
  · rw [e]; exact e2
  · intro j d hj hd
    show ∃ n, (if j = i then none else (s.put p _).heap j) = _
    rw [if_neg hj]
    by_cases ej : j = p
    · subst ej; rw [hc] at hd; cases hd; exact ⟨c.num + 1, put_heap_self _ _ _⟩
    · exact ⟨d.num, by rw [put_heap_ne _ _ ej]; exact hd⟩
  · show (if p = i then none else (s.put p _).heap p) = _
    rw [if_neg hip]; exact put_heap_self _ _ _
  · intro j h1 h2
    show (if j = i then none else (s.put p _).heap j) = _
    rw [if_neg h1]; exact put_heap_ne _ _ h2

theorem join_post {s : St K X B R} {pend : List Nat} {i : Nat} {J : Nat → Prop}
    (g : Good V s (i :: pend)) : ∃ s', addPset s i = .ok s' ∧ Placed V i J s s' pend := by
  obtain ⟨e, g1⟩ := addPset_post g
  exact ⟨_, e, ⟨g1, rfl, ⟨rfl, rfl, rfl, rfl, rfl, rfl, rfl, rfl, rfl, rfl⟩, rfl, rfl, rfl,
    fun j hj => List.mem_cons_of_mem _ hj, fun j c _ hc => ⟨c.num, hc⟩, Or.inl ⟨rfl, rfl⟩⟩⟩

theorem Placed.rng {i : Nat} {J : Nat → Prop} {s s' : St K X B R} {pend : List Nat} {r : R}
    (h : Placed V i J { s with rng := r } s' pend) : Placed V i J s s' pend :=
  ⟨h.good, h.num, ⟨h.frame.1, h.frame.2, h.frame.3, h.frame.4, h.frame.5, h.frame.6, h.frame.7,
    h.frame.8, h.frame.9, h.frame.10⟩, h.kset, h.time, h.next, h.sub, h.cells, h.how⟩

/-- Rule `p` is experienced and accurate and more general than rule `i`. -/
def Subsumes (par : Params K) (kit : Kit K X B R) (s : St K X B R) (p i : Nat) : Prop :=
  ∃ c d, s.heap p = some c ∧ s.heap i = some d ∧ par.thetaSub < c.exp ∧ c.err < par.e0 ∧
    kit.general c.body d.body = true

theorem Subsumes.of {s : St K X B R} {p i : Nat} {c d : Cl K B} (hc : s.heap p = some c)
    (hd : s.heap i = some d) (h : (subsumer par c && kit.general c.body d.body) = true) :
    Subsumes par kit s p i := by
  simp only [subsumer, Bool.and_eq_true, decide_eq_true_eq] at h
  exact ⟨c, d, hc, hd, h.1.1, h.1.2, h.2⟩

theorem eaSubsume_post (L : Laws par kit V E) {t : List Nat} {s : St K X B R} {pend : List Nat}
    {i p1 p2 : Nat} (g : Good V s (i :: pend)) (h1 : p1 ∈ s.pset.list) (h2 : p2 ∈ s.pset.list)
    (ht : ∀ j ∈ t, j ∈ s.pset.list) :
    Post (eaSubsume par kit t i p1 p2 s)
      (fun s' => Placed V i (fun p => Subsumes par kit s p i) s s' pend) E := by
  obtain ⟨c, hc, _⟩ := heap_of_nums (g.inv.p1 i List.mem_cons_self).1
  obtain ⟨c1, hc1, _, _⟩ := g.liveP h1
  obtain ⟨c2, hc2, _, _⟩ := g.liveP h2
  unfold eaSubsume
  rw [rd_ok hc, rd_ok hc1]
  show Post (if (subsumer par c1 && kit.general c1.body c.body) = true then
    (incNum s p1 >>= fun s => s.freeCl i) else _) _ _
  split
  · next hs =>
    obtain ⟨s', e, h⟩ := absorb_post L g (J := fun p => Subsumes par kit s p i) h1
      (Subsumes.of hc1 hc hs)
    rw [e]; exact h
  · rw [rd_ok hc2]
    show Post (if (subsumer par c2 && kit.general c2.body c.body) = true then
      (incNum s p2 >>= fun s => s.freeCl i) else _) _ _
    split
    · next hs =>
      obtain ⟨s', e, h⟩ := absorb_post L g (J := fun p => Subsumes par kit s p i) h2
        (Subsumes.of hc2 hc hs)
      rw [e]; exact h
    · obtain ⟨cand, e, hcand⟩ := candidates_post (par := par) (kit := kit) (s := s) c.body t
        (fun j hj => g.inv.p.isSome (ht j hj))
      rw [e]
      show Post (if 0 < cand.length then _ else addPset s i) _ _
      split
      · next hlen =>
        have gr : Good V { s with rng := (uniformInt kit 0 (cand.length : Int) s.rng).2 }
          (i :: pend) := g.congr rfl rfl rfl rfl rfl
        have hidx := L.index cand.length s.rng hlen
        revert hidx gr
        generalize uniformInt kit 0 (cand.length : Int) s.rng = k
        intro gr hidx
        show Post (if 0 ≤ k.1 then _ else _) _ _
        split
        · next h0 =>
          split
          · next hnone =>
            rcases hidx with h | h
            · exact h
            · rw [List.getElem?_eq_none_iff] at hnone; omega
          · next j hj =>
            obtain ⟨hjt, cj, hcj, q1, q2⟩ := hcand j (List.mem_of_getElem? hj)
            have hjm : j ∈ s.pset.list := ht j hjt
            obtain ⟨s', e, h⟩ := absorb_post L gr (p := j)
              (J := fun p => Subsumes par kit s p i) hjm
              (Subsumes.of hcj hc (by rw [Bool.and_eq_true]; exact ⟨q1, q2⟩))
            show Post (incNum _ j >>= fun s => s.freeCl i) _ _
            rw [e]; exact h.rng
        · next h0 =>
          rcases hidx with h | h
          · exact h
          · exact absurd h.1 h0
      · obtain ⟨s', e, h⟩ := join_post g
        rw [e]; exact h

theorem eaAdd_post (L : Laws par kit V E) {t : List Nat} {s : St K X B R} {pend : List Nat}
    {i p1 p2 : Nat} (cmod mmod : Bool) (g : Good V s (i :: pend)) (h1 : p1 ∈ s.pset.list)
    (h2 : p2 ∈ s.pset.list) (ht : ∀ j ∈ t, j ∈ s.pset.list) :
    Post (eaAdd par kit t p1 p2 i cmod mmod s) (fun s' => Placed V i (fun p =>
      (cmod = false ∧ mmod = false ∧ p = p1) ∨
      ((cmod = true ∨ mmod = true) ∧ par.eaSubsumption = true ∧ Subsumes par kit s p i))
      s s' pend) E := by
  unfold eaAdd
  split
  · next hsame =>
    obtain ⟨s', e, h⟩ := absorb_post L g h1 (J := fun p =>
      (cmod = false ∧ mmod = false ∧ p = p1) ∨
      ((cmod = true ∨ mmod = true) ∧ par.eaSubsumption = true ∧ Subsumes par kit s p i))
      (Or.inl (by simpa using hsame))
    show Post (incNum s p1 >>= fun s => s.freeCl i) _ _
    rw [e]; exact h
  · next hmod =>
    have hm : cmod = true ∨ mmod = true := by
      cases cmod <;> cases mmod <;> simp at hmod ⊢
    split
    · next hsub =>
      refine post_mono (eaSubsume_post L g h1 h2 ht) ?_
      intro s' h
      refine ⟨h.good, h.num, h.frame, h.kset, h.time, h.next, h.sub, h.cells, ?_⟩
      rcases h.how with q | ⟨q1, q2, p, q3, q4, q5⟩
      · exact Or.inl q
      · exact Or.inr ⟨q1, q2, p, q3, Or.inr ⟨hm, hsub, q4⟩, q5⟩
    · obtain ⟨s', e, h⟩ := join_post g
      rw [e]; exact h

/-- What a number of offspring do to the state. -/
structure Bred (V : Cl K B → Prop) (n : Int) (s s' : St K X B R) (pend : List Nat) : Prop where
  good : Good V s' pend
  num : s'.pset.num = s.pset.num + n
  frame : Frame s s'
  kset : s'.kset = s.kset
  time : s'.time = s.time
  next : s.next ≤ s'.next
  sub : ∀ j ∈ s.pset.list, j ∈ s'.pset.list
  cells : ∀ j c, s.heap j = some c → ∃ n, s'.heap j = some { c with num := n }
  stored : ∀ j ∈ s.prevPset.list, s'.heap j = s.heap j

theorem Bred.keep {n : Int} {s s' : St K X B R} {pend : List Nat} (h : Bred V n s s' pend) :
    Keep s s' :=
  ⟨fun i hi => by rw [h.kset]; exact hi.imp (h.sub i) id, h.frame.prevPset, h.stored⟩

theorem eaPair_post (L : Laws par kit V E) {t : List Nat} {s : St K X B R} {pend : List Nat}
    {p1 p2 : Nat} (g : Good V s pend) (h1 : p1 ∈ s.pset.list)
    (h2 : p2 ∈ s.pset.list) (ht : ∀ j ∈ t, j ∈ s.pset.list) :
    Post (eaPair par kit t p1 p2 s) (fun s' => Bred V 2 s s' pend) E := by
  obtain ⟨c1, hc1, hn1, hv1⟩ := g.liveP h1
  obtain ⟨c2, hc2, hn2, hv2⟩ := g.liveP h2
  unfold eaPair
  rw [rd_ok hc1, rd_ok hc2]
  have hoff := L.offspring c1 c2 s.rng hv1 hv2 hn1 hn2
  simp only at hoff
  revert hoff
  show _ → Post (kit.mutate _ _ >>= _) _ _
  generalize hb1 : kit.copy par.eaPredReset c1.body s.rng = b1
  generalize hb2 : kit.copy par.eaPredReset c2.body b1.2 = b2
  generalize hx : kit.crossover b1.1 b2.1 b2.2 = x
  intro hoff
  refine post_bind hoff fun m1 hoff => ?_
  refine post_bind hoff fun m2 hoff => ?_
  revert hoff
  show _ → Post (eaAdd par kit t p1 p2 _ _ _ _ >>= _) _ _
  generalize ho : initOffspring par c1 c2 (clInit par c1.size c1.time m1.2.1)
    (clInit par c2.size c2.time m2.2.1) x.1 = o
  rintro ⟨ho1, ho2⟩
  have hon : o.1.num = 1 ∧ o.2.num = 1 := by
    rw [← ho]; unfold initOffspring; split <;> exact ⟨rfl, rfl⟩
  have gr : Good V { s with rng := m2.2.2 } pend := g.congr rfl rfl rfl rfl rfl
  have ga := gr.alloc ho1 hon.1
  have gb := ga.alloc ho2 hon.2
  have hne : ∀ j c, s.heap j = some c → j < s.next := by
    intro j c hj
    by_contra hlt
    have := g.inv.fresh j (by omega)
    rw [nums_of_heap hj] at this; cases this
  have key : Post (eaAdd par kit t p1 p2 s.next x.1 m1.1
      (((({ s with rng := m2.2.2 } : St K X B R).alloc o.1).2.alloc o.2).2) >>= fun s2 =>
        eaAdd par kit t p2 p1 (s.next + 1) x.1 m2.1 s2) (fun s' => Bred V 2 s s' pend) E := by
    have gb' : Good V _ (s.next :: (s.next + 1) :: pend) := gb.perm (List.Perm.swap _ _ _)
    refine post_bind (eaAdd_post L (t := t) (p1 := p1) (p2 := p2) x.1 m1.1 gb' h1 h2 ht) ?_
    intro s1 q1
    refine post_mono (eaAdd_post L (t := t) (p1 := p2) (p2 := p1) x.1 m2.1 q1.good
      (q1.sub p2 h2) (q1.sub p1 h1) (fun j hj => q1.sub j (ht j hj))) ?_
    intro s2 q2
    refine ⟨q2.good, ?_, ?_, ?_, ?_, ?_, ?_, ?_, ?_⟩
    · rw [q2.num, q1.num]; show s.pset.num + 1 + 1 = _; omega
    · exact ⟨q2.frame.1.trans q1.frame.1, q2.frame.2.trans q1.frame.2, q2.frame.3.trans q1.frame.3,
        q2.frame.4.trans q1.frame.4, q2.frame.5.trans q1.frame.5, q2.frame.6.trans q1.frame.6,
        q2.frame.7.trans q1.frame.7, q2.frame.8.trans q1.frame.8, q2.frame.9.trans q1.frame.9,
        q2.frame.10.trans q1.frame.10⟩
    · exact q2.kset.trans q1.kset
    · exact q2.time.trans q1.time
    · rw [q2.next, q1.next]; show s.next ≤ s.next + 1 + 1; omega
    · intro j hj; exact q2.sub j (q1.sub j hj)
    · intro j c hj
      have hlt := hne j c hj
      have e0 : ((({ s with rng := m2.2.2 } : St K X B R).alloc o.1).2.alloc o.2).2.heap j = some c := by
        rw [alloc_heap, if_neg, alloc_heap, if_neg]
        · exact hj
        · show j ≠ s.next; omega
        · show j ≠ s.next + 1; omega
      obtain ⟨n1, e1⟩ := q1.cells j c (by omega) e0
      obtain ⟨n2, e2⟩ := q2.cells j _ (by omega) e1
      exact ⟨n2, e2⟩
    · intro j hj
      have hj1 : j ∈ s1.prevPset.list := by rw [q1.frame.prevPset]; exact hj
      rw [q2.stored q1.good j hj1, q1.stored gb' j hj]
      obtain ⟨c, hc⟩ := Option.isSome_iff_exists.1 (g.inv.q.isSome hj)
      have hlt := hne j c hc
      rw [alloc_heap, if_neg, alloc_heap, if_neg]
      · show j ≠ s.next; omega
      · show j ≠ s.next + 1; omega
  exact key

theorem eaLoop_post (L : Laws par kit V E) {t : List Nat} {p1 p2 : Nat} {pend : List Nat} :
    ∀ (n : Nat) (i : Int) {s : St K X B R}, Good V s pend → p1 ∈ s.pset.list →
    p2 ∈ s.pset.list → (∀ j ∈ t, j ∈ s.pset.list) → (par.eaLambda - 2 * i + 1) / 2 ≤ n →
    Post (eaLoop par kit t p1 p2 n i s)
      (fun s' => Bred V (2 * max 0 ((par.eaLambda - 2 * i + 1) / 2)) s s' pend) E
  | 0, i, s, g, h1, h2, ht, hn => by
    unfold eaLoop
    split
    · next h => simp at hn; omega
    · next h =>
      exact ⟨g, by omega, Frame.refl _, rfl, rfl, Nat.le_refl _, fun _ h => h,
        fun _ c h => ⟨c.num, h⟩, fun _ _ => rfl⟩
  | n + 1, i, s, g, h1, h2, ht, hn => by
    unfold eaLoop
    split
    · next h =>
      refine post_bind (eaPair_post L g h1 h2 ht) ?_
      intro s1 q1
      refine post_mono (eaLoop_post L n (i + 1) q1.good (q1.sub _ h1) (q1.sub _ h2)
        (fun j hj => q1.sub j (ht j hj)) (by push_cast at hn; omega)) ?_
      intro s2 q2
      refine ⟨q2.good, ?_, q1.frame.trans q2.frame, q2.kset.trans q1.kset, q2.time.trans q1.time,
        Nat.le_trans q1.next q2.next, fun j hj => q2.sub j (q1.sub j hj), ?_,
        (q1.keep.trans q2.keep).cells⟩
      · rw [q2.num, q1.num]; omega
      · intro j c hc
        obtain ⟨n1, e1⟩ := q1.cells j c hc
        obtain ⟨n2, e2⟩ := q2.cells j _ e1
        exact ⟨n2, e2⟩
    · next h =>
      exact ⟨g, by omega, Frame.refl _, rfl, rfl, Nat.le_refl _, fun _ h => h,
        fun _ c h => ⟨c.num, h⟩, fun _ _ => rfl⟩

/-! ## Selection of parents -/

theorem tournamentPass_mem : ∀ (l : List (Nat × K)) (w : Option (Nat × K)) (r : R) (i : Nat) (f : K),
    (tournamentPass par kit l w r).1 = some (i, f) → (i, f) ∈ l ∨ w = some (i, f)
  | [], w, r, i, f, h => Or.inr h
  | (j, fj) :: l, w, r, i, f, h => by
    unfold tournamentPass at h
    rcases tournamentPass_mem l _ _ i f h with h | h
    · exact Or.inl (List.mem_cons_of_mem _ h)
    · split at h
      · cases h; exact Or.inl List.mem_cons_self
      · exact Or.inr h

theorem selectTournament_post (hE : E .hang) (l : List (Nat × K)) : ∀ (n : Nat) (r : R),
    Post (selectTournament par kit l n r) (fun p => ∃ f, (p.1, f) ∈ l) E
  | 0, r => hE
  | n + 1, r => by
    unfold selectTournament
    split
    · next i f r' h =>
      have := tournamentPass_mem (par := par) (kit := kit) l none r i f (by rw [h])
      simp only [reduceCtorEq, or_false] at this
      exact ⟨f, this⟩
    · exact selectTournament_post hE l n _

theorem eaSelect_post (L : Laws par kit V E) {t : List Nat} {s : St K X B R} {pend : List Nat}
    (g : Good V s pend) (ht : ∀ j ∈ t, j ∈ s.pset.list) (hne : t ≠ []) :
    Post (eaSelect par kit t s) (fun p => p.1 ∈ t ∧ p.2.1 ∈ t) E := by
  obtain ⟨cs, e, hcs⟩ := rds_ok (s := s) (l := t) (fun j hj => g.inv.p.isSome (ht j hj))
  have hlen := rds_length hcs
  unfold eaSelect
  rw [e]
  show Post (if par.eaTournament = true then _ else _) _ _
  split
  · next ht =>
    have hz : t.zip (cs.map Cl.fit) ≠ [] := by
      intro h
      have := congrArg List.length h
      rw [List.length_zip, List.length_map, hlen, Nat.min_self] at this
      exact hne (List.eq_nil_of_length_eq_zero this)
    refine post_bind (L.tournament ht _ hz s.rng) ?_
    rintro ⟨p1, r1⟩ ⟨f1, h1⟩
    refine post_bind (L.tournament ht _ hz r1) ?_
    rintro ⟨p2, r2⟩ ⟨f2, h2⟩
    exact ⟨(List.of_mem_zip h1).1, (List.of_mem_zip h2).1⟩
  · have hcne : cs ≠ [] := by
      intro h; rw [h] at hlen; exact hne (List.eq_nil_of_length_eq_zero hlen.symm)
    have hV : ∀ c ∈ cs, V c := by
      intro c hc
      obtain ⟨i, _, e⟩ := rds_mem hcs hc
      exact g.vals i c e
    refine post_bind (L.wheelSel t cs hcne hlen hV s.rng) ?_
    rintro ⟨p1, r1⟩ h1
    refine post_bind (L.wheelSel t cs hcne hlen hV r1) ?_
    rintro ⟨p2, r2⟩ h2
    exact ⟨h1, h2⟩

/-- Number of micro-classifiers one invocation of the evolutionary algorithm adds before the
population limit is enforced: lambda rounded up to an even number. -/
def brood (par : Params K) : Int := 2 * max 0 ((par.eaLambda + 1) / 2)

theorem eaBreed_post (L : Laws par kit V E) {t : CSet} {s : St K X B R} {pend : List Nat}
    (g : Good V s pend) (w : Within s t) (hne : t.list ≠ []) :
    Post (eaBreed par kit t s) (fun s' => Good V s' pend ∧ s'.pset.num = s.pset.num + brood par ∧
      Frame s s' ∧ s'.kset = s.kset ∧ s'.time = s.time ∧
      (∀ j ∈ s.pset.list, j ∈ s'.pset.list) ∧
      (∀ j c, s.heap j = some c → ∃ n, s'.heap j =
        some { c with num := n, time := if j ∈ t.list then s.time else c.time }) ∧
      (∀ j ∈ s.prevPset.list, s'.heap j = s.heap j)) E := by
  unfold eaBreed
  rw [setTimes_eq]
  obtain ⟨h, r, e, g1, h1, h2⟩ := g.forEach
    (upd := fun r c => ({ c with time := s.time }, r)) w.nodup w.sub
    (fun r c hv _ => ⟨rfl, L.time c _ hv⟩)
  rw [e]
  show Post (eaSelect par kit t.list { s with heap := h, rng := r } >>= _) _ _
  refine post_bind (eaSelect_post L g1 w.sub hne) ?_
  rintro ⟨p1, p2, r2⟩ ⟨hp1, hp2⟩
  have g2 : Good V { s with heap := h, rng := r2 } pend := g1.congr rfl rfl rfl rfl rfl
  refine post_mono (eaLoop_post L (t := t.list) (p1 := p1) (p2 := p2) par.eaLambda.toNat 0 g2
    (w.sub _ hp1) (w.sub _ hp2) w.sub (by omega)) ?_
  intro s' q
  refine ⟨q.good, ?_, ⟨q.frame.1, q.frame.2, q.frame.3, q.frame.4, q.frame.5, q.frame.6, q.frame.7,
    q.frame.8, q.frame.9, q.frame.10⟩, q.kset, q.time, q.sub, ?_,
    fun j hj => (q.stored j hj).trans (h1 j (fun e => g.inv.pq j (w.sub j e) hj))⟩
  · rw [q.num]; simp [brood]
  · intro j c hc
    by_cases hj : j ∈ t.list
    · obtain ⟨_, e1⟩ := h2 j hj c hc
      obtain ⟨n, e2⟩ := q.cells j _ e1
      exact ⟨n, by rw [if_pos hj]; exact e2⟩
    · obtain ⟨n, e2⟩ := q.cells j c ((h1 j hj).trans hc)
      exact ⟨n, by rw [if_neg hj]; exact e2⟩

/-- `ea`: counts and invariants. -/
theorem ea_post (L : Laws par kit V E) {t : CSet} {s : St K X B R} {pend : List Nat}
    (g : Good V s pend) (w : Within s t) :
    Post (ea par kit t s) (fun s' => Evolved V s s' pend ∧ s'.time = s.time + 1 ∧
      s'.mset = s.mset ∧ s'.pa = s.pa ∧ s'.nr = s.nr ∧
      ∃ cs, s.rds t.list = .ok cs ∧
      s'.pset.num = if eaDue par t cs (s.time + 1) then min (s.pset.num + brood par) par.popSize
        else s.pset.num) E := by
  obtain ⟨cs, e, hcs⟩ := rds_ok (s := s) (l := t.list) (fun j hj => g.inv.p.isSome (w.sub j hj))
  unfold ea
  have e' : ({ s with time := s.time + 1 } : St K X B R).rds t.list = .ok cs := e
  have g1 : Good V { s with time := s.time + 1 } pend := g.congr rfl rfl rfl rfl rfl
  show Post (({ s with time := s.time + 1 } : St K X B R).rds t.list >>= _) _ _
  rw [e']
  show Post (if eaDue par t cs (s.time + 1) = true then _ else _) _ _
  split
  · next hdue =>
    have hne : t.list ≠ [] := by
      intro hn
      have := w.size
      rw [hn] at this
      simp [eaDue, this] at hdue
    refine post_bind (eaBreed_post L g1 ⟨w.nodup, w.sub, w.size, w.num⟩ hne) ?_
    rintro s1 ⟨q1, q2, q3, q4, q5, q6, _, q8⟩
    refine post_mono (enforce_post L q1) ?_
    rintro s2 ⟨k1, k2⟩
    refine ⟨⟨k1.good, ?_, ?_, ?_, ?_, ?_, ?_, ?_, ?_⟩, ?_, ?_, ?_, ?_, cs, e, ?_⟩
    · refine Keep.trans (b := s1) ⟨fun i hi => ?_, q3.prevPset, q8⟩ k1.keep
      rw [q4]; exact hi.imp (q6 i) id
    · exact k1.frame.prevPset.trans q3.prevPset
    · exact k1.frame.aset.trans q3.aset
    · exact k1.frame.prevAset.trans q3.prevAset
    · exact k1.frame.explore.trans q3.explore
    · exact k1.frame.prevState.trans q3.prevState
    · exact k1.frame.prevReward.trans q3.prevReward
    · exact k1.frame.prevPred.trans q3.prevPred
    · exact k1.time.trans q5
    · exact k1.frame.mset.trans q3.mset
    · exact k1.frame.pa.trans q3.pa
    · exact k1.frame.nr.trans q3.nr
    · rw [if_pos hdue, k2, q2]
  · next hdue =>
    exact ⟨⟨g1, ⟨fun _ h => h, rfl, fun _ _ => rfl⟩, rfl, rfl, rfl, rfl, rfl, rfl, rfl⟩, rfl, rfl, rfl, rfl, cs, e,
      by rw [if_neg hdue]⟩

end Xcsf
