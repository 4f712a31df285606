import Verif.CoreInv

/-!
# Invariant preservation by the operations of `clset.c` and `ea.c`
-/

set_option linter.unusedSectionVars false

namespace Xcsf
variable {K X B R : Type} [Zero K] [One K] [Add K] [Sub K] [Mul K] [Div K]
  [LT K] [DecidableLT K] [IntCast K] [DecidableEq K]

/-- Among the tolerated faults is the exit of the library with a message. -/
class MayExit (E : Fault → Prop) : Prop where
  exit : E .exit

instance : MayExit (fun _ => True) := ⟨trivial⟩

/-- What the life-cycle theorems need to know about arithmetic, parameters and the
representation: `V` is a property of single rules that every update of a rule
preserves; `E` says which faults are tolerated.  With `E .ub` true and `V` trivial nothing
is asked of the arithmetic (see `lawsAny`), so partial correctness holds for any
number type; with `E .ub` false the fields say that no wheel runs off its list and no index
leaves its array.  `tournament` and `explore` say what the two loops do that draw random numbers
until one suits: with `E .hang` true nothing is asked (see `selectTournament_post` and
`paRandAction_post`), otherwise they must end. -/
structure Laws (par : Params K) (kit : Kit K X B R) (V : Cl K B → Prop) (E : Fault → Prop) :
    Prop where
  pop : 0 ≤ par.popSize
  num : ∀ c n, V c → V { c with num := n }
  time : ∀ c t, V c → V { c with time := t }
  cmatch : ∀ c e x r mt, V c → V { c with
    m := (kit.cmatch e c.body x r).1, body := (kit.cmatch e c.body x r).2.1, mtotal := mt,
    age := c.age + 1 }
  act : ∀ c e x r, V c → V { c with
    action := (kit.act e c.body x r).1, body := (kit.act e c.body x r).2.1 }
  predict : ∀ c e x r, V c → V { c with
    prediction := (kit.predict e c.body c.prediction x r).1,
    body := (kit.predict e c.body c.prediction x r).2.1 }
  update : ∀ c e x y n cur r, V c → 0 ≤ n → V (clUpdate par kit e c x y n cur r).1
  fit : ∀ cs : List (Cl K B), (∀ c ∈ cs, V c ∧ 1 ≤ c.num) → ∀ c ∈ cs,
    V (clUpdateFit par c (accSum par kit cs) (clAcc par kit c.err))
  coverErr : ∀ f r x (a : Nat) e, a < par.nActions →
    kit.cover f (kit.rand r).1 x a (kit.rand r).2 = .error e → E e
  cover : ∀ f r x a b r' t (n : Int), a < par.nActions → 0 ≤ n →
    kit.cover f (kit.rand r).1 x a (kit.rand r).2 = .ok (b, r') →
    V { clInit par ((n : K) + 1) t b with m := true, action := a }
  rand : ∀ r, V (clInit par (par.popSize : K) 0 (kit.rand r).1)
  offspring : ∀ p1 p2 r, V p1 → V p2 → 1 ≤ p1.num → 1 ≤ p2.num →
    let b1 := kit.copy par.eaPredReset p1.body r
    let b2 := kit.copy par.eaPredReset p2.body b1.2
    let x := kit.crossover b1.1 b2.1 b2.2
    Post (kit.mutate x.2.1 x.2.2.2) (fun m1 => Post (kit.mutate x.2.2.1 m1.2.2) (fun m2 =>
      V (initOffspring par p1 p2 (clInit par p1.size p1.time m1.2.1)
        (clInit par p2.size p2.time m2.2.1) x.1).1 ∧
      V (initOffspring par p1 p2 (clInit par p1.size p1.time m1.2.1)
        (clInit par p2.size p2.time m2.2.1) x.1).2) E) E
  clone : ∀ c r, V c → V (initCopy par kit c r).1
  wheelDel : ∀ cs : List (Cl K B), cs ≠ [] → (∀ c ∈ cs, V c ∧ 1 ≤ c.num) → ∀ n e r, 1 ≤ n →
    Post (delRoulette par kit cs n e r) (fun p => p.1 < cs.length) E
  wheelSel : ∀ (t : List Nat) (cs : List (Cl K B)), cs ≠ [] → cs.length = t.length →
    (∀ c ∈ cs, V c) → ∀ r, Post (selectRw kit t (cs.map Cl.fit) (totalFit cs) r)
      (fun p => p.1 ∈ t) E
  index : ∀ (n : Nat) r, 0 < n →
    E .ub ∨ (0 ≤ (uniformInt kit 0 (n : Int) r).1 ∧ (uniformInt kit 0 (n : Int) r).1 < n)
  action : ∀ c, V c → E .ub ∨ (0 ≤ c.action ∧ c.action < par.nActions)
  predLen : ∀ c, V c → E .ub ∨ c.prediction.length = par.yDim
  dims : E .ub ∨ (1 ≤ par.nActions ∧ 1 ≤ par.yDim)
  tournament : par.eaTournament = true → ∀ l : List (Nat × K), l ≠ [] → ∀ r,
    Post (selectTournament par kit l par.loopBound r) (fun p => ∃ f, (p.1, f) ∈ l) E
  explore : ∀ (cs : List (Cl K B)) (pa nr : List K), (∀ c ∈ cs, V c) →
    (∀ a, a < par.nActions → E .ub ∨ ∃ c ∈ cs, c.action = (a : Int)) →
    paRules par.yDim cs (List.replicate (par.nActions * par.yDim) 0)
      (List.replicate (par.nActions * par.yDim) 0) = .ok (pa, nr) →
    nr.length = par.nActions * par.yDim → ∀ r,
    Post (paRandAction par kit nr par.loopBound r) (fun p => 0 ≤ p.1 ∧
      (E .ub ∨ p.1 < par.nActions) ∧ ∃ v, nr[p.1.toNat]? = some v ∧ v ≠ 0) E

variable {par : Params K} {kit : Kit K X B R} {V : Cl K B → Prop} {E : Fault → Prop}

/-! ## Deletion -/

/-- Only numerosities of existing rules differ between the two heaps. -/
def NumOnly (s s' : St K X B R) : Prop :=
  (∀ i c, s.heap i = some c → ∃ n, s'.heap i = some { c with num := n }) ∧
  (∀ i, s.heap i = none → s'.heap i = none)

theorem NumOnly.refl (s : St K X B R) : NumOnly s s := ⟨fun _ c h => ⟨c.num, h⟩, fun _ h => h⟩

theorem NumOnly.trans {a b c : St K X B R} (h : NumOnly a b) (g : NumOnly b c) : NumOnly a c := by
  refine ⟨fun i d hd => ?_, fun i hi => g.2 i (h.2 i hi)⟩
  obtain ⟨n, hn⟩ := h.1 i d hd
  obtain ⟨m, hm⟩ := g.1 i _ hn
  exact ⟨m, hm⟩

theorem NumOnly.put {s : St K X B R} {i : Nat} {c : Cl K B} (h : s.heap i = some c) (n : Int) :
    NumOnly s (s.put i { c with num := n }) := by
  refine ⟨fun j d hd => ?_, fun j hj => ?_⟩
  · by_cases e : j = i
    · subst e; rw [h] at hd; cases hd; exact ⟨n, by simp⟩
    · exact ⟨d.num, by rw [put_heap_ne _ _ e]; exact hd⟩
  · have : j ≠ i := by intro e; subst e; rw [h] at hj; cases hj
    rw [put_heap_ne _ _ this]; exact hj

theorem neverMatch_lt {par : Params K} : ∀ {cs : List (Cl K B)} {i : Nat},
    neverMatch par cs = some i → i < cs.length
  | [], i, h => by simp [neverMatch] at h
  | c :: cs, i, h => by
    simp only [neverMatch] at h
    split at h
    · simp at h; subst h; simp
    · rw [Option.map_eq_some_iff] at h
      obtain ⟨j, hj, e⟩ := h
      have := neverMatch_lt hj
      simp only [List.length_cons]; omega

theorem delChoose_post (L : Laws par kit V E) {s : St K X B R} {pend : List Nat}
    (g : Good V s pend) (hn : 1 ≤ s.pset.num) :
    Post (delChoose par kit s) (fun p => p.1 < s.pset.list.length) E := by
  unfold delChoose
  obtain ⟨cs, h1, h2⟩ := rds_ok (s := s) (l := s.pset.list) (fun i hi => g.inv.p.isSome hi)
  have hlen := rds_length h2
  rw [h1]
  show Post (match neverMatch par cs with
    | some i => .ok (i, s.rng)
    | none => delRoulette par kit cs s.pset.num s.error s.rng) _ _
  split
  · next i hi => have := neverMatch_lt hi; simp only [post_ok]; omega
  · refine post_mono (L.wheelDel cs ?_ ?_ _ _ _ hn) (fun p hp => hlen ▸ hp)
    · intro e
      rw [e] at hlen
      have h0 : s.pset.list = [] := List.eq_nil_of_length_eq_zero hlen.symm
      have := g.inv.p.num
      rw [h0] at this
      simp at this; omega
    · intro c hc
      obtain ⟨i, hi, e⟩ := rds_mem h2 hc
      refine ⟨g.vals i c e, ?_⟩
      obtain ⟨c', hc', h1'⟩ := g.inv.p.live hi
      rw [e] at hc'; cases hc'; exact h1'

/-- One deletion at a valid position: what it does to the whole state. -/
theorem delAt_spec {s : St K X B R} {k i : Nat} {c : Cl K B} (hk : s.pset.list[k]? = some i)
    (hc : s.heap i = some c) :
    delAt s k = .ok (if c.num - 1 = 0 then
      { s with heap := (s.put i { c with num := c.num - 1 }).heap,
               kset := s.kset.add i (c.num - 1),
               pset := { list := s.pset.list.eraseIdx k, size := s.pset.size - 1,
                         num := s.pset.num - 1 } }
      else
      { s with heap := (s.put i { c with num := c.num - 1 }).heap,
               pset := { s.pset with num := s.pset.num - 1 } }) := by
  unfold delAt
  simp only [hk, rd_ok hc]
  show (if c.num - 1 = 0 then _ else _) = _
  split <;> rfl

theorem delAt_post {s : St K X B R} {pend : List Nat} (L : Laws par kit V E)
    (g : Good V s pend) {k : Nat} (hk : k < s.pset.list.length) :
    ∃ s', delAt s k = .ok s' ∧ Good V s' pend ∧ s'.pset.num = s.pset.num - 1 ∧ Keep s s' ∧
      Frame s s' ∧ s'.pset.list.Sublist s.pset.list ∧ s'.time = s.time ∧ NumOnly s s' ∧
      s'.next = s.next := by
  obtain ⟨i, hi⟩ : ∃ i, s.pset.list[k]? = some i := ⟨_, List.getElem?_eq_getElem hk⟩
  have him : i ∈ s.pset.list := List.mem_of_getElem? hi
  obtain ⟨c, hc, hn⟩ := g.inv.p.live him
  have hni := nums_of_heap hc
  have inv := g.inv
  have hiq : i ∉ s.prevPset.list := inv.pq i him
  have hik : i ∉ s.kset.list := by
    intro h; have := inv.kz i h; rw [hni] at this; simp at this; omega
  have hipend : i ∉ pend := by
    intro h; exact (inv.p1 i h).2.1 him
  have hv : Vals (s.put i { c with num := c.num - 1 }) V := g.vals.put (L.num _ _ (g.vals i c hc))
  refine ⟨_, delAt_spec hi hc, ?_⟩
  split
  · next h0 =>
    have hmem := mem_eraseIdx_of_nodup inv.p.nodup hi
    have hnums : ∀ j, j ≠ i → (s.put i { c with num := c.num - 1 }).nums j = s.nums j := by
      intro j hj; rw [put_nums]; simp [hj]
    refine ⟨⟨?_, hv⟩, rfl, ?_, ⟨rfl, rfl, rfl, rfl, rfl, rfl, rfl, rfl, rfl, rfl⟩, List.eraseIdx_sublist _ _, rfl,
      NumOnly.put hc _, rfl⟩
    · constructor
      · refine ⟨List.Pairwise.sublist (List.eraseIdx_sublist _ _) inv.p.nodup, ?_, ?_, ?_⟩
        · intro j hj
          obtain ⟨h1, h2⟩ := (hmem j).1 hj
          have e : St.nums _ j = s.nums j := hnums j h2
          exact e ▸ inv.p.pos j h1
        · have := inv.p.size
          simp only
          rw [List.length_eraseIdx]; simp [hk]; omega
        · show s.pset.num - 1 = nsum (s.put i _).nums (s.pset.list.eraseIdx k)
          rw [inv.p.num]
          rw [nsum_congr (fun j hj => hnums j ((hmem j).1 hj).2)]
          rw [nsum_eraseIdx hi, hni]; simp; omega
      · exact inv.q.congr (fun j hj => hnums j (fun e => hiq (e ▸ hj)))
      · intro j hj; exact inv.pq j ((hmem j).1 hj).1
      · intro j hj
        simp only [CSet.add] at hj
        rcases List.mem_cons.1 hj with e | hj'
        · subst e
          show (s.put j _).nums j = some 0
          rw [put_nums]; simp [h0]
        · show (s.put i _).nums j = some 0
          rw [hnums j (fun e => hik (e ▸ hj'))]; exact inv.kz j hj'
      · simp only [CSet.add]; exact List.nodup_cons.2 ⟨hik, inv.knd⟩
      · exact inv.pnd
      · intro j hj
        have hji : j ≠ i := fun e => hipend (e ▸ hj)
        refine ⟨?_, fun h => (inv.p1 j hj).2.1 ((hmem j).1 h).1, (inv.p1 j hj).2.2⟩
        show (s.put i _).nums j = _
        rw [hnums j hji]; exact (inv.p1 j hj).1
      · intro j hj
        simp only [CSet.add]
        by_cases e : j = i
        · subst e; exact Or.inr (Or.inr (Or.inl (List.mem_cons_self)))
        · have : (s.nums j).isSome := by rw [← hnums j e]; exact hj
          rcases inv.own j this with h | h | h | h
          · exact Or.inl ((hmem j).2 ⟨h, e⟩)
          · exact Or.inr (Or.inl h)
          · exact Or.inr (Or.inr (Or.inl (List.mem_cons_of_mem _ h)))
          · exact Or.inr (Or.inr (Or.inr h))
      · intro j hj
        have : j ≠ i := by
          intro e; subst e
          have := inv.fresh j hj; rw [hni] at this; simp at this
        show (s.put i _).nums j = _
        rw [hnums j this]; exact inv.fresh j hj
    · refine ⟨fun j hj => ?_, rfl, fun j hj => put_heap_ne _ _ (fun e => hiq (e ▸ hj))⟩
      simp only [CSet.add]
      by_cases e : j = i
      · subst e; exact Or.inr List.mem_cons_self
      · rcases hj with h | h
        · exact Or.inl ((hmem j).2 ⟨h, e⟩)
        · exact Or.inr (List.mem_cons_of_mem _ h)
  · next h0 =>
    have hnums : ∀ j, j ≠ i → (s.put i { c with num := c.num - 1 }).nums j = s.nums j := by
      intro j hj; rw [put_nums]; simp [hj]
    have hnumi : (s.put i { c with num := c.num - 1 }).nums i = some (c.num - 1) := by
      rw [put_nums]; simp
    refine ⟨⟨?_, hv⟩, rfl, ⟨fun j hj => hj, rfl, fun j hj => put_heap_ne _ _ (fun e => hiq (e ▸ hj))⟩, ⟨rfl, rfl, rfl, rfl, rfl, rfl, rfl, rfl, rfl, rfl⟩, List.Sublist.refl _, rfl,
      NumOnly.put hc _, rfl⟩
    constructor
    · refine ⟨inv.p.nodup, ?_, inv.p.size, ?_⟩
      · intro j hj
        by_cases e : j = i
        · subst e; exact ⟨_, hnumi, by omega⟩
        · obtain ⟨n, hn, h1⟩ := inv.p.pos j hj
          exact ⟨n, (hnums j e).trans hn, h1⟩
      · show s.pset.num - 1 = nsum (s.put i _).nums s.pset.list
        rw [nsum_update_mem hnums hnumi inv.p.nodup him, inv.p.num, hni]; simp; omega
    · exact inv.q.congr (fun j hj => hnums j (fun e => hiq (e ▸ hj)))
    · exact inv.pq
    · intro j hj
      exact (hnums j (fun e => hik (e ▸ hj))).trans (inv.kz j hj)
    · exact inv.knd
    · exact inv.pnd
    · intro j hj
      exact ⟨(hnums j (fun e => hipend (e ▸ hj))).trans (inv.p1 j hj).1, (inv.p1 j hj).2⟩
    · intro j hj
      by_cases e : j = i
      · subst e; exact Or.inl him
      · have : (s.nums j).isSome := by rw [← hnums j e]; exact hj
        exact inv.own j this
    · intro j hj
      have : j ≠ i := by
        intro e; subst e
        have := inv.fresh j hj; rw [hni] at this; simp at this
      exact (hnums j this).trans (inv.fresh j hj)

/-- Facts about a step that only deletes from the population. -/
structure Shrunk (V : Cl K B → Prop) (s s' : St K X B R) (pend : List Nat) : Prop where
  good : Good V s' pend
  keep : Keep s s'
  frame : Frame s s'
  sub : s'.pset.list.Sublist s.pset.list
  time : s'.time = s.time
  cells : NumOnly s s'
  next : s'.next = s.next

theorem psetDel_post (L : Laws par kit V E) {s : St K X B R} {pend : List Nat}
    (g : Good V s pend) (hn : 1 ≤ s.pset.num) :
    Post (psetDel par kit s) (fun s' => Shrunk V s s' pend ∧ s'.pset.num = s.pset.num - 1) E := by
  unfold psetDel
  refine post_bind (delChoose_post L g hn) ?_
  rintro ⟨k, r⟩ hk
  have g' : Good V { s with rng := r } pend := g.congr rfl rfl rfl rfl rfl
  obtain ⟨s', h1, h2, h3, h4, h5, h6, h7, h8, h9⟩ := delAt_post L g' (k := k) hk
  show Post (delAt { s with rng := r } k) _ _
  rw [h1]
  exact ⟨⟨h2, ⟨h4.sub, h4.prev, h4.cells⟩, ⟨h5.1, h5.2, h5.3, h5.4, h5.5, h5.6, h5.7, h5.8, h5.9, h5.10⟩, h6, h7, h8, h9⟩, h3⟩

theorem enforceGo_post (L : Laws par kit V E) : ∀ (n : Nat) {s : St K X B R} {pend : List Nat},
    Good V s pend → s.pset.num - par.popSize ≤ n →
    Post (enforceGo par kit n s)
      (fun s' => Shrunk V s s' pend ∧ s'.pset.num = min s.pset.num par.popSize) E
  | 0, s, pend, g, h => by
    unfold enforceGo
    split
    · next h1 => simp at h; omega
    · next h1 =>
      exact ⟨⟨g, Keep.refl _, Frame.refl _, List.Sublist.refl _, rfl,
        NumOnly.refl _, rfl⟩, by omega⟩
  | n + 1, s, pend, g, h => by
    unfold enforceGo
    split
    · next h1 =>
      have hp := L.pop
      refine post_bind (psetDel_post L g (by omega)) ?_
      rintro s1 ⟨k1, e1⟩
      refine post_mono (enforceGo_post L n k1.good (by omega)) ?_
      rintro s2 ⟨k2, e2⟩
      refine ⟨⟨k2.good, k1.keep.trans k2.keep, k1.frame.trans k2.frame, k2.sub.trans k1.sub,
        k2.time.trans k1.time, k1.cells.trans k2.cells, k2.next.trans k1.next⟩, by omega⟩
    · next h1 =>
      exact ⟨⟨g, Keep.refl _, Frame.refl _, List.Sublist.refl _, rfl,
        NumOnly.refl _, rfl⟩, by omega⟩

theorem enforce_post (L : Laws par kit V E) {s : St K X B R} {pend : List Nat}
    (g : Good V s pend) :
    Post (enforce par kit s)
      (fun s' => Shrunk V s s' pend ∧ s'.pset.num = min s.pset.num par.popSize) E :=
  enforceGo_post L _ g (by omega)

end Xcsf
