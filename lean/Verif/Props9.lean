import Verif.Props2

/-!
# C67: what newly bred rules start with
-/

set_option linter.unusedSectionVars false

namespace Xcsf
variable {K X B R : Type} [Field K] [LinearOrder K] [IsStrictOrderedRing K]
  {par : Params K} {kit : Kit K X B R}

/-! ## Specification -/

/-- `c` starts as a child of the rules `p1` and `p2`, most of it inherited from `p`
(one of the two).  `crossed` says whether crossover changed something. -/
structure Child (par : Params K) (p1 p2 p : Cl K B) (crossed : Bool) (c : Cl K B) : Prop where
  /-- no experience and no match statistics yet -/
  exp : c.exp = 0
  age : c.age = 0
  mtotal : c.mtotal = 0
  /-- set-size estimate and time stamp of the parent -/
  size : c.size = p.size
  time : c.time = p.time
  /-- a fraction of the parental error, averaged after crossover -/
  err : c.err = par.eaErrReduc * if crossed then (p1.err + p2.err) / 2 else p.err
  /-- a fraction of the parental fitness per micro-classifier, averaged after crossover -/
  fit : c.fit = par.eaFitReduc *
    if crossed then (p1.fit / (p1.num : K) + p2.fit / (p2.num : K)) / 2 else p.fit / (p.num : K)

/-! ## Proofs -/

theorem Child.num {p1 p2 p c : Cl K B} {x : Bool} (h : Child par p1 p2 p x c) (n : Int) :
    Child par p1 p2 p x { c with num := n } := ⟨h.1, h.2, h.3, h.4, h.5, h.6, h.7⟩

theorem initOffspring_child (p1 p2 : Cl K B) (b1 b2 : B) (x : Bool) :
    Child par p1 p2 p1 x (initOffspring par p1 p2 (clInit par p1.size p1.time b1)
      (clInit par p2.size p2.time b2) x).1 ∧
    Child par p1 p2 p2 x (initOffspring par p1 p2 (clInit par p1.size p1.time b1)
      (clInit par p2.size p2.time b2) x).2 := by
  have hh : (half : K) = 1 / 2 := by unfold half; norm_num
  cases x with
  | false => exact ⟨⟨rfl, rfl, rfl, rfl, rfl, rfl, rfl⟩, ⟨rfl, rfl, rfl, rfl, rfl, rfl, rfl⟩⟩
  | true =>
    refine ⟨⟨rfl, rfl, rfl, rfl, rfl, ?_, ?_⟩, ⟨rfl, rfl, rfl, rfl, rfl, ?_, ?_⟩⟩ <;>
    · simp only [initOffspring, if_true, hh]
      ring

/-- Rules that are new in `s'` are children of `c1` and `c2`. -/
def NewAre (P : Cl K B → Prop) (s s' : St K X B R) : Prop :=
  ∀ j c, j ∈ s'.pset.list → j ∉ s.pset.list → s'.heap j = some c → P c

theorem eaPair_children (hp : 0 ≤ par.popSize) {t : List Nat} {s s' : St K X B R}
    {pend : List Nat} {p1 p2 : Nat} {c1 c2 : Cl K B} (inv : Inv s pend)
    (h1 : p1 ∈ s.pset.list) (h2 : p2 ∈ s.pset.list) (ht : ∀ j ∈ t, j ∈ s.pset.list)
    (hc1 : s.heap p1 = some c1) (hc2 : s.heap p2 = some c2)
    (h : eaPair par kit t p1 p2 s = .ok s') :
    ∃ x, NewAre (fun c => Child par c1 c2 c1 x c ∨ Child par c1 c2 c2 x c) s s' := by
  have L := lawsTriv par kit hp
  have g := inv.good
  unfold eaPair at h
  rw [rd_ok hc1, rd_ok hc2] at h
  dsimp only [bind, Except.bind] at h
  generalize hb1 : kit.copy par.eaPredReset c1.body s.rng = b1 at h
  generalize hb2 : kit.copy par.eaPredReset c2.body b1.2 = b2 at h
  generalize hx : kit.crossover b1.1 b2.1 b2.2 = x at h
  cases hm1 : kit.mutate x.2.1 x.2.2.2 with
  | error e => rw [hm1] at h; cases h
  | ok m1 =>
  rw [hm1] at h
  dsimp only at h
  cases hm2 : kit.mutate x.2.2.1 m1.2.2 with
  | error e => rw [hm2] at h; cases h
  | ok m2 =>
  rw [hm2] at h
  dsimp only at h
  have hch := initOffspring_child (par := par) c1 c2 m1.2.1 m2.2.1 x.1
  generalize ho : initOffspring par c1 c2 (clInit par c1.size c1.time m1.2.1)
    (clInit par c2.size c2.time m2.2.1) x.1 = o at h hch
  have hon : o.1.num = 1 ∧ o.2.num = 1 := by
    rw [← ho]; unfold initOffspring; split <;> exact ⟨rfl, rfl⟩
  have gr : Good (fun _ => True) { s with rng := m2.2.2 } pend := g.congr rfl rfl rfl rfl rfl
  have gb : Good _ _ (s.next :: (s.next + 1) :: pend) :=
    ((gr.alloc (c := o.1) trivial hon.1).alloc (c := o.2) trivial hon.2).perm (List.Perm.swap _ _ _)
  generalize hs0 : ((({ s with rng := m2.2.2 } : St K X B R).alloc o.1).2.alloc o.2).2 = s0 at h gb
  have e1 : s0.heap s.next = some o.1 := by
    rw [← hs0, alloc_heap, if_neg (by show s.next ≠ s.next + 1; omega), alloc_heap, if_pos rfl]
  have e2 : s0.heap (s.next + 1) = some o.2 := by
    rw [← hs0, alloc_heap]
    exact if_pos rfl
  have el : s0.pset.list = s.pset.list := by rw [← hs0]; rfl
  have h : (eaAdd par kit t p1 p2 s.next x.1 m1.1 s0 >>= fun s1 =>
    eaAdd par kit t p2 p1 (s.next + 1) x.1 m2.1 s1) = Except.ok s' := h
  cases hq : eaAdd par kit t p1 p2 s.next x.1 m1.1 s0 with
  | error e => rw [hq] at h; cases h
  | ok s1 =>
    rw [hq] at h
    have q1 := post_of_ok (eaAdd_post L (t := t) (p1 := p1) (p2 := p2) x.1 m1.1 gb
      (el ▸ h1) (el ▸ h2) (by rw [el]; exact ht)) hq
    have q2 := post_of_ok (eaAdd_post L (t := t) (p1 := p2) (p2 := p1) x.1 m2.1 q1.good
      (q1.sub p2 (el ▸ h2)) (q1.sub p1 (el ▸ h1)) (fun j hj => q1.sub j (el ▸ ht j hj))) h
    refine ⟨x.1, ?_⟩
    intro j c hj hnj hc
    -- the rule at `j` in `s1` if it was there, up to its numerosity
    have k1 : ∀ c, j ∈ s1.pset.list → s1.heap j = some c → Child par c1 c2 c1 x.1 c := by
      intro c hj1 hcj
      rcases q1.how with ⟨l1, l2⟩ | ⟨l1, -, -⟩
      · rw [l1] at hj1
        rcases List.mem_cons.1 hj1 with rfl | hj1
        · rw [l2, e1] at hcj; cases hcj; exact hch.1
        · exact absurd (el ▸ hj1) hnj
      · exact absurd (by rw [← el, ← l1]; exact hj1) hnj
    rcases q2.how with ⟨l1, l2⟩ | ⟨l1, l2, p, -, -, d, hd, hd', l3⟩
    · rw [l1] at hj
      rcases List.mem_cons.1 hj with rfl | hj
      · obtain ⟨n, en⟩ := q1.cells _ _ (by omega) e2
        rw [l2, en] at hc; cases hc
        exact Or.inr (hch.2.num n)
      · rw [l2] at hc
        exact Or.inl (k1 c hj hc)
    · rw [l1] at hj
      by_cases ei : j = s.next + 1
      · rw [ei, l2] at hc; cases hc
      by_cases ep : j = p
      · subst ep
        rw [hd'] at hc; cases hc
        exact Or.inl ((k1 d hj hd).num _)
      · rw [l3 j ei ep] at hc
        exact Or.inl (k1 c hj hc)

/-- A child of two rules that differ from `c1`, `c2` only in their numerosity. -/
def BredFrom (par : Params K) (c1 c2 c : Cl K B) : Prop :=
  ∃ n1 n2 x, Child par { c1 with num := n1 } { c2 with num := n2 } { c1 with num := n1 } x c ∨
    Child par { c1 with num := n1 } { c2 with num := n2 } { c2 with num := n2 } x c

theorem BredFrom.num {c1 c2 c : Cl K B} (h : BredFrom par c1 c2 c) (n : Int) :
    BredFrom par c1 c2 { c with num := n } := by
  obtain ⟨n1, n2, x, h⟩ := h
  exact ⟨n1, n2, x, h.imp (·.num n) (·.num n)⟩

theorem eaLoop_cells (hp : 0 ≤ par.popSize) {t : List Nat} {pend : List Nat} {p1 p2 j : Nat} :
    ∀ (n : Nat) (i : Int) {d c : Cl K B} {s s' : St K X B R}, Inv s pend → p1 ∈ s.pset.list →
    p2 ∈ s.pset.list → (∀ j ∈ t, j ∈ s.pset.list) →
    eaLoop par kit t p1 p2 n i s = .ok s' → s.heap j = some d → s'.heap j = some c →
    ∃ m, c = { d with num := m }
  | 0, i, d, c, s, s', inv, h1, h2, ht, h, e1, e2 => by
    unfold eaLoop at h
    split_ifs at h
    cases h
    rw [e1] at e2; cases e2
    exact ⟨_, rfl⟩
  | n + 1, i, d, c, s, s', inv, h1, h2, ht, h, e1, e2 => by
    unfold eaLoop at h
    split_ifs at h
    · cases hq : eaPair par kit t p1 p2 s with
      | error e => rw [hq] at h; cases h
      | ok s1 =>
        rw [hq] at h
        have h : eaLoop par kit t p1 p2 n (i + 1) s1 = .ok s' := h
        have q := post_of_ok (eaPair_post (lawsTriv par kit hp) inv.good h1 h2 ht) hq
        obtain ⟨n1, f1⟩ := q.cells _ _ e1
        obtain ⟨m, rfl⟩ := eaLoop_cells hp n (i + 1) q.good.inv (q.sub _ h1) (q.sub _ h2)
          (fun j hj => q.sub j (ht j hj)) h f1 e2
        exact ⟨m, rfl⟩
    · cases h
      rw [e1] at e2; cases e2
      exact ⟨_, rfl⟩

theorem eaLoop_children (hp : 0 ≤ par.popSize) {t : List Nat} {pend : List Nat} {p1 p2 : Nat} :
    ∀ (n : Nat) (i : Int) {c1 c2 : Cl K B} {s s' : St K X B R}, Inv s pend → p1 ∈ s.pset.list →
    p2 ∈ s.pset.list → (∀ j ∈ t, j ∈ s.pset.list) → s.heap p1 = some c1 → s.heap p2 = some c2 →
    eaLoop par kit t p1 p2 n i s = .ok s' → NewAre (BredFrom par c1 c2) s s'
  | 0, i, c1, c2, s, s', inv, h1, h2, ht, e1, e2, h => by
    unfold eaLoop at h
    split_ifs at h
    cases h
    intro j c hj hnj
    exact absurd hj hnj
  | n + 1, i, c1, c2, s, s', inv, h1, h2, ht, e1, e2, h => by
    unfold eaLoop at h
    split_ifs at h
    · cases hq : eaPair par kit t p1 p2 s with
      | error e => rw [hq] at h; cases h
      | ok s1 =>
        rw [hq] at h
        have h : eaLoop par kit t p1 p2 n (i + 1) s1 = .ok s' := h
        have q := post_of_ok (eaPair_post (lawsTriv par kit hp) inv.good h1 h2 ht) hq
        obtain ⟨x, k⟩ := eaPair_children hp inv h1 h2 ht e1 e2 hq
        obtain ⟨n1, f1⟩ := q.cells _ _ e1
        obtain ⟨n2, f2⟩ := q.cells _ _ e2
        have k2 := eaLoop_children hp n (i + 1) q.good.inv (q.sub _ h1) (q.sub _ h2)
          (fun j hj => q.sub j (ht j hj)) f1 f2 h
        intro j c hj hnj hc
        by_cases hj1 : j ∈ s1.pset.list
        · obtain ⟨d, hd⟩ := Option.isSome_iff_exists.1 (by
            have := q.good.inv.p.isSome hj1
            simpa [St.nums] using this : (s1.heap j).isSome = true)
          have hb : ∃ m, c = { d with num := m } := by
            exact eaLoop_cells hp n (i + 1) q.good.inv (q.sub _ h1) (q.sub _ h2)
              (fun j hj => q.sub j (ht j hj)) h hd hc
          obtain ⟨m, rfl⟩ := hb
          exact BredFrom.num ⟨c1.num, c2.num, x, k j d hj1 hnj hd⟩ m
        · obtain ⟨m1, m2, y, k3⟩ := k2 j c hj hj1 hc
          exact ⟨m1, m2, y, k3⟩
    · cases h
      intro j c hj hnj
      exact absurd hj hnj

/-- **C67.** After a run of the EA on a set, before the population limit is enforced, every
rule that is new in the population is a child of two rules of the set, stamped with the
current time: it has no experience, the set-size estimate of its parent, and the reduced
error and fitness of its parents (`eaErrReduc`, `eaFitReduc`), fitness counted per
micro-classifier.  (The numerosities are those at the time of mating: offspring that were
absorbed by a parent earlier in the run have raised them.) -/
theorem C67_offspring_values (hp : 0 ≤ par.popSize) {t : CSet} {s s' : St K X B R}
    {pend : List Nat} (inv : Inv s pend) (hnd : t.list.Nodup)
    (hsub : ∀ i ∈ t.list, i ∈ s.pset.list) (hne : t.list ≠ [])
    (h : eaBreed par kit t s = .ok s') :
    ∃ p1 ∈ t.list, ∃ p2 ∈ t.list, ∃ c1 c2, s.heap p1 = some c1 ∧ s.heap p2 = some c2 ∧
      ∀ j ∈ s'.pset.list, j ∉ s.pset.list → ∀ c, s'.heap j = some c →
        BredFrom par { c1 with time := s.time } { c2 with time := s.time } c := by
  unfold eaBreed at h
  rw [setTimes_eq] at h
  obtain ⟨hh, r, e, g1, k1, k2⟩ := inv.good.forEach
    (upd := fun r c => ({ c with time := s.time }, r)) hnd hsub (fun r c hv _ => ⟨rfl, trivial⟩)
  rw [e] at h
  dsimp only [bind, Except.bind] at h
  cases hq : eaSelect par kit t.list { s with heap := hh, rng := r } with
  | error e => rw [hq] at h; cases h
  | ok q =>
    obtain ⟨p1, p2, r2⟩ := q
    rw [hq] at h
    obtain ⟨hp1, hp2⟩ := post_of_ok (eaSelect_post (lawsTriv par kit hp) g1 hsub hne) hq
    have live : ∀ p ∈ t.list, ∃ c, s.heap p = some c := by
      intro p hpt
      have := inv.p.isSome (hsub p hpt)
      exact Option.isSome_iff_exists.1 (by simpa [St.nums] using this)
    obtain ⟨c1, e1⟩ := live p1 hp1
    obtain ⟨c2, e2⟩ := live p2 hp2
    have g2 : Good (fun _ => True) { s with heap := hh, rng := r2 } pend :=
      g1.congr rfl rfl rfl rfl rfl
    refine ⟨p1, hp1, p2, hp2, c1, c2, e1, e2, ?_⟩
    obtain ⟨_, f1⟩ := k2 p1 hp1 c1 e1
    obtain ⟨_, f2⟩ := k2 p2 hp2 c2 e2
    intro j hj hnj c hc
    exact eaLoop_children hp _ 0 g2.inv (hsub _ hp1) (hsub _ hp2) hsub f1 f2 h j c hj hnj hc

/-- The demonstration population breeds two new rules (see the example for C12), so the claim
is about something. -/
example : ∃ s s', run Demo.par Demo.kit 0 demoPop = .ok s ∧ Inv s [] ∧
    eaBreed Demo.par Demo.kit { list := [0, 1], size := 2, num := 2 } s = .ok s' ∧
    s'.pset.list.length = 4 ∧ (s'.pset.list.filter (fun j => !s.pset.list.contains j)) = [3] := by
  obtain ⟨s, h1, h2⟩ := Demo.Res.test_iff (m := run Demo.par Demo.kit 0 demoPop)
    (p := fun s => Demo.Res.test
      (eaBreed Demo.par Demo.kit { list := [0, 1], size := 2, num := 2 } s)
      (fun s' => decide (s'.pset.list.length = 4 ∧
        (s'.pset.list.filter (fun j => !s.pset.list.contains j)) = [3])))
    (by decide +kernel)
  obtain ⟨s', h3, h4⟩ := Demo.Res.test_iff h2
  have h4 := of_decide_eq_true h4
  exact ⟨s, s', h1, (reachable_between (by decide) (by decide +kernel) h1).good.inv, h3, h4⟩

end Xcsf
