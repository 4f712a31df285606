import Verif.NRepNet
import Verif.RepLemmas
import Verif.PropsDgp2

/-!
# Rules made of networks: lemmas

Every function of a rule made of legal networks returns, except that covering and mutation may run
for ever, and keeps the networks legal.
-/

set_option linter.unusedSectionVars false
set_option linter.unusedVariables false

namespace Xcsf
variable {K R : Type} [Field K] [LinearOrder K] [IsStrictOrderedRing K] [FloorRing K]

/-! ## Legal networks -/

/-- A network made from the layers `as`; if `tr` it can be trained. -/
structure NetOk (p : NetPlan) (as : List (GArgs K)) (tr : Bool) (b : NetBody K) : Prop where
  legal : NetLegal p.lim p.image p.dim b.lays
  trait : b.lays.map GLay.trait = as.map GArgs.trait
  noted : b.nOut = p.outs as
  head : headOuts b.lays = p.outs as
  shown : tr = true → ∀ l ∈ b.lays, l.Shown

variable {p : NetPlan} {as : List (GArgs K)} {tr : Bool} {b : NetBody K} {n : Nat}

theorem map_getLast_eq {α β γ : Type} {f : α → γ} {g : β → γ} {l : List α} {m : List β}
    (h : l.map f = m.map g) {x : α} (hx : l.getLast? = some x) :
    ∃ y, m.getLast? = some y ∧ f x = g y := by
  have := congrArg List.getLast? h
  rw [List.getLast?_map, List.getLast?_map, hx] at this
  cases e : m.getLast? with
  | none => rw [e] at this; cases this
  | some y =>
    rw [e] at this
    exact ⟨y, rfl, Option.some.inj this⟩

theorem map_mem_eq {α β γ : Type} {f : α → γ} {g : β → γ} {l : List α} {m : List β}
    (h : l.map f = m.map g) {x : α} (hx : x ∈ l) : ∃ y ∈ m, f x = g y := by
  have : f x ∈ m.map g := h ▸ List.mem_map_of_mem hx
  obtain ⟨y, hy, e⟩ := List.mem_map.1 this
  exact ⟨y, hy, e.symm⟩

theorem forall2_getLast {α β : Type} {P : α → β → Prop} {l : List α} {m : List β}
    (h : List.Forall₂ P l m) {y : β} (hy : m.getLast? = some y) :
    ∃ x, l.getLast? = some x ∧ P x y := by
  induction h with
  | nil => cases hy
  | @cons a b l m hab t ih =>
    cases t with
    | nil => cases hy; exact ⟨a, rfl, hab⟩
    | @cons c d l m hcd t =>
      rw [List.getLast?_cons_cons] at hy ⊢
      exact ih hy

theorem plain_trait {a : GArgs K} (h : a.plain = true) : a.trait.1 < 4 ∨ a.trait.1 = 9 := by
  cases a <;> simp_all [GArgs.plain, GArgs.trait]

/-- A layer that keeps its number of outputs if it does. -/
theorem settles_dim {k : Lim} {s : Bool} {a : GArgs K} {l l' : GLay K} {d d' : Dim}
    (ht : l.trait = a.trait) (F : Fixed l l') (L : l.Legal k) (L' : l'.Legal k) (A : Agrees d l)
    (A' : Agrees d' l') (hd : s = true → d'.n = d.n) (h : a.settles s = true) :
    l'.dim.n = l.dim.n := by
  have ht' := F.2.2.trans ht
  cases a <;> simp only [GArgs.settles] at h <;> try (cases h; done)
  all_goals
    cases l <;> simp only [GLay.trait, GArgs.trait, Prod.mk.injEq] at ht <;>
      try (exact absurd ht.1 (by decide))
  all_goals
    cases l' <;> simp only [GLay.trait, GArgs.trait, Prod.mk.injEq] at ht' <;>
      try (exact absurd ht'.1 (by decide))
  · exact F.2.1 (by rw [GLay.still, ht.2]; exact h)
  · exact F.2.1 (by rw [GLay.still, ht.2]; exact h)
  · exact F.2.1 (by rw [GLay.still, ht.2]; exact h)
  · have h1 := L.1.nOut
    have h2 := L'.1.nOut
    have h3 := A.ins
    have h4 := A'.ins
    simp only [GLay.dim, PLay.dim, GLay.nIn] at *
    rw [h1, h2, h3, h4, hd h]
  · have h1 := L.1.nOut
    have h2 := L'.1.nOut
    have h3 := A.ins
    have h4 := A'.ins
    simp only [GLay.dim, PLay.dim, GLay.nIn] at *
    rw [h1, h2, h3, h4, hd h]
  · have h1 := L.1.nOut
    have h2 := L'.1.nOut
    have h3 := A.ins
    have h4 := A'.ins
    simp only [GLay.dim, GLay.nIn] at *
    rw [h1, h2, h3, h4, hd h]

theorem settled_last {k : Lim} : ∀ {as : List (GArgs K)} {ls ls' : List (GLay K)} {s b b' : Bool}
    {d d' : Dim}, ls.map GLay.trait = as.map GArgs.trait → List.Forall₂ Fixed ls ls' →
    NetLegal k b d ls → NetLegal k b' d' ls' → (s = true → d'.n = d.n) → settled s as = true →
    ∀ {x y}, ls.getLast? = some x → ls'.getLast? = some y → y.dim.n = x.dim.n
  | _, _, _, _, _, _, _, _, _, .nil, _, _, _, _, _, _, hx, _ => nomatch hx
  | [], _ :: _, _, _, _, _, _, _, ht, _, _, _, _, _, _, _, _, _ => nomatch ht
  | a :: as, l :: ls, l' :: ls', s, b, b', d, d', ht, .cons F Fs, N, N', hd, h, x, y, hx, hy => by
    rw [List.map_cons, List.map_cons, List.cons.injEq] at ht
    have hn : a.settles s = true → l'.dim.n = l.dim.n :=
      settles_dim ht.1 F N.1 N'.1 N.2.1 N'.2.1 hd
    cases Fs with
    | nil =>
      have : as = [] := List.map_eq_nil_iff.1 ht.2.symm
      subst this
      cases hx
      cases hy
      exact hn h
    | cons G Gs =>
      rw [List.getLast?_cons_cons] at hx hy
      exact settled_last ht.2 (.cons G Gs) N.2.2.2.2 N'.2.2.2.2 hn h hx hy

theorem fixed_traits {ls ls' : List (GLay K)} (h : List.Forall₂ Fixed ls ls') :
    ls'.map GLay.trait = ls.map GLay.trait := by
  induction h with
  | nil => rfl
  | cons h _ ih => rw [List.map_cons, List.map_cons, h.2.2, ih]

theorem headOuts_dims {ls ls' : List (GLay K)} (h : ls'.map GLay.dim = ls.map GLay.dim) :
    headOuts ls' = headOuts ls := by
  unfold headOuts
  cases e : ls'.getLast? with
  | none =>
    rw [List.getLast?_eq_none_iff] at e
    subst e
    rw [List.map_nil, eq_comm, List.map_eq_nil_iff] at h
    subst h
    rfl
  | some x =>
    obtain ⟨y, hy, hd⟩ := map_getLast_eq h e
    rw [hy]
    exact congrArg Dim.n hd

theorem NetOk.ne (L : p.Legal n as) (h : NetOk p as tr b) : b.lays ≠ [] := by
  intro e
  have := h.trait
  rw [e, List.map_nil, eq_comm, List.map_eq_nil_iff] at this
  exact L.ne this

/-- The output layer can be read. -/
theorem NetOk.reads (L : p.Legal n as) (h : NetOk p as tr b) :
    ∃ l o, b.lays.getLast? = some l ∧ l.dim.n = p.outs as ∧ l.outs = .ok o ∧
      o.length = (p.outs as).toNat := by
  obtain ⟨l, hl⟩ : ∃ l, b.lays.getLast? = some l := by
    cases e : b.lays.getLast? with
    | none => rw [List.getLast?_eq_none_iff] at e; exact absurd e (h.ne L)
    | some l => exact ⟨l, rfl⟩
  obtain ⟨a, ha, ht⟩ := map_getLast_eq h.trait hl
  have hk := plain_trait (L.last a ha)
  rw [← ht] at hk
  have hd : l.dim.n = p.outs as := by
    have := h.head
    unfold headOuts at this
    rw [hl] at this
    exact this
  have hleg : l.Legal p.lim := by
    have hm := List.mem_of_getLast? hl
    exact netLegal_mem h.legal l hm
  obtain ⟨o, e, hlen⟩ := ready_of_trained hleg hk
  exact ⟨l, o, hl, hd, e, by rw [hlen, hd]⟩

theorem NetOk.output (L : p.Legal n as) (h : NetOk p as tr b) {i : Nat} (hi : (i : Int) < p.outs as) :
    ∃ v, genOutput b.nOut b.lays i = .ok v := by
  obtain ⟨l, o, hl, -, he, hlen⟩ := h.reads L
  unfold genOutput
  rw [if_neg (by rw [h.noted]; omega), hl]
  dsimp only
  rw [he]
  dsimp only
  exact ⟨_, rd_in (by omega)⟩

theorem gfault_hang (L : p.Legal n as) {e : Fault} (h : GFault p.lim e) : e = .hang := by
  rcases h with ⟨-, h | h | h⟩ | h
  · exact absurd h (by have := L.weights; omega)
  · exact absurd h (by have := L.outputs; omega)
  · rw [L.pool] at h; cases h
  · exact h.1

theorem gfault_ends (L : p.Legal n as) {α : Type} {m : Res α} {P : α → Prop}
    (h : Post m P (GFault p.lim)) (he : Ends m) : ∃ a, m = .ok a ∧ P a := by
  cases m with
  | ok a => exact ⟨a, rfl, h⟩
  | error e => exact absurd (congrArg _ (gfault_hang L h)) he

theorem netNew_ok {g : Rng K R} (O : g.Open) (Bd : g.Bounded) (L : p.Legal n as) (r : R) :
    ∃ q, netNew g as r = .ok q ∧ NetOk p as tr q.1 := by
  obtain ⟨⟨ls, r'⟩, e, N, ht⟩ := gfault_ends L
    (genCreate_step L.lim O Bd L.ne L.dim L.fit L.first r) (genCreate_ends g as r)
  obtain ⟨hs, hd⟩ := genCreate_more L.lim O Bd L.pool L.dim L.fit L.first e
  dsimp only at N ht hs hd
  have hh : headOuts ls = p.outs as := by
    unfold headOuts
    cases e' : ls.getLast? with
    | none =>
      rw [List.getLast?_eq_none_iff] at e'
      subst e'
      rw [List.map_nil, eq_comm, List.map_eq_nil_iff] at ht
      exact absurd ht L.ne
    | some x => exact congrArg Dim.n (hd x e')
  refine ⟨(⟨headOuts ls, ls⟩, r'), ?_, N, ht, hh, hh, fun _ => hs⟩
  unfold netNew
  rw [e]

theorem netCopy_ok {S : Type} (L : p.Legal n as) (h : NetOk p as tr b) (s : S) :
    ∃ q, netCopy b s = .ok q ∧ NetOk p as tr q.1 := by
  obtain ⟨ls, e, N, F⟩ := gfault_ends L (genCopy_step L.lim b.lays _ _ L.dim h.legal)
    (genCopy_ends _)
  obtain ⟨hs, hd⟩ := genCopy_more L.lim L.pool _ _ _ L.dim h.legal _ e
  have hh : headOuts ls = p.outs as := by rw [headOuts_dims hd, h.head]
  refine ⟨(⟨headOuts ls, ls⟩, s), ?_, N, (fixed_traits F).trans h.trait, hh, hh, fun _ => hs⟩
  unfold netCopy
  rw [e]

theorem netRandom_ok {g : Rng K R} (Bd : g.Bounded) (L : p.Legal n as) (h : NetOk p as tr b)
    (r : R) : ∃ q, netRandom g b r = .ok q ∧ NetOk p as tr q.1 := by
  obtain ⟨⟨ls, r'⟩, e, N, F⟩ := gfault_ends L (genRand_step Bd b.lays _ _ r h.legal)
    (genRand_ends g _ r)
  have hd := genRand_more Bd _ _ _ r h.legal _ e
  refine ⟨({ b with lays := ls }, r'), ?_, N, (fixed_traits F).trans h.trait, h.noted,
    (headOuts_dims hd).trans h.head, fun ht => ?_⟩
  · unfold netRandom
    rw [e]
  · exact genRand_shown Bd _ _ _ r h.legal (h.shown ht) _ e

theorem netPropagate_ok {g : Rng K R} {m : Libm K} (hm : ∀ x, 0 < m.exp x) (lo : K) (ex : Bool)
    (L : p.Legal n as) (h : NetOk p as tr b) {x : List K} (hx : x.length = n) (r : R) :
    ∃ q, netPropagate g m lo ex b x r = .ok q ∧ NetOk p as tr q.1 := by
  have h1 := genForward_step (g := g) hm lo ex b.lays _ _ x r h.legal
    (by rw [hx, L.ins]; rfl)
  unfold netPropagate
  cases e : genForward g m lo ex b.lays x r with
  | error f =>
    rw [e] at h1
    have := h1.2
    rw [L.pool] at this
    cases this
  | ok z =>
    obtain ⟨ls, r'⟩ := z
    rw [e] at h1
    obtain ⟨N, hd, ho, F, -⟩ := h1
    exact ⟨_, rfl, N, (fixed_traits F).trans h.trait, h.noted, (headOuts_dims hd).trans h.head,
      fun _ => ho⟩

theorem netEvolve_ok {g : Rng K R} (O : g.Open) (Bd : g.Bounded) (L : p.Legal n as)
    (T : tr = true → p.Trains as) {fuel : Nat} (hf : 1 ≤ fuel) (h : NetOk p as tr b) (r : R) :
    (∃ q, netEvolve g fuel b r = .ok q ∧ NetOk p as tr q.2.1) ∨
      netEvolve g fuel b r = .error .hang := by
  have h1 := genMutate_step L.lim O Bd hf b.lays p.image p.dim p.dim r L.dim L.dim
    (fun _ => ⟨rfl, rfl⟩) h.legal
  rw [if_neg (by simp)] at h1
  unfold netEvolve
  cases e : genMutate g fuel none b.lays r with
  | error f =>
    rw [e] at h1
    exact .inr (by rw [gfault_hang L h1])
  | ok z =>
    obtain ⟨⟨ls, m⟩, r'⟩ := z
    rw [e] at h1
    obtain ⟨N, F⟩ := h1
    dsimp only at N F
    have ht := (fixed_traits F).trans h.trait
    have hne : ls ≠ [] := by
      rintro rfl
      exact h.ne L (List.forall₂_nil_right_iff.1 F)
    refine .inl ⟨_, rfl, N, ht, h.noted, ?_, ?_⟩
    · show headOuts ls = _
      rw [← h.head]
      unfold headOuts
      obtain ⟨y, hy⟩ : ∃ y, ls.getLast? = some y := by
        cases e' : ls.getLast? with
        | none => rw [List.getLast?_eq_none_iff] at e'; exact absurd e' hne
        | some y => exact ⟨y, rfl⟩
      rw [hy]
      cases hev : p.lim.evolve with
      | false =>
        obtain ⟨x, hx, hxy⟩ := forall2_getLast
          (genMutate_still L.lim O Bd hf hev _ _ _ r h.legal _ e) hy
        rw [hx]
        exact hxy.1
      | true =>
        obtain ⟨x, hx, hxy⟩ := forall2_getLast F hy
        rw [hx]
        exact settled_last h.trait F h.legal N (fun _ => rfl) (L.fixed hev) hx hy
    · intro htr l hl
      have hl : l ∈ ls := hl
      have Ll := netLegal_mem N l hl
      by_cases hk : l.trait.1 < 4 ∨ l.trait.1 = 9
      · exact ready_of_trained Ll hk
      · cases hev : p.lim.evolve with
        | true =>
          obtain ⟨a, ha, hla⟩ := map_mem_eq ht hl
          have := plain_trait ((T htr).plain hev a ha)
          rw [← hla] at this
          exact absurd this hk
        | false =>
          have hst := genMutate_still L.lim O Bd hf hev _ _ _ r h.legal _ e
          have both : ∀ {us vs : List (GLay K)}, List.Forall₂ Fixed us vs →
              List.Forall₂ (fun l l' => l'.dim.n = l.dim.n ∧ (4 ≤ l.trait.1 → l' = l)) us vs →
              ∀ l ∈ vs, ∃ l0 ∈ us, l.trait = l0.trait ∧ (4 ≤ l0.trait.1 → l = l0) := by
            intro us vs h1 h2
            induction h1 with
            | nil => simp
            | cons a t ih =>
              cases h2 with
              | cons a2 t2 =>
                intro l hl
                rcases List.mem_cons.1 hl with rfl | hl
                · exact ⟨_, by simp, a.2.2, a2.2⟩
                · obtain ⟨l0, h0, h1⟩ := ih t2 l hl
                  exact ⟨l0, by simp [h0], h1⟩
          obtain ⟨l0, h0, ht0, he0⟩ := both F hst l hl
          have : l = l0 := he0 (by rw [← ht0]; omega)
          rw [this]
          exact h.shown htr l0 h0

theorem netTrain_ok {m : Libm K} (L : p.Legal n as) (T : p.Trains as) {y : Nat}
    (hy : p.outs as = y) (h : NetOk p as true b) {x t : List K} (hx : x.length = n) :
    ∃ b', netTrain m y b x t = .ok b' ∧ NetOk p as true b' := by
  obtain ⟨l, o, hl, hd, -, -⟩ := h.reads L
  have P : ∀ l ∈ b.lays, l.Ready := by
    intro l hl
    refine ⟨?_, h.shown rfl l hl⟩
    obtain ⟨a, ha, hla⟩ := map_mem_eq h.trait hl
    have htun := T.conv a ha
    have Ll := netLegal_mem h.legal l hl
    cases l with
    | conv l =>
      left
      cases a with
      | conv a =>
        have : l.core.opt = a.base.opt := congrArg Prod.snd hla
        rw [this]
        exact htun
      | _ => simp [GLay.trait, GArgs.trait] at hla
    | maxp l =>
      have := Ll.2.2
      rw [L.pool] at this
      cases this
    | _ => trivial
  obtain ⟨ls', e, N, C⟩ := genLearn_step (k := p.lim) m h.legal P (teachable_of_args h.trait T.teach)
    hl (t := ofArr y (arrOf t)) (x := x) (by rw [length_ofArr, hd, hy]; rfl)
    (by rw [hx, L.ins]; rfl)
  obtain ⟨f1, f2, f3⟩ := carry_facts C
  refine ⟨{ b with lays := ls' }, ?_, N, (fixed_traits f2).trans h.trait, h.noted,
    (headOuts_dims f3).trans h.head, fun _ l hl => (f1 l hl).2.2⟩
  unfold netTrain
  rw [e]

/-! ## Conditions, actions and predictions that are networks -/

theorem netMatch_ok {g : Rng K R} {m : Libm K} (hm : ∀ x, 0 < m.exp x) (lo : K) (ex : Bool)
    (L : p.Legal n as) (h1 : 1 ≤ p.outs as) (h : NetOk p as tr b) {x : List K} (hx : x.length = n)
    (r : R) : ∃ q, netMatch g m lo ex b x r = .ok q ∧ NetOk p as tr q.2.1 := by
  obtain ⟨q, e, h'⟩ := netPropagate_ok (g := g) hm lo ex L h hx r
  obtain ⟨v, ev⟩ := h'.output L (i := 0) (by omega)
  unfold netMatch
  rw [e]
  dsimp only
  rw [show (0 : Int) = ((0 : Nat) : Int) from rfl, ev]
  exact ⟨_, rfl, h'⟩

theorem netCover_ok {g : Rng K R} (Bd : g.Bounded) {m : Libm K} (hm : ∀ x, 0 < m.exp x) (lo : K)
    (ex : Bool) (L : p.Legal n as) (h1 : 1 ≤ p.outs as) {x : List K} (hx : x.length = n) :
    ∀ (fuel : Nat) (b : NetBody K) (r : R), NetOk p as tr b →
    (∃ q, netCover g m lo ex x fuel b r = .ok q ∧ NetOk p as tr q.1) ∨
      netCover g m lo ex x fuel b r = .error .hang
  | 0, _, _, _ => .inr rfl
  | fuel + 1, b, r, h => by
    obtain ⟨⟨b1, r1⟩, e1, w1⟩ := netRandom_ok Bd L h r
    obtain ⟨⟨f, b2, r2⟩, e2, w2⟩ := netMatch_ok (g := g) hm lo ex L h1 w1 hx r1
    unfold netCover
    rw [e1]
    dsimp only
    rw [e2]
    cases f with
    | true => exact .inl ⟨_, rfl, w2⟩
    | false => exact netCover_ok Bd hm lo ex L h1 hx fuel b2 r2 w2

theorem argmax_ok {l : List K} (h : 1 ≤ l.length) : ∃ i, argmax l = .ok i ∧ i < l.length := by
  cases l with
  | nil => simp at h
  | cons v vs =>
    refine ⟨_, rfl, ?_⟩
    have := argmaxGo_lt vs 1 0 v (by decide)
    rw [List.length_cons]
    omega

theorem netAction_ok {g : Rng K R} {m : Libm K} (hm : ∀ x, 0 < m.exp x) (lo : K) (ex : Bool)
    (L : p.Legal n as) {nA : Nat} (hA : 1 ≤ nA) (ho : (nA : Int) ≤ p.outs as) (h : NetOk p as tr b)
    {x : List K} (hx : x.length = n) (r : R) :
    ∃ q, netAction g m lo nA ex b x r = .ok q ∧ 0 ≤ q.1 ∧ q.1 < nA ∧ NetOk p as tr q.2.1 := by
  obtain ⟨⟨b1, r1⟩, e, h'⟩ := netPropagate_ok (g := g) hm lo ex L h hx r
  obtain ⟨l, o, hl, -, he, hlen⟩ := h'.reads L
  dsimp only at hl
  have ht : (o.take nA).length = nA := by rw [List.length_take]; omega
  obtain ⟨i, ei, hi⟩ := argmax_ok (l := o.take nA) (by omega)
  refine ⟨(i, b1, r1), ?_, by dsimp only; omega, by dsimp only; omega, h'⟩
  unfold netAction
  rw [e]
  dsimp only
  rw [hl]
  dsimp only
  rw [he]
  dsimp only
  rw [if_neg (by omega), ei]

theorem netActCover_ok {g : Rng K R} (Bd : g.Bounded) {m : Libm K} (hm : ∀ x, 0 < m.exp x) (lo : K)
    (ex : Bool) (L : p.Legal n as) {nA : Nat} (hA : 1 ≤ nA) (ho : (nA : Int) ≤ p.outs as)
    {x : List K} (hx : x.length = n) (a : Int) :
    ∀ (fuel : Nat) (b : NetBody K) (r : R), NetOk p as tr b →
    (∃ q, netActCover g m lo nA ex x a fuel b r = .ok q ∧ NetOk p as tr q.1) ∨
      netActCover g m lo nA ex x a fuel b r = .error .hang
  | 0, _, _, _ => .inr rfl
  | fuel + 1, b, r, h => by
    obtain ⟨⟨b1, r1⟩, e1, w1⟩ := netRandom_ok Bd L h r
    obtain ⟨⟨f, b2, r2⟩, e2, -, -, w2⟩ := netAction_ok (g := g) hm lo ex L hA ho w1 hx r1
    unfold netActCover
    rw [e1]
    dsimp only
    rw [e2]
    dsimp only
    split
    · exact .inl ⟨_, rfl, w2⟩
    · exact netActCover_ok Bd hm lo ex L hA ho hx a fuel b2 r2 w2

theorem netReadGo_ok (L : p.Legal n as) (h : NetOk p as tr b) : ∀ y : Nat, (y : Int) ≤ p.outs as →
    ∃ vs, netReadGo b y = .ok vs ∧ vs.length = y
  | 0, _ => ⟨[], rfl, rfl⟩
  | y + 1, hy => by
    obtain ⟨vs, e, hl⟩ := netReadGo_ok L h y (by omega)
    obtain ⟨v, ev⟩ := h.output L (i := y) (by omega)
    unfold netReadGo
    rw [e]
    dsimp only
    rw [ev]
    exact ⟨_, rfl, by rw [List.length_append, hl]; rfl⟩

theorem netPredict_ok {g : Rng K R} {m : Libm K} (hm : ∀ x, 0 < m.exp x) (lo : K) (ex : Bool)
    (L : p.Legal n as) {y : Nat} (hy : (y : Int) ≤ p.outs as) (h : NetOk p as tr b)
    {x : List K} (hx : x.length = n) (r : R) :
    ∃ q, netPredict g m lo y ex b x r = .ok q ∧ NetOk p as tr q.1 ∧ q.2.1.length = y := by
  obtain ⟨⟨b1, r1⟩, e, h'⟩ := netPropagate_ok (g := g) hm lo ex L h hx r
  obtain ⟨vs, ev, hl⟩ := netReadGo_ok L h' y hy
  unfold netPredict
  rw [e]
  dsimp only
  dsimp only at ev
  rw [ev]
  exact ⟨_, rfl, h', hl⟩

/-! ## Sound parts -/

section
variable {C A P : Type}

/-- A condition whose functions return and keep an invariant. -/
structure CondFn.Sound (cv : CondFn K C R) (n : Nat) (W : C → Prop) : Prop where
  init : ∀ r, ∃ q, cv.init r = .ok q ∧ W q.1
  cover : ∀ e c x r, W c → x.length = n → (∃ q, cv.cover e c x r = .ok q ∧ W q.1) ∨
    cv.cover e c x r = .error .hang ∨ cv.cover e c x r = .error .exit
  cmatch : ∀ e c x r, W c → x.length = n → ∃ q, cv.cmatch e c x r = .ok q ∧ W q.2.1
  update : ∀ c x, W c → x.length = n → W (cv.update c x)
  crossover : ∀ c d r, W c → W d → ∃ q, cv.crossover c d r = .ok q ∧ W q.2.1 ∧ W q.2.2.1
  mutate : ∀ c r, W c → (∃ q, cv.mutate c r = .ok q ∧ W q.2.1) ∨ cv.mutate c r = .error .hang
  copy : ∀ c r, W c → ∃ q, cv.copy c r = .ok q ∧ W q.1

/-- An action whose functions return and compute valid actions. -/
structure ActFn.Sound (av : ActFn K C A R) (n nA : Nat) (V : C → Prop) (W : A → Prop) : Prop where
  init : ∀ r, ∃ q, av.init r = .ok q ∧ W q.1
  cover : ∀ e c a x (k : Nat) r, V c → W a → x.length = n → k < nA →
    (∃ q, av.cover e c a x k r = .ok q ∧ V q.1 ∧ W q.2.1) ∨ av.cover e c a x k r = .error .hang
  compute : ∀ e c a x r, V c → W a → x.length = n →
    ∃ q, av.compute e c a x r = .ok q ∧ 0 ≤ q.1 ∧ q.1 < nA ∧ W q.2.1
  mutate : ∀ a r, W a → (∃ q, av.mutate a r = .ok q ∧ W q.2.1) ∨ av.mutate a r = .error .hang
  copy : ∀ a, W a → ∃ q, av.copy a = .ok q ∧ W q

/-- A prediction whose functions return and have `y_dim` elements. -/
structure PredFn.Sound (pv : PredFn K P R) (n y : Nat) (W : P → Prop) : Prop where
  init : ∀ r, ∃ q, pv.init r = .ok q ∧ W q.1
  compute : ∀ e s p x r, W s → x.length = n → ∃ q, pv.compute e s p x r = .ok q ∧ W q.1 ∧
    (p.length = y → q.2.1.length = y)
  update : ∀ k s p x t, W s → x.length = n → ∃ q, pv.update k s p x t = .ok q ∧ W q.1 ∧
    (p.length = y → q.2.length = y)
  mutate : ∀ s r, W s → (∃ q, pv.mutate s r = .ok q ∧ W q.2.1) ∨ pv.mutate s r = .error .hang
  copy : ∀ s r, W s → ∃ q, pv.copy s r = .ok q ∧ W q.1

theorem mkRepG_sound {cv : CondFn K C R} {av : ActFn K C A R} {pv : PredFn K P R} {n nA y : Nat}
    {WC : C → Prop} {WA : A → Prop} {WP : P → Prop} (hc : cv.Sound n WC)
    (ha : av.Sound n nA WC WA) (hp : pv.Sound n y WP) :
    (mkRepG n nA cv av pv).Sound nA y (RuleBody.Ok WC WA WP) where
  rand := fun r => by
    obtain ⟨c, ec, wc⟩ := hc.init r
    obtain ⟨p, ep, wp⟩ := hp.init c.2
    obtain ⟨a, ea, wa⟩ := ha.init p.2
    refine ⟨(⟨c.1, a.1, p.1⟩, a.2), ?_, wc, wa, wp⟩
    show (cv.init r >>= _) = _
    rw [ec]; show (pv.init c.2 >>= _) = _
    rw [ep]; show (av.init p.2 >>= _) = _
    rw [ea]; rfl
  cover := fun f b x a r w k => by
    rcases hc.cover f b.cond x.1 r w.cond x.2 with ⟨c, ec, wc⟩ | e | e
    · rcases ha.cover f c.1 b.act x.1 a c.2 wc w.act x.2 k with ⟨q, eq, w1, w2⟩ | e
      · refine .inl ⟨(⟨q.1, q.2.1, b.pred⟩, q.2.2), ?_, w1, w2, w.pred⟩
        show (cv.cover f b.cond x.1 r >>= _) = _
        rw [ec]; show (av.cover f c.1 b.act x.1 a c.2 >>= _) = _
        rw [eq]; rfl
      · refine .inr (.inl ?_)
        show (cv.cover f b.cond x.1 r >>= _) = _
        rw [ec]; show (av.cover f c.1 b.act x.1 a c.2 >>= _) = _
        rw [e]; rfl
    · refine .inr (.inl ?_)
      show (cv.cover f b.cond x.1 r >>= _) = _
      rw [e]; rfl
    · refine .inr (.inr ?_)
      show (cv.cover f b.cond x.1 r >>= _) = _
      rw [e]; rfl
  cmatch := fun f b x r w => by
    obtain ⟨c, ec, wc⟩ := hc.cmatch f b.cond x.1 r w.cond x.2
    refine ⟨(c.1, { b with cond := c.2.1 }, c.2.2), ?_, wc, w.act, w.pred⟩
    show (cv.cmatch f b.cond x.1 r >>= _) = _
    rw [ec]; rfl
  act := fun f b x r w => by
    obtain ⟨q, eq, h1, h2, wa⟩ := ha.compute f b.cond b.act x.1 r w.cond w.act x.2
    refine ⟨(q.1, { b with act := q.2.1 }, q.2.2), ?_, h1, h2, w.cond, wa, w.pred⟩
    show (av.compute f b.cond b.act x.1 r >>= _) = _
    rw [eq]; rfl
  predict := fun f b p x r w => by
    obtain ⟨q, eq, wp, hl⟩ := hp.compute f b.pred p x.1 r w.pred x.2
    refine ⟨(q.2.1, { b with pred := q.1 }, q.2.2), ?_, ⟨w.cond, w.act, wp⟩, hl⟩
    show (pv.compute f b.pred p x.1 r >>= _) = _
    rw [eq]; rfl
  update := fun k b p x t r w => by
    obtain ⟨q, eq, wp, hl⟩ := hp.update k b.pred p x.1 t w.pred x.2
    refine ⟨({ b with cond := cv.update b.cond x.1, pred := q.1 }, q.2, r), ?_,
      ⟨hc.update _ _ w.cond x.2, w.act, wp⟩, hl⟩
    show (pv.update k b.pred p x.1 t >>= _) = _
    rw [eq]; rfl
  crossover := fun a b r wa wb => by
    obtain ⟨c, ec, w1, w2⟩ := hc.crossover a.cond b.cond r wa.cond wb.cond
    refine ⟨(c.1, { a with cond := c.2.1 }, { b with cond := c.2.2.1 }, c.2.2.2), ?_,
      ⟨w1, wa.act, wa.pred⟩, ⟨w2, wb.act, wb.pred⟩⟩
    show (cv.crossover a.cond b.cond r >>= _) = _
    rw [ec]; rfl
  mutate := fun b r w => by
    rcases hc.mutate b.cond r w.cond with ⟨c, ec, wc⟩ | e
    · rcases hp.mutate b.pred c.2.2 w.pred with ⟨p, ep, wp⟩ | e
      · by_cases h : 1 < nA
        · rcases ha.mutate b.act p.2.2 w.act with ⟨a, ea, wa⟩ | e
          · refine .inl ⟨(c.1 || p.1 || a.1, ⟨c.2.1, a.2.1, p.2.1⟩, a.2.2), ?_, wc, wa, wp⟩
            show (cv.mutate b.cond r >>= _) = _
            rw [ec]; show (pv.mutate b.pred c.2.2 >>= _) = _
            rw [ep]
            show ((if 1 < nA then av.mutate b.act p.2.2 else .ok (false, b.act, p.2.2)) >>= _) = _
            rw [if_pos h, ea]; rfl
          · refine .inr ?_
            show (cv.mutate b.cond r >>= _) = _
            rw [ec]; show (pv.mutate b.pred c.2.2 >>= _) = _
            rw [ep]
            show ((if 1 < nA then av.mutate b.act p.2.2 else .ok (false, b.act, p.2.2)) >>= _) = _
            rw [if_pos h, e]; rfl
        · refine .inl ⟨(c.1 || p.1 || false, ⟨c.2.1, b.act, p.2.1⟩, p.2.2), ?_, wc, w.act, wp⟩
          show (cv.mutate b.cond r >>= _) = _
          rw [ec]; show (pv.mutate b.pred c.2.2 >>= _) = _
          rw [ep]
          show ((if 1 < nA then av.mutate b.act p.2.2 else .ok (false, b.act, p.2.2)) >>= _) = _
          rw [if_neg h]; rfl
      · refine .inr ?_
        show (cv.mutate b.cond r >>= _) = _
        rw [ec]; show (pv.mutate b.pred c.2.2 >>= _) = _
        rw [e]; rfl
    · refine .inr ?_
      show (cv.mutate b.cond r >>= _) = _
      rw [e]; rfl
  copy := fun f b r w => by
    obtain ⟨a, ea, wa⟩ := ha.copy b.act w.act
    obtain ⟨c, ec, wc⟩ := hc.copy b.cond r w.cond
    have hq : ∃ q, (if f then pv.init c.2 else pv.copy b.pred c.2) = .ok q ∧ WP q.1 := by
      cases f
      · exact hp.copy _ _ w.pred
      · exact hp.init _
    obtain ⟨p, ep, wp⟩ := hq
    refine ⟨(⟨c.1, a, p.1⟩, p.2), ?_, wc, wa, wp⟩
    show (av.copy b.act >>= _) = _
    rw [ea]; show (cv.copy b.cond r >>= _) = _
    rw [ec]; show ((if f then pv.init c.2 else pv.copy b.pred c.2) >>= _) = _
    rw [ep]; rfl
  clone := fun b r w => by
    obtain ⟨a, ea, wa⟩ := ha.copy b.act w.act
    obtain ⟨c, ec, wc⟩ := hc.copy b.cond r w.cond
    obtain ⟨p, ep, wp⟩ := hp.copy b.pred c.2 w.pred
    refine ⟨(⟨c.1, a, p.1⟩, p.2), ?_, wc, wa, wp⟩
    show (av.copy b.act >>= _) = _
    rw [ea]; show (cv.copy b.cond r >>= _) = _
    rw [ec]; show (pv.copy b.pred c.2 >>= _) = _
    rw [ep]; rfl

/-! ## The parts without networks -/

theorem CondVt.Sound.fn {v : CondVt K C R} {n : Nat} {W : C → Prop} (h : v.Sound n W) :
    v.fn.Sound n W where
  init := h.init
  cover := fun _ => h.cover
  cmatch := fun _ c x r w hx => by
    obtain ⟨q, e, w'⟩ := h.cmatch c x w hx
    refine ⟨(q.1, q.2, r), ?_, w'⟩
    show (v.cmatch c x >>= _) = _
    rw [e]; rfl
  update := h.update
  crossover := h.crossover
  mutate := fun c r w => .inl (h.mutate c r w)
  copy := h.copy

theorem ActVt.Sound.fn {v : ActVt A R} {n nA : Nat} {W : A → Prop} (h : v.Sound nA W)
    (V : C → Prop) : (v.fn : ActFn K C A R).Sound n nA V W where
  init := h.init
  cover := fun _ c a x k r wc wa _ hk => .inl ⟨_, rfl, wc, h.cover a k wa hk⟩
  compute := fun _ c a x r _ wa _ => ⟨_, rfl, (h.compute a wa).1, (h.compute a wa).2, wa⟩
  mutate := fun a r w => .inl (h.mutate a r w)
  copy := fun a w => ⟨_, rfl, h.copy a w⟩

theorem PredVt.Sound.fn {v : PredVt K P R} {n y : Nat} {W : P → Prop} (h : v.Sound y W) :
    v.fn.Sound n y W where
  init := h.init
  compute := fun _ s p x r w _ => ⟨_, rfl, (h.compute s p x w).1, (h.compute s p x w).2⟩
  update := fun k s p x t w _ => ⟨_, rfl, (h.update k s p x t w).1, (h.update k s p x t w).2⟩
  mutate := fun s r w => .inl (h.mutate s r w)
  copy := h.copy

end

/-! ## The parts that are networks -/

theorem netCond_sound {g : Rng K R} (O : g.Open) (Bd : g.Bounded) {m : Libm K}
    (hm : ∀ x, 0 < m.exp x) (lo : K) (L : p.Legal n as) (h1 : 1 ≤ p.outs as) (fuel : Nat) :
    (netCond g m lo as fuel).Sound n (NetOk p as false) where
  init := fun r => netNew_ok O Bd L r
  cover := fun e c x r w hx => by
    rcases netCover_ok (g := g) Bd hm lo e L h1 hx fuel c r w with h | h
    · exact .inl h
    · exact .inr (.inl h)
  cmatch := fun e c x r w hx => netMatch_ok hm lo e L h1 w hx r
  update := fun c x w _ => w
  crossover := fun c d r wc wd => ⟨_, rfl, wc, wd⟩
  mutate := fun c r w => netEvolve_ok O Bd L (fun h => by cases h) (by omega) w r
  copy := fun c r w => netCopy_ok L w r

theorem netAct_sound {C : Type} {g : Rng K R} (O : g.Open) (Bd : g.Bounded) {m : Libm K}
    (hm : ∀ x, 0 < m.exp x) (lo : K) (L : p.Legal n as) {nA : Nat} (hA : 1 ≤ nA)
    (ho : (nA : Int) ≤ p.outs as) (fuel : Nat) (V : C → Prop) :
    (netAct g m lo as nA fuel : ActFn K C (NetBody K) R).Sound n nA V (NetOk p as false) where
  init := fun r => netNew_ok O Bd L r
  cover := fun e c a x k r wc wa hx _ => by
    rcases netActCover_ok (g := g) Bd hm lo e L hA ho hx k fuel a r wa with ⟨q, h, w⟩ | h
    · refine .inl ⟨(c, q.1, q.2), ?_, wc, w⟩
      simp only [netAct, h]
    · refine .inr ?_
      simp only [netAct, h]
  compute := fun e c a x r _ wa hx => netAction_ok hm lo e L hA ho wa hx r
  mutate := fun c r w => netEvolve_ok O Bd L (fun h => by cases h) (by omega) w r
  copy := fun a w => by
    obtain ⟨q, e, w'⟩ := netCopy_ok L w ()
    refine ⟨q.1, ?_, w'⟩
    simp only [netAct, e]

theorem netPred_sound {g : Rng K R} (O : g.Open) (Bd : g.Bounded) {m : Libm K}
    (hm : ∀ x, 0 < m.exp x) (lo : K) (L : p.Legal n as) (T : p.Trains as) {y : Nat}
    (hy : p.outs as = y) (fuel : Nat) :
    (netPred g m lo as y fuel).Sound n y (NetOk p as true) where
  init := fun r => netNew_ok O Bd L r
  compute := fun e s q x r w hx => by
    obtain ⟨z, ez, w', hl⟩ := netPredict_ok (g := g) hm lo e L (y := y) (by omega) w hx r
    exact ⟨z, ez, w', fun _ => hl⟩
  update := fun k s q x t w hx => by
    obtain ⟨b', e, w'⟩ := netTrain_ok (m := m) L T hy w (t := t) hx
    refine ⟨(b', q), ?_, w', id⟩
    simp only [netPred, e]
  mutate := fun c r w => netEvolve_ok O Bd L (fun _ => T) (by omega) w r
  copy := fun c r w => netCopy_ok L w r

/-! ## Rules with one graph or network -/

theorem bitsGo_ok {out : Nat → Res K} {k : Nat} (h : ∀ i, i ≤ k → ∃ v, out i = .ok v) :
    ∃ a, bitsGo out k = .ok a := by
  induction k with
  | zero => exact ⟨0, rfl⟩
  | succ k ih =>
    obtain ⟨a, ea⟩ := ih fun i hi => h i (by omega)
    obtain ⟨v, ev⟩ := h (k + 1) le_rfl
    refine ⟨if 1 / 2 < v then a + 2 ^ k else a, ?_⟩
    unfold bitsGo
    rw [ea]; show (out (k + 1) >>= _) = _
    rw [ev]; rfl

theorem bitsAction_ok {nA k : Nat} (hA : 1 ≤ nA) {out : Nat → Res K}
    (h : ∀ i, i ≤ k → ∃ v, out i = .ok v) : ∃ a, bitsAction nA k out = .ok a ∧ 0 ≤ a ∧ a < nA := by
  obtain ⟨a, ea⟩ := bitsGo_ok h
  have e : bitsAction nA k out = .ok (clampInt a 0 ((nA : Int) - 1)) := by
    unfold bitsAction
    rw [ea]; rfl
  exact ⟨_, e, bitsAction_valid hA e⟩

theorem ruleNetBits_ok (L : p.Legal n as) {nA : Nat} (hA : 1 ≤ nA) (h : NetOk p as tr b) :
    ∃ a, ruleNetBits nA b = .ok a ∧ 0 ≤ a ∧ a < nA := by
  refine bitsAction_ok hA fun i hi => h.output L ?_
  have := h.noted
  obtain ⟨l, o, hl, hd, -, -⟩ := h.reads L
  have hp := (lastDim L.lim _ _ _ L.dim h.legal l (List.mem_of_getLast? hl)).1
  omega

theorem ruleNetDraw_ok {g : Rng K R} (Bd : g.Bounded) {m : Libm K} (hm : ∀ x, 0 < m.exp x) (lo : K)
    (ex : Bool) (L : p.Legal n as) (h1 : 1 ≤ p.outs as) {nA : Nat} (hA : 1 ≤ nA) {x : List K}
    (hx : x.length = n) (a : Int) : ∀ (fuel : Nat) (b : NetBody K) (r : R), NetOk p as tr b →
    (∃ q, ruleNetDraw g m lo nA ex x a fuel b r = .ok q ∧ NetOk p as tr q.1) ∨
      ruleNetDraw g m lo nA ex x a fuel b r = .error .hang
  | 0, _, _, _ => .inr rfl
  | fuel + 1, b, r, h => by
    obtain ⟨⟨b1, r1⟩, e1, w1⟩ := netRandom_ok Bd L h r
    obtain ⟨⟨f, b2, r2⟩, e2, w2⟩ := netMatch_ok (g := g) hm lo ex L h1 w1 hx r1
    unfold ruleNetDraw
    rw [e1]
    dsimp only
    rw [e2]
    cases f with
    | true => exact .inl ⟨_, rfl, w2⟩
    | false =>
      obtain ⟨c, ec, -⟩ := ruleNetBits_ok L hA w2
      dsimp only at ec ⊢
      rw [ec]
      dsimp only
      split
      · exact .inl ⟨_, rfl, w2⟩
      · exact ruleNetDraw_ok Bd hm lo ex L h1 hA hx a fuel b2 r2 w2

theorem ruleNetCond_sound {g : Rng K R} (O : g.Open) (Bd : g.Bounded) {m : Libm K}
    (hm : ∀ x, 0 < m.exp x) (lo : K) (L : p.Legal n as) {nA : Nat}
    (ho : p.outs as = (actionBits nA : Int) + 1) (fuel : Nat) :
    (ruleNetCond g m lo as nA fuel).Sound n (NetOk p as false) :=
  { netCond_sound O Bd hm lo L (by omega) fuel with
    init := fun r => by
      obtain ⟨q, e, w⟩ := netNew_ok (tr := false) O Bd L r
      refine ⟨q, ?_, w⟩
      show ruleNetNew g as nA r = _
      unfold ruleNetNew
      rw [e]
      dsimp only
      rw [if_neg (by rw [w.noted, ho]; simp)]
    cover := fun _ c _ r w _ => .inl ⟨_, rfl, w⟩ }

theorem ruleNetAct_sound {g : Rng K R} (Bd : g.Bounded) {m : Libm K}
    (hm : ∀ x, 0 < m.exp x) (lo : K) (L : p.Legal n as) {nA : Nat} (hA : 1 ≤ nA)
    (h1 : 1 ≤ p.outs as) (fuel : Nat) :
    (ruleNetAct g m lo nA fuel).Sound n nA (NetOk p as false) (fun _ => True) where
  init := fun r => ⟨_, rfl, trivial⟩
  cover := fun e c a x k r wc _ hx _ => by
    rcases ruleNetDraw_ok (g := g) Bd hm lo e L h1 hA hx k fuel c r wc with ⟨q, h, w⟩ | h
    · refine .inl ⟨(q.1, (), q.2), ?_, w, trivial⟩
      simp only [ruleNetAct, h]
    · refine .inr ?_
      simp only [ruleNetAct, h]
  compute := fun e c a x r wc _ _ => by
    obtain ⟨k, ek, h⟩ := ruleNetBits_ok L hA wc
    refine ⟨(k, (), r), ?_, h.1, h.2, trivial⟩
    simp only [ruleNetAct, ek]
  mutate := fun a r _ => .inl ⟨_, rfl, trivial⟩
  copy := fun a _ => ⟨_, rfl, trivial⟩

theorem ruleDgpBits_ok {a : DgpArgs} {nA : Nat} (hA : 1 ≤ nA) (hn : actionBits nA < a.n)
    {d : Graph K} (w : Wired a d) : ∃ k, ruleDgpAction nA d = .ok k ∧ 0 ≤ k ∧ k < nA :=
  have e := C36_bits hA (d := d) (by rw [w.stateLen]; exact hn)
  ⟨_, e, C36_rule_dgp hA e⟩

theorem ruleDgpCover_ok {g : Rng K R} (H : g.Open) {a : DgpArgs} (ha : a.Legal) {x : List K}
    (hx : a.nInputs ≤ x.length) (st : Bool) {nA : Nat} (hA : 1 ≤ nA) (hn : actionBits nA < a.n)
    (k : Int) : ∀ (fuel : Nat) (d : Graph K) (r : R), Wired a d →
    (∃ q, ruleDgpCover g st nA x k fuel d r = .ok q ∧ Wired a q.1) ∨
      ruleDgpCover g st nA x k fuel d r = .error .hang
  | 0, _, _, _ => .inr rfl
  | fuel + 1, d, r, hd => by
    unfold ruleDgpCover
    obtain ⟨m, d', e, w, -⟩ := C34_match ha (C34_randomise H ha hd r) hx st
    obtain ⟨c, ec, -⟩ := ruleDgpBits_ok hA hn w
    dsimp only
    rw [e]
    show (∃ q, (if m = true then Except.ok (d', _) else _) = _ ∧ _) ∨
      (if m = true then Except.ok (d', _) else _) = _
    cases m with
    | true => exact .inl ⟨_, rfl, w⟩
    | false =>
      rw [if_neg (by simp), ec]
      show (∃ q, (if c = k then Except.ok (d', _) else _) = _ ∧ _) ∨
        (if c = k then Except.ok (d', _) else _) = _
      by_cases hk : c = k
      · rw [if_pos hk]
        exact .inl ⟨_, rfl, w⟩
      · rw [if_neg hk]
        exact ruleDgpCover_ok H ha hx st hA hn k fuel d' _ w

theorem ruleDgpCond_sound {g : Rng K R} (H : g.Open) {a : DgpArgs} (ha : a.Legal) (st : Bool)
    {n : Nat} (hn : a.nInputs ≤ n) : (ruleDgpCond g a st).Sound n (Wired a) :=
  { (dgp_sound H ha st 0 hn).fn with
    cover := fun _ c _ r w _ => .inl ⟨_, rfl, w⟩ }

theorem ruleDgpAct_sound {g : Rng K R} (H : g.Open) {a : DgpArgs} (ha : a.Legal) (st : Bool)
    {nA : Nat} (hA : 1 ≤ nA) (hn : actionBits nA < a.n) (fuel : Nat) {n : Nat}
    (hi : a.nInputs ≤ n) :
    (ruleDgpAct g st nA fuel : ActFn K (Graph K) Unit R).Sound n nA (Wired a)
      (fun _ => True) where
  init := fun r => ⟨_, rfl, trivial⟩
  cover := fun e c _ x k r wc _ hx _ => by
    rcases ruleDgpCover_ok H ha (hi.trans_eq hx.symm) st hA hn k fuel c r wc with ⟨q, h, w⟩ | h
    · refine .inl ⟨(q.1, (), q.2), ?_, w, trivial⟩
      simp only [ruleDgpAct, h]
    · refine .inr ?_
      simp only [ruleDgpAct, h]
  compute := fun e c _ x r wc _ _ => by
    obtain ⟨k, ek, h⟩ := ruleDgpBits_ok hA hn wc
    refine ⟨(k, (), r), ?_, h.1, h.2, trivial⟩
    simp only [ruleDgpAct, ek]
  mutate := fun a r _ => .inl ⟨_, rfl, trivial⟩
  copy := fun a _ => ⟨_, rfl, trivial⟩

end Xcsf
