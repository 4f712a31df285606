import Verif.NExpandLemmas
import Verif.CoreOps5
import Verif.Spec

/-!
# Lemmas about populations whose networks grow
-/

set_option linter.unusedSectionVars false
set_option linter.unusedVariables false

namespace Xcsf
variable {K X B B' R : Type} [Field K] [LinearOrder K] [IsStrictOrderedRing K] [FloorRing K]

theorem expandGo_spec {par : Params K} {f : B → R → Res (B × R)} (hf : ∀ b r, ∃ q, f b r = .ok q) :
    ∀ {l : List Nat} {s : St K X B R}, l.Nodup → (∀ i ∈ l, (s.heap i).isSome) →
    ∃ s', expandGo par f s l = .ok s' ∧ s' = { s with heap := s'.heap, rng := s'.rng } ∧
      (∀ i, i ∉ l → s'.heap i = s.heap i) ∧
      ∀ i ∈ l, ∃ c r q, s.heap i = some c ∧ f c.body r = .ok q ∧
        s'.heap i = some (c.renew par s.time c.prediction q.1)
  | [], s, _, _ => ⟨s, rfl, rfl, fun _ _ => rfl, fun _ h => nomatch h⟩
  | i :: l, s, hd, hl => by
    obtain ⟨c, hc⟩ := Option.isSome_iff_exists.1 (hl i List.mem_cons_self)
    obtain ⟨q, hq⟩ := hf c.body s.rng
    have hni := (List.nodup_cons.1 hd).1
    obtain ⟨s', e, h1, h2, h3⟩ := expandGo_spec (par := par) hf (l := l)
      (s := St.put { s with rng := q.2 } i (c.renew par s.time c.prediction q.1))
      (List.nodup_cons.1 hd).2 (fun j hj => by
        have hji : j ≠ i := fun e => hni (e ▸ hj)
        rw [put_heap_ne _ _ hji]
        exact hl j (List.mem_cons_of_mem _ hj))
    refine ⟨s', ?_, ?_, ?_, ?_⟩
    · unfold expandGo
      rw [rd_ok hc]
      show (f c.body s.rng >>= _) = _
      rw [hq]
      exact e
    · exact h1
    · intro j hj
      rw [List.mem_cons, not_or] at hj
      rw [h2 j hj.2, put_heap_ne _ _ hj.1]
    · intro j hj
      rcases List.mem_cons.1 hj with rfl | hj
      · exact ⟨c, s.rng, q, hc, hq, by rw [h2 j hni]; simp⟩
      · obtain ⟨c', r, q', h4, h5, h6⟩ := h3 j hj
        have hji : j ≠ i := fun e => hni (e ▸ hj)
        rw [put_heap_ne _ _ hji] at h4
        exact ⟨c', r, q', h4, h5, h6⟩

theorem convertGo_spec {par : Params K} {f : B → R → Res (B' × R)}
    (hf : ∀ b r, ∃ q, f b r = .ok q) {s : St K X B R} :
    ∀ {l : List Nat} {h : Nat → Option (Cl K B')} {r : R}, l.Nodup → (∀ i ∈ l, (s.heap i).isSome) →
    ∃ z, convertGo par f s l h r = .ok z ∧ (∀ i, i ∉ l → z.1 i = h i) ∧
      ∀ i ∈ l, ∃ c r q, s.heap i = some c ∧ f c.body r = .ok q ∧
        z.1 i = some (c.renew par s.time (List.replicate par.yDim 0) q.1)
  | [], h, r, _, _ => ⟨(h, r), rfl, fun _ _ => rfl, fun _ h => nomatch h⟩
  | i :: l, h, r, hd, hl => by
    obtain ⟨c, hc⟩ := Option.isSome_iff_exists.1 (hl i List.mem_cons_self)
    obtain ⟨q, hq⟩ := hf c.body r
    have hni := (List.nodup_cons.1 hd).1
    obtain ⟨z, e, h2, h3⟩ := convertGo_spec (par := par) hf (l := l) (h := fun j => if j = i then
      some (c.renew par s.time (List.replicate par.yDim 0) q.1) else h j) (r := q.2)
      (List.nodup_cons.1 hd).2 (fun j hj => hl j (List.mem_cons_of_mem _ hj))
    refine ⟨z, ?_, ?_, ?_⟩
    · unfold convertGo
      rw [rd_ok hc]
      show (f c.body r >>= _) = _
      rw [hq]
      exact e
    · intro j hj
      rw [List.mem_cons, not_or] at hj
      rw [h2 j hj.2, if_neg hj.1]
    · intro j hj
      rcases List.mem_cons.1 hj with rfl | hj
      · exact ⟨c, r, q, hc, hq, by rw [h2 j hni, if_pos rfl]⟩
      · exact h3 j hj

variable {V : Cl K B → Prop} {V' : Cl K B' → Prop} {E : Fault → Prop} [MayExit E] {par par' : Params K} {M : Int}

/-- The rules before and after. -/
theorem forall2_population {s : St K X B R} {s' : St K X B' R} {P : Cl K B → Cl K B' → Prop}
    {l : List Nat} (h : ∀ i ∈ l, ∃ c c', s.heap i = some c ∧ s'.heap i = some c' ∧ P c c') :
    List.Forall₂ P (l.filterMap s.heap) (l.filterMap s'.heap) := by
  induction l with
  | nil => exact .nil
  | cons i l ih =>
    obtain ⟨c, c', h1, h2, h3⟩ := h i List.mem_cons_self
    rw [List.filterMap_cons_some h1, List.filterMap_cons_some h2]
    exact .cons h3 (ih fun j hj => h j (List.mem_cons_of_mem _ hj))

theorem expandPset_spec {f : B → R → Res (B × R)} (hf : ∀ b r, ∃ q, f b r = .ok q)
    (hV : ∀ c r q t, V c → f c.body r = .ok q → V (c.renew par t c.prediction q.1))
    {s : St K X B R} (b : BetweenM V par M s s) :
    ∃ s', expandPset par f s = .ok s' ∧ BetweenM V par M s s' ∧
      s' = { s with heap := s'.heap, rng := s'.rng } ∧
      List.Forall₂ (fun c c' => ∃ r q, f c.body r = .ok q ∧
        c' = c.renew par s.time c.prediction q.1) (population s) (population s') ∧
      storedPopulation s' = storedPopulation s := by
  have I := b.good.inv
  obtain ⟨s', e, h1, h2, h3⟩ := expandGo_spec (par := par) hf (l := s.pset.list) (s := s) I.p.nodup
    (fun i hi => I.p.isSome hi)
  have hp : s'.pset = s.pset := by rw [h1]
  have hq : s'.prevPset = s.prevPset := by rw [h1]
  have hk : s'.kset = s.kset := by rw [h1]
  have hx : s'.next = s.next := by rw [h1]
  have hnum : s'.nums = s.nums := by
    funext i
    by_cases hi : i ∈ s.pset.list
    · obtain ⟨c, r, q, h4, h5, h6⟩ := h3 i hi
      simp [St.nums, h4, h6, Cl.renew]
    · simp [St.nums, h2 i hi]
  have hst : ∀ i ∈ s.prevPset.list, s'.heap i = s.heap i := fun i hi =>
    h2 i (fun h => I.pq i h hi)
  refine ⟨s', e, ⟨⟨I.congr hnum hx hp hq hk, ?_⟩, hk ▸ b.kset, hp ▸ b.cap, hq ▸ b.qcap, hq, hst⟩, h1,
    ?_, ?_⟩
  · intro i c' hc
    by_cases hi : i ∈ s.pset.list
    · obtain ⟨c, r, q, h4, h5, h6⟩ := h3 i hi
      rw [hc] at h6
      cases h6
      exact hV c r q _ (b.good.vals i c h4) h5
    · rw [h2 i hi] at hc
      exact b.good.vals i c' hc
  · unfold population
    rw [hp]
    refine forall2_population fun i hi => ?_
    obtain ⟨c, r, q, h4, h5, h6⟩ := h3 i hi
    exact ⟨c, _, h4, h6, r, q, h5, rfl⟩
  · unfold storedPopulation
    rw [hq]
    exact List.filterMap_congr fun i hi => hst i hi

theorem convertPset_spec {f : B → R → Res (B' × R)} (hf : ∀ b r, ∃ q, f b r = .ok q)
    (hV : ∀ c r q t, V c → f c.body r = .ok q →
      V' (c.renew par' t (List.replicate par'.yDim 0) q.1)) (hps : par'.popSize = par.popSize)
    {s : St K X B R} (b : BetweenM V par M s s) (hs : s.prevPset.list = []) :
    ∃ s', convertPset par' f s = .ok s' ∧ BetweenM V' par' M s' s' ∧
      s'.pset = s.pset ∧ s'.time = s.time ∧
      List.Forall₂ (fun c c' => ∃ r q, f c.body r = .ok q ∧
        c' = c.renew par' s.time (List.replicate par'.yDim 0) q.1) (population s) (population s') := by
  have I := b.good.inv
  obtain ⟨z, e, h2, h3⟩ := convertGo_spec (par := par') hf (l := s.pset.list) (s := s)
    (h := fun _ => none) (r := s.rng) I.p.nodup (fun i hi => I.p.isSome hi)
  have hnum : ∀ i, (z.1 i).map Cl.num = s.nums i := by
    intro i
    by_cases hi : i ∈ s.pset.list
    · obtain ⟨c, r, q, h4, h5, h6⟩ := h3 i hi
      simp [St.nums, h4, h6, Cl.renew]
    · rw [h2 i hi]
      cases e : s.nums i with
      | none => rfl
      | some v =>
        have := I.own i (by rw [e]; rfl)
        rw [hs, b.kset] at this
        simp at this
        exact absurd this hi
  unfold convertPset
  rw [e]
  refine ⟨_, rfl, ?_, rfl, rfl, ?_⟩
  · refine BetweenM.self (S := _) ⟨⟨⟨?_, ?_, I.pq, ?_, I.knd, List.nodup_nil, ?_, ?_, ?_⟩, ?_⟩, b.kset,
      ⟨hps ▸ b.cap.1, b.cap.2⟩, ⟨hps ▸ b.qcap.1, b.qcap.2⟩, rfl, fun _ _ => rfl⟩
    · exact I.p.congr fun i _ => hnum i
    · exact I.q.congr fun i _ => hnum i
    · intro i hi; exact (hnum i).trans (I.kz i hi)
    · intro i hi; cases hi
    · intro i hi
      exact I.own i (by rw [← hnum i]; exact hi)
    · intro i hi; exact (hnum i).trans (I.fresh i hi)
    · intro i c' hc
      have hc : z.1 i = some c' := hc
      by_cases hi : i ∈ s.pset.list
      · obtain ⟨c, r, q, h4, h5, h6⟩ := h3 i hi
        rw [hc] at h6
        cases h6
        exact hV c r q _ (b.good.vals i c h4) h5
      · rw [h2 i hi] at hc
        cases hc
  · unfold population
    refine forall2_population fun i hi => ?_
    obtain ⟨c, r, q, h4, h5, h6⟩ := h3 i hi
    exact ⟨c, _, h4, h6, r, q, h5, rfl⟩

theorem growEvs_post {f : B → R → Res (B × R)} {kit : Kit K X B R} (L : Laws par kit V E)
    (hf : ∀ b r, ∃ q, f b r = .ok q)
    (hV : ∀ c r q t, V c → f c.body r = .ok q → V (c.renew par t c.prediction q.1)) :
    ∀ (evs : List (GrowEv K X B)) {s : St K X B R}, BetweenM V par M s s →
    (∀ op, GrowEv.call op ∈ evs → op.ok V) →
    Post (evs.foldlM (growStep par kit f) s) (fun s' => BetweenM V par M s' s') E
  | [], s, b, _ => b
  | .call op :: evs, s, b, ho => by
    rw [List.foldlM_cons]
    exact post_bind (step_post L op (ho op List.mem_cons_self) b) fun s' b' =>
      growEvs_post L hf hV evs b' fun op h => ho op (List.mem_cons_of_mem _ h)
  | .expand :: evs, s, b, ho => by
    rw [List.foldlM_cons]
    obtain ⟨s', e, b', _⟩ := expandPset_spec hf hV b
    refine post_bind (m := expandPset par f s) (Q := fun s' => BetweenM V par M s' s') ?_ ?_
    · rw [e]; exact b'.self
    · exact fun s' b' =>
        growEvs_post L hf hV evs b' fun op h => ho op (List.mem_cons_of_mem _ h)

theorem runGrow_post {f : B → R → Res (B × R)} {kit : Kit K X B R} (L : Laws par kit V E)
    (hf : ∀ b r, ∃ q, f b r = .ok q)
    (hV : ∀ c r q t, V c → f c.body r = .ok q → V (c.renew par t c.prediction q.1)) (r : R)
    {evs : List (GrowEv K X B)} (ho : ∀ op, GrowEv.call op ∈ evs → op.ok V) :
    Post (runGrow par kit f r evs) (fun s => Between V par s s) E := by
  unfold runGrow
  exact post_bind (xcsfInit_post L r) fun s h => growEvs_post L hf hV evs h.1 ho

end Xcsf
