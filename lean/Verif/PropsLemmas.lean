import Verif.Spec
import Verif.CoreLaws

/-!
# Helper lemmas relating the invariant to what an observer sees
-/

namespace Xcsf
variable {K X B R : Type}

theorem filterMap_live {s : St K X B R} : ∀ {l : List Nat}, (∀ i ∈ l, (s.heap i).isSome) →
    l.map s.heap = (l.filterMap s.heap).map some
  | [], _ => rfl
  | i :: l, h => by
    obtain ⟨c, hc⟩ := Option.isSome_iff_exists.1 (h i List.mem_cons_self)
    rw [List.map_cons, List.filterMap_cons_some hc, List.map_cons, hc,
      filterMap_live (fun j hj => h j (List.mem_cons_of_mem _ hj))]

theorem filterMap_micro {s : St K X B R} : ∀ {l : List Nat}, (∀ i ∈ l, (s.heap i).isSome) →
    micro (l.filterMap s.heap) = nsum s.nums l
  | [], _ => rfl
  | i :: l, h => by
    obtain ⟨c, hc⟩ := Option.isSome_iff_exists.1 (h i List.mem_cons_self)
    have ih := filterMap_micro (s := s) (fun j hj => h j (List.mem_cons_of_mem _ hj))
    rw [List.filterMap_cons_some hc, nsum_cons, nums_of_heap hc, ← ih]
    simp [micro]

theorem filterMap_length {s : St K X B R} {l : List Nat} (h : ∀ i ∈ l, (s.heap i).isSome) :
    (l.filterMap s.heap).length = l.length := by
  have := congrArg List.length (filterMap_live h)
  simpa using this.symm

theorem SetOK.allLive {s : St K X B R} {t : CSet} (h : SetOK s.nums t) :
    ∀ i ∈ t.list, (s.heap i).isSome := fun _ hi => h.isSome hi

theorem rds_eq_filterMap {s : St K X B R} {l : List Nat} (h : ∀ i ∈ l, (s.heap i).isSome) :
    s.rds l = .ok (l.filterMap s.heap) := by
  obtain ⟨cs, h1, h2⟩ := rds_ok h
  rw [filterMap_live h] at h2
  have : l.filterMap s.heap = cs := List.map_injective_iff.2 (Option.some_injective _) h2
  rw [this]; exact h1

theorem mem_filterMap_of {s : St K X B R} {l : List Nat} {i : Nat} {c : Cl K B} (hi : i ∈ l)
    (hc : s.heap i = some c) : c ∈ l.filterMap s.heap := List.mem_filterMap.2 ⟨i, hi, hc⟩

theorem filterMap_congr' {f g : Nat → Option (Cl K B)} {l : List Nat} (h : ∀ i ∈ l, f i = g i) :
    l.filterMap f = l.filterMap g := by
  induction l with
  | nil => rfl
  | cons i l ih =>
    rw [List.filterMap_cons, List.filterMap_cons, h i List.mem_cons_self,
      ih (fun j hj => h j (List.mem_cons_of_mem _ hj))]

theorem Inv.good {s : St K X B R} {pend : List Nat} (h : Inv s pend) :
    Good (fun _ => True) s pend := ⟨h, fun _ _ _ => trivial⟩

/-- The list of rules splits around the rule at a position. -/
theorem split_at {l : List Nat} {k i : Nat} (hk : l[k]? = some i) :
    l = l.take k ++ i :: l.drop (k + 1) := by
  obtain ⟨hlt, he⟩ := List.getElem?_eq_some_iff.1 hk
  rw [← he, List.getElem_cons_drop, List.take_append_drop]

theorem eraseIdx_at (l : List Nat) (k : Nat) :
    l.eraseIdx k = l.take k ++ l.drop (k + 1) := List.eraseIdx_eq_take_drop_succ l k

end Xcsf

namespace Xcsf
variable {K X B R : Type} [Zero K] [One K] [Add K] [Sub K] [Mul K] [Div K]
  [LT K] [DecidableLT K] [IntCast K] [DecidableEq K]
variable {par : Params K} {kit : Kit K X B R}

theorem post_all {α : Type} {m : Res α} {P : α → Prop} (hP : ∀ a, P a) :
    Post m P (fun _ => True) := by
  cases m with
  | ok a => exact hP a
  | error e => trivial

/-- Laws with nothing asked and every fault tolerated: for partial correctness. -/
theorem lawsTriv (par : Params K) (kit : Kit K X B R) (hp : 0 ≤ par.popSize) :
    Laws par kit (fun _ => True) (fun _ => True) where
  pop := hp
  num := fun _ _ _ => trivial
  time := fun _ _ _ => trivial
  cmatch := fun _ _ _ _ _ _ => trivial
  act := fun _ _ _ _ _ => trivial
  predict := fun _ _ _ _ _ => trivial
  update := fun _ _ _ _ _ _ _ _ _ => trivial
  fit := fun _ _ _ _ => trivial
  coverErr := fun _ _ _ _ _ _ _ => trivial
  cover := fun _ _ _ _ _ _ _ _ _ _ _ => trivial
  rand := fun _ => trivial
  offspring := fun _ _ _ _ _ _ _ =>
    post_all fun _ => post_all fun _ => ⟨trivial, trivial⟩
  clone := fun _ _ _ => trivial
  wheelDel := fun _ _ _ _ _ _ _ => delRoulette_post (Or.inl trivial)
  wheelSel := fun _ _ _ h _ _ => selectRw_post (by simpa using h) (Or.inl trivial)
  index := fun _ _ _ => Or.inl trivial
  action := fun _ _ => Or.inl trivial
  predLen := fun _ _ => Or.inl trivial
  dims := Or.inl trivial
  tournament := fun _ l _ => selectTournament_post trivial l _
  explore := fun _ _ _ _ _ _ h => paRandAction_post (E := fun _ => True) trivial (Or.inl trivial)
    (fun _ _ _ => Or.inl trivial) h _

/-- Everything about one deletion in terms of the visible population. -/
theorem psetDel_view {s s' : St K X B R} {pend : List Nat} (inv : Inv s pend)
    (h : psetDel par kit s = .ok s') :
    ∃ k r c, delChoose par kit s = .ok (k, r) ∧ (population s)[k]? = some c ∧ 1 ≤ c.num ∧
      population s' = (population s).take k ++ loseOne c ++ (population s).drop (k + 1) ∧
      s'.rng = r ∧ storedPopulation s' = storedPopulation s ∧ s'.pset.num = s.pset.num - 1 := by
  unfold psetDel at h
  cases hch : delChoose par kit s with
  | error e => rw [hch] at h; cases h
  | ok p =>
    obtain ⟨k, r⟩ := p
    rw [hch] at h
    have h : delAt { s with rng := r } k = .ok s' := h
    cases hi : s.pset.list[k]? with
    | none => unfold delAt at h; rw [show ({ s with rng := r } : St K X B R).pset = s.pset from rfl, hi] at h; cases h
    | some i =>
      have him : i ∈ s.pset.list := List.mem_of_getElem? hi
      obtain ⟨c, hc, hn⟩ := inv.p.live him
      rw [delAt_spec (s := { s with rng := r }) hi hc] at h
      have hlive := inv.p.allLive
      have hmap := filterMap_live hlive
      have hck : (population s)[k]? = some c := by
        have h1 : (s.pset.list.map s.heap)[k]? = some (some c) := by simp [hi, hc]
        rw [hmap, List.getElem?_map] at h1
        cases h2 : (List.filterMap s.heap s.pset.list)[k]? with
        | none => rw [h2] at h1; cases h1
        | some d => rw [h2] at h1; simp at h1; rw [population, h2, h1]
      have hsplit := split_at hi
      have hnd := inv.p.nodup
      have hkl : k < s.pset.list.length := (List.getElem?_eq_some_iff.1 hi).1
      have htake : (population s).take k = (s.pset.list.take k).filterMap s.heap := by
        have hl : ((s.pset.list.take k).filterMap s.heap).length = k := by
          rw [filterMap_length (fun j hj => hlive j (List.mem_of_mem_take hj)), List.length_take]
          omega
        conv_lhs => rw [population, hsplit, List.filterMap_append]
        rw [List.take_left' hl]
      have hdrop : (population s).drop (k + 1) = (s.pset.list.drop (k + 1)).filterMap s.heap := by
        have hl : ((s.pset.list.take k).filterMap s.heap).length = k := by
          rw [filterMap_length (fun j hj => hlive j (List.mem_of_mem_take hj)), List.length_take]
          omega
        conv_lhs => rw [population, hsplit, List.filterMap_append, List.filterMap_cons_some hc]
        rw [List.append_cons, List.drop_left' (by simp [hl])]
      have hnot : ∀ j ∈ s.pset.list.take k ++ s.pset.list.drop (k + 1), j ≠ i := by
        intro j hj e
        rw [hsplit] at hnd
        subst e
        have := (List.nodup_middle.1 hnd)
        exact (List.nodup_cons.1 this).1 hj
      have hput : ∀ j, j ≠ i → (s.put i { c with num := c.num - 1 }).heap j = s.heap j :=
        fun j hj => put_heap_ne _ _ hj
      have hq : i ∉ s.prevPset.list := inv.pq i him
      refine ⟨k, r, c, rfl, hck, hn, ?_⟩
      rw [htake, hdrop]
      split at h
      · next h0 =>
        cases h
        refine ⟨?_, rfl, ?_, rfl⟩
        · show (s.pset.list.eraseIdx k).filterMap (s.put i { c with num := c.num - 1 }).heap = _
          rw [eraseIdx_at, filterMap_congr' (fun j hj => hput j (hnot j hj)), List.filterMap_append,
            loseOne, if_pos (by omega)]
          simp
        · exact filterMap_congr' (fun j hj => hput j (fun e => hq (e ▸ hj)))
      · next h0 =>
        cases h
        refine ⟨?_, rfl, ?_, rfl⟩
        · show s.pset.list.filterMap (s.put i { c with num := c.num - 1 }).heap = _
          conv_lhs => rw [hsplit]
          rw [List.filterMap_append, List.filterMap_cons_some (put_heap_self _ _ _),
            filterMap_congr' (fun j hj => hput j (hnot j (List.mem_append_left _ hj))),
            filterMap_congr' (fun j hj => hput j (hnot j (List.mem_append_right _ hj))),
            loseOne, if_neg (by omega)]
          simp
        · exact filterMap_congr' (fun j hj => hput j (fun e => hq (e ▸ hj)))

end Xcsf
