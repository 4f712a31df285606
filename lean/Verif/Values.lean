import Verif.PropsLemmas

/-!
# Helper lemmas on values: prediction array, best actions, estimates
-/

set_option linter.unusedSectionVars false

namespace Xcsf
variable {K X B R : Type} [Field K] [LinearOrder K] [IsStrictOrderedRing K]
variable {par : Params K} {kit : Kit K X B R} {W : B → Prop}

/-! ## Prediction array -/

theorem addAt_get {l l' : List K} {k : Int} {v : K} (h : addAt l k v = .ok l') :
    0 ≤ k ∧ k < l.length ∧ l'.length = l.length ∧
    ∀ m : Nat, l'.getD m 0 = l.getD m 0 + if (m : Int) = k then v else 0 := by
  unfold addAt at h
  split at h
  · next h0 =>
    split at h
    · next a ha =>
      cases h
      obtain ⟨hlt, rfl⟩ := List.getElem?_eq_some_iff.1 ha
      refine ⟨h0, by omega, by simp, fun m => ?_⟩
      rw [List.getD_eq_getElem?_getD, List.getD_eq_getElem?_getD, List.getElem?_set]
      by_cases e : (m : Int) = k
      · have e' : k.toNat = m := by omega
        rw [if_pos e', if_pos e]
        subst e'
        simp [hlt]
      · have e' : ¬ k.toNat = m := by omega
        rw [if_neg e', if_neg e, add_zero]
    · cases h
  · cases h

/-- What the loop over outputs does to the arrays. -/
theorem paRule_get {c : Cl K B} {yDim : Nat} : ∀ (js : List Nat) {pa nr pa' nr' : List K},
    js.Nodup → paRule yDim c js pa nr = .ok (pa', nr') →
    pa'.length = pa.length ∧ nr'.length = nr.length ∧ ∀ m : Nat,
      (∀ j ∈ js, (m : Int) = c.action * (yDim : Int) + (j : Int) →
        pa'.getD m 0 = pa.getD m 0 + c.prediction.getD j 0 * c.fit ∧
        nr'.getD m 0 = nr.getD m 0 + c.fit) ∧
      ((∀ j ∈ js, (m : Int) ≠ c.action * (yDim : Int) + (j : Int)) →
        pa'.getD m 0 = pa.getD m 0 ∧ nr'.getD m 0 = nr.getD m 0)
  | [], pa, nr, pa', nr', _, h => by
    cases h; exact ⟨rfl, rfl, fun m => ⟨by simp, fun _ => ⟨rfl, rfl⟩⟩⟩
  | j :: js, pa, nr, pa', nr', hn, h => by
    unfold paRule at h
    rw [List.nodup_cons] at hn
    cases hp : c.prediction[j]? with
    | none => simp only [hp] at h; cases h
    | some p =>
      simp only [hp] at h
      cases e1 : addAt pa (c.action * (yDim : Int) + (j : Int)) (p * c.fit) with
      | error e => rw [e1] at h; cases h
      | ok pa1 =>
        rw [e1] at h
        have h : (addAt nr (c.action * (yDim : Int) + (j : Int)) c.fit >>= fun nr =>
          paRule yDim c js pa1 nr) = _ := h
        cases e2 : addAt nr (c.action * (yDim : Int) + (j : Int)) c.fit with
        | error e => rw [e2] at h; cases h
        | ok nr1 =>
          rw [e2] at h
          obtain ⟨i1, i2, i3⟩ := paRule_get js hn.2 h
          obtain ⟨_, _, a1, a2⟩ := addAt_get e1
          obtain ⟨_, _, b1, b2⟩ := addAt_get e2
          have hpj : c.prediction.getD j 0 = p := by
            rw [List.getD_eq_getElem?_getD, hp]; rfl
          refine ⟨i1.trans a1, i2.trans b1, fun m => ⟨?_, ?_⟩⟩
          · intro k hk hm
            rcases List.mem_cons.1 hk with e | hk'
            · subst e
              obtain ⟨q1, q2⟩ := (i3 m).2 (fun j' hj' e => hn.1 (by
                have : j' = k := by omega
                exact this ▸ hj'))
              rw [q1, q2, a2, b2, if_pos hm, if_pos hm, hpj]; exact ⟨rfl, rfl⟩
            · obtain ⟨q1, q2⟩ := (i3 m).1 k hk' hm
              have hne : ¬ (m : Int) = c.action * (yDim : Int) + (j : Int) := by
                intro e
                have : j = k := by omega
                exact hn.1 (this ▸ hk')
              rw [q1, q2, a2, b2, if_neg hne, if_neg hne, add_zero, add_zero]; exact ⟨rfl, rfl⟩
          · intro hne
            obtain ⟨q1, q2⟩ := (i3 m).2 (fun k hk => hne k (List.mem_cons_of_mem _ hk))
            have := hne j List.mem_cons_self
            rw [q1, q2, a2, b2, if_neg this, if_neg this, add_zero, add_zero]; exact ⟨rfl, rfl⟩

theorem action_unique {A : Int} {a j j' n : Nat} (hj : j < n) (hj' : j' < n)
    (h : ((a * n + j : Nat) : Int) = A * (n : Int) + (j' : Int)) : A = a := by
  push_cast at h
  have e : ((a : Int) - A) * n = (j' : Int) - j := by ring_nf; linarith
  have h1 : ((a : Int) - A) * n < n := by omega
  have h2 : -(n : Int) < ((a : Int) - A) * n := by omega
  have hn : (0 : Int) < n := by omega
  have h3 : (a : Int) - A < 1 := by
    by_contra hc
    have : (1 : Int) ≤ (a : Int) - A := by omega
    nlinarith
  have h4 : -1 < (a : Int) - A := by
    by_contra hc
    have : (a : Int) - A ≤ -1 := by omega
    nlinarith
  omega

/-- What the loop over rules does to the arrays. -/
theorem paRules_get {yDim : Nat} {a j : Nat} (hj : j < yDim) : ∀ (cs : List (Cl K B))
    {pa nr pa' nr' : List K}, paRules yDim cs pa nr = .ok (pa', nr') →
    pa'.length = pa.length ∧ nr'.length = nr.length ∧
    pa'.getD (a * yDim + j) 0 = pa.getD (a * yDim + j) 0 +
      ((cs.filter (fun c => decide (c.action = (a : Int)))).map
        (fun c => c.prediction.getD j 0 * c.fit)).sum ∧
    nr'.getD (a * yDim + j) 0 = nr.getD (a * yDim + j) 0 +
      ((cs.filter (fun c => decide (c.action = (a : Int)))).map Cl.fit).sum
  | [], pa, nr, pa', nr', h => by cases h; simp
  | c :: cs, pa, nr, pa', nr', h => by
    unfold paRules at h
    cases e : paRule yDim c (List.range yDim) pa nr with
    | error e' => rw [e] at h; cases h
    | ok q =>
      obtain ⟨pa1, nr1⟩ := q
      rw [e] at h
      obtain ⟨i1, i2, i3, i4⟩ := paRules_get hj cs h
      obtain ⟨q1, q2, q3⟩ := paRule_get _ List.nodup_range e
      refine ⟨i1.trans q1, i2.trans q2, ?_⟩
      rw [i3, i4]
      by_cases ha : c.action = a
      · obtain ⟨w1, w2⟩ := (q3 (a * yDim + j)).1 j (List.mem_range.2 hj) (by
          rw [ha]; push_cast; ring)
        rw [w1, w2, List.filter_cons_of_pos (by simpa using ha)]
        simp only [List.map_cons, List.sum_cons]
        constructor <;> ring
      · obtain ⟨w1, w2⟩ := (q3 (a * yDim + j)).2 (fun j' hj' e => ha
          (action_unique hj (List.mem_range.1 hj') e))
        rw [w1, w2, List.filter_cons_of_neg (by simpa using ha)]
        exact ⟨rfl, rfl⟩

theorem paNorm_get {pa nr : List K} (hl : pa.length = nr.length) (m : Nat) :
    (paNorm pa nr).getD m 0 = if nr.getD m 0 ≠ 0 then pa.getD m 0 / nr.getD m 0 else 0 := by
  unfold paNorm
  rw [List.getD_eq_getElem?_getD, List.getElem?_zipWith, List.getD_eq_getElem?_getD,
    List.getD_eq_getElem?_getD]
  by_cases h : m < pa.length
  · rw [List.getElem?_eq_getElem h, List.getElem?_eq_getElem (hl ▸ h)]
    simp
  · rw [List.getElem?_eq_none (by omega), List.getElem?_eq_none (by omega)]
    simp

/-! ## Best actions -/

theorem bestGo_max : ∀ (vs : List K) (i : Nat) (mx : K) (best : List Nat) (pre : List K),
    pre.length = i → (∀ v ∈ pre, v ≤ mx) → (∀ a, a ∈ best ↔ pre[a]? = some mx) →
    ∃ M, (∀ v ∈ pre ++ vs, v ≤ M) ∧
      (∀ a, a ∈ bestGo vs i mx best ↔ (pre ++ vs)[a]? = some M)
  | [], i, mx, best, pre, _, h2, h3 => ⟨mx, by simpa using h2, by simpa [bestGo] using h3⟩
  | v :: vs, i, mx, best, pre, h1, h2, h3 => by
    unfold bestGo
    have hsplit : pre ++ v :: vs = (pre ++ [v]) ++ vs := by simp
    have hget : ∀ a w, (pre ++ [v])[a]? = some w ↔ (pre[a]? = some w ∨ (a = i ∧ v = w)) := by
      intro a w
      by_cases ha : a < pre.length
      · rw [List.getElem?_append_left ha]
        constructor
        · exact Or.inl
        · rintro (h | ⟨h, _⟩)
          · exact h
          · omega
      · rw [List.getElem?_append_right (by omega), List.getElem?_eq_none (by omega : pre.length ≤ a)]
        by_cases e : a = i
        · subst e; simp [h1]
        · have : a - pre.length ≠ 0 := by omega
          rw [List.getElem?_eq_none (by simp; omega)]
          simp [e]
    split
    · next hlt =>
      rw [hsplit]
      refine bestGo_max vs (i + 1) v [i] (pre ++ [v]) (by simp [h1]) ?_ ?_
      · intro w hw
        rcases List.mem_append.1 hw with h | h
        · exact (h2 w h).trans hlt.le
        · simp at h; exact h.le
      · intro a
        rw [hget]
        constructor
        · intro h; simp at h; exact Or.inr ⟨h, rfl⟩
        · rintro (h | ⟨h, _⟩)
          · exact absurd (h2 v (List.mem_of_getElem? h)) (not_le.2 hlt)
          · simp [h]
    · next hnlt =>
      split
      · next heq =>
        rw [hsplit]
        refine bestGo_max vs (i + 1) mx (best ++ [i]) (pre ++ [v]) (by simp [h1]) ?_ ?_
        · intro w hw
          rcases List.mem_append.1 hw with h | h
          · exact h2 w h
          · simp at h; exact (h.trans heq).le
        · intro a
          rw [hget, List.mem_append, h3]
          simp [heq]
      · next hne =>
        rw [hsplit]
        refine bestGo_max vs (i + 1) mx best (pre ++ [v]) (by simp [h1]) ?_ ?_
        · intro w hw
          rcases List.mem_append.1 hw with h | h
          · exact h2 w h
          · simp at h; rw [h]; exact not_lt.1 hnlt
        · intro a
          rw [hget, h3]
          simp [hne]

/-- The candidates of the greedy choice are exactly the positions of the maximum. -/
theorem bestActions_max {n : Nat} {pa : List K} {best : List Nat}
    (h : bestActions n pa = .ok best) :
    ∃ M, (∀ v ∈ pa.take n, v ≤ M) ∧ ∀ a, a ∈ best ↔ (pa.take n)[a]? = some M := by
  unfold bestActions at h
  split at h
  · cases h
  · next v vs e =>
    cases h
    rw [e]
    exact bestGo_max vs 1 v [0] [v] rfl (by simp) (by
      intro a
      cases a <;> simp)

theorem argmaxGo_max : ∀ (vs : List K) (i mi : Nat) (mx : K) (pre : List K),
    pre.length = i → (∀ v ∈ pre, v ≤ mx) → pre[mi]? = some mx →
    ∃ M, (∀ v ∈ pre ++ vs, v ≤ M) ∧ (pre ++ vs)[argmaxGo vs i mi mx]? = some M
  | [], i, mi, mx, pre, _, h2, h3 => ⟨mx, by simpa using h2, by simpa [argmaxGo] using h3⟩
  | v :: vs, i, mi, mx, pre, h1, h2, h3 => by
    unfold argmaxGo
    have hsplit : pre ++ v :: vs = (pre ++ [v]) ++ vs := by simp
    rw [hsplit]
    split
    · next hlt =>
      refine argmaxGo_max vs (i + 1) i v (pre ++ [v]) (by simp [h1]) ?_ (by simp [← h1])
      intro w hw
      rcases List.mem_append.1 hw with h | h
      · exact (h2 w h).trans hlt.le
      · simp at h; exact h.le
    · next hnlt =>
      refine argmaxGo_max vs (i + 1) mi mx (pre ++ [v]) (by simp [h1]) ?_ ?_
      · intro w hw
        rcases List.mem_append.1 hw with h | h
        · exact h2 w h
        · simp at h; rw [h]; exact not_lt.1 hnlt
      · rw [List.getElem?_append_left (List.getElem?_eq_some_iff.1 h3).1]; exact h3

/-- `argmax` returns a position of the maximum. -/
theorem argmax_max {l : List K} {i : Nat} (h : argmax l = .ok i) :
    ∃ M, (∀ v ∈ l, v ≤ M) ∧ l[i]? = some M := by
  unfold argmax at h
  split at h
  · cases h
  · next v vs =>
    cases h
    exact argmaxGo_max vs 1 0 v [v] rfl (by simp) rfl

theorem floor_eq (H : Regular par kit W) {v : K} {n : Int} (h0 : (n : K) ≤ v) (h1 : v < (n : K) + 1) :
    kit.floor v = n := by
  have f0 := H.floor0 v
  have f1 := H.floor1 v
  have a : kit.floor v < n + 1 := by
    have : ((kit.floor v : Int) : K) < ((n + 1 : Int) : K) := by push_cast; linarith
    exact_mod_cast this
  have b : n < kit.floor v + 1 := by
    have : (n : K) < ((kit.floor v + 1 : Int) : K) := by push_cast; linarith
    exact_mod_cast this
  omega

/-! ## Estimates -/

theorem mix_le {b u v m : K} (h0 : 0 ≤ b) (h1 : b ≤ 1) (hu : u ≤ m) (hv : v ≤ m) :
    u + b * (v - u) ≤ m := by
  nlinarith [mul_nonneg h0 (sub_nonneg.2 hv), mul_nonneg (sub_nonneg.2 h1) (sub_nonneg.2 hu)]

theorem sum_map_div_const (l : List (Cl K B)) (f : Cl K B → K) (d : K) :
    (l.map (fun c => f c / d)).sum = (l.map f).sum / d := by
  induction l with
  | nil => simp
  | cons c l ih => simp only [List.map_cons, List.sum_cons, ih]; rw [add_div]

theorem sum_mix (l : List (Cl K B)) (f g : Cl K B → K) (b : K) :
    (l.map (fun c => f c + b * (g c - f c))).sum =
      (l.map f).sum + b * ((l.map g).sum - (l.map f).sum) := by
  induction l with
  | nil => simp
  | cons c l ih => simp only [List.map_cons, List.sum_cons, ih]; ring

theorem sum_le_mul {l : List (Cl K B)} {f g : Cl K B → K} {m : K}
    (hf : ∀ c ∈ l, 0 ≤ f c) (hg : ∀ c ∈ l, g c ≤ m) :
    (l.map (fun c => g c * f c)).sum ≤ m * (l.map f).sum := by
  induction l with
  | nil => simp
  | cons c l ih =>
    simp only [List.map_cons, List.sum_cons]
    have h1 := hf c List.mem_cons_self
    have h2 := hg c List.mem_cons_self
    have h3 := ih (fun d hd => hf d (List.mem_cons_of_mem _ hd))
      (fun d hd => hg d (List.mem_cons_of_mem _ hd))
    nlinarith [mul_nonneg h1 (sub_nonneg.2 h2)]

theorem mul_le_sum {l : List (Cl K B)} {f g : Cl K B → K} {m : K}
    (hf : ∀ c ∈ l, 0 ≤ f c) (hg : ∀ c ∈ l, m ≤ g c) :
    m * (l.map f).sum ≤ (l.map (fun c => g c * f c)).sum := by
  induction l with
  | nil => simp
  | cons c l ih =>
    simp only [List.map_cons, List.sum_cons]
    have h1 := hf c List.mem_cons_self
    have h2 := hg c List.mem_cons_self
    have h3 := ih (fun d hd => hf d (List.mem_cons_of_mem _ hd))
      (fun d hd => hg d (List.mem_cons_of_mem _ hd))
    nlinarith [mul_nonneg h1 (sub_nonneg.2 h2)]

end Xcsf
