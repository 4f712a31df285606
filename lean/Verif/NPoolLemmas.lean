import Verif.NPoolSpec
import Mathlib.Tactic.Ring
import Mathlib.Tactic.Linarith
import Mathlib.Algebra.BigOperators.Ring.Finset
import Mathlib.Algebra.BigOperators.Fin

/-!
# Lemmas on loops over arrays
-/

set_option linter.unusedSectionVars false

namespace Xcsf
open Finset

theorem mem_idx2 {a b : Nat} {p : Nat × Nat} : p ∈ idx2 a b ↔ p.1 < a ∧ p.2 < b := by
  obtain ⟨i, j⟩ := p
  simp [idx2]

theorem mem_idx3 {a b c : Nat} {t : Nat × Nat × Nat} :
    t ∈ idx3 a b c ↔ t.1 < a ∧ t.2.1 < b ∧ t.2.2 < c := by
  obtain ⟨i, j, k⟩ := t
  simp [idx3, mem_idx2]

theorem idx2_flat (a b : Nat) : (idx2 a b).map (fun p => p.1 * b + p.2) = List.range (a * b) := by
  unfold idx2
  induction a with
  | zero => simp
  | succ a ih =>
    rw [List.range_succ, List.flatMap_append, List.map_append, ih, Nat.succ_mul, List.range_add]
    simp

theorem idx3_flat (a b c : Nat) :
    (idx3 a b c).map (fun t => (t.1 * b + t.2.1) * c + t.2.2) = List.range (a * b * c) := by
  unfold idx3
  induction a with
  | zero => simp
  | succ a ih =>
    rw [List.range_succ, List.flatMap_append, List.map_append, ih, Nat.succ_mul, Nat.add_mul,
      List.range_add, ← idx2_flat b c]
    simp only [List.flatMap_cons, List.flatMap_nil, List.append_nil, List.map_map]
    congr 1
    refine List.map_congr_left fun p _ => ?_
    simp only [Function.comp]
    ring

/-- Loops keep an invariant that knows what has been done. -/
theorem forL_inv {α S : Type} {f : α → S → Res S} (I : List α → S → Prop) :
    ∀ (as pre : List α) (s : S), I pre s →
    (∀ pre' a, pre' ++ [a] <+: pre ++ as → pre.length ≤ pre'.length →
      ∀ s, I pre' s → ∃ s', f a s = .ok s' ∧ I (pre' ++ [a]) s') →
    ∃ s', forL f as s = .ok s' ∧ I (pre ++ as) s'
  | [], pre, s, h, _ => ⟨s, rfl, by simpa using h⟩
  | a :: as, pre, s, h, hf => by
    obtain ⟨s1, e1, h1⟩ := hf pre a ⟨as, by simp⟩ (Nat.le_refl _) s h
    obtain ⟨s2, e2, h2⟩ := forL_inv I as (pre ++ [a]) s1 h1 (fun pre' b hp hl s hs =>
      hf pre' b (by simpa using hp) (by simp at hl; omega) s hs)
    refine ⟨s2, ?_, by simpa using h2⟩
    unfold forL
    rw [e1]
    exact e2

/-- Loops keep an invariant that knows what has been done, from the start. -/
theorem forL_done {α S : Type} {f : α → S → Res S} (I : List α → S → Prop) (as : List α) (s : S)
    (h0 : I [] s)
    (hf : ∀ pre a, (∀ b ∈ pre ++ [a], b ∈ as) → ∀ s, I pre s →
      ∃ s', f a s = .ok s' ∧ I (pre ++ [a]) s') :
    ∃ s', forL f as s = .ok s' ∧ I as s' := by
  obtain ⟨s', e, h⟩ := forL_inv I as [] s h0 (fun pre' a hp _ s hs =>
    hf pre' a (fun b hb => by
      have := hp.subset hb
      simpa using this) s hs)
  exact ⟨s', e, by simpa using h⟩

theorem rdA_ok {α : Type} {a : List α} {i : Nat} {v : α} (h : a[i]? = some v) :
    rd a (i : Int) = .ok v := by
  unfold rd
  rw [if_neg (by omega)]
  simp [h]

theorem wrA_ok {α : Type} {a : List α} {i : Nat} (v : α) (h : i < a.length) :
    wr a (i : Int) v = .ok (a.set i v) := by
  unfold wr
  rw [if_neg (by omega)]
  simp

/-- A loop that writes: every element written has its value in the end. -/
theorem forL_write {α β : Type} {body : α → List β → Res (List β)} (pos : α → Nat) (val : α → β)
    (as : List α) (a0 : List β) (hr : ∀ t ∈ as, pos t < a0.length)
    (hb : ∀ t ∈ as, ∀ a : List β, a.length = a0.length → body t a = .ok (a.set (pos t) (val t)))
    (hc : ∀ s ∈ as, ∀ t ∈ as, pos s = pos t → val s = val t) :
    ∃ a', forL body as a0 = .ok a' ∧ a'.length = a0.length ∧
      (∀ t ∈ as, a'[pos t]? = some (val t)) ∧
      (∀ i, (∀ t ∈ as, pos t ≠ i) → a'[i]? = a0[i]?) := by
  refine forL_done (fun pre a => a.length = a0.length ∧ (∀ t ∈ pre, a[pos t]? = some (val t)) ∧
    (∀ i, (∀ t ∈ pre, pos t ≠ i) → a[i]? = a0[i]?)) as a0
    ⟨rfl, (fun t h => by cases h), fun i _ => rfl⟩ ?_
  rintro pre a hsub s ⟨hl, hp, hu⟩
  have ha : a ∈ as := hsub a (by simp)
  have hlt : pos a < s.length := by rw [hl]; exact hr a ha
  refine ⟨_, hb a ha s hl, by rw [List.length_set]; exact hl, ?_, ?_⟩
  · intro t ht
    rw [List.getElem?_set]
    rcases List.mem_append.1 ht with ht | ht
    · by_cases e : pos a = pos t
      · rw [if_pos e, if_pos hlt, hc a ha t (hsub t (by simp [ht])) e]
      · rw [if_neg e]; exact hp t ht
    · cases List.mem_singleton.1 ht
      rw [if_pos rfl, if_pos hlt]
  · intro i hi
    rw [List.getElem?_set, if_neg (hi a (by simp))]
    exact hu i fun t ht => hi t (by simp [ht])

section
variable {K R : Type} [Field K] [LinearOrder K] [IsStrictOrderedRing K] [FloorRing K]

theorem accAt_ok {d : List K} {i : Nat} (v : K) (h : i < d.length) :
    accAt d (i : Int) v = .ok (d.set i (d.getD i 0 + v)) := by
  unfold accAt
  rw [rdA_ok (List.getElem?_eq_getElem h)]
  dsimp only
  rw [wrA_ok _ h]
  congr 3
  simp [List.getD, h]

theorem inner_set {d : List K} {i : Nat} (h : i < d.length) (u : K) (v : Nat → K) :
    inner (d.set i (d.getD i 0 + u)) v = inner d v + u * v i := by
  unfold inner
  rw [List.length_set]
  have e : ∀ j ∈ range d.length, (d.set i (d.getD i 0 + u)).getD j 0 * v j =
      d.getD j 0 * v j + if j = i then u * v i else 0 := by
    intro j hj
    have hj := mem_range.1 hj
    by_cases e : j = i
    · subst e
      simp [List.getD, hj]
      ring
    · simp [List.getD, Ne.symm e, e]
  rw [sum_congr rfl e, sum_add_distrib, sum_ite_eq' (range d.length) i, if_pos (mem_range.2 h)]

/-- A loop that accumulates: the inner product with any values grows by the sum of what was
added, each with the value of its place. -/
theorem forL_scatter {α : Type} {body : α → List K → Res (List K)} (pos : α → Nat) (val : α → K)
    (as : List α) (d0 : List K) (hr : ∀ t ∈ as, pos t < d0.length)
    (hb : ∀ t ∈ as, ∀ d : List K, d.length = d0.length →
      body t d = .ok (d.set (pos t) (d.getD (pos t) 0 + val t))) :
    ∃ d', forL body as d0 = .ok d' ∧ d'.length = d0.length ∧
      ∀ v : Nat → K, inner d' v = inner d0 v + (as.map fun t => val t * v (pos t)).sum := by
  refine forL_done (fun pre d => d.length = d0.length ∧
    ∀ v : Nat → K, inner d v = inner d0 v + (pre.map fun t => val t * v (pos t)).sum) as d0
    ⟨rfl, fun v => by simp⟩ ?_
  rintro pre a hsub s ⟨hl, hv⟩
  have ha : a ∈ as := hsub a (by simp)
  refine ⟨_, hb a ha s hl, by rw [List.length_set]; exact hl, fun v => ?_⟩
  rw [inner_set (by rw [hl]; exact hr a ha), hv v]
  simp
  ring

theorem sum_map_range (n : Nat) (f : Nat → K) : ((List.range n).map f).sum = ∑ i ∈ range n, f i := by
  induction n with
  | zero => simp
  | succ n ih => rw [List.range_succ, List.map_append, List.sum_append, ih, sum_range_succ]; simp

theorem inner_eq_sum {d : List K} {n : Nat} (h : d.length = n) (v : Nat → K) :
    ((List.range n).map fun i => d.getD i 0 * v i).sum = inner d v := by
  rw [sum_map_range, ← h]; rfl

/-- The values of a completely written array. -/
theorem written_ok : ∀ {o : List (Option K)}, (∀ i < o.length, ∃ v, o[i]? = some (some v)) →
    ∃ vs, written o = .ok vs ∧ vs.length = o.length ∧ ∀ i : Nat, o[i]? = vs[i]?.map some
  | [], _ => ⟨[], rfl, rfl, fun i => by simp⟩
  | none :: l, h => by
    obtain ⟨v, hv⟩ := h 0 (by simp)
    simp at hv
  | some v :: l, h => by
    obtain ⟨vs, e, hl, hi⟩ := written_ok (o := l) (fun i hi => by
      obtain ⟨u, hu⟩ := h (i + 1) (by simpa using hi)
      exact ⟨u, by simpa using hu⟩)
    refine ⟨v :: vs, by simp only [written, e], by simp [hl], fun i => ?_⟩
    cases i with
    | zero => simp
    | succ i => simpa using hi i

theorem flat3_lt {a b c i j k : Nat} (hi : i < a) (hj : j < b) (hk : k < c) :
    (i * b + j) * c + k < a * b * c := by
  have h1 : i * b + j < a * b := by
    calc i * b + j < i * b + b := by omega
      _ = (i + 1) * b := by ring
      _ ≤ a * b := Nat.mul_le_mul_right _ hi
  calc (i * b + j) * c + k < (i * b + j) * c + c := by omega
    _ = (i * b + j + 1) * c := by ring
    _ ≤ a * b * c := Nat.mul_le_mul_right _ h1

theorem flat2_lt {b c j k n : Nat} (hj : j < b) (hk : k < c) (h : b * c ≤ n) : j * c + k < n := by
  have h1 : j * c + k < b * c := by
    calc j * c + k < j * c + c := by omega
      _ = (j + 1) * c := by ring
      _ ≤ b * c := Nat.mul_le_mul_right _ hj
  omega

theorem flat3_inj {b c i j k i' j' k' : Nat} (hj : j < b) (hk : k < c) (hj' : j' < b) (hk' : k' < c)
    (h : (i * b + j) * c + k = (i' * b + j') * c + k') : i = i' ∧ j = j' ∧ k = k' := by
  have hc : 0 < c := by omega
  have hb : 0 < b := by omega
  have h1 : k = k' := by
    have := congrArg (· % c) h
    simpa [Nat.mul_add_mod_of_lt hk, Nat.mul_add_mod_of_lt hk', Nat.add_mod, Nat.mod_eq_of_lt hk,
      Nat.mod_eq_of_lt hk'] using this
  have h2 : i * b + j = i' * b + j' := by
    have := congrArg (· / c) h
    simpa [Nat.mul_comm _ c, Nat.mul_add_div hc, Nat.div_eq_of_lt hk,
      Nat.div_eq_of_lt hk'] using this
  have h3 : j = j' := by
    have := congrArg (· % b) h2
    simpa [Nat.add_mod, Nat.mod_eq_of_lt hj, Nat.mod_eq_of_lt hj'] using this
  have h4 : i = i' := by
    have := congrArg (· / b) h2
    simpa [Nat.mul_comm _ b, Nat.mul_add_div hb, Nat.div_eq_of_lt hj, Nat.div_eq_of_lt hj'] using this
  exact ⟨h4, h3, h1⟩

end
end Xcsf
