import Verif.PropsBadTree
import Verif.PropsBadRls

/-!
# C114: conditions compute numbers from numbers
-/

set_option linter.unusedSectionVars false

namespace Xcsf.Double

variable {f : Format}

/-! ## Specification -/

/-- Nothing is missing; infinite values are allowed. -/
def Complete (x : List (Dbl f)) : Prop := ∀ v ∈ x, v ≠ Dbl.nan

/-- A number between zero and one. -/
def InUnit (v : Dbl f) : Prop := ∃ q h, v = .fin q h ∧ 0 ≤ q ∧ q ≤ 1

/-! ## Trees -/

theorem round_ne_nan (q : ℚ) : Dbl.round f q ≠ .nan := by
  unfold Dbl.round
  split <;> exact nofun

theorem getR_mem {α : Type} {l : List α} {i : Nat} {v : α} (h : getR l i = .ok v) : v ∈ l := by
  unfold getR at h
  cases e : l[i]? with
  | none => rw [e] at h; cases h
  | some a =>
    rw [e] at h
    cases h
    exact List.mem_of_getElem? e

theorem getI_mem {α : Type} {l : List α} {i : Int} {v : α} (h : getI l i = .ok v) : v ∈ l := by
  unfold getI at h
  split at h
  · exact getR_mem h
  · cases h

/-- What is limited by finite numbers is finite, unless it is missing. -/
theorem clamp_finite {a lo hi : Dbl f} (ha : a ≠ .nan) (hl : lo.Finite) (hh : hi.Finite) :
    ∃ q h, clampD a lo hi = .fin q h := by
  cases lo with
  | nan => cases hl
  | inf s => cases hl
  | fin l lr =>
    cases hi with
    | nan => cases hh
    | inf s => cases hh
    | fin u ur =>
      unfold clampD
      split
      · exact ⟨l, lr, rfl⟩
      · next h1 =>
        split
        · exact ⟨u, ur, rfl⟩
        · next h2 =>
          cases a with
          | nan => exact absurd rfl ha
          | inf s =>
            cases s with
            | true => exact absurd rfl h1
            | false => exact absurd rfl h2
          | fin q h => exact ⟨q, h, rfl⟩

theorem treeOp_number {node : Int} {a b v : Dbl f} (ha : a ≠ .nan) (hb : b ≠ .nan)
    (h : treeOp node a b = .ok v) : v ≠ .nan := by
  obtain ⟨p, hp, e1⟩ := clamp_finite (lo := ((-1000 : Int) : Dbl f)) (hi := ((1000 : Int) : Dbl f)) ha
    trivial trivial
  obtain ⟨q, hq, e2⟩ := clamp_finite (lo := ((-1000 : Int) : Dbl f)) (hi := ((1000 : Int) : Dbl f)) hb
    trivial trivial
  unfold treeOp at h
  simp only at h
  rw [e1, e2] at h
  split at h
  · rw [← Except.ok.inj h]
    exact round_ne_nan (p + q)
  split at h
  · rw [← Except.ok.inj h]
    exact round_ne_nan (p + -q)
  split at h
  · rw [← Except.ok.inj h]
    exact round_ne_nan (p * q)
  split at h
  · rw [← Except.ok.inj h]
    split
    · exact nofun
    · next h0 =>
      have hq0 : q ≠ 0 := by
        intro e
        subst e
        exact h0 rfl
      have : (.fin p hp : Dbl f) / .fin q hq = Dbl.round f (p / q) := by
        show (if q = 0 then (if p = 0 then Dbl.nan else .inf (decide (p < 0))) else _) = _
        rw [if_neg hq0]
      rw [this]
      exact round_ne_nan _
  · cases h

/-- **C114**, trees: whatever the tree, constants and inputs that are not missing - also infinite or too
large ones - never evaluate to a missing value. -/
theorem C114_tree {consts x : List (Dbl f)} (hc : Complete consts) (hx : Complete x) (tree : List Int) :
    ∀ (fuel pos : Nat) {v : Dbl f} {pos' : Nat}, treeEvalD consts x tree fuel pos = .ok (v, pos') →
    v ≠ .nan
  | 0, _, _, _, h => by cases h
  | fuel + 1, pos, v, pos', h => by
    unfold treeEvalD at h
    obtain ⟨node, -, h⟩ := ok_of_bind h
    split at h
    · obtain ⟨w, hw, h⟩ := ok_of_bind h
      cases h
      exact hx _ (getR_mem hw)
    split at h
    · obtain ⟨w, hw, h⟩ := ok_of_bind h
      cases h
      exact hc _ (getR_mem hw)
    · obtain ⟨a, h1, h⟩ := ok_of_bind h
      obtain ⟨b, h2, h⟩ := ok_of_bind h
      obtain ⟨w, h3, h⟩ := ok_of_bind h
      cases h
      exact treeOp_number (C114_tree hc hx tree fuel _ h1) (C114_tree hc hx tree fuel _ h2) h3

/-! ## Graphs -/

theorem unit_one : InUnit (1 : Dbl f) := ⟨1, _, one_def, by norm_num, by norm_num⟩

theorem unit_zero : InUnit (0 : Dbl f) := ⟨0, _, zero_def, by norm_num, by norm_num⟩

theorem round_unit {q : ℚ} (h0 : 0 ≤ q) (h1 : q ≤ 1) : InUnit (Dbl.round f q) := by
  have hb : |q| < f.huge := by
    rw [abs_of_nonneg h0]
    have := f.bound 1 (by simpa using f.rep_int 1 (by norm_num))
    rw [abs_one] at this
    exact lt_of_le_of_lt h1 this
  refine ⟨f.rnd q, f.rep_rnd q hb, ?_, ?_, ?_⟩
  · unfold Dbl.round
    rw [dif_pos hb]
  · rw [← rnd_zero (f := f)]
    exact f.mono _ _ h0
  · rw [← rnd_one (f := f)]
    exact f.mono _ _ h1

theorem unit_mul {a b : Dbl f} (ha : InUnit a) (hb : InUnit b) : InUnit (a * b) := by
  obtain ⟨p, hp, rfl, p0, p1⟩ := ha
  obtain ⟨q, hq, rfl, q0, q1⟩ := hb
  exact round_unit (mul_nonneg p0 q0) (mul_le_one₀ p1 q0 q1)

/-- Not missing and not negative. -/
def Up (v : Dbl f) : Prop := v ≠ .nan ∧ v.Nonneg

theorem InUnit.up {v : Dbl f} (h : InUnit v) : Up v := by
  obtain ⟨q, hq, rfl, q0, -⟩ := h
  exact ⟨nofun, q0⟩

theorem up_add {a b : Dbl f} (ha : Up a) (hb : InUnit b) : Up (a + b) := by
  obtain ⟨q, hq, rfl, q0, -⟩ := hb
  refine ⟨?_, add_nonneg' ha.2 q0⟩
  cases a with
  | nan => exact absurd rfl ha.1
  | inf s => exact nofun
  | fin p hp => exact round_ne_nan _

/-- What is limited to the unit interval is in it, unless it is missing. -/
theorem clamp_unit {a : Dbl f} (ha : a ≠ .nan) : InUnit (clampD a 0 1) := by
  unfold clampD
  split
  · exact unit_zero
  · next h1 =>
    split
    · exact unit_one
    · next h2 =>
      cases a with
      | nan => exact absurd rfl ha
      | inf s =>
        cases s with
        | true => exact absurd rfl h1
        | false => exact absurd rfl h2
      | fin q h => exact ⟨q, h, rfl, not_lt.1 h1, not_lt.1 h2⟩

theorem foldl_unit : ∀ {l : List (Dbl f)} {a : Dbl f}, (∀ v ∈ l, InUnit v) → InUnit a →
    InUnit (l.foldl (· * ·) a)
  | [], _, _, h => h
  | w :: l, a, hl, h => foldl_unit (l := l) (a := a * w) (fun v hv => hl v (List.mem_cons_of_mem _ hv))
      (unit_mul h (hl _ List.mem_cons_self))

theorem foldl_up : ∀ {l : List (Dbl f)} {a : Dbl f}, (∀ v ∈ l, InUnit v) → Up a → Up (l.foldl (· + ·) a)
  | [], _, _, h => h
  | w :: l, a, hl, h => foldl_up (l := l) (a := a + w) (fun v hv => hl v (List.mem_cons_of_mem _ hv))
      (up_add h (hl _ List.mem_cons_self))

theorem nodeActivate_unit {fn : Int} {l : List (Dbl f)} {v : Dbl f} (hl : ∀ w ∈ l, InUnit w)
    (h : nodeActivateD fn l = .ok v) : InUnit v := by
  cases l with
  | nil => cases h
  | cons a l =>
    have ha := hl a List.mem_cons_self
    have hl' : ∀ w ∈ l, InUnit w := fun w hw => hl w (List.mem_cons_of_mem _ hw)
    unfold nodeActivateD at h
    simp only at h
    split at h
    · rw [← Except.ok.inj h]
      refine clamp_unit ?_
      obtain ⟨q, hq, rfl, -, -⟩ := ha
      exact round_ne_nan (1 + -q)
    split at h
    · rw [← Except.ok.inj h]
      exact clamp_unit (foldl_unit hl' ha).up.1
    split at h
    · rw [← Except.ok.inj h]
      exact clamp_unit (foldl_up hl' ha.up).1
    · cases h

theorem mapM_all {g : Nat → Res (Dbl f)} {P : Dbl f → Prop} (hg : ∀ i v, g i = .ok v → P v) :
    ∀ {l : List Nat} {vs : List (Dbl f)}, l.mapM g = .ok vs → ∀ v ∈ vs, P v
  | [], vs, h => by
    rw [List.mapM_nil] at h
    cases h
    exact nofun
  | i :: l, vs, h => by
    rw [List.mapM_cons] at h
    obtain ⟨a, h1, h⟩ := ok_of_bind h
    obtain ⟨b, h2, h⟩ := ok_of_bind h
    cases h
    intro v hv
    rcases List.mem_cons.1 hv with rfl | hv
    · exact hg i _ h1
    · exact mapM_all hg h2 v hv

theorem cycles_unit {d : Graph (Dbl f)} {x : List (Dbl f)} (hx : ∀ v ∈ x, InUnit v) :
    ∀ (k : Nat) {st st' : List (Dbl f)}, (∀ v ∈ st, InUnit v) → cyclesD d x k st = .ok st' →
    ∀ v ∈ st', InUnit v
  | 0, _, _, hs, h => by
    cases h
    exact hs
  | k + 1, st, st', hs, h => by
    unfold cyclesD at h
    obtain ⟨a, h1, h⟩ := ok_of_bind h
    refine cycles_unit hx k (mapM_all (fun i v hv => ?_) h1) h
    unfold nodeNextD at hv
    obtain ⟨ins, h2, hv⟩ := ok_of_bind hv
    obtain ⟨fn, -, hv⟩ := ok_of_bind hv
    refine nodeActivate_unit (mapM_all (fun j w hw => ?_) h2) hv
    unfold nodeInputD at hw
    obtain ⟨c, -, hw⟩ := ok_of_bind hw
    split at hw
    · exact hx _ (getI_mem hw)
    · exact hs _ (getI_mem hw)

/-- **C114**, graphs: for inputs between zero and one the states of a graph that start between zero and
one remain there, rounding included, for all series of inputs, with and without memory. -/
theorem C114_graph_unit_partial (stateful : Bool) {d : Graph (Dbl f)} (hi : ∀ v ∈ d.initial, InUnit v) :
    ∀ {xs : List (List (Dbl f))} {st st' : List (Dbl f)} {bs : List Bool},
    (∀ x ∈ xs, ∀ v ∈ x, InUnit v) → (∀ v ∈ st, InUnit v) →
    graphMatchesD stateful d st xs = .ok (bs, st') → ∀ v ∈ st', InUnit v
  | [], _, _, _, _, hs, h => by
    cases h
    exact hs
  | x :: xs, st, st', bs, hx, hs, h => by
    unfold graphMatchesD at h
    obtain ⟨a, h1, h⟩ := ok_of_bind h
    obtain ⟨b, h2, h⟩ := ok_of_bind h
    cases h
    refine C114_graph_unit_partial stateful hi (fun y hy => hx y (List.mem_cons_of_mem _ hy)) ?_ h2
    unfold graphMatchD at h1
    obtain ⟨s, h3, h1⟩ := ok_of_bind h1
    obtain ⟨v, -, h1⟩ := ok_of_bind h1
    cases h1
    refine cycles_unit (hx x List.mem_cons_self) _ ?_ h3
    cases stateful with
    | true => exact hs
    | false => exact hi

/-- A graph of one node that multiplies three inputs and its own state. -/
def multiplier (f : Format) : Graph (Dbl f) :=
  { evolve := false, nInputs := 3, n := 1, t := 1, klen := 4, maxT := 1, maxK := 4, state := [1],
    initial := [1], func := [1], conn := [0, 1, 2, 3], mu := [] }

theorem multiplier_step (st a b c : Dbl f) : graphMatchD true (multiplier f) [st] [a, b, c] =
    .ok (decide (Xcsf.half < clampD (a * b * c * st) 0 1), [clampD (a * b * c * st) 0 1]) := rfl

theorem inf_zero (s : Bool) : (.inf s : Dbl f) * 0 = .nan := by
  show Dbl.scaled s 0 = .nan
  unfold Dbl.scaled
  rw [if_pos rfl]

theorem big_big : (.fin ((2 : ℚ) ^ (600 : Nat)) rep_big : Dbl binary64) * .fin ((2 : ℚ) ^ (600 : Nat)) rep_big =
    .inf false := by
  show Dbl.round binary64 ((2 : ℚ) ^ (600 : Nat) * (2 : ℚ) ^ (600 : Nat)) = _
  unfold Dbl.round
  have h0 : (0 : ℚ) ≤ (2 : ℚ) ^ (600 : Nat) * (2 : ℚ) ^ (600 : Nat) := by positivity
  rw [dif_neg (by rw [abs_of_nonneg h0]; exact not_lt.2 big_overflows), decide_eq_false (not_lt.2 h0)]

theorem multiplier_lost : ∀ xs : List (Dbl f × Dbl f × Dbl f), ∃ bs st,
    graphMatchesD true (multiplier f) [.nan] (xs.map fun v => [v.1, v.2.1, v.2.2]) = .ok (bs, st) ∧
      bs.length = xs.length ∧ ∀ b ∈ bs, b = false
  | [] => ⟨[], [.nan], rfl, rfl, nofun⟩
  | v :: xs => by
    obtain ⟨bs, st, h1, h2, h3⟩ := multiplier_lost xs
    refine ⟨false :: bs, st, ?_, by simp [h2], by simpa using h3⟩
    rw [List.map_cons]
    unfold graphMatchesD
    rw [multiplier_step, mul_nan, clampD_nan, decide_eq_false (not_less_nan _)]
    show (graphMatchesD true (multiplier f) [.nan] (xs.map fun v => [v.1, v.2.1, v.2.2]) >>= _) = _
    rw [h1]
    rfl

/-- **C114** (refuted), graphs, finite inputs: two large inputs and a zero overflow to infinity times zero,
which is not a number; with memory the graph then matches nothing, whatever comes. -/
theorem C114_graph_overflow_refuted (xs : List (Dbl binary64 × Dbl binary64 × Dbl binary64)) :
    ∃ bs st, graphMatchesD true (multiplier binary64) [1]
      ([.fin ((2 : ℚ) ^ (600 : Nat)) rep_big, .fin ((2 : ℚ) ^ (600 : Nat)) rep_big, 0] ::
        xs.map fun v => [v.1, v.2.1, v.2.2]) = .ok (bs, st) ∧ bs.length = xs.length + 1 ∧
      ∀ b ∈ bs, b = false := by
  obtain ⟨bs, st, h1, h2, h3⟩ := multiplier_lost xs
  refine ⟨false :: bs, st, ?_, by simp [h2], by simpa using h3⟩
  unfold graphMatchesD
  rw [multiplier_step, big_big, inf_zero, nan_mul, clampD_nan, decide_eq_false (not_less_nan _)]
  show (graphMatchesD true (multiplier binary64) [.nan] (xs.map fun v => [v.1, v.2.1, v.2.2]) >>= _) = _
  rw [h1]
  rfl

/-- **C114** (refuted), graphs, infinite inputs: one infinite input and a zero suffice. -/
theorem C114_graph_infinite_refuted (s : Bool) : ∃ st, graphMatchD true (multiplier f) [1] [.inf s, 0, 1] =
    .ok (false, st) ∧ Dbl.nan ∈ st := by
  refine ⟨[.nan], ?_, by simp⟩
  rw [multiplier_step, inf_zero, nan_mul, nan_mul, clampD_nan, decide_eq_false (not_less_nan _)]

/-! ## Concrete cases -/

/-- It matches inputs of ones, one after another. -/
example : Demo.Res.test (graphMatchesD true (multiplier wide) [1] [[1, 1, 1], [1, 1, 1]])
    (fun p => p.1 == [true, true]) = true := by decide +kernel

example : ∀ v ∈ (multiplier f).initial, InUnit v := by
  intro v hv
  rw [List.mem_singleton.1 hv]
  exact unit_one

example : Complete ([.inf true, 0, 1] : List (Dbl f)) := by
  intro v hv
  simp at hv
  rcases hv with rfl | rfl | rfl <;> exact nofun

/-- `x₀ / x₁` for an infinite input and zero. -/
example : Demo.Res.test (treeEvalD [] [.inf false, (0 : Dbl wide)] [3, 4, 5] 4 0)
    (fun p => p.1 == ((1000 : Int) : Dbl wide)) = true := by decide +kernel

end Xcsf.Double
