import Verif.Cond
import Verif.PropsUtil
import Mathlib.Algebra.Order.Group.Abs
import Mathlib.Tactic.FieldSimp
import Mathlib.Tactic.Positivity

/-!
# Properties C28-C32: interval, ellipsoid and ternary conditions
-/

set_option linter.unusedSectionVars false

namespace Xcsf

/-! ## Position by position -/

/-- `P` holds of the elements of two lists at every common position. -/
def AtEach {α β : Type} (P : α → β → Prop) (as : List α) (bs : List β) : Prop :=
  ∀ (i : Nat) a b, as[i]? = some a → bs[i]? = some b → P a b

section AtEach
variable {α β γ : Type} {P : α → β → Prop}

theorem atEach_nil_left (bs : List β) : AtEach P [] bs := by
  intro i a b h; simp at h

theorem atEach_nil_right (as : List α) : AtEach P as [] := by
  intro i a b _ h; simp at h

theorem atEach_cons {a : α} {b : β} {as : List α} {bs : List β} :
    AtEach P (a :: as) (b :: bs) ↔ P a b ∧ AtEach P as bs := by
  constructor
  · intro h
    exact ⟨h 0 a b rfl rfl, fun i x y hx hy => h (i + 1) x y (by simpa using hx) (by simpa using hy)⟩
  · rintro ⟨h0, h⟩ i x y hx hy
    cases i with
    | zero => simp at hx hy; rw [← hx, ← hy]; exact h0
    | succ i => exact h i x y (by simpa using hx) (by simpa using hy)

theorem atEach_mono {Q : α → β → Prop} {as : List α} {bs : List β} (h : AtEach P as bs)
    (hpq : ∀ a b, P a b → Q a b) : AtEach Q as bs :=
  fun i a b ha hb => hpq a b (h i a b ha hb)
end AtEach

section
variable {K R : Type} [Field K] [LinearOrder K] [IsStrictOrderedRing K]

/-! ## Specification: the region of a hyperrectangle -/

/-- The interval of one gene contains `v`: within the spread of the centre (centre-spread), or
between the two bounds in whichever order (unordered bounds). -/
def InInterval (csr : Bool) (c : K × K) (v : K) : Prop :=
  if csr then |v - c.1| ≤ c.2 else (c.1 ≤ v ∧ v ≤ c.2) ∨ (c.2 ≤ v ∧ v ≤ c.1)

theorem inInterval_iff (csr : Bool) (c : K × K) (v : K) :
    InInterval csr c v ↔ rectLb csr c ≤ v ∧ v ≤ rectUb csr c := by
  unfold InInterval rectLb rectUb
  cases csr with
  | true =>
    simp only [if_true, abs_le]
    constructor <;> rintro ⟨h1, h2⟩ <;> constructor <;> linarith
  | false =>
    simp only [Bool.false_eq_true, if_false]
    constructor
    · rintro (⟨h1, h2⟩ | ⟨h1, h2⟩)
      · exact ⟨(min_le_left _ _).trans h1, h2.trans (le_max_right _ _)⟩
      · exact ⟨(min_le_right _ _).trans h1, h2.trans (le_max_left _ _)⟩
    · rintro ⟨h1, h2⟩
      rcases le_total c.1 c.2 with h | h
      · rw [min_eq_left h] at h1; rw [max_eq_right h] at h2; exact Or.inl ⟨h1, h2⟩
      · rw [min_eq_right h] at h1; rw [max_eq_left h] at h2; exact Or.inr ⟨h1, h2⟩

theorem rectMatchGo_iff (csr : Bool) : ∀ (cs : List (K × K)) (xs : List K),
    rectMatchGo csr cs xs = true ↔ AtEach (InInterval csr) cs xs
  | [], xs => by simp [rectMatchGo, atEach_nil_left]
  | c :: cs, [] => by simp [rectMatchGo, atEach_nil_right]
  | c :: cs, x :: xs => by
    rw [atEach_cons, inInterval_iff, ← rectMatchGo_iff csr cs xs]
    rw [rectMatchGo]
    split
    · next h =>
      constructor
      · intro h'; cases h'
      · rintro ⟨⟨h1, h2⟩, _⟩
        rcases h with h | h
        · exact absurd h1 (not_le.2 h)
        · exact absurd h2 (not_le.2 h)
    · next h =>
      rw [not_or, not_lt, not_lt] at h
      exact ⟨fun h' => ⟨h, h'⟩, fun h' => h'.2⟩

/-- A rectangle matches exactly the points whose every coordinate is in its interval. -/
theorem C28_match_meaning (p : CondPar K) (c : Box K) (x : List K) :
    rectMatch p c x = true ↔ AtEach (InInterval p.csr) c.genes x := rectMatchGo_iff _ _ _

theorem CondPar.spreadMax_nonneg (p : CondPar K) : 0 ≤ p.spreadMax := abs_nonneg _

theorem rectCoverGo_spec {g : Rng K R} (H : g.Open) (p : CondPar K) (hs : 0 ≤ p.spreadMin) :
    ∀ (x : List K) (r : R), (rectCoverGo g p x r).1.length = x.length ∧
      AtEach (InInterval p.csr) (rectCoverGo g p x r).1 x
  | [], r => ⟨rfl, atEach_nil_left _⟩
  | x :: xs, r => by
    unfold rectCoverGo
    split
    · next hc =>
      have ih := rectCoverGo_spec H p hs xs (g.uni p.spreadMin p.spreadMax r).2
      have h0 := Rng.uni_nonneg H hs p.spreadMax_nonneg r
      refine ⟨by simp [ih.1], atEach_cons.2 ⟨?_, ih.2⟩⟩
      simp [InInterval, hc, h0]
    · next hc =>
      have ih := rectCoverGo_spec H p hs xs
        (g.uni p.spreadMin p.spreadMax (g.uni p.spreadMin p.spreadMax r).2).2
      have h0 := Rng.uni_nonneg H hs p.spreadMax_nonneg r
      have h1 := Rng.uni_nonneg H hs p.spreadMax_nonneg (g.uni p.spreadMin p.spreadMax r).2
      refine ⟨by simp [ih.1], atEach_cons.2 ⟨?_, ih.2⟩⟩
      simp only [InInterval, hc]
      left
      constructor <;> linarith

/-- **C28.** A rectangle covered for an input matches it, whatever it was before, for both
representations, all dimensions and all draws, when the minimum spread is not negative. -/
theorem C28_cover_matches {g : Rng K R} (H : g.Open) (p : CondPar K) (hs : 0 ≤ p.spreadMin)
    (c : Box K) (x : List K) (r : R) :
    rectMatch p (rectCover g p c x r).1 x = true ∧
    (rectCover g p c x r).1.genes.length = x.length ∧ (rectCover g p c x r).1.mu = c.mu := by
  obtain ⟨h1, h2⟩ := rectCoverGo_spec H p hs x r
  exact ⟨(rectMatchGo_iff _ _ _).2 h2, h1, rfl⟩

/-! ## C29 -/

theorem rectGeneralGo_iff (csr : Bool) : ∀ (cs ds : List (K × K)),
    rectGeneralGo csr cs ds = true ↔
      AtEach (fun c d => rectLb csr c ≤ rectLb csr d ∧ rectUb csr d ≤ rectUb csr c) cs ds
  | [], ds => by simp [rectGeneralGo, atEach_nil_left]
  | c :: cs, [] => by simp [rectGeneralGo, atEach_nil_right]
  | c :: cs, d :: ds => by
    rw [atEach_cons, ← rectGeneralGo_iff csr cs ds]
    rw [rectGeneralGo]
    split
    · next h =>
      constructor
      · intro h'; cases h'
      · rintro ⟨⟨h1, h2⟩, _⟩
        rcases h with h | h
        · exact absurd h1 (not_le.2 h)
        · exact absurd h2 (not_le.2 h)
    · next h =>
      rw [not_or, not_lt, not_lt] at h
      exact ⟨fun h' => ⟨h, h'⟩, fun h' => h'.2⟩

/-- **C29.** A rectangle declared more general than another matches every input the other
matches. -/
theorem C29_general_covers (p : CondPar K) (c d : Box K) (hl : c.genes.length = d.genes.length)
    (h : rectGeneral p c d = true) (x : List K) (hm : rectMatch p d x = true) :
    rectMatch p c x = true := by
  rw [C28_match_meaning] at hm ⊢
  have hg := (rectGeneralGo_iff _ _ _).1 h
  intro i a v ha hv
  have hi : i < d.genes.length := by
    rw [← hl]; exact (List.getElem?_eq_some_iff.1 ha).1
  have hb : d.genes[i]? = some d.genes[i] := List.getElem?_eq_getElem hi
  have h1 := hg i a _ ha hb
  have h2 := (inInterval_iff _ _ _).1 (hm i _ v hb hv)
  exact (inInterval_iff _ _ _).2 ⟨h1.1.trans h2.1, h2.2.trans h1.2⟩

theorem rect_corner_lb {csr : Bool} {g : K × K} (h : csr = true → 0 ≤ g.2) :
    InInterval csr g (rectLb csr g) ∧ InInterval csr g (rectUb csr g) := by
  have hle : rectLb csr g ≤ rectUb csr g := by
    unfold rectLb rectUb
    cases csr with
    | true => have := h rfl; simp; linarith
    | false => simp
  exact ⟨(inInterval_iff _ _ _).2 ⟨le_refl _, hle⟩, (inInterval_iff _ _ _).2 ⟨hle, le_refl _⟩⟩

/-- **C29**, converse: when the second rectangle is not empty, the declaration is exact: it is
made whenever the first matches everything the second matches. -/
theorem C29_general_exact (p : CondPar K) (c d : Box K) (hl : c.genes.length = d.genes.length)
    (hd : ∀ g ∈ d.genes, p.csr = true → 0 ≤ g.2) :
    rectGeneral p c d = true ↔
      ∀ x : List K, x.length = d.genes.length → rectMatch p d x = true → rectMatch p c x = true := by
  constructor
  · exact fun h x _ hm => C29_general_covers p c d hl h x hm
  · intro h
    apply (rectGeneralGo_iff _ _ _).2
    have hlo := h (d.genes.map (rectLb p.csr)) (by simp) (by
      rw [C28_match_meaning]
      intro i a v ha hv
      rw [List.getElem?_map, ha] at hv
      simp at hv; rw [← hv]
      exact (rect_corner_lb (hd a (List.mem_of_getElem? ha))).1)
    have hhi := h (d.genes.map (rectUb p.csr)) (by simp) (by
      rw [C28_match_meaning]
      intro i a v ha hv
      rw [List.getElem?_map, ha] at hv
      simp at hv; rw [← hv]
      exact (rect_corner_lb (hd a (List.mem_of_getElem? ha))).2)
    rw [C28_match_meaning] at hlo hhi
    intro i a b ha hb
    have h1 := (inInterval_iff _ _ _).1 (hlo i a _ ha (by rw [List.getElem?_map, hb]; rfl))
    have h2 := (inInterval_iff _ _ _).1 (hhi i a _ ha (by rw [List.getElem?_map, hb]; rfl))
    exact ⟨h1.1, h2.2⟩

/-! ## Hyperellipsoids: the region -/

/-- The quadratic form of an ellipsoid at a point. -/
def ellForm : List (K × K) → List K → K
  | c :: cs, x :: xs => ((x - c.1) / c.2) ^ 2 + ellForm cs xs
  | _, _ => 0

/-- All spreads are different from zero. -/
def Proper (c : List (K × K)) : Prop := ∀ g ∈ c, g.2 ≠ 0

theorem ellDistGo_fin : ∀ (cs : List (K × K)) (xs : List K) (v : K), Proper cs →
    ellDistGo cs xs (.fin v) = .fin (v + ellForm cs xs)
  | [], xs, v, _ => by simp [ellDistGo, ellForm]
  | c :: cs, [], v, _ => by simp [ellDistGo, ellForm]
  | c :: cs, x :: xs, v, h => by
    unfold ellDistGo Flt.addSq
    rw [if_neg (h c List.mem_cons_self)]
    simp only
    rw [ellDistGo_fin cs xs _ (fun g hg => h g (List.mem_cons_of_mem _ hg)), ellForm]
    congr 1; ring

theorem ellMatch_iff {c : Box K} (h : Proper c.genes) (x : List K) :
    ellMatch c x = true ↔ ellForm c.genes x < 1 := by
  unfold ellMatch ellDist
  rw [ellDistGo_fin _ _ _ h]
  simp [Flt.ltOne]

theorem ellForm_nonneg : ∀ (cs : List (K × K)) (xs : List K), 0 ≤ ellForm cs xs
  | [], xs => le_refl _
  | c :: cs, [] => le_refl _
  | c :: cs, x :: xs => by
    unfold ellForm; have := ellForm_nonneg cs xs; positivity

/-- Covering an ellipsoid: it matches its input when the spreads drawn cannot vanish. -/
theorem C63_ellipsoid_cover_matches {g : Rng K R} (H : g.Open) (p : CondPar K)
    (hs : 0 ≤ p.spreadMin) (hv : 0 < p.spreadMin ∨ p.min ≠ p.max) (c : Box K) (x : List K) (r : R) :
    ellMatch (ellCover g p c x r).1 x = true ∧ Proper (ellCover g p c x r).1.genes ∧
    (ellCover g p c x r).1.genes.length = x.length := by
  have hpos : ∀ r, 0 < (g.uni p.spreadMin p.spreadMax r).1 := by
    intro r
    rcases hv with hv | hv
    · rcases eq_or_lt_of_le p.spreadMax_nonneg with h | h
      · obtain ⟨d0, d1⟩ := H r
        unfold Rng.uni
        rw [← h]
        have := mul_pos hv (by linarith : 0 < 1 - (g.draw r).1)
        simp only; linarith
      · exact Rng.uni_pos H hs h r
    · exact Rng.uni_pos H hs (abs_pos.2 (sub_ne_zero.2 (Ne.symm hv))) r
  have key : ∀ (x : List K) (r : R), Proper (ellCoverGo g p x r).1 ∧
      ellForm (ellCoverGo g p x r).1 x = 0 ∧ (ellCoverGo g p x r).1.length = x.length := by
    intro x
    induction x with
    | nil => exact fun r => ⟨by simp [Proper, ellCoverGo], by simp [ellForm, ellCoverGo], rfl⟩
    | cons a x ih =>
      intro r
      obtain ⟨h1, h2, h3⟩ := ih (g.uni p.spreadMin p.spreadMax r).2
      refine ⟨?_, ?_, by simp [ellCoverGo, h3]⟩
      · intro q hq
        simp only [ellCoverGo, List.mem_cons] at hq
        rcases hq with rfl | hq
        · exact (hpos r).ne'
        · exact h1 q hq
      · simp [ellCoverGo, ellForm, h2]
  obtain ⟨h1, h2, h3⟩ := key x r
  refine ⟨(ellMatch_iff h1 x).2 ?_, h1, h3⟩
  show ellForm (ellCoverGo g p x r).1 x < 1
  rw [h2]; exact zero_lt_one

/-- The exception is real: with a zero minimum spread and `min = max` the spread is zero, the
distance is 0/0 and the covered condition does not match. -/
theorem C63_degenerate (g : Rng K R) (p : CondPar K) (hs : p.spreadMin = 0) (hm : p.min = p.max)
    (c : Box K) (v : K) (r : R) : ellMatch (ellCover g p c [v] r).1 [v] = false := by
  have e : (g.uni p.spreadMin p.spreadMax r).1 = 0 := by
    unfold Rng.uni CondPar.spreadMax; simp [hs, hm]
  simp [ellMatch, ellCover, ellCoverGo, ellDist, ellDistGo, Flt.addSq, e, Flt.ltOne]

/-! ## C30 -/

/-- **C30 is false of the code**: the test only looks at the end points of the axes of the
second ellipsoid.  The unit disc is declared more general than the ellipse with centre (1/2, 0)
and spreads (1/2, 4/5), which contains (4/5, 31/50). -/
theorem C30_refuted : ∃ (c d : Box ℚ) (x : List ℚ), Proper c.genes ∧ Proper d.genes ∧
    c.genes.length = d.genes.length ∧ ellGeneral c d = true ∧
    ellMatch d x = true ∧ ellMatch c x = false :=
  ⟨⟨[(0, 1), (0, 1)], 1⟩, ⟨[(1 / 2, 1 / 2), (0, 4 / 5)], 1⟩, [4 / 5, 31 / 50],
    by norm_num [Proper], by norm_num [Proper], rfl, by decide +kernel, by decide +kernel,
    by decide +kernel⟩

theorem ellGeneralGo_at (e1 : List (K × K)) (cen : List K) : ∀ (cs ds : List (K × K)) (k : Nat),
    ellGeneralGo e1 cen k cs ds = true →
    ∀ (i : Nat) c d, cs[i]? = some c → ds[i]? = some d → c ≠ d →
      (ellDist e1 (cen.set (k + i) (d.1 + d.2))).gtOne = false ∧
      (ellDist e1 (cen.set (k + i) (d.1 - d.2))).gtOne = false
  | [], ds, k, _, i, c, d, hc, _, _ => by simp at hc
  | c0 :: cs, [], k, _, i, c, d, _, hd, _ => by simp at hd
  | c0 :: cs, d0 :: ds, k, h, i, c, d, hc, hd, hne => by
    unfold ellGeneralGo at h
    have hrest : ellGeneralGo e1 cen (k + 1) cs ds = true := by
      split at h
      · split at h
        · cases h
        · split at h
          · cases h
          · exact h
      · exact h
    cases i with
    | zero =>
      simp at hc hd
      subst hc hd
      have hcd : c0.1 ≠ d0.1 ∨ c0.2 ≠ d0.2 := by
        by_contra hh
        rw [not_or, not_not, not_not] at hh
        exact hne (Prod.ext hh.1 hh.2)
      rw [if_pos hcd] at h
      split at h
      · cases h
      · next h1 =>
        split at h
        · cases h
        · next h2 =>
          have e : d0.1 + d0.2 - 2 * d0.2 = d0.1 - d0.2 := by ring
          rw [e] at h2
          simpa using ⟨by simpa using h1, by simpa using h2⟩
    | succ i =>
      have := ellGeneralGo_at e1 cen cs ds (k + 1) hrest i c d (by simpa using hc) (by simpa using hd) hne
      rw [show k + (i + 1) = k + 1 + i by omega]
      exact this

theorem gtOne_iff {e : List (K × K)} (h : Proper e) (x : List K) :
    (ellDist e x).gtOne = false ↔ ellForm e x ≤ 1 := by
  unfold ellDist
  rw [ellDistGo_fin _ _ _ h]
  simp [Flt.gtOne]

/-- At a point that differs from the centre in one coordinate the form is that coordinate's
term. -/
theorem ellForm_axis : ∀ (cs : List (K × K)) (i : Nat) (c : K × K) (v : K), cs[i]? = some c →
    ellForm cs ((cs.map Prod.fst).set i v) = ((v - c.1) / c.2) ^ 2
  | [], i, c, v, h => by simp at h
  | c0 :: cs, 0, c, v, h => by
    simp at h; subst h
    simp only [List.map_cons, List.set_cons_zero, ellForm]
    have : ellForm cs (cs.map Prod.fst) = 0 := by
      clear * -
      induction cs with
      | nil => rfl
      | cons a cs ih => simp [ellForm, ih]
    rw [this, add_zero]
  | c0 :: cs, i + 1, c, v, h => by
    simp only [List.map_cons, List.set_cons_succ, ellForm]
    rw [ellForm_axis cs i c v (by simpa using h)]
    simp

theorem ellForm_mono : ∀ (cs ds : List (K × K)) (x : List K), cs.length = ds.length →
    (∀ (i : Nat) c d, cs[i]? = some c → ds[i]? = some d → ∀ v : K,
      ((v - c.1) / c.2) ^ 2 ≤ ((v - d.1) / d.2) ^ 2) →
    ellForm cs x ≤ ellForm ds x
  | [], [], x, _, _ => le_refl _
  | c :: cs, d :: ds, [], _, _ => le_refl _
  | c :: cs, d :: ds, v :: x, hl, h => by
    unfold ellForm
    have h0 := h 0 c d rfl rfl v
    have h1 := ellForm_mono cs ds x (by simpa using hl)
      (fun i a b ha hb => h (i + 1) a b (by simpa using ha) (by simpa using hb))
    linarith

/-- **C30, partial** (full statement refuted above).  Ellipsoids with the same centre: being
declared more general implies matching a superset. -/
theorem C30_concentric_partial (c d : Box K) (hl : c.genes.length = d.genes.length)
    (hc : Proper c.genes) (hd : Proper d.genes)
    (hcen : c.genes.map Prod.fst = d.genes.map Prod.fst)
    (h : ellGeneral c d = true) (x : List K) (hm : ellMatch d x = true) : ellMatch c x = true := by
  rw [ellMatch_iff hd] at hm
  rw [ellMatch_iff hc]
  refine lt_of_le_of_lt (ellForm_mono _ _ x hl ?_) hm
  intro i a b ha hb v
  have hab : a.1 = b.1 := by
    have := congrArg (fun l => l[i]?) hcen
    simp only [List.getElem?_map, ha, hb] at this
    simpa using this
  by_cases hne : a = b
  · rw [hne]
  · have hk := (ellGeneralGo_at c.genes (d.genes.map Prod.fst) c.genes d.genes 0 h i a b ha hb hne).1
    rw [gtOne_iff hc, zero_add, ← hcen, ellForm_axis _ i a _ ha, hab] at hk
    have ha0 : a.2 ≠ 0 := hc a (List.mem_of_getElem? ha)
    have hb0 : b.2 ≠ 0 := hd b (List.mem_of_getElem? hb)
    rw [show b.1 + b.2 - b.1 = b.2 by ring, div_pow, div_le_one (by positivity)] at hk
    rw [div_pow, div_pow, hab]
    exact div_le_div_of_nonneg_left (sq_nonneg _) (by positivity) hk

/-- **C30, partial.**  In one dimension, too, being declared more general implies matching a
superset. -/
theorem C30_one_dim_partial (c d : K × K) (m1 m2 : K) (hc : 0 < c.2) (hd : 0 < d.2)
    (h : ellGeneral ⟨[c], m1⟩ ⟨[d], m2⟩ = true) (v : K)
    (hm : ellMatch ⟨[d], m2⟩ [v] = true) : ellMatch ⟨[c], m1⟩ [v] = true := by
  have pc : Proper [c] := by simp [Proper, hc.ne']
  have pd : Proper [d] := by simp [Proper, hd.ne']
  rw [ellMatch_iff pd] at hm
  rw [ellMatch_iff pc]
  simp only [ellForm, add_zero] at hm ⊢
  by_cases hne : c = d
  · rw [hne]; exact hm
  · obtain ⟨k1, k2⟩ := ellGeneralGo_at [c] ([d].map Prod.fst) [c] [d] 0 h 0 c d rfl rfl hne
    rw [gtOne_iff pc] at k1 k2
    simp only [List.map_cons, List.map_nil, add_zero, List.set_cons_zero, ellForm] at k1 k2
    rw [div_pow, div_le_one (by positivity), sq_le_sq, abs_of_pos hc, abs_le] at k1 k2
    rw [div_pow, div_lt_one (by positivity), sq_lt_sq, abs_of_pos hd, abs_lt] at hm
    rw [div_pow, div_lt_one (by positivity), sq_lt_sq, abs_of_pos hc, abs_lt]
    constructor <;> linarith [hm.1, hm.2, k1.1, k1.2, k2.1, k2.2]

/-! ## C31 -/

theorem boxMutateGo_spec {g : Rng K R} (p : CondPar K) (hp : p.min ≤ p.max) (sp : Bool) (mu : K) :
    ∀ (cs : List (K × K)) (ch : Bool) (r : R),
      (boxMutateGo g p sp mu cs ch r).1.length = cs.length ∧
      (∀ q ∈ (boxMutateGo g p sp mu cs ch r).1, p.min ≤ q.1 ∧ q.1 ≤ p.max ∧
        (sp = true → dblEps ≤ q.2) ∧ (sp = false → p.min ≤ q.2 ∧ q.2 ≤ p.max)) ∧
      ((boxMutateGo g p sp mu cs ch r).2.1 = true ↔
        ch = true ∨ (boxMutateGo g p sp mu cs ch r).1 ≠ cs)
  | [], ch, r => ⟨rfl, by simp [boxMutateGo], by simp [boxMutateGo]⟩
  | c :: cs, ch, r => by
    unfold boxMutateGo
    simp only
    set b1 := clampK (c.1 + (g.normal 0 mu r).1) p.min p.max with hb1
    set b2 := (if sp = true then max dblEps (c.2 + (g.normal 0 mu (g.normal 0 mu r).2).1)
      else clampK (c.2 + (g.normal 0 mu (g.normal 0 mu r).2).1) p.min p.max) with hb2
    set ch2 := (if c.2 ≠ b2 then true else if c.1 ≠ b1 then true else ch) with hch2
    obtain ⟨i1, i2, i3⟩ := boxMutateGo_spec (g := g) p hp sp mu cs ch2
      (g.normal 0 mu (g.normal 0 mu r).2).2
    refine ⟨by simp [i1], ?_, ?_⟩
    · intro q hq
      rcases List.mem_cons.1 hq with rfl | hq
      · have h1 := C45_clamp (c.1 + (g.normal 0 mu r).1) hp
        refine ⟨h1.1, h1.2.1, fun hs => ?_, fun hs => ?_⟩
        · rw [hb2, if_pos hs]; exact le_max_left _ _
        · rw [hb2, if_neg (by simp [hs])]
          have h2 := C45_clamp (c.2 + (g.normal 0 mu (g.normal 0 mu r).2).1) hp
          exact ⟨h2.1, h2.2.1⟩
      · exact i2 q hq
    · rw [i3, hch2]
      by_cases e2 : c.2 = b2
      · by_cases e1 : c.1 = b1
        · rw [if_neg (not_not.2 e2), if_neg (not_not.2 e1), ← e1, ← e2]
          simp
        · rw [if_neg (not_not.2 e2), if_pos e1]
          simp only [true_or, true_iff]
          right
          intro h
          exact e1 (congrArg Prod.fst (List.cons.inj h).1).symm
      · rw [if_pos e2]
        simp only [true_or, true_iff]
        right
        intro h
        exact e2 (congrArg Prod.snd (List.cons.inj h).1).symm

variable [FloorRing K]

/-- **C31**, mutation of rectangles (`sp` = centre-spread form) and ellipsoids (`sp = true`):
it returns; the number of genes is kept; every first parameter is in `[min, max]`; every spread
is at least `DBL_EPSILON` and every bound in `[min, max]`; the new mutation rate is legal; and a
change is reported exactly when a gene changed. -/
theorem C31_mutate (g : Rng K R) (p : CondPar K) (hp : p.min ≤ p.max) (sp : Bool)
    (c : Box K) (r : R) :
    ∃ c' ch r', boxMutate g p sp c r = .ok (c', ch, r') ∧
      c'.genes.length = c.genes.length ∧ LegalRate c'.mu ∧
      (∀ q ∈ c'.genes, p.min ≤ q.1 ∧ q.1 ≤ p.max ∧ (sp = true → dblEps ≤ q.2) ∧
        (sp = false → p.min ≤ q.2 ∧ q.2 ≤ p.max)) ∧
      (ch = true ↔ c'.genes ≠ c.genes) := by
  have hmu : LegalRate (clampK (c.mu * g.exp (g.normal 0 1 r).1) muEps 1) :=
    clampK_mem _ (by norm_num [muEps])
  obtain ⟨i1, i2, i3⟩ := boxMutateGo_spec (g := g) p hp sp
    (clampK (c.mu * g.exp (g.normal 0 1 r).1) muEps 1) c.genes false (g.normal 0 1 r).2
  exact ⟨_, _, _, rfl, i1, hmu, i2, by simpa using i3⟩

/-- One gene after crossover: kept, or exchanged with the gene at the same position of the
mate. -/
def Swapped {α : Type} (a b a' b' : α) : Prop := (a' = a ∧ b' = b) ∨ (a' = b ∧ b' = a)

theorem boxCrossGo_spec (g : Rng K R) : ∀ (as bs : List (K × K)) (ch : Bool) (r : R),
    as.length = bs.length →
    (boxCrossGo g as bs ch r).1.length = as.length ∧
    (boxCrossGo g as bs ch r).2.1.length = bs.length ∧
    (∀ (i : Nat) a b, as[i]? = some a → bs[i]? = some b →
      ∃ a' b', (boxCrossGo g as bs ch r).1[i]? = some a' ∧
        (boxCrossGo g as bs ch r).2.1[i]? = some b' ∧
        Swapped a.1 b.1 a'.1 b'.1 ∧ Swapped a.2 b.2 a'.2 b'.2) ∧
    ((boxCrossGo g as bs ch r).2.2.1 = false →
      ch = false ∧ (boxCrossGo g as bs ch r).1 = as ∧ (boxCrossGo g as bs ch r).2.1 = bs)
  | [], [], ch, r, _ => ⟨rfl, rfl, by simp, fun h => ⟨h, rfl, rfl⟩⟩
  | a :: as, b :: bs, ch, r, hl => by
    unfold boxCrossGo
    simp only
    set s1 := decide ((g.uni 0 1 r).1 < 1 / 2)
    set s2 := decide ((g.uni 0 1 (g.uni 0 1 r).2).1 < 1 / 2)
    obtain ⟨i1, i2, i3, i4⟩ := boxCrossGo_spec g as bs (ch || s1 || s2)
      (g.uni 0 1 (g.uni 0 1 r).2).2 (by simpa using hl)
    refine ⟨by simp [i1], by simp [i2], ?_, ?_⟩
    · intro i x y hx hy
      cases i with
      | zero =>
        simp at hx hy
        subst hx hy
        refine ⟨_, _, rfl, rfl, ?_, ?_⟩
        · cases s1
          · exact Or.inl ⟨rfl, rfl⟩
          · exact Or.inr ⟨rfl, rfl⟩
        · cases s2
          · exact Or.inl ⟨rfl, rfl⟩
          · exact Or.inr ⟨rfl, rfl⟩
      | succ i => exact i3 i x y (by simpa using hx) (by simpa using hy)
    · intro h
      obtain ⟨h1, h2, h3⟩ := i4 h
      rw [Bool.or_eq_false_iff, Bool.or_eq_false_iff] at h1
      obtain ⟨⟨h1, h4⟩, h5⟩ := h1
      rw [h2, h3, h4, h5]
      exact ⟨h1, rfl, rfl⟩

/-- **C31**, crossover of rectangles and ellipsoids: each parameter is kept or exchanged with
the parameter at the same position of the mate, the rates and lengths are kept, and when no
change is reported nothing changed. -/
theorem C31_crossover (g : Rng K R) (p : CondPar K) (c d : Box K) (r : R)
    (hl : c.genes.length = d.genes.length) :
    let o := boxCross g p c d r
    o.1.genes.length = c.genes.length ∧ o.2.1.genes.length = d.genes.length ∧
    o.1.mu = c.mu ∧ o.2.1.mu = d.mu ∧
    (∀ (i : Nat) a b, c.genes[i]? = some a → d.genes[i]? = some b →
      ∃ a' b', o.1.genes[i]? = some a' ∧ o.2.1.genes[i]? = some b' ∧
        Swapped a.1 b.1 a'.1 b'.1 ∧ Swapped a.2 b.2 a'.2 b'.2) ∧
    (o.2.2.1 = false → o.1 = c ∧ o.2.1 = d) := by
  unfold boxCross
  simp only
  split
  · obtain ⟨i1, i2, i3, i4⟩ := boxCrossGo_spec g c.genes d.genes false (g.uni 0 1 r).2 hl
    refine ⟨i1, i2, rfl, rfl, i3, fun h => ?_⟩
    obtain ⟨_, h2, h3⟩ := i4 h
    exact ⟨by simp only [h2], by simp only [h3]⟩
  · exact ⟨rfl, rfl, rfl, rfl, fun i a b ha hb => ⟨a, b, ha, hb, Or.inl ⟨rfl, rfl⟩, Or.inl ⟨rfl, rfl⟩⟩,
      fun _ => ⟨rfl, rfl⟩⟩

/-- The converse fails: exchanging equal genes is reported as a change. -/
theorem C31_crossover_refuted : ∃ (g : Rng ℚ Unit) (p : CondPar ℚ) (c d : Box ℚ), g.Open ∧
    (boxCross g p c d ()).1 = c ∧ (boxCross g p c d ()).2.1 = d ∧
    (boxCross g p c d ()).2.2.1 = true :=
  ⟨⟨fun _ => (1 / 4, ()), fun _ => (0, ()), fun _ => 1⟩,
    ⟨true, 0, 1, 0, 0, 0, 1, 1⟩, ⟨[(0, 1)], 1⟩, ⟨[(0, 1)], 1⟩,
    fun _ => by constructor <;> norm_num, by decide +kernel, by decide +kernel, by decide +kernel⟩

theorem boxUpdateGo_spec (eta : K) : ∀ (cs : List (K × K)) (xs : List K), cs.length = xs.length →
    (boxUpdateGo eta cs xs).length = cs.length ∧
    ∀ (i : Nat) c v, cs[i]? = some c → xs[i]? = some v →
      (boxUpdateGo eta cs xs)[i]? = some (c.1 + eta * (v - c.1), c.2)
  | [], [], _ => ⟨rfl, by simp⟩
  | c :: cs, x :: xs, hl => by
    obtain ⟨i1, i2⟩ := boxUpdateGo_spec eta cs xs (by simpa using hl)
    refine ⟨by simp [boxUpdateGo, i1], ?_⟩
    intro i a v ha hv
    cases i with
    | zero => simp at ha hv; subst ha hv; rfl
    | succ i => exact i2 i a v (by simpa using ha) (by simpa using hv)

/-- **C31**, updates: centre-spread rectangles and ellipsoids move every centre by the fraction
`eta` of its distance to the input and keep everything else; unordered-bound rectangles, and
all of them when `eta` is not positive, are left alone. -/
theorem C31_update (p : CondPar K) (c : Box K) (x : List K) (hl : c.genes.length = x.length) :
    (0 < p.eta → ∀ u ∈ [ellUpdate p c x] ++ (if p.csr then [rectUpdate p c x] else []),
      u.mu = c.mu ∧ u.genes.length = c.genes.length ∧
      ∀ (i : Nat) q v, c.genes[i]? = some q → x[i]? = some v →
        u.genes[i]? = some (q.1 + p.eta * (v - q.1), q.2)) ∧
    (p.eta ≤ 0 → ellUpdate p c x = c ∧ rectUpdate p c x = c) ∧
    (p.csr = false → rectUpdate p c x = c) := by
  obtain ⟨i1, i2⟩ := boxUpdateGo_spec p.eta c.genes x hl
  refine ⟨fun he u hu => ?_, fun he => ?_, fun hc => ?_⟩
  · have hu' : u = { c with genes := boxUpdateGo p.eta c.genes x } := by
      cases hcsr : p.csr <;> simp [hcsr, ellUpdate, rectUpdate, he] at hu
      · exact hu
      · exact hu
    rw [hu']
    exact ⟨rfl, i1, i2⟩
  · simp [ellUpdate, rectUpdate, not_lt.2 he]
  · simp [rectUpdate, hc]

/-- **C31**, updates, consequence: with a rate of at most one a rule that matched the input
still matches it after its condition was updated with it. -/
theorem C31_update_keeps_match (p : CondPar K) (he : p.eta ≤ 1) (c : Box K) (x : List K)
    (hl : c.genes.length = x.length) :
    (rectMatch p c x = true → rectMatch p (rectUpdate p c x) x = true) ∧
    (Proper c.genes → ellMatch c x = true → ellMatch (ellUpdate p c x) x = true) := by
  constructor
  · intro h
    unfold rectUpdate
    split
    · next hc =>
      rw [C28_match_meaning] at h ⊢
      intro i a v ha hv
      obtain ⟨i1, i2⟩ := boxUpdateGo_spec p.eta c.genes x hl
      have hi : i < c.genes.length := by rw [hl]; exact (List.getElem?_eq_some_iff.1 hv).1
      have hq : c.genes[i]? = some c.genes[i] := List.getElem?_eq_getElem hi
      have h1 := h i _ v hq hv
      have h2 := i2 i _ v hq hv
      rw [show (_ : Option (K × K)) = some a from ha] at h2
      rw [Option.some.inj h2]
      simp only [InInterval, hc.1, if_true] at h1 ⊢
      have e : v - (c.genes[i].1 + p.eta * (v - c.genes[i].1)) =
          (1 - p.eta) * (v - c.genes[i].1) := by ring
      rw [e, abs_mul, abs_of_nonneg (by linarith)]
      refine le_trans ?_ h1
      exact mul_le_of_le_one_left (abs_nonneg _) (by linarith [hc.2])
    · exact h
  · intro hp h
    unfold ellUpdate
    split
    · next hc =>
      have key : ∀ (cs : List (K × K)) (xs : List K), Proper cs →
          Proper (boxUpdateGo p.eta cs xs) ∧ ellForm (boxUpdateGo p.eta cs xs) xs ≤ ellForm cs xs := by
        intro cs
        induction cs with
        | nil => exact fun xs hp => ⟨by simpa [boxUpdateGo] using hp, by simp [boxUpdateGo]⟩
        | cons q cs ih =>
          intro xs hp
          cases xs with
          | nil => exact ⟨by simpa [boxUpdateGo] using hp, by simp [boxUpdateGo]⟩
          | cons v xs =>
            obtain ⟨j1, j2⟩ := ih xs (fun g hg => hp g (List.mem_cons_of_mem _ hg))
            refine ⟨?_, ?_⟩
            · intro g hg
              simp only [boxUpdateGo, List.mem_cons] at hg
              rcases hg with rfl | hg
              · exact hp q List.mem_cons_self
              · exact j1 g hg
            · simp only [boxUpdateGo, ellForm]
              have e : (v - (q.1 + p.eta * (v - q.1))) / q.2 = (1 - p.eta) * ((v - q.1) / q.2) := by
                ring
              rw [e, mul_pow]
              have : (1 - p.eta) ^ 2 * ((v - q.1) / q.2) ^ 2 ≤ ((v - q.1) / q.2) ^ 2 :=
                mul_le_of_le_one_left (sq_nonneg _) (by nlinarith)
              linarith
      obtain ⟨j1, j2⟩ := key c.genes x hp
      rw [ellMatch_iff hp] at h
      exact (ellMatch_iff (c := { c with genes := boxUpdateGo p.eta c.genes x }) j1 x).2
        (lt_of_le_of_lt j2 h)
    · exact h

/-! ## C32 -/

/-- The encoded input: the first `bits` binary digits of every element, in order; elements from
one upwards are all ones, from zero downwards all zeros. -/
def encodeBits (bits : Nat) (v : K) : List Char :=
  (List.range bits).map fun j => if 1 ≤ v then '1' else if v ≤ 0 then '0' else binaryDigit v j

theorem floatToBinary_eq {bits : Nat} (hb : bits ≤ 31) (v : K) :
    floatToBinary v bits = .ok (encodeBits bits v) := by
  obtain ⟨l, e, hl, h1, h2, h3⟩ := C45_binary v hb
  rw [e]
  congr 1
  unfold encodeBits
  apply List.ext_getElem?
  intro j
  by_cases hj : j < bits
  · rw [List.getElem?_map, List.getElem?_range hj]
    simp only [Option.map_some]
    by_cases c1 : 1 ≤ v
    · rw [if_pos c1, h1 c1, List.getElem?_replicate]; simp [hj]
    · rw [if_neg c1]
      by_cases c2 : v ≤ 0
      · rw [if_pos c2, h2 c2, List.getElem?_replicate]; simp [hj]
      · rw [if_neg c2, h3 (not_le.1 c2) (not_le.1 c1) j hj]
  · rw [List.getElem?_eq_none (by omega), List.getElem?_eq_none (by simp; omega)]

/-- The encoding of a whole input. -/
def encode (bits : Nat) (x : List K) : List Char := x.flatMap (encodeBits bits)

theorem encode_length (bits : Nat) : ∀ x : List K, (encode bits x).length = x.length * bits
  | [] => by simp [encode]
  | v :: x => by
    have := encode_length bits x
    simp only [encode, List.flatMap_cons, List.length_append, List.length_cons] at this ⊢
    rw [this]; simp [encodeBits]; ring

/-- A symbol of the condition admits a bit of the encoding. -/
def Admits (s b : Char) : Prop := s ≠ '#' → s = b

theorem ternMatchBits_spec : ∀ (bs s : List Char), bs.length ≤ s.length →
    (ternMatchBits bs s = .ok (some (s.drop bs.length)) ∧ AtEach Admits (s.take bs.length) bs) ∨
    (ternMatchBits bs s = .ok none ∧ ¬ AtEach Admits (s.take bs.length) bs)
  | [], s, _ => Or.inl ⟨rfl, by simpa using atEach_nil_right _⟩
  | b :: bs, [], h => by simp at h
  | b :: bs, c :: s, h => by
    unfold ternMatchBits
    simp only [List.length_cons, List.take_succ_cons, List.drop_succ_cons, atEach_cons]
    split
    · next hc => exact Or.inr ⟨rfl, fun hh => hc.2 (hh.1 hc.1)⟩
    · next hc =>
      have ha : Admits c b := by
        intro h1; by_contra h2; exact hc ⟨h1, h2⟩
      rcases ternMatchBits_spec bs s (by simpa using h) with ⟨h1, h2⟩ | ⟨h1, h2⟩
      · exact Or.inl ⟨h1, ha, h2⟩
      · exact Or.inr ⟨h1, fun hh => h2 hh.2⟩

theorem atEach_split {s : List Char} {b1 b2 : List Char} :
    AtEach Admits s (b1 ++ b2) ↔
      AtEach Admits (s.take b1.length) b1 ∧ AtEach Admits (s.drop b1.length) b2 := by
  constructor
  · intro hh
    refine ⟨fun i a b ha hb => ?_, fun i a b ha hb => ?_⟩
    · have hi : i < b1.length := (List.getElem?_eq_some_iff.1 hb).1
      rw [List.getElem?_take, if_pos hi] at ha
      exact hh i a b ha (by rw [List.getElem?_append_left hi]; exact hb)
    · rw [List.getElem?_drop] at ha
      exact hh (b1.length + i) a b ha (by
        rw [List.getElem?_append_right (by omega)]; simpa using hb)
  · rintro ⟨h1, h2⟩ i a b ha hb
    by_cases hi : i < b1.length
    · rw [List.getElem?_append_left hi] at hb
      exact h1 i a b (by rw [List.getElem?_take, if_pos hi]; exact ha) hb
    · rw [List.getElem?_append_right (by omega)] at hb
      exact h2 (i - b1.length) a b (by
        rw [List.getElem?_drop, show b1.length + (i - b1.length) = i by omega]; exact ha) hb

/-- **C32**, matching: with at most 31 bits per element the match returns, and returns true
exactly when every symbol that is not `#` equals the corresponding bit of the encoded input. -/
theorem C32_match (p : CondPar K) (hb : p.bits ≤ 31) (c : Tern K) (x : List K)
    (hl : c.string.length = x.length * p.bits) :
    ∃ m, ternMatch p c x = .ok m ∧ (m = true ↔ AtEach Admits c.string (encode p.bits x)) := by
  unfold ternMatch
  revert hl
  generalize c.string = s
  induction x generalizing s with
  | nil => exact fun _ => ⟨true, rfl, by simpa [encode] using atEach_nil_right _⟩
  | cons v x ih =>
    intro hl
    have hlen : (encodeBits p.bits v).length = p.bits := by simp [encodeBits]
    have hle : (encodeBits p.bits v).length ≤ s.length := by
      rw [hlen, hl]; simp only [List.length_cons]; nlinarith
    unfold ternMatchGo
    rw [floatToBinary_eq hb]
    simp only [encode, List.flatMap_cons]
    rw [atEach_split]
    rcases ternMatchBits_spec _ s hle with ⟨h1, h2⟩ | ⟨h1, h2⟩
    · obtain ⟨m, e, hm⟩ := ih (s.drop (encodeBits p.bits v).length) (by
        rw [List.length_drop, hl, hlen, List.length_cons]; rw [Nat.add_mul]; omega)
      refine ⟨m, ?_, hm.trans ⟨fun h => ⟨h2, h⟩, fun h => h.2⟩⟩
      show (ternMatchBits _ s >>= _) = _
      rw [h1]; exact e
    · refine ⟨false, ?_, ?_⟩
      · show (ternMatchBits _ s >>= _) = _
        rw [h1]; rfl
      · simp only [Bool.false_eq_true, false_iff]
        exact fun h => h2 h.1

/-- The alphabet. -/
def Ternary (s : List Char) : Prop := ∀ c ∈ s, c = '0' ∨ c = '1' ∨ c = '#'

theorem encode_binary (bits : Nat) (x : List K) : ∀ c ∈ encode bits x, c = '0' ∨ c = '1' := by
  intro c hc
  simp only [encode, List.mem_flatMap, encodeBits, List.mem_map, List.mem_range] at hc
  obtain ⟨v, _, j, _, rfl⟩ := hc
  unfold binaryDigit
  split_ifs <;> simp

theorem ternCoverBits_spec (g : Rng K R) (p : CondPar K) : ∀ (bs : List Char) (r : R),
    (ternCoverBits g p bs r).1.length = bs.length ∧
    AtEach Admits (ternCoverBits g p bs r).1 bs ∧
    ∀ c ∈ (ternCoverBits g p bs r).1, c = '#' ∨ c ∈ bs
  | [], r => ⟨rfl, atEach_nil_right _, by simp [ternCoverBits]⟩
  | b :: bs, r => by
    unfold ternCoverBits
    obtain ⟨i1, i2, i3⟩ := ternCoverBits_spec g p bs (g.uni 0 1 r).2
    refine ⟨by simp [i1], atEach_cons.2 ⟨?_, i2⟩, ?_⟩
    · intro h
      split at h
      · exact absurd rfl h
      · next hc => rw [if_neg hc]
    · intro c hc
      rcases List.mem_cons.1 hc with rfl | hc
      · split
        · exact Or.inl rfl
        · exact Or.inr List.mem_cons_self
      · exact (i3 c hc).imp id (List.mem_cons_of_mem _)

/-- **C32**, covering: the covered condition has one symbol per bit, uses the alphabet, and
matches the input. -/
theorem C32_cover (g : Rng K R) (p : CondPar K) (hb : p.bits ≤ 31) (c : Tern K) (x : List K) (r : R) :
    ∃ c' r', ternCover g p c x r = .ok (c', r') ∧ c'.string.length = x.length * p.bits ∧
      Ternary c'.string ∧ ternMatch p c' x = .ok true := by
  have key : ∀ (x : List K) (r : R), ∃ s r', ternCoverGo g p x r = .ok (s, r') ∧
      s.length = x.length * p.bits ∧ AtEach Admits s (encode p.bits x) ∧
      ∀ c ∈ s, c = '#' ∨ c ∈ encode p.bits x := by
    intro x
    induction x with
    | nil => exact fun r => ⟨[], r, rfl, by simp, atEach_nil_left _, by simp⟩
    | cons v x ih =>
      intro r
      obtain ⟨i1, i2, i3⟩ := ternCoverBits_spec g p (encodeBits p.bits v) r
      obtain ⟨s, r', e, j1, j2, j3⟩ := ih (ternCoverBits g p (encodeBits p.bits v) r).2
      have hlen : (encodeBits p.bits v).length = p.bits := by simp [encodeBits]
      refine ⟨(ternCoverBits g p (encodeBits p.bits v) r).1 ++ s, r', ?_, ?_, ?_, ?_⟩
      · unfold ternCoverGo
        rw [floatToBinary_eq hb]
        show (ternCoverGo g p x _ >>= _) = _
        rw [e]; rfl
      · rw [List.length_append, i1, hlen, j1, List.length_cons]; ring
      · simp only [encode, List.flatMap_cons]
        rw [atEach_split, ← i1, List.take_left,
          List.drop_left]
        exact ⟨i2, j2⟩
      · intro c hc
        simp only [encode, List.flatMap_cons, List.mem_append]
        rcases List.mem_append.1 hc with hc | hc
        · exact (i3 c hc).imp id Or.inl
        · exact (j3 c hc).imp id Or.inr
  obtain ⟨s, r', e, h1, h2, h3⟩ := key x r
  have e' : ternCover g p c x r = .ok (⟨s, c.mu⟩, r') := by
    unfold ternCover; rw [e]; rfl
  refine ⟨_, _, e', h1, ?_, ?_⟩
  · intro ch hc
    rcases h3 ch hc with h | h
    · exact Or.inr (Or.inr h)
    · rcases encode_binary _ _ ch h with h | h
      · exact Or.inl h
      · exact Or.inr (Or.inl h)
  · obtain ⟨m, em, hm⟩ := C32_match p hb ⟨s, c.mu⟩ x h1
    rw [em, hm.2 h2]

theorem ternGeneralGo_spec : ∀ (as bs : List Char) (ge : Bool), as.length = bs.length →
    (ternGeneralGo as bs ge = true ↔ AtEach Admits as bs ∧ (ge = true ∨ as ≠ bs))
  | [], [], ge, _ => by simp [ternGeneralGo, atEach_nil_left]
  | a :: as, b :: bs, ge, hl => by
    unfold ternGeneralGo
    rw [atEach_cons]
    split
    · next h =>
      simp only [Bool.false_eq_true, false_iff]
      rintro ⟨⟨h1, _⟩, _⟩
      exact h.2 (h1 h.1)
    · next h =>
      have ha : Admits a b := by intro h1; by_contra h2; exact h ⟨h1, h2⟩
      rw [ternGeneralGo_spec as bs _ (by simpa using hl)]
      by_cases hab : a = b
      · rw [if_neg (not_not.2 hab), hab]; simp [Admits]
      · rw [if_pos hab]; simp [ha, hab]

/-- **C32**, generality is exactly: every specified symbol agrees, and the two differ. -/
theorem C32_general_meaning (c d : Tern K) (hl : c.string.length = d.string.length) :
    ternGeneral c d = true ↔ AtEach Admits c.string d.string ∧ c.string ≠ d.string := by
  unfold ternGeneral
  rw [ternGeneralGo_spec _ _ _ hl]; simp

/-- **C32**, generality implies matching a superset, and no condition is more general than
itself. -/
theorem C32_general_covers (p : CondPar K) (hb : p.bits ≤ 31) (c d : Tern K) (x : List K)
    (hc : c.string.length = x.length * p.bits) (hd : d.string.length = x.length * p.bits)
    (h : ternGeneral c d = true) (hm : ternMatch p d x = .ok true) :
    ternMatch p c x = .ok true ∧ c ≠ d := by
  obtain ⟨h1, h2⟩ := (C32_general_meaning c d (hc.trans hd.symm)).1 h
  refine ⟨?_, fun e => h2 (by rw [e])⟩
  obtain ⟨m, em, hm'⟩ := C32_match p hb d x hd
  have h3 : AtEach Admits d.string (encode p.bits x) := hm'.1 (by
    rw [em] at hm; exact Except.ok.inj hm)
  obtain ⟨m2, em2, hm2⟩ := C32_match p hb c x hc
  rw [em2, hm2.2]
  intro i a b ha hb' hne
  have hi : i < d.string.length := by
    rw [hd, ← hc]; exact (List.getElem?_eq_some_iff.1 ha).1
  have hdi : d.string[i]? = some d.string[i] := List.getElem?_eq_getElem hi
  have e1 := h1 i a _ ha hdi hne
  rw [e1] at hne ⊢
  exact h3 i _ b hdi hb' hne

theorem C32_general_irreflexive (c : Tern K) : ternGeneral c c = false := by
  by_contra h
  have := (C32_general_meaning c c rfl).1 (by simpa using h)
  exact this.2 rfl

/-- One symbol after mutation: kept, made general, or a general one made specific. -/
def TernStep (a b : Char) : Prop := b = a ∨ (a ≠ '#' ∧ b = '#') ∨ (a = '#' ∧ (b = '0' ∨ b = '1'))

theorem ternMutateGo_spec (g : Rng K R) (mu : K) : ∀ (s : List Char) (ch : Bool) (r : R),
    (ternMutateGo g mu s ch r).1.length = s.length ∧
    AtEach TernStep s (ternMutateGo g mu s ch r).1 ∧
    ((ternMutateGo g mu s ch r).2.1 = true ↔ ch = true ∨ (ternMutateGo g mu s ch r).1 ≠ s)
  | [], ch, r => ⟨rfl, atEach_nil_left _, by simp [ternMutateGo]⟩
  | c :: s, ch, r => by
    unfold ternMutateGo
    simp only
    split
    · split
      · next hc =>
        obtain ⟨i1, i2, i3⟩ := ternMutateGo_spec g mu s true (g.uni 0 1 (g.uni 0 1 r).2).2
        have hne : ('#' : Char) ≠ (if (g.uni 0 1 (g.uni 0 1 r).2).1 < 1 / 2 then '0' else '1') := by
          split <;> decide
        refine ⟨by simp [i1], atEach_cons.2 ⟨Or.inr (Or.inr ⟨hc, ?_⟩), i2⟩, ?_⟩
        · split
          · exact Or.inl rfl
          · exact Or.inr rfl
        · rw [i3]
          simp only [true_or, true_iff]
          right
          intro h
          rw [hc] at h
          exact hne (List.cons.inj h).1.symm
      · next hc =>
        obtain ⟨i1, i2, i3⟩ := ternMutateGo_spec g mu s true (g.uni 0 1 r).2
        refine ⟨by simp [i1], atEach_cons.2 ⟨Or.inr (Or.inl ⟨hc, rfl⟩), i2⟩, ?_⟩
        rw [i3]
        simp only [true_or, true_iff]
        right
        intro h
        exact hc (List.cons.inj h).1.symm
    · obtain ⟨i1, i2, i3⟩ := ternMutateGo_spec g mu s ch (g.uni 0 1 r).2
      refine ⟨by simp [i1], atEach_cons.2 ⟨Or.inl rfl, i2⟩, ?_⟩
      rw [i3]; simp

/-- **C32**, mutation: keeps length and alphabet, changes a symbol only from a bit to `#` or
from `#` to a bit, and reports a change exactly when the string changed. -/
theorem C32_mutate (g : Rng K R) (c : Tern K) (r : R) :
    ∃ c' ch r', ternMutate g c r = .ok (c', ch, r') ∧ LegalRate c'.mu ∧
      c'.string.length = c.string.length ∧ AtEach TernStep c.string c'.string ∧
      (Ternary c.string → Ternary c'.string) ∧ (ch = true ↔ c'.string ≠ c.string) := by
  have hmu : LegalRate (clampK (c.mu * g.exp (g.normal 0 1 r).1) muEps 1) :=
    clampK_mem _ (by norm_num [muEps])
  obtain ⟨i1, i2, i3⟩ := ternMutateGo_spec g
    (clampK (c.mu * g.exp (g.normal 0 1 r).1) muEps 1) c.string false (g.normal 0 1 r).2
  refine ⟨_, _, _, rfl, hmu, i1, i2, fun ht b hb => ?_, by simpa using i3⟩
  obtain ⟨i, hi, rfl⟩ := List.getElem_of_mem hb
  have hi' : i < c.string.length := by rw [← i1]; exact hi
  have := i2 i _ _ (List.getElem?_eq_getElem hi') (List.getElem?_eq_getElem hi)
  rcases this with h | h | h
  · exact h ▸ ht _ (List.getElem_mem hi')
  · exact Or.inr (Or.inr h.2)
  · exact h.2.elim Or.inl (fun h => Or.inr (Or.inl h))

theorem ternCrossGo_spec (g : Rng K R) : ∀ (as bs : List Char) (ch : Bool) (r : R),
    as.length = bs.length →
    (ternCrossGo g as bs ch r).1.length = as.length ∧
    (ternCrossGo g as bs ch r).2.1.length = bs.length ∧
    (∀ (i : Nat) a b, as[i]? = some a → bs[i]? = some b →
      ∃ a' b', (ternCrossGo g as bs ch r).1[i]? = some a' ∧
        (ternCrossGo g as bs ch r).2.1[i]? = some b' ∧ Swapped a b a' b') ∧
    ((ternCrossGo g as bs ch r).2.2.1 = false →
      ch = false ∧ (ternCrossGo g as bs ch r).1 = as ∧ (ternCrossGo g as bs ch r).2.1 = bs)
  | [], [], ch, r, _ => ⟨rfl, rfl, by simp, fun h => ⟨h, rfl, rfl⟩⟩
  | a :: as, b :: bs, ch, r, hl => by
    unfold ternCrossGo
    simp only
    set s1 := decide ((g.uni 0 1 r).1 < 1 / 2)
    obtain ⟨i1, i2, i3, i4⟩ := ternCrossGo_spec g as bs (ch || s1)
      (g.uni 0 1 r).2 (by simpa using hl)
    refine ⟨by simp [i1], by simp [i2], ?_, ?_⟩
    · intro i x y hx hy
      cases i with
      | zero =>
        simp at hx hy
        subst hx hy
        refine ⟨_, _, rfl, rfl, ?_⟩
        cases s1
        · exact Or.inl ⟨rfl, rfl⟩
        · exact Or.inr ⟨rfl, rfl⟩
      | succ i => exact i3 i x y (by simpa using hx) (by simpa using hy)
    · intro h
      obtain ⟨h1, h2, h3⟩ := i4 h
      rw [Bool.or_eq_false_iff] at h1
      rw [h2, h3, h1.2]
      exact ⟨h1.1, rfl, rfl⟩

/-- **C32**, crossover: symbols are kept or exchanged between the same positions, so length and
alphabet are kept; when no change is reported nothing changed. -/
theorem C32_crossover (g : Rng K R) (p : CondPar K) (c d : Tern K) (r : R)
    (hl : c.string.length = d.string.length) :
    let o := ternCross g p c d r
    o.1.string.length = c.string.length ∧ o.2.1.string.length = d.string.length ∧
    (∀ (i : Nat) a b, c.string[i]? = some a → d.string[i]? = some b →
      ∃ a' b', o.1.string[i]? = some a' ∧ o.2.1.string[i]? = some b' ∧ Swapped a b a' b') ∧
    (Ternary c.string → Ternary d.string → Ternary o.1.string ∧ Ternary o.2.1.string) ∧
    (o.2.2.1 = false → o.1 = c ∧ o.2.1 = d) := by
  have key : ∀ s t : List Char, s.length = c.string.length → t.length = d.string.length →
      (∀ (i : Nat) a b, c.string[i]? = some a → d.string[i]? = some b →
        ∃ a' b', s[i]? = some a' ∧ t[i]? = some b' ∧ Swapped a b a' b') →
      Ternary c.string → Ternary d.string → Ternary s ∧ Ternary t := by
    intro s t h1 h2 h3 tc td
    constructor <;>
    · intro q hq
      obtain ⟨i, hi, rfl⟩ := List.getElem_of_mem hq
      have hic : i < c.string.length := by omega
      have hid : i < d.string.length := by omega
      obtain ⟨a', b', e1, e2, h⟩ := h3 i _ _ (List.getElem?_eq_getElem hic)
        (List.getElem?_eq_getElem hid)
      first
      | rw [List.getElem?_eq_getElem hi] at e1
        rw [Option.some.inj e1]
        rcases h with h | h
        · rw [h.1]; exact tc _ (List.getElem_mem _)
        · rw [h.1]; exact td _ (List.getElem_mem _)
      | rw [List.getElem?_eq_getElem hi] at e2
        rw [Option.some.inj e2]
        rcases h with h | h
        · rw [h.2]; exact td _ (List.getElem_mem _)
        · rw [h.2]; exact tc _ (List.getElem_mem _)
  unfold ternCross
  simp only
  split
  · obtain ⟨i1, i2, i3, i4⟩ := ternCrossGo_spec g c.string d.string false (g.uni 0 1 r).2 hl
    refine ⟨i1, i2, i3, key _ _ i1 i2 i3, fun h => ?_⟩
    obtain ⟨_, h2, h3⟩ := i4 h
    exact ⟨by simp only [h2], by simp only [h3]⟩
  · exact ⟨rfl, rfl, fun i a b ha hb => ⟨a, b, ha, hb, Or.inl ⟨rfl, rfl⟩⟩, fun h1 h2 => ⟨h1, h2⟩,
      fun _ => ⟨rfl, rfl⟩⟩

theorem ternRand_spec (g : Rng K R) (p : CondPar K) : ∀ (n : Nat) (r : R),
    (ternRand g p n r).1.length = n ∧ Ternary (ternRand g p n r).1
  | 0, r => ⟨rfl, by simp [ternRand, Ternary]⟩
  | n + 1, r => by
    unfold ternRand
    simp only
    split
    · obtain ⟨i1, i2⟩ := ternRand_spec g p n (g.uni 0 1 r).2
      refine ⟨by simp [i1], fun c hc => ?_⟩
      rcases List.mem_cons.1 hc with rfl | hc
      · exact Or.inr (Or.inr rfl)
      · exact i2 c hc
    · obtain ⟨i1, i2⟩ := ternRand_spec g p n (g.uni 0 1 (g.uni 0 1 r).2).2
      refine ⟨by simp [i1], fun c hc => ?_⟩
      rcases List.mem_cons.1 hc with rfl | hc
      · split
        · exact Or.inl rfl
        · exact Or.inr (Or.inl rfl)
      · exact i2 c hc

/-- **C32**, initialisation: one symbol of the alphabet per bit of the input. -/
theorem C32_init (g : Rng K R) (p : CondPar K) (xDim : Nat) (r : R) :
    ∃ c r', ternInit g p xDim r = .ok (c, r') ∧ c.string.length = xDim * p.bits ∧
      Ternary c.string := by
  obtain ⟨h1, h2⟩ := ternRand_spec g p (xDim * p.bits) (g.uni muEps 1 r).2
  exact ⟨_, _, rfl, h1, h2⟩

end

/-! ## Concrete cases -/

section
/-- Parameters with the documented defaults (`min = 0`, `max = 1`, `spread_min = 0.1`). -/
def demoCond (csr : Bool) : CondPar ℚ := ⟨csr, 0, 1, 1 / 10, 1 / 2, 1 / 2, 2, 4 / 5⟩

example : rectMatch (demoCond true) (rectCover demoRng (demoCond true) ⟨[], 1⟩ [1 / 3, 1 / 7] 0).1
    [1 / 3, 1 / 7] = true :=
  (C28_cover_matches demoRng_open (demoCond true) (by norm_num [demoCond]) _ _ _).1

-- a smaller rectangle is covered by a larger one, and the test tells them apart
example : rectGeneral (demoCond true) ⟨[(0, 1)], 1⟩ (⟨[(1 / 2, 1 / 4)], 1⟩ : Box ℚ) = true ∧
    rectGeneral (demoCond true) ⟨[(1 / 2, 1 / 4)], 1⟩ (⟨[(0, 1)], 1⟩ : Box ℚ) = false ∧
    rectMatch (demoCond true) (⟨[(1 / 2, 1 / 4)], 1⟩ : Box ℚ) [1 / 2] = true := by decide +kernel

-- ellipsoids with the same centre
example : ellGeneral ⟨[(0, 1), (1, 2)], 1⟩ (⟨[(0, 1 / 2), (1, 1)], 1⟩ : Box ℚ) = true ∧
    ellMatch (⟨[(0, 1 / 2), (1, 1)], 1⟩ : Box ℚ) [1 / 4, 1] = true := by decide +kernel

-- a change is reported, and is one
example : ∃ c' r', boxMutate demoRng (demoCond true) true ⟨[(1 / 2, 1 / 4)], 1 / 2⟩ 0 =
    .ok (c', true, r') ∧ c'.genes ≠ [(1 / 2, 1 / 4)] := by
  obtain ⟨c', ch, r', e, _, _, _, h⟩ := C31_mutate demoRng (demoCond true)
    (by norm_num [demoCond]) true ⟨[(1 / 2, 1 / 4)], 1 / 2⟩ 0
  have : ch = true := by
    have h2 : (match boxMutate demoRng (demoCond true) true ⟨[(1 / 2, 1 / 4)], 1 / 2⟩ 0 with
      | .ok o => o.2.1
      | .error _ => false) = true := by decide +kernel
    rw [e] at h2
    exact h2
  subst this
  exact ⟨c', r', e, h.1 rfl⟩

-- 1/4 is 01 and 3/4 is 11 with two bits
example : ternMatch (demoCond true) ⟨['0', '#', '1', '1'], 1⟩ [1 / 4, 3 / 4] = .ok true ∧
    ternMatch (demoCond true) ⟨['0', '#', '0', '1'], 1⟩ [1 / 4, 3 / 4] = .ok false ∧
    ternGeneral (⟨['0', '#', '1', '#'], (1 : ℚ)⟩) ⟨['0', '#', '1', '1'], 1⟩ = true := by
  decide +kernel
end

end Xcsf
