import Verif.BadNeural
import Verif.PropsBadSample

/-!
# C110, continued: networks

What samples that are not a number or infinite do to a network that learns by gradient descent, whose
weights are kept within limits after every sample.
-/

set_option linter.unusedSectionVars false

namespace Xcsf.Double

variable {f : Format}

/-! ## Specification -/

/-- A number, neither infinite nor not-a-number. -/
def Dbl.IsNum : Dbl f → Prop
  | .fin _ _ => True
  | _ => False

/-- Bias, weights and updates are numbers. -/
structure DNeuron.IsNum (n : DNeuron f) : Prop where
  bias : n.bias.IsNum
  bupd : n.bupd.IsNum
  w : ∀ p ∈ n.ws, p.w.IsNum
  upd : ∀ p ∈ n.ws, p.upd.IsNum

/-! ## Limits -/

/-- The limits hold whatever is limited, infinity included, unless it is not a number, which passes. -/
theorem C110_limits (a : Dbl f) : (a ≠ .nan → (limitD a).IsNum ∧ ¬ limitD a < (((-10 : Int)) : Dbl f) ∧
    ¬ ((10 : Int) : Dbl f) < limitD a) ∧ limitD (.nan : Dbl f) = .nan := by
  have e1 : (((-10 : Int)) : Dbl f) = .fin (((toInt32 (-10) : Int)) : ℚ) (f.rep_int _ (by decide)) := rfl
  have e2 : (((10 : Int)) : Dbl f) = .fin (((toInt32 10 : Int)) : ℚ) (f.rep_int _ (by decide)) := rfl
  have t1 : (toInt32 (-10) : Int) = -10 := by decide
  have t2 : (toInt32 10 : Int) = 10 := by decide
  constructor
  · intro h
    unfold limitD clampD
    rw [e1, e2]
    rcases a with _ | s | ⟨q, hq⟩
    · exact absurd rfl h
    · cases s with
      | true =>
        rw [if_pos (show (.inf true : Dbl f) < .fin _ _ from rfl)]
        refine ⟨trivial, lt_irrefl (_ : ℚ), ?_⟩
        show ¬ ((toInt32 10 : Int) : ℚ) < ((toInt32 (-10) : Int) : ℚ)
        rw [t1, t2]
        norm_num
      | false =>
        rw [if_neg (show ¬ (.inf false : Dbl f) < .fin _ _ from nofun),
          if_pos (show (.fin _ _ : Dbl f) < .inf false from rfl)]
        refine ⟨trivial, ?_, lt_irrefl (_ : ℚ)⟩
        show ¬ ((toInt32 10 : Int) : ℚ) < ((toInt32 (-10) : Int) : ℚ)
        rw [t1, t2]
        norm_num
    · split
      · refine ⟨trivial, lt_irrefl (_ : ℚ), ?_⟩
        show ¬ ((toInt32 10 : Int) : ℚ) < ((toInt32 (-10) : Int) : ℚ)
        rw [t1, t2]
        norm_num
      · next h1 =>
        split
        · refine ⟨trivial, ?_, lt_irrefl (_ : ℚ)⟩
          show ¬ ((toInt32 10 : Int) : ℚ) < ((toInt32 (-10) : Int) : ℚ)
          rw [t1, t2]
          norm_num
        · next h2 => exact ⟨trivial, h1, h2⟩
  · rfl

theorem clampD_nan (lo hi : Dbl f) : clampD .nan lo hi = .nan := by
  unfold clampD
  rw [if_neg (show ¬ (.nan : Dbl f) < lo from id), if_neg (show ¬ hi < (.nan : Dbl f) from by
    cases hi <;> exact id)]

/-! ## Lost for ever -/

theorem bias_lost (c : DLearn f) {n : DNeuron f} (h : n.bias = .nan) (x : List (Dbl f)) (y : Dbl f) :
    (n.learn c x y).bias = .nan := by
  unfold DNeuron.learn
  split
  · show limitD (n.bias + _) = .nan
    rw [h, nan_add]
    exact clampD_nan _ _
  · exact h

theorem train_lost (c : DLearn f) : ∀ (later : List (List (Dbl f) × Dbl f)) {n : DNeuron f},
    n.bias = .nan → (n.train c later).bias = .nan
  | [], _, h => h
  | p :: later, _, h => train_lost c later (bias_lost c h p.1 p.2)

/-- **C110** (refuted), networks: a single target that is not a number loses the bias and all active
weights in spite of their limits, and whatever samples follow, the output is not a number for any
input. -/
theorem C110_network_lost (c : DLearn f) (ha : c.act .nan = .nan) (he : 0 < c.eta) (n : DNeuron f)
    (x : List (Dbl f)) (later : List (List (Dbl f) × Dbl f)) :
    (∀ p ∈ (n.learn c x .nan).ws, p.on = true → p.w = .nan) ∧
    ∀ x', ((n.learn c x .nan).train c later).output c x' = .nan := by
  have hd : n.delta c x .nan = .nan := by
    unfold DNeuron.delta
    rw [nan_sub, nan_mul]
  have e : n.learn c x .nan =
      { bias := limitD (n.bias + c.eta * (n.bupd + .nan))
        bupd := scalD c.momentum (n.bupd + .nan)
        ws := List.zipWith (fun p x => p.learn c .nan x) n.ws x } := by
    unfold DNeuron.learn
    rw [if_pos he, hd]
  constructor
  · rw [e]
    intro p hp ho
    obtain ⟨i, hi, rfl⟩ := List.getElem_of_mem hp
    rw [List.getElem_zipWith] at ho ⊢
    have ho : (n.ws[i]'(by simp at hi; omega)).on = true := ho
    show (if (n.ws[i]'(by simp at hi; omega)).on then
      limitD (_ + c.eta * DWt.gather c .nan _ _) else 0) = _
    rw [if_pos ho]
    have hg : ∀ (p : DWt f) (x : Dbl f), p.gather c .nan x = .nan := by
      intro p x
      unfold DWt.gather
      simp only [nan_mul, add_nan, nan_add, ite_self]
    rw [hg, mul_nan, add_nan]
    exact clampD_nan _ _
  · intro x'
    have hb : ((n.learn c x .nan).train c later).bias = .nan := by
      apply train_lost
      rw [e]
      show limitD (n.bias + c.eta * (n.bupd + .nan)) = .nan
      rw [add_nan, mul_nan, add_nan]
      exact clampD_nan _ _
    unfold DNeuron.output DNeuron.state
    rw [hb, nan_add, clampD_nan, ha]

/-! ## Stuck for ever -/

theorem pos_mul_inf {m : ℚ} (hm : f.rep m) (h : 0 < m) : (.fin m hm : Dbl f) * .inf false = .inf false := by
  show Dbl.scaled false m = _
  unfold Dbl.scaled
  rw [if_neg (ne_of_gt h)]
  congr 1
  simp [Dbl.sign, h.le]

theorem inf_mul_pos {m : ℚ} (hm : f.rep m) (h : 0 < m) : .inf false * (.fin m hm : Dbl f) = .inf false := by
  show Dbl.scaled false m = _
  unfold Dbl.scaled
  rw [if_neg (ne_of_gt h)]
  congr 1
  simp [Dbl.sign, h.le]

theorem limitD_inf : limitD (.inf false : Dbl f) = ((10 : Int) : Dbl f) := rfl

theorem scal_pos {m : ℚ} (hm : f.rep m) (h : 0 < m) (a : Dbl f) :
    scalD (.fin m hm) a = a * .fin m hm := by
  unfold scalD
  rw [if_neg]
  intro e
  rw [zero_def] at e
  cases e
  exact lt_irrefl _ h

/-- At the upper limit with an infinite update pending, or lost. -/
def Stuck (n : DNeuron f) : Prop :=
  (n.bias = ((10 : Int) : Dbl f) ∧ n.bupd = .inf false) ∨ n.bias = .nan

theorem stuck_learn {c : DLearn f} {e m : ℚ} {he : f.rep e} {hm : f.rep m} (h1 : c.eta = .fin e he)
    (e0 : 0 < e) (h2 : c.momentum = .fin m hm) (m0 : 0 < m) {n : DNeuron f}
    {b : ℚ} {hb : f.rep b} (hn : n.bias = .fin b hb) {x : List (Dbl f)} {y : Dbl f}
    (hu : n.bupd + n.delta c x y = .inf false ∨ n.bupd + n.delta c x y = .nan) :
    Stuck (n.learn c x y) := by
  have hp : 0 < c.eta := by rw [h1]; exact e0
  unfold DNeuron.learn
  rw [if_pos hp]
  rcases hu with h | h
  · left
    constructor
    · show limitD (n.bias + c.eta * (n.bupd + n.delta c x y)) = _
      rw [h, h1, pos_mul_inf he e0, hn]
      exact limitD_inf
    · show scalD c.momentum (n.bupd + n.delta c x y) = _
      rw [h, h2, scal_pos hm m0, inf_mul_pos hm m0]
  · right
    show limitD (n.bias + c.eta * (n.bupd + n.delta c x y)) = _
    rw [h, mul_nan, add_nan]
    exact clampD_nan _ _

theorem stuck_train {c : DLearn f} {e m : ℚ} {he : f.rep e} {hm : f.rep m} (h1 : c.eta = .fin e he)
    (e0 : 0 < e) (h2 : c.momentum = .fin m hm) (m0 : 0 < m) :
    ∀ (later : List (List (Dbl f) × Dbl f)) {n : DNeuron f}, Stuck n → Stuck (n.train c later)
  | [], _, h => h
  | p :: later, n, h => by
    refine stuck_train h1 e0 h2 m0 later ?_
    rcases h with ⟨h3, h4⟩ | h
    · refine stuck_learn h1 e0 h2 m0 (hn := h3) ?_
      rw [h4]
      cases n.delta c p.1 p.2 with
      | nan => exact .inr rfl
      | inf s => cases s <;> [exact .inl rfl; exact .inr rfl]
      | fin q h => exact .inl rfl
    · exact .inr (bias_lost c h _ _)

/-- **C110** (refuted), networks with momentum: after one sample with an infinite error the bias is at its
limit and stays there, or is lost, whatever samples follow: an infinite update never fades. -/
theorem C110_network_stuck {c : DLearn f} {e m : ℚ} {he : f.rep e} {hm : f.rep m}
    (h1 : c.eta = .fin e he) (e0 : 0 < e) (h2 : c.momentum = .fin m hm) (m0 : 0 < m) {n : DNeuron f}
    (hn : n.IsNum) {x : List (Dbl f)} {y : Dbl f} (hd : n.delta c x y = .inf false)
    (later : List (List (Dbl f) × Dbl f)) :
    let b := ((n.learn c x y).train c later).bias
    b = ((10 : Int) : Dbl f) ∨ b = .nan := by
  have h3 := hn.bias
  have h4 := hn.bupd
  have hs : Stuck (n.learn c x y) := by
    cases hb : n.bias with
    | nan => rw [hb] at h3; exact h3.elim
    | inf _ => rw [hb] at h3; exact h3.elim
    | fin b hb' =>
      refine stuck_learn h1 e0 h2 m0 (hn := hb) (.inl ?_)
      rw [hd]
      cases hu : n.bupd with
      | nan => rw [hu] at h4; exact h4.elim
      | inf _ => rw [hu] at h4; exact h4.elim
      | fin u hu' => rfl
  rcases stuck_train h1 e0 h2 m0 later hs with h | h
  · exact .inl h.1
  · exact .inr h

/-- **C110** (refuted), networks and the input zero: an infinite error loses the weight of an input that
was zero, with or without momentum. -/
theorem C110_network_zero_refuted (c : DLearn f) {p : DWt f} (ho : p.on = true) {d : Dbl f}
    (hd : d = .inf false ∨ d = .inf true) : (p.learn c d 0).w = .nan := by
  have hz : d * 0 = .nan := by
    rcases hd with rfl | rfl
    · show Dbl.scaled false 0 = .nan
      simp [Dbl.scaled]
    · show Dbl.scaled true 0 = .nan
      simp [Dbl.scaled]
  have hg : p.gather c d 0 = .nan := by
    unfold DWt.gather
    simp only [hz, add_nan, nan_add, ite_self]
  show (if p.on then limitD (p.w + c.eta * p.gather c d 0) else 0) = .nan
  rw [if_pos ho, hg, mul_nan, add_nan]
  exact clampD_nan _ _

/-! ## What is survived -/

theorem num_add {a b : Dbl f} (ha : a.IsNum) (hb : b ≠ .nan) : a + b ≠ .nan := by
  cases a with
  | nan => exact ha.elim
  | inf _ => exact ha.elim
  | fin p hp =>
    cases b with
    | nan => exact absurd rfl hb
    | inf s => nofun
    | fin q hq =>
      show Dbl.round f (p + q) ≠ .nan
      unfold Dbl.round
      split <;> nofun

theorem num_mul {p : ℚ} {hp : f.rep p} (h0 : p ≠ 0) {b : Dbl f} (hb : b ≠ .nan) :
    (.fin p hp : Dbl f) * b ≠ .nan ∧ b * (.fin p hp : Dbl f) ≠ .nan := by
  cases b with
  | nan => exact absurd rfl hb
  | inf s =>
    have : (Dbl.scaled s p : Dbl f) ≠ .nan := by
      unfold Dbl.scaled
      rw [if_neg h0]
      nofun
    exact ⟨this, this⟩
  | fin q hq =>
    have : ∀ v : ℚ, Dbl.round f v ≠ .nan := by
      intro v
      unfold Dbl.round
      split <;> nofun
    exact ⟨this _, this _⟩

/-- **C110**, what is survived: a network without momentum and decay whose inputs are numbers other than
zero gets over every sample whose error is a number or infinite: weights and updates are numbers again. -/
theorem C110_network_survives_partial {c : DLearn f} {e : ℚ} {he : f.rep e} (h1 : c.eta = .fin e he)
    (e0 : 0 < e) (h2 : c.momentum = 0) (h3 : ¬ 0 < c.decay) {n : DNeuron f} (hn : n.IsNum)
    {x : List (Dbl f)} (hx : ∀ v ∈ x, ∃ q h, v = .fin q h ∧ q ≠ 0) {y : Dbl f}
    (hd : n.delta c x y ≠ .nan) : (n.learn c x y).IsNum := by
  have hp : 0 < c.eta := by rw [h1]; exact e0
  have hs : ∀ a : Dbl f, (scalD c.momentum a).IsNum := by
    intro a
    unfold scalD
    rw [if_pos h2, zero_def]
    trivial
  have hl : ∀ w u : Dbl f, w.IsNum → u ≠ .nan → (limitD (w + c.eta * u)).IsNum := by
    intro w u hw hu
    refine ((C110_limits _).1 (num_add hw ?_)).1
    rw [h1]
    exact (num_mul e0.ne' hu).1
  have hw : ∀ p ∈ n.ws, ∀ v ∈ x, (p.learn c (n.delta c x y) v).w.IsNum ∧
      (p.learn c (n.delta c x y) v).upd.IsNum := by
    intro p hp v hv
    obtain ⟨q, h, rfl, q0⟩ := hx v hv
    refine ⟨?_, hs _⟩
    show (if p.on then limitD (p.w + c.eta * p.gather c _ _) else 0).IsNum
    split
    · refine hl _ _ (hn.w p hp) ?_
      unfold DWt.gather
      simp only
      rw [if_neg h3]
      exact num_add (hn.upd p hp) (num_mul q0 hd).2
    · trivial
  unfold DNeuron.learn
  rw [if_pos hp]
  refine ⟨hl _ _ hn.bias (num_add hn.bupd hd), hs _, ?_, ?_⟩
  · intro p hp
    obtain ⟨i, hi, rfl⟩ := List.getElem_of_mem hp
    rw [List.getElem_zipWith]
    exact (hw _ (List.getElem_mem _) _ (List.getElem_mem _)).1
  · intro p hp
    obtain ⟨i, hi, rfl⟩ := List.getElem_of_mem hp
    rw [List.getElem_zipWith]
    exact (hw _ (List.getElem_mem _) _ (List.getElem_mem _)).2

/-! ## Concrete cases -/

/-- A linear neuron. -/
def linear (f : Format) (momentum : Dbl f) : DLearn f :=
  { eta := half f, momentum := momentum, decay := 0, act := id, grad := fun _ => 1 }

/-- One connection. -/
def fresh (f : Format) : DNeuron f := ⟨0, 0, [⟨1, 0, true⟩]⟩

theorem fresh_num (f : Format) : (fresh f).IsNum :=
  ⟨trivial, trivial, by simp [fresh, Dbl.IsNum, one_def], by simp [fresh, Dbl.IsNum, zero_def]⟩

example (x : List (Dbl binary64)) :
    (((fresh binary64).learn (linear binary64 0) [1] .nan).train (linear binary64 0)
      [([1], 1), ([0], 1)]).output (linear binary64 0) x = .nan :=
  (C110_network_lost (linear binary64 0) rfl (show (0 : ℚ) < 1 / 2 by norm_num) (fresh binary64) [1] _).2 x

example (later : List (List (Dbl wide) × Dbl wide)) :
    let b := (((fresh wide).learn (linear wide (half wide)) [1] (.inf false)).train
      (linear wide (half wide)) later).bias
    b = ((10 : Int) : Dbl wide) ∨ b = .nan :=
  C110_network_stuck rfl (by norm_num) rfl (by norm_num) (fresh_num wide) (by decide +kernel) later

example : ((fresh wide).learn (linear wide 0) [1] (.inf false)).IsNum :=
  C110_network_survives_partial (c := linear wide 0) rfl (by norm_num) rfl (lt_irrefl (0 : ℚ)) (fresh_num wide)
    (by
      intro v hv
      rw [List.mem_singleton] at hv
      subst hv
      exact ⟨1, _, rfl, one_ne_zero⟩) (by decide +kernel)

example : ((⟨1, 0, true⟩ : DWt wide).learn (linear wide 0) (.inf true) 0).w = .nan :=
  C110_network_zero_refuted _ rfl (.inr rfl)

example : ((fresh wide).learn (linear wide (half wide)) [1] (.inf false)).bias = ((10 : Int) : Dbl wide) := by
  decide +kernel

example : (((fresh wide).learn (linear wide (half wide)) [1] (.inf false)).train (linear wide (half wide))
    [([1], 0), ([1], 0), ([1], 0)]).bias = ((10 : Int) : Dbl wide) := by decide +kernel

/-- Without momentum the weights come back from their limit. -/
example : (((fresh wide).learn (linear wide 0) [1] (.inf false)).train (linear wide 0)
    [([1], 0), ([1], 0), ([1], 0)]).bias ≠ ((10 : Int) : Dbl wide) := by decide +kernel

end Xcsf.Double
