import Verif.Pred
import Verif.PropsBlas
import Verif.PropsUtil
import Mathlib.Algebra.Order.BigOperators.Group.Finset
import Mathlib.Algebra.BigOperators.Intervals
import Mathlib.Tactic.FieldSimp
import Mathlib.Tactic.Positivity

/-!
# Properties C37, C38, C40, C41, C64: features, constant and NLMS predictions
-/

set_option linter.unusedSectionVars false

namespace Xcsf
open Finset
variable {K R : Type} [Field K] [LinearOrder K] [IsStrictOrderedRing K]

/-! ## C40: features -/

/-- The features: the bias, the inputs, and for quadratic predictions the products
`x i * x j` with `i ≤ j`, row by row. -/
def features (p : PredPar K) (x : Nat → K) : List K :=
  p.x0 :: (List.range p.xDim).map x ++
    if p.quad then (List.range p.xDim).flatMap fun i =>
      (List.range (p.xDim - i)).map fun d => x i * x (i + d)
    else []

/-- The state of the writing loop: index and array hold the list `l`, the rest is `tmp`. -/
def Holds (s : Nat × (Nat → K)) (l : List K) (tmp : Nat → K) : Prop :=
  s.1 = l.length ∧ (∀ i < l.length, l[i]? = some (s.2 i)) ∧ ∀ i, l.length ≤ i → s.2 i = tmp i

theorem holds_push {s : Nat × (Nat → K)} {l : List K} {tmp : Nat → K} (h : Holds s l tmp) (v : K) :
    Holds (push s v) (l ++ [v]) tmp := by
  obtain ⟨h1, h2, h3⟩ := h
  refine ⟨by simp [push, h1], ?_, ?_⟩
  · intro i hi
    simp only [List.length_append, List.length_singleton] at hi
    unfold push arrSet
    by_cases hl : i = l.length
    · subst hl; simp [h1]
    · rw [List.getElem?_append_left (by omega), h2 i (by omega)]
      simp [h1, hl]
  · intro i hi
    simp only [List.length_append, List.length_singleton] at hi
    unfold push arrSet
    simp only
    rw [if_neg (by omega)]
    exact h3 i (by omega)

theorem holds_loop {tmp : Nat → K} (f : Nat → K) : ∀ (n : Nat) (s : Nat × (Nat → K)) (l : List K),
    Holds s l tmp → Holds (forN n (fun i s => push s (f i)) s) (l ++ (List.range n).map f) tmp
  | 0, s, l, h => by simpa [forN] using h
  | n + 1, s, l, h => by
    have := holds_push (holds_loop f n s l h) (f n)
    rw [forN, List.range_succ, List.map_append, ← List.append_assoc]
    exact this

theorem transform_holds (p : PredPar K) (x tmp : Nat → K) :
    Holds (transform p x tmp) (features p x) tmp := by
  have h0 : Holds ((1, arrSet tmp 0 p.x0) : Nat × (Nat → K)) [p.x0] tmp := by
    refine ⟨rfl, ?_, ?_⟩
    · intro i hi
      have : i = 0 := by simp at hi; exact hi
      subst this; simp [arrSet]
    · intro i hi
      simp at hi
      simp [arrSet]; omega
  have h1 := holds_loop x p.xDim _ _ h0
  unfold transform features
  simp only
  split
  · have key : ∀ (n : Nat) (s : Nat × (Nat → K)) (l : List K), Holds s l tmp →
        Holds (forN n (fun i s => forN (p.xDim - i) (fun d s => push s (x i * x (i + d))) s) s)
          (l ++ (List.range n).flatMap fun i =>
            (List.range (p.xDim - i)).map fun d => x i * x (i + d)) tmp := by
      intro n
      induction n with
      | zero => intro s l h; simpa [forN] using h
      | succ n ih =>
        intro s l h
        rw [forN, List.range_succ, List.flatMap_append, ← List.append_assoc]
        simpa using holds_loop (fun d => x n * x (n + d)) (p.xDim - n) _ _ (ih s l h)
    simpa using key p.xDim _ _ h1
  · simpa using h1

theorem quad_length (f : Nat → Nat → K) (d : Nat) : ∀ n ≤ d,
    2 * ((List.range n).flatMap fun i => (List.range (d - i)).map (f i)).length + n * n = (2 * d + 1) * n
  | 0, _ => by simp
  | n + 1, h => by
    have ih := quad_length f d n (by omega)
    rw [List.range_succ, List.flatMap_append, List.length_append]
    simp only [List.flatMap_cons, List.flatMap_nil, List.append_nil, List.length_map, List.length_range]
    obtain ⟨e, rfl⟩ := Nat.exists_eq_add_of_le h
    have : n + 1 + e - n = e + 1 := by omega
    rw [this]
    nlinarith

theorem features_length (p : PredPar K) (x : Nat → K) : (features p x).length = nFeatures p := by
  unfold features nFeatures
  cases hq : p.quad with
  | false => simp
  | true =>
    simp only [if_true, List.cons_append, List.length_cons, List.length_append, List.length_map,
      List.length_range]
    have h := quad_length (fun i d => x i * x (i + d)) p.xDim p.xDim (le_refl _)
    have hm : p.xDim * (p.xDim - 1) = p.xDim * p.xDim - p.xDim := by
      rw [Nat.mul_sub, Nat.mul_one]
    have hle : p.xDim ≤ p.xDim * p.xDim := Nat.le_mul_self _
    set L := ((List.range p.xDim).flatMap fun i =>
      (List.range (p.xDim - i)).map fun d => x i * x (i + d)).length
    rw [hm]
    have h2 : 2 * L + p.xDim * p.xDim = 2 * (p.xDim * p.xDim) + p.xDim := by
      rw [h]; ring
    omega

/-- **C40.** Transforming an input writes exactly the allocated number of features: the final
index is that number, the array then holds the bias, the inputs and (quadratic) the products of
every pair `i ≤ j` in order, and nothing behind them is written. -/
theorem C40_features (p : PredPar K) (x tmp : Nat → K) :
    (transform p x tmp).1 = nFeatures p ∧
    (features p x).length = nFeatures p ∧
    (∀ i < nFeatures p, (features p x)[i]? = some ((transform p x tmp).2 i)) ∧
    (∀ i, nFeatures p ≤ i → (transform p x tmp).2 i = tmp i) := by
  obtain ⟨h1, h2, h3⟩ := transform_holds p x tmp
  rw [features_length] at h1 h2 h3
  exact ⟨h1, features_length p x, h2, h3⟩

/-- **C40**, the numbers: `1 + d` linear features; the quadratic ones number
`1 + 2 d + d (d - 1) / 2 = (d + 1) (d + 2) / 2`, without remainder. -/
theorem C40_counts (p : PredPar K) :
    (p.quad = false → nFeatures p = 1 + p.xDim) ∧
    (p.quad = true → 2 * nFeatures p = (p.xDim + 1) * (p.xDim + 2)) := by
  unfold nFeatures
  refine ⟨fun h => by simp [h]; omega, fun h => ?_⟩
  rw [if_pos h]
  have hd : 2 ∣ p.xDim * (p.xDim - 1) := by
    cases hx : p.xDim with
    | zero => simp
    | succ n =>
      rw [Nat.add_sub_cancel, Nat.mul_comm]
      exact Nat.even_mul_succ_self n |>.two_dvd
  obtain ⟨c, hc⟩ := hd
  rw [hc, Nat.mul_div_cancel_left _ (by omega)]
  cases hx : p.xDim with
  | zero => rw [hx] at hc; simp at hc; omega
  | succ n =>
    rw [hx, Nat.add_sub_cancel] at hc
    nlinarith

/-! ## C41: constant prediction -/

/-- One payoff for one output: what `constUpdate` does to it. -/
def constStep (beta : K) (exp : Nat) (v y : K) : K :=
  if (exp : K) * beta < 1 then (v * ((exp : K) - 1) + y) / (exp : K) else v + beta * (y - v)

theorem constUpdate_spec (p : PredPar K) (exp : Nat) (prediction y : Nat → K) :
    (∀ i < p.yDim, constUpdate p exp prediction y i = constStep p.beta exp (prediction i) (y i)) ∧
    (∀ i, p.yDim ≤ i → constUpdate p exp prediction y i = prediction i) := by
  unfold constUpdate constStep
  split
  · obtain ⟨h1, h2⟩ := forN_arrSet p.yDim (fun i => i) (fun i _ j _ h => h)
      (fun i v => (v * ((exp : K) - 1) + y i) / (exp : K)) prediction
    exact ⟨h1, fun i hi => h2 i (fun j hj => by omega)⟩
  · obtain ⟨h1, h2⟩ := forN_arrSet p.yDim (fun i => i) (fun i _ j _ h => h)
      (fun i v => v + p.beta * (y i - v)) prediction
    exact ⟨h1, fun i hi => h2 i (fun j hj => by omega)⟩

/-- A rule trained on a sequence of payoffs from its creation: experience 0 and prediction 0
(cl.c:42-46), experience counted before each update (cl.c:186,199).  The latest payoff comes
first in the list. -/
def constRun (p : PredPar K) : List (Nat → K) → Nat → K
  | [] => fun _ => 0
  | y :: ys => constUpdate p (ys.length + 1) (constRun p ys) y

/-- **C41**, mean: while experience times beta is below one the prediction is the mean of all
payoffs seen, for every output. -/
theorem C41_mean (p : PredPar K) (hb : 0 ≤ p.beta) : ∀ (ys : List (Nat → K)), ys ≠ [] →
    (ys.length : K) * p.beta < 1 → ∀ i < p.yDim,
    constRun p ys i = (ys.map fun y => y i).sum / (ys.length : K)
  | [], h, _, _, _ => absurd rfl h
  | y :: ys, _, hl, i, hi => by
    have hl' : ((ys.length + 1 : Nat) : K) * p.beta < 1 := by simpa using hl
    rw [constRun, (constUpdate_spec p _ _ _).1 i hi, constStep, if_pos hl']
    have e : ((ys.length + 1 : Nat) : K) - 1 = (ys.length : K) := by push_cast; ring
    rw [e]
    have hcons : (((y :: ys).map fun y => y i).sum : K) = y i + (ys.map fun y => y i).sum := by simp
    rw [hcons, List.length_cons]
    congr 1
    by_cases hy : ys = []
    · subst hy; simp
    · have hn : (ys.length : K) ≠ 0 := by
        have : ys.length ≠ 0 := by simpa using hy
        exact_mod_cast this
      rw [C41_mean p hb ys hy (by
        refine lt_of_le_of_lt (mul_le_mul_of_nonneg_right ?_ hb) hl'
        push_cast; linarith) i hi]
      field_simp
      ring

/-- **C41**, afterwards: a running average with weight beta. -/
theorem C41_average (p : PredPar K) (y : Nat → K) (ys : List (Nat → K))
    (h : 1 ≤ ((ys.length + 1 : Nat) : K) * p.beta) (i : Nat) (hi : i < p.yDim) :
    constRun p (y :: ys) i = (1 - p.beta) * constRun p ys i + p.beta * y i := by
  rw [constRun, (constUpdate_spec p _ _ _).1 i hi, constStep, if_neg (not_lt.2 h)]; ring

theorem constStep_convex {beta : K} (h0 : 0 ≤ beta) (h1 : beta ≤ 1) {exp : Nat} (he : 0 < exp)
    (v y lo hi : K) (hy1 : lo ≤ y) (hy2 : y ≤ hi) (hv : exp ≠ 1 → lo ≤ v ∧ v ≤ hi) :
    lo ≤ constStep beta exp v y ∧ constStep beta exp v y ≤ hi := by
  unfold constStep
  have hpos : (0 : K) < (exp : K) := by exact_mod_cast he
  split
  · rw [le_div_iff₀ hpos, div_le_iff₀ hpos]
    by_cases h : exp = 1
    · subst h; constructor <;> simp <;> assumption
    · obtain ⟨a, b⟩ := hv h
      have h2 : (1 : K) ≤ (exp : K) := by exact_mod_cast he
      have e1 := mul_le_mul_of_nonneg_right a (by linarith : (0 : K) ≤ (exp : K) - 1)
      have e2 := mul_le_mul_of_nonneg_right b (by linarith : (0 : K) ≤ (exp : K) - 1)
      constructor <;> linarith
  · next hn =>
    by_cases h : exp = 1
    · subst h
      have hb : beta = 1 := by
        rw [Nat.cast_one, one_mul, not_lt] at hn
        exact le_antisymm h1 hn
      rw [hb]; constructor <;> linarith
    · obtain ⟨a, b⟩ := hv h
      have e1 := mul_le_mul_of_nonneg_left hy1 h0
      have e2 := mul_le_mul_of_nonneg_left hy2 h0
      have e3 := mul_le_mul_of_nonneg_left a (by linarith : 0 ≤ 1 - beta)
      have e4 := mul_le_mul_of_nonneg_left b (by linarith : 0 ≤ 1 - beta)
      constructor <;> linarith

/-- **C41**, range: with beta in [0,1] the prediction always lies between the smallest and the
largest payoff seen. -/
theorem C41_between (p : PredPar K) (h0 : 0 ≤ p.beta) (h1 : p.beta ≤ 1) (lo hi : K) (i : Nat)
    (hi' : i < p.yDim) : ∀ ys : List (Nat → K), ys ≠ [] → (∀ y ∈ ys, lo ≤ y i ∧ y i ≤ hi) →
    lo ≤ constRun p ys i ∧ constRun p ys i ≤ hi
  | [], h, _ => absurd rfl h
  | y :: ys, _, h => by
    rw [constRun, (constUpdate_spec p _ _ _).1 i hi']
    have hy := h y List.mem_cons_self
    refine constStep_convex h0 h1 (by omega) _ _ lo hi hy.1 hy.2 (fun hne => ?_)
    refine C41_between p h0 h1 lo hi i hi' ys ?_ (fun z hz => h z (List.mem_cons_of_mem _ hz))
    rintro rfl; simp at hne

/-! ## C37, C38: NLMS -/

/-- The loop that adds a multiple of one vector to every row of the weights. -/
theorem rows_axpy (n yDim : Nat) (c : Nat → K) (v w : Nat → K) :
    (∀ i < yDim, ∀ j < n, forN yDim (fun i w => axpy n (c i) v 1 w (i * n) 1) w (i * n + j) =
      w (i * n + j) + c i * v j) ∧
    (∀ m, yDim * n ≤ m → forN yDim (fun i w => axpy n (c i) v 1 w (i * n) 1) w m = w m) := by
  have step : ∀ (i : Nat) (w : Nat → K) (m : Nat), axpy n (c i) v 1 w (i * n) 1 m =
      w m + if i * n ≤ m ∧ m < i * n + n then c i * v (m - i * n) else 0 := by
    intro i w m
    obtain ⟨a1, a2⟩ := C43_axpy n (c i) v 1 w (i * n) 1 (by omega)
    split
    · next h =>
      have := a1 (m - i * n) (by omega)
      simp only [Nat.mul_one] at this
      rw [show i * n + (m - i * n) = m by omega] at this
      exact this
    · next h => rw [a2 m (fun j hj => by omega), add_zero]
  have all : ∀ m, forN yDim (fun i w => axpy n (c i) v 1 w (i * n) 1) w m = w m +
      ∑ i ∈ range yDim, if i * n ≤ m ∧ m < i * n + n then c i * v (m - i * n) else 0 :=
    fun m => forN_adds yDim _ _ (fun i _ C m => step i C m) w m
  constructor
  · intro i hi j hj
    rw [all, sum_eq_single i]
    · rw [if_pos (by omega), show i * n + j - i * n = j by omega]
    · intro i' _ hne
      rw [if_neg]
      rintro ⟨h1, h2⟩
      rcases Nat.lt_or_ge i i' with h | h
      · have h3 : (i + 1) * n ≤ i' * n := Nat.mul_le_mul_right _ h
        rw [Nat.add_mul] at h3; omega
      · have h3 : (i' + 1) * n ≤ i * n := Nat.mul_le_mul_right _ (by omega)
        rw [Nat.add_mul] at h3; omega
    · intro h; exact absurd (mem_range.2 hi) h
  · intro m hm
    rw [all, sum_eq_zero, add_zero]
    intro i hi
    rw [if_neg]
    rintro ⟨h1, h2⟩
    have h3 : (i + 1) * n ≤ yDim * n := Nat.mul_le_mul_right _ (mem_range.1 hi)
    rw [Nat.add_mul] at h3; omega

theorem compute_spec (p : PredPar K) (n : Nat) (w tmp prediction : Nat → K) (i : Nat) (hi : i < p.yDim) :
    forN p.yDim (fun i P => arrSet P i (dot n w (i * n) 1 tmp 1)) prediction i =
      ∑ j ∈ range n, w (i * n + j) * tmp j := by
  obtain ⟨h1, _⟩ := forN_arrSet p.yDim (fun i => i) (fun i _ j _ h => h)
    (fun i _ => dot n w (i * n) 1 tmp 1) prediction
  rw [h1 i hi, (C43_dot_sum n w (i * n) 1 tmp 1).1]
  simp

/-- Present an input and a target once: compute, then update (cl.c:183-201). -/
def nlmsPresent (p : PredPar K) (s : Nlms K) (prediction x y : Nat → K) : Nlms K :=
  let o := nlmsCompute p s prediction x
  nlmsUpdate p o.1 o.2 x y

/-- What the rule predicts for an input. -/
def nlmsAnswer (p : PredPar K) (s : Nlms K) (x : Nat → K) : Nat → K :=
  (nlmsCompute p s (fun _ => 0) x).2

/-- The squared length of the features. -/
def featNorm (p : PredPar K) (x : Nat → K) : K := ((features p x).map fun f => f * f).sum

/-- The normaliser the code divides by. -/
def nlmsNorm (p : PredPar K) (x : Nat → K) : K := p.x0 * p.x0 + ∑ i ∈ range p.xDim, x i * x i

theorem sum_getD (l : List K) (t : Nat → K) (h : ∀ i < l.length, l[i]? = some (t i)) (f : K → K) :
    ∑ j ∈ range l.length, f (t j) = (l.map f).sum := by
  induction l using List.reverseRecOn with
  | nil => simp
  | append_singleton l a ih =>
    rw [List.length_append, List.length_singleton, sum_range_succ, List.map_append, List.sum_append,
      ih (fun i hi => by
        have := h i (by simp; omega)
        rwa [List.getElem?_append_left hi] at this)]
    have := h l.length (by simp)
    simp at this
    simp [this]

theorem transform_sq (p : PredPar K) (x tmp : Nat → K) :
    ∑ j ∈ range (nFeatures p), (transform p x tmp).2 j * (transform p x tmp).2 j = featNorm p x := by
  obtain ⟨_, h2, h3, _⟩ := C40_features p x tmp
  rw [← h2] at h3 ⊢
  exact sum_getD _ _ h3 (fun v => v * v)

theorem transform_agree (p : PredPar K) (x t1 t2 : Nat → K) (j : Nat) (hj : j < nFeatures p) :
    (transform p x t1).2 j = (transform p x t2).2 j := by
  have h1 := (C40_features p x t1).2.2.1 j hj
  have h2 := (C40_features p x t2).2.2.1 j hj
  rw [h1] at h2
  exact Option.some.inj h2

/-- **C37/C38**, the exact effect of one presentation, for linear and quadratic predictions: the
error on the presented input is multiplied by `1 - eta * |features|² / (x0² + |x|²)`. -/
theorem C38_exact_factor_partial (p : PredPar K) (s : Nlms K) (hn : s.n = nFeatures p)
    (prediction x y : Nat → K) (i : Nat) (hi : i < p.yDim) :
    y i - nlmsAnswer p (nlmsPresent p s prediction x y) x i =
      (1 - s.eta * featNorm p x / nlmsNorm p x) * (y i - nlmsAnswer p s x i) := by
  have e1 : nlmsAnswer p s x i = ∑ j ∈ range s.n, s.weights (i * s.n + j) *
      (transform p x s.tmp).2 j := compute_spec p s.n s.weights _ _ i hi
  have e2 : (nlmsCompute p s prediction x).2 i = ∑ j ∈ range s.n, s.weights (i * s.n + j) *
      (transform p x s.tmp).2 j := compute_spec p s.n s.weights _ _ i hi
  have hnorm : p.x0 * p.x0 + dot p.xDim x 0 1 x 1 = nlmsNorm p x := by
    rw [(C43_dot_sum p.xDim x 0 1 x 1).1, nlmsNorm]; simp
  set s' := nlmsPresent p s prediction x y with hs'
  have e3 : nlmsAnswer p s' x i = ∑ j ∈ range s'.n, s'.weights (i * s'.n + j) *
      (transform p x s'.tmp).2 j := compute_spec p s'.n s'.weights _ _ i hi
  have hn' : s'.n = s.n := rfl
  have hw : ∀ j < s.n, s'.weights (i * s.n + j) = s.weights (i * s.n + j) +
      (s.eta * (y i - nlmsAnswer p s x i)) / nlmsNorm p x * (transform p x s.tmp).2 j := by
    intro j hj
    have := (rows_axpy s.n p.yDim (fun i => (s.eta * (y i - (nlmsCompute p s prediction x).2 i)) /
      (p.x0 * p.x0 + dot p.xDim x 0 1 x 1)) (transform p x s.tmp).2 s.weights).1 i hi j hj
    refine Eq.trans this ?_
    rw [hnorm, e2, ← e1]
  have e4 : nlmsAnswer p s' x i = nlmsAnswer p s x i +
      (s.eta * (y i - nlmsAnswer p s x i)) / nlmsNorm p x * featNorm p x := by
    generalize hc : (s.eta * (y i - nlmsAnswer p s x i)) / nlmsNorm p x = c at hw ⊢
    rw [e3, hn', ← transform_sq p x s.tmp, ← hn, mul_sum, e1]
    rw [← sum_add_distrib]
    refine sum_congr rfl fun j hj => ?_
    have hj' := mem_range.1 hj
    rw [hw j hj', transform_agree p x s'.tmp s.tmp j (by omega)]
    ring
  rw [e4]
  ring

theorem range_map_sum (f : Nat → K) : ∀ n, ((List.range n).map f).sum = ∑ i ∈ range n, f i
  | 0 => by simp
  | n + 1 => by
    rw [List.range_succ, List.map_append, List.sum_append, range_map_sum f n, sum_range_succ]; simp

theorem range_flatMap_sum (f : Nat → List K) : ∀ n,
    ((List.range n).flatMap f).sum = ∑ i ∈ range n, (f i).sum
  | 0 => by simp
  | n + 1 => by
    rw [List.range_succ, List.flatMap_append, List.sum_append, range_flatMap_sum f n, sum_range_succ]
    simp

/-- The squared length of the features is the normaliser plus the squares of the products. -/
theorem featNorm_eq (p : PredPar K) (x : Nat → K) : featNorm p x = nlmsNorm p x +
    if p.quad then ∑ i ∈ range p.xDim, ∑ d ∈ range (p.xDim - i),
      (x i * x (i + d)) * (x i * x (i + d)) else 0 := by
  unfold featNorm nlmsNorm features
  rw [List.cons_append, List.map_cons, List.map_append, List.sum_cons, List.sum_append, List.map_map,
    range_map_sum, ← add_assoc]
  congr 1
  split
  · rw [List.map_flatMap, range_flatMap_sum]
    refine sum_congr rfl fun i _ => ?_
    rw [List.map_map, range_map_sum]
    rfl
  · simp

/-- The normaliser is positive unless the bias and the input vanish. -/
theorem nlmsNorm_pos (p : PredPar K) (x : Nat → K) (h : p.x0 ≠ 0 ∨ ∃ i < p.xDim, x i ≠ 0) :
    0 < nlmsNorm p x := by
  unfold nlmsNorm
  have hs : 0 ≤ ∑ i ∈ range p.xDim, x i * x i := sum_nonneg fun i _ => mul_self_nonneg _
  rcases h with h | ⟨i, hi, h⟩
  · have := mul_self_pos.2 h; linarith
  · have h1 : x i * x i ≤ ∑ i ∈ range p.xDim, x i * x i :=
      single_le_sum (f := fun i => x i * x i) (fun j _ => mul_self_nonneg _) (mem_range.2 hi)
    have := mul_self_pos.2 h
    have := mul_self_nonneg p.x0
    linarith

/-- **C37.** Linear NLMS: one presentation multiplies the error of every output on the presented
input by exactly `1 - eta`, for all weights, inputs, targets and dimensions; nothing outside the
weights of the outputs is written. -/
theorem C37_contraction (p : PredPar K) (hq : p.quad = false) (s : Nlms K) (hn : s.n = nFeatures p)
    (prediction x y : Nat → K) (hx : p.x0 ≠ 0 ∨ ∃ i < p.xDim, x i ≠ 0) (i : Nat) (hi : i < p.yDim) :
    y i - nlmsAnswer p (nlmsPresent p s prediction x y) x i =
      (1 - s.eta) * (y i - nlmsAnswer p s x i) := by
  rw [C38_exact_factor_partial p s hn prediction x y i hi, featNorm_eq, hq]
  have := (nlmsNorm_pos p x hx).ne'
  simp only [Bool.false_eq_true, if_false, add_zero]
  rw [mul_div_assoc, div_self this, mul_one]

/-- **C37**, consequence: with a rate in (0,2) a non-zero error strictly shrinks. -/
theorem C37_error_shrinks (p : PredPar K) (hq : p.quad = false) (s : Nlms K)
    (hn : s.n = nFeatures p) (he0 : 0 < s.eta) (he2 : s.eta < 2) (prediction x y : Nat → K)
    (hx : p.x0 ≠ 0 ∨ ∃ i < p.xDim, x i ≠ 0) (i : Nat) (hi : i < p.yDim)
    (hne : nlmsAnswer p s x i ≠ y i) :
    |y i - nlmsAnswer p (nlmsPresent p s prediction x y) x i| < |y i - nlmsAnswer p s x i| := by
  rw [C37_contraction p hq s hn prediction x y hx i hi, abs_mul]
  have h1 : |1 - s.eta| < 1 := by rw [abs_lt]; constructor <;> linarith
  have h2 : 0 < |y i - nlmsAnswer p s x i| := abs_pos.2 (sub_ne_zero.2 (Ne.symm hne))
  nlinarith

/-- The rule's other parts are untouched, and so is everything behind its weights. -/
theorem C37_only_weights (p : PredPar K) (s : Nlms K) (prediction x y : Nat → K) :
    (nlmsPresent p s prediction x y).n = s.n ∧ (nlmsPresent p s prediction x y).eta = s.eta ∧
    (nlmsPresent p s prediction x y).mu = s.mu ∧
    ∀ m, p.yDim * s.n ≤ m → (nlmsPresent p s prediction x y).weights m = s.weights m := by
  refine ⟨rfl, rfl, rfl, fun m hm => ?_⟩
  exact (rows_axpy s.n p.yDim _ _ s.weights).2 m hm

/-- **C38, partial.**  Quadratic NLMS contracts the error on inputs of length at most one, for
rates in (0,1). -/
theorem C38_small_inputs_partial (p : PredPar K) (s : Nlms K) (hn : s.n = nFeatures p)
    (he0 : 0 < s.eta) (he1 : s.eta < 1) (prediction x y : Nat → K)
    (hx : p.x0 ≠ 0 ∨ ∃ i < p.xDim, x i ≠ 0) (hle : ∑ i ∈ range p.xDim, x i * x i ≤ 1)
    (i : Nat) (hi : i < p.yDim) (hne : nlmsAnswer p s x i ≠ y i) :
    |y i - nlmsAnswer p (nlmsPresent p s prediction x y) x i| < |y i - nlmsAnswer p s x i| := by
  rw [C38_exact_factor_partial p s hn prediction x y i hi, abs_mul]
  have hpos := nlmsNorm_pos p x hx
  set S := ∑ i ∈ range p.xDim, x i * x i with hS
  have hS0 : 0 ≤ S := sum_nonneg fun i _ => mul_self_nonneg _
  have hq : (if p.quad then ∑ i ∈ range p.xDim, ∑ d ∈ range (p.xDim - i),
      (x i * x (i + d)) * (x i * x (i + d)) else 0) ≤ S * S := by
    split
    · have hrow : ∀ i ∈ range p.xDim, (∑ d ∈ range (p.xDim - i),
          (x i * x (i + d)) * (x i * x (i + d))) ≤ (x i * x i) * S := by
        intro i hi
        have h1 : ∑ d ∈ range (p.xDim - i), x (i + d) * x (i + d) ≤ S := by
          rw [hS]
          have h2 := sum_Ico_eq_sum_range (fun k => x k * x k) i p.xDim
          rw [← h2]
          refine sum_le_sum_of_subset_of_nonneg ?_ (fun j _ _ => mul_self_nonneg _)
          intro k hk
          rw [mem_Ico] at hk; exact mem_range.2 hk.2
        calc _ = (x i * x i) * ∑ d ∈ range (p.xDim - i), x (i + d) * x (i + d) := by
              rw [mul_sum]; refine sum_congr rfl fun d _ => by ring
          _ ≤ _ := mul_le_mul_of_nonneg_left h1 (mul_self_nonneg _)
      refine (sum_le_sum hrow).trans ?_
      rw [← sum_mul]
    · positivity
  have hq0 : 0 ≤ (if p.quad then ∑ i ∈ range p.xDim, ∑ d ∈ range (p.xDim - i),
      (x i * x (i + d)) * (x i * x (i + d)) else 0) := by
    split
    · exact sum_nonneg fun i _ => sum_nonneg fun d _ => mul_self_nonneg _
    · exact le_refl _
  have hN : S ≤ nlmsNorm p x := by
    unfold nlmsNorm; have := mul_self_nonneg p.x0; rw [← hS]; linarith
  have hf0 : nlmsNorm p x ≤ featNorm p x := by rw [featNorm_eq]; linarith
  have hf1 : featNorm p x ≤ 2 * nlmsNorm p x := by rw [featNorm_eq]; nlinarith
  have h1 : |1 - s.eta * featNorm p x / nlmsNorm p x| < 1 := by
    rw [abs_lt]
    have a : 0 < s.eta * featNorm p x / nlmsNorm p x := by
      apply div_pos (mul_pos he0 (by linarith)) hpos
    have b : s.eta * featNorm p x / nlmsNorm p x < 2 := by
      rw [div_lt_iff₀ hpos]; nlinarith
    constructor <;> linarith
  have h2 : 0 < |y i - nlmsAnswer p s x i| := abs_pos.2 (sub_ne_zero.2 (Ne.symm hne))
  nlinarith

/-- **C38 is false of the code**: the normaliser leaves out the quadratic features.  With one
input of value 10, bias 1 and the default rate 1/10 the error of a fresh rule grows ninefold. -/
theorem C38_refuted : ∃ (p : PredPar ℚ) (s : Nlms ℚ) (x y : Nat → ℚ), p.quad = true ∧
    s.n = nFeatures p ∧ s.eta = 1 / 10 ∧ p.x0 = 1 ∧
    |y 0 - nlmsAnswer p (nlmsPresent p s (fun _ => 0) x y) x 0| > 9 * |y 0 - nlmsAnswer p s x 0| ∧
    0 < |y 0 - nlmsAnswer p s x 0| :=
  ⟨⟨1, 1, true, 1, 1 / 10, 0, false, 1, 1000, 1 / 10⟩,
    ⟨3, 3, fun i => if i = 0 then 1 else 0, 0, 1 / 10, fun _ => 0⟩, fun _ => 10, fun _ => 2,
    rfl, rfl, rfl, rfl, by decide +kernel, by decide +kernel⟩

/-! ## C64: evolved learning rates -/

variable [FloorRing K]

/-- **C64.** A learning rate is initialised and mutated within its bounds, mutation reports a
change exactly when the rate changed, and without evolution the rate is the fixed one. -/
theorem C64_rate_range {g : Rng K R} (H : g.Open) (p : PredPar K) (hb : p.etaMin ≤ p.eta)
    (tmp : Nat → K) (r : R) :
    (∃ s r', nlmsInit g p tmp r = .ok (s, r') ∧ s.n = nFeatures p ∧ s.nWeights = s.n * p.yDim ∧
      p.etaMin ≤ s.eta ∧ s.eta ≤ p.eta ∧ (p.evolveEta = false → s.eta = p.eta) ∧
      (∀ i < p.yDim, ∀ j < s.n, s.weights (i * s.n + j) = if j = 0 then p.x0 else 0)) ∧
    (∀ s : Nlms K, ∃ s' ch r', nlmsMutate g p s r = .ok (s', ch, r') ∧ s'.weights = s.weights ∧
      s'.n = s.n ∧ (ch = true ↔ s'.eta ≠ s.eta) ∧ (p.evolveEta = false → s' = s) ∧
      (p.evolveEta = true → p.etaMin ≤ s'.eta ∧ s'.eta ≤ p.eta ∧ LegalRate s'.mu)) := by
  have hn : 0 < nFeatures p := by unfold nFeatures; split <;> omega
  have hw : ∀ i < p.yDim, ∀ j < nFeatures p,
      fill p.yDim p.x0 (fun _ => (0 : K)) (nFeatures p) (i * nFeatures p + j) =
        if j = 0 then p.x0 else 0 := by
    intro i hi j hj
    obtain ⟨f1, f2⟩ := C43_fill p.yDim p.x0 (fun _ => (0 : K)) (nFeatures p) hn
    split
    · next h => subst h; exact f1 i hi
    · next h =>
      refine f2 _ (fun k _ e => h ?_)
      rcases Nat.lt_or_ge i k with h' | h'
      · have h3 : (i + 1) * nFeatures p ≤ k * nFeatures p := Nat.mul_le_mul_right _ h'
        rw [Nat.add_mul] at h3; omega
      · rcases Nat.eq_or_lt_of_le h' with h' | h'
        · subst h'; omega
        · have h3 : (k + 1) * nFeatures p ≤ i * nFeatures p := Nat.mul_le_mul_right _ h'
          rw [Nat.add_mul] at h3; omega
  constructor
  · unfold nlmsInit
    cases he : p.evolveEta with
    | true =>
      have hr : ∀ r, p.etaMin ≤ (g.uni p.etaMin p.eta r).1 ∧ (g.uni p.etaMin p.eta r).1 ≤ p.eta := by
        intro r
        rcases eq_or_lt_of_le hb with h | h
        · unfold Rng.uni; rw [h]; simp
        · have := Rng.uni_range H h r; exact ⟨this.1.le, this.2.le⟩
      exact ⟨_, _, rfl, rfl, rfl, (hr _).1, (hr _).2, by simp, hw⟩
    | false => exact ⟨_, _, rfl, rfl, rfl, hb, le_refl _, fun _ => rfl, hw⟩
  · intro s
    unfold nlmsMutate
    cases he : p.evolveEta with
    | true =>
      have hc := C45_clamp (s.eta + (g.normal 0 (clampK (s.mu * g.exp (g.normal 0 1 r).1) muEps 1)
        (g.normal 0 1 r).2).1) hb
      refine ⟨_, _, _, rfl, rfl, rfl, ?_, by simp, fun _ => ⟨hc.1, hc.2.1,
        clampK_mem _ (by norm_num [muEps])⟩⟩
      rw [decide_eq_true_iff]
      exact ne_comm
    | false => exact ⟨s, false, r, rfl, rfl, rfl, by simp, fun _ => rfl, by simp⟩

/-- **C64**, copies: a copied rule predicts the same as the original and has its rate. -/
theorem C64_copy (g : Rng K R) (p : PredPar K) (src : Nlms K) (hs : src.n = nFeatures p)
    (hw : src.nWeights = src.n * p.yDim) (tmp : Nat → K) (r : R) :
    ∃ d r', nlmsCopy g p src tmp r = .ok (d, r') ∧ d.eta = src.eta ∧ d.mu = src.mu ∧
      d.n = src.n ∧ ∀ x i, i < p.yDim → nlmsAnswer p d x i = nlmsAnswer p src x i := by
  have key : ∀ d0 : Nlms K, d0.n = nFeatures p → ∀ (x : Nat → K) (i : Nat), i < p.yDim →
      nlmsAnswer p { d0 with
        weights := fun i => if i < src.nWeights then src.weights i else d0.weights i
        mu := src.mu, eta := src.eta } x i = nlmsAnswer p src x i := by
    intro d0 hd x i hi
    have e1 : nlmsAnswer p src x i = ∑ j ∈ range src.n, src.weights (i * src.n + j) *
      (transform p x src.tmp).2 j := compute_spec p src.n src.weights _ _ i hi
    have e2 := compute_spec p d0.n (fun i => if i < src.nWeights then src.weights i else d0.weights i)
      (transform p x d0.tmp).2 (fun _ => 0) i hi
    rw [e1]
    refine Eq.trans e2 ?_
    rw [hd, ← hs]
    refine sum_congr rfl fun j hj => ?_
    have hj' := mem_range.1 hj
    rw [if_pos, transform_agree p x d0.tmp src.tmp j (by omega)]
    rw [hw]
    have h3 : (i + 1) * src.n ≤ p.yDim * src.n := Nat.mul_le_mul_right _ hi
    rw [Nat.add_mul] at h3
    rw [Nat.mul_comm src.n]; omega
  unfold nlmsCopy nlmsInit
  cases he : p.evolveEta with
  | true => exact ⟨_, _, rfl, rfl, rfl, hs.symm, key _ rfl⟩
  | false => exact ⟨_, _, rfl, rfl, rfl, hs.symm, key _ rfl⟩

/-! ## Concrete cases -/

/-- Two inputs, one output, default parameters. -/
def demoPred (quad : Bool) : PredPar ℚ := ⟨2, 1, quad, 1, 1 / 10, 1 / 100000, true, 1, 1000, 1 / 10⟩

example : nFeatures (demoPred true) = 6 ∧ nFeatures (demoPred false) = 3 := by decide +kernel

example : features (demoPred true) (fun i => [3, 5].getD i 0) = [1, 3, 5, 9, 15, 25] := by
  decide +kernel

-- error 2 - 1 = 1 before, 9/10 after
example (y : ℚ) : y - nlmsAnswer (demoPred false) (nlmsPresent (demoPred false)
      ⟨3, 3, fun i => if i = 0 then 1 else 0, 0, 1 / 10, fun _ => 0⟩ (fun _ => 0)
      (fun i => [3, 5].getD i 0) (fun _ => y)) (fun i => [3, 5].getD i 0) 0 = 9 / 10 * (y - 1) := by
  rw [C37_contraction (demoPred false) rfl _ rfl _ _ (fun _ => y) (Or.inl (by norm_num [demoPred]))
    0 (by decide)]
  have : nlmsAnswer (demoPred false) ⟨3, 3, fun i => if i = 0 then 1 else 0, 0, 1 / 10, fun _ => 0⟩
    (fun i => [3, 5].getD i 0) 0 = 1 := by decide +kernel
  rw [this]
  norm_num

example : constRun (demoPred false) [fun _ => 1, fun _ => 4, fun _ => 1] 0 = 2 := by decide +kernel

end Xcsf
