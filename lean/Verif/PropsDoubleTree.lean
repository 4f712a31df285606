import Verif.PropsDouble
import Verif.Gp

/-!
# C109, continued: indices that are not counted from zero

Leaves of random trees are the only array indices that the program draws between two positive numbers
(gp.c:85,364).  There the sum is rounded once more, and it can be rounded up to the excluded bound.
-/

set_option linter.unusedSectionVars false

namespace Xcsf.Double

variable {f : Format}

/-- `rand_uniform_int`, utils.c:73-77, over doubles, for the random number `d`. -/
def randInt (d : Dbl f) (lo hi : Int) : Int :=
  ((lo : Dbl f) + d * ((hi : Dbl f) - (lo : Dbl f))).floor

theorem int_def {n : Nat} (h : n ≤ 2147483647) : ∃ hr, ((n : Int) : Dbl f) = .fin (n : ℚ) hr := by
  have e : toInt32 (n : Int) = n := by unfold toInt32; omega
  have hr : f.rep ((n : Nat) : ℚ) := by
    have := toInt32_rep f n
    rw [e] at this
    exact_mod_cast this
  exact ⟨hr, fin_congr _ _ (by rw [e]; simp)⟩

/-- The number before `n` with the spacing of `2^k`. -/
theorem before_rep {n k : Nat} (hk : k ≤ 31) (h1 : 1 ≤ n) (h2 : n ≤ 2 ^ (k + 1)) :
    f.rep ((n : ℚ) - 1 / 2 ^ (52 - k)) := by
  have hpos : 0 < 2 ^ (52 - k) := Nat.two_pow_pos _
  have hm : n * 2 ^ (52 - k) ≤ 2 ^ 53 := by
    calc n * 2 ^ (52 - k) ≤ 2 ^ (k + 1) * 2 ^ (52 - k) := Nat.mul_le_mul_right _ h2
      _ = 2 ^ 53 := by rw [← pow_add]; congr 1; omega
  have h3 : 1 ≤ n * 2 ^ (52 - k) := Nat.mul_pos (by omega) hpos
  have := f.dyadic ((n * 2 ^ (52 - k) : Nat) - 1 : Int) (by
    rw [abs_lt]
    have : (0 : Int) < 2 ^ 53 := by norm_num
    have : ((n * 2 ^ (52 - k) : Nat) : Int) ≤ 2 ^ 53 := by exact_mod_cast hm
    constructor <;> omega) (52 - k) (by omega)
  have e : (((n * 2 ^ (52 - k) : Nat) - 1 : Int) : ℚ) / 2 ^ (52 - k) = (n : ℚ) - 1 / 2 ^ (52 - k) := by
    push_cast
    rw [sub_div, mul_div_assoc, div_self (by positivity), mul_one]
  rwa [e] at this

theorem four_plus (n : Nat) (h : 4 + n ≤ 2147483647) : ∃ h4 hn, ((4 : Int) : Dbl f) = .fin 4 h4 ∧
    ((4 + n : Int) : Dbl f) - ((4 : Int) : Dbl f) = .fin (n : ℚ) hn := by
  obtain ⟨h4, e4⟩ := int_def (f := f) (n := 4) (by omega)
  obtain ⟨hs, es⟩ := int_def (f := f) h
  obtain ⟨hn, -⟩ := int_def (f := f) (n := n) (by omega)
  have e4' : ((4 : Int) : Dbl f) = .fin 4 (by exact_mod_cast h4) := by
    rw [show (4 : Int) = ((4 : Nat) : Int) from rfl, e4]
    exact fin_congr _ _ (by norm_num)
  refine ⟨_, hn, e4', ?_⟩
  rw [e4', show (4 + (n : Int)) = ((4 + n : Nat) : Int) by push_cast; rfl, es]
  show Dbl.round f (((4 + n : Nat) : ℚ) + -4) = _
  have : ((4 + n : Nat) : ℚ) + -4 = n := by push_cast; ring
  rw [this, round_rep hn]

/-- **C109**, indices from four on, as for the leaves of trees: in range if no power of two is between
the number of leaves and the bound. -/
theorem C109_leaf_partial {d : Dbl f} (hd : Unit52 d) {n k : Nat} (hk : k ≤ 29) (h1 : 2 ^ k ≤ n)
    (h2 : n + 4 ≤ 2 ^ (k + 1)) : 4 ≤ randInt d 4 (4 + n) ∧ randInt d 4 (4 + n) < 4 + n := by
  have hn : n + 4 ≤ 1073741824 := by
    have : 2 ^ (k + 1) ≤ 2 ^ 30 := Nat.pow_le_pow_right (by decide) (by omega)
    omega
  obtain ⟨h4, hr, e4, es⟩ := four_plus (f := f) n (by omega)
  obtain ⟨q, hq, rfl, q0, q1⟩ := hd
  have r1 := before_rep (f := f) (k := k) (by omega) (le_trans Nat.one_le_two_pow h1) (by omega : n ≤ _)
  have r2 := before_rep (f := f) (k := k) (by omega) (by omega : 1 ≤ n + 4) h2
  have hp : (2 : ℚ) ^ 52 = 2 ^ k * 2 ^ (52 - k) := by rw [← pow_add]; congr 1; omega
  have hkn : (2 : ℚ) ^ k ≤ n := by exact_mod_cast h1
  have hP : (0 : ℚ) < 2 ^ (52 - k) := by positivity
  have h2k : (0 : ℚ) < 2 ^ k := by positivity
  have hle : q * n ≤ n - 1 / 2 ^ (52 - k) := by
    have a1 : q * n ≤ (1 - 1 / 2 ^ 52) * n := mul_le_mul_of_nonneg_right q1 (by positivity)
    have a2 : 1 / 2 ^ (52 - k) ≤ 1 / (2 : ℚ) ^ 52 * n := by
      rw [hp, div_mul_eq_mul_div, one_mul, le_div_iff₀ (by positivity), div_mul_eq_mul_div,
        div_le_iff₀ hP]
      nlinarith
    linarith
  have hqn : 0 ≤ q * n := by positivity
  have hu : (0 : ℚ) < 1 / 2 ^ (52 - k) := by positivity
  have hb : |q * n| < f.huge := by
    rw [abs_of_nonneg hqn]
    have := (abs_lt.1 (f.bound _ r1)).2
    linarith
  unfold randInt
  rw [e4] at es ⊢
  rw [es]
  show 4 ≤ (Dbl.add (.fin 4 h4) (Dbl.round f (q * n))).floor ∧
    (Dbl.add (.fin 4 h4) (Dbl.round f (q * n))).floor < _
  unfold Dbl.round
  rw [dif_pos hb]
  show 4 ≤ (Dbl.round f (4 + f.rnd (q * n))).floor ∧ (Dbl.round f (4 + f.rnd (q * n))).floor < _
  have v1 : f.rnd (q * n) ≤ n - 1 / 2 ^ (52 - k) := by
    have := f.mono _ _ hle
    rwa [f.exact _ r1] at this
  have v0 : 0 ≤ f.rnd (q * n) := by
    have := f.mono _ _ hqn
    rwa [rnd_zero] at this
  generalize f.rnd (q * n) = v at *
  have w1 : 4 + v ≤ ((n + 4 : Nat) : ℚ) - 1 / 2 ^ (52 - k) := by push_cast; linarith
  have hb2 : |4 + v| < f.huge := by
    rw [abs_of_nonneg (by linarith)]
    have := (abs_lt.1 (f.bound _ r2)).2
    linarith
  unfold Dbl.round
  rw [dif_pos hb2]
  show 4 ≤ ⌊f.rnd (4 + v)⌋ ∧ ⌊f.rnd (4 + v)⌋ < _
  have z1 : f.rnd (4 + v) ≤ ((n + 4 : Nat) : ℚ) - 1 / 2 ^ (52 - k) := by
    have := f.mono _ _ w1
    rwa [f.exact _ r2] at this
  have z0 : 4 ≤ f.rnd (4 + v) := by
    have := f.mono 4 (4 + v) (by linarith)
    rwa [f.exact _ h4] at this
  refine ⟨Int.le_floor.2 (by exact_mod_cast z0), Int.floor_lt.2 ?_⟩
  push_cast at z1 ⊢
  linarith

/-- The default of 100 constants and ten inputs. -/
example {d : Dbl binary64} (hd : Unit52 d) : randInt d 4 (4 + (110 : Nat)) < 4 + (110 : Nat) :=
  (C109_leaf_partial hd (k := 6) (by decide) (by decide) (by decide)).2

/-- Without this, the index can be the excluded bound: the largest random number, one constant and one
input. -/
theorem C109_random_leaf : ∃ d : Dbl binary64, Unit52 d ∧ randInt d 4 6 = 6 := by
  have rq : binary64.rep (1 - 1 / 2 ^ 52) := by
    have := binary64.dyadic (2 ^ 52 - 1) (by norm_num) 52 (by norm_num)
    norm_num at this ⊢
    exact this
  have r2 : binary64.rep (2 - 2 / 2 ^ 52) := by
    have := binary64.dyadic (2 ^ 52 - 1) (by norm_num) 51 (by norm_num)
    norm_num at this ⊢
    exact this
  have r6 : binary64.rep 6 := by simpa using binary64.rep_int 6 (by norm_num)
  refine ⟨.fin _ rq, ⟨_, rq, rfl, by norm_num, le_refl _⟩, ?_⟩
  obtain ⟨h4, hr, e4, es⟩ := four_plus (f := binary64) 2 (by omega)
  unfold randInt
  rw [show (6 : Int) = 4 + ((2 : Nat) : Int) from rfl, es, e4]
  show (Dbl.add (.fin 4 h4) (Dbl.round binary64 ((1 - 1 / 2 ^ 52) * ((2 : Nat) : ℚ)))).floor = _
  rw [show (1 - 1 / 2 ^ 52) * ((2 : Nat) : ℚ) = 2 - 2 / 2 ^ 52 by norm_num, round_rep r2]
  show (Dbl.round binary64 (4 + (2 - 2 / 2 ^ 52))).floor = _
  rw [show (4 : ℚ) + (2 - 2 / 2 ^ 52) = 6 - 2 / 2 ^ 52 by norm_num]
  have hb : |(6 : ℚ) - 2 / 2 ^ 52| < binary64.huge := by
    refine lt_trans ?_ (binary64.bound 6 r6)
    norm_num
  unfold Dbl.round
  rw [dif_pos hb]
  show ⌊rnd64 (6 - 2 / 2 ^ 52)⌋ = 6
  rw [rnd64_six]
  norm_num

/-- **C109 fails** for trees with one constant and one input: for the largest random number the leaf
is none of them, and evaluating the tree reads past the end of the input. -/
theorem C109_tree_leaf_refuted {K : Type} [Field K] [LinearOrder K] [IsStrictOrderedRing K] :
    ∃ d : Dbl binary64, Unit52 d ∧ ∀ (a : GpArgs K) (x : List K) (t : GpTree K),
      a.constants.length = 1 → a.nInputs = 1 → x.length = 1 →
      gpEval a x { t with tree := [randInt d gpFuncs a.maxTerm], pos := 0 } = .error .ub := by
  obtain ⟨d, hd, e⟩ := C109_random_leaf
  refine ⟨d, hd, fun a x t hc hi hx => ?_⟩
  have hm : a.maxTerm = 6 := by unfold GpArgs.maxTerm; rw [hc, hi]; rfl
  have e : randInt d gpFuncs a.maxTerm = 6 := by rw [hm]; exact e
  rw [e]
  unfold gpEval gpEvalGo
  simp [hc, hx, gpFuncs, bind, Except.bind]

end Xcsf.Double
