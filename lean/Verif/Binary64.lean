import Verif.DoubleLemmas
import Mathlib.Data.Set.Finite.Basic
import Mathlib.Order.Interval.Finset.Defs
import Mathlib.Data.Int.Interval
import Mathlib.Data.Set.Finite.Lemmas
import Mathlib.Data.Finite.Prod
import Mathlib.Order.Interval.Set.Defs
import Mathlib.Order.Interval.Finset.Basic

/-!
# The format of `double`

IEEE 754 binary64, which the C program uses (`double` in all of /repo/xcsf): integers of 53 binary
digits times powers of two, rounded to the nearest, and to the even one of two equally near ones;
results beyond the largest by half a unit are infinite.
-/

namespace Xcsf.Double

/-- The finite numbers of binary64. -/
def Rep64 (q : ℚ) : Prop :=
  ∃ m e : Int, |m| < 2 ^ 53 ∧ -1074 ≤ e ∧ e ≤ 971 ∧ q = m * (2 : ℚ) ^ e

theorem rep64_finite : {q | Rep64 q}.Finite := by
  have h : ((fun p : Int × Int => (p.1 : ℚ) * (2 : ℚ) ^ p.2) ''
      (Set.Icc (-2 ^ 53) (2 ^ 53) ×ˢ Set.Icc (-1074) 971)).Finite :=
    Set.Finite.image _ (Set.Finite.prod (Set.finite_Icc _ _) (Set.finite_Icc _ _))
  refine h.subset ?_
  rintro q ⟨m, e, hm, e1, e2, rfl⟩
  rw [abs_lt] at hm
  exact ⟨(m, e), ⟨⟨hm.1.le, hm.2.le⟩, ⟨e1, e2⟩⟩, rfl⟩

theorem rep64_int_pow (m : Int) (hm : |m| < 2 ^ 53) (e : Nat) (he : e ≤ 52) :
    Rep64 ((m : ℚ) / 2 ^ e) :=
  ⟨m, -e, hm, by omega, by omega, by rw [zpow_neg, zpow_natCast, div_eq_mul_inv]⟩

theorem rep64_zero : Rep64 0 := by simpa using rep64_int_pow 0 (by norm_num) 0 (by norm_num)

theorem nearest (q : ℚ) : ∃ a, Rep64 a ∧ ∀ b, Rep64 b → |q - a| ≤ |q - b| := by
  obtain ⟨a, ha, h⟩ := Set.exists_min_image {q | Rep64 q} (fun a => |q - a|) rep64_finite
    ⟨0, rep64_zero⟩
  exact ⟨a, ha, fun b hb => h b hb⟩

/-- The numbers whose last binary digit is zero: one digit less would do. -/
def Even64 (q : ℚ) : Prop :=
  ∃ m e : Int, |m| < 2 ^ 52 ∧ -1073 ≤ e ∧ e ≤ 972 ∧ q = m * (2 : ℚ) ^ e

/-- `a` is a nearest number to `q`. -/
def Nearest64 (q a : ℚ) : Prop := Rep64 a ∧ ∀ b, Rep64 b → |q - a| ≤ |q - b|

open Classical in
/-- Rounding to the nearest number, to an even one if there are two. -/
noncomputable def rnd64 (q : ℚ) : ℚ :=
  if h : ∃ a, Nearest64 q a ∧ Even64 a then h.choose else (nearest q).choose

theorem rnd64_spec (q : ℚ) : Nearest64 q (rnd64 q) := by
  unfold rnd64
  split
  · next h => exact h.choose_spec.1
  · exact (nearest q).choose_spec

theorem rnd64_even {q a : ℚ} (h : Nearest64 q a) (he : Even64 a) : Even64 (rnd64 q) := by
  unfold rnd64
  have h : ∃ a, Nearest64 q a ∧ Even64 a := ⟨a, h, he⟩
  rw [dif_pos h]
  exact h.choose_spec.2

theorem rnd64_rep (q : ℚ) : Rep64 (rnd64 q) := (rnd64_spec q).1

theorem rnd64_near (q b : ℚ) (hb : Rep64 b) : |q - rnd64 q| ≤ |q - b| := (rnd64_spec q).2 b hb

theorem rnd64_mono {p q : ℚ} (h : p ≤ q) : rnd64 p ≤ rnd64 q := by
  rcases h.eq_or_lt with rfl | h
  · exact le_refl _
  by_contra hc
  rw [not_le] at hc
  have h1 := rnd64_near p _ (rnd64_rep q)
  have h2 := rnd64_near q _ (rnd64_rep p)
  generalize rnd64 p = a at *
  generalize rnd64 q = b at *
  have h1' := sq_le_sq.2 h1
  have h2' := sq_le_sq.2 h2
  nlinarith

/-- The results from this size on are infinite: half a unit above the largest number. -/
def huge64 : ℚ := (2 ^ 54 - 1) * (2 : ℚ) ^ 970

/-- Binary64. -/
noncomputable def binary64 : Format where
  rep := Rep64
  rnd := rnd64
  huge := huge64
  rep_rnd := fun q _ => rnd64_rep q
  mono := fun _ _ h => rnd64_mono h
  exact := fun q h => by
    have := rnd64_near q q h
    rw [sub_self, abs_zero] at this
    have := abs_nonpos_iff.1 this
    linarith
  bound := by
    rintro q ⟨m, e, hm, _, e2, rfl⟩
    have h1 : |(m : ℚ)| ≤ 2 ^ 53 - 1 := by
      have : |m| ≤ 2 ^ 53 - 1 := by omega
      exact_mod_cast this
    have h2 : (2 : ℚ) ^ e ≤ 2 ^ (971 : Int) := zpow_le_zpow_right₀ (by norm_num) e2
    have h3 : (0 : ℚ) < (2 : ℚ) ^ e := zpow_pos (by norm_num) e
    rw [abs_mul, abs_of_pos h3]
    have h4 : (2 : ℚ) ^ (971 : Int) = 2 * 2 ^ 970 := by
      rw [show (971 : Int) = ((970 + 1 : Nat) : Int) by norm_num, zpow_natCast, pow_succ']
    have h5 : |(m : ℚ)| * 2 ^ e ≤ (2 ^ 53 - 1) * (2 * 2 ^ 970) := by
      rw [← h4]
      exact mul_le_mul h1 h2 h3.le (by norm_num)
    have h6 : ((2 : ℚ) ^ 53 - 1) * (2 * 2 ^ 970) < huge64 := by
      unfold huge64
      have : (0 : ℚ) < 2 ^ 970 := pow_pos (by norm_num) _
      clear h1 h2 h3 h4 h5
      generalize (2 : ℚ) ^ 970 = z at *
      norm_num
      linarith
    exact lt_of_le_of_lt h5 h6
  neg := by
    rintro q ⟨m, e, hm, e1, e2, rfl⟩
    exact ⟨-m, e, by rwa [abs_neg], e1, e2, by push_cast; ring⟩
  dyadic := rep64_int_pow

/-! ## Two roundings -/

/-- Numbers above four are multiples of 2^-50. -/
theorem rep64_grid {a : ℚ} (h : Rep64 a) (h4 : 4 < a) : ∃ k : Int, a = k / 2 ^ 50 := by
  obtain ⟨m, e, hm, -, -, rfl⟩ := h
  have he : -50 ≤ e := by
    by_contra hc
    have h1 : (2 : ℚ) ^ e ≤ 2 ^ (-51 : Int) := zpow_le_zpow_right₀ (by norm_num) (by omega)
    have h2 : (0 : ℚ) < 2 ^ e := zpow_pos (by norm_num) e
    have h3 : (m : ℚ) < 2 ^ 53 := by exact_mod_cast (abs_lt.1 hm).2
    have h5 : (m : ℚ) * 2 ^ e < 2 ^ 53 * 2 ^ e := mul_lt_mul_of_pos_right h3 h2
    have h6 : (2 : ℚ) ^ 53 * 2 ^ e ≤ 2 ^ 53 * 2 ^ (-51 : Int) := mul_le_mul_of_nonneg_left h1 (by norm_num)
    have h7 : (2 : ℚ) ^ 53 * 2 ^ (-51 : Int) = 4 := by norm_num
    linarith
  obtain ⟨n, hn⟩ := Int.eq_ofNat_of_zero_le (by omega : 0 ≤ e + 50)
  refine ⟨m * 2 ^ n, ?_⟩
  have : (2 : ℚ) ^ e = 2 ^ n / 2 ^ 50 := by
    rw [show e = (n : Int) + -50 by omega, zpow_add₀ (by norm_num), zpow_natCast]
    norm_num [div_eq_mul_inv]
  rw [this]
  push_cast
  ring

/-- Even numbers above four are multiples of 2^-49. -/
theorem even64_grid {a : ℚ} (h : Even64 a) (h4 : 4 < a) : ∃ k : Int, a = k / 2 ^ 49 := by
  obtain ⟨m, e, hm, -, -, rfl⟩ := h
  have he : -49 ≤ e := by
    by_contra hc
    have h1 : (2 : ℚ) ^ e ≤ 2 ^ (-50 : Int) := zpow_le_zpow_right₀ (by norm_num) (by omega)
    have h2 : (0 : ℚ) < 2 ^ e := zpow_pos (by norm_num) e
    have h3 : (m : ℚ) < 2 ^ 52 := by exact_mod_cast (abs_lt.1 hm).2
    have h5 : (m : ℚ) * 2 ^ e < 2 ^ 52 * 2 ^ e := mul_lt_mul_of_pos_right h3 h2
    have h6 : (2 : ℚ) ^ 52 * 2 ^ e ≤ 2 ^ 52 * 2 ^ (-50 : Int) := mul_le_mul_of_nonneg_left h1 (by norm_num)
    have h7 : (2 : ℚ) ^ 52 * 2 ^ (-50 : Int) = 4 := by norm_num
    linarith
  obtain ⟨n, hn⟩ := Int.eq_ofNat_of_zero_le (by omega : 0 ≤ e + 49)
  refine ⟨m * 2 ^ n, ?_⟩
  have : (2 : ℚ) ^ e = 2 ^ n / 2 ^ 49 := by
    rw [show e = (n : Int) + -49 by omega, zpow_add₀ (by norm_num), zpow_natCast]
    norm_num [div_eq_mul_inv]
  rw [this]
  push_cast
  ring

/-- Half a unit below six is rounded up to six. -/
theorem rnd64_six : rnd64 (6 - 2 / 2 ^ 52) = 6 := by
  have r6 : Rep64 6 := by simpa using rep64_int_pow 6 (by norm_num) 0 (by norm_num)
  have n6 : Nearest64 (6 - 2 / 2 ^ 52) 6 := by
    refine ⟨r6, fun b hb => ?_⟩
    have e6 : |(6 : ℚ) - 2 / 2 ^ 52 - 6| = 2 / 2 ^ 52 := by norm_num
    rw [e6]
    by_contra hc
    rw [not_le, abs_lt] at hc
    have hb4 : 4 < b := by norm_num at hc ⊢; linarith [hc.1, hc.2]
    obtain ⟨k, rfl⟩ := rep64_grid hb hb4
    have h1 : (k : ℚ) < 6 * 2 ^ 50 := by norm_num at hc ⊢; linarith [hc.1]
    have h2 : (6 * 2 ^ 50 - 1 : ℚ) < k := by norm_num at hc ⊢; linarith [hc.2]
    have h1' : k < 6 * 2 ^ 50 := by exact_mod_cast h1
    have h2' : 6 * 2 ^ 50 - 1 < k := by exact_mod_cast h2
    omega
  have e6 : Even64 6 := ⟨6, 0, by norm_num, by norm_num, by norm_num, by norm_num⟩
  have hn := rnd64_near (6 - 2 / 2 ^ 52) 6 r6
  have he := rnd64_even n6 e6
  generalize rnd64 (6 - 2 / 2 ^ 52) = a at *
  have e6 : |(6 : ℚ) - 2 / 2 ^ 52 - 6| = 2 / 2 ^ 52 := by norm_num
  rw [e6, abs_le] at hn
  have hb4 : 4 < a := by norm_num at hn ⊢; linarith [hn.1, hn.2]
  obtain ⟨k, rfl⟩ := even64_grid he hb4
  have h1 : (k : ℚ) ≤ 6 * 2 ^ 49 := by norm_num at hn ⊢; linarith [hn.1]
  have h2 : (6 * 2 ^ 49 - 1 : ℚ) < k := by norm_num at hn ⊢; linarith [hn.2]
  have h1' : k ≤ 6 * 2 ^ 49 := by exact_mod_cast h1
  have h2' : 6 * 2 ^ 49 - 1 < k := by exact_mod_cast h2
  have : k = 6 * 2 ^ 49 := by omega
  rw [this]
  norm_num

end Xcsf.Double
