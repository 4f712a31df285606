import Verif.Double
import Verif.CoreLaws
import Mathlib.Tactic.Linarith
import Mathlib.Tactic.Positivity
import Mathlib.Tactic.FieldSimp
import Mathlib.Data.Nat.Log

/-!
# Lemmas about the arithmetic of doubles
-/

set_option linter.unusedSectionVars false

namespace Xcsf.Double

variable {f : Format}

/-- Zero, positive, infinite or not a number. -/
def Dbl.Nonneg : Dbl f → Prop
  | .nan => True
  | .inf a => a = false
  | .fin q _ => 0 ≤ q

theorem nonneg_iff (a : Dbl f) : a.Nonneg ↔ ¬ a < 0 := by
  cases a with
  | nan => exact ⟨fun _ h => h, fun _ => trivial⟩
  | inf a =>
    show a = false ↔ ¬ a = true
    cases a <;> simp
  | fin q h => exact not_lt.symm

theorem rnd_zero : f.rnd 0 = 0 := f.exact 0 (by simpa using f.rep_int 0 (by norm_num))
theorem rnd_one : f.rnd 1 = 1 := f.exact 1 (by simpa using f.rep_int 1 (by norm_num))
theorem huge_pos : 0 < f.huge := by
  have := f.bound 0 (by simpa using f.rep_int 0 (by norm_num)); simpa using this

theorem round_nonneg {q : ℚ} (h : 0 ≤ q) : (Dbl.round f q).Nonneg := by
  unfold Dbl.round
  split
  · show 0 ≤ f.rnd q
    rw [← rnd_zero (f := f)]
    exact f.mono _ _ h
  · show decide (q < 0) = false
    simpa using h

theorem round_rep {q : ℚ} (h : f.rep q) : Dbl.round f q = .fin q h := by
  unfold Dbl.round
  rw [dif_pos (f.bound q h)]
  congr 1
  exact f.exact q h

theorem zero_def : (0 : Dbl f) = .fin 0 (by simpa using f.rep_int 0 (by norm_num)) := rfl
theorem one_def : (1 : Dbl f) = .fin 1 (by simpa using f.rep_int 1 (by norm_num)) := rfl

theorem fin_congr {p q : ℚ} (hp : f.rep p) (hq : f.rep q) (e : p = q) : Dbl.fin p hp = Dbl.fin q hq := by
  subst e; rfl

/-- Adding zero changes nothing. -/
theorem zero_plus (a : Dbl f) : 0 + a = a := by
  cases a with
  | nan => rfl
  | inf a => rfl
  | fin q h =>
    show Dbl.round f (0 + q) = _
    rw [zero_add, round_rep h]

/-- Nor does subtracting it. -/
theorem minus_zero (a : Dbl f) : a - 0 = a := by
  cases a with
  | nan => rfl
  | inf a => rfl
  | fin q h =>
    show Dbl.round f (q + -0) = _
    rw [neg_zero, add_zero, round_rep h]

theorem add_nonneg' {a b : Dbl f} (ha : a.Nonneg) (hb : b.Nonneg) : (a + b).Nonneg := by
  cases a with
  | nan => exact trivial
  | inf a =>
    cases ha
    cases b with
    | nan => exact trivial
    | inf b => cases hb; exact rfl
    | fin q h => exact rfl
  | fin p h =>
    cases b with
    | nan => exact trivial
    | inf b => exact hb
    | fin q h => exact round_nonneg (add_nonneg ha hb)

theorem scaled_nonneg {q : ℚ} (h : 0 ≤ q) : (Dbl.scaled false q : Dbl f).Nonneg := by
  unfold Dbl.scaled
  split
  · trivial
  · show decide (Dbl.sign false * q < 0) = false
    simp [Dbl.sign, h]

theorem mul_nonneg' {a b : Dbl f} (ha : a.Nonneg) (hb : b.Nonneg) : (a * b).Nonneg := by
  cases a with
  | nan => exact trivial
  | inf a =>
    cases ha
    cases b with
    | nan => exact trivial
    | inf b => cases hb; exact rfl
    | fin q h => exact scaled_nonneg hb
  | fin p h =>
    cases b with
    | nan => exact trivial
    | inf b => cases hb; exact scaled_nonneg ha
    | fin q h => exact round_nonneg (mul_nonneg ha hb)

theorem div_nonneg' {a b : Dbl f} (ha : a.Nonneg) (hb : b.Nonneg) : (a / b).Nonneg := by
  cases a with
  | nan => exact trivial
  | inf a =>
    cases ha
    cases b with
    | nan => exact trivial
    | inf b => exact trivial
    | fin q h =>
      show decide (Dbl.sign false * q < 0) = false
      have hb : 0 ≤ q := hb
      simp [Dbl.sign, hb]
  | fin p h =>
    cases b with
    | nan => exact trivial
    | inf b => exact le_refl (0 : ℚ)
    | fin q h =>
      show Dbl.Nonneg (if q = 0 then (if p = 0 then .nan else .inf (decide (p < 0))) else .round f (p / q))
      have ha : 0 ≤ p := ha
      split
      · split
        · trivial
        · show decide (p < 0) = false
          simpa using ha
      · exact round_nonneg (div_nonneg ha hb)

theorem int_nonneg {n : Int} (h : 0 ≤ n) : ((n : Int) : Dbl f).Nonneg := by
  show (0 : ℚ) ≤ ((toInt32 n : Int) : ℚ)
  have : 0 ≤ toInt32 n := by unfold toInt32; omega
  exact_mod_cast this

theorem one_nonneg : (1 : Dbl f).Nonneg := zero_le_one (α := ℚ)

/-- Not below `-u`. -/
def AtLeast (u : ℚ) : Dbl f → Prop
  | .nan => True
  | .inf a => a = false
  | .fin q _ => -u ≤ q

theorem round_atLeast {u q : ℚ} (hu : f.rep u) (h : -u ≤ q) : AtLeast u (Dbl.round f q) := by
  unfold Dbl.round
  split
  · show -u ≤ f.rnd q
    rw [← f.exact _ (f.neg u hu)]
    exact f.mono _ _ h
  · next hq =>
    show decide (q < 0) = false
    have := f.bound u hu
    rw [not_lt] at hq
    rw [decide_eq_false_iff_not, not_lt]
    rcases le_or_gt 0 q with h0 | h0
    · exact h0
    · rw [abs_of_neg h0] at hq
      have h1 := (abs_lt.1 this).2
      linarith

/-- A learning step from `u` towards `v` does not become negative. -/
theorem mix_nonneg {b u v : Dbl f} (hb : ¬ b < 0 ∧ ¬ 1 < b) (hu : u.Nonneg)
    (hv : v.Nonneg) : (u + b * (v - u)).Nonneg := by
  obtain ⟨h0, h1⟩ := hb
  rcases b with _ | a | ⟨β, hβ⟩
  · have e : u + (.nan : Dbl f) * (v - u) = .nan := by cases u <;> rfl
    rw [e]
    exact trivial
  · cases a with
    | true => exact absurd rfl h0
    | false => exact absurd rfl h1
  have b0 : 0 ≤ β := not_lt.1 h0
  have b1 : β ≤ 1 := not_lt.1 h1
  clear h0 h1
  cases u with
  | nan => exact trivial
  | inf a =>
    cases hu
    cases v with
    | nan => exact trivial
    | inf a => cases hv; exact trivial
    | fin q h =>
      show Dbl.Nonneg (Dbl.add (.inf false) (Dbl.scaled true β))
      unfold Dbl.scaled
      split
      · trivial
      · next hq =>
        have h0 : Dbl.sign true * β < 0 := by
          have : 0 < β := lt_of_le_of_ne b0 (Ne.symm hq)
          simp [Dbl.sign, this]
        rw [decide_eq_true h0]
        exact trivial
  | fin p hp =>
    have hu : 0 ≤ p := hu
    cases v with
    | nan => exact trivial
    | inf a =>
      cases hv
      show Dbl.Nonneg (Dbl.add (.fin p hp) (Dbl.scaled false β))
      exact add_nonneg' (a := .fin p hp) hu (scaled_nonneg b0)
    | fin q hq =>
      have hv : 0 ≤ q := hv
      have h1 : AtLeast p (Dbl.round f (q + -p)) := round_atLeast hp (by linarith)
      have h2 : AtLeast p ((Dbl.fin β hβ : Dbl f) * Dbl.round f (q + -p)) := by
        generalize Dbl.round f (q + -p) = d at h1
        cases d with
        | nan => exact trivial
        | inf a =>
          cases h1
          show AtLeast p (Dbl.scaled false β)
          have := scaled_nonneg (f := f) b0
          revert this
          generalize (Dbl.scaled false β : Dbl f) = z
          cases z with
          | nan => exact fun _ => trivial
          | inf a => exact fun h => h
          | fin w hw =>
            intro h
            have h : 0 ≤ w := h
            show -p ≤ w
            linarith
        | fin w hw =>
          have h1 : -p ≤ w := h1
          refine round_atLeast hp ?_
          rcases le_or_gt 0 w with h0 | h0
          · have := mul_nonneg b0 h0; linarith
          · nlinarith
      show Dbl.Nonneg ((Dbl.fin p hp : Dbl f) + (Dbl.fin β hβ : Dbl f) * Dbl.round f (q + -p))
      revert h2
      generalize (Dbl.fin β hβ : Dbl f) * Dbl.round f (q + -p) = z
      intro h2
      cases z with
      | nan => exact trivial
      | inf a => exact h2
      | fin w hw =>
        have h2 : -p ≤ w := h2
        exact round_nonneg (by linarith)

/-- A random number: between zero and one, and by at least 2^-52 below one. -/
def Unit52 (d : Dbl f) : Prop := ∃ q h, d = .fin q h ∧ 0 < q ∧ q ≤ 1 - 1 / 2 ^ 52

/-- A point drawn below a total is not above it. -/
theorem drawn_le {d t : Dbl f} (hd : Unit52 d) (ht : t.Nonneg) : ¬ t < 0 + d * (t - 0) := by
  obtain ⟨q, hq, rfl, h0, h1⟩ := hd
  rw [zero_plus, minus_zero]
  cases t with
  | nan => exact fun h => h
  | inf a =>
    cases ht
    show ¬ Dbl.less _ (Dbl.scaled false q)
    unfold Dbl.scaled
    rw [if_neg (ne_of_gt h0)]
    exact fun h => nomatch h.1
  | fin t hr =>
    have ht : 0 ≤ t := ht
    have h2 : q * t ≤ t := by
      have : (0 : ℚ) < 1 / 2 ^ 52 := by positivity
      nlinarith
    have h3 := mul_nonneg h0.le ht
    have hb : |q * t| < f.huge := by
      rw [abs_of_nonneg h3]
      have := (abs_lt.1 (f.bound t hr)).2
      linarith
    show ¬ Dbl.less _ (Dbl.round f (q * t))
    unfold Dbl.round
    rw [dif_pos hb]
    show ¬ t < f.rnd (q * t)
    rw [not_lt]
    exact le_trans (f.mono _ _ h2) (by rw [f.exact t hr])

/-- Between `n (1 - 2^-52)` and `n` there is a representable number. -/
theorem below_int (n : Nat) (h1 : 1 ≤ n) (h2 : n ≤ 2147483647) :
    ∃ q, f.rep q ∧ (n : ℚ) * (1 - 1 / 2 ^ 52) ≤ q ∧ q < n := by
  have hk : 2 ^ Nat.log 2 n ≤ n := Nat.pow_log_le_self 2 (by omega)
  have hk' : n < 2 ^ (Nat.log 2 n + 1) := Nat.lt_pow_succ_log_self (by decide) n
  have hl : Nat.log 2 n ≤ 31 := by
    by_contra h
    have : 2 ^ 32 ≤ 2 ^ Nat.log 2 n := Nat.pow_le_pow_right (by decide) (by omega)
    omega
  generalize Nat.log 2 n = k at *
  have hp : (2 : Nat) ^ 52 = 2 ^ k * 2 ^ (52 - k) := by rw [← pow_add]; congr 1; omega
  have hpos : 0 < 2 ^ (52 - k) := Nat.two_pow_pos _
  have hm : n * 2 ^ (52 - k) < 2 ^ 53 := by
    calc n * 2 ^ (52 - k) < 2 ^ (k + 1) * 2 ^ (52 - k) := Nat.mul_lt_mul_of_pos_right hk' hpos
      _ = 2 ^ 53 := by rw [← pow_add]; congr 1; omega
  refine ⟨((n * 2 ^ (52 - k) - 1 : Int) : ℚ) / 2 ^ (52 - k), f.dyadic _ ?_ _ (by omega), ?_, ?_⟩
  · have h3 : 1 ≤ n * 2 ^ (52 - k) := Nat.mul_pos (by omega) hpos
    have h4 : ((n : Int) * 2 ^ (52 - k)) = ((n * 2 ^ (52 - k) : Nat) : Int) := by push_cast; rfl
    rw [h4, abs_lt]
    constructor
    · have : (0 : Int) < 2 ^ 53 := by norm_num
      omega
    · have : ((n * 2 ^ (52 - k) : Nat) : Int) < 2 ^ 53 := by exact_mod_cast hm
      omega
  · have hP : (0 : ℚ) < 2 ^ (52 - k) := by positivity
    have hn : (2 : ℚ) ^ k ≤ n := by exact_mod_cast hk
    have hq : (2 : ℚ) ^ 52 = 2 ^ k * 2 ^ (52 - k) := by exact_mod_cast hp
    rw [le_div_iff₀ hP]
    push_cast
    rw [hq]
    have h2k : (0 : ℚ) < 2 ^ k := by positivity
    have h5 : (1 : ℚ) ≤ (n : ℚ) * (1 / (2 ^ k * 2 ^ (52 - k))) * 2 ^ (52 - k) := by
      have : (n : ℚ) * (1 / (2 ^ k * 2 ^ (52 - k))) * 2 ^ (52 - k) = n / 2 ^ k := by
        field_simp
      rw [this, le_div_iff₀ h2k]
      linarith
    linarith
  · have hP : (0 : ℚ) < 2 ^ (52 - k) := by positivity
    rw [div_lt_iff₀ hP]
    push_cast
    linarith

/-- A random index is within its bounds. -/
theorem index_range {d : Dbl f} (hd : Unit52 d) {n : Nat} (hn : 0 < n) :
    0 ≤ (((0 : Int) : Dbl f) + d * (((n : Int) : Dbl f) - ((0 : Int) : Dbl f))).floor ∧
    (((0 : Int) : Dbl f) + d * (((n : Int) : Dbl f) - ((0 : Int) : Dbl f))).floor < n := by
  have e0 : ((0 : Int) : Dbl f) = 0 := fin_congr _ _ (by norm_num [toInt32])
  rw [e0, zero_plus, minus_zero]
  obtain ⟨q, hq, rfl, h0, h1⟩ := hd
  have em : ∃ m : Nat, toInt32 (n : Int) = m ∧ 1 ≤ m ∧ m ≤ n ∧ m ≤ 2147483647 :=
    ⟨(toInt32 n).toNat, by unfold toInt32; omega, by unfold toInt32; omega, by unfold toInt32; omega,
      by unfold toInt32; omega⟩
  obtain ⟨m, em, m1, mn, ml⟩ := em
  have e1 : ((n : Int) : Dbl f) = .fin (m : ℚ) (by
      have := toInt32_rep f n; rw [em] at this; exact_mod_cast this) :=
    fin_congr _ _ (by rw [em]; simp)
  rw [e1]
  obtain ⟨w, hw, w1, w2⟩ := below_int (f := f) m m1 ml
  have hm0 : (0 : ℚ) < m := by exact_mod_cast m1
  have h3 : 0 < q * m := mul_pos h0 hm0
  have h4 : q * m ≤ w := le_trans (by nlinarith) w1
  have hb : |q * m| < f.huge := by
    rw [abs_of_pos h3]
    have := (abs_lt.1 (f.bound w hw)).2
    linarith
  show 0 ≤ (Dbl.round f (q * m)).floor ∧ (Dbl.round f (q * m)).floor < n
  unfold Dbl.round
  rw [dif_pos hb]
  show 0 ≤ ⌊f.rnd (q * m)⌋ ∧ ⌊f.rnd (q * m)⌋ < n
  have h5 : f.rnd (q * m) ≤ w := by
    have := f.mono _ _ h4
    rwa [f.exact w hw] at this
  have h6 : 0 ≤ f.rnd (q * m) := by
    have := f.mono _ _ h3.le
    rwa [rnd_zero] at this
  refine ⟨Int.floor_nonneg.2 h6, ?_⟩
  rw [Int.floor_lt]
  have : ((m : Nat) : ℚ) ≤ ((n : Int) : ℚ) := by exact_mod_cast mn
  linarith

end Xcsf.Double
