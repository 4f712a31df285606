import Verif.PropsBadNet2

/-!
# C114, continued: networks over binary64 and almost all finite inputs

Inputs up to 2^970, about 10^292, are no less harmless than moderate ones: only sizes close to the largest
double overflow.
-/

set_option linter.unusedSectionVars false

namespace Xcsf.Double

/-! ## Specification -/

/-- A double of at most this many times 2^970. -/
def WithinU (b : Nat) (v : Dbl binary64) : Prop := ∃ q h, v = .fin q h ∧ |q| ≤ b * 2 ^ 970

/-! ## Lemmas -/

theorem rep_units {b : Nat} (hb : b < 2 ^ 53) : binary64.rep ((b : ℚ) * 2 ^ 970) := by
  refine ⟨(b : Int), 970, ?_, by norm_num, by norm_num, ?_⟩
  · rw [abs_of_nonneg (by positivity)]
    exact_mod_cast hb
  · rw [show (970 : Int) = ((970 : Nat) : Int) from rfl, zpow_natCast]
    push_cast
    rfl

theorem round_withinU {b : Nat} (hb : b < 2 ^ 53) {q : ℚ} (h : |q| ≤ (b : ℚ) * 2 ^ 970) :
    WithinU b (Dbl.round binary64 q) := by
  have hr := rep_units hb
  have h0 : (0 : ℚ) ≤ (b : ℚ) * 2 ^ 970 := by positivity
  generalize hU : (b : ℚ) * 2 ^ 970 = u at *
  have h1 : |q| < binary64.huge := by
    have := binary64.bound _ hr
    rw [abs_of_nonneg h0] at this
    exact lt_of_le_of_lt h this
  refine ⟨binary64.rnd q, binary64.rep_rnd q h1, ?_, ?_⟩
  · unfold Dbl.round
    rw [dif_pos h1]
  · rw [hU]
    rw [abs_le] at h ⊢
    constructor
    · rw [← binary64.exact _ (binary64.neg _ hr)]
      exact binary64.mono _ _ h.1
    · rw [← binary64.exact _ hr]
      exact binary64.mono _ _ h.2

theorem WithinU.mono {a b : Nat} {v : Dbl binary64} (h : WithinU a v) (hab : a ≤ b) : WithinU b v := by
  obtain ⟨q, hq, rfl, h⟩ := h
  exact ⟨q, hq, rfl, h.trans (mul_le_mul_of_nonneg_right (by exact_mod_cast hab) (by positivity))⟩

theorem WithinU.add {a b : Nat} (hb : a + b < 2 ^ 53) {v w : Dbl binary64} (hv : WithinU a v)
    (hw : WithinU b w) : WithinU (a + b) (v + w) := by
  obtain ⟨p, hp, rfl, h1⟩ := hv
  obtain ⟨q, hq, rfl, h2⟩ := hw
  refine round_withinU hb ?_
  push_cast
  rw [add_mul]
  exact (abs_add_le p q).trans (add_le_add h1 h2)

theorem WithinU.mul {a b : Nat} (hb : a * b < 2 ^ 53) {v w : Dbl binary64} (hv : WithinU a v)
    (hw : Within b w) : WithinU (a * b) (v * w) := by
  obtain ⟨p, hp, rfl, h1⟩ := hv
  obtain ⟨q, hq, rfl, h2⟩ := hw
  refine round_withinU hb ?_
  push_cast
  rw [abs_mul, mul_right_comm]
  exact mul_le_mul h1 h2 (abs_nonneg _) (by positivity)

theorem Within.units {a : Nat} {v : Dbl binary64} (h : Within a v) : WithinU a v := by
  obtain ⟨q, hq, rfl, h⟩ := h
  exact ⟨q, hq, rfl, h.trans (le_mul_of_one_le_right (by positivity) (one_le_pow₀ (by norm_num)))⟩

theorem sum_withinU : ∀ (l : List (DWt binary64 × Dbl binary64)) (k : Nat) (s : Dbl binary64),
    k + l.length ≤ 2 ^ 30 → WithinU (10 * k) s → (∀ p ∈ l, Within 10 p.1.w ∧ WithinU 1 p.2) →
    WithinU (10 * (k + l.length)) (l.foldl (fun s p => s + p.2 * p.1.w) s)
  | [], k, s, _, hs, _ => hs
  | p :: l, k, s, hk, hs, hl => by
    rw [List.length_cons] at hk
    obtain ⟨h1, h2⟩ := hl p List.mem_cons_self
    have h3 : WithinU 10 (p.2 * p.1.w) := h2.mul (by norm_num) h1
    have h4 := hs.add (by omega) h3
    have := sum_withinU l (k + 1) (s + p.2 * p.1.w) (by omega) (h4.mono (by omega))
      fun q hq => hl q (List.mem_cons_of_mem _ hq)
    rw [List.foldl_cons, List.length_cons]
    exact this.mono (by omega)

/-! ## Property -/

/-- **C114**, neurons: their state is a number between -100 and 100 for all inputs up to 2^970. -/
theorem C114_neuron_wide {n : DNeuron binary64} (hb : Within 10 n.bias) (hn : n.ws.length ≤ 2 ^ 30)
    (hw : ∀ p ∈ n.ws, Within 10 p.w) {x : List (Dbl binary64)} (hx : ∀ v ∈ x, WithinU 1 v) :
    Within 100 (n.state x) := by
  unfold DNeuron.state
  refine clamp_within ?_
  have hl : (List.zip n.ws x).length ≤ 2 ^ 30 := by
    rw [List.length_zip]
    omega
  have hs := sum_withinU (List.zip n.ws x) 0 0 (by omega) (within_zero.units.mono (by omega)) fun p hp =>
    ⟨hw _ (List.of_mem_zip hp).1, hx _ (List.of_mem_zip hp).2⟩
  obtain ⟨q, hq, e, -⟩ := hb.units.add (by omega) hs
  rw [e]
  exact nofun

/-- **C114**, networks that begin with a connected layer: for inputs up to 2^970 all outputs are numbers
between -200 and 200. -/
theorem C114_network_wide_partial {m : DLibm binary64} (H : m.Bounded) {ns : List (DNeuron binary64)} {fn : Nat}
    {net : List (DLay binary64)} (h1 : (DLay.conn ns fn).Moderate) (h2 : ∀ l ∈ net, l.Moderate)
    {x : List (Dbl binary64)} (hx : ∀ v ∈ x, WithinU 1 v) :
    ∀ v ∈ propagateD m (.conn ns fn :: net) x, Within 200 v := by
  show ∀ v ∈ propagateD m net ((DLay.conn ns fn).forward m x), Within 200 v
  refine C114_network_partial H h2 ?_
  intro v hv
  obtain ⟨n, hm, rfl⟩ := List.mem_map.1 hv
  obtain ⟨k1, k2, k3⟩ := h1 n hm
  exact C114_activation H fn (C114_neuron_wide k1 k2 k3 hx)

/-! ## Concrete cases -/

example : WithinU 1 (.fin (((1 : Nat) : ℚ) * 2 ^ 970) (rep_units (by norm_num))) :=
  ⟨_, _, rfl, by rw [abs_of_nonneg (by positivity)]⟩

example : Within 10 (opposed binary64).bias ∧ (opposed binary64).ws.length ≤ 2 ^ 30 :=
  ⟨within_zero.mono (by norm_num), by norm_num [opposed]⟩

end Xcsf.Double
