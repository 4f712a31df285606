import Verif.Rand
import Verif.Values
import Mathlib.Tactic.IntervalCases
import Mathlib.Algebra.Order.Floor.Semifield

/-!
# Properties C44, C45: self-adaptive mutation rates and helpers
-/

set_option linter.unusedSectionVars false

namespace Xcsf
variable {K R : Type} [Field K] [LinearOrder K] [IsStrictOrderedRing K]

/-! ## Ranges of draws -/

theorem Rng.uni_range {g : Rng K R} (H : g.Open) {lo hi : K} (h : lo < hi) (r : R) :
    lo < (g.uni lo hi r).1 ∧ (g.uni lo hi r).1 < hi := by
  obtain ⟨h0, h1⟩ := H r
  unfold Rng.uni
  constructor
  · have : 0 < (g.draw r).1 * (hi - lo) := mul_pos h0 (by linarith)
    simp only; linarith
  · have : (g.draw r).1 * (hi - lo) < 1 * (hi - lo) := mul_lt_mul_of_pos_right h1 (by linarith)
    simp only; linarith

theorem Rng.uni_nonneg {g : Rng K R} (H : g.Open) {lo hi : K} (h0 : 0 ≤ lo) (h1 : 0 ≤ hi) (r : R) :
    0 ≤ (g.uni lo hi r).1 := by
  obtain ⟨d0, d1⟩ := H r
  unfold Rng.uni
  have a := mul_nonneg h0 (by linarith : 0 ≤ 1 - (g.draw r).1)
  have b := mul_nonneg h1 d0.le
  simp only; nlinarith

theorem Rng.uni_pos {g : Rng K R} (H : g.Open) {lo hi : K} (h0 : 0 ≤ lo) (h1 : 0 < hi) (r : R) :
    0 < (g.uni lo hi r).1 := by
  obtain ⟨d0, d1⟩ := H r
  unfold Rng.uni
  have a := mul_nonneg h0 (by linarith : 0 ≤ 1 - (g.draw r).1)
  have b := mul_pos h1 d0
  simp only; nlinarith

/-! ## C45 -/

/-- **C45**, clamp: the result lies in the interval and no value of the interval is nearer. -/
theorem C45_clamp (a : K) {lo hi : K} (h : lo ≤ hi) :
    lo ≤ clampK a lo hi ∧ clampK a lo hi ≤ hi ∧
    ∀ v, lo ≤ v → v ≤ hi → |a - clampK a lo hi| ≤ |a - v| := by
  unfold clampK
  split
  · next h1 =>
    refine ⟨le_refl _, h, fun v h2 h3 => ?_⟩
    rw [abs_of_nonpos (by linarith), abs_of_nonpos (by linarith)]; linarith
  · split
    · next h1 =>
      refine ⟨h, le_refl _, fun v h2 h3 => ?_⟩
      rw [abs_of_nonneg (by linarith), abs_of_nonneg (by linarith)]; linarith
    · next h1 h2 =>
      refine ⟨by linarith, by linarith, fun v h2 h3 => ?_⟩
      rw [sub_self, abs_zero]; exact abs_nonneg _

theorem clampK_mem (a : K) {lo hi : K} (h : lo ≤ hi) : lo ≤ clampK a lo hi ∧ clampK a lo hi ≤ hi :=
  ⟨(C45_clamp a h).1, (C45_clamp a h).2.1⟩

theorem C45_clamp_int (a : Int) {lo hi : Int} (h : lo ≤ hi) :
    lo ≤ clampInt a lo hi ∧ clampInt a lo hi ≤ hi ∧
    ∀ v, lo ≤ v → v ≤ hi → |a - clampInt a lo hi| ≤ |a - v| := by
  unfold clampInt
  split
  · refine ⟨le_refl _, h, fun v h2 h3 => ?_⟩
    rw [abs_of_nonpos (by omega), abs_of_nonpos (by omega)]; omega
  · split
    · refine ⟨h, le_refl _, fun v h2 h3 => ?_⟩
      rw [abs_of_nonneg (by omega), abs_of_nonneg (by omega)]; omega
    · refine ⟨by omega, by omega, fun v h2 h3 => ?_⟩
      rw [sub_self, abs_zero]; exact abs_nonneg _

theorem argmaxGo_first : ∀ (vs : List K) (i mi : Nat) (mx : K) (pre : List K), pre.length = i →
    pre[mi]? = some mx → (∀ v ∈ pre, v ≤ mx) → (∀ j v, j < mi → pre[j]? = some v → v < mx) →
    ∃ m, (pre ++ vs)[argmaxGo vs i mi mx]? = some m ∧ (∀ v ∈ pre ++ vs, v ≤ m) ∧
      ∀ j v, j < argmaxGo vs i mi mx → (pre ++ vs)[j]? = some v → v < m
  | [], i, mi, mx, pre, _, h1, h2, h3 => by
    rw [List.append_nil]; exact ⟨mx, h1, h2, h3⟩
  | v :: vs, i, mi, mx, pre, h0, h1, h2, h3 => by
    unfold argmaxGo
    have e : pre ++ v :: vs = (pre ++ [v]) ++ vs := by simp
    rw [e]
    split
    · next hlt =>
      refine argmaxGo_first vs (i + 1) i v (pre ++ [v]) (by simp [h0]) (by simp [← h0]) ?_ ?_
      · intro w hw
        rcases List.mem_append.1 hw with hw | hw
        · exact (lt_of_le_of_lt (h2 w hw) hlt).le
        · rw [List.mem_singleton.1 hw]
      · intro j w hj hw
        rw [List.getElem?_append_left (by omega)] at hw
        exact lt_of_le_of_lt (h2 w (List.mem_of_getElem? hw)) hlt
    · next hlt =>
      have hmi : mi < pre.length := (List.getElem?_eq_some_iff.1 h1).1
      refine argmaxGo_first vs (i + 1) mi mx (pre ++ [v]) (by simp [h0])
        (by rw [List.getElem?_append_left hmi]; exact h1) ?_ ?_
      · intro w hw
        rcases List.mem_append.1 hw with hw | hw
        · exact h2 w hw
        · rw [List.mem_singleton.1 hw]; exact not_lt.1 hlt
      · intro j w hj hw
        rw [List.getElem?_append_left (by omega)] at hw
        exact h3 j w hj hw

/-- **C45**, argmax: the first index of a maximum (and it exits on the empty vector). -/
theorem C45_argmax (l : List K) (hl : l ≠ []) :
    ∃ i m, argmax l = .ok i ∧ l[i]? = some m ∧ (∀ v ∈ l, v ≤ m) ∧
      ∀ j v, j < i → l[j]? = some v → v < m := by
  cases l with
  | nil => exact absurd rfl hl
  | cons v vs =>
    obtain ⟨m, h1, h2, h3⟩ := argmaxGo_first vs 1 0 v [v] rfl rfl (by simp) (by omega)
    exact ⟨_, m, rfl, h1, h2, h3⟩

variable [FloorRing K]

/-- **C45**, random integers lie in `[min, max)`. -/
theorem C45_random_int {g : Rng K R} (H : g.Open) {lo hi : Int} (h : lo < hi) (r : R) :
    lo ≤ (g.uniInt lo hi r).1 ∧ (g.uniInt lo hi r).1 < hi := by
  obtain ⟨h0, h1⟩ := Rng.uni_range H (show (lo : K) < (hi : K) by exact_mod_cast h) r
  unfold Rng.uniInt
  exact ⟨Int.le_floor.2 h0.le, Int.floor_lt.2 h1⟩

theorem binDigits_length : ∀ (n a : Nat) (acc : List Char), (binDigits n a acc).length = n + acc.length
  | 0, a, acc => by simp [binDigits]
  | n + 1, a, acc => by unfold binDigits; rw [binDigits_length]; simp; omega

theorem binDigits_append : ∀ (n a : Nat) (acc : List Char),
    binDigits n a acc = binDigits n a [] ++ acc
  | 0, _, _ => rfl
  | n + 1, a, acc => by
    unfold binDigits
    rw [binDigits_append n (a / 2) (_ :: acc), binDigits_append n (a / 2) [_]]
    simp

theorem binDigits_get : ∀ (n a : Nat) (acc : List Char) (j : Nat), j < n →
    (binDigits n a acc)[j]? = some (if a / 2 ^ (n - 1 - j) % 2 = 0 then '0' else '1')
  | n + 1, a, acc, j, h => by
    unfold binDigits
    rcases Nat.lt_or_ge j n with hj | hj
    · rw [binDigits_get n (a / 2) _ j hj, Nat.div_div_eq_div_mul, ← Nat.pow_succ',
        show n + 1 - 1 - j = (n - 1 - j) + 1 by omega]
    · have : j = n := by omega
      subst this
      have hl : (binDigits j (a / 2) []).length = j := by rw [binDigits_length]; simp
      rw [binDigits_append, List.getElem?_append_right (by omega), hl]
      simp

/-- Digit `j` (from zero) after the point of the binary expansion of `f`. -/
def binaryDigit (f : K) (j : Nat) : Char := if ⌊f * 2 ^ (j + 1)⌋ % 2 = 0 then '0' else '1'

/-- **C45**, binary encoding: for a value in (0,1) and at most 31 bits the code is the
beginning of the binary expansion, most significant digit first; outside it saturates. -/
theorem C45_binary (f : K) {bits : Nat} (hb : bits ≤ 31) :
    ∃ l, floatToBinary f bits = .ok l ∧ l.length = bits ∧
      (1 ≤ f → l = List.replicate bits '1') ∧
      (f ≤ 0 → l = List.replicate bits '0') ∧
      (0 < f → f < 1 → ∀ j < bits, l[j]? = some (binaryDigit f j)) := by
  unfold floatToBinary
  split
  · next h =>
    exact ⟨_, rfl, by simp, fun _ => rfl, fun h2 => absurd (lt_of_lt_of_le zero_lt_one h) (not_lt.2 h2),
      fun _ h2 => absurd h (not_le.2 h2)⟩
  · next h1 =>
    split
    · next h => exact ⟨_, rfl, by simp, fun h2 => absurd h2 h1, fun _ => rfl,
        fun h2 => absurd h (not_le.2 h2)⟩
    · next h0 =>
      rw [not_le] at h0 h1
      have hp : (2 : K) ^ bits ≤ 2 ^ 31 := pow_le_pow_right₀ (by norm_num) hb
      have hp0 : (0 : K) < 2 ^ bits := by positivity
      have hlt : ¬ (2147483648 ≤ f * 2 ^ bits) := by
        rw [not_le]
        calc f * 2 ^ bits < 1 * 2 ^ bits := mul_lt_mul_of_pos_right h1 hp0
          _ ≤ 2 ^ 31 := by rw [one_mul]; exact hp
          _ = 2147483648 := by norm_num
      rw [if_neg hlt]
      refine ⟨_, rfl, by rw [binDigits_length]; simp, fun h => absurd h (not_le.2 h1),
        fun h => absurd h (not_le.2 h0), fun _ _ j hj => ?_⟩
      rw [binDigits_get _ _ _ _ hj]
      congr 1
      unfold binaryDigit
      have e : ⌊f * 2 ^ bits⌋.toNat / 2 ^ (bits - 1 - j) = ⌊f * 2 ^ (j + 1)⌋.toNat := by
        rw [Int.floor_toNat, Int.floor_toNat]
        have := Nat.floor_div_natCast (f * 2 ^ bits) (2 ^ (bits - 1 - j))
        rw [← this]
        congr 1
        push_cast
        rw [show (2 : K) ^ bits = 2 ^ (j + 1) * 2 ^ (bits - 1 - j) by rw [← pow_add]; congr 1; omega]
        field_simp
      rw [e]
      have hf : 0 ≤ ⌊f * 2 ^ (j + 1)⌋ := Int.floor_nonneg.2 (by positivity)
      have : (⌊f * 2 ^ (j + 1)⌋.toNat % 2 = 0) ↔ (⌊f * 2 ^ (j + 1)⌋ % 2 = 0) := by omega
      simp only [this]

/-- With 32 bits or more the conversion to `int` overflows for some values: the encoding is
undefined. -/
theorem C45_binary_overflow : floatToBinary (1 / 2 : K) 32 = .error .ub := by
  unfold floatToBinary
  rw [if_neg (by norm_num), if_neg (by norm_num), if_pos (by norm_num)]

/-! ## C44 -/

/-- The smallest legal rate is 0.0005; uniform rates may in principle start anywhere. -/
def LegalRate (m : K) : Prop := 5 / 10000 ≤ m ∧ m ≤ 1

theorem mrateAt_legal {i : Int} (h0 : 0 ≤ i) (h1 : i < 10) : ∃ v : K, mrateAt i = .ok v ∧ LegalRate v := by
  obtain ⟨n, rfl⟩ := Int.eq_ofNat_of_zero_le h0
  have hn : n < 10 := by omega
  unfold mrateAt
  rw [if_pos h0, Int.toNat_natCast]
  interval_cases n <;> exact ⟨_, rfl, by norm_num [LegalRate]⟩

/-- **C44**, initialisation: never fails, one legal rate per type. -/
theorem C44_init {g : Rng K R} (H : g.Open) : ∀ (ts : List SamType) (r : R),
    ∃ vs r', samInit g ts r = .ok (vs, r') ∧ vs.length = ts.length ∧ ∀ v ∈ vs, LegalRate v
  | [], r => ⟨[], r, rfl, rfl, by simp⟩
  | t :: ts, r => by
    have h1 : ∃ v r1, samInit1 g t r = .ok (v, r1) ∧ LegalRate v := by
      unfold samInit1
      have hu := Rng.uni_range H (show (muEps : K) < 1 by norm_num [muEps]) r
      have hl : LegalRate (g.uni muEps 1 r).1 := ⟨hu.1.le, hu.2.le⟩
      cases t with
      | logNormal => exact ⟨_, _, rfl, hl⟩
      | uniform => exact ⟨_, _, rfl, hl⟩
      | rateSelect =>
        obtain ⟨a, b⟩ := C45_random_int H (show (0 : Int) < 10 by decide) r
        obtain ⟨v, e, hv⟩ := mrateAt_legal (K := K) a b
        simp only [e]
        exact ⟨v, _, rfl, hv⟩
    obtain ⟨v, r1, e1, hv⟩ := h1
    obtain ⟨vs, r2, e2, hl, hvs⟩ := C44_init H ts r1
    refine ⟨v :: vs, r2, ?_, by simp [hl], ?_⟩
    · unfold samInit; rw [e1]
      show (samInit g ts r1 >>= _) = _
      rw [e2]; rfl
    · intro w hw
      rcases List.mem_cons.1 hw with rfl | hw
      · exact hv
      · exact hvs w hw

/-- **C44**, adaptation: legal rates stay legal.  (A log-normal rate becomes legal whatever it
was before.) -/
theorem C44_adapt {g : Rng K R} (H : g.Open) : ∀ (ms : List (SamType × K)) (r : R),
    (∀ m ∈ ms, m.1 = .logNormal ∨ LegalRate m.2) →
    ∃ vs r', samAdapt g ms r = .ok (vs, r') ∧ vs.length = ms.length ∧ ∀ v ∈ vs, LegalRate v
  | [], r, _ => ⟨[], r, rfl, rfl, by simp⟩
  | (t, m) :: ms, r, h => by
    have h1 : ∃ v r1, samAdapt1 g t m r = .ok (v, r1) ∧ LegalRate v := by
      unfold samAdapt1
      have hm := h (t, m) List.mem_cons_self
      cases t with
      | logNormal =>
        exact ⟨_, _, rfl, clampK_mem _ (by norm_num [muEps])⟩
      | uniform =>
        have hm : LegalRate m := by simpa using hm
        simp only
        split
        · have hu := Rng.uni_range H (show (muEps : K) < 1 by norm_num [muEps]) (g.uni 0 1 r).2
          exact ⟨_, _, rfl, hu.1.le, hu.2.le⟩
        · exact ⟨_, _, rfl, hm⟩
      | rateSelect =>
        have hm : LegalRate m := by simpa using hm
        simp only
        split
        · obtain ⟨a, b⟩ := C45_random_int H (show (0 : Int) < 10 by decide) (g.uni 0 1 r).2
          obtain ⟨v, e, hv⟩ := mrateAt_legal (K := K) a b
          simp only [e]
          exact ⟨v, _, rfl, hv⟩
        · exact ⟨_, _, rfl, hm⟩
    obtain ⟨v, r1, e1, hv⟩ := h1
    obtain ⟨vs, r2, e2, hl, hvs⟩ := C44_adapt H ms r1 (fun m hm => h m (List.mem_cons_of_mem _ hm))
    refine ⟨v :: vs, r2, ?_, by simp [hl], ?_⟩
    · unfold samAdapt; rw [e1]
      show (samAdapt g ms r1 >>= _) = _
      rw [e2]; rfl
    · intro w hw
      rcases List.mem_cons.1 hw with rfl | hw
      · exact hv
      · exact hvs w hw

/-- `n` adaptations in a row. -/
def samAdaptN (g : Rng K R) (ts : List SamType) : Nat → List K → R → Res (List K × R)
  | 0, ms, r => .ok (ms, r)
  | n + 1, ms, r => do
    let (ms, r) ← samAdapt g (ts.zip ms) r
    samAdaptN g ts n ms r

/-- **C44.** All rates are legal after initialisation and any number of adaptations. -/
theorem C44_rates_always_legal {g : Rng K R} (H : g.Open) (ts : List SamType) (r : R) (n : Nat) :
    ∃ ms r1 vs r2, samInit g ts r = .ok (ms, r1) ∧ samAdaptN g ts n ms r1 = .ok (vs, r2) ∧
      vs.length = ts.length ∧ ∀ v ∈ vs, LegalRate v := by
  obtain ⟨ms, r1, e, hl, hv⟩ := C44_init H ts r
  refine ⟨ms, r1, ?_⟩
  have key : ∀ (n : Nat) (ms : List K) (r1 : R), ms.length = ts.length → (∀ v ∈ ms, LegalRate v) →
      ∃ vs r2, samAdaptN g ts n ms r1 = .ok (vs, r2) ∧ vs.length = ts.length ∧
        ∀ v ∈ vs, LegalRate v := by
    intro n
    induction n with
    | zero => intro ms r1 hl hv; exact ⟨ms, r1, rfl, hl, hv⟩
    | succ n ih =>
      intro ms r1 hl hv
      obtain ⟨vs, r2, e2, hl2, hv2⟩ := C44_adapt H (ts.zip ms) r1
        (fun m hm => Or.inr (hv m.2 (List.of_mem_zip hm).2))
      obtain ⟨ws, r3, e3, q⟩ := ih vs r2 (by rw [hl2, List.length_zip, hl, Nat.min_self]) hv2
      refine ⟨ws, r3, ?_, q⟩
      unfold samAdaptN; rw [e2]; exact e3
  obtain ⟨vs, r2, e2, q⟩ := key n ms r1 hl hv
  exact ⟨vs, r2, e, e2, q⟩

/-! ## The hypotheses are met by concrete cases -/

/-- A concrete generator cycling through the odd eighths. -/
def demoRng : Rng ℚ Nat :=
  { draw := fun r => ((2 * ((r % 4 : Nat) : ℚ) + 1) / 8, r + 1)
    gauss := fun r => (((r % 5 : Nat) : ℚ) - 2, r + 1)
    exp := fun x => 1 + x * x }

theorem demoRng_open : demoRng.Open := by
  intro r
  simp only [demoRng]
  have : ((r % 4 : Nat) : ℚ) ≤ 3 := by exact_mod_cast (by omega : r % 4 ≤ 3)
  constructor
  · positivity
  · linarith

example : argmax ([1, 3, 2, 3] : List ℚ) = .ok 1 := by decide +kernel
example : floatToBinary (5 / 8 + 1 / 100 : ℚ) 4 = .ok ['1', '0', '1', '0'] := by decide +kernel
example : samInit demoRng [.logNormal, .rateSelect, .uniform] 1 =
    .ok ([5 / 10000 + 3 / 8 * (1 - 5 / 10000), 15 / 1000, 5 / 10000 + 7 / 8 * (1 - 5 / 10000)], 4) := by decide +kernel

end Xcsf
