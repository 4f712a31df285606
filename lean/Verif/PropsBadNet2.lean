import Verif.PropsBadTree2

/-!
# C114, continued: networks compute numbers from numbers

For inputs of moderate size the outputs of networks of connected and softmax layers are numbers of moderate size,
rounding included.  Large inputs cancel to not-a-number.
-/

set_option linter.unusedSectionVars false

namespace Xcsf.Double

variable {f : Format}

/-! ## Specification -/

/-- A number of at most this size. -/
def Within (b : Nat) (v : Dbl f) : Prop := ∃ q h, v = .fin q h ∧ |q| ≤ b

/-- What the results rest on from the library: exponentials of what is between -10000 and 100 are numbers,
not negative, and of what is not positive at most one, of zero one, of what is at most 100 far from overflow; the other functions are bounded as in mathematics;
the constants have about their values. -/
structure DLibm.Bounded (m : DLibm f) : Prop where
  exp : ∀ q h, |q| ≤ 10000 → q ≤ 100 → ∃ p hp, m.exp (.fin q h) = .fin p hp ∧ 0 ≤ p ∧ (q ≤ 0 → p ≤ 1)
  exp_zero : m.exp 0 = 1
  exp_range : ∀ q h p hp, |q| ≤ 100 → m.exp (.fin q h) = .fin p hp → 4 * p < f.huge
  soft : ∀ v, Within 100 v → Within 200 (m.log1p (m.exp v))
  expm1 : ∀ q h, |q| ≤ 100 → ∃ p hp, m.expm1 (.fin q h) = .fin p hp ∧ (q < 0 → |p| ≤ 1)
  tanh : ∀ v, Within 100 v → Within 1 (m.tanh v)
  sin : ∀ v, Within 100 v → Within 1 (m.sin v)
  cos : ∀ v, Within 100 v → Within 1 (m.cos v)
  tenth : Within 1 m.tenth
  seluA : Within 2 m.seluA
  seluB : Within 2 m.seluB

/-- Weights and biases as learning leaves them, neurons with an at most moderate number of inputs; scales
not below a twentieth. -/
def DLay.Moderate : DLay f → Prop
  | .conn ns _ => ∀ n ∈ ns, Within 10 n.bias ∧ n.ws.length ≤ 2 ^ 30 ∧ ∀ p ∈ n.ws, Within 10 p.w
  | .soft scale => ∃ q h, scale = .fin q h ∧ 1 / 20 ≤ q

/-! ## Lemmas -/

theorem round_within {b : Nat} (hb : b < 2 ^ 53) {q : ℚ} (h : |q| ≤ b) : Within b (Dbl.round f q) := by
  have hr : f.rep (b : ℚ) := by
    have := f.rep_int (b : Int) (by rw [abs_of_nonneg (by positivity)]; exact_mod_cast hb)
    simpa using this
  have h1 : |q| < f.huge := by
    have := f.bound _ hr
    rw [abs_of_nonneg (by positivity)] at this
    exact lt_of_le_of_lt h this
  refine ⟨f.rnd q, f.rep_rnd q h1, ?_, ?_⟩
  · unfold Dbl.round
    rw [dif_pos h1]
  · rw [abs_le] at h ⊢
    constructor
    · rw [← f.exact _ (f.neg _ hr)]
      exact f.mono _ _ h.1
    · rw [← f.exact _ hr]
      exact f.mono _ _ h.2

theorem Within.mono {a b : Nat} {v : Dbl f} (h : Within a v) (hab : a ≤ b) : Within b v := by
  obtain ⟨q, hq, rfl, h⟩ := h
  exact ⟨q, hq, rfl, h.trans (by exact_mod_cast hab)⟩

theorem Within.add {a b : Nat} (hb : a + b < 2 ^ 53) {v w : Dbl f} (hv : Within a v) (hw : Within b w) :
    Within (a + b) (v + w) := by
  obtain ⟨p, hp, rfl, h1⟩ := hv
  obtain ⟨q, hq, rfl, h2⟩ := hw
  refine round_within hb ?_
  push_cast
  exact (abs_add_le p q).trans (add_le_add h1 h2)

theorem Within.mul {a b : Nat} (hb : a * b < 2 ^ 53) {v w : Dbl f} (hv : Within a v) (hw : Within b w) :
    Within (a * b) (v * w) := by
  obtain ⟨p, hp, rfl, h1⟩ := hv
  obtain ⟨q, hq, rfl, h2⟩ := hw
  refine round_within hb ?_
  push_cast
  rw [abs_mul]
  exact mul_le_mul h1 h2 (abs_nonneg _) (by positivity)

theorem Within.minus {a : Nat} {v : Dbl f} (hv : Within a v) : Within a v.minus := by
  obtain ⟨p, hp, rfl, h1⟩ := hv
  exact ⟨-p, f.neg p hp, rfl, by rwa [abs_neg]⟩

theorem within_one : Within 1 (1 : Dbl f) := ⟨1, _, one_def, by norm_num⟩
theorem within_zero : Within 0 (0 : Dbl f) := ⟨0, _, zero_def, by norm_num⟩

theorem truth_within (b : Bool) : Within 1 (truth b : Dbl f) := by
  cases b with
  | true => exact within_one
  | false => exact within_zero.mono (by norm_num)

theorem clamp_within {a : Dbl f} (ha : a ≠ .nan) :
    Within 100 (clampD a (((-100 : Int)) : Dbl f) ((100 : Int) : Dbl f)) := by
  have t1 : ((toInt32 (-100) : Int) : ℚ) = -100 := by norm_num [toInt32]
  have t2 : ((toInt32 100 : Int) : ℚ) = 100 := by norm_num [toInt32]
  unfold clampD
  split
  · exact ⟨_, _, rfl, by rw [t1]; norm_num⟩
  · next h1 =>
    split
    · exact ⟨_, _, rfl, by rw [t2]; norm_num⟩
    · next h2 =>
      cases a with
      | nan => exact absurd rfl ha
      | inf s =>
        cases s with
        | true => exact absurd rfl h1
        | false => exact absurd rfl h2
      | fin q h =>
        have h1' : ¬ q < ((toInt32 (-100) : Int) : ℚ) := h1
        have h2' : ¬ ((toInt32 100 : Int) : ℚ) < q := h2
        rw [t1] at h1'
        rw [t2] at h2'
        refine ⟨q, h, rfl, ?_⟩
        rw [abs_le]
        push_cast
        exact ⟨not_lt.1 h1', not_lt.1 h2'⟩

theorem sum_within : ∀ (l : List (DWt f × Dbl f)) (k : Nat) (s : Dbl f), k + l.length ≤ 2 ^ 30 →
    Within (2000 * k) s → (∀ p ∈ l, Within 10 p.1.w ∧ Within 200 p.2) →
    Within (2000 * (k + l.length)) (l.foldl (fun s p => s + p.2 * p.1.w) s)
  | [], k, s, _, hs, _ => hs
  | p :: l, k, s, hk, hs, hl => by
    rw [List.length_cons] at hk
    obtain ⟨h1, h2⟩ := hl p List.mem_cons_self
    have h3 : Within 2000 (p.2 * p.1.w) := h2.mul (by norm_num) h1
    have h4 := hs.add (by omega) h3
    have := sum_within l (k + 1) (s + p.2 * p.1.w) (by omega) (h4.mono (by omega))
      fun q hq => hl q (List.mem_cons_of_mem _ hq)
    rw [List.foldl_cons, List.length_cons]
    exact this.mono (by omega)

theorem state_within {n : DNeuron f} (hb : Within 10 n.bias) (hn : n.ws.length ≤ 2 ^ 30)
    (hw : ∀ p ∈ n.ws, Within 10 p.w) {x : List (Dbl f)} (hx : ∀ v ∈ x, Within 200 v) :
    Within 100 (n.state x) := by
  unfold DNeuron.state
  refine clamp_within ?_
  have hl : (List.zip n.ws x).length ≤ 2 ^ 30 := by
    rw [List.length_zip]
    omega
  have hs := sum_within (List.zip n.ws x) 0 0 (by omega) (within_zero.mono (by omega)) fun p hp =>
    ⟨hw _ (List.of_mem_zip hp).1, hx _ (List.of_mem_zip hp).2⟩
  obtain ⟨q, hq, e, -⟩ := hb.add (by omega) hs
  rw [e]
  exact nofun

/-- Dividing by a number that is at least one. -/
theorem div_within {a : Nat} (ha : a < 2 ^ 53) {v w : Dbl f} (hv : Within a v)
    (hw : ∃ q h, w = .fin q h ∧ 1 ≤ q ∨ w = .inf false) : Within a (v / w) := by
  obtain ⟨p, hp, rfl, h1⟩ := hv
  obtain ⟨q, hq, ⟨rfl, h2⟩ | rfl⟩ := hw
  · have h0 : q ≠ 0 := by
      intro e
      rw [e] at h2
      norm_num at h2
    have e : (.fin p hp : Dbl f) / .fin q hq = Dbl.round f (p / q) := by
      show (if q = 0 then (if p = 0 then Dbl.nan else .inf (decide (p < 0))) else _) = _
      rw [if_neg h0]
    rw [e]
    refine round_within ha ?_
    rw [abs_div, abs_of_pos (lt_of_lt_of_le one_pos h2)]
    exact (div_le_self (abs_nonneg p) h2).trans h1
  · exact within_zero.mono (Nat.zero_le _)

theorem one_plus {p : ℚ} {hp : f.rep p} (h : 0 ≤ p) :
    ∃ q h, (1 + .fin p hp : Dbl f) = .fin q h ∧ 1 ≤ q ∨ (1 + .fin p hp : Dbl f) = .inf false := by
  have e : (1 + .fin p hp : Dbl f) = Dbl.round f (1 + p) := rfl
  by_cases hb : |1 + p| < f.huge
  · refine ⟨f.rnd (1 + p), f.rep_rnd _ hb, .inl ⟨?_, ?_⟩⟩
    · rw [e]
      unfold Dbl.round
      rw [dif_pos hb]
    · have h1 := f.mono 1 (1 + p) (by linarith)
      rwa [rnd_one] at h1
  · refine ⟨1, by simpa using f.rep_int 1 (by norm_num), .inr ?_⟩
    rw [e]
    unfold Dbl.round
    rw [dif_neg hb, decide_eq_false (by linarith)]

theorem truth_mul (b : Bool) {q : ℚ} (h : f.rep q) :
    (truth b : Dbl f) * .fin q h = if b then .fin q h else 0 := by
  cases b with
  | true => exact one_times h
  | false => exact zero_times h

/-- Division by the denominator of the logistic function. -/
theorem logistic_within {m : DLibm f} (H : m.Bounded) {v : Dbl f} (hv : Within 100 v) :
    ∀ c : Nat, c < 2 ^ 53 → ∀ w : Dbl f, Within c w → Within c (w / (1 + m.exp v.minus)) := by
  intro c hc w hw
  obtain ⟨q, hq, rfl, h1⟩ := hv
  have h1' : |q| ≤ 100 := by exact_mod_cast h1
  rw [abs_le] at h1'
  obtain ⟨p, hp, e, h2, -⟩ := H.exp (-q) (f.neg q hq) (by rw [abs_neg, abs_le]; constructor <;> linarith)
    (by linarith)
  show Within c (w / (1 + m.exp (.fin (-q) _)))
  rw [e]
  exact div_within hc hw (one_plus h2)
/-- The gaussian function. -/
theorem gaussian_within {m : DLibm f} (H : m.Bounded) {v : Dbl f} (hv : Within 100 v) :
    Within 1 (m.exp (v.minus * v)) := by
  obtain ⟨q, hq, rfl, h1⟩ := hv
  have h1' : |q| ≤ 100 := by exact_mod_cast h1
  have h2 : |-(q * q)| ≤ ((10000 : Nat) : ℚ) := by
    rw [abs_neg, abs_mul]
    have := mul_le_mul h1' h1' (abs_nonneg q) (by norm_num)
    push_cast
    linarith
  have h3 : -q * q = -(q * q) := by ring
  have e : (Dbl.fin q hq).minus * Dbl.fin q hq = Dbl.round f (-(q * q)) := by
    rw [← h3]
    rfl
  obtain ⟨r, hr, e', h4⟩ := round_within (f := f) (by norm_num) h2
  have h5 : r ≤ 0 := by
    have hh : |-(q * q)| < f.huge := by
      by_contra hc
      unfold Dbl.round at e'
      rw [dif_neg hc] at e'
      cases e'
    unfold Dbl.round at e'
    rw [dif_pos hh] at e'
    injection e' with e'
    rw [← e', ← rnd_zero (f := f)]
    exact f.mono _ _ (by nlinarith)
  obtain ⟨p, hp, e'', h6, h7⟩ := H.exp r hr (by exact_mod_cast h4) (by linarith)
  rw [e, e', e'']
  refine ⟨p, hp, rfl, ?_⟩
  rw [abs_of_nonneg h6]
  exact_mod_cast h7 h5

/-- **C114**, networks: no activation function makes anything but numbers of moderate size of the states
of neurons. -/
theorem C114_activation {m : DLibm f} (H : m.Bounded) (a : Nat) {v : Dbl f} (hv : Within 100 v) :
    Within 200 (activateD m a v) := by
  have hlog := logistic_within H hv
  unfold activateD
  split
  · exact (hlog 1 (by norm_num) 1 within_one).mono (by norm_num)
  · exact (hv.mul (by norm_num) (truth_within _)).mono (by norm_num)
  · exact (H.tanh v hv).mono (by norm_num)
  · exact hv.mono (by norm_num)
  · exact (gaussian_within H hv).mono (by norm_num)
  · exact (H.sin v hv).mono (by norm_num)
  · exact (H.cos v hv).mono (by norm_num)
  · exact H.soft v hv
  · split
    · exact hv.mono (by norm_num)
    · exact (H.tenth.mul (by norm_num) hv).mono (by norm_num)
  · obtain ⟨q, hq, rfl, h1⟩ := hv
    have h1' : |q| ≤ 100 := by exact_mod_cast h1
    obtain ⟨p, hp, e, h2⟩ := H.expm1 q hq h1'
    have hA : Within 2 (truth (decide ((0 : Dbl f) < .fin q hq) || decide ((.fin q hq : Dbl f) = 0)) * m.seluA) :=
      (truth_within _).mul (by norm_num) H.seluA
    rw [e]
    by_cases hn : q < 0
    · have d1 : (decide ((0 : Dbl f) < .fin q hq) || decide ((.fin q hq : Dbl f) = 0)) = false := by
        rw [Bool.or_eq_false_iff]
        refine ⟨decide_eq_false ?_, decide_eq_false ?_⟩
        · show ¬ (0 : ℚ) < q
          linarith
        · rw [zero_def]
          intro e
          injection e with e
          linarith
      have z : (truth false : Dbl f) * m.seluA = 0 := by
        obtain ⟨a, ha, e, -⟩ := H.seluA
        rw [e, truth_mul]
        rfl
      rw [d1, z, zero_times, zero_plus]
      have := (((truth_within (f := f) (decide ((.fin q hq : Dbl f) < 0))).mul (by norm_num) H.seluA).mul
        (by norm_num) H.seluB).mul (b := 1) (by norm_num) (w := .fin p hp)
        ⟨p, hp, rfl, by exact_mod_cast h2 hn⟩
      exact this.mono (by norm_num)
    · have d2 : decide ((.fin q hq : Dbl f) < 0) = false := decide_eq_false hn
      have z : (truth false : Dbl f) * m.seluA = 0 := by
        obtain ⟨a, ha, e, -⟩ := H.seluA
        rw [e, truth_mul]
        rfl
      have z' : (0 : Dbl f) * m.seluB = 0 := by
        obtain ⟨a, ha, e, -⟩ := H.seluB
        rw [e, zero_times]
      rw [d2, z, z', zero_times, plus_zero]
      exact (hA.mul (by norm_num) ⟨q, hq, rfl, h1⟩).mono (by norm_num)
  · have h2 : Within 2 ((1 : Dbl f) + 1) := within_one.add (by norm_num) within_one
    have h3 := (hlog 2 (by norm_num) _ h2).add (b := 1) (by norm_num) (within_one (f := f)).minus
    exact h3.mono (by norm_num)

/-! ### Softmax -/

/-- The largest, as the loop finds it. -/
theorem largest_spec : ∀ (l : List (Dbl f)) (a : Dbl f), Within 200 a → (∀ v ∈ l, Within 200 v) →
    ∃ q h, l.foldl (fun a v => if a < v then v else a) a = .fin q h ∧ |q| ≤ 200 ∧
      (.fin q h = a ∨ .fin q h ∈ l) ∧
      (∀ p hp, (.fin p hp = a ∨ .fin p hp ∈ l) → p ≤ q)
  | [], a, ha, _ => by
    obtain ⟨q, h, rfl, hq⟩ := ha
    refine ⟨q, h, rfl, by exact_mod_cast hq, .inl rfl, fun p hp hm => ?_⟩
    rcases hm with e | e
    · injection e with e
      exact e.le
    · cases e
  | v :: l, a, ha, hl => by
    have hv := hl v List.mem_cons_self
    have hl' : ∀ w ∈ l, Within 200 w := fun w hw => hl w (List.mem_cons_of_mem _ hw)
    have hc : Within 200 (if a < v then v else a) := by
      split
      · exact hv
      · exact ha
    obtain ⟨q, h, e, hq, hm, hle⟩ := largest_spec l _ hc hl'
    obtain ⟨pa, ha', rfl, -⟩ := ha
    obtain ⟨pv, hv', rfl, -⟩ := hv
    have hi : ((.fin pa ha' : Dbl f) < .fin pv hv') ↔ pa < pv := Iff.rfl
    refine ⟨q, h, e, hq, ?_, fun p hp hmem => ?_⟩
    · rcases hm with hm | hm
      · rw [hm]
        split
        · exact .inr List.mem_cons_self
        · exact .inl rfl
      · exact .inr (List.mem_cons_of_mem _ hm)
    · by_cases hlt : pa < pv
      · rw [if_pos (hi.2 hlt)] at hle
        rcases hmem with e | e
        · injection e with e
          rw [e]
          exact hlt.le.trans (hle pv hv' (.inl rfl))
        · rcases List.mem_cons.1 e with e | e
          · exact hle p hp (.inl e)
          · exact hle p hp (.inr e)
      · rw [if_neg (fun h => hlt (hi.1 h))] at hle
        rcases hmem with e | e
        · exact hle p hp (.inl e)
        · rcases List.mem_cons.1 e with e | e
          · injection e with e
            rw [e]
            exact (not_lt.1 hlt).trans (hle pa ha' (.inl rfl))
          · exact hle p hp (.inr e)

/-- A number of at least this size, or infinite. -/
def NoLess (b : ℚ) (v : Dbl f) : Prop := (∃ q h, v = .fin q h ∧ b ≤ q) ∨ v = .inf false

theorem NoLess.plus {b : ℚ} (hr : f.rep b) {v : Dbl f} (hv : NoLess b v) {p : ℚ} {hp : f.rep p}
    (h0 : 0 ≤ p) (hb : 0 ≤ b) : NoLess b (v + .fin p hp) := by
  rcases hv with ⟨q, hq, rfl, h⟩ | rfl
  · have e : (.fin q hq + .fin p hp : Dbl f) = Dbl.round f (q + p) := rfl
    by_cases hh : |q + p| < f.huge
    · refine .inl ⟨f.rnd (q + p), f.rep_rnd _ hh, ?_, ?_⟩
      · rw [e]
        unfold Dbl.round
        rw [dif_pos hh]
      · have h1 := f.mono b (q + p) (by linarith)
        rwa [f.exact _ hr] at h1
    · refine .inr ?_
      rw [e]
      unfold Dbl.round
      rw [dif_neg hh, decide_eq_false (by linarith)]
  · exact .inr rfl

/-- Sums of numbers that are not negative and of which one is one. -/
theorem sum_at_least : ∀ (l : List (Dbl f)) (s : Dbl f),
    (∀ v ∈ l, ∃ p hp, v = .fin p hp ∧ 0 ≤ p) →
    (NoLess 1 s ∨ (NoLess 0 s ∧ (1 : Dbl f) ∈ l)) → NoLess 1 (l.foldl (· + ·) s)
  | [], s, _, h => by
    rcases h with h | ⟨_, h⟩
    · exact h
    · cases h
  | v :: l, s, hl, h => by
    have r0 : f.rep 0 := by simpa using f.rep_int 0 (by norm_num)
    have r1 : f.rep 1 := by simpa using f.rep_int 1 (by norm_num)
    obtain ⟨p, hp, e, h0⟩ := hl v List.mem_cons_self
    refine sum_at_least l (s + v) (fun w hw => hl w (List.mem_cons_of_mem _ hw)) ?_
    rw [e]
    rcases h with h | ⟨h, hm⟩
    · exact .inl (h.plus r1 h0 (by norm_num))
    · rcases List.mem_cons.1 hm with hm | hm
      · refine .inl ?_
        rw [e, one_def] at hm
        injection hm with hm
        subst hm
        rcases h with ⟨q, hq, rfl, h⟩ | rfl
        · have e' : (.fin q hq + .fin 1 hp : Dbl f) = .fin 1 hp + .fin q hq := by
            show Dbl.round f _ = Dbl.round f _
            rw [add_comm]
          rw [e']
          exact NoLess.plus r1 (.inl ⟨1, hp, rfl, le_refl _⟩) h (by norm_num)
        · exact .inr rfl
      · exact .inr ⟨h.plus r0 h0 (le_refl _), hm⟩

theorem div_fin {p q : ℚ} {hp : f.rep p} {hq : f.rep q} (h0 : q ≠ 0) :
    (.fin p hp : Dbl f) / .fin q hq = Dbl.round f (p / q) := by
  show (if q = 0 then (if p = 0 then Dbl.nan else .inf (decide (p < 0))) else _) = _
  rw [if_neg h0]

/-- Rounding of moderate numbers. -/
theorem round_moderate {q : ℚ} (h : |q| ≤ 8000) :
    ∃ hr, Dbl.round f q = .fin (f.rnd q) hr ∧ |f.rnd q| ≤ 8000 := by
  obtain ⟨r, hr, e, h1⟩ := round_within (f := f) (b := 8000) (by norm_num) (by exact_mod_cast h)
  have hh : |q| < f.huge := by
    by_contra hc
    unfold Dbl.round at e
    rw [dif_neg hc] at e
    cases e
  have e' := e
  unfold Dbl.round at e'
  rw [dif_pos hh] at e'
  injection e' with e'
  subst e'
  exact ⟨hr, e, by exact_mod_cast h1⟩

/-- The exponents of softmax: not positive, of moderate size, zero for the largest. -/
theorem exponent_spec {p l s : ℚ} {hp : f.rep p} {hl : f.rep l} {hs : f.rep s} (h1 : |p| ≤ 200)
    (h2 : |l| ≤ 200) (hpl : p ≤ l) (h3 : 1 / 20 ≤ s) :
    ∃ r hr, (.fin p hp / .fin s hs - .fin l hl / .fin s hs : Dbl f) = .fin r hr ∧ |r| ≤ 8000 ∧ r ≤ 0 ∧
      (p = l → r = 0) := by
  have hs0 : 0 < s := by linarith
  have bound : ∀ a : ℚ, |a| ≤ 200 → |a / s| ≤ ((4000 : Nat) : ℚ) := by
    intro a ha
    rw [abs_div, abs_of_pos hs0, div_le_iff₀ hs0]
    push_cast
    linarith
  have bp := bound p h1
  have bl := bound l h2
  obtain ⟨wp, ep, -⟩ := round_moderate (f := f) (q := p / s) (bp.trans (by norm_num))
  obtain ⟨wl, el, -⟩ := round_moderate (f := f) (q := l / s) (bl.trans (by norm_num))
  have cp : |f.rnd (p / s)| ≤ 4000 := by
    obtain ⟨r, hr, e, h⟩ := round_within (f := f) (b := 4000) (by norm_num) bp
    rw [ep] at e
    injection e with e
    rw [e]
    exact_mod_cast h
  have cl : |f.rnd (l / s)| ≤ 4000 := by
    obtain ⟨r, hr, e, h⟩ := round_within (f := f) (b := 4000) (by norm_num) bl
    rw [el] at e
    injection e with e
    rw [e]
    exact_mod_cast h
  have hle : f.rnd (p / s) ≤ f.rnd (l / s) := f.mono _ _ (div_le_div_of_nonneg_right hpl hs0.le)
  rw [div_fin hs0.ne', div_fin hs0.ne', ep, el]
  have hd : |f.rnd (p / s) + -f.rnd (l / s)| ≤ 8000 := by
    rw [abs_le] at cp cl ⊢
    constructor <;> linarith
  obtain ⟨hr, e, h⟩ := round_moderate (f := f) hd
  refine ⟨_, hr, e, h, ?_, ?_⟩
  · have := f.mono (f.rnd (p / s) + -f.rnd (l / s)) 0 (by linarith)
    rwa [rnd_zero] at this
  · rintro rfl
    rw [add_neg_cancel, rnd_zero]

/-- **C114**, softmax layers: of inputs between -200 and 200 they make numbers between zero and one, however
many there are. -/
theorem C114_softmax {m : DLibm f} (H : m.Bounded) {scale : Dbl f} (hs : ∃ q h, scale = .fin q h ∧ 1 / 20 ≤ q)
    {x : List (Dbl f)} (hx : ∀ v ∈ x, Within 200 v) :
    ∀ v ∈ (DLay.soft scale).forward m x, ∃ q h, v = .fin q h ∧ 0 ≤ q ∧ Within 1 v := by
  obtain ⟨s, hs', rfl, h3⟩ := hs
  cases x with
  | nil => exact fun v hv => absurd hv List.not_mem_nil
  | cons a t =>
    obtain ⟨l, hl, e, h2, hm, hle⟩ := largest_spec t a (hx a List.mem_cons_self)
      fun v hv => hx v (List.mem_cons_of_mem _ hv)
    have hes : softExps m (.fin s hs') (a :: t) =
        (a :: t).map fun v => m.exp (v / .fin s hs' - .fin l hl / .fin s hs') := by
      show (a :: t).map (fun v => m.exp (v / .fin s hs' -
        t.foldl (fun a v => if a < v then v else a) a / .fin s hs')) = _
      rw [e]
    have hexp : ∀ v ∈ softExps m (.fin s hs') (a :: t), ∃ p hp, v = .fin p hp ∧ 0 ≤ p ∧ p ≤ 1 := by
      rw [hes]
      intro v hv
      obtain ⟨w, hw, rfl⟩ := List.mem_map.1 hv
      obtain ⟨p, hp, rfl, h1⟩ := hx w hw
      obtain ⟨r, hr, e', b1, b2, -⟩ := exponent_spec (hp := hp) (hl := hl) (hs := hs') (by exact_mod_cast h1) h2
        (hle p hp ((List.mem_cons.1 hw).imp id id)) h3
      obtain ⟨u, hu, e'', c1, c2⟩ := H.exp r hr (by linarith) (by linarith)
      exact ⟨u, hu, by rw [e', e''], c1, c2 b2⟩
    have hone : (1 : Dbl f) ∈ softExps m (.fin s hs') (a :: t) := by
      rw [hes]
      refine List.mem_map.2 ⟨.fin l hl, List.mem_cons.2 hm, ?_⟩
      obtain ⟨r, hr, e', -, -, b⟩ := exponent_spec (hp := hl) (hl := hl) (hs := hs') h2 h2 (le_refl l) h3
      have b := b rfl
      subst b
      rw [e', ← zero_def, H.exp_zero]
    have hsum := sum_at_least _ (0 : Dbl f) (fun v hv => by
        obtain ⟨p, hp, e, h, -⟩ := hexp v hv
        exact ⟨p, hp, e, h⟩) (.inr ⟨.inl ⟨0, _, zero_def, le_refl _⟩, hone⟩)
    intro v hv
    obtain ⟨w, hw, rfl⟩ := List.mem_map.1 hv
    obtain ⟨p, hp, rfl, c1, c2⟩ := hexp w hw
    have hw1 : Within 1 (.fin p hp : Dbl f) := ⟨p, hp, rfl, by rw [abs_of_nonneg c1]; exact_mod_cast c2⟩
    show ∃ q h, (.fin p hp / (softExps m (.fin s hs') (a :: t)).foldl (· + ·) 0 : Dbl f) = .fin q h ∧ _ ∧
      Within 1 (.fin p hp / (softExps m (.fin s hs') (a :: t)).foldl (· + ·) 0 : Dbl f)
    rcases hsum with ⟨q, hq, e, h⟩ | e
    · rw [e]
      have hd := div_within (by norm_num) hw1 ⟨q, hq, .inl ⟨rfl, h⟩⟩
      obtain ⟨r, hr, e', h'⟩ := id hd
      refine ⟨r, hr, e', ?_, hd⟩
      rw [div_fin (by linarith)] at e'
      unfold Dbl.round at e'
      split at e'
      · injection e' with e'
        rw [← e', ← rnd_zero (f := f)]
        exact f.mono _ _ (div_nonneg c1 (by linarith))
      · cases e'
    · rw [e]
      exact ⟨0, _, zero_def, le_refl _, div_within (by norm_num) hw1 ⟨p, hp, .inr rfl⟩⟩

/-- **C114**, networks of connected and softmax layers: for inputs between -200 and 200, weights and biases within
their limits, scales not below a twentieth and any activation functions, all outputs are numbers between -200 and 200. -/
theorem C114_network_partial {m : DLibm f} (H : m.Bounded) : ∀ {net : List (DLay f)} {x : List (Dbl f)},
    (∀ l ∈ net, l.Moderate) → (∀ v ∈ x, Within 200 v) → ∀ v ∈ propagateD m net x, Within 200 v
  | [], _, _, hx => hx
  | l :: net, x, hn, hx => by
    show ∀ v ∈ propagateD m net (l.forward m x), Within 200 v
    refine C114_network_partial H (fun k hk => hn k (List.mem_cons_of_mem _ hk)) ?_
    have hl := hn l List.mem_cons_self
    cases l with
    | soft scale =>
      intro v hv
      obtain ⟨q, h, rfl, -, h2⟩ := C114_softmax H hl hx v hv
      exact h2.mono (by norm_num)
    | conn ns fn =>
      intro v hv
      obtain ⟨n, hm, rfl⟩ := List.mem_map.1 hv
      obtain ⟨h1, h2, h3⟩ := hl n hm
      exact C114_activation H fn (state_within h1 h2 h3 hx)

/-! ## Large inputs -/

theorem ten_def : ((10 : Int) : Dbl f) = .fin 10 (by simpa using f.rep_int 10 (by norm_num)) := by
  show Dbl.fin _ _ = _
  exact fin_congr _ _ (by norm_num [toInt32])

theorem minus_ten_def : ((-10 : Int) : Dbl f) = .fin (-10) (by simpa using f.rep_int (-10) (by norm_num)) := by
  show Dbl.fin _ _ = _
  exact fin_congr _ _ (by norm_num [toInt32])

/-- The largest power of two. -/
noncomputable def large : Dbl binary64 := .fin (2 ^ 1024 / 2) (rep_pow (le_refl _))

theorem large_ten : large * ((10 : Int) : Dbl binary64) = .inf false := by
  rw [ten_def]
  show Dbl.round binary64 ((2 : ℚ) ^ 1024 / 2 * 10) = _
  have h0 : (0 : ℚ) ≤ (2 : ℚ) ^ 1024 / 2 * 10 := by positivity
  have h1 : 2 * ((2 : ℚ) ^ 1024 / 2) ≤ (2 : ℚ) ^ 1024 / 2 * 10 := by
    have : (0 : ℚ) ≤ (2 : ℚ) ^ 1024 / 2 := by positivity
    generalize (2 : ℚ) ^ 1024 / 2 = z at *
    linarith
  unfold Dbl.round
  rw [dif_neg (by rw [abs_of_nonneg h0]; exact not_lt.2 (pow_over.trans h1)), decide_eq_false (not_lt.2 h0)]

theorem large_minus_ten : large * ((-10 : Int) : Dbl binary64) = .inf true := by
  rw [minus_ten_def]
  show Dbl.round binary64 ((2 : ℚ) ^ 1024 / 2 * -10) = _
  have hp : (0 : ℚ) < (2 : ℚ) ^ 1024 / 2 := by positivity
  have hz := pow_over
  generalize (2 : ℚ) ^ 1024 / 2 = z at *
  have h0 : z * -10 < 0 := by linarith
  unfold Dbl.round
  rw [dif_neg (by rw [abs_of_neg h0, not_lt]; linarith), decide_eq_true h0]

/-- A neuron with the largest and the smallest weight. -/
def opposed (f : Format) : DNeuron f := ⟨0, 0, [⟨((10 : Int) : Dbl f), 0, true⟩, ⟨((-10 : Int) : Dbl f), 0, true⟩]⟩

/-- **C114** (refuted), networks, large finite inputs: weights of opposite sign make of two large inputs
infinities that cancel to not-a-number, whatever the activation function; a condition of such a neuron
does not match. -/
theorem C114_network_overflow_refuted {m : DLibm binary64} (H : m.Honest) (fn : Nat) :
    propagateD m [.conn [opposed binary64] fn] [large, large] = [.nan] ∧
    netMatchD m [.conn [opposed binary64] fn] [large, large] = false := by
  have hs : (opposed binary64).state [large, large] = .nan := by
    show clampD (0 + (0 + large * ((10 : Int) : Dbl binary64) + large * ((-10 : Int) : Dbl binary64))) _ _ = _
    rw [large_ten, large_minus_ten, zero_plus, zero_plus]
    exact clampD_nan _ _
  have hp : propagateD m [.conn [opposed binary64] fn] [large, large] = [.nan] := by
    show [activateD m fn ((opposed binary64).state [large, large])] = _
    rw [hs, C111_activation_nan H]
  refine ⟨hp, ?_⟩
  unfold netMatchD
  rw [hp]
  exact decide_eq_false (not_less_nan _)

/-! ## Softmax without a scale -/

theorem largest_mem : ∀ (l : List (Dbl f)) (a : Dbl f),
    l.foldl (fun a v => if a < v then v else a) a ∈ a :: l
  | [], _ => List.mem_cons_self
  | v :: l, a => by
    rw [List.foldl_cons]
    rcases List.mem_cons.1 (largest_mem l (if a < v then v else a)) with h | h
    · rw [h]
      split
      · exact List.mem_cons_of_mem _ List.mem_cons_self
      · exact List.mem_cons_self
    · exact List.mem_cons_of_mem _ (List.mem_cons_of_mem _ h)

theorem over_zero (v : Dbl f) : v / 0 - v / 0 = .nan := by
  cases v with
  | nan => rfl
  | inf s =>
    have e : ∃ b, (.inf s : Dbl f) / 0 = .inf b := ⟨_, rfl⟩
    obtain ⟨b, e⟩ := e
    rw [e]
    cases b <;> rfl
  | fin q h =>
    have e : (.fin q h : Dbl f) / 0 = if q = 0 then .nan else .inf (decide (q < 0)) := by
      rw [zero_def]
      show (if (0 : ℚ) = 0 then (if q = 0 then Dbl.nan else .inf (decide (q < 0))) else Dbl.round f (q / 0)) = _
      rw [if_pos rfl]
    rw [e]
    split
    · rfl
    · cases decide (q < 0) <;> rfl

/-- **C114** (refuted), softmax layers whose scale is not configured: it is zero (neural_layer_args.c:62)
and nothing objects, and all outputs are not-a-number for all inputs; conditions that end with such a layer
match nothing. -/
theorem C114_softmax_unset_refuted {m : DLibm f} (H : m.Honest) {net : List (DLay f)} {x : List (Dbl f)}
    (hne : propagateD m (net ++ [.soft 0]) x ≠ []) :
    (∀ v ∈ propagateD m (net ++ [.soft 0]) x, v = .nan) ∧ netMatchD m (net ++ [.soft 0]) x = false := by
  have key : ∀ y : List (Dbl f), ∀ v ∈ (DLay.soft 0).forward m y, v = .nan := by
    intro y
    cases y with
    | nil => exact fun v hv => absurd hv List.not_mem_nil
    | cons a t =>
      have hn : Dbl.nan ∈ softExps m 0 (a :: t) := by
        unfold softExps
        refine List.mem_map.2 ⟨_, largest_mem t a, ?_⟩
        show m.exp (_ / 0 - _ / 0) = _
        have := over_zero (t.foldl (fun a v => if a < v then v else a) a)
        refine (congrArg m.exp this).trans H.exp
      intro v hv
      obtain ⟨w, -, rfl⟩ := List.mem_map.1 hv
      have hs := sum_hit (softExps m 0 (a :: t)) 0 (.inl hn)
      show w / (softExps m 0 (a :: t)).foldl (· + ·) 0 = _
      rw [hs]
      cases w <;> rfl
  have hp : ∀ v ∈ propagateD m (net ++ [.soft 0]) x, v = .nan := by
    unfold propagateD
    rw [List.foldl_append]
    exact key _
  refine ⟨hp, ?_⟩
  unfold netMatchD
  refine decide_eq_false ?_
  cases e : propagateD m (net ++ [.soft 0]) x with
  | nil => exact absurd e hne
  | cons v l =>
    rw [hp v (by rw [e]; exact List.mem_cons_self)] at *
    exact not_less_nan _

/-! ## Concrete cases -/

/-- Functions for examples. -/
def flatLibm (f : Format) : DLibm f := ⟨fun v => if v = .nan then .nan else 1, fun _ => 0, fun _ => 0,
  fun _ => 0, fun _ => 0, fun _ => 0, 0, 1, 1⟩

example (m : DLibm f) : propagateD m ([.conn [opposed f] 9] ++ [.soft 0]) [1, 1] ≠ [] := by
  intro h
  cases h

example : (flatLibm f).Bounded where
  exp_zero := rfl
  exp_range := fun q h p hp _ e => by
    have e' : (.fin p hp : Dbl f) = 1 := e.symm
    rw [one_def] at e'
    injection e' with e'
    rw [e']
    have := f.bound _ (f.rep_int 4 (by norm_num))
    rw [abs_of_nonneg (by norm_num)] at this
    norm_num at this ⊢
    exact this
  exp := fun q h _ _ => ⟨1, by simpa using f.rep_int 1 (by norm_num), rfl, by norm_num, fun _ => le_refl _⟩
  soft := fun _ _ => within_zero.mono (by norm_num)
  expm1 := fun _ _ _ => ⟨0, by simpa using f.rep_int 0 (by norm_num), rfl, fun _ => by norm_num⟩
  tanh := fun _ _ => within_zero.mono (by norm_num)
  sin := fun _ _ => within_zero.mono (by norm_num)
  cos := fun _ _ => within_zero.mono (by norm_num)
  tenth := within_zero.mono (by norm_num)
  seluA := within_one.mono (by norm_num)
  seluB := within_one.mono (by norm_num)

example : ∀ l ∈ ([.conn [opposed f] 9, .soft 1] : List (DLay f)), l.Moderate := by
  intro l hl
  rcases List.mem_cons.1 hl with rfl | hl
  rotate_left
  · rw [List.mem_singleton.1 hl]
    exact ⟨1, _, one_def, by norm_num⟩
  intro n hn
  rw [List.mem_singleton.1 hn]
  refine ⟨within_zero.mono (by norm_num), by norm_num [opposed], ?_⟩
  intro p hp
  simp only [opposed, List.mem_cons, List.not_mem_nil, or_false] at hp
  rcases hp with rfl | rfl
  · exact ⟨10, _, ten_def, by norm_num⟩
  · exact ⟨-10, _, minus_ten_def, by norm_num⟩

end Xcsf.Double
