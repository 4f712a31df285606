import Verif.PropsBadNet2
import Verif.BadGrad

/-!
# C115: Networks that learn from good samples keep predicting numbers
-/

set_option linter.unusedSectionVars false

namespace Xcsf.Double

variable {f : Format}

/-! ## Specification -/

/-- A good sample: inputs between -200 and 200, a target between minus and plus a million. -/
def Good (p : List (Dbl f) × Dbl f) : Prop := (∀ v ∈ p.1, Within 200 v) ∧ Within 1000000 p.2

/-- Settings: a positive rate of at most one, a momentum of at most 0.99, a decay of at most one; an
activation function and a gradient that are bounded for the states of neurons. -/
structure DLearn.Moderate (c : DLearn f) : Prop where
  pos : 0 < c.eta
  eta : Within 1 c.eta
  momentum : ∃ q h, c.momentum = .fin q h ∧ |q| ≤ 99 / 100
  decay : Within 1 c.decay
  act : ∀ v, Within 100 v → Within 200 (c.act v)
  grad : ∀ v, Within 100 v → Within 200 (c.grad v)

/-- A neuron as it may be: limited weights and bias, accumulated updates that are moderate numbers. -/
def DNeuron.Sound (n : DNeuron f) : Prop :=
  Within 10 n.bias ∧ Within 3960792000990 n.bupd ∧ n.ws.length ≤ 2 ^ 30 ∧
    ∀ p ∈ n.ws, Within 10 p.w ∧ Within 3960792000990 p.upd

/-! ## Lemmas -/

theorem limit_within {a : Dbl f} (ha : a ≠ .nan) : Within 10 (limitD a) := by
  have t1 : ((toInt32 (-10) : Int) : ℚ) = -10 := by norm_num [toInt32]
  have t2 : ((toInt32 10 : Int) : ℚ) = 10 := by norm_num [toInt32]
  unfold limitD clampD
  split
  · exact ⟨_, _, rfl, by rw [t1]; norm_num⟩
  · next h1 =>
    split
    · exact ⟨_, _, rfl, by rw [t2]; norm_num⟩
    · next h2 =>
      cases a with
      | nan => exact absurd rfl ha
      | inf s =>
        cases s with
        | true => exact absurd rfl h1
        | false => exact absurd rfl h2
      | fin q h =>
        have h1' : ¬ q < ((toInt32 (-10) : Int) : ℚ) := h1
        have h2' : ¬ ((toInt32 10 : Int) : ℚ) < q := h2
        rw [t1] at h1'
        rw [t2] at h2'
        refine ⟨q, h, rfl, ?_⟩
        rw [abs_le]
        push_cast
        exact ⟨not_lt.1 h1', not_lt.1 h2'⟩

theorem Within.ne_nan {a : Nat} {v : Dbl f} (h : Within a v) : v ≠ .nan := by
  obtain ⟨q, hq, rfl, -⟩ := h
  exact nofun

/-- Momentum takes back what a sample adds. -/
theorem scal_within {m u : Dbl f} (hm : ∃ q h, m = .fin q h ∧ |q| ≤ 99 / 100) (hu : Within 4000800001000 u) :
    Within 3960792000990 (scalD m u) := by
  obtain ⟨q, hq, rfl, h1⟩ := hm
  obtain ⟨p, hp, rfl, h2⟩ := hu
  unfold scalD
  split
  · exact within_zero.mono (Nat.zero_le _)
  · refine round_within (by norm_num) ?_
    rw [abs_mul]
    have := mul_le_mul h2 h1 (abs_nonneg q) (by positivity)
    push_cast at this ⊢
    linarith

theorem delta_within {c : DLearn f} (hc : c.Moderate) {n : DNeuron f} (hn : n.Sound)
    {x : List (Dbl f)} {y : Dbl f} (h : Good (x, y)) : Within 200040000 (n.delta c x y) := by
  obtain ⟨h1, -, h3, h4⟩ := hn
  have hs : Within 100 (n.state x) := state_within h1 h3 (fun p hp => (h4 p hp).1) h.1
  exact ((h.2.add (by norm_num) (hc.act _ hs).minus).mul (b := 200) (by norm_num) (hc.grad _ hs)).mono
    (by norm_num)

theorem gather_within {c : DLearn f} (hc : c.Moderate) {p : DWt f} (h1 : Within 10 p.w)
    (h2 : Within 3960792000990 p.upd) {d x : Dbl f} (hd : Within 200040000 d) (hx : Within 200 x) :
    Within 4000800001000 (p.gather c d x) := by
  have hu : Within 4000800000990 (p.upd + d * x) :=
    (h2.add (by norm_num) (hd.mul (by norm_num) hx)).mono (by norm_num)
  unfold DWt.gather
  simp only
  split
  · exact (hu.add (by norm_num) (hc.decay.minus.mul (by norm_num) h1)).mono (by norm_num)
  · exact hu.mono (by norm_num)

theorem learn_sound {c : DLearn f} (hc : c.Moderate) {n : DNeuron f} (hn : n.Sound)
    {x : List (Dbl f)} {y : Dbl f} (h : Good (x, y)) : (n.learn c x y).Sound := by
  have hd := delta_within hc hn h
  obtain ⟨h1, h2, h3, h4⟩ := hn
  have hb : Within 4000800001000 (n.bupd + n.delta c x y) := (h2.add (by norm_num) hd).mono (by norm_num)
  unfold DNeuron.learn
  simp only
  rw [if_pos hc.pos]
  refine ⟨limit_within ?_, scal_within hc.momentum hb, ?_, ?_⟩
  · exact (h1.add (by norm_num) (hc.eta.mul (by norm_num) hb)).ne_nan
  · rw [List.length_zipWith]
    omega
  · intro p hp
    obtain ⟨q, v, hq, rfl⟩ : ∃ q v, (q, v) ∈ List.zip n.ws x ∧ p = q.learn c (n.delta c x y) v := by
      rw [← List.map_uncurry_zip_eq_zipWith] at hp
      obtain ⟨⟨q, v⟩, hq, rfl⟩ := List.mem_map.1 hp
      exact ⟨q, v, hq, rfl⟩
    obtain ⟨w1, w2⟩ := h4 q (List.of_mem_zip hq).1
    have hg := gather_within hc w1 w2 hd (h.1 v (List.of_mem_zip hq).2)
    refine ⟨?_, scal_within hc.momentum hg⟩
    show Within 10 (if q.on then limitD (q.w + c.eta * q.gather c (n.delta c x y) v) else 0)
    split
    · exact limit_within (w1.add (by norm_num) (hc.eta.mul (by norm_num) hg)).ne_nan
    · exact within_zero.mono (by norm_num)

/-! ## Property -/

/-- **C115**: the gradients of all activation functions are bounded for states of neurons. -/
theorem C115_gradient {m : DLibm f} (H : m.Bounded) (a : Nat) {v : Dbl f} (hv : Within 100 v) :
    Within 200 (gradientD m a v) := by
  have hl := logistic_within H hv 1 (by norm_num) 1 within_one
  have h2 : Within 2 ((1 : Dbl f) + 1) := within_one.add (by norm_num) within_one
  unfold gradientD
  split
  · exact ((within_one.add (by norm_num) hl.minus).mul (by norm_num) hl).mono (by norm_num)
  · exact (truth_within _).mono (by norm_num)
  · have ht := H.tanh v hv
    exact (within_one.add (by norm_num) (ht.mul (by norm_num) ht).minus).mono (by norm_num)
  · exact within_one.mono (by norm_num)
  · exact (h2.minus.mul (by norm_num) hv).mul (by norm_num) (gaussian_within H hv)
  · exact (H.cos v hv).mono (by norm_num)
  · exact (H.sin v hv).minus.mono (by norm_num)
  · exact hl.mono (by norm_num)
  · split
    · exact H.tenth.mono (by norm_num)
    · exact within_one.mono (by norm_num)
  · obtain ⟨q, hq, rfl, h1⟩ := hv
    have h1' : |q| ≤ 100 := by exact_mod_cast h1
    rw [abs_le] at h1'
    obtain ⟨p, hp, e, p0, p1⟩ := H.exp q hq (by rw [abs_le]; constructor <;> linarith) (by linarith)
    have hr := H.exp_range q hq p hp (by exact_mod_cast h1) e
    have hA : Within 2 (truth (decide ((0 : Dbl f) < .fin q hq) || decide ((.fin q hq : Dbl f) = 0)) * m.seluA) :=
      (truth_within _).mul (by norm_num) H.seluA
    have hAB : Within 4 (m.seluA * m.seluB) := H.seluA.mul (by norm_num) H.seluB
    rw [e]
    by_cases hn : q < 0
    · have hp1 : Within 1 (.fin p hp : Dbl f) := ⟨p, hp, rfl, by rw [abs_of_nonneg p0]; exact_mod_cast p1 hn.le⟩
      exact (hA.add (by norm_num) ((truth_within _).mul (by norm_num) (hAB.mul (by norm_num) hp1))).mono (by norm_num)
    · have d2 : decide ((.fin q hq : Dbl f) < 0) = false := decide_eq_false hn
      obtain ⟨k, hk, ek, hk'⟩ := hAB
      have hfin : ∃ r hr, (m.seluA * m.seluB * .fin p hp : Dbl f) = .fin r hr := by
        rw [ek]
        have hh : |k * p| < f.huge := by
          rw [abs_mul, abs_of_nonneg p0]
          have := mul_le_mul_of_nonneg_right hk' p0
          push_cast at this
          linarith
        refine ⟨f.rnd (k * p), f.rep_rnd _ hh, ?_⟩
        show Dbl.round f (k * p) = _
        unfold Dbl.round
        rw [dif_pos hh]
      obtain ⟨r, hr', er⟩ := hfin
      rw [er, d2, truth_mul, if_neg (by exact nofun), plus_zero]
      exact hA.mono (by norm_num)
  · obtain ⟨q, hq, rfl, h1⟩ := hv
    have h1' : |q| ≤ 100 := by exact_mod_cast h1
    rw [abs_le] at h1'
    obtain ⟨p, hp, e, p0, -⟩ := H.exp q hq (by rw [abs_le]; constructor <;> linarith) (by linarith)
    have hr := H.exp_range q hq p hp (by exact_mod_cast h1) e
    have r2 : f.rep 2 := by simpa using f.rep_int 2 (by norm_num)
    have r1 : f.rep 1 := by simpa using f.rep_int 1 (by norm_num)
    have e2 : (1 + 1 : Dbl f) = .fin 2 r2 := by
      have hh : |(1 + 1 : ℚ)| < f.huge := by
        have := f.bound _ r2
        norm_num at this ⊢
        exact this
      rw [one_def]
      show Dbl.round f (1 + 1) = _
      unfold Dbl.round
      rw [dif_pos hh]
      refine fin_congr _ _ ?_
      rw [show (1 + 1 : ℚ) = 2 by norm_num, f.exact _ r2]
    have hh1 : |2 * p| < f.huge := by
      rw [abs_of_nonneg (by linarith)]
      linarith
    have ea : (1 + 1 : Dbl f) * .fin p hp = .fin (f.rnd (2 * p)) (f.rep_rnd _ hh1) := by
      rw [e2]
      show Dbl.round f (2 * p) = _
      unfold Dbl.round
      rw [dif_pos hh1]
    simp only
    rw [e, ea]
    have a0 : 0 ≤ f.rnd (2 * p) := by
      have := f.mono 0 (2 * p) (by linarith)
      rwa [rnd_zero] at this
    have es : (.fin p hp + 1 : Dbl f) = Dbl.round f (p + 1) := by
      rw [one_def]
      rfl
    rw [es]
    by_cases hs : |p + 1| < f.huge
    · have es' : Dbl.round f (p + 1) = .fin (f.rnd (p + 1)) (f.rep_rnd _ hs) := by
        unfold Dbl.round
        rw [dif_pos hs]
      rw [es']
      have s1 : 1 ≤ f.rnd (p + 1) := by
        have := f.mono 1 (p + 1) (by linarith)
        rwa [rnd_one] at this
      have sp : p ≤ f.rnd (p + 1) := by
        have := f.mono p (p + 1) (by linarith)
        rwa [f.exact _ hp] at this
      have s2 : 1 ≤ p → 2 ≤ f.rnd (p + 1) := by
        intro h
        have := f.mono 2 (p + 1) (by linarith)
        rwa [f.exact _ r2] at this
      have sa : p < 1 → f.rnd (2 * p) ≤ 2 := by
        intro h
        have := f.mono (2 * p) 2 (by linarith)
        rwa [f.exact _ r2] at this
      have ed : (.fin (f.rnd (p + 1)) (f.rep_rnd _ hs) * .fin (f.rnd (p + 1)) (f.rep_rnd _ hs) : Dbl f) =
        Dbl.round f (f.rnd (p + 1) * f.rnd (p + 1)) := rfl
      rw [ed]
      clear ed es' es
      generalize f.rnd (p + 1) = s at *
      by_cases hd : |s * s| < f.huge
      · have ed' : Dbl.round f (s * s) = .fin (f.rnd (s * s)) (f.rep_rnd _ hd) := by
          unfold Dbl.round
          rw [dif_pos hd]
        have d1 : 1 ≤ f.rnd (s * s) := by
          have := f.mono 1 (s * s) (by nlinarith)
          rwa [rnd_one] at this
        have dle : f.rnd (2 * p) ≤ 2 * f.rnd (s * s) := by
          by_cases hp1 : p < 1
          · have := sa hp1
            linarith
          · have := f.mono (2 * p) (s * s) (by nlinarith [s2 (not_lt.1 hp1)])
            linarith
        rw [ed', div_fin (by linarith)]
        refine (round_within (b := 2) (by norm_num) ?_).mono (by norm_num)
        rw [abs_of_nonneg (div_nonneg a0 (by linarith)), div_le_iff₀ (by linarith)]
        exact_mod_cast dle
      · have ed' : Dbl.round f (s * s) = .inf false := by
          unfold Dbl.round
          rw [dif_neg hd, decide_eq_false (by nlinarith)]
        rw [ed']
        exact within_zero.mono (Nat.zero_le _)
    · have es' : Dbl.round f (p + 1) = .inf false := by
        unfold Dbl.round
        rw [dif_neg hs, decide_eq_false (by linarith)]
      rw [es']
      exact within_zero.mono (Nat.zero_le _)

/-- **C115**: all activation functions of the program are settings the results apply to. -/
theorem C115_settings {m : DLibm f} (H : m.Bounded) (a : Nat) {eta momentum decay : Dbl f} (h0 : 0 < eta)
    (h1 : Within 1 eta) (h2 : ∃ q h, momentum = .fin q h ∧ |q| ≤ 99 / 100) (h3 : Within 1 decay) :
    (⟨eta, momentum, decay, activateD m a, gradientD m a⟩ : DLearn f).Moderate :=
  ⟨h0, h1, h2, h3, fun _ h => C114_activation H a h, fun _ h => C115_gradient H a h⟩

/-- **C115**: after any number of good samples all that a neuron has learned consists of numbers within
limits. -/
theorem C115_learning {c : DLearn f} (hc : c.Moderate) : ∀ (samples : List (List (Dbl f) × Dbl f)) {n : DNeuron f},
    n.Sound → (∀ p ∈ samples, Good p) → (n.train c samples).Sound
  | [], _, hn, _ => hn
  | p :: l, n, hn, h => C115_learning hc l (n := n.learn c p.1 p.2)
      (learn_sound hc hn (h p List.mem_cons_self)) fun q hq => h q (List.mem_cons_of_mem _ hq)

/-- **C115**: and its prediction for any good input is a number between -200 and 200. -/
theorem C115_prediction {c : DLearn f} (hc : c.Moderate) {samples : List (List (Dbl f) × Dbl f)} {n : DNeuron f}
    (hn : n.Sound) (h : ∀ p ∈ samples, Good p) {x : List (Dbl f)} (hx : ∀ v ∈ x, Within 200 v) :
    Within 200 ((n.train c samples).output c x) := by
  obtain ⟨h1, -, h3, h4⟩ := C115_learning hc samples hn h
  exact hc.act _ (state_within h1 h3 (fun p hp => (h4 p hp).1) hx)

/-! ## Large samples -/

/-- A weight at its limit with an infinite update. -/
def Pinned (n : DNeuron f) : Prop :=
  Within 10 n.bias ∧ n.bupd ≠ .nan ∧ n.ws = [⟨((10 : Int) : Dbl f), .inf false, true⟩]

theorem scaled_pos {q : ℚ} (h0 : 0 < q) : (Dbl.scaled false q : Dbl f) = .inf false := by
  have hs : ¬ Dbl.sign false * q < 0 := by
    simp only [Dbl.sign, Bool.false_eq_true, if_false, one_mul, not_lt]
    exact h0.le
  unfold Dbl.scaled
  rw [if_neg h0.ne', decide_eq_false hs]

theorem pos_inf {q : ℚ} {h : f.rep q} (h0 : 0 < q) : (.fin q h : Dbl f) * .inf false = .inf false :=
  scaled_pos h0

theorem inf_pos {q : ℚ} {h : f.rep q} (h0 : 0 < q) : (.inf false * .fin q h : Dbl f) = .inf false :=
  scaled_pos h0

theorem add_ne_nan {a : Dbl f} (ha : a ≠ .nan) {q : ℚ} {h : f.rep q} : a + .fin q h ≠ .nan ∧ .fin q h + a ≠ .nan := by
  cases a with
  | nan => exact absurd rfl ha
  | inf s => exact ⟨nofun, nofun⟩
  | fin p hp => exact ⟨round_ne_nan _, round_ne_nan _⟩

theorem times_ne_nan {a : Dbl f} (ha : a ≠ .nan) {q : ℚ} {h : f.rep q} (h0 : 0 < q) :
    a * .fin q h ≠ .nan ∧ .fin q h * a ≠ .nan := by
  refine ⟨mul_ne_nan ha h h0, ?_⟩
  cases a with
  | nan => exact absurd rfl ha
  | inf s =>
    show Dbl.scaled s q ≠ .nan
    unfold Dbl.scaled
    rw [if_neg h0.ne']
    exact nofun
  | fin p hp => exact round_ne_nan _

theorem limit_inf : limitD (.inf false : Dbl f) = ((10 : Int) : Dbl f) := by
  unfold limitD clampD
  rw [if_neg (by exact nofun), if_pos (by exact rfl)]

/-- Settings with a momentum. -/
theorem pinned_learn {c : DLearn f} (hc : c.Moderate) {m : ℚ} {hm : f.rep m} (h2 : c.momentum = .fin m hm)
    (m0 : 0 < m) {n : DNeuron f} (hn : Pinned n) {v y : Dbl f} (hg : Good ([v], y)) :
    Pinned (n.learn c [v] y) := by
  obtain ⟨b1, b2, b3⟩ := hn
  obtain ⟨e, he, h1, -⟩ := hc.eta
  have e0 : 0 < e := by
    have := hc.pos
    rw [h1] at this
    exact this
  have hm0 : (.fin m hm : Dbl f) ≠ 0 := by
    rw [zero_def]
    intro h
    injection h with h
    linarith
  have hs : Within 100 (n.state [v]) := state_within b1 (by rw [b3]; norm_num)
    (fun p hp => by
      rw [b3] at hp
      rw [List.mem_singleton.1 hp]
      exact ⟨10, _, ten_def, by norm_num⟩) hg.1
  have hd : Within 200040000 (n.delta c [v] y) :=
    ((hg.2.add (by norm_num) (hc.act _ hs).minus).mul (b := 200) (by norm_num) (hc.grad _ hs)).mono (by norm_num)
  have hdx := hd.mul (by norm_num) (hg.1 v List.mem_cons_self)
  obtain ⟨b, hb, eb, -⟩ := id b1
  obtain ⟨d, hd', ed, -⟩ := id hd
  obtain ⟨u, hu, eu, -⟩ := hdx
  have hs2 : n.bupd + n.delta c [v] y ≠ .nan := by
    rw [ed]
    exact (add_ne_nan b2).1
  unfold DNeuron.learn
  simp only
  rw [if_pos hc.pos]
  refine ⟨limit_within ?_, ?_, ?_⟩
  · show n.bias + c.eta * (n.bupd + n.delta c [v] y) ≠ .nan
    rw [eb, h1]
    exact (add_ne_nan (times_ne_nan hs2 e0).2).2
  · show scalD c.momentum (n.bupd + n.delta c [v] y) ≠ .nan
    unfold scalD
    rw [h2, if_neg hm0]
    exact (times_ne_nan hs2 m0).1
  · show List.zipWith (fun p x => p.learn c (n.delta c [v] y) x) n.ws [v] = _
    rw [b3]
    have hgat : (⟨((10 : Int) : Dbl f), .inf false, true⟩ : DWt f).gather c (n.delta c [v] y) v = .inf false := by
      unfold DWt.gather
      simp only
      rw [eu]
      split
      · obtain ⟨k, hk, ek, -⟩ := hc.decay.minus.mul (b := 10) (by norm_num) (⟨10, _, ten_def, by norm_num⟩ :
          Within 10 ((10 : Int) : Dbl f))
        rw [ek]
        rfl
      · rfl
    show [DWt.learn c (n.delta c [v] y) ⟨((10 : Int) : Dbl f), .inf false, true⟩ v] = _
    unfold DWt.learn
    rw [hgat]
    simp only [if_true]
    unfold scalD
    rw [h1, h2, if_neg hm0, pos_inf e0, inf_pos m0]
    have : ((10 : Int) : Dbl f) + .inf false = .inf false := rfl
    rw [this, limit_inf]

theorem pinned_train {c : DLearn f} (hc : c.Moderate) {m : ℚ} {hm : f.rep m} (h2 : c.momentum = .fin m hm)
    (m0 : 0 < m) : ∀ (samples : List (Dbl f × Dbl f)) {n : DNeuron f}, Pinned n →
    (∀ p ∈ samples, Good ([p.1], p.2)) → Pinned (n.train c (samples.map fun p => ([p.1], p.2)))
  | [], _, hn, _ => hn
  | p :: l, n, hn, h => pinned_train hc h2 m0 l (n := n.learn c [p.1] p.2)
      (pinned_learn hc h2 m0 hn (h p List.mem_cons_self)) fun q hq => h q (List.mem_cons_of_mem _ hq)

theorem large_square : large * large = .inf false := by
  show Dbl.round binary64 ((2 : ℚ) ^ 1024 / 2 * ((2 : ℚ) ^ 1024 / 2)) = _
  have h2 : (2 : ℚ) ≤ (2 : ℚ) ^ 1024 / 2 := by
    have : (2 : ℚ) ^ 2 ≤ (2 : ℚ) ^ 1024 := pow_le_pow_right₀ (by norm_num) (by norm_num)
    generalize (2 : ℚ) ^ 1024 = z at *
    linarith
  have hz := pow_over
  generalize (2 : ℚ) ^ 1024 / 2 = z at *
  have h3 : 2 * z ≤ z * z := by nlinarith
  have h0 : 0 ≤ z * z := by nlinarith
  unfold Dbl.round
  rw [dif_neg (by rw [abs_of_nonneg h0, not_lt]; linarith), decide_eq_false (not_lt.2 h0)]

/-- A neuron with one connection and nothing learned. -/
def freshNeuron (f : Format) : DNeuron f := ⟨0, 0, [⟨0, 0, true⟩]⟩

/-- **C115** (refuted), large finite samples and momentum: one sample whose input and target are finite but
large pins the weight to its limit for ever, whatever good samples follow. -/
theorem C115_large_refuted {c : DLearn binary64} (hc : c.Moderate) {m : ℚ} {hm : binary64.rep m}
    (h2 : c.momentum = .fin m hm) (m0 : 0 < m) (h3 : c.decay = 0) (h4 : c.act 0 = 0) (h5 : c.grad 0 = 1)
    (later : List (Dbl binary64 × Dbl binary64)) (hl : ∀ p ∈ later, Good ([p.1], p.2)) :
    (((freshNeuron binary64).learn c [large] large).train c (later.map fun p => ([p.1], p.2))).ws.map (·.w) =
      [((10 : Int) : Dbl binary64)] := by
  obtain ⟨e, he, h1, -⟩ := hc.eta
  have e0 : 0 < e := by
    have := hc.pos
    rw [h1] at this
    exact this
  have hm0 : (.fin m hm : Dbl binary64) ≠ 0 := by
    rw [zero_def]
    intro h
    injection h with h
    linarith
  have hs : (freshNeuron binary64).state [large] = 0 := by
    show clampD (0 + (0 + large * 0)) _ _ = 0
    rw [zero_plus, zero_plus, show large * 0 = (0 : Dbl binary64) from times_zero _]
    unfold clampD
    have t1 : ((toInt32 (-100) : Int) : ℚ) = -100 := by norm_num [toInt32]
    have t2 : ((toInt32 100 : Int) : ℚ) = 100 := by norm_num [toInt32]
    have k1 : ¬ (0 : Dbl binary64) < ((-100 : Int) : Dbl binary64) :=
      show ¬ (0 : ℚ) < ((toInt32 (-100) : Int) : ℚ) by rw [t1]; norm_num
    have k2 : ¬ ((100 : Int) : Dbl binary64) < (0 : Dbl binary64) :=
      show ¬ ((toInt32 100 : Int) : ℚ) < (0 : ℚ) by rw [t2]; norm_num
    rw [if_neg k1, if_neg k2]
  have hd : (freshNeuron binary64).delta c [large] large = large := by
    unfold DNeuron.delta DNeuron.output
    rw [hs, h4, h5, minus_zero]
    exact times_one _
  have hlarge : large ≠ .nan := nofun
  have hp : Pinned ((freshNeuron binary64).learn c [large] large) := by
    unfold DNeuron.learn
    simp only
    rw [if_pos hc.pos, hd]
    refine ⟨limit_within ?_, ?_, ?_⟩
    · show 0 + c.eta * (0 + large) ≠ .nan
      rw [zero_plus, zero_plus, h1]
      exact (times_ne_nan hlarge e0).2
    · show scalD c.momentum (0 + large) ≠ .nan
      unfold scalD
      rw [zero_plus, h2, if_neg hm0]
      exact (times_ne_nan hlarge m0).1
    · show [DWt.learn c large ⟨0, 0, true⟩ large] = _
      have hgat : (⟨0, 0, true⟩ : DWt binary64).gather c large large = .inf false := by
        unfold DWt.gather
        simp only
        have k : ¬ (0 : Dbl binary64) < 0 := show ¬ (0 : ℚ) < 0 by norm_num
        rw [large_square, zero_plus, h3, if_neg k]
      unfold DWt.learn
      rw [hgat]
      simp only [if_true]
      unfold scalD
      rw [h1, h2, if_neg hm0, pos_inf e0, inf_pos m0, zero_plus, limit_inf]
  rw [(pinned_train hc h2 m0 later hp hl).2.2]
  rfl

/-! ## Concrete cases -/

/-- Settings for the refutation: identity, rate one, a momentum of a half. -/
example : ∃ (c : DLearn binary64) (m : ℚ) (hm : binary64.rep m), c.Moderate ∧ c.momentum = .fin m hm ∧ 0 < m ∧
    c.decay = 0 ∧ c.act 0 = 0 ∧ c.grad 0 = 1 := by
  refine ⟨⟨1, .fin (2 ^ 0 / 2) (rep_pow (by norm_num)), 0, id, fun _ => 1⟩, _, _, ⟨?_, within_one,
    ⟨_, _, rfl, ?_⟩, within_zero.mono (by norm_num), fun _ h => h.mono (by norm_num),
    fun _ _ => within_one.mono (by norm_num)⟩, rfl, by norm_num, rfl, rfl, rfl⟩
  · show (0 : ℚ) < 1
    norm_num
  · rw [abs_of_nonneg (by norm_num)]
    norm_num

/-- A neuron with the largest and the smallest weight may be. -/
theorem opposed_sound : (opposed f).Sound := by
  refine ⟨within_zero.mono (by norm_num), within_zero.mono (by norm_num), by norm_num [opposed], ?_⟩
  intro p hp
  simp only [opposed, List.mem_cons, List.not_mem_nil, or_false] at hp
  rcases hp with rfl | rfl
  · exact ⟨⟨10, _, ten_def, by norm_num⟩, within_zero.mono (by norm_num)⟩
  · exact ⟨⟨-10, _, minus_ten_def, by norm_num⟩, within_zero.mono (by norm_num)⟩

example : (0 : Dbl f) < 1 ∧ Within 1 (1 : Dbl f) ∧ (∃ q h, (0 : Dbl f) = .fin q h ∧ |q| ≤ 99 / 100) := by
  refine ⟨?_, within_one, 0, _, zero_def, by norm_num⟩
  show (0 : ℚ) < 1
  norm_num

example : Good (([1, 1] : List (Dbl f)), (1 : Dbl f)) :=
  ⟨fun v hv => by
    simp only [List.mem_cons, List.not_mem_nil, or_false, or_self] at hv
    rw [hv]
    exact within_one.mono (by norm_num), within_one.mono (by norm_num)⟩

end Xcsf.Double
