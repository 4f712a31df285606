import Verif.PropsBadNet2
import Verif.PropsBadSample
import Verif.PropsBadInput

/-!
# C116: Running averages stay numbers

Over doubles, with the rounding of every operation.
-/

set_option linter.unusedSectionVars false

namespace Xcsf.Double

variable {f : Format} {X B R : Type}

/-! ## Specification -/

/-- A rate between zero and one. -/
def IsRate (beta : Dbl f) : Prop := ∃ b h, beta = .fin b h ∧ 0 ≤ b ∧ b ≤ 1

/-- A rate of at least one over this number. -/
def AtLeastRate (N : Nat) (beta : Dbl f) : Prop := ∃ b h, beta = .fin b h ∧ 1 ≤ (N : ℚ) * b ∧ b ≤ 1

/-- A constant prediction that learns from targets one after the other, beginning with this experience. -/
def constTrain (beta : Dbl f) : Int → Dbl f → List (Dbl f) → Dbl f
  | _, v, [] => v
  | n, v, y :: ys => constTrain beta (n + 1) (constLearn beta (n + 1) v y) ys

/-! ## Lemmas -/

theorem round_between {lo hi : Int} (h1 : |lo| < 2 ^ 53) (h2 : |hi| < 2 ^ 53) {q : ℚ} (hl : (lo : ℚ) ≤ q)
    (hh : q ≤ (hi : ℚ)) : ∃ h, Dbl.round f q = .fin (f.rnd q) h ∧ (lo : ℚ) ≤ f.rnd q ∧ f.rnd q ≤ (hi : ℚ) := by
  have r1 := f.rep_int lo h1
  have r2 := f.rep_int hi h2
  have b1 := f.bound _ r1
  have b2 := f.bound _ r2
  have hb : |q| < f.huge := by
    rw [abs_lt] at b1 b2 ⊢
    constructor <;> linarith
  refine ⟨f.rep_rnd q hb, ?_, ?_, ?_⟩
  · unfold Dbl.round
    rw [dif_pos hb]
  · rw [← f.exact _ r1]
    exact f.mono _ _ hl
  · rw [← f.exact _ r2]
    exact f.mono _ _ hh

/-- One step of an average, on numbers. -/
theorem avg_step {b p y : ℚ} {M : Nat} (hM : 5 * M < 2 ^ 53) (b0 : 0 ≤ b) (b1 : b ≤ 1) (hp : |p| ≤ (4 * M : Nat))
    (hy : |y| ≤ M) : ∃ r hr z hz, Dbl.round f (y + -p) = .fin r hr ∧ Dbl.round f (b * r) = .fin z hz ∧
      Within (4 * M) (Dbl.round f (p + z)) := by
  push_cast at hp
  rw [abs_le] at hp hy
  have hM' : (5 * (M : Int)) < 2 ^ 53 := by exact_mod_cast hM
  have hM0 : (0 : ℚ) ≤ M := by positivity
  have key : ∀ lo hi : Int, |lo| < 2 ^ 53 → |hi| < 2 ^ 53 → lo ≤ 0 → 0 ≤ hi → (lo : ℚ) ≤ y + -p →
      y + -p ≤ (hi : ℚ) → -(4 * M : ℚ) ≤ p + lo → p + hi ≤ (4 * M : ℚ) →
      ∃ r hr z hz, Dbl.round f (y + -p) = .fin r hr ∧ Dbl.round f (b * r) = .fin z hz ∧
        Within (4 * M) (Dbl.round f (p + z)) := by
    intro lo hi k1 k2 l0 h0 k3 k4 k5 k6
    have l0' : (lo : ℚ) ≤ 0 := by exact_mod_cast l0
    have h0' : (0 : ℚ) ≤ hi := by exact_mod_cast h0
    obtain ⟨hr, e1, c1, c2⟩ := round_between (f := f) k1 k2 k3 k4
    obtain ⟨hz, e2, d1, d2⟩ := round_between (f := f) (q := b * f.rnd (y + -p)) k1 k2 (by nlinarith) (by nlinarith)
    refine ⟨_, hr, _, hz, e1, e2, round_within (by omega) ?_⟩
    rw [abs_le]
    push_cast
    constructor <;> linarith
  have a5 : |(-(5 * (M : Int)))| < 2 ^ 53 := by rw [abs_neg, abs_of_nonneg (by positivity)]; exact hM'
  have a5' : |(5 * (M : Int))| < 2 ^ 53 := by rw [abs_of_nonneg (by positivity)]; exact hM'
  have a2 : |(-(2 * (M : Int)))| < 2 ^ 53 := by rw [abs_neg, abs_of_nonneg (by positivity)]; omega
  have a2' : |(2 * (M : Int))| < 2 ^ 53 := by rw [abs_of_nonneg (by positivity)]; omega
  by_cases c1 : (M : ℚ) ≤ p
  · exact key (-(5 * (M : Int))) 0 a5 (by norm_num) (by omega) (le_refl _) (by push_cast; linarith)
      (by push_cast; linarith) (by push_cast; linarith) (by push_cast; linarith)
  · by_cases c2 : p ≤ -(M : ℚ)
    · exact key 0 (5 * (M : Int)) (by norm_num) a5' (le_refl _) (by omega) (by push_cast; linarith)
        (by push_cast; linarith) (by push_cast; linarith) (by push_cast; linarith)
    · rw [not_le] at c1 c2
      exact key (-(2 * (M : Int))) (2 * (M : Int)) a2 a2' (by omega) (by omega) (by push_cast; linarith)
        (by push_cast; linarith) (by push_cast; linarith) (by push_cast; linarith)

/-! ## Property -/

/-- **C116**: one step of an average with a rate between zero and one, in both ways the program writes it:
if what is averaged is at most `M` in size, averages of at most `4 * M` remain so. -/
theorem C116_step {beta : Dbl f} (hb : IsRate beta) {M : Nat} (hM : 5 * M < 2 ^ 53) {p y : Dbl f}
    (hp : Within (4 * M) p) (hy : Within M y) :
    Within (4 * M) (p + beta * (y - p)) ∧ Within (4 * M) (p + (y - p) * beta) := by
  obtain ⟨b, hb, rfl, b0, b1⟩ := hb
  obtain ⟨p, hp', rfl, hp⟩ := hp
  obtain ⟨y, hy', rfl, hy⟩ := hy
  obtain ⟨r, hr, z, hz, e1, e2, hw⟩ := avg_step (f := f) hM b0 b1 hp hy
  have e1' : (.fin y hy' - .fin p hp' : Dbl f) = .fin r hr := e1
  rw [e1']
  constructor
  · have e : (.fin b hb * .fin r hr : Dbl f) = .fin z hz := e2
    rw [e]
    exact hw
  · have e : (.fin r hr * .fin b hb : Dbl f) = .fin z hz := by
      rw [← e2, mul_comm b r]
      rfl
    rw [e]
    exact hw

/-- **C116**: the training error: an exponential average of losses of at most `M` is a number of at most
`4 * M` for ever, however many there are. -/
theorem C116_ema {beta : Dbl f} (hb : IsRate beta) {M : Nat} (hM : 5 * M < 2 ^ 53) : ∀ {ls : List (Dbl f)} {e : Dbl f},
    Within (4 * M) e → (∀ l ∈ ls, Within M l) → Within (4 * M) (ema beta e ls)
  | [], _, he, _ => he
  | l :: ls, e, he, h => C116_ema hb hM (ls := ls) (e := e + (l - e) * beta)
      (C116_step hb hM he (h l List.mem_cons_self)).2 fun k hk => h k (List.mem_cons_of_mem _ hk)

theorem mean_step {beta : Dbl f} {N : Nat} (hb : AtLeastRate N beta) {M : Nat} (hM : 4 * M * N < 2 ^ 53) {n : Int}
    (hn : 1 ≤ n) (hlt : (n : Dbl f) * beta < 1) {v y : Dbl f} (hv : Within (4 * M) v) (hy : Within M y) :
    Within (4 * M) ((v * ((n : Dbl f) - 1) + y) / (n : Dbl f)) := by
  obtain ⟨b, hb, rfl, b1, b2⟩ := hb
  obtain ⟨t, ht⟩ : ∃ t : Int, t = toInt32 n := ⟨_, rfl⟩
  have ht1 : 1 ≤ t := by
    rw [ht]
    unfold toInt32
    omega
  have ht32 : |t| < 2 ^ 53 := by
    rw [ht, abs_lt]
    unfold toInt32
    constructor <;> omega
  have et : (n : Dbl f) = .fin (t : ℚ) (f.rep_int t ht32) := by
    show Dbl.fin _ _ = _
    exact fin_congr _ _ (by rw [ht])
  have hb0 : 0 ≤ b := by
    by_contra hc
    have : (N : ℚ) * b ≤ 0 := mul_nonpos_of_nonneg_of_nonpos (by positivity) (not_le.1 hc).le
    linarith
  have ht1' : (1 : ℚ) ≤ t := by exact_mod_cast ht1
  have htN : t < N := by
    by_contra hc
    have hc' : (N : ℚ) ≤ t := by exact_mod_cast not_lt.1 hc
    have h1 : (1 : ℚ) ≤ t * b := b1.trans (mul_le_mul_of_nonneg_right hc' hb0)
    rw [et] at hlt
    have hh : |(t : ℚ) * b| < f.huge := by
      have h3 := f.bound _ (f.rep_int t ht32)
      rw [abs_of_nonneg (by linarith)] at h3
      rw [abs_of_nonneg (by linarith)]
      nlinarith
    have e : (.fin (t : ℚ) (f.rep_int t ht32) * .fin b hb : Dbl f) = .fin (f.rnd (t * b)) (f.rep_rnd _ hh) := by
      show Dbl.round f (t * b) = _
      unfold Dbl.round
      rw [dif_pos hh]
    rw [e, one_def] at hlt
    have h4 : f.rnd (t * b) < 1 := hlt
    have h5 := f.mono 1 (t * b) h1
    rw [rnd_one] at h5
    linarith
  obtain ⟨k, hk⟩ : ∃ k : Nat, t = (k : Int) + 1 := ⟨(t - 1).toNat, by omega⟩
  have hkN : k + 1 ≤ N := by omega
  have hle : 4 * M * (k + 1) ≤ 4 * M * N := Nat.mul_le_mul_left _ hkN
  have hk53 : k < 2 ^ 53 := by
    rw [abs_of_nonneg (by omega)] at ht32
    omega
  have e1 : Within k ((n : Dbl f) - 1) := by
    rw [et, one_def]
    refine round_within hk53 ?_
    rw [hk]
    push_cast
    rw [add_neg_cancel_right, abs_of_nonneg (by positivity)]
  have e2 : Within (4 * M * k + M) (v * ((n : Dbl f) - 1) + y) :=
    (hv.mul (by nlinarith) e1).add (by nlinarith) hy
  obtain ⟨a, ha, ea, ha'⟩ := e2
  rw [ea, et, div_fin (by linarith)]
  refine round_within (by nlinarith) ?_
  rw [abs_div, abs_of_pos (by linarith : (0 : ℚ) < t), div_le_iff₀ (by linarith)]
  refine ha'.trans ?_
  rw [hk]
  push_cast
  nlinarith [(by positivity : (0 : ℚ) ≤ M)]

theorem AtLeastRate.rate {N : Nat} {beta : Dbl f} (h : AtLeastRate N beta) : IsRate beta := by
  obtain ⟨b, hb, e, h1, h2⟩ := h
  refine ⟨b, hb, e, ?_, h2⟩
  by_contra hc
  have : (N : ℚ) * b ≤ 0 := mul_nonpos_of_nonneg_of_nonpos (by positivity) (not_le.1 hc).le
  linarith

/-- The two ways in which the averages of rules are kept. -/
theorem both_steps {beta : Dbl f} {N : Nat} (hb : AtLeastRate N beta) {M : Nat} (hM : 4 * M * N < 2 ^ 53)
    (h5 : 5 * M < 2 ^ 53) {n : Int} (hn : 1 ≤ n) {v y : Dbl f} (hv : Within (4 * M) v) (hy : Within M y) :
    Within (4 * M) (constLearn beta n v y) := by
  unfold constLearn
  split
  · next h => exact mean_step hb hM hn h hv hy
  · exact (C116_step hb.rate h5 hv hy).1

/-- **C116**: constant predictions: for targets of at most `M` in size they are numbers of at most `4 * M`,
after any number of samples. -/
theorem C116_constant {beta : Dbl f} {N : Nat} (hb : AtLeastRate N beta) {M : Nat} (hM : 4 * M * N < 2 ^ 53)
    (h5 : 5 * M < 2 ^ 53) : ∀ {ys : List (Dbl f)} {n : Int} {v : Dbl f}, 0 ≤ n → Within (4 * M) v →
    (∀ y ∈ ys, Within M y) → Within (4 * M) (constTrain beta n v ys)
  | [], _, _, _, hv, _ => hv
  | y :: ys, n, v, hn, hv, h => C116_constant hb hM h5 (ys := ys) (n := n + 1) (by omega)
      (both_steps hb hM h5 (by omega) hv (h y List.mem_cons_self)) fun k hk => h k (List.mem_cons_of_mem _ hk)

/-- **C116**: rules: an update with a loss and a set of at most `M` leaves the error and the estimated set
size of the rule numbers of at most `4 * M`. -/
theorem C116_rule {par : Params (Dbl f)} {kit : Kit (Dbl f) X B R} {N : Nat} (hb : AtLeastRate N par.beta) {M : Nat}
    (hM : 4 * M * N < 2 ^ 53) (h5 : 5 * M < 2 ^ 53) (explore : Bool) {c : Cl (Dbl f) B} (x : X)
    {y : List (Dbl f)} {setNum : Int} (cur : Bool) (r : R) (hn : 0 ≤ c.exp) (he : Within (4 * M) c.err)
    (hs : Within (4 * M) c.size) (hl : Within M (kit.loss
      (if cur then c.prediction else (kit.predict explore c.body c.prediction x r).1) y)) (hset : Within M ((setNum : Int) : Dbl f)) :
    Within (4 * M) (clUpdate par kit explore c x y setNum cur r).1.err ∧
    Within (4 * M) (clUpdate par kit explore c x y setNum cur r).1.size := by
  have k1 := both_steps hb hM h5 (by omega : 1 ≤ c.exp + 1) he hl
  have k2 := both_steps hb hM h5 (by omega : 1 ≤ c.exp + 1) hs hset
  unfold constLearn at k1 k2
  unfold clUpdate
  cases cur <;> by_cases hc : ((c.exp + 1 : Int) : Dbl f) * par.beta < 1
  · simp only [if_pos hc] at k1 k2 ⊢
    exact ⟨k1, k2⟩
  · simp only [if_neg hc] at k1 k2 ⊢
    exact ⟨k1, k2⟩
  · simp only [if_pos hc] at k1 k2 ⊢
    exact ⟨k1, k2⟩
  · simp only [if_neg hc] at k1 k2 ⊢
    exact ⟨k1, k2⟩

/-- **C116**: systems: after any history of calls other than multi-step trials, if losses are at most `M`
and the configured initial value at most `4 * M`, the training error is a number of at most `4 * M`. -/
theorem C116_training_error {par : Params (Dbl f)} {kit : Kit (Dbl f) X B R} (hb : IsRate par.beta) {M : Nat}
    (hM : 5 * M < 2 ^ 53) (he : Within (4 * M) par.e0) (hl : ∀ p y, Within M (kit.loss p y)) {r : R}
    {ops : List (Op (Dbl f) X B)} {s : St (Dbl f) X B R} (hs : ∀ o ∈ ops, o.single = true)
    (h : run par kit r ops = .ok s) : Within (4 * M) s.error := by
  obtain ⟨-, ls, -, h2, h3⟩ := C66_history hs h
  rw [h3]
  refine C116_ema hb hM he fun l hl' => ?_
  obtain ⟨p, y, rfl⟩ := h2 l hl'
  exact hl p y

theorem fabs_within {a : Nat} {v : Dbl f} (h : Within a v) : Within a v.fabs := by
  obtain ⟨q, hq, rfl, h⟩ := h
  exact ⟨|q|, _, rfl, by rwa [abs_abs]⟩

theorem getD_within {a : Nat} {l : List (Dbl f)} (h : ∀ v ∈ l, Within a v) (i : Nat) : Within a (l.getD i 0) := by
  rw [List.getD_eq_getElem?_getD]
  cases e : l[i]? with
  | none => exact within_zero.mono (Nat.zero_le _)
  | some v => exact h v (List.mem_of_getElem? e)

theorem fold_within {g : Nat → Dbl f} {a : Nat} (hg : ∀ i, Within a (g i)) : ∀ (l : List Nat) (k : Nat) (e : Dbl f),
    a * (k + l.length) < 2 ^ 53 → Within (a * k) e → Within (a * (k + l.length)) (l.foldl (fun e i => e + g i) e)
  | [], _, _, _, he => he
  | i :: l, k, e, h, he => by
    rw [List.length_cons] at h ⊢
    have h' : a * (k + 1 + l.length) < 2 ^ 53 := by
      rw [show k + 1 + l.length = k + (l.length + 1) by omega]
      exact h
    have h1 : a * k + a ≤ a * (k + 1 + l.length) := by nlinarith
    have := fold_within hg l (k + 1) (e + g i) h' ((he.add (by omega) (hg i)).mono (by nlinarith))
    rw [show k + (l.length + 1) = k + 1 + l.length by omega]
    exact this

/-- **C116**: the mean absolute error of predictions of at most `4 * M` and targets of at most `M` is a
number of at most `5 * M`. -/
theorem C116_mae {n M : Nat} (hn : 0 < n) (hn' : n < 2 ^ 31) (hM : 5 * M * n < 2 ^ 53) {pred y : List (Dbl f)}
    (hp : ∀ v ∈ pred, Within (4 * M) v) (hy : ∀ v ∈ y, Within M v) : Within (5 * M) (maeLoss n pred y) := by
  have h5 : 5 * M < 2 ^ 53 := lt_of_le_of_lt (Nat.le_mul_of_pos_right _ hn) hM
  have hs := fold_within (g := fun i => (y.getD i 0 - pred.getD i 0).fabs) (a := 5 * M)
    (fun i => fabs_within (((getD_within hy i).add (by omega) (getD_within hp i).minus).mono (by omega)))
    (List.range n) 0 0 (by rw [List.length_range, Nat.zero_add]; exact hM) (within_zero.mono (by omega))
  rw [List.length_range, Nat.zero_add] at hs
  obtain ⟨q, hq, e, h⟩ := hs
  unfold maeLoss
  rw [e]
  have ht : toInt32 (n : Int) = (n : Int) := by
    unfold toInt32
    omega
  have hn0 : (0 : ℚ) < n := by exact_mod_cast hn
  have en : ((n : Int) : Dbl f) = .fin (n : ℚ) (by simpa [ht] using toInt32_rep f (n : Int)) := by
    show Dbl.fin _ _ = _
    exact fin_congr _ _ (by rw [ht]; push_cast; rfl)
  rw [en, div_fin hn0.ne']
  refine round_within h5 ?_
  rw [abs_div, abs_of_pos hn0, div_le_iff₀ hn0]
  exact_mod_cast h

/-- **C116**: the mean squared error likewise, at most `25 * M ^ 2`. -/
theorem C116_mse {n M : Nat} (hn : 0 < n) (hn' : n < 2 ^ 31) (hM : 5 * M * (5 * M) * n < 2 ^ 53) {pred y : List (Dbl f)}
    (hp : ∀ v ∈ pred, Within (4 * M) v) (hy : ∀ v ∈ y, Within M v) :
    Within (5 * M * (5 * M)) (mseLoss n pred y) := by
  have h25 : 5 * M * (5 * M) < 2 ^ 53 := lt_of_le_of_lt (Nat.le_mul_of_pos_right _ hn) hM
  have h5 : 5 * M < 2 ^ 53 := by
    rcases Nat.eq_zero_or_pos (5 * M) with h | h
    · omega
    · exact lt_of_le_of_lt (Nat.le_mul_of_pos_right _ h) h25
  have hd : ∀ i, Within (5 * M) (y.getD i 0 - pred.getD i 0) := fun i =>
    ((getD_within hy i).add (by omega) (getD_within hp i).minus).mono (by omega)
  have hs := fold_within (g := fun i => (y.getD i 0 - pred.getD i 0) * (y.getD i 0 - pred.getD i 0))
    (a := 5 * M * (5 * M)) (fun i => (hd i).mul h25 (hd i))
    (List.range n) 0 0 (by rw [List.length_range, Nat.zero_add]; exact hM) (within_zero.mono (by omega))
  rw [List.length_range, Nat.zero_add] at hs
  obtain ⟨q, hq, e, h⟩ := hs
  unfold mseLoss
  rw [e]
  have ht : toInt32 (n : Int) = (n : Int) := by
    unfold toInt32
    omega
  have hn0 : (0 : ℚ) < n := by exact_mod_cast hn
  have en : ((n : Int) : Dbl f) = .fin (n : ℚ) (by simpa [ht] using toInt32_rep f (n : Int)) := by
    show Dbl.fin _ _ = _
    exact fin_congr _ _ (by rw [ht]; push_cast; rfl)
  rw [en, div_fin hn0.ne']
  refine round_within h25 ?_
  rw [abs_div, abs_of_pos hn0, div_le_iff₀ hn0]
  exact_mod_cast h

/-- **C116**: the Huber loss likewise, with a threshold of at most `D`. -/
theorem C116_huber {n M D H : Nat} (hn : 0 < n) (hn' : n < 2 ^ 31)
    (hH : H = D * D + D * (5 * M + D) + 5 * M * (5 * M) + 5 * M) (hM : H * n < 2 ^ 53) {half delta : Dbl f}
    (hhalf : Within 1 half) (hdelta : Within D delta) {pred y : List (Dbl f)}
    (hp : ∀ v ∈ pred, Within (4 * M) v) (hy : ∀ v ∈ y, Within M v) :
    Within H (huberLoss half delta n pred y) := by
  have hH53 : H < 2 ^ 53 := lt_of_le_of_lt (Nat.le_mul_of_pos_right _ hn) hM
  have hd : ∀ i, Within (5 * M) (y.getD i 0 - pred.getD i 0) := fun i =>
    ((getD_within hy i).add (by omega) (getD_within hp i).minus).mono (by omega)
  have ho : ∀ i, Within H (huberOne half delta (y.getD i 0 - pred.getD i 0)) := by
    intro i
    unfold huberOne
    split
    · rcases Nat.eq_zero_or_pos D with h0 | h0
      · subst h0
        have k1 : Within 0 (half * delta * delta) :=
          ((hhalf.mul (by norm_num) hdelta).mul (by norm_num) hdelta).mono (by norm_num)
        have k2 : Within (5 * M + 0) ((y.getD i 0 - pred.getD i 0).fabs - delta) :=
          (fabs_within (hd i)).add (by omega) hdelta.minus
        have k3 := hdelta.mul (by rw [Nat.zero_mul]; norm_num) k2
        exact (k1.add (by rw [Nat.zero_mul]; norm_num) k3).mono (by rw [Nat.zero_mul]; omega)
      · have hle : 5 * M + D ≤ D * (5 * M + D) := Nat.le_mul_of_pos_left _ h0
        have k1 : Within (D * D) (half * delta * delta) :=
          ((hhalf.mul (by omega) hdelta).mul (by rw [Nat.one_mul]; omega) hdelta).mono (by rw [Nat.one_mul])
        have k2 : Within (5 * M + D) ((y.getD i 0 - pred.getD i 0).fabs - delta) :=
          (fabs_within (hd i)).add (by omega) hdelta.minus
        have k3 := hdelta.mul (by omega) k2
        exact (k1.add (by omega) k3).mono (by omega)
    · have k1 := (hhalf.mul (by omega) (hd i)).mul (by rw [Nat.one_mul]; omega) (hd i)
      exact k1.mono (by rw [Nat.one_mul]; omega)
  have hs := fold_within (g := fun i => huberOne half delta (y.getD i 0 - pred.getD i 0)) (a := H) ho
    (List.range n) 0 0 (by rw [List.length_range, Nat.zero_add]; exact hM) (within_zero.mono (by omega))
  rw [List.length_range, Nat.zero_add] at hs
  obtain ⟨q, hq, e, h⟩ := hs
  unfold huberLoss
  rw [e]
  have ht : toInt32 (n : Int) = (n : Int) := by
    unfold toInt32
    omega
  have hn0 : (0 : ℚ) < n := by exact_mod_cast hn
  have en : ((n : Int) : Dbl f) = .fin (n : ℚ) (by simpa [ht] using toInt32_rep f (n : Int)) := by
    show Dbl.fin _ _ = _
    exact fin_congr _ _ (by rw [ht]; push_cast; rfl)
  rw [en, div_fin hn0.ne']
  refine round_within hH53 ?_
  rw [abs_div, abs_of_pos hn0, div_le_iff₀ hn0]
  exact_mod_cast h

/-! ## Fitness -/

/-- A sum of numbers that are not negative is not less than any of them. -/
theorem fold_no_less {A : Type} {g : A → Dbl f} {b : ℚ} (hr : f.rep b) (hb : 0 ≤ b) : ∀ (l : List A) (s : Dbl f),
    (∀ c ∈ l, ∃ p hp, g c = .fin p hp ∧ 0 ≤ p) →
    (NoLess b s ∨ (NoLess 0 s ∧ ∃ c ∈ l, g c = .fin b hr)) → NoLess b (l.foldl (fun a c => a + g c) s)
  | [], s, _, h => by
    rcases h with h | ⟨_, c, h, _⟩
    · exact h
    · cases h
  | c :: l, s, hl, h => by
    have r0 : f.rep 0 := by simpa using f.rep_int 0 (by norm_num)
    obtain ⟨p, hp, e, h0⟩ := hl c List.mem_cons_self
    refine fold_no_less hr hb l (s + g c) (fun w hw => hl w (List.mem_cons_of_mem _ hw)) ?_
    rcases h with h | ⟨h, d, hd, ed⟩
    · rw [e]
      exact .inl (h.plus hr h0 hb)
    · rcases List.mem_cons.1 hd with rfl | hd
      · refine .inl ?_
        rw [ed]
        rcases h with ⟨q, hq, rfl, h⟩ | rfl
        · have e' : (.fin q hq + .fin b hr : Dbl f) = .fin b hr + .fin q hq := by
            show Dbl.round f _ = Dbl.round f _
            rw [add_comm]
          rw [e']
          exact NoLess.plus hr (.inl ⟨b, hr, rfl, le_refl _⟩) h hb
        · exact .inr rfl
      · rw [e]
        exact .inr ⟨h.plus r0 h0 (le_refl _), d, hd, ed⟩

/-- An accuracy times a numerosity. -/
theorem share_spec {a : ℚ} {ha : f.rep a} (a0 : 0 < a) (a1 : a ≤ 1) {n : Int} (hn : 1 ≤ n) :
    ∃ p hp, (.fin a ha * ((n : Int) : Dbl f) : Dbl f) = .fin p hp ∧ 0 < p := by
  have t1 : (1 : ℚ) ≤ (toInt32 n : Int) := by
    have : 1 ≤ toInt32 n := by
      unfold toInt32
      omega
    exact_mod_cast this
  have hb := f.bound _ (toInt32_rep f n)
  rw [abs_of_nonneg (by linarith)] at hb
  have hh : |a * (toInt32 n : Int)| < f.huge := by
    rw [abs_of_nonneg (by nlinarith)]
    nlinarith
  refine ⟨f.rnd (a * (toInt32 n : Int)), f.rep_rnd _ hh, ?_, ?_⟩
  · show Dbl.round f (a * (toInt32 n : Int)) = _
    unfold Dbl.round
    rw [dif_pos hh]
  · have := f.mono a (a * (toInt32 n : Int)) (by nlinarith)
    rw [f.exact _ ha] at this
    linarith

/-- **C116**: fitness: if the accuracies of the rules of a set are positive and at most one, the share of
each is a number of at most one in size, and fitnesses of at most four remain so; the set may have any number of
rules. -/
theorem C116_fitness {par : Params (Dbl f)} {kit : Kit (Dbl f) X B R} (hb : IsRate par.beta) {cs : List (Cl (Dbl f) B)}
    (hacc : ∀ c ∈ cs, (∃ a ha, clAcc par kit c.err = .fin a ha ∧ 0 < a ∧ a ≤ 1) ∧ 1 ≤ c.num)
    {c : Cl (Dbl f) B} (hc : c ∈ cs) (hf : Within 4 c.fit) :
    Within 4 (clUpdateFit par c (accSum par kit cs) (clAcc par kit c.err)).fit := by
  obtain ⟨⟨a, ha, ea, a0, a1⟩, hn⟩ := hacc c hc
  obtain ⟨p, hp, ep, p0⟩ := share_spec (ha := ha) a0 a1 hn
  have hs : NoLess p (accSum par kit cs) := by
    refine fold_no_less (g := fun c => clAcc par kit c.err * (c.num : Dbl f)) hp p0.le cs 0 ?_
      (.inr ⟨.inl ⟨0, _, zero_def, le_refl _⟩, c, hc, ?_⟩)
    · intro d hd
      obtain ⟨⟨a', ha', ea', a0', a1'⟩, hn'⟩ := hacc d hd
      obtain ⟨q, hq, eq, q0⟩ := share_spec (ha := ha') a0' a1' hn'
      exact ⟨q, hq, by rw [ea', eq], q0.le⟩
    · rw [ea, ep]
  have hshare : Within 1 (clAcc par kit c.err * (c.num : Dbl f) / accSum par kit cs) := by
    rw [ea, ep]
    rcases hs with ⟨q, hq, e, h⟩ | e
    · have q0 : 0 < q := lt_of_lt_of_le p0 h
      rw [e, div_fin q0.ne']
      refine round_within (by norm_num) ?_
      rw [abs_div, abs_of_pos p0, abs_of_pos q0, div_le_iff₀ q0]
      push_cast
      linarith
    · rw [e]
      exact within_zero.mono (Nat.zero_le _)
  exact (C116_step hb (M := 1) (by norm_num) hf hshare).1

/-- **C116**: accuracies are positive and at most one for every error, if powers of what is larger than one
are between zero and one as in mathematics and the smallest accuracy is positive and at most one. -/
theorem C116_accuracy {par : Params (Dbl f)} {kit : Kit (Dbl f) X B R}
    (ha : ∃ q h, par.alpha = .fin q h ∧ 0 ≤ q ∧ q ≤ 1) (he : ∃ q h, kit.eps = .fin q h ∧ 0 < q ∧ q ≤ 1)
    (hpow : ∀ err, par.e0 < err → ∃ q h, kit.pow (err / par.e0) (0 - par.nu) = .fin q h ∧ 0 ≤ q ∧ q ≤ 1)
    (err : Dbl f) : ∃ a h, clAcc par kit err = .fin a h ∧ 0 < a ∧ a ≤ 1 := by
  unfold clAcc
  split
  · next hlt =>
    obtain ⟨a, ha, ea, a0, a1⟩ := ha
    obtain ⟨e, he, ee, e0, e1⟩ := he
    obtain ⟨p, hp, ep, p0, p1⟩ := hpow err hlt
    rw [ea, ee, ep]
    obtain ⟨hr, er, r0, r1⟩ := round_between (f := f) (lo := 0) (hi := 1) (q := a * p) (by norm_num) (by norm_num)
      (by push_cast; positivity) (by push_cast; nlinarith)
    have em : (.fin a ha * .fin p hp : Dbl f) = .fin (f.rnd (a * p)) hr := er
    rw [em]
    unfold fmax
    by_cases hc : e < f.rnd (a * p)
    · have hc' : (.fin e he : Dbl f) < .fin (f.rnd (a * p)) hr := hc
      rw [if_pos hc']
      exact ⟨_, hr, rfl, by linarith, by exact_mod_cast r1⟩
    · have hc' : ¬ (.fin e he : Dbl f) < .fin (f.rnd (a * p)) hr := hc
      rw [if_neg hc']
      exact ⟨_, he, rfl, e0, e1⟩
  · exact ⟨1, by simpa using f.rep_int 1 (by norm_num), one_def, by norm_num, le_refl _⟩

/-! ## Rules with constant predictions -/

/-- A rule is updated again and again, each time with an input, targets, the size of its set, and whether
the payoff is for the current state. -/
def ruleTrain (par : Params (Dbl f)) (kit : Kit (Dbl f) X B R) (explore : Bool) (p : Cl (Dbl f) B × R)
    (l : List (X × List (Dbl f) × Int × Bool)) : Cl (Dbl f) B × R :=
  l.foldl (fun p u => clUpdate par kit explore p.1 u.1 u.2.1 u.2.2.1 u.2.2.2 p.2) p

/-- Predictions are constant, and the loss is the mean absolute error. -/
structure ConstKit (par : Params (Dbl f)) (kit : Kit (Dbl f) X B R) (n : Nat) : Prop where
  predict : ∀ e b p x r, (kit.predict e b p x r).1 = p
  loss : ∀ p y, kit.loss p y = maeLoss n p y
  update : ∀ k b p x y r, (kit.update k b p x y r).2.1 = List.zipWith (constLearn par.beta k) p y

/-- What a rule contains are numbers of bounded size. -/
structure RuleWithin (M : Nat) (c : Cl (Dbl f) B) : Prop where
  exp : 0 ≤ c.exp
  prediction : ∀ v ∈ c.prediction, Within (4 * M) v
  err : Within (4 * (5 * M)) c.err
  size : Within (4 * (5 * M)) c.size

theorem rule_step {par : Params (Dbl f)} {kit : Kit (Dbl f) X B R} {n N M : Nat} (K : ConstKit par kit n)
    (hb : AtLeastRate N par.beta) (hn : 0 < n) (hn' : n < 2 ^ 31) (hN : 4 * (5 * M) * N < 2 ^ 53)
    (hM : 5 * (5 * M) * n < 2 ^ 53) (explore : Bool) {c : Cl (Dbl f) B} (hc : RuleWithin M c) (x : X)
    {y : List (Dbl f)} (hy : ∀ v ∈ y, Within M v) {setNum : Int} (hset : Within (5 * M) ((setNum : Int) : Dbl f))
    (cur : Bool) (r : R) : RuleWithin M (clUpdate par kit explore c x y setNum cur r).1 := by
  have h25 : 5 * (5 * M) < 2 ^ 53 := lt_of_le_of_lt (Nat.le_mul_of_pos_right _ hn) hM
  have hNM : 4 * M * N < 2 ^ 53 := lt_of_le_of_lt (Nat.mul_le_mul_right N (by omega)) hN
  have hMn : 5 * M * n < 2 ^ 53 := lt_of_le_of_lt (Nat.mul_le_mul_right n (by omega)) hM
  have hp : (if cur then c.prediction else (kit.predict explore c.body c.prediction x r).1) = c.prediction := by
    rw [K.predict, ite_self]
  have hl : Within (5 * M) (kit.loss
      (if cur then c.prediction else (kit.predict explore c.body c.prediction x r).1) y) := by
    rw [hp, K.loss]
    exact C116_mae hn hn' hMn hc.prediction hy
  obtain ⟨h1, h2⟩ := C116_rule hb hN h25 explore x cur r hc.exp hc.err hc.size hl hset
  have hpred : ∀ (k : Int) b x r, 1 ≤ k → ∀ v ∈ (kit.update k b c.prediction x y r).2.1, Within (4 * M) v := by
    intro k b x r hk v hv
    rw [K.update, ← List.map_uncurry_zip_eq_zipWith] at hv
    obtain ⟨⟨a, t⟩, ha, rfl⟩ := List.mem_map.1 hv
    exact both_steps hb hNM (by omega) hk (hc.prediction a (List.of_mem_zip ha).1) (hy t (List.of_mem_zip ha).2)
  have hexp : (0 : Int) ≤ c.exp + 1 := by
    have := hc.exp
    omega
  have hexp' : (1 : Int) ≤ c.exp + 1 := by
    have := hc.exp
    omega
  refine ⟨?_, ?_, h1, h2⟩
  · unfold clUpdate
    cases cur <;> by_cases hlt : ((c.exp + 1 : Int) : Dbl f) * par.beta < 1 <;>
      simp only [hlt, if_true, if_false, Bool.false_eq_true] <;> exact hexp
  · unfold clUpdate
    cases cur
    · by_cases hlt : ((c.exp + 1 : Int) : Dbl f) * par.beta < 1 <;>
        simp only [hlt, if_true, if_false, Bool.false_eq_true, K.predict] <;> exact hpred _ _ _ _ hexp'
    · by_cases hlt : ((c.exp + 1 : Int) : Dbl f) * par.beta < 1 <;>
        simp only [hlt, if_true, if_false] <;> exact hpred _ _ _ _ hexp'

/-- **C116**: rules with constant predictions and the mean absolute error: however often they are updated
with targets of at most `M` and sets of at most `5 * M`, their predictions are numbers of at most `4 * M`, and
their errors and set sizes of at most `20 * M`. -/
theorem C116_constant_rule {par : Params (Dbl f)} {kit : Kit (Dbl f) X B R} {n N M : Nat} (K : ConstKit par kit n)
    (hb : AtLeastRate N par.beta) (hn : 0 < n) (hn' : n < 2 ^ 31) (hN : 4 * (5 * M) * N < 2 ^ 53)
    (hM : 5 * (5 * M) * n < 2 ^ 53) (explore : Bool) : ∀ (l : List (X × List (Dbl f) × Int × Bool))
    {p : Cl (Dbl f) B × R}, RuleWithin M p.1 →
    (∀ u ∈ l, (∀ v ∈ u.2.1, Within M v) ∧ Within (5 * M) ((u.2.2.1 : Int) : Dbl f)) →
    RuleWithin M (ruleTrain par kit explore p l).1
  | [], _, hc, _ => hc
  | u :: l, p, hc, h => C116_constant_rule K hb hn hn' hN hM explore l
      (p := clUpdate par kit explore p.1 u.1 u.2.1 u.2.2.1 u.2.2.2 p.2)
      (rule_step K hb hn hn' hN hM explore hc u.1 (h u List.mem_cons_self).1 (h u List.mem_cons_self).2 u.2.2.2 p.2)
      fun k hk => h k (List.mem_cons_of_mem _ hk)

/-! ## The range of what is averaged -/

theorem rnd_below_one : binary64.rnd (1 - 1 / 2 ^ 60) = 1 := by
  have h1 : binary64.rep 1 := by simpa using binary64.rep_int 1 (by norm_num)
  have hn := rnd64_near (1 - 1 / 2 ^ 60) 1 h1
  have hle : rnd64 (1 - 1 / 2 ^ 60) ≤ 1 := by
    have := binary64.mono (1 - 1 / 2 ^ 60) 1 (by norm_num)
    rwa [rnd_one] at this
  show rnd64 (1 - 1 / 2 ^ 60) = 1
  obtain ⟨m, e, hm, -, -, ha⟩ := rnd64_rep (1 - 1 / 2 ^ 60)
  generalize rnd64 (1 - 1 / 2 ^ 60) = a at *
  rw [show (1 - 1 / 2 ^ 60 - 1 : ℚ) = -(1 / 2 ^ 60) by norm_num, abs_neg,
    abs_of_pos (by norm_num : (0 : ℚ) < 1 / 2 ^ 60), abs_le] at hn
  have hlo : 1 - 1 / 2 ^ 59 ≤ a := by
    have := hn.2
    norm_num at this ⊢
    linarith
  by_contra hne
  have hlt : a < 1 := lt_of_le_of_ne hle hne
  have he : -53 ≤ e := by
    by_contra hc
    have h2 : (2 : ℚ) ^ e ≤ 2 ^ (-54 : Int) := zpow_le_zpow_right₀ (by norm_num) (by omega)
    have h3 : (0 : ℚ) < (2 : ℚ) ^ e := zpow_pos (by norm_num) e
    have h4 : (m : ℚ) ≤ 2 ^ 53 := by
      have : m ≤ 2 ^ 53 := ((le_abs_self m).trans hm.le)
      exact_mod_cast this
    have h5 : a ≤ 2 ^ 53 * 2 ^ (-54 : Int) := by
      rw [ha]
      nlinarith
    norm_num at h5 hlo
    linarith
  obtain ⟨k, hk⟩ : ∃ k : Nat, e = (k : Int) - 53 := ⟨(e + 53).toNat, by omega⟩
  have hint : a * 2 ^ 53 = ((m * 2 ^ k : Int) : ℚ) := by
    rw [ha, hk, zpow_sub₀ (by norm_num), zpow_natCast]
    push_cast
    ring
  have hlt' : ((m * 2 ^ k : Int) : ℚ) < ((2 ^ 53 : Int) : ℚ) := by
    rw [← hint]
    push_cast
    nlinarith
  have hlt'' : m * 2 ^ k ≤ 2 ^ 53 - 1 := by
    have : m * 2 ^ k < 2 ^ 53 := by exact_mod_cast hlt'
    omega
  have hle' : a * 2 ^ 53 ≤ 2 ^ 53 - 1 := by
    rw [hint]
    exact_mod_cast hlt''
  norm_num at hle' hlo
  linarith

theorem rep_small : binary64.rep (-(1 / 2 ^ 60)) := by
  refine ⟨-1, -60, by norm_num, by norm_num, by norm_num, ?_⟩
  norm_num

/-- A small number below zero. -/
noncomputable def small : Dbl binary64 := .fin (-(1 / 2 ^ 60)) rep_small

/-- Minus one. -/
noncomputable def minusOne : Dbl binary64 := .fin (-1) (by simpa using binary64.rep_int (-1) (by norm_num))

/-- **C116** (refuted), the range of what is averaged: with a rate of one, after which the prediction should be
the target, a prediction and a target below zero give zero. -/
theorem C116_range_refuted : minusOne < 0 ∧ small < 0 ∧ constLearn 1 1 minusOne small = 0 := by
  refine ⟨show (-1 : ℚ) < 0 by norm_num, show (-(1 / 2 ^ 60) : ℚ) < 0 by norm_num, ?_⟩
  have e1 : ((1 : Int) : Dbl binary64) = 1 := by
    rw [one_def]
    show Dbl.fin _ _ = _
    exact fin_congr _ _ (by norm_num [toInt32])
  have hone : (1 : Dbl binary64) * 1 = 1 := by
    rw [one_def]
    rw [← one_def]
    exact times_one (f := binary64) (q := 1) (by simpa using binary64.rep_int 1 (by norm_num))
  have hn : ¬ (1 : Dbl binary64) < 1 := show ¬ (1 : ℚ) < 1 by norm_num
  have r1 : binary64.rep 1 := by simpa using binary64.rep_int 1 (by norm_num)
  have b1 := binary64.bound _ r1
  rw [abs_of_nonneg (by norm_num)] at b1
  have hd : small - minusOne = 1 := by
    show Dbl.round binary64 (-(1 / 2 ^ 60) + - -1) = 1
    have hh : |(-(1 / 2 ^ 60) + - -1 : ℚ)| < binary64.huge :=
      lt_of_le_of_lt (by rw [abs_of_nonneg (by norm_num)]; norm_num) b1
    unfold Dbl.round
    rw [dif_pos hh, one_def]
    refine fin_congr _ _ ?_
    rw [show (-(1 / 2 ^ 60) + - -1 : ℚ) = 1 - 1 / 2 ^ 60 by norm_num]
    exact rnd_below_one
  unfold constLearn
  rw [e1, hone, if_neg hn, hd, hone, one_def]
  show Dbl.round binary64 (-1 + 1) = 0
  have hh : |(-1 + 1 : ℚ)| < binary64.huge :=
    lt_of_le_of_lt (by norm_num) b1
  unfold Dbl.round
  rw [dif_pos hh, zero_def]
  refine fin_congr _ _ ?_
  rw [show (-1 + 1 : ℚ) = 0 by norm_num]
  exact rnd_zero

/-! ## Concrete cases -/

example : IsRate (1 : Dbl f) ∧ AtLeastRate 1 (1 : Dbl f) :=
  ⟨⟨1, _, one_def, by norm_num, by norm_num⟩, ⟨1, _, one_def, by norm_num, by norm_num⟩⟩

example : ∃ q h, (1 : Dbl f) = .fin q h ∧ 0 < q ∧ q ≤ 1 :=
  ⟨1, by simpa using f.rep_int 1 (by norm_num), one_def, by norm_num, le_refl _⟩

example : AtLeastRate 1000 (.fin (2 ^ 0 / 2) (rep_pow (by norm_num))) ∧ 4 * 1000000000 * 1000 < 2 ^ 53 :=
  ⟨⟨_, _, rfl, by norm_num, by norm_num⟩, by norm_num⟩

example {par : Params (Dbl f)} (h : par.beta = half f) : ConstKit par (ovalKit f) 1 :=
  ⟨fun _ _ _ _ _ => rfl, fun _ _ => rfl, fun _ _ _ _ _ _ => by rw [h]; rfl⟩

/-- Losses of the one-hot error are bounded for all predictions and targets. -/
example {n : Nat} {pred y : List (Dbl f)} {e : Dbl f} (h : onehotLoss n pred y = .ok e) : Within 1 e := by
  rcases C110_onehot_partial h with rfl | rfl
  · exact within_zero.mono (by norm_num)
  · exact within_one

end Xcsf.Double
