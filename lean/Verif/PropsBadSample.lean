import Verif.BadSample

/-!
# C110: samples that are not numbers

A user may expect that a bad sample among the training data - a missing value that was read as
not-a-number, or a value that overflowed - is refused, or at least is forgotten after enough good
samples, as the running averages suggest.  It is not: after one such sample the training error is not a
number for the rest of the history, the rules that met the sample count as perfectly accurate, and
constant predictions stay lost.  What only evaluates samples does no harm to the training error.
-/

set_option linter.unusedSectionVars false

namespace Xcsf.Double

open Demo

variable {f : Format} {X B R : Type} {par : Params (Dbl f)} {kit : Kit (Dbl f) X B R}

/-- A target of which some output is not a number. -/
def Bad (n : Nat) (y : List (Dbl f)) : Prop := ∃ k < n, y[k]? = some .nan

/-- A loss that is not a number for such a target, whatever the prediction. -/
def Notices (n : Nat) (loss : List (Dbl f) → List (Dbl f) → Dbl f) : Prop :=
  ∀ p y, Bad n y → loss p y = .nan

/-- The mean absolute and the mean squared error notice bad targets. -/
theorem C110_losses (n : Nat) : Notices n (maeLoss (f := f) n) ∧ Notices n (mseLoss (f := f) n) := by
  constructor <;> rintro p y ⟨k, hk, hy⟩
  · have hd : y.getD k 0 = .nan := by rw [List.getD_eq_getElem?_getD, hy]; rfl
    unfold maeLoss
    rw [foldl_hit (fun i => (y.getD i 0 - p.getD i 0).fabs) (k := k) (by simp only [hd, nan_sub]; rfl) _ _
      (List.mem_range.2 hk), nan_div]
  · have hd : y.getD k 0 = .nan := by rw [List.getD_eq_getElem?_getD, hy]; rfl
    unfold mseLoss
    rw [foldl_hit (fun i => (y.getD i 0 - p.getD i 0) * (y.getD i 0 - p.getD i 0)) (k := k)
      (by simp only [hd, nan_sub, nan_mul]) _ _ (List.mem_range.2 hk), nan_div]

/-- So do the root of the mean squared error, the logarithmic losses and the Huber loss. -/
theorem C110_other_losses (n : Nat) {sqrt : Dbl f → Dbl f} (hs : sqrt .nan = .nan) (log : Dbl f → Dbl f)
    (eps half delta : Dbl f) :
    Notices n (rmseLoss sqrt n) ∧ Notices n (logLoss log eps n) ∧ Notices n (binaryLogLoss log eps n) ∧
    Notices n (huberLoss half delta n) := by
  have hd : ∀ {y : List (Dbl f)} {k : Nat}, y[k]? = some .nan → y.getD k 0 = .nan := by
    intro y k hy
    rw [List.getD_eq_getElem?_getD, hy]; rfl
  refine ⟨?_, ?_, ?_, ?_⟩
  · intro p y h
    unfold rmseLoss
    rw [(C110_losses n).2 p y h, hs]
  · rintro p y ⟨k, hk, hy⟩
    unfold logLoss
    rw [foldl_hit (fun i => y.getD i 0 * log (fmax (p.getD i 0) eps)) (k := k)
      (by simp only [hd hy, nan_mul]) _ _ (List.mem_range.2 hk)]
    rfl
  · rintro p y ⟨k, hk, hy⟩
    unfold binaryLogLoss
    rw [foldl_hit (fun i => y.getD i 0 * log (fmax (p.getD i 0) eps) +
        (1 - y.getD i 0) * log (fmax (1 - p.getD i 0) eps)) (k := k)
      (by simp only [hd hy, nan_mul, nan_add]) _ _ (List.mem_range.2 hk)]
    rfl
  · rintro p y ⟨k, hk, hy⟩
    unfold huberLoss
    rw [foldl_hit (fun i => huberOne half delta (y.getD i 0 - p.getD i 0)) (k := k)
      (by
        have e : (Dbl.nan : Dbl f).fabs = .nan := rfl
        have e2 : ¬ delta < (.nan : Dbl f) := by cases delta <;> exact id
        simp only [hd hy, nan_sub]
        unfold huberOne
        rw [e, if_neg e2, mul_nan]) _ _ (List.mem_range.2 hk), nan_div]

/-- **C110** (partial): only the one-hot error is always a number, for bad targets and for predictions that are
not numbers alike. -/
theorem C110_onehot_partial {n : Nat} {pred y : List (Dbl f)} {e : Dbl f}
    (h : onehotLoss n pred y = .ok e) : e = 0 ∨ e = 1 := by
  unfold onehotLoss at h
  cases h1 : argmax (pred.take n) with
  | error _ => rw [h1] at h; cases h
  | ok i =>
    rw [h1] at h
    simp only [bind, Except.bind] at h
    split at h <;> cases h
    · exact .inr rfl
    · exact .inl rfl

/-- A prediction that is not a number is hidden by the logarithmic loss: it counts like the prediction
zero. -/
theorem C110_log_hides (log : Dbl f → Dbl f) {eps : Dbl f} (he : ¬ eps < 0) (y : List (Dbl f)) :
    logLoss log eps 1 [.nan] y = logLoss log eps 1 [0] y := by
  have h1 : ¬ eps < (.nan : Dbl f) := by cases eps <;> exact id
  have e : fmax (.nan : Dbl f) eps = fmax 0 eps := by
    unfold fmax
    rw [if_neg h1, if_neg he]
  unfold logLoss
  simp only [List.range_one, List.foldl_cons, List.foldl_nil, List.getD_cons_zero, e]

/-- One call leaves a training error that is not a number as it is. -/
theorem step_nan {s s' : St (Dbl f) X B R} {o : Op (Dbl f) X B} (hs : s.error = .nan)
    (h : step par kit s o = .ok s') : s'.error = .nan := by
  by_cases h1 : o.single = true
  · by_cases h0 : o.trains = 0
    · rw [(C66_others h0 h1 h).1, hs]
    · cases o with
      | fit x y =>
        cases ht : fitStep par kit x y s with
        | error _ => simp only [step, ht, bind, Except.bind] at h; cases h
        | ok q =>
          obtain ⟨e, s1⟩ := q
          simp only [step, ht, bind, Except.bind] at h
          cases h
          rw [(C66_fit ht).2.1, hs, ema_nan]
      | rlFit x a w =>
        cases ht : rlFit par kit x a w s with
        | error _ => simp only [step, ht, bind, Except.bind] at h; cases h
        | ok q =>
          obtain ⟨e, s1⟩ := q
          simp only [step, ht, bind, Except.bind] at h
          cases h
          rw [(C66_rl_fit ht).2.1, hs, ema_nan]
      | _ => exact absurd rfl h0
  · cases o with
    | rlTrial env explore =>
      cases ht : rlTrial par kit env explore s with
      | error _ => simp only [step, ht, bind, Except.bind] at h; cases h
      | ok q =>
        obtain ⟨n, e, s1⟩ := q
        simp only [step, ht, bind, Except.bind] at h
        cases h
        obtain ⟨ls, -, -, e3, -⟩ := C66_rl_trial ht
        rw [e3, hs, ema_nan]
    | _ => exact absurd rfl h1

theorem steps_nan : ∀ {ops : List (Op (Dbl f) X B)} {s s' : St (Dbl f) X B R}, s.error = .nan →
    ops.foldlM (step par kit) s = .ok s' → s'.error = .nan
  | [], s, s', hs, h => by
    cases h
    exact hs
  | o :: ops, s, s', hs, h => by
    rw [List.foldlM_cons] at h
    cases h1 : step par kit s o with
    | error _ => rw [h1] at h; cases h
    | ok s1 => rw [h1] at h; exact steps_nan (step_nan hs h1) h

/-- The bad sample itself: the call reports an error that is not a number. -/
theorem C110_fit (hl : Notices par.yDim kit.loss) {x : X} {y : List (Dbl f)} (hy : Bad par.yDim y)
    {s s' : St (Dbl f) X B R} {e : Dbl f} (h : fitStep par kit x y s = .ok (e, s')) :
    e = .nan ∧ s'.error = .nan := by
  obtain ⟨h1, h2, -⟩ := C66_fit h
  have he : e = .nan := by rw [h1]; exact hl _ _ hy
  refine ⟨he, ?_⟩
  rw [h2, he]
  show s.error + ((.nan : Dbl f) - s.error) * par.beta = .nan
  rw [nan_sub, nan_mul, add_nan]

/-- **C110** (refuted): after a bad training sample, whatever calls preceded and whatever calls follow -
any number of good samples included - the training error is not a number. -/
theorem C110_error_lost (hl : Notices par.yDim kit.loss) {r : R} {x : X} {y : List (Dbl f)}
    (hy : Bad par.yDim y) {before after : List (Op (Dbl f) X B)} {s : St (Dbl f) X B R}
    (h : run par kit r (before ++ .fit x y :: after) = .ok s) : s.error = .nan := by
  unfold run at h
  cases h0 : xcsfInit par kit r with
  | error _ => rw [h0] at h; cases h
  | ok s0 =>
    rw [h0] at h
    simp only [bind, Except.bind] at h
    rw [List.foldlM_append] at h
    cases h1 : before.foldlM (step par kit) s0 with
    | error _ => rw [h1] at h; cases h
    | ok s1 =>
      rw [h1] at h
      simp only [bind, Except.bind, List.foldlM_cons] at h
      cases h2 : fitStep par kit x y s1 with
      | error _ => simp only [step, h2, bind, Except.bind] at h; cases h
      | ok q =>
        obtain ⟨e, s2⟩ := q
        simp only [step, h2, bind, Except.bind] at h
        exact steps_nan (C110_fit hl hy h2).2 h

/-- An infinite error is no better: the next training sample with a finite error makes the training
error not a number. -/
theorem C110_infinite {a : Bool} {β l : ℚ} (hb : f.rep β) (hl : f.rep l) (h0 : 0 < β)
    (ls : List (Dbl f)) : ema (.fin β hb) (.inf a) (.fin l hl :: ls) = .nan := by
  show ema (.fin β hb) ((.inf a : Dbl f) + ((.fin l hl : Dbl f) - .inf a) * .fin β hb) ls = .nan
  have e : ((.fin l hl : Dbl f) - .inf a) * .fin β hb = .inf !a := by
    show Dbl.scaled (!a) β = .inf !a
    unfold Dbl.scaled
    rw [if_neg h0.ne']
    cases a <;> simp [Dbl.sign, h0, h0.le]
  rw [e]
  have e2 : (.inf a : Dbl f) + (.inf (!a) : Dbl f) = .nan := by cases a <;> rfl
  rw [e2, ema_nan]

/-- A rule that learns from a bad sample has an error that is not a number, counts as perfectly
accurate, and stays so whatever it learns later (C109). -/
theorem C110_rule_accurate (hl : Notices par.yDim kit.loss) (explore : Bool) (c : Cl (Dbl f) B) (x : X)
    {y : List (Dbl f)} (hy : Bad par.yDim y) (n : Int) (cur : Bool) (r : R) :
    (clUpdate par kit explore c x y n cur r).1.err = .nan ∧
    clAcc par kit (clUpdate par kit explore c x y n cur r).1.err = 1 := by
  have h1 : (clUpdate par kit explore c x y n cur r).1.err = .nan := by
    unfold clUpdate
    cases cur with
    | true =>
      simp only [if_true]
      rw [hl _ _ hy]
      split <;> simp only [nan_sub, mul_nan, add_nan, nan_div]
    | false =>
      simp only [Bool.false_eq_true, if_false]
      rw [hl _ _ hy]
      split <;> simp only [nan_sub, mul_nan, add_nan, nan_div]
  refine ⟨h1, ?_⟩
  rw [h1]
  unfold clAcc
  rw [if_neg]
  cases par.e0 <;> exact id

/-- A constant prediction that learns from a bad sample is lost, and a lost one stays so. -/
theorem C110_constant_lost (beta : Dbl f) (exp : Int) (v y : Dbl f) :
    constLearn beta exp v .nan = .nan ∧ constLearn beta exp .nan y = .nan := by
  constructor <;> unfold constLearn <;> split <;>
    simp only [nan_sub, sub_nan, nan_mul, mul_nan, add_nan, nan_add, nan_div]

/-- A single matching rule with a lost prediction spoils the prediction of the system for its action,
however small its share and however many other rules agree; unless the total fitness is zero. -/
theorem C110_prediction_lost {yDim : Nat} {cs : List (Cl (Dbl f) B)} {pa0 nr0 pa nr : List (Dbl f)}
    (h : paRules yDim cs pa0 nr0 = .ok (pa, nr)) {c : Cl (Dbl f) B} (hc : c ∈ cs) {k : Nat} (hk : k < yDim)
    (hp : c.prediction[k]? = some .nan) {v : Dbl f}
    (hv : nr[(c.action * (yDim : Int) + (k : Int)).toNat]? = some v) (h0 : v ≠ 0) :
    (paNorm pa nr)[(c.action * (yDim : Int) + (k : Int)).toNat]? = some .nan := by
  unfold paNorm
  rw [List.getElem?_zipWith, paRules_hit hk hp h hc, hv]
  simp only [if_pos h0, nan_div]

/-- **C110** (partial): evaluating samples, good or bad, does not touch the training error. -/
theorem C110_evaluation_partial {s s' : St (Dbl f) X B R} {o : Op (Dbl f) X B} (ho : o.trains = 0)
    (hs : o.single = true) (h : step par kit s o = .ok s') : s'.error = s.error :=
  (C66_others ho hs h).1

/-! ## A system -/

/-- One half. -/
def half (f : Format) : Dbl f := .fin (1 / 2) (by simpa using f.dyadic 1 (by norm_num) 1 (by norm_num))

/-- Rules that match everything and learn constants, with the mean absolute error. -/
def constKit (f : Format) : Kit (Dbl f) Nat (Nat × Nat) Nat :=
  { demoKit f with
    pow := fun a _ => a
    loss := maeLoss 1
    cmatch := fun _ b _ r => (true, b, r)
    act := fun _ b _ r => (0, b, r)
    predict := fun _ b p _ r => (p, b, r)
    update := fun n b p _ y r => (b, List.zipWith (constLearn (half f) n) p y, r) }

/-- Its parameters. -/
def constPar (f : Format) : Params (Dbl f) :=
  { demoPar f with nActions := 1, popSize := 5, beta := half f, alpha := half f, delta := half f, e0 := half f,
                   nu := 1, popInit := false, eaLambda := 0, setSubsumption := false }

/-- The expectation: whatever sample was trained on, some further calls - good samples, say - bring the
training error back to a number. -/
def Recovers (par : Params (Dbl f)) (kit : Kit (Dbl f) X B R) (r : R) : Prop :=
  ∀ before x y s, run par kit r (before ++ [.fit x y]) = .ok s →
    ∃ (more : List (Op (Dbl f) X B)) (s' : St (Dbl f) X B R),
      more.foldlM (step par kit) s = .ok s' ∧ s'.error ≠ .nan

/-- The outcome of training on samples and then predicting for an input. -/
def trainAsk (samples : List (Nat × Dbl wide)) (x : Nat) : Res (List (List (Dbl wide))) :=
  run (constPar wide) (constKit wide) 0 (samples.map fun p => .fit p.1 [p.2]) >>= fun s =>
    (predictBatch (constPar wide) (constKit wide) [0] [x] s >>= fun p => .ok p.1)

/-- **C110** (refuted): a system learns to predict 1 where every sample says 1; a single sample that is
not a number, for another input, makes it predict not-a-number from then on, also after further good
samples; and nothing brings its training error back. -/
theorem C110_refuted :
    Res.test (trainAsk [(1, 1), (2, 1)] 1) (fun p => decide (p = [[1]])) = true ∧
    Res.test (trainAsk [(1, 1), (2, .nan), (1, 1), (1, 1)] 1) (fun p => decide (p = [[.nan]])) = true ∧
    ¬ Recovers (constPar wide) (constKit wide) 0 := by
  refine ⟨by decide +kernel, by decide +kernel, fun H => ?_⟩
  obtain ⟨s, h, hs⟩ := Res.test_iff (m := run (constPar wide) (constKit wide) 0
    ([.fit 1 [1]] ++ [.fit 2 [.nan]])) (p := fun s => decide (s.error = .nan)) (by decide +kernel)
  obtain ⟨more, s', h1, h2⟩ := H [.fit 1 [1]] 2 [.nan] s h
  exact h2 (steps_nan (of_decide_eq_true hs) h1)

/-! ## The hypotheses hold -/

example : Notices 2 (rmseLoss (fun v : Dbl binary64 => v) 2) := (C110_other_losses 2 rfl id 1 1 1).1

example : onehotLoss 2 [.nan, (1 : Dbl wide)] [.nan, 1] = .ok 1 := rfl

example : ¬ (1 : Dbl wide) < 0 := by decide +kernel

example : Bad 2 [(1 : Dbl binary64), .nan] := ⟨1, by decide, rfl⟩

example {s : St (Dbl wide) Nat (Nat × Nat) Nat}
    (h : run (constPar wide) (constKit wide) 0 ([.fit 1 [1]] ++ .fit 2 [.nan] :: [.fit 1 [1]]) = .ok s) :
    s.error = .nan :=
  C110_error_lost (C110_losses 1).1 ⟨0, Nat.one_pos, rfl⟩ h

example : Res.test (run (constPar wide) (constKit wide) 0
    ([.fit 1 [1]] ++ .fit 2 [.nan] :: [.fit 1 [1]])) (fun _ => true) = true := by decide +kernel

example (ls : List (Dbl binary64)) : ema (half binary64) (.inf false) (1 :: ls) = .nan :=
  C110_infinite _ _ (by norm_num) ls

/-- A rule that advocates action 0. -/
def advocate (p fit : Dbl wide) : Cl (Dbl wide) Nat :=
  { body := 0, err := 0, fit := fit, num := 1, exp := 1, size := 1, time := 0, prediction := [p], action := 0,
    m := true, age := 0, mtotal := 0 }

/-- One of two rules for an action is lost; the other has a thousand times its fitness. -/
example : ∃ pa nr, paRules 1 [advocate 1 ((1000 : Int) : Dbl wide), advocate .nan 1] [0] [0] = .ok (pa, nr) ∧
    (paNorm pa nr)[0]? = some .nan := by
  obtain ⟨q, h, hv⟩ := Res.test_iff (m := paRules 1 [advocate 1 ((1000 : Int) : Dbl wide), advocate .nan 1] [0] [0])
    (p := fun q => decide (q.2[0]? = some ((1001 : Int) : Dbl wide))) (by decide +kernel)
  exact ⟨q.1, q.2, h, C110_prediction_lost (c := advocate .nan 1) h (by simp) (k := 0) Nat.one_pos rfl
    (of_decide_eq_true hv) (by decide +kernel)⟩

end Xcsf.Double
