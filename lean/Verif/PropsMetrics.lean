import Verif.MetricsLemmas
import Verif.PropsWrapper
import Mathlib.Data.List.GetD

/-!
# C102: the record of training tells what happened

Proved: every entry of `get_metrics()` belongs to one epoch, in order, with its mean loss, the error on
the validation data and the sizes at that time, for all sequences of calls; the recorded number of
trials is the clock of the system as long as all calls of `fit` have a warm start and the same number
of trials per epoch.  Refuted for calls with other numbers of trials, without a warm start, for the
size of match sets when there is validation data, and for validation data that is not an array of
doubles.
-/

set_option linter.unusedSectionVars false

namespace Xcsf
namespace Metrics
variable {K X B R : Type}

section
variable [Zero K] [One K] [Add K] [Sub K] [Mul K] [Div K]
  [LT K] [DecidableLT K] [IntCast K] [DecidableEq K]
variable {par : Params K} {kit : Kit K X B R}

/-- **C102.**  For every sequence of calls, the record is continued with exactly one entry per epoch, in
order; each entry tells the mean loss of the learning trials of its epoch, the error on the validation
data of its call, and the sizes of population and match set and the matching fraction as they were
then. -/
theorem C102_entries {cs : List (Call K X B R)} {g g' : Log K} {s s' : St K X B R}
    (h : session par kit cs (g, s) = .ok (g', s')) :
    ∃ es : List (Epoch K X B R), (∀ e ∈ es, ∃ j, .fit j ∈ cs ∧ e.Of par kit j) ∧ Continues g g' es := by
  obtain ⟨es, h1, h2, -⟩ := session_of cs h
  exact ⟨es, h1, h2⟩

/-- **C102 (number of trials), the part that holds.**  If all calls of `fit` have a warm start and `n`
trials per epoch, the numbers of trials recorded by a new object are `n`, `2 n`, …, and the last one
is the number of trials the system has been trained for. -/
theorem C102_trials_partial {cs : List (Call K X B R)} {g' : Log K} {s s' : St K X B R}
    (h : session par kit cs ({}, s) = .ok (g', s')) (h0 : s.time = 0) {n : Nat}
    (hn : ∀ c ∈ cs, c.Steady n) :
    g'.trials = (List.range g'.train.length).map (fun i => (i + 1) * n) ∧
      (g'.trials.getLastD 0 : Nat) = s'.time := by
  obtain ⟨es, h1, h2, h3, h4⟩ := session_of cs h
  have hl : g'.train.length = es.length := by rw [h2.train]; simp
  have hr : es.map Epoch.n = List.replicate es.length n := by
    rw [List.eq_replicate_iff]
    refine ⟨by simp, fun x hx => ?_⟩
    obtain ⟨e, he, rfl⟩ := List.mem_map.1 hx
    obtain ⟨j, hj, ho⟩ := h1 e he
    rw [ho.1]
    exact (hn _ hj).2.1
  have ht : g'.trials = (List.range es.length).map fun i => (i + 1) * n := by
    rw [h3, hr, labels_same]
    simp
  refine ⟨by rw [hl, ht], ?_⟩
  rw [h4 n hn, h0, ht]
  cases es with
  | nil => simp
  | cons e es =>
    rw [List.length_cons, List.range_succ]
    simp

/-- **C102 (number of trials) refuted.**  Whatever is recorded already (`c` epochs): when an epoch has
`n` trials, `(c + 1) n` is recorded, whatever the size of the earlier epochs was.  So after `fit` with
epochs of `m` trials and a call with epochs of less than `m / 2` the numbers recorded go down, while
the clock of the system goes up. -/
theorem C102_trials_refuted {j j' : Job K X B R} {g1 g2 : Log K} {s s1 s2 : St K X B R}
    (h1 : fit par kit j {} s = .ok (g1, s1)) (h2 : fit par kit j' g1 s1 = .ok (g2, s2))
    (hm : j.maxTrials = j.perfTrials) (hm' : j'.maxTrials = j'.perfTrials) (hp' : 1 ≤ j'.perfTrials)
    (hlt : 2 * j'.perfTrials < j.perfTrials) (hw : j.warm = true ∧ j'.warm = true)
    (hc : j.Calm ∧ j'.Calm) :
    g2.trials = [j.perfTrials, 2 * j'.perfTrials] ∧
      s2.time = s.time + (j.perfTrials + j'.perfTrials : Nat) := by
  have one : ∀ (j : Job K X B R) (g g' : Log K) (s s' : St K X B R), fit par kit j g s = .ok (g', s') →
      j.maxTrials = j.perfTrials → 1 ≤ j.perfTrials → j.warm = true → j.Calm →
      g'.trials = g.trials ++ [(1 + g.counter) * j.perfTrials] ∧ g'.counter = g.counter + 1 ∧
        s'.time = s.time + j.perfTrials := by
    intro j g g' s s' h hm hp hw hc
    have hn : nEpochs j.maxTrials j.perfTrials = 1 := by
      unfold nEpochs
      rw [hm]
      exact Nat.div_eq_of_lt_le (by omega) (by omega)
    obtain ⟨es, k1, k2, k3, k4, k5⟩ := fit_of h
    have hne := k4 (by omega) hp
    have hlen : es.length ≤ 1 := by
      unfold fit begin at h
      rw [hn, if_pos hw] at h
      have h : (fitGo par kit j 1 0 g s >>= _) = _ := h
      cases e1 : fitGo par kit j 1 0 g s with
      | error f => rw [e1] at h; cases h
      | ok q =>
        obtain ⟨g1, s1⟩ := q
        rw [e1] at h
        have h : (j.finish s1 >>= _) = _ := h
        cases e2 : j.finish s1 with
        | error f => rw [e2] at h; cases h
        | ok s2 =>
          rw [e2] at h
          cases h
          have hcn := k2.counter
          unfold fitGo at e1
          cases e3 : supFit par kit j.train none j.shuffle (0 * j.n) j.n s with
          | error f => rw [e3] at e1; cases e1
          | ok p =>
            rw [e3] at e1
            have e1 : (validate par kit j.val p.2 >>= _) = _ := e1
            cases e4 : validate par kit j.val p.2 with
            | error f => rw [e4] at e1; cases e1
            | ok q =>
              rw [e4] at e1
              have e1 : (j.watch (g.note p.1 q.1 j.n q.2) q.2 >>= _) = _ := e1
              cases e5 : j.watch (g.note p.1 q.1 j.n q.2) q.2 with
              | error f => rw [e5] at e1; cases e1
              | ok r =>
                obtain ⟨b, s3⟩ := r
                rw [e5] at e1
                cases b <;> cases e1 <;>
                  (have : g.counter + 1 = g.counter + es.length := hcn
                   omega)
    obtain ⟨e, rfl⟩ := List.length_eq_one_iff.1
      (Nat.le_antisymm hlen (List.length_pos_iff.2 hne))
    have en : e.n = j.perfTrials := by
      rw [(k1 e (by simp)).1, hm, Nat.min_self]
    refine ⟨?_, k2.counter, ?_⟩
    · rw [k3, List.map_singleton, en]; rfl
    · rw [k5 hc, if_pos hw, List.map_singleton, en]; simp
  obtain ⟨a1, a2, a3⟩ := one j {} g1 s s1 h1 hm (by omega) hw.1 hc.1
  obtain ⟨b1, b2, b3⟩ := one j' g1 g2 s1 s2 h2 hm' hp' hw.2 hc.2
  refine ⟨?_, by rw [b3, a3]; push_cast; omega⟩
  rw [b1, a1, a2]
  show [] ++ [(1 + 0) * j.perfTrials] ++ [(1 + (0 + 1)) * j'.perfTrials] = _
  simp

/-- **C102 (warm start) refuted.**  When `fit` is called without a warm start, the system and its clock
start again, but the recorded numbers of trials go on: if anything was recorded before, every number
recorded for the new system is greater than the number of trials it has been trained for. -/
theorem C102_cold_refuted {j : Job K X B R} {g g' : Log K} {s s' : St K X B R}
    (h : fit par kit j g s = .ok (g', s')) (hw : j.warm = false) (hc : j.Calm)
    (h1 : 1 ≤ j.maxTrials) (h2 : 1 ≤ j.perfTrials) (hg : 1 ≤ g.counter) :
    s'.time < (g'.trials.getLastD 0 : Nat) := by
  obtain ⟨es, k1, k2, k3, k4, k5⟩ := fit_of h
  have hne := k4 h1 h2
  have hr : es.map Epoch.n = List.replicate es.length (min j.maxTrials j.perfTrials) := by
    rw [List.eq_replicate_iff]
    refine ⟨by simp, fun x hx => ?_⟩
    obtain ⟨e, he, rfl⟩ := List.mem_map.1 hx
    exact (k1 e he).1
  have hm : 1 ≤ min j.maxTrials j.perfTrials := by omega
  rw [k5 hc, hw, k3, hr, labels_same]
  obtain ⟨m, em⟩ : ∃ m, es.length = m + 1 :=
    ⟨es.length - 1, by have := List.length_pos_iff.2 hne; omega⟩
  rw [em, List.range_succ, List.map_append, ← List.append_assoc]
  simp only [List.map_singleton, List.getLastD_concat, List.sum_replicate, smul_eq_mul]
  have : (m + 1) * min j.maxTrials j.perfTrials < (g.counter + m + 1) * min j.maxTrials j.perfTrials :=
    Nat.mul_lt_mul_of_pos_right (by omega) hm
  simp only [Bool.false_eq_true, if_false]
  omega

/-- **C102 (measuring changes what is measured).**  The recorded size of match sets is the estimate of
the training, moved on once for each row of the validation data. -/
theorem C102_validation_moves_msize {j : Job K X B R} {e : Epoch K X B R} (h : e.Of par kit j)
    {v : List (X × List K)} (hv : j.val = some v) :
    ∃ ks : List Int, ks.length = v.length ∧
      e.seen.msetSize = ema par.beta e.trained.msetSize (ks.map fun k => (k : K)) := by
  have := score_msize (par := par) (kit := kit) (List.replicate (par.nActions * par.yDim) 0) v e.trained
  rw [h.2.2.2.2 v hv] at this
  exact this

end

/-! ## Validation data -/

section
variable [Zero K]

/-- The shape of an argument. -/
def ArrArg.shape : ArrArg K → List Nat
  | .arr a => a.shape
  | .other _ s => s

/-- **C102 (validation data), the part that holds.**  Validation data given as arrays of doubles, stored
row after row, is read as it is; `w'` is the wrapper after loading. -/
theorem C102_arrays_partial {d : WDims} {w w' : Wr K} {X Y : PyArr} {v : WInput}
    (h : loadVal d w (.arr X) (.arr Y) = .ok (some v, w')) (hX : X.RowMajor d.xDim) (hm : X.Alive w.mem)
    (hc : X.buf ≠ w.cover.1) {row : Nat} (hr : row < v.nSamples) :
    ∃ u, wRowAt w'.mem v.x d.xDim row = .ok u ∧ ∀ j < d.xDim, u[j]? = X.sample w.mem row j := by
  unfold loadVal ArrArg.cast at h
  dsimp only at h
  cases e1 : loadInput d X Y with
  | none => rw [e1] at h; cases h
  | some i =>
    rw [e1] at h
    have h : (memZero w.mem w.cover d.paSize >>= _) = _ := h
    cases e2 : memZero w.mem w.cover d.paSize with
    | error f => rw [e2] at h; cases h
    | ok mem =>
      rw [e2] at h
      cases h
      have hv : v = ⟨X.shape.headD 0, (X.buf, X.off), (Y.buf, Y.off)⟩ := by
        unfold loadInput at e1
        split at e1
        · cases e1; rfl
        · cases e1
      subst hv
      have hmem : mem X.buf = w.mem X.buf := by
        unfold memZero at e2
        split at e2
        · cases e2
        · split at e2
          · cases e2
            exact Function.update_of_ne hc _ _
          · cases e2
      have hm' : X.Alive mem := by
        unfold PyArr.Alive at hm ⊢
        rw [hmem]
        exact hm
      obtain ⟨u, k1, -, k2⟩ := C61_rows_partial hX hm' hr
      refine ⟨u, k1, fun j hj => ?_⟩
      rw [(k2 j hj).1]
      unfold PyArr.sample PyArr.elem
      rw [hmem]

/-- **C102 (validation data) refuted.**  Validation inputs that are not an array of doubles (a list, or
an array of integers or of single precision): `fit` accepts them, and the first validation reads memory
that has been released. -/
theorem C102_list_refuted {d : WDims} {w : Wr K} (H : WrOk d w) (hcov : w.cover.1 < w.next)
    (hd : 0 < d.xDim) {n : Nat} (vals : List K) (y : ArrArg K) (hy : shapeOk d.yDim y.shape = true)
    (hy' : y.shape.head? = some n) :
    ∃ v w', loadVal d w (.other vals [n, d.xDim]) y = .ok (some v, w') ∧
      ∀ row, wRowAt w'.mem v.x d.xDim row = .error .uaf := by
  obtain ⟨l, h1, h2⟩ := H.own
  have hne : w.cover.1 ≠ w.next := by omega
  have hz : ∀ w2 : Wr K, w2.mem w.cover.1 = some (true, l) → w2.cover = w.cover →
      memZero w2.mem w2.cover d.paSize = .ok (Function.update w2.mem w.cover.1
        (some (true, List.replicate d.paSize 0))) := by
    intro w2 a1 a2
    unfold memZero
    rw [a2, a1]
    dsimp only
    rw [if_pos (by rw [H.start, h2]; omega), H.start, Nat.zero_add, ← h2, List.drop_length]
    simp
  have hl : ∀ Y : PyArr, Y.shape = y.shape →
      loadInput d ⟨w.next, 0, [n, d.xDim], []⟩ Y = some ⟨n, (w.next, 0), (Y.buf, Y.off)⟩ := by
    intro Y hY
    unfold loadInput
    rw [if_pos ⟨by simp [shapeOk], by rw [hY]; exact hy, by rw [hY, hy']; rfl⟩]
    rfl
  cases y with
  | arr Y =>
    refine ⟨⟨n, (w.next, 0), (Y.buf, Y.off)⟩, { w with
      mem := Function.update (Function.update (Function.update w.mem w.next (some (false, vals)))
        w.cover.1 (some (true, List.replicate d.paSize 0))) w.next none
      next := w.next + 1 }, ?_, fun row => ?_⟩
    · unfold loadVal ArrArg.cast
      dsimp only
      rw [hl Y rfl]
      dsimp only
      rw [hz { w with mem := Function.update w.mem w.next (some (false, vals)), next := w.next + 1 }
        (by simp [Function.update_of_ne hne, h1]) rfl]
      rfl
    · exact readN_dangling (Function.update_self ..) hd
  | other yv ys =>
    refine ⟨⟨n, (w.next, 0), (w.next + 1, 0)⟩, { w with
      mem := Function.update (Function.update (Function.update (Function.update (Function.update w.mem
        w.next (some (false, vals))) (w.next + 1) (some (false, yv)))
        w.cover.1 (some (true, List.replicate d.paSize 0))) (w.next + 1) none) w.next none
      next := w.next + 1 + 1 }, ?_, fun row => ?_⟩
    · unfold loadVal ArrArg.cast
      dsimp only
      rw [hl ⟨w.next + 1, 0, ys, []⟩ rfl]
      dsimp only
      rw [hz { w with
          mem := Function.update (Function.update w.mem w.next (some (false, vals))) (w.next + 1)
            (some (false, yv)), next := w.next + 1 + 1 }
        (by
          have : w.cover.1 ≠ w.next + 1 := by omega
          simp [Function.update_of_ne hne, Function.update_of_ne this, h1]) rfl]
      rfl
    · exact readN_dangling (Function.update_self ..) hd

end

/-! ## Examples -/

section Examples

/-- A call of `fit` on two rows. -/
def demoJob (warm : Bool) (val : Option (List (Nat × List ℚ))) (n : Nat) :
    Job ℚ Nat (Nat × Nat) Nat :=
  { train := [(1, [5]), (2, [3])], val := val, shuffle := false, warm := warm, maxTrials := n,
    perfTrials := n, watch := fun _ s => .ok (false, s), finish := fun s => .ok s }

theorem demoJob_calm (warm : Bool) (val : Option (List (Nat × List ℚ))) (n : Nat) :
    (demoJob warm val n).Calm := by
  refine ⟨fun g s b s' h => ?_, fun s s' h => ?_⟩
  · cases h; rfl
  · cases h; rfl

/-- A new object and calls of `fit`. -/
def demoRun (js : List (Job ℚ Nat (Nat × Nat) Nat)) :
    Res (Log ℚ × St ℚ Nat (Nat × Nat) Nat) := do
  let s ← xcsfInit Demo.par Demo.kit 0
  session Demo.par Demo.kit (js.map Call.fit) ({}, s)

/-- **C102 (match sets) refuted.**  With and without validation data the same training, on the same
random numbers, gives the same population and the same training error, but another size of match
sets is recorded. -/
theorem C102_msize_refuted : ∃ g s g' s',
    demoRun [demoJob true none 4] = .ok (g, s) ∧
    demoRun [demoJob true (some [(9, [0]), (8, [0])]) 4] = .ok (g', s') ∧
    g.train = g'.train ∧ g.psize = g'.psize ∧ s.rng = s'.rng ∧ g.msize ≠ g'.msize := by
  obtain ⟨⟨g, s⟩, h1, h2⟩ := Demo.Res.test_iff (m := demoRun [demoJob true none 4])
    (p := fun q => Demo.Res.test (demoRun [demoJob true (some [(9, [0]), (8, [0])]) 4]) fun q' =>
      decide (q.1.train = q'.1.train ∧ q.1.psize = q'.1.psize ∧ q.2.rng = q'.2.rng ∧
        q.1.msize ≠ q'.1.msize)) (by decide +kernel)
  obtain ⟨⟨g', s'⟩, h3, h4⟩ := Demo.Res.test_iff h2
  exact ⟨g, s, g', s', h1, h3, of_decide_eq_true h4⟩

/-- A session with several calls of the same kind. -/
example : ∃ g s, demoRun [demoJob true none 2, demoJob true (some [(1, [5])]) 2] = .ok (g, s) ∧
    g.trials = [2, 4] ∧ s.time = 4 ∧ ∀ c ∈ [demoJob true none 2, demoJob true (some [(1, [5])]) 2].map
      Call.fit, c.Steady 2 := by
  obtain ⟨⟨g, s⟩, h1, h2⟩ := Demo.Res.test_iff
    (m := demoRun [demoJob true none 2, demoJob true (some [(1, [5])]) 2])
    (p := fun q => decide (q.1.trials = [2, 4] ∧ q.2.time = 4)) (by decide +kernel)
  refine ⟨g, s, h1, (of_decide_eq_true h2).1, (of_decide_eq_true h2).2, ?_⟩
  intro c hc
  simp only [List.map_cons, List.map_nil, List.mem_cons, List.not_mem_nil, or_false] at hc
  rcases hc with rfl | rfl
  · exact ⟨rfl, rfl, demoJob_calm _ _ _⟩
  · exact ⟨rfl, rfl, demoJob_calm _ _ _⟩

/-- The recorded numbers of trials go down. -/
example : ∃ g s, demoRun [demoJob true none 5, demoJob true none 2] = .ok (g, s) ∧
    g.trials = [5, 4] ∧ s.time = 7 := by
  obtain ⟨⟨g, s⟩, h1, h2⟩ := Demo.Res.test_iff
    (m := demoRun [demoJob true none 5, demoJob true none 2])
    (p := fun q => decide (q.1.trials = [5, 4] ∧ q.2.time = 7)) (by decide +kernel)
  exact ⟨g, s, h1, of_decide_eq_true h2⟩

/-- A call without a warm start. -/
example : ∃ g s, demoRun [demoJob true none 2, demoJob false none 2] = .ok (g, s) ∧
    g.trials = [2, 4] ∧ s.time = 2 := by
  obtain ⟨⟨g, s⟩, h1, h2⟩ := Demo.Res.test_iff
    (m := demoRun [demoJob true none 2, demoJob false none 2])
    (p := fun q => decide (q.1.trials = [2, 4] ∧ q.2.time = 2)) (by decide +kernel)
  exact ⟨g, s, h1, of_decide_eq_true h2⟩

/-- A new wrapper satisfies the hypotheses on wrappers. -/
example : ∃ v w', loadVal ⟨2, 1, 1⟩ (wNew (K := ℚ) ⟨2, 1, 1⟩) (.other [1, 2, 3, 4] [2, 2])
      (.other [1, 0] [2]) = .ok (some v, w') ∧
    ∀ row, wRowAt w'.mem v.x 2 row = .error .uaf :=
  C102_list_refuted (d := ⟨2, 1, 1⟩)
    ⟨⟨[0], by simp [wNew, WDims.paSize], rfl⟩, rfl, fun b hb => by
      have : b ≠ 0 := by
        have : 1 ≤ b := hb
        omega
      simp [wNew, this]⟩
    (by show 0 < 1; decide) (by simp) [1, 2, 3, 4] (.other [1, 0] [2]) rfl rfl

/-- Arrays of doubles. -/
example : ∃ (w w' : Wr ℚ) (X : PyArr) (v : WInput),
    loadVal ⟨2, 1, 1⟩ w (.arr X) (.arr ⟨2, 0, [2], [1]⟩) = .ok (some v, w') ∧ X.RowMajor 2 ∧
    X.Alive w.mem ∧ X.buf ≠ w.cover.1 ∧ 1 < v.nSamples := by
  refine ⟨{ (wNew ⟨2, 1, 1⟩ : Wr ℚ) with
      mem := fun b => if b = 0 then some (true, [0]) else if b = 1 then some (false, [1, 2, 3, 4]) else none
      next := 3 }, _, ⟨1, 0, [2, 2], [2, 1]⟩, _, rfl, ?_, ?_, ?_, ?_⟩
  · exact Or.inl ⟨2, rfl, rfl⟩
  · exact ⟨false, [1, 2, 3, 4], rfl, by simp⟩
  · show (1 : Nat) ≠ 0
    decide
  · show (1 : Nat) < 2
    decide

end Examples

end Metrics
end Xcsf
