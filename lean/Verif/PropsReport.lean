import Verif.Report
import Verif.Demo
import Verif.Props5

/-!
# C98: the progress report of experiments

Experiments print a line every so many trials.  A user reads it as the average over the trials since
the line before.  That is what all lines show but the first, which adds up one trial more than it
divides by.  The trials after the last line are never reported.  Printing has no influence on what is
learned.
-/

set_option linter.unusedSectionVars false

namespace Xcsf
variable {K X B R : Type} [Field K] [LinearOrder K] [IsStrictOrderedRing K]
variable {par : Params K} {kit : Kit K X B R}

/-! ## Specification -/

/-- What a trial of an experiment yields: the two numbers that are reported, and the size of the
population after it. -/
structure Outcome (K : Type) where
  err : K
  terr : K
  size : Int
  deriving DecidableEq

/-- The trials of an experiment, one after the other, with nothing printed: `k` trials beginning with
number `cnt`. -/
def trialLog (body : TrialFn K X B R) : Nat → Nat → St K X B R →
    Res (List (Outcome K) × St K X B R)
  | 0, _, s => .ok ([], s)
  | k + 1, cnt, s => do
    let q ← body cnt s
    let p ← trialLog body k (cnt + 1) q.2.2
    .ok (⟨q.1, q.2.1, q.2.2.pset.size⟩ :: p.1, p.2)

/-- The trials number `a` up to `b`, without `b`. -/
def between (log : List (Outcome K)) (a b : Nat) : List (Outcome K) := (log.take b).drop a

/-- A line shows the averages of the last `perf` trials up to the one it names, and the number of rules
after it. -/
structure PerfLine.Averages (l : PerfLine K) (perf : Nat) (log : List (Outcome K)) : Prop where
  window : (between log (l.trial + 1 - perf) (l.trial + 1)).length = perf
  err : l.err = ((between log (l.trial + 1 - perf) (l.trial + 1)).map Outcome.err).sum / (perf : K)
  terr : l.terr = ((between log (l.trial + 1 - perf) (l.trial + 1)).map Outcome.terr).sum / (perf : K)
  size : (log[l.trial]?).map Outcome.size = some l.size

/-! ## Lemmas -/

/-- What is printed for given outcomes. -/
def linesGo (perf : Nat) : Nat → K × K → List (Outcome K) → List (PerfLine K)
  | _, _, [] => []
  | cnt, w, o :: os =>
    if cnt % perf = 0 ∧ 0 < cnt then
      ⟨cnt, (w.1 + o.err) / (perf : K), (w.2 + o.terr) / (perf : K), o.size⟩ ::
        linesGo perf (cnt + 1) (0, 0) os
    else linesGo perf (cnt + 1) (w.1 + o.err, w.2 + o.terr) os

theorem expGo_eq {perf : Nat} (hp : perf ≠ 0) {body : TrialFn K X B R} : ∀ (k cnt : Nat) (tot : K)
    (w : K × K) (out : List (PerfLine K)) (s : St K X B R),
    expGo perf body k cnt tot w out s = match trialLog body k cnt s with
      | .error e => .error e
      | .ok p => .ok (tot + (p.1.map Outcome.err).sum, out ++ linesGo perf cnt w p.1, p.2)
  | 0, cnt, tot, w, out, s => by simp [expGo, trialLog, linesGo]
  | k + 1, cnt, tot, w, out, s => by
    unfold expGo trialLog
    cases e : body cnt s with
    | error f => rfl
    | ok q =>
      obtain ⟨a, b, s1⟩ := q
      show (perfPrint perf s1.pset.size cnt (w.1 + a, w.2 + b) out >>= fun q =>
        expGo perf body k (cnt + 1) (tot + a) q.1 q.2 s1) = match (trialLog body k (cnt + 1) s1 >>=
          fun p => .ok (⟨a, b, s1.pset.size⟩ :: p.1, p.2)) with
        | .error e => .error e
        | .ok p => .ok (tot + (p.1.map Outcome.err).sum, out ++ linesGo perf cnt w p.1, p.2)
      unfold perfPrint
      rw [if_neg hp]
      by_cases hc : cnt % perf = 0 ∧ 0 < cnt
      · rw [if_pos hc]
        show expGo perf body k (cnt + 1) (tot + a) (0, 0) _ s1 = _
        rw [expGo_eq hp]
        cases trialLog body k (cnt + 1) s1 with
        | error f => rfl
        | ok p =>
          show Except.ok _ = Except.ok _
          simp [linesGo, hc, add_assoc]
      · rw [if_neg hc]
        show expGo perf body k (cnt + 1) (tot + a) (w.1 + a, w.2 + b) _ s1 = _
        rw [expGo_eq hp]
        cases trialLog body k (cnt + 1) s1 with
        | error f => rfl
        | ok p =>
          show Except.ok _ = Except.ok _
          simp only [linesGo, if_neg hc]
          simp [add_assoc]

theorem trialLog_length {body : TrialFn K X B R} : ∀ {k cnt : Nat} {s s' : St K X B R}
    {log : List (Outcome K)}, trialLog body k cnt s = .ok (log, s') → log.length = k
  | 0, _, _, _, _, h => by cases h; rfl
  | k + 1, cnt, s, s', log, h => by
    unfold trialLog at h
    cases e : body cnt s with
    | error f => rw [e] at h; cases h
    | ok q =>
      rw [e] at h
      have h : (trialLog body k (cnt + 1) q.2.2 >>= fun p =>
        Except.ok (⟨q.1, q.2.1, q.2.2.pset.size⟩ :: p.1, p.2)) = .ok (log, s') := h
      cases e1 : trialLog body k (cnt + 1) q.2.2 with
      | error f => rw [e1] at h; cases h
      | ok p =>
        rw [e1] at h
        cases h
        rw [List.length_cons, trialLog_length (log := p.1) (s' := p.2) e1]

/-- The first trial of the window of a line. -/
def windowStart (perf : Nat) : Nat → Nat
  | 0 => 0
  | m + 1 => (m + 1) * perf + 1

/-- The `m`-th line. -/
def lineOf (perf : Nat) (log : List (Outcome K)) (m : Nat) : PerfLine K where
  trial := (m + 1) * perf
  err := ((between log (windowStart perf m) ((m + 1) * perf + 1)).map Outcome.err).sum / (perf : K)
  terr := ((between log (windowStart perf m) ((m + 1) * perf + 1)).map Outcome.terr).sum / (perf : K)
  size := ((log[(m + 1) * perf]?).map Outcome.size).getD 0

theorem between_succ {log : List (Outcome K)} {a b : Nat} (h : a ≤ b) {o : Outcome K}
    (ho : log[b]? = some o) : between log a (b + 1) = between log a b ++ [o] := by
  obtain ⟨hb, e⟩ := List.getElem?_eq_some_iff.1 ho
  unfold between
  rw [List.take_add_one, ho, Option.toList_some, List.drop_append_of_le_length (by simp; omega)]

theorem linesGo_eq {perf : Nat} (hp : perf ≠ 0) {log : List (Outcome K)} : ∀ (os : List (Outcome K))
    (cnt m : Nat) (w : K × K), log.drop cnt = os → windowStart perf m ≤ cnt → cnt ≤ (m + 1) * perf →
    (m = 0 ∨ m * perf < cnt) →
    w.1 = ((between log (windowStart perf m) cnt).map Outcome.err).sum →
    w.2 = ((between log (windowStart perf m) cnt).map Outcome.terr).sum →
    linesGo perf cnt w os = (List.range ((log.length - 1) / perf - m)).map fun i => lineOf perf log (m + i)
  | [], cnt, m, w, ho, h1, h2, h3, hw1, hw2 => by
    have hl := List.drop_eq_nil_iff.1 ho
    have : (log.length - 1) / perf ≤ m := by
      rw [← Nat.lt_succ_iff, Nat.div_lt_iff_lt_mul (Nat.pos_of_ne_zero hp)]
      have := Nat.mul_pos (Nat.succ_pos m) (Nat.pos_of_ne_zero hp)
      show log.length - 1 < (m + 1) * perf
      have : 0 < (m + 1) * perf := this
      omega
    rw [Nat.sub_eq_zero_of_le this]
    rfl
  | o :: os, cnt, m, w, ho, h1, h2, h3, hw1, hw2 => by
    have hc : log[cnt]? = some o := by
      have := congrArg (fun l => l[0]?) ho
      simpa using this
    have hlt : cnt < log.length := (List.getElem?_eq_some_iff.1 hc).1
    have ho' : log.drop (cnt + 1) = os := by
      have := congrArg List.tail ho
      rwa [List.tail_drop, List.tail_cons] at this
    have hb := between_succ h1 hc
    have e1 : w.1 + o.err = ((between log (windowStart perf m) (cnt + 1)).map Outcome.err).sum := by
      rw [hb, hw1]; simp
    have e2 : w.2 + o.terr = ((between log (windowStart perf m) (cnt + 1)).map Outcome.terr).sum := by
      rw [hb, hw2]; simp
    have hpos := Nat.pos_of_ne_zero hp
    unfold linesGo
    by_cases hd : cnt = (m + 1) * perf
    · have hq : m < (log.length - 1) / perf := by
        rw [Nat.lt_iff_add_one_le, Nat.le_div_iff_mul_le hpos]
        omega
      rw [if_pos ⟨by rw [hd]; exact Nat.mul_mod_left _ _, by rw [hd]; exact Nat.mul_pos (Nat.succ_pos m) hpos⟩]
      have ih := linesGo_eq hp (log := log) os (cnt + 1) (m + 1) (0, 0) ho'
        (by show (m + 1) * perf + 1 ≤ cnt + 1; omega)
        (by rw [Nat.add_mul (m + 1) 1 perf]; omega) (Or.inr (by omega))
        (by show (0 : K) = ((between log ((m + 1) * perf + 1) (cnt + 1)).map Outcome.err).sum
            rw [← hd]; unfold between; simp)
        (by show (0 : K) = ((between log ((m + 1) * perf + 1) (cnt + 1)).map Outcome.terr).sum
            rw [← hd]; unfold between; simp)
      rw [ih]
      obtain ⟨d, hd'⟩ : ∃ d, (log.length - 1) / perf - m = d + 1 := ⟨(log.length - 1) / perf - m - 1, by omega⟩
      have : (log.length - 1) / perf - (m + 1) = d := by omega
      rw [hd', this, List.range_succ_eq_map, List.map_cons, List.map_map]
      congr 1
      · unfold lineOf
        simp only [Nat.add_zero]
        rw [e1, e2, ← hd, hc]
        rfl
      · apply List.map_congr_left
        intro i _
        show lineOf perf log (m + 1 + i) = lineOf perf log (m + (i + 1))
        congr 1
        omega
    · have hmod : ¬ (cnt % perf = 0 ∧ 0 < cnt) := by
        rintro ⟨k1, k2⟩
        obtain ⟨d, rfl⟩ := Nat.dvd_of_mod_eq_zero k1
        have h2' : d ≤ m + 1 := Nat.le_of_mul_le_mul_left (by rwa [Nat.mul_comm (m + 1) perf] at h2) hpos
        have hd2 : d ≠ m + 1 := by rintro rfl; exact hd (Nat.mul_comm _ _)
        have hd3 : d ≤ m := by omega
        rcases h3 with rfl | h3
        · obtain rfl : d = 0 := by omega
          simp at k2
        · have := Nat.mul_le_mul_left perf hd3
          rw [Nat.mul_comm m perf] at h3
          omega
      rw [if_neg hmod]
      exact linesGo_eq hp os (cnt + 1) m _ ho' (by omega) (by omega)
        (h3.imp id (fun h => by omega)) e1 e2

theorem lines_eq {perf : Nat} (hp : perf ≠ 0) (log : List (Outcome K)) :
    linesGo perf 0 (0, 0) log = (List.range ((log.length - 1) / perf)).map fun i => lineOf perf log i := by
  have := linesGo_eq hp (log := log) log 0 0 (0, 0) rfl (Nat.le_refl _) (Nat.zero_le _) (Or.inl rfl)
    (by unfold between; simp) (by unfold between; simp)
  simpa using this

theorem lineOf_averages {perf : Nat} (hp : perf ≠ 0) {log : List (Outcome K)} {m : Nat}
    (h : m + 1 < (log.length - 1) / perf) : (lineOf perf log (m + 1)).Averages perf log := by
  have hpos := Nat.pos_of_ne_zero hp
  have hl : (m + 2) * perf ≤ log.length - 1 := (Nat.le_div_iff_mul_le hpos).1 h
  have hz : 0 < (m + 2) * perf := Nat.mul_pos (Nat.succ_pos _) hpos
  have hlt : (m + 2) * perf < log.length := by omega
  have hw : windowStart perf (m + 1) = (m + 2) * perf + 1 - perf := by
    show (m + 1) * perf + 1 = (m + 1 + 1) * perf + 1 - perf
    rw [Nat.add_mul (m + 1) 1 perf]
    omega
  refine ⟨?_, ?_, ?_, ?_⟩
  · show (between log ((m + 2) * perf + 1 - perf) ((m + 2) * perf + 1)).length = perf
    have : perf ≤ (m + 2) * perf := Nat.le_mul_of_pos_left _ (by omega)
    unfold between
    rw [List.length_drop, List.length_take, Nat.min_eq_left (by omega)]
    omega
  · show _ = _
    unfold lineOf
    rw [hw]
  · show _ = _
    unfold lineOf
    rw [hw]
  · show (log[(m + 2) * perf]?).map Outcome.size = some (((log[(m + 2) * perf]?).map Outcome.size).getD 0)
    rw [List.getElem?_eq_getElem hlt]
    rfl

/-- An experiment in terms of its trials. -/
theorem exp_spec {perf : Nat} (hp : perf ≠ 0) {body : TrialFn K X B R} {trials : Nat} {tot : K}
    {out : List (PerfLine K)} {s s' : St K X B R}
    (h : expGo perf body trials 0 0 (0, 0) [] s = .ok (tot, out, s')) :
    ∃ log, trialLog body trials 0 s = .ok (log, s') ∧ log.length = trials ∧
      tot = (log.map Outcome.err).sum ∧
      out = (List.range ((trials - 1) / perf)).map fun i => lineOf perf log i := by
  rw [expGo_eq hp] at h
  cases e : trialLog body trials 0 s with
  | error f => rw [e] at h; cases h
  | ok p =>
    rw [e] at h
    obtain ⟨log, s1⟩ := p
    have hl := trialLog_length e
    have h := Except.ok.inj h
    have h1 : 0 + (log.map Outcome.err).sum = tot := congrArg (fun q => q.1) h
    have h2 : [] ++ linesGo perf 0 (0, 0) log = out := congrArg (fun q => q.2.1) h
    have h3 : s1 = s' := congrArg (fun q => q.2.2) h
    subst h3
    refine ⟨log, rfl, hl, by rw [← h1, zero_add], ?_⟩
    rw [← h2, List.nil_append, lines_eq hp, hl]

/-- Supervised learning with and without the report. -/
theorem supExp_fit {perf : Nat} (hp : perf ≠ 0) {train : List (X × List K)}
    {test : Option (List (X × List K))} {shuffle : Bool} {start : Nat} : ∀ (k cnt : Nat) (tot : K)
    (w : K × K) (out : List (PerfLine K)) (s : St K X B R),
    (expGo perf (supBody par kit train test shuffle start) k cnt tot w out s >>= fun p =>
      (.ok (p.1, p.2.2) : Res _)) = supFitGo par kit train test shuffle start k cnt tot s
  | 0, cnt, tot, w, out, s => rfl
  | k + 1, cnt, tot, w, out, s => by
    have hpp : ∀ (size : Int) (w : K × K), ∃ w' out', perfPrint perf size cnt w out = .ok (w', out') := by
      intro size w
      unfold perfPrint
      rw [if_neg hp]
      split
      · exact ⟨_, _, rfl⟩
      · exact ⟨_, _, rfl⟩
    simp only [expGo, supFitGo, supBody]
    cases e1 : sample kit train.length (cnt + start) shuffle s.rng with
    | error f => rfl
    | ok ir =>
      cases e2 : rowAt train ir.1 with
      | error f => simp only [bind, Except.bind, e2]
      | ok d =>
        cases e3 : fitStep par kit d.1 d.2 { s with rng := ir.2 } with
        | error f => simp only [bind, Except.bind, e2, e3]
        | ok q =>
          cases test with
          | none =>
            obtain ⟨w', out', e4⟩ := hpp q.2.pset.size (w.1 + q.1, w.2 + 0)
            have ih := supExp_fit hp (train := train) (test := none) (shuffle := shuffle) (start := start)
              k (cnt + 1) (tot + q.1) w' out' q.2
            simp only [bind, Except.bind, e2, e3, e4] at ih ⊢
            exact ih
          | some t =>
            cases e5 : sample kit t.length (cnt + start) shuffle q.2.rng with
            | error f => simp only [bind, Except.bind, e2, e3, e5]
            | ok jr =>
              cases e6 : rowAt t jr.1 with
              | error f => simp only [bind, Except.bind, e2, e3, e5, e6]
              | ok d' =>
                cases e7 : testStep par kit d'.1 d'.2 { q.2 with rng := jr.2 } with
                | error f => simp only [bind, Except.bind, e2, e3, e5, e6, e7]
                | ok q' =>
                  obtain ⟨w', out', e4⟩ := hpp q'.2.pset.size (w.1 + q.1, w.2 + q'.1)
                  have ih := supExp_fit hp (train := train) (test := some t) (shuffle := shuffle)
                    (start := start) k (cnt + 1) (tot + q.1) w' out' q'.2
                  simp only [bind, Except.bind, e2, e3, e4, e5, e6, e7] at ih ⊢
                  exact ih

/-- The loop of a trial of reinforcement learning, with and without the last reward. -/
theorem rlLoop_eq {env : Nat → EnvStep K X} : ∀ (k n : Nat) (e reward : K) (s : St K X B R),
    (rlLoop par kit env k n e reward s >>= fun p => (.ok (p.1, p.2.1, p.2.2.2) : Res _)) =
      rlTrialGo par kit env k n e s
  | 0, n, e, reward, s => rfl
  | k + 1, n, e, reward, s => by
    simp only [rlLoop, rlTrialGo]
    cases e1 : rlDecision par kit (env n).state (rlInitStep s) with
    | error f => rfl
    | ok q1 =>
      obtain ⟨a, s1⟩ := q1
      cases e2 : rlUpdate par kit (env n).state a ((env n).respond a).1 ((env n).respond a).2 s1 with
      | error f => simp only [bind, Except.bind, e2]
      | ok s2 =>
        cases e3 : rlError par kit a ((env n).respond a).1 ((env n).respond a).2 (env n).maxPayoff s2 with
        | error f => simp only [bind, Except.bind, e2, e3]
        | ok q3 =>
          obtain ⟨de, s3⟩ := q3
          cases e4 : rlEndStep par (env n).state a ((env n).respond a).1 s3 with
          | error f => simp only [bind, Except.bind, e2, e3, e4]
          | ok s4 =>
            have ih := rlLoop_eq (env := env) k (n + 1) (e + de) ((env n).respond a).1 s4
            simp only [bind, Except.bind, e2, e3, e4] at ih ⊢
            by_cases hd : ((env n).respond a).2 = true
            · simp only [if_pos hd]
            · simp only [if_neg hd]
              exact ih

/-- A trial of reinforcement learning, with and without its performance. -/
theorem rlPerf_step (multistep : Bool) (env : Nat → EnvStep K X) (explore : Bool) (s : St K X B R) :
    (rlPerf par kit multistep env explore s >>= fun p => (.ok p.2.2 : Res _)) =
      step par kit s (.rlTrial env explore) := by
  simp only [rlPerf, step, rlTrial]
  rw [← rlLoop_eq par.teletransportation 0 0 0]
  cases e1 : rlLoop par kit env par.teletransportation 0 0 0 (rlInitTrial { s with explore := explore }) with
  | error f => rfl
  | ok q =>
    cases e2 : rlEndTrial q.2.2.2 with
    | error f => simp only [bind, Except.bind, e2]
    | ok s1 => simp only [bind, Except.bind, e2]

/-- The calls an experiment with reinforcement learning consists of: `k` times an exploring and an
exploiting trial, beginning with number `cnt`. -/
def rlCalls (envs : Nat → Nat → EnvStep K X) (k cnt : Nat) : List (Op K X B) :=
  (List.range k).flatMap fun i =>
    [.rlTrial (envs (2 * (cnt + i))) true, .rlTrial (envs (2 * (cnt + i) + 1)) false]

theorem rlCalls_succ (envs : Nat → Nat → EnvStep K X) (k cnt : Nat) :
    (rlCalls envs (k + 1) cnt : List (Op K X B)) = .rlTrial (envs (2 * cnt)) true ::
      .rlTrial (envs (2 * cnt + 1)) false :: rlCalls envs k (cnt + 1) := by
  unfold rlCalls
  rw [List.range_succ_eq_map, List.flatMap_cons, List.flatMap_map]
  simp only [Nat.add_zero, List.cons_append, List.nil_append]
  congr 3
  funext i
  rw [show cnt + i.succ = cnt + 1 + i by omega]

theorem rlLog_run {multistep : Bool} {envs : Nat → Nat → EnvStep K X} : ∀ (k cnt : Nat)
    (s s' : St K X B R) (log : List (Outcome K)),
    trialLog (rlBody par kit multistep envs) k cnt s = .ok (log, s') →
    (rlCalls envs k cnt).foldlM (step par kit) s = .ok s'
  | 0, _, s, s', log, h => by cases h; rfl
  | k + 1, cnt, s, s', log, h => by
    rw [rlCalls_succ, List.foldlM_cons, ← rlPerf_step multistep]
    simp only [trialLog, rlBody] at h
    cases e1 : rlPerf par kit multistep (envs (2 * cnt)) true s with
    | error f => rw [e1] at h; cases h
    | ok q1 =>
      rw [e1] at h
      show ((.rlTrial (envs (2 * cnt + 1)) false :: rlCalls envs k (cnt + 1) : List (Op K X B)).foldlM
        (step par kit) q1.2.2) = _
      rw [List.foldlM_cons, ← rlPerf_step multistep]
      cases e2 : rlPerf par kit multistep (envs (2 * cnt + 1)) false q1.2.2 with
      | error f => simp only [bind, Except.bind, e2] at h; cases h
      | ok q2 =>
        simp only [bind, Except.bind, e2] at h
        show (rlCalls envs k (cnt + 1)).foldlM (step par kit) q2.2.2 = _
        cases e3 : trialLog (rlBody par kit multistep envs) k (cnt + 1) q2.2.2 with
        | error f => rw [e3] at h; cases h
        | ok p =>
          rw [e3] at h
          have h : p.2 = s' := congrArg Prod.snd (Except.ok.inj h)
          exact h ▸ rlLog_run k (cnt + 1) q2.2.2 p.2 p.1 e3

/-- The lines of a report on `trials` trials whose outcomes are `log`: one for every `perf`-th trial;
all but the first show the averages of the last `perf` trials, the first the sum of `perf + 1` trials
divided by `perf`. -/
structure Reported (perf trials : Nat) (log : List (Outcome K)) (out : List (PerfLine K)) : Prop where
  trials : out.map PerfLine.trial = (List.range ((trials - 1) / perf)).map fun i => (i + 1) * perf
  averages : ∀ l ∈ out.tail, l.Averages perf log
  first : ∀ l ∈ out.head?, l.err = ((log.take (perf + 1)).map Outcome.err).sum / (perf : K) ∧
    l.terr = ((log.take (perf + 1)).map Outcome.terr).sum / (perf : K)

theorem reported {perf trials : Nat} (hp : perf ≠ 0) {log : List (Outcome K)} (hl : log.length = trials) :
    Reported perf trials log ((List.range ((trials - 1) / perf)).map fun i => lineOf perf log i) where
  trials := by rw [List.map_map]; rfl
  averages := by
    intro l h
    cases e : (trials - 1) / perf with
    | zero => rw [e] at h; cases h
    | succ d =>
      rw [e, List.range_succ_eq_map, List.map_cons, List.tail_cons, List.map_map] at h
      obtain ⟨i, hi, rfl⟩ := List.mem_map.1 h
      exact lineOf_averages hp (by rw [hl, e]; have := List.mem_range.1 hi; omega)
  first := by
    intro l h
    cases e : (trials - 1) / perf with
    | zero => rw [e] at h; cases h
    | succ d =>
      rw [e, List.range_succ_eq_map, List.map_cons, List.head?_cons] at h
      cases h
      unfold lineOf between windowStart
      simp

/-! ## Theorems -/

/-- **C98 (partial), supervised learning.** An experiment prints a line for every `perf`-th trial but
the very first one; every line but the first line shows the averages of the training and of the test
errors of the last `perf` trials and the number of rules after the last of them; what is returned is
the average training error of all trials.  Missing: the first line (see `Reported.first` and the
refutation), and the trials after the last line, which are not reported. -/
theorem C98_supervised_report_partial {perf : Nat} (hp : 0 < perf) {train : List (X × List K)}
    {test : Option (List (X × List K))} {shuffle : Bool} {start trials : Nat} {m : K}
    {out : List (PerfLine K)} {s s' : St K X B R}
    (h : supExp par kit train test shuffle start trials perf s = .ok (m, out, s')) :
    ∃ log, trialLog (supBody par kit train test shuffle start) trials 0 s = .ok (log, s') ∧
      log.length = trials ∧ m = (log.map Outcome.err).sum / (trials : K) ∧
      Reported perf trials log out := by
  unfold supExp at h
  cases e : expGo perf (supBody par kit train test shuffle start) trials 0 0 (0, 0) [] s with
  | error f => rw [e] at h; cases h
  | ok q =>
    rw [e] at h
    have h : Except.ok (q.1 / ((trials : Int) : K), q.2.1, q.2.2) = .ok (m, out, s') := h
    have h := Except.ok.inj h
    obtain ⟨tot, o, s1⟩ := q
    have h1 : tot / ((trials : Int) : K) = m := congrArg (fun q => q.1) h
    have h2 : o = out := congrArg (fun q => q.2.1) h
    have h3 : s1 = s' := congrArg (fun q => q.2.2) h
    subst h2 h3
    obtain ⟨log, k1, k2, k3, k4⟩ := exp_spec (by omega) e
    refine ⟨log, k1, k2, ?_, ?_⟩
    · rw [← h1, k3, Int.cast_natCast]
    · rw [k4]; exact reported (by omega) k2

/-- **C98 (partial), reinforcement learning.** The same for experiments with a built-in environment;
the two numbers are the performance (the number of steps, or one for success and zero for failure) and
the error of the exploiting trials. -/
theorem C98_reinforcement_report_partial {perf : Nat} (hp : 0 < perf) {multistep : Bool}
    {envs : Nat → Nat → EnvStep K X} {trials : Nat} {m : K} {out : List (PerfLine K)}
    {s s' : St K X B R} (h : rlExp par kit multistep envs trials perf s = .ok (m, out, s')) :
    ∃ log, trialLog (rlBody par kit multistep envs) trials 0 s = .ok (log, s') ∧
      log.length = trials ∧ m = (log.map Outcome.err).sum / (trials : K) ∧
      Reported perf trials log out := by
  unfold rlExp at h
  cases e : expGo perf (rlBody par kit multistep envs) trials 0 0 (0, 0) [] s with
  | error f => rw [e] at h; cases h
  | ok q =>
    rw [e] at h
    have h : Except.ok (q.1 / ((trials : Int) : K), q.2.1, q.2.2) = .ok (m, out, s') := h
    have h := Except.ok.inj h
    obtain ⟨tot, o, s1⟩ := q
    have h1 : tot / ((trials : Int) : K) = m := congrArg (fun q => q.1) h
    have h2 : o = out := congrArg (fun q => q.2.1) h
    have h3 : s1 = s' := congrArg (fun q => q.2.2) h
    subst h2 h3
    obtain ⟨log, k1, k2, k3, k4⟩ := exp_spec (by omega) e
    refine ⟨log, k1, k2, ?_, ?_⟩
    · rw [← h1, k3, Int.cast_natCast]
    · rw [k4]; exact reported (by omega) k2

/-- **C98.** Reporting does not influence supervised learning: error and system are those of the same
training without a report, whatever `perf` is. -/
theorem C98_report_is_passive {perf : Nat} (hp : 0 < perf) (train : List (X × List K))
    (test : Option (List (X × List K))) (shuffle : Bool) (start trials : Nat) (s : St K X B R) :
    (supExp par kit train test shuffle start trials perf s >>= fun p => (.ok (p.1, p.2.2) : Res _)) =
      supFit par kit train test shuffle start trials s := by
  have := supExp_fit (par := par) (kit := kit) (perf := perf) (by omega) (train := train) (test := test)
    (shuffle := shuffle) (start := start) trials 0 0 (0, 0) [] s
  unfold supExp supFit
  rw [← this]
  cases expGo perf (supBody par kit train test shuffle start) trials 0 0 (0, 0) [] s with
  | error f => rfl
  | ok q => rfl

/-- **C98.** An experiment with reinforcement learning does to the system what the calls for its trials
do, an exploring and an exploiting one in turn. -/
theorem C98_experiment_is_its_trials {perf : Nat} (hp : 0 < perf) {multistep : Bool}
    {envs : Nat → Nat → EnvStep K X} {trials : Nat} {m : K} {out : List (PerfLine K)}
    {s s' : St K X B R} (h : rlExp par kit multistep envs trials perf s = .ok (m, out, s')) :
    (rlCalls envs trials 0).foldlM (step par kit) s = .ok s' := by
  obtain ⟨log, k, _⟩ := C98_reinforcement_report_partial hp h
  exact rlLog_run _ _ _ _ _ k

/-! ## Examples and where the property fails -/

open Demo

/-- Ten training trials with the demonstration system, a line every third trial. -/
def demoExp : Res (ℚ × List (PerfLine ℚ) × St ℚ Nat (Nat × Nat) Nat) :=
  xcsfInit Demo.par Demo.kit 0 >>= supExp Demo.par Demo.kit [(1, [5]), (2, [7])] (some [(1, [4])]) false 0 10 3

/-- The experiment ends and prints three lines. -/
example : Res.test demoExp (fun q => q.2.1.map PerfLine.trial == [3, 6, 9]) = true := by decide +kernel

/-- An experiment with reinforcement learning. -/
example : Res.test (xcsfInit Demo.par Demo.kit 0 >>= rlExp Demo.par Demo.kit false
    (fun i n => ⟨i + n, fun a => (a, true), 1⟩) 5 2) (fun q => q.2.1.map PerfLine.trial == [2, 4]) = true := by
  decide +kernel

/-- The first line always shows too much: with errors that are all the same `c`, it shows
`c + c / perf`. -/
theorem C98_first_line_too_large {perf : Nat} (hp : 0 < perf) {train : List (X × List K)}
    {test : Option (List (X × List K))} {shuffle : Bool} {start trials : Nat} {m c : K}
    {out : List (PerfLine K)} {s s' : St K X B R} {log : List (Outcome K)} (ht : perf < trials)
    (h : supExp par kit train test shuffle start trials perf s = .ok (m, out, s'))
    (hlog : trialLog (supBody par kit train test shuffle start) trials 0 s = .ok (log, s'))
    (hc : ∀ o ∈ log, o.err = c) : ∃ l ∈ out.head?, l.err = c + c / (perf : K) := by
  obtain ⟨log', k1, k2, _, k4⟩ := C98_supervised_report_partial hp h
  obtain rfl : log' = log := by
    rw [hlog] at k1
    exact (congrArg Prod.fst (Except.ok.inj k1)).symm
  have h1 := k4.trials
  have h2 : 0 < (trials - 1) / perf := Nat.div_pos (by omega) hp
  obtain ⟨d, hd⟩ : ∃ d, (trials - 1) / perf = d + 1 := ⟨(trials - 1) / perf - 1, by omega⟩
  rw [hd, List.range_succ_eq_map] at h1
  cases out with
  | nil => simp at h1
  | cons l out =>
    refine ⟨l, rfl, ?_⟩
    rw [(k4.first l rfl).1]
    have e : (log'.take (perf + 1)).map Outcome.err = List.replicate (perf + 1) c := by
      rw [List.eq_replicate_iff]
      constructor
      · rw [List.length_map, List.length_take]; omega
      · intro b hb
        obtain ⟨o, ho, rfl⟩ := List.mem_map.1 hb
        exact hc o (List.mem_of_mem_take ho)
    have hp' : (perf : K) ≠ 0 := Nat.cast_ne_zero.2 (by omega)
    rw [e, List.sum_replicate, nsmul_eq_mul]
    field_simp
    push_cast
    ring

/-- **C98 refuted, first line**: all three training errors are 16, and a line is printed after every
trial; the first one shows 32. -/
theorem C98_first_line_refuted : ∃ (s s' : St ℚ Nat (Nat × Nat) Nat) (m : ℚ) (out : List (PerfLine ℚ))
    (log : List (Outcome ℚ)), xcsfInit Demo.par Demo.kit 0 = .ok s ∧
    supExp Demo.par Demo.kit [(1, [5])] none false 0 3 1 s = .ok (m, out, s') ∧
    trialLog (supBody Demo.par Demo.kit [(1, [5])] none false 0) 3 0 s = .ok (log, s') ∧
    (∀ o ∈ log, o.err = 16) ∧ ∃ l ∈ out.head?, l.err = 32 := by
  obtain ⟨s, e1, _⟩ := Res.test_iff (m := xcsfInit Demo.par Demo.kit 0) (p := fun _ => true)
    (by decide +kernel)
  have k : Res.test (xcsfInit Demo.par Demo.kit 0 >>= fun s =>
      supExp Demo.par Demo.kit [(1, [5])] none false 0 3 1 s) (fun _ => true) = true := by decide +kernel
  have k' : Res.test (xcsfInit Demo.par Demo.kit 0 >>= fun s =>
      trialLog (supBody Demo.par Demo.kit [(1, [5])] none false 0) 3 0 s)
      (fun q => q.1.all fun o => decide (o.err = 16)) = true := by decide +kernel
  rw [e1] at k k'
  obtain ⟨⟨m, out, s'⟩, e2, _⟩ := Res.test_iff (m := supExp Demo.par Demo.kit [(1, [5])] none false 0 3 1 s) k
  obtain ⟨⟨log, s''⟩, e3, h3⟩ := Res.test_iff
    (m := trialLog (supBody Demo.par Demo.kit [(1, [5])] none false 0) 3 0 s) k'
  have h3 : ∀ o ∈ log, o.err = 16 := fun o ho => of_decide_eq_true (List.all_eq_true.1 h3 o ho)
  obtain ⟨log', k1, _⟩ := C98_supervised_report_partial Nat.one_pos e2
  have hs : s'' = s' := by
    rw [e3] at k1
    exact congrArg Prod.snd (Except.ok.inj k1)
  subst hs
  obtain ⟨l, hl, e⟩ := C98_first_line_too_large Nat.one_pos (by omega) e2 e3 h3
  exact ⟨s, s'', m, out, log, e1, e2, e3, h3, l, hl, by rw [e]; norm_num⟩

/-- **C98 refuted, last trials**: an experiment of a multiple of `perf` trials, as the defaults are,
does not report the last of them: no line names one of the last `perf` trials, and no line is printed
at all if there are no more than `perf` trials. -/
theorem C98_last_trials_refuted {perf : Nat} (hp : 0 < perf) {train : List (X × List K)}
    {test : Option (List (X × List K))} {shuffle : Bool} {start trials : Nat} {m : K}
    {out : List (PerfLine K)} {s s' : St K X B R}
    (h : supExp par kit train test shuffle start trials perf s = .ok (m, out, s')) :
    (trials ≤ perf → out = []) ∧ (perf ∣ trials → ∀ l ∈ out, l.trial + perf ≤ trials) := by
  obtain ⟨log, _, _, _, k⟩ := C98_supervised_report_partial hp h
  have h1 := k.trials
  constructor
  · intro ht
    rw [Nat.div_eq_of_lt (by omega)] at h1
    exact List.map_eq_nil_iff.1 h1
  · rintro ⟨d, rfl⟩ l hl
    have : l.trial ∈ out.map PerfLine.trial := List.mem_map.2 ⟨l, hl, rfl⟩
    rw [h1] at this
    obtain ⟨i, hi, e⟩ := List.mem_map.1 this
    have hi := List.mem_range.1 hi
    rw [Nat.lt_iff_add_one_le, Nat.le_div_iff_mul_le hp] at hi
    have e : (i + 1) * perf = l.trial := e
    have hd : i + 1 < d := by
      by_contra hn
      have := Nat.mul_le_mul_left perf (Nat.le_of_not_lt hn)
      rw [Nat.mul_comm perf (i + 1)] at this
      have : 0 < (i + 1) * perf := Nat.mul_pos (Nat.succ_pos _) hp
      omega
    have : perf * (i + 1 + 1) ≤ perf * d := Nat.mul_le_mul_left perf hd
    rw [Nat.mul_add, Nat.mul_comm perf (i + 1), e] at this
    omega

end Xcsf
