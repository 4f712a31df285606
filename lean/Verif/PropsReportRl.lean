import Verif.PropsReport

/-!
# C98, continued: what a reinforcement learning experiment reports

Each trial of an experiment explores once and then exploits once.  The reported numbers are those of
the exploiting part: the number of steps it took if the problem has many steps, otherwise whether the
last reward was positive; and the mean error over its steps.
-/

set_option linter.unusedSectionVars false

namespace Xcsf.RlReport
variable {K X B R : Type} [Field K] [LinearOrder K] [IsStrictOrderedRing K]
variable {par : Params K} {kit : Kit K X B R}

/-! ## Specification -/

/-- A step of a trial as the environment sees it, and the error of the prediction made in it. -/
structure Taken (K : Type) where
  action : Int
  reward : K
  done : Bool
  err : K

/-- The steps `l` lead from `s` to `s'`, the first of them has number `n`: the system decides on an
action, the environment responds, the system learns. -/
inductive Played (par : Params K) (kit : Kit K X B R) (env : Nat → EnvStep K X) :
    Nat → St K X B R → List (Taken K) → St K X B R → Prop
  | stop (n s) : Played par kit env n s [] s
  | step {n s s1 s2 s3 s4 s' t l} :
      rlDecision par kit (env n).state (rlInitStep s) = .ok (t.action, s1) →
      (env n).respond t.action = (t.reward, t.done) →
      rlUpdate par kit (env n).state t.action t.reward t.done s1 = .ok s2 →
      rlError par kit t.action t.reward t.done (env n).maxPayoff s2 = .ok (t.err, s3) →
      rlEndStep par (env n).state t.action t.reward s3 = .ok s4 →
      Played par kit env (n + 1) s4 l s' → Played par kit env n s (t :: l) s'

/-- The steps of a whole trial of at most `k` steps: it ends when the environment is done or no steps
are left. -/
structure Whole (k : Nat) (l : List (Taken K)) : Prop where
  most : l.length ≤ k
  going : ∀ t ∈ l.dropLast, t.done = false
  ended : l.length = k ∨ ∃ t ∈ l.getLast?, t.done = true

/-- How well a trial went: the number of steps, or whether the last reward was positive. -/
def score (multistep : Bool) (l : List (Taken K)) : K :=
  if multistep then (l.length : K) else
    match l.getLast? with
    | some t => if 0 < t.reward then 1 else 0
    | none => 0

/-- A trial of one kind from `s` to `s'` with the steps `l`. -/
def Trial (par : Params K) (kit : Kit K X B R) (env : Nat → EnvStep K X) (explore : Bool)
    (s : St K X B R) (l : List (Taken K)) (s' : St K X B R) : Prop :=
  ∃ s1, Played par kit env 0 (rlInitTrial { s with explore := explore }) l s1 ∧
    Whole par.teletransportation l ∧ rlEndTrial s1 = .ok s'

/-! ## Proofs -/

theorem loop_played {env : Nat → EnvStep K X} : ∀ (k n : Nat) (e rw : K) (s : St K X B R)
    {n' : Nat} {e' rw' : K} {s' : St K X B R}, rlLoop par kit env k n e rw s = .ok (n', e', rw', s') →
    ∃ l, Played par kit env n s l s' ∧ Whole k l ∧ n' = n + l.length ∧
      e' = e + (l.map Taken.err).sum ∧ rw' = ((l.getLast?).map Taken.reward).getD rw
  | 0, n, e, rw, s, n', e', rw', s', h => by
    cases h
    exact ⟨[], .stop _ _, ⟨Nat.le_refl _, by simp, Or.inl rfl⟩, rfl, by simp, rfl⟩
  | k + 1, n, e, rw, s, n', e', rw', s', h => by
    unfold rlLoop at h
    cases h1 : rlDecision par kit (env n).state (rlInitStep s) with
    | error f => simp only [bind, Except.bind, h1] at h; cases h
    | ok q1 =>
      obtain ⟨a, s1⟩ := q1
      cases h2 : rlUpdate par kit (env n).state a ((env n).respond a).1 ((env n).respond a).2 s1 with
      | error f => simp only [bind, Except.bind, h1, h2] at h; cases h
      | ok s2 =>
        cases h3 : rlError par kit a ((env n).respond a).1 ((env n).respond a).2 (env n).maxPayoff s2 with
        | error f => simp only [bind, Except.bind, h1, h2, h3] at h; cases h
        | ok q3 =>
          obtain ⟨de, s3⟩ := q3
          cases h4 : rlEndStep par (env n).state a ((env n).respond a).1 s3 with
          | error f => simp only [bind, Except.bind, h1, h2, h3, h4] at h; cases h
          | ok s4 =>
            simp only [bind, Except.bind, h1, h2, h3, h4] at h
            have st : ∀ {l}, Played par kit env (n + 1) s4 l s' →
                Played par kit env n s (⟨a, ((env n).respond a).1, ((env n).respond a).2, de⟩ :: l) s' :=
              fun hp => .step h1 rfl h2 h3 h4 hp
            by_cases hd : ((env n).respond a).2 = true
            · rw [if_pos hd] at h
              cases h
              exact ⟨_, st (.stop _ _), ⟨by simp, by simp, Or.inr ⟨_, rfl, hd⟩⟩, rfl, by simp, rfl⟩
            · rw [if_neg hd] at h
              obtain ⟨l, p, w, e1, e2, e3⟩ := loop_played k (n + 1) _ _ s4 h
              refine ⟨_, st p, ⟨by simpa using w.most, ?_, ?_⟩, ?_, ?_, ?_⟩
              · intro t ht
                cases l with
                | nil => cases ht
                | cons b l =>
                  rw [List.dropLast_cons_cons] at ht
                  rcases List.mem_cons.1 ht with rfl | ht
                  · simpa using hd
                  · exact w.going t ht
              · rcases w.ended with h | ⟨t, ht, hx⟩
                · left; simp [h]
                · right
                  refine ⟨t, ?_, hx⟩
                  cases l with
                  | nil => cases ht
                  | cons b l => simpa using ht
              · rw [e1]; simp only [List.length_cons]; omega
              · rw [e2]; simp [add_assoc]
              · rw [e3]
                cases l with
                | nil => rfl
                | cons b l =>
                  rw [List.getLast?_cons_cons, List.getLast?_eq_some_getLast (List.cons_ne_nil b l)]
                  rfl

theorem perf_trial {multistep : Bool} {env : Nat → EnvStep K X} {explore : Bool} {s s' : St K X B R}
    {p e : K} (h : rlPerf par kit multistep env explore s = .ok (p, e, s')) :
    ∃ l, Trial par kit env explore s l s' ∧ p = score multistep l ∧
      e = (l.map Taken.err).sum / (l.length : K) := by
  unfold rlPerf at h
  cases h1 : rlLoop par kit env par.teletransportation 0 0 0 (rlInitTrial { s with explore := explore }) with
  | error f => simp only [bind, Except.bind, h1] at h; cases h
  | ok q =>
    obtain ⟨n, e0, rw0, s1⟩ := q
    obtain ⟨l, hp, hw, e1, e2, e3⟩ := loop_played _ _ _ _ _ h1
    cases h2 : rlEndTrial s1 with
    | error f => simp only [bind, Except.bind, h1, h2] at h; cases h
    | ok s2 =>
      simp only [bind, Except.bind, h1, h2] at h
      have h := Except.ok.inj h
      obtain ⟨ha, hb⟩ := Prod.mk.inj h
      obtain ⟨hb, hc⟩ := Prod.mk.inj hb
      refine ⟨l, ⟨s1, hp, hw, hc ▸ h2⟩, ?_, ?_⟩
      · rw [← ha, e1, e3]
        unfold score
        cases multistep with
        | true => simp
        | false =>
          simp only [Bool.false_eq_true, if_false]
          cases l.getLast? with
          | none => simp
          | some t => rfl
      · rw [← hb, e1, e2]
        simp

/-- **C98**, reinforcement learning: the numbers of the trials of an experiment, which its report
averages.  Every trial first explores with the steps `l1`, then exploits with the steps `l2`; what is
reported is the score and the mean error of the exploiting steps, and the size of the population after
them. -/
theorem C98_reported_trials {multistep : Bool} {envs : Nat → Nat → EnvStep K X} :
    ∀ (k cnt : Nat) {s s' : St K X B R} {log : List (Outcome K)},
    trialLog (rlBody par kit multistep envs) k cnt s = .ok (log, s') →
    ∀ i (o : Outcome K), log[i]? = some o → ∃ s0 l1 s1 l2 s2,
      Trial par kit (envs (2 * (cnt + i))) true s0 l1 s1 ∧
      Trial par kit (envs (2 * (cnt + i) + 1)) false s1 l2 s2 ∧
      o.err = score multistep l2 ∧ o.terr = (l2.map Taken.err).sum / (l2.length : K) ∧
      o.size = s2.pset.size
  | 0, _, s, s', log, h, i, o, ho => by cases h; cases ho
  | k + 1, cnt, s, s', log, h, i, o, ho => by
    simp only [trialLog, rlBody] at h
    cases e1 : rlPerf par kit multistep (envs (2 * cnt)) true s with
    | error f => rw [e1] at h; cases h
    | ok q1 =>
      rw [e1] at h
      obtain ⟨p1, r1, s1⟩ := q1
      cases e2 : rlPerf par kit multistep (envs (2 * cnt + 1)) false s1 with
      | error f => simp only [bind, Except.bind, e2] at h; cases h
      | ok q2 =>
        obtain ⟨p2, r2, s2⟩ := q2
        simp only [bind, Except.bind, e2] at h
        cases e3 : trialLog (rlBody par kit multistep envs) k (cnt + 1) s2 with
        | error f => rw [e3] at h; cases h
        | ok p =>
          rw [e3] at h
          have h := (Prod.mk.inj (Except.ok.inj h)).1
          rw [← h] at ho
          cases i with
          | zero =>
            have ho := Option.some.inj ho
            obtain ⟨l1, t1, -⟩ := perf_trial e1
            obtain ⟨l2, t2, hp, he⟩ := perf_trial e2
            subst ho
            exact ⟨s, l1, s1, l2, s2, t1, t2, hp, he, rfl⟩
          | succ i =>
            have := C98_reported_trials k (cnt + 1) (log := p.1) (s' := p.2) e3 i o ho
            rwa [show cnt + 1 + i = cnt + (i + 1) by omega] at this

/-- An experiment in the demonstration system: the environment is done at the second step. -/
example : ∃ log s', trialLog (rlBody Demo.par Demo.kit true
      (fun i n => ⟨n + i, fun a => (a, n == 1), 1⟩)) 2 0 ((xcsfInit Demo.par Demo.kit 0).toOption.get
        (by decide +kernel)) = .ok (log, s') ∧ log.map Outcome.err = [2, 2] := by
  obtain ⟨p, h, e⟩ := Demo.Res.test_iff (m := trialLog (rlBody Demo.par Demo.kit true
      (fun i n => ⟨n + i, fun a => (a, n == 1), 1⟩)) 2 0 ((xcsfInit Demo.par Demo.kit 0).toOption.get
        (by decide +kernel))) (p := fun p => decide (p.1.map Outcome.err = [2, 2])) (by decide +kernel)
  exact ⟨p.1, p.2, h, of_decide_eq_true e⟩

end Xcsf.RlReport
