import Verif.Frame
import Verif.Demo
import Mathlib.Algebra.BigOperators.Group.Finset.Basic
import Mathlib.Algebra.BigOperators.Intervals
import Mathlib.Algebra.BigOperators.Ring.Finset
import Mathlib.Tactic.Ring
import Mathlib.Tactic.Linarith

/-!
# C66: the reported system error and the trial clock
-/

set_option linter.unusedSectionVars false

namespace Xcsf
variable {K X B R : Type}

/-! ## Specification -/

/-- The exponential moving average with rate `β`, started at `e`, of the values `ls` (oldest
first). -/
def ema [Add K] [Sub K] [Mul K] (β : K) (e : K) (ls : List K) : K :=
  ls.foldl (fun a l => a + (l - a) * β) e

/-- Number of training calls of a history. -/
def Op.trains : Op K X B → Nat
  | .fit .. => 1
  | .rlFit .. => 1
  | _ => 0

/-- The call is not a multi-step trial (whose clock depends on the environment). -/
def Op.single : Op K X B → Bool
  | .rlTrial .. => false
  | _ => true

section Any
variable [Zero K] [One K] [Add K] [Sub K] [Mul K] [Div K]
  [LT K] [DecidableLT K] [IntCast K] [DecidableEq K]
variable {par : Params K} {kit : Kit K X B R}

/-! ## Single calls -/

/-- **C66.** One training trial moves the reported error towards the loss of the prediction
that was made on it, and advances the clock by one. -/
theorem C66_fit {s s' : St K X B R} {x : X} {y : List K} {e : K}
    (h : fitStep par kit x y s = .ok (e, s')) :
    e = kit.loss s'.pa y ∧ s'.error = ema par.beta s.error [e] ∧ s'.time = s.time + 1 := by
  have := ck_fitStep (par := par) (kit := kit) x y s
  rw [h] at this
  obtain ⟨h1, h2⟩ := this
  simp only [clock, Prod.mk.injEq] at h2
  exact ⟨h1, h2.1, h2.2.1⟩

/-- **C66.** The same for the reinforcement `fit(state, action, reward)`. -/
theorem C66_rl_fit {s s' : St K X B R} {x : X} {a : Int} {reward e : K}
    (h : rlFit par kit x a reward s = .ok (e, s')) :
    (∃ pred, e = kit.loss [pred] [reward]) ∧ s'.error = ema par.beta s.error [e] ∧
      s'.time = s.time + 1 := by
  have := ck_rlFit (par := par) (kit := kit) x a reward s
  rw [h] at this
  obtain ⟨pred, h1, h2⟩ := this
  simp only [clock, Prod.mk.injEq] at h2
  exact ⟨⟨pred, h1⟩, h2.1, h2.2.1⟩

/-- **C66.** Validation trials, predictions, scores, storing, retrieving and inserting rules
change neither the reported error nor the clock. -/
theorem C66_others {s s' : St K X B R} {o : Op K X B} (ho : o.trains = 0) (hs : o.single = true)
    (h : step par kit s o = .ok s') : s'.error = s.error ∧ s'.time = s.time := by
  have key : Post (step par kit s o) (fun s' => s'.error = s.error ∧ s'.time = s.time)
      AnyFault := by
    have ofG : ∀ s' : St K X B R, gauges s' = gauges s → s'.error = s.error ∧ s'.time = s.time := by
      intro s' h
      simp only [gauges, Prod.mk.injEq] at h
      exact ⟨h.1, h.2.2.2.2.1⟩
    have ofC : ∀ s' : St K X B R, clock s' = (s.error, s.time, false) →
        s'.error = s.error ∧ s'.time = s.time := by
      intro s' h
      simp only [clock, Prod.mk.injEq] at h
      exact ⟨h.1, h.2.1⟩
    cases o with
    | fit x y => simp [Op.trains] at ho
    | rlFit x a r => simp [Op.trains] at ho
    | rlTrial e b => simp [Op.single] at hs
    | test x y => exact post_bind (ck_testStep x y s) fun p hp => ofC _ hp
    | predict xs cv => exact post_bind (ck_predictBatch cv xs s) fun p hp => ofC _ hp
    | score rows cv => exact post_bind (ck_score cv rows s) fun p hp => ofC _ hp
    | insert c => exact post_mono (fr_insertCl c s) ofG
    | «import» cs => exact post_mono (fr_jsonInsert cs s) ofG
    | store => exact post_mono (fr_store s) ofG
    | retrieve => exact post_mono (fr_retrieve s) ofG
  rw [h] at key
  exact key

/-! ## Histories -/

theorem psetInit_clock : ∀ (n : Nat) (s : St K X B R),
    Post (psetInitGo par kit n s) (fun s' => clock s' = clock s) AnyFault
  | 0, s => by
    unfold psetInitGo
    split
    · trivial
    · rfl
  | n + 1, s => by
    unfold psetInitGo
    split
    · exact psetInit_clock n _
    · rfl

theorem xcsfInit_clock (r : R) :
    Post (xcsfInit par kit r : Res (St K X B R)) (fun s => s.error = par.e0 ∧ s.time = 0)
      AnyFault := by
  unfold xcsfInit
  split
  · refine post_mono (psetInit_clock _ _) fun s h => ?_
    simp only [clock, Prod.mk.injEq] at h
    exact ⟨h.1, h.2.1⟩
  · exact ⟨rfl, rfl⟩

theorem steps_ema : ∀ (ops : List (Op K X B)) (s : St K X B R), (∀ o ∈ ops, o.single = true) →
    Post (ops.foldlM (step par kit) s) (fun s' => ∃ ls : List K,
      ls.length = (ops.map Op.trains).sum ∧ (∀ l ∈ ls, ∃ p y, l = kit.loss p y) ∧
      s'.error = ema par.beta s.error ls ∧ s'.time = s.time + ls.length) AnyFault
  | [], s, _ => ⟨[], rfl, by simp, rfl, by simp⟩
  | o :: ops, s, hs => by
    rw [List.foldlM_cons]
    refine post_bind (Q := fun s1 => ∃ ls : List K, ls.length = o.trains ∧
      (∀ l ∈ ls, ∃ p y, l = kit.loss p y) ∧
      s1.error = ema par.beta s.error ls ∧ s1.time = s.time + ls.length) ?_ ?_
    · cases hst : step par kit s o with
      | error f => trivial
      | ok s1 =>
        by_cases h0 : o.trains = 0
        · have := C66_others h0 (hs o (by simp)) hst
          exact ⟨[], h0.symm, by simp, this.1, by simp [this.2]⟩
        · cases o with
          | fit x y =>
            simp only [step] at hst
            cases hf : fitStep par kit x y s with
            | error f => rw [hf] at hst; cases hst
            | ok p =>
              rw [hf] at hst
              cases hst
              obtain ⟨e1, e2, e3⟩ := C66_fit (e := p.1) (s' := p.2) hf
              exact ⟨[p.1], rfl, by rintro l hl; rw [List.mem_singleton.1 hl]; exact ⟨_, _, e1⟩,
                e2, e3⟩
          | rlFit x a r =>
            simp only [step] at hst
            cases hf : rlFit par kit x a r s with
            | error f => rw [hf] at hst; cases hst
            | ok p =>
              rw [hf] at hst
              cases hst
              obtain ⟨⟨pr, e1⟩, e2, e3⟩ := C66_rl_fit (e := p.1) (s' := p.2) hf
              exact ⟨[p.1], rfl, by rintro l hl; rw [List.mem_singleton.1 hl]; exact ⟨_, _, e1⟩,
                e2, e3⟩
          | _ => exact absurd rfl h0
    · rintro s1 ⟨ls, h1, h2, h3, h4⟩
      refine post_mono (steps_ema ops s1 fun o ho => hs o (by simp [ho])) ?_
      rintro s' ⟨ls', h1', h2', h3', h4'⟩
      refine ⟨ls ++ ls', by simp [h1, h1'], ?_, ?_, ?_⟩
      · intro l hl
        rcases List.mem_append.1 hl with hl | hl
        · exact h2 l hl
        · exact h2' l hl
      · rw [h3', h3, ema, ema, ema, List.foldl_append]
      · rw [h4', h4, List.length_append]
        push_cast
        rw [Int.add_assoc]

/-- **C66.** After any history of calls other than multi-step trials, the clock is the number
of training calls and the reported error is the moving average, started at the configured
initial value, of one loss for each training call. -/
theorem C66_history {r : R} {ops : List (Op K X B)} {s : St K X B R}
    (hs : ∀ o ∈ ops, o.single = true) (h : run par kit r ops = .ok s) :
    s.time = ((ops.map Op.trains).sum : Nat) ∧ ∃ ls : List K,
      ls.length = (ops.map Op.trains).sum ∧ (∀ l ∈ ls, ∃ p y, l = kit.loss p y) ∧
      s.error = ema par.beta par.e0 ls := by
  have : Post (run par kit r ops) (fun s' => ∃ ls : List K,
      ls.length = (ops.map Op.trains).sum ∧ (∀ l ∈ ls, ∃ p y, l = kit.loss p y) ∧
      s'.error = ema par.beta par.e0 ls ∧ s'.time = ls.length) AnyFault := by
    unfold run
    refine post_bind (xcsfInit_clock r) fun s0 h0 => ?_
    refine post_mono (steps_ema ops s0 hs) ?_
    rintro s' ⟨ls, h1, h2, h3, h4⟩
    exact ⟨ls, h1, h2, by rw [h3, h0.1], by rw [h4, h0.2, Int.zero_add]⟩
  rw [h] at this
  obtain ⟨ls, h1, h2, h3, h4⟩ := this
  exact ⟨by rw [h4, h1], ls, h1, h2, h3⟩

/-! ## A training run on a data set -/

theorem supFitGo_clock (train : List (X × List K)) (test : Option (List (X × List K)))
    (sh : Bool) (start : Nat) : ∀ (k cnt : Nat) (e : K) (s : St K X B R),
    Post (supFitGo par kit train test sh start k cnt e s) (fun p => ∃ ls : List K,
      ls.length = k ∧ p.1 = ls.foldl (· + ·) e ∧ p.2.error = ema par.beta s.error ls ∧
      p.2.time = s.time + k) AnyFault
  | 0, cnt, e, s => ⟨[], rfl, rfl, rfl, by simp⟩
  | k + 1, cnt, e, s => by
    unfold supFitGo
    refine post_bind (post_any _) fun i _ => ?_
    refine post_bind (post_any _) fun d _ => ?_
    refine post_bind (ck_fitStep d.1 d.2 { s with rng := i.2 }) fun p h1 => ?_
    have J : ∀ s2 : St K X B R, s2.error = p.2.error → s2.time = p.2.time →
        Post (supFitGo par kit train test sh start k (cnt + 1) (e + p.1) s2) (fun q => ∃ ls : List K,
          ls.length = k + 1 ∧ q.1 = ls.foldl (· + ·) e ∧ q.2.error = ema par.beta s.error ls ∧
          q.2.time = s.time + (k + 1 : Nat)) AnyFault := by
      intro s2 a1 a2
      have h1' := h1.2
      simp only [clock, Prod.mk.injEq] at h1'
      refine post_mono (supFitGo_clock train test sh start k (cnt + 1) _ s2) ?_
      rintro q ⟨ls, e1, e2, e3, e4⟩
      refine ⟨p.1 :: ls, by simp [e1], e2, ?_, ?_⟩
      · rw [e3, a1, h1'.1]; rfl
      · rw [e4, a2, h1'.2.1]; push_cast; rw [Int.add_assoc, Int.add_comm 1]
    cases test with
    | none => exact J p.2 rfl rfl
    | some t =>
      refine post_bind (post_any _) fun i' _ => ?_
      refine post_bind (post_any _) fun d' _ => ?_
      refine post_bind (ck_testStep d'.1 d'.2 _) fun p' h2 => ?_
      simp only [clock, Prod.mk.injEq] at h2
      exact J p'.2 h2.1 h2.2.1

/-- **C66.** A training run reports the mean of the losses of its trials, and the system error
is the moving average of the very same losses, with or without validation trials in
between. -/
theorem C66_training_run {train : List (X × List K)} {test : Option (List (X × List K))}
    {sh : Bool} {start trials : Nat} {s s' : St K X B R} {e : K}
    (h : supFit par kit train test sh start trials s = .ok (e, s')) :
    ∃ ls : List K, ls.length = trials ∧ e = ls.foldl (· + ·) 0 / ((trials : Int) : K) ∧
      s'.error = ema par.beta s.error ls ∧ s'.time = s.time + trials := by
  have : Post (supFit par kit train test sh start trials s) (fun p => ∃ ls : List K,
      ls.length = trials ∧ p.1 = ls.foldl (· + ·) 0 / ((trials : Int) : K) ∧
      p.2.error = ema par.beta s.error ls ∧ p.2.time = s.time + trials) AnyFault := by
    unfold supFit
    refine post_bind (supFitGo_clock train test sh start trials 0 0 s) ?_
    rintro p ⟨ls, e1, e2, e3, e4⟩
    exact ⟨ls, e1, by rw [← e2], e3, e4⟩
  rw [h] at this
  exact this

/-! ## Multi-step trials -/

theorem rlTrialGo_clock (env : Nat → EnvStep K X) : ∀ (k n : Nat) (e : K) (s : St K X B R),
    Post (rlTrialGo par kit env k n e s) (fun p => ∃ ls : List K, p.1 = n + ls.length ∧
      p.2.1 = ls.foldl (· + ·) e ∧ p.2.2.error = ema par.beta s.error ls ∧
      p.2.2.explore = s.explore ∧ (s.explore = false → p.2.2.time = s.time)) AnyFault
  | 0, n, e, s => ⟨[], rfl, rfl, rfl, rfl, fun _ => rfl⟩
  | k + 1, n, e, s => by
    unfold rlTrialGo
    refine post_bind (ck_rlDecision (env n).state (rlInitStep s)) fun p h1 => ?_
    dsimp only
    refine post_bind (ck_rlUpdate (env n).state p.1 _ _ p.2) fun s2 h2 => ?_
    refine post_bind (ck_rlError p.1 _ _ _ s2) fun q h3 => ?_
    refine post_bind (Q := fun s' => clock s' = clock q.2) ?_ fun s4 h4 => ?_
    · unfold rlEndStep
      exact post_bind (post_any _) fun v _ => rfl
    have h1' := h1.1
    simp only [clock, Prod.mk.injEq, rlInitStep] at h1' h2 h3 h4
    have he : s4.error = s.error + (q.1 - s.error) * par.beta := by
      rw [h4.1, h3.1, h2.1, h1'.1]
    have hx : s4.explore = s.explore := by rw [h4.2.2, h3.2.2, h2.2.2, h1'.2.2]
    have ht : s.explore = false → s4.time = s.time := by
      intro hf
      rw [h4.2.1, h3.2.1, h2.2.1, h1'.2.1, h1'.2.2, hf]
      simp
    split
    · exact ⟨[q.1], rfl, rfl, he, hx, ht⟩
    · refine post_mono (rlTrialGo_clock env k (n + 1) (e + q.1) s4) ?_
      rintro p' ⟨ls, e1, e2, e3, e4, e5⟩
      refine ⟨q.1 :: ls, ?_, e2, ?_, e4.trans hx, fun hf => (e5 (hx.trans hf)).trans (ht hf)⟩
      · rw [e1, List.length_cons]; omega
      · rw [e3, he]; rfl

/-- **C66.** A multi-step trial reports the mean of the errors of its steps, and the system
error is the moving average of the same errors; a trial that does not explore leaves the clock
alone. -/
theorem C66_rl_trial {env : Nat → EnvStep K X} {explore : Bool} {s s' : St K X B R} {n : Nat}
    {e : K} (h : rlTrial par kit env explore s = .ok (n, e, s')) :
    ∃ ls : List K, ls.length = n ∧ e = ls.foldl (· + ·) 0 / ((n : Int) : K) ∧
      s'.error = ema par.beta s.error ls ∧ (explore = false → s'.time = s.time) := by
  have : Post (rlTrial par kit env explore s) (fun p => ∃ ls : List K, ls.length = p.1 ∧
      p.2.1 = ls.foldl (· + ·) 0 / ((p.1 : Int) : K) ∧
      p.2.2.error = ema par.beta s.error ls ∧ (explore = false → p.2.2.time = s.time))
      AnyFault := by
    unfold rlTrial
    refine post_bind (rlTrialGo_clock env _ 0 0 _) ?_
    rintro ⟨n, e, s1⟩ ⟨ls, e1, e2, e3, e4, e5⟩
    refine post_bind (ck_rlEndTrial s1) fun s2 h2 => ?_
    simp only [clock, Prod.mk.injEq] at h2
    exact ⟨ls, by simpa using e1.symm, by rw [← e2], by rw [h2.1]; exact e3,
      fun hf => h2.2.1.trans (e5 hf)⟩
  rw [h] at this
  exact this

end Any

/-! ## The moving average, in closed form and bounded -/

section Field
variable [Field K]

/-- **C66.** The moving average in closed form: the value seen `i` trials before the last has
weight `β (1 - β)^i`, the initial value `(1 - β)^n`. -/
theorem C66_weights (β e : K) (ls : List K) :
    ema β e ls = (1 - β) ^ ls.length * e +
      ∑ i ∈ Finset.range ls.length, β * (1 - β) ^ i * ls.reverse.getD i 0 := by
  induction ls using List.reverseRecOn with
  | nil => simp [ema]
  | append_singleton ls l ih =>
    have h : ema β e (ls ++ [l]) = ema β e ls + (l - ema β e ls) * β := by
      simp [ema, List.foldl_append]
    rw [h, ih, List.length_append, List.length_singleton, Finset.sum_range_succ']
    simp only [List.reverse_append, List.reverse_cons, List.reverse_nil, List.nil_append,
      List.cons_append, List.getD_cons_zero, List.getD_cons_succ, pow_succ, pow_zero]
    have : ∑ i ∈ Finset.range ls.length, β * ((1 - β) ^ i * (1 - β)) * ls.reverse.getD i 0 =
        (1 - β) * ∑ i ∈ Finset.range ls.length, β * (1 - β) ^ i * ls.reverse.getD i 0 := by
      rw [Finset.mul_sum]
      exact Finset.sum_congr rfl fun i _ => by ring
    rw [this]
    ring

variable [LinearOrder K] [IsStrictOrderedRing K]

/-- **C66.** With a learning rate in [0, 1] the average stays within any interval that contains
the initial value and the losses. -/
theorem C66_bounded {β e lo hi : K} (h0 : 0 ≤ β) (h1 : β ≤ 1) {ls : List K}
    (he : lo ≤ e ∧ e ≤ hi) (hl : ∀ l ∈ ls, lo ≤ l ∧ l ≤ hi) :
    lo ≤ ema β e ls ∧ ema β e ls ≤ hi := by
  induction ls generalizing e with
  | nil => exact he
  | cons l ls ih =>
    refine ih ?_ fun l' h' => hl l' (by simp [h'])
    obtain ⟨a, b⟩ := hl l (by simp)
    constructor
    · nlinarith [mul_nonneg h0 (sub_nonneg.2 a), mul_nonneg (sub_nonneg.2 h1) (sub_nonneg.2 he.1)]
    · nlinarith [mul_nonneg h0 (sub_nonneg.2 b), mul_nonneg (sub_nonneg.2 h1) (sub_nonneg.2 he.2)]

end Field

/-! ## Concrete cases -/

section Examples
open Demo

/-- A history of the demonstration system with training, prediction, scoring and storing. -/
def demoOps8 : List (Op ℚ Nat (Nat × Nat)) :=
  [.fit 1 [1], .fit 2 [3], .predict [1, 2] [0, 0], .store, .rlFit 3 1 2, .test 1 [0], .fit 5 [1]]

example : ∃ s, run Demo.par Demo.kit 0 demoOps8 = .ok s ∧ s.time = 4 ∧ s.error ≠ Demo.par.e0 := by
  obtain ⟨s, h1, h2⟩ := Res.test_iff (m := run Demo.par Demo.kit 0 demoOps8)
    (p := fun s => decide (s.time = 4 ∧ s.error ≠ Demo.par.e0)) (by decide +kernel)
  exact ⟨s, h1, of_decide_eq_true h2⟩

example : ∀ o ∈ demoOps8, o.single = true := by decide

/-- A three-step environment. -/
def demoEnv8 (n : Nat) : EnvStep ℚ Nat := ⟨n, fun a => (a, n == 2), 10⟩

example : ∃ s p, run Demo.par Demo.kit 0 demoOps8 = .ok s ∧
    rlTrial Demo.par Demo.kit demoEnv8 true s = .ok p ∧ p.1 = 3 ∧ p.2.2.error ≠ s.error := by
  obtain ⟨s, h1, h2⟩ := Res.test_iff (m := run Demo.par Demo.kit 0 demoOps8)
    (p := fun s => Res.test (rlTrial Demo.par Demo.kit demoEnv8 true s)
      (fun p => decide (p.1 = 3 ∧ p.2.2.error ≠ s.error))) (by decide +kernel)
  obtain ⟨p, h3, h4⟩ := Res.test_iff h2
  have := of_decide_eq_true h4
  exact ⟨s, p, h1, h3, this.1, this.2⟩

example : ema (1/5 : ℚ) (1/100) [4, 0, 1] ≠ 1/100 := by decide +kernel

end Examples
end Xcsf
