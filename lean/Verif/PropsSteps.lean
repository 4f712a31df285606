import Verif.StepsPhase
import Verif.Demo
import Verif.Props1

/-!
# C99: driving trials step by step

Python offers the functions of a trial one by one: `init_trial`, `init_step`, `decision`, `update`,
`error`, `end_step` and `end_trial`.  Used in the order of the documentation they never touch memory
that has been given back, leave nothing allocated, and the documented program does exactly what a
built-in trial does.  Nothing keeps a user from another order: ending a trial or a step twice, or
asking for predictions in the middle of a trial, uses memory that has been given back, and abandoning
a trial without ending it leaks nodes, an array and rules.
-/

set_option linter.unusedSectionVars false

namespace Xcsf
namespace Steps

section Any
variable {K X B R : Type} [Zero K] [One K] [Add K] [Sub K] [Mul K] [Div K]
  [LT K] [DecidableLT K] [IntCast K] [DecidableEq K]
variable {par : Params K} {kit : Kit K X B R}

/-! ## Properties -/

/-- **C99** (for calls in order; see the refutations for others), no use of released memory: whatever
was done before, calls in the documented order never read, write or free a list node, an array or a
rule that has been freed, wherever they stop.  No assumption on arithmetic, parameters and random
numbers. -/
theorem C99_order_is_safe_partial (hp : 0 ≤ par.popSize)
    (hcov : ∀ e b x a r, kit.cover e b x a r ≠ .error .uaf)
    (hmut : ∀ b r, kit.mutate b r ≠ .error .uaf) {r : R} {ops : List (Op K X B)}
    (hv : ∀ op ∈ ops, op.valid) {s : St K X B R} (h : run par kit r ops = .ok s)
    {c : Py K X B R} (hs : c.low.s = s) (hc : Clean c) {ks : List (Call K X)} {ph : Phase}
    (hf : follows .idle ks = some ph) : calls par kit ks c ≠ .error .uaf := by
  have b := reachable_between hp hv h
  intro he
  exact post_of_error (calls_phase (lawsAny par kit hp hcov hmut) ks hf
    (ph := .idle) (M := par.popSize) (S := s) ⟨hc.idle, by rw [hs]; exact b⟩) he rfl

/-- **C99** (for calls in order), nothing is left behind: after calls in the documented order, when the
last trial has been ended, no list node and no array is allocated, and the rules in memory are exactly
those of the population and of the stored population. -/
theorem C99_nothing_left_partial (hp : 0 ≤ par.popSize) {r : R} {ops : List (Op K X B)}
    (hv : ∀ op ∈ ops, op.valid) {s : St K X B R} (h : run par kit r ops = .ok s)
    {c : Py K X B R} (hs : c.low.s = s) (hc : Clean c) {ks : List (Call K X)}
    (hf : follows .idle ks = some .idle) {os : List (Out K)} {c' : Py K X B R}
    (hr : calls par kit ks c = .ok (os, c')) :
    Clean c' ∧ ∀ i, ((c'.low.s.heap i).isSome ↔
      i ∈ c'.low.s.pset.list ∨ i ∈ c'.low.s.prevPset.list) ∧
      ¬ (i ∈ c'.low.s.pset.list ∧ i ∈ c'.low.s.prevPset.list) := by
  have b := reachable_between hp hv h
  have p := post_of_ok (calls_phase (lawsTriv par kit hp) ks hf
    (ph := .idle) (M := par.popSize) (S := s) ⟨hc.idle, by rw [hs]; exact b⟩) hr
  obtain ⟨w, b'⟩ := p
  refine ⟨w.clean, fun i => ?_⟩
  have inv := b'.good.inv
  refine ⟨⟨?_, ?_⟩, fun ⟨h1, h2⟩ => inv.pq i h1 h2⟩
  · intro hi
    rcases inv.own i (by simpa [St.nums] using hi) with q | q | q | q
    · exact Or.inl q
    · exact Or.inr q
    · rw [b'.kset] at q; simp at q
    · simp at q
  · rintro (q | q)
    · exact inv.p.isSome q
    · exact inv.q.isSome q

/-- **C99** (for calls in order), sets in memory behave like values: in the documented order the calls
return what the functions of a trial on sets as values return, with the situation of the last decision,
its action and the last reported reward; the system afterwards is the same, and if one fails, so does
the other, in the same way. -/
theorem C99_sets_are_values_partial {c : Py K X B R} (hc : Clean c) {ks : List (Call K X)}
    {ph : Phase} (hf : follows .idle ks = some ph) :
    (calls par kit ks c).map (fun p => (p.1, p.2.plain)) = plains par kit ks c.plain := by
  have M := calls_plain (par := par) (kit := kit) ks hf (c := c) hc.idle
  revert M
  cases calls par kit ks c with
  | error f =>
    cases plains par kit ks c.plain with
    | error f' => exact fun M => congrArg _ M
    | ok q => exact fun M => M.elim
  | ok p =>
    cases plains par kit ks c.plain with
    | error f' => exact fun M => M.elim
    | ok q =>
      rintro ⟨h1, h2, _⟩
      exact congrArg Except.ok (Prod.ext h1 h2)

/-- **C99**, the documented program is a built-in trial: on a system with no trial under way it
returns if and only if a built-in trial with the same environment does; then number of steps and mean
error agree, it leaves the same system, apart from the flag for exploring if there was no step at
all, and nothing allocated.  If one fails, so does the other, in the same way. -/
theorem C99_program_is_trial (env : Nat → EnvStep K X) (explore : Bool) {c : Py K X B R}
    (hc : Clean c) :
    match rlTrial par kit env explore c.low.s with
    | .ok (n, e, s') => ∃ c', drive par kit env explore c = .ok (n, e, c') ∧ Clean c' ∧
        s' = { c'.low.s with explore := explore }
    | .error f => drive par kit env explore c = .error f := by
  have M := drive_all (par := par) (kit := kit) env explore hc.idle
  cases hd : drive par kit env explore c with
  | error f =>
    rw [hd] at M
    cases ht : rlTrial par kit env explore c.low.s with
    | ok q => rw [ht] at M; exact M.elim
    | error f' =>
      rw [ht] at M
      exact congrArg _ M
  | ok p =>
    rw [hd] at M
    cases ht : rlTrial par kit env explore c.low.s with
    | error f' => rw [ht] at M; exact M.elim
    | ok q =>
      rw [ht] at M
      obtain ⟨n, e, c1⟩ := p
      obtain ⟨n', e', s1⟩ := q
      obtain ⟨e1, e2, i, e3⟩ := M
      simp only at e1 e2 i e3
      subst e1 e2
      exact ⟨c1, rfl, i.clean, e3⟩

end Any

section Field
variable {K X B R : Type} [Field K] [LinearOrder K] [IsStrictOrderedRing K]
variable {par : Params K} {kit : Kit K X B R} {W : B → Prop}

/-- **C99** (for calls in order), for regular systems over exact arithmetic: no undefined behaviour of
any modelled kind. -/
theorem C99_no_undefined_behaviour_partial (H : Regular par kit W) {r : R} {ops : List (Op K X B)}
    (hv : ∀ op ∈ ops, op.ok (RuleOK par W)) {s : St K X B R} (h : run par kit r ops = .ok s)
    {c : Py K X B R} (hs : c.low.s = s) (hc : Clean c) {ks : List (Call K X)} {ph : Phase}
    (hf : follows .idle ks = some ph) :
    calls par kit ks c ≠ .error .ub ∧ calls par kit ks c ≠ .error .uaf := by
  have b := post_of_ok (run_post (lawsField H) r ops hv) h
  have p := calls_phase (lawsField H) ks hf (c := c) (ph := .idle) (M := par.popSize) (S := s)
    ⟨hc.idle, by rw [hs]; exact b⟩
  exact ⟨fun h => post_of_error p h, fun h => post_of_error p h⟩

end Field

/-! ## The hypotheses are met -/

open Demo

/-- A step that explores. -/
abbrev demoStep (x : Nat) (done : Bool) : List (Call ℚ Nat) :=
  [.initStep, .decision x true, .update 1 done, .error 1 done 1, .endStep]

/-- Three trials, one of them ended before it was done, with other calls between them. -/
abbrev demoCalls : List (Call ℚ Nat) :=
  [.initTrial] ++ demoStep 1 false ++ demoStep 2 false ++ demoStep 1 true ++ [.endTrial] ++
    [.fit 2 1 1, .supervised 3 none none false, .initTrial] ++ demoStep 3 false ++ [.endTrial] ++
    [.initTrial] ++ demoStep 2 true ++ [.endTrial]

example : follows .idle demoCalls = some .idle := rfl

theorem clean_fresh {K X B R : Type} [Zero K] (s : St K X B R) : Clean (fresh s) :=
  ⟨fun _ => rfl, fun _ => rfl⟩

/-- The system that the examples start with. -/
abbrev demoStart : Res (St ℚ Nat (Nat × Nat) Nat) := run Demo.par Demo.kit 0 [.fit 1 [1], .store]

example : Res.test (demoStart.bind fun s => calls Demo.par Demo.kit demoCalls (fresh s))
    (fun p => p.1.length == 33 && p.2.low.s.pset.list.length == 2) = true := by
  decide +kernel

example : Res.test (demoStart.bind fun s => drive Demo.par Demo.kit
      (fun n => ⟨n + 1, fun a => (a, n == 1), 1⟩) true (fresh s))
    (fun p => p.1 == 2 && decide (p.2.1 ≠ 0)) = true := by
  decide +kernel

/-! ## Refutations -/

/-- Does the computation fail in this way? -/
def fails {α : Type} (f : Fault) : Res α → Bool
  | .ok _ => false
  | .error e => decide (e = f)

theorem of_fails {α : Type} {f : Fault} : ∀ {m : Res α}, fails f m = true → m = .error f
  | .ok _, h => nomatch h
  | .error _, h => congrArg _ (of_decide_eq_true h)

/-- What the calls do on a new system. -/
abbrev demoTry (ks : List (Call ℚ Nat)) : Res (List (Out ℚ) × Py ℚ Nat (Nat × Nat) Nat) :=
  (run Demo.par Demo.kit 0 []).bind fun s => calls Demo.par Demo.kit ks (fresh s)

/-- Ending a trial twice frees the array of the remembered state twice. -/
theorem C99_end_trial_twice_refuted :
    demoTry ([.initTrial] ++ demoStep 1 true ++ [.endTrial, .endTrial]) = .error .uaf :=
  of_fails (by decide +kernel)

/-- Ending a step twice and then the trial frees nodes twice: the previous action set and the action
set are the same nodes. -/
theorem C99_end_step_twice_refuted :
    demoTry ([.initTrial] ++ demoStep 1 false ++ [.endStep, .endTrial]) = .error .uaf :=
  of_fails (by decide +kernel)

/-- Calling `fit` in the middle of a trial: the next step writes to an array that `fit` has freed. -/
theorem C99_fit_in_trial_refuted :
    demoTry ([.initTrial] ++ demoStep 1 false ++ [.fit 1 0 1] ++ demoStep 2 false) = .error .uaf :=
  of_fails (by decide +kernel)

/-- Asking for predictions in the middle of a trial: they may delete rules of the previous action set,
which the next step uses. -/
theorem C99_predict_in_trial_refuted :
    demoTry ([.initTrial] ++ demoStep 1 false ++
      [.supervised 3 none none false, .supervised 4 none none false, .supervised 5 none none false,
       .supervised 6 none none false] ++ demoStep 2 false) = .error .uaf :=
  of_fails (by decide +kernel)

/-- A step outside a trial, after an earlier trial. -/
theorem C99_step_outside_trial_refuted :
    demoTry ([.initTrial, .endTrial] ++ demoStep 1 false) = .error .uaf :=
  of_fails (by decide +kernel)

/-- Ending a trial that has not begun frees a pointer that nobody has set. -/
theorem C99_end_trial_first_refuted : demoTry [.endTrial] = .error .ub :=
  of_fails (by decide +kernel)

/-- A trial that is abandoned when the next one begins: although the next trial is ended, a list node,
an array and a rule that is in no population stay in memory. -/
theorem C99_abandoned_trial_leaks_refuted :
    ∃ os c, demoTry ([.initTrial] ++ demoStep 1 false ++ demoStep 2 false ++ [.initTrial] ++
        demoStep 1 false ++ [.endTrial]) = .ok (os, c) ∧
      (∃ q, (c.low.h.node q).isSome) ∧ (∃ q, (c.low.arr q).isSome) ∧
      ∃ i, (c.low.s.heap i).isSome ∧ i ∉ c.low.s.pset.list ∧ i ∉ c.low.s.prevPset.list := by
  have h : Res.test (demoTry ([.initTrial] ++ demoStep 1 false ++ demoStep 2 false ++ [.initTrial] ++
      demoStep 1 false ++ [.endTrial])) (fun p => (p.2.low.h.node 5).isSome &&
        (p.2.low.arr 0).isSome && (p.2.low.s.heap 1).isSome &&
        !(p.2.low.s.pset.list.contains 1) && !(p.2.low.s.prevPset.list.contains 1)) = true := by
    decide +kernel
  obtain ⟨⟨os, c⟩, e, h⟩ := Res.test_iff h
  simp only [Bool.and_eq_true, Bool.not_eq_true', List.contains_eq_mem, decide_eq_false_iff_not] at h
  exact ⟨os, c, e, ⟨5, h.1.1.1.1⟩, ⟨0, h.1.1.1.2⟩, 1, h.1.1.2, h.1.2, h.2⟩

/-- Deciding twice in a step: the rules that match are twice in the match set, so that they count
twice. -/
theorem C99_decide_twice_refuted :
    ∃ os c, demoTry [.initTrial, .initStep, .decision 1 true, .decision 1 true] = .ok (os, c) ∧
      c.low.s.pset.size = 2 ∧ peek c.low.h c.low.m = .ok ⟨[0, 1, 1, 0], 4, 4⟩ := by
  have h : Res.test (demoTry [.initTrial, .initStep, .decision 1 true, .decision 1 true]) (fun p =>
      decide (p.2.low.s.pset.size = 2) && Res.test (peek p.2.low.h p.2.low.m) (fun t =>
        decide (t = ⟨[0, 1, 1, 0], 4, 4⟩))) = true := by
    decide +kernel
  obtain ⟨⟨os, c⟩, e, h⟩ := Res.test_iff h
  simp only [Bool.and_eq_true, decide_eq_true_eq] at h
  obtain ⟨t, e2, ht⟩ := Res.test_iff h.2
  exact ⟨os, c, e, h.1, by rw [e2, of_decide_eq_true ht]⟩
end Steps
end Xcsf
