import Verif.PropsDouble
import Verif.PropsTune
import Verif.PropsSteps

/-!
# C109, continued: changes of parameters and single steps

What holds of histories of calls with fixed parameters also holds if parameters are set between calls,
and if trials are made step by step in the documented order.
-/

set_option linter.unusedSectionVars false

namespace Xcsf.Double

open Xcsf.Steps

variable {f : Format} {X B R : Type}

/-- What may be set between calls: anything sane that keeps the numbers of actions and outputs. -/
structure KeepsSane (W : B → Prop) (c c' : Conf (Dbl f) X B R) : Prop where
  sane : Sane c'.par c'.kit W
  nActions : c'.par.nActions = c.par.nActions
  yDim : c'.par.yDim = c.par.yDim

theorem RuleSane.reshape {par par' : Params (Dbl f)} {W : B → Prop} {z : Cl (Dbl f) B}
    (h : RuleSane par W z) (h1 : par.nActions = par'.nActions) (h2 : par.yDim = par'.yDim) :
    RuleSane par' W z :=
  ⟨h.1, h.2, h.3, h.4, h1 ▸ h.5, h2 ▸ h.6, h.7⟩

theorem Sane.fits {c c0 : Conf (Dbl f) X B R} {W : B → Prop} (H : Sane c.par c.kit W)
    (h1 : c.par.nActions = c0.par.nActions) (h2 : c.par.yDim = c0.par.yDim) :
    c.Fits (RuleSane c0.par W) NoUB c0.par.nActions c0.par.yDim := by
  refine ⟨?_, h1, h2⟩
  have e : RuleSane c0.par W = RuleSane c.par W := by
    funext z
    exact propext ⟨fun h => h.reshape h1.symm h2.symm, fun h => h.reshape h1 h2⟩
  rw [e]
  exact lawsDouble H

/-- **C109**, settings: also if parameters are changed between calls there is no undefined behaviour,
as long as the sizes are kept (C89 shows what happens otherwise). -/
theorem C109_settings_partial {W : B → Prop} {c : Conf (Dbl f) X B R} (H : Sane c.par c.kit W) (r : R)
    {evs : List (Ev (Dbl f) X B R)} (hs : ∀ c' r', Ev.set c' r' ∈ evs → KeepsSane W c c')
    (ho : ∀ op, Ev.call op ∈ evs → op.ok (RuleSane c.par W)) :
    runEv c r evs ≠ .error .ub ∧ runEv c r evs ≠ .error .uaf := by
  obtain ⟨M, h0, hM⟩ := exists_limit c evs
  have hp := runEv_post (M := M) (H.fits (c0 := c) rfl rfl) h0 r
    (fun c' r' h => ⟨(hs c' r' h).sane.fits (hs c' r' h).nActions (hs c' r' h).yDim, hM c' r' h⟩)
    ho
  exact ⟨fun h => post_of_error hp h, fun h => post_of_error hp h⟩

/-- **C109**, single steps: also if trials are made step by step, in the documented order (C99). -/
theorem C109_steps_partial {par : Params (Dbl f)} {kit : Kit (Dbl f) X B R} {W : B → Prop}
    (H : Sane par kit W) {r : R} {ops : List (Op (Dbl f) X B)}
    (hv : ∀ op ∈ ops, op.ok (RuleSane par W)) {s : St (Dbl f) X B R} (h : run par kit r ops = .ok s)
    {c : Py (Dbl f) X B R} (hs : c.low.s = s) (hc : Clean c) {ks : List (Call (Dbl f) X)} {ph : Phase}
    (hf : follows .idle ks = some ph) :
    calls par kit ks c ≠ .error .ub ∧ calls par kit ks c ≠ .error .uaf := by
  have b := post_of_ok (run_post (lawsDouble H) r ops hv) h
  have p := calls_phase (lawsDouble H) ks hf (c := c) (ph := .idle) (M := par.popSize) (S := s)
    ⟨hc.idle, by rw [hs]; exact b⟩
  exact ⟨fun h => post_of_error p h, fun h => post_of_error p h⟩

/-! ## The hypotheses hold -/

/-- A format without rounding, in which examples can be calculated. -/
def wide : Format where
  rep q := |q| < 2 ^ 60
  rnd q := q
  huge := 2 ^ 60
  rep_rnd := fun _ h => h
  mono := fun _ _ h => h
  exact := fun _ _ => rfl
  bound := fun _ h => h
  neg := fun q h => by rwa [abs_neg]
  dyadic := fun m hm e _ => by
    rw [abs_div, abs_of_pos (by positivity : (0 : ℚ) < 2 ^ e)]
    have h1 : |(m : ℚ)| < 2 ^ 53 := by exact_mod_cast hm
    have h2 : (1 : ℚ) ≤ 2 ^ e := one_le_pow₀ (by norm_num)
    rw [div_lt_iff₀ (by positivity)]
    nlinarith

example : runEv ⟨demoPar binary64, demoKit binary64⟩ 0
    [.call (.fit 1 [.nan]), .set ⟨{ demoPar binary64 with popSize := 3, alpha := .nan }, demoKit binary64⟩ (some 5),
      .call (.fit 2 [.inf false])] ≠ .error .ub := by
  refine (C109_settings_partial (c := ⟨demoPar binary64, demoKit binary64⟩) (demoSane binary64) 0
    ?_ ?_).1
  · intro c' r' h
    simp only [List.mem_cons, Ev.set.injEq, List.not_mem_nil, or_false, reduceCtorEq, false_or] at h
    obtain ⟨rfl, -⟩ := h
    have d := demoSane binary64
    exact ⟨⟨(by decide : (0 : Int) ≤ 3), d.2, d.3, d.4, d.5, d.6, d.7, d.8, d.9, d.10, d.11, d.12, d.13,
      d.14, d.15, d.16, d.17, d.18, d.19, d.20, d.21, d.22, d.23, d.24, d.25⟩, rfl, rfl⟩
  · intro op h
    simp only [List.mem_cons, Ev.call.injEq, List.not_mem_nil, or_false, reduceCtorEq, false_or] at h
    rcases h with rfl | rfl <;> trivial

/-- A system that has met samples that are no numbers is in order, and can go on step by step. -/
example : ∃ s, run (demoPar wide) (demoKit wide) 0 [.fit 1 [.nan], .fit 2 [.inf true]] = .ok s := by
  obtain ⟨s, h, -⟩ := Demo.Res.test_iff (m := run (demoPar wide) (demoKit wide) 0
    [.fit 1 [.nan], .fit 2 [.inf true]]) (p := fun _ => true) (by decide +kernel)
  exact ⟨s, h⟩

end Xcsf.Double
