import Verif.PropsBadSample

/-!
# C110, continued: rewards

What a reward that is not a number does to reinforcement learning: to the training error, to the choice
of actions and to the payoffs of earlier actions.
-/

set_option linter.unusedSectionVars false

namespace Xcsf.Double

open Demo

variable {f : Format} {X B R : Type} {par : Params (Dbl f)} {kit : Kit (Dbl f) X B R}

/-- **C110** (refuted), for rewards: after training with a reward that is not a number, whatever calls
preceded and follow, the training error is not a number. -/
theorem C110_reward_error_lost (hl : Notices 1 kit.loss) {r : R} {x : X} {a : Int}
    {before after : List (Op (Dbl f) X B)} {s : St (Dbl f) X B R}
    (h : run par kit r (before ++ .rlFit x a .nan :: after) = .ok s) : s.error = .nan := by
  unfold run at h
  cases h0 : xcsfInit par kit r with
  | error _ => rw [h0] at h; cases h
  | ok s0 =>
    rw [h0] at h
    simp only [bind, Except.bind] at h
    rw [List.foldlM_append] at h
    cases h1 : before.foldlM (step par kit) s0 with
    | error _ => rw [h1] at h; cases h
    | ok s1 =>
      rw [h1] at h
      simp only [bind, Except.bind, List.foldlM_cons] at h
      cases h2 : rlFit par kit x a .nan s1 with
      | error _ => simp only [step, h2, bind, Except.bind] at h; cases h
      | ok q =>
        obtain ⟨e, s2⟩ := q
        simp only [step, h2, bind, Except.bind] at h
        refine steps_nan ?_ h
        obtain ⟨⟨p, e1⟩, e2, -⟩ := C66_rl_fit h2
        have he : e = .nan := by rw [e1]; exact hl _ _ ⟨0, Nat.one_pos, rfl⟩
        rw [e2, he]
        show s1.error + ((.nan : Dbl f) - s1.error) * par.beta = .nan
        rw [nan_sub, nan_mul, add_nan]

theorem bestGo_nan : ∀ (vs : List (Dbl f)) (i : Nat) (best : List Nat), (∀ v ∈ vs, v ≠ .nan) →
    bestGo vs i .nan best = best
  | [], _, _, _ => rfl
  | v :: vs, i, best, h => by
    unfold bestGo
    have h1 : ¬ (.nan : Dbl f) < v := by cases v <;> exact id
    rw [if_neg h1, if_neg (h v (by simp))]
    exact bestGo_nan vs (i + 1) best fun v hv => h v (by simp [hv])

/-- If the prediction for the first action is lost, this action counts as the only best one, however
good others are. -/
theorem C110_first_action_stuck {n : Nat} (hn : 0 < n) {vs : List (Dbl f)} (h : ∀ v ∈ vs, v ≠ .nan) :
    bestActions n (.nan :: vs) = .ok [0] := by
  obtain ⟨n, rfl⟩ : ∃ m, n = m + 1 := ⟨n - 1, by omega⟩
  show Except.ok (bestGo (vs.take n) 1 .nan [0]) = _
  rw [bestGo_nan _ _ _ fun v hv => h v (List.mem_of_mem_take hv)]

theorem bestGo_dropped : ∀ (vs : List (Dbl f)) (i : Nat) (mx : Dbl f) (best : List Nat), mx ≠ .nan →
    ∀ k ∈ bestGo vs i mx best, k ∈ best ∨ ∃ v, i ≤ k ∧ vs[k - i]? = some v ∧ v ≠ .nan
  | [], _, _, _, _, k, hk => .inl hk
  | v :: vs, i, mx, best, hm, k, hk => by
    have lift : (∃ u, i + 1 ≤ k ∧ vs[k - (i + 1)]? = some u ∧ u ≠ .nan) →
        ∃ u, i ≤ k ∧ (v :: vs)[k - i]? = some u ∧ u ≠ .nan := by
      rintro ⟨u, h1, h2, h3⟩
      refine ⟨u, by omega, ?_, h3⟩
      obtain ⟨j, rfl⟩ : ∃ j, k = i + 1 + j := ⟨k - (i + 1), by omega⟩
      have e1 : i + 1 + j - i = j + 1 := by omega
      have e2 : i + 1 + j - (i + 1) = j := by omega
      rw [e2] at h2
      rw [e1]
      simpa using h2
    unfold bestGo at hk
    split at hk
    · rename_i h
      have hv : v ≠ .nan := by
        rintro rfl
        revert h
        cases mx <;> exact id
      rcases bestGo_dropped vs (i + 1) v [i] hv k hk with h1 | h1
      · rw [List.mem_singleton] at h1
        subst h1
        exact .inr ⟨v, le_refl _, by simp, hv⟩
      · exact .inr (lift h1)
    · split at hk
      · rename_i e
        rcases bestGo_dropped vs (i + 1) mx (best ++ [i]) hm k hk with h1 | h1
        · rcases List.mem_append.1 h1 with h1 | h1
          · exact .inl h1
          · rw [List.mem_singleton] at h1
            subst h1
            exact .inr ⟨v, le_refl _, by simp, e ▸ hm⟩
        · exact .inr (lift h1)
      · rcases bestGo_dropped vs (i + 1) mx best hm k hk with h1 | h1
        · exact .inl h1
        · exact .inr (lift h1)

/-- If the prediction for another action is lost, the action is never chosen as a best one again. -/
theorem C110_action_dropped {n : Nat} {pa : List (Dbl f)} {best : List Nat}
    (h0 : pa[0]? ≠ some .nan) (h : bestActions n pa = .ok best) : ∀ k ∈ best, pa[k]? ≠ some .nan := by
  intro k hk
  unfold bestActions at h
  split at h
  · cases h
  · rename_i v vs e
    cases h
    have hp : ∀ (j : Nat) (u : Dbl f), (v :: vs)[j]? = some u → pa[j]? = some u := by
      intro j u hj
      rw [← e, List.getElem?_take] at hj
      split at hj
      · exact hj
      · cases hj
    have hv : v ≠ .nan := by
      rintro rfl
      exact h0 (hp 0 _ rfl)
    rcases bestGo_dropped vs 1 v [0] hv k hk with h1 | ⟨u, h1, h2, h3⟩
    · rw [List.mem_singleton] at h1
      rw [h1]
      exact h0
    · obtain ⟨j, rfl⟩ : ∃ j, k = j + 1 := ⟨k - 1, by omega⟩
      rw [hp (j + 1) u (by simpa using h2)]
      exact fun h => h3 (Option.some.inj h)

theorem argmaxGo_nan : ∀ (vs : List (Dbl f)) (i m : Nat), argmaxGo vs i m .nan = m
  | [], _, _ => rfl
  | v :: vs, i, m => by
    unfold argmaxGo
    have h1 : ¬ (.nan : Dbl f) < v := by cases v <;> exact id
    rw [if_neg h1]
    exact argmaxGo_nan vs (i + 1) m

/-- The value of the best action is then not a number either; so is the payoff of every action that
leads there (reward plus discounted value), and with it what the rules of that action learn. -/
theorem C110_payoff_lost (vs : List (Dbl f)) (reward gamma : Dbl f) :
    paBestVal ((.nan : Dbl f) :: vs) = .ok .nan ∧ reward + gamma * .nan = (.nan : Dbl f) := by
  constructor
  · have e : argmax ((.nan : Dbl f) :: vs) = .ok 0 := by
      show Except.ok (argmaxGo vs 1 0 .nan) = _
      rw [argmaxGo_nan]
    unfold paBestVal
    rw [e]
    rfl
  · rw [mul_nan, add_nan]

/-! ## Concrete cases -/

example : bestActions 3 [(.nan : Dbl wide), 1, ((100 : Int) : Dbl wide)] = .ok [0] :=
  C110_first_action_stuck (by decide) (by decide +kernel)

example : bestActions 3 [(1 : Dbl wide), .nan, 0] = .ok [0] := rfl

/-- The training goes on after the bad reward. -/
example : Res.test (run (constPar wide) (constKit wide) 0 [.rlFit 1 0 1, .rlFit 1 0 .nan, .rlFit 1 0 1])
    (fun s => decide (s.error = .nan)) = true := by decide +kernel

end Xcsf.Double
