import Verif.ShadowCopy
import Verif.PropsParamJson

/-!
# C101: `get_params()` shows the parameters in use, and copies made from it have them

Proved for all histories of constructor, `set_params`, `load` and `internal_params`, for the parameters
that are a single value, if whole numbers are given as whole numbers.  Refuted for parameters of the
evolutionary algorithm, of conditions and of predictions that are set one after another or outside of
their range, for numbers that are not whole, for the parameters of multi-step problems, and after
`ae_to_classifier`.
-/

set_option linter.unusedSectionVars false

namespace Xcsf
namespace Shadow

section
variable {K R : Type} [Field K] [LinearOrder K] [IsStrictOrderedRing K] [FloorRing K]

/-- **C101 (single values).**  After every history of calls with exact arguments, `get_params()` shows
all common parameters, and each parameter that is a single value as it is in use. -/
theorem C101_shown_partial {g : Rng K R} {sd : Seeds R} {error : K} {explore : Bool}
    {kw : List (String × Json K)} {o o' : Obj K R} (hn : newObj g sd error explore kw = .ok o)
    (hk : ∀ m ∈ kw, Exact m) {ops : List (Op K)} (ho : runOps g sd ops o = .ok o')
    (hx : ∀ op ∈ ops, op.Exact) :
    (∀ k ∈ common, ∃ j, (getParams o').lookup k = some j ∧ InUse o'.par k j) ∧
      ∀ k j, (getParams o').lookup k = some j → InUse o'.par k j := by
  obtain ⟨h1, h2⟩ := runOps_shown ops ho hx (newObj_shown hn hk)
  have h3 : ∀ k j, (getParams o').lookup k = some j → InUse o'.par k j := fun k j e =>
    h1 (k, j) (lookup_mem e)
  refine ⟨fun k hk => ?_, h3⟩
  obtain ⟨j, e⟩ := lookup_of_key (h2.common k hk)
  exact ⟨j, e, h3 k j e⟩

/-- **C101 (copies).**  If a copy made from `get_params()` can be constructed, then each parameter
shown, that is a single value, is in use in the object and in the copy with the same value. -/
theorem C101_copy_partial {g : Rng K R} {sd : Seeds R} {error : K} {explore : Bool}
    {kw : List (String × Json K)} {o o' c : Obj K R} (hn : newObj g sd error explore kw = .ok o)
    (hk : ∀ m ∈ kw, Exact m) {ops : List (Op K)} (ho : runOps g sd ops o = .ok o')
    (hx : ∀ op ∈ ops, op.Exact) {sd' : Seeds R} {error' : K} {explore' : Bool}
    (hc : clone g sd' error' explore' o' = .ok c) :
    ∀ k j, (getParams o').lookup k = some j → InUse o'.par k j ∧ InUse c.par k j := by
  have he := runOps_exact ops ho hx (newObj_exact hn hk)
  obtain ⟨h1, h2⟩ := runOps_shown ops ho hx (newObj_shown hn hk)
  obtain ⟨h3, -⟩ := newObj_shown hc he
  intro k j e
  have hm := lookup_mem e
  refine ⟨h1 _ hm, h3 (k, j) ?_⟩
  unfold clone newObj at hc
  dsimp only at hc
  cases e1 : refresh g ⟨[], (sysInit g sd' error' explore' 1 1 1).1,
      (sysInit g sd' error' explore' 1 1 1).2⟩ with
  | error f => rw [e1] at hc; cases hc
  | ok o1 =>
    rw [e1] at hc
    have hc : setParams g sd' (getParams o') o1 = .ok c := hc
    unfold setParams at hc
    cases e2 : paramImport g sd' (.obj ((getParams o').map unmaskNone)) (o1.par, o1.rng) with
    | error f => rw [e2] at hc; cases hc
    | ok s =>
      rw [e2] at hc
      cases hc
      exact (dictUpdate_has (getParams o') (d := o1.dict) h2.nodup).1 _ hm

/-- **C101 (other tasks) refuted.**  After every history: when an autoencoder is turned into a
classifier with another number of outputs, `get_params()` goes on showing the old number. -/
theorem C101_classifier_refuted {g : Rng K R} {sd : Seeds R} {error : K} {explore : Bool}
    {kw : List (String × Json K)} {o o' : Obj K R} (hn : newObj g sd error explore kw = .ok o)
    (hk : ∀ m ∈ kw, Exact m) {ops : List (Op K)} (ho : runOps g sd ops o = .ok o')
    (hx : ∀ op ∈ ops, op.Exact) {y : Int} (h1 : 1 ≤ y) (hy : y ≠ o'.par.yDim) :
    ∃ o'', step g sd o' (.classify y) = .ok o'' ∧ o''.par.yDim = y ∧
      (getParams o'').lookup "y_dim" = some (jsonOfInt o'.par.yDim) ∧
      ¬ InUse o''.par "y_dim" (jsonOfInt o'.par.yDim) := by
  have e : (if y < 1 then o'.par.yDim else y) = y := if_neg (by omega)
  refine ⟨_, rfl, e, ?_, fun h => ?_⟩
  · obtain ⟨j, h2, h3⟩ := (C101_shown_partial hn hk ho hx).1 "y_dim" (by simp [common])
    have : j = jsonOfInt o'.par.yDim := h3 _ (List.mem_of_getElem? (i := 1) rfl) rfl
    rw [← this]
    exact h2
  · have h4 : jsonOfInt o'.par.yDim = (jsonOfInt (if y < 1 then o'.par.yDim else y) : Json K) :=
      h _ (List.mem_of_getElem? (i := 1) rfl) rfl
    rw [e] at h4
    simp only [jsonOfInt, Json.num.injEq] at h4
    exact hy (by exact_mod_cast h4.symm)

/-- **C101 (more actions) refuted.**  Whatever the number of actions given to the constructor is:
`get_params()` does not show `gamma`, although it is in use and `internal_params()` shows it. -/
theorem C101_missing_refuted (g : Rng K R) (sd : Seeds R) (error : K) (explore : Bool) {n : Int}
    (h2 : 2 ≤ n) (hi : IsInt n) :
    ∃ o, newObj g sd error explore [("n_actions", jsonOfInt n)] = .ok o ∧
      (getParams o).lookup "gamma" = none ∧
      ∃ j p r, paramExport g o.par o.rng = .ok ((j, p), r) ∧ j.item "gamma" = some (.num (95 / 100)) := by
  obtain ⟨o, e, hp, hr, hk⟩ := refresh_init g sd error explore
  have him : paramImport g sd (.obj [("n_actions", jsonOfInt n)]) (o.par, o.rng) =
      .ok ({ o.par with nActions := n }, o.rng) := by
    unfold paramImport Json.members
    simp only [bind, Except.bind]
    rw [importAll_cons (member_int rfl hi (by simp; omega) _), importAll_nil]
  refine ⟨⟨dictUpdate o.dict [("n_actions", jsonOfInt n)], { o.par with nActions := n }, o.rng⟩, ?_, ?_, ?_⟩
  · unfold newObj
    dsimp only
    rw [e]
    show setParams g sd [("n_actions", jsonOfInt n)] o = _
    unfold setParams
    rw [show [("n_actions", (jsonOfInt n : Json K))].map unmaskNone = [("n_actions", jsonOfInt n)]
      from rfl, him]
    rfl
  · show (dictSet o.dict "n_actions" (jsonOfInt n)).lookup "gamma" = none
    rw [List.lookup_eq_none_iff]
    intro m hm
    rcases mem_dictSet hm with rfl | ⟨-, hm⟩
    · simp
    · have := hk "gamma" (by simp)
      rw [bne_iff_ne]
      intro e'
      exact this (List.mem_map.2 ⟨m, hm, e'.symm⟩)
  · have D : DimsOk 1 1 1 := ⟨by decide, by decide, by decide⟩
    have hm : sysMade g sd error explore 1 1 1 [.obj [("n_actions", jsonOfInt n)]] =
        .ok ({ o.par with nActions := n }, o.rng) := by
      unfold sysMade pySet
      rw [show sysInit g sd error explore 1 1 1 = (o.par, o.rng) by rw [hp, hr]]
      rw [List.foldlM_cons, him]
      rfl
    have hcase : ({ o.par with nActions := n } : SysPar K) =
        { (sysInit g sd error explore 1 1 1).1 with nActions := n } := by rw [hp]
    obtain ⟨j, hj⟩ := nonets_export (g := g) (made_valid D hm).1
      (by rw [hcase]; exact ⟨by simp [sysInit], by simp [sysInit]⟩)
      (by rw [hcase]; exact ⟨fun _ => by simp [sysInit], by simp [sysInit], by simp [sysInit]⟩)
    have e := hj o.rng
    obtain ⟨file, loss, x, a, c, q, act, cond, pred, hf, hl, rfl, ha, hp'⟩ := report_form e
    refine ⟨_, _, _, e, ?_⟩
    unfold Json.item scalarList
    rw [if_pos (show (1 : Int) < ({ o.par with nActions := n } : SysPar K).nActions by
      show 1 < n; omega)]
    rw [if_neg (show ¬ ({ o.par with nActions := n } : SysPar K).lossFunc = 6 by
      rw [hcase]; simp [sysInit])]
    show some (Json.num o.par.gamma) = _
    rw [hp]
    rfl

/-- **C101 (whole numbers) refuted.**  For every number that is not whole: given as `x_dim` it is shown
by `get_params()`, while the next smaller whole number is in use. -/
theorem C101_rounded_refuted (g : Rng K R) (sd : Seeds R) (error : K) (explore : Bool) {v : K}
    (h1 : 1 ≤ v) (h2 : v < 2147483647) (h3 : ∀ i : Int, v ≠ i) :
    ∃ o, newObj g sd error explore [("x_dim", .num v)] = .ok o ∧
      ("x_dim", .num v) ∈ getParams o ∧ o.par.xDim = ⌊v⌋ ∧ ¬ InUse o.par "x_dim" (.num v) := by
  obtain ⟨o, e, hp, hr, hk⟩ := refresh_init g sd error explore
  have hj : jsonInt v = ⌊v⌋ := by
    unfold jsonInt
    rw [if_neg (not_le.2 h2), if_neg (by
      have : (-2147483648 : K) < 0 := by norm_num
      intro h
      linarith), if_pos (by linarith)]
  have him : paramImport g sd (.obj [("x_dim", .num v)]) (o.par, o.rng) =
      .ok ({ o.par with xDim := ⌊v⌋ }, o.rng) := by
    unfold paramImport Json.members
    simp only [bind, Except.bind]
    rw [importAll_cons (s1 := ({ o.par with xDim := ⌊v⌋ }, o.rng)) ?_, importAll_nil]
    have hl : (paramTable g sd).lookup "x_dim" = some (intSet (fun a => decide (1 ≤ a)) fun a s =>
      ({ s.1 with xDim := a }, s.2)) := rfl
    simp only [importMember, hl, intSet, hj]
    rw [if_pos]
    simpa using Int.le_floor.2 (by simpa using h1)
  refine ⟨⟨dictUpdate o.dict [("x_dim", .num v)], { o.par with xDim := ⌊v⌋ }, o.rng⟩, ?_, ?_, rfl, ?_⟩
  · unfold newObj
    dsimp only
    rw [e]
    show setParams g sd [("x_dim", .num v)] o = _
    unfold setParams
    rw [show [("x_dim", (.num v : Json K))].map unmaskNone = [("x_dim", .num v)] from rfl, him]
    rfl
  · exact dictSet_has _ _ _
  · intro h
    have h4 : Json.num v = jsonOfInt ⌊v⌋ := h _ (List.mem_of_getElem? (i := 0) rfl) rfl
    simp only [jsonOfInt, Json.num.injEq] at h4
    exact h3 _ h4

end

/-! ## Examples and counterexamples with concrete values -/

/-- An object and some calls. -/
def made (kw : List (String × Json ℚ)) (ops : List (Op ℚ)) : Res (Obj ℚ Nat) := do
  let o ← newObj demoRng demoSeeds 0 false kw
  runOps demoRng demoSeeds ops o

/-- **C101 (nested parameters) refuted.**  Two parameters of the evolutionary algorithm that are set one
after another are both in use, but `get_params()` shows the second only, and a copy does not have the
first. -/
theorem C101_nested_refuted : ∃ o c,
    made [] [.set [("ea", .obj [("lambda", jsonOfInt 4)])],
      .set [("ea", .obj [("theta_ea", .num 7)])]] = .ok o ∧
    clone demoRng demoSeeds 0 false o = .ok c ∧
    o.par.ea.lambda = 4 ∧ o.par.ea.theta = 7 ∧ c.par.ea.lambda = 2 ∧ c.par.ea.theta = 7 := by
  obtain ⟨o, h1, h2⟩ := Demo.Res.test_iff
    (m := made [] [.set [("ea", .obj [("lambda", jsonOfInt 4)])],
      .set [("ea", .obj [("theta_ea", .num 7)])]])
    (p := fun o => decide (o.par.ea.lambda = 4) && decide (o.par.ea.theta = 7) &&
      Demo.Res.test (clone demoRng demoSeeds 0 false o) fun c =>
        decide (c.par.ea.lambda = 2) && decide (c.par.ea.theta = 7)) (by decide +kernel)
  simp only [Bool.and_eq_true, decide_eq_true_eq] at h2
  obtain ⟨c, h3, h4⟩ := Demo.Res.test_iff h2.2
  simp only [Bool.and_eq_true, decide_eq_true_eq] at h4
  exact ⟨o, c, h1, h3, h2.1.1, h2.1.2, h4.1, h4.2⟩

/-- **C101 (limits) refuted.**  A learning rate of conditions above its limit is shown as it was given,
while the limit is in use. -/
theorem C101_limit_refuted : ∃ o,
    made [("condition", .obj [("type", .str "hyperrectangle_csr"),
      ("args", .obj [("eta", .num 2)])])] [] = .ok o ∧
    (∃ j, (getParams o).lookup "condition" = some j ∧ j.numAt ["args", "eta"] = some 2) ∧
    o.par.cond.eta = 1 := by
  obtain ⟨o, h1, h2⟩ := Demo.Res.test_iff
    (m := made [("condition", .obj [("type", .str "hyperrectangle_csr"),
      ("args", .obj [("eta", .num 2)])])] [])
    (p := fun o => decide (o.par.cond.eta = 1) &&
      ((getParams o).lookup "condition").any fun j : Json ℚ => decide (j.numAt ["args", "eta"] = some 2))
    (by decide +kernel)
  rw [Bool.and_eq_true, Option.any_eq_true] at h2
  obtain ⟨h2, j, h3, h4⟩ := h2
  exact ⟨o, h1, ⟨j, h3, of_decide_eq_true h4⟩, of_decide_eq_true h2⟩

/-- A history with exact arguments whose copy can be constructed. -/
example : ∃ o o' c, newObj demoRng demoSeeds 0 false [("n_actions", jsonOfInt 4), ("x_dim", jsonOfInt 6)] =
      .ok o ∧
    runOps demoRng demoSeeds [.set [("beta", .num (1 / 5)), ("random_state", .null)], .report,
      .set [("gamma", .num (1 / 2)), ("loss_func", .str "huber")]] o = .ok o' ∧
    clone demoRng demoSeeds 0 false o' = .ok c ∧ c.par.gamma = 1 / 2 ∧ c.par.nActions = 4 := by
  obtain ⟨o, h1, h2⟩ := Demo.Res.test_iff
    (m := newObj demoRng demoSeeds 0 false [("n_actions", jsonOfInt 4), ("x_dim", jsonOfInt 6)])
    (p := fun o => Demo.Res.test (runOps demoRng demoSeeds
      [.set [("beta", .num (1 / 5)), ("random_state", .null)], .report,
        .set [("gamma", .num (1 / 2)), ("loss_func", .str "huber")]] o) fun o' =>
      Demo.Res.test (clone demoRng demoSeeds 0 false o') fun c =>
        decide (c.par.gamma = 1 / 2) && decide (c.par.nActions = 4)) (by decide +kernel)
  obtain ⟨o', h3, h4⟩ := Demo.Res.test_iff h2
  obtain ⟨c, h5, h6⟩ := Demo.Res.test_iff h4
  simp only [Bool.and_eq_true, decide_eq_true_eq] at h6
  exact ⟨o, o', c, h1, h3, h5, h6.1, h6.2⟩

example : (∀ m ∈ [("n_actions", (jsonOfInt 4 : Json ℚ)), ("x_dim", jsonOfInt 6)], Exact m) ∧
    ∀ op ∈ [Op.set [("beta", (.num (1 / 5) : Json ℚ)), ("random_state", .null)], .report,
      .set [("gamma", .num (1 / 2)), ("loss_func", .str "huber")]], op.Exact := by
  refine ⟨?_, ?_⟩
  · intro m hm
    simp only [List.mem_cons, List.not_mem_nil, or_false] at hm
    rcases hm with rfl | rfl
    · refine ⟨fun _ v hv => ⟨4, by decide, ?_⟩, fun h => absurd h (by decide)⟩
      simpa [jsonOfInt] using hv.symm
    · refine ⟨fun _ v hv => ⟨6, by decide, ?_⟩, fun h => absurd h (by decide)⟩
      simpa [jsonOfInt] using hv.symm
  · intro op hop
    simp only [List.mem_cons, List.not_mem_nil, or_false] at hop
    rcases hop with rfl | rfl | rfl
    · intro m hm
      simp only [List.mem_cons, List.not_mem_nil, or_false] at hm
      rcases hm with rfl | rfl
      · exact ⟨fun h => absurd h (by simp [wholes]), fun h => absurd h (by simp)⟩
      · exact ⟨fun _ v hv => by simp at hv, fun h => absurd h (by simp)⟩
    · trivial
    · intro m hm
      simp only [List.mem_cons, List.not_mem_nil, or_false] at hm
      rcases hm with rfl | rfl
      · exact ⟨fun h => absurd h (by simp [wholes]), fun h => absurd h (by simp)⟩
      · exact ⟨fun h => absurd h (by simp [wholes]), fun h => absurd h (by simp)⟩

example : (1 : ℚ) ≤ 5 / 2 ∧ (5 / 2 : ℚ) < 2147483647 ∧ ∀ i : Int, (5 / 2 : ℚ) ≠ i := by
  refine ⟨by norm_num, by norm_num, fun i h => ?_⟩
  have : ((5 : Int) : ℚ) = ((2 * i : Int) : ℚ) := by push_cast; linarith
  have := Int.cast_injective (α := ℚ) this
  omega

end Shadow
end Xcsf
