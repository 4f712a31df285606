import Verif.ShadowReport
import Verif.PropsParamJson
import Mathlib.Data.List.TakeWhile

/-!
# Helpers for C101: values that are shown can be given as arguments
-/

set_option linter.unusedSectionVars false

namespace Xcsf
namespace Shadow

section
variable {K R : Type} [Field K] [LinearOrder K] [IsStrictOrderedRing K] [FloorRing K]

theorem lookup_of_key {l : List (String × Json K)} {k : String} (h : k ∈ l.map Prod.fst) :
    ∃ j, l.lookup k = some j := by
  cases e : l.lookup k with
  | some j => exact ⟨j, rfl⟩
  | none =>
    exfalso
    rw [List.lookup_eq_none_iff] at e
    obtain ⟨m, hm, rfl⟩ := List.mem_map.1 h
    have := e m hm
    simp at this

/-- A value in use can be given as an argument. -/
theorem exact_of_inUse {p : SysPar K} (I : p.Ints) (F : FileOk p.popFile) {m : String × Json K}
    (h : InUse p m.1 m.2) : Exact m := by
  obtain ⟨k, j⟩ := m
  have key : ∀ {i : Nat} {P : SysPar K → Json K → Prop}, scalars[i]? = some (k, P) → P p j :=
    fun e => h _ (List.mem_of_getElem? e) rfl
  refine ⟨fun hw v hv => ?_, fun hk t ht => ?_⟩
  · dsimp only at hv
    have num : ∀ {a : Int}, IsInt a → j = jsonOfInt a → ∃ i, IsInt i ∧ v = i := by
      intro a ha e
      refine ⟨a, ha, ?_⟩
      rw [hv] at e
      simpa [jsonOfInt] using e
    simp only [wholes, List.mem_cons, List.not_mem_nil, or_false] at hw
    rcases hw with rfl | rfl | rfl | rfl | rfl | rfl | rfl | rfl | rfl | rfl | rfl | rfl
    · exact num I.xDim (key (i := 0) rfl)
    · exact num I.yDim (key (i := 1) rfl)
    · exact num I.nActions (key (i := 2) rfl)
    · exact num I.ompNumThreads (key (i := 3) rfl)
    · rcases key (i := 4) rfl with e | e
      · exact num I.randomState e
      · rw [hv] at e; cases e.1
    · exact num I.popSize (key (i := 6) rfl)
    · exact num I.maxTrials (key (i := 7) rfl)
    · exact num I.perfTrials (key (i := 9) rfl)
    · exact num I.teletransportation (key (i := 12) rfl)
    · exact num I.thetaSub (key (i := 16) rfl)
    · exact num I.thetaDel (key (i := 21) rfl)
    · exact num I.mProbation (key (i := 25) rfl)
  · dsimp only at hk ht
    subst hk
    have e : j = .str (String.ofList (p.popFile.takeWhile (· ≠ Char.ofNat 0))) := key (i := 5) rfl
    rw [ht] at e
    simp only [Json.str.injEq] at e
    subst e
    rw [String.toList_ofList]
    refine ⟨fun h0 => ?_, F.2⟩
    have := List.mem_takeWhile_imp h0
    simp at this

theorem refresh_exact {g : Rng K R} {o o' : Obj K R} (h : refresh g o = .ok o') (I : o.par.Ints)
    (F : FileOk o.par.popFile) : ∀ m ∈ o'.dict, Exact m := by
  obtain ⟨h1, -⟩ := refresh_shown h
  unfold refresh at h
  cases e : paramExport g o.par o.rng with
  | error f => rw [e] at h; cases h
  | ok z =>
    obtain ⟨⟨j, p⟩, r⟩ := z
    rw [e] at h
    obtain ⟨file, loss, x, a, c, q, act, cond, pred, hf, hl, rfl, ha, rfl⟩ := report_form e
    cases h
    intro m hm
    exact exact_of_inUse I F ((scalars_rest o.par act cond pred _ _).2 (h1 m hm))

theorem setParams_exact {g : Rng K R} {sd : Seeds R} {kw : List (String × Json K)} {o o' : Obj K R}
    (h : setParams g sd kw o = .ok o') (hx : ∀ m ∈ kw, Exact m) (ho : ∀ m ∈ o.dict, Exact m) :
    ∀ m ∈ o'.dict, Exact m := by
  unfold setParams at h
  cases e : paramImport g sd (.obj (kw.map unmaskNone)) (o.par, o.rng) with
  | error f => rw [e] at h; cases h
  | ok s =>
    rw [e] at h
    cases h
    clear e
    have key : ∀ (kw d : List (String × Json K)), (∀ m ∈ kw, Exact m) → (∀ m ∈ d, Exact m) →
        ∀ m ∈ dictUpdate d kw, Exact m := by
      intro kw
      induction kw with
      | nil => intro d _ hd; exact hd
      | cons n kw ih =>
        intro d hx hd
        refine ih (dictSet d n.1 n.2) (fun m hm => hx m (List.mem_cons_of_mem _ hm)) fun m hm => ?_
        rcases mem_dictSet hm with rfl | ⟨-, hm⟩
        · exact hx n List.mem_cons_self
        · exact hd m hm
    exact key kw o.dict hx ho

theorem newObj_exact {g : Rng K R} {sd : Seeds R} {error : K} {explore : Bool}
    {kw : List (String × Json K)} {o : Obj K R} (h : newObj g sd error explore kw = .ok o)
    (hx : ∀ m ∈ kw, Exact m) : ∀ m ∈ o.dict, Exact m := by
  unfold newObj at h
  dsimp only at h
  cases e : refresh g ⟨[], (sysInit g sd error explore 1 1 1).1,
      (sysInit g sd error explore 1 1 1).2⟩ with
  | error f => rw [e] at h; cases h
  | ok o1 =>
    rw [e] at h
    have D : DimsOk 1 1 1 := ⟨by decide, by decide, by decide⟩
    exact setParams_exact h hx (refresh_exact e (made_valid (docs := []) D rfl).2
      ⟨by simp [sysInit], by simp [sysInit]⟩)

theorem runOps_exact {g : Rng K R} {sd : Seeds R} (ops : List (Op K)) : ∀ {o o' : Obj K R},
    runOps g sd ops o = .ok o' → (∀ op ∈ ops, op.Exact) → (∀ m ∈ o.dict, Exact m) →
    ∀ m ∈ o'.dict, Exact m := by
  induction ops with
  | nil => intro o o' h _ hs; cases h; exact hs
  | cons op ops ih =>
    intro o o' h hx hs
    simp only [runOps, List.foldlM_cons] at h
    cases e : step g sd o op with
    | error f => rw [e] at h; cases h
    | ok o1 =>
      rw [e] at h
      refine ih h (fun q hq => hx q (List.mem_cons_of_mem _ hq)) ?_
      have hop := hx op List.mem_cons_self
      cases op with
      | set kw => exact setParams_exact e hop hs
      | load p => exact refresh_exact e hop.1 hop.2
      | report =>
        unfold step at e
        cases e2 : paramExport g o.par o.rng with
        | error f => rw [e2] at e; cases e
        | ok z => rw [e2] at e; cases e; exact hs
      | classify y => exact absurd hop (by simp [Op.Exact])

/-- The document of a newly constructed object. -/
theorem refresh_init (g : Rng K R) (sd : Seeds R) (error : K) (explore : Bool) :
    ∃ o, refresh g ⟨[], (sysInit g sd error explore 1 1 1).1, (sysInit g sd error explore 1 1 1).2⟩ =
        .ok o ∧ o.par = (sysInit g sd error explore 1 1 1).1 ∧
        o.rng = (sysInit g sd error explore 1 1 1).2 ∧
        ∀ k ∈ ["huber_delta", "gamma", "teletransportation", "p_explore", "action"],
          k ∉ o.dict.map Prod.fst := by
  have D : DimsOk 1 1 1 := ⟨by decide, by decide, by decide⟩
  obtain ⟨j, hj⟩ := nonets_export (g := g) (made_valid (g := g) (sd := sd) (error := error)
    (explore := explore) (docs := []) D rfl).1 ⟨by simp [sysInit], by simp [sysInit]⟩
    ⟨fun h => absurd h (by simp [SysPar.reportsAction, sysInit]), by simp [sysInit], by simp [sysInit]⟩
  have e := hj (sysInit g sd error explore 1 1 1).2
  have hu := e
  obtain ⟨file, loss, x, a, c, q, act, cond, pred, hf, hl, rfl, ha, hp⟩ := report_form e
  refine ⟨⟨_, (sysInit g sd error explore 1 1 1).1, (sysInit g sd error explore 1 1 1).2⟩, by
    unfold refresh; dsimp only; rw [e]; rfl, rfl, rfl, ?_⟩
  have hae : a = [] := by
    unfold paramExport scalarMembers at hu
    rw [hf] at hu
    simp only [bind, Except.bind] at hu
    rw [hl] at hu
    dsimp only at hu
    cases e3 : eaExport (sysInit g sd error explore 1 1 1).1.ea with
    | error f => rw [e3] at hu; cases hu
    | ok z3 =>
    rw [e3] at hu
    dsimp only at hu
    have e4 : actionMembers g (sysInit g sd error explore 1 1 1).1.reportsAction
        (sysInit g sd error explore 1 1 1).1.act (sysInit g sd error explore 1 1 1).2 =
        .ok (([], (sysInit g sd error explore 1 1 1).1.act), (sysInit g sd error explore 1 1 1).2) :=
      rfl
    rw [e4] at hu
    dsimp only at hu
    cases e5 : condParExport g (sysInit g sd error explore 1 1 1).1.cond
        (sysInit g sd error explore 1 1 1).2 with
    | error f => rw [e5] at hu; cases hu
    | ok zc =>
    rw [e5] at hu
    dsimp only at hu
    cases e6 : predParExport g (sysInit g sd error explore 1 1 1).1.pred zc.2 with
    | error f => rw [e6] at hu; cases hu
    | ok zp =>
    rw [e6] at hu
    rcases ha with ha | ⟨y, rfl⟩
    · exact ha
    · exfalso
      simp only [Except.ok.injEq, Prod.mk.injEq, Json.obj.injEq] at hu
      have h1 := congrArg List.length hu.1.1
      simp at h1
  subst hae
  intro k hk hm
  have hm' : k ∈ (scalarList (sysInit g sd error explore 1 1 1).1 file loss ++ [("ea", x)] ++ [] ++
        [("condition", c), ("prediction", q)]).map Prod.fst := by
    rw [List.map_map] at hm
    rwa [List.map_congr_left (f := Prod.fst ∘ maskNone) (g := Prod.fst) fun m _ => maskNone_fst m] at hm
  have h2 : ∀ k ∈ ["huber_delta", "gamma", "teletransportation", "p_explore", "action"], k ∉ ["version",
      "x_dim", "y_dim", "n_actions", "omp_num_threads", "random_state",
      "population_file", "pop_init", "max_trials", "perf_trials", "pop_size", "loss_func",
      "set_subsumption", "theta_sub", "e0", "alpha", "nu", "beta", "delta", "theta_del",
        "init_fitness", "init_error", "m_probation", "stateful", "compaction", "ea", "condition",
        "prediction"] := by decide +kernel
  exact h2 k hk hm'

end

end Shadow
end Xcsf
