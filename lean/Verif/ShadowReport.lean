import Verif.ShadowTable

/-! # The report shows the parameters in use -/

set_option linter.unusedSectionVars false

namespace Xcsf
namespace Shadow

section
variable {K R : Type} [Field K] [LinearOrder K] [IsStrictOrderedRing K] [FloorRing K]

/-- The form of a report. -/
theorem report_form {g : Rng K R} {p p' : SysPar K} {r r' : R} {j : Json K}
    (h : paramExport g p r = .ok ((j, p'), r')) :
    ∃ file loss e a c q act cond pred, cstring p.popFile = .ok file ∧
      nameOf lossNames p.lossFunc = .ok loss ∧
      j = .obj (scalarList p file loss ++ [("ea", e)] ++ a ++ [("condition", c), ("prediction", q)]) ∧
      (a = [] ∨ ∃ x, a = [("action", x)]) ∧ p' = { p with act := act, cond := cond, pred := pred } := by
  unfold paramExport scalarMembers at h
  cases e1 : cstring p.popFile with
  | error f => rw [e1] at h; cases h
  | ok file =>
  rw [e1] at h
  simp only [bind, Except.bind] at h
  cases e2 : nameOf lossNames p.lossFunc with
  | error f => rw [e2] at h; cases h
  | ok loss =>
  rw [e2] at h
  dsimp only at h
  cases e3 : eaExport p.ea with
  | error f => rw [e3] at h; cases h
  | ok e =>
  rw [e3] at h
  dsimp only at h
  cases e4 : actionMembers g p.reportsAction p.act r with
  | error f => rw [e4] at h; cases h
  | ok za =>
  rw [e4] at h
  dsimp only at h
  cases e5 : condParExport g p.cond za.2 with
  | error f => rw [e5] at h; cases h
  | ok zc =>
  rw [e5] at h
  dsimp only at h
  cases e6 : predParExport g p.pred zc.2 with
  | error f => rw [e6] at h; cases h
  | ok zp =>
  rw [e6] at h
  cases h
  refine ⟨file, loss, e, za.1.1, zc.1.1, zp.1.1, _, _, _, rfl, rfl, rfl, ?_, rfl⟩
  unfold actionMembers at e4
  split at e4
  · cases e7 : actParExport g p.act r with
    | error f => rw [e7] at e4; cases e4
    | ok z7 => rw [e7] at e4; cases e4; exact .inr ⟨_, rfl⟩
  · cases e4; exact .inl rfl

/-- A name that is not that of a scalar. -/
theorem inUse_none {k : String}
    (hk : k ∈ ["version", "ea", "action", "condition", "prediction"]) (p : SysPar K) (j : Json K) :
    InUse p k j := by
  exact fun e he ek => absurd ek (not_scalar hk e he)

theorem scalarList_inUse {p : SysPar K} {file : String} {loss : List Char}
    (hf : cstring p.popFile = .ok file) (hl : nameOf lossNames p.lossFunc = .ok loss) :
    ∀ m ∈ scalarList p file loss, InUse p m.1 m.2 := by
  have h1 : ∀ m ∈ (if p.lossFunc = 6 then [("huber_delta", Json.num p.huberDelta)] else []),
      InUse p m.1 m.2 := by
    intro m hm
    split at hm
    · rw [List.mem_singleton] at hm
      subst hm
      exact inUse_at 11 rfl rfl
    · cases hm
  have h2 : ∀ m ∈ (if 1 < p.nActions then [("gamma", Json.num p.gamma),
      ("teletransportation", jsonOfInt p.teletransportation), ("p_explore", .num p.pExplore)]
      else []), InUse p m.1 m.2 := by
    intro m hm
    split at hm
    · simp only [List.mem_cons, List.not_mem_nil, or_false] at hm
      rcases hm with rfl | rfl | rfl
      · exact inUse_at 13 rfl rfl
      · exact inUse_at 12 rfl rfl
      · exact inUse_at 14 rfl rfl
    · cases hm
  intro m hm
  unfold scalarList at hm
  rw [List.mem_append, List.mem_append, List.mem_append] at hm
  rcases hm with ((hm | hm) | hm) | hm
  · simp only [List.mem_cons, List.not_mem_nil, or_false] at hm
    rcases hm with rfl | rfl | rfl | rfl | rfl | rfl | rfl | rfl | rfl | rfl | rfl | rfl
    · exact inUse_none (by simp) p _
    · exact inUse_at 0 rfl rfl
    · exact inUse_at 1 rfl rfl
    · exact inUse_at 2 rfl rfl
    · exact inUse_at 3 rfl rfl
    · exact inUse_at 4 rfl (.inl rfl)
    · have e : file = String.ofList (p.popFile.takeWhile (· ≠ Char.ofNat 0)) := by
        unfold cstring at hf
        split at hf
        · cases hf; rfl
        · cases hf
      subst e
      exact inUse_at 5 rfl rfl
    · exact inUse_at 8 rfl rfl
    · exact inUse_at 7 rfl rfl
    · exact inUse_at 9 rfl rfl
    · exact inUse_at 6 rfl rfl
    · exact inUse_at 10 rfl ⟨loss, hl, rfl⟩
  · exact h1 m hm
  · exact h2 m hm
  · simp only [List.mem_cons, List.not_mem_nil, or_false] at hm
    rcases hm with rfl | rfl | rfl | rfl | rfl | rfl | rfl | rfl | rfl | rfl | rfl | rfl | rfl
    · exact inUse_at 15 rfl rfl
    · exact inUse_at 16 rfl rfl
    · exact inUse_at 24 rfl rfl
    · exact inUse_at 17 rfl rfl
    · exact inUse_at 20 rfl rfl
    · exact inUse_at 18 rfl rfl
    · exact inUse_at 19 rfl rfl
    · exact inUse_at 21 rfl rfl
    · exact inUse_at 22 rfl rfl
    · exact inUse_at 23 rfl rfl
    · exact inUse_at 25 rfl rfl
    · exact inUse_at 26 rfl rfl
    · exact inUse_at 27 rfl rfl

/-- The scalar parameters are not part of actions, conditions and predictions. -/
theorem scalars_rest (p : SysPar K) (act : ActFile K) (cond : CondFile K) (pred : PredFile K) :
    ∀ k j, InUse p k j ↔ InUse { p with act := act, cond := cond, pred := pred } k j := by
  have h : ∀ e ∈ (scalars : List (String × (SysPar K → Json K → Prop))),
      e.2 p = e.2 { p with act := act, cond := cond, pred := pred } := by
    intro e he; unfold scalars at he
    repeat (first
      | exact absurd he List.not_mem_nil
      | (rcases List.mem_cons.1 he with he | he
         focus (subst he; rfl)))
  intro k j
  unfold InUse
  exact forall_congr' fun e => forall_congr' fun he => by rw [h e he]

theorem mask_inUse {p : SysPar K} {m : String × Json K} (h : InUse p m.1 m.2) :
    InUse p (maskNone m).1 (maskNone m).2 := by
  obtain ⟨k, v⟩ := m
  cases v with
  | num v =>
    simp only [maskNone]
    split
    · rename_i hc
      obtain ⟨rfl, hv⟩ := hc
      have h5 := h ("random_state", fun p j => j = jsonOfInt p.randomState ∨
        (j = .null ∧ p.randomState < 0)) (by simp [scalars]) rfl
      have hn : p.randomState < 0 := by
        rcases h5 with h5 | h5
        · simp only [jsonOfInt, Json.num.injEq] at h5
          rw [h5] at hv
          exact_mod_cast hv
        · exact h5.2
      exact inUse_at 4 rfl (.inr ⟨rfl, hn⟩)
    · exact h
  | _ => exact h

theorem maskNone_fst (m : String × Json K) : (maskNone m).1 = m.1 := by
  obtain ⟨k, v⟩ := m
  cases v with
  | num v => simp only [maskNone]; split <;> rfl
  | _ => rfl

/-- The keys of the report. -/
theorem report_common {p : SysPar K} {file : String} {loss : List Char} {l : List (String × Json K)} :
    ∀ k ∈ common, k ∈ ((scalarList p file loss ++ l).map Prod.fst) := by
  intro k hk
  rw [List.map_append]
  refine List.mem_append_left _ ?_
  unfold scalarList
  rw [List.map_append, List.map_append, List.map_append]
  have : k ∈ ["version", "x_dim", "y_dim", "n_actions", "omp_num_threads", "random_state",
      "population_file", "pop_init", "max_trials", "perf_trials", "pop_size", "loss_func"] ∨
      k ∈ ["set_subsumption", "theta_sub", "e0", "alpha", "nu", "beta", "delta", "theta_del",
        "init_fitness", "init_error", "m_probation", "stateful", "compaction"] := by
    revert k
    decide
  rcases this with h | h
  · exact List.mem_append_left _ (List.mem_append_left _ (List.mem_append_left _ h))
  · exact List.mem_append_right _ h

theorem report_nodup {p : SysPar K} {file : String} {loss : List Char} {e c q : Json K}
    {a : List (String × Json K)} (ha : a = [] ∨ ∃ x, a = [("action", x)]) :
    ((scalarList p file loss ++ [("ea", e)] ++ a ++ [("condition", c), ("prediction", q)]).map
      Prod.fst).Nodup := by
  have key : ∀ l1 l2 l3 : List String, l1 = [] ∨ l1 = ["huber_delta"] →
      l2 = [] ∨ l2 = ["gamma", "teletransportation", "p_explore"] → l3 = [] ∨ l3 = ["action"] →
      ((((["version", "x_dim", "y_dim", "n_actions", "omp_num_threads", "random_state",
      "population_file", "pop_init", "max_trials", "perf_trials", "pop_size", "loss_func"] ++ l1) ++ l2
      ++ ["set_subsumption", "theta_sub", "e0", "alpha", "nu", "beta", "delta", "theta_del",
        "init_fitness", "init_error", "m_probation", "stateful", "compaction"]) ++ ["ea"]) ++ l3 ++
        ["condition", "prediction"]).Nodup := by
    rintro l1 l2 l3 (rfl | rfl) (rfl | rfl) (rfl | rfl) <;> decide
  simp only [scalarList, List.map_append]
  refine key _ _ _ ?_ ?_ ?_
  · split
    · exact .inr rfl
    · exact .inl rfl
  · split
    · exact .inr rfl
    · exact .inl rfl
  · rcases ha with rfl | ⟨x, rfl⟩
    · exact .inl rfl
    · exact .inr rfl

/-- A dictionary of parameters: different keys, and all common parameters are shown. -/
structure Full (o : Obj K R) : Prop where
  nodup : (o.dict.map Prod.fst).Nodup
  common : ∀ k ∈ common, k ∈ o.dict.map Prod.fst

theorem refresh_shown {g : Rng K R} {o o' : Obj K R} (h : refresh g o = .ok o') :
    Shown o' ∧ Full o' := by
  unfold refresh at h
  cases e : paramExport g o.par o.rng with
  | error f => rw [e] at h; cases h
  | ok z =>
    obtain ⟨⟨j, p⟩, r⟩ := z
    rw [e] at h
    obtain ⟨file, loss, x, a, c, q, act, cond, pred, hf, hl, rfl, ha, rfl⟩ := report_form e
    cases h
    have hm : ((scalarList o.par file loss ++ [("ea", x)] ++ a ++
        [("condition", c), ("prediction", q)]).map maskNone).map Prod.fst =
        (scalarList o.par file loss ++ [("ea", x)] ++ a ++
        [("condition", c), ("prediction", q)]).map Prod.fst := by
      rw [List.map_map]
      exact List.map_congr_left fun m _ => maskNone_fst m
    refine ⟨fun m hm => ?_, ⟨?_, fun k hk => ?_⟩⟩
    · obtain ⟨n, hn, rfl⟩ := List.mem_map.1 hm
      refine (scalars_rest o.par act cond pred _ _).1 (mask_inUse ?_)
      rw [List.mem_append, List.mem_append, List.mem_append] at hn
      rcases hn with ((hn | hn) | hn) | hn
      · exact scalarList_inUse hf hl n hn
      · rw [List.mem_singleton] at hn
        subst hn
        exact inUse_none (by simp) _ _
      · rcases ha with rfl | ⟨y, rfl⟩
        · cases hn
        · rw [List.mem_singleton] at hn
          subst hn
          exact inUse_none (by simp) _ _
      · simp only [List.mem_cons, List.not_mem_nil, or_false] at hn
        rcases hn with rfl | rfl
        · exact inUse_none (by simp) _ _
        · exact inUse_none (by simp) _ _
    · dsimp only
      rw [hm]
      exact report_nodup ha
    · dsimp only
      rw [hm, List.append_assoc, List.append_assoc]
      exact report_common k hk

theorem setParams_full {g : Rng K R} {sd : Seeds R} {kw : List (String × Json K)} {o o' : Obj K R}
    (h : setParams g sd kw o = .ok o') (hf : Full o) : Full o' := by
  unfold setParams at h
  cases e : paramImport g sd (.obj (kw.map unmaskNone)) (o.par, o.rng) with
  | error f => rw [e] at h; cases h
  | ok s =>
    rw [e] at h
    cases h
    exact ⟨dictUpdate_nodup kw hf.nodup, fun k hk => dictUpdate_keys kw (hf.common k hk)⟩

theorem step_shown {g : Rng K R} {sd : Seeds R} {op : Op K} {o o' : Obj K R}
    (h : step g sd o op = .ok o') (hx : op.Exact) (hs : Shown o ∧ Full o) : Shown o' ∧ Full o' := by
  cases op with
  | set kw => exact ⟨setParams_shown h hx hs.1, setParams_full h hs.2⟩
  | load p => exact refresh_shown h
  | report =>
    unfold step at h
    cases e : paramExport g o.par o.rng with
    | error f => rw [e] at h; cases h
    | ok z =>
      obtain ⟨⟨j, p⟩, r⟩ := z
      rw [e] at h
      obtain ⟨file, loss, x, a, c, q, act, cond, pred, hf, hl, rfl, ha, rfl⟩ := report_form e
      cases h
      exact ⟨fun m hm => (scalars_rest o.par act cond pred _ _).1 (hs.1 m hm), hs.2.1, hs.2.2⟩
  | classify y => exact absurd hx (by simp [Op.Exact])

theorem runOps_shown {g : Rng K R} {sd : Seeds R} (ops : List (Op K)) : ∀ {o o' : Obj K R},
    runOps g sd ops o = .ok o' → (∀ op ∈ ops, op.Exact) → Shown o ∧ Full o → Shown o' ∧ Full o' := by
  induction ops with
  | nil => intro o o' h _ hs; cases h; exact hs
  | cons op ops ih =>
    intro o o' h hx hs
    simp only [runOps, List.foldlM_cons] at h
    cases e : step g sd o op with
    | error f => rw [e] at h; cases h
    | ok o1 =>
      rw [e] at h
      exact ih h (fun q hq => hx q (List.mem_cons_of_mem _ hq))
        (step_shown e (hx op List.mem_cons_self) hs)

theorem newObj_shown {g : Rng K R} {sd : Seeds R} {error : K} {explore : Bool}
    {kw : List (String × Json K)} {o : Obj K R} (h : newObj g sd error explore kw = .ok o)
    (hx : ∀ m ∈ kw, Exact m) : Shown o ∧ Full o := by
  unfold newObj at h
  dsimp only at h
  cases e : refresh g ⟨[], (sysInit g sd error explore 1 1 1).1, (sysInit g sd error explore 1 1 1).2⟩ with
  | error f => rw [e] at h; cases h
  | ok o1 =>
    rw [e] at h
    obtain ⟨h1, h2⟩ := refresh_shown e
    exact ⟨setParams_shown h hx h1, setParams_full h h2⟩

end

end Shadow
end Xcsf
