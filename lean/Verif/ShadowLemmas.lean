import Verif.ShadowSpec
import Verif.ParamValid

/-! # Helpers for the dictionary of parameters -/

set_option linter.unusedSectionVars false

namespace Xcsf
namespace Shadow

section
variable {K R : Type} [Field K] [LinearOrder K] [IsStrictOrderedRing K] [FloorRing K]

/-! ## Dictionaries -/

theorem mem_dictSet {d : List (String × Json K)} {k : String} {v : Json K} {m : String × Json K}
    (h : m ∈ dictSet d k v) : m = (k, v) ∨ (m.1 ≠ k ∧ m ∈ d) := by
  unfold dictSet at h
  split at h
  · obtain ⟨n, hn, e⟩ := List.mem_map.1 h
    split at e
    · exact .inl e.symm
    · rename_i hk
      subst e
      exact .inr ⟨hk, hn⟩
  · rename_i hk
    rcases List.mem_append.1 h with h | h
    · refine .inr ⟨fun e => hk ?_, h⟩
      rw [List.any_eq_true]
      exact ⟨m, h, by simp [e]⟩
    · exact .inl (List.mem_singleton.1 h)

theorem dictSet_has (d : List (String × Json K)) (k : String) (v : Json K) :
    (k, v) ∈ dictSet d k v := by
  unfold dictSet
  split
  · rename_i h
    obtain ⟨m, hm, e⟩ := List.any_eq_true.1 h
    refine List.mem_map.2 ⟨m, hm, ?_⟩
    rw [if_pos (by simpa using e)]
  · simp

theorem dictSet_keeps {d : List (String × Json K)} {k : String} {v : Json K} {m : String × Json K}
    (hm : m ∈ d) (hk : m.1 ≠ k) : m ∈ dictSet d k v := by
  unfold dictSet
  split
  · exact List.mem_map.2 ⟨m, hm, if_neg hk⟩
  · exact List.mem_append_left _ hm

theorem dictSet_keys {d : List (String × Json K)} {k k' : String} {v : Json K}
    (h : k' ∈ d.map Prod.fst) : k' ∈ (dictSet d k v).map Prod.fst := by
  obtain ⟨m, hm, rfl⟩ := List.mem_map.1 h
  by_cases e : m.1 = k
  · rw [e]
    exact List.mem_map.2 ⟨_, dictSet_has d k v, rfl⟩
  · exact List.mem_map.2 ⟨m, dictSet_keeps hm e, rfl⟩

theorem dictUpdate_keys (kw : List (String × Json K)) : ∀ {d : List (String × Json K)} {k' : String},
    k' ∈ d.map Prod.fst → k' ∈ (dictUpdate d kw).map Prod.fst := by
  induction kw with
  | nil => intro d k' h; exact h
  | cons m kw ih => intro d k' h; exact ih (d := dictSet d m.1 m.2) (dictSet_keys h)

/-- With different keys every argument is in the dictionary afterwards. -/
theorem dictUpdate_has (kw : List (String × Json K)) : ∀ {d : List (String × Json K)},
    (kw.map Prod.fst).Nodup → (∀ m ∈ kw, m ∈ dictUpdate d kw) ∧
      ∀ m ∈ d, m.1 ∉ kw.map Prod.fst → m ∈ dictUpdate d kw := by
  induction kw with
  | nil => intro d _; exact ⟨by simp, fun m hm _ => hm⟩
  | cons n kw ih =>
    intro d hn
    rw [List.map_cons, List.nodup_cons] at hn
    obtain ⟨h1, h2⟩ := ih (d := dictSet d n.1 n.2) hn.2
    refine ⟨fun m hm => ?_, fun m hm hk => ?_⟩
    · rcases List.mem_cons.1 hm with rfl | hm
      · exact h2 _ (dictSet_has d m.1 m.2) hn.1
      · exact h1 m hm
    · rw [List.map_cons, List.mem_cons, not_or] at hk
      exact h2 m (dictSet_keeps hm hk.1) hk.2

theorem dictSet_nodup {d : List (String × Json K)} {k : String} {v : Json K}
    (h : (d.map Prod.fst).Nodup) : ((dictSet d k v).map Prod.fst).Nodup := by
  unfold dictSet
  split
  · rw [List.map_map]
    rw [show (Prod.fst ∘ fun m : String × Json K => if m.1 = k then (k, v) else m) = Prod.fst from by
      funext m
      simp only [Function.comp]
      split
      · rename_i e; exact e.symm
      · rfl]
    exact h
  · rename_i hk
    rw [List.map_append, List.nodup_append]
    refine ⟨h, by simp, fun a ha b hb e => hk ?_⟩
    obtain ⟨m, hm, rfl⟩ := List.mem_map.1 ha
    rw [List.map_cons, List.map_nil, List.mem_singleton] at hb
    rw [List.any_eq_true]
    exact ⟨m, hm, by simp [e, hb]⟩

theorem dictUpdate_nodup (kw : List (String × Json K)) : ∀ {d : List (String × Json K)},
    (d.map Prod.fst).Nodup → ((dictUpdate d kw).map Prod.fst).Nodup := by
  induction kw with
  | nil => intro d h; exact h
  | cons m kw ih => intro d h; exact ih (d := dictSet d m.1 m.2) (dictSet_nodup h)

/-! ## Names -/

theorem scalars_nodup :
    ((scalars : List (String × (SysPar K → Json K → Prop))).map Prod.fst).Nodup := by
  show ["x_dim", "y_dim", "n_actions", "omp_num_threads", "random_state", "population_file",
    "pop_size", "max_trials", "pop_init", "perf_trials", "loss_func", "huber_delta",
    "teletransportation", "gamma", "p_explore", "set_subsumption", "theta_sub", "alpha", "beta",
    "delta", "nu", "theta_del", "init_fitness", "init_error", "e0", "m_probation", "stateful",
    "compaction"].Nodup
  decide +kernel

/-- The entry of a name. -/
theorem inUse_at (i : Nat) {k : String} {P : SysPar K → Json K → Prop} {p : SysPar K} {j : Json K}
    (h : scalars[i]? = some (k, P)) (hp : P p j) : InUse p k j := by
  intro e he hk
  have hm : (k, P) ∈ (scalars : List (String × (SysPar K → Json K → Prop))) :=
    List.mem_of_getElem? h
  have := List.inj_on_of_nodup_map scalars_nodup he hm hk
  rw [this]
  exact hp

/-- A name that is not that of a scalar. -/
theorem not_scalar {k : String}
    (hk : k ∈ ["version", "ea", "action", "condition", "prediction"]) :
    ∀ e ∈ (scalars : List (String × (SysPar K → Json K → Prop))), e.1 ≠ k := by
  intro e he ek
  have h : e.1 ∈ (scalars : List (String × (SysPar K → Json K → Prop))).map Prod.fst :=
    List.mem_map.2 ⟨e, he, rfl⟩
  have h2 : ∀ k ∈ ["version", "ea", "action", "condition", "prediction"],
      k ∉ (scalars : List (String × (SysPar K → Json K → Prop))).map Prod.fst := by
    show ∀ k ∈ ["version", "ea", "action", "condition", "prediction"], k ∉ ["x_dim", "y_dim",
      "n_actions", "omp_num_threads", "random_state", "population_file",
      "pop_size", "max_trials", "pop_init", "perf_trials", "loss_func", "huber_delta",
      "teletransportation", "gamma", "p_explore", "set_subsumption", "theta_sub", "alpha", "beta",
      "delta", "nu", "theta_del", "init_fitness", "init_error", "e0", "m_probation", "stateful",
      "compaction"]
    decide +kernel
  rw [ek] at h
  exact h2 k hk h

/-! ## One argument -/

/-- What an entry of the table of parameters does: it sets its parameter to the given value and no
other. -/
def Sets (k : String) (f : Setter K (SysPar K × R)) : Prop :=
  ∀ v h s s', f (unmaskNone (k, v)).2 = some h → h s = .ok s' → Exact (k, v) →
    InUse s'.1 k v ∧ ∀ k' j, k' ≠ k → InUse s.1 k' j → InUse s'.1 k' j

/-- A change of parameters that concerns at most the scalar parameter named `k`. -/
def Only (k : String) (p p' : SysPar K) : Prop :=
  ∀ e ∈ (scalars : List (String × (SysPar K → Json K → Prop))), e.1 ≠ k → e.2 p' = e.2 p

theorem Only.inUse {k k' : String} {p p' : SysPar K} (h : Only k p p') (hk : k' ≠ k) {j : Json K}
    (hj : InUse p k' j) : InUse p' k' j := by
  intro e he ek
  rw [h e he (fun e2 => hk (ek.symm.trans e2))]
  exact hj e he ek

theorem unmask_num (k : String) (v : K) : (unmaskNone (k, .num v)).2 = .num v := rfl

theorem unmask_other {k : String} (hk : k ≠ "random_state") (v : Json K) :
    (unmaskNone (k, v)).2 = v := by
  cases v with
  | null => simp [unmaskNone, hk]
  | _ => rfl

theorem sets_num {k : String} (hk : k ≠ "random_state") {ok : K → Bool}
    {put : K → SysPar K × R → SysPar K × R} (h1 : ∀ v s, InUse (put v s).1 k (.num v))
    (h2 : ∀ v s, Only k s.1 (put v s).1) : Sets k (numSet ok put) := by
  intro v h s s' hf hs _
  rw [unmask_other hk] at hf
  cases v with
  | num v =>
    simp only [numSet, Option.some.injEq] at hf
    subst hf
    dsimp only at hs
    split at hs
    · cases hs
      exact ⟨h1 v s, fun k' j hk => (h2 v s).inUse hk⟩
    · cases hs
  | _ => cases hf

theorem sets_int {k : String} (hk : k ≠ "random_state") (hw : k ∈ wholes) {ok : Int → Bool}
    {put : Int → SysPar K × R → SysPar K × R} (h1 : ∀ a s, InUse (put a s).1 k (jsonOfInt a))
    (h2 : ∀ a s, Only k s.1 (put a s).1) : Sets k (intSet ok put) := by
  intro v h s s' hf hs hx
  rw [unmask_other hk] at hf
  cases v with
  | num v =>
    simp only [intSet, Option.some.injEq] at hf
    subst hf
    obtain ⟨i, hi, rfl⟩ := hx.1 hw v rfl
    dsimp only at hs
    rw [jsonInt_cast hi] at hs
    split at hs
    · cases hs
      exact ⟨h1 i s, fun k' j hk => (h2 i s).inUse hk⟩
    · cases hs
  | _ => cases hf

theorem sets_bool {k : String} (hk : k ≠ "random_state")
    {put : Bool → SysPar K × R → SysPar K × R} (h1 : ∀ b s, InUse (put b s).1 k (.bool b))
    (h2 : ∀ b s, Only k s.1 (put b s).1) : Sets k (boolSet (K := K) put) := by
  intro v h s s' hf hs _
  rw [unmask_other hk] at hf
  cases v with
  | bool b =>
    simp only [boolSet, Option.some.injEq] at hf
    subst hf
    cases hs
    exact ⟨h1 b s, fun k' j hk => (h2 b s).inUse hk⟩
  | _ => cases hf

theorem sets_name {k : String} (hk : k ≠ "random_state") {names : List (Int × List Char)} {codes}
    (N : NamesExact names codes) {put : Int → SysPar K × R → SysPar K × R}
    (h1 : ∀ c t s, nameOf names c = .ok t → InUse (put c s).1 k (.str (String.ofList t)))
    (h2 : ∀ c s, Only k s.1 (put c s).1) : Sets k (nameSet (K := K) codes put) := by
  intro v h s s' hf hs _
  rw [unmask_other hk] at hf
  cases v with
  | str t =>
    simp only [nameSet, Option.some.injEq] at hf
    subst hf
    dsimp only at hs
    cases e : codeOf codes t.toList with
    | none => rw [e] at hs; cases hs
    | some c =>
      rw [e] at hs
      cases hs
      have := h1 c t.toList s (code_name N e)
      rw [String.ofList_toList] at this
      exact ⟨this, fun k' j hk => (h2 c s).inUse hk⟩
  | _ => cases hf

theorem sets_seed (sd : Seeds R) : Sets (K := K) "random_state" (intSet anyK fun a s =>
      ({ s.1 with randomState := a }, if a < 0 then sd.clock else sd.seed a)) := by
  have ho : ∀ (a : Int) (p : SysPar K), Only "random_state" p { p with randomState := a } := by
    intro a p e he hk
    fin_cases he <;> first | rfl | exact absurd rfl hk
  intro v h s s' hf hs hx
  cases v with
  | num v =>
    obtain ⟨i, hi, rfl⟩ := hx.1 (by simp [wholes]) v rfl
    simp only [unmaskNone, intSet, Option.some.injEq] at hf
    subst hf
    dsimp only at hs
    rw [jsonInt_cast hi] at hs
    cases hs
    refine ⟨?_, fun k' j hk => (ho i s.1).inUse hk⟩
    exact inUse_at 4 rfl (.inl rfl)
  | null =>
    simp only [unmaskNone, if_true, jsonOfInt, intSet, Option.some.injEq] at hf
    subst hf
    dsimp only at hs
    rw [jsonInt_cast (i := -1) (by decide)] at hs
    cases hs
    refine ⟨?_, fun k' j hk => (ho (-1) s.1).inUse hk⟩
    exact inUse_at 4 rfl (.inr ⟨rfl, (by decide : (-1 : Int) < 0)⟩)
  | _ => cases hf

theorem sets_file : Sets (K := K) (R := R) "population_file" fileSet := by
  have ho : ∀ (l : List Char) (p : SysPar K), Only "population_file" p { p with popFile := l } := by
    intro a p e he hk
    fin_cases he <;> first | rfl | exact absurd rfl hk
  intro v h s s' hf hs hx
  rw [unmask_other (by decide)] at hf
  cases v with
  | str t =>
    simp only [fileSet, Option.some.injEq] at hf
    subst hf
    cases hs
    refine ⟨?_, fun k' j hk => (ho _ s.1).inUse hk⟩
    obtain ⟨h0, hl⟩ := hx.2 rfl t rfl
    have e1 : t.toList.takeWhile (· ≠ Char.ofNat 0) = t.toList := by
      have := List.takeWhile_append_of_pos (p := (· ≠ Char.ofNat 0)) (l₁ := t.toList) (l₂ := []) (by
        intro c hc
        simp only [ne_eq, decide_not, Bool.not_eq_true', decide_eq_false_iff_not]
        intro e; exact h0 (e ▸ hc))
      rwa [List.append_nil, List.takeWhile_nil, List.append_nil] at this
    have e2 : (setPopFile (t.toList.takeWhile (· ≠ Char.ofNat 0))).takeWhile (· ≠ Char.ofNat 0) =
        t.toList := by
      rw [e1, setPopFile_short hl, List.takeWhile_append_of_pos]
      · simp
      · intro c hc
        simp only [ne_eq, decide_not, Bool.not_eq_true', decide_eq_false_iff_not]
        intro e; exact h0 (e ▸ hc)
    refine inUse_at 5 rfl ?_
    show Json.str t = .str (String.ofList ((setPopFile (t.toList.takeWhile
      (· ≠ Char.ofNat 0))).takeWhile (· ≠ Char.ofNat 0)))
    rw [e2, String.ofList_toList]
  | _ => cases hf

/-- A parameter with parameters of its own changes no scalar. -/
theorem sets_any {k : String} (hk : ∀ e ∈ (scalars : List (String × (SysPar K → Json K → Prop))), e.1 ≠ k)
    {f : Setter K (SysPar K × R)}
    (hf : ∀ v h s s', f v = some h → h s = .ok s' → Only k s.1 s'.1) : Sets k f := by
  intro v h s s' e1 e2 _
  refine ⟨fun e he ek => absurd ek (hk e he), fun k' j hk' => (hf _ h s s' e1 e2).inUse hk'⟩

end

end Shadow
end Xcsf
