import Verif.ShadowLemmas

/-! # Every entry of the table of parameters sets its own parameter only -/

set_option linter.unusedSectionVars false

namespace Xcsf
namespace Shadow

section
variable {K R : Type} [Field K] [LinearOrder K] [IsStrictOrderedRing K] [FloorRing K]

/-- Goes through the scalar parameters: all but one are the same. -/
local syntax "only_tac" : tactic
macro_rules | `(tactic| only_tac) => `(tactic|
  (intro e he; unfold scalars at he
   repeat (first
    | exact absurd he List.not_mem_nil
    | (rcases List.mem_cons.1 he with he | he
       focus (subst he; intro hk; first | rfl | exact absurd rfl hk)))))

theorem only_ea (p : SysPar K) (e : EaFile K) : Only "ea" p { p with ea := e } := by only_tac

theorem only_act (p : SysPar K) (e : ActFile K) : Only "action" p { p with act := e } := by only_tac

theorem only_cond (p : SysPar K) (e : CondFile K) : Only "condition" p { p with cond := e } := by
  only_tac

theorem only_pred (p : SysPar K) (e : PredFile K) : Only "prediction" p { p with pred := e } := by
  only_tac

theorem only_ea_step {j : Json K} {s s' : SysPar K × R} (h : eaStep j s = .ok s') :
    Only "ea" s.1 s'.1 := by
  unfold eaStep at h
  cases e1 : j.members with
  | error f => rw [e1] at h; cases h
  | ok l =>
    rw [e1] at h
    simp only [bind, Except.bind] at h
    cases e2 : importAll eaTable s.1.ea l with
    | error f => rw [e2] at h; cases h
    | ok e => rw [e2] at h; cases h; exact only_ea _ _

theorem only_act_step {j : Json K} {s s' : SysPar K × R} (h : actStep j s = .ok s') :
    Only "action" s.1 s'.1 := by
  unfold actStep at h
  cases e2 : actParImport s.1.xDim s.1.act j with
  | error f => rw [e2] at h; cases h
  | ok e => rw [e2] at h; cases h; exact only_act _ _

theorem only_cond_step {g : Rng K R} {j : Json K} {s s' : SysPar K × R}
    (h : condStep g j s = .ok s') : Only "condition" s.1 s'.1 := by
  unfold condStep at h
  cases e2 : condParImport g s.1.xDim s.1.cond j s.2 with
  | error f => rw [e2] at h; cases h
  | ok e => rw [e2] at h; cases h; exact only_cond _ _

theorem only_pred_step {j : Json K} {s s' : SysPar K × R} (h : predStep j s = .ok s') :
    Only "prediction" s.1 s'.1 := by
  unfold predStep at h
  cases e2 : predParImport s.1.xDim s.1.pred j with
  | error f => rw [e2] at h; cases h
  | ok e => rw [e2] at h; cases h; exact only_pred _ _

set_option maxHeartbeats 2000000 in
theorem table_sets (g : Rng K R) (sd : Seeds R) : ∀ e ∈ paramTable g sd, Sets e.1 e.2 := by
  unfold paramTable
  simp only [List.forall_mem_cons]
  refine ⟨?_, ?_, ?_, ?_, ?_, sets_seed sd, sets_file, ?_, ?_, ?_, ?_, ?_, ?_, ?_, ?_, ?_, ?_, ?_, ?_,
    ?_, ?_, ?_, ?_, ?_, ?_, ?_, ?_, ?_, ?_, ?_, ?_, ?_, ?_, fun _ h => absurd h List.not_mem_nil⟩
  · refine sets_any (not_scalar (by decide)) fun v h s s' e1 e2 => ?_
    cases e1; cases e2
    only_tac
  · exact sets_int (by decide) (by decide) (fun a s => inUse_at 0 rfl rfl) fun a s => by only_tac
  · exact sets_int (by decide) (by decide) (fun a s => inUse_at 1 rfl rfl) fun a s => by only_tac
  · exact sets_int (by decide) (by decide) (fun a s => inUse_at 2 rfl rfl) fun a s => by only_tac
  · exact sets_int (by decide) (by decide) (fun a s => inUse_at 3 rfl rfl) fun a s => by only_tac
  · exact sets_int (by decide) (by decide) (fun a s => inUse_at 6 rfl rfl) fun a s => by only_tac
  · exact sets_int (by decide) (by decide) (fun a s => inUse_at 7 rfl rfl) fun a s => by only_tac
  · exact sets_bool (by decide) (fun a s => inUse_at 8 rfl rfl) fun a s => by only_tac
  · exact sets_int (by decide) (by decide) (fun a s => inUse_at 9 rfl rfl) fun a s => by only_tac
  · exact sets_name (by decide) C47_names.2.2.2.1 (fun c t s ht => inUse_at 10 rfl ⟨t, ht, rfl⟩)
      fun a s => by only_tac
  · exact sets_num (by decide) (fun a s => inUse_at 11 rfl rfl) fun a s => by only_tac
  · exact sets_int (by decide) (by decide) (fun a s => inUse_at 12 rfl rfl) fun a s => by only_tac
  · exact sets_num (by decide) (fun a s => inUse_at 13 rfl rfl) fun a s => by only_tac
  · exact sets_num (by decide) (fun a s => inUse_at 14 rfl rfl) fun a s => by only_tac
  · exact sets_bool (by decide) (fun a s => inUse_at 15 rfl rfl) fun a s => by only_tac
  · exact sets_int (by decide) (by decide) (fun a s => inUse_at 16 rfl rfl) fun a s => by only_tac
  · exact sets_num (by decide) (fun a s => inUse_at 17 rfl rfl) fun a s => by only_tac
  · exact sets_num (by decide) (fun a s => inUse_at 18 rfl rfl) fun a s => by only_tac
  · exact sets_num (by decide) (fun a s => inUse_at 19 rfl rfl) fun a s => by only_tac
  · exact sets_num (by decide) (fun a s => inUse_at 20 rfl rfl) fun a s => by only_tac
  · exact sets_int (by decide) (by decide) (fun a s => inUse_at 21 rfl rfl) fun a s => by only_tac
  · exact sets_num (by decide) (fun a s => inUse_at 22 rfl rfl) fun a s => by only_tac
  · exact sets_num (by decide) (fun a s => inUse_at 23 rfl rfl) fun a s => by only_tac
  · exact sets_num (by decide) (fun a s => inUse_at 24 rfl rfl) fun a s => by only_tac
  · exact sets_int (by decide) (by decide) (fun a s => inUse_at 25 rfl rfl) fun a s => by only_tac
  · exact sets_bool (by decide) (fun a s => inUse_at 26 rfl rfl) fun a s => by only_tac
  · exact sets_bool (by decide) (fun a s => inUse_at 27 rfl rfl) fun a s => by only_tac
  · exact sets_any (not_scalar (by decide)) fun v h s s' e1 e2 => by cases e1; exact only_ea_step e2
  · exact sets_any (not_scalar (by decide)) fun v h s s' e1 e2 => by cases e1; exact only_act_step e2
  · exact sets_any (not_scalar (by decide)) fun v h s s' e1 e2 => by cases e1; exact only_cond_step e2
  · exact sets_any (not_scalar (by decide)) fun v h s s' e1 e2 => by cases e1; exact only_pred_step e2

/-- One argument. -/
theorem member_sets {g : Rng K R} {sd : Seeds R} {s s' : SysPar K × R} {m : String × Json K}
    (h : importMember (paramTable g sd) s (unmaskNone m) = .ok s') (hx : Exact m) :
    InUse s'.1 m.1 m.2 ∧ ∀ k' j, k' ≠ m.1 → InUse s.1 k' j → InUse s'.1 k' j := by
  have hk : (unmaskNone m).1 = m.1 := by
    obtain ⟨k, v⟩ := m
    cases v with
    | null => simp only [unmaskNone]; split <;> rfl
    | _ => rfl
  unfold importMember at h
  rw [hk] at h
  cases el : (paramTable g sd).lookup m.1 with
  | none => rw [el] at h; cases h
  | some f =>
    rw [el] at h
    dsimp only at h
    cases ef : f (unmaskNone m).2 with
    | none => rw [ef] at h; cases h
    | some u =>
      rw [ef] at h
      exact table_sets g sd _ (lookup_mem el) m.2 u s s' ef h hx

/-- The values shown are those in use. -/
def Shown (o : Obj K R) : Prop := ∀ m ∈ o.dict, InUse o.par m.1 m.2

theorem set_shown {g : Rng K R} {sd : Seeds R} (kw : List (String × Json K)) :
    ∀ {d : List (String × Json K)} {s s' : SysPar K × R},
    importAll (paramTable g sd) s (kw.map unmaskNone) = .ok s' → (∀ m ∈ kw, Exact m) →
    (∀ m ∈ d, InUse s.1 m.1 m.2) → ∀ m ∈ dictUpdate d kw, InUse s'.1 m.1 m.2 := by
  induction kw with
  | nil => intro d s s' h _ hd; cases h; exact hd
  | cons n kw ih =>
    intro d s s' h hx hd
    rw [List.map_cons] at h
    simp only [importAll, List.foldlM_cons] at h
    cases e : importMember (paramTable g sd) s (unmaskNone n) with
    | error f => rw [e] at h; cases h
    | ok s1 =>
      rw [e] at h
      obtain ⟨h1, h2⟩ := member_sets e (hx n List.mem_cons_self)
      refine ih (d := dictSet d n.1 n.2) h (fun m hm => hx m (List.mem_cons_of_mem _ hm)) fun m hm => ?_
      rcases mem_dictSet hm with rfl | ⟨hk, hm⟩
      · exact h1
      · exact h2 _ _ hk (hd m hm)

theorem setParams_shown {g : Rng K R} {sd : Seeds R} {kw : List (String × Json K)} {o o' : Obj K R}
    (h : setParams g sd kw o = .ok o') (hx : ∀ m ∈ kw, Exact m) (hs : Shown o) : Shown o' := by
  unfold setParams paramImport Json.members at h
  simp only [bind, Except.bind] at h
  cases e : importAll (paramTable g sd) (o.par, o.rng) (kw.map unmaskNone) with
  | error f => rw [e] at h; cases h
  | ok s =>
    rw [e] at h
    cases h
    exact set_shown kw e hx hs

end

end Shadow
end Xcsf
