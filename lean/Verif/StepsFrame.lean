import Verif.Fit
import Verif.Frame
import Verif.Steps

/-!
# Which operations write the match set, the action sets and the remembered state

Helper lemmas for `StepsSim.lean`: rule-level operations leave them alone.
-/

set_option linter.unusedSectionVars false

namespace Xcsf
namespace Steps
variable {K X B R : Type} [Zero K] [One K] [Add K] [Sub K] [Mul K] [Div K]
  [LT K] [DecidableLT K] [IntCast K] [DecidableEq K]
variable {par : Params K} {kit : Kit K X B R}

/-- The three sets and the remembered state. -/
def sets (s : St K X B R) : CSet × CSet × CSet × Option X :=
  (s.mset, s.aset, s.prevAset, s.prevState)

/-- The operation leaves them as they are in `s`. -/
abbrev Keeps1 (g : CSet × CSet × CSet × Option X) (m : Res (St K X B R)) : Prop :=
  Post m (fun s' => sets s' = g) AnyFault

/-- The same for operations that return something else too. -/
abbrev Keeps2 {α : Type} (g : CSet × CSet × CSet × Option X) (m : Res (α × St K X B R)) : Prop :=
  Post m (fun p => sets p.2 = g) AnyFault

theorem ks_free {s : St K X B R} (i : Nat) : Keeps1 (sets s) (s.freeCl i) := by
  unfold St.freeCl
  split
  · rfl
  · trivial

theorem ks_kill : ∀ (l : List Nat) (s : St K X B R), Keeps1 (sets s) (killGo s l)
  | [], s => rfl
  | i :: l, s => by
    unfold killGo
    refine post_bind (ks_free i) fun s' h => ?_
    rw [← h]
    exact ks_kill l s'

theorem ks_killKset {s : St K X B R} : Keeps1 (sets s) (killKset s) := by
  unfold killKset
  exact post_bind (ks_kill _ s) fun s' h => h

theorem ks_delAt {s : St K X B R} (i : Nat) : Keeps1 (sets s) (delAt s i) := by
  unfold delAt
  cases s.pset.list[i]? with
  | none => trivial
  | some id =>
    refine post_bind (post_any _) fun c _ => ?_
    show Post (if c.num - 1 = 0 then _ else _) _ _
    split <;> rfl

theorem ks_del {s : St K X B R} : Keeps1 (sets s) (psetDel par kit s) := by
  unfold psetDel
  refine post_bind (post_any _) fun p _ => ?_
  exact ks_delAt (s := { s with rng := p.2 }) p.1

theorem ks_enforceGo : ∀ (n : Nat) (s : St K X B R), Keeps1 (sets s) (enforceGo par kit n s)
  | 0, s => by
    unfold enforceGo
    split
    · trivial
    · rfl
  | n + 1, s => by
    unfold enforceGo
    split
    · refine post_bind ks_del fun s' h => ?_
      rw [← h]; exact ks_enforceGo n s'
    · rfl

theorem ks_enforce {s : St K X B R} : Keeps1 (sets s) (enforce par kit s) := ks_enforceGo _ s

theorem ks_updateGo (x : X) (y : List K) (n : Int) (cur : Bool) : ∀ (l : List Nat) (s : St K X B R),
    Keeps1 (sets s) (updateGo par kit x y n cur l s)
  | [], s => rfl
  | i :: l, s => by
    unfold updateGo
    refine post_bind (post_any _) fun c _ => ?_
    exact ks_updateGo x y n cur l _

theorem ks_fitGo (sum : K) : ∀ (l : List Nat) (s : St K X B R),
    Keeps1 (sets s) (fitGo par kit sum l s)
  | [], s => rfl
  | i :: l, s => by
    unfold fitGo
    refine post_bind (post_any _) fun c _ => ?_
    exact ks_fitGo sum l _

theorem ks_updateFit (t : CSet) (s : St K X B R) : Keeps1 (sets s) (updateFit par kit t s) := by
  unfold updateFit
  split
  · trivial
  · exact post_bind (post_any _) fun cs _ => ks_fitGo _ _ s

theorem ks_subsumeGo (sid : Nat) : ∀ (l : List Nat) (d : Bool) (s : St K X B R),
    Keeps2 (sets s) (subsumeGo kit sid l d s)
  | [], d, s => rfl
  | i :: l, d, s => by
    unfold subsumeGo
    refine post_bind (post_any _) fun c _ => ?_
    refine post_bind (post_any _) fun sc _ => ?_
    split
    · exact ks_subsumeGo sid l true _
    · exact ks_subsumeGo sid l d s

theorem ks_subsumption (t : CSet) (s : St K X B R) :
    Keeps2 (sets s) (subsumption par kit t s) := by
  unfold subsumption
  refine post_bind (post_any _) fun best _ => ?_
  cases best with
  | none => rfl
  | some sid =>
    refine post_bind (ks_subsumeGo sid t.list false s) fun p h => ?_
    obtain ⟨d, s'⟩ := p
    show Post (if d then _ else _) _ _
    split
    · refine post_bind (post_any _) fun t' _ => ?_
      refine post_bind (post_any _) fun p' _ => ?_
      exact h
    · exact h

theorem ks_update (t : CSet) (x : X) (y : List K) (cur : Bool) (s : St K X B R) :
    Keeps2 (sets s) (clsetUpdate par kit t x y cur s) := by
  unfold clsetUpdate
  refine post_bind (ks_updateGo x y t.num cur t.list s) fun s1 h1 => ?_
  refine post_bind (Q := fun s' => sets s' = sets s) (h1 ▸ ks_updateFit t s1) fun s2 h2 => ?_
  split
  · exact h2 ▸ ks_subsumption t s2
  · exact h2

theorem ks_setTimes (time : Int) : ∀ (l : List Nat) (s : St K X B R),
    Keeps1 (sets s) (setTimes time l s)
  | [], s => rfl
  | i :: l, s => by
    unfold setTimes
    refine post_bind (post_any _) fun c _ => ?_
    exact ks_setTimes time l _

theorem ks_incNum (s : St K X B R) (i : Nat) : Keeps1 (sets s) (incNum s i) := by
  unfold incNum
  exact post_bind (post_any _) fun c _ => rfl

theorem ks_addPset (s : St K X B R) (i : Nat) : Keeps1 (sets s) (addPset s i) := by
  unfold addPset
  exact post_bind (post_any _) fun c _ => rfl

theorem ks_incFree (s : St K X B R) (i j : Nat) :
    Keeps1 (sets s) (incNum s i >>= fun s => s.freeCl j) :=
  post_bind (ks_incNum s i) fun _ h => h ▸ ks_free j

theorem ks_eaSubsume (t : List Nat) (i p1 p2 : Nat) (s : St K X B R) :
    Keeps1 (sets s) (eaSubsume par kit t i p1 p2 s) := by
  unfold eaSubsume
  refine post_bind (post_any _) fun c _ => ?_
  refine post_bind (post_any _) fun c1 _ => ?_
  split
  · exact ks_incFree s p1 i
  · refine post_bind (post_any _) fun c2 _ => ?_
    split
    · exact ks_incFree s p2 i
    · refine post_bind (post_any _) fun cand _ => ?_
      split
      · generalize uniformInt kit 0 (cand.length : Int) s.rng = k
        show Post (if 0 ≤ k.1 then _ else _) _ _
        split
        · cases cand[k.1.toNat]? with
          | none => trivial
          | some j => exact ks_incFree { s with rng := k.2 } j i
        · trivial
      · exact ks_addPset s i

theorem ks_eaAdd (t : List Nat) (p1 p2 i : Nat) (a b : Bool) (s : St K X B R) :
    Keeps1 (sets s) (eaAdd par kit t p1 p2 i a b s) := by
  unfold eaAdd
  split
  · exact ks_incFree s p1 i
  · split
    · exact ks_eaSubsume t i p1 p2 s
    · exact ks_addPset s i

theorem ks_eaPair (t : List Nat) (p1 p2 : Nat) (s : St K X B R) :
    Keeps1 (sets s) (eaPair par kit t p1 p2 s) := by
  unfold eaPair
  refine post_bind (post_any _) fun c _ => ?_
  refine post_bind (post_any _) fun c1 _ => ?_
  refine post_bind (m := kit.mutate _ _) (post_any _) fun m1 _ => ?_
  refine post_bind (m := kit.mutate _ _) (post_any _) fun m2 _ => ?_
  refine post_bind (Q := fun s' => sets s' = sets s) (ks_eaAdd t p1 p2 _ _ _ _) fun s2 h2 => ?_
  exact h2 ▸ ks_eaAdd t p2 p1 _ _ _ s2

theorem ks_eaLoop (t : List Nat) (p1 p2 : Nat) : ∀ (n : Nat) (i : Int) (s : St K X B R),
    Keeps1 (sets s) (eaLoop par kit t p1 p2 n i s)
  | 0, i, s => by
    unfold eaLoop
    split
    · trivial
    · rfl
  | n + 1, i, s => by
    unfold eaLoop
    split
    · exact post_bind (ks_eaPair t p1 p2 s) fun s' h => h ▸ ks_eaLoop t p1 p2 n (i + 1) s'
    · rfl

theorem ks_eaBreed (t : CSet) (s : St K X B R) : Keeps1 (sets s) (eaBreed par kit t s) := by
  unfold eaBreed
  refine post_bind (ks_setTimes s.time t.list s) fun s1 h1 => ?_
  refine post_bind (post_any _) fun p _ => ?_
  exact h1 ▸ ks_eaLoop (s := { s1 with rng := p.2.2 }) t.list p.1 p.2.1 _ _

/-- `ea` works on the set it is given. -/
theorem ks_ea (t : CSet) (s : St K X B R) :
    Keeps1 (sets { s with time := s.time + 1 }) (ea par kit t s) := by
  unfold ea
  refine post_bind (post_any _) fun cs _ => ?_
  split
  · exact post_bind (ks_eaBreed t _) fun s' h => h ▸ ks_enforce
  · rfl

theorem ks_predictGo (x : X) : ∀ (l : List Nat) (s : St K X B R),
    Keeps1 (sets s) (predictGo kit x l s)
  | [], s => rfl
  | i :: l, s => by
    unfold predictGo
    refine post_bind (post_any _) fun c _ => ?_
    exact ks_predictGo x l _

theorem ks_paBuild (x : X) (s : St K X B R) : Keeps1 (sets s) (paBuild par kit x s) := by
  unfold paBuild
  refine post_bind (ks_predictGo x s.mset.list s) fun s1 h1 => ?_
  refine post_bind (post_any _) fun cs _ => ?_
  refine post_bind (post_any _) fun p _ => ?_
  exact h1


end Steps
end Xcsf
