import Verif.Tune
import Verif.PropsLemmas
import Verif.CoreLaws
import Verif.CoreOps5

/-!
# Lemmas about changes of parameters
-/

set_option linter.unusedSectionVars false

namespace Xcsf

section
variable {K X B R : Type} [Zero K] [One K] [Add K] [Sub K] [Mul K] [Div K]
  [LT K] [DecidableLT K] [IntCast K] [DecidableEq K]
variable {V V' : Cl K B → Prop} {E : Fault → Prop} [MayExit E] {M M' : Int} {S s : St K X B R}

/-- The invariant under other parameters and a higher limit. -/
theorem BetweenM.retune {par par' : Params K} (h : BetweenM V par M s s) (hV : ∀ c, V c → V' c)
    (hM : M ≤ M') (hp : par'.popSize ≤ M') (r : R) :
    BetweenM V' par' M' { s with rng := r } { s with rng := r } :=
  BetweenM.self (S := s) ⟨⟨h.good.inv.congr rfl rfl rfl rfl rfl, fun i c e => hV c (h.good.vals i c e)⟩,
    h.kset, ⟨hp, Int.le_trans h.cap.2 hM⟩, ⟨hp, Int.le_trans h.qcap.2 hM⟩, h.snap⟩

theorem BetweenM.rules {par : Params K} (b : BetweenM V par M S s) :
    ∀ c ∈ population s, V c ∧ 1 ≤ c.num := by
  intro c hc
  obtain ⟨i, hi, e⟩ := List.mem_filterMap.1 hc
  obtain ⟨c', e', h1, h2⟩ := b.good.liveP hi
  rw [e] at e'
  cases e'
  exact ⟨h2, h1⟩

theorem BetweenM.micro {par : Params K} (b : BetweenM V par M S s) :
    micro (population s) = s.pset.num := by
  rw [population, filterMap_micro b.good.inv.p.allLive, b.good.inv.p.num]

/-- What is kept of the parameters: the laws hold for the values of rules, and the prediction array
keeps its length. -/
structure Conf.Fits (V : Cl K B → Prop) (E : Fault → Prop) (n d : Nat) (c : Conf K X B R) : Prop where
  laws : Laws c.par c.kit V E
  nActions : c.par.nActions = n
  yDim : c.par.yDim = d

/-- Some limit is at least those of the given parameters. -/
theorem exists_limit (c : Conf K X B R) (evs : List (Ev K X B R)) :
    ∃ M, c.par.popSize ≤ M ∧ ∀ c' r', Ev.set c' r' ∈ evs → c'.par.popSize ≤ M := by
  induction evs with
  | nil => exact ⟨_, Int.le_refl _, fun _ _ h => nomatch h⟩
  | cons e evs ih =>
    obtain ⟨M, h0, h1⟩ := ih
    cases e with
    | call op =>
      refine ⟨M, h0, fun c' r' h => h1 c' r' ?_⟩
      rcases List.mem_cons.1 h with h | h
      · cases h
      · exact h
    | set d q =>
      refine ⟨max M d.par.popSize, Int.le_trans h0 (Int.le_max_left _ _), fun c' r' h => ?_⟩
      rcases List.mem_cons.1 h with h | h
      · cases h; exact Int.le_max_right _ _
      · exact Int.le_trans (h1 c' r' h) (Int.le_max_left _ _)

theorem evs_post {n d : Nat} : ∀ (evs : List (Ev K X B R)) {M : Int} {l : Live K X B R},
    l.conf.Fits V E n d → l.paSize = n * d → BetweenM V l.conf.par M l.st l.st →
    (∀ c r, Ev.set c r ∈ evs → c.Fits V E n d ∧ c.par.popSize ≤ M) → (∀ op, Ev.call op ∈ evs → op.ok V) →
    Post (evs.foldlM evStep l) (fun l' => l'.conf.Fits V E n d ∧
      BetweenM V l'.conf.par M l'.st l'.st) E
  | [], M, l, hl, hn, b, hs, hc => ⟨hl, b⟩
  | .set c r :: evs, M, l, hl, hn, b, hs, hc => by
    rw [List.foldlM_cons]
    refine post_bind (m := evStep l (.set c r))
      (Q := fun l' => l' = { l with conf := c, st := { l.st with rng := r.getD l.st.rng } }) rfl ?_
    rintro _ rfl
    have h := hs c r List.mem_cons_self
    exact evs_post evs h.1 hn (b.retune (fun _ h => h) (Int.le_refl _) h.2 _)
      (fun c r h => hs c r (List.mem_cons_of_mem _ h)) (fun op h => hc op (List.mem_cons_of_mem _ h))
  | .call op :: evs, M, l, hl, hn, b, hs, hc => by
    rw [List.foldlM_cons]
    refine post_bind (m := evStep l (.call op)) (Q := fun l' => l'.conf = l.conf ∧
      l'.paSize = l.paSize ∧ BetweenM V l.conf.par M l'.st l'.st) ?_ ?_
    · unfold evStep
      dsimp only
      rw [if_neg (by rw [hn, hl.nActions, hl.yDim]; exact Nat.lt_irrefl _)]
      exact post_bind (step_post hl.laws op (hc op List.mem_cons_self) b) (fun s h => ⟨rfl, rfl, h⟩)
    · rintro l' ⟨h1, h2, h3⟩
      exact evs_post evs (h1 ▸ hl) (h2.trans hn) (h1 ▸ h3)
        (fun c r h => hs c r (List.mem_cons_of_mem _ h)) (fun op h => hc op (List.mem_cons_of_mem _ h))

theorem runEv_post {n d : Nat} {c : Conf K X B R} (hc : c.Fits V E n d) (hp : c.par.popSize ≤ M)
    (r : R) {evs : List (Ev K X B R)}
    (hs : ∀ c r, Ev.set c r ∈ evs → c.Fits V E n d ∧ c.par.popSize ≤ M)
    (ho : ∀ op, Ev.call op ∈ evs → op.ok V) :
    Post (runEv c r evs) (fun l => l.conf.Fits V E n d ∧
      BetweenM V l.conf.par M l.st l.st) E := by
  unfold runEv
  refine post_bind (xcsfInit_post hc.laws r) ?_
  rintro s ⟨h, _⟩
  exact evs_post evs (l := ⟨c, c.par.nActions * c.par.yDim, s⟩) hc
    (by rw [hc.nActions, hc.yDim])
    (h.retune (fun _ h => h) hp hp s.rng) hs ho

end

section
variable {K X B R : Type} [Field K] [LinearOrder K] [IsStrictOrderedRing K]

/-- The values of rules do not depend on parameters other than the numbers of actions and outputs. -/
theorem RuleOK.reshape {par par' : Params K} {W : B → Prop} (h1 : par'.nActions = par.nActions)
    (h2 : par'.yDim = par.yDim) {c : Cl K B} (h : RuleOK par W c) : RuleOK par' W c :=
  ⟨h.1, h.2, h.3, h.4, h.5, h.6, h1 ▸ h.7, h2 ▸ h.8, h.9⟩

theorem Regular.fits {c c0 : Conf K X B R} {W : B → Prop} (H : Regular c.par c.kit W)
    (h1 : c.par.nActions = c0.par.nActions) (h2 : c.par.yDim = c0.par.yDim) :
    c.Fits (RuleOK c0.par W) NoUB c0.par.nActions c0.par.yDim := by
  refine ⟨?_, h1, h2⟩
  have e : RuleOK c0.par W = RuleOK c.par W := by
    funext z
    exact propext ⟨fun h => h.reshape h1 h2, fun h => h.reshape h1.symm h2.symm⟩
  rw [e]
  exact lawsField H

end
end Xcsf
