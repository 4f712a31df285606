import Verif.ParRace
import Verif.PropsRep
import Verif.PropsNRep

/-!
# Rules of complete systems that do not use the generator
-/

set_option linter.unusedSectionVars false
set_option linter.unusedVariables false

namespace Xcsf

section Silence
variable {R : Type}

/-- A function with a value that neither reads nor changes the state of the generator. -/
def Silent2 {α : Type} (f : R → Res (α × R)) : Prop :=
  ∀ r r', f r' = (f r).map fun q => (q.1, r')

/-- The same for two values. -/
def Silent3 {α β : Type} (f : R → Res (α × β × R)) : Prop :=
  ∀ r r', f r' = (f r).map fun q => (q.1, q.2.1, r')

theorem Silent3.got {α β : Type} {f : R → Res (α × β × R)} (h : Silent3 f) {P : α × β × R → Prop}
    (hs : ∀ r, ∃ q, f r = .ok q ∧ P q) (r r' : R) :
    (got (f r') (hs r')).1 = ((got (f r) (hs r)).1.1, (got (f r) (hs r)).1.2.1, r') := by
  have h1 := got_eq (hs r)
  have h2 := got_eq (hs r')
  have h3 := h r r'
  rw [h1] at h3
  exact Except.ok.inj (h2.symm.trans h3)

end Silence

section
variable {K X B R : Type} [Field K] [LinearOrder K] [IsStrictOrderedRing K] [FloorRing K]

/-- The functions of well-formed rules do not use the generator in the loops over rules. -/
structure Rep.Silent (v : Rep K X B R) (W : B → Prop) : Prop where
  cmatch : ∀ e b x, W b → Silent3 (v.cmatch e b x)
  act : ∀ e b x, W b → Silent3 (v.act e b x)
  predict : ∀ e b p x, W b → Silent3 (v.predict e b p x)
  update : ∀ n b p x y, W b → Silent3 (v.update n b p x y)

theorem Rep.Silent.kit {v : Rep K X B R} {nA yD : Nat} {W : B → Prop} (hs : v.Silent W)
    (h : v.Sound nA yD W) (pf : Platform K R) : (v.kit h pf).Silent where
  cmatch := by
    intro e b x r r'
    have := (hs.cmatch e b.1 x b.2).got (fun r => h.cmatch e b.1 x r b.2) r r'
    have h1 := congrArg (fun q => q.1) this
    have h2 := congrArg (fun q => q.2.1) this
    have h3 := congrArg (fun q => q.2.2) this
    refine Prod.ext h1 (Prod.ext (Subtype.ext h2) h3)
  act := by
    intro e b x r r'
    have := (hs.act e b.1 x b.2).got (fun r => h.act e b.1 x r b.2) r r'
    have h1 := congrArg (fun q => q.1) this
    have h2 := congrArg (fun q => q.2.1) this
    have h3 := congrArg (fun q => q.2.2) this
    refine Prod.ext h1 (Prod.ext (Subtype.ext h2) h3)
  predict := by
    intro e b p x r r'
    have := (hs.predict e b.1 p x b.2).got (fun r => h.predict e b.1 p x r b.2) r r'
    have h1 := congrArg (fun q => q.1) this
    have h2 := congrArg (fun q => q.2.1) this
    have h3 := congrArg (fun q => q.2.2) this
    refine Prod.ext h1 (Prod.ext (Subtype.ext h2) h3)
  update := by
    intro n b p x y r r'
    have := (hs.update n b.1 p x y b.2).got (fun r => h.update n b.1 p x y r b.2) r r'
    have h1 := congrArg (fun q => q.1) this
    have h2 := congrArg (fun q => q.2.1) this
    have h3 := congrArg (fun q => q.2.2) this
    refine Prod.ext (Subtype.ext h1) (Prod.ext h2 h3)

end

section
variable {K R : Type} [Field K] [LinearOrder K] [IsStrictOrderedRing K] [FloorRing K]

theorem mkRep_silent {C A P : Type} (n nA : Nat) (cv : CondVt K C R) (av : ActVt A R)
    (pv : PredVt K P R) (W : RuleBody C A P → Prop) : (mkRep n nA cv av pv).Silent W where
  cmatch := fun e b x _ r r' => by
    show (cv.cmatch b.cond x.1 >>= _) = Except.map _ (cv.cmatch b.cond x.1 >>= _)
    cases cv.cmatch b.cond x.1 <;> rfl
  act := fun e b x _ r r' => rfl
  predict := fun e b p x _ r r' => rfl
  update := fun n b p x y _ r r' => rfl

theorem System.silent (Y : System K R) : Y.kit.Silent :=
  Rep.Silent.kit (mkRep_silent _ _ _ _ _ _) _ _

/-! ## Networks -/

/-- Layers that draw random numbers when the network is trained. -/
def GArgs.drawing : GArgs K → Bool
  | .drop _ => true
  | .noise _ => true
  | _ => false

theorem layerForward_silent (g : Rng K R) (m : Libm K) (lo : K) (train : Bool) {l : GLay K}
    (h : l.trait.1 ≠ 7 ∧ l.trait.1 ≠ 8) (x : List K) : Silent2 (layerForward g m lo train l x) := by
  intro r r'
  have key : ∀ {α : Type} (f : α → GLay K) (v : Res α),
      keepR f v r' = (keepR f v r).map fun q => (q.1, r') := by
    intro α f v
    cases v <;> rfl
  cases l with
  | drop l => exact absurd rfl h.1
  | noise l => exact absurd rfl h.2
  | _ => exact key _ _

theorem genForward_silent (g : Rng K R) (m : Libm K) (lo : K) (train : Bool) :
    ∀ {ls : List (GLay K)}, (∀ l ∈ ls, l.trait.1 ≠ 7 ∧ l.trait.1 ≠ 8) → ∀ x : List K,
    Silent2 (genForward g m lo train ls x)
  | [], _, x => fun r r' => rfl
  | l :: ls, h, x => by
    intro r r'
    unfold genForward
    rw [layerForward_silent g m lo train (h l List.mem_cons_self) x r r']
    cases layerForward g m lo train l x r with
    | error e => rfl
    | ok q =>
      show (match q.1.outs with | .error e => _ | .ok o => _) = Except.map _ (match q.1.outs with
        | .error e => _ | .ok o => _)
      cases q.1.outs with
      | error e => rfl
      | ok o =>
        dsimp only
        rw [genForward_silent g m lo train (fun l hl => h l (List.mem_cons_of_mem _ hl)) o q.2 r']
        cases genForward g m lo train ls o q.2 <;> rfl

theorem calm_lays {as : List (GArgs K)} {b : NetBody K}
    (ht : b.lays.map GLay.trait = as.map GArgs.trait) (h : ∀ a ∈ as, a.drawing = false) :
    ∀ l ∈ b.lays, l.trait.1 ≠ 7 ∧ l.trait.1 ≠ 8 := by
  intro l hl
  obtain ⟨a, ha, e⟩ := map_mem_eq ht hl
  rw [e]
  have := h a ha
  cases a with
  | drop a => cases this
  | noise a => cases this
  | _ =>
    constructor
    · show _ ≠ _; simp [GArgs.trait]
    · show _ ≠ _; simp [GArgs.trait]

variable {g : Rng K R} {m : Libm K} {lo : K} {as : List (GArgs K)} {p : NetPlan} {tr : Bool}
  {b : NetBody K}

theorem netPropagate_silent (h : ∀ a ∈ as, a.drawing = false) (w : NetOk p as tr b) (e : Bool)
    (x : List K) : Silent2 (netPropagate g m lo e b x) := by
  intro r r'
  unfold netPropagate
  rw [genForward_silent g m lo e (calm_lays w.trait h) x r r']
  cases genForward g m lo e b.lays x r <;> rfl

theorem netMatch_silent (h : ∀ a ∈ as, a.drawing = false) (w : NetOk p as tr b) (e : Bool)
    (x : List K) : Silent3 (netMatch g m lo e b x) := by
  intro r r'
  unfold netMatch
  rw [netPropagate_silent h w e x r r']
  cases netPropagate g m lo e b x r with
  | error e => rfl
  | ok q =>
    dsimp only [Except.map]
    cases genOutput q.1.nOut q.1.lays 0 <;> rfl

theorem netAction_silent (h : ∀ a ∈ as, a.drawing = false) (w : NetOk p as tr b) (nA : Nat)
    (e : Bool) (x : List K) : Silent3 (netAction g m lo nA e b x) := by
  intro r r'
  unfold netAction
  rw [netPropagate_silent h w e x r r']
  cases netPropagate g m lo e b x r with
  | error e => rfl
  | ok q =>
    dsimp only [Except.map]
    cases q.1.lays.getLast? with
    | none => rfl
    | some l =>
      dsimp only
      cases l.outs with
      | error e => rfl
      | ok o =>
        dsimp only
        split
        · rfl
        · cases argmax (o.take nA) <;> rfl

theorem netPredict_silent (h : ∀ a ∈ as, a.drawing = false) (w : NetOk p as tr b) (yD : Nat)
    (e : Bool) (x : List K) : Silent3 (netPredict g m lo yD e b x) := by
  intro r r'
  unfold netPredict
  rw [netPropagate_silent h w e x r r']
  cases netPropagate g m lo e b x r with
  | error e => rfl
  | ok q =>
    dsimp only [Except.map]
    cases netReadGo q.1 yD <;> rfl

variable (Y : NetSystem K R)

/-- No network of the system has a dropout or noise layer. -/
def NetSystem.Calm : Prop :=
  (∀ a ∈ Y.S.condNet, a.drawing = false) ∧ (∀ a ∈ Y.S.actNet, a.drawing = false) ∧
    ∀ a ∈ Y.S.predNet, a.drawing = false

variable {S : NetSetup K} {nA : Nat} {pc pa pp : NetPlan}

theorem condVt_silent {C : Type} (v : CondVt K C R) (e : Bool) (c : C) (x : List K) :
    Silent3 (v.fn.cmatch e c x) := by
  intro r r'
  show (v.cmatch c x >>= _) = Except.map _ (v.cmatch c x >>= _)
  cases v.cmatch c x <;> rfl

theorem cond_silent (h : ∀ a ∈ S.condNet, a.drawing = false) : ∀ (t : RuleKind) (e : Bool)
    (c : t.CBody K) (x : List K), t.WC S pc c → Silent3 ((t.cond g S nA).cmatch e c x)
  | .parts (some c) _, e, b, x, _ => condVt_silent (c.vt g S.toSetup) e b x
  | .parts none _, e, b, x, w => netMatch_silent h w e x
  | .dgp, e, b, x, _ => condVt_silent (dgpCond g S.dgp S.stateful 0) e b x
  | .neural, e, b, x, w => netMatch_silent h w e x

theorem act_silent (h : ∀ a ∈ S.actNet, a.drawing = false) : ∀ (t : RuleKind) (e : Bool)
    (c : t.CBody K) (a : t.ABody K) (x : List K), t.WA S nA pa a →
    Silent3 ((t.act g S nA).compute e c a x)
  | .parts _ false, e, c, a, x, _ => fun r r' => rfl
  | .parts _ true, e, c, a, x, w => netAction_silent h w nA e x
  | .dgp, e, c, a, x, _ => fun r r' => by
    show (match ruleDgpAction nA c with | .error e => _ | .ok a => _) =
      Except.map _ (match ruleDgpAction nA c with | .error e => _ | .ok a => _)
    cases ruleDgpAction nA c <;> rfl
  | .neural, e, c, a, x, _ => fun r r' => by
    show (match ruleNetBits nA c with | .error e => _ | .ok a => _) =
      Except.map _ (match ruleNetBits nA c with | .error e => _ | .ok a => _)
    cases ruleNetBits nA c <;> rfl

theorem pred_silent (h : ∀ a ∈ S.predNet, a.drawing = false) : ∀ (q : Option PredType) (e : Bool)
    (s : predBody K q) (p x : List K), predW S pp q s → Silent3 ((predFn g S q).compute e s p x)
  | some q, e, s, p, x, _ => fun r r' => rfl
  | none, e, s, p, x, w => netPredict_silent h w _ e x

theorem NetSystem.silent (h : Y.Calm) : Y.kit.Silent := by
  refine Rep.Silent.kit (W := Y.Ok) ?_ _ _
  constructor
  · intro e b x w r r'
    show ((Y.rule.cond Y.pf.rng Y.S Y.par.nActions).cmatch e b.cond x.1 r' >>= _) =
      Except.map _ ((Y.rule.cond Y.pf.rng Y.S Y.par.nActions).cmatch e b.cond x.1 r >>= _)
    rw [cond_silent h.1 Y.rule e b.cond x.1 w.cond r r']
    cases (Y.rule.cond Y.pf.rng Y.S Y.par.nActions).cmatch e b.cond x.1 r <;> rfl
  · intro e b x w r r'
    show ((Y.rule.act Y.pf.rng Y.S Y.par.nActions).compute e b.cond b.act x.1 r' >>= _) =
      Except.map _ ((Y.rule.act Y.pf.rng Y.S Y.par.nActions).compute e b.cond b.act x.1 r >>= _)
    rw [act_silent h.2.1 Y.rule e b.cond b.act x.1 w.act r r']
    cases (Y.rule.act Y.pf.rng Y.S Y.par.nActions).compute e b.cond b.act x.1 r <;> rfl
  · intro e b p x w r r'
    show ((predFn Y.pf.rng Y.S Y.pred).compute e b.pred p x.1 r' >>= _) =
      Except.map _ ((predFn Y.pf.rng Y.S Y.pred).compute e b.pred p x.1 r >>= _)
    rw [pred_silent h.2.2 Y.pred e b.pred p x.1 w.pred r r']
    cases (predFn Y.pf.rng Y.S Y.pred).compute e b.pred p x.1 r <;> rfl
  · intro n b p x y w r r'
    show ((predFn Y.pf.rng Y.S Y.pred).update n b.pred p x.1 y >>= _) =
      Except.map _ ((predFn Y.pf.rng Y.S Y.pred).update n b.pred p x.1 y >>= _)
    cases (predFn Y.pf.rng Y.S Y.pred).update n b.pred p x.1 y <;> rfl

end
end Xcsf
