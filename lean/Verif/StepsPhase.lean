import Verif.StepsSim2
import Verif.StepsSpec
import Verif.CoreOps5
import Verif.Frame

/-!
# Invariants of the phases

Helper lemmas: what holds of the system and of its memory in each phase of a trial driven step by
step, and that every call in order keeps it.
-/

set_option linter.unusedSectionVars false

namespace Xcsf
namespace Steps

variable {K X B R : Type} [Zero K] [One K] [Add K] [Sub K] [Mul K] [Div K]
  [LT K] [DecidableLT K] [IntCast K] [DecidableEq K]
variable {par : Params K} {kit : Kit K X B R} {V : Cl K B → Prop} {E : Fault → Prop}
variable {M : Int} {S : St K X B R}

theorem Mirror.post {α β : Type} {rel : α → β → Prop} {m : Res α} {n : Res β} {P : α → Prop}
    {Q : β → Prop} (hm : Mirror rel m n) (hn : Post n Q E)
    (h : ∀ a b, rel a b → Q b → P a) : Post m P E := by
  cases m with
  | ok a =>
    cases n with
    | ok b => exact h a b hm hn
    | error e => exact hm.elim
  | error e =>
    cases n with
    | ok b => exact hm.elim
    | error e' =>
      have : e = e' := hm
      subst this
      exact hn

theorem Idle.clean {c : Py K X B R} (h : Idle c.low) : Clean c :=
  ⟨fun q => Option.isNone_iff_eq_none.1 (by
    rw [← Option.not_isSome, Bool.not_eq_true']
    exact Bool.eq_false_iff.2 fun e => List.not_mem_nil ((h.live.live q).1 e)), h.arr⟩

theorem Clean.idle {c : Py K X B R} (h : Clean c) : Idle c.low :=
  ⟨⟨List.nodup_nil, fun q => by rw [h.nodes q]; simp, by simp⟩, h.arrays⟩

/-- The invariant of a phase. -/
def PInv (V : Cl K B → Prop) (par : Params K) (M : Int) (S : St K X B R) :
    Phase → Py K X B R → Prop
  | .idle, c => Idle c.low ∧ BetweenM V par M S c.low.s
  | .trial, c => Waiting c.low ∧ RlInvM V par M S c.low.s
  | .step, c => Acting c.low ∧ RlInvM V par M S c.low.s ∧ c.low.s.mset = {} ∧ c.low.s.aset = {}
  | .decided, c => Acting c.low ∧ RlInvM V par M S c.low.s ∧ Within c.low.s c.low.s.mset ∧
      c.low.s.aset = {} ∧ c.low.s.pa.length = par.nActions * par.yDim ∧ c.state.isSome
  | .updated, c => Acting c.low ∧ RlInvM V par M S c.low.s ∧ Weak c.low.s c.low.s.aset ∧
      c.low.s.pa.length = par.nActions * par.yDim ∧ c.state.isSome

theorem weak_nil {s : St K X B R} (h : s.aset = {}) : Weak s s.aset := by
  rw [h]
  exact ⟨List.nodup_nil, by simp⟩

theorem initTrial_phase {c : Py K X B R} (h : PInv V par M S .idle c) :
    Post (call par kit c .initTrial) (fun p => PInv V par M S .trial p.2) E :=
  ⟨init_trial h.1, rlInitTrial_inv h.2⟩

theorem initStep_phase {c : Py K X B R} (h : PInv V par M S .trial c) :
    Post (call par kit c .initStep) (fun p => PInv V par M S .step p.2) E :=
  ⟨init_step h.1, rlInitStep_inv h.2, rfl, rfl⟩

theorem endTrial_phase {c : Py K X B R} (h : PInv V par M S .trial c) :
    Post (call par kit c .endTrial) (fun p => PInv V par M S .idle p.2) E := by
  obtain ⟨w, i⟩ := h
  obtain ⟨s', e, b⟩ := rlEndTrial_post i
  unfold call
  refine post_bind ((endTrial_idle w).post (Q := BetweenM V par M S) (by rw [e]; exact b)
    (P := fun L => Idle L ∧ BetweenM V par M S L.s) ?_) fun L hL => hL
  rintro L s1 ⟨rfl, hi⟩ hb
  exact ⟨hi, hb⟩

theorem decision_phase [MayExit E] (Lw : Laws par kit V E) (x : X) (ex : Bool) {c : Py K X B R}
    (h : PInv V par M S .step c) :
    Post (call par kit c (.decision x ex)) (fun p => PInv V par M S .decided p.2) E := by
  obtain ⟨w, i, hm, ha⟩ := h
  generalize hL : ({ c.low with s := { c.low.s with explore := ex } } : Low K X B R) = L
  have hc : call par kit c (.decision x ex) = lowDecision par kit x L >>= fun p =>
      .ok (.act p.1, { c with low := p.2, state := some x, action := p.1 }) := by subst hL; rfl
  rw [hc]
  have w1 : Acting L := by subst hL; exact w.sys rfl
  have i1 : RlInvM V par M S L.s := by
    subst hL
    exact ⟨i.good.congr rfl rfl rfl rfl rfl, i.cap, i.qcap, ⟨i.prev.nodup, i.prev.sub⟩, i.state,
      i.snap⟩
  have hm1 : L.s.mset = {} := by subst hL; exact hm
  have ha1 : L.s.aset = {} := by subst hL; exact ha
  refine post_bind ((decision_acting x w1).post (rlDecision_post Lw x i1.good hm1 i1.cap)
    (P := fun p => Acting p.2 ∧ RlInvM V par M S p.2.s ∧ Within p.2.s p.2.s.mset ∧
      p.2.s.aset = {} ∧ p.2.s.pa.length = par.nActions * par.yDim) ?_) ?_
  · rintro ⟨a, L2⟩ ⟨b, s2⟩ ⟨_, e, w2⟩ ⟨ev, wi, hcap, hpa, _, _⟩
    simp only at e w2
    subst e
    refine ⟨w2, ⟨ev.good, hcap, ?_, ?_, ?_, i1.snap.keep ev.keep⟩, wi, ?_, hpa⟩
    · rw [ev.prevPset]; exact i1.qcap
    · rw [ev.prevAset]; exact ⟨i1.prev.nodup, fun i hi => ev.keep.sub i (i1.prev.sub i hi)⟩
    · rw [ev.prevAset, ev.prevState]; exact i1.state
    · show L2.s.aset = {}
      rw [ev.aset]
      exact ha1
  · rintro ⟨a, L2⟩ ⟨h1, h2, h3, h4, h5⟩
    exact ⟨h1, h2, h3, h4, h5, rfl⟩

theorem update_phase [MayExit E] (Lw : Laws par kit V E) (r : K) (d : Bool) {c : Py K X B R}
    (h : PInv V par M S .decided c) :
    Post (call par kit c (.update r d)) (fun p => PInv V par M S .updated p.2) E := by
  obtain ⟨w, i, wi, ha, hpa, hs⟩ := h
  obtain ⟨x, hx⟩ := Option.isSome_iff_exists.1 hs
  unfold call
  rw [hx]
  refine post_bind ((update_acting x c.action r d w).post
    (rlUpdate_post Lw x c.action r d i wi ha (fun _ => MayExit.exit))
    (P := fun L => Acting L ∧ RlInvM V par M S L.s ∧ Weak L.s L.s.aset ∧
      L.s.pa.length = par.nActions * par.yDim) ?_) ?_
  · rintro L s2 ⟨rfl, w2⟩ ⟨q1, q2, q3, _⟩
    exact ⟨w2, q1, q2, by rw [q3]; exact hpa⟩
  · rintro L ⟨h1, h2, h3, h4⟩
    exact ⟨h1, h2, h3, h4, rfl⟩

theorem error_core [MayExit E] (Lw : Laws par kit V E) (r : K) (d : Bool) (mp : K)
    {c : Py K X B R} (w : Acting c.low) (i : RlInvM V par M S c.low.s)
    (wa : Weak c.low.s c.low.s.aset) (hpa : c.low.s.pa.length = par.nActions * par.yDim) :
    Post (call par kit c (.error r d mp)) (fun p => (Acting p.2.low ∧
      RlInvM V par M S p.2.low.s ∧ Weak p.2.low.s p.2.low.s.aset ∧
      p.2.low.s.pa.length = par.nActions * par.yDim) ∧ p.2.state = c.state ∧
      (p.2.low.s.aset = c.low.s.aset ∧ (Within c.low.s c.low.s.mset →
        Within p.2.low.s p.2.low.s.mset))) E := by
  unfold call
  refine post_bind ((error_acting c.action r d mp w).post (Q := fun p =>
      (RlInvM V par M S p.2 ∧ Weak p.2 p.2.aset ∧ p.2.pa = c.low.s.pa) ∧
      p.2.aset = c.low.s.aset ∧ (Within c.low.s c.low.s.mset → Within p.2 p.2.mset)) ?_
    (P := fun p => (Acting p.2 ∧ RlInvM V par M S p.2.s ∧ Weak p.2.s p.2.s.aset ∧
      p.2.s.pa.length = par.nActions * par.yDim) ∧ (p.2.s.aset = c.low.s.aset ∧
        (Within c.low.s c.low.s.mset → Within p.2.s p.2.s.mset))) ?_) ?_
  · have h1 := rlError_post Lw c.action r d mp i wa hpa
    unfold rlError at h1 ⊢
    cases hv : paVal par c.low.s.pa c.action with
    | error e =>
      rw [hv] at h1
      exact h1
    | ok v =>
      rw [hv] at h1
      exact ⟨h1, rfl, fun q => ⟨q.nodup, q.sub, q.size, q.num⟩⟩
  · rintro ⟨e, L⟩ ⟨e', s2⟩ ⟨_, es, w2⟩ ⟨⟨q1, q2, q3⟩, q4, q5⟩
    simp only at es w2 q3
    subst es
    refine ⟨⟨w2, q1, q2, ?_⟩, q4, q5⟩
    show L.s.pa.length = _
    rw [q3]
    exact hpa
  · rintro ⟨e, L⟩ ⟨h1, h2⟩
    exact ⟨h1, rfl, h2⟩

theorem error_decided [MayExit E] (Lw : Laws par kit V E) (r : K) (d : Bool) (mp : K)
    {c : Py K X B R} (h : PInv V par M S .decided c) :
    Post (call par kit c (.error r d mp)) (fun p => PInv V par M S .decided p.2) E := by
  obtain ⟨w, i, wi, ha, hpa, hs⟩ := h
  refine post_mono (error_core Lw r d mp w i (weak_nil ha) hpa) ?_
  rintro p ⟨⟨h1, h2, h3, h4⟩, h5, h6, h7⟩
  exact ⟨h1, h2, h7 wi, h6.trans ha, h4, by rw [h5]; exact hs⟩

theorem error_updated [MayExit E] (Lw : Laws par kit V E) (r : K) (d : Bool) (mp : K)
    {c : Py K X B R} (h : PInv V par M S .updated c) :
    Post (call par kit c (.error r d mp)) (fun p => PInv V par M S .updated p.2) E := by
  obtain ⟨w, i, wa, hpa, hs⟩ := h
  refine post_mono (error_core Lw r d mp w i wa hpa) ?_
  rintro p ⟨⟨h1, h2, h3, h4⟩, h5, h6, h7⟩
  exact ⟨h1, h2, h3, h4, by rw [h5]; exact hs⟩

theorem endStep_phase [MayExit E] (Lw : Laws par kit V E) {c : Py K X B R}
    (h : PInv V par M S .updated c) :
    Post (call par kit c .endStep) (fun p => PInv V par M S .trial p.2) E := by
  obtain ⟨w, i, wa, hpa, hs⟩ := h
  obtain ⟨x, hx⟩ := Option.isSome_iff_exists.1 hs
  unfold call
  rw [hx]
  refine post_bind ((endStep_waiting x c.action c.payoff w).post
    (rlEndStep_post Lw x c.action c.payoff i wa hpa (fun _ => MayExit.exit))
    (P := fun L => Waiting L ∧ RlInvM V par M S L.s) ?_) fun L hL => hL
  rintro L s2 ⟨rfl, w2⟩ q
  exact ⟨w2, q⟩

theorem decided_updated {c : Py K X B R} (h : PInv V par M S .decided c) :
    PInv V par M S .updated c := by
  obtain ⟨w, i, wi, ha, hpa, hs⟩ := h
  exact ⟨w, i, weak_nil ha, hpa, hs⟩

theorem fit_phase [MayExit E] (Lw : Laws par kit V E) (x : X) (a : Int) (r : K) {c : Py K X B R}
    (h : PInv V par M S .idle c) :
    Post (call par kit c (.fit x a r)) (fun p => PInv V par M S .idle p.2) E := by
  obtain ⟨w, b⟩ := h
  unfold call
  refine post_bind ((fit_idle x a r w).post (rlFit_post Lw x a r b)
    (P := fun p => Idle p.2 ∧ BetweenM V par M S p.2.s) ?_) ?_
  · rintro ⟨e, L⟩ ⟨e', s2⟩ ⟨_, es, w2⟩ q
    simp only at es w2
    subst es
    exact ⟨w2, q⟩
  · rintro ⟨e, L⟩ hL
    exact hL

theorem supervised_phase [MayExit E] (Lw : Laws par kit V E) (x : X) (y cv : Option (List K))
    (ex : Bool) (hy : ex = true → y ≠ none) {c : Py K X B R} (h : PInv V par M S .idle c) :
    Post (call par kit c (.supervised x y cv ex)) (fun p => PInv V par M S .idle p.2) E := by
  obtain ⟨w, b⟩ := h
  unfold call
  refine post_bind ((supTrial_idle x y cv (L := { c.low with s := { c.low.s with explore := ex } })
    ⟨w.live, w.arr⟩).post (supTrial_post Lw x y cv
      ⟨b.good.congr rfl rfl rfl rfl rfl, b.kset, b.cap, b.qcap, b.snap⟩ hy)
    (P := fun L => Idle L ∧ BetweenM V par M S L.s) ?_) fun L hL => hL
  rintro L s2 ⟨rfl, w2⟩ q
  exact ⟨w2, q⟩

theorem call_phase [MayExit E] (Lw : Laws par kit V E) {ph ph' : Phase} {k : Call K X}
    {c : Py K X B R} (hn : ph.next k = some ph') (h : PInv V par M S ph c) :
    Post (call par kit c k) (fun p => PInv V par M S ph' p.2) E := by
  cases ph <;> cases k <;> try cases hn
  · exact initTrial_phase h
  · exact fit_phase Lw _ _ _ h
  · rename_i x y cv ex
    simp only [Phase.next] at hn
    split at hn
    · cases hn
    · rename_i hne
      cases hn
      refine supervised_phase Lw x y cv ex ?_ h
      rintro rfl rfl
      exact hne rfl
  · exact endTrial_phase h
  · exact initStep_phase h
  · exact decision_phase Lw _ _ h
  · exact endStep_phase Lw (decided_updated h)
  · exact update_phase Lw _ _ h
  · exact error_decided Lw _ _ _ h
  · exact endStep_phase Lw h
  · exact error_updated Lw _ _ _ h

theorem calls_phase [MayExit E] (Lw : Laws par kit V E) : ∀ (ks : List (Call K X)) {ph ph' : Phase}
    {c : Py K X B R}, follows ph ks = some ph' → PInv V par M S ph c →
    Post (calls par kit ks c) (fun p => PInv V par M S ph' p.2) E
  | [], ph, ph', c, hf, h => by
    cases hf
    exact h
  | k :: ks, ph, ph', c, hf, h => by
    simp only [follows] at hf
    obtain ⟨p1, h1, h2⟩ := Option.bind_eq_some_iff.1 hf
    unfold calls
    refine post_bind (call_phase Lw h1 h) ?_
    rintro ⟨o, c1⟩ hc
    refine post_bind (calls_phase Lw ks h2 hc) ?_
    rintro ⟨os, c2⟩ hc2
    exact hc2

/-! ## Sets as values -/

/-- The memory in a phase. -/
def PMem : Phase → Low K X B R → Prop
  | .idle, L => Idle L
  | .trial, L => Waiting L
  | _, L => Acting L

theorem Mirror.map {α β α' β' : Type} {rel : α → β → Prop} {rel' : α' → β' → Prop} {m : Res α}
    {n : Res β} {f : α → Res α'} {g : β → β'} (hm : Mirror rel m n)
    (hf : ∀ a b, rel a b → ∃ a', f a = .ok a' ∧ rel' a' (g b)) :
    Mirror rel' (m >>= f) (n.map g) := by
  cases m <;> cases n
  · exact hm
  · exact hm.elim
  · exact hm.elim
  · obtain ⟨a', e, h⟩ := hf _ _ hm
    show Mirror _ (f _) _
    rw [e]
    exact h

theorem call_plain {ph ph' : Phase} {k : Call K X} {c : Py K X B R} (hn : ph.next k = some ph')
    (h : PMem ph c.low) :
    Mirror (fun p q => p.1 = q.1 ∧ p.2.plain = q.2 ∧ PMem ph' p.2.low) (call par kit c k)
      (plain par kit c.plain k) := by
  have step : ∀ (h : Acting c.low), Mirror (fun (p : Out K × Py K X B R) q =>
      p.1 = q.1 ∧ p.2.plain = q.2 ∧ Waiting p.2.low) (call par kit c .endStep)
      (plain par kit c.plain .endStep) := by
    intro h
    unfold call plain Py.plain
    cases hx : c.state with
    | none => rfl
    | some x =>
      refine Mirror.map (endStep_waiting x c.action c.payoff h) ?_
      rintro L _ ⟨rfl, w⟩
      exact ⟨_, rfl, rfl, rfl, w⟩
  have err : ∀ (r : K) (d : Bool) (mp : K) (h : Acting c.low), Mirror
      (fun (p : Out K × Py K X B R) q =>
      p.1 = q.1 ∧ p.2.plain = q.2 ∧ Acting p.2.low) (call par kit c (.error r d mp))
      (plain par kit c.plain (.error r d mp)) := by
    intro r d mp h
    refine Mirror.map (error_acting c.action r d mp h) ?_
    rintro ⟨e, L⟩ ⟨e', s⟩ ⟨h1, h2, w⟩
    simp only at h1 h2 w
    subst h1 h2
    exact ⟨_, rfl, rfl, rfl, w⟩
  cases ph <;> cases k <;> try cases hn
  · exact ⟨rfl, rfl, init_trial h⟩
  · refine Mirror.map (fit_idle _ _ _ h) ?_
    rintro ⟨e, L⟩ ⟨e', s⟩ ⟨h1, h2, w⟩
    simp only at h1 h2 w
    subst h1 h2
    exact ⟨_, rfl, rfl, rfl, w⟩
  · rename_i x y cv ex
    simp only [Phase.next] at hn
    split at hn
    · cases hn
    · cases hn
      refine Mirror.map (supTrial_idle x y cv (L := { c.low with s := { c.low.s with explore := ex } })
        ⟨h.live, h.arr⟩) ?_
      rintro L _ ⟨rfl, w⟩
      exact ⟨_, rfl, rfl, rfl, w⟩
  · refine Mirror.map (endTrial_idle h) ?_
    rintro L _ ⟨rfl, w⟩
    exact ⟨_, rfl, rfl, rfl, w⟩
  · exact ⟨rfl, rfl, init_step h⟩
  · rename_i x ex
    refine Mirror.map (decision_acting x (L := { c.low with s := { c.low.s with explore := ex } })
      (Acting.sys h rfl)) ?_
    rintro ⟨e, L⟩ ⟨e', s⟩ ⟨h1, h2, w⟩
    simp only at h1 h2 w
    subst h1 h2
    exact ⟨_, rfl, rfl, rfl, w⟩
  · exact step h
  · rename_i r d
    unfold call plain Py.plain
    cases hx : c.state with
    | none => rfl
    | some x =>
      refine Mirror.map (update_acting x c.action r d h) ?_
      rintro L _ ⟨rfl, w⟩
      exact ⟨_, rfl, rfl, rfl, w⟩
  · exact err _ _ _ h
  · exact step h
  · exact err _ _ _ h

theorem calls_plain : ∀ (ks : List (Call K X)) {ph ph' : Phase} {c : Py K X B R},
    follows ph ks = some ph' → PMem ph c.low →
    Mirror (fun p q => p.1 = q.1 ∧ p.2.plain = q.2 ∧ PMem ph' p.2.low) (calls par kit ks c)
      (plains par kit ks c.plain)
  | [], ph, ph', c, hf, h => by
    cases hf
    exact ⟨rfl, rfl, h⟩
  | k :: ks, ph, ph', c, hf, h => by
    simp only [follows] at hf
    obtain ⟨p1, h1, h2⟩ := Option.bind_eq_some_iff.1 hf
    unfold calls plains
    refine Mirror.bind (call_plain h1 h) ?_
    rintro ⟨o, c1⟩ ⟨o', v1⟩ ⟨e1, e2, m1⟩
    simp only at e1 e2 m1
    subst e1 e2
    refine Mirror.bind (calls_plain ks h2 m1) ?_
    rintro ⟨os, c2⟩ ⟨os', v2⟩ ⟨e3, e4, m2⟩
    simp only at e3 e4 m2
    subst e3 e4
    exact ⟨rfl, rfl, m2⟩

/-! ## The documented program -/

theorem killGo_explore (ex : Bool) : ∀ (l : List Nat) (s : St K X B R),
    killGo { s with explore := ex } l = (killGo s l).map fun s => { s with explore := ex }
  | [], s => rfl
  | i :: l, s => by
    cases hi : s.heap i with
    | none =>
      have e1 : s.freeCl i = .error .uaf := by unfold St.freeCl; rw [hi]
      have e2 : ({ s with explore := ex } : St K X B R).freeCl i = .error .uaf := by
        unfold St.freeCl
        simp only [hi]
      unfold killGo
      rw [e1, e2]
      rfl
    | some c =>
      have e1 : s.freeCl i = .ok { s with heap := fun j => if j = i then none else s.heap j } := by
        unfold St.freeCl; rw [hi]
      have e2 : ({ s with explore := ex } : St K X B R).freeCl i =
          .ok { s with explore := ex, heap := fun j => if j = i then none else s.heap j } := by
        unfold St.freeCl
        simp only [hi]
      unfold killGo
      rw [e1, e2]
      exact killGo_explore ex l { s with heap := fun j => if j = i then none else s.heap j }

theorem rlEndTrial_explore (s : St K X B R) (ex : Bool) :
    rlEndTrial { s with explore := ex } = (rlEndTrial s).map fun s => { s with explore := ex } := by
  unfold rlEndTrial killKset
  show (killGo { ({ s with prevAset := {}, prevState := none } : St K X B R) with explore := ex }
    s.kset.list >>= _) = (Except.map _ (killGo { s with prevAset := {}, prevState := none }
      s.kset.list >>= _))
  rw [killGo_explore]
  cases killGo { s with prevAset := {}, prevState := none } s.kset.list with
  | error e => rfl
  | ok s1 => rfl

/-- The system of the step-by-step trial, whose `explore` is set by each decision only. -/
def Agrees (ex : Bool) (c : Py K X B R) (s : St K X B R) : Prop :=
  Waiting c.low ∧ s = { c.low.s with explore := ex }

theorem clock_explore {s s' : St K X B R} (h : clock s' = clock s) : s'.explore = s.explore := by
  simp only [clock, Prod.mk.injEq] at h
  exact h.2.2

theorem drive_go (env : Nat → EnvStep K X) (ex : Bool) : ∀ (k n : Nat) (e : K) {c : Py K X B R}
    {s : St K X B R}, Agrees ex c s →
    Mirror (fun p q => p.1 = q.1 ∧ p.2.1 = q.2.1 ∧ Agrees ex p.2.2 q.2.2)
      (driveGo par kit env ex k n e c) (rlTrialGo par kit env k n e s)
  | 0, n, e, c, s, h => ⟨rfl, rfl, h⟩
  | k + 1, n, e, c, s, h => by
    obtain ⟨w, rfl⟩ := h
    unfold driveGo rlTrialGo
    have a0 : Acting ({ lowInitStep c.low with
        s := { (lowInitStep c.low).s with explore := ex } } : Low K X B R) :=
      (init_step w).sys rfl
    show Mirror _ ((lowDecision par kit (env n).state _ >>= _) >>= _)
      (rlDecision par kit (env n).state (rlInitStep { c.low.s with explore := ex }) >>= _)
    rw [bind_assoc]
    refine Mirror.bind (rel := fun p q => (p.1 = q.1 ∧ p.2.s = q.2 ∧ Acting p.2) ∧
      q.2.explore = ex) ((decision_acting (env n).state a0).mono ?_) ?_
    · rintro p q _ hq hpq
      refine ⟨hpq, ?_⟩
      have := (post_of_ok (ck_rlDecision (env n).state _) hq).1
      exact clock_explore this
    rintro ⟨a, L1⟩ ⟨a', s1⟩ ⟨⟨e1, e2, a1⟩, x1⟩
    simp only at e1 e2 a1 x1
    subst e1 e2
    show Mirror _ ((lowUpdate par kit (env n).state a ((env n).respond a).1 ((env n).respond a).2 L1
      >>= _) >>= _) (rlUpdate par kit (env n).state a ((env n).respond a).1
        ((env n).respond a).2 L1.s >>= _)
    rw [bind_assoc]
    refine Mirror.bind (rel := fun L s => (L.s = s ∧ Acting L) ∧ s.explore = ex)
      ((update_acting (env n).state a _ _ a1).mono ?_) ?_
    · rintro p q _ hq hpq
      refine ⟨hpq, ?_⟩
      have := post_of_ok (ck_rlUpdate (env n).state a _ _ L1.s) hq
      simp only [clock, Prod.mk.injEq] at this
      exact this.2.2.trans x1
    rintro L2 s2 ⟨⟨e2, a2⟩, x2⟩
    subst e2
    show Mirror _ ((lowError par kit a ((env n).respond a).1 ((env n).respond a).2
      (env n).maxPayoff L2 >>= _) >>= _) (rlError par kit a ((env n).respond a).1
        ((env n).respond a).2 (env n).maxPayoff L2.s >>= _)
    rw [bind_assoc]
    refine Mirror.bind (rel := fun p q => (p.1 = q.1 ∧ p.2.s = q.2 ∧ Acting p.2) ∧
      q.2.explore = ex) ((error_acting a _ _ _ a2).mono ?_) ?_
    · rintro p q _ hq hpq
      refine ⟨hpq, ?_⟩
      have := post_of_ok (ck_rlError a _ _ _ L2.s) hq
      simp only [clock, Prod.mk.injEq] at this
      exact this.2.2.trans x2
    rintro ⟨de, L3⟩ ⟨de', s3⟩ ⟨⟨e3, e4, a3⟩, x3⟩
    simp only at e3 e4 a3 x3
    subst e3 e4
    show Mirror _ ((lowEndStep par (env n).state a ((env n).respond a).1 L3 >>= _) >>= _)
      (rlEndStep par (env n).state a ((env n).respond a).1 L3.s >>= _)
    rw [bind_assoc]
    refine Mirror.bind (rel := fun L s => (L.s = s ∧ Waiting L) ∧ s.explore = ex)
      ((endStep_waiting (env n).state a _ a3).mono ?_) ?_
    · rintro p q _ hq hpq
      refine ⟨hpq, ?_⟩
      have : Post (rlEndStep par (env n).state a ((env n).respond a).1 L3.s)
          (fun s' => s'.explore = L3.s.explore) AnyFault := by
        unfold rlEndStep
        exact post_bind (post_any _) fun v _ => rfl
      exact (post_of_ok this hq).trans x3
    rintro L4 s4 ⟨⟨e4, w4⟩, x4⟩
    subst e4
    have ag : Agrees ex ⟨L4, some (env n).state, a, ((env n).respond a).1⟩ L4.s := by
      refine ⟨w4, ?_⟩
      rw [← x4]
    show Mirror _ (if ((env n).respond a).2 = true then _ else _)
      (if ((env n).respond a).2 = true then _ else _)
    split
    · exact ⟨rfl, rfl, ag⟩
    · exact drive_go env ex k (n + 1) _ ag

theorem endTrial_agrees (ex : Bool) {L : Low K X B R} (w : Waiting L) :
    Mirror (fun L' s' => Idle L' ∧ s' = { L'.s with explore := ex }) (lowEndTrial L)
      (rlEndTrial { L.s with explore := ex }) := by
  rw [rlEndTrial_explore]
  have T := endTrial_idle w
  revert T
  cases lowEndTrial L with
  | error f =>
    cases rlEndTrial L.s with
    | error f' => exact id
    | ok s2 => exact id
  | ok L2 =>
    cases rlEndTrial L.s with
    | error f' => exact id
    | ok s2 =>
      rintro ⟨rfl, h⟩
      exact ⟨h, rfl⟩

theorem drive_all (env : Nat → EnvStep K X) (ex : Bool) {c : Py K X B R} (h : Idle c.low) :
    Mirror (fun p q => p.1 = q.1 ∧ p.2.1 = q.2.1 ∧ Idle p.2.2.low ∧
        q.2.2 = { p.2.2.low.s with explore := ex })
      (drive par kit env ex c) (rlTrial par kit env ex c.low.s) := by
  unfold drive rlTrial
  have ag : Agrees ex ({ c with low := lowInitTrial c.low } : Py K X B R)
      (rlInitTrial { c.low.s with explore := ex }) := ⟨init_trial h, rfl⟩
  show Mirror _ (driveGo par kit env ex par.teletransportation 0 0
    ({ c with low := lowInitTrial c.low } : Py K X B R) >>= _) _
  refine Mirror.bind (drive_go (par := par) (kit := kit) env ex par.teletransportation 0 0 ag) ?_
  rintro ⟨n, e, c1⟩ ⟨n', e', s1⟩ ⟨e1, e2, w, e3⟩
  simp only at e1 e2 w e3
  subst e1 e2 e3
  show Mirror _ ((lowEndTrial c1.low >>= _) >>= _) _
  rw [bind_assoc]
  refine Mirror.bind (endTrial_agrees ex w) ?_
  rintro L2 s2 ⟨i2, e4⟩
  exact ⟨rfl, rfl, i2, e4⟩

end Steps
end Xcsf
