import Verif.StepsSim

/-!
# Phases of a trial

Helper lemmas: what the memory looks like between trials, between the steps of a trial and inside a
step, and that each function leads from one to the other, mirroring its counterpart of `Trial.lean`.
-/

set_option linter.unusedSectionVars false

namespace Xcsf
namespace Steps

variable {K X B R : Type} [Zero K] [One K] [Add K] [Sub K] [Mul K] [Div K]
  [LT K] [DecidableLT K] [IntCast K] [DecidableEq K]
variable {par : Params K} {kit : Kit K X B R}

/-- One array is live, `prev_state` points to it, and it holds the remembered state. -/
def Arr (L : Low K X B R) : Prop :=
  ∃ q, L.prev = some q ∧ L.arr q = some L.s.prevState ∧ ∀ k, k ≠ q → L.arr k = none

/-- Between trials nothing is allocated. -/
structure Idle (L : Low K X B R) : Prop where
  live : Live L.h []
  arr : ∀ q, L.arr q = none

/-- Between the steps of a trial: the nodes are those of the previous action set. -/
structure Waiting (L : Low K X B R) : Prop where
  mem : ∃ qp, Rep L.h L.p L.s.prevAset qp ∧ Live L.h qp
  arr : Arr L

/-- Inside a step: the nodes are those of the three sets. -/
structure Acting (L : Low K X B R) : Prop where
  mem : ∃ qm qa qp, Rep L.h L.m L.s.mset qm ∧ Rep L.h L.a L.s.aset qa ∧
    Rep L.h L.p L.s.prevAset qp ∧ Live L.h (qm ++ (qa ++ qp))
  arr : Arr L

theorem rep_nil (h : Nodes) : Rep h {} {} [] := ⟨rfl, rfl, rfl⟩

theorem init_trial {L : Low K X B R} (h : Idle L) : Waiting (lowInitTrial L) := by
  refine ⟨⟨[], rep_nil _, h.live⟩, L.atop, rfl, ?_, fun k hk => ?_⟩
  · show (if L.atop = L.atop then _ else _) = _
    rw [if_pos rfl]
    rfl
  · show (if k = L.atop then _ else _) = _
    rw [if_neg hk]
    exact h.arr k

theorem init_step {L : Low K X B R} (h : Waiting L) : Acting (lowInitStep L) := by
  obtain ⟨⟨qp, r, l⟩, a⟩ := h
  exact ⟨⟨[], [], qp, rep_nil _, rep_nil _, r, l⟩, a⟩

theorem Arr.of {L L' : Low K X B R} (a : Arr L) (e1 : L'.prev = L.prev) (e2 : L'.arr = L.arr)
    (e3 : L'.s.prevState = L.s.prevState) : Arr L' := by
  obtain ⟨q, h1, h2, h3⟩ := a
  exact ⟨q, e1.trans h1, by rw [e2, h2, e3], by rw [e2]; exact h3⟩

/-- The system changes in other fields only. -/
theorem Acting.sys {L : Low K X B R} (h : Acting L) {s' : St K X B R} (e : sets s' = sets L.s) :
    Acting { L with s := s' } := by
  simp only [sets, Prod.mk.injEq] at e
  obtain ⟨e1, e2, e3, e4⟩ := e
  obtain ⟨⟨qm, qa, qp, r1, r2, r3, l⟩, a⟩ := h
  refine ⟨⟨qm, qa, qp, ?_, ?_, ?_, l⟩, a.of rfl rfl e4⟩
  · show Rep L.h L.m s'.mset qm; rw [e1]; exact r1
  · show Rep L.h L.a s'.aset qa; rw [e2]; exact r2
  · show Rep L.h L.p s'.prevAset qp; rw [e3]; exact r3

theorem decision_acting (x : X) {L : Low K X B R} (h : Acting L) :
    Mirror (fun p q => p.1 = q.1 ∧ p.2.s = q.2 ∧ Acting p.2) (lowDecision par kit x L)
      (rlDecision par kit x L.s) := by
  obtain ⟨⟨qm, qa, qp, r1, r2, r3, l⟩, a⟩ := h
  refine (decide_all x (rest := qa ++ qp) ⟨qm, r1, l⟩).mono ?_
  rintro ⟨i, L'⟩ ⟨j, s'⟩ _ _ ⟨e1, e2, o⟩
  refine ⟨e1, e2, ?_⟩
  obtain ⟨qm', r1', l'⟩ := o.ok
  refine ⟨⟨qm', qa, qp, r1', ?_, ?_, l'⟩, a.of o.prev o.arr o.prevState⟩
  · show Rep L'.h L'.a L'.s.aset qa
    rw [o.a, o.aset]
    exact r2.congr fun q hq => o.off q (List.mem_append_left _ hq)
  · show Rep L'.h L'.p L'.s.prevAset qp
    rw [o.p, o.prevAset]
    exact r3.congr fun q hq => o.off q (List.mem_append_right _ hq)

theorem action_acting (a : Int) {L : Low K X B R} (h : Acting L) :
    Mirror (fun L' s' => L'.s = s' ∧ Acting L') (lowAction par a L) (clsetAction par a L.s) := by
  obtain ⟨⟨qm, qa, qp, r1, r2, r3, l⟩, ar⟩ := h
  unfold lowAction clsetAction
  rw [peek_rep r1 l]
  have l1 : Live L.h (qa ++ (qm ++ qp)) := l.perm (by
    rw [← List.append_assoc, ← List.append_assoc]
    exact List.Perm.append_right _ List.perm_append_comm)
  show Mirror _ (lowActionGo L.s a L.s.mset.list L.h L.a >>= _) _
  refine Mirror.bind (action_go L.s a _ r2 l1) ?_
  rintro ⟨h', t'⟩ v ⟨qa', r2', l', o⟩
  simp only at r2' l' o
  show Mirror _ (peek h' t' >>= _) _
  rw [peek_rep r2' l', r2'.size]
  refine ⟨rfl, ⟨⟨qm, qa', qp, ?_, r2', ?_, ?_⟩, ar.of rfl rfl rfl⟩⟩
  · exact r1.congr fun q hq => o q (List.mem_append_left _ hq)
  · exact r3.congr fun q hq => o q (List.mem_append_right _ hq)
  · exact l'.perm (by
      rw [← List.append_assoc, ← List.append_assoc]
      exact List.Perm.append_right _ List.perm_append_comm)

theorem readPrev_of {L : Low K X B R} (a : Arr L) :
    L.readPrev = match L.s.prevState with | none => .error .ub | some x => .ok x := by
  obtain ⟨q, h1, h2, _⟩ := a
  unfold Low.readPrev
  rw [h1]
  simp only [h2]
  cases L.s.prevState <;> rfl

theorem perm3 (a b c : List Nat) : (a ++ (b ++ c)).Perm (c ++ (a ++ b)) := by
  rw [← List.append_assoc]
  exact List.perm_append_comm

theorem updatePrev_acting {L : Low K X B R} (h : Acting L) :
    Mirror (fun L' s' => L'.s = s' ∧ Acting L') (lowUpdatePrev par kit L)
      (rlUpdatePrev par kit L.s) := by
  have h0 := h
  obtain ⟨⟨qm, qa, qp, r1, r2, r3, l⟩, ar⟩ := h
  unfold lowUpdatePrev rlUpdatePrev
  have hn := r3.seg.head_none
  by_cases hz : L.p.head = none
  · rw [if_pos hz, if_pos (hn.1 hz)]
    exact ⟨rfl, h0⟩
  · rw [if_neg hz, if_neg (fun e => hz (hn.2 e))]
    refine Mirror.same fun bv _ => ?_
    refine Mirror.bind (validate_t L.s r3 (l.perm (perm3 _ _ _))) ?_
    rintro ⟨h1, t1⟩ v1 ⟨q1, rp1, lp1, o1⟩
    simp only at rp1 lp1 o1
    show Mirror _ (L.readPrev >>= _) _
    rw [readPrev_of ar]
    cases hps : L.s.prevState with
    | none => rfl
    | some px =>
      show Mirror _ (lowUpdateSet par kit h1 t1 px _ false L.s >>= _)
        (clsetUpdate par kit v1 px _ false L.s >>= _)
      refine Mirror.bind (update_set L.s px _ false rp1 lp1) ?_
      rintro ⟨h2, t2, s2⟩ ⟨v2, s2'⟩ ⟨e, es, q2, rp2, lp2, o2⟩
      simp only at e es rp2 lp2 o2
      subst e
      show Mirror _ (peek h2 t2 >>= _) _
      rw [peek_rep rp2 lp2]
      have o : Off L.h h2 (qm ++ qa) := o1.trans o2
      simp only [sets, Prod.mk.injEq] at es
      obtain ⟨es1, es2, es3, es4⟩ := es
      have A : Acting { L with h := h2, p := t2, s := { s2 with prevAset := v2 } } := by
        refine ⟨⟨qm, qa, q2, ?_, ?_, rp2, lp2.perm (perm3 _ _ _).symm⟩, ar.of rfl rfl es4⟩
        · show Rep h2 L.m s2.mset qm
          rw [es1]
          exact r1.congr fun q hq => o q (List.mem_append_left _ hq)
        · show Rep h2 L.a s2.aset qa
          rw [es2]
          exact r2.congr fun q hq => o q (List.mem_append_right _ hq)
      show Mirror _ (if s2.explore = true then _ else _) (if s2.explore = true then _ else _)
      split
      · show Mirror _ (ea par kit v2 { s2 with prevAset := v2 } >>= _)
          (ea par kit v2 { s2 with prevAset := v2 })
        cases he : ea par kit v2 { s2 with prevAset := v2 } with
        | error e => rfl
        | ok s3 => exact ⟨rfl, A.sys (keep_of (ks_ea v2 _) he)⟩
      · exact ⟨rfl, A⟩

theorem updateCur_acting (x : X) (reward : K) (done : Bool) {L : Low K X B R} (h : Acting L) :
    Mirror (fun L' s' => L'.s = s' ∧ Acting L') (lowUpdateCur par kit x reward done L)
      (rlUpdateCur par kit x reward done L.s) := by
  have h0 := h
  obtain ⟨⟨qm, qa, qp, r1, r2, r3, l⟩, ar⟩ := h
  unfold lowUpdateCur rlUpdateCur
  cases done with
  | false => exact ⟨rfl, h0⟩
  | true =>
    simp only [if_true]
    have l1 : Live L.h (qa ++ (qp ++ qm)) := l.perm (perm3 qa qp qm).symm
    refine Mirror.bind (validate_t L.s r2 l1) ?_
    rintro ⟨h1, t1⟩ v1 ⟨q1, rp1, lp1, o1⟩
    simp only at rp1 lp1 o1
    show Mirror _ (lowUpdateSet par kit h1 t1 x _ true L.s >>= _)
      (clsetUpdate par kit v1 x _ true L.s >>= _)
    refine Mirror.bind (update_set L.s x _ true rp1 lp1) ?_
    rintro ⟨h2, t2, s2⟩ ⟨v2, s2'⟩ ⟨e, es, q2, rp2, lp2, o2⟩
    simp only at e es rp2 lp2 o2
    subst e
    show Mirror _ (peek h2 t2 >>= _) _
    rw [peek_rep rp2 lp2]
    have o : Off L.h h2 (qp ++ qm) := o1.trans o2
    simp only [sets, Prod.mk.injEq] at es
    obtain ⟨es1, es2, es3, es4⟩ := es
    have A : Acting { L with h := h2, a := t2, s := { s2 with aset := v2 } } := by
      refine ⟨⟨qm, q2, qp, ?_, rp2, ?_, lp2.perm (perm3 _ _ _)⟩, ar.of rfl rfl es4⟩
      · show Rep h2 L.m s2.mset qm
        rw [es1]
        exact r1.congr fun q hq => o q (List.mem_append_right _ hq)
      · show Rep h2 L.p s2.prevAset qp
        rw [es3]
        exact r3.congr fun q hq => o q (List.mem_append_left _ hq)
    show Mirror _ (if s2.explore = true then _ else _) (if s2.explore = true then _ else _)
    split
    · show Mirror _ (ea par kit v2 { s2 with aset := v2 } >>= _)
        (ea par kit v2 { s2 with aset := v2 })
      cases he : ea par kit v2 { s2 with aset := v2 } with
      | error e => rfl
      | ok s3 => exact ⟨rfl, A.sys (keep_of (ks_ea v2 _) he)⟩
    · exact ⟨rfl, A⟩

theorem update_acting (x : X) (a : Int) (reward : K) (done : Bool) {L : Low K X B R}
    (h : Acting L) :
    Mirror (fun L' s' => L'.s = s' ∧ Acting L') (lowUpdate par kit x a reward done L)
      (rlUpdate par kit x a reward done L.s) := by
  unfold lowUpdate rlUpdate
  refine Mirror.bind (action_acting a h) ?_
  rintro L1 _ ⟨rfl, h1⟩
  refine Mirror.bind (updatePrev_acting h1) ?_
  rintro L2 _ ⟨rfl, h2⟩
  exact updateCur_acting x reward done h2

theorem error_acting (a : Int) (reward : K) (done : Bool) (mp : K) {L : Low K X B R}
    (h : Acting L) :
    Mirror (fun p q => p.1 = q.1 ∧ p.2.s = q.2 ∧ Acting p.2)
      (lowError par kit a reward done mp L) (rlError par kit a reward done mp L.s) := by
  unfold lowError rlError
  refine Mirror.same fun v _ => ?_
  have hn : L.p.head = none ↔ L.s.prevAset.list = [] := by
    obtain ⟨⟨_, _, _, _, _, r3, _⟩, _⟩ := h
    exact r3.seg.head_none
  simp only [hn]
  exact ⟨rfl, rfl, h.sys rfl⟩

theorem endStep_waiting (x : X) (a : Int) (reward : K) {L : Low K X B R} (h : Acting L) :
    Mirror (fun L' s' => L'.s = s' ∧ Waiting L') (lowEndStep par x a reward L)
      (rlEndStep par x a reward L.s) := by
  obtain ⟨⟨qm, qa, qp, r1, r2, r3, l⟩, ⟨q, a1, a2, a3⟩⟩ := h
  unfold lowEndStep rlEndStep
  obtain ⟨h1, e1, l1, o1⟩ := free_spec r1 l
  rw [e1]
  have r3' : Rep h1 L.p L.s.prevAset qp := r3.congr fun q hq => o1 q (List.mem_append_right _ hq)
  obtain ⟨h2, e2, l2, o2⟩ := free_spec r3' (l1.perm List.perm_append_comm)
  show Mirror _ (nodeFree h1 L.p >>= _) _
  rw [e2]
  show Mirror _ (paVal par L.s.pa a >>= _) (paVal par L.s.pa a >>= _)
  refine Mirror.same fun v _ => ?_
  simp only [a1, a2]
  refine ⟨rfl, ⟨qa, ?_, l2⟩, q, rfl, ?_, fun k hk => ?_⟩
  · exact r2.congr fun k hk => (o2 k hk).trans (o1 k (List.mem_append_left _ hk))
  · show (if q = q then _ else _) = _
    rw [if_pos rfl]
  · show (if k = q then _ else _) = _
    rw [if_neg hk]
    exact a3 k hk

theorem endTrial_idle {L : Low K X B R} (h : Waiting L) :
    Mirror (fun L' s' => L'.s = s' ∧ Idle L') (lowEndTrial L) (rlEndTrial L.s) := by
  obtain ⟨⟨qp, r, l⟩, ⟨q, a1, a2, a3⟩⟩ := h
  unfold lowEndTrial rlEndTrial
  obtain ⟨h1, e1, l1, o1⟩ := free_spec r (rest := []) (by simpa using l)
  rw [e1]
  show Mirror _ (killKset { L.s with prevAset := {}, prevState := none } >>= _) _
  cases hk : killKset { L.s with prevAset := {}, prevState := none } with
  | error e => rfl
  | ok s1 =>
    show Mirror _ (match L.prev with | none => _ | some q => _) _
    simp only [a1, a2]
    refine ⟨rfl, l1, fun k => ?_⟩
    show (if k = q then none else L.arr k) = none
    by_cases e : k = q
    · rw [if_pos e]
    · rw [if_neg e]
      exact a3 k e

theorem supTrial_idle (x : X) (y cv : Option (List K)) {L : Low K X B R} (h : Idle L) :
    Mirror (fun L' s' => L'.s = s' ∧ Idle L') (lowSupTrial par kit x y cv L)
      (supTrial par kit x y cv L.s) := by
  unfold lowSupTrial supTrial
  generalize hL0 : ({ L with m := {}, s := { L.s with mset := {}, kset := {} } } : Low K X B R) = L0
  have hs0 : ({ L.s with mset := {}, kset := {} } : St K X B R) = L0.s := by subst hL0; rfl
  have m0 : MOk L0 [] := by subst hL0; exact ⟨[], rep_nil _, h.live⟩
  have a0 : ∀ q, L0.arr q = none := by subst hL0; exact h.arr
  rw [hs0]
  clear hs0 hL0 h
  -- sensing
  have S : Mirror (Rel [] L0) (lowSense par kit x cv L0) (supSense par kit x cv L0.s) := by
    cases cv with
    | some cv =>
      unfold lowSense supSense
      refine Mirror.bind (match_all x false m0) ?_
      rintro L1 _ ⟨rfl, o1⟩
      have hz : L1.m.size = L1.s.mset.size := by
        obtain ⟨_, r, _⟩ := o1.ok
        exact r.size
      rw [hz]
      split
      · exact ⟨rfl, o1.trans (Only.sys o1.ok rfl)⟩
      · exact Rel.step o1 (pa_build x o1.ok)
    | none =>
      unfold lowSense supSense
      refine Mirror.bind (match_all x true m0) ?_
      rintro L1 _ ⟨rfl, o1⟩
      exact Rel.step o1 (pa_build x o1.ok)
  have F : ∀ L2 : Low K X B R, MOk L2 [] → (∀ q, L2.arr q = none) →
      Mirror (fun L' s' => L'.s = s' ∧ Idle L')
        (do
          let s ← killKset L2.s
          let (h, m) ← nodeFree L2.h L2.m
          .ok { L2 with h := h, m := m, s := { s with mset := {} } })
        (do
          let s ← killKset L2.s
          .ok { s with mset := {} }) := by
    rintro L2 ⟨qs, r, l⟩ ha
    refine Mirror.same fun s3 _ => ?_
    obtain ⟨h1, e1, l1, o1⟩ := free_spec r l
    rw [e1]
    exact ⟨rfl, l1, ha⟩
  refine Mirror.bind S ?_
  rintro L1 _ ⟨rfl, o1⟩
  have a1 : ∀ q, L1.arr q = none := by rw [o1.arr]; exact a0
  refine Mirror.bind (rel := fun L' s' => L'.s = s' ∧ MOk L' [] ∧ ∀ q, L'.arr q = none) ?_ ?_
  · unfold lowLearn supLearn
    by_cases he : L1.s.explore = true
    · simp only [he, if_true]
      cases y with
      | none => rfl
      | some y =>
        obtain ⟨qs, r, l⟩ := o1.ok
        refine Mirror.bind (update_set L1.s x y true r l) ?_
        rintro ⟨h2, t2, s2⟩ ⟨v2, s2'⟩ ⟨e, es, q2, r2, l2, o2⟩
        simp only at e es r2 l2 o2
        subst e
        show Mirror _ (peek h2 t2 >>= fun v => _) _
        rw [peek_rep r2 l2]
        show Mirror _ (ea par kit v2 { s2 with mset := v2 } >>= _)
          (ea par kit v2 { s2 with mset := v2 })
        cases h3 : ea par kit v2 { s2 with mset := v2 } with
        | error e => rfl
        | ok s3 =>
          have hk := keep_of (ks_ea v2 _) h3
          simp only [sets, Prod.mk.injEq] at hk
          refine ⟨rfl, ⟨q2, ?_, l2⟩, a1⟩
          show Rep h2 t2 s3.mset q2
          rw [hk.1]
          exact r2
    · simp only [he, if_false, Bool.false_eq_true]
      exact ⟨rfl, o1.ok, a1⟩
  · rintro L2 _ ⟨rfl, m2, a2⟩
    exact F L2 m2 a2

theorem fit_idle (x : X) (a : Int) (reward : K) {L : Low K X B R} (h : Idle L) :
    Mirror (fun p q => p.1 = q.1 ∧ p.2.s = q.2 ∧ Idle p.2) (lowFit par kit x a reward L)
      (rlFit par kit x a reward L.s) := by
  unfold lowFit rlFit
  have h0 := init_step (init_trial h)
  have hA : ∀ {L L' : Low K X B R} {qm qa qp}, Rep L.h L.a L.s.aset qa →
      Rep L.h L.p L.s.prevAset qp → Arr L → Rep L.h L.m L.s.mset qm → Only (qa ++ qp) L L' →
      Acting L' := by
    rintro L L' qm qa qp r2 r3 ar _ o
    obtain ⟨qm', r1', l'⟩ := o.ok
    refine ⟨⟨qm', qa, qp, r1', ?_, ?_, l'⟩, ar.of o.prev o.arr o.prevState⟩
    · rw [o.a, o.aset]
      exact r2.congr fun q hq => o.off q (List.mem_append_left _ hq)
    · rw [o.p, o.prevAset]
      exact r3.congr fun q hq => o.off q (List.mem_append_right _ hq)
  obtain ⟨⟨qm, qa, qp, r1, r2, r3, l⟩, ar⟩ := h0
  have M1 := match_all (par := par) (kit := kit) x true (rest := qa ++ qp) ⟨qm, r1, l⟩
  refine Mirror.bind M1 ?_
  rintro L1 _ ⟨rfl, o1⟩
  refine Mirror.bind (pa_build x o1.ok) ?_
  rintro L2 _ ⟨rfl, o2⟩
  refine Mirror.same fun pred _ => ?_
  have A := hA r2 r3 ar r1 (o1.trans o2)
  show Mirror _ (lowUpdate par kit x a reward true { L2 with s := { L2.s with explore := true } } >>= _)
    (rlUpdate par kit x a reward true { L2.s with explore := true } >>= _)
  refine Mirror.bind (update_acting x a reward true
    (A.sys (s' := { L2.s with explore := true }) rfl)) ?_
  rintro L3 _ ⟨rfl, h3⟩
  refine Mirror.bind (endStep_waiting x a reward h3) ?_
  rintro L4 _ ⟨rfl, h4⟩
  refine Mirror.bind (endTrial_idle h4) ?_
  rintro L5 _ ⟨rfl, h5⟩
  exact ⟨rfl, rfl, h5.live, h5.arr⟩

end Steps
end Xcsf
