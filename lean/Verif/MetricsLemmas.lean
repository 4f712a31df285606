import Verif.MetricsSpec

/-!
# Helpers for C102
-/

set_option linter.unusedSectionVars false

namespace Xcsf
namespace Metrics
variable {K X B R : Type} [Zero K] [One K] [Add K] [Sub K] [Mul K] [Div K]
  [LT K] [DecidableLT K] [IntCast K] [DecidableEq K]
variable {par : Params K} {kit : Kit K X B R}

theorem Continues.refl (g : Log K) : Continues g g ([] : List (Epoch K X B R)) := by
  constructor <;> simp

theorem Continues.trans {g g' g'' : Log K} {es es' : List (Epoch K X B R)} (h : Continues g g' es)
    (h' : Continues g' g'' es') : Continues g g'' (es ++ es') := by
  constructor
  · rw [h'.train, h.train]; simp
  · rw [h'.val, h.val]; simp
  · rw [h'.psize, h.psize]; simp
  · rw [h'.msize, h.msize]; simp
  · rw [h'.mfrac, h.mfrac]; simp
  · rw [h'.counter, h.counter]; simp [Nat.add_assoc]

/-- The numbers of trials recorded for epochs of the given sizes, if `c` epochs are recorded
already. -/
def labels (c : Nat) : List Nat → List Nat
  | [] => []
  | n :: l => (1 + c) * n :: labels (c + 1) l

theorem labels_append (l l' : List Nat) : ∀ c, labels c (l ++ l') = labels c l ++ labels (c + l.length) l' := by
  induction l with
  | nil => intro c; rfl
  | cons n l ih =>
    intro c
    simp only [List.cons_append, labels, ih, List.length_cons]
    rw [show c + 1 + l.length = c + (l.length + 1) by omega]

theorem validate_time {val : Option (List (X × List K))} {s s' : St K X B R} {ve : K}
    (h : validate par kit val s = .ok (ve, s')) : s'.time = s.time := by
  unfold validate at h
  cases val with
  | none => cases h; rfl
  | some v =>
    have := ck_score (par := par) (kit := kit) (List.replicate (par.nActions * par.yDim) 0) v s
    dsimp only at h
    rw [h] at this
    have h1 : clock s' = _ := this
    simp only [clock, Prod.mk.injEq] at h1
    exact h1.2.1

/-- One epoch. -/
theorem epoch_of {j : Job K X B R} {i : Nat} {s s1 s2 : St K X B R} {te ve : K}
    (h1 : supFit par kit j.train none j.shuffle (i * j.n) j.n s = .ok (te, s1))
    (h2 : validate par kit j.val s1 = .ok (ve, s2)) (g : Log K) :
    ∃ e : Epoch K X B R, e.Of par kit j ∧ Continues g (g.note te ve j.n s2) [e] ∧
      (g.note te ve j.n s2).trials = g.trials ++ labels g.counter [e.n] ∧ e.seen = s2 ∧
      s2.time = s.time + j.n := by
  obtain ⟨ls, k1, k2, k3, k4⟩ := C66_training_run h1
  refine ⟨⟨j.n, ls, s1, ve, s2⟩, ⟨rfl, k1, ⟨_, _, _, h1, k2, k3, k4⟩, ?_, ?_⟩, ?_, rfl, rfl, ?_⟩
  · intro hv
    unfold validate at h2
    rw [hv] at h2
    cases h2
    exact ⟨rfl, rfl⟩
  · intro v hv
    unfold validate at h2
    rw [hv] at h2
    exact h2
  · constructor
    · simp [Log.note, k2]
    · rfl
    · rfl
    · rfl
    · rfl
    · rfl
  · rw [validate_time h2, k4]

/-- The epoch loop. -/
theorem fitGo_of {j : Job K X B R} : ∀ (k i : Nat) {g g' : Log K} {s s' : St K X B R},
    fitGo par kit j k i g s = .ok (g', s') →
    ∃ es : List (Epoch K X B R), (∀ e ∈ es, e.Of par kit j) ∧ Continues g g' es ∧
      g'.trials = g.trials ++ labels g.counter (es.map Epoch.n) ∧ (k ≠ 0 → es ≠ []) ∧
      (j.Calm → s'.time = s.time + (es.map Epoch.n).sum)
  | 0, i, g, g', s, s', h => by
    cases h
    exact ⟨[], by simp, .refl _, by simp [labels], by simp, by simp⟩
  | k + 1, i, g, g', s, s', h => by
    unfold fitGo at h
    cases e1 : supFit par kit j.train none j.shuffle (i * j.n) j.n s with
    | error f => rw [e1] at h; cases h
    | ok p =>
      obtain ⟨te, s1⟩ := p
      rw [e1] at h
      have h : (validate par kit j.val s1 >>= _) = _ := h
      cases e2 : validate par kit j.val s1 with
      | error f => rw [e2] at h; cases h
      | ok p =>
        obtain ⟨ve, s2⟩ := p
        rw [e2] at h
        have h : (j.watch (g.note te ve j.n s2) s2 >>= _) = _ := h
        obtain ⟨e, k1, k2, k3, k4, k5⟩ := epoch_of e1 e2 g
        have en : e.n = j.n := k1.1
        cases e3 : j.watch (g.note te ve j.n s2) s2 with
        | error f => rw [e3] at h; cases h
        | ok p =>
          obtain ⟨stop, s3⟩ := p
          rw [e3] at h
          cases stop with
          | true =>
            have h : Except.ok (g.note te ve j.n s2, s3) = .ok (g', s') := h
            cases h
            refine ⟨[e], by simpa using k1, k2, k3, by simp, fun hc => ?_⟩
            rw [hc.1 _ _ _ _ e3, k5]
            simp [en]
          | false =>
            have h : fitGo par kit j k (i + 1) (g.note te ve j.n s2) s3 = .ok (g', s') := h
            obtain ⟨es, l1, l2, l3, -, l4⟩ := fitGo_of k (i + 1) h
            refine ⟨e :: es, ?_, k2.trans l2, ?_, by simp, fun hc => ?_⟩
            · intro e' he
              rcases List.mem_cons.1 he with rfl | he
              · exact k1
              · exact l1 e' he
            · rw [l3, k3, List.append_assoc]
              rfl
            · rw [l4 hc, hc.1 _ _ _ _ e3, k5]
              simp [en]
              omega

/-- `fit`. -/
theorem fit_of {j : Job K X B R} {g g' : Log K} {s s' : St K X B R}
    (h : fit par kit j g s = .ok (g', s')) :
    ∃ es : List (Epoch K X B R), (∀ e ∈ es, e.Of par kit j) ∧ Continues g g' es ∧
      g'.trials = g.trials ++ labels g.counter (es.map Epoch.n) ∧
      (1 ≤ j.maxTrials → 1 ≤ j.perfTrials → es ≠ []) ∧
      (j.Calm → s'.time = (if j.warm then s.time else 0) + (es.map Epoch.n).sum) := by
  unfold fit at h
  cases e0 : begin par kit j s with
  | error f => rw [e0] at h; cases h
  | ok s0 =>
    rw [e0] at h
    have ht : s0.time = if j.warm then s.time else 0 := by
      unfold begin at e0
      split at e0
      · next hw => cases e0; rw [if_pos hw]
      · next hw =>
        have := xcsfInit_clock (par := par) (kit := kit) s.rng
        rw [e0] at this
        rw [if_neg hw]
        exact this.2
    have h : (fitGo par kit j (nEpochs j.maxTrials j.perfTrials) 0 g s0 >>= _) = _ := h
    cases e1 : fitGo par kit j (nEpochs j.maxTrials j.perfTrials) 0 g s0 with
    | error f => rw [e1] at h; cases h
    | ok q =>
      obtain ⟨g1, s1⟩ := q
      rw [e1] at h
      have h : (j.finish s1 >>= _) = _ := h
      cases e2 : j.finish s1 with
      | error f => rw [e2] at h; cases h
      | ok s2 =>
        rw [e2] at h
        cases h
        obtain ⟨es, l1, l2, l3, l4, l5⟩ := fitGo_of _ _ e1
        refine ⟨es, l1, l2, l3, fun h1 h2 => l4 ?_, fun hc => ?_⟩
        · unfold nEpochs
          have : 1 ≤ (j.maxTrials + j.perfTrials - 1) / j.perfTrials :=
            (Nat.le_div_iff_mul_le (by omega)).2 (by omega)
          omega
        · rw [hc.2 _ _ e2, l5 hc, ht]

/-- A session. -/
theorem session_of : ∀ (cs : List (Call K X B R)) {g g' : Log K} {s s' : St K X B R},
    session par kit cs (g, s) = .ok (g', s') →
    ∃ es : List (Epoch K X B R), (∀ e ∈ es, ∃ j, .fit j ∈ cs ∧ e.Of par kit j) ∧ Continues g g' es ∧
      g'.trials = g.trials ++ labels g.counter (es.map Epoch.n) ∧
      ∀ n, (∀ c ∈ cs, c.Steady n) → s'.time = s.time + (es.length * n : Nat)
  | [], g, g', s, s', h => by
    cases h
    exact ⟨[], by simp, .refl _, by simp [labels], by simp⟩
  | c :: cs, g, g', s, s', h => by
    unfold session at h
    rw [List.foldlM_cons] at h
    cases e1 : call par kit (g, s) c with
    | error f => rw [e1] at h; cases h
    | ok q =>
      obtain ⟨g1, s1⟩ := q
      rw [e1] at h
      obtain ⟨es, l1, l2, l3, l4⟩ := session_of cs h
      cases c with
      | fit j =>
        obtain ⟨es0, m1, m2, m3, -, m4⟩ := fit_of e1
        refine ⟨es0 ++ es, ?_, m2.trans l2, ?_, fun n hn => ?_⟩
        · intro e he
          rcases List.mem_append.1 he with he | he
          · exact ⟨j, List.mem_cons_self, m1 e he⟩
          · obtain ⟨j', h1, h2⟩ := l1 e he
            exact ⟨j', List.mem_cons_of_mem _ h1, h2⟩
        · rw [l3, m3, List.map_append, labels_append, List.append_assoc, m2.counter, List.length_map]
        · obtain ⟨n1, n2, n3⟩ := hn _ List.mem_cons_self
          rw [l4 n fun c hc => hn c (List.mem_cons_of_mem _ hc), m4 n3, if_pos n1]
          have : (es0.map Epoch.n).sum = es0.length * n := by
            have hall : ∀ x ∈ es0.map Epoch.n, x = n := by
              intro x hx
              obtain ⟨e, he, rfl⟩ := List.mem_map.1 hx
              rw [← n2]
              exact (m1 e he).1
            have := List.eq_replicate_of_mem hall
            rw [this]
            simp
          rw [this, List.length_append, Nat.add_mul]
          show s.time + _ + _ = _
          omega
      | other o =>
        have e1 : (step par kit s o >>= fun s => Except.ok (g, s)) = .ok (g1, s1) := e1
        cases e2 : step par kit s o with
        | error f => rw [e2] at e1; cases e1
        | ok s2 =>
          rw [e2] at e1
          cases e1
          refine ⟨es, ?_, l2, l3, fun n hn => ?_⟩
          · intro e he
            obtain ⟨j', h1, h2⟩ := l1 e he
            exact ⟨j', List.mem_cons_of_mem _ h1, h2⟩
          · obtain ⟨n1, n2⟩ := hn _ List.mem_cons_self
            rw [l4 n fun c hc => hn c (List.mem_cons_of_mem _ hc), (C66_others n1 n2 e2).2]

theorem labels_same (n : Nat) : ∀ (m c : Nat), labels c (List.replicate m n) =
    (List.range m).map fun i => (c + i + 1) * n := by
  intro m
  induction m with
  | zero => intro c; rfl
  | succ m ih =>
    intro c
    rw [List.replicate_succ, labels, ih, List.range_succ_eq_map, List.map_cons, List.map_map]
    congr 1
    · rw [Nat.add_comm 1 c]
    · refine List.map_congr_left fun i _ => ?_
      simp only [Function.comp]
      rw [show c + 1 + i + 1 = c + (i + 1) + 1 by omega]

/-- One trial that does not learn moves the estimate of the size of match sets. -/
theorem quiet_msize (x : X) (y : Option (List K)) (cv : List K) (s : St K X B R)
    (he : s.explore = false) : Post (supTrial par kit x y (some cv) s) (fun s' =>
      s'.explore = false ∧ ∃ k : Int, s'.msetSize = s.msetSize + ((k : K) - s.msetSize) * par.beta)
      AnyFault := by
  unfold supTrial
  refine post_bind (Q := fun s1 => s1.explore = false ∧ ∃ k : Int,
    s1.msetSize = s.msetSize + ((k : K) - s.msetSize) * par.beta) ?_ fun s1 h1 => ?_
  · unfold supSense
    refine post_bind (fr_match x false _) fun s1 h1 => ?_
    obtain ⟨mf, h1⟩ := h1
    simp only [gauges, Prod.mk.injEq] at h1
    have q : s1.explore = false ∧ ∃ k : Int,
        s1.msetSize = s.msetSize + ((k : K) - s.msetSize) * par.beta :=
      ⟨h1.2.2.2.2.2.1.trans he, _, h1.2.1⟩
    show Post (if s1.mset.size < 1 then _ else _) _ _
    split
    · exact q
    · refine post_mono (fr_paBuild x s1) fun s2 h2 => ?_
      have h2 : gauges s2 = gauges s1 := h2
      simp only [gauges, Prod.mk.injEq] at h2
      rw [h2.2.2.2.2.2.1, h2.2.1]
      exact q
  · have e2 : supLearn par kit x y s1 = .ok s1 := by
      unfold supLearn
      rw [h1.1]
      rfl
    rw [e2]
    show Post (killKset s1 >>= _) _ _
    refine post_bind (fr_killKset) fun s3 h3 => ?_
    have h3 : gauges s3 = gauges s1 := h3
    simp only [gauges, Prod.mk.injEq] at h3
    show s3.explore = false ∧ ∃ k : Int, s3.msetSize = _
    rw [h3.2.2.2.2.2.1, h3.2.1]
    exact h1

theorem scoreGo_msize (cv : List K) : ∀ (rows : List (X × List K)) (e : K) (s : St K X B R),
    Post (scoreGo par kit cv rows e s) (fun p => ∃ ks : List Int, ks.length = rows.length ∧
      p.2.msetSize = ema par.beta s.msetSize (ks.map fun k => (k : K))) AnyFault
  | [], e, s => ⟨[], rfl, rfl⟩
  | (x, y) :: rows, e, s => by
    unfold scoreGo
    refine post_bind (quiet_msize x (some y) cv _ rfl) fun s1 h1 => ?_
    obtain ⟨-, k, h1⟩ := h1
    refine post_mono (scoreGo_msize cv rows _ s1) ?_
    rintro p ⟨ks, h2, h3⟩
    refine ⟨k :: ks, by simp [h2], ?_⟩
    rw [h3, h1]
    rfl

theorem score_msize (cv : List K) (rows : List (X × List K)) (s : St K X B R) :
    Post (score par kit cv rows s) (fun p => ∃ ks : List Int, ks.length = rows.length ∧
      p.2.msetSize = ema par.beta s.msetSize (ks.map fun k => (k : K))) AnyFault := by
  unfold score
  exact post_bind (scoreGo_msize cv rows 0 s) fun q h => h

end Metrics
end Xcsf
