import Verif.NRecHist

/-!
# Helper lemmas: histories of LSTM layers
-/

set_option linter.unusedSectionVars false

namespace Xcsf
variable {K R : Type} [Field K] [LinearOrder K] [IsStrictOrderedRing K] [FloorRing K]

theorem gates_mapR {α β : Type} {P : α → Prop} {Q : β → Prop} {E : Fault → Prop}
    {op : α → R → Res (β × R)} (h : ∀ a r, P a → Post (op a r) (fun p => Q p.1) E)
    {a : Gates α} (ha : a.All P) (r : R) : Post (a.mapR op r) (fun p => p.1.All Q) E := by
  unfold Gates.mapR
  refine post_bind (h a.f r ha.f) ?_
  rintro ⟨f, r1⟩ h1
  refine post_bind (h a.i r1 ha.i) ?_
  rintro ⟨i, r2⟩ h2
  refine post_bind (h a.g r2 ha.g) ?_
  rintro ⟨g, r3⟩ h3
  refine post_bind (h a.o r3 ha.o) ?_
  rintro ⟨o, r4⟩ h4
  exact ⟨h1, h2, h3, h4⟩

theorem Gates.All.map {α β : Type} {P : α → Prop} {Q : β → Prop} {op : α → β}
    (h : ∀ a, P a → Q (op a)) {a : Gates α} (ha : a.All P) : (a.map op).All Q :=
  ⟨h _ ha.f, h _ ha.i, h _ ha.g, h _ ha.o⟩

theorem Gates.All.imp {α : Type} {P Q : α → Prop} (h : ∀ a, P a → Q a) {a : Gates α}
    (ha : a.All P) : a.All Q := ⟨h _ ha.f, h _ ha.i, h _ ha.g, h _ ha.o⟩

/-- The number of active connections of four layers. -/
def gActive (a : Gates (CLay K)) : Nat := a.f.active + a.i.active + a.g.active + a.o.active

/-- One step of an LSTM layer: it stays legal, keeps its options and (`c`) reports the right number
of active connections if it did before. -/
structure TStep (B M : Nat) (c : Bool) (l l' : TLay K) : Prop where
  legal : l'.Legal B M
  opt : l'.opt = l.opt
  count : c = true → l.Counted → l'.Counted

theorem TStep.refl {B M : Nat} (c : Bool) {l : TLay K} (L : l.Legal B M) : TStep B M c l l :=
  ⟨L, rfl, fun _ h => h⟩

theorem TStep.trans {B M : Nat} {c : Bool} {l l' l'' : TLay K} (h1 : TStep B M c l l')
    (h2 : TStep B M c l' l'') : TStep B M c l l'' :=
  ⟨h2.legal, h2.opt.trans h1.opt, fun hc h => h2.count hc (h1.count hc h)⟩

theorem TStep.weak {B M : Nat} {a b : Bool} {l l' : TLay K} (h : TStep B M a l l')
    (hab : b = true → a = true) : TStep B M b l l' :=
  ⟨h.legal, h.opt, fun hb => h.count (hab hb)⟩

theorem tcounted_same {l l' : TLay K} (h0 : l'.nActive = l.nActive)
    (h1 : gActive l'.u = gActive l.u) (h2 : gActive l'.w = gActive l.w) (h : l.Counted) :
    l'.Counted := by
  unfold TLay.Counted at h ⊢
  unfold gActive at h1 h2
  rw [h0, h]
  omega

theorem lstmActive_counted {B M n1 n2 k1 k2 : Nat} {x1 x2 : Int} {o1 o2 : LOpt}
    {l : TLay K} (P1 : l.u.All (Part B M n1 k1 x1 o1)) (P2 : l.w.All (Part B M n2 k2 x2 o2)) :
    (lstmActive l).Counted := by
  show l.u.f.nActive + l.u.i.nActive + l.u.g.nActive + l.u.o.nActive +
      l.w.f.nActive + l.w.i.nActive + l.w.g.nActive + l.w.o.nActive = _
  rw [P1.f.count, P1.i.count, P1.g.count, P1.o.count, P2.f.count, P2.i.count, P2.g.count,
    P2.o.count]
  push_cast
  rfl

theorem lstmArrays_ok {B M : Nat} {l : TLay K}
    (u : l.u.All (Part B M l.nInputs l.nOutputs l.maxOutputs l.opt))
    (w : l.w.All (Part B M l.nOutputs l.nOutputs l.maxOutputs l.opt))
    (fn : 0 ≤ l.fn ∧ l.fn < 11) (rfn : 0 ≤ l.rfn ∧ l.rfn < 11)
    (wide : l.outW = l.nOutputs) :
    ∃ l', lstmArrays l = .ok l' ∧ (∀ mu : List K, mu.length = 6 → (∀ v ∈ mu, LegalRate v) →
        TLay.Legal B M { l' with mu := mu }) ∧ l'.opt = l.opt ∧ l'.u = l.u ∧ l'.w = l.w ∧
      l'.nActive = l.nActive ∧ l'.nInputs = l.nInputs ∧ l'.nOutputs = l.nOutputs ∧
      l'.mu = l.mu := by
  obtain ⟨h1, h2, _⟩ := u.f.outs_pos
  refine ⟨{ l with
      gate := ⟨List.replicate l.nOutputs 0, List.replicate l.nOutputs 0,
        List.replicate l.nOutputs 0, List.replicate l.nOutputs 0⟩,
      c := List.replicate l.nOutputs 0, h := List.replicate l.nOutputs 0,
      dc := List.replicate l.nOutputs 0, output := List.replicate l.nOutputs 0,
      delta := List.replicate l.nOutputs 0, prevState := List.replicate l.nOutputs 0,
      prevCell := List.replicate l.nOutputs 0 }, ?_, ?_, rfl, rfl, rfl, rfl, rfl, rfl, rfl⟩
  · unfold lstmArrays
    rw [guardOutputs_in h1 h2]
  · intro mu hl hv
    exact ⟨u, w, ⟨by simp, by simp, by simp, by simp⟩, by simp, by simp, by simp, by simp, by simp,
      rfl, rfl, ⟨hl, hv⟩, fn, rfn, wide⟩

theorem gateVal_ok {B M n1 n2 n : Nat} {x1 x2 : Int} {o1 o2 : LOpt} {u w : CLay K} {fn : Int}
    (hf : 0 ≤ fn ∧ fn < 11) (m : Libm K) (Pu : Part B M n1 n x1 o1 u) (Pw : Part B M n2 n x2 o2 w) :
    ∃ v, gateVal m n fn u w = .ok v ∧ v.length = n := by
  obtain ⟨st, os, e, l1, l2⟩ := activateArray_ok hf.1 hf.2 m (addArr n u.outs w.outs)
  rw [addArr_length] at l2
  refine ⟨os, ?_, l2⟩
  unfold gateVal
  rw [if_neg (by rw [Pu.ns_len, Pw.ns_len]; omega), e]

theorem actArr_ok {fn : Int} (hf : 0 ≤ fn ∧ fn < 11) (m : Libm K) (xs : List K) :
    ∃ v, actArr m fn xs = .ok v ∧ v.length = xs.length := by
  obtain ⟨st, os, e, l1, l2⟩ := activateArray_ok hf.1 hf.2 m xs
  refine ⟨os, ?_, l2⟩
  unfold actArr
  rw [e]

theorem forward_gates {B M nIn nOut : Nat} {mx : Int} {o : LOpt} {a : Gates (CLay K)}
    (h : a.All (Part B M nIn nOut mx o)) (m : Libm K) {x : List K} (hx : nIn ≤ x.length) :
    ∃ b, a.mapR (fun y (_ : Unit) => (connForward m y x).map (·, ())) () = .ok (b, ()) ∧
      b.All (Part B M nIn nOut mx o) ∧ gActive b = gActive a := by
  obtain ⟨f, e1, p1, w1, _⟩ := h.f.forward m hx
  obtain ⟨i, e2, p2, w2, _⟩ := h.i.forward m hx
  obtain ⟨g, e3, p3, w3, _⟩ := h.g.forward m hx
  obtain ⟨o, e4, p4, w4, _⟩ := h.o.forward m hx
  refine ⟨⟨f, i, g, o⟩, ?_, ⟨p1, p2, p3, p4⟩, ?_⟩
  · unfold Gates.mapR
    simp only [e1, e2, e3, e4]
    rfl
  · unfold gActive
    rw [active_ws w1, active_ws w2, active_ws w3, active_ws w4]

theorem lstmForward_step {B M : Nat} (m : Libm K) {l : TLay K} (L : l.Legal B M) {x : List K}
    (hx : l.nInputs ≤ x.length) :
    ∃ l', lstmForward m l x = .ok l' ∧ TStep B M true l l' ∧ l'.nInputs = l.nInputs := by
  obtain ⟨u, e1, Pu, au⟩ := forward_gates L.u m hx
  obtain ⟨w, e2, Pw, aw⟩ := forward_gates L.w m (x := l.h) (by rw [L.h])
  obtain ⟨f, ef, lf⟩ := gateVal_ok L.rfn m Pu.f Pw.f
  obtain ⟨i, ei, li⟩ := gateVal_ok L.rfn m Pu.i Pw.i
  obtain ⟨g, eg, lg⟩ := gateVal_ok L.fn m Pu.g Pw.g
  obtain ⟨o, eo, lo⟩ := gateVal_ok L.rfn m Pu.o Pw.o
  obtain ⟨a, ea, la⟩ := actArr_ok L.fn m
    (addArr l.nOutputs (mulArr l.nOutputs g i) (mulArr l.nOutputs f l.c))
  refine ⟨{ l with
      u := u, w := w, gate := ⟨f, i, g, o⟩,
      c := addArr l.nOutputs (mulArr l.nOutputs g i) (mulArr l.nOutputs f l.c),
      h := mulArr l.nOutputs o a, output := mulArr l.nOutputs o a }, ?_,
    ⟨⟨Pu, Pw, ⟨lf, li, lg, lo⟩, addArr_length _ _ _, mulArr_length _ _ _, L.dc,
      mulArr_length _ _ _, L.delta, L.prevState, L.prevCell, L.mu, L.fn, L.rfn, L.wide⟩, rfl,
      fun _ h => tcounted_same (l := l) rfl au aw h⟩, rfl⟩
  unfold lstmForward
  simp only [bind, Except.bind]
  rw [e1]
  dsimp only
  rw [e2]
  dsimp only
  rw [ef]
  dsimp only
  rw [ei]
  dsimp only
  rw [eg]
  dsimp only
  rw [eo]
  dsimp only
  rw [if_neg (by rw [L.c]; omega), ea]

theorem gradArr_ok {fn : Int} (hf : 0 ≤ fn ∧ fn < 11) (m : Libm K) {n : Nat} {s d : List K}
    (hs : s.length = n) (hd : d.length = n) :
    ∃ v, gradientArray m fn s d = .ok v ∧ v.length = n := by
  obtain ⟨v, e, hl⟩ := gradientArray_ok hf.1 hf.2 m s d (hs.trans hd.symm)
  exact ⟨v, e, hl.trans hd⟩

theorem gateBack_ok {B M nIn n : Nat} {mx : Int} {o : LOpt} {u w : CLay K} (m : Libm K)
    (Pu : Part B M nIn n mx o u) (Pw : Part B M n n mx o w) {e ps x : List K} (he : e.length = n)
    (hp : ps.length = n) (hx : nIn ≤ x.length) (d : Option (List K))
    (hd : ∀ v, d = some v → nIn ≤ v.length) :
    ∃ u' w' d', gateBack m e ps x u w d = .ok ((u', w'), d') ∧ Part B M nIn n mx o u' ∧
      Part B M n n mx o w' ∧ u'.active = u.active ∧ w'.active = w.active ∧
      d'.map List.length = d.map List.length := by
  obtain ⟨w', dw, e1, p1, a1, _, _⟩ := (Pw.withDelta (d := e) (by rw [he])).backward m (x := ps)
    (by rw [hp]) none (by intro v hv; cases hv)
  obtain ⟨u', d', e2, p2, a2, _, h2⟩ := (Pu.withDelta (d := e) (by rw [he])).backward m hx d hd
  refine ⟨u', w', d', ?_, p2, p1, a2, a1, h2⟩
  unfold gateBack
  rw [if_neg (by rw [Pu.ns_len, Pw.ns_len, he]; omega)]
  simp only [bind, Except.bind]
  rw [e1]
  dsimp only
  rw [e2]

theorem len_of_map {d d' : Option (List K)} {n : Nat}
    (h : d'.map List.length = d.map List.length) (hd : ∀ v, d = some v → n ≤ v.length) :
    ∀ v, d' = some v → n ≤ v.length := by
  intro v hv
  subst hv
  cases d with
  | none => simp at h
  | some w =>
    simp only [Option.map_some, Option.some.injEq] at h
    rw [h]
    exact hd w rfl

theorem lstmBackward_step {B M : Nat} (m : Libm K) {l : TLay K} (L : l.Legal B M) {x : List K}
    (hx : l.nInputs ≤ x.length) (d : Option (List K))
    (hd : ∀ v, d = some v → l.nInputs ≤ v.length) :
    ∃ l' d', lstmBackward m l x d = .ok (l', d') ∧ TStep B M true l l' ∧
      l'.nInputs = l.nInputs ∧ d'.map List.length = d.map List.length := by
  have hps : l.prevState.length = l.nOutputs := by rw [L.prevState]; simp
  have hpc : l.prevCell.length = l.nOutputs := by rw [L.prevCell]; simp
  obtain ⟨act, ea, la⟩ := actArr_ok L.fn m (l.c.take l.nOutputs)
  rw [List.length_take, L.c, min_self] at la
  obtain ⟨t2, e2, l2⟩ := gradArr_ok L.fn m la
    (mulArr_length l.nOutputs l.gate.o (l.delta.take l.nOutputs))
  obtain ⟨eo, eeo, leo⟩ := gradArr_ok L.rfn m L.gate.o
    (mulArr_length l.nOutputs (l.delta.take l.nOutputs) act)
  obtain ⟨uo, wo, d1, f1, pu1, pw1, au1, aw1, h1⟩ := gateBack_ok m L.u.o L.w.o leo hps hx d hd
  have hd1 := len_of_map h1 hd
  obtain ⟨eg, eeg, leg⟩ := gradArr_ok L.fn m L.gate.g
    (mulArr_length l.nOutputs l.gate.i (addArr l.nOutputs l.dc t2))
  obtain ⟨ug, wg, d2, f2, pu2, pw2, au2, aw2, h2⟩ := gateBack_ok m L.u.g L.w.g leg hps hx d1 hd1
  have hd2 := len_of_map h2 hd1
  obtain ⟨ei, eei, lei⟩ := gradArr_ok L.rfn m L.gate.i
    (mulArr_length l.nOutputs l.gate.g (addArr l.nOutputs l.dc t2))
  obtain ⟨ui, wi, d3, f3, pu3, pw3, au3, aw3, h3⟩ := gateBack_ok m L.u.i L.w.i lei hps hx d2 hd2
  have hd3 := len_of_map h3 hd2
  obtain ⟨ef, eef, lef⟩ := gradArr_ok L.rfn m L.gate.f
    (mulArr_length l.nOutputs l.prevCell (addArr l.nOutputs l.dc t2))
  obtain ⟨uf, wf, d4, f4, pu4, pw4, au4, aw4, h4⟩ := gateBack_ok m L.u.f L.w.f lef hps hx d3 hd3
  refine ⟨{ l with
      u := ⟨uf, ui, ug, uo⟩, w := ⟨wf, wi, wg, wo⟩,
      dc := mulArr l.nOutputs l.gate.f (addArr l.nOutputs l.dc t2) }, d4, ?_,
    ⟨⟨⟨pu4, pu3, pu2, pu1⟩, ⟨pw4, pw3, pw2, pw1⟩, L.gate, L.c, L.h, mulArr_length _ _ _, L.output,
      L.delta, L.prevState, L.prevCell, L.mu, L.fn, L.rfn, L.wide⟩, rfl,
      fun _ h => tcounted_same (l := l) rfl ?_ ?_ h⟩, rfl, h4.trans (h3.trans (h2.trans h1))⟩
  · unfold lstmBackward
    rw [if_neg (by rw [L.delta, L.c, L.dc, hpc]; omega)]
    simp only [bind, Except.bind]
    rw [ea]
    dsimp only
    rw [e2]
    dsimp only
    rw [eeo]
    dsimp only
    rw [f1]
    dsimp only
    rw [eeg]
    dsimp only
    rw [f2]
    dsimp only
    rw [eei]
    dsimp only
    rw [f3]
    dsimp only
    rw [eef]
    dsimp only
    rw [f4]
  · unfold gActive; rw [au1, au2, au3, au4]
  · unfold gActive; rw [aw1, aw2, aw3, aw4]

theorem lstmDelta_step {B M : Nat} {l : TLay K} (L : l.Legal B M) (d : Nat → K) :
    TStep B M true l (lstmDelta l d) :=
  ⟨⟨L.u, L.w, L.gate, L.c, L.h, L.dc, L.output, by
    show (ofArr l.delta.length d).length = _
    rw [length_ofArr, L.delta]
    rfl, L.prevState, L.prevCell, L.mu, L.fn, L.rfn, L.wide⟩, rfl,
    fun _ h => h⟩

theorem lstmUpdate_step {B M : Nat} {l : TLay K} (L : l.Legal B M) :
    TStep B M true l (lstmUpdate l) := by
  unfold lstmUpdate
  split
  · refine ⟨⟨L.u.map fun a h => h.update.1, L.w.map fun a h => h.update.1, L.gate, L.c, L.h, L.dc,
      L.output, L.delta, L.prevState, L.prevCell, L.mu, L.fn, L.rfn, L.wide⟩, rfl,
      fun _ h => tcounted_same (l := l) rfl ?_ ?_ h⟩
    · show (connUpdate l.u.f).active + (connUpdate l.u.i).active + (connUpdate l.u.g).active +
        (connUpdate l.u.o).active = _
      rw [L.u.f.update.2.1, L.u.i.update.2.1, L.u.g.update.2.1, L.u.o.update.2.1]
      rfl
    · show (connUpdate l.w.f).active + (connUpdate l.w.i).active + (connUpdate l.w.g).active +
        (connUpdate l.w.o).active = _
      rw [L.w.f.update.2.1, L.w.i.update.2.1, L.w.g.update.2.1, L.w.o.update.2.1]
      rfl
  · exact TStep.refl _ L

theorem lstmLearn_step {B M : Nat} (m : Libm K) {l : TLay K} (L : l.Legal B M)
    (x d : Nat → K) (p : Bool) : ∃ l', lstmLearn m l x d p = .ok l' ∧ TStep B M true l l' := by
  obtain ⟨l1, e1, c1, n1⟩ := lstmForward_step m L (x := ofArr l.nInputs x) (by rw [length_ofArr])
  have c2 := lstmDelta_step c1.legal d
  obtain ⟨l3, d3, e3, c3, _, _⟩ := lstmBackward_step m c2.legal (x := ofArr l.nInputs x)
    (by rw [length_ofArr]; exact n1.le)
    (if p then some (List.replicate l.nInputs 0) else none) (by
      intro v hv
      split at hv
      · cases hv; rw [List.length_replicate]; exact n1.le
      · cases hv)
  have c4 := lstmUpdate_step c3.legal
  refine ⟨_, ?_, ((c1.trans c2).trans c3).trans c4⟩
  unfold lstmLearn
  rw [e1]
  show (lstmBackward m (lstmDelta l1 d) _ _ >>= _) = _
  rw [e3]
  rfl

theorem lstmCopy_step {B M : Nat} {l : TLay K} (L : l.Legal B M) :
    ∃ l', lstmCopy l = .ok l' ∧ TStep B M true l l' := by
  obtain ⟨l', e, h1, h2, h3, h4, h5, h6, h7, h8⟩ := lstmArrays_ok (B := B) (M := M) (l := { l with u := l.u.map connCopy, w := l.w.map connCopy })
    (L.u.map fun a h => h.copy.1) (L.w.map fun a h => h.copy.1) L.fn L.rfn L.wide
  have h8 : l'.mu = l.mu := h8
  have hl := h1 l'.mu (by rw [h8]; exact L.mu.1) (by rw [h8]; exact L.mu.2)
  refine ⟨l', e, hl, h2, fun _ h => tcounted_same (l := l) h5 ?_ ?_ h⟩
  · rw [h3]
    show (connCopy l.u.f).active + (connCopy l.u.i).active + (connCopy l.u.g).active +
        (connCopy l.u.o).active = _
    rw [L.u.f.copy.2.1, L.u.i.copy.2.1, L.u.g.copy.2.1, L.u.o.copy.2.1]
    rfl
  · rw [h4]
    show (connCopy l.w.f).active + (connCopy l.w.i).active + (connCopy l.w.g).active +
        (connCopy l.w.o).active = _
    rw [L.w.f.copy.2.1, L.w.i.copy.2.1, L.w.g.copy.2.1, L.w.o.copy.2.1]
    rfl

theorem lstmRand_step {B M : Nat} {g : Rng K R} (Bd : g.Bounded) {l : TLay K} (L : l.Legal B M)
    (E : Fault → Prop) (r : R) : Post (lstmRand g l r) (fun p => TStep B M false l p.1) E := by
  unfold lstmRand
  refine post_bind (gates_mapR (Q := Part B M l.nInputs l.nOutputs l.maxOutputs l.opt)
    (fun a r h => h.rand Bd r) L.u r) ?_
  rintro ⟨u, r1⟩ hu
  refine post_bind (gates_mapR (Q := Part B M l.nOutputs l.nOutputs l.maxOutputs l.opt)
    (fun a r h => h.rand Bd r) L.w r1) ?_
  rintro ⟨w, r2⟩ hw
  exact ⟨⟨hu, hw, L.gate, L.c, L.h, L.dc, L.output, L.delta, L.prevState, L.prevCell, L.mu, L.fn,
    L.rfn, L.wide⟩, rfl, fun h => by cases h⟩

theorem lstmResize_step {B M : Nat} (hM : M < 2147483648) {g : Rng K R} (O : g.Open)
    (Bd : g.Bounded) {fuel : Nat} (hf : 1 ≤ fuel) {l : TLay K} (L : l.Legal B M) {prev : Nat}
    (hp : 1 ≤ prev) (hpM : B * prev ≤ M) (r : R) :
    Post (lstmResize g fuel l prev r) (fun p => TStep B M true l p.1 ∧ p.1.nInputs = prev ∧
      p.1.nOutputs = l.nOutputs) (CFault M l.opt.neurons) := by
  unfold lstmResize
  refine post_bind (gates_mapR (Q := Part B M prev l.nOutputs l.maxOutputs l.opt)
    (fun a r h => h.resize hM O Bd hf hp hpM r) L.u r) ?_
  rintro ⟨u, r1⟩ hu
  have hu : u.All (Part B M prev l.nOutputs l.maxOutputs l.opt) := hu
  refine post_bind (hu.f.resize hM O Bd hf hp hpM r1) ?_
  rintro ⟨f, r2⟩ hf'
  have h' : Gates.All (Part B M prev l.nOutputs l.maxOutputs l.opt) { u with f := f } :=
    ⟨hf', hu.i, hu.g, hu.o⟩
  exact ⟨⟨⟨h', L.w, L.gate, L.c, L.h, L.dc, L.output, L.delta, L.prevState, L.prevCell, L.mu, L.fn,
    L.rfn, L.wide⟩, rfl, fun _ _ => lstmActive_counted
      (l := { l with u := { u with f := f }, nInputs := prev }) h' L.w⟩, rfl, rfl⟩

theorem lstmSetEta_step {B M : Nat} {l : TLay K} (L : l.Legal B M) :
    TStep B M true l (lstmSetEta l) :=
  ⟨⟨⟨L.u.f, L.u.i.setEta _, L.u.g.setEta _, L.u.o.setEta _⟩, L.w.map fun _ h => h.setEta _, L.gate,
    L.c, L.h, L.dc, L.output, L.delta, L.prevState, L.prevCell, L.mu, L.fn, L.rfn, L.wide⟩, rfl,
    fun _ h => h⟩

theorem lstmMutEta_step {B M : Nat} (g : Rng K R) {l : TLay K} (L : l.Legal B M) (mu : K) (r : R) :
    TStep B M true l (lstmMutEta g l mu r).1.1 ∧
      (lstmMutEta g l mu r).1.1.nInputs = l.nInputs ∧
      (lstmMutEta g l mu r).1.1.nOutputs = l.nOutputs := by
  have c : TStep B M true l { l with u := { l.u with f := (mutateEta g l.u.f mu r).1.1 } } :=
    ⟨⟨⟨L.u.f.of_step (mutateEta_step g L.u.f.sound L.u.f.fits mu r) rfl rfl rfl, L.u.i, L.u.g,
      L.u.o⟩, L.w, L.gate,
      L.c, L.h, L.dc, L.output, L.delta, L.prevState, L.prevCell, L.mu, L.fn, L.rfn, L.wide⟩, rfl,
      fun _ h => h⟩
  unfold lstmMutEta
  dsimp only
  split
  · split
    · exact ⟨c.trans (lstmSetEta_step c.legal), rfl, rfl⟩
    · exact ⟨c, rfl, rfl⟩
  · exact ⟨TStep.refl _ L, rfl, rfl⟩

theorem lstmMutNeurons_step {B M : Nat} (hM : M < 2147483648) (hB : B * B ≤ M) {g : Rng K R}
    (O : g.Open) (Bd : g.Bounded) {fuel : Nat} (hf : 1 ≤ fuel) {l : TLay K} (L : l.Legal B M)
    (mu : K) (r : R) :
    Post (lstmMutNeurons g fuel l mu r) (fun p => TStep B M true l p.1.1 ∧
      p.1.1.nInputs = l.nInputs ∧ (l.opt.neurons = false → p.1.1.nOutputs = l.nOutputs))
      (CFault M l.opt.neurons) := by
  unfold lstmMutNeurons
  split
  · next hn =>
    refine post_bind (mutateNeurons_part L.u.f g fuel hn mu r) ?_
    rintro ⟨n, r1⟩ ⟨h0, h1⟩
    dsimp only at h0 h1 ⊢
    split
    · exact ⟨TStep.refl _ L, rfl, fun _ => rfl⟩
    · obtain ⟨k, hk⟩ : ∃ k : Nat, (l.nOutputs : Int) + n = (k : Int) :=
        ⟨((l.nOutputs : Int) + n).toNat, by omega⟩
      have k0 : 1 ≤ k := by omega
      have k1 : (k : Int) ≤ l.maxOutputs := by omega
      refine post_bind (gates_mapR (Q := Part B M l.nInputs k l.maxOutputs l.opt)
        (fun a r h => h.add hM Bd hn hk k0 k1 r) L.u r1) ?_
      rintro ⟨u, r2⟩ Pu
      refine post_bind (gates_mapR (Q := Part B M l.nOutputs k l.maxOutputs l.opt)
        (fun a r h => h.add hM Bd hn hk k0 k1 r) L.w r2) ?_
      rintro ⟨w, r3⟩ Pw
      have Pu : u.All (Part B M l.nInputs k l.maxOutputs l.opt) := Pu
      have Pw : w.All (Part B M l.nOutputs k l.maxOutputs l.opt) := Pw
      have hkM : B * k ≤ M := le_trans (Nat.mul_le_mul_left _ Pu.f.outs_pos.2.2) hB
      refine post_bind (gates_mapR (Q := Part B M k k l.maxOutputs l.opt)
        (fun a r h => by
          show Post (connResize g fuel a u.f.nOutputs r) _ _
          rw [Pu.f.outs]
          exact h.resize hM O Bd hf k0 hkM r) Pw r3) ?_
      rintro ⟨w', r4⟩ Pw'
      have Pw' : w'.All (Part B M k k l.maxOutputs l.opt) := Pw'
      dsimp only
      rw [Pu.f.outs]
      obtain ⟨l', e, q1, q2, q3, q4, q5, q6, q7, q8⟩ := lstmArrays_ok (B := B) (M := M) (l := lstmActive { l with u := u, w := w', nOutputs := k, outW := k })
        Pu Pw' L.fn L.rfn rfl
      rw [e]
      have q8 : l'.mu = l.mu := q8
      refine ⟨⟨q1 l'.mu (by rw [q8]; exact L.mu.1) (by rw [q8]; exact L.mu.2), q2, fun _ _ => ?_⟩,
        q6, fun h => ?_⟩
      · exact tcounted_same (l := lstmActive { l with u := u, w := w', nOutputs := k, outW := k })
          q5 (by rw [q3]) (by rw [q4]) (lstmActive_counted
            (l := { l with u := u, w := w', nOutputs := k, outW := k }) Pu Pw')
      · rw [hn] at h; cases h
  · exact ⟨TStep.refl _ L, rfl, fun _ => rfl⟩

theorem lstmMutConn_step {B M : Nat} {g : Rng K R} (Bd : g.Bounded) {l : TLay K} (L : l.Legal B M)
    (E : Fault → Prop) (muE muD : K) (r : R) :
    Post (lstmMutConn g l muE muD r) (fun p => TStep B M true l p.1.1 ∧
      p.1.1.nInputs = l.nInputs ∧ p.1.1.nOutputs = l.nOutputs) E := by
  unfold lstmMutConn
  split
  · refine post_bind (gates_mapR (Q := fun a : CLay K × Bool =>
      Part B M l.nInputs l.nOutputs l.maxOutputs l.opt a.1)
      (fun a r h => h.mutConn Bd muE muD r) L.u r) ?_
    rintro ⟨u, r1⟩ hu
    refine post_bind (gates_mapR (Q := fun a : CLay K × Bool =>
      Part B M l.nOutputs l.nOutputs l.maxOutputs l.opt a.1)
      (fun a r h => h.mutConn Bd muE muD r) L.w r1) ?_
    rintro ⟨w, r2⟩ hw
    have hu' : (u.map (·.1)).All (Part B M l.nInputs l.nOutputs l.maxOutputs l.opt) :=
      ⟨hu.f, hu.i, hu.g, hu.o⟩
    have hw' : (w.map (·.1)).All (Part B M l.nOutputs l.nOutputs l.maxOutputs l.opt) :=
      ⟨hw.f, hw.i, hw.g, hw.o⟩
    exact ⟨⟨⟨hu', hw', L.gate, L.c, L.h, L.dc, L.output, L.delta, L.prevState, L.prevCell, L.mu,
      L.fn, L.rfn, L.wide⟩, rfl, fun _ _ => lstmActive_counted
        (l := { l with u := u.map (·.1), w := w.map (·.1) }) hu' hw'⟩, rfl, rfl⟩
  · exact ⟨TStep.refl _ L, rfl, rfl⟩

theorem lstmMutWeights_step {B M : Nat} (g : Rng K R) {l : TLay K} (L : l.Legal B M)
    (E : Fault → Prop) (mu : K) (r : R) :
    Post (lstmMutWeights g l mu r) (fun p => TStep B M true l p.1.1 ∧
      p.1.1.nInputs = l.nInputs ∧ p.1.1.nOutputs = l.nOutputs) E := by
  unfold lstmMutWeights
  split
  · unfold Gates.mapR
    simp only [bind, Except.bind]
    obtain ⟨p1, w1, _⟩ := L.u.f.mutWeights g mu r
    obtain ⟨p2, w2, _⟩ := L.u.i.mutWeights g mu (mutateWeights g l.u.f mu r).2
    obtain ⟨p3, w3, _⟩ := L.u.g.mutWeights g mu
      (mutateWeights g l.u.i mu (mutateWeights g l.u.f mu r).2).2
    obtain ⟨p4, w4, _⟩ := L.u.o.mutWeights g mu
      (mutateWeights g l.u.g mu (mutateWeights g l.u.i mu (mutateWeights g l.u.f mu r).2).2).2
    generalize (mutateWeights g l.u.o mu (mutateWeights g l.u.g mu (mutateWeights g l.u.i mu
      (mutateWeights g l.u.f mu r).2).2).2).2 = r1
    obtain ⟨p5, w5, _⟩ := L.w.f.mutWeights g mu r1
    obtain ⟨p6, w6, _⟩ := L.w.i.mutWeights g mu (mutateWeights g l.w.f mu r1).2
    obtain ⟨p7, w7, _⟩ := L.w.g.mutWeights g mu
      (mutateWeights g l.w.i mu (mutateWeights g l.w.f mu r1).2).2
    obtain ⟨p8, w8, _⟩ := L.w.o.mutWeights g mu
      (mutateWeights g l.w.g mu (mutateWeights g l.w.i mu (mutateWeights g l.w.f mu r1).2).2).2
    refine ⟨⟨⟨⟨p1, p2, p3, p4⟩, ⟨p5, p6, p7, p8⟩, L.gate, L.c, L.h, L.dc, L.output, L.delta,
      L.prevState, L.prevCell, L.mu, L.fn, L.rfn, L.wide⟩, rfl,
      fun _ h => tcounted_same (l := l) rfl ?_ ?_ h⟩, rfl, rfl⟩
    · unfold gActive; simp only [Gates.map]; rw [w1, w2, w3, w4]
    · unfold gActive; simp only [Gates.map]; rw [w5, w6, w7, w8]
  · exact ⟨TStep.refl _ L, rfl, rfl⟩

theorem drawFn_ok {g : Rng K R} (O : g.Open) {fn : Int} (h : 0 ≤ fn ∧ fn < 11) (mu : K) (r : R) :
    0 ≤ (drawFn g fn mu r).1 ∧ (drawFn g fn mu r).1 < 11 := by
  unfold drawFn
  dsimp only
  split
  · exact C45_random_int O (by decide) _
  · exact h

theorem lstmMutFn_step {B M : Nat} {g : Rng K R} (O : g.Open) {l : TLay K} (L : l.Legal B M)
    (mu : K) (r : R) : TStep B M true l (lstmMutFn g l mu r).1.1 ∧
      (lstmMutFn g l mu r).1.1.nInputs = l.nInputs ∧
      (lstmMutFn g l mu r).1.1.nOutputs = l.nOutputs := by
  unfold lstmMutFn
  dsimp only
  split
  · exact ⟨⟨⟨L.u, L.w, L.gate, L.c, L.h, L.dc, L.output, L.delta, L.prevState, L.prevCell, L.mu,
      drawFn_ok O L.fn _ _, drawFn_ok O L.rfn _ _, L.wide⟩, rfl, fun _ h => h⟩, rfl, rfl⟩
  · exact ⟨TStep.refl _ L, rfl, rfl⟩

theorem lstmMutate_step {B M : Nat} (hM : M < 2147483648) (hB : B * B ≤ M) {g : Rng K R}
    (O : g.Open) (Bd : g.Bounded) {fuel : Nat} (hf : 1 ≤ fuel) {l : TLay K} (L : l.Legal B M)
    (r : R) :
    Post (lstmMutate g fuel l r) (fun p => TStep B M true l p.1.1 ∧ p.1.1.nInputs = l.nInputs ∧
      (l.opt.neurons = false → p.1.1.nOutputs = l.nOutputs)) (CFault M l.opt.neurons) := by
  unfold lstmMutate
  obtain ⟨vs, r1, e, hl, hv⟩ := C44_adapt O (List.zip recMu l.mu) r
    (fun m hm => Or.inr (L.mu.2 m.2 (List.of_mem_zip hm).2))
  rw [List.length_zip, L.mu.1] at hl
  have hl : vs.length = 6 := hl
  rw [e]
  match vs, hl, hv with
  | [m0, m1, m2, m3, m4, m5], _, hv =>
    show Post (lstmMutNeurons g fuel (lstmMutEta g { l with mu := [m0, m1, m2, m3, m4, m5] }
      m0 r1).1.1 m1 (lstmMutEta g { l with mu := [m0, m1, m2, m3, m4, m5] } m0 r1).2 >>= _) _ _
    have c0 : TStep B M true l { l with mu := [m0, m1, m2, m3, m4, m5] } :=
      ⟨⟨L.u, L.w, L.gate, L.c, L.h, L.dc, L.output, L.delta, L.prevState, L.prevCell, ⟨rfl, hv⟩,
        L.fn, L.rfn, L.wide⟩, rfl, fun _ h => h⟩
    obtain ⟨c1, i1, o1⟩ := lstmMutEta_step g c0.legal m0 r1
    generalize lstmMutEta g { l with mu := [m0, m1, m2, m3, m4, m5] } m0 r1 = a at c1 i1 o1 ⊢
    have h := lstmMutNeurons_step hM hB O Bd hf c1.legal m1 a.2
    rw [c1.opt] at h
    refine post_bind h ?_
    rintro ⟨⟨l2, b⟩, r2⟩ ⟨c2, i2, o2⟩
    refine post_bind (lstmMutConn_step Bd c2.legal _ m2 m3 r2) ?_
    rintro ⟨⟨l3, b3⟩, r3⟩ ⟨c3, i3, o3⟩
    refine post_bind (lstmMutWeights_step g c3.legal _ m4 r3) ?_
    rintro ⟨⟨l4, b4⟩, r4⟩ ⟨c4, i4, o4⟩
    obtain ⟨c5, i5, o5⟩ := lstmMutFn_step O c4.legal m5 r4
    exact ⟨((((c0.trans c1).trans c2).trans c3).trans c4).trans c5,
      i5.trans (i4.trans (i3.trans (i2.trans i1))),
      fun hn => o5.trans (o4.trans (o3.trans ((o2 hn).trans o1)))⟩

theorem tstep_step {B M : Nat} (hM : M < 2147483648) (hB : B * B ≤ M) {g : Rng K R} (O : g.Open)
    (Bd : g.Bounded) (m : Libm K) {fuel : Nat} (hf : 1 ≤ fuel) {l : TLay K} (L : l.Legal B M)
    (r : R) (o : COp K) (ho : o.fits B M) :
    Post (tstep g m fuel l r o) (fun p => TStep B M (!o.isRand) l p.1)
      (CFault M l.opt.neurons) := by
  cases o with
  | mutate =>
    unfold tstep
    refine post_bind (lstmMutate_step hM hB O Bd hf L r) ?_
    rintro ⟨a, r'⟩ ⟨c, _⟩
    exact c
  | resize prev => exact post_mono (lstmResize_step hM O Bd hf L ho.1 ho.2 r) fun _ h => h.1
  | learn x d p =>
    obtain ⟨l', e, c⟩ := lstmLearn_step m L x d p
    unfold tstep
    dsimp only
    rw [e]
    exact c
  | forward x =>
    obtain ⟨l', e, c, _⟩ := lstmForward_step m L (x := ofArr l.nInputs x) (by rw [length_ofArr])
    unfold tstep
    dsimp only
    rw [e]
    exact c
  | rand => exact lstmRand_step Bd L _ r
  | copy =>
    obtain ⟨l', e, c⟩ := lstmCopy_step L
    unfold tstep
    dsimp only
    rw [e]
    exact c

theorem trun_step {B M : Nat} (hM : M < 2147483648) (hB : B * B ≤ M) {g : Rng K R} (O : g.Open)
    (Bd : g.Bounded) (m : Libm K) {fuel : Nat} (hf : 1 ≤ fuel) : ∀ (os : List (COp K))
    {l : TLay K}, l.Legal B M → ∀ r : R, (∀ o ∈ os, o.fits B M) →
    Post (trun g m fuel os l r) (fun p => TStep B M (os.all fun o => !o.isRand) l p.1)
      (CFault M l.opt.neurons)
  | [], l, L, r, _ => TStep.refl _ L
  | o :: os, l, L, r, ho => by
    unfold trun
    refine post_bind (tstep_step hM hB O Bd m hf L r o (ho o List.mem_cons_self)) ?_
    rintro ⟨l1, r1⟩ c
    have h := trun_step hM hB O Bd m hf os c.legal r1
      (fun o h => ho o (List.mem_cons_of_mem _ h))
    rw [c.opt] at h
    refine post_mono h fun p c2 => ?_
    refine (c.weak ?_).trans (c2.weak ?_)
    · intro h; simp only [List.all_cons, Bool.and_eq_true] at h; exact h.1
    · intro h; simp only [List.all_cons, Bool.and_eq_true] at h; exact h.2

theorem lstmInit_step {B M : Nat} (hM : M < 2147483648) (hB : B * B ≤ M) {g : Rng K R}
    (O : g.Open) (Bd : g.Bounded) {a : CArgs K} (A : a.Fits B M) {rfn : Int}
    (hr : 0 ≤ rfn ∧ rfn < 11) (r : R) :
    Post (lstmInit g a rfn r) (fun p => p.1.Legal B M ∧ p.1.opt = a.opt ∧ p.1.Counted ∧
      p.1.nInputs = a.nInputs ∧ p.1.nOutputs = a.nInit) (CFault M a.opt.neurons) := by
  unfold lstmInit
  dsimp only
  have A1 := A.setFn (f := 3) (by decide)
  have A2 := A.own hB (f := 3) (by decide)
  refine post_bind (gates_mapR (P := fun b => b = { a with fn := 3 })
    (Q := Part B M a.nInputs a.nInit a.nMax a.opt) (fun b r h => by
      subst h; exact part_init hM O Bd A1 r) ⟨rfl, rfl, rfl, rfl⟩ r) ?_
  rintro ⟨u, r1⟩ Pu
  refine post_bind (gates_mapR (P := fun b => b = { a with fn := 3, nInputs := a.nInit })
    (Q := Part B M a.nInit a.nInit a.nMax a.opt) (fun b r h => by
      subst h; exact part_init hM O Bd A2 r) ⟨rfl, rfl, rfl, rfl⟩ r1) ?_
  rintro ⟨w, r2⟩ Pw
  have Pu : u.All (Part B M a.nInputs a.nInit a.nMax a.opt) := Pu
  have Pw : w.All (Part B M a.nInit a.nInit a.nMax a.opt) := Pw
  dsimp only
  generalize hl0 : (lstmActive {
      nInputs := a.nInputs, nOutputs := a.nInit, maxOutputs := a.nMax,
      maxGrow := a.maxGrow,
      nActive := 0, outW := a.nInit, fn := a.fn, rfn := rfn, opt := a.opt, eta := 0,
      etaMax := a.eta, momentum := a.momentum, decay := a.decay, u := u, w := w,
      gate := ⟨[], [], [], []⟩, c := [], h := [], dc := [], output := [], delta := [],
      prevState := [], prevCell := [], mu := [] } : TLay K) = l0
  have hc : l0.Counted := by rw [← hl0]; exact lstmActive_counted Pu Pw
  have hu : (lstmSetEta l0).u.All (Part B M a.nInputs a.nInit a.nMax a.opt) := by
    rw [← hl0]
    exact ⟨Pu.f, Pu.i.setEta _, Pu.g.setEta _, Pu.o.setEta _⟩
  have hw : (lstmSetEta l0).w.All (Part B M a.nInit a.nInit a.nMax a.opt) := by
    rw [← hl0]
    exact Pw.map fun c h => h.setEta _
  obtain ⟨l', e, q1, q2, q3, q4, q5, q6, q7, q8⟩ := lstmArrays_ok (B := B) (M := M) (l := lstmSetEta l0) (by rw [← hl0] at hu ⊢; exact hu)
    (by rw [← hl0] at hw ⊢; exact hw) (by rw [← hl0]; exact A.fn) (by rw [← hl0]; exact hr)
    (by rw [← hl0]; rfl)
  obtain ⟨vs, r4, e4, hl, hv⟩ := C44_init O recMu r2
  simp only [bind, Except.bind, e, e4]
  refine ⟨q1 vs hl hv, by rw [← hl0] at q2; exact q2, ?_, by rw [← hl0] at q6; exact q6,
    by rw [← hl0] at q7; exact q7⟩
  refine tcounted_same (l := l0) (l' := { l' with mu := vs }) q5 ?_ ?_ hc
  · show gActive l'.u = _
    rw [q3]
    rfl
  · show gActive l'.w = _
    rw [q4]
    rfl

end Xcsf
