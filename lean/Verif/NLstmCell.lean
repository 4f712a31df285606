import Verif.NLstmGrad
import Verif.NLstmCellSpec

/-!
# Lemmas for property C105: the gates that write an LSTM layer's memory
-/

set_option linter.unusedSectionVars false

namespace Xcsf.LstmGrad
open Finset Xcsf

/-- What the forward pass leaves in a part. -/
structure Fed (a b : CLay ℝ) (x : List ℝ) : Prop where
  par : b.par = a.par
  ws : b.ws = a.ws
  opt : b.opt = a.opt
  bupd : b.ns.map Neuron.bupd = a.ns.map Neuron.bupd
  holds : HoldsSt b x

theorem fed_of {B M n1 n2 : Nat} {mx : Int} {o : LOpt} {a b : CLay ℝ} (P : Part B M n1 n2 mx o a)
    {x : List ℝ} (hx : n1 ≤ x.length) (h : connForward realLibm a x = .ok b) : Fed a b x := by
  obtain ⟨c, q1, q2, q3, q4, q5, q6⟩ := connForward_holds P.shaped (x := x) (by
    rw [P.ins]; exact hx)
  rw [h] at q1
  cases q1
  exact ⟨q2, q3, q4, q5, q6⟩

/-- The forward pass, seen from all gates. -/
theorem forward_all {B M : Nat} {l : TLay ℝ} (L : l.Legal B M) {x : List ℝ}
    (hx : l.nInputs ≤ x.length) :
    ∃ l1, lstmForward realLibm l x = .ok l1 ∧ l1.Legal B M ∧ l1.nInputs = l.nInputs ∧
      l1.nOutputs = l.nOutputs ∧ l1.fn = l.fn ∧ l1.rfn = l.rfn ∧ l1.output = l1.h ∧
      l1.dc = l.dc ∧ (l1.c, l1.h) = after l x ∧
      l1.gate = ⟨gateFn l.rfn l.u.f.par l.w.f.par x l.h, gateFn l.rfn l.u.i.par l.w.i.par x l.h,
        gateFn l.fn l.u.g.par l.w.g.par x l.h, gateFn l.rfn l.u.o.par l.w.o.par x l.h⟩ ∧
      ∀ q : Writer, Fed (q.sel l.u) (q.sel l1.u) x := by
  obtain ⟨l1, h1, L1, d1, _, _, f1, f2, o1, v1⟩ := lstmForward_val L hx
  refine ⟨l1, h1, L1, d1, ?_⟩
  obtain ⟨u, e1, Pu, pu, ou⟩ := forward_gates_val L.u hx
  obtain ⟨w, e2, Pw, pw, ow⟩ := forward_gates_val L.w (x := l.h) (by rw [L.h])
  obtain ⟨m1, m2, m3, _⟩ := mapR_unit e1
  unfold lstmForward at h1
  simp only [bind, Except.bind, e1, e2, gateVal_val L.rfn Pu.f Pw.f, gateVal_val L.rfn Pu.i Pw.i,
    gateVal_val L.fn Pu.g Pw.g, gateVal_val L.rfn Pu.o Pw.o, actArr_val L.fn] at h1
  rw [if_neg (by rw [L.c]; omega)] at h1
  cases h1
  refine ⟨rfl, f1, f2, o1, rfl, v1, ?_, ?_⟩
  · unfold Gates.map at ou ow
    simp only [Gates.mk.injEq] at ou ow
    have sw : ∀ (fn : Int) (a b : List ℝ), List.zipWith (fun a b => actSpec fn (clip (a + b))) a b =
        List.zipWith (fun a b => actSpec fn (clip (a + b))) b a := fun fn a b =>
      zipWith_swap _ (fun a b => actSpec fn (clip (a + b))) (fun a b => by rw [add_comm]) a b
    dsimp only
    rw [ou.1, ow.1, ou.2.1, ow.2.1, ou.2.2.1, ow.2.2.1, ou.2.2.2, ow.2.2.2]
    unfold gateFn
    rw [sw l.rfn (l.w.f.par.out l.h), sw l.rfn (l.w.i.par.out l.h), sw l.fn (l.w.g.par.out l.h),
      sw l.rfn (l.w.o.par.out l.h)]
  · intro q
    cases q
    · exact fed_of L.u.f hx m1
    · exact fed_of L.u.i hx m2
    · exact fed_of L.u.g hx m3

theorem gateBack_u {m : Libm ℝ} {e ps x : List ℝ} {u w u' w' : CLay ℝ} {d d' : Option (List ℝ)}
    (h : gateBack m e ps x u w d = .ok ((u', w'), d')) :
    connBackward m (u.withDelta e) x d = .ok (u', d') ∧ e.length = u.ns.length := by
  unfold gateBack at h
  split at h
  · cases h
  next hn =>
  simp only [bind, Except.bind] at h
  split at h
  · cases h
  split at h
  · cases h
  next _ t5 h5 =>
  obtain ⟨u5, d5⟩ := t5
  cases h
  refine ⟨h5, ?_⟩
  by_contra hc
  exact hn (Or.inl fun e => hc e.symm)

theorem none_of_map {d : Option (List ℝ)} (h : d.map List.length = (none : Option (List ℝ)).map List.length) :
    d = none := by
  cases d with
  | none => rfl
  | some v => simp at h

/-- The error with which the code trains a gate. -/
structure Errs (l l' : TLay ℝ) (x : List ℝ) (q : Writer) (fac : List ℝ) (t2 e : List ℝ) : Prop where
  grad : gradientArray realLibm (q.fn l) (q.sel l.gate) (mulArr l.nOutputs fac t2) = .ok e
  back : connBackward realLibm ((q.sel l.u).withDelta e) x none = .ok (q.sel l'.u, none)
  len : e.length = (q.sel l.u).ns.length

/-- What the gates' errors are multiplied by. -/
def factor (l : TLay ℝ) : Writer → List ℝ
  | .f => l.prevCell
  | .i => l.gate.g
  | .g => l.gate.i

/-- The backward pass, seen from the gates that write the memory. -/
theorem backward_all {B M : Nat} {l : TLay ℝ} (L : l.Legal B M) {x : List ℝ}
    (hx : l.nInputs ≤ x.length) :
    ∃ l' act t2, lstmBackward realLibm l x none = .ok (l', none) ∧
      actArr realLibm l.fn (l.c.take l.nOutputs) = .ok act ∧
      gradientArray realLibm l.fn act (mulArr l.nOutputs l.gate.o (l.delta.take l.nOutputs)) = .ok t2 ∧
      l'.dc = mulArr l.nOutputs l.gate.f (addArr l.nOutputs l.dc t2) ∧
      ∀ q : Writer, ∃ e, Errs l l' x q (factor l q) (addArr l.nOutputs l.dc t2) e := by
  have hps : l.prevState.length = l.nOutputs := by rw [L.prevState]; simp
  have hpc : l.prevCell.length = l.nOutputs := by rw [L.prevCell]; simp
  obtain ⟨act, ea, la⟩ := actArr_ok L.fn realLibm (l.c.take l.nOutputs)
  rw [List.length_take, L.c, min_self] at la
  obtain ⟨t2, e2, l2⟩ := gradArr_ok L.fn realLibm la
    (mulArr_length l.nOutputs l.gate.o (l.delta.take l.nOutputs))
  obtain ⟨eo, eeo, leo⟩ := gradArr_ok L.rfn realLibm L.gate.o
    (mulArr_length l.nOutputs (l.delta.take l.nOutputs) act)
  obtain ⟨uo, wo, d1, f1, _, _, _, _, h1⟩ := gateBack_ok realLibm L.u.o L.w.o leo hps hx none (by simp)
  obtain rfl := none_of_map h1
  obtain ⟨eg, eeg, leg⟩ := gradArr_ok L.fn realLibm L.gate.g
    (mulArr_length l.nOutputs l.gate.i (addArr l.nOutputs l.dc t2))
  obtain ⟨ug, wg, d2, f2, _, _, _, _, h2⟩ := gateBack_ok realLibm L.u.g L.w.g leg hps hx none (by simp)
  obtain rfl := none_of_map h2
  obtain ⟨ei, eei, lei⟩ := gradArr_ok L.rfn realLibm L.gate.i
    (mulArr_length l.nOutputs l.gate.g (addArr l.nOutputs l.dc t2))
  obtain ⟨ui, wi, d3, f3, _, _, _, _, h3⟩ := gateBack_ok realLibm L.u.i L.w.i lei hps hx none (by simp)
  obtain rfl := none_of_map h3
  obtain ⟨ef, eef, lef⟩ := gradArr_ok L.rfn realLibm L.gate.f
    (mulArr_length l.nOutputs l.prevCell (addArr l.nOutputs l.dc t2))
  obtain ⟨uf, wf, d4, f4, _, _, _, _, h4⟩ := gateBack_ok realLibm L.u.f L.w.f lef hps hx none (by simp)
  obtain rfl := none_of_map h4
  refine ⟨{ l with
      u := ⟨uf, ui, ug, uo⟩, w := ⟨wf, wi, wg, wo⟩,
      dc := mulArr l.nOutputs l.gate.f (addArr l.nOutputs l.dc t2) }, act, t2, ?_, ea, e2, rfl, ?_⟩
  · unfold lstmBackward
    rw [if_neg (by rw [L.delta, L.c, L.dc, hpc]; omega)]
    simp only [bind, Except.bind]
    rw [ea]
    dsimp only
    rw [e2]
    dsimp only
    rw [eeo]
    dsimp only
    rw [f1]
    dsimp only
    rw [eeg]
    dsimp only
    rw [f2]
    dsimp only
    rw [eei]
    dsimp only
    rw [f3]
    dsimp only
    rw [eef]
    dsimp only
    rw [f4]
  · intro q
    cases q
    · obtain ⟨a, b⟩ := gateBack_u f4
      exact ⟨ef, eef, a, b⟩
    · obtain ⟨a, b⟩ := gateBack_u f3
      exact ⟨ei, eei, a, b⟩
    · obtain ⟨a, b⟩ := gateBack_u f2
      exact ⟨eg, eeg, a, b⟩

/-- A linear part learns the error it is given. -/
theorem part_learns {c c1 c' : CLay ℝ} {x e : List ℝ} {d : Option (List ℝ)} (S : c.par.Shaped)
    (hx : c.nInputs = x.length) (hf : c.fn = 3) (hs : c.par.Smooth x) (F : Fed c c1 x)
    (hsgd : c.opt.sgd = true) (he : e.length = c1.ns.length)
    (hB : connBackward realLibm (c1.withDelta e) x none = .ok (c', d)) :
    ∀ k < c.nOutputs, (c'.ns.map Neuron.bupd).getD k 0 =
        (c.ns.map Neuron.bupd).getD k 0 + e.getD k 0 ∧
      ∀ j < c.nInputs, (c'.ws.map Wt.upd).getD (k * c.nInputs + j) 0 =
        (c.ws.map Wt.upd).getD (k * c.nInputs + j) 0 + e.getD k 0 * x.getD j 0 := by
  have f3 : actSpec 3 = id := by funext x; simp [actSpec]
  obtain ⟨w1, w2, w3, w4, w5, w6⟩ := withDelta_facts he
  have n3 : (c1.withDelta e).nInputs = c.nInputs := by
    show c1.par.nIn = _; rw [F.par]; rfl
  have n4 : (c1.withDelta e).nOutputs = c.nOutputs := by
    show c1.par.nOut = _; rw [F.par]; rfl
  have n5 : (c1.withDelta e).fn = c.fn := by
    show c1.par.fn = _; rw [F.par]; rfl
  obtain ⟨c2, dd, b3, b4, b5, _⟩ := connBackward_spec (l := c1.withDelta e)
    (by rw [w1, F.par]; exact S) (x := x) (by rw [n3, hx])
    (by
      intro k hk
      rw [w1, F.par, n5]
      exact smooth_clip hs k (by rw [n4] at hk; exact hk))
    (holds_withDelta he F.holds)
    (by show c1.opt.sgd = true; rw [F.opt]; exact hsgd) none (by simp)
  have b6 := hB.symm.trans b3
  injection b6 with b6
  have b7 : c' = c2 := congrArg Prod.fst b6
  have hloc : ∀ k, locGrad (c1.withDelta e) x k = e.getD k 0 := by
    intro k
    unfold locGrad
    rw [w2, n5, hf, f3, deriv_id, mul_one]
  have hws : (c1.withDelta e).ws = c.ws := F.ws
  intro k hk
  refine ⟨?_, fun j hj => ?_⟩
  · rw [b7, b5 k (by rw [n4]; exact hk), w4, F.bupd, hloc]
  · have := b4 k (by rw [n4]; exact hk) j (by rw [n3]; exact hj)
    rw [n3, hws, hloc] at this
    rw [b7, this]

/-- Memory and output of a step, neuron by neuron. -/
theorem cell_getD {fn rfn : Int} {u w : Gates Par} {s : List ℝ × List ℝ} {x : List ℝ} {n k : Nat}
    (hu : u.All fun p => p.nOut = n) (hw : w.All fun p => p.nOut = n) (hs : s.1.length = n)
    (hk : k < n) :
    (lstmCell fn rfn u w s x).1.getD k 0 =
      (gateFn rfn u.f w.f x s.2).getD k 0 * s.1.getD k 0 +
        (gateFn rfn u.i w.i x s.2).getD k 0 * (gateFn fn u.g w.g x s.2).getD k 0 ∧
    (lstmCell fn rfn u w s x).2.getD k 0 = (gateFn rfn u.o w.o x s.2).getD k 0 *
      actSpec fn (clip ((lstmCell fn rfn u w s x).1.getD k 0)) := by
  have gl : ∀ (a : Int) {p q : Par}, p.nOut = n → q.nOut = n → (gateFn a p q x s.2).length = n := by
    intro a p q hp hq
    unfold gateFn
    rw [List.length_zipWith, out_length, out_length, hp, hq, min_self]
  have l1 := gl rfn hu.f hw.f
  have l2 := gl rfn hu.i hw.i
  have l3 := gl fn hu.g hw.g
  have l4 := gl rfn hu.o hw.o
  constructor
  · unfold lstmCell
    dsimp only
    rw [zip_getD _ (by simp [l1, hs, hk]) (by simp [l2, l3, hk]), zip_getD _ (by omega) (by omega),
      zip_getD _ (by omega) (by omega)]
  · unfold lstmCell
    dsimp only
    rw [zip_getD _ (by omega) (by simp [l1, l2, l3, hs, hk])]

/-- The error of the outputs, as a function of what the part of a gate says. -/
noncomputable def errCell (fn gfn : Int) (o a b w : Nat → ℝ) (t y : List ℝ) : ℝ :=
  -(1 / 2) * ∑ k ∈ range t.length, (t.getD k 0 -
    o k * actSpec fn (clip (b k + a k * actSpec gfn (clip (y.getD k 0 + w k))))) ^ 2

/-- Its gradient. -/
theorem isGrad_cell {fn gfn : Int} {o a b w : Nat → ℝ} {t y e : List ℝ} (ht : t.length = y.length)
    (hs : ∀ k < y.length, -100 < y.getD k 0 + w k ∧ y.getD k 0 + w k < 100 ∧
      DifferentiableAt ℝ (actSpec gfn) (y.getD k 0 + w k))
    (hc : ∀ k < y.length, let c := b k + a k * actSpec gfn (clip (y.getD k 0 + w k));
      -100 < c ∧ c < 100 ∧ DifferentiableAt ℝ (actSpec fn) c)
    (he : ∀ k < y.length, let c := b k + a k * actSpec gfn (clip (y.getD k 0 + w k))
      e.getD k 0 = (t.getD k 0 - o k * actSpec fn (clip c)) * o k * deriv (actSpec fn) c * a k *
        deriv (actSpec gfn) (y.getD k 0 + w k)) :
    IsGrad (errCell fn gfn o a b w t) y e := by
  intro q v q' hq hl hd
  have h1 : HasDerivAt (fun u => ∑ k ∈ range t.length, (t.getD k 0 -
      o k * actSpec fn (clip (b k + a k * actSpec gfn (clip ((q u).getD k 0 + w k))))) ^ 2)
      (∑ k ∈ range t.length, -2 * (e.getD k 0 * q' k)) v := by
    refine HasDerivAt.fun_sum fun k hk => ?_
    have hk : k < y.length := by rw [← ht]; exact mem_range.1 hk
    have hqv : (q v).getD k 0 = y.getD k 0 := by rw [hq]
    obtain ⟨s0, s1, s2⟩ := hs k hk
    obtain ⟨c0, c1, c2⟩ := hc k hk
    have g1 := act_hasDeriv (a := gfn) ((hd k hk).add_const (w k)) (by rw [hqv]; exact s0)
      (by rw [hqv]; exact s1) (by rw [hqv]; exact s2)
    have g2 := (g1.const_mul (a k)).const_add (b k)
    have g3 := act_hasDeriv (a := fn) g2 (by rw [hqv]; exact c0) (by rw [hqv]; exact c1)
      (by rw [hqv]; exact c2)
    have g4 := ((hasDerivAt_const v (t.getD k 0)).sub (g3.const_mul (o k))).pow 2
    refine g4.congr_deriv ?_
    have := he k hk
    dsimp only at this
    rw [this]
    simp only [hqv, Pi.sub_apply]
    push_cast
    ring
  have h2 := h1.const_mul (-(1 / 2))
  refine HasDerivAt.congr_deriv (f' := _) h2 ?_
  rw [mul_sum, ← ht]
  refine sum_congr rfl fun k _ => ?_
  ring

/-- An array of zeros keeps its zeros. -/
theorem gradientArray_zero {m : Libm ℝ} {fn : Int} : ∀ {ss ds es : List ℝ},
    gradientArray m fn ss ds = .ok es → (∀ d ∈ ds, d = 0) → ∀ e ∈ es, e = 0
  | [], [], es, h, _ => by
    unfold gradientArray at h; cases h; simp
  | s :: ss, d :: ds, es, h, hd => by
    unfold gradientArray at h
    split at h
    · cases h
    split at h
    · cases h
    next _ r hr =>
    cases h
    intro e he
    rcases List.mem_cons.1 he with rfl | he
    · rw [hd d List.mem_cons_self]; simp
    · exact gradientArray_zero hr (fun d hm => hd d (List.mem_cons_of_mem _ hm)) e he
  | [], d :: ds, es, h, _ => by
    unfold gradientArray at h; cases h
  | s :: ss, [], es, h, _ => by
    unfold gradientArray at h; cases h

end Xcsf.LstmGrad
