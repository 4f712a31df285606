import Verif.NSeqLearn
import Verif.NLstmGradSpec
import Verif.NGradGenRec

/-!
# Lemmas for property C105: the learning step of an LSTM layer
-/

set_option linter.unusedSectionVars false

namespace Xcsf.LstmGrad
open Finset Xcsf

/-- The forward pass, seen from the output gate. -/
theorem forward_gate {B M : Nat} {l : TLay ℝ} (L : l.Legal B M) {x : List ℝ}
    (hx : l.nInputs ≤ x.length) :
    ∃ l1, lstmForward realLibm l x = .ok l1 ∧ l1.Legal B M ∧ l1.nInputs = l.nInputs ∧
      l1.nOutputs = l.nOutputs ∧ l1.fn = l.fn ∧ l1.rfn = l.rfn ∧ l1.output = l1.h ∧
      (l1.c, l1.h) = lstmCell l.fn l.rfn (l.u.map CLay.par) (l.w.map CLay.par) (l.c, l.h) x ∧
      l1.gate.o = gateFn l.rfn l.u.o.par l.w.o.par x l.h ∧
      l1.u.o.par = l.u.o.par ∧ l1.u.o.ws = l.u.o.ws ∧ l1.u.o.opt = l.u.o.opt ∧
      l1.u.o.ns.map Neuron.bupd = l.u.o.ns.map Neuron.bupd ∧ HoldsSt l1.u.o x := by
  obtain ⟨l1, h1, L1, d1, _, _, f1, f2, o1, v1⟩ := lstmForward_val L hx
  refine ⟨l1, h1, L1, d1, ?_⟩
  obtain ⟨u, e1, Pu, pu, ou⟩ := forward_gates_val L.u hx
  obtain ⟨w, e2, Pw, pw, ow⟩ := forward_gates_val L.w (x := l.h) (by rw [L.h])
  obtain ⟨_, _, _, uo⟩ := mapR_unit e1
  unfold lstmForward at h1
  simp only [bind, Except.bind, e1, e2, gateVal_val L.rfn Pu.f Pw.f, gateVal_val L.rfn Pu.i Pw.i,
    gateVal_val L.fn Pu.g Pw.g, gateVal_val L.rfn Pu.o Pw.o, actArr_val L.fn] at h1
  rw [if_neg (by rw [L.c]; omega)] at h1
  cases h1
  refine ⟨rfl, f1, f2, o1, v1, ?_, ?_⟩
  · show List.zipWith _ w.o.outs u.o.outs = _
    unfold Gates.map at ou ow
    simp only [Gates.mk.injEq] at ou ow
    rw [ou.2.2.2, ow.2.2.2]
    unfold gateFn
    rw [zipWith_swap _ (fun a b => actSpec l.rfn (clip (a + b))) (fun a b => by rw [add_comm])]
  · obtain ⟨c, q1, q2, q3, q4, q5, q6⟩ := connForward_holds L.u.o.shaped (x := x) (by
      rw [L.u.o.ins]; exact hx)
    rw [uo] at q1
    cases q1
    exact ⟨q2, q3, q4, q5, q6⟩

/-- The backward pass, seen from the output gate. -/
theorem backward_gate {B M : Nat} {l l' : TLay ℝ} (L : l.Legal B M) {x : List ℝ}
    {d d' : Option (List ℝ)} (h : lstmBackward realLibm l x d = .ok (l', d')) :
    ∃ act eo d1, actArr realLibm l.fn (l.c.take l.nOutputs) = .ok act ∧
      gradientArray realLibm l.rfn l.gate.o (mulArr l.nOutputs (l.delta.take l.nOutputs) act) = .ok eo ∧
      connBackward realLibm (l.u.o.withDelta eo) x d = .ok (l'.u.o, d1) ∧
      l.u.o.ns.length = eo.length := by
  have hpc : l.prevCell.length = l.nOutputs := by rw [L.prevCell]; simp
  unfold lstmBackward at h
  rw [if_neg (by rw [L.delta, L.c, L.dc, hpc]; omega)] at h
  simp only [bind, Except.bind] at h
  split at h
  · cases h
  next _ act ha =>
  split at h
  · cases h
  split at h
  · cases h
  next _ eo he =>
  split at h
  · cases h
  next _ t1 h1 =>
  obtain ⟨⟨uo, wo⟩, d1⟩ := t1
  dsimp only at h
  split at h
  · cases h
  split at h
  · cases h
  next _ t2 h2 =>
  obtain ⟨⟨ug, wg⟩, d2⟩ := t2
  dsimp only at h
  split at h
  · cases h
  split at h
  · cases h
  next _ t3 h3 =>
  obtain ⟨⟨ui, wi⟩, d3⟩ := t3
  dsimp only at h
  split at h
  · cases h
  split at h
  · cases h
  next _ t4 h4 =>
  obtain ⟨⟨uf, wf⟩, d4⟩ := t4
  cases h
  unfold gateBack at h1
  split at h1
  · cases h1
  next hn =>
  simp only [bind, Except.bind] at h1
  split at h1
  · cases h1
  split at h1
  · cases h1
  next _ t5 h5 =>
  obtain ⟨u', d5⟩ := t5
  cases h1
  refine ⟨act, eo, _, ha, he, h5, ?_⟩
  by_contra hc
  exact hn (Or.inl hc)

theorem gateFn_getD {fn : Int} {u w : Par} {x h : List ℝ} {k : Nat} (hu : k < u.nOut)
    (hw : k < w.nOut) : (gateFn fn u w x h).getD k 0 = actSpec fn (clip (gateState u w x h k)) := by
  have h1 : k < (u.out x).length := by rw [out_length]; exact hu
  have h2 : k < (w.out h).length := by rw [out_length]; exact hw
  unfold gateFn gateState
  simp [List.getD, h1, h2]

theorem zip_getD (f : ℝ → ℝ → ℝ) {a b : List ℝ} {k : Nat} (ha : k < a.length) (hb : k < b.length) :
    (List.zipWith f a b).getD k 0 = f (a.getD k 0) (b.getD k 0) := by
  simp [List.getD, ha, hb]

/-- The error of the outputs, as a function of what the part of the output gate says. -/
noncomputable def errOf (fn rfn : Int) (w c t y : List ℝ) : ℝ :=
  halfError t (List.zipWith (fun a b => a * actSpec fn (clip b))
    (List.zipWith (fun a b => actSpec rfn (clip (a + b))) y w) c)

/-- Its gradient. -/
theorem isGrad_gate {fn rfn : Int} {w c t y e : List ℝ} (hw : w.length = y.length)
    (hc : c.length = y.length) (ht : t.length = y.length)
    (hs : ∀ k < y.length, -100 < y.getD k 0 + w.getD k 0 ∧ y.getD k 0 + w.getD k 0 < 100 ∧
      DifferentiableAt ℝ (actSpec rfn) (y.getD k 0 + w.getD k 0))
    (he : ∀ k < y.length, e.getD k 0 = (t.getD k 0 -
      actSpec rfn (clip (y.getD k 0 + w.getD k 0)) * actSpec fn (clip (c.getD k 0))) *
        actSpec fn (clip (c.getD k 0)) * deriv (actSpec rfn) (y.getD k 0 + w.getD k 0)) :
    IsGrad (errOf fn rfn w c t) y e := by
  intro q v q' hq hl hd
  have hz : ∀ u k, k < y.length → (List.zipWith (fun a b => a * actSpec fn (clip b))
      (List.zipWith (fun a b => actSpec rfn (clip (a + b))) (q u) w) c).getD k 0 =
      actSpec rfn (clip ((q u).getD k 0 + w.getD k 0)) * actSpec fn (clip (c.getD k 0)) := by
    intro u k hk
    rw [zip_getD _ (by simp [hl, hw, hk]) (by omega), zip_getD _ (by rw [hl]; exact hk) (by omega)]
  have g := isGrad_error t (List.zipWith (fun a b => a * actSpec fn (clip b))
    (List.zipWith (fun a b => actSpec rfn (clip (a + b))) y w) c) (by simp [hw, hc, ht])
  have h1 := g (fun u => List.zipWith (fun a b => a * actSpec fn (clip b))
      (List.zipWith (fun a b => actSpec rfn (clip (a + b))) (q u) w) c) v
    (fun k => deriv (actSpec rfn) (y.getD k 0 + w.getD k 0) * q' k * actSpec fn (clip (c.getD k 0)))
    (by rw [hq]) (fun u => by simp [hl, hw, hc]) (fun k hk => by
      have hk : k < y.length := by simpa [hw, hc] using hk
      obtain ⟨s0, s1, s2⟩ := hs k hk
      have e : (fun u => (List.zipWith (fun a b => a * actSpec fn (clip b))
          (List.zipWith (fun a b => actSpec rfn (clip (a + b))) (q u) w) c).getD k 0) =
          fun u => actSpec rfn (clip ((q u).getD k 0 + w.getD k 0)) * actSpec fn (clip (c.getD k 0)) := by
        funext u; exact hz u k hk
      rw [e]
      have hqv : (q v).getD k 0 = y.getD k 0 := by rw [hq]
      have := act_hasDeriv (a := rfn) ((hd k hk).add_const (w.getD k 0)) (by rw [hqv]; exact s0)
        (by rw [hqv]; exact s1) (by rw [hqv]; exact s2)
      rw [hqv] at this
      exact this.mul_const _)
  refine HasDerivAt.congr_deriv (f' := _) h1 ?_
  have hlen : (List.zipWith (fun a b => a * actSpec fn (clip b))
      (List.zipWith (fun a b => actSpec rfn (clip (a + b))) y w) c).length = y.length := by
    simp [hw, hc]
  rw [hlen]
  refine sum_congr rfl fun k hk => ?_
  have hk := mem_range.1 hk
  have hz' := hz v k hk
  rw [hq] at hz'
  rw [zip_getD _ (by omega) (by rw [hlen]; exact hk), hz', he k hk]
  ring

end Xcsf.LstmGrad
