import Verif.NLstmGrad

/-!
# Property C105: what an LSTM layer learns

In one learning step every parameter of an LSTM layer is to grow by the derivative of the output's
half squared error. The code takes the derivatives of the gates' activation functions not at the
gates' states but at their values (neural_layer_lstm.c:469-495): `neural_gradient_array` expects
states and is given what `neural_activate_array` has already replaced. Shown here for the output
gate, for every legal layer with any memory: the update is the derivative with `ρ' (ρ s)` in place
of `ρ' s`. Where the two agree, as for linear gates, it is the derivative (`_partial`); with the
default functions it is not (`_refuted`).
-/

set_option linter.unusedSectionVars false

namespace Xcsf.LstmGrad
open Xcsf

/-- **C105, what the output gate learns.** For every legal LSTM layer, any memory, input and target:
one step forward and backward raises the updates of the output gate's weights and biases by the
derivatives of the error in which the derivative of the gate's function at its state is replaced
by the one at its value. -/
theorem C105_output_gate {B M : Nat} {l : TLay ℝ} (L : l.Legal B M) {x t : List ℝ}
    (hx : x.length = l.nInputs) (ht : t.length = l.nOutputs) (D : GateDiff l x) :
    ∃ l1 l2 d2, lstmForward realLibm l x = .ok l1 ∧
      lstmBackward realLibm (withErr l1 t) x none = .ok (l2, d2) ∧
      ∀ k < l.nOutputs,
        let s := gateState l.u.o.par l.w.o.par x l.h k
        (HasDerivAt (fun v => outError l x t { l.u.o.par with b := l.u.o.par.b.set k v })
            (through l x t k * deriv (actSpec l.rfn) s) (l.u.o.par.b.getD k 0) ∧
          (l2.u.o.ns.map Neuron.bupd).getD k 0 = (l.u.o.ns.map Neuron.bupd).getD k 0 +
            through l x t k * deriv (actSpec l.rfn) (actSpec l.rfn s)) ∧
        ∀ j < l.nInputs,
          HasDerivAt
            (fun v => outError l x t { l.u.o.par with w := l.u.o.par.w.set (k * l.nInputs + j) v })
            (through l x t k * deriv (actSpec l.rfn) s * x.getD j 0)
            (l.u.o.par.w.getD (k * l.nInputs + j) 0) ∧
          (l2.u.o.ws.map Wt.upd).getD (k * l.nInputs + j) 0 =
            (l.u.o.ws.map Wt.upd).getD (k * l.nInputs + j) 0 +
              through l x t k * deriv (actSpec l.rfn) (actSpec l.rfn s) * x.getD j 0 := by
  obtain ⟨l1, f1, L1, n1, n2, p1, p2, o1, v1, g1, u1, u2, u3, u4, u5⟩ :=
    forward_gate L (x := x) hx.ge
  have e1 : l1.c = (lstmCell l.fn l.rfn (l.u.map CLay.par) (l.w.map CLay.par) (l.c, l.h) x).1 := by
    rw [← v1]
  have e2 : l1.h = (lstmCell l.fn l.rfn (l.u.map CLay.par) (l.w.map CLay.par) (l.c, l.h) x).2 := by
    rw [← v1]
  have hu : l.u.o.par.nOut = l.nOutputs := L.u.o.outs
  have hi : l.u.o.par.nIn = l.nInputs := L.u.o.ins
  have hw : l.w.o.par.nOut = l.nOutputs := L.w.o.outs
  have S : l.u.o.par.Shaped := L.u.o.shaped
  have f3 : actSpec 3 = id := by funext x; simp [actSpec]
  have hf : l.u.o.par.fn = 3 := D.linear
  have d3 : ∀ s : ℝ, deriv (actSpec l.u.o.par.fn) s = 1 := fun s => by rw [hf, f3]; exact deriv_id s
  have hs : l.u.o.par.Smooth x := fun k hk => by
    obtain ⟨a, b⟩ := D.inp k (by rw [← hu]; exact hk)
    exact ⟨a, b, by rw [hf, f3]; exact differentiableAt_id⟩
  have hc : l1.c.length = l.nOutputs := by rw [L1.c, n2]
  have hot : l1.output.length = l.nOutputs := by rw [L1.output, n2]
  have hdl : (List.zipWith (fun t o => t - o) t l1.output).length = l.nOutputs := by
    simp [ht, hot]
  -- the value of the output
  have hval : ∀ k < l.nOutputs, l1.h.getD k 0 =
      actSpec l.rfn (clip (gateState l.u.o.par l.w.o.par x l.h k)) * actSpec l.fn (clip (l1.c.getD k 0)) := by
    intro k hk
    have : l1.h = List.zipWith (fun a b => a * actSpec l.fn (clip b))
        (gateFn l.rfn l.u.o.par l.w.o.par x l.h) l1.c := by rw [e2, e1]; rfl
    have hg : (gateFn l.rfn l.u.o.par l.w.o.par x l.h).length = l.nOutputs := by
      rw [← g1, L1.gate.o, n2]
    rw [this, zip_getD _ (by rw [hg]; exact hk) (by rw [hc]; exact hk),
      gateFn_getD (by rw [hu]; exact hk) (by rw [hw]; exact hk)]
  have hthr : ∀ k, through l x t k =
      (t.getD k 0 - l1.h.getD k 0) * actSpec l.fn (clip (l1.c.getD k 0)) := by
    intro k; unfold through; rw [e1, e2]
  -- the gradient with respect to what the part of the gate says
  have G : IsGrad (errOf l.fn l.rfn (l.w.o.par.out l.h) l1.c t) (l.u.o.par.out x)
      (ofArr l.nOutputs fun k => through l x t k *
        deriv (actSpec l.rfn) (gateState l.u.o.par l.w.o.par x l.h k)) := by
    refine isGrad_gate (by rw [out_length, out_length, hu, hw]) (by rw [hc, out_length, hu])
      (by rw [ht, out_length, hu]) (fun k hk => ?_) (fun k hk => ?_)
    · obtain ⟨a, b, c, _⟩ := D.gate k (by rw [out_length, hu] at hk; exact hk)
      exact ⟨a, b, c⟩
    · have hk' : k < l.nOutputs := by rw [out_length, hu] at hk; exact hk
      rw [arrOf_ofArr _ hk', hthr, hval k hk']
      rfl
  have hF : ∀ p : Par, outError l x t p =
      errOf l.fn l.rfn (l.w.o.par.out l.h) l1.c t (p.out x) := by
    intro p; rw [e1]; rfl
  -- the code
  have L1' : (withErr l1 t).Legal B M :=
    ⟨L1.u, L1.w, L1.gate, L1.c, L1.h, L1.dc, L1.output, hdl.trans n2.symm, L1.prevState,
      L1.prevCell, L1.mu, L1.fn, L1.rfn, L1.wide⟩
  obtain ⟨l2, d2, b2, _⟩ := lstmBackward_step realLibm L1' (x := x)
    (by show l1.nInputs ≤ _; rw [n1, hx]) none (by simp)
  refine ⟨l1, l2, d2, f1, b2, ?_⟩
  obtain ⟨act, eo, d1, a1, a2, a3, a4⟩ := backward_gate L1' b2
  rw [actArr_val L1'.fn] at a1
  cases a1
  have hgd : ∀ k < l.nOutputs, l1.gate.o.getD k 0 =
      actSpec l.rfn (gateState l.u.o.par l.w.o.par x l.h k) := by
    intro k hk
    obtain ⟨a, b, _⟩ := D.gate k hk
    rw [g1, gateFn_getD (by rw [hu]; exact hk) (by rw [hw]; exact hk), clip_id a b]
  have hgl : l1.gate.o.length = l.nOutputs := by rw [L1.gate.o, n2]
  rw [show (withErr l1 t).gate.o = l1.gate.o from rfl, show (withErr l1 t).rfn = l.rfn from p2] at a2
  rw [C50_gradient_array L.rfn.1 L.rfn.2 _ _ (by
      rw [mulArr_length, hgl]; exact n2.symm) (by
      intro s hm
      obtain ⟨k, hk, rfl⟩ := List.getElem_of_mem hm
      rw [hgl] at hk
      have := hgd k hk
      rw [getD_lt (by rw [hgl]; exact hk)] at this
      rw [this]
      exact (D.gate k hk).2.2.2)] at a2
  injection a2 with a2
  have heo : ∀ k < l.nOutputs, eo.getD k 0 = through l x t k *
      deriv (actSpec l.rfn) (actSpec l.rfn (gateState l.u.o.par l.w.o.par x l.h k)) := by
    intro k hk
    rw [← a2, zip_getD _ (by rw [hgl]; exact hk) (by rw [mulArr_length]; exact n2 ▸ hk), hgd k hk]
    congr 1
    unfold mulArr
    rw [arrOf_ofArr _ (show k < (withErr l1 t).nOutputs from n2 ▸ hk), hthr]
    show ((l1.c.take l1.nOutputs).map fun s => actSpec l1.fn (clip s)).getD k 0 *
      ((List.zipWith (fun t o => t - o) t l1.output).take l1.nOutputs).getD k 0 = _
    rw [List.take_of_length_le (by rw [hc, n2]), List.take_of_length_le (by rw [hdl, n2]),
      zip_getD _ (by rw [ht]; exact hk) (by rw [hot]; exact hk), o1, p1,
      getD_lt (by simp [hc, hk]), List.getElem_map, ← getD_lt (z := (0 : ℝ))]
    ring
  have heol : eo.length = l1.u.o.ns.length := a4.symm
  obtain ⟨w1, w2, w3, w4, w5, w6⟩ := withDelta_facts heol
  have n3 : (l1.u.o.withDelta eo).nInputs = l.nInputs := by
    show l1.u.o.par.nIn = _; rw [u1, hi]
  have n4 : (l1.u.o.withDelta eo).nOutputs = l.nOutputs := by
    show l1.u.o.par.nOut = _; rw [u1, hu]
  have n5 : (l1.u.o.withDelta eo).fn = l.u.o.par.fn := by
    show l1.u.o.par.fn = _; rw [u1]
  obtain ⟨c', dd, b3, b4, b5, _⟩ := connBackward_spec (l := l1.u.o.withDelta eo)
    (by rw [w1, u1]; exact S) (x := x) (by rw [n3, hx])
    (by
      intro k hk
      rw [w1, u1, n5]
      exact smooth_clip hs k (by rw [hu, ← n4]; exact hk))
    (holds_withDelta heol u5)
    (by show l1.u.o.opt.sgd = true; rw [u3, L.u.o.opt]; exact D.sgd) none (by simp)
  have b6 := a3.symm.trans b3
  injection b6 with b6
  have b7 : l2.u.o = c' := congrArg Prod.fst b6
  have hloc : ∀ k < l.nOutputs, locGrad (l1.u.o.withDelta eo) x k = through l x t k *
      deriv (actSpec l.rfn) (actSpec l.rfn (gateState l.u.o.par l.w.o.par x l.h k)) := by
    intro k hk
    unfold locGrad
    rw [w2, n5, d3, mul_one, heo k hk]
  have hws : (l1.u.o.withDelta eo).ws = l.u.o.ws := u2
  intro k hk
  refine ⟨⟨?_, ?_⟩, fun j hj => ⟨?_, ?_⟩⟩
  · have := grad_param (p := l.u.o.par) hs G
      (fun v => { l.u.o.par with b := l.u.o.par.b.set k v })
      (l.u.o.par.b.getD k 0) 1 (by rw [hu]; exact hk) (fun _ => rfl) (fun _ => rfl)
      (fun u i => by rw [pre_setB S x (by rw [hu]; exact hk) u i, mul_one])
    rw [mul_one, d3, mul_one, arrOf_ofArr _ hk] at this
    simp only [hF]
    exact this
  · rw [b7, b5 k (by rw [n4]; exact hk), w4, u4, hloc k hk]
  · have := grad_param (p := l.u.o.par) hs G
      (fun v => { l.u.o.par with w := l.u.o.par.w.set (k * l.nInputs + j) v })
      (l.u.o.par.w.getD (k * l.nInputs + j) 0) (x.getD j 0) (by rw [hu]; exact hk) (fun _ => rfl)
      (fun _ => rfl) (fun u i => by
        rw [show l.nInputs = l.u.o.par.nIn from hi.symm]
        exact pre_setW S x (a := k) (b := j) (by rw [hu]; exact hk) (by rw [hi]; exact hj) u i)
    rw [d3, mul_one, arrOf_ofArr _ hk] at this
    simp only [hF]
    exact this
  · have := b4 k (by rw [n4]; exact hk) j (by rw [n3]; exact hj)
    rw [n3, hws, hloc k hk] at this
    rw [b7, this]

/-- **C105, where it holds.** If the derivative of the gate's function at the gate's value is that
at its state, as for linear gates, then the updates of the output gate grow by the derivatives of
the error with respect to its parameters. Missing: every other gate function; the parts that read
the last output, which do not learn (`C71_lstm_memory_never_learned`). The other three gates:
`C105_memory_gates`. -/
theorem C105_output_gate_partial {B M : Nat} {l : TLay ℝ} (L : l.Legal B M) {x t : List ℝ}
    (hx : x.length = l.nInputs) (ht : t.length = l.nOutputs) (D : GateDiff l x)
    (same : ∀ k < l.nOutputs,
      deriv (actSpec l.rfn) (actSpec l.rfn (gateState l.u.o.par l.w.o.par x l.h k)) =
        deriv (actSpec l.rfn) (gateState l.u.o.par l.w.o.par x l.h k)) :
    ∃ l1 l2 d2, lstmForward realLibm l x = .ok l1 ∧
      lstmBackward realLibm (withErr l1 t) x none = .ok (l2, d2) ∧
      UpdatesAre l.u.o l2.u.o (outError l x t) := by
  obtain ⟨l1, l2, d2, h1, h2, h⟩ := C105_output_gate L hx ht D
  have hu : l.u.o.nOutputs = l.nOutputs := L.u.o.outs
  have hi : l.u.o.nInputs = l.nInputs := L.u.o.ins
  refine ⟨l1, l2, d2, h1, h2, ?_, ?_⟩
  · intro i hi' j hj
    rw [hu] at hi'
    rw [hi] at hj
    obtain ⟨a, b⟩ := (h i hi').2 j hj
    rw [hi, b, add_sub_cancel_left, same i hi']
    exact a
  · intro i hi'
    rw [hu] at hi'
    obtain ⟨a, b⟩ := (h i hi').1
    rw [b, add_sub_cancel_left, same i hi']
    exact a

/-! ## A layer with the default functions -/

/-- A connected part of one neuron. -/
noncomputable def unit (b : ℝ) : CLay ℝ :=
  { nInputs := 1, nOutputs := 1, maxOutputs := 1, maxGrow := 1, nActive := 1,
    outW := 1, outH := 1, outC := 1, fn := 3, opt := ⟨true, false, false, true, false, false⟩,
    eta := 1 / 10, etaMax := 1 / 10, etaMin := 0, momentum := 1 / 2, decay := 0,
    ws := [⟨1, 0, true⟩], ns := [⟨b, 0, 0, 0, 0⟩], mu := List.replicate 6 1 }

/-- An LSTM layer of one neuron with empty memory, candidate function `fn` and gate function
`rfn`; the bias of the candidate is one. -/
noncomputable def oneCell (fn rfn : Int) : TLay ℝ :=
  { nInputs := 1, nOutputs := 1, maxOutputs := 1, maxGrow := 1, nActive := 8, outW := 1,
    fn := fn, rfn := rfn, opt := ⟨true, false, false, true, false, false⟩,
    eta := 1 / 10, etaMax := 1 / 10, momentum := 1 / 2, decay := 0,
    u := ⟨unit 0, unit 0, unit 1, unit 0⟩, w := ⟨unit 0, unit 0, unit 0, unit 0⟩,
    gate := ⟨[0], [0], [0], [0]⟩, c := [0], h := [0], dc := [0], output := [0], delta := [0],
    prevState := [0], prevCell := [0], mu := List.replicate 6 1 }

theorem unit_part {b : ℝ} (h0 : -10 ≤ b) (h1 : b ≤ 10) :
    Part 1 1 1 1 1 ⟨true, false, false, true, false, false⟩ (unit b) := by
  refine ⟨⟨le_refl _, le_refl _, rfl, rfl, ?_, ?_, by simp [unit], ⟨by simp [unit], ?_⟩, ?_⟩,
    ⟨le_refl _, le_refl _, by simp [unit], le_refl _, by simp [unit], by omega⟩, rfl, rfl, rfl, rfl⟩
  · intro w hw
    simp only [unit, List.mem_singleton] at hw
    subst hw
    refine ⟨?_, ?_, by simp⟩ <;> norm_num
  · intro n hn
    simp only [unit, List.mem_singleton] at hn
    subst hn
    exact ⟨h0, h1⟩
  · intro v hv
    rw [List.eq_of_mem_replicate hv]
    constructor <;> norm_num
  · show (0 : Int) ≤ 3 ∧ (3 : Int) < 11; decide

theorem oneCell_legal {fn rfn : Int} (h : 0 ≤ fn ∧ fn < 11) (h' : 0 ≤ rfn ∧ rfn < 11) :
    (oneCell fn rfn).Legal 1 1 := by
  have p0 := unit_part (b := 0) (by norm_num) (by norm_num)
  have p1 := unit_part (b := 1) (by norm_num) (by norm_num)
  refine ⟨⟨p0, p0, p1, p0⟩, ⟨p0, p0, p0, p0⟩, ⟨rfl, rfl, rfl, rfl⟩, rfl, rfl, rfl, rfl, rfl, rfl, rfl,
    ⟨by simp [oneCell], ?_⟩, h, h', rfl⟩
  intro v hv
  rw [List.eq_of_mem_replicate hv]
  constructor <;> norm_num

theorem unit_says (b : ℝ) (h0 : -100 < b) (h1 : b < 100) : (unit b).par.out [0] = [b] := by
  show [actSpec 3 (clip ((unit b).par.pre [0] 0))] = _
  have : (unit b).par.pre [0] 0 = b := by simp [Par.pre, CLay.par, unit]
  rw [this, clip_id h0 h1]
  simp [actSpec]

theorem oneCell_state {fn rfn : Int} : gateState (oneCell fn rfn).u.o.par (oneCell fn rfn).w.o.par [0]
    (oneCell fn rfn).h 0 = 0 := by
  show ((unit 0).par.out [0]).getD 0 0 + ((unit 0).par.out [0]).getD 0 0 = 0
  rw [unit_says 0 (by norm_num) (by norm_num)]
  simp

theorem oneCell_diff {fn rfn : Int} (h : DifferentiableAt ℝ (actSpec rfn) 0)
    (h' : DifferentiableAt ℝ (actSpec rfn) (actSpec rfn 0)) : GateDiff (oneCell fn rfn) [0] := by
  refine ⟨rfl, rfl, fun k hk => ?_, fun k hk => ?_⟩
  · obtain rfl : k = 0 := by have : k < 1 := hk; omega
    show -100 < (unit 0).par.pre [0] 0 ∧ (unit 0).par.pre [0] 0 < 100
    simp [Par.pre, CLay.par, unit]
  · obtain rfl : k = 0 := by have : k < 1 := hk; omega
    rw [oneCell_state]
    exact ⟨by norm_num, by norm_num, h, h'⟩

/-- Linear gates: the hypotheses of `C105_output_gate_partial` can be met. -/
example : (oneCell 2 3).Legal 1 1 ∧ GateDiff (oneCell 2 3) [0] ∧
    ∀ k < (oneCell 2 3).nOutputs,
      deriv (actSpec (oneCell 2 3).rfn) (actSpec (oneCell 2 3).rfn (gateState (oneCell 2 3).u.o.par
        (oneCell 2 3).w.o.par [0] (oneCell 2 3).h k)) =
        deriv (actSpec (oneCell 2 3).rfn) (gateState (oneCell 2 3).u.o.par (oneCell 2 3).w.o.par [0]
          (oneCell 2 3).h k) := by
  have f3 : actSpec 3 = id := by funext x; simp [actSpec]
  refine ⟨oneCell_legal (by decide) (by decide), oneCell_diff ?_ ?_, fun k _ => ?_⟩
  · rw [f3]; exact differentiableAt_id
  · rw [f3]; exact differentiableAt_id
  · show deriv (actSpec 3) (actSpec 3 _) = deriv (actSpec 3) _
    rw [f3]; rfl

theorem logistic_deriv (s : ℝ) :
    deriv (actSpec 0) s = Real.exp (-s) / (1 + Real.exp (-s)) ^ 2 := by
  have hp : 1 + Real.exp (-s) ≠ 0 := by positivity
  have h : HasDerivAt (fun x : ℝ => 1 / (1 + Real.exp (-x))) (Real.exp (-s) / (1 + Real.exp (-s)) ^ 2) s := by
    have h1 : HasDerivAt (fun x : ℝ => 1 + Real.exp (-x)) (-Real.exp (-s)) s := by
      have := ((Real.hasDerivAt_exp (-s)).comp s (hasDerivAt_neg s)).const_add 1
      simpa using this
    have := h1.inv hp
    simp only [one_div]
    refine this.congr_deriv ?_
    rw [neg_neg]
  have e : actSpec 0 = fun x : ℝ => 1 / (1 + Real.exp (-x)) := by funext x; simp [actSpec]
  rw [e]
  exact h.deriv

/-- **C105 fails for the default functions**, hyperbolic tangent and logistic gates: an LSTM layer of
one neuron with empty memory, on the input zero and a target one above its output, does not raise
the update of its output gate's bias by the derivative of the error. -/
theorem C105_lstm_gradient_refuted :
    ∃ (l : TLay ℝ) (x t : List ℝ), l.Legal 1 1 ∧ GateDiff l x ∧ x.length = l.nInputs ∧
      t.length = l.nOutputs ∧ l.fn = 2 ∧ l.rfn = 0 ∧
      ∃ l1 l2 d2, lstmForward realLibm l x = .ok l1 ∧
        lstmBackward realLibm (withErr l1 t) x none = .ok (l2, d2) ∧
        ¬ UpdatesAre l.u.o l2.u.o (outError l x t) := by
  have f0 : ∀ s, DifferentiableAt ℝ (actSpec 0) s := fun s =>
    (C50_differentiable (by norm_num) (by norm_num) s).2 (Or.inr (by decide))
  have L := oneCell_legal (fn := 2) (rfn := 0) (by decide) (by decide)
  have D := oneCell_diff (fn := 2) (f0 0) (f0 _)
  let s := lstmCell 2 0 ((oneCell 2 0).u.map CLay.par) ((oneCell 2 0).w.map CLay.par) ([0], [0]) [0]
  refine ⟨oneCell 2 0, [0], [s.2.getD 0 0 + 1], L, D, rfl, rfl, rfl, rfl, ?_⟩
  obtain ⟨l1, l2, d2, h1, h2, h⟩ := C105_output_gate L (x := [0]) (t := [s.2.getD 0 0 + 1]) rfl rfl D
  refine ⟨l1, l2, d2, h1, h2, fun U => ?_⟩
  obtain ⟨⟨a, b⟩, -⟩ := h 0 (by show 0 < 1; omega)
  have U := U.2 0 (by show 0 < 1; omega)
  rw [b, add_sub_cancel_left] at U
  have E := U.unique a
  rw [oneCell_state] at E
  have c0 : clip 0 = 0 := clip_id (by norm_num) (by norm_num)
  have c1 : clip 1 = 1 := clip_id (by norm_num) (by norm_num)
  have hc : s.1 = [1 / 2 * Real.tanh 1] := by
    have g0 : gateFn 0 (unit 0).par (unit 0).par [0] [0] = [1 / 2] := by
      unfold gateFn
      rw [unit_says 0 (by norm_num) (by norm_num)]
      simp only [List.zipWith_cons_cons, List.zipWith_nil_right, c0, add_zero, actSpec, if_true]
      norm_num
    have g1 : gateFn 2 (unit 1).par (unit 0).par [0] [0] = [Real.tanh 1] := by
      unfold gateFn
      rw [unit_says 0 (by norm_num) (by norm_num), unit_says 1 (by norm_num) (by norm_num)]
      simp only [List.zipWith_cons_cons, List.zipWith_nil_right, c1, add_zero]
      simp [actSpec]
    show List.zipWith (· + ·) (List.zipWith (· * ·) (gateFn 0 (unit 0).par (unit 0).par [0] [0]) [0])
      (List.zipWith (· * ·) (gateFn 0 (unit 0).par (unit 0).par [0] [0])
        (gateFn 2 (unit 1).par (unit 0).par [0] [0])) = _
    rw [g0, g1]
    simp
  have hA : through (oneCell 2 0) [0] [s.2.getD 0 0 + 1] 0 = Real.tanh (clip (1 / 2 * Real.tanh 1)) := by
    show ([s.2.getD 0 0 + 1].getD 0 0 - s.2.getD 0 0) * actSpec 2 (clip (s.1.getD 0 0)) = _
    rw [hc]
    simp [actSpec]
  have t1 : 0 < Real.tanh 1 := by
    rw [Real.tanh_eq_sinh_div_cosh]
    exact div_pos (Real.sinh_pos_iff.2 one_pos) (Real.cosh_pos 1)
  have t2 : 0 < clip (1 / 2 * Real.tanh 1) := by
    unfold clip
    rw [lt_max_iff, lt_min_iff]
    exact Or.inr ⟨by norm_num, by positivity⟩
  have t3 : 0 < Real.tanh (clip (1 / 2 * Real.tanh 1)) := by
    rw [Real.tanh_eq_sinh_div_cosh]
    exact div_pos (Real.sinh_pos_iff.2 t2) (Real.cosh_pos _)
  rw [hA] at E
  have E := mul_left_cancel₀ t3.ne' E
  have E : deriv (actSpec 0) (actSpec 0 0) = deriv (actSpec 0) 0 := E
  rw [logistic_deriv, logistic_deriv] at E
  have y1 : Real.exp (-(actSpec 0 0)) < 1 := by
    rw [Real.exp_lt_one_iff]
    have : actSpec 0 0 = 1 / 2 := by simp [actSpec]; norm_num
    rw [this]; norm_num
  have y0 := Real.exp_pos (-(actSpec 0 0))
  generalize Real.exp (-(actSpec 0 0)) = y at E y1 y0
  rw [neg_zero, Real.exp_zero, div_eq_div_iff (by positivity) (by norm_num)] at E
  nlinarith [sq_nonneg (1 - y), mul_pos (sub_pos.2 y1) (sub_pos.2 y1)]

end Xcsf.LstmGrad
