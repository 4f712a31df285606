import Verif.NLstmCell
import Verif.PropsNLstm

/-!
# Property C105: what the gates that write an LSTM layer's memory learn

For the forget gate, the input gate and the candidate the learning step differs from the gradient
in four ways, all in neural_layer_lstm.c:461-504: derivatives are taken at the values instead of the
states, of the gates and of the memory; `dc` holds what the last learning step left, not what a
later step handed back; and the old memory by which the forget gate's error is to be multiplied is
read from `prev_cell`, which is never written.
-/

set_option linter.unusedSectionVars false

namespace Xcsf.LstmGrad
open Xcsf

theorem sel_map {α β : Type} (f : α → β) (G : Gates α) (q : Writer) :
    q.sel (G.map f) = f (q.sel G) := by cases q <;> rfl

theorem sel_all {α : Type} {P : α → Prop} {G : Gates α} (h : G.All P) (q : Writer) : P (q.sel G) := by
  cases q
  · exact h.f
  · exact h.i
  · exact h.g

/-- **C105, what forget gate, input gate and candidate learn.** For every legal LSTM layer, any
memory, input and target: the derivative of the error, and the amount by which one step forward and
backward raises the updates. -/
theorem C105_memory_gates {B M : Nat} {l : TLay ℝ} (L : l.Legal B M) {x t : List ℝ}
    (hx : x.length = l.nInputs) (ht : t.length = l.nOutputs) (q : Writer) (D : CellDiff l x q) :
    ∃ l1 l2 d2, lstmForward realLibm l x = .ok l1 ∧
      lstmBackward realLibm (withErr l1 t) x none = .ok (l2, d2) ∧
      ∀ k < l.nOutputs,
        let s := stateOf l x q k
        let c := (after l x).1.getD k 0
        let p := (q.sel l.u).par
        let grad := reaches l x t k * deriv (actSpec l.fn) c * partner l x k q *
          deriv (actSpec (q.fn l)) s
        let step := (l.dc.getD k 0 + reaches l x t k * deriv (actSpec l.fn) (actSpec l.fn c)) *
          used l x k q * deriv (actSpec (q.fn l)) (actSpec (q.fn l) s)
        (HasDerivAt (fun v => cellError l x t q { p with b := p.b.set k v }) grad (p.b.getD k 0) ∧
          ((q.sel l2.u).ns.map Neuron.bupd).getD k 0 =
            ((q.sel l.u).ns.map Neuron.bupd).getD k 0 + step) ∧
        ∀ j < l.nInputs,
          HasDerivAt (fun v => cellError l x t q { p with w := p.w.set (k * l.nInputs + j) v })
            (grad * x.getD j 0) (p.w.getD (k * l.nInputs + j) 0) ∧
          ((q.sel l2.u).ws.map Wt.upd).getD (k * l.nInputs + j) 0 =
            ((q.sel l.u).ws.map Wt.upd).getD (k * l.nInputs + j) 0 + step * x.getD j 0 := by
  obtain ⟨l1, f1, L1, n1, n2, p1, p2, o1, dc1, v1, g1, F⟩ := forward_all L (x := x) hx.ge
  have e1 : l1.c = (after l x).1 := by rw [← v1]
  have e2 : l1.h = (after l x).2 := by rw [← v1]
  have Pq := sel_all L.u q
  have Wq := sel_all L.w q
  have hu : (q.sel l.u).par.nOut = l.nOutputs := Pq.outs
  have hi : (q.sel l.u).par.nIn = l.nInputs := Pq.ins
  have hw : (q.sel l.w).par.nOut = l.nOutputs := Wq.outs
  have S : (q.sel l.u).par.Shaped := Pq.shaped
  have f3 : actSpec 3 = id := by funext x; simp [actSpec]
  have hf : (q.sel l.u).par.fn = 3 := D.linear
  have d3 : ∀ s : ℝ, deriv (actSpec (q.sel l.u).par.fn) s = 1 := fun s => by
    rw [hf, f3]; exact deriv_id s
  have hs : (q.sel l.u).par.Smooth x := fun k hk => by
    obtain ⟨a, b⟩ := D.inp k (by rw [← hu]; exact hk)
    exact ⟨a, b, by rw [hf, f3]; exact differentiableAt_id⟩
  have Au : (l.u.map CLay.par).All fun p => p.nOut = l.nOutputs :=
    ⟨L.u.f.outs, L.u.i.outs, L.u.g.outs, L.u.o.outs⟩
  have Aw : (l.w.map CLay.par).All fun p => p.nOut = l.nOutputs :=
    ⟨L.w.f.outs, L.w.i.outs, L.w.g.outs, L.w.o.outs⟩
  have hst : ∀ k, stateOf l x q k =
      ((q.sel l.u).par.out x).getD k 0 + ((q.sel l.w).par.out l.h).getD k 0 := by
    intro k; unfold stateOf; rw [sel_map, sel_map]; rfl
  -- the error as a function of what the part says
  let ov : Nat → ℝ := fun k => (gateFn l.rfn l.u.o.par l.w.o.par x l.h).getD k 0
  let bv : Nat → ℝ := fun k => match q with
    | .f => (gateFn l.rfn l.u.i.par l.w.i.par x l.h).getD k 0 *
        (gateFn l.fn l.u.g.par l.w.g.par x l.h).getD k 0
    | _ => (gateFn l.rfn l.u.f.par l.w.f.par x l.h).getD k 0 * l.c.getD k 0
  have hcell : ∀ p : Par, p.nOut = l.nOutputs → ∀ k < l.nOutputs,
      (lstmCell l.fn l.rfn (q.put (l.u.map CLay.par) p) (l.w.map CLay.par) (l.c, l.h) x).1.getD k 0 =
        bv k + partner l x k q *
          actSpec (q.fn l) (clip ((p.out x).getD k 0 + ((q.sel l.w).par.out l.h).getD k 0)) ∧
      (lstmCell l.fn l.rfn (q.put (l.u.map CLay.par) p) (l.w.map CLay.par) (l.c, l.h) x).2.getD k 0 =
        ov k * actSpec l.fn (clip (bv k + partner l x k q *
          actSpec (q.fn l) (clip ((p.out x).getD k 0 + ((q.sel l.w).par.out l.h).getD k 0)))) := by
    intro p hp k hk
    have Ap : (q.put (l.u.map CLay.par) p).All fun p => p.nOut = l.nOutputs := by
      cases q
      · exact ⟨hp, Au.i, Au.g, Au.o⟩
      · exact ⟨Au.f, hp, Au.g, Au.o⟩
      · exact ⟨Au.f, Au.i, hp, Au.o⟩
    obtain ⟨a, b⟩ := cell_getD (fn := l.fn) (rfn := l.rfn) (s := (l.c, l.h)) (x := x) Ap Aw L.c hk
    have a' : (lstmCell l.fn l.rfn (q.put (l.u.map CLay.par) p) (l.w.map CLay.par) (l.c, l.h) x).1.getD k 0 =
        bv k + partner l x k q *
          actSpec (q.fn l) (clip ((p.out x).getD k 0 + ((q.sel l.w).par.out l.h).getD k 0)) := by
      rw [a]
      have gp : ∀ fn, (gateFn fn p (q.sel l.w).par x l.h).getD k 0 =
          actSpec fn (clip ((p.out x).getD k 0 + ((q.sel l.w).par.out l.h).getD k 0)) := fun fn =>
        gateFn_getD (by rw [hp]; exact hk) (by rw [hw]; exact hk)
      rw [← gp]
      cases q
      · show (gateFn l.rfn p l.w.f.par x l.h).getD k 0 * l.c.getD k 0 + _ = _ + l.c.getD k 0 * _
        rw [mul_comm (l.c.getD k 0), add_comm]; rfl
      · show _ + (gateFn l.rfn p l.w.i.par x l.h).getD k 0 * _ = _
        rw [mul_comm ((gateFn l.rfn p l.w.i.par x l.h).getD k 0)]; rfl
      · rfl
    refine ⟨a', ?_⟩
    rw [b, a']
    have : (q.put (l.u.map CLay.par) p).o = l.u.o.par := by cases q <;> rfl
    rw [this]
    rfl
  have hF : ∀ p : Par, p.nOut = l.nOutputs → cellError l x t q p =
      errCell l.fn (q.fn l) ov (fun k => partner l x k q) bv
        (fun k => ((q.sel l.w).par.out l.h).getD k 0) t (p.out x) := by
    intro p hp
    unfold cellError errCell halfError
    congr 1
    refine Finset.sum_congr rfl fun k hk => ?_
    rw [(hcell p hp k (by rw [← ht]; exact Finset.mem_range.1 hk)).2]
  have hput : q.put (l.u.map CLay.par) (q.sel l.u).par = l.u.map CLay.par := by cases q <;> rfl
  have hafter : ∀ k < l.nOutputs, (after l x).1.getD k 0 =
      bv k + partner l x k q * actSpec (q.fn l) (clip (stateOf l x q k)) ∧
      (after l x).2.getD k 0 = ov k * actSpec l.fn (clip ((after l x).1.getD k 0)) := by
    intro k hk
    obtain ⟨a, b⟩ := hcell (q.sel l.u).par hu k hk
    rw [hput, ← hst] at a b
    exact ⟨a, by rw [show (after l x).1.getD k 0 = _ from a]; exact b⟩
  have G : IsGrad (errCell l.fn (q.fn l) ov (fun k => partner l x k q) bv
      (fun k => ((q.sel l.w).par.out l.h).getD k 0) t) ((q.sel l.u).par.out x)
      (ofArr l.nOutputs fun k => reaches l x t k * deriv (actSpec l.fn) ((after l x).1.getD k 0) *
        partner l x k q * deriv (actSpec (q.fn l)) (stateOf l x q k)) := by
    refine isGrad_cell (by rw [ht, out_length, hu]) (fun k hk => ?_) (fun k hk => ?_) (fun k hk => ?_)
    · have hk : k < l.nOutputs := by rw [out_length, hu] at hk; exact hk
      obtain ⟨a, b, c, _⟩ := D.gate k hk
      rw [hst] at a b c
      exact ⟨a, b, c⟩
    · have hk : k < l.nOutputs := by rw [out_length, hu] at hk; exact hk
      obtain ⟨a, b, c, _⟩ := D.memory k hk
      rw [(hafter k hk).1, hst] at a b c
      exact ⟨a, b, c⟩
    · have hk : k < l.nOutputs := by rw [out_length, hu] at hk; exact hk
      obtain ⟨a, b⟩ := hafter k hk
      rw [arrOf_ofArr _ hk]
      unfold reaches
      rw [b, a, hst]
  -- the code
  have hot : l1.output.length = l.nOutputs := by rw [L1.output, n2]
  have hc : l1.c.length = l.nOutputs := by rw [L1.c, n2]
  have hdl : (List.zipWith (fun t o => t - o) t l1.output).length = l.nOutputs := by
    simp [ht, hot]
  have L1' : (withErr l1 t).Legal B M :=
    ⟨L1.u, L1.w, L1.gate, L1.c, L1.h, L1.dc, L1.output, hdl.trans n2.symm, L1.prevState,
      L1.prevCell, L1.mu, L1.fn, L1.rfn, L1.wide⟩
  obtain ⟨l2, act, t2, b2, a1, a2, _, E⟩ := backward_all L1' (x := x)
    (by show l1.nInputs ≤ _; rw [n1, hx])
  refine ⟨l1, l2, none, f1, b2, ?_⟩
  obtain ⟨e, E⟩ := E q
  rw [actArr_val L1'.fn] at a1
  cases a1
  have hn2 : (withErr l1 t).nOutputs = l.nOutputs := n2
  have hct : (withErr l1 t).c.take (withErr l1 t).nOutputs = l1.c :=
    List.take_of_length_le (by show l1.c.length ≤ l1.nOutputs; rw [hc, n2])
  have hdt : (withErr l1 t).delta.take (withErr l1 t).nOutputs =
      List.zipWith (fun t o => t - o) t l1.output :=
    List.take_of_length_le (by rw [hn2]; exact hdl.le)
  rw [hct, hdt, hn2, show (withErr l1 t).fn = l.fn from p1] at a2
  have hact : ∀ k < l.nOutputs, (l1.c.map fun s => actSpec l.fn (clip s)).getD k 0 =
      actSpec l.fn ((after l x).1.getD k 0) := by
    intro k hk
    obtain ⟨a, b, _⟩ := D.memory k hk
    rw [getD_lt (by simp [hc, hk]), List.getElem_map, ← getD_lt (z := (0 : ℝ)), e1, clip_id a b]
  have hgo : (withErr l1 t).gate.o = gateFn l.rfn l.u.o.par l.w.o.par x l.h := by
    show l1.gate.o = _; rw [g1]
  rw [C50_gradient_array L.fn.1 L.fn.2 _ _ (by rw [mulArr_length]; simp [hc]) (by
      intro s hm
      obtain ⟨k, hk, rfl⟩ := List.getElem_of_mem hm
      have hk : k < l.nOutputs := by simpa [hc] using hk
      have := hact k hk
      rw [getD_lt (by simp [hc, hk])] at this
      rw [this]
      exact (D.memory k hk).2.2.2)] at a2
  injection a2 with a2
  have ht2 : ∀ k < l.nOutputs, t2.getD k 0 = reaches l x t k *
      deriv (actSpec l.fn) (actSpec l.fn ((after l x).1.getD k 0)) := by
    intro k hk
    rw [← a2, zip_getD _ (by simp [hc, hk]) (by rw [mulArr_length]; exact hk), hact k hk]
    congr 1
    unfold mulArr reaches
    rw [arrOf_ofArr _ hk, hgo]
    show (List.zipWith (fun t o => t - o) t l1.output).getD k 0 * _ = _
    rw [zip_getD _ (by rw [ht]; exact hk) (by rw [hot]; exact hk), o1, e2]
    rfl
  have hsum : ∀ k < l.nOutputs,
      (addArr (withErr l1 t).nOutputs (withErr l1 t).dc t2).getD k 0 = l.dc.getD k 0 +
        reaches l x t k * deriv (actSpec l.fn) (actSpec l.fn ((after l x).1.getD k 0)) := by
    intro k hk
    unfold addArr
    rw [arrOf_ofArr _ (by rw [hn2]; exact hk)]
    show t2.getD k 0 + 1 * l1.dc.getD k 0 = _
    rw [ht2 k hk, dc1, one_mul, add_comm]
  have hgl : (q.sel (withErr l1 t).gate).length = l.nOutputs := by
    rw [← n2]; exact sel_all L1.gate q
  have hgd : ∀ k < l.nOutputs, (q.sel (withErr l1 t).gate).getD k 0 =
      actSpec (q.fn l) (stateOf l x q k) := by
    intro k hk
    obtain ⟨a, b, _⟩ := D.gate k hk
    have : q.sel (withErr l1 t).gate = gateFn (q.fn l) (q.sel l.u).par (q.sel l.w).par x l.h := by
      show q.sel l1.gate = _; rw [g1]; cases q <;> rfl
    rw [this, gateFn_getD (by rw [hu]; exact hk) (by rw [hw]; exact hk),
      show gateState (q.sel l.u).par (q.sel l.w).par x l.h k = stateOf l x q k from (hst k).symm,
      clip_id a b]
  have hfac : ∀ k < l.nOutputs, (factor (withErr l1 t) q).getD k 0 = used l x k q := by
    intro k hk
    cases q
    · show l1.prevCell.getD k 0 = 0
      rw [L1.prevCell]
      rw [List.getD, List.getElem?_replicate]
      split <;> rfl
    · show l1.gate.g.getD k 0 = _; rw [g1]; rfl
    · show l1.gate.i.getD k 0 = _; rw [g1]; rfl
  have hfn : q.fn (withErr l1 t) = q.fn l := by cases q <;> first | exact p1 | exact p2
  have hfr : 0 ≤ q.fn l ∧ q.fn l < 11 := by cases q <;> first | exact L.fn | exact L.rfn
  have E1 := E.grad
  rw [hfn, C50_gradient_array hfr.1 hfr.2 _ _ (by rw [mulArr_length, hgl, hn2]) (by
      intro s hm
      obtain ⟨k, hk, rfl⟩ := List.getElem_of_mem hm
      rw [hgl] at hk
      have := hgd k hk
      rw [getD_lt (by rw [hgl]; exact hk)] at this
      rw [this]
      exact (D.gate k hk).2.2.2)] at E1
  injection E1 with E1
  have he : ∀ k < l.nOutputs, e.getD k 0 = (l.dc.getD k 0 +
      reaches l x t k * deriv (actSpec l.fn) (actSpec l.fn ((after l x).1.getD k 0))) *
        used l x k q * deriv (actSpec (q.fn l)) (actSpec (q.fn l) (stateOf l x q k)) := by
    intro k hk
    rw [← E1, zip_getD _ (by rw [hgl]; exact hk) (by rw [mulArr_length, hn2]; exact hk), hgd k hk]
    congr 1
    rw [show mulArr (withErr l1 t).nOutputs (factor (withErr l1 t) q) _ =
      ofArr (withErr l1 t).nOutputs _ from rfl, arrOf_ofArr _ (by rw [hn2]; exact hk)]
    show (addArr (withErr l1 t).nOutputs (withErr l1 t).dc t2).getD k 0 *
      (factor (withErr l1 t) q).getD k 0 = _
    rw [hsum k hk, hfac k hk]
  have hlearn := part_learns S (hi.trans hx.symm) D.linear hs (F q)
    (by rw [Pq.opt]; exact D.sgd) E.len E.back
  intro k hk
  obtain ⟨r1, r2⟩ := hlearn k (by rw [show (q.sel l.u).nOutputs = l.nOutputs from hu]; exact hk)
  refine ⟨⟨?_, ?_⟩, fun j hj => ⟨?_, ?_⟩⟩
  · have := grad_param (p := (q.sel l.u).par) hs G
      (fun v => { (q.sel l.u).par with b := (q.sel l.u).par.b.set k v })
      ((q.sel l.u).par.b.getD k 0) 1 (by rw [hu]; exact hk) (fun _ => rfl) (fun _ => rfl)
      (fun u i => by rw [pre_setB S x (by rw [hu]; exact hk) u i, mul_one])
    rw [mul_one, d3, mul_one, arrOf_ofArr _ hk] at this
    exact this.congr_of_eventuallyEq (Filter.Eventually.of_forall fun v => hF _ hu)
  · rw [r1, he k hk]
  · have := grad_param (p := (q.sel l.u).par) hs G
      (fun v => { (q.sel l.u).par with w := (q.sel l.u).par.w.set (k * l.nInputs + j) v })
      ((q.sel l.u).par.w.getD (k * l.nInputs + j) 0) (x.getD j 0) (by rw [hu]; exact hk) (fun _ => rfl)
      (fun _ => rfl) (fun u i => by
        rw [show l.nInputs = (q.sel l.u).par.nIn from hi.symm]
        exact pre_setW S x (a := k) (b := j) (by rw [hu]; exact hk) (by rw [hi]; exact hj) u i)
    rw [d3, mul_one, arrOf_ofArr _ hk] at this
    exact this.congr_of_eventuallyEq (Filter.Eventually.of_forall fun v => hF _ hu)
  · have hi' : (q.sel l.u).nInputs = l.nInputs := hi
    have := r2 j (by rw [hi']; exact hj)
    rw [hi', he k hk] at this
    exact this

/-- **C105, where it holds.** If what the last learning step left is zero, the gate is not the forget
gate of a layer that remembers something, and the derivatives at the values are those at the states,
as for linear functions, then the updates of the gate grow by the derivatives of the error. Missing:
everything else; see the refutations below and `C105_lstm_gradient_refuted`. -/
theorem C105_memory_gates_partial {B M : Nat} {l : TLay ℝ} (L : l.Legal B M) {x t : List ℝ}
    (hx : x.length = l.nInputs) (ht : t.length = l.nOutputs) (q : Writer) (D : CellDiff l x q)
    (clean : ∀ k < l.nOutputs, l.dc.getD k 0 = 0)
    (empty : q = .f → ∀ k < l.nOutputs, l.c.getD k 0 = 0)
    (gate : ∀ k < l.nOutputs, deriv (actSpec (q.fn l)) (actSpec (q.fn l) (stateOf l x q k)) =
      deriv (actSpec (q.fn l)) (stateOf l x q k))
    (memory : ∀ k < l.nOutputs, deriv (actSpec l.fn) (actSpec l.fn ((after l x).1.getD k 0)) =
      deriv (actSpec l.fn) ((after l x).1.getD k 0)) :
    ∃ l1 l2 d2, lstmForward realLibm l x = .ok l1 ∧
      lstmBackward realLibm (withErr l1 t) x none = .ok (l2, d2) ∧
      UpdatesAre (q.sel l.u) (q.sel l2.u) (cellError l x t q) := by
  obtain ⟨l1, l2, d2, h1, h2, h⟩ := C105_memory_gates L hx ht q D
  have hu : (q.sel l.u).nOutputs = l.nOutputs := (sel_all L.u q).outs
  have hi : (q.sel l.u).nInputs = l.nInputs := (sel_all L.u q).ins
  have same : ∀ k < l.nOutputs, used l x k q = partner l x k q := by
    intro k hk
    cases q
    · exact (empty rfl k hk).symm
    · rfl
    · rfl
  refine ⟨l1, l2, d2, h1, h2, ?_, ?_⟩
  · intro i hi' j hj
    rw [hu] at hi'
    rw [hi] at hj
    obtain ⟨a, b⟩ := (h i hi').2 j hj
    rw [hi, b, add_sub_cancel_left, clean i hi', same i hi', gate i hi', memory i hi', zero_add]
    exact a
  · intro i hi'
    rw [hu] at hi'
    obtain ⟨a, b⟩ := (h i hi').1
    rw [b, add_sub_cancel_left, clean i hi', same i hi', gate i hi', memory i hi', zero_add]
    exact a

/-- **The forget gate never learns**: for every legal LSTM layer with any memory and activation
functions, a learning step on any input and target leaves all updates of the forget gate's part
that reads the input as they were. (The part that reads the last output: `C71_lstm_memory_never_learned`
for its weights.) -/
theorem C105_forget_gate_never_learns {B M : Nat} {l : TLay ℝ} (L : l.Legal B M) {x t : List ℝ}
    (hx : x.length = l.nInputs) (ht : t.length = l.nOutputs) (sgd : l.opt.sgd = true)
    (linear : l.u.f.fn = 3)
    (inp : ∀ k < l.nOutputs, -100 < l.u.f.par.pre x k ∧ l.u.f.par.pre x k < 100) :
    ∃ l1 l2 d2, lstmForward realLibm l x = .ok l1 ∧
      lstmBackward realLibm (withErr l1 t) x none = .ok (l2, d2) ∧
      ∀ k < l.nOutputs,
        (l2.u.f.ns.map Neuron.bupd).getD k 0 = (l.u.f.ns.map Neuron.bupd).getD k 0 ∧
        ∀ j < l.nInputs, (l2.u.f.ws.map Wt.upd).getD (k * l.nInputs + j) 0 =
          (l.u.f.ws.map Wt.upd).getD (k * l.nInputs + j) 0 := by
  obtain ⟨l1, f1, L1, n1, n2, p1, p2, o1, dc1, v1, g1, F⟩ := forward_all L (x := x) hx.ge
  have hu : l.u.f.nOutputs = l.nOutputs := L.u.f.outs
  have hi : l.u.f.nInputs = l.nInputs := L.u.f.ins
  have hot : l1.output.length = l.nOutputs := by rw [L1.output, n2]
  have hdl : (List.zipWith (fun t o => t - o) t l1.output).length = l.nOutputs := by
    simp [ht, hot]
  have L1' : (withErr l1 t).Legal B M :=
    ⟨L1.u, L1.w, L1.gate, L1.c, L1.h, L1.dc, L1.output, hdl.trans n2.symm, L1.prevState,
      L1.prevCell, L1.mu, L1.fn, L1.rfn, L1.wide⟩
  obtain ⟨l2, act, t2, b2, a1, a2, _, E⟩ := backward_all L1' (x := x)
    (by show l1.nInputs ≤ _; rw [n1, hx])
  refine ⟨l1, l2, none, f1, b2, ?_⟩
  obtain ⟨e, E⟩ := E .f
  have hz := gradientArray_zero E.grad (by
    intro d hd
    obtain ⟨i, hi, rfl⟩ := List.getElem_of_mem hd
    rw [mulArr_length] at hi
    rw [← getD_lt (z := (0 : ℝ))]
    unfold mulArr
    rw [arrOf_ofArr _ hi]
    have : arrOf (factor (withErr l1 t) .f) i = 0 := by
      show l1.prevCell.getD i 0 = 0
      rw [L1.prevCell, List.getD, List.getElem?_replicate]
      split <;> rfl
    rw [this, mul_zero])
  have he : ∀ k, e.getD k 0 = 0 := by
    intro k
    by_cases hk : k < e.length
    · rw [getD_lt hk]; exact hz _ (List.getElem_mem hk)
    · rw [List.getD, List.getElem?_eq_none (by omega)]; rfl
  have f3 : actSpec 3 = id := by funext x; simp [actSpec]
  have hs : l.u.f.par.Smooth x := fun k hk => by
    obtain ⟨a, b⟩ := inp k (by rw [← hu]; exact hk)
    exact ⟨a, b, by rw [show l.u.f.par.fn = 3 from linear, f3]; exact differentiableAt_id⟩
  have hlearn := part_learns L.u.f.shaped (hi.trans hx.symm) linear hs (F .f)
    (by show l.u.f.opt.sgd = true; rw [L.u.f.opt]; exact sgd) E.len E.back
  intro k hk
  obtain ⟨r1, r2⟩ := hlearn k (by show k < l.u.f.nOutputs; rw [hu]; exact hk)
  refine ⟨by rw [he k, add_zero] at r1; exact r1, fun j hj => ?_⟩
  have := r2 j (by show j < l.u.f.nInputs; rw [hi]; exact hj)
  rw [hi, he k, zero_mul, add_zero] at this
  exact this

/-! ## A layer that remembers something -/

/-- An LSTM layer of one neuron with linear functions, all gates open, the number `v` in its memory
and `d` left by the last learning step. -/
noncomputable def full (v d : ℝ) : TLay ℝ :=
  { oneCell 3 3 with u := ⟨unit 1, unit 1, unit 1, unit 1⟩, c := [v], dc := [d] }

theorem full_legal (v d : ℝ) : (full v d).Legal 1 1 := by
  have p1 := unit_part (b := 1) (by norm_num) (by norm_num)
  have O := oneCell_legal (fn := 3) (rfn := 3) (by decide) (by decide)
  exact ⟨⟨p1, p1, p1, p1⟩, O.w, O.gate, rfl, rfl, rfl, rfl, rfl, rfl, rfl, O.mu, O.fn, O.rfn, rfl⟩

theorem full_gate : gateFn 3 (unit 1).par (unit 0).par [0] [0] = [1] := by
  unfold gateFn
  rw [unit_says 0 (by norm_num) (by norm_num), unit_says 1 (by norm_num) (by norm_num)]
  simp only [List.zipWith_cons_cons, List.zipWith_nil_right, add_zero,
    clip_id (show (-100 : ℝ) < 1 by norm_num) (by norm_num)]
  simp [actSpec]

theorem full_after {v d : ℝ} (h0 : -100 < v + 1) (h1 : v + 1 < 100) :
    after (full v d) [0] = ([v + 1], [v + 1]) := by
  have hg := full_gate
  unfold after lstmCell
  show (List.zipWith (· + ·) (List.zipWith (· * ·) (gateFn 3 (unit 1).par (unit 0).par [0] [0]) [v])
      (List.zipWith (· * ·) (gateFn 3 (unit 1).par (unit 0).par [0] [0])
        (gateFn 3 (unit 1).par (unit 0).par [0] [0])),
    List.zipWith (fun a b => a * actSpec 3 (clip b)) (gateFn 3 (unit 1).par (unit 0).par [0] [0])
      (List.zipWith (· + ·) (List.zipWith (· * ·) (gateFn 3 (unit 1).par (unit 0).par [0] [0]) [v])
      (List.zipWith (· * ·) (gateFn 3 (unit 1).par (unit 0).par [0] [0])
        (gateFn 3 (unit 1).par (unit 0).par [0] [0])))) = _
  rw [hg]
  simp [actSpec, clip_id h0 h1]

theorem full_state {v d : ℝ} (q : Writer) : stateOf (full v d) [0] q 0 = 1 := by
  have : gateState (unit 1).par (unit 0).par [0] [0] 0 = 1 := by
    unfold gateState
    rw [unit_says 0 (by norm_num) (by norm_num), unit_says 1 (by norm_num) (by norm_num)]
    simp
  cases q <;> exact this

theorem full_diff {v d : ℝ} (h0 : -100 < v + 1) (h1 : v + 1 < 100) (q : Writer) :
    CellDiff (full v d) [0] q := by
  have f3 : actSpec 3 = id := by funext x; simp [actSpec]
  have hq : q.fn (full v d) = 3 := by cases q <;> rfl
  have hs : q.sel (full v d).u = unit 1 := by cases q <;> rfl
  refine ⟨rfl, by rw [hs]; rfl, fun k hk => ?_, fun k hk => ?_, fun k hk => ?_⟩
  · obtain rfl : k = 0 := by have : k < 1 := hk; omega
    rw [hs]
    have : (unit 1).par.pre [0] 0 = 1 := by simp [Par.pre, CLay.par, unit]
    rw [this]; norm_num
  · obtain rfl : k = 0 := by have : k < 1 := hk; omega
    rw [full_state, hq, f3]
    exact ⟨by norm_num, by norm_num, differentiableAt_id, differentiableAt_id⟩
  · obtain rfl : k = 0 := by have : k < 1 := hk; omega
    rw [full_after h0 h1]
    show -100 < v + 1 ∧ v + 1 < 100 ∧ DifferentiableAt ℝ (actSpec 3) _ ∧ DifferentiableAt ℝ (actSpec 3) _
    rw [f3]
    exact ⟨h0, h1, differentiableAt_id, differentiableAt_id⟩

/-- Linear functions, nothing left by the last step: the hypotheses of
`C105_memory_gates_partial` can be met, for the candidate of a layer that remembers something. -/
example : (full 1 0).Legal 1 1 ∧ CellDiff (full 1 0) [0] .g ∧
    (∀ k < (full 1 0).nOutputs, (full 1 0).dc.getD k 0 = 0) ∧
    (∀ s : ℝ, deriv (actSpec (Writer.g.fn (full 1 0))) (actSpec (Writer.g.fn (full 1 0)) s) =
      deriv (actSpec (Writer.g.fn (full 1 0))) s) ∧
    ∀ c : ℝ, deriv (actSpec (full 1 0).fn) (actSpec (full 1 0).fn c) = deriv (actSpec (full 1 0).fn) c := by
  have f3 : actSpec 3 = id := by funext x; simp [actSpec]
  refine ⟨full_legal 1 0, full_diff (by norm_num) (by norm_num) _, fun k hk => ?_, fun s => ?_, fun c => ?_⟩
  · obtain rfl : k = 0 := by have : k < 1 := hk; omega
    rfl
  · show deriv (actSpec 3) (actSpec 3 s) = deriv (actSpec 3) s
    rw [f3]; rfl
  · show deriv (actSpec 3) (actSpec 3 c) = deriv (actSpec 3) c
    rw [f3]; rfl

theorem full_reaches {v d t : ℝ} (h0 : -100 < v + 1) (h1 : v + 1 < 100) :
    reaches (full v d) [0] [t] 0 = t - (v + 1) := by
  unfold reaches
  rw [full_after h0 h1]
  show (t - (v + 1)) * (gateFn 3 (unit 1).par (unit 0).par [0] [0]).getD 0 0 = _
  rw [full_gate]
  simp

/-- **C105 fails for the forget gate of a layer that remembers something**, even with linear
functions: the update of its bias is not raised by the derivative of the error. -/
theorem C105_forget_gate_refuted :
    ∃ (l : TLay ℝ) (x t : List ℝ), l.Legal 1 1 ∧ CellDiff l x .f ∧ x.length = l.nInputs ∧
      t.length = l.nOutputs ∧ l.fn = 3 ∧ l.rfn = 3 ∧ (∀ k, l.dc.getD k 0 = 0) ∧
      ∃ l1 l2 d2, lstmForward realLibm l x = .ok l1 ∧
        lstmBackward realLibm (withErr l1 t) x none = .ok (l2, d2) ∧
        ¬ UpdatesAre l.u.f l2.u.f (cellError l x t .f) := by
  have h0 : (-100 : ℝ) < 1 + 1 := by norm_num
  have h1 : (1 : ℝ) + 1 < 100 := by norm_num
  refine ⟨full 1 0, [0], [3], full_legal 1 0, full_diff h0 h1 .f, rfl, rfl, rfl, rfl, ?_, ?_⟩
  · intro k
    show ([0] : List ℝ).getD k 0 = 0
    cases k <;> simp [List.getD]
  obtain ⟨l1, l2, d2, e1, e2, h⟩ := C105_memory_gates (full_legal 1 0) (x := [0]) (t := [3]) rfl rfl .f
    (full_diff h0 h1 .f)
  refine ⟨l1, l2, d2, e1, e2, fun U => ?_⟩
  obtain ⟨⟨a, b⟩, -⟩ := h 0 (by show 0 < 1; omega)
  have U := U.2 0 (by show 0 < 1; omega)
  have b' : (l2.u.f.ns.map Neuron.bupd).getD 0 0 - ((full 1 0).u.f.ns.map Neuron.bupd).getD 0 0 = 0 := by
    rw [sub_eq_zero]
    refine Eq.trans b ?_
    show _ + _ * (0 : ℝ) * _ = _
    rw [mul_zero, zero_mul, add_zero]
    rfl
  rw [b'] at U
  have E := U.unique a
  rw [full_reaches h0 h1] at E
  have f3 : actSpec 3 = id := by funext x; simp [actSpec]
  have E : (0 : ℝ) = (3 - (1 + 1)) * deriv (actSpec 3) _ * 1 * deriv (actSpec 3) _ := E
  rw [f3, deriv_id, deriv_id] at E
  norm_num at E

/-- **C105 fails after a learning step**: with linear functions and a target that equals the output,
so that the error is zero and so are its derivatives, a layer in which the last learning step left
something raises the update of its candidate's bias. -/
theorem C105_last_error_refuted :
    ∃ (l : TLay ℝ) (x t : List ℝ), l.Legal 1 1 ∧ CellDiff l x .g ∧ x.length = l.nInputs ∧
      t.length = l.nOutputs ∧ l.fn = 3 ∧ l.rfn = 3 ∧ t = (after l x).2 ∧
      ∃ l1 l2 d2, lstmForward realLibm l x = .ok l1 ∧
        lstmBackward realLibm (withErr l1 t) x none = .ok (l2, d2) ∧
        (l2.u.g.ns.map Neuron.bupd).getD 0 0 ≠ (l.u.g.ns.map Neuron.bupd).getD 0 0 ∧
        ¬ UpdatesAre l.u.g l2.u.g (cellError l x t .g) := by
  have h0 : (-100 : ℝ) < 1 + 1 := by norm_num
  have h1 : (1 : ℝ) + 1 < 100 := by norm_num
  refine ⟨full 1 1, [0], [1 + 1], full_legal 1 1, full_diff h0 h1 .g, rfl, rfl, rfl, rfl,
    by rw [full_after h0 h1], ?_⟩
  obtain ⟨l1, l2, d2, e1, e2, h⟩ := C105_memory_gates (full_legal 1 1) (x := [0]) (t := [1 + 1]) rfl rfl .g
    (full_diff h0 h1 .g)
  obtain ⟨⟨a, b⟩, -⟩ := h 0 (by show 0 < 1; omega)
  have f3 : actSpec 3 = id := by funext x; simp [actSpec]
  rw [full_reaches h0 h1] at a b
  have hp : used (full 1 1) [0] 0 .g = 1 := by
    show (gateFn 3 (unit 1).par (unit 0).par [0] [0]).getD 0 0 = 1
    rw [full_gate]; rfl
  rw [hp] at b
  have b' : (l2.u.g.ns.map Neuron.bupd).getD 0 0 =
      ((full 1 1).u.g.ns.map Neuron.bupd).getD 0 0 + 1 := by
    refine Eq.trans b ?_
    show _ + ((1 : ℝ) + (1 + 1 - (1 + 1)) * deriv (actSpec 3) _) * 1 * deriv (actSpec 3) _ = _
    rw [f3, deriv_id, deriv_id]
    norm_num
    rfl
  refine ⟨l1, l2, d2, e1, e2, ?_, fun U => ?_⟩
  · rw [b']; intro h; linarith
  have U := U.2 0 (by show 0 < 1; omega)
  rw [b', add_sub_cancel_left] at U
  have E := U.unique a
  rw [sub_self, zero_mul, zero_mul, zero_mul] at E
  norm_num at E

/-! ## Two examples, one after the other -/

/-- As `unit`, with fractions. -/
def unitQ : CLay ℚ :=
  { nInputs := 1, nOutputs := 1, maxOutputs := 1, maxGrow := 1, nActive := 1,
    outW := 1, outH := 1, outC := 1, fn := 3, opt := ⟨true, false, false, true, false, false⟩,
    eta := 1 / 10, etaMax := 1 / 10, etaMin := 0, momentum := 1 / 2, decay := 0,
    ws := [⟨1, 0, true⟩], ns := [⟨1, 0, 0, 0, 0⟩], mu := List.replicate 6 1 }

/-- A fresh LSTM layer of one neuron with linear functions. -/
def freshQ : TLay ℚ :=
  { nInputs := 1, nOutputs := 1, maxOutputs := 1, maxGrow := 1, nActive := 8, outW := 1,
    fn := 3, rfn := 3, opt := ⟨true, false, false, true, false, false⟩,
    eta := 1 / 10, etaMax := 1 / 10, momentum := 1 / 2, decay := 0,
    u := ⟨unitQ, unitQ, unitQ, unitQ⟩, w := ⟨unitQ, unitQ, unitQ, unitQ⟩,
    gate := ⟨[0], [0], [0], [0]⟩, c := [0], h := [0], dc := [0], output := [0], delta := [0],
    prevState := [0], prevCell := [0], mu := List.replicate 6 1 }

/-- One example: forward, the errors against the target, backward. -/
def learnOn (m : Libm ℚ) (l : TLay ℚ) (x : List ℚ) (t : List ℚ → List ℚ) : Res (TLay ℚ) := do
  let l1 ← lstmForward m l x
  let (l2, _) ← lstmBackward m { l1 with delta := List.zipWith (fun t o => t - o) (t l1.output) l1.output } x none
  .ok l2

/-- The update of the candidate's bias before and after a second example whose target is exactly the
layer's output, where the first was learned completely. -/
def secondExample (m : Libm ℚ) : Res (List ℚ × List ℚ) := do
  let l1 ← learnOn m freshQ [0] (fun _ => [9])
  let l2 ← learnOn m (lstmUpdate l1) [0] id
  .ok ((lstmUpdate l1).u.g.ns.map Neuron.bupd, l2.u.g.ns.map Neuron.bupd)

/-- **C105 fails for the second example of a fresh layer** with linear functions, for which the
mathematical library is not asked: an example whose target is exactly the output, so that there is
nothing to learn, raises the update of the candidate's bias. -/
theorem C105_second_example_refuted :
    ∃ a b, secondExample ⟨id, id, id, id, id, id⟩ = .ok (a, b) ∧ a.getD 0 0 < b.getD 0 0 :=
  ⟨[2], [226 / 5], by decide +kernel, by decide +kernel⟩

end Xcsf.LstmGrad
