import Verif.NGradGenLay
import Verif.NSeqLemmas

/-!
# Lemmas for property C92: recurrent layers
-/

set_option linter.unusedSectionVars false

namespace Xcsf
open Finset Filter
variable {R : Type}

/-! ## Gradients -/

theorem isGrad_of_L {C : List ℝ → ℝ} {o d : List ℝ} (h : IsGradL C o d) : IsGrad C o d :=
  fun c v c' h1 h2 h3 => h c v c' h1 (Eventually.of_forall h2) h3

theorem isGradL_of {C : List ℝ → ℝ} {o d : List ℝ} (h : IsGrad C o d) : IsGradL C o d := by
  intro c v c' h1 h2 h3
  have he : (fun u => if (c u).length = o.length then c u else o) =ᶠ[nhds v] c := by
    filter_upwards [h2] with u hu
    rw [if_pos hu]
  have := h (fun u => if (c u).length = o.length then c u else o) v c' (by
      rw [h1, if_pos rfl]) (fun u => by
      split
      · assumption
      · rfl) (fun i hi => (h3 i hi).congr_of_eventuallyEq (he.fun_comp fun l => l.getD i 0))
  exact this.congr_of_eventuallyEq (he.fun_comp C).symm

/-- The sum of two arrays. -/
theorem isGrad_sum {C : List ℝ → ℝ} {a b d : List ℝ} (hl : a.length = b.length)
    (h : IsGrad C (List.zipWith (· + ·) a b) d) :
    IsGrad (fun a => C (List.zipWith (· + ·) a b)) a d := by
  intro c v c' h1 h2 h3
  have hlen : (List.zipWith (· + ·) a b).length = a.length := by simp [hl]
  have := h (fun u => List.zipWith (· + ·) (c u) b) v c' (by simp only [h1])
    (fun u => by simp [h2 u, hl]) (fun i hi => by
      rw [hlen] at hi
      refine ((h3 i hi).add_const (b.getD i 0)).congr_of_eventuallyEq
        (Eventually.of_forall fun u => ?_)
      have i1 : i < (c u).length := by rw [h2]; exact hi
      have i2 : i < b.length := by omega
      simp [List.getD, i1, i2])
  rwa [hlen] at this

theorem zip_sum_comm (a b : List ℝ) : List.zipWith (· + ·) a b = List.zipWith (· + ·) b a :=
  zipWith_swap _ _ (fun a b => add_comm a b) a b

/-! ## Parameters -/

theorem put_outs (c : CLay ℝ) (p : Prm) (v : ℝ) : (p.put v c).outs = c.outs := by
  cases p with
  | w j => rfl
  | b j =>
    show (c.ns.modify j _).map Neuron.out = c.ns.map Neuron.out
    refine List.ext_getElem (by simp) fun i h1 h2 => ?_
    simp only [List.getElem_map, List.getElem_modify]
    split <;> rfl

/-- The derivatives with respect to all weights. -/
theorem climbs_w {a b : CLay ℝ} {F : Par → ℝ} (S : a.par.Shaped) (h : UpdatesAre a b F) {j : Nat}
    (hj : j < a.ws.length) : HasDerivAt (fun v => F ((Prm.w j).put v a).par)
      ((Prm.w j).upd b - (Prm.w j).upd a) ((Prm.w j).val a) := by
  have hwl : a.ws.length = a.nOutputs * a.nInputs := by simpa [CLay.par] using S.wlen
  have hq : j < a.nOutputs * a.nInputs := by rw [← hwl]; exact hj
  have hpos : 0 < a.nInputs := by
    rcases Nat.eq_zero_or_pos a.nInputs with h | h
    · rw [h] at hq; omega
    · exact h
  have h1 : j / a.nInputs < a.nOutputs := Nat.div_lt_of_lt_mul (by rw [Nat.mul_comm]; exact hq)
  have h2 := Nat.mod_lt j hpos
  have := h.1 _ h1 _ h2
  rw [show j / a.nInputs * a.nInputs + j % a.nInputs = j from by
    rw [Nat.mul_comm]; exact Nat.div_add_mod _ _] at this
  simp only [put_par]
  exact this

theorem climbs_b {a b : CLay ℝ} {F : Par → ℝ} (S : a.par.Shaped) (h : ∀ i < a.nOutputs,
    HasDerivAt (fun v => F { a.par with b := a.par.b.set i v })
      ((b.ns.map Neuron.bupd).getD i 0 - (a.ns.map Neuron.bupd).getD i 0)
      (a.par.b.getD i 0)) {i : Nat}
    (hi : i < a.ns.length) : HasDerivAt (fun v => F ((Prm.b i).put v a).par)
      ((Prm.b i).upd b - (Prm.b i).upd a) ((Prm.b i).val a) := by
  have hns : a.ns.length = a.nOutputs := by simpa [CLay.par] using S.blen
  have := h i (by rw [← hns]; exact hi)
  simp only [put_par]
  exact this

theorem climbs_all {a b : CLay ℝ} {F : Par → ℝ} (S : a.par.Shaped) (h : UpdatesAre a b F) (p : Prm)
    (hp : p.Of a) : HasDerivAt (fun v => F (p.put v a).par) (p.upd b - p.upd a) (p.val a) := by
  cases p with
  | w j => exact climbs_w S h hp
  | b i => exact climbs_b S h.2 hp

/-! ## Passes -/

theorem par_ns {c : CLay ℝ} (S : c.par.Shaped) : c.ns.length = c.nOutputs := by
  simpa [CLay.par] using S.blen

/-- The sum that the output part reads. -/
noncomputable def RLay.sum (l : RLay ℝ) (x : List ℝ) : List ℝ :=
  List.zipWith (· + ·) (l.inp.par.out x) (l.self.par.out l.out.outs)

theorem sum_length {l : RLay ℝ} (F : l.Fits) (x : List ℝ) : (l.sum x).length = l.nOutputs := by
  have h1 : l.inp.par.nOut = l.nOutputs := F.inp.2.2
  have h2 : l.self.par.nOut = l.nOutputs := F.self.2.2
  simp [RLay.sum, out_length, h1, h2]

/-- What the forward pass leaves in the parts of a layer. -/
structure Passed (a l : RLay ℝ) (x : List ℝ) : Prop where
  n : l.nOutputs = a.nOutputs
  inp : l.inp.par = a.inp.par ∧ l.inp.ws = a.inp.ws ∧ l.inp.opt = a.inp.opt ∧
    l.inp.ns.map Neuron.bupd = a.inp.ns.map Neuron.bupd ∧ HoldsSt l.inp x
  self : l.self.par = a.self.par ∧ l.self.ws = a.self.ws ∧ l.self.opt = a.self.opt ∧
    l.self.ns.map Neuron.bupd = a.self.ns.map Neuron.bupd ∧ HoldsSt l.self a.out.outs
  out : l.out.par = a.out.par ∧ l.out.ws = a.out.ws ∧ l.out.opt = a.out.opt ∧
    l.out.ns.map Neuron.bupd = a.out.ns.map Neuron.bupd ∧ HoldsSt l.out (a.sum x)
  state : l.state = (a.sum x).map some
  prev : l.prev = a.state

theorem recForward_passed {a : RLay ℝ} (F : a.Fits) {x : List ℝ} (hx : a.nInputs ≤ x.length) :
    ∃ l, recForward realLibm a x = .ok l ∧ Passed a l x := by
  obtain ⟨i, e1, i1, i2, i3, i4, i5⟩ := connForward_holds F.inp.1 (x := x) (by rw [F.inp.2.1]; exact hx)
  have hol : a.out.outs.length = a.nOutputs := by
    rw [CLay.outs, List.length_map, par_ns F.out.1, F.out.2.2]
  obtain ⟨s, e2, s1, s2, s3, s4, s5⟩ := connForward_holds F.self.1 (x := a.out.outs) (by
    rw [F.self.2.1, hol])
  have hi : i.ns.length = a.nOutputs := by
    have := congrArg (fun p : Par => p.b.length) i1
    simpa [CLay.par, par_ns F.inp.1, F.inp.2.2] using this
  have hs : s.ns.length = a.nOutputs := by
    have := congrArg (fun p : Par => p.b.length) s1
    simpa [CLay.par, par_ns F.self.1, F.self.2.2] using this
  have hst : addArr a.nOutputs s.outs i.outs = a.sum x := by
    rw [addArr_zip (by rw [CLay.outs, List.length_map, hs]) (by rw [CLay.outs, List.length_map, hi]),
      i5.out, s5.out, i1, s1]
    rfl
  obtain ⟨o, e3, o1, o2, o3, o4, o5⟩ := connForward_holds F.out.1 (x := a.sum x) (by
    rw [F.out.2.1, sum_length F])
  refine ⟨{ a with prev := a.state.take a.nOutputs ++ a.prev.drop a.nOutputs,
                   state := (a.sum x).map some ++ a.state.drop a.nOutputs,
                   inp := i, self := s, out := o }, ?_, ?_⟩
  · unfold recForward
    rw [if_neg (by rw [F.state.1, F.prev]; omega)]
    simp only [Bind.bind, Except.bind, e1, e2]
    rw [if_neg (by rw [hi, hs]; omega), hst]
    simp only [e3]
  · refine ⟨rfl, ⟨i1, i2, i3, i4, i5⟩, ⟨s1, s2, s3, s4, s5⟩, ⟨o1, o2, o3, o4, o5⟩, ?_, ?_⟩
    · show _ ++ a.state.drop a.nOutputs = _
      rw [List.drop_of_length_le (by rw [F.state.1]), List.append_nil]
    · show a.state.take a.nOutputs ++ a.prev.drop a.nOutputs = _
      rw [List.drop_of_length_le (by rw [F.prev]), List.append_nil,
        List.take_of_length_le (by rw [F.state.1])]

theorem all_some : ∀ (xs : List (Option ℝ)), (∀ v ∈ xs, v ≠ none) → ∃ ys : List ℝ, xs = ys.map some
  | [], _ => ⟨[], rfl⟩
  | none :: _, h => absurd rfl (h none List.mem_cons_self)
  | some a :: xs, h => by
    obtain ⟨ys, e⟩ := all_some xs fun v hv => h v (List.mem_cons_of_mem _ hv)
    exact ⟨a :: ys, by rw [e]; rfl⟩

/-- The updates of a part after its own backward pass are those of its parameters before. -/
theorem part_updates {C : List ℝ → ℝ} {a l l2 : CLay ℝ} {x e : List ℝ} (S : a.par.Shaped)
    (hs : a.par.Smooth x) (hp : l.par = a.par) (hw : l.ws = a.ws)
    (hb : l.ns.map Neuron.bupd = a.ns.map Neuron.bupd) (he : e.length = a.nOutputs)
    (hg : IsGrad C (a.par.out x) e)
    (h1 : ∀ i < l.nOutputs, ∀ j < l.nInputs, (l2.ws.map Wt.upd).getD (i * l.nInputs + j) 0 =
        ((l.withDelta e).ws.map Wt.upd).getD (i * l.nInputs + j) 0 +
          locGrad (l.withDelta e) x i * x.getD j 0)
    (h2 : ∀ i < l.nOutputs, (l2.ns.map Neuron.bupd).getD i 0 =
        ((l.withDelta e).ns.map Neuron.bupd).getD i 0 + locGrad (l.withDelta e) x i) :
    UpdatesAre a l2 (fun p => C (p.out x)) := by
  have hl : e.length = l.ns.length := by
    have := congrArg (fun p : Par => p.b.length) hp
    have h3 : l.ns.length = a.ns.length := by simpa [CLay.par] using this
    rw [he, h3, par_ns S]
  obtain ⟨f1, f2, f3, f4, f5, f6⟩ := withDelta_facts hl
  have fp : (l.withDelta e).par = a.par := f1.trans hp
  have := updates_layer (C := C) (l := l.withDelta e) (l' := l2) (x := x) (by rw [fp]; exact S)
    (by rw [fp]; exact hs) (by rw [fp, f2]; exact hg) h1 h2
  unfold UpdatesAre at this ⊢
  rw [fp, f4, hb] at this
  have e1 : (l.withDelta e).nOutputs = a.nOutputs := congrArg Par.nOut hp
  have e2 : (l.withDelta e).nInputs = a.nInputs := congrArg Par.nIn hp
  have e3 : (l.withDelta e).ws = a.ws := hw
  rw [e1, e2, e3] at this
  exact this


theorem rec_ns {c d : CLay ℝ} (h : c.par = d.par) : c.ns.length = d.ns.length := by
  have := congrArg (fun p : Par => p.b.length) h
  simpa [CLay.par] using this

/-- The backward pass of a recurrent layer. -/
theorem recBackward_passed {C : List ℝ → ℝ} {a l : RLay ℝ} {x d : List ℝ} (F : a.Fits)
    (hx : x.length = a.nInputs) (hi : a.inp.par.Smooth x) (hf : a.self.par.Smooth a.out.outs)
    (ho : a.out.par.Smooth (a.sum x)) (P : Passed a l x) (hd : d.length = a.nOutputs)
    (hg : IsGrad C (a.out.par.out (a.sum x)) d) (D : Option (List ℝ))
    (hD : ∀ v, D = some v → v = List.replicate x.length 0) :
    ∃ l2 D', recBackward realLibm { l with out := l.out.withDelta d } x D = .ok (l2, D') ∧
      UpdatesAre a.inp l2.inp (fun p => C (a.out.par.out
        (List.zipWith (· + ·) (p.out x) (a.self.par.out a.out.outs)))) ∧
      (∀ i < a.self.nOutputs, HasDerivAt (fun v => C (a.out.par.out (List.zipWith (· + ·)
          (a.inp.par.out x)
          (({ a.self.par with b := a.self.par.b.set i v } : Par).out a.out.outs))))
        ((l2.self.ns.map Neuron.bupd).getD i 0 - (a.self.ns.map Neuron.bupd).getD i 0)
        (a.self.par.b.getD i 0)) ∧
      UpdatesAre a.out l2.out (fun p => C (p.out (a.sum x))) ∧
      (D = none → D' = none) ∧
      (∀ v, D = some v → ∃ e, D' = some e ∧ e.length = x.length ∧
        IsGrad (fun z => C (a.out.par.out (a.sum z))) x e) := by
  obtain ⟨p1, p2, p3, p4, p5⟩ := P.inp
  obtain ⟨s1, s2, s3, s4, s5⟩ := P.self
  obtain ⟨o1, o2, o3, o4, o5⟩ := P.out
  obtain ⟨Si, ni, mi⟩ := F.inp
  obtain ⟨Ss, ns, ms⟩ := F.self
  obtain ⟨So, no, mo⟩ := F.out
  have li : l.inp.ns.length = a.nOutputs := by rw [rec_ns p1, par_ns Si, mi]
  have ls : l.self.ns.length = a.nOutputs := by rw [rec_ns s1, par_ns Ss, ms]
  have lo : l.out.ns.length = a.nOutputs := by rw [rec_ns o1, par_ns So, mo]
  have lin : l.inp.nInputs = a.inp.nInputs := congrArg Par.nIn p1
  have lon : l.out.nInputs = a.out.nInputs := congrArg Par.nIn o1
  have lsn : l.self.nInputs = a.self.nInputs := congrArg Par.nIn s1
  have lom : l.out.nOutputs = a.out.nOutputs := congrArg Par.nOut o1
  have lsm : l.self.nOutputs = a.self.nOutputs := congrArg Par.nOut s1
  have lof : l.out.fn = a.out.fn := congrArg Par.fn o1
  have lsf : l.self.fn = a.self.fn := congrArg Par.fn s1
  have hdl : d.length = l.out.ns.length := by rw [lo, hd]
  obtain ⟨f1, f2, f3, f4, f5, f6⟩ := withDelta_facts hdl
  have fp : (l.out.withDelta d).par = a.out.par := f1.trans o1
  -- the errors of the two parts below
  have z1 : zeroDelta a.nOutputs l.inp = l.inp.withDelta (List.replicate a.nOutputs 0) := by
    unfold zeroDelta
    rw [List.drop_of_length_le (by rw [CLay.deltas, List.length_map, li]), List.append_nil]
  have z2 : zeroDelta a.nOutputs l.self = l.self.withDelta (List.replicate a.nOutputs 0) := by
    unfold zeroDelta
    rw [List.drop_of_length_le (by rw [CLay.deltas, List.length_map, ls]), List.append_nil]
  have z3 : (l.self.withDelta (List.replicate a.nOutputs 0)).deltas = List.replicate a.nOutputs 0 :=
    (withDelta_facts (by rw [List.length_replicate, ls])).2.1
  have z4 : (l.inp.withDelta (List.replicate a.nOutputs 0)).deltas = List.replicate a.nOutputs 0 :=
    (withDelta_facts (by rw [List.length_replicate, li])).2.1
  -- the output part
  obtain ⟨c1, D1, b1, b2, b3, _, b5⟩ := connBackward_spec (l := l.out.withDelta d) (x := a.sum x)
    (by rw [fp]; exact So) (by
      show l.out.nInputs = _
      rw [lon, no, sum_length F]) (fun i hi' => by
        have := smooth_clip (p := (l.out.withDelta d).par) (by rw [fp]; exact ho) i hi'
        exact this) (holds_withDelta hdl o5) (by
      show l.out.opt.sgd = true
      rw [o3]; exact F.sgd.2.2) (some (List.replicate a.nOutputs 0)) (fun v h => by
      cases h
      rw [List.length_replicate]
      show _ = l.out.nInputs
      rw [lon, no])
  obtain ⟨e, rfl, e1, e2⟩ := b5 _ rfl
  rw [List.length_replicate] at e1
  have hgs : IsGrad (fun y => C (a.out.par.out y)) (a.sum x) e := by
    refine isGrad_layer (p := a.out.par) (by
      show a.out.nInputs = _
      rw [no, sum_length F]) ho hg fun j hj => ?_
    have hj' : j < (l.out.withDelta d).nInputs := by
      show j < l.out.nInputs
      rw [lon]; exact hj
    rw [e2 j hj']
    have : (List.replicate a.nOutputs (0 : ℝ)).getD j 0 = 0 := by
      rw [List.getD, List.getElem?_replicate]; split <;> rfl
    rw [this, zero_add]
    show ∑ i ∈ range l.out.nOutputs, _ * (l.out.withDelta d).par.w.getD (i * l.out.nInputs + j) 0 = _
    rw [lom, lon, fp]
    refine sum_congr rfl fun i hi' => ?_
    rw [locGrad_smooth (by rw [fp]; exact ho) (by
      show i < l.out.nOutputs
      rw [lom]; exact mem_range.1 hi'), f2, fp]
    show _ * deriv (actSpec l.out.fn) _ * _ = _
    rw [lof]
    rfl
  have hio : (a.inp.par.out x).length = (a.self.par.out a.out.outs).length := by
    rw [out_length, out_length]
    show a.inp.nOutputs = a.self.nOutputs
    rw [mi, ms]
  have hgi := isGrad_sum hio hgs
  have hgf := isGrad_sum (C := fun y => C (a.out.par.out y)) (d := e) hio.symm (by
    rw [zip_sum_comm]; exact hgs)
  -- the part that reads the last outputs
  obtain ⟨z, hz⟩ := all_some a.state F.state.2
  have hzl : z.length = a.nOutputs := by
    have := congrArg List.length hz
    rw [List.length_map, F.state.1] at this
    exact this.symm
  have hel : e.length = l.self.ns.length := by rw [ls, e1]
  obtain ⟨g1, g2, g3, g4, g5, g6⟩ := withDelta_facts hel
  have gp : (l.self.withDelta e).par = a.self.par := g1.trans s1
  obtain ⟨c2, D2, t1, _, t3, _, _⟩ := connBackward_read (l := l.self.withDelta e) (x := a.out.outs)
    (z := z) (by rw [gp]; exact Ss) (by
      show l.self.nInputs = _
      rw [lsn, ns, hzl]) (fun i hi' => by
        have := smooth_clip (p := (l.self.withDelta e).par) (by rw [gp]; exact hf) i hi'
        exact this) (holds_withDelta hel s5) (by
      show l.self.opt.sgd = true
      rw [s3]; exact F.sgd.2.1) none (fun v h => nomatch h)
  -- the part that reads the inputs
  have heli : e.length = l.inp.ns.length := by rw [li, e1]
  obtain ⟨k1, k2, k3, k4, k5, k6⟩ := withDelta_facts heli
  have kp : (l.inp.withDelta e).par = a.inp.par := k1.trans p1
  obtain ⟨c3, D3, u1, u2, u3, u4, u5⟩ := connBackward_spec (l := l.inp.withDelta e) (x := x)
    (by rw [kp]; exact Si) (by
      show l.inp.nInputs = _
      rw [lin, ni, hx]) (fun i hi' => by
        have := smooth_clip (p := (l.inp.withDelta e).par) (by rw [kp]; exact hi) i hi'
        exact this) (holds_withDelta heli p5) (by
      show l.inp.opt.sgd = true
      rw [p3]; exact F.sgd.1) D (fun v h => by
      rw [hD v h, List.length_replicate]
      show _ = l.inp.nInputs
      rw [lin, ni, hx])
  refine ⟨{ l with inp := c3, self := c2, out := c1 }, D3, ?_, ?_, ?_, ?_, u4, ?_⟩
  · unfold recBackward
    dsimp only
    rw [P.n, if_neg (by rw [li, ls]; omega), z1, z2, z3]
    have r1 : readIf (l.out.withDelta d).opt.sgd l.state = .ok (a.sum x) := by
      show readIf l.out.opt.sgd _ = _
      rw [o3, F.sgd.2.2, P.state]
      exact readAll_some _
    have r2 : readIf (l.self.withDelta e).opt.sgd l.prev = .ok z := by
      show readIf l.self.opt.sgd _ = _
      rw [s3, F.sgd.2.1, P.prev, hz]
      exact readAll_some _
    have w1 : (l.self.withDelta (List.replicate a.nOutputs 0)).withDelta e = l.self.withDelta e :=
      conn_withDelta2 (by rw [List.length_replicate, ls]) hel
    have w2 : (l.inp.withDelta (List.replicate a.nOutputs 0)).withDelta e = l.inp.withDelta e :=
      conn_withDelta2 (by rw [List.length_replicate, li]) heli
    simp only [Bind.bind, Except.bind, r1, b1, w1, r2, t1, g2, z4]
    rw [List.take_of_length_le (by omega), List.drop_of_length_le (by simp), List.append_nil, w2, u1]
  · exact part_updates Si hi p1 p2 p4 (by rw [e1, mi]) hgi u2 u3
  · intro i hi'
    have hi2 : i < (l.self.withDelta e).nOutputs := by
      show i < l.self.nOutputs
      rw [lsm]; exact hi'
    show HasDerivAt _ ((c2.ns.map Neuron.bupd).getD i 0 - _) _
    rw [t3 i hi2, g4, s4, add_sub_cancel_left, locGrad_smooth (by rw [gp]; exact hf) hi2, g2, gp]
    have := grad_param (p := a.self.par) hf hgf
      (fun v => { a.self.par with b := a.self.par.b.set i v })
      (a.self.par.b.getD i 0) 1 hi' (fun _ => rfl) (fun _ => rfl)
      (fun u k => by rw [pre_setB Ss _ hi' u k, mul_one])
    rw [mul_one] at this
    refine (this.congr_deriv ?_).congr_of_eventuallyEq (Eventually.of_forall fun v => ?_)
    · show _ = _ * deriv (actSpec l.self.fn) _
      rw [lsf]
      rfl
    · show C _ = C _
      rw [zip_sum_comm]
  · exact part_updates So ho o1 o2 o4 (by rw [hd, mo]) hg b2 b3
  · intro v hv
    obtain ⟨v', q1, q2, q3⟩ := u5 v hv
    refine ⟨v', q1, by rw [q2, hD v hv, List.length_replicate], ?_⟩
    refine isGrad_layer (C := fun y => C (a.out.par.out (List.zipWith (· + ·) y
      (a.self.par.out a.out.outs)))) (p := a.inp.par) (by
      show a.inp.nInputs = _
      rw [ni, hx]) hi hgi fun j hj => ?_
    have hj' : j < (l.inp.withDelta e).nInputs := by
      show j < l.inp.nInputs
      rw [lin]; exact hj
    rw [q3 j hj', hD v hv]
    have : (List.replicate x.length (0 : ℝ)).getD j 0 = 0 := by
      rw [List.getD, List.getElem?_replicate]; split <;> rfl
    rw [this, zero_add]
    show ∑ i ∈ range l.inp.nOutputs, _ * (l.inp.withDelta e).par.w.getD (i * l.inp.nInputs + j) 0 = _
    rw [show l.inp.nOutputs = a.inp.nOutputs from congrArg Par.nOut p1, lin, kp]
    refine sum_congr rfl fun i hi' => ?_
    rw [locGrad_smooth (by rw [kp]; exact hi) (by
      show i < l.inp.nOutputs
      rw [show l.inp.nOutputs = a.inp.nOutputs from congrArg Par.nOut p1]; exact mem_range.1 hi'),
      k2, kp]
    show _ * deriv (actSpec l.inp.fn) _ * _ = _
    rw [show l.inp.fn = a.inp.fn from congrArg Par.fn p1]
    rfl

/-- The parameters of the three parts, with other ones in one place. -/
def RLay.with3 (l : RLay ℝ) (k : Place) (q : Par) : Par × Par × Par :=
  match k with
  | .inp => (q, l.self.par, l.out.par)
  | .self => (l.inp.par, q, l.out.par)
  | _ => (l.inp.par, l.self.par, q)

/-- A recurrent layer with other parameters in one place has the same memory. -/
theorem fits_put {l : RLay ℝ} (F : l.Fits) {k : Place} {c : CLay ℝ}
    (hk : (GLay.recu l).part? k = some c) (p : Prm) (v : ℝ) :
    ∃ l' : RLay ℝ, (GLay.recu l).onPart (p.put v c) k = .recu l' ∧ l'.Fits ∧ l'.nInputs = l.nInputs ∧
      l'.out.outs = l.out.outs ∧
      (l'.inp.par, l'.self.par, l'.out.par) = l.with3 k (p.put v c).par := by
  have hs : ∀ {c : CLay ℝ} {n m : Nat}, c.par.Shaped ∧ c.nInputs = n ∧ c.nOutputs = m →
      (p.put v c).par.Shaped ∧ (p.put v c).nInputs = n ∧ (p.put v c).nOutputs = m := by
    intro c n m h
    exact ⟨put_shaped h.1 p v, by cases p <;> exact h.2.1, by cases p <;> exact h.2.2⟩
  have ho : ∀ {c : CLay ℝ}, c.opt.sgd = true → (p.put v c).opt.sgd = true := by
    intro c h
    cases p <;> exact h
  cases k with
  | whole => cases hk
  | inp =>
    cases hk
    exact ⟨_, rfl, ⟨hs F.inp, F.self, F.out, ⟨ho F.sgd.1, F.sgd.2⟩, F.state, F.prev⟩, rfl, rfl, rfl⟩
  | self =>
    cases hk
    exact ⟨_, rfl, ⟨F.inp, hs F.self, F.out, ⟨F.sgd.1, ho F.sgd.2.1, F.sgd.2.2⟩, F.state, F.prev⟩,
      rfl, rfl, rfl⟩
  | out =>
    cases hk
    exact ⟨_, rfl, ⟨F.inp, F.self, hs F.out, ⟨F.sgd.1, F.sgd.2.1, ho F.sgd.2.2⟩, F.state, F.prev⟩,
      rfl, put_outs _ p v, rfl⟩

theorem good_recu {g : Rng ℝ R} {lo : ℝ} {a : RLay ℝ} {y : List ℝ}
    (hd : (GLay.recu a).Diff lo y) (r : R) : ∃ l o r1, GoodLay g lo (.recu a) y r l o r1 := by
  obtain ⟨F, hy, hi, hf, ho⟩ := hd
  have ho : a.out.par.Smooth (a.sum y) := ho
  have run : ∀ (b : RLay ℝ), b.Fits → ∀ z : List ℝ, b.nInputs ≤ z.length → ∃ l,
      layerForward g realLibm lo true (.recu b) z r = .ok (.recu l, r) ∧
      (GLay.recu l).outs = .ok (b.out.par.out (b.sum z)) ∧ Passed b l z := by
    intro b G z hz
    obtain ⟨l, e, P⟩ := recForward_passed G hz
    refine ⟨l, by show keepR GLay.recu _ r = _; rw [e]; rfl, ?_, P⟩
    show Except.ok l.out.outs = _
    rw [P.out.2.2.2.2.out, P.out.1]
  obtain ⟨l, e, eo, P⟩ := run a F y (by omega)
  have olen : (a.out.par.out (a.sum y)).length = a.nOutputs := by
    rw [out_length]; exact F.out.2.2
  have lo' : l.out.ns.length = a.nOutputs := by rw [rec_ns P.out.1, par_ns F.out.1, F.out.2.2]
  have runP : ∀ k c, (GLay.recu a).part? k = some c → ∀ (p : Prm) (v : ℝ), ∃ (b : RLay ℝ) (l' : RLay ℝ),
      (GLay.recu a).onPart (p.put v c) k = .recu b ∧ b.out.outs = a.out.outs ∧
      (b.inp.par, b.self.par, b.out.par) = a.with3 k (p.put v c).par ∧
      layerForward g realLibm lo true (.recu b) y r = .ok (.recu l', r) ∧
      (GLay.recu l').outs = .ok (b.out.par.out (b.sum y)) := by
    intro k c hc p v
    obtain ⟨b, q1, q2, q3, q4, q5⟩ := fits_put F hc p v
    obtain ⟨l', t1, t2, _⟩ := run b q2 y (by rw [q3]; omega)
    exact ⟨b, l', q1, q4, q5, t1, t2⟩
  have climb : ∀ (C : List ℝ → ℝ) (l2 : RLay ℝ),
      UpdatesAre a.inp l2.inp (fun p => C (a.out.par.out
        (List.zipWith (· + ·) (p.out y) (a.self.par.out a.out.outs)))) →
      (∀ i < a.self.nOutputs, HasDerivAt (fun v => C (a.out.par.out (List.zipWith (· + ·)
          (a.inp.par.out y)
          (({ a.self.par with b := a.self.par.b.set i v } : Par).out a.out.outs))))
        ((l2.self.ns.map Neuron.bupd).getD i 0 - (a.self.ns.map Neuron.bupd).getD i 0)
        (a.self.par.b.getD i 0)) →
      UpdatesAre a.out l2.out (fun p => C (p.out (a.sum y))) →
      Climbs (.recu a) (.recu l2) (fun b => C (layOut g lo b y r).1) := by
    intro C l2 h1 h2 h3 k c hc
    have val : ∀ (p : Prm) (v : ℝ), (layOut g lo ((GLay.recu a).onPart (p.put v c) k) y r).1 =
        (a.with3 k (p.put v c).par).2.2.out (List.zipWith (· + ·)
          ((a.with3 k (p.put v c).par).1.out y)
          ((a.with3 k (p.put v c).par).2.1.out a.out.outs)) := by
      intro p v
      obtain ⟨b, l', q1, q2, q3, q4, q5⟩ := runP k c hc p v
      rw [q1, layOut_eq q4 q5]
      unfold RLay.sum
      rw [q2, ← q3]
    cases k with
    | whole => cases hc
    | inp =>
      cases hc
      refine ⟨l2.inp, rfl, fun p hp _ => ?_⟩
      simp only [val]
      exact climbs_all F.inp.1 h1 p hp
    | self =>
      cases hc
      refine ⟨l2.self, rfl, fun p hp hk => ?_⟩
      simp only [val]
      cases p with
      | w j => exact hk.elim
      | b i => exact climbs_b (F := fun p => C (a.out.par.out (List.zipWith (· + ·)
          (a.inp.par.out y) (p.out a.out.outs)))) F.self.1 h2 hp
    | out =>
      cases hc
      refine ⟨l2.out, rfl, fun p hp _ => ?_⟩
      simp only [val]
      exact climbs_all F.out.1 h3 p hp
  refine ⟨.recu l, _, r, e, eo, ?_, ?_, ?_, ?_, ?_, ?_⟩
  · rw [olen]
    show (l.nOutputs : Int) = _
    rw [P.n]
  · rw [olen]
    show (l.out.ns.map Neuron.delta).length = _
    rw [List.length_map, lo']
  · intro d hd
    rw [olen] at hd
    have hdl : d.length = l.out.ns.length := by rw [lo', hd]
    obtain ⟨f1, f2, f3, _⟩ := withDelta_facts hdl
    refine ⟨?_, f2, rfl, fun e he => ?_⟩
    · rw [← eo]
      show Except.ok _ = Except.ok _
      rw [f3]
    · rw [olen] at he
      show GLay.recu { l with out := (l.out.withDelta d).withDelta e } =
        GLay.recu { l with out := l.out.withDelta e }
      rw [conn_withDelta2 hdl (by rw [lo', he])]
  · intro c v c' _ h2 _
    filter_upwards [h2] with u hu
    obtain ⟨l', q1, q2, _⟩ := run a F (c u) (by omega)
    exact ⟨_, _, q1, q2⟩
  · intro k c hc p hp v
    obtain ⟨b, l', q1, q2, q3, q4, q5⟩ := runP k c hc p v
    rw [q1]
    exact ⟨_, _, q4, q5⟩
  · intro d hd C hg
    rw [olen] at hd
    constructor
    · obtain ⟨l2, D', q1, q2, q3, q4, q5, _⟩ := recBackward_passed F hy hi hf ho P hd (isGrad_of_L hg)
        none (fun v h => nomatch h)
      refine ⟨.recu l2, ?_, climb C l2 q2 q3 q4⟩
      show backOf GLay.recu _ = _
      rw [q1, q5 rfl]
      rfl
    · obtain ⟨l2, D', q1, q2, q3, q4, _, q6⟩ := recBackward_passed F hy hi hf ho P hd (isGrad_of_L hg)
        (some (List.replicate y.length 0)) (fun v h => by cases h; rfl)
      obtain ⟨e', t1, t2, t3⟩ := q6 _ rfl
      refine ⟨.recu l2, e', ?_, t2, climb C l2 q2 q3 q4, ?_⟩
      · show backOf GLay.recu _ = _
        rw [q1, t1]
        rfl
      · intro c v c' h1 h2 h3
        refine (isGradL_of t3 c v c' h1 h2 h3).congr_of_eventuallyEq ?_
        filter_upwards [h2] with u hu
        obtain ⟨l', w1, w2, _⟩ := run a F (c u) (by omega)
        show C _ = C _
        rw [layOut_eq w1 w2]

theorem good_layer {g : Rng ℝ R} {lo : ℝ} (a : GLay ℝ) (y : List ℝ) (r : R) (h : a.Diff lo y) :
    ∃ l o r1, GoodLay g lo a y r l o r1 := by
  cases a with
  | conn l => exact good_conn h r
  | conv l => exact good_conv h r
  | maxp l => exact good_max h r
  | avgp l => exact good_avg h.1 h.2 r
  | ups l => exact good_ups h.1 h.2 r
  | drop l => exact good_drop h.1 h.2 r
  | noise l => exact good_noise h.1 h.2 r
  | recu l => exact good_recu h r
  | lstm l => exact h.elim
  | soft l => exact h.elim

end Xcsf
