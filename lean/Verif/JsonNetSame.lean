import Verif.JsonNetLemmas

/-!
# Networks with the same JSON compute the same
-/

set_option linter.unusedSectionVars false

namespace Xcsf.JsonNet
open Xcsf
variable {K R : Type} [Field K] [LinearOrder K] [IsStrictOrderedRing K] [FloorRing K]

/-! ## What the JSON of a layer determines -/

theorem conn_inj {a b : CLay K} (S : a.Sound) (T : b.Sound) (h : connJson true a = connJson true b) :
    a.nInputs = b.nInputs ∧ a.nOutputs = b.nOutputs ∧ a.fn = b.fn ∧ SameMatrix a b := by
  obtain ⟨s, h1, _⟩ := fn_shown (K := K) S.fn
  obtain ⟨t, h2, _⟩ := fn_shown (K := K) T.fn
  unfold connJson at h
  rw [h1, h2, rates_shown S.mu.1, rates_shown T.mu.1] at h
  have := Json.obj.inj (Except.ok.inj h)
  simp only [List.cons.injEq, Prod.mk.injEq, true_and, and_true] at this
  obtain ⟨e1, e2, e3, e4, e5, e6⟩ := this
  refine ⟨by have := num_inj e2; omega, by have := num_inj e3; omega, ?_, matrix_inj e6⟩
  refine fn_inj (K := K) S.fn T.fn ?_
  rw [h1, h2, e1]

theorem conv_inj {a b : VLay K} (S : a.core.Sound) (T : b.core.Sound)
    (h : convJson true a = convJson true b) :
    a.nIn = b.nIn ∧ a.nOut = b.nOut ∧ a.core.nOutputs = b.core.nOutputs ∧ a.size = b.size ∧
      a.stride = b.stride ∧ a.pad = b.pad ∧ a.core.fn = b.core.fn ∧ SameMatrix a.core b.core := by
  obtain ⟨s, h1, _⟩ := fn_shown (K := K) S.fn
  obtain ⟨t, h2, _⟩ := fn_shown (K := K) T.fn
  unfold convJson at h
  rw [h1, h2, rates_shown S.mu.1, rates_shown T.mu.1] at h
  have := Json.obj.inj (Except.ok.inj h)
  simp only [List.cons.injEq, Prod.mk.injEq, true_and, and_true] at this
  obtain ⟨e1, e2, e3, e4, e5, e6, e7, e8, e9, e10⟩ := this
  refine ⟨num_inj e2, num_inj e3, by have := num_inj e4; omega, num_inj e5, num_inj e6, num_inj e7,
    ?_, matrix_inj e10⟩
  refine fn_inj (K := K) S.fn T.fn ?_
  rw [h1, h2, e1]

/-! ## Connected and convolutional layers -/

theorem conn_same (m : Libm K) {a b : CLay K} (h1 : a.nInputs = b.nInputs)
    (h2 : a.nOutputs = b.nOutputs) (h3 : a.fn = b.fn) (h4 : SameMatrix a b) (x : List K) :
    Sim (fun a b => a.outs = b.outs) (connForward m a x) (connForward m b x) := by
  have hw : a.ws.length = b.ws.length := by
    have := congrArg List.length h4.ws
    simpa using this
  have hn : a.ns.length = b.ns.length := by
    have := congrArg List.length h4.bs
    simpa using this
  unfold connForward
  rw [h1, h2, h3, h4.ws, h4.bs, hw, hn]
  by_cases hg : x.length < b.nInputs ∨ b.ws.length < b.nOutputs * b.nInputs ∨
      b.ns.length < b.nOutputs
  · rw [if_pos hg, if_pos hg]; exact rfl
  · rw [if_neg hg, if_neg hg]
    dsimp only
    generalize activateArray m b.fn (ofArr b.nOutputs (gemm false true 1 b.nOutputs b.nInputs 1
        (arrOf x) b.nInputs (arrOf (b.ws.map Wt.w)) b.nInputs 1 (arrOf (b.ns.map Neuron.bias))
        b.nOutputs)) = q
    match q with
    | .error e => exact rfl
    | .ok (ss, os) => exact outs_of_neurons _ _ _ hn

/-- What a pass through a convolutional layer reads. -/
structure SameFilter (a b : VLay K) : Prop where
  height : a.height = b.height
  width : a.width = b.width
  channels : a.channels = b.channels
  size : a.size = b.size
  stride : a.stride = b.stride
  pad : a.pad = b.pad
  outW : a.outW = b.outW
  outH : a.outH = b.outH
  nOut : a.nOut = b.nOut
  filters : a.core.nOutputs = b.core.nOutputs
  fn : a.core.fn = b.core.fn
  matrix : SameMatrix a.core b.core

theorem conv_same (m : Libm K) {a b : VLay K} (h : SameFilter a b)
    (hc : a.cells.length = b.cells.length) (ht : a.temp = b.temp) (x : List K) :
    Sim (fun a b => a.cells.map Cell.out = b.cells.map Cell.out) (convForward m a x)
      (convForward m b x) := by
  have hw : a.core.ws.length = b.core.ws.length := by
    have := congrArg List.length h.matrix.ws
    simpa using this
  have hn : a.core.ns.length = b.core.ns.length := by
    have := congrArg List.length h.matrix.bs
    simpa using this
  have hcols : convCols a x = convCols b x := by
    unfold convCols
    rw [h.height, h.width, h.channels, h.size, h.stride, h.pad, h.outW, h.outH, ht]
  unfold convForward
  rw [hcols, h.filters, h.fn, h.matrix.ws, h.matrix.bs, hw, hn, hc, h.size, h.channels, h.outW,
    h.outH, h.nOut]
  dsimp only
  by_cases hg : b.core.ws.length < b.core.nOutputs * (b.size * b.size * b.channels).toNat ∨
      b.cells.length < b.core.nOutputs * (b.outW * b.outH).toNat ∨ b.cells.length ≠ b.nOut.toNat ∨
      b.cells.length < b.core.ns.length * (b.outW * b.outH).toNat
  · rw [if_pos hg, if_pos hg]; exact rfl
  · rw [if_neg hg, if_neg hg]
    cases convCols b x with
    | error e => exact rfl
    | ok z =>
      dsimp only
      generalize activateArray m b.core.fn _ = q
      match q with
      | .error e => exact rfl
      | .ok (ss, os) => exact outs_of_cells _ _ _ hc

/-- Two legal convolutional layers that read the same. -/
theorem conv_join {k : Lim} (m : Libm K) {a b : VLay K} (L : (GLay.conv a).Legal k)
    (L' : (GLay.conv b).Legal k) (h : SameFilter a b) {x : List K}
    (hx : x.length = a.nIn.toNat) (r : R) :
    Sim SameOuts (keepR GLay.conv (convForward m a x) r) (keepR GLay.conv (convForward m b x) r) := by
  obtain ⟨V, F, _⟩ := fresh_legal L rfl
  obtain ⟨c, e, _⟩ := convForward_step m V F (x := x) hx
  obtain ⟨u, e1, h1⟩ := conv_sim m L.1.ok.cl (by rw [L.1.ok.tl]; rfl) e
  have hs := conv_same m (a := a.fresh) (b := b.fresh)
    ⟨h.height, h.width, h.channels, h.size, h.stride, h.pad, h.outW, h.outH, h.nOut, h.filters,
      h.fn, ⟨h.matrix.ws, by
        have := h.matrix.bs
        show (a.core.ns.map Neuron.fresh).map Neuron.bias = (b.core.ns.map Neuron.fresh).map
          Neuron.bias
        rw [List.map_map, List.map_map]
        exact this⟩⟩
    (by simp [VLay.fresh, h.nOut])
    (by simp [VLay.fresh, h.outH, h.outW, h.size, h.channels]) x
  rw [e] at hs
  cases e2 : convForward m b.fresh x with
  | error f => rw [e2] at hs; exact hs.elim
  | ok d =>
    rw [e2] at hs
    obtain ⟨v, e3, h3⟩ := conv_sim m L'.1.ok.cl (by rw [L'.1.ok.tl]; rfl) e2
    rw [e1, e3]
    exact ⟨rfl, _, rfl, congrArg Except.ok (h3.trans ((show _ = _ from hs).symm.trans h1.symm))⟩

/-! ## One layer -/

/-- Both layers do the same: the same outputs, sizes of the outputs and use of the image. -/
structure Alike (g : Rng K R) (m : Libm K) (lo : K) (l l' : GLay K) : Prop where
  n : l.dim.n = l'.dim.n
  dim : ∀ b b', l.passes = false → l.still b = true → l'.still b' = true → l.dim = l'.dim
  passes : l.passes = l'.passes
  run : ∀ x : List K, x.length = l.nIn.toNat → ∀ r,
    Sim SameOuts (layerForward g m lo false l x r) (layerForward g m lo false l' x r)

theorem alike_conn (g : Rng K R) (m : Libm K) (lo : K) {k : Lim} {a b : CLay K}
    (L : (GLay.conn a).Legal k) (L' : (GLay.conn b).Legal k)
    (h : layerJson true (.conn a) = layerJson true (.conn b)) : Alike g m lo (.conn a) (.conn b) := by
  obtain ⟨h1, h2, h3, h4⟩ := conn_inj L.1 L'.1 h
  refine ⟨?_, ?_, rfl, ?_⟩
  · show (a.nOutputs : Int) = b.nOutputs
    rw [h2]
  · intro _ _ _ ha hb
    obtain ⟨e1, e2, e3⟩ := L.2.2.2 (by simpa [GLay.still] using ha)
    obtain ⟨f1, f2, f3⟩ := L'.2.2.2 (by simpa [GLay.still] using hb)
    show (⟨a.nOutputs, a.outW, a.outH, a.outC⟩ : Dim) = ⟨b.nOutputs, b.outW, b.outH, b.outC⟩
    rw [e1, e2, e3, f1, f2, f3, h2]
  · intro x _ r
    have h := conn_same m h1 h2 h3 h4 x
    show Sim SameOuts (keepR GLay.conn (connForward m a x) r)
      (keepR GLay.conn (connForward m b x) r)
    revert h
    generalize connForward m a x = p
    generalize connForward m b x = q
    intro h
    match p, q, h with
    | .ok a, .ok b, h => exact ⟨rfl, b.outs, congrArg Except.ok h, rfl⟩
    | .error e, .error f, h => exact h

theorem alike_conv (g : Rng K R) (m : Libm K) (lo : K) {k : Lim} {a b : VLay K}
    (L : (GLay.conv a).Legal k) (L' : (GLay.conv b).Legal k)
    (ht : (GLay.conv a).takes = (GLay.conv b).takes)
    (h : layerJson true (.conv a) = layerJson true (.conv b)) : Alike g m lo (.conv a) (.conv b) := by
  obtain ⟨h1, h2, h3, h4, h5, h6, h7, h8⟩ := conv_inj L.1.core L'.1.core h
  have ht := Option.some.inj ht
  simp only [Prod.mk.injEq] at ht
  obtain ⟨t1, t2, t3⟩ := ht
  have hw : a.outW = b.outW := by rw [L.1.ok.outW, L'.1.ok.outW, t1, h4, h5, h6]
  have hh : a.outH = b.outH := by rw [L.1.ok.outH, L'.1.ok.outH, t2, h4, h5, h6]
  refine ⟨h2, ?_, rfl, ?_⟩
  · intro _ _ _ _ _
    show (⟨a.nOut, a.outW, a.outH, a.core.nOutputs⟩ : Dim) =
      ⟨b.nOut, b.outW, b.outH, b.core.nOutputs⟩
    rw [h2, hw, hh, h3]
  · intro x hx r
    exact conv_join m L L' ⟨t2, t1, t3, h4, h5, h6, hw, hh, h2, h3, h7, h8⟩ hx r

theorem alike_max {g : Rng K R} {m : Libm K} (hm : ∀ x, 0 < m.exp x) (lo : K) {k : Lim}
    {a b : PLay K} (L : (GLay.maxp a).Legal k) (L' : (GLay.maxp b).Legal k)
    (h : layerJson true (.maxp a) = layerJson true (.maxp b)) : Alike g m lo (.maxp a) (.maxp b) := by
  have := Json.obj.inj (Except.ok.inj h)
  simp only [List.cons.injEq, Prod.mk.injEq, true_and, and_true] at this
  obtain ⟨e1, e2, e3, e4, e5, e6, e7, e8, e9, e10, e11⟩ := this
  have e1 := num_inj e1
  have e2 := num_inj e2
  have e3 := num_inj e3
  have e4 := num_inj e4
  have e5 := num_inj e5
  have e6 := num_inj e6
  have e7 := num_inj e7
  have e8 := num_inj e8
  have e9 := num_inj e9
  have e10 := num_inj e10
  have e11 := num_inj e11
  refine ⟨e2, ?_, rfl, ?_⟩
  · intro _ _ _ _ _
    show (⟨a.nOut, a.outW, a.outH, a.outC⟩ : Dim) = ⟨b.nOut, b.outW, b.outH, b.outC⟩
    rw [e2, e9, e10, e11]
  · intro x hx r
    obtain ⟨V, Rm, hmx⟩ := L
    have W := L'.1
    have LB : (GLay.maxp { a with output := List.replicate a.nOut.toNat none }).Legal k :=
      ⟨⟨V.h, V.w, V.c, V.s, V.st, V.p, V.covers, V.fitW, V.fitH, V.outW, V.outH, V.outC, V.nIn,
      V.nOut, V.il, by simp, V.dl⟩, ⟨Rm.cha, Rm.ins, Rm.outs, Rm.padW, Rm.padH⟩, hmx⟩
    have h := layerForward_step (g := g) hm lo false LB (x := x) hx r
    refine sim_join (f := GLay.maxp) (fun _ => rfl) (post_outs h) ?_ ?_
    · exact sim_mono (maxpool_sim lo x ⟨⟨rfl, rfl, rfl, rfl, rfl, rfl, rfl, rfl, rfl, rfl⟩,
        covers_blank_of V.ol, rfl⟩) (fun _ _ h => h.out)
    · exact sim_mono (maxpool_sim lo x ⟨⟨e3, e4, e5, e8, e6, e7, e9, e10, e1, e2⟩,
        covers_blank_of (by rw [W.ol, e2]), by
          show a.indexes.length = b.indexes.length
          rw [V.il, W.il, e2]⟩) (fun _ _ h => h.out)

theorem alike_avg {g : Rng K R} {m : Libm K} (hm : ∀ x, 0 < m.exp x) (lo : K) {k : Lim}
    {a b : PLay K} (L : (GLay.avgp a).Legal k) (L' : (GLay.avgp b).Legal k)
    (h : layerJson true (.avgp a) = layerJson true (.avgp b)) : Alike g m lo (.avgp a) (.avgp b) := by
  have := Json.obj.inj (Except.ok.inj h)
  simp only [List.cons.injEq, Prod.mk.injEq, true_and, and_true] at this
  obtain ⟨e1, e2, e3, e4, e5⟩ := this
  have e1 := num_inj e1
  have e2 := num_inj e2
  have e3 := num_inj e3
  have e4 := num_inj e4
  have e5 := num_inj e5
  obtain ⟨V, v1, v2, hc, hin⟩ := L
  obtain ⟨W, w1, w2, _⟩ := L'
  refine ⟨e2, ?_, rfl, ?_⟩
  · intro _ _ _ _ _
    show (⟨a.nOut, a.outW, a.outH, a.outC⟩ : Dim) = ⟨b.nOut, b.outW, b.outH, b.outC⟩
    rw [e2, v1, v2, w1, w2, V.outC, W.outC, e5]
  · intro x hx r
    have LB : (GLay.avgp { a with output := List.replicate a.nOut.toNat none }).Legal k :=
      ⟨⟨V.h, V.w, V.c, V.outC, V.nIn, V.nOut, by simp, V.dl⟩, v1, v2, hc, hin⟩
    have h := layerForward_step (g := g) hm lo false LB (x := x) hx r
    refine sim_join (f := GLay.avgp) (fun _ => rfl) (post_outs h) ?_ ?_
    · exact avgpool_sim x rfl rfl rfl (covers_blank_of V.ol)
    · exact avgpool_sim x e3 e4 e5 (covers_blank_of (by rw [W.ol, e2]))

theorem alike_ups {g : Rng K R} {m : Libm K} (hm : ∀ x, 0 < m.exp x) (lo : K) {k : Lim}
    {a b : PLay K} (L : (GLay.ups a).Legal k) (L' : (GLay.ups b).Legal k)
    (h : layerJson true (.ups a) = layerJson true (.ups b)) : Alike g m lo (.ups a) (.ups b) := by
  have := Json.obj.inj (Except.ok.inj h)
  simp only [List.cons.injEq, Prod.mk.injEq, true_and, and_true] at this
  obtain ⟨e1, e2, e3, e4, e5, e6⟩ := this
  have e1 := num_inj e1
  have e2 := num_inj e2
  have e3 := num_inj e3
  have e4 := num_inj e4
  have e5 := num_inj e5
  have e6 := num_inj e6
  obtain ⟨V, Rm, o1, o2⟩ := L
  have W := L'.1
  refine ⟨e2, ?_, rfl, ?_⟩
  · intro _ _ _ _ _
    show (⟨a.nOut, a.outW, a.outH, a.outC⟩ : Dim) = ⟨b.nOut, b.outW, b.outH, b.outC⟩
    rw [e2, V.outW, V.outH, W.outW, W.outH, V.outC, W.outC, e3, e4, e5, e6]
  · intro x hx r
    have LB : (GLay.ups { a with output := List.replicate a.nOut.toNat none }).Legal k :=
      ⟨⟨V.h, V.w, V.c, V.st, V.outW, V.outH, V.outC, V.nIn, V.nOut, by simp, V.dl⟩,
      ⟨Rm.cha, Rm.ins, Rm.outs, Rm.padW, Rm.padH⟩, o1, o2⟩
    have h := layerForward_step (g := g) hm lo false LB (x := x) hx r
    refine sim_join (f := GLay.ups) (fun _ => rfl) (post_outs h) ?_ ?_
    · exact upsample_sim x rfl rfl rfl rfl (covers_blank_of V.ol)
    · exact upsample_sim x e3 e4 e5 e6 (covers_blank_of (by rw [W.ol, e2]))

theorem alike_mask {a b : PLay K} (V : a.MaskOk) (W : b.MaskOk) (hi : a.nIn = b.nIn) {x : List K}
    (hx : x.length = a.nIn.toNat) (st st' : Option (List K)) :
    written (maskStore a st (x.take a.nIn.toNat)).output = .ok (x.take b.nIn.toNat) ∧
    written (maskStore b st' (x.take b.nIn.toNat)).output = .ok (x.take b.nIn.toNat) := by
  have h3 := V.nOut
  have h6 := W.nOut
  rw [← hi]
  exact ⟨stored_outs V.ol _ (by rw [List.length_take]; omega),
    stored_outs W.ol _ (by rw [List.length_take]; omega)⟩

theorem alike_drop (g : Rng K R) (m : Libm K) (lo : K) {k : Lim} {a b : PLay K}
    (L : (GLay.drop a).Legal k) (L' : (GLay.drop b).Legal k)
    (h : layerJson true (.drop a) = layerJson true (.drop b)) : Alike g m lo (.drop a) (.drop b) := by
  have := Json.obj.inj (Except.ok.inj h)
  simp only [List.cons.injEq, Prod.mk.injEq, true_and, and_true] at this
  obtain ⟨e1, e2, _⟩ := this
  have e1 := num_inj e1
  have e2 := num_inj e2
  refine ⟨e2, fun _ _ hp => (by cases hp), rfl, ?_⟩
  intro x hx r
  have hx' : x.length = a.nIn.toNat := hx
  have h1 := L.1.ol
  have h2 := L.1.sl
  have h3 := L.1.nOut
  have h4 := L'.1.ol
  have h5 := L'.1.sl
  have h6 := L'.1.nOut
  have h7 := L'.1.n
  show Sim SameOuts (liftR GLay.drop (dropoutForward g false a x r))
    (liftR GLay.drop (dropoutForward g false b x r))
  have g1 : ¬((x.length : Int) < a.nIn ∨ (a.output.length : Int) < a.nIn ∨
      (a.state.length : Int) < a.nIn) := by omega
  have g2 : ¬((x.length : Int) < b.nIn ∨ (b.output.length : Int) < b.nIn ∨
      (b.state.length : Int) < b.nIn) := by omega
  unfold dropoutForward
  rw [if_neg g1, if_neg g2]
  obtain ⟨u, v⟩ := alike_mask L.1 L'.1 e1 hx' none none
  exact ⟨rfl, _, u, v⟩

theorem alike_noise (g : Rng K R) (m : Libm K) (lo : K) {k : Lim} {a b : PLay K}
    (L : (GLay.noise a).Legal k) (L' : (GLay.noise b).Legal k)
    (h : layerJson true (.noise a) = layerJson true (.noise b)) :
    Alike g m lo (.noise a) (.noise b) := by
  have := Json.obj.inj (Except.ok.inj h)
  simp only [List.cons.injEq, Prod.mk.injEq, true_and, and_true] at this
  obtain ⟨e1, e2, e3, e4⟩ := this
  have e1 := num_inj e1
  have e2 := num_inj e2
  refine ⟨e2, fun _ _ hp => (by cases hp), rfl, ?_⟩
  intro x hx r
  exact noise_sim false L.1 L'.1 e1 (Json.num.inj e3) (Json.num.inj e4)
    (by rw [← e1]; exact hx) r

theorem alike_soft {g : Rng K R} {m : Libm K} (hm : ∀ x, 0 < m.exp x) (lo : K) {k : Lim}
    {a b : SLay K} (L : (GLay.soft a).Legal k) (L' : (GLay.soft b).Legal k)
    (h : layerJson true (.soft a) = layerJson true (.soft b)) : Alike g m lo (.soft a) (.soft b) := by
  have := Json.obj.inj (Except.ok.inj h)
  simp only [List.cons.injEq, Prod.mk.injEq, true_and, and_true] at this
  obtain ⟨e1, e2, e3⟩ := this
  have e1 := num_inj e1
  have e2 := num_inj e2
  refine ⟨e2, fun _ _ _ hs => (by cases hs), rfl, ?_⟩
  intro x hx r
  exact soft_sim hm L.1 L'.1 e1 (Json.num.inj e3) (by rw [← e1]; exact hx) r

theorem same_type {k : Lim} {w : Bool} {l l' : GLay K} (L : l.Legal k) (L' : l'.Legal k)
    (h : layerJson w l = layerJson w l') : typeName l = typeName l' := by
  obtain ⟨j, e, s⟩ := layer_shown w L
  obtain ⟨j', e', s'⟩ := layer_shown w L'
  rw [e, e'] at h
  cases h
  have := s.type.symm.trans s'.type
  exact Json.str.inj (Option.some.inj this)

theorem takes_type {l l' : GLay K} (h : typeName l = typeName l') :
    l.takes.isSome = l'.takes.isSome := by
  cases l <;> cases l' <;> first | rfl | (simp [typeName] at h)

theorem layer_alike {g : Rng K R} {m : Libm K} (hm : ∀ x, 0 < m.exp x) (lo : K) {k : Lim}
    {l l' : GLay K} (L : l.Legal k) (L' : l'.Legal k) (hr : l.remembers = false)
    (ht : l.takes = l'.takes) (h : layerJson true l = layerJson true l') : Alike g m lo l l' := by
  have hty := same_type L L' h
  cases l with
  | conn a => cases l' <;> first | (simp [typeName] at hty; done) | exact alike_conn g m lo L L' h
  | recu a => cases hr
  | lstm a => cases hr
  | conv a => cases l' <;> first | (simp [typeName] at hty; done) | exact alike_conv g m lo L L' ht h
  | maxp a => cases l' <;> first | (simp [typeName] at hty; done) | exact alike_max hm lo L L' h
  | avgp a => cases l' <;> first | (simp [typeName] at hty; done) | exact alike_avg hm lo L L' h
  | ups a => cases l' <;> first | (simp [typeName] at hty; done) | exact alike_ups hm lo L L' h
  | drop a => cases l' <;> first | (simp [typeName] at hty; done) | exact alike_drop g m lo L L' h
  | noise a => cases l' <;> first | (simp [typeName] at hty; done) | exact alike_noise g m lo L L' h
  | soft a => cases l' <;> first | (simp [typeName] at hty; done) | exact alike_soft hm lo L L' h

/-! ## Networks -/

theorem members_inj {k : Lim} {w : Bool} {l l' : GLay K} {ls ls' : List (GLay K)} {n : Nat}
    (L : ∀ c ∈ l :: ls, c.Legal k) (L' : ∀ c ∈ l' :: ls', c.Legal k)
    (h : netMembers w n (l :: ls) = netMembers w n (l' :: ls')) :
    layerJson w l = layerJson w l' ∧ netMembers w (n + 1) ls = netMembers w (n + 1) ls' := by
  obtain ⟨j, e, _⟩ := layer_shown w (L l (by simp))
  obtain ⟨j', e', _⟩ := layer_shown w (L' l' (by simp))
  obtain ⟨m, f, _⟩ := members_shown w ls (n + 1)
    fun c hc => layer_shown w (L c (List.mem_cons_of_mem _ hc))
  obtain ⟨m', f', _⟩ := members_shown w ls' (n + 1)
    fun c hc => layer_shown w (L' c (List.mem_cons_of_mem _ hc))
  unfold netMembers at h
  rw [e, e', f, f'] at h
  have := Except.ok.inj h
  simp only [List.cons.injEq, Prod.mk.injEq, true_and] at this
  rw [e, e', f, f', this.1, this.2]
  exact ⟨rfl, rfl⟩

theorem still_passes {l : GLay K} (h : l.passes = true) (b : Bool) : l.still b = b := by
  cases l <;> first | rfl | (cases h)

theorem net_same {k : Lim} {g : Rng K R} {m : Libm K} (hm : ∀ x, 0 < m.exp x) (lo : K)
    (ls : List (GLay K)) : ∀ (ls' : List (GLay K)) (n : Nat) (b b' : Bool) (d d' : Dim) (x : List K)
    (r : R), (∀ l ∈ ls, l.remembers = false) → NetLegal k b d ls → NetLegal k b' d' ls' →
    d.n = d'.n → (b = true → b' = true → d = d') → netMembers true n ls = netMembers true n ls' →
    x.length = d.n.toNat → computes g m lo ls x r = computes g m lo ls' x r := by
  induction ls with
  | nil =>
    intro ls' n b b' d d' x r _ _ N' _ _ h _
    cases ls' with
    | nil => rfl
    | cons l' ls' =>
      have A := legal_all _ _ _ N'
      obtain ⟨m', f', h1, _⟩ := members_shown true (l' :: ls') n fun c hc => layer_shown true (A c hc)
      rw [f'] at h
      have := Except.ok.inj (show Except.ok [] = Except.ok m' from h)
      subst this
      simp at h1
  | cons l ls ih =>
    intro ls' n b b' d d' x r hr N N' hn hd h hx
    have A := legal_all _ _ _ N
    cases ls' with
    | nil =>
      obtain ⟨m', f', h1, _⟩ := members_shown true (l :: ls) n fun c hc => layer_shown true (A c hc)
      rw [f'] at h
      have := Except.ok.inj (show Except.ok m' = Except.ok [] from h)
      subst this
      simp at h1
    | cons l' ls' =>
      have A' := legal_all _ _ _ N'
      obtain ⟨hj, hms⟩ := members_inj A A' h
      obtain ⟨L, Ag, hi, hp, N⟩ := N
      obtain ⟨L', Ag', hi', hp', N'⟩ := N'
      have hty := same_type L L' hj
      have ht : l.takes = l'.takes := by
        have he := takes_type hty
        cases e : l.takes with
        | none =>
          rw [e] at he
          cases e' : l'.takes with
          | none => rfl
          | some t => rw [e'] at he; cases he
        | some t =>
          rw [e] at he
          cases e' : l'.takes with
          | none => rw [e'] at he; cases he
          | some t' =>
            have h1 := Ag.image t e
            have h2 := Ag'.image t' e'
            rw [hd (hi (by rw [e]; rfl)) (hi' (by rw [e']; rfl))] at h1
            rw [h1, h2]
      have K := layer_alike (g := g) hm lo L L' (hr l (by simp)) ht hj
      have hxi : x.length = l.nIn.toNat := by rw [Ag.ins]; exact hx
      have hrun := K.run x hxi r
      have hs := layerForward_step (g := g) hm lo false L hxi r
      unfold computes genForward
      cases e1 : layerForward g m lo false l x r with
      | error f =>
        cases e2 : layerForward g m lo false l' x r with
        | error f' =>
          rw [e1, e2] at hrun
          rw [show f = f' from hrun]
        | ok z => rw [e1, e2] at hrun; exact hrun.elim
      | ok z =>
        cases e2 : layerForward g m lo false l' x r with
        | error f => rw [e1, e2] at hrun; exact hrun.elim
        | ok v =>
          rw [e1, e2] at hrun
          rw [e1] at hs
          obtain ⟨z1, r1⟩ := z
          obtain ⟨v1, r2⟩ := v
          obtain ⟨he, o, ho1, ho2⟩ := hrun
          obtain ⟨hk, _, o', ho3, hol⟩ := hs
          dsimp only at he ho1 ho2 ho3 hk hol ⊢
          subst he
          rw [ho1] at ho3
          cases ho3
          rw [ho1, ho2]
          dsimp only
          have := ih ls' (n + 1) (l.still b) (l'.still b') l.dim l'.dim o r1
            (fun c hc => hr c (List.mem_cons_of_mem _ hc)) N N' K.n ?_ hms (by rw [hol, hk.dim])
          · unfold computes at this
            revert this
            generalize genForward g m lo false ls o r1 = p
            generalize genForward g m lo false ls' o r1 = q
            intro this
            match p, q, this with
            | .error e, .error f, this => exact this
            | .ok u, .ok v, this =>
              have := Except.ok.inj this
              simp only [Prod.mk.injEq] at this
              dsimp only
              rw [List.map_cons, List.map_cons, ho1, ho2, this.1, this.2]
          · intro s1 s2
            cases hq : l.passes with
            | false => exact K.dim b b' hq s1 s2
            | true =>
              have hq' : l'.passes = true := by rw [← K.passes]; exact hq
              rw [still_passes hq] at s1
              rw [still_passes hq'] at s2
              rw [hp hq s1, hp' hq' s2]
              exact hd s1 s2

end Xcsf.JsonNet
