import Verif.NConvLemmas

/-!
# Property C54, convolution: outputs are sliding-window sums, backward passes their adjoints
-/

set_option linter.unusedSectionVars false

namespace Xcsf
open Finset
variable {K R : Type} [Field K] [LinearOrder K] [IsStrictOrderedRing K] [FloorRing K]

/-- Forward: every output is the activation of the bias plus the sliding-window sum over the padded
image, held within the limits of the program, for all shapes. -/
theorem C54_conv (m : Libm K) (l : VLay K) (L : l.ConvOk) (x : List K)
    (hx : x.length = l.nIn.toNat) :
    ∃ l', convForward m l x = .ok l' ∧ l' = { l with cells := l'.cells, temp := l'.temp } ∧
      l'.ConvOk ∧ l'.Filled ∧
      ∀ f < l.core.nOutputs, ∀ i < l.outH.toNat, ∀ j < l.outW.toNat, ∃ n c c',
        l.core.ns[f]? = some n ∧ l.cells[l.opos f i j]? = some c ∧
        l'.cells[l.opos f i j]? = some c' ∧
        c'.state = clampK (n.bias + l.slide x f i j) (-100) 100 ∧
        activate m l.core.fn c'.state = .ok c'.out ∧ c'.delta = c.delta := by
  obtain ⟨H, W, C, S, T, P, OH, OW, D⟩ := L.dims
  rw [D.nIn] at hx
  obtain ⟨b, t, eb, tl, tf, hb⟩ := convCols_spec D hx
  unfold convForward
  dsimp only
  rw [D.fan, D.n, if_neg (by rw [D.wlen, D.cl, D.no, D.blen]; omega), eb]
  dsimp only
  set cc := gemm false false l.core.nOutputs (OH * OW) (C * S * S) 1 (arrOf (l.core.ws.map Wt.w))
    (C * S * S) (arrOf b) (OH * OW) 1 (fun _ => 0) (OH * OW) with hcc
  set ss := ofArr l.nOut.toNat (forN l.core.ns.length (fun i C => forN (OH * OW) (fun j C =>
    arrAdd C (i * (OH * OW) + j) (arrOf (l.core.ns.map Neuron.bias) i)) C) cc) with hss
  have hssl : ss.length = l.cells.length := by rw [hss, L.cl]; simp [ofArr]
  obtain ⟨st, os, ea, l1, l2⟩ := activateArray_ok L.fn.1 L.fn.2 m ss
  rw [ea]
  have hcl : (List.zipWith (fun (x : Cell K) (so : K × K) =>
      { x with state := so.1, out := so.2 }) l.cells (List.zip st os)).length = l.cells.length := by
    simp [l1, l2, hssl]
  refine ⟨_, rfl, rfl, ?_, fun h => tf h, ?_⟩
  · exact { h := L.h, w := L.w, c := L.c, s := L.s, st := L.st, p := L.p, fitH := L.fitH,
            fitW := L.fitW, one := L.one, outH := L.outH, outW := L.outW, nIn := L.nIn,
            nOut := L.nOut, fan := L.fan, wlen := L.wlen, blen := L.blen, cl := hcl.trans L.cl,
            tl := tl.trans L.tl, fn := L.fn }
  · intro f hf i hi j hj
    rw [D.oh, Int.toNat_natCast] at hi
    rw [D.ow, Int.toNat_natCast] at hj
    have hlt := opos_lt D hf hi hj
    have hlb : f < l.core.ns.length := by rw [D.blen]; exact hf
    have e0 : l.core.ns[f]? = some l.core.ns[f] := List.getElem?_eq_getElem hlb
    have hs : ss[l.opos f i j]? = some (l.core.ns[f].bias + l.slide x f i j) := by
      rw [hss]
      unfold ofArr
      rw [List.getElem?_map, List.getElem?_range (by rw [← L.cl]; exact hlt)]
      simp only [Option.map_some, Option.some.injEq]
      rw [opos_flat D, addBias_at _ _ _ _ hlb (pix_lt hi hj), hcc,
        (C43_gemm _ _ _ _ _ _ _ _ _ _ _ _ _ (Nat.le_refl _)).1 f hf _ (pix_lt hi hj), slide_flat D,
        one_mul, one_mul, zero_add, add_comm]
      congr 1
      · exact getD_map_some _ e0
      · refine sum_congr rfl fun p hp => ?_
        congr 1
        exact hb p (mem_range.1 hp) i hi j hj
    obtain ⟨g1, o, g2, g3⟩ := activateArray_at ea _ _ hs
    refine ⟨l.core.ns[f], l.cells[l.opos f i j], { l.cells[l.opos f i j] with
      state := clampK (l.core.ns[f].bias + l.slide x f i j) (-100) 100, out := o }, e0,
      List.getElem?_eq_getElem hlt, ?_, rfl, g3, rfl⟩
    rw [List.getElem?_zipWith, List.getElem?_eq_getElem hlt,
      List.getElem?_zip_eq_some (z := (clampK (l.core.ns[f].bias + l.slide x f i j) (-100) 100, o)) |>.2 ⟨g1, g2⟩]

/-- Backward with gradient descent: the errors are multiplied by the derivative of the activation,
the updates of a bias collect the errors of its filter, those of a weight the errors times the
pixels it meets, and the error handed to the layer before is the adjoint of the sliding-window sum:
its inner product with any image is that of the errors with the sums over the image. -/
theorem C54_conv_backward (m : Libm K) (l : VLay K) (L : l.ConvOk) (x d : List K)
    (hx : x.length = l.nIn.toNat) (hd : d.length = l.nIn.toNat) (hz : l.size = 1 → ∀ v ∈ d, v = 0)
    (hs : l.core.opt.sgd = true) :
    ∃ l' d', convBackward m l x (some d) = .ok (l', some d') ∧ d'.length = d.length ∧
      l' = { l with
             cells := l'.cells, temp := l'.temp,
             core := { l.core with ws := l'.core.ws, ns := l'.core.ns } } ∧
      l'.ConvOk ∧ l'.Filled ∧
      (∀ f < l.core.nOutputs, ∀ i < l.outH.toNat, ∀ j < l.outW.toNat, ∃ c c' g,
        l.cells[l.opos f i j]? = some c ∧ l'.cells[l.opos f i j]? = some c' ∧
        gradient m l.core.fn c.state = .ok g ∧ c' = { c with delta := c.delta * g }) ∧
      (∀ f < l.core.nOutputs, ∃ n, l.core.ns[f]? = some n ∧ l'.core.ns[f]? = some { n with
        bupd := n.bupd + ∑ i ∈ range l.outH.toNat, ∑ j ∈ range l.outW.toNat,
          (l'.cells.map Cell.delta).getD (l.opos f i j) 0 }) ∧
      (∀ f < l.core.nOutputs, ∀ c < l.channels.toNat, ∀ a < l.size.toNat, ∀ b < l.size.toNat, ∃ w,
        l.core.ws[l.wpos f c a b]? = some w ∧ l'.core.ws[l.wpos f c a b]? = some { w with
          upd := w.upd + ∑ i ∈ range l.outH.toNat, ∑ j ∈ range l.outW.toNat,
            (l'.cells.map Cell.delta).getD (l.opos f i j) 0 * l.under x c a b i j }) ∧
      ∀ v : List K, v.length = l.nIn.toNat →
        inner d' (fun i => v.getD i 0) = inner d (fun i => v.getD i 0) +
          ∑ f ∈ range l.core.nOutputs, ∑ i ∈ range l.outH.toNat, ∑ j ∈ range l.outW.toNat,
            (l'.cells.map Cell.delta).getD (l.opos f i j) 0 * l.slide v f i j := by
  obtain ⟨H, W, C, S, T, P, OH, OW, D⟩ := L.dims
  rw [D.nIn] at hx hd
  obtain ⟨b, t, eb, tl, tf, hb⟩ := convCols_spec D hx
  obtain ⟨ds, eg, lg⟩ := gradientArray_ok L.fn.1 L.fn.2 m (l.cells.map Cell.state)
    (l.cells.map Cell.delta) (by simp)
  rw [List.length_map] at lg
  unfold convBackward
  dsimp only
  rw [D.fan, D.n, if_neg (by rw [D.wlen, D.cl, D.blen]; omega), if_pos hs]
  unfold convUpdates
  dsimp only
  rw [D.fan, D.n, eg]
  dsimp only
  rw [eb]
  dsimp only
  set bu : Nat → K := fun i => arrOf (l.core.ns.map Neuron.bupd) i +
    sumV (fun j => arrOf ds (OH * OW * i + j)) (OH * OW) with hbu
  set wu := gemm false true l.core.nOutputs (C * S * S) (OH * OW) 1 (arrOf ds) (OH * OW) (arrOf b)
    (OH * OW) 1 (arrOf (l.core.ws.map Wt.upd)) (C * S * S) with hwu
  set l1 : VLay K := { l with
      temp := t,
      cells := List.zipWith (fun (x : Cell K) d => { x with delta := d }) l.cells ds,
      core :=
        { l.core with
          ns := List.zipWith (fun (x : Neuron K) u => { x with bupd := u }) l.core.ns
            (ofArr l.core.ns.length bu),
          ws := List.zipWith (fun (x : Wt K) u => { x with upd := u }) l.core.ws
            (ofArr l.core.ws.length wu) } } with hl1
  have hws : l1.core.ws.map Wt.w = l.core.ws.map Wt.w := by
    refine List.ext_getElem? fun i => ?_
    simp only [hl1, List.getElem?_map, List.getElem?_zipWith]
    by_cases hi : i < l.core.ws.length
    · simp [ofArr, hi]
    · rw [List.getElem?_eq_none (by omega)]
  have hdel : l1.cells.map Cell.delta = ds := by
    refine List.ext_getElem? fun i => ?_
    simp only [hl1, List.getElem?_map, List.getElem?_zipWith]
    by_cases hi : i < l.cells.length
    · simp [hi, lg]
    · rw [List.getElem?_eq_none (by omega), List.getElem?_eq_none (by omega)]
      rfl
  have hwl : l1.core.ws.length = l.core.ws.length := by simp [hl1, ofArr]
  have hnl : l1.core.ns.length = l.core.ns.length := by simp [hl1, ofArr]
  have hcl : l1.cells.length = l.cells.length := by simp [hl1, lg]
  have L1 : l1.ConvOk :=
    { h := L.h, w := L.w, c := L.c, s := L.s, st := L.st, p := L.p, fitH := L.fitH,
      fitW := L.fitW, one := L.one, outH := L.outH, outW := L.outW, nIn := L.nIn,
      nOut := L.nOut, fan := L.fan, wlen := hwl.trans L.wlen, blen := hnl.trans L.blen,
      cl := hcl.trans L.cl, tl := tl.trans L.tl, fn := L.fn }
  have D1 : Dims l1 H W C S T P OH OW :=
    { h := D.h, w := D.w, c := D.c, s := D.s, t := D.t, p := D.p, oh := D.oh, ow := D.ow,
      s1 := D.s1, hc := D.hc, wc := D.wc, one := D.one, fan := D.fan, n := D.n,
      wlen := hwl.trans D.wlen, blen := hnl.trans D.blen, cl := hcl.trans D.cl, no := D.no,
      tl := tl.trans D.tl, nIn := D.nIn }
  obtain ⟨t', d', ed, tl', tf', hdl, hadj⟩ := convDelta_spec D1 (fun h => tf h) hd hz
  rw [ed]
  refine ⟨_, d', rfl, hdl, rfl, ?_, fun h => tf' h, ?_, ?_, ?_, ?_⟩
  · exact { h := L.h, w := L.w, c := L.c, s := L.s, st := L.st, p := L.p, fitH := L.fitH,
            fitW := L.fitW, one := L.one, outH := L.outH, outW := L.outW, nIn := L.nIn,
            nOut := L.nOut, fan := L.fan, wlen := L1.wlen, blen := L1.blen, cl := L1.cl,
            tl := tl'.trans L1.tl, fn := L.fn }
  · intro f hf i hi j hj
    rw [D.oh, Int.toNat_natCast] at hi
    rw [D.ow, Int.toNat_natCast] at hj
    have hlt := opos_lt D hf hi hj
    have ec : l.cells[l.opos f i j]? = some l.cells[l.opos f i j] := List.getElem?_eq_getElem hlt
    obtain ⟨g, g1, g2⟩ := gradientArray_at eg (l.opos f i j) _ _
      (by rw [List.getElem?_map, ec]; rfl) (by rw [List.getElem?_map, ec]; rfl)
    refine ⟨_, _, g, ec, ?_, g1, rfl⟩
    show l1.cells[l.opos f i j]? = _
    rw [hl1]
    dsimp only
    rw [List.getElem?_zipWith, ec, g2]
  · intro f hf
    have hlb : f < l.core.ns.length := by rw [D.blen]; exact hf
    have e0 : l.core.ns[f]? = some l.core.ns[f] := List.getElem?_eq_getElem hlb
    refine ⟨_, e0, ?_⟩
    show l1.core.ns[f]? = some { l.core.ns[f] with
        bupd := l.core.ns[f].bupd + ∑ i ∈ range l.outH.toNat, ∑ j ∈ range l.outW.toNat,
          (l1.cells.map Cell.delta).getD (l.opos f i j) 0 }
    rw [hdel, D.oh, D.ow, Int.toNat_natCast, Int.toNat_natCast, hl1]
    dsimp only
    have e1 : (ofArr l.core.ns.length bu)[f]? = some (bu f) := by simp [ofArr, hlb]
    rw [List.getElem?_zipWith, e0, e1]
    dsimp only
    rw [hbu]
    dsimp only
    rw [sumV_range, sum_range_mul, show arrOf (l.core.ns.map Neuron.bupd) f = l.core.ns[f].bupd from
      getD_map_some _ e0]
    simp only [opos_flat D, arrOf, Nat.mul_comm (OH * OW) f]
  · intro f hf c hc a ha b' hb'
    rw [D.c, Int.toNat_natCast] at hc
    rw [D.s, Int.toNat_natCast] at ha hb'
    have hp : (c * S + a) * S + b' < C * S * S := pix_lt (pix_lt hc ha) hb'
    have hpos : l.wpos f c a b' = f * (C * S * S) + ((c * S + a) * S + b') := by
      unfold VLay.wpos
      rw [D.c, D.s, Int.toNat_natCast, Int.toNat_natCast]
      ring
    have hlt : l.wpos f c a b' < l.core.ws.length := by
      rw [hpos, D.wlen]; exact pix_lt hf hp
    have e0 : l.core.ws[l.wpos f c a b']? = some l.core.ws[l.wpos f c a b'] :=
      List.getElem?_eq_getElem hlt
    refine ⟨_, e0, ?_⟩
    show l1.core.ws[l.wpos f c a b']? = some { l.core.ws[l.wpos f c a b'] with
          upd := l.core.ws[l.wpos f c a b'].upd +
            ∑ i ∈ range l.outH.toNat, ∑ j ∈ range l.outW.toNat,
            (l1.cells.map Cell.delta).getD (l.opos f i j) 0 * l.under x c a b' i j }
    rw [hdel, D.oh, D.ow, Int.toNat_natCast, Int.toNat_natCast, hl1]
    dsimp only
    have e1 : (ofArr l.core.ws.length wu)[l.wpos f c a b']? = some (wu (l.wpos f c a b')) := by
      simp [ofArr, hlt]
    rw [List.getElem?_zipWith, e0, e1]
    dsimp only
    have e2 : wu (l.wpos f c a b') = l.core.ws[l.wpos f c a b'].upd +
        ∑ i ∈ range OH, ∑ j ∈ range OW, ds.getD (l.opos f i j) 0 * l.under x c a b' i j := by
      have e3 : arrOf (l.core.ws.map Wt.upd) (f * (C * S * S) + ((c * S + a) * S + b')) =
          l.core.ws[l.wpos f c a b'].upd := by
        rw [← hpos]; exact getD_map_some _ e0
      rw [← e3, hpos, hwu, (C43_gemm _ _ _ _ _ _ _ _ _ _ _ _ _ (Nat.le_refl _)).1 f hf _ hp, one_mul,
        one_mul, sum_range_mul]
      congr 1
      refine sum_congr rfl fun i hi => sum_congr rfl fun j hj => ?_
      rw [opos_flat D, ← colPix_flat D x ha hb' i j,
        ← hb _ hp i (mem_range.1 hi) j (mem_range.1 hj)]
      rfl
    rw [e2]
  · intro v hv
    rw [D.nIn] at hv
    rw [hadj v hv, D.oh, D.ow, Int.toNat_natCast, Int.toNat_natCast]
    congr 1
    refine sum_congr rfl fun f _ => sum_congr rfl fun i _ => sum_congr rfl fun j _ => ?_
    have : l1.slide v f i j = l.slide v f i j := by
      unfold VLay.slide
      rw [hws]
      rfl
    rw [this]
    rfl

end Xcsf
