import Verif.PropsNConv

/-!
# Lemmas on histories of convolutional layers
-/

set_option linter.unusedSectionVars false

namespace Xcsf
variable {K R : Type} [Field K] [LinearOrder K] [IsStrictOrderedRing K] [FloorRing K]

/-- What a step keeps. -/
structure VStep (B M N : Nat) (l l' : VLay K) : Prop where
  legal : l'.Legal
  fits : l'.Fits B M N
  opt : l'.core.opt = l.core.opt
  size : l'.size = l.size
  stride : l'.stride = l.stride
  pad : l'.pad = l.pad

theorem VStep.refl {B M N : Nat} {l : VLay K} (L : l.Legal) (F : l.Fits B M N) : VStep B M N l l :=
  ⟨L, F, rfl, rfl, rfl, rfl⟩

theorem VStep.trans {B M N : Nat} {a b c : VLay K} (h1 : VStep B M N a b) (h2 : VStep B M N b c) :
    VStep B M N a c :=
  ⟨h2.legal, h2.fits, h2.opt.trans h1.opt, h2.size.trans h1.size, h2.stride.trans h1.stride,
    h2.pad.trans h1.pad⟩

/-- Steps that change only the shared part, the outputs and the workspace. -/
theorem vstep_same {B M N : Nat} {l : VLay K} (L : l.Legal) (F : l.Fits B M N) {co : CLay K}
    {cs : List (Cell K)} {tm : List (Option K)} (c : CStep B M l.core co)
    (hi : co.nInputs = l.core.nInputs) (ho : co.nOutputs = l.core.nOutputs)
    (hc : cs.length = l.cells.length) (ht : tm.length = l.temp.length) :
    VStep B M N l { l with core := co, cells := cs, temp := tm } := by
  have k := L.ok
  refine ⟨⟨?_, c.sound⟩, ⟨c.fits, F.geo⟩, c.opt, rfl, rfl, rfl⟩
  exact { h := k.h, w := k.w, c := k.c, s := k.s, st := k.st, p := k.p, fitH := k.fitH,
          fitW := k.fitW, one := k.one, outH := k.outH, outW := k.outW, nIn := k.nIn,
          nOut := by show l.nOut = _; rw [k.nOut, ho],
          fan := hi.trans k.fan, wlen := c.sound.wlen, blen := c.sound.nlen,
          cl := hc.trans k.cl, tl := ht.trans k.tl, fn := c.sound.fn }

theorem vstep_core {B M N : Nat} {l : VLay K} (L : l.Legal) (F : l.Fits B M N) {co : CLay K}
    (c : CStep B M l.core co)
    (hi : co.nInputs = l.core.nInputs) (ho : co.nOutputs = l.core.nOutputs) :
    VStep B M N l { l with core := co } :=
  vstep_same L F c hi ho rfl rfl

theorem convForward_step {B M N : Nat} (m : Libm K) {l : VLay K} (L : l.Legal) (F : l.Fits B M N)
    {x : List K} (hx : x.length = l.nIn.toNat) :
    ∃ l', convForward m l x = .ok l' ∧ VStep B M N l l' ∧ l'.Filled ∧ l'.nIn = l.nIn := by
  obtain ⟨l', e, e1, k, f, _⟩ := C54_conv m l L.ok x hx
  refine ⟨l', e, ?_, f, by rw [e1]⟩
  have hc : l'.core = l.core := by rw [e1]
  refine ⟨⟨k, by rw [hc]; exact L.core⟩, ⟨by rw [hc]; exact F.core, ?_⟩, by rw [hc], by rw [e1],
    by rw [e1], by rw [e1]⟩
  rw [e1]
  exact F.geo

theorem convUpdates_step {B M N : Nat} (m : Libm K) {l : VLay K} (L : l.Legal) (F : l.Fits B M N)
    {x : List K} (hx : x.length = l.nIn.toNat) :
    ∃ l', convUpdates m l x = .ok l' ∧ VStep B M N l l' ∧ l'.Filled ∧ l'.nIn = l.nIn := by
  obtain ⟨H, W, C, S, T, P, OH, OW, D⟩ := L.ok.dims
  rw [D.nIn] at hx
  obtain ⟨b, t, eb, tl, tf, hb⟩ := convCols_spec D hx
  obtain ⟨ds, eg, lg⟩ := gradientArray_ok L.ok.fn.1 L.ok.fn.2 m (l.cells.map Cell.state)
    (l.cells.map Cell.delta) (by simp)
  rw [List.length_map] at lg
  unfold convUpdates
  dsimp only
  rw [eg]
  dsimp only
  rw [eb]
  refine ⟨_, rfl, vstep_same L F (cstep_same L.core F.core rfl rfl rfl rfl rfl rfl ?_ ?_ rfl ?_ ?_
    L.core.fn) rfl rfl ?_ tl, fun h => tf h, rfl⟩
  · refine map_zipWith_left _ Wt.on ?_ _ _ ?_
    · exact fun _ _ => rfl
    · simp [length_ofArr]
  · simp [length_ofArr]
  · intro w hw
    obtain ⟨a, ha, b, _, rfl⟩ := mem_zipWith hw
    exact L.core.wt a ha
  · intro n hn
    obtain ⟨a, ha, b, _, rfl⟩ := mem_zipWith hn
    exact L.core.bias a ha
  · simp [lg]

theorem convBackward_step {B M N : Nat} (m : Libm K) {l : VLay K} (L : l.Legal) (F : l.Fits B M N)
    (hf : l.core.opt.sgd = true ∨ l.Filled) {x : List K} (hx : x.length = l.nIn.toNat)
    (d : Option (List K)) (hd : ∀ v, d = some v → v = List.replicate l.nIn.toNat 0) :
    ∃ l' d', convBackward m l x d = .ok (l', d') ∧ VStep B M N l l' ∧ l'.Filled ∧
      d'.map List.length = d.map List.length := by
  obtain ⟨H, W, C, S, T, P, OH, OW, D⟩ := L.ok.dims
  obtain ⟨l1, e1, c1, f1, n1⟩ : ∃ l1, (if l.core.opt.sgd = true then convUpdates m l x else .ok l) =
      .ok l1 ∧ VStep B M N l l1 ∧ l1.Filled ∧ l1.nIn = l.nIn := by
    split
    · exact convUpdates_step m L F hx
    · next h => exact ⟨l, rfl, VStep.refl L F, hf.resolve_left h, rfl⟩
  unfold convBackward
  dsimp only
  rw [D.fan, D.n, if_neg (by rw [D.wlen, D.cl, D.blen]; omega), e1]
  cases d with
  | none => exact ⟨l1, none, rfl, c1, f1, rfl⟩
  | some v =>
    have hv := hd v rfl
    obtain ⟨H1, W1, C1, S1, T1, P1, OH1, OW1, D1⟩ := c1.legal.ok.dims
    have hl : v.length = H1 * W1 * C1 := by
      rw [hv, List.length_replicate, ← n1, D1.nIn]
    obtain ⟨t', d', ed, tl', tf', hdl, _⟩ := convDelta_spec D1 f1 hl
      (fun _ w hw => by rw [hv] at hw; exact (List.mem_replicate.1 hw).2)
    dsimp only
    rw [ed]
    exact ⟨_, _, rfl, c1.trans (vstep_same c1.legal c1.fits
      (CStep.refl c1.legal.core c1.fits.core) rfl rfl rfl tl'), tf', congrArg some hdl⟩

theorem connUpdate_dims (l : CLay K) : (connUpdate l).nInputs = l.nInputs ∧
    (connUpdate l).nOutputs = l.nOutputs := by
  unfold connUpdate
  split <;> exact ⟨rfl, rfl⟩

theorem convLearn_step {B M N : Nat} (m : Libm K) {l : VLay K} (L : l.Legal) (F : l.Fits B M N)
    (x d : Nat → K) (p : Bool) : ∃ l', convLearn m l x d p = .ok l' ∧ VStep B M N l l' := by
  unfold convLearn
  obtain ⟨l1, e1, c1, f1, n1⟩ := convForward_step m L F (x := ofArr l.nIn.toNat x)
    (by rw [length_ofArr])
  rw [e1]
  dsimp only
  have c2 : VStep B M N l1 (setCells l1 d) :=
    vstep_same c1.legal c1.fits (CStep.refl c1.legal.core c1.fits.core) rfl rfl
      (by simp) rfl
  obtain ⟨l3, d3, e3, c3, _, _⟩ := convBackward_step m c2.legal c2.fits (.inr f1) (x := ofArr l.nIn.toNat x)
    (by rw [length_ofArr]; exact (congrArg Int.toNat n1).symm)
    (if p then some (List.replicate l.nIn.toNat 0) else none) (by
      intro v hv
      split at hv
      · cases hv
        show _ = List.replicate l1.nIn.toNat 0
        rw [n1]
      · cases hv)
  rw [e3]
  obtain ⟨u1, u2⟩ := connUpdate_dims l3.core
  exact ⟨_, rfl, ((c1.trans c2).trans c3).trans (vstep_core c3.legal c3.fits
    (connUpdate_step c3.legal.core c3.fits.core) u1 u2)⟩

theorem convRand_step {B M N : Nat} {g : Rng K R} (Bd : g.Bounded) {l : VLay K} (L : l.Legal)
    (F : l.Fits B M N) (r : R) : VStep B M N l (convRand g l r).1 :=
  vstep_core L F (weightRand_step Bd L.core F.core r) rfl rfl

/-! ### Sizes -/

theorem convDim_eq {n p s t : Int} (hp : 0 ≤ p) (hs : 1 ≤ s) (ht : 1 ≤ t) (h0 : 1 ≤ n)
    (h1 : s ≤ n + 2 * p) (h2 : n + 2 * p < 2147483648) :
    convDim n p s t = .ok ((n + 2 * p - s) / t + 1) := by
  unfold convDim
  rw [if_neg, Int.tdiv_eq_ediv_of_nonneg (by omega)]
  simp only [overflows, decide_eq_true_eq]
  omega

theorem mul_le_of_pos {a b : Int} (ha : 0 ≤ a) (hb : 1 ≤ b) : a ≤ a * b := by
  have := mul_le_mul_of_nonneg_left hb ha
  rwa [mul_one] at this

theorem convWeights_eq {c f s : Int} (hc : 1 ≤ c) (hf : 1 ≤ f) (hs : 1 ≤ s)
    (h : c * f * s * s < 2147483648) : convWeights c f s = .ok (c * f * s * s) := by
  have a1 : 0 ≤ c * f := by positivity
  have a2 : 0 ≤ c * f * s := by positivity
  have a3 := mul_le_of_pos a1 hs
  have a4 := mul_le_of_pos a2 hs
  unfold convWeights
  rw [if_neg]
  simp only [overflows, Bool.or_eq_true, decide_eq_true_eq]
  omega

theorem size3_eq {a b c : Int} (ha : 0 ≤ a) (hb : 0 ≤ b) (hc : 1 ≤ c)
    (h : a * b * c < 2147483648) : size3 a b c = .ok (a * b * c) := by
  have a1 : 0 ≤ a * b := by positivity
  have a2 := mul_le_of_pos a1 hc
  unfold size3
  rw [if_neg]
  simp only [overflows, Bool.or_eq_true, decide_eq_true_eq]
  omega

theorem weights_nat {s c : Int} (hs : 1 ≤ s) (hc : 1 ≤ c) (f : Nat) :
    c * (f : Int) * s * s = ((f * (s * s * c).toNat : Nat) : Int) := by
  rw [Nat.cast_mul, Int.toNat_of_nonneg (by positivity)]
  ring

theorem fan_pos {s c : Int} (hs : 1 ≤ s) (hc : 1 ≤ c) : 1 ≤ (s * s * c).toNat := by
  have h1 : 0 ≤ s * s := by positivity
  have h2 := mul_le_of_pos h1 hc
  have h3 := mul_le_of_pos (show 0 ≤ s by omega) hs
  omega

theorem guardWeights_of {n : Int} (h1 : 1 ≤ n) : guardWeights n = .ok () ∨
    (guardWeights n = .error .exit ∧ 20000000 < n) := by
  unfold guardWeights
  by_cases h : n < 1 ∨ 20000000 < n
  · rw [if_pos h]; exact Or.inr ⟨rfl, by omega⟩
  · rw [if_neg h]; exact Or.inl rfl

theorem guardOutputs_of {n : Int} (h1 : 1 ≤ n) : guardOutputs n = .ok () ∨
    (guardOutputs n = .error .exit ∧ 2000000 < n) := by
  unfold guardOutputs
  by_cases h : n < 1 ∨ 2000000 < n
  · rw [if_pos h]; exact Or.inr ⟨rfl, by omega⟩
  · rw [if_neg h]; exact Or.inl rfl

theorem convGuard_of {f no nw : Int} (h1 : 1 ≤ f) (h1' : f ≤ 2000000) (h2 : 1 ≤ no) (h3 : 1 ≤ nw) :
    convGuard f no nw = .ok () ∨
    (convGuard f no nw = .error .exit ∧ (20000000 < nw ∨ 2000000 < no)) := by
  unfold convGuard
  rcases guardOutputs_of h1 with e | ⟨_, h⟩
  · rw [e]
    dsimp only
    rcases guardOutputs_of h2 with e | ⟨e, h⟩
    · rw [e]
      dsimp only
      rcases guardWeights_of h3 with e | ⟨e, h⟩
      · exact Or.inl e
      · exact Or.inr ⟨e, Or.inl h⟩
    · rw [e]; exact Or.inr ⟨rfl, Or.inr h⟩
  · omega

theorem cellsTo_length (cs : List (Cell K)) (n : Nat) : (cellsTo cs n).length = n := by
  simp [cellsTo]; omega

theorem convFill_spec {g : Rng K R} (Bd : g.Bounded) (ws : List (Wt K)) (n : Nat) (r : R)
    (h : ∀ w ∈ ws, WtOk w) :
    (convFill g ws n r).1.length = n ∧ ∀ w ∈ (convFill g ws n r).1, WtOk w := by
  obtain ⟨d1, d2⟩ := drawN_spec (P := fun w : Wt K => WtOk w) (fun r => wtOk_on Bd r 0)
    (n - ws.length) r (f := freshWt g)
  unfold convFill
  refine ⟨?_, ?_⟩
  · simp only [List.length_append, List.length_take]
    rw [d1]
    omega
  · intro w hw
    rcases List.mem_append.1 hw with hw | hw
    · exact h w (List.mem_of_mem_take hw)
    · exact d2 w hw

/-- The dimensions of a legal geometry. -/
theorem Geo.dims {B M N : Nat} {s t p w h c : Int} (G : Geo B M N s t p w h c) (hp : 0 ≤ p)
    (hs : 1 ≤ s) (ht : 1 ≤ t) :
    convDim w p s t = .ok ((w + 2 * p - s) / t + 1) ∧ convDim h p s t = .ok ((h + 2 * p - s) / t + 1) ∧
    1 ≤ (w + 2 * p - s) / t + 1 ∧ 1 ≤ (h + 2 * p - s) / t + 1 ∧ size3 w h c = .ok (w * h * c) := by
  have h1 := G.fitW
  have h2 := G.fitH
  have o1 : 0 ≤ (w + 2 * p - s) / t := Int.ediv_nonneg (by omega) (by omega)
  have o2 : 0 ≤ (h + 2 * p - s) / t := Int.ediv_nonneg (by omega) (by omega)
  have := G.wid
  have := G.hei
  exact ⟨convDim_eq hp hs ht G.wid G.fitW G.maxW, convDim_eq hp hs ht G.hei G.fitH G.maxH, by omega,
    by omega, size3_eq (by omega) (by omega) G.cha G.ins⟩

/-- The number of outputs. -/
theorem Geo.outs {B M N : Nat} (hN : N < 2147483648) {s t p w h c : Int}
    (G : Geo B M N s t p w h c) (hp : 0 ≤ p) (hs : 1 ≤ s) (ht : 1 ≤ t) {f : Nat} (hf : 1 ≤ f)
    (hB : f ≤ B) :
    size3 ((h + 2 * p - s) / t + 1) ((w + 2 * p - s) / t + 1) f =
      .ok (((h + 2 * p - s) / t + 1) * ((w + 2 * p - s) / t + 1) * f) ∧
    1 ≤ ((h + 2 * p - s) / t + 1) * ((w + 2 * p - s) / t + 1) * (f : Int) ∧
    ((h + 2 * p - s) / t + 1) * ((w + 2 * p - s) / t + 1) * (f : Int) ≤ N := by
  obtain ⟨_, _, a, b, _⟩ := G.dims hp hs ht
  have ha := G.area
  generalize (w + 2 * p - s) / t + 1 = ow at *
  generalize (h + 2 * p - s) / t + 1 = oh at *
  have p1 : 1 ≤ oh * ow := by
    have := mul_le_of_pos (show 0 ≤ oh by omega) a
    omega
  have p2 : oh * ow * (f : Int) ≤ oh * ow * (B : Int) :=
    mul_le_mul_of_nonneg_left (by omega) (by omega)
  have p3 := mul_le_of_pos (show 0 ≤ oh * ow by omega) (show (1 : Int) ≤ f by omega)
  exact ⟨size3_eq (by omega) (by omega) (by omega) (by omega), by omega, by omega⟩

/-- The number of weights. -/
theorem Geo.weights {B M N : Nat} (hM : M < 2147483648) {s t p w h c : Int}
    (G : Geo B M N s t p w h c) (hs : 1 ≤ s) {f : Nat} (hf : 1 ≤ f) (hB : f ≤ B) :
    convWeights c f s = .ok ((f * (s * s * c).toNat : Nat) : Int) ∧
    1 ≤ f * (s * s * c).toNat ∧ f * (s * s * c).toNat ≤ M := by
  have h1 := fan_pos hs G.cha
  have h2 : f * (s * s * c).toNat ≤ M := le_trans (Nat.mul_le_mul_right _ hB) G.prod
  have h3 : 1 ≤ f * (s * s * c).toNat := Nat.mul_pos hf h1
  refine ⟨?_, h3, h2⟩
  rw [convWeights_eq G.cha (by omega) hs (by rw [weights_nat hs G.cha]; omega), weights_nat hs G.cha]

theorem vfault_of {M N : Nat} {b : Bool} {nw no : Int} (h : 20000000 < nw ∨ 2000000 < no)
    (hw : nw ≤ M) (ho : no ≤ N) : VFault M N b .exit := by
  refine Or.inl ⟨rfl, ?_⟩
  omega

theorem convCopy_step {B M N : Nat} (hN : N < 2147483648) {l : VLay K}
    (L : l.Legal) (F : l.Fits B M N) :
    Post (convCopy l) (fun l' => VStep B M N l l') (VFault M N l.core.opt.neurons) := by
  have k := L.ok
  obtain ⟨_, o2, o3⟩ := F.geo.outs hN k.p k.s k.st L.core.outs F.core.cur
  rw [← k.outH, ← k.outW, ← k.nOut] at o2 o3
  have hw : 1 ≤ l.core.ws.length ∧ l.core.ws.length ≤ M := by
    rw [k.wlen]
    exact ⟨Nat.mul_pos L.core.outs L.core.ins,
      le_trans (Nat.mul_le_mul_right _ F.core.cur) F.core.prod⟩
  have hb := F.core.big
  have hc := F.core.cur
  have h1 := L.core.outs
  unfold convCopy
  rcases convGuard_of (f := l.core.nOutputs) (nw := l.core.ws.length) (no := l.nOut) (by omega)
    (by omega) o2 (by omega) with e | ⟨e, h⟩
  · rw [e]
    exact vstep_same L F (connCopy_step L.core F.core) rfl rfl
      (by rw [List.length_replicate, k.cl]) (by rw [List.length_replicate, k.tl]; rfl)
  · rw [e]
    exact vfault_of h (by omega) o3

theorem convResize_step {B M N : Nat} (hM : M < 2147483648) (hN : N < 2147483648) {g : Rng K R}
    (Bd : g.Bounded) {l : VLay K} (L : l.Legal) (F : l.Fits B M N) {w h c : Int}
    (G : Geo B M N l.size l.stride l.pad w h c) (r : R) :
    Post (convResize g l w h c r) (fun p => VStep B M N l p.1 ∧ p.1.width = w ∧ p.1.height = h ∧
      p.1.channels = c) (VFault M N l.core.opt.neurons) := by
  have k := L.ok
  obtain ⟨d1, d2, d3, d4, d5⟩ := G.dims k.p k.s k.st
  obtain ⟨o1, o2, o3⟩ := G.outs hN k.p k.s k.st L.core.outs F.core.cur
  obtain ⟨w1, w2, w3⟩ := G.weights hM k.s L.core.outs F.core.cur
  have hb := F.core.big
  have hc := F.core.cur
  have h1 := L.core.outs
  unfold convResize
  rw [d1, d2]
  dsimp only
  rw [o1, d5]
  dsimp only
  rw [w1]
  dsimp only
  rcases convGuard_of (f := l.core.nOutputs) (nw := ((l.core.nOutputs * (l.size * l.size * c).toNat :
    Nat) : Int)) (by omega) (by omega) o2 (by omega) with e | ⟨e, h'⟩
  · rw [e]
    dsimp only
    rw [Int.toNat_natCast]
    obtain ⟨f1, f2⟩ := convFill_spec Bd l.core.ws
      (l.core.nOutputs * (l.size * l.size * c).toNat) r L.core.wt
    have S : CLay.Sound { l.core with
        nInputs := (l.size * l.size * c).toNat,
        ws := (convFill g l.core.ws (l.core.nOutputs * (l.size * l.size * c).toNat) r).1,
        nActive := calcActive
          (convFill g l.core.ws (l.core.nOutputs * (l.size * l.size * c).toNat) r).1 } :=
      ⟨fan_pos k.s G.cha, L.core.outs, f1, L.core.nlen, f2, L.core.bias, calcActive_eq _, L.core.mu,
        L.core.fn⟩
    refine ⟨⟨⟨?_, S⟩, ⟨⟨F.core.cur, F.core.max, F.core.le, G.prod, F.core.grow, F.core.big⟩, G⟩,
      rfl, rfl, rfl, rfl⟩, rfl, rfl, rfl⟩
    exact { h := G.hei, w := G.wid, c := G.cha, s := k.s, st := k.st, p := k.p, fitH := G.fitH,
            fitW := G.fitW, one := k.one, outH := rfl, outW := rfl, nIn := rfl, nOut := rfl,
            fan := rfl, wlen := f1, blen := L.core.nlen, cl := cellsTo_length _ _,
            tl := realloc_length _ _, fn := L.core.fn }
  · rw [e]
    exact vfault_of h' (by omega) o3

theorem addFilters_step {B M N : Nat} (hM : M < 2147483648) (hN : N < 2147483648) {g : Rng K R}
    (Bd : g.Bounded) {l : VLay K} (L : l.Legal) (F : l.Fits B M N) {n : Int}
    (h0 : 1 ≤ (l.core.nOutputs : Int) + n) (hx : (l.core.nOutputs : Int) + n ≤ l.core.maxOutputs)
    (r : R) :
    Post (addFilters g l n r) (fun p => VStep B M N l p.1) (VFault M N l.core.opt.neurons) := by
  have k := L.ok
  have hmax := F.core.max
  have hb := F.core.big
  obtain ⟨f, hf⟩ : ∃ f : Nat, (l.core.nOutputs : Int) + n = (f : Int) :=
    ⟨((l.core.nOutputs : Int) + n).toNat, by omega⟩
  have hfB : f ≤ B := by omega
  have hf1 : 1 ≤ f := by omega
  have G := F.geo
  obtain ⟨o1, o2, o3⟩ := G.outs hN k.p k.s k.st hf1 hfB
  obtain ⟨w1, w2, w3⟩ := G.weights hM k.s hf1 hfB
  rw [← k.outH, ← k.outW] at o1 o2 o3
  unfold addFilters
  simp only [hf]
  have hov : overflows (f : Int) = false := by
    unfold overflows
    rw [decide_eq_false_iff_not]
    omega
  rw [hov, if_neg (by simp), w1]
  dsimp only
  rw [o1]
  dsimp only
  rcases convGuard_of (f := (f : Int)) (nw := ((f * (l.size * l.size * l.channels).toNat :
    Nat) : Int)) (by omega) (by omega) o2 (by omega) with e | ⟨e, h'⟩
  · rw [e]
    dsimp only
    simp only [Int.toNat_natCast]
    obtain ⟨f1, f2⟩ := convFill_spec Bd l.core.ws
      (f * (l.size * l.size * l.channels).toNat) r L.core.wt
    have hnl : (l.core.ns.take f ++ List.replicate (f - l.core.ns.length)
        (⟨0, 0, 0, 0, 0⟩ : Neuron K)).length = f := by
      simp only [List.length_append, List.length_take, List.length_replicate]
      omega
    have S : CLay.Sound { l.core with
        nOutputs := f,
        ws := (convFill g l.core.ws (f * (l.size * l.size * l.channels).toNat) r).1,
        nActive := calcActive
          (convFill g l.core.ws (f * (l.size * l.size * l.channels).toNat) r).1,
        ns := l.core.ns.take f ++ List.replicate (f - l.core.ns.length) ⟨0, 0, 0, 0, 0⟩ } := by
      refine ⟨L.core.ins, hf1, f1.trans (by show _ = f * l.core.nInputs; rw [k.fan]), hnl, f2, ?_,
        calcActive_eq _, L.core.mu, L.core.fn⟩
      intro v hv
      rcases List.mem_append.1 hv with hv | hv
      · exact L.core.bias v (List.mem_of_mem_take hv)
      · rw [(List.mem_replicate.1 hv).2]
        exact ⟨by norm_num, by norm_num⟩
    refine ⟨⟨?_, S⟩, ⟨⟨hfB, hmax, fun _ => by show (f : Int) ≤ l.core.maxOutputs; omega,
      F.core.prod, F.core.grow, hb⟩, G⟩, rfl, rfl, rfl, rfl⟩
    exact { h := k.h, w := k.w, c := k.c, s := k.s, st := k.st, p := k.p, fitH := k.fitH,
            fitW := k.fitW, one := k.one, outH := k.outH, outW := k.outW, nIn := k.nIn, nOut := rfl,
            fan := k.fan, wlen := S.wlen, blen := hnl, cl := cellsTo_length _ _,
            tl := realloc_length _ _, fn := L.core.fn }
  · rw [e]
    exact vfault_of h' (by omega) o3

theorem convMutFilters_step {B M N : Nat} (hM : M < 2147483648) (hN : N < 2147483648)
    {g : Rng K R} (Bd : g.Bounded) (fuel : Nat) {l : VLay K} (L : l.Legal) (F : l.Fits B M N)
    (mu : K) (r : R) :
    Post (convMutFilters g fuel l mu r) (fun p => VStep B M N l p.1.1)
      (VFault M N l.core.opt.neurons) := by
  unfold convMutFilters
  split
  · next hn =>
    have h := mutateNeurons_spec g fuel L.core F.core hn mu r
    cases e : mutateNeurons g fuel l.core mu r with
    | error f =>
      rw [e] at h
      exact Or.inr ⟨h, hn⟩
    | ok p =>
      rw [e] at h
      obtain ⟨n, r'⟩ := p
      dsimp only
      split
      · exact VStep.refl L F
      · have h2 := addFilters_step hM hN Bd L F h.1 h.2 r'
        cases e2 : addFilters g l n r' with
        | error f => rw [e2] at h2; exact h2
        | ok q => rw [e2] at h2; exact h2
  · exact VStep.refl L F

theorem convMutConn_step {B M N : Nat} {g : Rng K R} (Bd : g.Bounded) {l : VLay K} (L : l.Legal)
    (F : l.Fits B M N) (muE muD : K) (r : R) :
    VStep B M N l (convMutConn g l muE muD r).1.1 := by
  unfold convMutConn
  split
  · next hc =>
    obtain ⟨c1, c2, c3, _⟩ := connGo_spec Bd muE muD l.core.ws r L.core.wt
    have S := L.core
    have k := L.ok
    dsimp only
    have S' : CLay.Sound { l.core with
        ws := (connGo g muE muD l.core.ws r).1.1,
        nActive := l.core.nActive + (connGo g muE muD l.core.ws r).1.2.1 } := by
      refine ⟨S.ins, S.outs, c1.trans S.wlen, S.nlen, c2, S.bias, ?_, S.mu, S.fn⟩
      show l.core.nActive + _ = _
      rw [← calcActive_eq, c3, calcActive_eq, S.active]
    refine ⟨⟨?_, S'⟩, ⟨⟨F.core.cur, F.core.max, F.core.le, F.core.prod, F.core.grow, F.core.big⟩,
      F.geo⟩, rfl, rfl, rfl, rfl⟩
    exact { h := k.h, w := k.w, c := k.c, s := k.s, st := k.st, p := k.p, fitH := k.fitH,
            fitW := k.fitW, one := k.one, outH := k.outH, outW := k.outW, nIn := k.nIn,
            nOut := k.nOut, fan := k.fan, wlen := S'.wlen, blen := k.blen, cl := k.cl, tl := k.tl,
            fn := k.fn }
  · exact VStep.refl L F

theorem convMutate_step {B M N : Nat} (hM : M < 2147483648) (hN : N < 2147483648) {g : Rng K R}
    (O : g.Open) (Bd : g.Bounded) (fuel : Nat) {l : VLay K} (L : l.Legal) (F : l.Fits B M N)
    (r : R) :
    Post (convMutate g fuel l r) (fun p => VStep B M N l p.1.1) (VFault M N l.core.opt.neurons) := by
  have S := L.core
  have F' := F.core
  unfold convMutate
  obtain ⟨vs, r1, e, hl, hv⟩ := C44_adapt O (List.zip connMu l.core.mu) r
    (fun m hm => Or.inr (S.mu.2 m.2 (List.of_mem_zip hm).2))
  rw [List.length_zip, S.mu.1] at hl
  have hl : vs.length = 6 := hl
  rw [e]
  match vs, hl, hv with
  | [m0, m1, m2, m3, m4, m5], _, hv =>
    dsimp only
    have c0 : CStep B M l.core { l.core with mu := [m0, m1, m2, m3, m4, m5] } :=
      ⟨⟨S.ins, S.outs, S.wlen, S.nlen, S.wt, S.bias, S.active, ⟨rfl, hv⟩, S.fn⟩,
        ⟨F'.cur, F'.max, F'.le, F'.prod, F'.grow, F'.big⟩, rfl,
        fun _ h => rep_of_on (l := l.core) rfl rfl rfl rfl h⟩
    have n0 : ({ l.core with mu := [m0, m1, m2, m3, m4, m5] } : CLay K).nInputs = l.core.nInputs ∧
        ({ l.core with mu := [m0, m1, m2, m3, m4, m5] } : CLay K).nOutputs = l.core.nOutputs :=
      ⟨rfl, rfl⟩
    generalize ({ l.core with mu := [m0, m1, m2, m3, m4, m5] } : CLay K) = l0 at c0 n0 ⊢
    have c1 : CStep B M l0 (connMutEta g l0 m0 r1).1.1 ∧
        (connMutEta g l0 m0 r1).1.1.nInputs = l0.nInputs ∧
        (connMutEta g l0 m0 r1).1.1.nOutputs = l0.nOutputs := by
      unfold connMutEta
      split
      · exact ⟨mutateEta_step g c0.sound c0.fits m0 r1, rfl, rfl⟩
      · exact ⟨CStep.refl c0.sound c0.fits, rfl, rfl⟩
    generalize connMutEta g l0 m0 r1 = a at c1 ⊢
    have v1 : VStep B M N l { l with core := a.1.1 } :=
      vstep_core L F (c0.trans c1.1) (c1.2.1.trans n0.1) (c1.2.2.trans n0.2)
    have h2 := convMutFilters_step hM hN Bd fuel v1.legal v1.fits m1 a.2
    cases e2 : convMutFilters g fuel { l with core := a.1.1 } m1 a.2 with
    | error f =>
      rw [e2] at h2
      have : a.1.1.opt = l.core.opt := v1.opt
      simp only [this] at h2
      exact h2
    | ok q =>
      rw [e2] at h2
      obtain ⟨⟨l2, b1⟩, r2⟩ := q
      have h2 : VStep B M N { l with core := a.1.1 } l2 := h2
      have v3 := convMutConn_step Bd h2.legal h2.fits m2 m3 r2
      dsimp only
      generalize convMutConn g l2 m2 m3 r2 = b at v3 ⊢
      have s3 := v3.legal.core
      have f3 := v3.fits.core
      have c4 : CStep B M b.1.1.core (connMutWeights g b.1.1.core m4 b.2).1.1 ∧
          (connMutWeights g b.1.1.core m4 b.2).1.1.nInputs = b.1.1.core.nInputs ∧
          (connMutWeights g b.1.1.core m4 b.2).1.1.nOutputs = b.1.1.core.nOutputs := by
        unfold connMutWeights
        split
        · exact ⟨mutateWeights_step g s3 f3 m4 b.2, rfl, rfl⟩
        · exact ⟨CStep.refl s3 f3, rfl, rfl⟩
      generalize connMutWeights g b.1.1.core m4 b.2 = c at c4 ⊢
      have c5 : CStep B M c.1.1 (connMutFn g c.1.1 m5 c.2).1.1 ∧
          (connMutFn g c.1.1 m5 c.2).1.1.nInputs = c.1.1.nInputs ∧
          (connMutFn g c.1.1 m5 c.2).1.1.nOutputs = c.1.1.nOutputs := by
        unfold connMutFn
        split
        · refine ⟨mutateFn_step O c4.1.sound c4.1.fits m5 c.2, ?_, ?_⟩ <;>
          · unfold mutateFn
            dsimp only
            split <;> rfl
        · exact ⟨CStep.refl c4.1.sound c4.1.fits, rfl, rfl⟩
      exact (v1.trans h2).trans (v3.trans (vstep_core v3.legal v3.fits (c4.1.trans c5.1)
        (c5.2.1.trans c4.2.1) (c5.2.2.trans c4.2.2)))

theorem vstep_step {B M N : Nat} (hM : M < 2147483648) (hN : N < 2147483648) {g : Rng K R}
    (O : g.Open) (Bd : g.Bounded) (m : Libm K) (fuel : Nat) {l : VLay K} (L : l.Legal)
    (F : l.Fits B M N) (r : R) (o : VOp K) (ho : o.fits B M N l.size l.stride l.pad) :
    Post (vstep g m fuel l r o) (fun p => VStep B M N l p.1) (VFault M N l.core.opt.neurons) := by
  cases o with
  | mutate =>
    have h := convMutate_step hM hN O Bd fuel L F r
    unfold vstep
    cases e : convMutate g fuel l r with
    | error f => rw [e] at h; exact h
    | ok p => rw [e] at h; exact h
  | resize w h c => exact post_mono (convResize_step hM hN Bd L F ho r) fun _ h => h.1
  | learn x d p =>
    obtain ⟨l', e, c⟩ := convLearn_step m L F x d p
    simp only [vstep, e]
    exact c
  | forward x =>
    obtain ⟨l', e, c, _⟩ := convForward_step m L F (x := ofArr l.nIn.toNat x) (by rw [length_ofArr])
    simp only [vstep, e]
    exact c
  | rand => exact convRand_step Bd L F r
  | copy =>
    have h := convCopy_step hN L F
    unfold vstep
    cases e : convCopy l with
    | error f => rw [e] at h; exact h
    | ok p => rw [e] at h; exact h

theorem vrun_step {B M N : Nat} (hM : M < 2147483648) (hN : N < 2147483648) {g : Rng K R}
    (O : g.Open) (Bd : g.Bounded) (m : Libm K) (fuel : Nat) : ∀ (os : List (VOp K)) {l : VLay K},
    l.Legal → l.Fits B M N → ∀ r : R, (∀ o ∈ os, o.fits B M N l.size l.stride l.pad) →
    Post (vrun g m fuel os l r) (fun p => VStep B M N l p.1) (VFault M N l.core.opt.neurons)
  | [], l, L, F, r, _ => VStep.refl L F
  | o :: os, l, L, F, r, h => by
    have h1 := vstep_step hM hN O Bd m fuel L F r o (h o List.mem_cons_self)
    unfold vrun
    cases e : vstep g m fuel l r o with
    | error f => rw [e] at h1; exact h1
    | ok p =>
      rw [e] at h1
      obtain ⟨l1, r1⟩ := p
      have h1 : VStep B M N l l1 := h1
      have h2 := vrun_step hM hN O Bd m fuel os h1.legal h1.fits r1 (by
        intro o ho
        rw [h1.size, h1.stride, h1.pad]
        exact h o (List.mem_cons_of_mem _ ho))
      rw [h1.opt] at h2
      exact post_mono h2 fun _ c => h1.trans c

theorem convInit_step {B M N : Nat} (hM : M < 2147483648) (hN : N < 2147483648) {g : Rng K R}
    (O : g.Open) (Bd : g.Bounded) {a : VArgs K} (A : a.Fits B M N) (r : R) :
    Post (convInit g a r) (fun p => p.1.Legal ∧ p.1.Fits B M N ∧ p.1.core.opt = a.base.opt ∧
      p.1.size = a.size ∧ p.1.stride = a.stride ∧ p.1.pad = a.pad)
      (VFault M N a.base.opt.neurons) := by
  have G := A.geo
  obtain ⟨d1, d2, d3, d4, d5⟩ := G.dims A.p A.s A.st
  obtain ⟨o1, o2, o3⟩ := G.outs hN A.p A.s A.st A.init A.cur
  obtain ⟨w1, w2, w3⟩ := G.weights hM A.s A.init A.cur
  have hb := A.big
  have hc := A.cur
  have h1 := A.init
  unfold convInit
  dsimp only
  rw [w1, d2]
  dsimp only
  rw [d1, d5]
  dsimp only
  rw [o1]
  dsimp only
  rcases convGuard_of (f := (a.base.nInit : Int)) (nw := ((a.base.nInit *
    (a.size * a.size * a.channels).toNat : Nat) : Int)) (by omega) (by omega) o2 (by omega)
    with e | ⟨e, h'⟩
  · rw [e]
    dsimp only
    rw [Int.toNat_natCast]
    generalize (initEta g a.base.opt a.base.etaMin a.base.eta r) = q
    obtain ⟨z1, z2⟩ := drawN_spec (P := fun v : K => -10 ≤ v ∧ v ≤ 10)
      (fun r => normal_small (g := g) Bd (s := 1 / 10) (by norm_num) (by norm_num) r)
      (a.base.nInit * (a.size * a.size * a.channels).toNat) q.2
    obtain ⟨mu, r2, em, ml, mv⟩ := C44_init O connMu
      (drawN (g.normal 0 (1 / 10)) (a.base.nInit * (a.size * a.size * a.channels).toNat) q.2).2
    rw [em]
    dsimp only
    have hw : ∀ w ∈ (drawN (g.normal 0 (1 / 10))
        (a.base.nInit * (a.size * a.size * a.channels).toNat) q.2).1.map
          (fun v => (⟨v, 0, true⟩ : Wt K)), w.on = true ∧ WtOk w := by
      intro w hw
      obtain ⟨v, hv, rfl⟩ := List.mem_map.1 hw
      exact ⟨rfl, (z2 v hv).1, (z2 v hv).2, by simp⟩
    refine ⟨⟨?_, ?_⟩, ⟨⟨A.cur, A.max, fun _ => A.le, G.prod, A.grow, A.big⟩, G⟩, rfl, rfl, rfl,
      rfl⟩
    · exact { h := G.hei, w := G.wid, c := G.cha, s := A.s, st := A.st, p := A.p, fitH := G.fitH,
              fitW := G.fitW, one := A.one, outH := rfl, outW := rfl, nIn := rfl, nOut := rfl,
              fan := rfl, wlen := (List.length_map _).trans z1, blen := by simp,
              cl := by simp, tl := by simp [convTemp], fn := A.fn }
    · refine ⟨fan_pos A.s G.cha, A.init, (List.length_map _).trans z1, by simp, fun w h => (hw w h).2, ?_, ?_,
        ⟨ml, mv⟩, A.fn⟩
      · intro n hn
        rw [(List.mem_replicate.1 hn).2]
        exact ⟨by norm_num, by norm_num⟩
      · rw [active_full (fun w h => (hw w h).1), List.length_map, z1]
  · rw [e]
    exact vfault_of h' (by omega) o3

end Xcsf
