import Verif.SerialSpec
import Verif.SerialNet
import Verif.NGenNet

/-!
# New working memory changes nothing

A layer that is not recurrent computes the same outputs whatever its working memory holds.
-/

set_option linter.unusedSectionVars false

namespace Xcsf
variable {K R : Type} [Field K] [LinearOrder K] [IsStrictOrderedRing K] [FloorRing K]

/-! ## Two runs side by side -/

/-- Both computations fail in the same way, or their results are related. -/
def Sim {α β : Type} (rel : α → β → Prop) : Res α → Res β → Prop
  | .ok a, .ok b => rel a b
  | .error e, .error f => e = f
  | _, _ => False

theorem forL_sim {ι S T : Type} {rel : S → T → Prop} {f : ι → S → Res S} {f' : ι → T → Res T}
    (h : ∀ i s t, rel s t → Sim rel (f i s) (f' i t)) :
    ∀ (is : List ι) (s : S) (t : T), rel s t → Sim rel (forL f is s) (forL f' is t)
  | [], _, _, hr => hr
  | i :: is, s, t, hr => by
    have h1 := h i s t hr
    unfold forL
    cases e1 : f i s with
    | error e =>
      cases e2 : f' i t with
      | error e' => rw [e1, e2] at h1; exact h1
      | ok b => rw [e1, e2] at h1; exact h1.elim
    | ok a =>
      cases e2 : f' i t with
      | error e' => rw [e1, e2] at h1; exact h1.elim
      | ok b => rw [e1, e2] at h1; exact forL_sim h is a b h1

/-- Arrays of the same length; what is written in the first one is the same in the second one. -/
def Covers (a b : List (Option K)) : Prop :=
  a.length = b.length ∧ ∀ (i : Nat) (v : K), a[i]? = some (some v) → b[i]? = some (some v)

theorem covers_blank (b : List (Option K)) : Covers (List.replicate b.length none) b := by
  refine ⟨by simp, fun i v h => ?_⟩
  rw [List.getElem?_replicate] at h
  split_ifs at h
  simp at h

theorem wr_covers {a b : List (Option K)} (h : Covers a b) (i : Int) (v : K) :
    Sim Covers (wr a i (some v)) (wr b i (some v)) := by
  unfold wr
  rw [h.1]
  split_ifs with hi
  · rfl
  · refine ⟨by simp [h.1], fun j w hj => ?_⟩
    rw [List.getElem?_set] at hj ⊢
    rw [← h.1]
    split_ifs at hj ⊢ with h1 h2
    · exact hj
    · exact h.2 j w hj

theorem covers_written : ∀ {a b : List (Option K)} {o : List K}, Covers a b → written a = .ok o →
    written b = .ok o
  | [], b, o, h, hw => by
    have : b = [] := List.length_eq_zero_iff.1 (by simpa using h.1.symm)
    rw [this]; exact hw
  | none :: a, b, o, h, hw => by simp [written] at hw
  | some v :: a, b, o, h, hw => by
    obtain ⟨hl, hv⟩ := h
    match b with
    | [] => simp at hl
    | w :: b =>
      have h0 := hv 0 v rfl
      simp only [List.getElem?_cons_zero, Option.some.injEq] at h0
      subst h0
      unfold written at hw ⊢
      cases e : written a with
      | error e' => rw [e] at hw; cases hw
      | ok os =>
        rw [e] at hw
        have : Covers a b := ⟨by simpa using hl, fun i u hu => by
          have := hv (i + 1) u (by simpa using hu)
          simpa using this⟩
        rw [covers_written this e]
        exact hw

/-! ## Pooling and up-sampling layers -/

/-- The fields a forward pass reads. -/
structure SameImage (a b : PLay K) : Prop where
  height : a.height = b.height
  width : a.width = b.width
  channels : a.channels = b.channels
  pad : a.pad = b.pad
  size : a.size = b.size
  stride : a.stride = b.stride
  outW : a.outW = b.outW
  outH : a.outH = b.outH
  nIn : a.nIn = b.nIn
  nOut : a.nOut = b.nOut

theorem maxStep_shape {a b : PLay K} (h : SameImage a b) : maxStep a = maxStep b := by
  unfold maxStep
  rw [h.pad, h.stride, h.width, h.height, h.nIn]

theorem maxPool_shape {a b : PLay K} (h : SameImage a b) (lo : K) : maxPool lo a = maxPool lo b := by
  unfold maxPool
  rw [maxStep_shape h, h.size, h.nIn]

/-- Related states of two passes through a maxpool layer. -/
structure MaxRel (a b : PLay K) : Prop where
  shape : SameImage a b
  out : Covers a.output b.output
  idx : a.indexes.length = b.indexes.length

theorem maxpoolCell_sim (lo : K) (x : List K) (t : Nat × Nat × Nat) (a b : PLay K)
    (h : MaxRel a b) : Sim MaxRel (maxpoolCell lo x t a) (maxpoolCell lo x t b) := by
  unfold maxpoolCell
  rw [h.shape.outW, h.shape.outH, h.shape.nOut, maxPool_shape h.shape]
  dsimp only
  generalize (t.2.2 : Int) + b.outW * ((t.2.1 : Int) + b.outH * (t.1 : Int)) = o
  split_ifs with ho
  · cases maxPool lo b x t.2.1 t.2.2 t.1 with
    | error e => exact rfl
    | ok m =>
      dsimp only
      cases rd x m with
      | error e => exact rfl
      | ok v =>
        dsimp only
        have hw := wr_covers h.out o v
        unfold wr at hw ⊢
        rw [h.idx]
        by_cases hi : o < 0 ∨ (b.indexes.length : Int) ≤ o
        · rw [if_pos hi, if_pos hi]; exact rfl
        · rw [if_neg hi, if_neg hi]
          dsimp only
          by_cases h2 : o < 0 ∨ (b.output.length : Int) ≤ o
          · rw [h.out.1] at hw ⊢
            rw [if_pos h2, if_pos h2]; exact rfl
          · rw [h.out.1] at hw ⊢
            rw [if_neg h2, if_neg h2] at hw
            rw [if_neg h2, if_neg h2]
            exact ⟨⟨h.shape.1, h.shape.2, h.shape.3, h.shape.4, h.shape.5, h.shape.6, rfl,
              rfl, h.shape.9, rfl⟩, hw, by simp [h.idx]⟩
  · exact h

theorem maxpool_sim (lo : K) (x : List K) {a b : PLay K} (h : MaxRel a b) :
    Sim MaxRel (maxpoolForward lo a x) (maxpoolForward lo b x) := by
  unfold maxpoolForward
  rw [h.shape.channels, h.shape.outH, h.shape.outW]
  exact forL_sim (maxpoolCell_sim lo x) _ _ _ h

theorem upsample_sim (x : List K) {a b : PLay K} (hh : a.height = b.height) (hw : a.width = b.width)
    (hc : a.channels = b.channels) (hs : a.stride = b.stride) (h : Covers a.output b.output) :
    Sim (fun u v => Covers u.output v.output) (upsampleForward a x) (upsampleForward b x) := by
  unfold upsampleForward
  have e : upsampleCell a x = upsampleCell b x := by
    unfold upsampleCell upIn upOut
    rw [hh, hw, hs]
  rw [e, hh, hw, hc, hs]
  have := forL_sim (rel := Covers) (f := upsampleCell b x) (f' := upsampleCell b x)
    (fun t s s' hr => by
      unfold upsampleCell
      cases rd x (upIn b t) with
      | error e => exact rfl
      | ok v => exact wr_covers hr _ v)
    (idx3 b.channels.toNat (b.height * b.stride).toNat (b.width * b.stride).toNat) _ _ h
  revert this
  generalize forL (upsampleCell b x) _ a.output = p
  generalize forL (upsampleCell b x) _ b.output = q
  intro this
  match p, q, this with
  | .ok u, .ok v, this => exact this
  | .error e, .error f, this => exact this

/-! ## Convolutional layers -/

theorem im2col_sim (x : List K) (c h w ks st pad : Int) {a b : List (Option K)} (hr : Covers a b) :
    Sim Covers (im2col x c h w ks st pad a) (im2col x c h w ks st pad b) := by
  unfold im2col
  refine forL_sim (fun t s s' hr => ?_) _ _ _ hr
  unfold im2colCell
  dsimp only
  generalize getPixel x h w _ _ _ pad = p
  match p with
  | .error e => exact rfl
  | .ok v => exact wr_covers hr _ v

theorem covers_take {a b : List (Option K)} (h : Covers a b) (n : Nat) :
    Covers (a.take n) (b.take n) := by
  refine ⟨by simp [h.1], fun i v hv => ?_⟩
  rw [List.getElem?_take] at hv ⊢
  split_ifs at hv ⊢ with hi
  exact h.2 i v hv

theorem covers_blank_of {b : List (Option K)} {n : Nat} (h : b.length = n) :
    Covers (List.replicate n none) b := by
  subst h; exact covers_blank b

theorem convCols_sim {l l' : VLay K} (x : List K) (h1 : l'.height = l.height)
    (h2 : l'.width = l.width) (h3 : l'.channels = l.channels) (h4 : l'.size = l.size)
    (h5 : l'.stride = l.stride) (h6 : l'.pad = l.pad) (h7 : l'.outW = l.outW)
    (h8 : l'.outH = l.outH) (ht : Covers l'.temp l.temp) {z : List K × List (Option K)}
    (h : convCols l' x = .ok z) : ∃ t, convCols l x = .ok (z.1, t) := by
  unfold convCols at h ⊢
  rw [h1, h2, h3, h4, h5, h6, h7, h8] at h
  dsimp only at h ⊢
  by_cases hs1 : l.size = 1
  · rw [if_pos hs1] at h ⊢
    split_ifs at h ⊢
    cases h
    exact ⟨_, rfl⟩
  · rw [if_neg hs1] at h ⊢
    have hs := im2col_sim x l.channels l.height l.width l.size l.stride l.pad ht
    revert hs h
    generalize im2col x l.channels l.height l.width l.size l.stride l.pad l'.temp = p
    generalize im2col x l.channels l.height l.width l.size l.stride l.pad l.temp = q
    intro hz hs
    match p, q, hs with
    | .ok u, .ok v, hs =>
      dsimp only at hz ⊢
      rw [hs.1] at hz
      split_ifs at hz ⊢
      cases e : written (u.take ((l.size * l.size * l.channels).toNat * (l.outW * l.outH).toNat)) with
      | error e' => rw [e] at hz; cases hz
      | ok o =>
        rw [e] at hz
        rw [covers_written (covers_take hs _) e]
        cases hz
        exact ⟨_, rfl⟩
    | .error e, .error f, hs => cases hz

theorem outs_of_cells : ∀ (a b : List (Cell K)) (z : List (K × K)), a.length = b.length →
    (List.zipWith (fun (x : Cell K) (so : K × K) => { x with state := so.1, out := so.2 }) a z).map
        Cell.out =
      (List.zipWith (fun (x : Cell K) (so : K × K) => { x with state := so.1, out := so.2 }) b z).map
        Cell.out
  | [], [], _, _ => rfl
  | [], _ :: _, _, h => by simp at h
  | _ :: _, [], _, h => by simp at h
  | _ :: _, _ :: _, [], _ => rfl
  | _ :: a, _ :: b, z :: zs, h => by
    have := outs_of_cells a b zs (by simpa using h)
    simp only [List.zipWith_cons_cons, List.map_cons, this]

/-- A pass with an empty workspace that works gives the outputs of one with any workspace. -/
theorem conv_sim (m : Libm K) {l : VLay K} (hc : l.cells.length = l.nOut.toNat)
    (ht : l.temp.length = convTemp l.outH l.outW l.size l.channels) {x : List K} {a : VLay K}
    (h : convForward m l.fresh x = .ok a) :
    ∃ b, convForward m l x = .ok b ∧ b.cells.map Cell.out = a.cells.map Cell.out := by
  have hb : l.fresh.core.ns.map Neuron.bias = l.core.ns.map Neuron.bias := by
    show (l.core.ns.map Neuron.fresh).map Neuron.bias = _
    rw [List.map_map]; rfl
  have hn : l.fresh.core.ns.length = l.core.ns.length := by
    show (l.core.ns.map Neuron.fresh).length = _
    simp
  have hl : l.fresh.cells.length = l.cells.length := by
    show (List.replicate l.nOut.toNat _).length = _
    simp [hc]
  unfold convForward at h ⊢
  dsimp only at h ⊢
  rw [hb, hn, hl] at h
  by_cases hg : l.core.ws.length < l.core.nOutputs * (l.size * l.size * l.channels).toNat ∨
      l.cells.length < l.core.nOutputs * (l.outW * l.outH).toNat ∨ l.cells.length ≠ l.nOut.toNat ∨
      l.cells.length < l.core.ns.length * (l.outW * l.outH).toNat
  · rw [if_pos (by exact hg)] at h; cases h
  · rw [if_neg (by exact hg)] at h
    rw [if_neg hg]
    cases e : convCols l.fresh x with
    | error e' => rw [e] at h; cases h
    | ok z =>
      rw [e] at h
      obtain ⟨t, ht'⟩ := convCols_sim x rfl rfl rfl rfl rfl rfl rfl rfl
        (l := l) (l' := l.fresh) (covers_blank_of ht) e
      rw [ht']
      dsimp only at h ⊢
      revert h
      show (match activateArray m l.core.fn (ofArr l.nOut.toNat _) with
        | .error e => _
        | .ok (ss, os) => _) = Except.ok a → _
      intro h
      cases ea : activateArray m l.core.fn (ofArr l.nOut.toNat
        (forN l.core.ns.length (fun i C => forN (l.outW * l.outH).toNat (fun j C =>
          arrAdd C (i * (l.outW * l.outH).toNat + j) (arrOf (l.core.ns.map Neuron.bias) i)) C)
          (gemm false false l.core.nOutputs (l.outW * l.outH).toNat
            (l.size * l.size * l.channels).toNat 1 (arrOf (l.core.ws.map Wt.w))
            (l.size * l.size * l.channels).toNat (arrOf z.1) (l.outW * l.outH).toNat 1
            (fun _ => 0) (l.outW * l.outH).toNat))) with
      | error e' =>
        have h' := h
        erw [ea] at h'
        cases h'
      | ok so =>
        erw [ea] at h
        cases h
        refine ⟨_, rfl, ?_⟩
        exact (outs_of_cells _ _ _ hl).symm

/-! ## The layer with new memory is legal -/

theorem conn_fresh_sound {l : CLay K} (S : l.Sound) (w h c : Nat) : ({ l with
      outW := w
      outH := h
      outC := c
      ns := l.ns.map Neuron.fresh } : CLay K).Sound := by
  refine ⟨S.ins, S.outs, S.wlen, by simp [S.nlen], S.wt, ?_, S.active, S.mu, S.fn⟩
  intro n hn
  obtain ⟨a, ha, rfl⟩ := List.mem_map.1 hn
  exact S.bias a ha

theorem fresh_legal {k : Lim} {l : GLay K} (L : l.Legal k) (hr : l.remembers = false) :
    l.fresh.Legal k := by
  cases l with
  | conn l =>
    obtain ⟨S, F, he, hw⟩ := L
    exact ⟨conn_fresh_sound S _ _ _, ⟨F.cur, F.max, F.le, F.prod, F.grow, F.big⟩, he,
      fun _ => ⟨rfl, rfl, rfl⟩⟩
  | recu l => cases hr
  | lstm l => cases hr
  | conv l =>
    obtain ⟨V, F, he, hc, hG⟩ := L
    refine ⟨⟨?_, conn_fresh_sound V.core _ _ _⟩, ⟨⟨F.core.cur, F.core.max, F.core.le, F.core.prod,
      F.core.grow, F.core.big⟩, F.geo⟩, he, hc, hG⟩
    have O := V.ok
    exact ⟨O.h, O.w, O.c, O.s, O.st, O.p, O.fitH, O.fitW, O.one, O.outH, O.outW, O.nIn, O.nOut,
      O.fan, O.wlen, by simp [VLay.fresh, O.blen], by simp [VLay.fresh],
      by simp [VLay.fresh, convTemp], O.fn⟩
  | maxp l =>
    obtain ⟨V, Rm, hm⟩ := L
    exact ⟨⟨V.h, V.w, V.c, V.s, V.st, V.p, V.covers, V.fitW, V.fitH, V.outW, V.outH, V.outC, V.nIn,
      V.nOut, by simp [PLay.fresh], by simp [PLay.fresh], by simp [PLay.fresh]⟩,
      ⟨Rm.cha, Rm.ins, Rm.outs, Rm.padW, Rm.padH⟩, hm⟩
  | avgp l =>
    obtain ⟨V, e1, e2, hc, hin⟩ := L
    exact ⟨⟨V.h, V.w, V.c, V.outC, V.nIn, V.nOut, by simp [PLay.fresh], by simp [PLay.fresh]⟩,
      e1, e2, hc, hin⟩
  | ups l =>
    obtain ⟨V, Rm, o1, o2⟩ := L
    refine ⟨⟨V.h, V.w, V.c, V.st, V.outW, V.outH, V.outC, V.nIn, V.nOut, by simp [PLay.fresh],
      by simp [PLay.fresh]⟩, ⟨Rm.cha, Rm.ins, Rm.outs, ?_, ?_⟩, o1, o2⟩
    · show l.width + 0 < 2147483648
      have := V.outW
      have := V.w
      have := V.st
      nlinarith
    · show l.height + 0 < 2147483648
      have := V.outH
      have := V.h
      have := V.st
      nlinarith
  | drop l =>
    obtain ⟨V, hN⟩ := L
    exact ⟨⟨V.n, V.nOut, by simp [PLay.fresh], by simp [PLay.fresh], by simp [PLay.fresh]⟩, hN⟩
  | noise l =>
    obtain ⟨V, hN⟩ := L
    exact ⟨⟨V.n, V.nOut, by simp [PLay.fresh], by simp [PLay.fresh], by simp [PLay.fresh]⟩, hN⟩
  | soft l =>
    obtain ⟨V, hN⟩ := L
    exact ⟨⟨V.n, V.nOut, by simp, by simp, V.sc⟩, hN⟩

/-! ## One layer -/

/-- The same random state and the same outputs. -/
def SameOuts (z w : GLay K × R) : Prop := z.2 = w.2 ∧ ∃ o, z.1.outs = .ok o ∧ w.1.outs = .ok o

theorem outs_of_neurons : ∀ (a b : List (Neuron K)) (z : List (K × K)), a.length = b.length →
    (List.zipWith (fun (x : Neuron K) (so : K × K) => { x with state := so.1, out := so.2 }) a z).map
        Neuron.out =
      (List.zipWith (fun (x : Neuron K) (so : K × K) => { x with state := so.1, out := so.2 }) b z).map
        Neuron.out
  | [], [], _, _ => rfl
  | [], _ :: _, _, h => by simp at h
  | _ :: _, [], _, h => by simp at h
  | _ :: _, _ :: _, [], _ => rfl
  | _ :: a, _ :: b, z :: zs, h => by
    have := outs_of_neurons a b zs (by simpa using h)
    simp only [List.zipWith_cons_cons, List.map_cons, this]

theorem conn_sim (m : Libm K) (l : CLay K) (x : List K) :
    Sim (fun a b => a.outs = b.outs) (connForward m l.fresh x) (connForward m l x) := by
  have hb : l.fresh.ns.map Neuron.bias = l.ns.map Neuron.bias := by
    show (l.ns.map Neuron.fresh).map Neuron.bias = _
    rw [List.map_map]; rfl
  have hn : l.fresh.ns.length = l.ns.length := by
    show (l.ns.map Neuron.fresh).length = _
    simp
  unfold connForward
  rw [hb, hn]
  by_cases hg : x.length < l.nInputs ∨ l.ws.length < l.nOutputs * l.nInputs ∨
      l.ns.length < l.nOutputs
  · rw [if_pos hg, if_pos (by exact hg)]; exact rfl
  · rw [if_neg hg, if_neg (by exact hg)]
    show Sim _ (match activateArray m l.fn (ofArr l.nOutputs (gemm false true 1 l.nOutputs l.nInputs 1
        (arrOf x) l.nInputs (arrOf (l.ws.map Wt.w)) l.nInputs 1 (arrOf (l.ns.map Neuron.bias))
        l.nOutputs)) with
      | .error e => _
      | .ok (ss, os) => _) _
    dsimp only
    generalize activateArray m l.fn (ofArr l.nOutputs (gemm false true 1 l.nOutputs l.nInputs 1
        (arrOf x) l.nInputs (arrOf (l.ws.map Wt.w)) l.nInputs 1 (arrOf (l.ns.map Neuron.bias))
        l.nOutputs)) = q
    match q with
    | .error e => exact rfl
    | .ok (ss, os) => exact outs_of_neurons _ _ _ hn

theorem avgpool_sim (x : List K) {a b : PLay K} (hh : a.height = b.height) (hw : a.width = b.width)
    (hc : a.channels = b.channels) (h : Covers a.output b.output) :
    Sim (fun u v => Covers u.output v.output) (avgpoolForward a x) (avgpoolForward b x) := by
  unfold avgpoolForward
  rw [hh, hw, hc]
  have := forL_sim (rel := Covers) (f := avgpoolCell x (b.height * b.width))
    (f' := avgpoolCell x (b.height * b.width))
    (fun t s s' hr => by
      unfold avgpoolCell
      generalize forL (avgStep x (b.height * b.width) t) _ 0 = p
      match p with
      | .error e => exact rfl
      | .ok v => exact wr_covers hr _ _)
    (List.range b.channels.toNat) _ _ h
  revert this
  generalize forL (avgpoolCell x (b.height * b.width)) _ a.output = p
  generalize forL (avgpoolCell x (b.height * b.width)) _ b.output = q
  intro this
  match p, q, this with
  | .ok u, .ok v, this => exact this
  | .error e, .error f, this => exact this

/-- Two runs that both agree with a third one whose outputs are written. -/
theorem sim_join {f : PLay K → GLay K} (hf : ∀ a, (f a).outs = written a.output) {p q t : Res (PLay K)}
    {E : Fault → Prop} {r : R}
    (h : Post (keepR f t r) (fun z => ∃ o, z.1.outs = .ok o) E)
    (hp : Sim (fun u v => Covers u.output v.output) t p)
    (hq : Sim (fun u v => Covers u.output v.output) t q) :
    Sim SameOuts (keepR f p r) (keepR f q r) := by
  cases t with
  | ok c =>
    cases p with
    | error e => exact hp.elim
    | ok a =>
      cases q with
      | error e => exact hq.elim
      | ok b =>
        obtain ⟨o, ho⟩ := h
        dsimp only at ho
        rw [hf] at ho
        exact ⟨rfl, o, (hf a).trans (covers_written hp ho), (hf b).trans (covers_written hq ho)⟩
  | error e =>
    cases p with
    | ok a => exact hp.elim
    | error e1 =>
      cases q with
      | ok a => exact hq.elim
      | error e2 =>
        exact (show e = e1 from hp).symm.trans (show e = e2 from hq)

theorem post_outs {l : GLay K} {k : Lim} {E : Fault → Prop} {x : Res (GLay K × R)}
    (h : Post x (fun z => GKeep k l z.1 ∧ z.1.Primed ∧ ∃ o, z.1.outs = .ok o ∧ o.length = z.1.dim.n.toNat) E) :
    Post x (fun z => ∃ o, z.1.outs = .ok o) E :=
  post_mono h (fun _ hz => ⟨_, hz.2.2.choose_spec.1⟩)

theorem sim_mono {α β : Type} {P Q : α → β → Prop} {x : Res α} {y : Res β} (h : Sim P x y)
    (hi : ∀ a b, P a b → Q a b) : Sim Q x y := by
  match x, y, h with
  | .ok a, .ok b, h => exact hi a b h
  | .error e, .error f, h => exact h

theorem written_somes : ∀ o : List K, written (o.map some) = .ok o
  | [] => rfl
  | v :: o => by
    rw [List.map_cons]
    unfold written
    rw [written_somes o]

theorem stored_outs {l : PLay K} (hl : l.output.length = l.nOut.toNat) (st : Option (List K))
    {o : List K} (ho : o.length = l.nOut.toNat) : written (maskStore l st o).output = .ok o := by
  show written (o.map some ++ l.output.drop o.length) = .ok o
  rw [List.drop_of_length_le (by omega), List.append_nil]
  exact written_somes o

theorem softmax_len {m : Libm K} {c : K} : ∀ {x : List K} {p : List (Option K)},
    softmaxForward m c x = .ok p → p.length = x.length
  | [], _, h => by cases h
  | x :: xs, p, h => by
    unfold softmaxForward at h
    dsimp only at h
    rw [← Except.ok.inj h, List.length_map]

theorem written_len : ∀ {o : List (Option K)} {q : List K}, written o = .ok q → q.length = o.length
  | [], q, h => by cases h; rfl
  | none :: o, q, h => by cases h
  | some v :: o, q, h => by
    unfold written at h
    cases e : written o with
    | error f => rw [e] at h; cases h
    | ok u => rw [e] at h; cases h; simp [written_len e]

theorem drop_sim {g : Rng K R} (train : Bool) {a b : PLay K} (V : a.MaskOk) (W : b.MaskOk)
    (hi : a.nIn = b.nIn) (hp : a.probability = b.probability) (hs : a.scale = b.scale) {x : List K}
    (hx : x.length = b.nIn.toNat) (r : R) :
    Sim SameOuts (liftR GLay.drop (dropoutForward g train a x r))
      (liftR GLay.drop (dropoutForward g train b x r)) := by
  have h1 := V.ol
  have h2 := V.sl
  have h3 := V.nOut
  have h4 := W.ol
  have h5 := W.sl
  have h6 := W.nOut
  have h7 := W.n
  have g1 : ¬((x.length : Int) < a.nIn ∨ (a.output.length : Int) < a.nIn ∨
      (a.state.length : Int) < a.nIn) := by omega
  have g2 : ¬((x.length : Int) < b.nIn ∨ (b.output.length : Int) < b.nIn ∨
      (b.state.length : Int) < b.nIn) := by omega
  unfold dropoutForward
  rw [if_neg g1, if_neg g2, hi, hp, hs]
  dsimp only
  cases train with
  | true =>
    have hl := (dropoutGo_spec (g := g) b.probability b.scale (x.take b.nIn.toNat) r).2.1
    rw [List.length_take] at hl
    exact ⟨rfl, (dropoutGo g b.probability b.scale (x.take b.nIn.toNat) r).1.2,
      stored_outs V.ol _ (by omega), stored_outs W.ol _ (by omega)⟩
  | false =>
    exact ⟨rfl, x.take b.nIn.toNat, stored_outs V.ol _ (by rw [List.length_take]; omega),
      stored_outs W.ol _ (by rw [List.length_take]; omega)⟩

theorem noise_sim {g : Rng K R} (train : Bool) {a b : PLay K} (V : a.MaskOk) (W : b.MaskOk)
    (hi : a.nIn = b.nIn) (hp : a.probability = b.probability) (hs : a.scale = b.scale) {x : List K}
    (hx : x.length = b.nIn.toNat) (r : R) :
    Sim SameOuts (liftR GLay.noise (noiseForward g train a x r))
      (liftR GLay.noise (noiseForward g train b x r)) := by
  have h1 := V.ol
  have h2 := V.sl
  have h3 := V.nOut
  have h4 := W.ol
  have h5 := W.sl
  have h6 := W.nOut
  have h7 := W.n
  have g1 : ¬((x.length : Int) < a.nIn ∨ (a.output.length : Int) < a.nIn ∨
      (a.state.length : Int) < a.nIn) := by omega
  have g2 : ¬((x.length : Int) < b.nIn ∨ (b.output.length : Int) < b.nIn ∨
      (b.state.length : Int) < b.nIn) := by omega
  unfold noiseForward
  rw [if_neg g1, if_neg g2, hi, hp, hs]
  dsimp only
  cases train with
  | true =>
    have hl := (noiseGo_spec (g := g) b.probability b.scale (x.take b.nIn.toNat) r).2.1
    rw [List.length_take] at hl
    exact ⟨rfl, (noiseGo g b.probability b.scale (x.take b.nIn.toNat) r).1.2,
      stored_outs V.ol _ (by omega), stored_outs W.ol _ (by omega)⟩
  | false =>
    exact ⟨rfl, x.take b.nIn.toNat, stored_outs V.ol _ (by rw [List.length_take]; omega),
      stored_outs W.ol _ (by rw [List.length_take]; omega)⟩

theorem soft_sim {m : Libm K} (hm : ∀ x, 0 < m.exp x) {a b : SLay K} (V : a.Ok) (W : b.Ok)
    (hi : a.nIn = b.nIn) (hs : a.scale = b.scale) {x : List K} (hx : x.length = b.nIn.toNat) (r : R) :
    Sim SameOuts (keepR GLay.soft (softForward m a x) r)
      (keepR GLay.soft (softForward m b x) r) := by
  obtain ⟨o, e, ho⟩ := softForward_step hm W hx
  have h1 := V.ol
  have h3 := V.nOut
  have h4 := W.ol
  have h6 := W.nOut
  have h7 := W.n
  unfold softForward at e ⊢
  rw [if_neg (by omega)] at e
  rw [if_neg (by omega), if_neg (by omega), hi, hs]
  cases e1 : softmaxForward m b.scale (x.take b.nIn.toNat) with
  | error f => rw [e1] at e; cases e
  | ok p =>
    rw [e1] at e
    dsimp only at e ⊢
    cases e2 : written p with
    | error f => rw [e2] at e; cases e
    | ok q =>
      have hl := (written_len e2).trans (softmax_len e1)
      rw [List.length_take] at hl
      refine ⟨rfl, q, ?_, ?_⟩
      · show Except.ok (q ++ a.output.drop q.length) = _
        rw [List.drop_of_length_le (by omega), List.append_nil]
      · show Except.ok (q ++ b.output.drop q.length) = _
        rw [List.drop_of_length_le (by omega), List.append_nil]

/-- One layer with new memory computes the same outputs. -/
theorem layer_sim {k : Lim} {g : Rng K R} {m : Libm K} (hm : ∀ x, 0 < m.exp x) (lo : K)
    (train : Bool) {l : GLay K} (L : l.Legal k) (hr : l.remembers = false) {x : List K}
    (hx : x.length = l.nIn.toNat) (r : R) :
    Sim SameOuts (layerForward g m lo train l.fresh x r) (layerForward g m lo train l x r) := by
  have LF := fresh_legal L hr
  cases l with
  | conn l =>
    have h := conn_sim m l x
    show Sim SameOuts (keepR GLay.conn (connForward m l.fresh x) r)
      (keepR GLay.conn (connForward m l x) r)
    revert h
    generalize connForward m l.fresh x = p
    generalize connForward m l x = q
    intro h
    match p, q, h with
    | .ok a, .ok b, h => exact ⟨rfl, b.outs, congrArg Except.ok h, rfl⟩
    | .error e, .error f, h => exact h
  | recu l => cases hr
  | lstm l => cases hr
  | conv l =>
    obtain ⟨V, F, he, hc, hG⟩ := LF
    obtain ⟨a, e, _⟩ := convForward_step m V F (x := x) hx
    obtain ⟨b, e2, h⟩ := conv_sim m L.1.ok.cl (by rw [L.1.ok.tl]; rfl) e
    show Sim SameOuts (keepR GLay.conv (convForward m l.fresh x) r)
      (keepR GLay.conv (convForward m l x) r)
    rw [e, e2]
    exact ⟨rfl, _, rfl, congrArg Except.ok h⟩
  | maxp l =>
    obtain ⟨V, Rm, hmx⟩ := L
    have LB : (GLay.maxp { l with output := List.replicate l.nOut.toNat none }).Legal k :=
      ⟨⟨V.h, V.w, V.c, V.s, V.st, V.p, V.covers, V.fitW, V.fitH, V.outW, V.outH, V.outC, V.nIn,
      V.nOut, V.il, by simp, V.dl⟩, ⟨Rm.cha, Rm.ins, Rm.outs, Rm.padW, Rm.padH⟩, hmx⟩
    have h := layerForward_step (g := g) hm lo train LB (x := x) hx r
    refine sim_join (f := GLay.maxp) (fun _ => rfl)
      (post_outs h) ?_ ?_
    · refine sim_mono (maxpool_sim lo x ⟨⟨rfl, rfl, rfl, rfl, rfl, rfl, rfl, rfl, rfl, rfl⟩,
        covers_blank_of (by simp [PLay.fresh]), ?_⟩) (fun _ _ h => h.out)
      simp [PLay.fresh, V.il]
    · exact sim_mono (maxpool_sim lo x ⟨⟨rfl, rfl, rfl, rfl, rfl, rfl, rfl, rfl, rfl, rfl⟩,
        covers_blank_of V.ol, rfl⟩) (fun _ _ h => h.out)
  | avgp l =>
    obtain ⟨V, e1, e2, hc, hin⟩ := L
    have LB : (GLay.avgp { l with output := List.replicate l.nOut.toNat none }).Legal k :=
      ⟨⟨V.h, V.w, V.c, V.outC, V.nIn, V.nOut, by simp, V.dl⟩, e1, e2, hc, hin⟩
    have h := layerForward_step (g := g) hm lo train LB (x := x) hx r
    refine sim_join (f := GLay.avgp) (fun _ => rfl)
      (post_outs h) ?_ ?_
    · exact avgpool_sim x rfl rfl rfl (covers_blank_of (by simp [PLay.fresh]))
    · exact avgpool_sim x rfl rfl rfl (covers_blank_of V.ol)
  | ups l =>
    obtain ⟨V, Rm, o1, o2⟩ := L
    have LB : (GLay.ups { l with output := List.replicate l.nOut.toNat none }).Legal k :=
      ⟨⟨V.h, V.w, V.c, V.st, V.outW, V.outH, V.outC, V.nIn, V.nOut, by simp, V.dl⟩,
      ⟨Rm.cha, Rm.ins, Rm.outs, Rm.padW, Rm.padH⟩, o1, o2⟩
    have h := layerForward_step (g := g) hm lo train LB (x := x) hx r
    refine sim_join (f := GLay.ups) (fun _ => rfl)
      (post_outs h) ?_ ?_
    · exact upsample_sim x rfl rfl rfl rfl (covers_blank_of (by simp [PLay.fresh]))
    · exact upsample_sim x rfl rfl rfl rfl (covers_blank_of V.ol)
  | drop l => exact drop_sim train LF.1 L.1 rfl rfl rfl hx r
  | noise l => exact noise_sim train LF.1 L.1 rfl rfl rfl hx r
  | soft l => exact soft_sim hm LF.1 L.1 rfl rfl hx r

/-! ## Networks -/

theorem fresh_ins (l : GLay K) : l.fresh.nIn = l.nIn := by cases l <;> rfl

theorem fresh_n (l : GLay K) : l.fresh.dim.n = l.dim.n := by cases l <;> rfl

theorem fresh_takes (l : GLay K) : l.fresh.takes = l.takes := by cases l <;> rfl

theorem fresh_passes (l : GLay K) : l.fresh.passes = l.passes := by cases l <;> rfl

theorem fresh_still (b : Bool) (l : GLay K) : l.fresh.still b = l.still b := by cases l <;> rfl

/-- Layers behind an image of constant size keep their sizes. -/
theorem fresh_dim {k : Lim} {l : GLay K} (L : l.Legal k) (hr : l.remembers = false) (b : Bool)
    (h : l.still b = true) : l.fresh.dim = l.dim := by
  cases l with
  | conn l =>
    have ho : l.opt.neurons = false := by simpa [GLay.still] using h
    obtain ⟨e1, e2, e3⟩ := L.2.2.2 ho
    show (⟨l.nOutputs, (l.nOutputs : Nat), (1 : Nat), (1 : Nat)⟩ : Dim) =
      ⟨l.nOutputs, l.outW, l.outH, l.outC⟩
    rw [e1, e2, e3]
  | recu l => cases hr
  | lstm l => cases hr
  | soft l => cases h
  | _ => rfl

/-- The network with new memory is legal. -/
theorem fresh_netLegal {k : Lim} : ∀ (ls : List (GLay K)) (b : Bool) (d d' : Dim),
    (∀ l ∈ ls, l.remembers = false) → d'.n = d.n → (b = true → d' = d) → NetLegal k b d ls →
    NetLegal k b d' (ls.map GLay.fresh)
  | [], _, _, _, _, _, _, _ => trivial
  | l :: ls, b, d, d', hr, hn, hd, ⟨L, A, hi, hp, N⟩ => by
    have hl := hr l (by simp)
    refine ⟨fresh_legal L hl, ⟨by rw [fresh_ins, A.ins, hn], fun t ht => ?_⟩, ?_, ?_, ?_⟩
    · rw [fresh_takes] at ht
      rw [hd (hi (by rw [ht]; rfl))]
      exact A.image t ht
    · rw [fresh_takes]; exact hi
    · intro hq hb
      rw [fresh_passes] at hq
      rw [hd hb, ← hp hq hb]
      exact fresh_dim L hl b (by cases l <;> first | exact hb | cases hq)
    · rw [fresh_still]
      exact fresh_netLegal ls _ l.dim _ (fun l h => hr l (List.mem_cons_of_mem _ h)) (fresh_n l)
        (fun h => fresh_dim L hl b h) N

/-- What two runs of networks have in common: the random state and the outputs of all layers. -/
def SameLays (z w : List (FLay K) × R) : Prop :=
  z.2 = w.2 ∧ List.Forall₂ (fun a b : FLay K => a.wired = b.wired ∧ a.lay.outs = b.lay.outs) z.1 w.1

theorem fnet_sim {k : Lim} {g : Rng K R} {m : Libm K} (hm : ∀ x, 0 < m.exp x) (lo : K)
    (train : Bool) : ∀ (ls : List (FLay K)) (b : Bool) (d : Dim) (x : List K) (r : R),
    (∀ l ∈ ls, l.wired = true ∧ l.lay.remembers = false) → NetLegal k b d (ls.map FLay.lay) →
    x.length = d.n.toNat →
    Sim SameLays (fnetForward g m lo train (ls.map fun l => ⟨l.lay.fresh, l.wired⟩) x r)
      (fnetForward g m lo train ls x r)
  | [], _, _, _, _, _, _, _ => ⟨rfl, .nil⟩
  | l :: ls, b, d, x, r, hr, ⟨L, A, hi, hp, N⟩, hx => by
    obtain ⟨hw, hl⟩ := hr l (by simp)
    have hxi : x.length = l.lay.nIn.toNat := by rw [A.ins]; exact hx
    have h := layer_sim (g := g) hm lo train L hl hxi r
    have hs := layerForward_step (g := g) hm lo train L hxi r
    rw [List.map_cons]
    unfold fnetForward
    dsimp only
    cases e1 : layerForward g m lo train l.lay.fresh x r with
    | error f =>
      cases e2 : layerForward g m lo train l.lay x r with
      | error f' => rw [e1, e2] at h; exact h
      | ok z => rw [e1, e2] at h; exact h.elim
    | ok z =>
      cases e2 : layerForward g m lo train l.lay x r with
      | error f => rw [e1, e2] at h; exact h.elim
      | ok w =>
        rw [e1, e2] at h
        rw [e2] at hs
        obtain ⟨z1, r1⟩ := z
        obtain ⟨w1, r2⟩ := w
        obtain ⟨he, o, ho1, ho2⟩ := h
        obtain ⟨hk, _, o', ho3, hol⟩ := hs
        dsimp only at he ho1 ho2 ho3 hk hol ⊢
        subst he
        rw [ho2] at ho3
        cases ho3
        rw [hw, if_neg (by simp), if_neg (by simp), ho1, ho2]
        dsimp only
        have h2 := fnet_sim hm lo train (g := g) ls _ _ o r1
          (fun l h => hr l (List.mem_cons_of_mem _ h)) N (by rw [hol, hk.dim])
        cases e3 : fnetForward g m lo train (ls.map fun l => ⟨l.lay.fresh, l.wired⟩) o r1 with
        | error f =>
          cases e4 : fnetForward g m lo train ls o r1 with
          | error f' => rw [e3, e4] at h2; exact h2
          | ok z => rw [e3, e4] at h2; exact h2.elim
        | ok u =>
          cases e4 : fnetForward g m lo train ls o r1 with
          | error f' => rw [e3, e4] at h2; exact h2.elim
          | ok v =>
            rw [e3, e4] at h2
            exact ⟨h2.1, .cons ⟨rfl, ho1.trans ho2.symm⟩ h2.2⟩

theorem last_rel {α β : Type} {P : α → β → Prop} {a : List α} {b : List β} (h : List.Forall₂ P a b) :
    (a.getLast? = none ∧ b.getLast? = none) ∨
      ∃ x y, a.getLast? = some x ∧ b.getLast? = some y ∧ P x y := by
  induction h with
  | nil => exact Or.inl ⟨rfl, rfl⟩
  | @cons x y as bs hxy hr ih =>
    right
    rcases ih with ⟨h1, h2⟩ | ⟨u, v, h1, h2, h3⟩
    · rw [List.getLast?_eq_none_iff] at h1 h2
      subst h1; subst h2
      exact ⟨x, y, rfl, rfl, hxy⟩
    · exact ⟨u, v, by rw [List.getLast?_cons, h1]; rfl, by rw [List.getLast?_cons, h2]; rfl, h3⟩

end Xcsf
