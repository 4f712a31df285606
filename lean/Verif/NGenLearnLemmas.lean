import Verif.NGenLearnSpec
import Verif.NGenNet

/-!
# Gradient descent in networks of all kinds of layers: lemmas
-/

set_option linter.unusedSectionVars false

namespace Xcsf
variable {K R : Type} [Field K] [LinearOrder K] [IsStrictOrderedRing K] [FloorRing K]

/-- All that a backward pass reads of a layer has been written. -/
def GLay.Ready (l : GLay K) : Prop :=
  l.Primed ∧ ∃ o, l.outs = .ok o ∧ o.length = l.dim.n.toNat

/-- A recurrent layer is either not trained by gradient descent or has a fixed number of neurons. -/
def GLay.Teachable (l : GLay K) : Prop :=
  l.trait.1 = 1 → l.trait.2.sgd = false ∨ l.trait.2.neurons = false

theorem Teachable.of_kind {l l' : GLay K} (h : l'.trait = l.trait) (t : l.Teachable) :
    l'.Teachable := by
  unfold GLay.Teachable at t ⊢
  rw [h]
  exact t

theorem deltas_len {k : Lim} {l : GLay K} (L : l.Legal k) : l.deltas.length = l.dim.n.toNat := by
  cases l with
  | conn l =>
    show l.deltas.length = ((l.nOutputs : Nat) : Int).toNat
    unfold CLay.deltas
    rw [List.length_map, L.1.nlen]; omega
  | recu l =>
    show l.out.deltas.length = ((l.nOutputs : Nat) : Int).toNat
    rw [L.1.out.deltas_len]; omega
  | lstm l =>
    show l.delta.length = ((l.nOutputs : Nat) : Int).toNat
    rw [L.1.delta]; omega
  | conv l =>
    show (l.cells.map Cell.delta).length = l.nOut.toNat
    rw [List.length_map, L.1.ok.cl]
  | maxp l => exact L.1.dl
  | avgp l => exact L.1.dl
  | ups l => exact L.1.dl
  | drop l => exact L.1.dl
  | noise l => exact L.1.dl
  | soft l => exact L.1.dl

theorem ready_of_trained {k : Lim} {l : GLay K} (L : l.Legal k)
    (h : l.trait.1 < 4 ∨ l.trait.1 = 9) :
    ∃ o, l.outs = .ok o ∧ o.length = l.dim.n.toNat := by
  cases l with
  | conn l =>
    refine ⟨_, rfl, ?_⟩
    show l.outs.length = ((l.nOutputs : Nat) : Int).toNat
    unfold CLay.outs
    rw [List.length_map, L.1.nlen]; omega
  | recu l =>
    refine ⟨_, rfl, ?_⟩
    show l.out.outs.length = ((l.nOutputs : Nat) : Int).toNat
    rw [L.1.out.outs_len]; omega
  | lstm l =>
    refine ⟨_, rfl, ?_⟩
    show l.output.length = ((l.nOutputs : Nat) : Int).toNat
    rw [L.1.output]; omega
  | conv l =>
    refine ⟨_, rfl, ?_⟩
    show (l.cells.map Cell.out).length = l.nOut.toNat
    rw [List.length_map, L.1.ok.cl]
  | soft l => exact ⟨_, rfl, L.1.ol⟩
  | _ => simp [GLay.trait] at h

theorem zipWith_out {cs : List (Cell K)} : ∀ {d : List K}, d.length = cs.length →
    (List.zipWith (fun (c : Cell K) v => { c with delta := v }) cs d).map Cell.out =
      cs.map Cell.out ∧
    (List.zipWith (fun (c : Cell K) v => { c with delta := v }) cs d).map Cell.delta = d := by
  induction cs with
  | nil =>
    intro d h
    cases d with
    | nil => exact ⟨rfl, rfl⟩
    | cons v d => simp at h
  | cons c cs ih =>
    intro d h
    cases d with
    | nil => simp at h
    | cons v d =>
      obtain ⟨h1, h2⟩ := ih (d := d) (by simpa using h)
      exact ⟨by simp only [List.zipWith_cons_cons, List.map_cons, h1],
        by simp only [List.zipWith_cons_cons, List.map_cons, h2]⟩

theorem zipWith_neuron {ns : List (Neuron K)} : ∀ {d : List K}, d.length = ns.length →
    (List.zipWith (fun (c : Neuron K) v => { c with delta := v }) ns d).map Neuron.out =
      ns.map Neuron.out ∧
    (List.zipWith (fun (c : Neuron K) v => { c with delta := v }) ns d).map Neuron.delta = d := by
  induction ns with
  | nil =>
    intro d h
    cases d with
    | nil => exact ⟨rfl, rfl⟩
    | cons v d => simp at h
  | cons c cs ih =>
    intro d h
    cases d with
    | nil => simp at h
    | cons v d =>
      obtain ⟨h1, h2⟩ := ih (d := d) (by simpa using h)
      exact ⟨by simp only [List.zipWith_cons_cons, List.map_cons, h1],
        by simp only [List.zipWith_cons_cons, List.map_cons, h2]⟩

/-- Overwriting the errors of a layer. -/
theorem withDelta_keep {k : Lim} {l : GLay K} (L : l.Legal k) {d : List K}
    (hd : d.length = l.dim.n.toNat) : GKeep k l (l.withDelta d) ∧
      (l.Ready → (l.withDelta d).Ready) ∧ (l.withDelta d).outs = l.outs ∧
      (l.withDelta d).deltas = d := by
  cases l with
  | conn l =>
    obtain ⟨S, F, he, hw⟩ := L
    have hd : d.length = ((l.nOutputs : Nat) : Int).toNat := hd
    have hn : d.length = l.ns.length := by rw [S.nlen]; omega
    have s := withDelta_step S F (d := d) (by omega)
    obtain ⟨h1, h2⟩ := zipWith_neuron hn
    have ho : (GLay.withDelta d (.conn l)).outs = (GLay.conn l).outs := congrArg Except.ok h1
    refine ⟨⟨⟨s.sound, s.fits, he, hw⟩, ⟨fun _ => rfl, rfl, rfl, rfl⟩, ⟨rfl, rfl⟩, rfl⟩,
      fun h => ⟨trivial, by rw [ho]; exact h.2⟩, ho, h2⟩
  | recu l =>
    obtain ⟨L, he⟩ := L
    have hd : d.length = ((l.nOutputs : Nat) : Int).toNat := hd
    have hn : d.length = l.out.ns.length := by rw [L.out.ns_len]; omega
    obtain ⟨h1, h2⟩ := zipWith_neuron hn
    have ho : (GLay.withDelta d (.recu l)).outs = (GLay.recu l).outs := congrArg Except.ok h1
    refine ⟨⟨⟨⟨L.inp, L.self, L.out.withDelta (by omega), L.state, L.prev, L.known, L.mu, L.fn,
      L.wide⟩, he⟩, ⟨fun _ => rfl, rfl, rfl, rfl⟩, ⟨rfl, rfl⟩, rfl⟩,
      fun h => ⟨trivial, by rw [ho]; exact h.2⟩, ho, h2⟩
  | lstm l =>
    obtain ⟨L, he⟩ := L
    have hd : d.length = ((l.nOutputs : Nat) : Int).toNat := hd
    exact ⟨⟨⟨{ L with delta := by show d.length = l.nOutputs; omega }, he⟩,
      ⟨fun _ => rfl, rfl, rfl, rfl⟩, ⟨rfl, rfl⟩, rfl⟩, fun h => h, rfl, rfl⟩
  | conv l =>
    obtain ⟨V, F, he, hc, hG⟩ := L
    have hd : d.length = l.nOut.toNat := hd
    have hn : d.length = l.cells.length := by rw [V.ok.cl]; exact hd
    obtain ⟨h1, h2⟩ := zipWith_out hn
    have ho : (GLay.withDelta d (.conv l)).outs = (GLay.conv l).outs := congrArg Except.ok h1
    have hl : (List.zipWith (fun (c : Cell K) v => { c with delta := v }) l.cells d).length =
        l.nOut.toNat := by
      rw [List.length_zipWith, V.ok.cl, hd, Nat.min_self]
    exact ⟨⟨⟨⟨{ V.ok with cl := hl }, V.core⟩, ⟨F.core, F.geo⟩, he, hc, hG⟩,
      ⟨fun _ => rfl, rfl, rfl, rfl⟩, ⟨rfl, rfl⟩, rfl⟩,
      fun h => ⟨h.1, by rw [ho]; exact h.2⟩, ho, h2⟩
  | maxp l =>
    obtain ⟨V, Rm, hm⟩ := L
    exact ⟨⟨⟨{ V with dl := hd }, ⟨Rm.cha, Rm.ins, Rm.outs, Rm.padW, Rm.padH⟩, hm⟩,
      ⟨fun _ => rfl, rfl, rfl, rfl⟩, ⟨rfl, rfl⟩, rfl⟩, fun h => h, rfl, rfl⟩
  | avgp l =>
    obtain ⟨V, e1, e2, hc, hin⟩ := L
    exact ⟨⟨⟨{ V with dl := hd }, e1, e2, hc, hin⟩,
      ⟨fun _ => rfl, rfl, rfl, rfl⟩, ⟨rfl, rfl⟩, rfl⟩, fun h => h, rfl, rfl⟩
  | ups l =>
    obtain ⟨V, Rm, o1, o2⟩ := L
    exact ⟨⟨⟨{ V with dl := hd }, ⟨Rm.cha, Rm.ins, Rm.outs, Rm.padW, Rm.padH⟩, o1, o2⟩,
      ⟨fun _ => rfl, rfl, rfl, rfl⟩, ⟨rfl, rfl⟩, rfl⟩, fun h => h, rfl, rfl⟩
  | drop l =>
    obtain ⟨V, hN⟩ := L
    exact ⟨⟨⟨{ V with dl := hd }, hN⟩, ⟨fun _ => rfl, rfl, rfl, rfl⟩, ⟨rfl, rfl⟩, rfl⟩,
      fun h => h, rfl, rfl⟩
  | noise l =>
    obtain ⟨V, hN⟩ := L
    exact ⟨⟨⟨{ V with dl := hd }, hN⟩, ⟨fun _ => rfl, rfl, rfl, rfl⟩, ⟨rfl, rfl⟩, rfl⟩,
      fun h => h, rfl, rfl⟩
  | soft l =>
    obtain ⟨V, hN⟩ := L
    exact ⟨⟨⟨{ V with dl := hd }, hN⟩, ⟨fun _ => rfl, rfl, rfl, rfl⟩, ⟨rfl, rfl⟩, rfl⟩,
      fun h => h, rfl, rfl⟩

/-! ## Backward passes -/

theorem forL_len {α : Type} {body : α → List K → Res (List K)} (as : List α) (d : List K)
    (h : ∀ a ∈ as, ∀ d' : List K, d'.length = d.length → ∃ d'', body a d' = .ok d'' ∧
      d''.length = d.length) :
    ∃ d', forL body as d = .ok d' ∧ d'.length = d.length :=
  forL_done (fun _ d' => d'.length = d.length) as d rfl
    (fun _ a ha s hs => h a (ha a (by simp)) s hs)

theorem wr_in {α : Type} {a : List α} {i : Nat} (v : α) (h : i < a.length) :
    wr a (i : Int) v = .ok (a.set i v) := by
  unfold wr
  rw [if_neg (by omega)]
  rfl

theorem rd_in {α : Type} {a : List α} {i : Nat} (h : i < a.length) :
    rd a (i : Int) = .ok a[i] := by
  unfold rd
  rw [if_neg (by omega)]
  have : ((i : Nat) : Int).toNat = i := by omega
  rw [this, List.getElem?_eq_getElem h]

theorem maskBackward_step {l : PLay K} (V : l.MaskOk) (d : Option (List K))
    (hd : ∀ v, d = some v → v.length = l.nIn.toNat) :
    (∃ d', dropoutBackward l d = .ok d' ∧ d'.map List.length = d.map List.length) ∧
    ∃ d', noiseBackward l d = .ok d' ∧ d'.map List.length = d.map List.length := by
  cases d with
  | none => exact ⟨⟨none, rfl, rfl⟩, none, rfl, rfl⟩
  | some v =>
    have hv := hd v rfl
    have h1 : ∀ i ∈ List.range l.nIn.toNat, i < l.delta.length ∧ i < l.state.length ∧
        i < v.length := by
      intro i hi
      rw [List.mem_range] at hi
      rw [V.dl, V.sl, V.nOut, hv]
      exact ⟨hi, hi, hi⟩
    constructor
    · obtain ⟨d', e, hl⟩ := forL_len (body := dropoutBackCell l) (List.range l.nIn.toNat) v
        (by
          intro i hi d' hl
          obtain ⟨q1, q2, q3⟩ := h1 i hi
          unfold dropoutBackCell
          rw [rd_in q2]
          dsimp only
          split
          · rw [wr_in _ (by omega)]
            exact ⟨_, rfl, by rw [List.length_set, hl]⟩
          · rw [rd_in q1]
            dsimp only
            rw [accAt_ok _ (by omega)]
            exact ⟨_, rfl, by rw [List.length_set, hl]⟩)
      refine ⟨some d', ?_, by simp [hl]⟩
      unfold dropoutBackward
      dsimp only
      rw [e]
    · obtain ⟨d', e, hl⟩ := forL_len (body := noiseBackCell l) (List.range l.nIn.toNat) v
        (by
          intro i hi d' hl
          obtain ⟨q1, q2, q3⟩ := h1 i hi
          unfold noiseBackCell
          rw [rd_in q1]
          dsimp only
          rw [accAt_ok _ (by omega)]
          exact ⟨_, rfl, by rw [List.length_set, hl]⟩)
      refine ⟨some d', ?_, by simp [hl]⟩
      unfold noiseBackward
      dsimp only
      rw [e]

theorem softBackward_step {l : SLay K} (V : l.Ok) (d : Option (List K))
    (hd : ∀ v, d = some v → v.length = l.nIn.toNat) :
    ∃ d', softBackward l d = .ok d' ∧ d'.map List.length = d.map List.length := by
  cases d with
  | none => exact ⟨none, rfl, rfl⟩
  | some v =>
    have hv := hd v rfl
    have hl := V.dl
    rw [V.nOut] at hl
    have hn := V.n
    unfold softBackward
    dsimp only
    rw [if_neg (by omega)]
    refine ⟨_, rfl, ?_⟩
    simp [softmaxBackward, hl, hv]

theorem connBackward_wide {m : Libm K} {l l' : CLay K} {x : List K} {d d' : Option (List K)}
    (h : connBackward m l x d = .ok (l', d')) : l'.outH = l.outH ∧ l'.outC = l.outC := by
  unfold connBackward at h
  split at h
  · cases h
  · split at h
    · cases h
    · dsimp only at h
      generalize hq : (if l.opt.sgd = true then _ else _ : CLay K) = q at h
      have k : q.outH = l.outH ∧ q.outC = l.outC := by
        rw [← hq]
        split <;> exact ⟨rfl, rfl⟩
      split at h
      · cases h
        exact k
      · split at h
        · cases h
        · cases h
          exact k

theorem lstmBackward_outs {m : Libm K} {l l' : TLay K} {x : List K} {d d' : Option (List K)}
    (h : lstmBackward m l x d = .ok (l', d')) : l'.nOutputs = l.nOutputs ∧ l'.outW = l.outW := by
  unfold lstmBackward at h
  simp only [bind, Except.bind] at h
  repeat' split at h
  all_goals cases h
  all_goals exact ⟨rfl, rfl⟩

theorem convUpdates_same {m : Libm K} {l l' : VLay K} {x : List K}
    (h : convUpdates m l x = .ok l') : VSame l l' ∧ l'.core.nOutputs = l.core.nOutputs ∧
      l'.nOut = l.nOut := by
  unfold convUpdates at h
  dsimp only at h
  repeat' split at h
  all_goals cases h
  exact ⟨⟨rfl, rfl, rfl, rfl, rfl, rfl⟩, rfl, rfl⟩

theorem convDelta_same {l l' : VLay K} {d d' : List K} (h : convDelta l d = .ok (l', d')) :
    VSame l l' ∧ l'.core.nOutputs = l.core.nOutputs ∧ l'.nOut = l.nOut := by
  unfold convDelta at h
  dsimp only at h
  repeat' split at h
  all_goals cases h
  · exact ⟨⟨rfl, rfl, rfl, rfl, rfl, rfl⟩, rfl, rfl⟩
  · exact ⟨⟨rfl, rfl, rfl, rfl, rfl, rfl⟩, rfl, rfl⟩

theorem convBackward_same {m : Libm K} {l l' : VLay K} {x : List K} {d d' : Option (List K)}
    (h : convBackward m l x d = .ok (l', d')) : VSame l l' ∧ l'.core.nOutputs = l.core.nOutputs ∧
      l'.nOut = l.nOut := by
  unfold convBackward at h
  dsimp only at h
  split at h
  · cases h
  · split at h
    · cases h
    · next l1 e1 =>
      have h1 : VSame l l1 ∧ l1.core.nOutputs = l.core.nOutputs ∧ l1.nOut = l.nOut := by
        split at e1
        · exact convUpdates_same e1
        · cases e1
          exact ⟨VSame.refl l, rfl, rfl⟩
      split at h
      · cases h
        exact h1
      · split at h
        · cases h
        · next e2 =>
          cases h
          obtain ⟨q1, q2, q3⟩ := convDelta_same e2
          exact ⟨h1.1.trans q1, q2.trans h1.2.1, q3.trans h1.2.2⟩

theorem layerBackward_step {k : Lim} (m : Libm K) {l : GLay K} (L : l.Legal k) (P : l.Ready)
    (T : l.Teachable) {x : List K} (hx : x.length = l.nIn.toNat) (d : Option (List K))
    (hd : ∀ v, d = some v → v = List.replicate l.nIn.toNat 0) :
    ∃ l' d', layerBackward m l x d = .ok (l', d') ∧ GKeep k l l' ∧ l'.Ready ∧
      d'.map List.length = d.map List.length := by
  have hd' : ∀ v, d = some v → v.length = l.nIn.toNat := by
    intro v hv
    rw [hd v hv, List.length_replicate]
  cases l with
  | conn l =>
    obtain ⟨S, F, he, hw⟩ := L
    have hi : ((GLay.conn l).nIn).toNat = l.nInputs := by
      show ((l.nInputs : Nat) : Int).toNat = l.nInputs
      omega
    rw [hi] at hx hd'
    obtain ⟨a, d', e, s⟩ := connBackward_step m S F (x := x) (by omega) d
      (fun v hv => by rw [hd' v hv])
    obtain ⟨h1, h2, _, _, _, h3, h4⟩ := connBackward_dims e
    obtain ⟨h5, h6⟩ := connBackward_wide e
    have L' : (GLay.conn a).Legal k := ⟨s.sound, s.fits, by rw [s.opt]; exact he,
      by rw [s.opt, h2, h3, h5, h6]; exact hw⟩
    refine ⟨.conn a, d', ?_, ⟨L', ⟨fun b => ?_, rfl, rfl, by simp only [GLay.trait, s.opt]⟩,
      ⟨?_, rfl⟩, ?_⟩, ⟨trivial, ready_of_trained L' (Or.inl (by simp [GLay.trait]))⟩, h4⟩
    · show backOf .conn (connBackward m l x d) = _
      rw [e]
      rfl
    · show (!a.opt.neurons) = !l.opt.neurons
      rw [s.opt]
    · show (a.nInputs : Int) = l.nInputs
      rw [h1]
    · show (⟨a.nOutputs, a.outW, a.outH, a.outC⟩ : Dim) = ⟨l.nOutputs, l.outW, l.outH, l.outC⟩
      rw [h2, h3, h5, h6]
  | recu l =>
    obtain ⟨L, he⟩ := L
    have hi : ((GLay.recu l).nIn).toNat = l.nInputs := by
      show ((l.nInputs : Nat) : Int).toNat = l.nInputs
      omega
    rw [hi] at hx hd'
    have T : l.opt.sgd = false ∨ l.opt.neurons = false := T rfl
    obtain ⟨a, d', e, s, ⟨h1, _, _, h2, h3⟩, h4⟩ := recBackward_step m L
      (T.imp_right L.known) (x := x) (by omega) d (fun v hv => by rw [hd' v hv])
    have L' : (GLay.recu a).Legal k := ⟨s.legal, by rw [s.opt]; exact he⟩
    refine ⟨.recu a, d', ?_, ⟨L', ⟨fun b => ?_, rfl, rfl, by simp only [GLay.trait, s.opt]⟩,
      ⟨?_, rfl⟩, ?_⟩, ⟨trivial, ready_of_trained L' (Or.inl (by simp [GLay.trait]))⟩, h4⟩
    · show backOf .recu (recBackward m l x d) = _
      rw [e]
      rfl
    · show (!a.opt.neurons) = !l.opt.neurons
      rw [s.opt]
    · show (a.nInputs : Int) = l.nInputs
      rw [h1]
    · show (⟨a.nOutputs, a.outW, 1, 1⟩ : Dim) = ⟨l.nOutputs, l.outW, 1, 1⟩
      rw [h2, h3]
  | lstm l =>
    obtain ⟨L, he⟩ := L
    have hi : ((GLay.lstm l).nIn).toNat = l.nInputs := by
      show ((l.nInputs : Nat) : Int).toNat = l.nInputs
      omega
    rw [hi] at hx hd'
    obtain ⟨a, d', e, s, h1, h4⟩ := lstmBackward_step m L (x := x) (by omega) d
      (fun v hv => by rw [hd' v hv])
    obtain ⟨h2, h3⟩ := lstmBackward_outs e
    have L' : (GLay.lstm a).Legal k := ⟨s.legal, by rw [s.opt]; exact he⟩
    refine ⟨.lstm a, d', ?_, ⟨L', ⟨fun b => ?_, rfl, rfl, by simp only [GLay.trait, s.opt]⟩,
      ⟨?_, rfl⟩, ?_⟩, ⟨trivial, ready_of_trained L' (Or.inl (by simp [GLay.trait]))⟩, h4⟩
    · show backOf .lstm (lstmBackward m l x d) = _
      rw [e]
      rfl
    · show (!a.opt.neurons) = !l.opt.neurons
      rw [s.opt]
    · show (a.nInputs : Int) = l.nInputs
      rw [h1]
    · show (⟨a.nOutputs, a.outW, 1, 1⟩ : Dim) = ⟨l.nOutputs, l.outW, 1, 1⟩
      rw [h2, h3]
  | conv l =>
    obtain ⟨V, F, he, hc, hG⟩ := L
    obtain ⟨a, d', e, s, hfl, h4⟩ := convBackward_step m V F P.1 (x := x) hx d hd
    obtain ⟨v, h1, h2⟩ := convBackward_same e
    have L' : (GLay.conv a).Legal k := ⟨s.legal, s.fits, by rw [s.opt]; exact he,
      by rw [v.c]; exact hc, by rw [s.size, s.stride, s.pad, v.w, v.h]; exact hG⟩
    refine ⟨.conv a, d', ?_, ⟨L', ⟨fun b => rfl, rfl, rfl, by simp only [GLay.trait, s.opt]⟩,
      ⟨v.ins, ?_⟩, ?_⟩, ⟨Or.inr hfl, ready_of_trained L' (Or.inl (by simp [GLay.trait]))⟩, h4⟩
    · show backOf .conv (convBackward m l x d) = _
      rw [e]
      rfl
    · show some (a.width, a.height, a.channels) = some (l.width, l.height, l.channels)
      rw [v.w, v.h, v.c]
    · show (⟨a.nOut, a.outW, a.outH, a.core.nOutputs⟩ : Dim) =
        ⟨l.nOut, l.outW, l.outH, l.core.nOutputs⟩
      rw [h1, h2, v.ow, v.oh]
  | maxp l =>
    have V : l.MaxOk := L.1
    have key : ∃ d', maxpoolBackward l d = .ok d' ∧ d'.map List.length = d.map List.length := by
      cases d with
      | none => exact ⟨none, rfl, rfl⟩
      | some v =>
        have hv : v.length = l.nIn.toNat := hd' v rfl
        obtain ⟨d', e, hl, _⟩ := C54_maxpool_backward V (d := v) (by
          intro i hi
          obtain ⟨j, h1, h2⟩ := P.1 i (by rw [V.il]; exact hi)
          exact ⟨j, h1, by omega⟩)
        exact ⟨some d', e, by simp [hl]⟩
    obtain ⟨d', e, hl⟩ := key
    refine ⟨.maxp l, d', ?_, GKeep.refl L, P, hl⟩
    show backOnly (.maxp l) (maxpoolBackward l d) = _
    rw [e]
    rfl
  | avgp l =>
    have V : l.AvgOk := L.1
    have key : ∃ d', avgpoolBackward l d = .ok d' ∧ d'.map List.length = d.map List.length := by
      cases d with
      | none => exact ⟨none, rfl, rfl⟩
      | some v =>
        obtain ⟨d', e, hl, _⟩ := C54_avgpool_backward V (d := v) (hd' v rfl)
        exact ⟨some d', e, by simp [hl]⟩
    obtain ⟨d', e, hl⟩ := key
    refine ⟨.avgp l, d', ?_, GKeep.refl L, P, hl⟩
    show backOnly (.avgp l) (avgpoolBackward l d) = _
    rw [e]
    rfl
  | ups l =>
    have V : l.UpOk := L.1
    have key : ∃ d', upsampleBackward l d = .ok d' ∧ d'.map List.length = d.map List.length := by
      cases d with
      | none => exact ⟨none, rfl, rfl⟩
      | some v =>
        obtain ⟨d', e, hl, _⟩ := C54_upsample_backward V (d := v) (hd' v rfl)
        exact ⟨some d', e, by simp [hl]⟩
    obtain ⟨d', e, hl⟩ := key
    refine ⟨.ups l, d', ?_, GKeep.refl L, P, hl⟩
    show backOnly (.ups l) (upsampleBackward l d) = _
    rw [e]
    rfl
  | drop l =>
    obtain ⟨d', e, hl⟩ := (maskBackward_step L.1 d hd').1
    refine ⟨.drop l, d', ?_, GKeep.refl L, P, hl⟩
    show backOnly (.drop l) (dropoutBackward l d) = _
    rw [e]
    rfl
  | noise l =>
    obtain ⟨d', e, hl⟩ := (maskBackward_step L.1 d hd').2
    refine ⟨.noise l, d', ?_, GKeep.refl L, P, hl⟩
    show backOnly (.noise l) (noiseBackward l d) = _
    rw [e]
    rfl
  | soft l =>
    obtain ⟨d', e, hl⟩ := softBackward_step L.1 d hd'
    refine ⟨.soft l, d', ?_, GKeep.refl L, P, hl⟩
    show backOnly (.soft l) (softBackward l d) = _
    rw [e]
    rfl

theorem connUpdate_wide (l : CLay K) : (connUpdate l).outH = l.outH ∧
    (connUpdate l).outC = l.outC := by
  unfold connUpdate
  split <;> exact ⟨rfl, rfl⟩

theorem layerUpdate_step {k : Lim} {l : GLay K} (L : l.Legal k) (P : l.Ready) :
    GKeep k l (layerUpdate l) ∧ (layerUpdate l).Ready := by
  cases l with
  | conn l =>
    obtain ⟨S, F, he, hw⟩ := L
    have s := connUpdate_step S F
    obtain ⟨h1, h2, _, _, _, h3⟩ := connUpdate_keeps l
    obtain ⟨h5, h6⟩ := connUpdate_wide l
    have L' : (layerUpdate (.conn l)).Legal k := ⟨s.sound, s.fits, by rw [s.opt]; exact he,
      by rw [s.opt, h2, h3, h5, h6]; exact hw⟩
    have ht : (layerUpdate (.conn l)).trait = (GLay.conn l).trait :=
      congrArg (Prod.mk 0) s.opt
    refine ⟨⟨L', ⟨fun b => ?_, rfl, rfl, ht⟩, ⟨?_, rfl⟩, ?_⟩, trivial,
      ready_of_trained L' (Or.inl (by rw [ht]; simp [GLay.trait]))⟩
    · show (!(connUpdate l).opt.neurons) = !l.opt.neurons
      rw [s.opt]
    · show ((connUpdate l).nInputs : Int) = l.nInputs
      rw [h1]
    · show (⟨(connUpdate l).nOutputs, (connUpdate l).outW, (connUpdate l).outH,
        (connUpdate l).outC⟩ : Dim) = ⟨l.nOutputs, l.outW, l.outH, l.outC⟩
      rw [h2, h3, h5, h6]
  | recu l =>
    obtain ⟨L, he⟩ := L
    have s := recUpdate_step L
    have L' : (layerUpdate (.recu l)).Legal k := ⟨s.legal, by rw [s.opt]; exact he⟩
    have h1 : (recUpdate l).nInputs = l.nInputs := by unfold recUpdate; split <;> rfl
    have h2 : (recUpdate l).nOutputs = l.nOutputs := by unfold recUpdate; split <;> rfl
    have h3 : (recUpdate l).outW = l.outW := by unfold recUpdate; split <;> rfl
    refine ⟨⟨L', ⟨fun b => ?_, rfl, rfl, congrArg (Prod.mk 1) s.opt⟩, ⟨?_, rfl⟩, ?_⟩, trivial,
      ready_of_trained L' (Or.inl (by simp [layerUpdate, GLay.trait]))⟩
    · show (!(recUpdate l).opt.neurons) = !l.opt.neurons
      rw [s.opt]
    · show ((recUpdate l).nInputs : Int) = l.nInputs
      rw [h1]
    · show (⟨(recUpdate l).nOutputs, (recUpdate l).outW, 1, 1⟩ : Dim) = ⟨l.nOutputs, l.outW, 1, 1⟩
      rw [h2, h3]
  | lstm l =>
    obtain ⟨L, he⟩ := L
    have s := lstmUpdate_step L
    have L' : (layerUpdate (.lstm l)).Legal k := ⟨s.legal, by rw [s.opt]; exact he⟩
    have h1 : (lstmUpdate l).nInputs = l.nInputs := by unfold lstmUpdate; split <;> rfl
    have h2 : (lstmUpdate l).nOutputs = l.nOutputs := by unfold lstmUpdate; split <;> rfl
    have h3 : (lstmUpdate l).outW = l.outW := by unfold lstmUpdate; split <;> rfl
    refine ⟨⟨L', ⟨fun b => ?_, rfl, rfl, congrArg (Prod.mk 2) s.opt⟩, ⟨?_, rfl⟩, ?_⟩, trivial,
      ready_of_trained L' (Or.inl (by simp [layerUpdate, GLay.trait]))⟩
    · show (!(lstmUpdate l).opt.neurons) = !l.opt.neurons
      rw [s.opt]
    · show ((lstmUpdate l).nInputs : Int) = l.nInputs
      rw [h1]
    · show (⟨(lstmUpdate l).nOutputs, (lstmUpdate l).outW, 1, 1⟩ : Dim) = ⟨l.nOutputs, l.outW, 1, 1⟩
      rw [h2, h3]
  | conv l =>
    obtain ⟨V, F, he, hc, hG⟩ := L
    obtain ⟨u1, u2⟩ := connUpdate_dims l.core
    have s : VStep k.B k.M k.N l (convUpdate l) :=
      vstep_core V F (connUpdate_step V.core F.core) u1 u2
    obtain ⟨_, h2, _, _, _, _⟩ := connUpdate_keeps l.core
    have L' : (layerUpdate (.conv l)).Legal k := ⟨s.legal, s.fits, by rw [s.opt]; exact he, hc, hG⟩
    refine ⟨⟨L', ⟨fun b => rfl, rfl, rfl, congrArg (Prod.mk 3) s.opt⟩, ⟨rfl, rfl⟩, ?_⟩, ?_,
      ready_of_trained L' (Or.inl (by simp [layerUpdate, GLay.trait]))⟩
    · show (⟨l.nOut, l.outW, l.outH, (connUpdate l.core).nOutputs⟩ : Dim) =
        ⟨l.nOut, l.outW, l.outH, l.core.nOutputs⟩
      rw [h2]
    · show (connUpdate l.core).opt.sgd = true ∨ l.Filled
      have h : (connUpdate l.core).opt = l.core.opt := s.opt
      rw [h]
      exact P.1
  | maxp l => exact ⟨GKeep.refl L, P⟩
  | avgp l => exact ⟨GKeep.refl L, P⟩
  | ups l => exact ⟨GKeep.refl L, P⟩
  | drop l => exact ⟨GKeep.refl L, P⟩
  | noise l => exact ⟨GKeep.refl L, P⟩
  | soft l => exact ⟨GKeep.refl L, P⟩

/-! ## Networks -/

theorem GKeep.trans {k : Lim} {a b c : GLay K} (h1 : GKeep k a b) (h2 : GKeep k b c) :
    GKeep k a c :=
  ⟨h2.legal, ⟨fun x => (h2.kind.still x).trans (h1.kind.still x),
    h2.kind.passes.trans h1.kind.passes, h2.kind.image.trans h1.kind.image,
    h2.kind.trait.trans h1.kind.trait⟩, ⟨h2.reads.ins.trans h1.reads.ins,
    h2.reads.takes.trans h1.reads.takes⟩, h2.dim.trans h1.dim⟩

/-- A step of one layer that keeps sizes and leaves it ready. -/
def Carry (k : Lim) (l l' : GLay K) : Prop := GKeep k l l' ∧ l'.Ready

theorem carry_all_trans {k : Lim} : ∀ {a b c : List (GLay K)}, List.Forall₂ (Carry k) a b →
    List.Forall₂ (Carry k) b c → List.Forall₂ (Carry k) a c
  | _, _, _, .nil, .nil => .nil
  | _, _, _, .cons h1 t1, .cons h2 t2 => .cons ⟨h1.1.trans h2.1, h2.2⟩ (carry_all_trans t1 t2)

theorem carry_facts {k : Lim} {ls ls' : List (GLay K)} (h : List.Forall₂ (Carry k) ls ls') :
    (∀ l ∈ ls', l.Legal k ∧ l.Ready) ∧ List.Forall₂ Fixed ls ls' ∧
      ls'.map GLay.dim = ls.map GLay.dim := by
  induction h with
  | nil => exact ⟨by simp, .nil, rfl⟩
  | cons h t ih =>
    obtain ⟨h1, h2, h3⟩ := ih
    refine ⟨?_, .cons h.1.fixed h2, by rw [List.map_cons, List.map_cons, h.1.dim, h3]⟩
    intro x hx
    rcases List.mem_cons.1 hx with rfl | hx
    · exact ⟨h.1.legal, h.2⟩
    · exact h1 x hx

theorem netLegal_carry {k : Lim} {ls ls' : List (GLay K)} (h : List.Forall₂ (Carry k) ls ls') :
    ∀ {b : Bool} {d : Dim}, NetLegal k b d ls → NetLegal k b d ls' := by
  induction h with
  | nil => intro b d N; exact N
  | cons h t ih =>
    rintro b d ⟨L, A, hi, hp, N⟩
    exact ⟨h.1.legal, h.1.reads.agrees A, by rw [h.1.kind.image]; exact hi,
      by rw [h.1.kind.passes, h.1.dim]; exact hp, netLegal_keep h.1 (ih N)⟩

theorem netLegal_mem {k : Lim} : ∀ {ls : List (GLay K)} {b : Bool} {d : Dim}, NetLegal k b d ls →
    ∀ l ∈ ls, l.Legal k
  | [], _, _, _ => by simp
  | l :: ls, _, _, ⟨L, _, _, _, N⟩ => by
    intro x hx
    rcases List.mem_cons.1 hx with rfl | hx
    · exact L
    · exact netLegal_mem N x hx

theorem reset_step {k : Lim} {l : GLay K} (L : l.Legal k) (P : l.Ready) :
    ∃ l', l.reset = .ok l' ∧ Carry k l l' ∧ l'.deltas = List.replicate l'.dim.n.toNat 0 := by
  have h := deltas_len L
  unfold GLay.reset
  rw [if_neg (by omega), ← h, List.drop_length, List.append_nil, h]
  obtain ⟨h1, h2, _, h3⟩ := withDelta_keep L (d := List.replicate l.dim.n.toNat 0) (by simp)
  exact ⟨_, rfl, ⟨h1, h2 P⟩, by rw [h3, h1.dim]⟩

theorem resetAll_step {k : Lim} : ∀ {ls : List (GLay K)}, (∀ l ∈ ls, l.Legal k ∧ l.Ready) →
    ∃ ls', resetAll ls = .ok ls' ∧ List.Forall₂ (Carry k) ls ls' ∧
      ∀ l ∈ ls', l.deltas = List.replicate l.dim.n.toNat 0
  | [], _ => ⟨[], rfl, .nil, by simp⟩
  | l :: ls, h => by
    obtain ⟨l', e, h1, h2⟩ := reset_step (h l (by simp)).1 (h l (by simp)).2
    obtain ⟨ls', e', h1', h2'⟩ := resetAll_step (ls := ls)
      (fun x hx => h x (List.mem_cons_of_mem _ hx))
    refine ⟨l' :: ls', ?_, .cons h1 h1', ?_⟩
    · unfold resetAll
      rw [e]
      dsimp only
      rw [e']
    · intro x hx
      rcases List.mem_cons.1 hx with rfl | hx
      · exact h2
      · exact h2' x hx

theorem headDelta_step {k : Lim} {l : GLay K} (L : l.Legal k) (P : l.Ready) {t : List K}
    (ht : t.length = l.dim.n.toNat) : ∃ l', l.headDelta t = .ok l' ∧ Carry k l l' := by
  obtain ⟨o, e, ho⟩ := P.2
  have h := deltas_len L
  unfold GLay.headDelta
  rw [e]
  dsimp only
  rw [if_neg (by omega)]
  obtain ⟨h1, h2, _, _⟩ := withDelta_keep L
    (d := List.zipWith (fun t o => t - o) (t.take l.dim.n.toNat) (o.take l.dim.n.toNat) ++
      l.deltas.drop l.dim.n.toNat) (by simp [ht, ho, h])
  exact ⟨_, rfl, h1, h2 P⟩

/-- The layers from the output layer on; `n` is the number of inputs of the network. -/
def BackChain (n : Nat) : GLay K → List (GLay K) → Prop
  | l, [] => l.nIn.toNat = n
  | l, p :: rest => l.nIn = p.dim.n ∧ BackChain n p rest

theorem backChain_head {n : Nat} {l l' : GLay K} (h : l'.nIn = l.nIn) {rest : List (GLay K)}
    (B : BackChain n l rest) : BackChain n l' rest := by
  cases rest with
  | nil => show l'.nIn.toNat = n; rw [h]; exact B
  | cons p rest => exact ⟨h.trans B.1, B.2⟩

theorem backGo_carry {k : Lim} (m : Libm K) {x : List K} : ∀ (rest : List (GLay K)) (l : GLay K),
    BackChain x.length l rest → (∀ q ∈ l :: rest, q.Legal k ∧ q.Ready) →
    (∀ q ∈ l :: rest, q.Teachable) →
    (∀ q ∈ rest, q.deltas = List.replicate q.dim.n.toNat 0) →
    ∃ ls', genBackGo m x l rest = .ok ls' ∧ List.Forall₂ (Carry k) (l :: rest) ls'
  | [], l, B, h, T, _ => by
    obtain ⟨l', d', e, h1, h2, _⟩ := layerBackward_step m (h l (by simp)).1 (h l (by simp)).2
      (T l (by simp)) (x := x) B.symm none (fun v hv => by cases hv)
    refine ⟨[l'], ?_, .cons ⟨h1, h2⟩ .nil⟩
    unfold genBackGo
    rw [e]
  | p :: rest, l, ⟨hn, B⟩, h, T, Z => by
    obtain ⟨Lp, Pp⟩ := h p (by simp)
    obtain ⟨o, eo, ho⟩ := Pp.2
    obtain ⟨l', d', e, h1, h2, h3⟩ := layerBackward_step m (h l (by simp)).1 (h l (by simp)).2
      (T l (by simp)) (x := o) (by rw [ho, hn]) (some p.deltas) (fun v hv => by
        cases hv
        rw [Z p (by simp), hn])
    cases d' with
    | none => cases h3
    | some d' =>
      have hd : d'.length = p.dim.n.toNat := by
        have := Option.some.inj h3
        rw [this, deltas_len Lp]
      obtain ⟨k1, k2, _, _⟩ := withDelta_keep Lp hd
      obtain ⟨ls', e', h'⟩ := backGo_carry m rest (p.withDelta d')
        (backChain_head k1.reads.ins B)
        (by
          intro q hq
          rcases List.mem_cons.1 hq with rfl | hq
          · exact ⟨k1.legal, k2 Pp⟩
          · exact h q (by simp [hq]))
        (by
          intro q hq
          rcases List.mem_cons.1 hq with rfl | hq
          · exact Teachable.of_kind k1.kind.trait (T p (by simp))
          · exact T q (by simp [hq]))
        (fun q hq => Z q (List.mem_cons_of_mem _ hq))
      refine ⟨l' :: ls', ?_, .cons ⟨h1, h2⟩ ?_⟩
      · unfold genBackGo
        rw [eo]
        dsimp only
        rw [e]
        dsimp only
        rw [e']
      · cases h' with
        | cons ha hb => exact .cons ⟨k1.trans ha.1, ha.2⟩ hb

theorem chained_prefix {a b : List (GLay K)} (h : Chained (a ++ b)) : Chained a := by
  intro i x y hx hy
  have h1 : i < a.length := (List.getElem?_eq_some_iff.1 hx).1
  have h2 : i + 1 < a.length := (List.getElem?_eq_some_iff.1 hy).1
  refine h i x y ?_ ?_
  · rw [List.getElem?_append_left h1]; exact hx
  · rw [List.getElem?_append_left h2]; exact hy

theorem backChain_of {d : Dim} : ∀ (rest : List (GLay K)) (h : GLay K),
    Chained (rest.reverse ++ [h]) → (∀ l ∈ (rest.reverse ++ [h]).head?, Agrees d l) →
    BackChain d.n.toNat h rest
  | [], h, _, A => by
    show h.nIn.toNat = d.n.toNat
    rw [(A h (by simp)).ins]
  | p :: rest, h, C, A => by
    rw [List.reverse_cons] at C A
    refine ⟨?_, backChain_of rest p (chained_prefix C) (fun l hl => A l ?_)⟩
    · refine (C rest.length p h ?_ ?_).ins
      · rw [List.getElem?_append_left (by simp), List.getElem?_append_right (by simp)]
        simp
      · rw [List.getElem?_append_right (by simp)]
        simp
    · rw [List.head?_append]
      rw [hl]
      rfl

theorem map_update_carry {k : Lim} : ∀ (ls : List (GLay K)), (∀ l ∈ ls, l.Legal k ∧ l.Ready) →
    List.Forall₂ (Carry k) ls (ls.map layerUpdate)
  | [], _ => .nil
  | l :: ls, h => .cons (layerUpdate_step (h l (by simp)).1 (h l (by simp)).2)
      (map_update_carry ls (fun x hx => h x (List.mem_cons_of_mem _ hx)))

theorem carry_teachable {k : Lim} {ls ls' : List (GLay K)} (h : List.Forall₂ (Carry k) ls ls') :
    (∀ l ∈ ls, l.Teachable) → ∀ l ∈ ls', l.Teachable := by
  induction h with
  | nil => intro _; simp
  | cons h t ih =>
    intro T x hx
    rcases List.mem_cons.1 hx with rfl | hx
    · exact Teachable.of_kind h.1.kind.trait (T _ (by simp))
    · exact ih (fun y hy => T y (by simp [hy])) x hx

theorem genLearn_step {k : Lim} (m : Libm K) {ls : List (GLay K)} {b : Bool} {d : Dim}
    (N : NetLegal k b d ls) (P : ∀ l ∈ ls, l.Ready) (T : ∀ l ∈ ls, l.Teachable) {h : GLay K}
    (hl : ls.getLast? = some h) {t x : List K} (ht : t.length = h.dim.n.toNat)
    (hx : x.length = d.n.toNat) :
    ∃ ls', genLearn m ls t x = .ok ls' ∧ NetLegal k b d ls' ∧ List.Forall₂ (Carry k) ls ls' := by
  obtain ⟨l1, e1, c1, z1⟩ := resetAll_step (k := k) (ls := ls)
    (fun l hl => ⟨netLegal_mem N l hl, P l hl⟩)
  have N1 := netLegal_carry c1 N
  have T1 := carry_teachable c1 T
  have f1 := carry_facts c1
  have g1 : (l1.map GLay.dim).getLast? = some h.dim := by
    rw [f1.2.2, List.getLast?_map, hl]; rfl
  unfold genLearn genBackward
  rw [e1]
  dsimp only
  cases er : l1.reverse with
  | nil =>
    rw [List.reverse_eq_nil_iff] at er
    rw [er] at g1
    cases g1
  | cons h1 rest =>
    have el : l1 = rest.reverse ++ [h1] := by
      rw [← List.reverse_reverse l1, er, List.reverse_cons]
    have hd : h1.dim = h.dim := by
      rw [el] at g1
      simpa using g1
    have hm : ∀ q ∈ h1 :: rest, q ∈ l1 := by
      intro q hq
      rw [← List.mem_reverse, er]
      exact hq
    obtain ⟨h2, e2, c2⟩ := headDelta_step (f1.1 h1 (hm h1 (by simp))).1
      (f1.1 h1 (hm h1 (by simp))).2 (t := t) (by rw [hd]; exact ht)
    have B : BackChain x.length h1 rest := by
      rw [hx]
      refine backChain_of rest h1 (by rw [← el]; exact netLegal_chained _ _ _ N1) ?_
      intro l hl
      rw [← el] at hl
      cases l1 with
      | nil => simp at hl
      | cons a as => simp at hl; subst hl; exact N1.2.1
    obtain ⟨l3, e3, c3⟩ := backGo_carry (k := k) m rest h2 (backChain_head c2.1.reads.ins B)
      (by
        intro q hq
        rcases List.mem_cons.1 hq with rfl | hq
        · exact ⟨c2.1.legal, c2.2⟩
        · exact f1.1 q (hm q (by simp [hq])))
      (by
        intro q hq
        rcases List.mem_cons.1 hq with rfl | hq
        · exact Teachable.of_kind c2.1.kind.trait (T1 h1 (hm h1 (by simp)))
        · exact T1 q (hm q (by simp [hq])))
      (fun q hq => z1 q (hm q (by simp [hq])))
    have c3' : List.Forall₂ (Carry k) (h1 :: rest) l3 := by
      cases c3 with
      | cons ha hb => exact .cons ⟨c2.1.trans ha.1, ha.2⟩ hb
    have c4 : List.Forall₂ (Carry k) l1 l3.reverse := by
      have := List.rel_reverse c3'
      rw [← er, List.reverse_reverse] at this
      exact this
    have c5 := map_update_carry (k := k) l3.reverse (carry_facts c4).1
    have c6 := carry_all_trans c1 (carry_all_trans c4 c5)
    refine ⟨l3.reverse.map layerUpdate, ?_, netLegal_carry c6 N, c6⟩
    dsimp only
    rw [e2]
    dsimp only
    rw [e3]

/-! ## Histories -/

theorem layerRand_ready {g : Rng K R} {l : GLay K} {r : R} {z : GLay K × R} {k : Lim}
    (e : layerRand g l r = .ok z) (h : GKeep k l z.1) (P : l.Ready) : z.1.Ready := by
  cases l with
  | conn l => cases e; exact ⟨trivial, ready_of_trained h.legal (Or.inl (by simp [GLay.trait]))⟩
  | recu l => cases e; exact ⟨trivial, ready_of_trained h.legal (Or.inl (by simp [GLay.trait]))⟩
  | lstm l =>
    have e : liftR GLay.lstm (lstmRand g l r) = .ok z := e
    unfold liftR at e
    split at e
    · cases e
    · cases e
      exact ⟨trivial, ready_of_trained h.legal (Or.inl (by simp [GLay.trait]))⟩
  | conv l =>
    cases e
    exact ⟨P.1, ready_of_trained h.legal (Or.inl (by simp [GLay.trait]))⟩
  | maxp l => cases e; exact P
  | avgp l => cases e; exact P
  | ups l => cases e; exact P
  | drop l => cases e; exact P
  | noise l => cases e; exact P
  | soft l => cases e; exact P

theorem genRand_ready {k : Lim} {g : Rng K R} (Bd : g.Bounded) : ∀ (ls : List (GLay K)) (b : Bool)
    (d : Dim) (r : R), NetLegal k b d ls → (∀ l ∈ ls, l.Ready) →
    ∀ z, genRand g ls r = .ok z → ∀ l ∈ z.1, l.Ready
  | [], _, _, _, _, _ => by
    intro z e
    cases e
    simp
  | l :: ls, b, d, r, ⟨L, A, hi, hp, N⟩, P => by
    intro z e
    unfold genRand at e
    have h := layerRand_step Bd L r
    cases e1 : layerRand g l r with
    | error f => rw [e1] at e; cases e
    | ok y =>
      obtain ⟨l1, r1⟩ := y
      rw [e1] at e h
      dsimp only at e
      cases e2 : genRand g ls r1 with
      | error f => rw [e2] at e; cases e
      | ok y =>
        obtain ⟨ls', r2⟩ := y
        rw [e2] at e
        cases e
        intro x hx
        rcases List.mem_cons.1 hx with rfl | hx
        · exact layerRand_ready e1 h (P l (by simp))
        · exact genRand_ready Bd ls _ _ r1 N (fun y hy => P y (by simp [hy])) _ e2 x hx

theorem fixed_teachable {ls ls' : List (GLay K)} (h : List.Forall₂ Fixed ls ls') :
    (∀ l ∈ ls, l.Teachable) → ∀ l ∈ ls', l.Teachable := by
  induction h with
  | nil => intro _; simp
  | cons h t ih =>
    intro T x hx
    rcases List.mem_cons.1 hx with rfl | hx
    · exact Teachable.of_kind h.2.2 (T _ (by simp))
    · exact ih (fun y hy => T y (by simp [hy])) x hx

theorem teachable_of_args {as : List (GArgs K)} : ∀ {ls : List (GLay K)},
    ls.map GLay.trait = as.map GArgs.trait → (∀ a ∈ as, a.Teachable) → ∀ l ∈ ls, l.Teachable := by
  induction as with
  | nil =>
    intro ls h _
    rw [List.map_nil, List.map_eq_nil_iff] at h
    rw [h]
    simp
  | cons a as ih =>
    intro ls h T
    cases ls with
    | nil => simp
    | cons l ls =>
      rw [List.map_cons, List.map_cons, List.cons.injEq] at h
      intro x hx
      rcases List.mem_cons.1 hx with rfl | hx
      · have ha := T a (by simp)
        unfold GLay.Teachable
        rw [h.1]
        cases a with
        | recu a => exact fun _ => ha
        | _ => intro hh; simp [GArgs.trait] at hh
      · exact ih h.2 (fun y hy => T y (by simp [hy])) x hx

theorem nwork_step {k : Lim} (hk : k.Ok) {g : Rng K R} (O : g.Open) (Bd : g.Bounded) {m : Libm K}
    (hm : ∀ x, 0 < m.exp x) (lo : K) {fuel : Nat} (hf : 1 ≤ fuel) {b : Bool} {d : Dim}
    (D : d.Ok k b) : ∀ (os : List (NTask K)) (c : Bool) (ls : List (GLay K)) (r : R), ls ≠ [] →
    NetLegal k b d ls → (∀ l ∈ ls, l.Teachable) → (c = true → ∀ l ∈ ls, l.Ready) →
    trainedAfterUse c os = true →
    Post (nwork g m lo fuel d.n.toNat os ls r)
      (fun z => NetLegal k b d z.1 ∧ List.Forall₂ Fixed ls z.1) (GFault k)
  | [], _, ls, _, _, N, _, _, _ => ⟨N, fixed_all_refl ls⟩
  | o :: os, c, ls, r, hne, N, T, P, h => by
    have key : ∀ c', (Post (nworkStep g m lo fuel d.n.toNat ls r o)
        (fun z => NetLegal k b d z.1 ∧ List.Forall₂ Fixed ls z.1 ∧ (c' = true → ∀ l ∈ z.1, l.Ready))
        (GFault k)) → trainedAfterUse c' os = true →
        Post (nwork g m lo fuel d.n.toNat (o :: os) ls r)
          (fun z => NetLegal k b d z.1 ∧ List.Forall₂ Fixed ls z.1) (GFault k) := by
      intro c' hs ht
      unfold nwork
      cases e : nworkStep g m lo fuel d.n.toNat ls r o with
      | error f => rw [e] at hs; exact hs
      | ok z =>
        rw [e] at hs
        obtain ⟨h1, h2, h3⟩ := hs
        have hz : z.1 ≠ [] := by
          intro hz
          rw [hz] at h2
          cases h2
          exact hne rfl
        refine post_mono (nwork_step hk O Bd hm lo hf D os c' z.1 z.2 hz h1
          (fixed_teachable h2 T) h3 ht) ?_
        rintro w ⟨w1, w2⟩
        exact ⟨w1, fixed_all_trans h2 w2⟩
    cases o with
    | net o =>
      have hs := nstep_step hk O Bd hm lo hf D N r o
      cases o with
      | mutate =>
        exact key false (post_mono hs (fun z hz => ⟨hz.1, hz.2, fun hh => by cases hh⟩)) h
      | resize =>
        exact key false (post_mono hs (fun z hz => ⟨hz.1, hz.2, fun hh => by cases hh⟩)) h
      | copy =>
        exact key false (post_mono hs (fun z hz => ⟨hz.1, hz.2, fun hh => by cases hh⟩)) h
      | rand =>
        refine key c ?_ h
        refine post_mono (post_also (Q := fun z => c = true → ∀ l ∈ z.1, l.Ready) hs
          (fun z e hc => genRand_ready Bd ls b d r N (P hc) z e)) ?_
        rintro z ⟨h1, h2⟩
        exact ⟨h1.1, h1.2, h2⟩
      | forward t x =>
        refine key true ?_ h
        have hw := genForward_step (g := g) hm lo t ls b d (ofArr d.n.toNat x) r N (by simp [ofArr])
        show Post (genForward g m lo t ls (ofArr d.n.toNat x) r) _ _
        cases e : genForward g m lo t ls (ofArr d.n.toNat x) r with
        | error f => rw [e] at hw; exact Or.inl ⟨hw.1, Or.inr (Or.inr hw.2)⟩
        | ok z =>
          rw [e] at hw
          exact ⟨hw.1, hw.2.2.2.1, fun _ l hl => ⟨hw.2.2.2.2 l hl, hw.2.2.1 l hl⟩⟩
    | learn t x =>
      have h : (c && trainedAfterUse c os) = true := h
      rw [Bool.and_eq_true] at h
      refine key c ?_ h.2
      obtain ⟨hd, hl⟩ : ∃ q, ls.getLast? = some q := by
        cases e : ls.getLast? with
        | none => rw [List.getLast?_eq_none_iff] at e; exact absurd e hne
        | some q => exact ⟨q, rfl⟩
      obtain ⟨ls', e, N', C⟩ := genLearn_step (k := k) m N (P h.1) T hl
        (t := ofArr (headSize ls) t) (x := ofArr d.n.toNat x)
        (by rw [length_ofArr]; unfold headSize; rw [hl]) (by rw [length_ofArr])
      unfold nworkStep
      dsimp only
      rw [e]
      exact ⟨N', (carry_facts C).2.1, fun _ l hl => ((carry_facts C).1 l hl).2⟩

end Xcsf
