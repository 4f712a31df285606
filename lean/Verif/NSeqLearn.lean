import Verif.NSeqLemmas
import Verif.Frame

/-!
# Lemmas for property C71: what learning does not change
-/

set_option linter.unusedSectionVars false

namespace Xcsf
open Finset
variable {K R : Type} [Field K] [LinearOrder K] [IsStrictOrderedRing K] [FloorRing K]

/-- The limits of the learning rate are both zero. -/
structure EtaDead (l : RLay K) : Prop where
  opt : l.opt.eta = true
  min : l.etaMin = 0
  max : l.etaMax = 0

theorem clampK_dead (v : K) : clampK v 0 0 = 0 := by
  obtain ⟨h1, h2⟩ := clampK_mem v (le_refl (0 : K))
  exact le_antisymm h2 h1

theorem recMutNeurons_dead {g : Rng K R} {fuel : Nat} {l : RLay K} (D : EtaDead l) (mu : K)
    (r : R) : Post (recMutNeurons g fuel l mu r)
      (fun p => EtaDead p.1.1 ∧ p.1.1.eta = l.eta) AnyFault := by
  unfold recMutNeurons
  split
  · refine post_bind (post_any _) ?_
    rintro ⟨n, r1⟩ _
    dsimp only
    split
    · exact ⟨D, rfl⟩
    · refine post_bind (post_any _) ?_
      rintro ⟨i, r2⟩ _
      refine post_bind (post_any _) ?_
      rintro ⟨s, r3⟩ _
      refine post_bind (post_any _) ?_
      rintro ⟨o, r4⟩ _
      refine post_bind (post_any _) ?_
      rintro ⟨s', r5⟩ _
      refine post_bind (post_any _) ?_
      rintro ⟨o', r6⟩ _
      refine post_bind (post_any _) ?_
      rintro _ _
      exact ⟨⟨D.opt, D.min, D.max⟩, rfl⟩
  · exact ⟨D, rfl⟩

theorem recMutate_dead {g : Rng K R} {fuel : Nat} {l : RLay K} (D : EtaDead l) (r : R) :
    Post (recMutate g fuel l r) (fun p => EtaDead p.1.1 ∧ p.1.1.eta = 0) AnyFault := by
  unfold recMutate
  refine post_bind (post_any _) ?_
  rintro ⟨mu, r1⟩ _
  dsimp only
  split
  · next m0 m1 m2 m3 m4 m5 =>
    have ha : EtaDead (recMutEta g { l with mu := [m0, m1, m2, m3, m4, m5] } m0 r1).1.1 ∧
        (recMutEta g { l with mu := [m0, m1, m2, m3, m4, m5] } m0 r1).1.1.eta = 0 := by
      unfold recMutEta
      dsimp only
      rw [if_pos D.opt]
      split
      · refine ⟨⟨D.opt, D.min, D.max⟩, ?_⟩
        show clampK _ l.etaMin l.etaMax = 0
        rw [D.min, D.max, clampK_dead]
      · refine ⟨⟨D.opt, D.min, D.max⟩, ?_⟩
        show clampK _ l.etaMin l.etaMax = 0
        rw [D.min, D.max, clampK_dead]
    refine post_bind (recMutNeurons_dead ha.1 m1 _) ?_
    rintro ⟨⟨b, bb⟩, r2⟩ ⟨hb, eb⟩
    dsimp only
    rw [ha.2] at eb
    have hc : EtaDead (recMutConn g b m2 m3 r2).1.1 ∧ (recMutConn g b m2 m3 r2).1.1.eta = 0 := by
      unfold recMutConn
      split
      · exact ⟨⟨hb.opt, hb.min, hb.max⟩, eb⟩
      · exact ⟨hb, eb⟩
    generalize recMutConn g b m2 m3 r2 = c at hc
    have hd : EtaDead (recMutWeights g c.1.1 m4 c.2).1.1 ∧
        (recMutWeights g c.1.1 m4 c.2).1.1.eta = 0 := by
      unfold recMutWeights
      split
      · exact ⟨⟨hc.1.opt, hc.1.min, hc.1.max⟩, hc.2⟩
      · exact hc
    generalize recMutWeights g c.1.1 m4 c.2 = d at hd
    show EtaDead (recMutFn g d.1.1 m5 d.2).1.1 ∧ (recMutFn g d.1.1 m5 d.2).1.1.eta = 0
    unfold recMutFn
    split
    · dsimp only
      split
      · split
        · exact ⟨⟨hd.1.opt, hd.1.min, hd.1.max⟩, hd.2⟩
        · exact hd
      · exact hd
    · exact hd
  · trivial

theorem connForward_params {m : Libm K} {l l' : CLay K} {x : List K}
    (h : connForward m l x = .ok l') (hn : l.ns.length = l.nOutputs) :
    l'.params = l.params ∧ l'.ns.map Neuron.bupd = l.ns.map Neuron.bupd ∧ l'.decay = l.decay := by
  unfold connForward at h
  split at h
  · cases h
  · dsimp only at h
    split at h
    · cases h
    · next ss os e =>
      cases h
      have hl : l.ns.length ≤ (List.zip ss os).length := by
        have : ss.length = (ofArr l.nOutputs (gemm false true 1 l.nOutputs l.nInputs 1 (arrOf x)
            l.nInputs (arrOf (l.ws.map Wt.w)) l.nInputs 1 (arrOf (l.ns.map Neuron.bias))
            l.nOutputs)).length ∧ os.length = (ofArr l.nOutputs (gemm false true 1 l.nOutputs
            l.nInputs 1 (arrOf x) l.nInputs (arrOf (l.ws.map Wt.w)) l.nInputs 1
            (arrOf (l.ns.map Neuron.bias)) l.nOutputs)).length := by
          generalize ofArr l.nOutputs _ = xs at e
          clear hn
          induction xs generalizing ss os with
          | nil => cases e; exact ⟨rfl, rfl⟩
          | cons x xs ih =>
            unfold activateArray at e
            dsimp only at e
            split at e
            · cases e
            · split at e
              · cases e
              · next e2 =>
                cases e
                obtain ⟨h1, h2⟩ := ih _ _ e2
                simp [h1, h2]
        rw [List.length_zip, this.1, this.2, length_ofArr, min_self, hn]
      refine ⟨Prod.ext rfl ?_, ?_, rfl⟩
      · refine map_zipWith_left _ Neuron.bias ?_ _ _ hl
        exact fun _ _ => rfl
      · refine map_zipWith_left _ Neuron.bupd ?_ _ _ hl
        exact fun _ _ => rfl

theorem gradientArray_len {m : Libm K} {a : Int} : ∀ {ss ds v : List K},
    gradientArray m a ss ds = .ok v → v.length = ds.length ∧ ss.length = ds.length
  | [], [], v, h => by cases h; exact ⟨rfl, rfl⟩
  | [], d :: ds, v, h => by cases h
  | s :: ss, [], v, h => by cases h
  | s :: ss, d :: ds, v, h => by
    unfold gradientArray at h
    split at h
    · cases h
    · split at h
      · cases h
      · next e2 =>
        cases h
        obtain ⟨h1, h2⟩ := gradientArray_len e2
        simp [h1, h2]

/-- The backward pass of a connected layer: parameters do not change; the updates change by error
times input. -/
theorem connBackward_params {m : Libm K} {l l' : CLay K} {x : List K} {d d' : Option (List K)}
    (h : connBackward m l x d = .ok (l', d')) : ∃ ds,
      gradientArray m l.fn (l.ns.map Neuron.state) l.deltas = .ok ds ∧
      l'.params = l.params ∧ l'.decay = l.decay ∧ l'.ns.length = l.ns.length ∧
      l'.ws.length = l.ws.length ∧ l'.opt = l.opt ∧
      (l.opt.sgd = false → l'.ws = l.ws ∧ l'.ns.map Neuron.bupd = l.ns.map Neuron.bupd) ∧
      (l.opt.sgd = true →
        l'.ns.map Neuron.bupd = ofArr l.nOutputs (axpy l.nOutputs 1 (arrOf ds) 1
          (arrOf (l.ns.map Neuron.bupd)) 0 1) ∧
        l'.ws = List.zipWith (fun (x : Wt K) u => { x with upd := u }) l.ws
              (ofArr l.ws.length (gemm true false l.nOutputs l.nInputs 1 1 (arrOf ds) l.nOutputs
                (arrOf x) l.nInputs 1 (arrOf (l.ws.map Wt.upd)) l.nInputs))) := by
  unfold connBackward at h
  split at h
  · cases h
  · next hc =>
    rw [not_or, not_or, not_ne_iff] at hc
    split at h
    · cases h
    · next ds hds =>
      refine ⟨ds, hds, ?_⟩
      dsimp only at h
      have hdl : ds.length = l.ns.length := by
        rw [(gradientArray_len hds).1, List.length_map]
      have hb : ∀ {γ : Type} (p : Neuron K → γ), (∀ (a : Neuron K) d, p { a with delta := d } = p a) →
          (List.zipWith (fun (x : Neuron K) d => { x with delta := d }) l.ns ds).map p =
          l.ns.map p := by
        intro γ p hp
        exact map_zipWith_left _ p hp _ _ hdl.ge
      have key : ∀ (a : CLay K), (if l.opt.sgd = true then
          { l with
            ns := List.zipWith (fun (x : Neuron K) u => { x with bupd := u })
              (List.zipWith (fun (x : Neuron K) d => { x with delta := d }) l.ns ds)
              (ofArr l.nOutputs (axpy l.nOutputs 1 (arrOf ds) 1
                (arrOf ((List.zipWith (fun (x : Neuron K) d => { x with delta := d }) l.ns ds).map
                  Neuron.bupd)) 0 1))
            ws := List.zipWith (fun (x : Wt K) u => { x with upd := u }) l.ws
              (ofArr l.ws.length (gemm true false l.nOutputs l.nInputs 1 1 (arrOf ds) l.nOutputs
                (arrOf x) l.nInputs 1 (arrOf (l.ws.map Wt.upd)) l.nInputs)) }
        else { l with ns := List.zipWith (fun (x : Neuron K) d => { x with delta := d }) l.ns ds })
          = a → a.params = l.params ∧ a.decay = l.decay ∧ a.ns.length = l.ns.length ∧
      a.ws.length = l.ws.length ∧ a.opt = l.opt ∧
      (l.opt.sgd = false → a.ws = l.ws ∧ a.ns.map Neuron.bupd = l.ns.map Neuron.bupd) ∧
      (l.opt.sgd = true →
        a.ns.map Neuron.bupd = ofArr l.nOutputs (axpy l.nOutputs 1 (arrOf ds) 1
          (arrOf (l.ns.map Neuron.bupd)) 0 1) ∧
        a.ws = List.zipWith (fun (x : Wt K) u => { x with upd := u }) l.ws
              (ofArr l.ws.length (gemm true false l.nOutputs l.nInputs 1 1 (arrOf ds) l.nOutputs
                (arrOf x) l.nInputs 1 (arrOf (l.ws.map Wt.upd)) l.nInputs))) := by
        intro a ha
        rw [hb Neuron.bupd (fun _ _ => rfl)] at ha
        have hl2 : (List.zipWith (fun (x : Neuron K) d => { x with delta := d }) l.ns ds).length =
            l.nOutputs := by
          rw [List.length_zipWith, hdl, min_self, hc.2.1]
        split at ha
        · next hs =>
          subst ha
          refine ⟨Prod.ext ?_ ?_, rfl, ?_, ?_, rfl, ?_, fun _ => ⟨?_, rfl⟩⟩
          · refine map_zipWith_left _ Wt.w ?_ _ _ (by rw [length_ofArr])
            exact fun _ _ => rfl
          · refine Eq.trans (map_zipWith_left _ Neuron.bias ?_ _ _ (by
              rw [length_ofArr, hl2])) (hb Neuron.bias fun _ _ => rfl)
            exact fun _ _ => rfl
          · dsimp only
            rw [List.length_zipWith, hl2, length_ofArr, min_self, hc.2.1]
          · dsimp only
            rw [List.length_zipWith, length_ofArr, min_self]
          · intro h; rw [h] at hs; cases hs
          · refine map_zipWith_right _ _ (fun _ _ => rfl) _ _ (by rw [length_ofArr, hl2])
        · next hs =>
          subst ha
          refine ⟨Prod.ext rfl (hb Neuron.bias fun _ _ => rfl), rfl, ?_, rfl, rfl,
            fun _ => ⟨rfl, hb Neuron.bupd fun _ _ => rfl⟩, fun h => absurd h hs⟩
          dsimp only
          rw [List.length_zipWith, hdl, min_self]
      generalize hq : (if l.opt.sgd = true then _ else _ : CLay K) = q at h
      have k := key q hq
      split at h
      · cases h
        exact k
      · split at h
        · cases h
        · cases h
          exact k

theorem setDelta_bias (l : CLay K) (d : Nat → K) :
    (setDelta l d).ns.map Neuron.bias = l.ns.map Neuron.bias := by
  apply List.ext_getElem
  · simp [setDelta]
  · intro i h1 h2
    simp [setDelta]

/-! ## LSTM: parts that never learn -/

theorem clampK_id {v lo hi : K} (h1 : lo ≤ v) (h2 : v ≤ hi) : clampK v lo hi = v := by
  unfold clampK
  rw [if_neg (not_lt.2 h1), if_neg (not_lt.2 h2)]

theorem zero_upd_ws {ws : List (Wt K)} (h : ∀ w ∈ ws, w.upd = 0) (i : Nat) :
    arrOf (ws.map Wt.upd) i = 0 := by
  unfold arrOf
  rw [List.getD_eq_getElem?_getD, List.getElem?_map]
  cases e : ws[i]? with
  | none => rfl
  | some w => exact h w (List.mem_of_getElem? e)

theorem zero_upd_ns {ns : List (Neuron K)} (h : ∀ n ∈ ns, n.bupd = 0) (i : Nat) :
    arrOf (ns.map Neuron.bupd) i = 0 := by
  unfold arrOf
  rw [List.getD_eq_getElem?_getD, List.getElem?_map]
  cases e : ns[i]? with
  | none => rfl
  | some w => exact h w (List.mem_of_getElem? e)

theorem setUpd_same : ∀ {ws : List (Wt K)} {us : List K}, us.length = ws.length →
    (∀ u ∈ us, u = 0) → (∀ w ∈ ws, w.upd = 0) →
    List.zipWith (fun (x : Wt K) u => { x with upd := u }) ws us = ws
  | [], [], _, _, _ => rfl
  | [], _ :: _, h, _, _ => by simp at h
  | _ :: _, [], h, _, _ => by simp at h
  | w :: ws, u :: us, h, hu, hw => by
    rw [List.zipWith_cons_cons, setUpd_same (by simpa using h)
      (fun v hv => hu v (List.mem_cons_of_mem _ hv))
      (fun v hv => hw v (List.mem_cons_of_mem _ hv)), hu u List.mem_cons_self]
    have : w.upd = 0 := hw w List.mem_cons_self
    rw [← this]

theorem gradZero {m : Libm K} {a : Int} : ∀ {ss dd v : List K},
    gradientArray m a ss dd = .ok v → (∀ e ∈ dd, e = 0) → ∀ e ∈ v, e = 0
  | [], [], v, h, _ => by cases h; intro e he; cases he
  | [], _ :: _, v, h, _ => by cases h
  | _ :: _, [], v, h, _ => by cases h
  | s :: ss, e :: dd, v, h, hz => by
    unfold gradientArray at h
    split at h
    · cases h
    · split at h
      · cases h
      · next e2 =>
        cases h
        intro e' he
        rcases List.mem_cons.1 he with rfl | he
        · rw [hz e List.mem_cons_self, zero_mul]
        · exact gradZero e2 (fun a ha => hz a (List.mem_cons_of_mem _ ha)) e' he

/-- If all inputs are zero, or all errors, the backward pass leaves no update. -/
theorem connBackward_idle {m : Libm K} {l l' : CLay K} {x : List K} {d d' : Option (List K)}
    (h : connBackward m l x d = .ok (l', d')) (I : Idle l)
    (hw : l.ws.length = l.nOutputs * l.nInputs)
    (hz : (∀ j, arrOf x j = 0) ∨ ∀ i, arrOf l.deltas i = 0) :
    l'.ws = l.ws ∧ Idle l' ∧
      ((∀ i, arrOf l.deltas i = 0) → IdleBias l → IdleBias l') := by
  obtain ⟨ds, hds, hp, hd, hn, hwl, ho, h0, h1⟩ := connBackward_params h
  have hdz : (∀ i, arrOf l.deltas i = 0) → ∀ i, arrOf ds i = 0 := by
    intro hz i
    have hz' : ∀ e ∈ l.deltas, e = 0 := by
      intro e he
      obtain ⟨k, hk⟩ := List.getElem?_of_mem he
      have := hz k
      unfold arrOf at this
      rw [List.getD_eq_getElem?_getD, hk] at this
      exact this
    have := gradZero hds hz'
    unfold arrOf
    rw [List.getD_eq_getElem?_getD]
    cases e : ds[i]? with
    | none => rfl
    | some w => exact this w (List.mem_of_getElem? e)
  have hws : l'.ws = l.ws := by
    cases hs : l.opt.sgd with
    | false => exact (h0 hs).1
    | true =>
      rw [(h1 hs).2]
      refine setUpd_same (length_ofArr _ _) ?_ I.upd
      intro u hu
      obtain ⟨k, hk, rfl⟩ := List.mem_map.1 hu
      rw [List.mem_range, hw] at hk
      have hpos : 0 < l.nInputs := by
        rcases Nat.eq_zero_or_pos l.nInputs with h | h
        · rw [h] at hk; simp at hk
        · exact h
      have h2 := (C43_gemm true false l.nOutputs l.nInputs 1 1 (arrOf ds) l.nOutputs
        (arrOf x) l.nInputs 1 (arrOf (l.ws.map Wt.upd)) l.nInputs (Nat.le_refl _)).1
        (k / l.nInputs) (Nat.div_lt_of_lt_mul (by rw [Nat.mul_comm]; exact hk)) (k % l.nInputs)
        (Nat.mod_lt _ hpos)
      rw [Nat.div_add_mod'] at h2
      rw [h2, zero_upd_ws I.upd]
      simp only [one_mul, zero_add, range_one, sum_singleton]
      unfold opAt
      rcases hz with hz | hz
      · simp [hz]
      · simp [hdz hz]
  refine ⟨hws, ⟨by rw [hd]; exact I.decay, by rw [hws]; exact I.upd⟩, fun hz hb => ?_⟩
  have : ∀ u ∈ l'.ns.map Neuron.bupd, u = 0 := by
    cases hs : l.opt.sgd with
    | false =>
      rw [(h0 hs).2]
      intro u hu
      obtain ⟨n, hn, rfl⟩ := List.mem_map.1 hu
      exact hb n hn
    | true =>
      rw [(h1 hs).1]
      intro u hu
      obtain ⟨k, hk, rfl⟩ := List.mem_map.1 hu
      rw [List.mem_range] at hk
      have h2 := (C43_axpy l.nOutputs 1 (arrOf ds) 1 (arrOf (l.ns.map Neuron.bupd)) 0 1
        (by decide)).1 k hk
      rw [Nat.zero_add, Nat.mul_one] at h2
      rw [h2, zero_upd_ns hb, hdz hz]
      simp
  intro n hn
  exact this _ (List.mem_map_of_mem hn)

/-- Without pending updates and decay the update step changes no weight. -/
theorem connUpdate_idle {l : CLay K} (S : l.Sound) (I : Idle l) :
    (connUpdate l).ws = l.ws ∧ Idle (connUpdate l) ∧
      (IdleBias l → (connUpdate l).params = l.params ∧ IdleBias (connUpdate l)) := by
  unfold connUpdate
  split
  · have hw : (weightClamp { l with
      ns := List.zipWith (fun (x : Neuron K) (p : K × K) => { x with bias := p.1, bupd := p.2 })
        l.ns (List.zip
          (ofArr l.ns.length (axpy l.ns.length l.eta (arrOf (l.ns.map Neuron.bupd)) 1
            (arrOf (l.ns.map Neuron.bias)) 0 1))
          (ofArr l.ns.length (scal l.ns.length l.momentum (arrOf (l.ns.map Neuron.bupd)) 1)))
      ws := List.zipWith (fun (x : Wt K) (p : K × K) => { x with w := p.1, upd := p.2 })
        l.ws (List.zip
          (ofArr l.ws.length (axpy l.ws.length l.eta (if 0 < l.decay then
            axpy l.ws.length (-l.decay) (arrOf (l.ws.map Wt.w)) 1 (arrOf (l.ws.map Wt.upd)) 0 1
            else arrOf (l.ws.map Wt.upd)) 1 (arrOf (l.ws.map Wt.w)) 0 1))
          (ofArr l.ws.length (scal l.ws.length l.momentum (if 0 < l.decay then
            axpy l.ws.length (-l.decay) (arrOf (l.ws.map Wt.w)) 1 (arrOf (l.ws.map Wt.upd)) 0 1
            else arrOf (l.ws.map Wt.upd)) 1))) }).ws = l.ws := by
      rw [if_neg (not_lt.2 I.decay)]
      unfold weightClamp
      dsimp only
      apply List.ext_getElem
      · simp [length_ofArr]
      · intro k h1 h2
        have e1 := (C43_axpy l.ws.length l.eta (arrOf (l.ws.map Wt.upd)) 1
          (arrOf (l.ws.map Wt.w)) 0 1 (by decide)).1 k h2
        have e2 := (C43_scal l.ws.length l.momentum (arrOf (l.ws.map Wt.upd)) 1 (by decide)).1 k h2
        rw [Nat.zero_add, Nat.mul_one, zero_upd_ws I.upd, mul_zero, add_zero] at e1
        rw [Nat.mul_one, zero_upd_ws I.upd, mul_zero] at e2
        have hk := List.getElem_mem h2
        have hu := I.upd _ hk
        obtain ⟨b1, b2, b3⟩ := S.wt _ hk
        have ew : arrOf (l.ws.map Wt.w) k = (l.ws[k]).w := by
          simp [arrOf, List.getD, h2]
        simp only [List.getElem_map, List.getElem_zipWith, List.getElem_zip, ofArr,
          List.getElem_range, e1, e2, ew]
        cases hc : (l.ws[k]).on with
        | true =>
          rw [if_pos rfl, clampK_id b1 b2]
          rw [← hu, ← hc]
        | false =>
          rw [if_neg (by simp)]
          have hz := b3 hc
          generalize l.ws[k] = v at hz hu hc
          obtain ⟨a, b, c⟩ := v
          dsimp only at hz hu hc
          rw [hz, hu, hc]
    refine ⟨hw, ⟨I.decay, by rw [hw]; exact I.upd⟩, fun hb => ?_⟩
    have hn : (weightClamp { l with
      ns := List.zipWith (fun (x : Neuron K) (p : K × K) => { x with bias := p.1, bupd := p.2 })
        l.ns (List.zip
          (ofArr l.ns.length (axpy l.ns.length l.eta (arrOf (l.ns.map Neuron.bupd)) 1
            (arrOf (l.ns.map Neuron.bias)) 0 1))
          (ofArr l.ns.length (scal l.ns.length l.momentum (arrOf (l.ns.map Neuron.bupd)) 1)))
       }).ns = l.ns := by
      unfold weightClamp
      dsimp only
      apply List.ext_getElem
      · simp [length_ofArr]
      · intro k h1 h2
        have e1 := (C43_axpy l.ns.length l.eta (arrOf (l.ns.map Neuron.bupd)) 1
          (arrOf (l.ns.map Neuron.bias)) 0 1 (by decide)).1 k h2
        have e2 := (C43_scal l.ns.length l.momentum (arrOf (l.ns.map Neuron.bupd)) 1
          (by decide)).1 k h2
        rw [Nat.zero_add, Nat.mul_one, zero_upd_ns hb, mul_zero, add_zero] at e1
        rw [Nat.mul_one, zero_upd_ns hb, mul_zero] at e2
        have hk := List.getElem_mem h2
        have hu := hb _ hk
        obtain ⟨b1, b2⟩ := S.bias _ hk
        have ew : arrOf (l.ns.map Neuron.bias) k = (l.ns[k]).bias := by
          simp [arrOf, List.getD, h2]
        simp only [List.getElem_map, List.getElem_zipWith, List.getElem_zip, ofArr,
          List.getElem_range, e1, e2, ew, clampK_id b1 b2]
        rw [← hu]
    refine ⟨Prod.ext (congrArg (List.map Wt.w) hw) (congrArg (List.map Neuron.bias) hn), ?_⟩
    intro n hn'
    refine hb n ?_
    rw [← hn]
    exact hn'
  · exact ⟨rfl, I, fun h => ⟨rfl, h⟩⟩

theorem connForward_idle {m : Libm K} {l l' : CLay K} {x : List K}
    (h : connForward m l x = .ok l') (hn : l.ns.length = l.nOutputs) (I : Idle l) :
    l'.ws = l.ws ∧ Idle l' ∧ (IdleBias l → IdleBias l') := by
  obtain ⟨h1, h2, h3⟩ := connForward_params h hn
  have hw := (connForward_dims h).2.2.2.1
  refine ⟨hw, ⟨by rw [h3]; exact I.decay, by rw [hw]; exact I.upd⟩, fun hb n hn' => ?_⟩
  have : n.bupd ∈ l.ns.map Neuron.bupd := by
    rw [← h2]
    exact List.mem_map_of_mem hn'
  obtain ⟨n', hn2, e⟩ := List.mem_map.1 this
  rw [← e]
  exact hb n' hn2

theorem withDelta_params {l : CLay K} {d : List K} (h : l.ns.length ≤ d.length) :
    (l.withDelta d).params = l.params := by
  refine Prod.ext rfl ?_
  refine map_zipWith_left _ Neuron.bias ?_ _ _ h
  exact fun _ _ => rfl

theorem recLearn_dead {B M : Nat} {m : Libm K} {l : RLay K} (L : l.Legal B M) (he : l.eta = 0)
    (hk : l.opt.sgd = false ∨ l.opt.neurons = false) (x d : Nat → K) (p : Bool) :
    ∃ l', recLearn m l x d p = .ok l' ∧ l'.Legal B M ∧ l'.eta = 0 ∧ l'.opt = l.opt ∧
      l.SamePar l' := by
  obtain ⟨l', h, s⟩ := recLearn_step m L hk x d p
  refine ⟨l', h, s.legal, ?_⟩
  obtain ⟨i, e1, P1, w1, _⟩ := L.inp.forward m (x := ofArr l.nInputs x) (by rw [length_ofArr])
  obtain ⟨sf, e2, P2, w2, _⟩ := L.self.forward m (x := l.out.outs) (by rw [L.out.outs_len])
  obtain ⟨o, e3, P3, w3, _⟩ := L.out.forward m (x := addArr l.nOutputs sf.outs i.outs)
    (by rw [addArr_length])
  have q1 := (connForward_params e1 L.inp.sound.nlen).1
  have q2 := (connForward_params e2 L.self.sound.nlen).1
  have q3 := (connForward_params e3 L.out.sound.nlen).1
  unfold recLearn recForward at h
  rw [if_neg (by rw [L.state, L.prev]; omega)] at h
  simp only [bind, Except.bind, e1, e2] at h
  rw [if_neg (by rw [P1.ns_len, P2.ns_len]; omega)] at h
  simp only [e3] at h
  unfold recBackward recDelta at h
  dsimp only at h
  rw [if_neg (by rw [P1.ns_len, P2.ns_len]; omega)] at h
  simp only [bind, Except.bind] at h
  split at h
  · cases h
  · next r hr =>
    obtain ⟨l2, d2⟩ := r
    dsimp only at h
    split at hr
    · cases hr
    · split at hr
      · cases hr
      · next t ht =>
        obtain ⟨o', e'⟩ := t
        dsimp only at hr
        split at hr
        · cases hr
        · next ev =>
          split at hr
          · cases hr
          · split at hr
            · cases hr
            · next t2 ht2 =>
              obtain ⟨s', e''⟩ := t2
              dsimp only at hr
              split at hr
              · cases hr
              · next t3 ht3 =>
                obtain ⟨i', d3⟩ := t3
                cases hr
                obtain ⟨_, _, b1, _, _, _, ob1, _⟩ := connBackward_params ht
                obtain ⟨_, _, b2, _⟩ := connBackward_params ht2
                obtain ⟨_, _, b3, _⟩ := connBackward_params ht3
                have hev : ev.length = l.nOutputs := by
                  have := (connBackward_dims ht).2.2.2.2.2.2
                  simp only [Option.map_some, Option.some.injEq] at this
                  rw [this, (zeroDelta_part P2 l.nOutputs).deltas_len]
                have z1 : (zeroDelta l.nOutputs i).params = i.params := withDelta_params (by
                  rw [List.length_append, List.length_replicate, List.length_drop, P1.deltas_len,
                    P1.ns_len]
                  omega)
                have z2 : (zeroDelta l.nOutputs sf).params = sf.params := withDelta_params (by
                  rw [List.length_append, List.length_replicate, List.length_drop, P2.deltas_len,
                    P2.ns_len]
                  omega)
                have hu : ∀ l2 : RLay K, l2.eta = l.eta → recUpdate l2 = l2 := by
                  intro l2 h2
                  unfold recUpdate
                  rw [if_neg (by rw [h2, he]; simp)]
                rw [hu] at h
                on_goal 2 => rfl
                cases h
                refine ⟨he, rfl, ?_, ?_, ?_⟩
                · show i'.params = _
                  rw [b3, withDelta_params, z1, q1]
                  have Pz := zeroDelta_part P1 l.nOutputs
                  have Pw := (zeroDelta_part P2 l.nOutputs).withDelta (d := ev) hev.ge
                  rw [Pz.ns_len, List.length_append, List.length_take, List.length_drop,
                    Pz.deltas_len, Pw.deltas_len]
                  omega
                · show s'.params = _
                  rw [b2, withDelta_params, z2, q2]
                  rw [(zeroDelta_part P2 l.nOutputs).ns_len, hev]
                · show o'.params = _
                  rw [b1, ← q3]
                  refine Prod.ext rfl ?_
                  exact setDelta_bias o d

theorem withDelta_idle {l : CLay K} {d : List K} (I : Idle l) (_ : l.ns.length ≤ d.length) :
    Idle (l.withDelta d) ∧ (IdleBias l → IdleBias (l.withDelta d)) ∧
      (l.ns.length = d.length → (l.withDelta d).deltas = d) := by
  refine ⟨⟨I.decay, I.upd⟩, fun hb n hn => ?_, fun e => ?_⟩
  · obtain ⟨a, ha, b, _, rfl⟩ := mem_zipWith hn
    exact hb a ha
  · exact map_zipWith_right _ _ (fun _ _ => rfl) _ _ e.ge

theorem arrOf_zeros (n i : Nat) : arrOf (List.replicate n (0 : K)) i = 0 := by
  unfold arrOf
  rw [List.getD_eq_getElem?_getD, List.getElem?_replicate]
  split <;> rfl

theorem gateBack_self {B M n : Nat} {mx : Int} {o : LOpt} {m : Libm K} {e x : List K}
    {u w u' w' : CLay K} {d d' : Option (List K)} (Pw : Part B M n n mx o w)
    (h : gateBack m e (List.replicate n 0) x u w d = .ok ((u', w'), d')) (I : Idle w) :
    w'.ws = w.ws ∧ Idle w' := by
  unfold gateBack at h
  split at h
  · cases h
  · next hc =>
    rw [not_or, not_ne_iff, not_ne_iff] at hc
    simp only [bind, Except.bind] at h
    split at h
    · cases h
    · next t1 h1 =>
      obtain ⟨w1, _⟩ := t1
      dsimp only at h
      split at h
      · cases h
      · next t2 h2 =>
        cases h
        obtain ⟨a, b, _⟩ := connBackward_idle h1 (withDelta_idle I hc.2.le).1 Pw.sound.wlen
          (Or.inl (arrOf_zeros n))
        exact ⟨a, b⟩

theorem gateBack_zero {B M nIn n : Nat} {mx : Int} {o : LOpt} {m : Libm K} {e x ps : List K}
    {u w u' w' : CLay K} {d d' : Option (List K)} (Pu : Part B M nIn n mx o u)
    (Pw : Part B M n n mx o w) (he : ∀ i, arrOf e i = 0)
    (h : gateBack m e ps x u w d = .ok ((u', w'), d')) (I : GateIdle u w) :
    u'.params = u.params ∧ w'.params = w.params ∧ GateIdle u' w' := by
  unfold gateBack at h
  split at h
  · cases h
  · next hc =>
    rw [not_or, not_ne_iff, not_ne_iff] at hc
    simp only [bind, Except.bind] at h
    split at h
    · cases h
    · next t1 h1 =>
      obtain ⟨w1, d1⟩ := t1
      dsimp only at h
      split at h
      · cases h
      · next t2 h2 =>
        obtain ⟨u1, d2⟩ := t2
        cases h
        obtain ⟨i1, i2, i3⟩ := withDelta_idle I.w hc.2.le
        obtain ⟨j1, j2, j3⟩ := withDelta_idle I.u hc.1.le
        have hz1 : ∀ i, arrOf (w.withDelta e).deltas i = 0 := by rw [i3 hc.2]; exact he
        have hz2 : ∀ i, arrOf (u.withDelta e).deltas i = 0 := by rw [j3 hc.1]; exact he
        obtain ⟨a, b, c⟩ := connBackward_idle h1 i1 Pw.sound.wlen (Or.inr hz1)
        obtain ⟨a', b', c'⟩ := connBackward_idle h2 j1 Pu.sound.wlen (Or.inr hz2)
        obtain ⟨_, _, p1, _⟩ := connBackward_params h1
        obtain ⟨_, _, p2, _⟩ := connBackward_params h2
        exact ⟨p2.trans (withDelta_params hc.1.le), p1.trans (withDelta_params hc.2.le),
          b', b, c' hz2 (j2 I.ub), c hz1 (i2 I.wb)⟩

theorem TSame.trans {a b c : TLay K} (h1 : TSame a b) (h2 : TSame b c) : TSame a c :=
  ⟨h2.uf.trans h1.uf, h2.wf.trans h1.wf, h2.wi.trans h1.wi, h2.wg.trans h1.wg, h2.wo.trans h1.wo⟩

theorem mapR_unit {α β : Type} {op : α → Res β} {a : Gates α} {b : Gates β}
    (h : a.mapR (fun y (_ : Unit) => (op y).map (·, ())) () = .ok (b, ())) :
    op a.f = .ok b.f ∧ op a.i = .ok b.i ∧ op a.g = .ok b.g ∧ op a.o = .ok b.o := by
  unfold Gates.mapR at h
  cases e1 : op a.f with
  | error e => simp [e1, bind, Except.bind, Except.map] at h
  | ok f =>
    cases e2 : op a.i with
    | error e => simp [e1, e2, bind, Except.bind, Except.map] at h
    | ok i =>
      cases e3 : op a.g with
      | error e => simp [e1, e2, e3, bind, Except.bind, Except.map] at h
      | ok g =>
        cases e4 : op a.o with
        | error e => simp [e1, e2, e3, e4, bind, Except.bind, Except.map] at h
        | ok o =>
          simp only [e1, e2, e3, e4, bind, Except.bind, Except.map] at h
          cases h
          exact ⟨rfl, rfl, rfl, rfl⟩

theorem lstmForward_idle {B M : Nat} {m : Libm K} {l l' : TLay K} {x : List K} (L : l.Legal B M)
    (h : lstmForward m l x = .ok l') (hx : l.nInputs ≤ x.length) (I : TIdle l) :
    TSame l l' ∧ TIdle l' := by
  obtain ⟨u, e1, Pu, _⟩ := forward_gates L.u m hx
  obtain ⟨w, e2, Pw, _⟩ := forward_gates L.w m (x := l.h) (by rw [L.h])
  unfold lstmForward at h
  simp only [bind, Except.bind, e1, e2] at h
  obtain ⟨u1, _, _, _⟩ := mapR_unit e1
  obtain ⟨w1, w2, w3, w4⟩ := mapR_unit e2
  obtain ⟨f, ef, _⟩ := gateVal_ok L.rfn m Pu.f Pw.f
  obtain ⟨i, ei, _⟩ := gateVal_ok L.rfn m Pu.i Pw.i
  obtain ⟨g, eg, _⟩ := gateVal_ok L.fn m Pu.g Pw.g
  obtain ⟨o, eo, _⟩ := gateVal_ok L.rfn m Pu.o Pw.o
  simp only [ef, ei, eg, eo] at h
  rw [if_neg (by rw [L.c]; omega)] at h
  split at h
  · cases h
  · cases h
    obtain ⟨_, i1, b1⟩ := connForward_idle u1 L.u.f.sound.nlen I.f.u
    obtain ⟨_, i2, b2⟩ := connForward_idle w1 L.w.f.sound.nlen I.f.w
    obtain ⟨s3, i3, _⟩ := connForward_idle w2 L.w.i.sound.nlen I.i
    obtain ⟨s4, i4, _⟩ := connForward_idle w3 L.w.g.sound.nlen I.g
    obtain ⟨s5, i5, _⟩ := connForward_idle w4 L.w.o.sound.nlen I.o
    exact ⟨⟨(connForward_params u1 L.u.f.sound.nlen).1, (connForward_params w1 L.w.f.sound.nlen).1,
      congrArg (List.map Wt.w) s3, congrArg (List.map Wt.w) s4, congrArg (List.map Wt.w) s5⟩,
      ⟨⟨i1, i2, b1 I.f.ub, b2 I.f.wb⟩, i3, i4, i5⟩⟩

theorem lstmBackward_idle {B M : Nat} {m : Libm K} {l l' : TLay K} {x : List K} (L : l.Legal B M)
    {d d' : Option (List K)} (h : lstmBackward m l x d = .ok (l', d')) (I : TIdle l) :
    TSame l l' ∧ TIdle l' := by
  have hpc : l.prevCell.length = l.nOutputs := by rw [L.prevCell]; simp
  unfold lstmBackward at h
  rw [if_neg (by rw [L.delta, L.c, L.dc, hpc]; omega)] at h
  simp only [bind, Except.bind] at h
  split at h
  · cases h
  split at h
  · cases h
  split at h
  · cases h
  split at h
  · cases h
  next _ t1 h1 =>
  obtain ⟨⟨uo, wo⟩, d1⟩ := t1
  dsimp only at h
  split at h
  · cases h
  split at h
  · cases h
  next _ t2 h2 =>
  obtain ⟨⟨ug, wg⟩, d2⟩ := t2
  dsimp only at h
  split at h
  · cases h
  split at h
  · cases h
  next _ t3 h3 =>
  obtain ⟨⟨ui, wi⟩, d3⟩ := t3
  dsimp only at h
  split at h
  · cases h
  next _ ef hef =>
  split at h
  · cases h
  next _ t4 h4 =>
  obtain ⟨⟨uf, wf⟩, d4⟩ := t4
  cases h
  rw [L.prevState] at h1 h2 h3
  obtain ⟨s1, i1⟩ := gateBack_self L.w.o h1 I.o
  obtain ⟨s2, i2⟩ := gateBack_self L.w.g h2 I.g
  obtain ⟨s3, i3⟩ := gateBack_self L.w.i h3 I.i
  have hz : ∀ i, arrOf ef i = 0 := by
    intro i
    have hm : ∀ (y : List K), ∀ e ∈ mulArr l.nOutputs l.prevCell y, e = 0 := by
      intro y e he
      obtain ⟨k, _, rfl⟩ := List.mem_map.1 he
      rw [L.prevCell, arrOf_zeros, mul_zero]
    have := gradZero hef (hm _)
    unfold arrOf
    rw [List.getD_eq_getElem?_getD]
    cases e : ef[i]? with
    | none => rfl
    | some w => exact this w (List.mem_of_getElem? e)
  obtain ⟨p1, p2, i4⟩ := gateBack_zero L.u.f L.w.f hz h4 I.f
  exact ⟨⟨p1, p2, congrArg (List.map Wt.w) s3, congrArg (List.map Wt.w) s2,
    congrArg (List.map Wt.w) s1⟩, ⟨i4, i3, i2, i1⟩⟩

theorem lstmUpdate_idle {B M : Nat} {l : TLay K} (L : l.Legal B M) (I : TIdle l) :
    TSame l (lstmUpdate l) ∧ TIdle (lstmUpdate l) := by
  unfold lstmUpdate
  split
  · obtain ⟨_, i1, b1⟩ := connUpdate_idle L.u.f.sound I.f.u
    obtain ⟨_, i2, b2⟩ := connUpdate_idle L.w.f.sound I.f.w
    obtain ⟨s3, i3, _⟩ := connUpdate_idle L.w.i.sound I.i
    obtain ⟨s4, i4, _⟩ := connUpdate_idle L.w.g.sound I.g
    obtain ⟨s5, i5, _⟩ := connUpdate_idle L.w.o.sound I.o
    exact ⟨⟨(b1 I.f.ub).1, (b2 I.f.wb).1, congrArg (List.map Wt.w) s3,
      congrArg (List.map Wt.w) s4, congrArg (List.map Wt.w) s5⟩,
      ⟨⟨i1, i2, (b1 I.f.ub).2, (b2 I.f.wb).2⟩, i3, i4, i5⟩⟩
  · exact ⟨⟨rfl, rfl, rfl, rfl, rfl⟩, I⟩

theorem lstmLearn_idle {B M : Nat} {m : Libm K} {l : TLay K} (L : l.Legal B M) (I : TIdle l)
    (x d : Nat → K) (p : Bool) :
    ∃ l', lstmLearn m l x d p = .ok l' ∧ l'.Legal B M ∧ TSame l l' ∧ TIdle l' := by
  obtain ⟨l1, e1, c1, n1⟩ := lstmForward_step m L (x := ofArr l.nInputs x) (by rw [length_ofArr])
  have c2 := lstmDelta_step c1.legal d
  obtain ⟨l3, d3, e3, c3, _, _⟩ := lstmBackward_step m c2.legal (x := ofArr l.nInputs x)
    (by rw [length_ofArr]; exact n1.le)
    (if p then some (List.replicate l.nInputs 0) else none) (by
      intro v hv
      split at hv
      · cases hv; rw [List.length_replicate]; exact n1.le
      · cases hv)
  have c4 := lstmUpdate_step c3.legal
  obtain ⟨s1, I1⟩ := lstmForward_idle L e1 (by rw [length_ofArr]) I
  have I2 : TIdle (lstmDelta l1 d) := ⟨I1.f, I1.i, I1.g, I1.o⟩
  obtain ⟨s3, I3⟩ := lstmBackward_idle c2.legal e3 I2
  have s2 : TSame l1 (lstmDelta l1 d) := ⟨rfl, rfl, rfl, rfl, rfl⟩
  obtain ⟨s4, I4⟩ := lstmUpdate_idle c3.legal I3
  refine ⟨_, ?_, c4.legal, ((s1.trans s2).trans s3).trans s4, I4⟩
  unfold lstmLearn
  rw [e1]
  show (lstmBackward m (lstmDelta l1 d) _ _ >>= _) = _
  rw [e3]
  rfl

theorem lstmTrain_idle {B M : Nat} {m : Libm K} : ∀ (es : List (Example K)) {l : TLay K},
    l.Legal B M → TIdle l → ∃ l', lstmTrain m es l = .ok l' ∧ TSame l l'
  | [], l, _, _ => ⟨l, rfl, rfl, rfl, rfl, rfl, rfl⟩
  | e :: es, l, L, I => by
    obtain ⟨l1, h1, L1, s1, I1⟩ := lstmLearn_idle (m := m) L I e.x e.d e.p
    obtain ⟨l2, h2, s2⟩ := lstmTrain_idle es L1 I1
    refine ⟨l2, ?_, s1.trans s2⟩
    unfold lstmTrain
    rw [h1]
    exact h2

theorem recTrain_dead {B M : Nat} {m : Libm K} : ∀ (es : List (Example K)) {l : RLay K},
    l.Legal B M → l.eta = 0 → (l.opt.sgd = false ∨ l.opt.neurons = false) →
    ∃ l', recTrain m es l = .ok l' ∧ l.SamePar l'
  | [], l, _, _, _ => ⟨l, rfl, rfl, rfl, rfl⟩
  | e :: es, l, L, he, hk => by
    obtain ⟨l1, h1, L1, he1, ho1, p1, p2, p3⟩ := recLearn_dead (m := m) L he hk e.x e.d e.p
    obtain ⟨l2, h2, q1, q2, q3⟩ := recTrain_dead es L1 he1 (by rw [ho1]; exact hk)
    refine ⟨l2, ?_, q1.trans p1, q2.trans p2, q3.trans p3⟩
    unfold recTrain
    rw [h1]
    exact h2

theorem rstep_dead {g : Rng K R} {m : Libm K} {fuel : Nat} {l : RLay K} (D : EtaDead l) (r : R)
    (o : COp K) : Post (rstep g m fuel l r o) (fun p => EtaDead p.1) AnyFault := by
  have hf : ∀ x, Post (recForward m l x) EtaDead AnyFault := by
    intro x
    unfold recForward
    split
    · trivial
    · refine post_bind (post_any _) ?_
      rintro i _
      refine post_bind (post_any _) ?_
      rintro s _
      split
      · trivial
      · refine post_bind (post_any _) ?_
        rintro o _
        exact ⟨D.opt, D.min, D.max⟩
  unfold rstep
  cases o with
  | mutate =>
    dsimp only
    refine post_bind (recMutate_dead D r) ?_
    rintro ⟨a, r1⟩ h
    exact h.1
  | resize prev =>
    dsimp only
    unfold recResize
    refine post_bind (post_any _) ?_
    rintro ⟨i, r1⟩ _
    exact ⟨D.opt, D.min, D.max⟩
  | learn x d p =>
    dsimp only
    refine post_bind (Q := EtaDead) ?_ ?_
    · unfold recLearn
      refine post_bind (hf _) ?_
      rintro l1 D1
      refine post_bind (Q := fun q => EtaDead q.1) ?_ ?_
      · unfold recBackward
        dsimp only
        split
        · trivial
        · refine post_bind (post_any _) ?_
          rintro st _
          refine post_bind (post_any _) ?_
          rintro ⟨o, e⟩ _
          dsimp only
          split
          · trivial
          · refine post_bind (post_any _) ?_
            rintro pv _
            refine post_bind (post_any _) ?_
            rintro ⟨s, e2⟩ _
            refine post_bind (post_any _) ?_
            rintro ⟨i, e3⟩ _
            exact ⟨D1.opt, D1.min, D1.max⟩
      · rintro ⟨l2, d2⟩ D2
        show EtaDead (recUpdate l2)
        unfold recUpdate
        split
        · exact ⟨D2.opt, D2.min, D2.max⟩
        · exact D2
    · rintro l1 D1
      exact D1
  | forward x =>
    dsimp only
    refine post_bind (hf _) ?_
    rintro l1 D1
    exact D1
  | rand => exact ⟨D.opt, D.min, D.max⟩
  | copy =>
    dsimp only
    refine post_bind (Q := EtaDead) ?_ ?_
    · unfold recCopy
      split
      · trivial
      · split
        · trivial
        · exact ⟨D.opt, rfl, rfl⟩
    · rintro l1 D1
      exact D1

theorem rrun_dead {g : Rng K R} {m : Libm K} {fuel : Nat} : ∀ (os : List (COp K)) {l : RLay K},
    EtaDead l → ∀ r, Post (rrun g m fuel os l r) (fun p => EtaDead p.1) AnyFault
  | [], _, D, _ => D
  | o :: os, l, D, r => by
    unfold rrun
    refine post_bind (rstep_dead D r o) ?_
    rintro ⟨l1, r1⟩ D1
    exact rrun_dead os D1 r1

theorem recInit_dead {g : Rng K R} {a : CArgs K} (h : a.opt.eta = true) (r : R) :
    Post (recInit g a r) (fun p => EtaDead p.1) AnyFault := by
  unfold recInit
  refine post_bind (post_any _) ?_
  rintro ⟨i, r1⟩ _
  refine post_bind (post_any _) ?_
  rintro ⟨s, r2⟩ _
  refine post_bind (post_any _) ?_
  rintro ⟨o, r3⟩ _
  refine post_bind (post_any _) ?_
  rintro _ _
  refine post_bind (post_any _) ?_
  rintro ⟨mu, r4⟩ _
  exact ⟨h, rfl, rfl⟩

end Xcsf
