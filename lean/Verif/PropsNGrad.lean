import Verif.NGradLemmas

/-!
# Property C52: back-propagation computes the gradient

The theorems are about networks of fully connected layers over the real numbers, with the library
functions of `math.h` taken as the real functions they approximate.
-/

set_option linter.unusedSectionVars false

namespace Xcsf
open Finset

/-- **C52.** A forward pass followed by a backward pass of any network computes the function of the
network, and adds to every weight update and to every bias update the partial derivative of the
negative half squared error with respect to that weight or bias. Partial: no state is at its limit
of ±100 (`C52_saturated_refuted` shows the statement is false there) and the activation functions
have a derivative at the states. -/
theorem C52_backprop_partial (ls : List (CLay ℝ)) (hne : ls ≠ []) (x t : List ℝ)
    (hs : NetSmooth (ls.map CLay.par) x) (hsgd : ∀ l ∈ ls, l.opt.sgd = true)
    (ht : t.length = (netFn (ls.map CLay.par) x).length) :
    ∃ ls1 ls2, netForward realLibm ls x = .ok ls1 ∧
      ls1.getLast?.map CLay.outs = some (netFn (ls.map CLay.par) x) ∧
      netBackward realLibm ls1 t x = .ok ls2 ∧ ls2.length = ls.length ∧
      ∀ (k : Nat) (a b : CLay ℝ), ls[k]? = some a → ls2[k]? = some b →
        UpdatesAre a b (fun p => negError ((ls.map CLay.par).set k p) x t) := by
  obtain ⟨ls1, e1, hp, hw, hb, hH⟩ := netForward_spec ls x hs hsgd
  have hlen1 : ls1.length = ls.length := by
    have := congrArg List.length hp
    simpa using this
  have H := hH [] x rfl trivial
  rw [List.append_nil] at H
  obtain ⟨Hz, hzp⟩ := holdsRev_zero _ _ H
  have hpr : ls1.reverse.map CLay.par = (ls.map CLay.par).reverse := by
    rw [List.map_reverse, hp]
  have hzu : ((ls1.reverse.map fun l => l.withDelta (List.replicate l.ns.length 0))).map
      (fun l => l.ns.map Neuron.bupd) = (ls.map (fun l => l.ns.map Neuron.bupd)).reverse := by
    rw [← hb, ← List.map_reverse, List.map_map]
    refine List.map_congr_left fun l _ => ?_
    exact (withDelta_facts (l := l) (d := List.replicate l.ns.length 0) (by simp)).2.2.2.1
  have hzw : ((ls1.reverse.map fun l => l.withDelta (List.replicate l.ns.length 0))).map
      CLay.ws = (ls.map CLay.ws).reverse := by
    rw [← hw, ← List.map_reverse, List.map_map]
    rfl
  have hzd : ∀ l ∈ (ls1.reverse.map fun l => l.withDelta (List.replicate l.ns.length 0)),
      l.deltas = List.replicate l.ns.length 0 := by
    intro l hl
    obtain ⟨l0, _, rfl⟩ := List.mem_map.1 hl
    obtain ⟨_, f2, _, _, _, f6⟩ := withDelta_facts
      (l := l0) (d := List.replicate l0.ns.length 0) (by simp)
    rw [f2, f6]
  have hnb := fun {h h' : CLay ℝ} {rest ls' : List (CLay ℝ)} =>
    netBackward_ok (m := realLibm) (ls := ls1) (t := t) (x := x) (h := h) (h' := h')
      (rest := rest) (ls' := ls')
  have hlast : ls1.getLast?.map CLay.outs = (ls1.reverse.map fun l =>
      l.withDelta (List.replicate l.ns.length 0)).head?.map CLay.outs := by
    rw [List.head?_map, List.head?_reverse, Option.map_map]
    congr 1
    funext l
    exact (withDelta_facts (l := l) (d := List.replicate l.ns.length 0) (by simp)).2.2.1.symm
  have hzl : (ls1.reverse.map fun l => l.withDelta (List.replicate l.ns.length 0)).length
      = ls.length := by simp [hlen1]
  rw [hpr] at hzp
  generalize (ls1.reverse.map fun l => l.withDelta (List.replicate l.ns.length 0)) = zs at *
  cases zs with
  | nil =>
    exfalso
    have : ls.length = 0 := by simpa using hzl.symm
    exact hne (List.length_eq_zero_iff.1 this)
  | cons h rest =>
    obtain ⟨S, hx, hsm, hh, hsg, Hr⟩ := Hz
    have hout : h.outs = netFn (ls.map CLay.par) x := by
      rw [netFn_rev, ← hzp, hh.out]
      rfl
    have htl : t.length = h.ns.length := by
      rw [ht, ← hout, CLay.outs, List.length_map]
    have hno : h.ns.length = h.nOutputs := by simpa [CLay.par] using S.blen
    have hdl : (List.zipWith (fun t o => t - o) t h.outs).length = h.ns.length := by
      rw [List.length_zipWith, htl, CLay.outs, List.length_map, Nat.min_self]
    obtain ⟨f1, f2, f3, f4, f5, f6⟩ := withDelta_facts hdl
    have hh2 : headDelta h t = .ok (h.withDelta (List.zipWith (fun t o => t - o) t h.outs)) := by
      unfold headDelta
      rw [if_neg (by omega)]
    have Hw : HoldsRev (h.withDelta (List.zipWith (fun t o => t - o) t h.outs) :: rest) x :=
      ⟨by rw [f1]; exact S, hx, by rw [f1]; exact hsm, holds_withDelta hdl hh, hsg, Hr⟩
    have hg : IsGrad
        (fun y => -(1 / 2) * ∑ i ∈ range t.length, (t.getD i 0 - y.getD i 0) ^ 2)
        (h.withDelta (List.zipWith (fun t o => t - o) t h.outs)).outs
        (h.withDelta (List.zipWith (fun t o => t - o) t h.outs)).deltas := by
      rw [f3, f2]
      exact isGrad_error t h.outs (by rw [hout]; exact ht)
    obtain ⟨ls', e', hl', hall⟩ := backGo_spec x rest _ _ Hw hg
      (fun p hp => hzd p (List.mem_cons_of_mem _ hp))
    refine ⟨ls1, ls'.reverse, e1, ?_, ?_, ?_, ?_⟩
    · rw [hlast, List.head?_cons, Option.map_some, hout]
    · exact hnb rfl hh2 e'
    · rw [List.length_reverse, hl']; simpa using hzl
    intro k a b ha hb2
    have hk : k < ls.length := (List.getElem?_eq_some_iff.1 ha).1
    have hrl : rest.length + 1 = ls.length := by simpa using hzl
    rw [List.getElem?_reverse (by omega), hl', hrl] at hb2
    -- the layer of the same place in the list the backward phase walks along
    obtain ⟨a', ha'⟩ : ∃ a', (h.withDelta (List.zipWith (fun t o => t - o) t h.outs) ::
        rest)[ls.length - 1 - k]? = some a' :=
      ⟨_, List.getElem?_eq_getElem (by simp only [List.length_cons]; omega)⟩
    have key := hall (ls.length - 1 - k) a' b ha' hb2
    have hwz : (h.withDelta (List.zipWith (fun t o => t - o) t h.outs) :: rest).map CLay.ws =
        (ls.map CLay.ws).reverse := hzw
    have huz : (h.withDelta (List.zipWith (fun t o => t - o) t h.outs) :: rest).map
        (fun l => l.ns.map Neuron.bupd) = (ls.map (fun l => l.ns.map Neuron.bupd)).reverse := by
      rw [← hzu, List.map_cons, List.map_cons, f4]
    have hpz : (h.withDelta (List.zipWith (fun t o => t - o) t h.outs) :: rest).map CLay.par =
        (ls.map CLay.par).reverse := by
      rw [← hzp, List.map_cons, List.map_cons, f1]
    have pick : ∀ {β : Type} (f : CLay ℝ → β),
        (h.withDelta (List.zipWith (fun t o => t - o) t h.outs) :: rest).map f =
          (ls.map f).reverse → f a' = f a := by
      intro β f hf
      have := congrArg (fun l => l[ls.length - 1 - k]?) hf
      rw [List.getElem?_map, ha', List.getElem?_reverse (by rw [List.length_map]; omega),
        List.length_map, show ls.length - 1 - (ls.length - 1 - k) = k from by omega,
        List.getElem?_map, ha] at this
      exact Option.some.inj this
    have q1 : a'.par = a.par := pick CLay.par hpz
    have q2 : a'.ws = a.ws := pick CLay.ws hwz
    have q3 : a'.ns.map Neuron.bupd = a.ns.map Neuron.bupd := pick _ huz
    have q4 : a'.nInputs = a.nInputs := congrArg Par.nIn q1
    have q5 : a'.nOutputs = a.nOutputs := congrArg Par.nOut q1
    rw [hpz] at key
    unfold UpdatesAre at key ⊢
    rw [q1, q2, q3, q4, q5] at key
    have hset : ∀ p, negError ((ls.map CLay.par).set k p) x t =
        -(1 / 2) * ∑ i ∈ range t.length, (t.getD i 0 -
          (revFn ((ls.map CLay.par).reverse.set (ls.length - 1 - k) p) x).getD i 0) ^ 2 := by
      intro p
      unfold negError
      rw [netFn_rev, set_reverse _ _ _ (by simpa using hk), List.length_map]
    simp only [hset]
    exact key

/-- **C52**, one layer: the error passed back to the layer before is the gradient with respect to
this layer's inputs: if `delta` is the gradient of any cost with respect to the outputs, what is
added to the delta of the layer before is the gradient of that cost with respect to the inputs. -/
theorem C52_delta {l : CLay ℝ} (S : l.par.Shaped) {x : List ℝ} (hx : l.nInputs = x.length)
    (hs : l.par.Smooth x) (hsgd : l.opt.sgd = true) (C : List ℝ → ℝ) (d : List ℝ)
    (hd : d.length = l.nOutputs) (hg : IsGrad C (l.par.out x) d) :
    ∃ l1, connForward realLibm l x = .ok l1 ∧ l1.outs = l.par.out x ∧
      ∃ l2 d', connBackward realLibm (l1.withDelta d) x (some (List.replicate l.nInputs 0))
          = .ok (l2, some d') ∧ d'.length = l.nInputs ∧
        IsGrad (fun y => C (l.par.out y)) x d' := by
  obtain ⟨l1, e, hp, hw, ho, hb, H⟩ := connForward_holds S hx.le
  have hq1 : l1.nInputs = l.nInputs := congrArg Par.nIn hp
  have hq2 : l1.nOutputs = l.nOutputs := congrArg Par.nOut hp
  have hq3 : l1.fn = l.fn := congrArg Par.fn hp
  have hn1 : l1.ns.length = l1.nOutputs := by
    have := hp ▸ S
    simpa [CLay.par] using this.blen
  have hdl : d.length = l1.ns.length := by omega
  obtain ⟨f1, f2, f3, f4, f5, f6⟩ := withDelta_facts hdl
  refine ⟨l1, e, by rw [H.out, hp], ?_⟩
  obtain ⟨l2, d', e2, _, _, _, h4⟩ := connBackward_spec (l := l1.withDelta d) (x := x)
    (by rw [f1, hp]; exact S) (by rw [← hx]; exact hq1) (by
      have := smooth_clip hs
      rw [f1, hp]; intro i hi
      have hi' : i < l.nOutputs := by rw [← hq2]; exact hi
      show DifferentiableAt ℝ (actSpec l1.fn) _
      rw [hq3]
      exact this i hi')
    (holds_withDelta hdl H) (by show l1.opt.sgd = true; rw [ho]; exact hsgd)
    (some (List.replicate l.nInputs 0))
    (fun v hv => by cases hv; rw [List.length_replicate]; exact hq1.symm)
  obtain ⟨v', rfl, hv1, hv2⟩ := h4 _ rfl
  refine ⟨l2, v', e2, by simpa using hv1, ?_⟩
  refine isGrad_layer hx hs hg fun j hj => ?_
  have hj' : j < (l1.withDelta d).nInputs := by show j < l1.nInputs; rw [hq1]; exact hj
  rw [hv2 j hj']
  have hz : (List.replicate l.nInputs (0 : ℝ)).getD j 0 = 0 := by
    rw [List.getD, List.getElem?_replicate]; split <;> rfl
  rw [hz, zero_add]
  have g1 : (l1.withDelta d).nOutputs = l.nOutputs := hq2
  have g2 : (l1.withDelta d).nInputs = l.nInputs := hq1
  have g3 : (l1.withDelta d).fn = l.fn := hq3
  rw [g1, g2, f1, hp]
  refine sum_congr rfl fun i hi => ?_
  have hi' : i < (l1.withDelta d).nOutputs := by rw [g1]; exact mem_range.1 hi
  rw [locGrad_smooth (by rw [f1, hp]; exact hs) hi', f1, f2, hp, g3]
  rfl


section
variable {K : Type} [Field K] [LinearOrder K] [IsStrictOrderedRing K] [FloorRing K]

/-- **C52**, the update: a layer that learns moves every weight and bias along its accumulated
update (reduced by the decay) times the learning rate, within ±10; connections switched off stay at
zero; what remains of the updates is their share given by the momentum. -/
theorem C52_update (l : CLay K) (hs : l.opt.sgd = true) (he : 0 < l.eta) :
    (connUpdate l).ws = l.ws.map (fun x => ⟨if x.on then
          clampK (x.w + l.eta * (x.upd - max 0 l.decay * x.w)) (-10) 10 else 0,
        l.momentum * (x.upd - max 0 l.decay * x.w), x.on⟩) ∧
    (connUpdate l).ns = l.ns.map (fun n => { n with
      bias := clampK (n.bias + l.eta * n.bupd) (-10) 10
      bupd := l.momentum * n.bupd }) := by
  have hz : ∀ {α : Type} (xs : List α) (f : α → (K × K) → α) (F G : Nat → K) (h : α → α),
      (∀ (i : Nat) (x : α), xs[i]? = some x → f x (F i, G i) = h x) →
      List.zipWith f xs (List.zip (ofArr xs.length F) (ofArr xs.length G)) = xs.map h := by
    intro α xs f F G h hf
    refine List.ext_getElem? fun i => ?_
    rw [List.getElem?_zipWith, List.getElem?_map]
    cases e : xs[i]? with
    | none => rfl
    | some x =>
      have hi : i < xs.length := (List.getElem?_eq_some_iff.1 e).1
      have : (List.zip (ofArr xs.length F) (ofArr xs.length G))[i]? = some (F i, G i) := by
        simp [ofArr, hi]
      rw [this]
      simp [hf i x e]
  have hax : ∀ (n : Nat) (a : K) (X Y : Nat → K) (i : Nat), i < n →
      axpy n a X 1 Y 0 1 i = Y i + a * X i := by
    intro n a X Y i hi
    have := (C43_axpy n a X 1 Y 0 1 (by omega)).1 i hi
    simpa using this
  have hsc : ∀ (n : Nat) (a : K) (X : Nat → K) (i : Nat), i < n →
      scal n a X 1 i = a * X i := by
    intro n a X i hi
    have := (C43_scal n a X 1 (by omega)).1 i hi
    simpa using this
  have hg : ∀ {α : Type} (xs : List α) (p : α → K) (i : Nat) (x : α), xs[i]? = some x →
      arrOf (xs.map p) i = p x := by
    intro α xs p i x h
    simp [arrOf, List.getD, h]
  unfold connUpdate
  rw [if_pos ⟨hs, he⟩]
  dsimp only [weightClamp]
  constructor
  · rw [hz l.ws _ _ _ (fun x => ⟨x.w + l.eta * (x.upd - max 0 l.decay * x.w),
      l.momentum * (x.upd - max 0 l.decay * x.w), x.on⟩), List.map_map]
    · rfl
    · intro i x hx
      have hi : i < l.ws.length := (List.getElem?_eq_some_iff.1 hx).1
      have hu : (if 0 < l.decay then axpy l.ws.length (-l.decay) (arrOf (l.ws.map Wt.w)) 1
          (arrOf (l.ws.map Wt.upd)) 0 1 else arrOf (l.ws.map Wt.upd)) i =
          x.upd - max 0 l.decay * x.w := by
        split
        · next h =>
          rw [hax _ _ _ _ _ hi, hg _ _ _ _ hx, hg _ _ _ _ hx, max_eq_right h.le]
          ring
        · next h =>
          rw [hg _ _ _ _ hx, max_eq_left (not_lt.1 h)]
          ring
      rw [hax _ _ _ _ _ hi, hsc _ _ _ _ hi, hg _ _ _ _ hx, hu]
  · rw [hz l.ns _ _ _ (fun n => { n with
      bias := n.bias + l.eta * n.bupd
      bupd := l.momentum * n.bupd }), List.map_map]
    · rfl
    · intro i x hx
      have hi : i < l.ns.length := (List.getElem?_eq_some_iff.1 hx).1
      rw [hax _ _ _ _ _ hi, hsc _ _ _ _ hi, hg _ _ _ _ hx, hg _ _ _ _ hx]

/-- **C52**, no learning: without the option, or with a learning rate that is not positive, the
update changes nothing. -/
theorem C52_update_off (l : CLay K) (h : l.opt.sgd = false ∨ l.eta ≤ 0) : connUpdate l = l := by
  unfold connUpdate
  rw [if_neg]
  rintro ⟨h1, h2⟩
  rcases h with h | h
  · rw [h] at h1; cases h1
  · exact absurd h2 (not_lt.2 h)

end

/-! ## Where the property fails -/

/-- One linear neuron with one input and weight 10. -/
noncomputable def satLay : CLay ℝ :=
  { nInputs := 1, nOutputs := 1, maxOutputs := 1, maxGrow := 1, nActive := 1,
    outW := 1, outH := 1, outC := 1, fn := 3, opt := ⟨true, false, false, true, false, false⟩,
    eta := 1 / 10, etaMax := 1 / 10, etaMin := 0, momentum := 0, decay := 0,
    ws := [⟨10, 0, true⟩], ns := [⟨0, 0, 0, 0, 0⟩], mu := [] }

/-- A state at its limit of 100 is cut off in the forward pass, but the backward pass takes the
derivative as if it were not: with weight 10 and input 11 the output is 100 whatever small change
the weight undergoes, yet the update of the weight is 11 times the error. -/
theorem C52_saturated_refuted :
    satLay.par.Shaped ∧
    ∃ ls1 ls2 b, netForward realLibm [satLay] [11] = .ok ls1 ∧
      netBackward realLibm ls1 [0] [11] = .ok ls2 ∧ ls2[0]? = some b ∧
      HasDerivAt (fun v => negError [{ satLay.par with w := [v] }] [11] [0]) 0 10 ∧
      b.ws.map Wt.upd = ([-1100] : List ℝ) := by
  have S : satLay.par.Shaped := ⟨rfl, rfl, by decide⟩
  have hpre : satLay.par.pre [11] 0 = 110 := by
    simp [Par.pre, CLay.par, satLay]; norm_num
  have hclip : clip (satLay.par.pre [11] 0) = 100 := by
    rw [hpre]; unfold clip; norm_num
  have hact : actSpec 3 = id := by funext x; simp [actSpec]
  have hout : satLay.par.out [11] = [100] := by
    have : satLay.par.out [11] = [actSpec 3 (clip (satLay.par.pre [11] 0))] := rfl
    rw [this, hclip, hact]; rfl
  refine ⟨S, ?_⟩
  obtain ⟨l1, e, hp, hw, ho, hb, H⟩ := connForward_holds (l := satLay) S (x := [11]) (by decide)
  have hn1 : l1.ns.length = 1 := by
    have := congrArg List.length hb
    simpa [satLay] using this
  have hi1 : l1.nInputs = 1 := congrArg Par.nIn hp
  have ho1 : l1.nOutputs = 1 := congrArg Par.nOut hp
  have hf1 : l1.fn = 3 := congrArg Par.fn hp
  obtain ⟨z1, z2, z3, z4, z5, z6⟩ := withDelta_facts (l := l1)
    (d := List.replicate l1.ns.length 0) (by simp)
  have hzo : (l1.withDelta (List.replicate l1.ns.length 0)).outs = [100] := by
    rw [z3, H.out, hp, hout]
  have hd0 : headDelta (l1.withDelta (List.replicate l1.ns.length 0)) [0] =
      .ok ((l1.withDelta (List.replicate l1.ns.length 0)).withDelta [-100]) := by
    unfold headDelta
    rw [if_neg, hzo]
    · simp
    · rw [z6, hn1]
      show ¬ (([0] : List ℝ).length < l1.nOutputs ∨ 1 ≠ l1.nOutputs)
      rw [ho1]; decide
  obtain ⟨y1, y2, y3, y4, y5, y6⟩ := withDelta_facts
    (l := l1.withDelta (List.replicate l1.ns.length 0)) (d := [-100]) (by rw [z6, hn1]; rfl)
  have Hy : HoldsSt ((l1.withDelta (List.replicate l1.ns.length 0)).withDelta [-100]) [11] :=
    holds_withDelta (by rw [z6, hn1]; rfl) (holds_withDelta (by simp) H)
  generalize hL : (l1.withDelta (List.replicate l1.ns.length 0)).withDelta [-100] = L at *
  have hLws : L.ws = satLay.ws := by rw [← hL]; exact hw
  have hLi : L.nInputs = 1 := by rw [← hL]; exact hi1
  have hLo : L.nOutputs = 1 := by rw [← hL]; exact ho1
  have hLf : L.fn = 3 := by rw [← hL]; exact hf1
  have hLs : L.opt.sgd = true := by
    rw [← hL]; show l1.opt.sgd = true; rw [ho]; rfl
  have hLp : L.par = satLay.par := by rw [y1, z1, hp]
  obtain ⟨l', d', e2, h1, _, h3, _⟩ := connBackward_spec (l := L) (x := [11])
    (by rw [hLp]; exact S) (by rw [hLi]; rfl)
    (by intro i _; rw [hLf, hact]; exact differentiableAt_id) Hy hLs none
    (fun v h => by cases h)
  have e3 := h3 rfl
  subst e3
  have hbg : backGo realLibm [11] L [] = .ok [l'] := by simp only [backGo, e2]
  have hwl : l'.ws.length = 1 := by
    have hu : L.ws.length = 1 := by rw [hLws]; rfl
    have := e2
    unfold connBackward at this
    split at this
    · cases this
    · split at this
      · cases this
      · dsimp only at this
        cases this
        simp [length_ofArr, hu]
  refine ⟨[l1], [l'].reverse, l', ?_, netBackward_ok (h := _) (rest := []) rfl hd0 hbg, rfl, ?_, ?_⟩
  · simp only [netForward, e]
  · have hev : (fun v => negError [{ satLay.par with w := [v] }] [11] [0]) =ᶠ[nhds 10]
        fun _ => -5000 := by
      have : ∀ᶠ v : ℝ in nhds 10, v ∈ Set.Ioi (100 / 11 : ℝ) :=
        Ioi_mem_nhds (by norm_num)
      filter_upwards [this] with v hv
      have hv' : 100 / 11 < v := hv
      have hp1 : Par.pre { satLay.par with w := [v] } [11] 0 = v * 11 := by
        simp [Par.pre, CLay.par, satLay]
      have hc1 : clip (Par.pre { satLay.par with w := [v] } [11] 0) = 100 := by
        rw [hp1]; unfold clip
        rw [min_eq_left (by linarith), max_eq_right (by norm_num)]
      have ho1 : Par.out { satLay.par with w := [v] } [11] = [100] := by
        have : Par.out { satLay.par with w := [v] } [11] =
            [actSpec 3 (clip (Par.pre { satLay.par with w := [v] } [11] 0))] := rfl
        rw [this, hc1, hact]; rfl
      unfold negError netFn
      simp only [List.foldl, ho1]
      norm_num
    exact (hasDerivAt_const (10 : ℝ) (-5000 : ℝ)).congr_of_eventuallyEq hev
  · have hv := h1 0 (by omega) 0 (by omega)
    have hg : locGrad L [11] 0 = -100 := by
      unfold locGrad
      rw [hLf, hact, y2, deriv_id]
      simp
    rw [hg, hLws, hLi] at hv
    match hq : l'.ws, hwl with
    | [q], _ =>
      rw [hq] at hv
      simp [satLay] at hv
      rw [List.map_cons, List.map_nil, hv]
      norm_num

/-! ## The hypotheses are met by concrete cases -/

/-- Two layers, the first one with two sine neurons, the second one linear. -/
noncomputable def demoLayers : List (CLay ℝ) :=
  [{ nInputs := 1, nOutputs := 2, maxOutputs := 2, maxGrow := 1, nActive := 2,
     outW := 2, outH := 1, outC := 1, fn := 5, opt := ⟨true, false, false, true, false, false⟩,
     eta := 1 / 10, etaMax := 1 / 10, etaMin := 0, momentum := 1 / 2, decay := 0,
     ws := [⟨1, 0, true⟩, ⟨2, 0, true⟩], ns := [⟨0, 0, 0, 0, 0⟩, ⟨1, 0, 0, 0, 0⟩], mu := [] },
   { nInputs := 2, nOutputs := 1, maxOutputs := 1, maxGrow := 1, nActive := 2,
     outW := 1, outH := 1, outC := 1, fn := 3, opt := ⟨true, false, false, true, false, false⟩,
     eta := 1 / 10, etaMax := 1 / 10, etaMin := 0, momentum := 1 / 2, decay := 0,
     ws := [⟨3, 0, true⟩, ⟨1, 0, true⟩], ns := [⟨0, 0, 0, 0, 0⟩], mu := [] }]

example : NetSmooth (demoLayers.map CLay.par) [1] ∧ (∀ l ∈ demoLayers, l.opt.sgd = true) ∧
    ([2] : List ℝ).length = (netFn (demoLayers.map CLay.par) [1]).length := by
  have h5 : actSpec 5 = Real.sin := by funext x; simp [actSpec]
  have h3 : actSpec 3 = id := by funext x; simp [actSpec]
  refine ⟨⟨⟨rfl, rfl, by decide⟩, rfl, ?_, ⟨⟨rfl, rfl, by decide⟩, rfl, ?_, trivial⟩⟩, ?_, rfl⟩
  · intro i hi
    have hf : actSpec ((demoLayers.map CLay.par).head (by simp [demoLayers])).fn = Real.sin := by
      show actSpec 5 = _; exact h5
    have hi' : i < 2 := hi
    refine ⟨?_, ?_, ?_⟩
    · interval_cases i <;> simp [Par.pre, CLay.par] <;> norm_num
    · interval_cases i <;> simp [Par.pre, CLay.par] <;> norm_num
    · show DifferentiableAt ℝ (actSpec 5) _
      rw [h5]; exact Real.differentiable_sin _
  · intro i hi
    have hi' : i < 1 := hi
    have hi0 : i = 0 := by omega
    subst hi0
    have hb : ∀ y : ℝ, -1 ≤ actSpec 5 y ∧ actSpec 5 y ≤ 1 := by
      intro y; rw [h5]; exact ⟨Real.neg_one_le_sin _, Real.sin_le_one _⟩
    refine ⟨?_, ?_, ?_⟩
    · simp [Par.pre, Par.out, CLay.par, sum_range_succ]
      have a := hb (clip 1)
      have b := hb (clip (1 + 2))
      linarith [a.1, b.1]
    · simp [Par.pre, Par.out, CLay.par, sum_range_succ]
      have a := hb (clip 1)
      have b := hb (clip (1 + 2))
      linarith [a.2, b.2]
    · show DifferentiableAt ℝ (actSpec 3) _
      rw [h3]; exact differentiableAt_id
  · intro l hl
    simp [demoLayers] at hl
    rcases hl with rfl | rfl <;> rfl

example : satLay.opt.sgd = true ∧ 0 < satLay.eta := ⟨rfl, by simp [satLay]⟩

end Xcsf
