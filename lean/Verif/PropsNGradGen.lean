import Verif.NGradGenRec
import Verif.NGenSpec
import Mathlib.Analysis.SpecialFunctions.Log.Deriv
import Mathlib.Algebra.BigOperators.Field

/-!
# C92: gradients in networks of several kinds of layers

Learning in networks of connected, convolutional, recurrent, pooling, upsampling, dropout and noise
layers accumulates the gradient of the error; with a softmax output layer it is the gradient of the
logarithmic likelihood, not that of the squared error.
-/

set_option linter.unusedSectionVars false

namespace Xcsf
open Finset Filter
variable {R : Type}

/-! ## Lemmas -/

theorem set_parts {α : Type} (L : List α) (q : α) {j : Nat} (hj : j < L.length) :
    (L.drop (j + 1)).reverse ++ q :: (L.take j).reverse = L.reverse.set (L.length - 1 - j) q := by
  rw [← set_reverse L j q hj, List.set_eq_take_append_cons_drop, if_pos hj]
  simp

/-- The backward phase in terms of the layers from the first one. -/
theorem back_tail {g : Rng ℝ R} {lo : ℝ} {x : List ℝ} {r0 : R} (E : List ℝ → ℝ)
    {st : List (GLay ℝ × GLay ℝ)} {a l : GLay ℝ} {o : List ℝ} {r1 : R} (suf : List (GLay ℝ))
    {d : List ℝ} {ls : List (GLay ℝ)} (H : Stack g lo x r0 ((a, l) :: st) o r1)
    (hls : (((a, l) :: st).map Prod.fst).reverse = ls) (hd : d.length = o.length)
    (hg : IsGradL (fun z => E (netOut g lo suf z r1)) o d) :
    ∃ ls', genBackGo realLibm x (l.withDelta d)
        (st.map fun q => q.2.withDelta (List.replicate q.2.deltas.length 0)) = .ok ls' ∧
      ls'.length = ls.length ∧
      ∀ (k : Nat) (a b : GLay ℝ), ls[k]? = some a → ls'.reverse[k]? = some b →
        Climbs a b (fun q => E (netOut g lo (ls.set k q ++ suf) x r0)) := by
  obtain ⟨ls', e, hlen, hall⟩ := genBackGo_spec E st a l o r1 suf d H hd hg
  have hl : ls.length = st.length + 1 := by rw [← hls]; simp
  refine ⟨ls', e, by rw [hlen, hl], ?_⟩
  intro k a1 b ha hb
  have hk : k < ls.length := by
    by_contra h
    rw [List.getElem?_eq_none (by omega)] at ha
    cases ha
  set L := ((a, l) :: st).map Prod.fst with hL
  have hLl : L.length = st.length + 1 := by rw [hL]; simp
  have hj : ls'.length - 1 - k < L.length := by omega
  rw [List.getElem?_reverse (by omega)] at hb
  rw [← hls, List.getElem?_reverse (by omega)] at ha
  have hjl : L.length - 1 - k = ls'.length - 1 - k := by omega
  rw [hjl, hL, List.getElem?_map] at ha
  obtain ⟨p, hp, rfl⟩ := Option.map_eq_some_iff.1 ha
  have := hall _ p b hp hb
  refine climbs_congr this fun m c hc q hq v => ?_
  congr 2
  have e1 := set_parts L (p.1.onPart (q.put v c) m) hj
  rw [show L.length - 1 - (ls'.length - 1 - k) = k by omega, hls] at e1
  rw [← e1]
  congr 1
  rw [hL, ← List.map_take, List.map_cons, List.drop_succ_cons, ← List.map_drop]

theorem forward_stack {g : Rng ℝ R} {lo : ℝ} {x : List ℝ} {r0 : R} :
    ∀ {st : List (GLay ℝ × GLay ℝ)} {y : List ℝ} {r : R}, Stack g lo x r0 st y r →
    ∀ (ms ms' : List (GLay ℝ)) (r2 : R), genForward g realLibm lo true ms y r = .ok (ms', r2) →
      genForward g realLibm lo true ((st.map Prod.fst).reverse ++ ms) x r0 =
        .ok ((st.map Prod.snd).reverse ++ ms', r2)
  | [], _, _, h, ms, ms', r2, e => by cases h; exact e
  | (a, l) :: st, _, _, h, ms, ms', r2, e => by
    cases h with
    | cons h G =>
      rw [List.map_cons, List.map_cons, List.reverse_cons, List.reverse_cons, List.append_assoc,
        List.append_assoc]
      refine forward_stack h _ _ _ ?_
      show genForward g realLibm lo true (a :: ms) _ _ = _
      rw [genForward, G.fwd]
      dsimp only
      rw [G.outs]
      dsimp only
      rw [e]
      rfl

/-- The output layer receives the difference of desired and actual outputs. -/
theorem headDelta_zero {l : GLay ℝ} {o t : List ℝ} (h1 : l.outs = .ok o) (h2 : l.dim.n = o.length)
    (h3 : l.deltas.length = o.length) (ht : t.length = o.length) :
    l.headDelta t = .ok (l.withDelta (List.zipWith (fun t o => t - o) t o)) := by
  unfold GLay.headDelta
  rw [h1]
  dsimp only
  rw [h2, Int.toNat_natCast, if_neg (by omega), List.take_of_length_le (by omega),
    List.take_of_length_le (by omega), List.drop_of_length_le (by omega), List.append_nil]

/-! ## Theorems -/

/-- C92, for networks of connected, convolutional, recurrent, maxpool, average pool, upsampling,
dropout and noise layers in training, whose weights are trained, at inputs where all layers are differentiable:
a learning step succeeds and adds to the accumulated update of every weight and every bias of every
layer the derivative of the negative half squared error of the network's outputs with respect to it.
The outputs are those the program computes from the same state of the random numbers, so with the
same neurons dropped and the same noise, and with the same memory of recurrent layers.  For the
weights with which a recurrent layer reads its last outputs the property is false
(`C71_recurrent_self_gradient_refuted`); LSTM layers are not covered; for softmax layers see
below. -/
theorem C92_backprop_partial (g : Rng ℝ R) (lo : ℝ) (ls : List (GLay ℝ)) (hne : ls ≠ [])
    (x t : List ℝ) (r : R) (hs : NetDiff g lo ls x r)
    (ht : t.length = (netOut g lo ls x r).length) :
    ∃ ls1 r1 ls2, genForward g realLibm lo true ls x r = .ok (ls1, r1) ∧
      genBackward realLibm ls1 t x = .ok ls2 ∧ ls2.length = ls.length ∧
      ∀ (k : Nat) (a b : GLay ℝ), ls[k]? = some a → ls2[k]? = some b →
        Climbs a b (fun q => halfError t (netOut g lo (ls.set k q) x r)) := by
  obtain ⟨st', o, r1, ls', e, S, h1, h2⟩ := genForward_stack ls [] x r .nil good_layer hs
  rw [List.append_nil] at S
  have hout : netOut g lo ls x r = o := by
    have := netOut_stack S []
    rw [h1, List.append_nil] at this
    exact this
  rw [hout] at ht
  cases st' with
  | nil => simp at h1; exact absurd h1 (fun h => hne h)
  | cons p st =>
    obtain ⟨a, l⟩ := p
    obtain ⟨y, r', S0, G⟩ : ∃ y r', Stack g lo x r st y r' ∧ GoodLay g lo a y r' l o r1 := by
      cases S with
      | cons h G => exact ⟨_, _, h, G⟩
    have hd : (List.zipWith (fun t o => t - o) t o).length = o.length := by simp [ht]
    obtain ⟨ls2, e2, l2, hall⟩ := back_tail (halfError t) [] S h1 hd (isGradL_error t o ht)
    have hz : (List.replicate l.deltas.length (0 : ℝ)).length = o.length := by
      rw [List.length_replicate, G.dl]
    obtain ⟨w1, w2, w3, w4⟩ := G.wd _ hz
    refine ⟨ls', r1, ls2.reverse, e, ?_, by rw [List.length_reverse, l2], fun k a b ha hb => ?_⟩
    · unfold genBackward
      rw [resetAll_map ls' (fun q hq => by
        rw [← h2] at hq
        obtain ⟨p, hp, rfl⟩ := List.mem_map.1 (List.mem_reverse.1 hq)
        exact stack_mem S p hp)]
      dsimp only
      rw [← h2, ← List.map_reverse, List.reverse_reverse, List.map_cons, List.map_cons, List.map_map]
      dsimp only
      rw [headDelta_zero w1 (by rw [w3, G.n]) (by rw [w2, hz]) ht]
      dsimp only
      rw [w4 _ hd]
      rw [show ((fun l : GLay ℝ => l.withDelta (List.replicate l.deltas.length 0)) ∘ Prod.snd) =
        fun q : GLay ℝ × GLay ℝ => q.2.withDelta (List.replicate q.2.deltas.length 0) from rfl, e2]
    · have := hall k a b ha hb
      simpa only [List.append_nil] using this

/-! ## Softmax outputs -/

theorem expSum_eq (T : ℝ) : ∀ z : List ℝ, (z.map fun y => Real.exp (y / T)).sum =
    ∑ i ∈ range z.length, Real.exp (z.getD i 0 / T)
  | [] => by simp
  | a :: z => by
    rw [List.map_cons, List.sum_cons, expSum_eq T z, List.length_cons, sum_range_succ']
    simp [add_comm]

theorem softmaxSpec_getD (T : ℝ) (z : List ℝ) {i : Nat} (h : i < z.length) :
    (softmaxSpec T z).getD i 0 = Real.exp (z.getD i 0 / T) /
      ∑ j ∈ range z.length, Real.exp (z.getD j 0 / T) := by
  rw [← expSum_eq]
  simp [softmaxSpec, List.getD, h]

theorem softmaxSpec_length (T : ℝ) (z : List ℝ) : (softmaxSpec T z).length = z.length := by
  simp [softmaxSpec]

theorem isGradL_softmax {T : ℝ} (hT : T ≠ 0) {t o : List ℝ} (h : t.length = o.length) (ho : o ≠ [])
    (ht : t.sum = 1) : IsGradL (fun z => T * likelihood t (softmaxSpec T z)) o
      (List.zipWith (fun t o => t - o) t (softmaxSpec T o)) := by
  have hpos : 0 < o.length := List.length_pos_iff.2 ho
  have hsum : ∑ i ∈ range t.length, t.getD i 0 = 1 := by
    rw [← ht]
    clear ht h
    induction t with
    | nil => simp
    | cons a t ih =>
      rw [List.length_cons, sum_range_succ', List.sum_cons]
      simp only [List.getD_cons_succ, List.getD_cons_zero]
      rw [ih, add_comm]
  intro c v c' hc hl hd
  have SP : ∀ u, 0 < ∑ j ∈ range o.length, Real.exp ((c u).getD j 0 / T) := fun u =>
    sum_pos (fun j _ => Real.exp_pos _) ⟨0, mem_range.2 hpos⟩
  have hS : HasDerivAt (fun u => ∑ j ∈ range o.length, Real.exp ((c u).getD j 0 / T))
      (∑ j ∈ range o.length, Real.exp ((c v).getD j 0 / T) * (c' j / T)) v :=
    HasDerivAt.fun_sum fun j hj => ((hd j (mem_range.1 hj)).div_const T).exp
  have hlog := hS.log (SP v).ne'
  have hmain : HasDerivAt (fun u => T * ∑ i ∈ range o.length, t.getD i 0 * ((c u).getD i 0 / T -
      Real.log (∑ j ∈ range o.length, Real.exp ((c u).getD j 0 / T))))
      (T * ∑ i ∈ range o.length, t.getD i 0 * (c' i / T -
        (∑ j ∈ range o.length, Real.exp ((c v).getD j 0 / T) * (c' j / T)) /
          ∑ j ∈ range o.length, Real.exp ((c v).getD j 0 / T))) v :=
    (HasDerivAt.fun_sum fun i hi =>
      (((hd i (mem_range.1 hi)).div_const T).sub hlog).const_mul _).const_mul T
  refine (hmain.congr_deriv ?_).congr_of_eventuallyEq ?_
  · rw [hc]
    rw [h] at hsum
    set S := ∑ j ∈ range o.length, Real.exp (o.getD j 0 / T) with hSd
    have hS0 : S ≠ 0 := by
      have := (SP v).ne'
      rw [hc] at this
      exact this
    have e1 : ∀ i ∈ range o.length,
        (List.zipWith (fun t o => t - o) t (softmaxSpec T o)).getD i 0 * c' i =
        t.getD i 0 * c' i - Real.exp (o.getD i 0 / T) / S * c' i := by
      intro i hi
      have hi := mem_range.1 hi
      have hi' : i < t.length := by omega
      have hi2 : i < (softmaxSpec T o).length := by rw [softmaxSpec_length]; exact hi
      have : (List.zipWith (fun t o => t - o) t (softmaxSpec T o)).getD i 0 =
          t.getD i 0 - (softmaxSpec T o).getD i 0 := by
        simp [List.getD, hi', hi2]
      rw [this, softmaxSpec_getD T o hi]
      ring
    rw [sum_congr rfl e1, sum_sub_distrib]
    have e2 : ∑ i ∈ range o.length, t.getD i 0 * (c' i / T -
        (∑ j ∈ range o.length, Real.exp (o.getD j 0 / T) * (c' j / T)) / S) =
        ∑ i ∈ range o.length, t.getD i 0 * (c' i / T) -
        (∑ j ∈ range o.length, Real.exp (o.getD j 0 / T) * (c' j / T)) / S := by
      simp only [mul_sub]
      rw [sum_sub_distrib, ← sum_mul, hsum, one_mul]
    rw [e2, mul_sub, mul_sum, sum_div, mul_sum]
    congr 1
    · refine sum_congr rfl fun i _ => ?_
      field_simp
    · refine sum_congr rfl fun i _ => ?_
      field_simp
  · filter_upwards [hl] with u hu
    show T * likelihood t _ = _
    unfold likelihood
    rw [h]
    congr 1
    refine sum_congr rfl fun i hi => ?_
    rw [softmaxSpec_getD T _ (by rw [hu]; exact mem_range.1 hi), hu,
      Real.log_div (Real.exp_pos _).ne' (SP u).ne', Real.log_exp]

theorem soft_run {g : Rng ℝ R} {lo : ℝ} {s : SLay ℝ} (O : s.Ok) {z : List ℝ}
    (hz : z.length = s.nIn.toNat) (r : R) :
    layerForward g realLibm lo true (.soft s) z r =
      .ok (.soft { s with output := softmaxSpec s.scale z }, r) := by
  have hn := O.n
  have ho := O.ol
  rw [O.nOut] at ho
  show keepR GLay.soft (softForward realLibm s z) r = _
  unfold softForward
  rw [if_neg (by omega), List.take_of_length_le (by omega), C51_softmax_function O.sc (by
    intro h
    rw [h] at hz
    simp at hz
    omega)]
  dsimp only
  rw [written_all]
  dsimp only
  rw [List.drop_of_length_le (by rw [softmaxSpec_length]; omega), List.append_nil]
  rfl

/-- C92, for networks as above with a softmax output layer: if the desired outputs sum to one, the
updates of all layers below are the scale parameter of the softmax layer times the derivatives of the
logarithmic likelihood of the desired outputs. -/
theorem C92_softmax_likelihood_partial (g : Rng ℝ R) (lo : ℝ) (ls : List (GLay ℝ)) (hne : ls ≠ [])
    (s : SLay ℝ) (x t : List ℝ) (r : R) (hs : NetDiff g lo ls x r) (O : s.Ok)
    (hi : (netOut g lo ls x r).length = s.nIn.toNat) (ht : t.length = s.nIn.toNat)
    (hone : t.sum = 1) :
    ∃ ls1 r1 ls2, genForward g realLibm lo true (ls ++ [.soft s]) x r = .ok (ls1, r1) ∧
      genBackward realLibm ls1 t x = .ok ls2 ∧ ls2.length = ls.length + 1 ∧
      ∀ (k : Nat) (a b : GLay ℝ), ls[k]? = some a → ls2[k]? = some b →
        Climbs a b (fun q => s.scale * likelihood t (netOut g lo (ls.set k q ++ [.soft s]) x r)) := by
  obtain ⟨st', o, r1, ls', e, S, h1, h2⟩ := genForward_stack ls [] x r .nil good_layer hs
  rw [List.append_nil] at S
  have hout : netOut g lo ls x r = o := by
    have := netOut_stack S []
    rw [h1, List.append_nil] at this
    exact this
  rw [hout] at hi
  have hn := O.n
  have hsd := O.dl
  rw [O.nOut] at hsd
  have hno := O.nOut
  have run := fun (z : List ℝ) (hz : z.length = s.nIn.toNat) =>
    soft_run (g := g) (lo := lo) O hz r1
  cases st' with
  | nil => simp at h1; exact absurd h1 (fun h => hne h)
  | cons p st =>
    obtain ⟨a, l⟩ := p
    obtain ⟨y, r', S0, G⟩ : ∃ y r', Stack g lo x r st y r' ∧ GoodLay g lo a y r' l o r1 := by
      cases S with
      | cons h G => exact ⟨_, _, h, G⟩
    set d := List.zipWith (fun t o => t - o) t (softmaxSpec s.scale o) with hdd
    have sl : (softmaxSpec s.scale o).length = s.nIn.toNat := by rw [softmaxSpec_length, hi]
    have hd : d.length = o.length := by rw [hdd]; simp [ht, hi, sl]
    have hno' : ∀ z : List ℝ, z.length = s.nIn.toNat →
        netOut g lo [.soft s] z r1 = softmaxSpec s.scale z := fun z hz =>
      netOut_cons (run z hz) (o := softmaxSpec s.scale z) rfl []
    have hgr : IsGradL (fun z => (fun w => s.scale * likelihood t w) (netOut g lo [.soft s] z r1)) o d := by
      intro c v c' hcv hl hc'
      refine (isGradL_softmax O.sc (by rw [ht, hi]) (by
        intro h
        rw [h] at hi
        simp at hi
        omega) hone c v c' hcv hl hc').congr_of_eventuallyEq ?_
      filter_upwards [hl] with u hu
      show s.scale * likelihood t (netOut g lo [.soft s] (c u) r1) = _
      rw [hno' (c u) (by rw [hu, hi])]
    obtain ⟨ls2, e2, l2, hall⟩ := back_tail (fun w => s.scale * likelihood t w) [.soft s] S h1 hd hgr
    have hz : (List.replicate l.deltas.length (0 : ℝ)).length = o.length := by
      rw [List.length_replicate, G.dl]
    obtain ⟨w1, w2, w3, w4⟩ := G.wd _ hz
    set s1 : SLay ℝ := { s with output := softmaxSpec s.scale o } with hs1
    set s2 : SLay ℝ := { s1 with delta := d } with hs2
    refine ⟨ls' ++ [.soft s1], r1, ls2.reverse ++ [.soft s2], ?_, ?_, by simp [l2],
      fun k a b ha hb => ?_⟩
    · rw [← h1, ← h2]
      refine forward_stack S _ _ _ ?_
      rw [genForward, run o hi]
      dsimp only
      rfl
    · unfold genBackward
      rw [resetAll_map (ls' ++ [GLay.soft s1]) (fun q hq => by
        rcases List.mem_append.1 hq with hq | hq
        · rw [← h2] at hq
          obtain ⟨p, hp, rfl⟩ := List.mem_map.1 (List.mem_reverse.1 hq)
          exact stack_mem S p hp
        · rw [List.mem_singleton.1 hq]
          show s.nOut = (s.delta.length : Int)
          omega)]
      dsimp only
      rw [← h2, ← List.map_reverse, List.reverse_append, List.reverse_reverse,
        List.reverse_singleton, List.singleton_append, List.map_cons]
      dsimp only
      rw [show (GLay.soft s1).withDelta (List.replicate (GLay.soft s1).deltas.length 0) =
        GLay.soft { s1 with delta := List.replicate s.delta.length 0 } from rfl]
      rw [headDelta_zero (l := GLay.soft { s1 with delta := List.replicate s.delta.length 0 })
        (o := softmaxSpec s.scale o) rfl (by show s.nOut = _; rw [sl]; omega) (by
          show (List.replicate s.delta.length (0 : ℝ)).length = _
          rw [List.length_replicate, sl, hsd]) (by rw [sl, ht])]
      dsimp only
      rw [show (GLay.soft { s1 with delta := List.replicate s.delta.length 0 }).withDelta
        (List.zipWith (fun t o => t - o) t (softmaxSpec s.scale o)) = GLay.soft s2 from rfl]
      rw [List.map_cons, List.map_cons, List.map_map, genBackGo, w1]
      dsimp only
      rw [w2]
      have eb : layerBackward realLibm (.soft s2) o (some (List.replicate l.deltas.length 0)) =
          .ok (.soft s2, some d) := by
        show backOnly _ (softBackward s2 _) = _
        unfold softBackward
        have hdl : s2.delta = d := rfl
        have hni : s2.nIn = s.nIn := rfl
        dsimp only
        rw [hdl, hni, if_neg (by rw [hz, hd, hi]; omega), List.take_of_length_le (by omega),
          List.take_of_length_le (by omega), List.drop_of_length_le (by omega), List.append_nil]
        have : softmaxBackward d (List.replicate l.deltas.length 0) = d := by
          unfold softmaxBackward
          refine List.ext_getElem? fun i => ?_
          by_cases hi' : i < d.length
          · simp [hi', G.dl, ← hd]
          · rw [List.getElem?_eq_none (by simp; omega), List.getElem?_eq_none (by omega)]
        rw [this]
        rfl
      rw [eb]
      dsimp only
      rw [w4 _ hd]
      rw [show ((fun l : GLay ℝ => l.withDelta (List.replicate l.deltas.length 0)) ∘ Prod.snd) =
        fun q : GLay ℝ × GLay ℝ => q.2.withDelta (List.replicate q.2.deltas.length 0) from rfl, e2]
      simp
    · have hk : k < ls2.reverse.length := by
        rw [List.length_reverse, l2]
        by_contra h
        rw [List.getElem?_eq_none (by omega)] at ha
        cases ha
      rw [List.getElem?_append_left hk] at hb
      exact hall k a b ha hb

/-! ## Softmax and the squared error -/

/-- Two linear neurons with zero weights. -/
noncomputable def flatLay : CLay ℝ :=
  { nInputs := 1, nOutputs := 2, maxOutputs := 2, maxGrow := 1, nActive := 2,
    outW := 2, outH := 1, outC := 1, fn := 3, opt := ⟨true, false, false, true, false, false⟩,
    eta := 1 / 10, etaMax := 1 / 10, etaMin := 0, momentum := 1 / 2, decay := 0,
    ws := [⟨0, 0, true⟩, ⟨0, 0, true⟩], ns := [⟨0, 0, 0, 0, 0⟩, ⟨0, 0, 0, 0, 0⟩], mu := [] }

/-- A softmax layer of two outputs. -/
noncomputable def softTwo : SLay ℝ :=
  { scale := 1, nIn := 2, nOut := 2, outW := 2, outH := 1, outC := 1, output := [0, 0],
    delta := [0, 0] }

theorem flat_diff (lo : ℝ) : (GLay.conn flatLay).Diff lo [1] := by
  have h3 : actSpec 3 = id := by funext x; simp [actSpec]
  refine ⟨⟨rfl, rfl, by decide⟩, rfl, rfl, fun i hi => ?_⟩
  have hi' : i < 2 := hi
  refine ⟨?_, ?_, ?_⟩
  · interval_cases i <;> simp [Par.pre, CLay.par, flatLay]
  · interval_cases i <;> simp [Par.pre, CLay.par, flatLay]
  · show DifferentiableAt ℝ (actSpec 3) _
    rw [h3]; exact differentiableAt_id

theorem conn_out {g : Rng ℝ R} {lo : ℝ} {c : CLay ℝ} (S : c.par.Shaped) {z : List ℝ}
    (hz : c.nInputs ≤ z.length) (r : R) : ∃ l, layerForward g realLibm lo true (.conn c) z r = .ok (l, r) ∧
      l.outs = .ok (c.par.out z) := by
  obtain ⟨l', e, q1, _, _, _, q5⟩ := connForward_holds S hz
  refine ⟨.conn l', by show keepR GLay.conn _ r = _; rw [e]; rfl, ?_⟩
  show Except.ok l'.outs = _
  rw [q5.out, q1]

theorem flat_net (g : Rng ℝ R) (lo : ℝ) (r : R) (v : ℝ) :
    netOut g lo [.conn ((Prm.w 0).put v flatLay), .soft softTwo] [1] r = softmaxSpec 1 [clip v, 0] := by
  have S : flatLay.par.Shaped := ⟨rfl, rfl, by decide⟩
  obtain ⟨l, e1, e2⟩ := conn_out (g := g) (lo := lo) (put_shaped S (Prm.w 0) v) (z := [1])
    (Nat.le_refl _) r
  have ho : ((Prm.w 0).put v flatLay).par.out [1] = [clip v, 0] := by
    rw [put_par]
    simp [Par.out, Par.pre, CLay.par, flatLay, actSpec, List.range_succ, clip]
  rw [ho] at e2
  have O : softTwo.Ok := ⟨by decide, rfl, rfl, rfl, one_ne_zero⟩
  rw [netOut_cons e1 e2, netOut_cons (soft_run O (z := [clip v, 0]) rfl r) rfl]
  rfl

/-- C92 refuted for softmax output layers: their errors are passed on as they are, so the updates are
not the gradient of the squared error that the program reports. -/
theorem C92_softmax_squared_refuted (g : Rng ℝ R) (lo : ℝ) (r : R) :
    ∃ (ls : List (GLay ℝ)) (s : SLay ℝ) (x t : List ℝ), NetDiff g lo ls x r ∧ s.Ok ∧
      t.length = (netOut g lo (ls ++ [.soft s]) x r).length ∧
      ∃ ls1 r1 ls2, genForward g realLibm lo true (ls ++ [.soft s]) x r = .ok (ls1, r1) ∧
        genBackward realLibm ls1 t x = .ok ls2 ∧
        ∃ (k : Nat) (a b : GLay ℝ), ls[k]? = some a ∧ ls2[k]? = some b ∧
          ¬ Climbs a b (fun q => halfError t (netOut g lo (ls.set k q ++ [.soft s]) x r)) := by
  have O : softTwo.Ok := ⟨by decide, rfl, rfl, rfl, one_ne_zero⟩
  have S : flatLay.par.Shaped := ⟨rfl, rfl, by decide⟩
  have hnd : NetDiff g lo [.conn flatLay] [1] r := ⟨flat_diff lo, trivial⟩
  have hsame : (Prm.w 0).put 0 flatLay = flatLay := by
    have := put_val (c := flatLay) (p := .w 0) (by show 0 < 2; decide)
    simpa [Prm.val, flatLay] using this
  obtain ⟨l, e1, e2⟩ := conn_out (g := g) (lo := lo) S (z := [1]) (Nat.le_refl _) r
  obtain ⟨ls1, r1, ls2, f1, f2, f3, f4⟩ := C92_softmax_likelihood_partial g lo [.conn flatLay]
    (by simp) softTwo [1] [1, 0] r hnd O (by
      rw [netOut_cons e1 e2]
      show (flatLay.par.out [1]).length = _
      rw [out_length]
      rfl) rfl (by norm_num)
  refine ⟨[.conn flatLay], softTwo, [1], [1, 0], hnd, O, ?_, ls1, r1, ls2, f1, f2, 0, .conn flatLay,
    ls2[0]'(by rw [f3]; decide), rfl, List.getElem?_eq_getElem _, ?_⟩
  · have := flat_net g lo r 0
    rw [hsame] at this
    show _ = (netOut g lo [.conn flatLay, .soft softTwo] [1] r).length
    rw [this, softmaxSpec_length]
    rfl
  · intro h
    obtain ⟨c', q1, q2⟩ := h .whole flatLay rfl
    obtain ⟨c2, p1, p2⟩ := f4 0 (.conn flatLay) _ rfl (List.getElem?_eq_getElem (by rw [f3]; decide))
      .whole flatLay rfl
    rw [q1] at p1
    cases p1
    have a1 := q2 (.w 0) (by show 0 < 2; decide) trivial
    have a2 := p2 (.w 0) (by show 0 < 2; decide) trivial
    set D := Prm.upd c' (.w 0) - Prm.upd flatLay (.w 0)
    have hv : Prm.val flatLay (.w 0) = 0 := rfl
    rw [hv] at a1 a2
    have ev : ∀ v, netOut g lo (([.conn flatLay] : List (GLay ℝ)).set 0
        ((GLay.conn flatLay).onPart ((Prm.w 0).put v flatLay) .whole) ++ [.soft softTwo]) [1] r =
        [Real.exp (clip v) / (Real.exp (clip v) + 1), 1 / (Real.exp (clip v) + 1)] := by
      intro v
      refine (flat_net g lo r v).trans ?_
      simp [softmaxSpec]
    simp only [ev] at a1 a2
    have pos : ∀ v, 0 < Real.exp (clip v) + 1 := fun v => by positivity
    have l1 : ∀ v, softTwo.scale * likelihood [1, 0] [Real.exp (clip v) / (Real.exp (clip v) + 1),
        1 / (Real.exp (clip v) + 1)] = clip v - Real.log (Real.exp (clip v) + 1) := by
      intro v
      simp [likelihood, softTwo, sum_range_succ, Real.log_div (Real.exp_pos _).ne' (pos v).ne']
    have l2 : ∀ v, halfError [1, 0] [Real.exp (clip v) / (Real.exp (clip v) + 1),
        1 / (Real.exp (clip v) + 1)] = -(1 / (Real.exp (clip v) + 1)) ^ 2 := by
      intro v
      have := (pos v).ne'
      simp only [halfError, List.length_cons, List.length_nil, sum_range_succ, range_zero, sum_empty,
        List.getD_cons_zero, List.getD_cons_succ]
      field_simp
      ring
    simp only [l1] at a2
    simp only [l2] at a1
    have hc : HasDerivAt clip 1 0 := clip_hasDeriv (by norm_num) (by norm_num)
    have c0 : clip 0 = 0 := clip_id (by norm_num) (by norm_num)
    have hE : HasDerivAt (fun v => Real.exp (clip v) + 1) (Real.exp (clip 0) * 1) 0 :=
      hc.exp.add_const _
    have b2 := hc.sub (hE.log (pos 0).ne')
    have b1 := (((hE.inv (pos 0).ne').pow 2).neg)
    have u2 := a2.unique b2
    have u1 := a1.unique (b1.congr_of_eventuallyEq (Eventually.of_forall fun v => by simp))
    rw [c0, Real.exp_zero] at u1 u2
    rw [u2] at u1
    have : (1 : ℝ) - 1 * 1 / (1 + 1) = 1 / 4 := by
      rw [u1]
      simp only [Pi.inv_apply, c0, Real.exp_zero]
      norm_num
    norm_num at this

/-! ## Satisfiability -/

/-- Max pooling of a two by two image. -/
noncomputable def poolFour : PLay ℝ :=
  { height := 2, width := 2, channels := 1, pad := 0, size := 2, stride := 2, outW := 1, outH := 1,
    outC := 1, nIn := 4, nOut := 1, probability := 0, scale := 1, indexes := [none], output := [none],
    delta := [0], state := [] }

/-- Dropout of two inputs. -/
noncomputable def dropTwo : PLay ℝ :=
  { height := 1, width := 2, channels := 1, pad := 0, size := 0, stride := 0, outW := 2, outH := 1,
    outC := 1, nIn := 2, nOut := 2, probability := 1 / 2, scale := 2, indexes := [],
    output := [none, none], delta := [0, 0], state := [0, 0] }

theorem poolFour_ok : poolFour.MaxOk :=
  ⟨by decide, by decide, by decide, by decide, by decide, by decide, by decide, by decide, by decide,
    rfl, rfl, rfl, rfl, rfl, rfl, rfl, rfl⟩

theorem poolFour_pix : pixel ([1, 2, 3, 4] : List ℝ) 2 2 0 0 0 = 1 ∧
    pixel ([1, 2, 3, 4] : List ℝ) 2 2 0 0 1 = 2 ∧ pixel ([1, 2, 3, 4] : List ℝ) 2 2 0 1 0 = 3 ∧
    pixel ([1, 2, 3, 4] : List ℝ) 2 2 0 1 1 = 4 := ⟨rfl, rfl, rfl, rfl⟩

theorem poolFour_diff : (GLay.maxp poolFour).Diff (-10) [1, 2, 3, 4] := by
  refine ⟨poolFour_ok, rfl, ?_, ?_⟩
  · intro v hv
    simp at hv
    rcases hv with rfl | rfl | rfl | rfl <;> norm_num
  · intro k i j hk hi hj
    have hk' : (k : Int) < 1 := hk
    have hi' : (i : Int) < 1 := hi
    have hj' : (j : Int) < 1 := hj
    obtain rfl : k = 0 := by omega
    obtain rfl : i = 0 := by omega
    obtain rfl : j = 0 := by omega
    refine ⟨1, 1, ⟨by decide, by decide, by decide, by decide, by decide, by decide, by decide,
      by decide⟩, ?_⟩
    intro y z W hne
    have y1 : y < 2 := W.y1
    have z1 : z < 2 := W.z1
    have y0 := W.y0
    have z0 := W.z0
    obtain ⟨p1, p2, p3, p4⟩ := poolFour_pix
    show pixel _ 2 2 0 y z < pixel _ 2 2 0 1 1
    rw [p4]
    interval_cases y <;> interval_cases z
    · rw [p1]; norm_num
    · rw [p2]; norm_num
    · rw [p3]; norm_num
    · exact absurd ⟨rfl, rfl⟩ hne

theorem poolFour_out (g : Rng ℝ R) (r : R) : ∃ v : ℝ, 1 ≤ v ∧ v ≤ 4 ∧
    layOut g (-10) (.maxp poolFour) [1, 2, 3, 4] r = ([v], r) := by
  obtain ⟨is, os, e, _, h2, h3⟩ := C54_maxpool poolFour_ok (lo := -10) (x := [1, 2, 3, 4]) rfl
    poolFour_diff.2.2.1
  obtain ⟨y, z, W, h4, _⟩ := h3 0 0 0 (by decide) (by decide) (by decide)
  have y1 : y < 2 := W.y1
  have z1 : z < 2 := W.z1
  have y0 := W.y0
  have z0 := W.z0
  have h2' : os.length = 1 := h2
  have h4' : os[0]? = some (some (pixel [1, 2, 3, 4] 2 2 0 y z)) := h4
  obtain ⟨p1, p2, p3, p4⟩ := poolFour_pix
  refine ⟨pixel [1, 2, 3, 4] 2 2 0 y z, ?_, ?_, ?_⟩
  · interval_cases y <;> interval_cases z
    · rw [p1]
    · rw [p2]; norm_num
    · rw [p3]; norm_num
    · rw [p4]; norm_num
  · interval_cases y <;> interval_cases z
    · rw [p1]; norm_num
    · rw [p2]; norm_num
    · rw [p3]; norm_num
    · rw [p4]
  · have ho : os = [some (pixel [1, 2, 3, 4] 2 2 0 y z)] := by
      match os, h2' with
      | [o], _ => simpa using h4'
    refine layOut_eq (l := .maxp { poolFour with indexes := is, output := os }) ?_ ?_
    · show keepR GLay.maxp _ r = _
      rw [e]
      rfl
    · show written os = _
      rw [ho]
      rfl

theorem dropTwo_out (g : Rng ℝ R) (r : R) {a b : ℝ} (ha : |a| ≤ 1) (hb : |b| ≤ 1) :
    ∃ (u v : ℝ) (r' : R), |u| ≤ 2 ∧ |v| ≤ 2 ∧ layOut g (-10) (.drop dropTwo) [a, b] r = ([u, v], r') := by
  obtain ⟨us, os, r', e, _, h2, _, h3, _⟩ := C54_dropout (g := g) (l := dropTwo)
    ⟨by decide, rfl, rfl, rfl, rfl⟩ (x := [a, b]) rfl r
  have e0 := h3 0 (by decide)
  have e1 := h3 1 (by decide)
  have h2' : os.length = 2 := h2
  have ho : os = [some (if us.getD 0 0 < dropTwo.probability then 0 else a * 2),
      some (if us.getD 1 0 < dropTwo.probability then 0 else b * 2)] := by
    match os, h2' with
    | [o, p], _ =>
      simp at e0 e1
      rw [e0, e1]
      rfl
  refine ⟨_, _, r', ?_, ?_, layOut_eq (l := .drop { dropTwo with output := os, state := us }) ?_
    (by show written os = _; rw [ho]; rfl)⟩
  · split
    · norm_num
    · rw [abs_mul]; norm_num; exact ha
  · split
    · norm_num
    · rw [abs_mul]; norm_num; exact hb
  · show liftR GLay.drop (dropoutForward g true dropTwo [a, b] r) = _
    rw [e]
    rfl

/-- Two sine neurons. -/
noncomputable def sineTwo : CLay ℝ :=
  { flatLay with fn := 5, ws := [⟨1, 0, true⟩, ⟨2, 0, true⟩], ns := [⟨0, 0, 0, 0, 0⟩, ⟨1, 0, 0, 0, 0⟩] }

/-- A linear neuron of two inputs. -/
noncomputable def lineOne : CLay ℝ :=
  { flatLay with nInputs := 2, nOutputs := 1, outW := 1, ws := [⟨3, 0, true⟩, ⟨1, 0, true⟩],
                 ns := [⟨0, 0, 0, 0, 0⟩] }

/-- Max pooling, sine neurons, dropout, a linear neuron. -/
noncomputable def mixedNet : List (GLay ℝ) :=
  .maxp poolFour :: .conn sineTwo :: .drop dropTwo :: [.conn lineOne]

theorem mixed_diff (g : Rng ℝ R) (r : R) : NetDiff g (-10) mixedNet [1, 2, 3, 4] r := by
  have h5 : actSpec 5 = Real.sin := by funext x; simp [actSpec]
  have h3 : actSpec 3 = id := by funext x; simp [actSpec]
  refine ⟨poolFour_diff, ?_⟩
  obtain ⟨v, v1, v2, ev⟩ := poolFour_out g r
  rw [ev]
  have S0 : sineTwo.par.Shaped := ⟨rfl, rfl, by decide⟩
  refine ⟨⟨S0, rfl, rfl, fun i hi => ?_⟩, ?_⟩
  · have hi' : i < 2 := hi
    refine ⟨?_, ?_, ?_⟩
    · interval_cases i <;> simp [Par.pre, CLay.par, sineTwo, flatLay] <;> linarith
    · interval_cases i <;> simp [Par.pre, CLay.par, sineTwo, flatLay] <;> linarith
    · show DifferentiableAt ℝ (actSpec 5) _
      rw [h5]; exact Real.differentiable_sin _
  obtain ⟨l, e1, e2⟩ := conn_out (g := g) (lo := -10) S0 (z := [v]) (Nat.le_refl _) r
  rw [layOut_eq e1 e2]
  obtain ⟨a, b, ha, hb, eo⟩ : ∃ a b : ℝ, |a| ≤ 1 ∧ |b| ≤ 1 ∧ sineTwo.par.out [v] = [a, b] := by
    refine ⟨actSpec 5 (clip (sineTwo.par.pre [v] 0)), actSpec 5 (clip (sineTwo.par.pre [v] 1)),
      ?_, ?_, rfl⟩
    · rw [h5]; exact Real.abs_sin_le_one _
    · rw [h5]; exact Real.abs_sin_le_one _
  rw [eo]
  refine ⟨⟨⟨by decide, rfl, rfl, rfl, rfl⟩, rfl⟩, ?_⟩
  obtain ⟨u, w, r', hu, hw, ed⟩ := dropTwo_out g r ha hb
  rw [ed]
  refine ⟨⟨⟨rfl, rfl, by decide⟩, rfl, rfl, fun i hi => ?_⟩, trivial⟩
  have hi' : i < 1 := hi
  obtain rfl : i = 0 := by omega
  have hu' := abs_le.1 hu
  have hw' := abs_le.1 hw
  refine ⟨?_, ?_, ?_⟩
  · simp [Par.pre, CLay.par, lineOne, flatLay, sum_range_succ]; linarith [hu'.1, hw'.1]
  · simp [Par.pre, CLay.par, lineOne, flatLay, sum_range_succ]; linarith [hu'.2, hw'.2]
  · show DifferentiableAt ℝ (actSpec 3) _
    rw [h3]; exact differentiableAt_id

example (g : Rng ℝ R) (r : R) : mixedNet ≠ [] ∧ NetDiff g (-10) mixedNet [1, 2, 3, 4] r :=
  ⟨by simp [mixedNet], mixed_diff g r⟩

/-- A linear neuron with one input, after the output `o`. -/
noncomputable def unitLay (w o : ℝ) : CLay ℝ :=
  { flatLay with nInputs := 1, nOutputs := 1, outW := 1, ws := [⟨w, 0, true⟩], ns := [⟨0, 0, o, o, 0⟩] }

/-- A recurrent layer after its first step. -/
noncomputable def recOne : RLay ℝ :=
  { nInputs := 1, nOutputs := 1, maxOutputs := 1, nActive := 3, outW := 1, fn := 3, opt := flatLay.opt,
    eta := 1, etaMax := 0, etaMin := 0, state := [some 1], prev := [some 0],
    inp := unitLay 1 1, self := unitLay 1 0, out := unitLay 2 2, mu := [] }

theorem unit_pre (w o z : ℝ) (i : Nat) (hi : i < 1) : (unitLay w o).par.pre [z] i = w * z := by
  obtain rfl : i = 0 := by omega
  simp [Par.pre, CLay.par, unitLay]

theorem unit_smooth {w o z : ℝ} (h1 : -100 < w * z) (h2 : w * z < 100) :
    (unitLay w o).par.Smooth [z] := by
  have h3 : actSpec 3 = id := by funext x; simp [actSpec]
  intro i hi
  have hi' : i < 1 := hi
  rw [unit_pre w o z i hi']
  refine ⟨h1, h2, ?_⟩
  show DifferentiableAt ℝ (actSpec 3) _
  rw [h3]; exact differentiableAt_id

theorem unit_out {w o z : ℝ} (h1 : -100 < w * z) (h2 : w * z < 100) :
    (unitLay w o).par.out [z] = [w * z] := by
  show [actSpec 3 (clip ((unitLay w o).par.pre [z] 0))] = _
  rw [unit_pre w o z 0 (by omega), clip_id h1 h2]
  simp [actSpec]

/-- A recurrent layer that remembers an output, below a linear neuron. -/
example (g : Rng ℝ R) (r : R) : NetDiff g (-10) [.recu recOne, .conn (unitLay 3 0)] [1] r := by
  have S : ∀ w o, (unitLay w o).par.Shaped := fun w o => ⟨rfl, rfl, by
    show (0 : Int) ≤ 3 ∧ (3 : Int) < 11; decide⟩
  have F : recOne.Fits := ⟨⟨S _ _, rfl, rfl⟩, ⟨S _ _, rfl, rfl⟩, ⟨S _ _, rfl, rfl⟩, ⟨rfl, rfl, rfl⟩,
    ⟨rfl, by simp [recOne]⟩, rfl⟩
  have o1 : (unitLay 1 1).par.out [1] = [1] := by rw [unit_out] <;> norm_num
  have o2 : (unitLay 1 0).par.out [2] = [2] := by rw [unit_out] <;> norm_num
  have es : recOne.sum [1] = [3] := by
    show List.zipWith _ ((unitLay 1 1).par.out [1]) ((unitLay 1 0).par.out [2]) = _
    rw [o1, o2]
    norm_num
  have o3 : recOne.out.par.out (recOne.sum [1]) = [6] := by
    rw [es]
    show (unitLay 2 2).par.out [3] = _
    rw [unit_out] <;> norm_num
  refine ⟨⟨F, rfl, unit_smooth (by norm_num) (by norm_num),
    unit_smooth (z := 2) (by norm_num) (by norm_num), ?_⟩, ?_⟩
  · show (unitLay 2 2).par.Smooth (recOne.sum [1])
    rw [es]
    exact unit_smooth (by norm_num) (by norm_num)
  · obtain ⟨l, e, P⟩ := recForward_passed F (x := [1]) (Nat.le_refl _)
    have e1 : layerForward g realLibm (-10) true (.recu recOne) [1] r = .ok (.recu l, r) := by
      show keepR GLay.recu (recForward realLibm recOne [1]) r = _
      rw [e]
      rfl
    rw [layOut_eq e1 (o := [6]) (by
      show Except.ok l.out.outs = _
      rw [P.out.2.2.2.2.out, P.out.1, o3])]
    exact ⟨⟨S _ _, rfl, rfl, unit_smooth (by norm_num) (by norm_num)⟩, trivial⟩

/-- A linear layer below a softmax layer meets the conditions of `C92_softmax_likelihood_partial`. -/
example (g : Rng ℝ R) (r : R) : NetDiff g (-10) [.conn flatLay] [1] r ∧ softTwo.Ok ∧
    (netOut g (-10) [.conn flatLay] [1] r).length = softTwo.nIn.toNat ∧
    ([1, 0] : List ℝ).length = softTwo.nIn.toNat ∧ ([1, 0] : List ℝ).sum = 1 := by
  refine ⟨⟨flat_diff _, trivial⟩, ⟨by decide, rfl, rfl, rfl, one_ne_zero⟩, ?_, rfl, by norm_num⟩
  obtain ⟨l, e1, e2⟩ := conn_out (g := g) (lo := -10) (show flatLay.par.Shaped from ⟨rfl, rfl, by decide⟩)
    (z := [1]) (Nat.le_refl _) r
  rw [netOut_cons e1 e2]
  show (flatLay.par.out [1]).length = _
  rw [out_length]
  rfl

end Xcsf
