import Verif.PropsReturn
import Verif.NValLemmas

/-!
# Covering with networks that cannot match (C94)

Covering with a neural condition draws new weights until the network matches.  A network without
weights does not change, so covering an input it does not match never returns.
-/

set_option linter.unusedSectionVars false

namespace Xcsf

/-- Mean of the first channel of an image, the first output of an average pooling layer. -/
noncomputable def firstMean (n : Nat) (x : List ℝ) : ℝ :=
  (∑ i ∈ Finset.range n, x.getD i 0) / (n : ℝ)

theorem avg_match {R : Type} {g : Rng ℝ R} {l : PLay ℝ} (L : l.AvgOk) {x : List ℝ}
    (hx : x.length = l.nIn.toNat) (lo : ℝ) (e : Bool) (n : Int) (hn : 0 < n)
    (hm : firstMean (l.height * l.width).toNat x ≤ 1 / 2) (r : R) :
    netMatch g realLibm lo e ⟨n, [.avgp l]⟩ x r =
      .ok (false, ⟨n, [.avgp { l with output := (layVal (.avgp l) x).map some }]⟩, r) := by
  have e1 : genForward g realLibm lo e [.avgp l] x r =
      .ok ([.avgp { l with output := (layVal (.avgp l) x).map some }], r) := by
    unfold genForward
    rw [show layerForward g realLibm lo e (.avgp l) x r =
        .ok (.avgp { l with output := (layVal (.avgp l) x).map some }, r) from by
      show keepR GLay.avgp _ r = _
      rw [avgp_value L hx]
      rfl]
    dsimp only
    rw [show GLay.outs (.avgp { l with output := (layVal (.avgp l) x).map some }) =
      .ok (layVal (.avgp l) x) from written_all _]
    rfl
  have e2 : genOutput n [.avgp { l with output := (layVal (.avgp l) x).map some }] 0 =
      .ok (firstMean (l.height * l.width).toNat x) := by
    unfold genOutput
    rw [if_neg (by omega)]
    simp only [List.getLast?_singleton]
    rw [show GLay.outs (.avgp { l with output := (layVal (.avgp l) x).map some }) =
      .ok (layVal (.avgp l) x) from written_all _]
    have hc : 0 < l.channels.toNat := by have := L.c; omega
    show rd ((List.range l.channels.toNat).map fun k => _) 0 = _
    unfold rd
    rw [if_neg (by decide)]
    rw [show ((0 : Int).toNat) = 0 from rfl, List.getElem?_map, List.getElem?_range hc]
    simp [firstMean]
  unfold netMatch netPropagate
  simp only [e1, e2]
  rw [decide_eq_false (not_lt.2 hm)]

/-- **C94**, refuted for neural conditions: a condition may be a network without weights, here a
layer of average pooling.  Drawing its weights changes nothing, so if it does not match an input,
covering that input never returns, whatever the generator and the number of tries. -/
theorem C94_neural_cover_refuted {R : Type} {g : Rng ℝ R} {x : List ℝ} (lo : ℝ) (e : Bool) {n : Int}
    (hn : 0 < n) : ∀ (fuel : Nat) (l : PLay ℝ) (r : R), l.AvgOk → x.length = l.nIn.toNat →
    firstMean (l.height * l.width).toNat x ≤ 1 / 2 →
    netCover g realLibm lo e x fuel ⟨n, [.avgp l]⟩ r = .error .hang
  | 0, _, _, _, _, _ => rfl
  | fuel + 1, l, r, L, hx, hm => by
    unfold netCover
    rw [show netRandom g ⟨n, [.avgp l]⟩ r = .ok (⟨n, [.avgp l]⟩, r) from rfl]
    dsimp only
    rw [avg_match L hx lo e n hn hm r]
    exact C94_neural_cover_refuted lo e hn fuel _ r
      ⟨L.h, L.w, L.c, L.outC, L.nIn, L.nOut, by
        show ((layVal (.avgp l) x).map some).length = _
        rw [List.length_map]
        show ((List.range l.channels.toNat).map fun k => _).length = _
        rw [List.length_map, List.length_range, L.nOut], L.dl⟩ hx hm

/-- An image of one row with two pixels. -/
noncomputable def avgPair : PLay ℝ :=
  { height := 1, width := 2, channels := 1, pad := 0, size := 0, stride := 0, outW := 1, outH := 1,
    outC := 1, nIn := 2, nOut := 1, probability := 0, scale := 0, indexes := [], output := [some 0],
    delta := [0], state := [] }

/-- Two pixels of one channel, both one quarter: legal parameters create the layer, the mean is a
quarter, so it never matches. -/
example : avgpoolInit ⟨1, 2, 1, 0, 0, 0, 2, 0, 0⟩ = .ok avgPair ∧ avgPair.AvgOk ∧
    [(1 : ℝ) / 4, 1 / 4].length = avgPair.nIn.toNat ∧
    firstMean (avgPair.height * avgPair.width).toNat [1 / 4, 1 / 4] ≤ 1 / 2 := by
  refine ⟨rfl, ⟨le_refl _, (by decide : (1 : Int) ≤ 2), le_refl _, rfl, rfl, rfl, rfl, rfl⟩, rfl, ?_⟩
  show firstMean 2 _ ≤ _
  unfold firstMean
  rw [Finset.sum_range_succ, Finset.sum_range_one]
  norm_num

end Xcsf
