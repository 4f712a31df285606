import Verif.NPoolLemmas
import Verif.PropsUtil
import Verif.Demo

/-!
# Property C54, image layers without weights: pooling, up-sampling, dropout, noise
-/

set_option linter.unusedSectionVars false

namespace Xcsf
open Finset
variable {K R : Type} [Field K] [LinearOrder K] [IsStrictOrderedRing K] [FloorRing K]

/-! ## Max pooling -/

theorem pix_range {h w c y z : Int} {k : Nat} (y0 : 0 ≤ y) (y1 : y < h) (z0 : 0 ≤ z) (z1 : z < w)
    (hk : (k : Int) < c) : 0 ≤ z + w * (y + h * (k : Int)) ∧ z + w * (y + h * (k : Int)) < h * w * c := by
  have hh : 0 < h := by omega
  have hw : 0 < w := by omega
  have h1 : 0 ≤ h * (k : Int) := by positivity
  have h2 : h * ((k : Int) + 1) ≤ h * c := Int.mul_le_mul_of_nonneg_left (by omega) hh.le
  have h3 : y + h * (k : Int) + 1 ≤ h * c := by rw [Int.mul_add] at h2; omega
  have h4 : w * (y + h * (k : Int) + 1) ≤ w * (h * c) := Int.mul_le_mul_of_nonneg_left h3 hw.le
  have h5 : 0 ≤ w * (y + h * (k : Int)) := Int.mul_nonneg hw.le (by omega)
  have h6 : w * (y + h * (k : Int) + 1) = w * (y + h * (k : Int)) + w := by ring
  have h7 : w * (h * c) = h * w * c := by ring
  constructor
  · omega
  · rw [h6, h7] at h4; omega

theorem pixel_rd {x : List K} {h w c y z : Int} {k : Nat} (y0 : 0 ≤ y) (y1 : y < h) (z0 : 0 ≤ z)
    (z1 : z < w) (hk : (k : Int) < c) (hx : x.length = (h * w * c).toNat) :
    rd x (z + w * (y + h * (k : Int))) = .ok (pixel x h w k y z) := by
  obtain ⟨a, b⟩ := pix_range y0 y1 z0 z1 hk
  have hi : (z + w * (y + h * (k : Int))).toNat < x.length := by omega
  have := rdA_ok (a := x) (List.getElem?_eq_getElem hi)
  rw [Int.toNat_of_nonneg a] at this
  rw [this, pixel, List.getD, List.getElem?_eq_getElem hi, Option.getD_some]

theorem win_hits {l : PLay K} (L : l.MaxOk) {n st out : Int} (hn : 1 ≤ n)
    (ho : out = (n + l.pad - l.size) / l.stride + 1) {i : Nat}
    (hi : (i : Int) < out) (hst : st = (i : Int) * l.stride - l.pad / 2) :
    ∃ y, 0 ≤ y ∧ y < n ∧ st ≤ y ∧ y < st + l.size := by
  have hs := L.st
  have hp := L.p
  have hc := L.covers
  have hz := L.s
  have h1 : (i : Int) ≤ (n + l.pad - l.size) / l.stride := by omega
  have h2 : (i : Int) * l.stride ≤ n + l.pad - l.size := by
    have := Int.mul_le_mul_of_nonneg_right h1 (show 0 ≤ l.stride by omega)
    have h3 := Int.ediv_mul_le (n + l.pad - l.size) (show l.stride ≠ 0 by omega)
    omega
  have h0 : 0 ≤ (i : Int) * l.stride := by
    refine Int.mul_nonneg (by omega) (by omega)
  refine ⟨max 0 st, ?_⟩
  omega

theorem maxPool_spec {l : PLay K} (L : l.MaxOk) {lo : K} {x : List K} (hx : x.length = l.nIn.toNat)
    (hlo : ∀ v ∈ x, lo < v) {i j k : Nat} (hi : (i : Int) < l.outH) (hj : (j : Int) < l.outW)
    (hk : (k : Int) < l.channels) :
    ∃ y z, InWin l i j y z ∧
      maxPool lo l x i j k = .ok (z + l.width * (y + l.height * (k : Int))) ∧
      ∀ y' z', InWin l i j y' z' →
        pixel x l.height l.width k y' z' ≤ pixel x l.height l.width k y z := by
  have hoff : (-l.pad).tdiv 2 = -(l.pad / 2) := by
    rw [Int.neg_tdiv, Int.tdiv_eq_ediv_of_nonneg L.p]
  have hs := L.s
  rw [L.nIn] at hx
  let ch : Nat × Nat → Int := fun p => (i : Int) * l.stride - l.pad / 2 + (p.1 : Int)
  let cw : Nat × Nat → Int := fun p => (j : Int) * l.stride - l.pad / 2 + (p.2 : Int)
  let im : Nat × Nat → Prop := fun p => 0 ≤ ch p ∧ ch p < l.height ∧ 0 ≤ cw p ∧ cw p < l.width
  let val : Nat × Nat → K := fun p => pixel x l.height l.width k (ch p) (cw p)
  let ix : Nat × Nat → Int := fun p => cw p + l.width * (ch p + l.height * (k : Int))
  have hin : ∀ p ∈ idx2 l.size.toNat l.size.toNat, im p → InWin l i j (ch p) (cw p) := by
    intro p hp h
    have := mem_idx2.1 hp
    refine ⟨h.1, h.2.1, h.2.2.1, h.2.2.2, ?_, ?_, ?_, ?_⟩ <;> simp only [ch, cw] <;> omega
  have hof : ∀ y z, InWin l i j y z → ∃ p ∈ idx2 l.size.toNat l.size.toNat,
      im p ∧ ch p = y ∧ cw p = z := by
    intro y z h
    have e1 : ch ((y - ((i : Int) * l.stride - l.pad / 2)).toNat,
        (z - ((j : Int) * l.stride - l.pad / 2)).toNat) = y := by
      have := h.top
      simp only [ch]; omega
    have e2 : cw ((y - ((i : Int) * l.stride - l.pad / 2)).toNat,
        (z - ((j : Int) * l.stride - l.pad / 2)).toNat) = z := by
      have := h.left
      simp only [cw]; omega
    refine ⟨_, mem_idx2.2 ⟨?_, ?_⟩, ?_, e1, e2⟩
    · have := h.bottom; have := h.top; dsimp only; omega
    · have := h.right; have := h.left; dsimp only; omega
    · refine ⟨?_, ?_, ?_, ?_⟩
      · rw [e1]; exact h.y0
      · rw [e1]; exact h.y1
      · rw [e2]; exact h.z0
      · rw [e2]; exact h.z1
  obtain ⟨s, e, h1, h2⟩ := forL_done
    (fun pre (s : K × Int) => (∀ p ∈ pre, im p → val p ≤ s.1) ∧
      ((s = (lo, -1) ∧ ∀ p ∈ pre, ¬ im p) ∨ ∃ p ∈ pre, im p ∧ s = (val p, ix p)))
    (f := maxStep l x i j k) (idx2 l.size.toNat l.size.toNat) (lo, -1)
    ⟨(fun p h => by cases h), Or.inl ⟨rfl, fun p h => by cases h⟩⟩ (by
    rintro pre p hsub s ⟨g1, g2⟩
    have hmax : ∀ (u : K), (∀ q ∈ pre, im q → val q ≤ u) → (im p → val p ≤ u) →
        ∀ q ∈ pre ++ [p], im q → val q ≤ u := by
      intro u h1 h2 q hq hm
      rcases List.mem_append.1 hq with hq | hq
      · exact h1 q hq hm
      · cases List.mem_singleton.1 hq; exact h2 hm
    by_cases him : im p
    · have hr : rd x (ix p) = .ok (val p) :=
        pixel_rd him.1 him.2.1 him.2.2.1 him.2.2.2 hk hx
      have hlt : ix p < l.nIn := by
        rw [L.nIn]
        exact (pix_range him.1 him.2.1 him.2.2.1 him.2.2.2 hk).2
      have hstep : maxStep l x i j k p s = if s.1 < val p then .ok (val p, ix p) else .ok s := by
        unfold maxStep
        dsimp only
        rw [hoff, show -(l.pad / 2) + (i : Int) * l.stride + (p.1 : Int) = ch p from by
            simp only [ch]; omega,
          show -(l.pad / 2) + (j : Int) * l.stride + (p.2 : Int) = cw p from by
            simp only [cw]; omega]
        rw [if_pos ⟨him.1, him.2.1, him.2.2.1, him.2.2.2, hlt⟩]
        show (match rd x (ix p) with | .error e => _ | .ok v => _) = _
        rw [hr]
      by_cases hv : s.1 < val p
      · rw [if_pos hv] at hstep
        exact ⟨_, hstep, hmax _ (fun q hq hm => (g1 q hq hm).trans hv.le) (fun _ => le_rfl),
          Or.inr ⟨p, by simp, him, rfl⟩⟩
      · rw [if_neg hv] at hstep
        refine ⟨_, hstep, hmax _ g1 (fun _ => not_lt.1 hv), ?_⟩
        rcases g2 with ⟨g2, _⟩ | ⟨q, hq, hm, rfl⟩
        · exfalso
          apply hv
          rw [g2]
          refine hlo _ ?_
          have hlt' : (ix p).toNat < x.length := by
            have := (pix_range him.1 him.2.1 him.2.2.1 him.2.2.2 hk).1
            rw [hx, ← L.nIn]
            show (ix p).toNat < _
            have h0 : 0 ≤ ix p := this
            omega
          show x.getD (ix p).toNat 0 ∈ x
          rw [List.getD, List.getElem?_eq_getElem hlt']
          exact List.getElem_mem hlt'
        · exact Or.inr ⟨q, by simp [hq], hm, rfl⟩
    · have hstep : maxStep l x i j k p s = .ok s := by
        unfold maxStep
        dsimp only
        rw [hoff, show -(l.pad / 2) + (i : Int) * l.stride + (p.1 : Int) = ch p from by
            simp only [ch]; omega,
          show -(l.pad / 2) + (j : Int) * l.stride + (p.2 : Int) = cw p from by
            simp only [cw]; omega]
        rw [if_neg (fun h => him ⟨h.1, h.2.1, h.2.2.1, h.2.2.2.1⟩)]
      refine ⟨_, hstep, hmax _ g1 (fun h => absurd h him), ?_⟩
      rcases g2 with ⟨g2, g3⟩ | ⟨q, hq, hm, rfl⟩
      · refine Or.inl ⟨g2, ?_⟩
        intro q hq
        rcases List.mem_append.1 hq with hq | hq
        · exact g3 q hq
        · cases List.mem_singleton.1 hq; exact him
      · exact Or.inr ⟨q, by simp [hq], hm, rfl⟩)
  rcases h2 with ⟨_, h2⟩ | ⟨p, hp, hm, rfl⟩
  · exfalso
    obtain ⟨y, y0, y1, y2, y3⟩ := win_hits L L.h L.outH hi rfl
    obtain ⟨z, z0, z1, z2, z3⟩ := win_hits L L.w L.outW hj rfl
    obtain ⟨p, hp, hm, _⟩ := hof y z ⟨y0, y1, z0, z1, y2, y3, z2, z3⟩
    exact h2 p hp hm
  · refine ⟨ch p, cw p, hin p hp hm, ?_, ?_⟩
    · unfold maxPool
      rw [e]
      dsimp only
      obtain ⟨a, b⟩ := pix_range hm.1 hm.2.1 hm.2.2.1 hm.2.2.2 hk
      rw [if_neg]
      rw [L.nIn]
      rintro (h | h)
      · exact absurd h (not_lt.2 a)
      · exact absurd b (not_lt.2 h)
    · intro y' z' h
      obtain ⟨q, hq, hm', rfl, rfl⟩ := hof y' z' h
      exact h1 q hq hm'

/-- **C54, max pooling.** The forward pass of a legal layer gives every output the greatest pixel
of its window and records where that pixel is; no access leaves its array. -/
theorem C54_maxpool {l : PLay K} (L : l.MaxOk) {lo : K} {x : List K}
    (hx : x.length = l.nIn.toNat) (hlo : ∀ v ∈ x, lo < v) :
    ∃ is os, maxpoolForward lo l x = .ok { l with indexes := is, output := os } ∧
      is.length = l.nOut.toNat ∧ os.length = l.nOut.toNat ∧
      ∀ k i j : Nat, (k : Int) < l.channels → (i : Int) < l.outH → (j : Int) < l.outW →
        ∃ y z, InWin l i j y z ∧
          os[(k * l.outH.toNat + i) * l.outW.toNat + j]? =
            some (some (pixel x l.height l.width k y z)) ∧
          is[(k * l.outH.toNat + i) * l.outW.toNat + j]? =
            some (some (z + l.width * (y + l.height * (k : Int)))) ∧
          ∀ y' z', InWin l i j y' z' →
            pixel x l.height l.width k y' z' ≤ pixel x l.height l.width k y z := by
  have hc := L.c
  have hno : l.nOut.toNat = l.channels.toNat * l.outH.toNat * l.outW.toNat := by
    rw [L.nOut, L.outC]
    by_cases h1 : 0 ≤ l.outH
    · by_cases h2 : 0 ≤ l.outW
      · rw [← Int.toNat_of_nonneg h1, ← Int.toNat_of_nonneg h2,
          ← Int.toNat_of_nonneg (show 0 ≤ l.channels by omega)]
        simp only [Int.toNat_natCast]
        rw [← Nat.cast_mul, ← Nat.cast_mul, Int.toNat_natCast]
        ring
      · have := L.outW
        have := Int.ediv_nonneg (show 0 ≤ l.width + l.pad - l.size by have := L.fitW; omega)
          (show 0 ≤ l.stride by have := L.st; omega)
        omega
    · have := L.outH
      have := Int.ediv_nonneg (show 0 ≤ l.height + l.pad - l.size by have := L.fitH; omega)
        (show 0 ≤ l.stride by have := L.st; omega)
      omega
  let pos : Nat × Nat × Nat → Nat := fun t => (t.1 * l.outH.toNat + t.2.1) * l.outW.toNat + t.2.2
  obtain ⟨l', e, is, os, rfl, hi, ho, hall⟩ := forL_done
    (fun pre (s : PLay K) => ∃ is os, s = { l with indexes := is, output := os } ∧
      is.length = l.nOut.toNat ∧ os.length = l.nOut.toNat ∧
      ∀ t ∈ pre, ∃ y z, InWin l t.2.1 t.2.2 y z ∧
          os[pos t]? = some (some (pixel x l.height l.width t.1 y z)) ∧
          is[pos t]? = some (some (z + l.width * (y + l.height * (t.1 : Int)))) ∧
          ∀ y' z', InWin l t.2.1 t.2.2 y' z' →
            pixel x l.height l.width t.1 y' z' ≤ pixel x l.height l.width t.1 y z)
    (f := maxpoolCell lo x) (idx3 l.channels.toNat l.outH.toNat l.outW.toNat) l
    ⟨l.indexes, l.output, rfl, L.il, L.ol, fun t h => by cases h⟩ (by
    rintro pre t hsub s ⟨is, os, rfl, hi, ho, hall⟩
    obtain ⟨ht1, ht2, ht3⟩ := mem_idx3.1 (hsub t (by simp))
    have hL : ({ l with indexes := is, output := os } : PLay K).MaxOk :=
      ⟨L.h, L.w, L.c, L.s, L.st, L.p, L.covers, L.fitW, L.fitH, L.outW, L.outH, L.outC, L.nIn,
        L.nOut, hi, ho, L.dl⟩
    obtain ⟨y, z, hw, hm, hmx⟩ := maxPool_spec hL (lo := lo) hx hlo (i := t.2.1) (j := t.2.2)
      (k := t.1) (by show _ < l.outH; omega) (by show _ < l.outW; omega)
      (by show _ < l.channels; omega)
    have hpl : pos t < l.nOut.toNat := by rw [hno]; exact flat3_lt ht1 ht2 ht3
    have hpo : (t.2.2 : Int) + l.outW * ((t.2.1 : Int) + l.outH * (t.1 : Int)) = (pos t : Nat) := by
      simp only [pos]
      push_cast
      rw [Int.toNat_of_nonneg (show 0 ≤ l.outW by omega),
        Int.toNat_of_nonneg (show 0 ≤ l.outH by omega)]
      ring
    have hr : rd x (z + l.width * (y + l.height * (t.1 : Int))) =
        .ok (pixel x l.height l.width t.1 y z) :=
      pixel_rd hw.y0 hw.y1 hw.z0 hw.z1 (show (t.1 : Int) < l.channels by omega)
        (by rw [hx]; show l.nIn.toNat = _; rw [L.nIn])
    refine ⟨{ l with
        indexes := is.set (pos t) (some (z + l.width * (y + l.height * (t.1 : Int)))),
        output := os.set (pos t) (some (pixel x l.height l.width t.1 y z)) }, ?_, _, _, rfl,
      by rw [List.length_set]; exact hi, by rw [List.length_set]; exact ho, ?_⟩
    · unfold maxpoolCell
      dsimp only at hm ⊢
      rw [hpo, if_pos (by omega), hm]
      dsimp only
      rw [hr]
      dsimp only
      rw [wrA_ok _ (by rw [hi]; exact hpl)]
      dsimp only
      rw [wrA_ok _ (by rw [ho]; exact hpl)]
    · intro u hu
      have hum : u ∈ idx3 l.channels.toNat l.outH.toNat l.outW.toNat := hsub u hu
      obtain ⟨hu1, hu2, hu3⟩ := mem_idx3.1 hum
      by_cases hut : u = t
      · subst hut
        refine ⟨y, z, ⟨hw.y0, hw.y1, hw.z0, hw.z1, hw.top, hw.bottom, hw.left, hw.right⟩, ?_, ?_,
          fun y' z' h => hmx y' z' ⟨h.y0, h.y1, h.z0, h.z1, h.top, h.bottom, h.left, h.right⟩⟩
        · rw [List.getElem?_set, if_pos rfl, if_pos (by rw [ho]; exact hpl)]
        · rw [List.getElem?_set, if_pos rfl, if_pos (by rw [hi]; exact hpl)]
      · have hne : pos t ≠ pos u := by
          intro h
          obtain ⟨e1, e2, e3⟩ := flat3_inj ht2 ht3 hu2 hu3 h
          apply hut
          ext
          · exact e1.symm
          · exact e2.symm
          · exact e3.symm
        have hup : u ∈ pre := by
          rcases List.mem_append.1 hu with h | h
          · exact h
          · exact absurd (List.mem_singleton.1 h) hut
        obtain ⟨y', z', g1, g2, g3, g4⟩ := hall u hup
        refine ⟨y', z', g1, ?_, ?_, g4⟩
        · rw [List.getElem?_set, if_neg hne]; exact g2
        · rw [List.getElem?_set, if_neg hne]; exact g3)
  refine ⟨is, os, e, hi, ho, ?_⟩
  intro k i j hk hi' hj
  exact hall (k, i, j) (mem_idx3.2 ⟨by dsimp only; omega, by dsimp only; omega,
    by dsimp only; omega⟩)

/-- **C54, max pooling, backward.** The error of every output goes to the pixel it was taken from:
the backward pass is the adjoint of the selection recorded by the forward pass. -/
theorem C54_maxpool_backward {l : PLay K} (L : l.MaxOk) {d : List K}
    (hix : ∀ i < l.nOut.toNat, ∃ m : Nat, l.indexes[i]? = some (some (m : Int)) ∧ m < d.length) :
    ∃ d', maxpoolBackward l (some d) = .ok (some d') ∧ d'.length = d.length ∧
      ∀ v : Nat → K, inner d' v = inner d v + ∑ i ∈ range l.nOut.toNat,
        l.delta.getD i 0 * v ((l.indexes.getD i none).getD 0).toNat := by
  have hsel : ∀ i < l.nOut.toNat, ∃ m : Nat, l.indexes[i]? = some (some (m : Int)) ∧
      m = ((l.indexes.getD i none).getD 0).toNat ∧ m < d.length := by
    intro i hi
    obtain ⟨m, e, h⟩ := hix i hi
    exact ⟨m, e, by simp [List.getD, e], h⟩
  obtain ⟨d', e, hl, hv⟩ := forL_scatter (body := maxpoolBackCell l)
    (fun i => ((l.indexes.getD i none).getD 0).toNat) (fun i => l.delta.getD i 0)
    (List.range l.nOut.toNat) d
    (fun i hi => by
      obtain ⟨m, _, e2, h⟩ := hsel i (List.mem_range.1 hi)
      rw [← e2]; exact h)
    (fun i hi d1 hd => by
      have hi := List.mem_range.1 hi
      obtain ⟨m, e1, e2, h⟩ := hsel i hi
      have hdl : i < l.delta.length := by rw [L.dl]; exact hi
      unfold maxpoolBackCell
      rw [rdA_ok e1]
      dsimp only
      rw [rdA_ok (List.getElem?_eq_getElem hdl)]
      dsimp only
      rw [accAt_ok _ (by rw [hd]; exact h), ← e2]
      simp [List.getD, hdl])
  refine ⟨d', ?_, hl, ?_⟩
  · unfold maxpoolBackward
    dsimp only
    rw [e]
  · intro v
    rw [hv v, sum_map_range]

/-! ## Average pooling -/

theorem toNat_mul3 {a b c : Int} (ha : 0 ≤ a) (hb : 0 ≤ b) (hc : 0 ≤ c) :
    (a * b * c).toNat = a.toNat * b.toNat * c.toNat := by
  obtain ⟨a, rfl⟩ := Int.eq_ofNat_of_zero_le ha
  obtain ⟨b, rfl⟩ := Int.eq_ofNat_of_zero_le hb
  obtain ⟨c, rfl⟩ := Int.eq_ofNat_of_zero_le hc
  rfl

theorem toNat_mul2 {a b : Int} (ha : 0 ≤ a) (hb : 0 ≤ b) :
    (a * b).toNat = a.toNat * b.toNat := by
  obtain ⟨a, rfl⟩ := Int.eq_ofNat_of_zero_le ha
  obtain ⟨b, rfl⟩ := Int.eq_ofNat_of_zero_le hb
  rfl

theorem forL_avg (x : List K) (n k : Nat) (h : n * k + n ≤ x.length) :
    forL (avgStep x (n : Int) k) (List.range n) 0 =
      .ok (∑ i ∈ range n, x.getD (k * n + i) 0) := by
  obtain ⟨s, e, hs⟩ := forL_inv (f := avgStep x (n : Int) k)
    (fun pre s => s = (pre.map fun i => x.getD (k * n + i) 0).sum) (List.range n) [] 0 (by simp)
    (by
      intro pre i hp _ s hs
      have hi : i < n := by
        have := hp.subset (show i ∈ pre ++ [i] by simp)
        simpa using this
      have hlt : k * n + i < x.length := by rw [Nat.mul_comm]; omega
      refine ⟨s + x.getD (k * n + i) 0, ?_, ?_⟩
      · unfold avgStep
        rw [show (i : Int) + (n : Int) * (k : Int) = ((k * n + i : Nat) : Int) from by
          push_cast; ring, rdA_ok (List.getElem?_eq_getElem hlt)]
        simp [List.getD, hlt]
      · rw [List.map_append, List.sum_append, hs]
        simp)
  rw [e, hs, List.nil_append, sum_map_range]

/-- **C54, average pooling.** Every output is the mean of its channel. -/
theorem C54_avgpool {l : PLay K} (L : l.AvgOk) {x : List K} (hx : x.length = l.nIn.toNat) :
    ∃ os, avgpoolForward l x = .ok { l with output := os } ∧ os.length = l.nOut.toNat ∧
      ∀ k < l.channels.toNat, os[k]? = some (some
        ((∑ i ∈ range (l.height * l.width).toNat, x.getD (k * (l.height * l.width).toNat + i) 0) /
          ((l.height * l.width).toNat : K))) := by
  have hh := L.h
  have hw := L.w
  have hc := L.c
  have hn0 : 0 ≤ l.height * l.width := Int.mul_nonneg (by omega) (by omega)
  have hxl : x.length = (l.height * l.width).toNat * l.channels.toNat := by
    rw [hx, L.nIn, toNat_mul2 hn0 (by omega)]
  obtain ⟨n, hn⟩ := Int.eq_ofNat_of_zero_le hn0
  rw [hn] at hxl ⊢
  simp only [Int.toNat_natCast] at hxl ⊢
  have hol : l.output.length = l.channels.toNat := by rw [L.ol, L.nOut]
  obtain ⟨os, e, hl, hv, _⟩ := forL_write (body := avgpoolCell x (n : Int)) (fun k : Nat => k)
    (fun k => some ((∑ i ∈ range n, x.getD (k * n + i) 0) / (n : K)))
    (List.range l.channels.toNat) l.output
    (fun k hk => by rw [hol]; exact List.mem_range.1 hk)
    (fun k hk a ha => by
      have hk := List.mem_range.1 hk
      unfold avgpoolCell
      have hle : n * k + n ≤ x.length := by
        rw [hxl]
        calc n * k + n = n * (k + 1) := by ring
          _ ≤ n * l.channels.toNat := Nat.mul_le_mul_left _ hk
      rw [Int.toNat_natCast, forL_avg x n k hle]
      dsimp only
      rw [wrA_ok _ (by rw [ha, hol]; exact hk)]
      simp)
    (fun s _ t _ h => by rw [h])
  refine ⟨os, ?_, by rw [hl, L.ol], fun k hk => hv k (List.mem_range.2 hk)⟩
  unfold avgpoolForward
  rw [hn, e]

theorem sum_flatMap' {α : Type} (l : List α) (f : α → List K) :
    (l.flatMap f).sum = (l.map fun a => (f a).sum).sum := by
  induction l with
  | nil => simp
  | cons a l ih => simp [ih]

/-- **C54, average pooling, backward.** The backward pass is the adjoint of the forward pass: for
every image `x` with outputs `os`, what it adds to the errors of the inputs has the same inner
product with `x` as the errors of the outputs have with `os`. -/
theorem C54_avgpool_backward {l : PLay K} (L : l.AvgOk) {d : List K}
    (hd : d.length = l.nIn.toNat) :
    ∃ d', avgpoolBackward l (some d) = .ok (some d') ∧ d'.length = d.length ∧
      ∀ (x : List K) (l' : PLay K), x.length = l.nIn.toNat → avgpoolForward l x = .ok l' →
        inner d' (fun i => x.getD i 0) = inner d (fun i => x.getD i 0) +
          inner l.delta (fun i => (l'.output.getD i none).getD 0) := by
  have hh := L.h
  have hw := L.w
  have hc := L.c
  have hn0 : 0 ≤ l.height * l.width := Int.mul_nonneg (by omega) (by omega)
  have hdl : d.length = (l.height * l.width).toNat * l.channels.toNat := by
    rw [hd, L.nIn, toNat_mul2 hn0 (by omega)]
  obtain ⟨n, hn⟩ := Int.eq_ofNat_of_zero_le hn0
  have hdel : l.delta.length = l.channels.toNat := by rw [L.dl, L.nOut]
  rw [hn, Int.toNat_natCast] at hdl
  have hpos : ∀ t ∈ idx2 l.channels.toNat n, t.1 * n + t.2 < d.length := by
    intro t ht
    obtain ⟨h1, h2⟩ := mem_idx2.1 ht
    exact flat2_lt h1 h2 (by rw [hdl, Nat.mul_comm])
  obtain ⟨d', e, hl, hv⟩ := forL_scatter (body := avgpoolBackCell l (n : Int))
    (fun t : Nat × Nat => t.1 * n + t.2) (fun t => l.delta.getD t.1 0 / (n : K))
    (idx2 l.channels.toNat n) d hpos
    (fun t ht d1 h1 => by
      have hp := hpos t ht
      obtain ⟨g1, g2⟩ := mem_idx2.1 ht
      have hdt : t.1 < l.delta.length := by rw [hdel]; exact g1
      unfold avgpoolBackCell
      rw [rdA_ok (List.getElem?_eq_getElem hdt)]
      dsimp only
      rw [show (t.2 : Int) + (n : Int) * (t.1 : Int) = ((t.1 * n + t.2 : Nat) : Int) from by
        push_cast; ring, accAt_ok _ (by rw [h1]; exact hp)]
      simp [List.getD, hdt])
  refine ⟨d', ?_, hl, ?_⟩
  · unfold avgpoolBackward
    dsimp only
    rw [hn, Int.toNat_natCast, e]
  · intro x l' hx hf
    obtain ⟨os, ef, _, ho⟩ := C54_avgpool L hx
    rw [ef] at hf
    cases hf
    rw [hn, Int.toNat_natCast] at ho
    rw [hv]
    congr 1
    unfold idx2
    rw [List.map_flatMap, sum_flatMap', ← inner_eq_sum hdel]
    congr 1
    refine List.map_congr_left fun k hk => ?_
    rw [List.map_map]
    have : (List.range n).map ((fun t : Nat × Nat => l.delta.getD t.1 0 / (n : K) *
        x.getD (t.1 * n + t.2) 0) ∘ fun j => (k, j)) =
        (List.range n).map fun j => l.delta.getD k 0 / (n : K) * x.getD (k * n + j) 0 := rfl
    rw [this, sum_map_range, ← mul_sum]
    have hk := ho k (List.mem_range.1 hk)
    simp only [List.getD] at hk ⊢
    rw [hk]
    simp only [Option.getD_some]
    ring

/-! ## Up-sampling -/

theorem up_facts {l : PLay K} (L : l.UpOk) {t : Nat × Nat × Nat}
    (ht : t ∈ idx3 l.channels.toNat (l.height * l.stride).toNat (l.width * l.stride).toNat) :
    upOut l t = (((t.1 * (l.height * l.stride).toNat + t.2.1) * (l.width * l.stride).toNat + t.2.2
        : Nat) : Int) ∧
    upIn l t = (((t.1 * l.height.toNat + t.2.1 / l.stride.toNat) * l.width.toNat
        + t.2.2 / l.stride.toNat : Nat) : Int) ∧
    (t.1 * l.height.toNat + t.2.1 / l.stride.toNat) * l.width.toNat + t.2.2 / l.stride.toNat
      < l.nIn.toNat ∧
    (t.1 * (l.height * l.stride).toNat + t.2.1) * (l.width * l.stride).toNat + t.2.2
      < l.nOut.toNat := by
  have hh := L.h
  have hw := L.w
  have hc := L.c
  have hs := L.st
  have hno := L.nOut
  have hni := L.nIn
  rw [L.outC, L.outH, L.outW] at hno
  rw [hno, hni]
  obtain ⟨h1, h2, h3⟩ := mem_idx3.1 ht
  unfold upOut upIn
  clear hno hni ht
  generalize l.height = H at *
  generalize l.width = W at *
  generalize l.channels = C at *
  generalize l.stride = S at *
  obtain ⟨h, rfl⟩ := Int.eq_ofNat_of_zero_le (show 0 ≤ H by omega)
  obtain ⟨w, rfl⟩ := Int.eq_ofNat_of_zero_le (show 0 ≤ W by omega)
  obtain ⟨c, rfl⟩ := Int.eq_ofNat_of_zero_le (show 0 ≤ C by omega)
  obtain ⟨s, rfl⟩ := Int.eq_ofNat_of_zero_le (show 0 ≤ S by omega)
  have hs' : 0 < s := by omega
  simp only [← Nat.cast_mul, Int.toNat_natCast] at h1 h2 h3 ⊢
  refine ⟨?_, ?_, ?_, ?_⟩
  · push_cast; ring
  · rw [show (t.2.1 : Int).tdiv (s : Int) = ((t.2.1 / s : Nat) : Int) from rfl,
      show (t.2.2 : Int).tdiv (s : Int) = ((t.2.2 / s : Nat) : Int) from rfl]
    push_cast; ring
  · have g2 : t.2.1 / s < h := Nat.div_lt_of_lt_mul (by rw [Nat.mul_comm]; exact h2)
    have g3 : t.2.2 / s < w := Nat.div_lt_of_lt_mul (by rw [Nat.mul_comm]; exact h3)
    calc _ < c * h * w := flat3_lt h1 g2 g3
      _ = h * w * c := by ring
  · calc _ < c * (h * s) * (w * s) := flat3_lt h1 h2 h3
      _ = h * s * (w * s) * c := by ring

/-- **C54, up-sampling.** Every output is the pixel of its block. -/
theorem C54_upsample {l : PLay K} (L : l.UpOk) {x : List K} (hx : x.length = l.nIn.toNat) :
    ∃ os, upsampleForward l x = .ok { l with output := os } ∧ os.length = l.nOut.toNat ∧
      ∀ k j i : Nat, (k : Int) < l.channels → (j : Int) < l.outH → (i : Int) < l.outW →
        os[(k * l.outH.toNat + j) * l.outW.toNat + i]? = some (some
          (pixel x l.height l.width k ((j : Int) / l.stride) ((i : Int) / l.stride))) := by
  obtain ⟨os, e, hl, hv, _⟩ := forL_write (body := upsampleCell l x)
    (fun t : Nat × Nat × Nat => (t.1 * (l.height * l.stride).toNat + t.2.1) *
      (l.width * l.stride).toNat + t.2.2)
    (fun t => some (x.getD ((t.1 * l.height.toNat + t.2.1 / l.stride.toNat) * l.width.toNat +
      t.2.2 / l.stride.toNat) 0))
    (idx3 l.channels.toNat (l.height * l.stride).toNat (l.width * l.stride).toNat) l.output
    (fun t ht => by rw [L.ol]; exact (up_facts L ht).2.2.2)
    (fun t ht a ha => by
      obtain ⟨f1, f2, f3, f4⟩ := up_facts L ht
      unfold upsampleCell
      rw [f2, rdA_ok (List.getElem?_eq_getElem (by rw [hx]; exact f3))]
      dsimp only
      rw [f1, wrA_ok _ (by rw [ha, L.ol]; exact f4)]
      have : (t.1 * l.height.toNat + t.2.1 / l.stride.toNat) * l.width.toNat +
          t.2.2 / l.stride.toNat < x.length := by rw [hx]; exact f3
      simp [List.getD, this])
    (fun s hs t ht h => by
      obtain ⟨a1, a2, a3⟩ := mem_idx3.1 hs
      obtain ⟨b1, b2, b3⟩ := mem_idx3.1 ht
      obtain ⟨e1, e2, e3⟩ := flat3_inj a2 a3 b2 b3 h
      rw [e1, e2, e3])
  refine ⟨os, ?_, by rw [hl, L.ol], ?_⟩
  · unfold upsampleForward
    rw [e]
  · intro k j i hk hj hi
    have hs := L.st
    have hh := L.h
    have hw := L.w
    rw [L.outH] at hj
    rw [L.outW] at hi
    have := hv (k, j, i) (mem_idx3.2 ⟨by dsimp only; omega, by dsimp only; omega,
      by dsimp only; omega⟩)
    rw [L.outH, L.outW, this, pixel]
    congr 3
    obtain ⟨h, e1⟩ := Int.eq_ofNat_of_zero_le (show 0 ≤ l.height by omega)
    obtain ⟨w, e2⟩ := Int.eq_ofNat_of_zero_le (show 0 ≤ l.width by omega)
    obtain ⟨s, e4⟩ := Int.eq_ofNat_of_zero_le (show 0 ≤ l.stride by omega)
    rw [e1, e2, e4]
    simp only [Int.toNat_natCast]
    rw [show ((i : Int) / (s : Int)) + (w : Int) * ((j : Int) / (s : Int) + (h : Int) * (k : Int)) =
      (((k * h + j / s) * w + i / s : Nat) : Int) from by push_cast; ring, Int.toNat_natCast]

/-- **C54, up-sampling, backward.** The backward pass is the adjoint of the forward pass. -/
theorem C54_upsample_backward {l : PLay K} (L : l.UpOk) {d : List K} (hd : d.length = l.nIn.toNat) :
    ∃ d', upsampleBackward l (some d) = .ok (some d') ∧ d'.length = d.length ∧
      ∀ (x : List K) (l' : PLay K), x.length = l.nIn.toNat → upsampleForward l x = .ok l' →
        inner d' (fun i => x.getD i 0) = inner d (fun i => x.getD i 0) +
          inner l.delta (fun i => (l'.output.getD i none).getD 0) := by
  obtain ⟨d', e, hl, hv⟩ := forL_scatter (body := upsampleBackCell l)
    (fun t : Nat × Nat × Nat => (t.1 * l.height.toNat + t.2.1 / l.stride.toNat) * l.width.toNat +
      t.2.2 / l.stride.toNat)
    (fun t => l.delta.getD ((t.1 * (l.height * l.stride).toNat + t.2.1) *
      (l.width * l.stride).toNat + t.2.2) 0)
    (idx3 l.channels.toNat (l.height * l.stride).toNat (l.width * l.stride).toNat) d
    (fun t ht => by rw [hd]; exact (up_facts L ht).2.2.1)
    (fun t ht a ha => by
      obtain ⟨f1, f2, f3, f4⟩ := up_facts L ht
      have f4' : (t.1 * (l.height * l.stride).toNat + t.2.1) * (l.width * l.stride).toNat + t.2.2 <
          l.delta.length := by rw [L.dl]; exact f4
      unfold upsampleBackCell
      rw [f1, rdA_ok (List.getElem?_eq_getElem f4')]
      dsimp only
      rw [f2, accAt_ok _ (by rw [ha, hd]; exact f3)]
      simp [List.getD, f4'])
  refine ⟨d', ?_, hl, ?_⟩
  · unfold upsampleBackward
    dsimp only
    rw [e]
  · intro x l' hx hf
    obtain ⟨os, ef, _, ho⟩ := C54_upsample L hx
    rw [ef] at hf
    cases hf
    rw [hv]
    congr 1
    have hh := L.h
    have hw := L.w
    have hc := L.c
    have hs := L.st
    have hn : l.nOut.toNat = l.channels.toNat * (l.height * l.stride).toNat *
        (l.width * l.stride).toNat := by
      rw [L.nOut, L.outC, L.outH, L.outW, toNat_mul3 (Int.mul_nonneg (by omega) (by omega))
        (Int.mul_nonneg (by omega) (by omega)) (by omega)]
      ring
    rw [← inner_eq_sum (n := l.channels.toNat * (l.height * l.stride).toNat *
      (l.width * l.stride).toNat) (by rw [L.dl, hn]), ← idx3_flat, List.map_map]
    congr 1
    refine List.map_congr_left fun t ht => ?_
    obtain ⟨h1, h2, h3⟩ := mem_idx3.1 ht
    have := ho t.1 t.2.1 t.2.2 (by omega) (by rw [L.outH]; omega) (by rw [L.outW]; omega)
    rw [L.outH, L.outW] at this
    simp only [Function.comp, List.getD] at this ⊢
    rw [this]
    simp only [Option.getD_some, pixel, List.getD]
    congr 3
    obtain ⟨h, e1⟩ := Int.eq_ofNat_of_zero_le (show 0 ≤ l.height by omega)
    obtain ⟨w, e2⟩ := Int.eq_ofNat_of_zero_le (show 0 ≤ l.width by omega)
    obtain ⟨s, e4⟩ := Int.eq_ofNat_of_zero_le (show 0 ≤ l.stride by omega)
    rw [e1, e2, e4]
    simp only [Int.toNat_natCast]
    rw [show ((t.2.2 : Int) / (s : Int)) + (w : Int) * ((t.2.1 : Int) / (s : Int) +
      (h : Int) * (t.1 : Int)) = (((t.1 * h + t.2.1 / s) * w + t.2.2 / s : Nat) : Int) from by
        push_cast; ring, Int.toNat_natCast]

/-- **C54, max pooling, forward and backward together.** After a forward pass the backward pass
carries the errors `e` of the outputs to the inputs: what it adds has the same inner product with
the image as `e` has with the outputs. -/
theorem C54_maxpool_adjoint {l l' : PLay K} (L : l.MaxOk) {lo : K} {x d e : List K}
    (hx : x.length = l.nIn.toNat) (hlo : ∀ v ∈ x, lo < v) (hf : maxpoolForward lo l x = .ok l')
    (hd : d.length = l.nIn.toNat) (he : e.length = l.nOut.toNat) :
    ∃ d', maxpoolBackward { l' with delta := e } (some d) = .ok (some d') ∧
      d'.length = d.length ∧
      inner d' (fun i => x.getD i 0) = inner d (fun i => x.getD i 0) +
        inner e (fun i => (l'.output.getD i none).getD 0) := by
  obtain ⟨is, os, ef, hi, ho, hall⟩ := C54_maxpool L hx hlo
  rw [ef] at hf
  cases hf
  have hc := L.c
  have hoH : 1 ≤ l.outH := by
    have := L.outH
    have := Int.ediv_nonneg (show 0 ≤ l.height + l.pad - l.size by have := L.fitH; omega)
      (show 0 ≤ l.stride by have := L.st; omega)
    omega
  have hoW : 1 ≤ l.outW := by
    have := L.outW
    have := Int.ediv_nonneg (show 0 ≤ l.width + l.pad - l.size by have := L.fitW; omega)
      (show 0 ≤ l.stride by have := L.st; omega)
    omega
  have hn : l.nOut.toNat = l.channels.toNat * l.outH.toNat * l.outW.toNat := by
    rw [L.nOut, L.outC, toNat_mul3 (by omega) (by omega) (by omega)]
    ring
  have hat : ∀ i < l.nOut.toNat, ∃ m : Nat, is[i]? = some (some (m : Int)) ∧ m < x.length ∧
      os[i]? = some (some (x.getD m 0)) := by
    intro i hi
    have hmem : i ∈ List.range (l.channels.toNat * l.outH.toNat * l.outW.toNat) := by
      rw [← hn]; exact List.mem_range.2 hi
    rw [← idx3_flat] at hmem
    obtain ⟨t, ht, rfl⟩ := List.mem_map.1 hmem
    obtain ⟨h1, h2, h3⟩ := mem_idx3.1 ht
    obtain ⟨y, z, hw, g1, g2, _⟩ := hall t.1 t.2.1 t.2.2 (by omega) (by omega) (by omega)
    obtain ⟨p0, p1⟩ := pix_range hw.y0 hw.y1 hw.z0 hw.z1 (k := t.1) (c := l.channels) (by omega)
    refine ⟨(z + l.width * (y + l.height * (t.1 : Int))).toNat, ?_, ?_, g1⟩
    · rw [g2, Int.toNat_of_nonneg p0]
    · rw [hx, L.nIn]; omega
  obtain ⟨d', e1, e2, e3⟩ := C54_maxpool_backward
    (l := { l with indexes := is, output := os, delta := e })
    ⟨L.h, L.w, L.c, L.s, L.st, L.p, L.covers, L.fitW, L.fitH, L.outW, L.outH, L.outC, L.nIn,
      L.nOut, hi, ho, he⟩ (d := d) (fun i hi' => by
        obtain ⟨m, g1, g2, _⟩ := hat i hi'
        exact ⟨m, g1, by rw [hd, ← hx]; exact g2⟩)
  refine ⟨d', e1, e2, ?_⟩
  rw [e3]
  congr 1
  rw [← inner_eq_sum he, sum_map_range]
  refine sum_congr rfl fun i hi' => ?_
  obtain ⟨m, g1, g2, g3⟩ := hat i (Finset.mem_range.1 hi')
  simp [List.getD, g1, g3]

/-! ## Dropout and noise -/

theorem dropoutGo_spec {g : Rng K R} (p s : K) : ∀ (xs : List K) (r : R),
    (dropoutGo g p s xs r).1.1.length = xs.length ∧
    (dropoutGo g p s xs r).1.2.length = xs.length ∧
    (∀ (i : Nat) (u x : K), (dropoutGo g p s xs r).1.1[i]? = some u → xs[i]? = some x →
      (dropoutGo g p s xs r).1.2[i]? = some (if u < p then 0 else x * s)) ∧
    (g.Open → ∀ u ∈ (dropoutGo g p s xs r).1.1, 0 < u ∧ u < 1)
  | [], r => by simp [dropoutGo]
  | x :: xs, r => by
    obtain ⟨h1, h2, h3, h4⟩ := dropoutGo_spec p s xs (g.uni 0 1 r).2
    simp only [dropoutGo, List.length_cons]
    refine ⟨by rw [h1], by rw [h2], ?_, ?_⟩
    · intro i u v hu hv
      cases i with
      | zero =>
        simp only [List.getElem?_cons_zero, Option.some.injEq] at hu hv ⊢
        rw [hu, hv]
      | succ i =>
        simp only [List.getElem?_cons_succ] at hu hv ⊢
        exact h3 i u v hu hv
    · intro hg u hu
      rcases List.mem_cons.1 hu with rfl | hu
      · exact Rng.uni_range hg zero_lt_one r
      · exact h4 hg u hu

theorem noiseGo_spec {g : Rng K R} (p s : K) : ∀ (xs : List K) (r : R),
    (noiseGo g p s xs r).1.1.length = xs.length ∧
    (noiseGo g p s xs r).1.2.length = xs.length ∧
    (∀ (i : Nat) (u x : K), (noiseGo g p s xs r).1.1[i]? = some u → xs[i]? = some x →
      ∃ r', (noiseGo g p s xs r).1.2[i]? = some (if u < p then x + (g.normal 0 s r').1 else x))
  | [], r => by simp [noiseGo]
  | x :: xs, r => by
    unfold noiseGo
    dsimp only
    by_cases hc : (g.uni 0 1 r).1 < p
    · rw [if_pos hc]
      obtain ⟨h1, h2, h3⟩ := noiseGo_spec (g := g) p s xs (g.normal 0 s (g.uni 0 1 r).2).2
      refine ⟨by simp [h1], by simp [h2], ?_⟩
      intro i u v hu hv
      cases i with
      | zero =>
        simp only [List.getElem?_cons_zero, Option.some.injEq] at hu hv ⊢
        exact ⟨(g.uni 0 1 r).2, by rw [← hu, ← hv, if_pos hc]⟩
      | succ i =>
        simp only [List.getElem?_cons_succ] at hu hv ⊢
        exact h3 i u v hu hv
    · rw [if_neg hc]
      obtain ⟨h1, h2, h3⟩ := noiseGo_spec (g := g) p s xs (g.uni 0 1 r).2
      refine ⟨by simp [h1], by simp [h2], ?_⟩
      intro i u v hu hv
      cases i with
      | zero =>
        simp only [List.getElem?_cons_zero, Option.some.injEq] at hu hv ⊢
        exact ⟨r, by rw [← hu, ← hv, if_neg hc]⟩
      | succ i =>
        simp only [List.getElem?_cons_succ] at hu hv ⊢
        exact h3 i u v hu hv

theorem mask_guard {l : PLay K} (L : l.MaskOk) {x : List K} (hx : x.length = l.nIn.toNat) :
    ¬ ((x.length : Int) < l.nIn ∨ (l.output.length : Int) < l.nIn ∨
      (l.state.length : Int) < l.nIn) := by
  have h1 := L.n
  have h2 := L.nOut
  have h3 := L.ol
  have h4 := L.sl
  rw [hx, h3, h4, h2]
  omega

/-- **C54, dropout and noise without training.** The layer copies its input and draws nothing. -/
theorem C54_mask_off {g : Rng K R} {l : PLay K} (L : l.MaskOk) {x : List K}
    (hx : x.length = l.nIn.toNat) (r : R) :
    dropoutForward g false l x r = .ok ({ l with output := x.map some }, r) ∧
    noiseForward g false l x r = .ok ({ l with output := x.map some }, r) := by
  have hdrop : l.output.drop x.length = [] := by
    apply List.drop_of_length_le
    rw [L.ol, L.nOut, hx]
  unfold dropoutForward noiseForward
  rw [if_neg (mask_guard L hx), if_neg (mask_guard L hx)]
  simp [maskStore, ← hx, hdrop]

/-- **C54, dropout in training.** Every output is zero or the scaled input, as the draw kept in the
layer decides, and the backward pass uses the same draws: it is the adjoint of this forward
pass. -/
theorem C54_dropout {g : Rng K R} {l : PLay K} (L : l.MaskOk) {x : List K}
    (hx : x.length = l.nIn.toNat) (r : R) :
    ∃ us os r', dropoutForward g true l x r =
        .ok ({ l with output := os, state := us }, r') ∧
      us.length = l.nIn.toNat ∧ os.length = l.nIn.toNat ∧
      (g.Open → ∀ u ∈ us, 0 < u ∧ u < 1) ∧
      (∀ i < l.nIn.toNat, os[i]? = some (some
        (if us.getD i 0 < l.probability then 0 else x.getD i 0 * l.scale))) ∧
      ∀ e : List K, e.length = l.nOut.toNat →
        ∃ d', dropoutBackward { l with output := os, state := us, delta := e }
            (some (List.replicate l.nIn.toNat 0)) = .ok (some d') ∧
          d'.length = l.nIn.toNat ∧
          (∀ i < l.nIn.toNat, d'[i]? = some
            (if us.getD i 0 < l.probability then 0 else e.getD i 0 * l.scale)) ∧
          inner d' (fun i => x.getD i 0) = inner e (fun i => (os.getD i none).getD 0) := by
  obtain ⟨h1, h2, h3, h4⟩ := dropoutGo_spec (g := g) l.probability l.scale x r
  generalize hgo : dropoutGo g l.probability l.scale x r = a at h1 h2 h3 h4
  refine ⟨a.1.1, a.1.2.map some, a.2, ?_, by rw [h1, hx], by rw [List.length_map, h2, hx], h4, ?_,
    ?_⟩
  · unfold dropoutForward
    rw [if_neg (mask_guard L hx)]
    dsimp only
    rw [if_pos rfl, List.take_of_length_le (by rw [hx]), hgo]
    have e1 : l.output.drop a.1.2.length = [] := by
      apply List.drop_of_length_le
      rw [L.ol, L.nOut, h2, hx]
    have e2 : l.state.drop a.1.1.length = [] := by
      apply List.drop_of_length_le
      rw [L.sl, L.nOut, h1, hx]
    simp [maskStore, e1, e2]
  · intro i hi
    have a1 : i < a.1.1.length := by rw [h1, hx]; exact hi
    have a2 : i < x.length := by rw [hx]; exact hi
    rw [List.getElem?_map, h3 i _ _ (List.getElem?_eq_getElem a1) (List.getElem?_eq_getElem a2)]
    simp [List.getD, a1, a2]
  · intro e he
    rw [L.nOut] at he
    have hsn : a.1.1.length = l.nIn.toNat := by rw [h1, hx]
    obtain ⟨d', e1, e2, e3⟩ := forL_inv
      (f := dropoutBackCell { l with output := a.1.2.map some, state := a.1.1, delta := e })
      (fun pre (d : List K) => d.length = l.nIn.toNat ∧
        (∀ i ∈ pre, d[i]? = some
          (if a.1.1.getD i 0 < l.probability then 0 else e.getD i 0 * l.scale)) ∧
        ∀ i : Nat, i ∉ pre → i < l.nIn.toNat → d[i]? = some 0)
      (List.range l.nIn.toNat) [] (List.replicate l.nIn.toNat 0)
      ⟨by simp, (fun i h => by cases h), fun i _ h => by
        rw [List.getElem?_replicate, if_pos h]⟩ (by
      rintro pre i hsub _ d ⟨g1, g2, g3⟩
      rw [List.nil_append] at hsub
      have hi : i < l.nIn.toNat := List.mem_range.1 (hsub.subset (by simp))
      have hnp : i ∉ pre := by
        have := hsub.sublist.nodup List.nodup_range
        intro h
        exact (List.nodup_append.1 this).2.2 i h i (by simp) rfl
      have a1 : i < a.1.1.length := by rw [hsn]; exact hi
      have a2 : i < e.length := by rw [he]; exact hi
      refine ⟨d.set i (if a.1.1.getD i 0 < l.probability then 0 else e.getD i 0 * l.scale), ?_,
        by rw [List.length_set, g1], ?_, ?_⟩
      · unfold dropoutBackCell
        dsimp only
        rw [rdA_ok (List.getElem?_eq_getElem a1)]
        dsimp only
        have ea : a.1.1.getD i 0 = a.1.1[i] := by simp [List.getD, a1]
        rw [ea]
        by_cases hc : a.1.1[i] < l.probability
        · rw [if_pos hc, if_pos hc, wrA_ok _ (by rw [g1]; exact hi)]
        · rw [if_neg hc, if_neg hc, rdA_ok (List.getElem?_eq_getElem a2)]
          dsimp only
          rw [accAt_ok _ (by rw [g1]; exact hi)]
          simp [List.getD, g3 i hnp hi, a2]
      · intro j hj
        rw [List.getElem?_set]
        by_cases hji : i = j
        · subst hji
          rw [if_pos rfl, if_pos (by rw [g1]; exact hi)]
        · rw [if_neg hji]
          refine g2 j ?_
          rcases List.mem_append.1 hj with h | h
          · exact h
          · exact absurd (List.mem_singleton.1 h).symm hji
      · intro j hj hjn
        have hji : i ≠ j := fun h => hj (by simp [h])
        rw [List.getElem?_set, if_neg hji]
        exact g3 j (fun h => hj (by simp [h])) hjn)
    rw [List.nil_append] at e3
    refine ⟨d', ?_, e2, fun i hi => e3.1 i (List.mem_range.2 hi), ?_⟩
    · unfold dropoutBackward
      dsimp only
      rw [e1]
    · rw [← inner_eq_sum e2, ← inner_eq_sum he]
      congr 1
      refine List.map_congr_left fun i hi => ?_
      have hi' := List.mem_range.1 hi
      have a1 : i < a.1.1.length := by rw [hsn]; exact hi'
      have a2 : i < x.length := by rw [hx]; exact hi'
      have b1 := e3.1 i hi
      have b2 := h3 i _ _ (List.getElem?_eq_getElem a1) (List.getElem?_eq_getElem a2)
      have ea : a.1.1.getD i 0 = a.1.1[i] := by simp [List.getD, a1]
      rw [ea] at b1
      simp only [List.getD, b1, List.getElem?_map, b2, Option.map_some, Option.getD_some,
        List.getElem?_eq_getElem a2]
      split <;> ring

/-- **C54, noise in training.** Every output is the input, or the input plus a normal draw, as the
draw kept in the layer decides; the backward pass adds the errors unchanged. -/
theorem C54_noise {g : Rng K R} {l : PLay K} (L : l.MaskOk) {x : List K}
    (hx : x.length = l.nIn.toNat) (r : R) :
    (∃ us os r', noiseForward g true l x r = .ok ({ l with output := os, state := us }, r') ∧
      us.length = l.nIn.toNat ∧ os.length = l.nIn.toNat ∧
      ∀ i < l.nIn.toNat, ∃ r1, os[i]? = some (some (if us.getD i 0 < l.probability then
        x.getD i 0 + (g.normal 0 l.scale r1).1 else x.getD i 0))) ∧
    ∀ d : List K, d.length = l.nIn.toNat →
      ∃ d', noiseBackward l (some d) = .ok (some d') ∧ d'.length = d.length ∧
        ∀ v : Nat → K, inner d' v = inner d v + inner l.delta v := by
  constructor
  · obtain ⟨h1, h2, h3⟩ := noiseGo_spec (g := g) l.probability l.scale x r
    generalize hgo : noiseGo g l.probability l.scale x r = a at h1 h2 h3
    refine ⟨a.1.1, a.1.2.map some, a.2, ?_, by rw [h1, hx], by rw [List.length_map, h2, hx], ?_⟩
    · unfold noiseForward
      rw [if_neg (mask_guard L hx)]
      dsimp only
      rw [if_pos rfl, List.take_of_length_le (by rw [hx]), hgo]
      have e1 : l.output.drop a.1.2.length = [] := by
        apply List.drop_of_length_le
        rw [L.ol, L.nOut, h2, hx]
      have e2 : l.state.drop a.1.1.length = [] := by
        apply List.drop_of_length_le
        rw [L.sl, L.nOut, h1, hx]
      simp [maskStore, e1, e2]
    · intro i hi
      have a1 : i < a.1.1.length := by rw [h1, hx]; exact hi
      have a2 : i < x.length := by rw [hx]; exact hi
      obtain ⟨r1, h⟩ := h3 i _ _ (List.getElem?_eq_getElem a1) (List.getElem?_eq_getElem a2)
      refine ⟨r1, ?_⟩
      rw [List.getElem?_map, h]
      simp [List.getD, a1, a2]
  · intro d hd
    have hdl : l.delta.length = l.nIn.toNat := by rw [L.dl, L.nOut]
    obtain ⟨d', e, hl, hv⟩ := forL_scatter (body := noiseBackCell l) (fun i : Nat => i)
      (fun i => l.delta.getD i 0) (List.range l.nIn.toNat) d
      (fun i hi => by rw [hd]; exact List.mem_range.1 hi)
      (fun i hi d1 h1 => by
        have hi := List.mem_range.1 hi
        have a1 : i < l.delta.length := by rw [hdl]; exact hi
        unfold noiseBackCell
        rw [rdA_ok (List.getElem?_eq_getElem a1)]
        dsimp only
        rw [accAt_ok _ (by rw [h1, hd]; exact hi)]
        simp [List.getD, a1])
    refine ⟨d', ?_, hl, ?_⟩
    · unfold noiseBackward
      dsimp only
      rw [e]
    · intro v
      rw [hv v, inner_eq_sum hdl]

/-! ## Construction, copying and resizing -/

theorem guardOutputs_ok {n : Int} {u : Unit} (h : guardOutputs n = .ok u) : 1 ≤ n ∧ n ≤ 2000000 := by
  unfold guardOutputs at h
  split at h
  · cases h
  · omega

theorem size3_ok {a b c n : Int} (h : size3 a b c = .ok n) : n = a * b * c := by
  unfold size3 at h
  split at h
  · cases h
  · cases h; rfl

theorem poolOut_ok {w pad size stride o : Int} (h : poolOut w pad size stride = .ok o)
    (hf : size ≤ w + pad) : o = (w + pad - size) / stride + 1 := by
  unfold poolOut at h
  split at h
  · cases h
  · cases h
    rw [Int.tdiv_eq_ediv_of_nonneg (by omega)]

theorem realloc_length (a : List (Option K)) (n : Nat) : (realloc a n).length = n := by
  simp [realloc]; omega

theorem realloc_length' (a : List (Option Int)) (n : Nat) : (realloc a n).length = n := by
  simp [realloc]; omega

/-- **C54, construction of max pooling layers.** Legal arguments give a legal layer. -/
theorem C54_maxpool_init {a : PArgs K} {l : PLay K} (h : maxpoolInit a = .ok l)
    (hh : 1 ≤ a.height) (hw : 1 ≤ a.width) (hc : 1 ≤ a.channels) (hs : 1 ≤ a.size)
    (hst : 1 ≤ a.stride) (hp : 0 ≤ a.pad) (hcov : (a.pad + 1) / 2 < a.size)
    (hfw : a.size ≤ a.width + a.pad) (hfh : a.size ≤ a.height + a.pad) : l.MaxOk := by
  unfold maxpoolInit at h
  split at h
  · cases h
  rename_i ow e1
  split at h
  · cases h
  rename_i oh e2
  split at h
  · cases h
  rename_i no e3
  split at h
  · cases h
  rename_i ni e4
  split at h
  · cases h
  cases h
  exact ⟨hh, hw, hc, hs, hst, hp, hcov, hfw, hfh, poolOut_ok e1 hfw, poolOut_ok e2 hfh, rfl,
    size3_ok e4, size3_ok e3, by simp, by simp, by simp⟩

/-- **C54, resizing of max pooling layers.** -/
theorem C54_maxpool_resize {l l' : PLay K} (L : l.MaxOk) {w h c : Int}
    (hr : maxpoolResize l w h c = .ok l') (hh : 1 ≤ h) (hw : 1 ≤ w) (hc : 1 ≤ c)
    (hfw : l.size ≤ w + l.pad) (hfh : l.size ≤ h + l.pad) :
    l'.MaxOk ∧ l'.width = w ∧ l'.height = h ∧ l'.channels = c ∧ l'.size = l.size ∧
      l'.stride = l.stride ∧ l'.pad = l.pad := by
  unfold maxpoolResize at hr
  split at hr
  · cases hr
  rename_i ni e1
  split at hr
  · cases hr
  rename_i ow e2
  split at hr
  · cases hr
  rename_i oh e3
  split at hr
  · cases hr
  rename_i no e4
  split at hr
  · cases hr
  cases hr
  exact ⟨⟨hh, hw, hc, L.s, L.st, L.p, L.covers, hfw, hfh, poolOut_ok e2 hfw, poolOut_ok e3 hfh,
    rfl, size3_ok e1, size3_ok e4, realloc_length' _ _, realloc_length _ _, by simp⟩, rfl, rfl,
    rfl, rfl, rfl, rfl⟩

/-- **C54, copies of layers without weights.** A copy has the parameters of its source, is as legal
as it, and starts from zero. -/
theorem C54_pool_copy {l l' : PLay K} :
    (l.MaxOk → maxpoolCopy l = .ok l' → l'.MaxOk ∧
      l' = { l with indexes := l'.indexes, output := l'.output, delta := l'.delta }) ∧
    (l.AvgOk → poolCopy l = .ok l' → l'.AvgOk ∧
      l' = { l with output := l'.output, delta := l'.delta }) ∧
    (l.UpOk → poolCopy l = .ok l' → l'.UpOk ∧
      l' = { l with output := l'.output, delta := l'.delta }) ∧
    (l.MaskOk → maskCopy l = .ok l' → l'.MaskOk ∧
      l' = { l with output := l'.output, delta := l'.delta, state := l'.state }) := by
  refine ⟨?_, ?_, ?_, ?_⟩
  · intro L h
    unfold maxpoolCopy at h
    split at h
    · cases h
    cases h
    exact ⟨⟨L.h, L.w, L.c, L.s, L.st, L.p, L.covers, L.fitW, L.fitH, L.outW, L.outH, L.outC, L.nIn,
      L.nOut, by simp, by simp, by simp⟩, rfl⟩
  · intro L h
    unfold poolCopy at h
    split at h
    · cases h
    cases h
    exact ⟨⟨L.h, L.w, L.c, L.outC, L.nIn, L.nOut, by simp, by simp⟩, rfl⟩
  · intro L h
    unfold poolCopy at h
    split at h
    · cases h
    cases h
    exact ⟨⟨L.h, L.w, L.c, L.st, L.outW, L.outH, L.outC, L.nIn, L.nOut, by simp, by simp⟩, rfl⟩
  · intro L h
    unfold maskCopy maskSet at h
    split at h
    · cases h
    cases h
    refine ⟨⟨L.n, rfl, by simp, by simp, by simp⟩, ?_⟩
    have := L.nOut
    cases l
    simp_all

/-- **C54, construction and resizing of average pooling layers.** -/
theorem C54_avgpool_dims {a : PArgs K} {l l' : PLay K} :
    (avgpoolInit a = .ok l → 1 ≤ a.height → 1 ≤ a.width → l.AvgOk ∧ l.height = a.height ∧
      l.width = a.width ∧ l.channels = a.channels) ∧
    (∀ w h c, l.AvgOk → avgpoolResize l w h c = .ok l' → 1 ≤ h → 1 ≤ w → l'.AvgOk ∧
      l'.height = h ∧ l'.width = w ∧ l'.channels = c) := by
  constructor
  · intro h hh hw
    unfold avgpoolInit at h
    split at h
    · cases h
    rename_i ni e1
    split at h
    · cases h
    rename_i u e2
    cases h
    exact ⟨⟨hh, hw, (guardOutputs_ok e2).1, rfl, size3_ok e1, rfl, by simp, by simp⟩, rfl, rfl,
      rfl⟩
  · intro w h c L hr hh hw
    unfold avgpoolResize at hr
    split at hr
    · cases hr
    rename_i ni e1
    split at hr
    · cases hr
    rename_i u e2
    cases hr
    exact ⟨⟨hh, hw, (guardOutputs_ok e2).1, rfl, size3_ok e1, rfl, realloc_length _ _, by simp⟩,
      rfl, rfl, rfl⟩

theorem upsampleSet_ok {l l' : PLay K} {w h c : Int} (hr : upsampleSet l w h c = .ok l')
    (hst : 1 ≤ l.stride) (hh : 1 ≤ h) (hw : 1 ≤ w) (hc : 1 ≤ c) :
    l'.UpOk ∧ l'.height = h ∧ l'.width = w ∧ l'.channels = c ∧ l'.stride = l.stride := by
  unfold upsampleSet at hr
  split at hr
  · cases hr
  split at hr
  · cases hr
  rename_i no e1
  split at hr
  · cases hr
  rename_i ni e2
  split at hr
  · cases hr
  cases hr
  exact ⟨⟨hh, hw, hc, hst, rfl, rfl, rfl, size3_ok e2, size3_ok e1, by simp, by simp⟩, rfl, rfl,
    rfl, rfl⟩

/-- **C54, construction and resizing of up-sampling layers.** -/
theorem C54_upsample_dims {a : PArgs K} {l l' : PLay K} :
    (upsampleInit a = .ok l → 1 ≤ a.stride → 1 ≤ a.height → 1 ≤ a.width → 1 ≤ a.channels →
      l.UpOk ∧ l.height = a.height ∧ l.width = a.width ∧ l.channels = a.channels ∧
      l.stride = a.stride) ∧
    (∀ w h c, l.UpOk → upsampleResize l w h c = .ok l' → 1 ≤ h → 1 ≤ w → 1 ≤ c → l'.UpOk ∧
      l'.height = h ∧ l'.width = w ∧ l'.channels = c ∧ l'.stride = l.stride) :=
  ⟨fun h hs hh hw hc => upsampleSet_ok h hs hh hw hc,
   fun _ _ _ L hr hh hw hc => upsampleSet_ok hr L.st hh hw hc⟩

/-- **C54, construction and resizing of dropout and noise layers.** They succeed exactly for one to
two million inputs; the outputs of a dropout layer are scaled so that their mean is kept. -/
theorem C54_mask_dims {a : PArgs K} {l : PLay K} {n w h c : Int} :
    ((∃ l', maskResize l n w h c = .ok l') ↔ 1 ≤ n ∧ n ≤ 2000000) ∧
    (∀ l', maskResize l n w h c = .ok l' → l'.MaskOk ∧ l'.nIn = n ∧ l'.outW = w ∧ l'.outH = h ∧
      l'.outC = c ∧ l'.probability = l.probability ∧ l'.scale = l.scale) ∧
    (∀ l', dropoutInit a = .ok l' → l'.MaskOk ∧ l'.nIn = a.nInputs ∧
      l'.probability = a.probability ∧ (a.probability ≠ 1 → (1 - l'.probability) * l'.scale = 1)) ∧
    (∀ l', noiseInit a = .ok l' → l'.MaskOk ∧ l'.nIn = a.nInputs ∧
      l'.probability = a.probability ∧ l'.scale = a.scale) := by
  have key : ∀ (l0 l' : PLay K) (n w h c : Int), maskSet l0 n w h c = .ok l' →
      l'.MaskOk ∧ l'.nIn = n ∧ l'.outW = w ∧ l'.outH = h ∧ l'.outC = c ∧
        l'.probability = l0.probability ∧ l'.scale = l0.scale := by
    intro l0 l' n w h c e
    unfold maskSet at e
    split at e
    · cases e
    rename_i u e2
    cases e
    exact ⟨⟨(guardOutputs_ok e2).1, rfl, by simp, by simp, by simp⟩, rfl, rfl, rfl, rfl, rfl, rfl⟩
  refine ⟨⟨?_, ?_⟩, fun l' e => key _ _ _ _ _ _ e, ?_, ?_⟩
  · rintro ⟨l', e⟩
    unfold maskResize maskSet at e
    split at e
    · cases e
    rename_i u e2
    exact guardOutputs_ok e2
  · intro hn
    unfold maskResize maskSet guardOutputs
    rw [if_neg (by omega)]
    exact ⟨_, rfl⟩
  · intro l' e
    obtain ⟨h1, h2, _, _, _, h3, h4⟩ := key _ _ _ _ _ _ e
    refine ⟨h1, h2, h3, fun hp => ?_⟩
    rw [h3, h4]
    show (1 - a.probability) * (1 / (1 - a.probability)) = 1
    have : 1 - a.probability ≠ 0 := fun h => hp (by linarith)
    field_simp
  · intro l' e
    obtain ⟨h1, h2, _, _, _, h3, h4⟩ := key _ _ _ _ _ _ e
    exact ⟨h1, h2, h3, h4⟩

/-! ## Cases met, and cases that fail -/

/-- A 3 × 3 image with padding one, windows 2 × 2, stride 2. -/
def demoMax : PLay Rat :=
  { height := 3, width := 3, channels := 1, pad := 1, size := 2, stride := 2, outW := 2, outH := 2,
    outC := 1, nIn := 9, nOut := 4, probability := 0, scale := 0,
    indexes := List.replicate 4 (some 0), output := List.replicate 4 (some 0),
    delta := List.replicate 4 0, state := [] }

example : demoMax.MaxOk := by constructor <;> decide

example : Demo.Res.test (maxpoolForward (-1000) demoMax [1, 5, 2, 9, 4, -3, 0, 7, 8]) (fun l =>
    decide (l.output = [some 9, some 2, some 7, some 8] ∧
      l.indexes = [some 3, some 2, some 7, some 8])) = true := by
  decide +kernel

/-- Two channels of 1 × 2 pixels. -/
def demoAvg : PLay Rat :=
  { height := 1, width := 2, channels := 2, pad := 0, size := 0, stride := 0, outW := 1, outH := 1,
    outC := 2, nIn := 4, nOut := 2, probability := 0, scale := 0, indexes := [],
    output := [none, none], delta := [6, 1], state := [] }

example : demoAvg.AvgOk := by constructor <;> decide

example : Demo.Res.test (avgpoolForward demoAvg [1, 5, 2, 9]) (fun l =>
    decide (l.output = [some 3, some (11 / 2)])) = true := by
  decide +kernel

/-- A row of two pixels, enlarged twofold. -/
def demoUp : PLay Rat :=
  { height := 1, width := 2, channels := 1, pad := 0, size := 0, stride := 2, outW := 4, outH := 2,
    outC := 1, nIn := 2, nOut := 8, probability := 0, scale := 0, indexes := [],
    output := List.replicate 8 none, delta := [1, 2, 3, 4, 5, 6, 7, 8], state := [] }

example : demoUp.UpOk := by constructor <;> decide

example : Demo.Res.test (upsampleForward demoUp [1, 5]) (fun l =>
    decide (l.output = [some 1, some 1, some 5, some 5, some 1, some 1, some 5, some 5])) = true := by
  decide +kernel

/-- A dropout layer of two inputs. -/
def demoMask : PLay Rat :=
  { maskNew (1 / 2) 2 with
    nIn := 2, nOut := 2, output := [some 0, some 0], delta := [3, 4], state := [0, 0] }

example : demoMask.MaskOk := by constructor <;> decide

example : Demo.Res.test (dropoutInit (⟨1, 2, 1, 0, 0, 0, 2, 1 / 2, 0⟩ : PArgs Rat))
    (fun l => decide (l.scale = 2)) = true := by decide +kernel

example : Demo.Res.test (maxpoolInit (⟨3, 3, 1, 1, 2, 2, 9, 0, 0⟩ : PArgs Rat))
    (fun l => decide (l = demoMax)) = true := by decide +kernel

example : Demo.Res.test (maxpoolResize demoMax 4 5 2)
    (fun l => decide (l.nOut = 12 ∧ l.outW = 2 ∧ l.outH = 3)) = true := by decide +kernel

/-- **Refuted: pooling is defined for every image.** With padding 2 on each border of an image of
one pixel and windows of one pixel, the accepted arguments give a layer whose first window lies
entirely in the padding: the forward pass ends the program. -/
theorem C54_maxpool_padding_refuted : ∃ (a : PArgs Rat) (l : PLay Rat),
    1 ≤ a.height ∧ 1 ≤ a.width ∧ 1 ≤ a.channels ∧ 1 ≤ a.size ∧ 1 ≤ a.stride ∧ 0 ≤ a.pad ∧
    maxpoolInit a = .ok l ∧ ∀ x : List Rat, maxpoolForward (-1000) l x = .error .exit := by
  refine ⟨⟨1, 1, 1, 2, 1, 1, 1, 0, 0⟩, _, by decide, by decide, by decide, by decide, by decide,
    by decide, rfl, fun x => ?_⟩
  rfl

end Xcsf
