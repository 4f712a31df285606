import Verif.NConvSpec
import Verif.PropsNPool
import Verif.PropsBlas
import Verif.NLayerLemmas

/-!
# Lemmas on convolution
-/

set_option linter.unusedSectionVars false

namespace Xcsf
open Finset
variable {K R : Type} [Field K] [LinearOrder K] [IsStrictOrderedRing K] [FloorRing K]

theorem sum_range_mul (a b : Nat) (f : Nat → K) :
    ∑ q ∈ range (a * b), f q = ∑ i ∈ range a, ∑ j ∈ range b, f (i * b + j) := by
  induction a with
  | zero => simp
  | succ a ih =>
    rw [Nat.succ_mul, sum_range_add, ih, sum_range_succ]

theorem sum_idx2 (a b : Nat) (f : Nat × Nat → K) :
    ((idx2 a b).map f).sum = ∑ i ∈ range a, ∑ j ∈ range b, f (i, j) := by
  unfold idx2
  rw [List.map_flatMap, sum_flatMap', sum_map_range]
  refine sum_congr rfl fun i _ => ?_
  rw [List.map_map, sum_map_range]
  rfl

theorem sum_idx3 (a b c : Nat) (f : Nat × Nat × Nat → K) :
    ((idx3 a b c).map f).sum = ∑ i ∈ range a, ∑ j ∈ range b, ∑ k ∈ range c, f (i, j, k) := by
  unfold idx3
  rw [List.map_flatMap, sum_flatMap', sum_map_range]
  refine sum_congr rfl fun i _ => ?_
  rw [List.map_map, sum_idx2]
  rfl

theorem getD_ofArr {n : Nat} (f : Nat → K) {i : Nat} (h : i < n) : (ofArr n f).getD i 0 = f i := by
  simp [ofArr, List.getD, h]

/-- A loop of conditional additions. -/
theorem forL_scatter_opt {α : Type} {body : α → List K → Res (List K)} (pos : α → Option Nat)
    (val : α → K) (as : List α) (d0 : List K)
    (hr : ∀ t ∈ as, ∀ p, pos t = some p → p < d0.length)
    (hb : ∀ t ∈ as, ∀ d : List K, d.length = d0.length → body t d = .ok (match pos t with
      | none => d
      | some p => d.set p (d.getD p 0 + val t))) :
    ∃ d', forL body as d0 = .ok d' ∧ d'.length = d0.length ∧
      ∀ v : Nat → K, inner d' v = inner d0 v + (as.map fun t => val t * (match pos t with
        | none => 0
        | some p => v p)).sum := by
  refine forL_done (fun pre d => d.length = d0.length ∧ ∀ v : Nat → K, inner d v = inner d0 v +
    (pre.map fun t => val t * (match pos t with
        | none => 0
        | some p => v p)).sum) as d0 ⟨rfl, fun v => by simp⟩ ?_
  rintro pre a hsub d ⟨h1, h2⟩
  have ha : a ∈ as := hsub a (by simp)
  refine ⟨_, hb a ha d h1, ?_, ?_⟩
  · cases e : pos a with
    | none => exact h1
    | some p => simp only [List.length_set]; exact h1
  · intro v
    rw [List.map_append, List.sum_append]
    cases e : pos a with
    | none => simp only [List.map_cons, List.map_nil, List.sum_cons, List.sum_nil, e]; rw [h2 v]; ring
    | some p =>
      simp only [List.map_cons, List.map_nil, List.sum_cons, List.sum_nil, e]
      rw [inner_set (by rw [h1]; exact hr a ha p e), h2 v]
      ring

/-- Column entry `p` for position `i`, `j`. -/
def colPix (x : List K) (h w ks st pad p i j : Nat) : K :=
  padPix x h w (p / ks / ks) ((i : Int) * st + ((p / ks % ks : Nat) : Int) - pad)
    ((j : Int) * st + ((p % ks : Nat) : Int) - pad)

theorem getPixel_ok {x : List K} {h w c pad : Nat} (hx : x.length = h * w * c) {ch : Nat}
    (hc : ch < c) (row col : Int) :
    getPixel x h w row col ch pad = .ok (padPix x h w ch (row - pad) (col - pad)) := by
  unfold getPixel padPix
  by_cases hin : 0 ≤ row - pad ∧ row - pad < h ∧ 0 ≤ col - pad ∧ col - pad < w
  · rw [if_neg (by omega), if_pos hin]
    refine pixel_rd hin.1 hin.2.1 hin.2.2.1 hin.2.2.2 (c := (c : Int)) (by omega) ?_
    rw [hx, ← Nat.cast_mul, ← Nat.cast_mul, Int.toNat_natCast]
  · rw [if_pos (by omega), if_neg hin]

theorem im2col_spec {x : List K} {c h w ks st pad hc wc : Nat} (hx : x.length = h * w * c)
    (hhc : ((h : Int) + 2 * pad - ks).tdiv st + 1 = hc)
    (hwc : ((w : Int) + 2 * pad - ks).tdiv st + 1 = wc) {d : List (Option K)}
    (hd : c * ks * ks * hc * wc ≤ d.length) :
    ∃ d', im2col x c h w ks st pad d = .ok d' ∧ d'.length = d.length ∧
      ∀ p < c * ks * ks, ∀ i < hc, ∀ j < wc,
        d'[(p * hc + i) * wc + j]? = some (some (colPix x h w ks st pad p i j)) := by
  obtain ⟨d', e, hl, hv, _⟩ := forL_write
    (body := im2colCell x (h : Int) w ks st pad (hc : Int) (wc : Int))
    (fun t : Nat × Nat × Nat => (t.1 * hc + t.2.1) * wc + t.2.2)
    (fun t => some (colPix x h w ks st pad t.1 t.2.1 t.2.2))
    (idx3 (c * ks * ks) hc wc) d
    (fun t ht => by
      obtain ⟨h1, h2, h3⟩ := mem_idx3.1 ht
      exact lt_of_lt_of_le (flat3_lt h1 h2 h3) hd)
    (fun t ht a ha => by
      obtain ⟨h1, h2, h3⟩ := mem_idx3.1 ht
      have hch : t.1 / ks / ks < c :=
        Nat.div_lt_of_lt_mul (Nat.div_lt_of_lt_mul (by
          calc t.1 < c * ks * ks := h1
            _ = ks * (ks * c) := by ring))
      unfold im2colCell
      dsimp only
      rw [show ((t.1 : Int).tdiv ks).tdiv ks = ((t.1 / ks / ks : Nat) : Int) from rfl,
        getPixel_ok hx hch]
      dsimp only
      rw [show ((t.1 : Int) * hc + (t.2.1 : Int)) * wc + (t.2.2 : Int) =
        (((t.1 * hc + t.2.1) * wc + t.2.2 : Nat) : Int) from by push_cast; ring,
        wrA_ok _ (by rw [ha]; exact lt_of_lt_of_le (flat3_lt h1 h2 h3) hd)]
      congr 3
      unfold colPix
      rw [show ((t.1 : Int).tdiv ks).tmod ks = ((t.1 / ks % ks : Nat) : Int) from rfl,
        show (t.1 : Int).tmod ks = ((t.1 % ks : Nat) : Int) from rfl, add_comm, add_comm ((t.1 % ks : Nat) : Int)])
    (fun s hs t ht h => by
      obtain ⟨a1, a2, a3⟩ := mem_idx3.1 hs
      obtain ⟨b1, b2, b3⟩ := mem_idx3.1 ht
      obtain ⟨e1, e2, e3⟩ := flat3_inj a2 a3 b2 b3 h
      rw [e1, e2, e3])
  refine ⟨d', ?_, hl, fun p hp i hi j hj => hv (p, i, j) (mem_idx3.2 ⟨hp, hi, hj⟩)⟩
  unfold im2col
  dsimp only
  rw [hhc, hwc, ← Nat.cast_mul, ← Nat.cast_mul]
  simp only [Int.toNat_natCast]
  exact e

theorem col2im_spec {a d : List K} {c h w ks st pad hc wc : Nat} (hd : d.length = h * w * c)
    (hhc : ((h : Int) + 2 * pad - ks).tdiv st + 1 = hc)
    (hwc : ((w : Int) + 2 * pad - ks).tdiv st + 1 = wc)
    (ha : c * ks * ks * hc * wc ≤ a.length) :
    ∃ d', col2im a c h w ks st pad d = .ok d' ∧ d'.length = d.length ∧
      ∀ v : List K, inner d' (fun i => v.getD i 0) = inner d (fun i => v.getD i 0) +
        ∑ p ∈ range (c * ks * ks), ∑ i ∈ range hc, ∑ j ∈ range wc,
          a.getD ((p * hc + i) * wc + j) 0 * colPix v h w ks st pad p i j := by
  let ry : Nat × Nat × Nat → Int := fun t => (t.2.1 : Int) * st + ((t.1 / ks % ks : Nat) : Int) - pad
  let rz : Nat × Nat × Nat → Int := fun t => (t.2.2 : Int) * st + ((t.1 % ks : Nat) : Int) - pad
  let pos : Nat × Nat × Nat → Option Nat := fun t =>
    if 0 ≤ ry t ∧ ry t < h ∧ 0 ≤ rz t ∧ rz t < w then
      some (rz t + w * (ry t + h * ((t.1 / ks / ks : Nat) : Int))).toNat else none
  have hch : ∀ t ∈ idx3 (c * ks * ks) hc wc, t.1 / ks / ks < c := by
    intro t ht
    obtain ⟨h1, h2, h3⟩ := mem_idx3.1 ht
    exact Nat.div_lt_of_lt_mul (Nat.div_lt_of_lt_mul (by
      calc t.1 < c * ks * ks := h1
        _ = ks * (ks * c) := by ring))
  have hpos : ∀ t ∈ idx3 (c * ks * ks) hc wc, ∀ p, pos t = some p → p < d.length ∧
      (p : Int) = rz t + w * (ry t + h * ((t.1 / ks / ks : Nat) : Int)) := by
    intro t ht p hp
    simp only [pos] at hp
    split at hp
    · rename_i hin
      cases hp
      obtain ⟨g1, g2⟩ := pix_range (k := t.1 / ks / ks) hin.1 hin.2.1 hin.2.2.1 hin.2.2.2
        (c := (c : Int)) (by have := hch t ht; omega)
      rw [hd]
      constructor
      · have : ((h * w * c : Nat) : Int) = (h : Int) * w * c := by push_cast; ring
        omega
      · rw [Int.toNat_of_nonneg g1]
    · cases hp
  obtain ⟨d', e, hl, hv⟩ := forL_scatter_opt
    (body := col2imCell a (h : Int) w ks st pad (hc : Int) (wc : Int)) pos
    (fun t => a.getD ((t.1 * hc + t.2.1) * wc + t.2.2) 0) (idx3 (c * ks * ks) hc wc) d
    (fun t ht p hp => (hpos t ht p hp).1)
    (fun t ht d1 h1 => by
      obtain ⟨g1, g2, g3⟩ := mem_idx3.1 ht
      have hlt : (t.1 * hc + t.2.1) * wc + t.2.2 < a.length :=
        lt_of_lt_of_le (flat3_lt g1 g2 g3) ha
      unfold col2imCell
      dsimp only
      rw [show ((t.1 : Int) * hc + (t.2.1 : Int)) * wc + (t.2.2 : Int) =
        (((t.1 * hc + t.2.1) * wc + t.2.2 : Nat) : Int) from by push_cast; ring,
        rdA_ok (List.getElem?_eq_getElem hlt)]
      dsimp only
      rw [show ((t.1 : Int).tdiv ks).tmod ks = ((t.1 / ks % ks : Nat) : Int) from rfl,
        show (t.1 : Int).tmod ks = ((t.1 % ks : Nat) : Int) from rfl,
        show ((t.1 : Int).tdiv ks).tdiv ks = ((t.1 / ks / ks : Nat) : Int) from rfl,
        show ((t.1 / ks % ks : Nat) : Int) + (t.2.1 : Int) * st - pad = ry t from by
          simp only [ry]; ring,
        show ((t.1 % ks : Nat) : Int) + (t.2.2 : Int) * st - pad = rz t from by
          simp only [rz]; ring]
      by_cases hin : 0 ≤ ry t ∧ ry t < h ∧ 0 ≤ rz t ∧ rz t < w
      · obtain ⟨p, hp⟩ : ∃ p, pos t = some p := ⟨_, if_pos hin⟩
        obtain ⟨q1, q2⟩ := hpos t ht _ hp
        rw [if_neg (by omega), hp, ← q2, accAt_ok _ (by rw [h1]; exact q1)]
        simp [List.getD, hlt]
      · have hp : pos t = none := if_neg hin
        rw [if_pos (by omega), hp])
  refine ⟨d', ?_, hl, ?_⟩
  · unfold col2im
    dsimp only
    rw [hhc, hwc, ← Nat.cast_mul, ← Nat.cast_mul]
    simp only [Int.toNat_natCast]
    exact e
  · intro v
    rw [hv, ← sum_idx3 _ _ _ (fun t => a.getD ((t.1 * hc + t.2.1) * wc + t.2.2) 0 *
      colPix v h w ks st pad t.1 t.2.1 t.2.2)]
    congr 2
    refine List.map_congr_left fun t ht => ?_
    congr 1
    unfold colPix padPix
    by_cases hin : 0 ≤ ry t ∧ ry t < h ∧ 0 ≤ rz t ∧ rz t < w
    · have hp : pos t = some (rz t + w * (ry t + h * ((t.1 / ks / ks : Nat) : Int))).toNat :=
        if_pos hin
      rw [hp, if_pos hin]
      rfl
    · have hp : pos t = none := if_neg hin
      rw [hp, if_neg hin]


/-- The dimensions of a layer as natural numbers. -/
structure Dims (l : VLay K) (H W C S T P OH OW : Nat) : Prop where
  h : l.height = (H : Int)
  w : l.width = (W : Int)
  c : l.channels = (C : Int)
  s : l.size = (S : Int)
  t : l.stride = (T : Int)
  p : l.pad = (P : Int)
  oh : l.outH = (OH : Int)
  ow : l.outW = (OW : Int)
  s1 : 1 ≤ S
  hc : ((H : Int) + 2 * P - S).tdiv T + 1 = OH
  wc : ((W : Int) + 2 * P - S).tdiv T + 1 = OW
  one : S = 1 → OH = H ∧ OW = W ∧ T = 1 ∧ P = 0
  fan : (l.size * l.size * l.channels).toNat = C * S * S
  n : (l.outW * l.outH).toNat = OH * OW
  wlen : l.core.ws.length = l.core.nOutputs * (C * S * S)
  blen : l.core.ns.length = l.core.nOutputs
  cl : l.cells.length = l.core.nOutputs * (OH * OW)
  no : l.nOut.toNat = l.core.nOutputs * (OH * OW)
  tl : l.temp.length = C * S * S * OH * OW
  nIn : l.nIn.toNat = H * W * C

theorem VLay.ConvOk.dims {l : VLay K} (L : l.ConvOk) :
    ∃ H W C S T P OH OW, Dims l H W C S T P OH OW := by
  have hh := L.h
  have hw := L.w
  have hc := L.c
  have hs := L.s
  have ht := L.st
  have hp := L.p
  have hfh := L.fitH
  have hfw := L.fitW
  obtain ⟨H, eH⟩ := Int.eq_ofNat_of_zero_le (show 0 ≤ l.height by omega)
  obtain ⟨W, eW⟩ := Int.eq_ofNat_of_zero_le (show 0 ≤ l.width by omega)
  obtain ⟨C, eC⟩ := Int.eq_ofNat_of_zero_le (show 0 ≤ l.channels by omega)
  obtain ⟨S, eS⟩ := Int.eq_ofNat_of_zero_le (show 0 ≤ l.size by omega)
  obtain ⟨T, eT⟩ := Int.eq_ofNat_of_zero_le (show 0 ≤ l.stride by omega)
  obtain ⟨P, eP⟩ := Int.eq_ofNat_of_zero_le (show 0 ≤ l.pad by omega)
  have o1 : 0 ≤ (l.height + 2 * l.pad - l.size) / l.stride :=
    Int.ediv_nonneg (by omega) (by omega)
  have o2 : 0 ≤ (l.width + 2 * l.pad - l.size) / l.stride :=
    Int.ediv_nonneg (by omega) (by omega)
  have hoh := L.outH
  have how := L.outW
  obtain ⟨OH, eOH⟩ := Int.eq_ofNat_of_zero_le (show 0 ≤ l.outH by omega)
  obtain ⟨OW, eOW⟩ := Int.eq_ofNat_of_zero_le (show 0 ≤ l.outW by omega)
  have efan : (l.size * l.size * l.channels).toNat = C * S * S := by
    rw [eS, eC, ← Nat.cast_mul, ← Nat.cast_mul, Int.toNat_natCast]; ring
  have eno : l.nOut.toNat = l.core.nOutputs * (OH * OW) := by
    rw [L.nOut, eOH, eOW, ← Nat.cast_mul, ← Nat.cast_mul, Int.toNat_natCast]; ring
  refine ⟨H, W, C, S, T, P, OH, OW, eH, eW, eC, eS, eT, eP, eOH, eOW, by omega, ?_, ?_, ?_, efan,
    ?_, ?_, L.blen, by rw [L.cl, eno], eno, ?_, ?_⟩
  · rw [Int.tdiv_eq_ediv_of_nonneg (by omega), ← eOH, hoh, eH, eP, eS, eT]
  · rw [Int.tdiv_eq_ediv_of_nonneg (by omega), ← eOW, how, eW, eP, eS, eT]
  · intro h1
    obtain ⟨a, b⟩ := L.one (by omega)
    rw [a, b, Int.ediv_one] at hoh how
    omega
  · rw [eOH, eOW, ← Nat.cast_mul, Int.toNat_natCast]; ring
  · rw [L.wlen, L.fan, efan]
  · rw [L.tl, eOH, eOW, eS, eC]
    rw [← Nat.cast_mul, ← Nat.cast_mul, ← Nat.cast_mul, ← Nat.cast_mul, Int.toNat_natCast]; ring
  · rw [L.nIn, eW, eH, eC, ← Nat.cast_mul, ← Nat.cast_mul, Int.toNat_natCast]; ring

theorem colPix_flat {l : VLay K} {H W C S T P OH OW : Nat} (D : Dims l H W C S T P OH OW)
    (x : List K) {c a b : Nat} (ha : a < S) (hb : b < S) (i j : Nat) :
    colPix x H W S T P ((c * S + a) * S + b) i j = l.under x c a b i j := by
  unfold colPix VLay.under
  have hs := D.s1
  have e1 : ((c * S + a) * S + b) % S = b := by
    rw [Nat.add_comm, Nat.add_mul_mod_self_right, Nat.mod_eq_of_lt hb]
  have e2 : ((c * S + a) * S + b) / S = c * S + a := by
    rw [Nat.add_comm, Nat.add_mul_div_right _ _ (by omega), Nat.div_eq_of_lt hb, Nat.zero_add]
  have e3 : (c * S + a) % S = a := by
    rw [Nat.add_comm, Nat.add_mul_mod_self_right, Nat.mod_eq_of_lt ha]
  have e4 : (c * S + a) / S = c := by
    rw [Nat.add_comm, Nat.add_mul_div_right _ _ (by omega), Nat.div_eq_of_lt ha, Nat.zero_add]
  rw [e1, e2, e3, e4, D.h, D.w, D.t, D.p]

theorem slide_flat {l : VLay K} {H W C S T P OH OW : Nat} (D : Dims l H W C S T P OH OW)
    (x : List K) (f i j : Nat) :
    l.slide x f i j = ∑ p ∈ range (C * S * S),
      (l.core.ws.map Wt.w).getD (f * (C * S * S) + p) 0 * colPix x H W S T P p i j := by
  unfold VLay.slide
  rw [D.c, D.s, Int.toNat_natCast, Int.toNat_natCast, sum_range_mul (C * S) S, sum_range_mul C S]
  refine sum_congr rfl fun c _ => sum_congr rfl fun a ha => sum_congr rfl fun b hb => ?_
  rw [colPix_flat D x (mem_range.1 ha) (mem_range.1 hb)]
  unfold VLay.wpos
  rw [D.c, D.s, Int.toNat_natCast, Int.toNat_natCast]
  congr 2
  ring

/-- The columns of an image. -/
theorem convCols_spec {l : VLay K} {H W C S T P OH OW : Nat} (D : Dims l H W C S T P OH OW)
    {x : List K} (hx : x.length = H * W * C) :
    ∃ b t, convCols l x = .ok (b, t) ∧ t.length = l.temp.length ∧
      (l.size ≠ 1 → ∀ i < t.length, ∃ v, t[i]? = some (some v)) ∧
      ∀ p < C * S * S, ∀ i < OH, ∀ j < OW,
        b.getD (p * (OH * OW) + (i * OW + j)) 0 = colPix x H W S T P p i j := by
  unfold convCols
  dsimp only
  rw [D.fan, D.n]
  by_cases h1 : l.size = 1
  · have hS : S = 1 := by have := D.s; omega
    obtain ⟨a1, a2, a3, a4⟩ := D.one hS
    subst a1 a2 a3 a4 hS
    rw [if_pos h1, if_neg (by rw [hx]; simp only [Nat.mul_one, Nat.not_lt]; rw [Nat.mul_comm])]
    refine ⟨x, l.temp, rfl, rfl, fun h => absurd h1 h, ?_⟩
    intro p hp i hi j hj
    unfold colPix padPix pixel
    rw [if_pos (by push_cast; omega)]
    congr 1
    have : ((j : Int) * ((1 : Nat) : Int) + ((p % 1 : Nat) : Int) - ((0 : Nat) : Int) + (OW : Int) *
        ((i : Int) * ((1 : Nat) : Int) + ((p / 1 % 1 : Nat) : Int) - ((0 : Nat) : Int) +
          (OH : Int) * ((p / 1 / 1 : Nat) : Int))) = ((p * (OH * OW) + (i * OW + j) : Nat) : Int) := by
      rw [Nat.mod_one, Nat.mod_one, Nat.div_one, Nat.div_one]
      push_cast
      ring
    rw [this, Int.toNat_natCast]
  · rw [if_neg h1]
    have htl : l.temp.length = C * S * S * OH * OW := D.tl
    obtain ⟨t, e, hl, hv⟩ := im2col_spec (d := l.temp) hx D.hc D.wc (by rw [htl])
    have hall : ∀ i < t.length, ∃ v, t[i]? = some (some v) := by
      intro i hi
      rw [hl, htl] at hi
      have : i ∈ List.range (C * S * S * OH * OW) := List.mem_range.2 hi
      rw [← idx3_flat] at this
      obtain ⟨u, hu, rfl⟩ := List.mem_map.1 this
      obtain ⟨g1, g2, g3⟩ := mem_idx3.1 hu
      exact ⟨_, hv u.1 g1 u.2.1 g2 u.2.2 g3⟩
    rw [D.c, D.h, D.w, D.s, D.t, D.p, e]
    dsimp only
    have hlen : C * S * S * (OH * OW) = t.length := by rw [hl, htl]; ring
    rw [if_neg (by omega), List.take_of_length_le (by omega)]
    obtain ⟨vs, ew, _, hvs⟩ := written_ok hall
    rw [ew]
    refine ⟨vs, t, rfl, hl, fun _ => hall, ?_⟩
    intro p hp i hi j hj
    have hg := hv p hp i hi j hj
    rw [hvs, Option.map_eq_some_iff] at hg
    obtain ⟨v, g1, g2⟩ := hg
    rw [show p * (OH * OW) + (i * OW + j) = (p * OH + i) * OW + j from by ring, List.getD, g1]
    simpa using g2

/-- What `activateArray` computes. -/
theorem activateArray_at {a : Int} {m : Libm K} : ∀ {ss st os : List K},
    activateArray m a ss = .ok (st, os) → ∀ (i : Nat) (s : K), ss[i]? = some s →
      st[i]? = some (clampK s (-100) 100) ∧
      ∃ o, os[i]? = some o ∧ activate m a (clampK s (-100) 100) = .ok o
  | [], _, _, h, i, s, hs => by simp at hs
  | u :: us, st, os, h, i, s, hs => by
    simp only [activateArray] at h
    split at h
    · cases h
    rename_i o eo
    split at h
    · cases h
    rename_i s1 o1 e1
    cases h
    cases i with
    | zero =>
      simp only [List.getElem?_cons_zero, Option.some.injEq] at hs
      subst hs
      exact ⟨rfl, o, rfl, eo⟩
    | succ i =>
      simp only [List.getElem?_cons_succ] at hs ⊢
      exact activateArray_at e1 i s hs

/-- The loops that add the biases. -/
theorem addBias_at (nb n : Nat) (b : Nat → K) (C : Nat → K) {f q : Nat} (hf : f < nb) (hq : q < n) :
    forN nb (fun i C => forN n (fun j C => arrAdd C (i * n + j) (b i)) C) C (f * n + q) =
      C (f * n + q) + b f := by
  rw [forN_adds nb _ (fun i m => ∑ j ∈ range n, if m = i * n + j then b i else 0)
    (fun i _ C m => forN_arrAdd n (fun j => i * n + j) (fun _ => b i) C m)]
  congr 1
  rw [sum_eq_single f]
  · rw [sum_eq_single q]
    · rw [if_pos rfl]
    · intro j _ hj
      rw [if_neg (by omega)]
    · intro h; exact absurd (mem_range.2 hq) h
  · intro i hi hne
    refine sum_eq_zero fun j hj => ?_
    rw [if_neg]
    intro h
    have hj' := mem_range.1 hj
    have h1 : (f * n + q) / n = f := by
      rw [Nat.add_comm, Nat.add_mul_div_right _ _ (by omega), Nat.div_eq_of_lt hq, Nat.zero_add]
    have h2 : (i * n + j) / n = i := by
      rw [Nat.add_comm, Nat.add_mul_div_right _ _ (by omega), Nat.div_eq_of_lt hj', Nat.zero_add]
    rw [h, h2] at h1
    exact hne h1
  · intro h; exact absurd (mem_range.2 hf) h

theorem opos_flat {l : VLay K} {H W C S T P OH OW : Nat} (D : Dims l H W C S T P OH OW)
    (f i j : Nat) : l.opos f i j = f * (OH * OW) + (i * OW + j) := by
  unfold VLay.opos
  rw [D.oh, D.ow, Int.toNat_natCast, Int.toNat_natCast]
  ring

theorem pix_lt {OH OW i j : Nat} (hi : i < OH) (hj : j < OW) : i * OW + j < OH * OW := by
  calc i * OW + j < i * OW + OW := by omega
    _ = (i + 1) * OW := by ring
    _ ≤ OH * OW := Nat.mul_le_mul_right _ hi

theorem opos_lt {l : VLay K} {H W C S T P OH OW : Nat} (D : Dims l H W C S T P OH OW)
    {f i j : Nat} (hf : f < l.core.nOutputs) (hi : i < OH) (hj : j < OW) :
    l.opos f i j < l.cells.length := by
  rw [opos_flat D, D.cl]
  exact pix_lt hf (pix_lt hi hj)

theorem getD_map_some {α : Type} (g : α → K) {xs : List α} {i : Nat} {a : α} (h : xs[i]? = some a) :
    (xs.map g).getD i 0 = g a := by
  simp [List.getD, h]

/-- What `gradientArray` computes. -/
theorem gradientArray_at {a : Int} {m : Libm K} : ∀ {ss ds gs : List K},
    gradientArray m a ss ds = .ok gs → ∀ (i : Nat) (s d : K), ss[i]? = some s → ds[i]? = some d →
      ∃ g, gradient m a s = .ok g ∧ gs[i]? = some (d * g)
  | [], _, _, h, i, s, d, hs, _ => by simp at hs
  | _ :: _, [], _, h, i, s, d, _, hd => by simp at hd
  | u :: us, e :: es, gs, h, i, s, d, hs, hd => by
    simp only [gradientArray] at h
    split at h
    · cases h
    rename_i g eg
    split at h
    · cases h
    rename_i g1 e1
    cases h
    cases i with
    | zero =>
      simp only [List.getElem?_cons_zero, Option.some.injEq] at hs hd
      subst hs hd
      exact ⟨g, eg, rfl⟩
    | succ i =>
      simp only [List.getElem?_cons_succ] at hs hd ⊢
      exact gradientArray_at e1 i s d hs hd

theorem sumV_range (X : Nat → K) (n : Nat) : sumV X n = ∑ i ∈ range n, X i := by
  unfold sumV
  rw [forN_sum]
  simp

/-- The error handed to the layer before is the adjoint of the sliding-window sum. -/
theorem convDelta_spec {l : VLay K} {H W C S T P OH OW : Nat} (D : Dims l H W C S T P OH OW)
    (F : l.Filled) {d : List K} (hd : d.length = H * W * C) (hz : l.size = 1 → ∀ v ∈ d, v = 0) :
    ∃ t d', convDelta l d = .ok ({ l with temp := t }, d') ∧ t.length = l.temp.length ∧
      (l.size ≠ 1 → ∀ i < t.length, ∃ v, t[i]? = some (some v)) ∧ d'.length = d.length ∧
      ∀ v : List K, v.length = H * W * C →
        inner d' (fun i => v.getD i 0) = inner d (fun i => v.getD i 0) +
          ∑ f ∈ range l.core.nOutputs, ∑ i ∈ range OH, ∑ j ∈ range OW,
            (l.cells.map Cell.delta).getD (l.opos f i j) 0 * l.slide v f i j := by
  have key : ∀ v : List K, (∑ p ∈ range (C * S * S), ∑ i ∈ range OH, ∑ j ∈ range OW,
      (∑ f ∈ range l.core.nOutputs, (l.core.ws.map Wt.w).getD (f * (C * S * S) + p) 0 *
        (l.cells.map Cell.delta).getD (f * (OH * OW) + (i * OW + j)) 0) * colPix v H W S T P p i j) =
      ∑ f ∈ range l.core.nOutputs, ∑ i ∈ range OH, ∑ j ∈ range OW,
        (l.cells.map Cell.delta).getD (l.opos f i j) 0 * l.slide v f i j := by
    intro v
    simp only [slide_flat D, opos_flat D, sum_mul, mul_sum]
    rw [sum_comm' (t' := range OH) (s' := fun _ => range (C * S * S)) (by simp)]
    rw [sum_comm' (s := range l.core.nOutputs) (t' := range OH)
      (s' := fun _ => range l.core.nOutputs) (by simp)]
    refine sum_congr rfl fun i _ => ?_
    rw [sum_comm' (t' := range OW) (s' := fun _ => range (C * S * S)) (by simp)]
    rw [sum_comm' (s := range l.core.nOutputs) (t' := range OW)
      (s' := fun _ => range l.core.nOutputs) (by simp)]
    refine sum_congr rfl fun j _ => ?_
    rw [sum_comm]
    refine sum_congr rfl fun f _ => sum_congr rfl fun p _ => ?_
    ring
  unfold convDelta
  dsimp only
  rw [D.fan, D.n]
  have hg := fun (B : Nat → K) => (C43_gemm true false (C * S * S) (OH * OW) l.core.nOutputs 1
    (arrOf (l.core.ws.map Wt.w)) (C * S * S) (arrOf (l.cells.map Cell.delta)) (OH * OW) 0
    B (OH * OW) (Nat.le_refl _)).1
  by_cases h1 : l.size = 1
  · have hS : S = 1 := by have := D.s; omega
    obtain ⟨a1, a2, a3, a4⟩ := D.one hS
    have hdl : d.length = C * S * S * (OH * OW) := by
      rw [hd, a1, a2, hS]; ring
    rw [if_pos h1, if_neg (by omega)]
    refine ⟨l.temp, _, rfl, rfl, fun h => absurd h1 h, by simp [ofArr], ?_⟩
    intro v hv
    have h0 : inner d (fun i => v.getD i 0) = 0 := by
      unfold inner
      refine sum_eq_zero fun i hi => ?_
      have hi' := mem_range.1 hi
      have : d.getD i 0 = 0 := by
        rw [List.getD, List.getElem?_eq_getElem hi']
        exact hz h1 _ (List.getElem_mem hi')
      rw [this, zero_mul]
    rw [h0, zero_add, ← key v]
    unfold inner
    have hlen : (ofArr d.length (gemm true false (C * S * S) (OH * OW) l.core.nOutputs 1
        (arrOf (l.core.ws.map Wt.w)) (C * S * S) (arrOf (l.cells.map Cell.delta)) (OH * OW) 0
        (arrOf d) (OH * OW))).length = C * S * S * (OH * OW) := by simp [ofArr, hdl]
    rw [hlen, sum_range_mul]
    refine sum_congr rfl fun p hp => ?_
    rw [sum_range_mul]
    refine sum_congr rfl fun i hi => sum_congr rfl fun j hj => ?_
    have hp' := mem_range.1 hp
    have hi' := mem_range.1 hi
    have hj' := mem_range.1 hj
    have hlt : p * (OH * OW) + (i * OW + j) < d.length := by
      rw [hdl]; exact pix_lt hp' (pix_lt hi' hj')
    rw [getD_ofArr _ hlt, hg _ p hp' _ (pix_lt hi' hj'), zero_mul, zero_add, one_mul]
    obtain ⟨b, t, eb, _, _, hb⟩ := convCols_spec D hv
    have hbv : b = v := by
      unfold convCols at eb
      simp only [h1, if_true] at eb
      split at eb
      · cases eb
      · injection eb with eb
        exact (Prod.mk.inj eb).1.symm
    have := hb p hp' i hi' j hj'
    rw [hbv] at this
    show _ * v.getD _ 0 = _
    rw [this]
    congr 1
  · rw [if_neg h1]
    have htl : l.temp.length = C * S * S * (OH * OW) := by rw [D.tl]; ring
    have hfil := F h1
    obtain ⟨vs, ew, _, _⟩ := written_ok hfil
    rw [if_neg (by omega), List.take_of_length_le (by omega), ew]
    dsimp only
    set q := ofArr (C * S * S * (OH * OW)) (gemm true false (C * S * S) (OH * OW) l.core.nOutputs 1
        (arrOf (l.core.ws.map Wt.w)) (C * S * S) (arrOf (l.cells.map Cell.delta)) (OH * OW) 0
        (arrOf vs) (OH * OW)) with hq
    have hql : q.length = C * S * S * (OH * OW) := by simp [hq, ofArr]
    obtain ⟨d', e, hl, hadj⟩ := col2im_spec (a := q) hd D.hc D.wc (by
      rw [hql]; exact Nat.le_of_eq (by ring))
    rw [D.c, D.h, D.w, D.s, D.t, D.p, e]
    refine ⟨_, d', rfl, ?_, ?_, hl, ?_⟩
    · rw [List.length_append, List.length_map, hql, List.length_drop, htl]; omega
    · intro _ i hi
      have hdrop : l.temp.drop (C * S * S * (OH * OW)) = [] :=
        List.drop_eq_nil_of_le (by omega)
      rw [hdrop, List.append_nil] at hi ⊢
      rw [List.length_map] at hi
      exact ⟨q[i], by simp [hi]⟩
    · intro v _
      rw [hadj v, ← key v]
      congr 1
      refine sum_congr rfl fun p hp => sum_congr rfl fun i hi => sum_congr rfl fun j hj => ?_
      have hp' := mem_range.1 hp
      have hi' := mem_range.1 hi
      have hj' := mem_range.1 hj
      have e1 : (p * OH + i) * OW + j = p * (OH * OW) + (i * OW + j) := by ring
      rw [e1, hq, getD_ofArr _ (pix_lt hp' (pix_lt hi' hj')), hg _ p hp' _ (pix_lt hi' hj'),
        zero_mul, zero_add, one_mul]
      congr 1

end Xcsf
