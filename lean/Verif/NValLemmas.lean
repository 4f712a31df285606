import Verif.NValSpec
import Verif.NSeqLemmas
import Verif.NGradGenPool
import Verif.NGradLemmas
import Verif.NGradGenLay
import Verif.NGenLemmas
import Verif.PropsNConv
import Verif.PropsNPool
import Mathlib.Order.ConditionallyCompleteLattice.Basic

/-!
# What a network computes: lemmas
-/

set_option linter.unusedSectionVars false
set_option linter.unusedVariables false

namespace Xcsf
open Finset
variable {R : Type}

theorem image_length {α : Type} (c h w : Nat) (f : Nat → Nat → Nat → α) :
    (image c h w f).length = c * h * w := by
  simp [image]

theorem image_get {α : Type} {c h w : Nat} (f : Nat → Nat → Nat → α) {k i j : Nat} (hk : k < c)
    (hi : i < h) (hj : j < w) : (image c h w f)[(k * h + i) * w + j]? = some (f k i j) := by
  have hlt := flat3_lt hk hi hj
  have e1 : ((k * h + i) * w + j) % w = j := by
    rw [Nat.add_comm, Nat.add_mul_mod_self_right, Nat.mod_eq_of_lt hj]
  have e2 : ((k * h + i) * w + j) / w = k * h + i := by
    rw [Nat.add_comm, Nat.add_mul_div_right _ _ (by omega), Nat.div_eq_of_lt hj, Nat.zero_add]
  have e3 : (k * h + i) / h = k := by
    rw [Nat.add_comm, Nat.add_mul_div_right _ _ (by omega), Nat.div_eq_of_lt hi, Nat.zero_add]
  have e4 : (k * h + i) % h = i := by
    rw [Nat.add_comm, Nat.add_mul_mod_self_right, Nat.mod_eq_of_lt hi]
  unfold image
  rw [List.getElem?_map, List.getElem?_range hlt]
  simp only [Option.map_some, e1, e2, e3, e4]

/-- A list that has the given pixels is the image. -/
theorem image_eq {α : Type} {c h w : Nat} {f : Nat → Nat → Nat → α} {o : List α}
    (hl : o.length = c * h * w)
    (ho : ∀ k < c, ∀ i < h, ∀ j < w, o[(k * h + i) * w + j]? = some (f k i j)) :
    o = image c h w f := by
  refine List.ext_getElem? fun m => ?_
  by_cases hm : m < c * h * w
  · obtain ⟨k, i, j, hk, hi, hj, rfl⟩ := flat3_split hm
    rw [ho k hk i hi j hj, image_get f hk hi hj]
  · rw [List.getElem?_eq_none (by omega), List.getElem?_eq_none (by rw [image_length]; omega)]

theorem image_map {α β : Type} (c h w : Nat) (f : Nat → Nat → Nat → α) (g : α → β) :
    (image c h w f).map g = image c h w fun k i j => g (f k i j) := by
  simp only [image, List.map_map]
  rfl

theorem image_congr {α : Type} {c h w : Nat} {f g : Nat → Nat → Nat → α}
    (H : ∀ k < c, ∀ i < h, ∀ j < w, f k i j = g k i j) : image c h w f = image c h w g :=
  image_eq (image_length ..) fun k hk i hi j hj => by rw [image_get f hk hi hj, H k hk i hi j hj]

theorem sound_shaped {l : CLay ℝ} (S : l.Sound) : l.par.Shaped :=
  ⟨by simpa [CLay.par] using S.wlen, by simpa [CLay.par] using S.nlen, S.fn⟩

/-- A convolutional layer computes the sums over its windows. -/
theorem conv_value {l : VLay ℝ} (L : l.ConvOk) {x : List ℝ} (hx : x.length = l.nIn.toNat) :
    ∃ l', convForward realLibm l x = .ok l' ∧ l' = { l with cells := l'.cells, temp := l'.temp } ∧
      l'.cells.map Cell.out = layVal (.conv l) x := by
  obtain ⟨l', e, q, O, _, h⟩ := C54_conv realLibm l L x hx
  refine ⟨l', e, q, ?_⟩
  have hH : 1 ≤ l.outH := by
    have := Int.ediv_nonneg (show 0 ≤ l.height + 2 * l.pad - l.size by have := L.fitH; omega)
      (show 0 ≤ l.stride by have := L.st; omega)
    rw [L.outH]; omega
  have hW : 1 ≤ l.outW := by
    have := Int.ediv_nonneg (show 0 ≤ l.width + 2 * l.pad - l.size by have := L.fitW; omega)
      (show 0 ≤ l.stride by have := L.st; omega)
    rw [L.outW]; omega
  have hl : l'.cells.length = l.core.nOutputs * l.outH.toNat * l.outW.toNat := by
    have h1 : l'.nOut = l.nOut := by rw [q]
    rw [O.cl, h1, L.nOut, toNat_mul3 (by omega) (by omega) (by omega), Int.toNat_natCast]
    ring_nf
  unfold layVal
  refine image_eq (by rw [List.length_map, hl]) fun k hk i hi j hj => ?_
  obtain ⟨n, c, c', e1, _, e3, e4, e5, _⟩ := h k hk i hi j hj
  have e3' : l'.cells[(k * l.outH.toNat + i) * l.outW.toNat + j]? = some c' := e3
  rw [List.getElem?_map, e3']
  rw [C50_activation_function L.fn.1 L.fn.2, e4, clampK_clip] at e5
  have hb : (l.core.ns.map Neuron.bias).getD k 0 = n.bias := by
    simp [List.getD, e1]
  rw [hb, Option.map_some, Except.ok.inj e5]

theorem maxWin_sup {S : Set ℝ} {v : ℝ} (hv : v ∈ S) (h : ∀ w ∈ S, w ≤ v) : v = sSup S :=
  le_antisymm (le_csSup ⟨v, h⟩ hv) (csSup_le ⟨v, hv⟩ h)

theorem inWin_set {l : PLay ℝ} {is : List (Option Int)} {os : List (Option ℝ)} {i j : Nat}
    {y z : Int} : InWin { l with indexes := is, output := os } i j y z ↔ InWin l i j y z :=
  ⟨fun h => ⟨h.1, h.2, h.3, h.4, h.5, h.6, h.7, h.8⟩,
   fun h => ⟨h.1, h.2, h.3, h.4, h.5, h.6, h.7, h.8⟩⟩

/-- A maxpool layer computes the greatest pixel of each window. -/
theorem maxp_value {l : PLay ℝ} (L : l.MaxOk) {lo : ℝ} {x : List ℝ} (hx : x.length = l.nIn.toNat)
    (ha : ∀ v ∈ x, lo < v) : ∃ is, maxpoolForward lo l x =
      .ok { l with indexes := is, output := (layVal (.maxp l) x).map some } := by
  obtain ⟨is, os, e, _, ho, h⟩ := C54_maxpool L hx ha
  refine ⟨is, ?_⟩
  rw [e]
  have hc := L.c
  have hH : 1 ≤ l.outH := by
    have := Int.ediv_nonneg (show 0 ≤ l.height + l.pad - l.size by have := L.fitH; omega)
      (show 0 ≤ l.stride by have := L.st; omega)
    rw [L.outH]; omega
  have hW : 1 ≤ l.outW := by
    have := Int.ediv_nonneg (show 0 ≤ l.width + l.pad - l.size by have := L.fitW; omega)
      (show 0 ≤ l.stride by have := L.st; omega)
    rw [L.outW]; omega
  have : os = (layVal (.maxp l) x).map some := by
    unfold layVal
    rw [image_map]
    refine image_eq ?_ fun k hk i hi j hj => ?_
    · rw [ho, L.nOut, L.outC, toNat_mul3 (by omega) (by omega) (by omega)]
      ring
    · obtain ⟨y, z, w1, w2, _, w4⟩ := h k i j (by omega) (by omega) (by omega)
      rw [w2]
      congr 2
      exact maxWin_sup ⟨y, z, w1, rfl⟩ (fun v ⟨y', z', h1, h2⟩ => h2 ▸ w4 y' z' h1)
  rw [this]

/-- An average pooling layer computes the mean of each channel. -/
theorem avgp_value {l : PLay ℝ} (L : l.AvgOk) {x : List ℝ} (hx : x.length = l.nIn.toNat) :
    avgpoolForward l x = .ok { l with output := (layVal (.avgp l) x).map some } := by
  obtain ⟨os, e, ho, h⟩ := C54_avgpool L hx
  rw [e]
  have : os = (layVal (.avgp l) x).map some := by
    refine List.ext_getElem? fun k => ?_
    unfold layVal
    by_cases hk : k < l.channels.toNat
    · rw [h k hk, List.map_map, List.getElem?_map, List.getElem?_range hk]
      rfl
    · rw [List.getElem?_eq_none (by rw [ho, L.nOut]; omega), List.getElem?_eq_none (by simp; omega)]
  rw [this]

/-- An up-sampling layer repeats each pixel. -/
theorem ups_value {l : PLay ℝ} (L : l.UpOk) {x : List ℝ} (hx : x.length = l.nIn.toNat) :
    upsampleForward l x = .ok { l with output := (layVal (.ups l) x).map some } := by
  obtain ⟨os, e, ho, h⟩ := C54_upsample L hx
  rw [e]
  have hc := L.c
  have hH : 0 ≤ l.outH := by
    rw [L.outH]; exact Int.mul_nonneg (by have := L.h; omega) (by have := L.st; omega)
  have hW : 0 ≤ l.outW := by
    rw [L.outW]; exact Int.mul_nonneg (by have := L.w; omega) (by have := L.st; omega)
  have : os = (layVal (.ups l) x).map some := by
    unfold layVal
    rw [image_map]
    refine image_eq ?_ fun k hk i hi j hj => ?_
    · rw [ho, L.nOut, L.outC, toNat_mul3 (by omega) (by omega) (by omega)]
      ring
    · exact h k i j (by omega) (by omega) (by omega)
  rw [this]

/-- A softmax layer computes the softmax of its inputs. -/
theorem soft_value {s : SLay ℝ} (O : s.Ok) {z : List ℝ} (hz : z.length = s.nIn.toNat) :
    softForward realLibm s z = .ok { s with output := softmaxSpec s.scale z } := by
  have hn := O.n
  have ho := O.ol
  rw [O.nOut] at ho
  unfold softForward
  rw [if_neg (by omega), List.take_of_length_le (by omega), C51_softmax_function O.sc (by
    intro h
    rw [h] at hz
    simp at hz
    omega)]
  dsimp only
  rw [written_all]
  dsimp only
  rw [List.drop_of_length_le (by simp [softmaxSpec, ho, hz]), List.append_nil]

/-- What a layer computes when it is not trained, and what remains of it. -/
theorem layer_value {k : Lim} {g : Rng ℝ R} {lo : ℝ} {l : GLay ℝ} (L : l.Legal k) {x : List ℝ}
    (hx : x.length = l.nIn.toNat) (ha : ∀ p, l = .maxp p → ∀ v ∈ x, lo < v) (r : R) :
    ∃ l', layerForward g realLibm lo false l x r = .ok (l', r) ∧ l'.outs = .ok (layVal l x) ∧
      l'.memoryless = l.memoryless ∧ (l.memoryless = true → layVal l' = layVal l) := by
  cases l with
  | conn l =>
    obtain ⟨l', e, q1, _, _, _, q5⟩ := connForward_holds (sound_shaped L.1) (x := x)
      (by rw [hx]; show l.nInputs ≤ ((l.nInputs : Nat) : Int).toNat; omega)
    refine ⟨.conn l', by show keepR GLay.conn _ r = _; rw [e]; rfl, ?_, rfl, fun _ => ?_⟩
    · show Except.ok l'.outs = Except.ok (l.par.out x)
      rw [q5.out, q1]
    · show l'.par.out = l.par.out
      rw [q1]
  | recu l =>
    obtain ⟨l', e, _, _, _, _, _, h⟩ := recForward_val L.1 (x := x)
      (by rw [hx]; show l.nInputs ≤ ((l.nInputs : Nat) : Int).toNat; omega)
    refine ⟨.recu l', by show keepR GLay.recu _ r = _; rw [e]; rfl, ?_, rfl, fun h => nomatch h⟩
    show Except.ok l'.out.outs = _
    rw [h]
    rfl
  | lstm l =>
    obtain ⟨l', e, _, _, _, _, _, _, h1, h2⟩ := lstmForward_val L.1 (x := x)
      (by rw [hx]; show l.nInputs ≤ ((l.nInputs : Nat) : Int).toNat; omega)
    refine ⟨.lstm l', by show keepR GLay.lstm _ r = _; rw [e]; rfl, ?_, rfl, fun h => nomatch h⟩
    show Except.ok l'.output = Except.ok (lstmCell _ _ _ _ _ _).2
    rw [h1, ← h2]
  | conv l =>
    obtain ⟨l', e, q, h⟩ := conv_value L.1.ok hx
    refine ⟨.conv l', by show keepR GLay.conv _ r = _; rw [e]; rfl, ?_, rfl, fun _ => ?_⟩
    · show Except.ok (l'.cells.map Cell.out) = _
      rw [h]
    · rw [q]
      rfl
  | maxp l =>
    obtain ⟨is, e⟩ := maxp_value L.1 hx (ha l rfl)
    exact ⟨.maxp { l with indexes := is, output := (layVal (.maxp l) x).map some },
      by show keepR GLay.maxp _ r = _; rw [e]; rfl, by exact written_all _, rfl, fun _ => by
        simp only [layVal, inWin_set]⟩
  | avgp l =>
    exact ⟨.avgp { l with output := (layVal (.avgp l) x).map some },
      by show keepR GLay.avgp _ r = _; rw [avgp_value L.1 hx]; rfl, by exact written_all _, rfl,
      fun _ => rfl⟩
  | ups l =>
    exact ⟨.ups { l with output := (layVal (.ups l) x).map some },
      by show keepR GLay.ups _ r = _; rw [ups_value L.1 hx]; rfl, by exact written_all _, rfl,
      fun _ => rfl⟩
  | drop l =>
    exact ⟨.drop { l with output := x.map some },
      by show liftR GLay.drop _ = _; rw [(C54_mask_off L.1 hx r).1]; rfl, by exact written_all _, rfl,
      fun _ => rfl⟩
  | noise l =>
    exact ⟨.noise { l with output := x.map some },
      by show liftR GLay.noise _ = _; rw [(C54_mask_off L.1 hx r).2]; rfl, by exact written_all _, rfl,
      fun _ => rfl⟩
  | soft l =>
    exact ⟨.soft { l with output := softmaxSpec l.scale x },
      by show keepR GLay.soft _ r = _; rw [soft_value L.1 hx]; rfl, rfl, rfl, fun _ => rfl⟩

/-- Layers that compute the same. -/
def SameVal (l l' : GLay ℝ) : Prop :=
  l'.memoryless = l.memoryless ∧ (l.memoryless = true → layVal l' = layVal l)

theorem sameVal_net : ∀ {ls ls' : List (GLay ℝ)}, List.Forall₂ SameVal ls ls' →
    (∀ l ∈ ls, l.memoryless = true) → netVal ls' = netVal ls
  | [], _, h, _ => by cases h; rfl
  | l :: ls, _, h, hm => by
    cases h with
    | cons h1 h2 =>
      funext x
      have ih := sameVal_net h2 fun l hl => hm l (List.mem_cons_of_mem _ hl)
      show netVal _ (layVal _ x) = netVal ls (layVal l x)
      rw [ih, h1.2 (hm l List.mem_cons_self)]

theorem layVal_length {k : Lim} {g : Rng ℝ R} {lo : ℝ} {l : GLay ℝ} (L : l.Legal k) {x : List ℝ}
    (hx : x.length = l.nIn.toNat) (ha : ∀ p, l = .maxp p → ∀ v ∈ x, lo < v) (r : R) :
    (layVal l x).length = l.dim.n.toNat := by
  obtain ⟨l', e, h, _⟩ := layer_value (g := g) L hx ha r
  have hs := layerForward_step (g := g) (m := realLibm) Real.exp_pos lo false L hx r
  rw [e] at hs
  obtain ⟨K, _, o, ho, hl⟩ := hs
  rw [h] at ho
  cases ho
  rw [hl, K.dim]

/-- What a network computes when it is not trained. -/
theorem net_value {k : Lim} {g : Rng ℝ R} {lo : ℝ} : ∀ (ls : List (GLay ℝ)) (b : Bool) (d : Dim)
    (x : List ℝ) (r : R), NetLegal k b d ls → x.length = d.n.toNat → Above lo ls x →
    ∃ ls', genForward g realLibm lo false ls x r = .ok (ls', r) ∧ List.Forall₂ SameVal ls ls' ∧
      ∀ l, ls'.getLast? = some l → l.outs = .ok (netVal ls x)
  | [], _, _, _, _, _, _, _ => ⟨[], rfl, .nil, fun l h => nomatch h⟩
  | l :: ls, b, d, x, r, ⟨L, A, _, _, N⟩, hx, ⟨a1, a2⟩ => by
    have hx' : x.length = l.nIn.toNat := by rw [A.ins]; exact hx
    obtain ⟨l', e, ho, h1, h2⟩ := layer_value (g := g) L hx' a1 r
    obtain ⟨ls', e', f, hl⟩ := net_value (g := g) ls _ _ (layVal l x) r N
      (layVal_length (g := g) L hx' a1 r) a2
    refine ⟨l' :: ls', ?_, .cons ⟨h1, h2⟩ f, ?_⟩
    · unfold genForward
      rw [e]
      dsimp only
      rw [ho]
      dsimp only
      rw [e']
    · intro q hq
      cases ls' with
      | nil =>
        cases f
        rw [List.getLast?_singleton] at hq
        cases hq
        exact ho
      | cons p ps =>
        rw [List.getLast?_cons_cons] at hq
        exact hl q hq

end Xcsf
