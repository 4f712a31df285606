import Verif.NGradGenNet
import Verif.PropsNPool

/-!
# Lemmas for property C92: layers without weights
-/

set_option linter.unusedSectionVars false

namespace Xcsf
open Finset Filter
variable {R : Type}

theorem written_all {K : Type} : ∀ (xs : List K), written (xs.map some) = .ok xs
  | [] => rfl
  | x :: xs => by simp only [List.map_cons, written, written_all xs]

theorem flat3_split {a b c m : Nat} (h : m < a * b * c) :
    ∃ i j k, i < a ∧ j < b ∧ k < c ∧ m = (i * b + j) * c + k := by
  have : m ∈ List.range (a * b * c) := List.mem_range.2 h
  rw [← idx3_flat] at this
  obtain ⟨t, ht, e⟩ := List.mem_map.1 this
  obtain ⟨h1, h2, h3⟩ := mem_idx3.1 ht
  exact ⟨t.1, t.2.1, t.2.2, h1, h2, h3, e.symm⟩

theorem climbs_free {a b : GLay ℝ} (h : ∀ k, a.part? k = none) (F : GLay ℝ → ℝ) : Climbs a b F := by
  intro k c hc
  rw [h] at hc
  cases hc

/-- A layer without weights whose outputs have derivatives along every curve of inputs. -/
theorem good_free {g : Rng ℝ R} {lo : ℝ} {a l : GLay ℝ} {y o : List ℝ} {r r1 : R}
    (hc : ∀ k, a.part? k = none) (fwd : layerForward g realLibm lo true a y r = .ok (l, r1))
    (outs : l.outs = .ok o) (n : l.dim.n = o.length) (dl : l.deltas.length = o.length)
    (wd : ∀ d : List ℝ, d.length = o.length → (l.withDelta d).outs = .ok o ∧
      (l.withDelta d).deltas = d ∧ (l.withDelta d).dim.n = l.dim.n ∧
      ∀ e : List ℝ, e.length = o.length → (l.withDelta d).withDelta e = l.withDelta e)
    (D : (Nat → ℝ) → Nat → ℝ)
    (hD : ∀ (c : ℝ → List ℝ) (v : ℝ) (c' : Nat → ℝ), c v = y →
      (∀ᶠ u in nhds v, (c u).length = y.length) →
      (∀ i < y.length, HasDerivAt (fun u => (c u).getD i 0) (c' i) v) →
      ∃ f : ℝ → List ℝ, (∀ᶠ u in nhds v, ∃ l', layerForward g realLibm lo true a (c u) r = .ok (l', r1) ∧
        l'.outs = .ok (f u) ∧ (f u).length = o.length) ∧
      ∀ k < o.length, HasDerivAt (fun u => (f u).getD k 0) (D c' k) v)
    (bn : ∀ d : List ℝ, d.length = o.length →
      layerBackward realLibm (l.withDelta d) y none = .ok (l.withDelta d, none))
    (bs : ∀ d : List ℝ, d.length = o.length → ∃ e,
      layerBackward realLibm (l.withDelta d) y (some (List.replicate y.length 0)) =
        .ok (l.withDelta d, some e) ∧ e.length = y.length ∧
      ∀ c' : Nat → ℝ, ∑ j ∈ range y.length, e.getD j 0 * c' j =
        ∑ k ∈ range o.length, d.getD k 0 * D c' k) : GoodLay g lo a y r l o r1 where
  fwd := fwd
  outs := outs
  n := n
  dl := dl
  wd := wd
  near := by
    intro c v c' h1 h2 h3
    obtain ⟨f, h, _⟩ := hD c v c' h1 h2 h3
    filter_upwards [h] with u hu
    obtain ⟨l', e1, e2, _⟩ := hu
    exact ⟨l', _, e1, e2⟩
  nearP := by
    intro k c h
    rw [hc] at h
    cases h
  back := by
    intro d hd C hg
    refine ⟨⟨_, bn d hd, climbs_free hc _⟩, ?_⟩
    obtain ⟨e, e1, e2, e3⟩ := bs d hd
    refine ⟨_, e, e1, e2, climbs_free hc _, ?_⟩
    intro c v c' h1 h2 h3
    obtain ⟨f, hf, hk⟩ := hD c v c' h1 h2 h3
    have hfv : f v = o := by
      obtain ⟨l', q1, q2, _⟩ := hf.self_of_nhds
      rw [h1, fwd] at q1
      cases q1
      rw [outs] at q2
      exact (Except.ok.inj q2).symm
    have := hg f v (D c') hfv (hf.mono fun u ⟨_, _, _, h⟩ => h) hk
    rw [e3]
    refine this.congr_of_eventuallyEq ?_
    filter_upwards [hf] with u hu
    obtain ⟨l', q1, q2, _⟩ := hu
    show C _ = C _
    rw [layOut_eq q1 q2]

/-! ## Dropout and noise -/

theorem dropoutGo_same {g : Rng ℝ R} (p s : ℝ) : ∀ (xs ys : List ℝ) (r : R),
    xs.length = ys.length → (dropoutGo g p s xs r).1.1 = (dropoutGo g p s ys r).1.1 ∧
      (dropoutGo g p s xs r).2 = (dropoutGo g p s ys r).2
  | [], [], r, _ => ⟨rfl, rfl⟩
  | x :: xs, y :: ys, r, h => by
    obtain ⟨h1, h2⟩ := dropoutGo_same (g := g) p s xs ys (g.uni 0 1 r).2 (by simpa using h)
    simp only [dropoutGo, h1, h2, and_self]
  | [], _ :: _, _, h => by simp at h
  | _ :: _, [], _, h => by simp at h

/-- What the noise adds does not depend on the input. -/
theorem noiseGo_same {g : Rng ℝ R} (p s : ℝ) : ∀ (n : Nat) (r : R),
    ∃ (us ws : List ℝ) (r1 : R), ws.length = n ∧ ∀ xs : List ℝ, xs.length = n →
      noiseGo g p s xs r = ((us, List.zipWith (fun x w => x + w) xs ws), r1)
  | 0, r => ⟨[], [], r, rfl, fun xs h => by
      rw [List.length_eq_zero_iff.1 h]
      rfl⟩
  | n + 1, r => by
    by_cases hc : (g.uni 0 1 r).1 < p
    · obtain ⟨us, ws, r1, h1, h2⟩ := noiseGo_same (g := g) p s n (g.normal 0 s (g.uni 0 1 r).2).2
      refine ⟨(g.uni 0 1 r).1 :: us, (g.normal 0 s (g.uni 0 1 r).2).1 :: ws, r1, by simp [h1], ?_⟩
      intro xs hx
      cases xs with
      | nil => simp at hx
      | cons x xs =>
        unfold noiseGo
        dsimp only
        rw [if_pos hc, h2 xs (by simpa using hx)]
        rfl
    · obtain ⟨us, ws, r1, h1, h2⟩ := noiseGo_same (g := g) p s n (g.uni 0 1 r).2
      refine ⟨(g.uni 0 1 r).1 :: us, 0 :: ws, r1, by simp [h1], ?_⟩
      intro xs hx
      cases xs with
      | nil => simp at hx
      | cons x xs =>
        unfold noiseGo
        dsimp only
        rw [if_neg hc, h2 xs (by simpa using hx)]
        simp

theorem sum_getD_inner (e : List ℝ) (n : Nat) (h : e.length = n) (v : Nat → ℝ) :
    ∑ j ∈ range n, e.getD j 0 * v j = inner e v := by
  subst h; rfl

theorem inner_zeros (n : Nat) (v : Nat → ℝ) : inner (List.replicate n (0 : ℝ)) v = 0 := by
  unfold inner
  refine sum_eq_zero fun i _ => ?_
  have : (List.replicate n (0 : ℝ)).getD i 0 = 0 := by
    rw [List.getD, List.getElem?_replicate]; split <;> rfl
  rw [this, zero_mul]

theorem inner_congr {e : List ℝ} {v w : Nat → ℝ} (h : ∀ i < e.length, v i = w i) :
    inner e v = inner e w :=
  sum_congr rfl fun i hi => by rw [h i (mem_range.1 hi)]

theorem pool_wd {l : PLay ℝ} {mk : PLay ℝ → GLay ℝ} {o : List ℝ}
    (h1 : ∀ d, (mk l).withDelta d = mk { l with delta := d })
    (h1' : ∀ d e, (mk { l with delta := d }).withDelta e = mk { l with delta := e })
    (h2 : ∀ d, (mk { l with delta := d }).outs = written l.output)
    (h3 : ∀ d, (mk { l with delta := d }).deltas = d)
    (h4 : ∀ d, (mk { l with delta := d }).dim.n = (mk l).dim.n) (ho : written l.output = .ok o) :
    ∀ d : List ℝ, d.length = o.length → ((mk l).withDelta d).outs = .ok o ∧
      ((mk l).withDelta d).deltas = d ∧ ((mk l).withDelta d).dim.n = (mk l).dim.n ∧
      ∀ e : List ℝ, e.length = o.length → ((mk l).withDelta d).withDelta e = (mk l).withDelta e := by
  intro d _
  rw [h1]
  exact ⟨by rw [h2, ho], h3 d, h4 d, fun e _ => by rw [h1', h1]⟩

theorem good_drop {g : Rng ℝ R} {lo : ℝ} {l : PLay ℝ} {y : List ℝ} (L : l.MaskOk)
    (hy : y.length = l.nIn.toNat) (r : R) : ∃ l' o r1, GoodLay g lo (.drop l) y r l' o r1 := by
  have run : ∀ z : List ℝ, z.length = l.nIn.toNat → dropoutForward g true l z r =
      .ok ({ l with
             output := (dropoutGo g l.probability l.scale z r).1.2.map some
             state := (dropoutGo g l.probability l.scale y r).1.1 },
        (dropoutGo g l.probability l.scale y r).2) := by
    intro z hz
    obtain ⟨h1, h2, _, _⟩ := dropoutGo_spec (g := g) l.probability l.scale z r
    obtain ⟨s1, s2⟩ := dropoutGo_same (g := g) l.probability l.scale z y r (by rw [hz, hy])
    unfold dropoutForward
    rw [if_neg (mask_guard L hz)]
    dsimp only
    rw [if_pos rfl, List.take_of_length_le (by rw [hz])]
    have e1 : l.output.drop (dropoutGo g l.probability l.scale z r).1.2.length = [] := by
      apply List.drop_of_length_le
      rw [L.ol, L.nOut, h2, hz]
    have e2 : l.state.drop (dropoutGo g l.probability l.scale z r).1.1.length = [] := by
      apply List.drop_of_length_le
      rw [L.sl, L.nOut, h1, hz]
    unfold maskStore
    simp only [e1, e2, List.append_nil, s2]
    rw [s1]
  obtain ⟨u1, _, _, _⟩ := dropoutGo_spec (g := g) l.probability l.scale y r
  have val : ∀ z : List ℝ, z.length = l.nIn.toNat → ∀ k < l.nIn.toNat,
      (dropoutGo g l.probability l.scale z r).1.2.getD k 0 =
        if (dropoutGo g l.probability l.scale y r).1.1.getD k 0 < l.probability then 0
        else z.getD k 0 * l.scale := by
    intro z hz k hk
    obtain ⟨h1, h2, h3, _⟩ := dropoutGo_spec (g := g) l.probability l.scale z r
    obtain ⟨s1, s2⟩ := dropoutGo_same (g := g) l.probability l.scale z y r (by rw [hz, hy])
    rw [s1] at h1 h3
    have a1 : k < (dropoutGo g l.probability l.scale y r).1.1.length := by rw [h1, hz]; exact hk
    have a2 : k < z.length := by rw [hz]; exact hk
    have := h3 k _ _ (List.getElem?_eq_getElem a1) (List.getElem?_eq_getElem a2)
    simp [List.getD, this, a1, a2]
  have len : ∀ z : List ℝ, z.length = l.nIn.toNat →
      (dropoutGo g l.probability l.scale z r).1.2.length = l.nIn.toNat := by
    intro z hz
    rw [(dropoutGo_spec (g := g) l.probability l.scale z r).2.1, hz]
  refine ⟨_, _, _, good_free (a := .drop l) (l := .drop _)
    (o := (dropoutGo g l.probability l.scale y r).1.2) (fun k => by cases k <;> rfl)
    (by show liftR GLay.drop _ = _; rw [run y hy]; rfl) (by exact written_all _) ?_ ?_
    (pool_wd (fun _ => rfl) (fun _ _ => rfl) (fun _ => rfl) (fun _ => rfl) (fun _ => rfl)
      (by exact written_all _))
    (fun c' k => if (dropoutGo g l.probability l.scale y r).1.1.getD k 0 < l.probability then 0
        else c' k * l.scale) ?_ (fun d _ => rfl) ?_⟩
  · show l.nOut = _
    rw [len y hy, L.nOut]
    have := L.n
    omega
  · show l.delta.length = _
    rw [len y hy, L.dl, L.nOut]
  · intro c v c' h1 h2 h3
    refine ⟨fun u => (dropoutGo g l.probability l.scale (c u) r).1.2, ?_, ?_⟩
    · filter_upwards [h2] with u hu
      rw [hy] at hu
      refine ⟨_, by show liftR GLay.drop _ = _; rw [run _ hu]; rfl, by exact written_all _, ?_⟩
      rw [len _ hu, len y hy]
    · intro k hk
      rw [len y hy] at hk
      have hd := h3 k (by rw [hy]; exact hk)
      have ev : (fun u => (dropoutGo g l.probability l.scale (c u) r).1.2.getD k 0) =ᶠ[nhds v]
          fun u => if (dropoutGo g l.probability l.scale y r).1.1.getD k 0 < l.probability then 0
            else (c u).getD k 0 * l.scale := by
        filter_upwards [h2] with u hu
        exact val _ (by rw [hu, hy]) k hk
      refine HasDerivAt.congr_of_eventuallyEq ?_ ev
      split
      · exact hasDerivAt_const _ _
      · exact hd.mul_const _
  · intro d hd
    rw [len y hy] at hd
    obtain ⟨us, os, r', e0, _, _, _, _, hb⟩ := C54_dropout (g := g) L hy r
    rw [run y hy] at e0
    obtain ⟨e1, e2⟩ := Prod.mk.inj (Except.ok.inj e0)
    have eo : (dropoutGo g l.probability l.scale y r).1.2.map some = os :=
      congrArg PLay.output e1
    have eu : (dropoutGo g l.probability l.scale y r).1.1 = us := congrArg PLay.state e1
    obtain ⟨e, q1, q2, q3, _⟩ := hb d (by rw [hd, L.nOut])
    refine ⟨e, ?_, by rw [q2, hy], ?_⟩
    · show backOnly _ (dropoutBackward _ _) = _
      rw [hy, eo, eu]
      show backOnly _ (dropoutBackward { l with output := os, state := us, delta := d } _) = _
      rw [q1]
      rfl
    · intro c'
      rw [hy, len y hy]
      refine sum_congr rfl fun k hk => ?_
      have := q3 k (mem_range.1 hk)
      rw [List.getD, this, eu, Option.getD_some]
      split <;> ring

theorem good_noise {g : Rng ℝ R} {lo : ℝ} {l : PLay ℝ} {y : List ℝ} (L : l.MaskOk)
    (hy : y.length = l.nIn.toNat) (r : R) : ∃ l' o r1, GoodLay g lo (.noise l) y r l' o r1 := by
  obtain ⟨us, ws, r1, hw, hgo⟩ := noiseGo_same (g := g) l.probability l.scale l.nIn.toNat r
  have hus : us.length = l.nIn.toNat := by
    have := (noiseGo_spec (g := g) l.probability l.scale y r).1
    rw [hgo y hy] at this
    rw [← hy]; exact this
  have len : ∀ z : List ℝ, z.length = l.nIn.toNat →
      (List.zipWith (fun x w => x + w) z ws).length = l.nIn.toNat := by
    intro z hz
    simp [hz, hw]
  have run : ∀ z : List ℝ, z.length = l.nIn.toNat → noiseForward g true l z r =
      .ok ({ l with
             output := (List.zipWith (fun x w => x + w) z ws).map some
             state := us }, r1) := by
    intro z hz
    unfold noiseForward
    rw [if_neg (mask_guard L hz)]
    dsimp only
    rw [if_pos rfl, List.take_of_length_le (by rw [hz]), hgo z hz]
    have e1 : l.output.drop (List.zipWith (fun x w => x + w) z ws).length = [] := by
      apply List.drop_of_length_le
      rw [L.ol, L.nOut, len z hz]
    have e2 : l.state.drop us.length = [] := by
      apply List.drop_of_length_le
      rw [L.sl, L.nOut, hus]
    unfold maskStore
    simp only [e1, e2, List.append_nil]
  have val : ∀ z : List ℝ, z.length = l.nIn.toNat → ∀ k < l.nIn.toNat,
      (List.zipWith (fun x w => x + w) z ws).getD k 0 = z.getD k 0 + ws.getD k 0 := by
    intro z hz k hk
    simp [List.getD, hz, hw, hk]
  refine ⟨_, _, _, good_free (a := .noise l) (l := .noise _)
    (o := List.zipWith (fun x w => x + w) y ws) (fun k => by cases k <;> rfl)
    (by show liftR GLay.noise _ = _; rw [run y hy]; rfl) (by exact written_all _) ?_ ?_
    (pool_wd (fun _ => rfl) (fun _ _ => rfl) (fun _ => rfl) (fun _ => rfl) (fun _ => rfl)
      (by exact written_all _))
    (fun c' k => c' k) ?_ (fun d _ => rfl) ?_⟩
  · show l.nOut = _
    rw [len y hy, L.nOut]
    have := L.n
    omega
  · show l.delta.length = _
    rw [len y hy, L.dl, L.nOut]
  · intro c v c' h1 h2 h3
    refine ⟨fun u => List.zipWith (fun x w => x + w) (c u) ws, ?_, ?_⟩
    · filter_upwards [h2] with u hu
      rw [hy] at hu
      refine ⟨_, by show liftR GLay.noise _ = _; rw [run _ hu]; rfl, by exact written_all _, ?_⟩
      rw [len _ hu, len y hy]
    · intro k hk
      rw [len y hy] at hk
      have hd := h3 k (by rw [hy]; exact hk)
      have ev : (fun u => (List.zipWith (fun x w => x + w) (c u) ws).getD k 0) =ᶠ[nhds v]
          fun u => (c u).getD k 0 + ws.getD k 0 := by
        filter_upwards [h2] with u hu
        exact val _ (by rw [hu, hy]) k hk
      refine HasDerivAt.congr_of_eventuallyEq ?_ ev
      exact hd.add_const _
  · intro d hd
    rw [len y hy] at hd
    have L' : PLay.MaskOk { l with
        output := (List.zipWith (fun x w => x + w) y ws).map some, state := us, delta := d } :=
      ⟨L.n, L.nOut, by show List.length _ = _; rw [List.length_map, len y hy, L.nOut],
        by show d.length = _; rw [hd, L.nOut], by show us.length = _; rw [hus, L.nOut]⟩
    obtain ⟨_, hb⟩ := C54_noise (g := g) L' (x := y) hy r
    obtain ⟨e, q1, q2, q3⟩ := hb (List.replicate l.nIn.toNat 0) (by simp)
    refine ⟨e, ?_, by rw [q2, hy, List.length_replicate], ?_⟩
    · show backOnly _ (noiseBackward _ _) = _
      rw [hy]
      exact (congrArg (backOnly _) q1).trans rfl
    · intro c'
      rw [sum_getD_inner e _ (by rw [q2, hy, List.length_replicate]), q3, inner_zeros, zero_add,
        len y hy, sum_getD_inner d _ hd]

/-! ## Average pooling and up-sampling -/

theorem good_avg {g : Rng ℝ R} {lo : ℝ} {l : PLay ℝ} {y : List ℝ} (L : l.AvgOk)
    (hy : y.length = l.nIn.toNat) (r : R) : ∃ l' o r1, GoodLay g lo (.avgp l) y r l' o r1 := by
  have hn0 : 0 ≤ l.height * l.width := Int.mul_nonneg (by have := L.h; omega) (by have := L.w; omega)
  have hil : l.nIn.toNat = (l.height * l.width).toNat * l.channels.toNat := by
    rw [L.nIn, toNat_mul2 hn0 (by have := L.c; omega)]
  set N := (l.height * l.width).toNat with hN
  let f : List ℝ → List ℝ := fun z => (List.range l.channels.toNat).map fun k =>
    (∑ i ∈ range N, z.getD (k * N + i) 0) / (N : ℝ)
  have len : ∀ z, (f z).length = l.channels.toNat := fun z => by simp [f]
  have val : ∀ z k, k < l.channels.toNat → (f z).getD k 0 =
      (∑ i ∈ range N, z.getD (k * N + i) 0) / (N : ℝ) := fun z k hk => by
    simp [f, List.getD, hk]
  have run : ∀ z : List ℝ, z.length = l.nIn.toNat →
      avgpoolForward l z = .ok { l with output := (f z).map some } := by
    intro z hz
    obtain ⟨os, e, h1, h2⟩ := C54_avgpool L hz
    rw [e]
    congr 2
    refine List.ext_getElem? fun k => ?_
    by_cases hk : k < l.channels.toNat
    · rw [h2 k hk]
      simp [f, hk, ← hN]
    · rw [List.getElem?_eq_none (by rw [h1, L.nOut]; omega),
        List.getElem?_eq_none (by rw [List.length_map, len]; omega)]
  have pos : ∀ k < l.channels.toNat, ∀ i < N, k * N + i < l.nIn.toNat := by
    intro k hk i hi
    rw [hil]
    exact flat2_lt hk hi (Nat.le_of_eq (Nat.mul_comm _ _))
  refine ⟨_, _, r, good_free (a := .avgp l) (l := .avgp _) (o := f y) (fun k => by cases k <;> rfl)
    (by show keepR GLay.avgp _ r = _; rw [run y hy]; rfl) (by exact written_all _) ?_ ?_
    (pool_wd (fun _ => rfl) (fun _ _ => rfl) (fun _ => rfl) (fun _ => rfl) (fun _ => rfl)
      (by exact written_all _))
    (fun c' k => (∑ i ∈ range N, c' (k * N + i)) / (N : ℝ)) ?_ (fun d _ => rfl) ?_⟩
  · show l.nOut = _
    rw [len, L.nOut]
    have := L.c
    omega
  · show l.delta.length = _
    rw [len, L.dl, L.nOut]
  · intro c v c' h1 h2 h3
    refine ⟨fun u => f (c u), ?_, ?_⟩
    · filter_upwards [h2] with u hu
      rw [hy] at hu
      refine ⟨_, by show keepR GLay.avgp _ r = _; rw [run _ hu]; rfl, by exact written_all _, ?_⟩
      rw [len, len]
    · intro k hk
      rw [len] at hk
      have e : (fun u => (f (c u)).getD k 0) = fun u =>
          (∑ i ∈ range N, (c u).getD (k * N + i) 0) / (N : ℝ) := funext fun u => val _ k hk
      rw [e]
      refine HasDerivAt.div_const (HasDerivAt.fun_sum fun i hi => ?_) _
      exact h3 _ (by rw [hy]; exact pos k hk i (mem_range.1 hi))
  · intro d hd
    rw [len] at hd
    have L' : ({ l with output := (f y).map some, delta := d } : PLay ℝ).AvgOk :=
      ⟨L.h, L.w, L.c, L.outC, L.nIn, L.nOut,
        by show List.length _ = _; rw [List.length_map, len, L.nOut],
        by show d.length = _; rw [hd, L.nOut]⟩
    obtain ⟨e, q1, q2, q3⟩ := C54_avgpool_backward L' (d := List.replicate l.nIn.toNat 0) (by simp)
    refine ⟨e, ?_, by rw [q2, hy, List.length_replicate], ?_⟩
    · show backOnly _ (avgpoolBackward _ _) = _
      rw [hy]
      exact (congrArg (backOnly _) q1).trans rfl
    · intro c'
      have hrun : avgpoolForward ({ l with output := (f y).map some, delta := d } : PLay ℝ)
          (ofArr l.nIn.toNat c') = .ok { l with
            output := (f (ofArr l.nIn.toNat c')).map some, delta := d } := by
        obtain ⟨os, e, h1, h2⟩ := C54_avgpool L' (x := ofArr l.nIn.toNat c') (by simp [ofArr])
        rw [e]
        congr 2
        refine List.ext_getElem? fun k => ?_
        by_cases hk : k < l.channels.toNat
        · rw [h2 k hk]
          simp [f, hk]
          rfl
        · rw [List.getElem?_eq_none (by rw [h1]; show l.nOut.toNat ≤ k; rw [L.nOut]; omega),
            List.getElem?_eq_none (by rw [List.length_map, len]; omega)]
      have := q3 (ofArr l.nIn.toNat c') _ (by simp [ofArr]) hrun
      rw [inner_zeros, zero_add] at this
      have el : e.length = l.nIn.toNat := by rw [q2, List.length_replicate]
      rw [sum_getD_inner e _ (by rw [el, hy]), len, sum_getD_inner d _ hd]
      rw [inner_congr (v := fun i => (ofArr l.nIn.toNat c').getD i 0) (w := c') (fun i hi => by
        rw [el] at hi
        exact arrOf_ofArr c' hi)] at this
      rw [this]
      refine inner_congr fun k hk => ?_
      have hk' : k < l.channels.toNat := by
        have : k < d.length := hk
        omega
      have : ((((f (ofArr l.nIn.toNat c')).map some).getD k none).getD 0) =
          (f (ofArr l.nIn.toNat c')).getD k 0 := by
        simp [List.getD, len, hk']
      show (((f (ofArr l.nIn.toNat c')).map some).getD k none).getD 0 = _
      rw [this, val _ k hk']
      congr 1
      refine sum_congr rfl fun i hi => ?_
      exact arrOf_ofArr c' (pos k hk' i (mem_range.1 hi))

theorem good_ups {g : Rng ℝ R} {lo : ℝ} {l : PLay ℝ} {y : List ℝ} (L : l.UpOk)
    (hy : y.length = l.nIn.toNat) (r : R) : ∃ l' o r1, GoodLay g lo (.ups l) y r l' o r1 := by
  have hh := L.h
  have hw := L.w
  have hc := L.c
  have hs := L.st
  have hH : 0 ≤ l.outH := by rw [L.outH]; exact Int.mul_nonneg (by omega) (by omega)
  have hW : 0 ≤ l.outW := by rw [L.outW]; exact Int.mul_nonneg (by omega) (by omega)
  have hno : l.nOut.toNat = l.channels.toNat * l.outH.toNat * l.outW.toNat := by
    rw [L.nOut, L.outC, toNat_mul3 hH hW (by omega)]
    ring
  have sel : ∀ m, ∃ q, m < l.nOut.toNat → q < l.nIn.toNat ∧
      ∀ (z : List ℝ) (os : List (Option ℝ)), z.length = l.nIn.toNat →
        (∀ k j i : Nat, (k : Int) < l.channels → (j : Int) < l.outH → (i : Int) < l.outW →
          os[(k * l.outH.toNat + j) * l.outW.toNat + i]? = some (some
            (pixel z l.height l.width k ((j : Int) / l.stride) ((i : Int) / l.stride)))) →
        os[m]? = some (some (z.getD q 0)) := by
    intro m
    by_cases hm : m < l.nOut.toNat
    · rw [hno] at hm
      obtain ⟨k, j, i, hk, hj, hi, rfl⟩ := flat3_split hm
      refine ⟨((i : Int) / l.stride + l.width * ((j : Int) / l.stride + l.height * (k : Int))).toNat,
        fun _ => ⟨?_, fun z os hz h => h k j i (by omega) (by omega) (by omega)⟩⟩
      have hj' : (j : Int) < l.height * l.stride := by rw [← L.outH]; omega
      have hi' : (i : Int) < l.width * l.stride := by rw [← L.outW]; omega
      obtain ⟨p1, p2⟩ := pix_range (h := l.height) (w := l.width) (c := l.channels) (k := k)
        (y := (j : Int) / l.stride) (z := (i : Int) / l.stride)
        (Int.ediv_nonneg (by omega) (by omega))
        (Int.ediv_lt_of_lt_mul (by omega) hj')
        (Int.ediv_nonneg (by omega) (by omega))
        (Int.ediv_lt_of_lt_mul (by omega) hi') (by omega)
      rw [← L.nIn] at p2
      omega
    · exact ⟨0, fun h => absurd h hm⟩
  choose q hq using sel
  let f : List ℝ → List ℝ := fun z => (List.range l.nOut.toNat).map fun m => z.getD (q m) 0
  have len : ∀ z, (f z).length = l.nOut.toNat := fun z => by simp [f]
  have val : ∀ z m, m < l.nOut.toNat → (f z).getD m 0 = z.getD (q m) 0 := fun z m hm => by
    simp [f, List.getD, hm]
  have run : ∀ (d : List ℝ) (os0 : List (Option ℝ)), d.length = l.nOut.toNat →
      os0.length = l.nOut.toNat → ∀ z : List ℝ, z.length = l.nIn.toNat →
      upsampleForward { l with output := os0, delta := d } z =
        .ok { l with output := (f z).map some, delta := d } := by
    intro d os0 hd ho z hz
    have L' : PLay.UpOk { l with output := os0, delta := d } :=
      ⟨L.h, L.w, L.c, L.st, L.outW, L.outH, L.outC, L.nIn, L.nOut, ho, hd⟩
    obtain ⟨os, e, h1, h2⟩ := C54_upsample L' hz
    rw [e]
    congr 2
    refine List.ext_getElem? fun m => ?_
    by_cases hm : m < l.nOut.toNat
    · rw [(hq m hm).2 z os hz h2]
      simp [f, hm]
    · rw [List.getElem?_eq_none (by rw [h1]; show l.nOut.toNat ≤ m; omega),
        List.getElem?_eq_none (by rw [List.length_map, len]; omega)]
  have run0 : ∀ z : List ℝ, z.length = l.nIn.toNat →
      upsampleForward l z = .ok { l with output := (f z).map some } :=
    fun z hz => run l.delta l.output L.dl L.ol z hz
  refine ⟨_, _, r, good_free (a := .ups l) (l := .ups _) (o := f y) (fun k => by cases k <;> rfl)
    (by show keepR GLay.ups _ r = _; rw [run0 y hy]; rfl) (by exact written_all _) ?_ ?_
    (pool_wd (fun _ => rfl) (fun _ _ => rfl) (fun _ => rfl) (fun _ => rfl) (fun _ => rfl)
      (by exact written_all _))
    (fun c' m => c' (q m)) ?_ (fun d _ => rfl) ?_⟩
  · show l.nOut = _
    have : 0 ≤ l.nOut := by
      rw [L.nOut, L.outC]; exact Int.mul_nonneg (Int.mul_nonneg hH hW) (by omega)
    rw [len]
    omega
  · show l.delta.length = _
    rw [len, L.dl]
  · intro c v c' h1 h2 h3
    refine ⟨fun u => f (c u), ?_, ?_⟩
    · filter_upwards [h2] with u hu
      rw [hy] at hu
      refine ⟨_, by show keepR GLay.ups _ r = _; rw [run0 _ hu]; rfl, by exact written_all _, ?_⟩
      rw [len, len]
    · intro k hk
      rw [len] at hk
      have e : (fun u => (f (c u)).getD k 0) = fun u => (c u).getD (q k) 0 :=
        funext fun u => val _ k hk
      rw [e]
      exact h3 _ (by rw [hy]; exact (hq k hk).1)
  · intro d hd
    rw [len] at hd
    have L' : PLay.UpOk { l with output := (f y).map some, delta := d } :=
      ⟨L.h, L.w, L.c, L.st, L.outW, L.outH, L.outC, L.nIn, L.nOut,
        by show List.length _ = _; rw [List.length_map, len],
        by show d.length = _; rw [hd]⟩
    obtain ⟨e, q1, q2, q3⟩ := C54_upsample_backward L' (d := List.replicate l.nIn.toNat 0) (by simp)
    refine ⟨e, ?_, by rw [q2, hy, List.length_replicate], ?_⟩
    · show backOnly _ (upsampleBackward _ _) = _
      rw [hy]
      exact (congrArg (backOnly _) q1).trans rfl
    · intro c'
      have := q3 (ofArr l.nIn.toNat c') _ (by simp [ofArr])
        (run d _ hd (by rw [List.length_map, len]) (ofArr l.nIn.toNat c') (by simp [ofArr]))
      rw [inner_zeros, zero_add] at this
      have el : e.length = l.nIn.toNat := by rw [q2, List.length_replicate]
      rw [sum_getD_inner e _ (by rw [el, hy]), len, sum_getD_inner d _ hd]
      rw [inner_congr (v := fun i => (ofArr l.nIn.toNat c').getD i 0) (w := c') (fun i hi => by
        rw [el] at hi
        exact arrOf_ofArr c' hi)] at this
      rw [this]
      refine inner_congr fun k hk => ?_
      have hk' : k < l.nOut.toNat := by
        have : k < d.length := hk
        omega
      have : ((((f (ofArr l.nIn.toNat c')).map some).getD k none).getD 0) =
          (f (ofArr l.nIn.toNat c')).getD k 0 := by
        simp [List.getD, len, hk']
      show (((f (ofArr l.nIn.toNat c')).map some).getD k none).getD 0 = _
      rw [this, val _ k hk']
      exact arrOf_ofArr c' (hq k hk').1

/-! ## Max pooling -/

/-- Along a curve, strict inequalities between coordinates persist near the point. -/
theorem near_lt {c : ℝ → List ℝ} {v : ℝ} {c' : Nat → ℝ} {n : Nat}
    (hd : ∀ i < n, HasDerivAt (fun u => (c u).getD i 0) (c' i) v) :
    ∀ᶠ u in nhds v, ∀ i ∈ range n, ∀ j ∈ range n, (c v).getD i 0 < (c v).getD j 0 →
      (c u).getD i 0 < (c u).getD j 0 := by
  refine (Finset.eventually_all (range n)).2 fun i hi => ?_
  refine (Finset.eventually_all (range n)).2 fun j hj => ?_
  by_cases h : (c v).getD i 0 < (c v).getD j 0
  · have := (hd i (mem_range.1 hi)).continuousAt.eventually_lt
      (hd j (mem_range.1 hj)).continuousAt h
    filter_upwards [this] with u hu
    exact fun _ => hu
  · exact Eventually.of_forall fun u hu => absurd hu h

theorem near_lo {c : ℝ → List ℝ} {v lo : ℝ} {c' : Nat → ℝ} {n : Nat}
    (hd : ∀ i < n, HasDerivAt (fun u => (c u).getD i 0) (c' i) v)
    (h : ∀ i < n, lo < (c v).getD i 0) :
    ∀ᶠ u in nhds v, ∀ i ∈ range n, lo < (c u).getD i 0 := by
  refine (Finset.eventually_all (range n)).2 fun i hi => ?_
  exact (hd i (mem_range.1 hi)).continuousAt.eventually_const_lt (h i (mem_range.1 hi))

theorem good_max {g : Rng ℝ R} {lo : ℝ} {l : PLay ℝ} {y : List ℝ}
    (hd : (GLay.maxp l).Diff lo y) (r : R) : ∃ l' o r1, GoodLay g lo (.maxp l) y r l' o r1 := by
  obtain ⟨L, hy, hlo, huniq⟩ := hd
  have hc := L.c
  have hoH : 1 ≤ l.outH := by
    have := L.outH
    have := Int.ediv_nonneg (show 0 ≤ l.height + l.pad - l.size by have := L.fitH; omega)
      (show 0 ≤ l.stride by have := L.st; omega)
    omega
  have hoW : 1 ≤ l.outW := by
    have := L.outW
    have := Int.ediv_nonneg (show 0 ≤ l.width + l.pad - l.size by have := L.fitW; omega)
      (show 0 ≤ l.stride by have := L.st; omega)
    omega
  have hno : l.nOut.toNat = l.channels.toNat * l.outH.toNat * l.outW.toNat := by
    rw [L.nOut, L.outC, toNat_mul3 (by omega) (by omega) (by omega)]
    ring
  -- the pixel each output is taken from
  have sel : ∀ m, ∃ q, m < l.nOut.toNat → q < l.nIn.toNat ∧
      ∀ z : List ℝ, z.length = l.nIn.toNat →
        (∀ i ∈ range l.nIn.toNat, ∀ j ∈ range l.nIn.toNat, y.getD i 0 < y.getD j 0 →
          z.getD i 0 < z.getD j 0) →
        ∀ (is : List (Option Int)) (os : List (Option ℝ)),
        (∀ k i j : Nat, (k : Int) < l.channels → (i : Int) < l.outH → (j : Int) < l.outW →
          ∃ y z', InWin l i j y z' ∧
            os[(k * l.outH.toNat + i) * l.outW.toNat + j]? =
              some (some (pixel z l.height l.width k y z')) ∧
            is[(k * l.outH.toNat + i) * l.outW.toNat + j]? =
              some (some (z' + l.width * (y + l.height * (k : Int)))) ∧
            ∀ y1 z1, InWin l i j y1 z1 →
              pixel z l.height l.width k y1 z1 ≤ pixel z l.height l.width k y z') →
        os[m]? = some (some (z.getD q 0)) ∧ is[m]? = some (some (q : Int)) := by
    intro m
    by_cases hm : m < l.nOut.toNat
    · rw [hno] at hm
      obtain ⟨k, i, j, hk, hi, hj, rfl⟩ := flat3_split hm
      have hk' : (k : Int) < l.channels := by omega
      have hi' : (i : Int) < l.outH := by omega
      have hj' : (j : Int) < l.outW := by omega
      obtain ⟨a, b, W, hW⟩ := huniq k i j hk' hi' hj'
      have rng : ∀ a b, InWin l i j a b → 0 ≤ b + l.width * (a + l.height * (k : Int)) ∧
          (b + l.width * (a + l.height * (k : Int))).toNat < l.nIn.toNat := by
        intro a b W
        obtain ⟨p1, p2⟩ := pix_range (c := l.channels) (k := k) W.y0 W.y1 W.z0 W.z1 hk'
        rw [← L.nIn] at p2
        omega
      refine ⟨(b + l.width * (a + l.height * (k : Int))).toNat, fun _ => ⟨(rng a b W).2, ?_⟩⟩
      intro z hz hlt is os h
      obtain ⟨a', b', W', h1, h2, h3⟩ := h k i j hk' hi' hj'
      have hab : a' = a ∧ b' = b := by
        by_contra hne
        have l1 := hW a' b' W' hne
        have l2 := hlt _ (mem_range.2 (rng a' b' W').2) _ (mem_range.2 (rng a b W).2) l1
        exact absurd (h3 a b W) (not_le.2 l2)
      obtain ⟨rfl, rfl⟩ := hab
      refine ⟨h1, ?_⟩
      rw [h2, Int.toNat_of_nonneg (rng a' b' W').1]
    · exact ⟨0, fun h => absurd h hm⟩
  choose q hq using sel
  let f : List ℝ → List ℝ := fun z => (List.range l.nOut.toNat).map fun m => z.getD (q m) 0
  have len : ∀ z, (f z).length = l.nOut.toNat := fun z => by simp [f]
  have val : ∀ z m, m < l.nOut.toNat → (f z).getD m 0 = z.getD (q m) 0 := fun z m hm => by
    simp [f, List.getD, hm]
  let I : List (Option Int) := (List.range l.nOut.toNat).map fun m => some (q m : Int)
  have run : ∀ z : List ℝ, z.length = l.nIn.toNat → (∀ v ∈ z, lo < v) →
      (∀ i ∈ range l.nIn.toNat, ∀ j ∈ range l.nIn.toNat, y.getD i 0 < y.getD j 0 →
          z.getD i 0 < z.getD j 0) →
      maxpoolForward lo l z = .ok { l with indexes := I, output := (f z).map some } := by
    intro z hz hl hlt
    obtain ⟨is, os, e, h1, h2, h3⟩ := C54_maxpool L hz hl
    rw [e]
    have eo : os = (f z).map some := by
      refine List.ext_getElem? fun m => ?_
      by_cases hm : m < l.nOut.toNat
      · rw [((hq m hm).2 z hz hlt is os h3).1]
        simp [f, hm]
      · rw [List.getElem?_eq_none (by rw [h2]; omega),
          List.getElem?_eq_none (by rw [List.length_map, len]; omega)]
    have ei : is = I := by
      refine List.ext_getElem? fun m => ?_
      by_cases hm : m < l.nOut.toNat
      · rw [((hq m hm).2 z hz hlt is os h3).2]
        simp [I, hm]
      · rw [List.getElem?_eq_none (by rw [h1]; omega),
          List.getElem?_eq_none (by simp [I]; omega)]
    rw [eo, ei]
  have runy := run y hy hlo (fun i _ j _ h => h)
  refine ⟨_, _, r, good_free (a := .maxp l) (l := .maxp _) (o := f y) (fun k => by cases k <;> rfl)
    (by show keepR GLay.maxp _ r = _; rw [runy]; rfl) (by exact written_all _) ?_ ?_
    (pool_wd (fun _ => rfl) (fun _ _ => rfl) (fun _ => rfl) (fun _ => rfl) (fun _ => rfl)
      (by exact written_all _))
    (fun c' m => c' (q m)) ?_ (fun d _ => rfl) ?_⟩
  · show l.nOut = _
    have : 0 ≤ l.nOut := by
      rw [L.nOut, L.outC]; exact Int.mul_nonneg (Int.mul_nonneg (by omega) (by omega)) (by omega)
    rw [len]
    omega
  · show l.delta.length = _
    rw [len, L.dl]
  · intro c v c' h1 h2 h3
    refine ⟨fun u => f (c u), ?_, ?_⟩
    · rw [hy] at h3
      have n1 := near_lt h3
      have n2 := near_lo (lo := lo) h3 (by
        intro i hi
        rw [h1]
        have hi' : i < y.length := by rw [hy]; exact hi
        refine hlo _ ?_
        rw [List.getD, List.getElem?_eq_getElem hi', Option.getD_some]
        exact List.getElem_mem hi')
      filter_upwards [h2, n1, n2] with u hu hu1 hu2
      rw [hy] at hu
      rw [h1] at hu1
      have := run (c u) hu (by
        intro w hw
        obtain ⟨i, hi, rfl⟩ := List.mem_iff_getElem.1 hw
        have := hu2 i (mem_range.2 (by rw [← hu]; exact hi))
        rw [List.getD, List.getElem?_eq_getElem hi, Option.getD_some] at this
        exact this) hu1
      refine ⟨_, by show keepR GLay.maxp _ r = _; rw [this]; rfl, by exact written_all _, ?_⟩
      rw [len, len]
    · intro k hk
      rw [len] at hk
      have e : (fun u => (f (c u)).getD k 0) = fun u => (c u).getD (q k) 0 :=
        funext fun u => val _ k hk
      rw [e]
      exact h3 _ (by rw [hy]; exact (hq k hk).1)
  · intro d hd
    rw [len] at hd
    have L' : PLay.MaxOk { l with indexes := I, output := (f y).map some, delta := d } :=
      ⟨L.h, L.w, L.c, L.s, L.st, L.p, L.covers, L.fitW, L.fitH, L.outW, L.outH, L.outC, L.nIn,
        L.nOut, by show List.length _ = _; simp [I],
        by show List.length _ = _; rw [List.length_map, len],
        by show d.length = _; rw [hd]⟩
    have hI : ∀ i < l.nOut.toNat, I[i]? = some (some (q i : Int)) := fun i hi => by simp [I, hi]
    obtain ⟨e, q1, q2, q3⟩ := C54_maxpool_backward L' (d := List.replicate l.nIn.toNat 0)
      (fun i hi => ⟨q i, hI i hi, by rw [List.length_replicate]; exact (hq i hi).1⟩)
    refine ⟨e, ?_, by rw [q2, hy, List.length_replicate], ?_⟩
    · show backOnly _ (maxpoolBackward _ _) = _
      rw [hy]
      exact (congrArg (backOnly _) q1).trans rfl
    · intro c'
      have el : e.length = l.nIn.toNat := by rw [q2, List.length_replicate]
      rw [sum_getD_inner e _ (by rw [el, hy]), len, q3, inner_zeros, zero_add]
      refine sum_congr rfl fun k hk => ?_
      have : I.getD k none = some (q k : Int) := by
        rw [List.getD, hI k (mem_range.1 hk), Option.getD_some]
      show d.getD k 0 * c' ((I.getD k none).getD 0).toNat = _
      rw [this]
      rfl

end Xcsf
