import Verif.NGenDims
import Mathlib.Tactic.Positivity

/-!
# Layers without weights, within limits
-/

set_option linter.unusedSectionVars false

namespace Xcsf
variable {K R : Type} [Field K] [LinearOrder K] [IsStrictOrderedRing K] [FloorRing K]

theorem size3_tot {a b c : Int} (ha : 1 ≤ a) (hb : 1 ≤ b) (hc : 1 ≤ c)
    (h : a * b * c < 2147483648) : size3 a b c = .ok (a * b * c) := by
  have h1 : 1 ≤ a * b := one_le_mul_of_one_le_of_one_le ha hb
  have h2 : a * b ≤ a * b * c := le_mul_of_one_le_right (by omega) hc
  unfold size3
  rw [if_neg]
  simp only [overflows, Bool.or_eq_true, decide_eq_true_eq]
  omega

theorem poolOut_eq {w pad size stride : Int} (hs : 1 ≤ size) (ht : 1 ≤ stride) 
    (hf : size ≤ w + pad) (hl : w + pad < 2147483648) :
    poolOut w pad size stride = .ok ((w + pad - size) / stride + 1) := by
  unfold poolOut
  rw [if_neg, Int.tdiv_eq_ediv_of_nonneg (by omega)]
  simp only [overflows, decide_eq_true_eq]
  omega

theorem guardOutputs_cases {n : Int} (h : 1 ≤ n) :
    guardOutputs n = .ok () ∨ (guardOutputs n = .error .exit ∧ 2000000 < n) := by
  unfold guardOutputs
  by_cases h2 : 2000000 < n
  · exact Or.inr ⟨by rw [if_pos (Or.inr h2)], h2⟩
  · exact Or.inl (by rw [if_neg (by omega)])

/-- What is known of an image layer after its sizes are set. -/
structure PDims (l' : PLay K) (w h c : Int) : Prop where
  w : l'.width = w
  h : l'.height = h
  c : l'.channels = c

theorem outs_pos {n p s t : Int} (ht : 1 ≤ t) (hf : s ≤ n + p) : 1 ≤ (n + p - s) / t + 1 := by
  have := Int.ediv_nonneg (show 0 ≤ n + p - s by omega) (show 0 ≤ t by omega)
  omega

theorem mul_le_last {a b c d : Int} (hab : 1 ≤ a * b) (h : c ≤ d) : a * b * c ≤ a * b * d :=
  mul_le_mul_of_nonneg_left h (by omega)

theorem maxpoolResize_fault {k : Lim} (hk : k.Ok) {l : PLay K} (L : l.MaxOk) (Rm : l.Room k)
    {c : Int} (hc : 1 ≤ c) (hcB : c ≤ k.B) :
    Post (maxpoolResize l l.width l.height c) (fun _ => True) (GFault k) := by
  have i1 : 1 ≤ l.height * l.width := one_le_mul_of_one_le_of_one_le L.h L.w
  have i2 := mul_le_last i1 hcB
  have i3 := Rm.ins
  have o1 := outs_pos L.st L.fitW
  have o2 := outs_pos L.st L.fitH
  have o3 : 1 ≤ ((l.height + l.pad - l.size) / l.stride + 1) *
    ((l.width + l.pad - l.size) / l.stride + 1) := one_le_mul_of_one_le_of_one_le o2 o1
  have o4 := mul_le_last o3 hcB
  have o5 := Rm.outs
  rw [L.outW, L.outH] at o5
  have hN := hk.N
  have o6 : 1 ≤ ((l.height + l.pad - l.size) / l.stride + 1) *
    ((l.width + l.pad - l.size) / l.stride + 1) * c := one_le_mul_of_one_le_of_one_le o3 hc
  unfold maxpoolResize
  rw [size3_tot L.h L.w hc (by omega)]
  dsimp only
  rw [poolOut_eq L.s L.st L.fitW Rm.padW]
  dsimp only
  rw [poolOut_eq L.s L.st L.fitH Rm.padH]
  dsimp only
  rw [size3_tot o2 o1 hc (by omega)]
  dsimp only
  rcases guardOutputs_cases o6 with e | ⟨e, h⟩
  · rw [e]; trivial
  · rw [e]
    exact Or.inl ⟨rfl, Or.inr (Or.inl (by omega))⟩

theorem maxpoolResize_step {k : Lim} (hk : k.Ok) {l : PLay K} (L : l.MaxOk) (Rm : l.Room k)
    {c : Int} (hc : 1 ≤ c) (hcB : c ≤ k.B) :
    Post (maxpoolResize l l.width l.height c) (fun l' => l'.MaxOk ∧ l'.Room k ∧
      PDims l' l.width l.height c ∧ l'.outW = l.outW ∧ l'.outH = l.outH) (GFault k) := by
  have h := maxpoolResize_fault hk L Rm hc hcB
  cases e : maxpoolResize l l.width l.height c with
  | error f => rw [e] at h; exact h
  | ok l' =>
    obtain ⟨h1, h2, h3, h4, h5, h6, h7⟩ := C54_maxpool_resize L e L.h L.w hc L.fitW L.fitH
    have ow : l'.outW = l.outW := by rw [h1.outW, L.outW, h2, h5, h6, h7]
    have oh : l'.outH = l.outH := by rw [h1.outH, L.outH, h3, h5, h6, h7]
    refine ⟨h1, ⟨?_, ?_, ?_, ?_, ?_⟩, ⟨h2, h3, h4⟩, ow, oh⟩
    · rw [h4]; exact hcB
    · rw [h2, h3]; exact Rm.ins
    · rw [ow, oh]; exact Rm.outs
    · rw [h2, h7]; exact Rm.padW
    · rw [h3, h7]; exact Rm.padH

theorem avgpoolResize_step {k : Lim} (hk : k.Ok) {l : PLay K} (L : l.AvgOk)
    (hi : l.height * l.width * (k.B : Int) < 2147483648) {c : Int} (hc : 1 ≤ c) (hcB : c ≤ k.B) :
    Post (avgpoolResize l l.width l.height c) (fun l' => l'.AvgOk ∧
      PDims l' l.width l.height c ∧ l'.outW = l.outW ∧ l'.outH = l.outH) (GFault k) := by
  have i1 : 1 ≤ l.height * l.width := one_le_mul_of_one_le_of_one_le L.h L.w
  have i2 := mul_le_last i1 hcB
  have hB := hk.big
  cases e : avgpoolResize l l.width l.height c with
  | error f =>
    exfalso
    unfold avgpoolResize at e
    rw [size3_tot L.h L.w hc (by omega)] at e
    dsimp only at e
    rcases guardOutputs_cases hc with e2 | ⟨_, h⟩
    · rw [e2] at e; cases e
    · omega
  | ok l' =>
    obtain ⟨h1, h2, h3, h4⟩ := (C54_avgpool_dims (a := ⟨0, 0, 0, 0, 0, 0, 0, 0, 0⟩)).2 _ _ _ L e L.h L.w
    refine ⟨h1, ⟨h3, h2, h4⟩, ?_⟩
    unfold avgpoolResize at e
    split at e
    · cases e
    · split at e
      · cases e
      · cases e
        exact ⟨rfl, rfl⟩

theorem upsampleSet_fault {k : Lim} (hk : k.Ok) (l : PLay K) {w h c : Int} (hw : 1 ≤ w)
    (hh : 1 ≤ h) (hs : 1 ≤ l.stride) (hc : 1 ≤ c) (hcB : c ≤ k.B)
    (hi : h * w * (k.B : Int) < 2147483648) (ow : w * l.stride < 2147483648)
    (oh : h * l.stride < 2147483648)
    (ho : h * l.stride * (w * l.stride) * (k.B : Int) ≤ k.N) :
    Post (upsampleSet l w h c) (fun _ => True) (GFault k) := by
  have i1 : 1 ≤ h * w := one_le_mul_of_one_le_of_one_le hh hw
  have i2 := mul_le_last i1 hcB
  have a1 : 1 ≤ w * l.stride := one_le_mul_of_one_le_of_one_le hw hs
  have a2 : 1 ≤ h * l.stride := one_le_mul_of_one_le_of_one_le hh hs
  have a3 : 1 ≤ h * l.stride * (w * l.stride) := one_le_mul_of_one_le_of_one_le a2 a1
  have a4 := mul_le_last a3 hcB
  have a5 : 1 ≤ h * l.stride * (w * l.stride) * c := one_le_mul_of_one_le_of_one_le a3 hc
  have hN := hk.N
  unfold upsampleSet
  rw [if_neg (by simp only [overflows, Bool.or_eq_true, decide_eq_true_eq]; omega),
    size3_tot a2 a1 hc (by omega)]
  dsimp only
  rw [size3_tot hh hw hc (by omega)]
  dsimp only
  rcases guardOutputs_cases a5 with e | ⟨e, h⟩
  · rw [e]; trivial
  · rw [e]
    exact Or.inl ⟨rfl, Or.inr (Or.inl (by omega))⟩

theorem upsampleResize_step {k : Lim} (hk : k.Ok) {l : PLay K} (L : l.UpOk) (Rm : l.Room k)
    (ow : l.outW < 2147483648) (oh : l.outH < 2147483648) {c : Int} (hc : 1 ≤ c)
    (hcB : c ≤ k.B) :
    Post (upsampleResize l l.width l.height c) (fun l' => l'.UpOk ∧ l'.Room k ∧
      PDims l' l.width l.height c ∧ l'.outW = l.outW ∧ l'.outH = l.outH) (GFault k) := by
  have h := upsampleSet_fault hk l L.w L.h L.st hc hcB Rm.ins (by rw [← L.outW]; exact ow)
    (by rw [← L.outH]; exact oh) (by rw [← L.outW, ← L.outH]; exact Rm.outs)
  unfold upsampleResize
  cases e : upsampleSet l l.width l.height c with
  | error f => rw [e] at h; exact h
  | ok l' =>
    obtain ⟨h1, h2, h3, h4, h5⟩ := upsampleSet_ok e L.st L.h L.w hc
    have ow' : l'.outW = l.outW := by rw [h1.outW, L.outW, h3, h5]
    have oh' : l'.outH = l.outH := by rw [h1.outH, L.outH, h2, h5]
    have hp : l'.pad = l.pad := by
      unfold upsampleSet at e
      repeat' split at e
      all_goals cases e
      rfl
    refine ⟨h1, ⟨?_, ?_, ?_, ?_, ?_⟩, ⟨h3, h2, h4⟩, ow', oh'⟩
    · rw [h4]; exact hcB
    · rw [h2, h3]; exact Rm.ins
    · rw [ow', oh']; exact Rm.outs
    · rw [h3, hp]; exact Rm.padW
    · rw [h2, hp]; exact Rm.padH

theorem maskSet_step {k : Lim} (l : PLay K) {n w h c : Int} (hn : 1 ≤ n) (hN : n ≤ k.N) :
    Post (maskSet l n w h c) (fun l' => l'.MaskOk ∧ l'.nIn ≤ k.N ∧ l'.nIn = n ∧
      l'.dim = ⟨n, w, h, c⟩) (GFault k) := by
  unfold maskSet
  rcases guardOutputs_cases hn with e | ⟨e, h⟩
  · rw [e]
    exact ⟨⟨hn, rfl, by simp, by simp, by simp⟩, hN, rfl, rfl⟩
  · rw [e]
    exact Or.inl ⟨rfl, Or.inr (Or.inl (by omega))⟩

theorem softSet_step {k : Lim} {s : K} (hs : s ≠ 0) {n : Int} (hn : 1 ≤ n) (hN : n ≤ k.N) :
    Post (softSet s n) (fun l' => l'.Ok ∧ l'.nIn ≤ k.N ∧ l'.nIn = n ∧ l'.outW = n ∧
      l'.outH = 1 ∧ l'.outC = 1) (GFault k) := by
  unfold softSet
  rcases guardOutputs_cases hn with e | ⟨e, h⟩
  · rw [e]
    exact ⟨⟨hn, rfl, by simp, by simp, hs⟩, hN, rfl, rfl, rfl, rfl⟩
  · rw [e]
    exact Or.inl ⟨rfl, Or.inr (Or.inl (by omega))⟩

/-! ## Copies -/

theorem guardOutputs_N {k : Lim} {n : Int} (hn : 1 ≤ n) (hN : n ≤ k.N) :
    guardOutputs n = .ok () ∨ (guardOutputs n = .error .exit ∧ GFault k .exit) := by
  rcases guardOutputs_cases hn with e | ⟨e, h⟩
  · exact Or.inl e
  · exact Or.inr ⟨e, Or.inl ⟨rfl, Or.inr (Or.inl (by omega))⟩⟩

/-! ## Forward passes -/

/-- Loops keep an invariant that knows what has been done, up to allowed faults. -/
theorem forL_post {α S : Type} {f : α → S → Res S} {E : Fault → Prop} (I : List α → S → Prop) :
    ∀ (as pre : List α) (s : S), I pre s →
    (∀ pre' a, a ∈ as → ∀ s, I pre' s → Post (f a s) (I (pre' ++ [a])) E) →
    Post (forL f as s) (I (pre ++ as)) E
  | [], pre, s, h, _ => by
    show I (pre ++ []) s
    rw [List.append_nil]; exact h
  | a :: as, pre, s, h, hf => by
    have h1 := hf pre a List.mem_cons_self s h
    unfold forL
    cases e : f a s with
    | error g => rw [e] at h1; exact h1
    | ok s1 =>
      rw [e] at h1
      have h2 := forL_post I as (pre ++ [a]) s1 h1
        (fun pre' b hb s hs => hf pre' b (List.mem_cons_of_mem _ hb) s hs)
      rw [List.append_assoc] at h2
      exact h2

theorem maxStep_any {l : PLay K} (L : l.MaxOk) {x : List K} (hx : x.length = l.nIn.toNat)
    {i j k : Nat} (p : Nat × Nat) (s : K × Int) (hs : s.2 < l.nIn) :
    ∃ s', maxStep l x i j k p s = .ok s' ∧ s'.2 < l.nIn := by
  unfold maxStep
  dsimp only
  split
  · next hc =>
    obtain ⟨c1, c2, c3, c4, c5⟩ := hc
    obtain ⟨v, hv⟩ : ∃ v, rd x ((-l.pad).tdiv 2 + (j : Int) * l.stride + (p.2 : Int) + l.width *
        ((-l.pad).tdiv 2 + (i : Int) * l.stride + (p.1 : Int) + l.height * (k : Int))) = .ok v := by
      unfold rd
      have h0 : 0 ≤ (-l.pad).tdiv 2 + (j : Int) * l.stride + (p.2 : Int) + l.width *
        ((-l.pad).tdiv 2 + (i : Int) * l.stride + (p.1 : Int) + l.height * (k : Int)) := by
        have := L.w
        have := L.h
        have h1 : 0 ≤ l.height * (k : Int) := by positivity
        have h2 : 0 ≤ l.width * ((-l.pad).tdiv 2 + (i : Int) * l.stride + (p.1 : Int) +
          l.height * (k : Int)) := Int.mul_nonneg (by omega) (by omega)
        omega
      rw [if_neg (by omega)]
      have hlt : ((-l.pad).tdiv 2 + (j : Int) * l.stride + (p.2 : Int) + l.width *
        ((-l.pad).tdiv 2 + (i : Int) * l.stride + (p.1 : Int) + l.height * (k : Int))).toNat <
          x.length := by
        rw [hx]; omega
      rw [List.getElem?_eq_getElem hlt]
      exact ⟨_, rfl⟩
    rw [hv]
    dsimp only
    split
    · exact ⟨_, rfl, c5⟩
    · exact ⟨_, rfl, hs⟩
  · exact ⟨_, rfl, hs⟩

theorem maxPool_any {l : PLay K} (L : l.MaxOk) (lo : K) {x : List K} (hx : x.length = l.nIn.toNat)
    {i j k : Nat} (hn : 1 ≤ l.nIn) :
    Post (maxPool lo l x i j k) (fun m => 0 ≤ m ∧ m < l.nIn) (· = .exit) := by
  unfold maxPool
  have h := forL_post (E := fun _ => False) (fun _ (s : K × Int) => s.2 < l.nIn)
    (f := maxStep l x i j k) (idx2 l.size.toNat l.size.toNat) [] (lo, -1) (by show (-1 : Int) < _; omega)
    (fun _ p _ s hs => by
      obtain ⟨s', e, h⟩ := maxStep_any L hx (i := i) (j := j) (k := k) p s hs
      rw [e]; exact h)
  cases e : forL (maxStep l x i j k) (idx2 l.size.toNat l.size.toNat) (lo, -1) with
  | error f => rw [e] at h; exact h.elim
  | ok s =>
    obtain ⟨v, m⟩ := s
    dsimp only
    split
    · rfl
    · next hm => exact ⟨by omega, by omega⟩

theorem maxOk_pos {l : PLay K} (L : l.MaxOk) : 1 ≤ l.nIn ∧ 1 ≤ l.outH ∧ 1 ≤ l.outW ∧ 1 ≤ l.nOut := by
  have h1 := outs_pos L.st L.fitW
  have h2 := outs_pos L.st L.fitH
  rw [← L.outW] at h1
  rw [← L.outH] at h2
  refine ⟨?_, h2, h1, ?_⟩
  · rw [L.nIn]
    exact one_le_mul_of_one_le_of_one_le (one_le_mul_of_one_le_of_one_le L.h L.w) L.c
  · rw [L.nOut, L.outC]
    exact one_le_mul_of_one_le_of_one_le (one_le_mul_of_one_le_of_one_le h2 h1) L.c

/-- The outputs of a legal maxpool layer are all written by a forward pass, or the program ends. -/
theorem maxpoolForward_any {l : PLay K} (L : l.MaxOk) (lo : K) {x : List K}
    (hx : x.length = l.nIn.toNat) :
    Post (maxpoolForward lo l x) (fun l' => l' = { l with indexes := l'.indexes, output := l'.output } ∧
      l'.MaxOk ∧ (∀ i < l'.output.length, ∃ v, l'.output[i]? = some (some v)) ∧
      ∀ i < l'.indexes.length, ∃ m : Nat, l'.indexes[i]? = some (some (m : Int)) ∧ (m : Int) < l.nIn)
      (· = .exit) := by
  obtain ⟨hn, hoH, hoW, _⟩ := maxOk_pos L
  unfold maxpoolForward
  have hno : l.nOut.toNat = l.channels.toNat * l.outH.toNat * l.outW.toNat := by
    rw [L.nOut, L.outC, toNat_mul3 (by omega) (by omega) (by have := L.c; omega)]
    ring
  have h := forL_post (E := (· = Fault.exit)) (f := maxpoolCell lo x)
    (fun done (a : PLay K) => a = { l with indexes := a.indexes, output := a.output } ∧
      a.indexes.length = l.nOut.toNat ∧ a.output.length = l.nOut.toNat ∧
      ∀ t ∈ done, (∃ v, a.output[(t.1 * l.outH.toNat + t.2.1) * l.outW.toNat + t.2.2]? =
          some (some v)) ∧ ∃ m : Nat, a.indexes[(t.1 * l.outH.toNat + t.2.1) * l.outW.toNat + t.2.2]? =
          some (some (m : Int)) ∧ (m : Int) < l.nIn)
    (idx3 l.channels.toNat l.outH.toNat l.outW.toNat) [] l ⟨rfl, L.il, L.ol, by simp⟩
    (by
      rintro pre ⟨k, i, j⟩ ht a ⟨ea, e1, e2, e3⟩
      rw [mem_idx3] at ht
      obtain ⟨hk, hi, hj⟩ := ht
      dsimp only at hk hi hj
      have hpos : (k * l.outH.toNat + i) * l.outW.toNat + j < l.nOut.toNat := by
        rw [hno]; exact flat3_lt hk hi hj
      have hcast : (j : Int) + l.outW * ((i : Int) + l.outH * (k : Int)) =
          (((k * l.outH.toNat + i) * l.outW.toNat + j : Nat) : Int) := by
        push_cast
        rw [Int.toNat_of_nonneg (show 0 ≤ l.outW by omega),
          Int.toNat_of_nonneg (show 0 ≤ l.outH by omega)]
        ring
      unfold maxpoolCell
      dsimp only
      have w1 : a.outW = l.outW := by rw [ea]
      have w2 : a.outH = l.outH := by rw [ea]
      have w3 : a.nOut = l.nOut := by rw [ea]
      have hmp : maxPool lo a x i j k = maxPool lo l x i j k := by rw [ea]; rfl
      rw [w1, w2, w3, hcast, if_pos (by omega), hmp]
      have hm := maxPool_any L lo hx (i := i) (j := j) (k := k) hn
      cases em : maxPool lo l x i j k with
      | error f => rw [em] at hm; exact hm
      | ok m =>
        rw [em] at hm
        obtain ⟨m0, m1⟩ := hm
        obtain ⟨n, rfl⟩ := Int.eq_ofNat_of_zero_le m0
        dsimp only
        have hlt : n < x.length := by rw [hx]; omega
        rw [rdA_ok (List.getElem?_eq_getElem hlt)]
        dsimp only
        rw [wrA_ok _ (by rw [e1]; exact hpos)]
        dsimp only
        rw [wrA_ok _ (by rw [e2]; exact hpos)]
        refine ⟨by rw [ea], by simp [e1], by simp [e2], ?_⟩
        intro t ht
        dsimp only
        by_cases hp : (k * l.outH.toNat + i) * l.outW.toNat + j =
            (t.1 * l.outH.toNat + t.2.1) * l.outW.toNat + t.2.2
        · rw [← hp]
          refine ⟨⟨x[n], ?_⟩, n, ?_, m1⟩
          · rw [List.getElem?_set_self (by rw [e2]; exact hpos)]
          · rw [List.getElem?_set_self (by rw [e1]; exact hpos)]
        · rw [List.getElem?_set_ne hp, List.getElem?_set_ne hp]
          rcases List.mem_append.1 ht with ht | ht
          · exact e3 t ht
          · rw [List.mem_singleton] at ht
            exact absurd (by rw [ht]) hp)
  cases e : forL (maxpoolCell lo x) (idx3 l.channels.toNat l.outH.toNat l.outW.toNat) l with
  | error f => rw [e] at h; exact h
  | ok a =>
    rw [e] at h
    obtain ⟨ea, e1, e2, e3⟩ := h
    have hall : ∀ p < l.nOut.toNat, ∃ t ∈ idx3 l.channels.toNat l.outH.toNat l.outW.toNat,
        (t.1 * l.outH.toNat + t.2.1) * l.outW.toNat + t.2.2 = p := by
      intro p hp
      have : p ∈ (idx3 l.channels.toNat l.outH.toNat l.outW.toNat).map
          (fun t => (t.1 * l.outH.toNat + t.2.1) * l.outW.toNat + t.2.2) := by
        rw [idx3_flat, List.mem_range, ← hno]; exact hp
      obtain ⟨t, h1, h2⟩ := List.mem_map.1 this
      exact ⟨t, h1, h2⟩
    refine ⟨ea, ?_, ?_, ?_⟩
    · have k1 : a.indexes.length = a.nOut.toNat := by rw [e1, ea]
      have k2 : a.output.length = a.nOut.toNat := by rw [e2, ea]
      generalize a.indexes = is, a.output = os at *
      subst ea
      exact { L with il := k1, ol := k2 }
    · intro p hp
      obtain ⟨t, h1, rfl⟩ := hall p (by rw [← e2]; exact hp)
      exact (e3 t (by simpa using h1)).1
    · intro p hp
      obtain ⟨t, h1, rfl⟩ := hall p (by rw [← e1]; exact hp)
      exact (e3 t (by simpa using h1)).2

theorem softmaxExp_some {m : Libm K} (hm : ∀ x, 0 < m.exp x) {s : K} (hs : s ≠ 0) (a x : K) :
    ∃ v, softmaxExp m s a x = some v ∧ 0 < v := by
  unfold softmaxExp fdiv
  rw [if_neg hs, if_neg hs]
  exact ⟨_, rfl, hm _⟩

theorem softmaxSum_some {m : Libm K} (hm : ∀ x, 0 < m.exp x) {s : K} (hs : s ≠ 0) (a : K) :
    ∀ (xs : List K) (t : K), 0 ≤ t → ∃ v, softmaxSum m s a xs (some t) = some v ∧ t ≤ v ∧
      (xs ≠ [] → t < v)
  | [], t, _ => ⟨t, rfl, le_refl _, fun h => absurd rfl h⟩
  | x :: xs, t, ht => by
    obtain ⟨e, h1, h2⟩ := softmaxExp_some hm hs a x
    obtain ⟨v, h3, h4, _⟩ := softmaxSum_some hm hs a xs (t + e) (by linarith)
    refine ⟨v, ?_, by linarith, fun _ => by linarith⟩
    unfold softmaxSum
    rw [h1]
    exact h3

theorem softForward_step {m : Libm K} (hm : ∀ x, 0 < m.exp x) {l : SLay K} (L : l.Ok) {x : List K}
    (hx : x.length = l.nIn.toNat) : ∃ o : List K, softForward m l x = .ok { l with output := o } ∧
      o.length = l.nOut.toNat := by
  have hn := L.n
  unfold softForward
  rw [if_neg (by rw [hx, L.ol, L.nOut]; omega), List.take_of_length_le (by omega)]
  match x, hx with
  | [], hx => simp at hx; omega
  | y :: ys, hx =>
    unfold softmaxForward
    dsimp only
    obtain ⟨t, h1, _, h2⟩ := softmaxSum_some hm L.sc (softmaxLargest y ys) (y :: ys) 0 (le_refl _)
    have h2 := h2 (by simp)
    rw [h1]
    generalize hF : List.map _ (y :: ys) = os
    have hlen : os.length = (y :: ys).length := by rw [← hF, List.length_map]
    obtain ⟨o, e, hl, _⟩ := written_ok (o := os) (by
        intro i hi
        rw [hlen] at hi
        rw [← hF, List.getElem?_map, List.getElem?_eq_getElem hi]
        obtain ⟨e, h3, _⟩ := softmaxExp_some hm L.sc (softmaxLargest y ys) ((y :: ys)[i])
        simp only [Option.map_some, h3]
        unfold fdiv
        rw [if_neg (by intro h; rw [h] at h2; exact lt_irrefl _ h2)]
        exact ⟨_, rfl⟩)
    rw [e]
    rw [hlen, hx] at hl
    refine ⟨o, ?_, by rw [hl, L.nOut]⟩
    dsimp only
    rw [List.drop_of_length_le (by rw [hl, L.ol, L.nOut]), List.append_nil]

end Xcsf
