import Verif.StatsSpec

/-!
# Lemmas for property C104
-/

set_option linter.unusedSectionVars false
set_option linter.unusedVariables false

namespace Xcsf.Stats
variable {K X B R : Type} [Field K] [LinearOrder K] [IsStrictOrderedRing K] [FloorRing K]

theorem addInt_ok {a b : Int} (h0 : 0 ≤ a + b) (h : a + b ≤ 2147483647) : addInt a b = .ok (a + b) := by
  unfold addInt
  exact if_pos ⟨by omega, h⟩

theorem addInt_fault {a b : Int} {e : Fault} (h : addInt a b = .error e) : e = .ub := by
  unfold addInt at h
  split at h
  · cases h
  · cases h; rfl

theorem addInt_over {a b : Int} (h : 2147483647 < a + b) : addInt a b = .error .ub := by
  unfold addInt
  exact if_neg (by omega)

/-! ## Layers -/

theorem layerAt_eq (layer : Int) : ∀ (ls : List (GLay K)) (i : Int),
    layerAt layer ls i = if i ≤ layer then ls[(layer - i).toNat]? else none
  | [], i => by
    unfold layerAt
    split <;> simp
  | l :: ls, i => by
    unfold layerAt
    by_cases h : i = layer
    · rw [if_pos h, if_pos (by omega)]
      have : (layer - i).toNat = 0 := by omega
      rw [this]; rfl
    · rw [if_neg h, layerAt_eq layer ls (i + 1)]
      by_cases h' : i ≤ layer
      · rw [if_pos h', if_pos (by omega)]
        have : (layer - i).toNat = (layer - (i + 1)).toNat + 1 := by omega
        rw [this]; rfl
      · rw [if_neg h', if_neg (by omega)]

theorem layerNeurons_eq {k : Lim} {l : GLay K} (h : l.Legal k) : layerNeurons l = (cells l : Nat) := by
  cases l with
  | conn l => show (l.nOutputs : Int) = _; rw [cells, h.1.nlen]
  | recu l => show (l.nOutputs : Int) = _; rw [cells, h.1.out.sound.nlen, h.1.out.outs]
  | lstm l => show (l.nOutputs : Int) = _; rw [cells, h.1.output]
  | conv l => show (l.core.nOutputs : Int) = _; rw [cells, h.1.core.nlen]
  | maxp l =>
    show l.nOut = _
    have w := h.1.outW; have hh := h.1.outH; have c := h.1.outC; have n := h.1.nOut
    have := h.1.c; have := h.1.fitW; have := h.1.fitH; have := h.1.st
    rw [cells, h.1.ol]
    have a : 0 ≤ (l.width + l.pad - l.size) / l.stride := Int.ediv_nonneg (by omega) (by omega)
    have b : 0 ≤ (l.height + l.pad - l.size) / l.stride := Int.ediv_nonneg (by omega) (by omega)
    have : 0 ≤ l.nOut := by
      rw [n]
      exact mul_nonneg (mul_nonneg (by omega) (by omega)) (by omega)
    omega
  | avgp l =>
    show l.nOut = _
    have := h.1.nOut; have := h.1.c
    rw [cells, h.1.ol]; omega
  | ups l =>
    show l.nOut = _
    have w := h.1.outW; have hh := h.1.outH; have c := h.1.outC; have n := h.1.nOut
    have := h.1.c; have := h.1.w; have := h.1.h; have := h.1.st
    rw [cells, h.1.ol]
    have : 0 ≤ l.nOut := by
      rw [n, w, hh]
      exact mul_nonneg (mul_nonneg (mul_nonneg (by omega) (by omega))
        (mul_nonneg (by omega) (by omega))) (by omega)
    omega
  | drop l => show l.nOut = _; have := h.1.nOut; have := h.1.n; rw [cells, h.1.ol]; omega
  | noise l => show l.nOut = _; have := h.1.nOut; have := h.1.n; rw [cells, h.1.ol]; omega
  | soft l => show l.nOut = _; have := h.1.nOut; have := h.1.n; rw [cells, h.1.ol]; omega

theorem layerActive_eq {k : Lim} {l : GLay K} (h : l.Legal k) (hn : Noted l) :
    layerActive l = (inUse l : Nat) := by
  cases l with
  | conn l => exact h.1.active
  | recu l => exact hn
  | lstm l => exact hn
  | conv l => exact h.1.core.active
  | _ => rfl

theorem layerEta_eq (l : GLay K) : layerEta l = rate l := by cases l <;> rfl

theorem at_eq {α : Type} (z : α) (f : GLay K → α) (g : GLay K → K) (cast : α → K) (layer : Int) (b : NetBody K)
    (hz : cast z = 0) (h : ∀ l ∈ b.lays, cast (f l) = g l) :
    cast (match layerAt layer b.lays 0 with | some l => f l | none => z) = atLayer g layer b := by
  unfold atLayer
  rw [layerAt_eq]
  by_cases h0 : 0 ≤ layer
  · rw [if_pos h0, if_pos h0, Int.sub_zero]
    cases e : b.lays[layer.toNat]? with
    | none => exact hz
    | some l => exact h l (List.mem_of_getElem? e)
  · rw [if_neg h0, if_neg h0]
    exact hz

/-! ## Networks -/

/-- A network whose layers are legal. -/
def NetFine (b : NetBody K) : Prop := ∃ k : Lim, ∀ l ∈ b.lays, l.Legal k

theorem netNeurons_eq {b : NetBody K} (h : NetFine b) (i : Int) :
    ((netNeurons i b : Int) : K) = atLayer (fun l => (cells l : K)) i b := by
  obtain ⟨k, h⟩ := h
  exact at_eq (0 : Int) layerNeurons _ (fun n : Int => (n : K)) i b Int.cast_zero fun l hl => by
    rw [layerNeurons_eq (h l hl)]; exact Int.cast_natCast _

theorem netConns_eq {b : NetBody K} (h : NetFine b) (hn : ∀ l ∈ b.lays, Noted l) (i : Int) :
    ((netConns i b : Int) : K) = atLayer (fun l => (inUse l : K)) i b := by
  obtain ⟨k, h⟩ := h
  exact at_eq (0 : Int) layerActive _ (fun n : Int => (n : K)) i b Int.cast_zero fun l hl => by
    rw [layerActive_eq (h l hl) (hn l hl)]; exact Int.cast_natCast _

theorem netEta_eq (b : NetBody K) (i : Int) : netEta i b = atLayer rate i b :=
  at_eq (0 : K) layerEta rate id i b rfl fun l _ => layerEta_eq l

theorem netNeurons_nonneg {b : NetBody K} (h : NetFine b) (i : Int) : 0 ≤ netNeurons i b := by
  obtain ⟨k, h⟩ := h
  unfold netNeurons
  rw [layerAt_eq]
  split
  · next l e =>
    split at e
    · rw [layerNeurons_eq (h l (List.mem_of_getElem? e))]; omega
    · cases e
  · exact le_refl _

theorem netConns_nonneg {b : NetBody K} (h : NetFine b) (hn : ∀ l ∈ b.lays, Noted l) (i : Int) :
    0 ≤ netConns i b := by
  obtain ⟨k, h⟩ := h
  unfold netConns
  rw [layerAt_eq]
  split
  · next l e =>
    split at e
    · have hl := List.mem_of_getElem? e
      rw [layerActive_eq (h l hl) (hn l hl)]; omega
    · cases e
  · exact le_refl _

theorem neuralSize_cons (l : GLay K) (ls : List (GLay K)) (n : Int) (h : 0 ≤ n + layerActive l)
    (hm : n + layerActive l ≤ 2147483647) :
    neuralSize (l :: ls) n = neuralSize ls (n + layerActive l) := by
  have step : (addInt n (layerActive l) >>= fun k => neuralSize ls k) =
      neuralSize ls (n + layerActive l) := by rw [addInt_ok h hm]; rfl
  have stay : neuralSize ls n = neuralSize ls (n + 0) := by rw [Int.add_zero]
  cases l with
  | conn l => exact step
  | recu l => exact step
  | lstm l => exact step
  | conv l => exact step
  | _ => exact stay

theorem neuralSize_ok {k : Lim} : ∀ (ls : List (GLay K)) (n : Int), (∀ l ∈ ls, l.Legal k) →
    (∀ l ∈ ls, Noted l) → 0 ≤ n → n + ((ls.map inUse).sum : Nat) ≤ 2147483647 →
    neuralSize ls n = .ok (n + ((ls.map inUse).sum : Nat))
  | [], n, _, _, _, _ => by simp [neuralSize]
  | l :: ls, n, h, hn, h0, hm => by
    have ha := layerActive_eq (h l List.mem_cons_self) (hn l List.mem_cons_self)
    simp only [List.map_cons, List.sum_cons, Nat.cast_add] at hm ⊢
    rw [neuralSize_cons l ls n (by omega) (by omega), ha,
      neuralSize_ok ls _ (fun l hl => h l (List.mem_cons_of_mem _ hl))
        (fun l hl => hn l (List.mem_cons_of_mem _ hl)) (by omega) (by omega)]
    congr 1
    omega

theorem neuralSize_fault : ∀ (ls : List (GLay K)) (n : Int) {e : Fault},
    neuralSize ls n = .error e → e = .ub
  | [], n, e, h => by cases h
  | l :: ls, n, e, h => by
    have step : ∀ m : Int, (addInt n m >>= fun k => neuralSize ls k) = .error e → e = .ub := by
      intro m h
      cases ha : addInt n m with
      | error f => rw [ha] at h; cases h; exact addInt_fault ha
      | ok v => rw [ha] at h; exact neuralSize_fault ls v h
    cases l with
    | conn l => exact step _ h
    | recu l => exact step _ h
    | lstm l => exact step _ h
    | conv l => exact step _ h
    | maxp l => exact neuralSize_fault ls n h
    | avgp l => exact neuralSize_fault ls n h
    | ups l => exact neuralSize_fault ls n h
    | drop l => exact neuralSize_fault ls n h
    | noise l => exact neuralSize_fault ls n h
    | soft l => exact neuralSize_fault ls n h

/-! ## Walks -/

/-- All listed rules exist. -/
def Alive (s : St K X B R) (l : List Nat) : Prop := ∀ i ∈ l, ∃ c, s.heap i = some c

theorem sumInts_ok (s : St K X B R) (f : B → Int) : ∀ (l : List Nat) (a n : Int), Alive s l →
    (∀ c ∈ l.filterMap s.heap, 0 ≤ f c.body) → 0 ≤ a → 0 ≤ n →
    a + ((l.filterMap s.heap).map fun c => f c.body).sum ≤ 2147483647 →
    n + (l.filterMap s.heap).length ≤ 2147483647 →
    sumInts s f l a n = .ok (a + ((l.filterMap s.heap).map fun c => f c.body).sum,
      n + (l.filterMap s.heap).length)
  | [], a, n, _, _, _, _, _, _ => by simp [sumInts]
  | i :: is, a, n, hl, hf, ha, hn, hs, hc => by
    obtain ⟨c, e⟩ := hl i List.mem_cons_self
    rw [List.filterMap_cons_some e] at hf hs hc ⊢
    simp only [List.map_cons, List.sum_cons, List.length_cons, Nat.cast_add, Nat.cast_one] at hs hc ⊢
    have h0 := hf c List.mem_cons_self
    have hnn : 0 ≤ ((is.filterMap s.heap).map fun c => f c.body).sum := by
      apply List.sum_nonneg
      intro v hv
      obtain ⟨d, hd, rfl⟩ := List.mem_map.1 hv
      exact hf d (List.mem_cons_of_mem _ hd)
    have hrd : s.rd i = .ok c := by unfold St.rd; rw [e]
    have ih := sumInts_ok s f is (a + f c.body) (n + 1) (fun j hj => hl j (List.mem_cons_of_mem _ hj))
      (fun d hd => hf d (List.mem_cons_of_mem _ hd)) (by omega) (by omega) (by omega) (by omega)
    rw [sumInts, hrd]
    show (addInt a (f c.body) >>= fun sum => addInt n 1 >>= fun cnt => sumInts s f is sum cnt) = _
    rw [addInt_ok (by omega) (by omega)]
    show (addInt n 1 >>= fun cnt => sumInts s f is _ cnt) = _
    rw [addInt_ok (by omega) (by omega)]
    show sumInts s f is _ _ = _
    rw [ih]
    congr 2 <;> omega

theorem sumReals_ok (s : St K X B R) (f : B → Res K) (g : B → K) : ∀ (l : List Nat) (a : K) (n : Int),
    Alive s l → (∀ c ∈ l.filterMap s.heap, f c.body = .ok (g c.body)) → 0 ≤ n →
    n + (l.filterMap s.heap).length ≤ 2147483647 →
    sumReals s f l a n = .ok (a + ((l.filterMap s.heap).map fun c => g c.body).sum,
      n + (l.filterMap s.heap).length)
  | [], a, n, _, _, _, _ => by simp [sumReals]
  | i :: is, a, n, hl, hf, hn, hc => by
    obtain ⟨c, e⟩ := hl i List.mem_cons_self
    rw [List.filterMap_cons_some e] at hf hc ⊢
    simp only [List.map_cons, List.sum_cons, List.length_cons, Nat.cast_add, Nat.cast_one] at hc ⊢
    have hrd : s.rd i = .ok c := by unfold St.rd; rw [e]
    have ih := sumReals_ok s f g is (a + g c.body) (n + 1) (fun j hj => hl j (List.mem_cons_of_mem _ hj))
      (fun d hd => hf d (List.mem_cons_of_mem _ hd)) (by omega) (by omega)
    rw [sumReals, hrd]
    show (f c.body >>= fun v => addInt n 1 >>= fun cnt => sumReals s f is (a + v) cnt) = _
    rw [hf c List.mem_cons_self]
    show (addInt n 1 >>= fun cnt => sumReals s f is _ cnt) = _
    rw [addInt_ok (by omega) (by omega)]
    show sumReals s f is _ _ = _
    rw [ih, add_assoc]
    congr 2
    omega

theorem sumInts_fault (s : St K X B R) (f : B → Int) : ∀ (l : List Nat) (a n : Int) {e : Fault}, Alive s l →
    sumInts s f l a n = .error e → e = .ub
  | [], a, n, e, _, h => by cases h
  | i :: is, a, n, e, hl, h => by
    obtain ⟨c, hi⟩ := hl i List.mem_cons_self
    have hrd : s.rd i = .ok c := by unfold St.rd; rw [hi]
    rw [sumInts, hrd] at h
    have h : (addInt a (f c.body) >>= fun sum => addInt n 1 >>= fun cnt => sumInts s f is sum cnt) = .error e := h
    cases h1 : addInt a (f c.body) with
    | error g => rw [h1] at h; cases h; exact addInt_fault h1
    | ok v =>
      rw [h1] at h
      have h : (addInt n 1 >>= fun cnt => sumInts s f is v cnt) = .error e := h
      cases h2 : addInt n 1 with
      | error g => rw [h2] at h; cases h; exact addInt_fault h2
      | ok m =>
        rw [h2] at h
        exact sumInts_fault s f is v m (fun j hj => hl j (List.mem_cons_of_mem _ hj)) h

theorem sumReals_fault (s : St K X B R) (f : B → Res K) (hf : ∀ b e, f b = .error e → e = .ub) :
    ∀ (l : List Nat) (a : K) (n : Int) {e : Fault}, Alive s l →
    sumReals s f l a n = .error e → e = .ub
  | [], a, n, e, _, h => by cases h
  | i :: is, a, n, e, hl, h => by
    obtain ⟨c, hi⟩ := hl i List.mem_cons_self
    have hrd : s.rd i = .ok c := by unfold St.rd; rw [hi]
    rw [sumReals, hrd] at h
    have h : (f c.body >>= fun v => addInt n 1 >>= fun cnt => sumReals s f is (a + v) cnt) = .error e := h
    cases h1 : f c.body with
    | error g => rw [h1] at h; cases h; exact hf _ _ h1
    | ok v =>
      rw [h1] at h
      have h : (addInt n 1 >>= fun cnt => sumReals s f is (a + v) cnt) = .error e := h
      cases h2 : addInt n 1 with
      | error g => rw [h2] at h; cases h; exact addInt_fault h2
      | ok m =>
        rw [h2] at h
        exact sumReals_fault s f hf is _ m (fun j hj => hl j (List.mem_cons_of_mem _ hj)) h

/-! ## Rules -/

variable (Y : NetSystem K R)

theorem condNet_fine (b : Y.Rule) {n : NetBody K} (h : condNet Y.rule b.1.cond = some n) : NetFine n := by
  have key : ∀ (t : RuleKind) (c : t.CBody K), t.WC Y.S Y.condPlan c → condNet t c = some n → NetFine n := by
    intro t c w e
    match t, c, w, e with
    | .parts none _, c, w, e => cases e; exact ⟨_, netLegal_mem (NetOk.legal w)⟩
    | .neural, c, w, e => cases e; exact ⟨_, netLegal_mem (NetOk.legal w)⟩
    | .parts (some _) _, c, w, e => cases e
    | .dgp, c, w, e => cases e
  exact key _ _ b.2.cond h

theorem predNet_fine (b : Y.Rule) {n : NetBody K} (h : predNet Y.pred b.1.pred = some n) : NetFine n := by
  have key : ∀ (t : Option PredType) (c : predBody K t), predW Y.S Y.predPlan t c → predNet t c = some n →
      NetFine n := by
    intro t c w e
    match t, c, w, e with
    | none, c, w, e => cases e; exact ⟨_, netLegal_mem (NetOk.legal w)⟩
    | some _, c, w, e => cases e
  exact key _ _ b.2.pred h

theorem condNet_none {t : RuleKind} (h : neuralCond t = false) (c : t.CBody K) : condNet t c = none := by
  match t, c, h with
  | .parts (some _) _, _, _ => rfl
  | .dgp, _, _ => rfl

end Xcsf.Stats
