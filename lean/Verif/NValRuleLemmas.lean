import Verif.NValRuleSpec
import Verif.NValLemmas

/-!
# What rules made of networks answer: lemmas
-/

set_option linter.unusedSectionVars false
set_option linter.unusedVariables false

namespace Xcsf
open Finset
variable {R : Type} {p : NetPlan} {as : List (GArgs ℝ)} {tr : Bool} {b : NetBody ℝ} {n : Nat}

/-! ## Networks -/

theorem memoryless_trait {l : GLay ℝ} {a : GArgs ℝ} (h : l.trait = a.trait) :
    l.memoryless = a.memoryless := by
  have h1 := congrArg Prod.fst h
  cases l <;> cases a <;> first | rfl | (simp [GLay.trait, GArgs.trait] at h1)

theorem NetOk.forgets (h : NetOk p as tr b) (hm : ∀ a ∈ as, a.memoryless = true) :
    ∀ l ∈ b.lays, l.memoryless = true := by
  intro l hl
  obtain ⟨a, ha, e⟩ := map_mem_eq h.trait hl
  rw [memoryless_trait e]
  exact hm a ha

theorem above_of {k : Lim} (hk : k.maxpool = false) (lo : ℝ) : ∀ (ls : List (GLay ℝ)) (b : Bool)
    (d : Dim) (x : List ℝ), NetLegal k b d ls → Above lo ls x
  | [], _, _, _, _ => trivial
  | l :: ls, b, d, x, ⟨L, _, _, _, N⟩ => by
    refine ⟨fun q e => ?_, above_of hk lo ls _ _ _ N⟩
    subst e
    have := L.2.2
    rw [hk] at this
    cases this

/-- A network after it has been given an input. -/
structure Told (p : NetPlan) (as : List (GArgs ℝ)) (tr : Bool) (b : NetBody ℝ) (x : List ℝ)
    (b' : NetBody ℝ) : Prop where
  ok : NetOk p as tr b'
  val : netVal b'.lays = netVal b.lays
  last : ∃ l, b'.lays.getLast? = some l ∧ l.outs = .ok (netVal b.lays x)
  len : (netVal b.lays x).length = (p.outs as).toNat

theorem netPropagate_value {g : Rng ℝ R} {lo : ℝ} (L : p.Legal n as) (h : NetOk p as tr b)
    (hm : ∀ a ∈ as, a.memoryless = true) {x : List ℝ} (hx : x.length = n) (r : R) :
    ∃ b', netPropagate g realLibm lo false b x r = .ok (b', r) ∧ Told p as tr b x b' := by
  obtain ⟨⟨b1, r1⟩, e, h'⟩ := netPropagate_ok (g := g) (m := realLibm) Real.exp_pos lo false L h hx r
  obtain ⟨ls, e2, f, hl⟩ := net_value (g := g) (lo := lo) b.lays _ _ x r h.legal
    (by rw [hx, L.ins]; rfl) (above_of L.pool lo _ _ _ _ h.legal)
  have e3 : netPropagate g realLibm lo false b x r = .ok ({ b with lays := ls }, r) := by
    unfold netPropagate
    rw [e2]
  rw [e3] at e
  cases e
  refine ⟨_, e3, h', sameVal_net f (h.forgets hm), ?_, ?_⟩
  · obtain ⟨l, o, h1, _⟩ := h'.reads L
    exact ⟨l, h1, hl l h1⟩
  · obtain ⟨l, o, h1, _, h3, h4⟩ := h'.reads L
    rw [hl l h1] at h3
    cases h3
    exact h4

theorem netVal_length (L : p.Legal n as) (h : NetOk p as tr b)
    (hm : ∀ a ∈ as, a.memoryless = true) {x : List ℝ} (hx : x.length = n) :
    (netVal b.lays x).length = (p.outs as).toNat := by
  obtain ⟨b', _, t⟩ := netPropagate_value (g := (⟨fun r => (0, r), fun r => (0, r), fun _ => 0⟩ : Rng ℝ Unit))
    (lo := 0) L h hm hx ()
  exact t.len

theorem Told.output {x : List ℝ} {b' : NetBody ℝ} (t : Told p as tr b x b') {i : Nat}
    (hi : (i : Int) < p.outs as) :
    genOutput b'.nOut b'.lays i = .ok ((netVal b.lays x).getD i 0) := by
  obtain ⟨l, h1, h2⟩ := t.last
  have hl : i < (netVal b.lays x).length := by rw [t.len]; omega
  unfold genOutput
  rw [if_neg (by rw [t.ok.noted]; omega), h1]
  dsimp only
  rw [h2]
  dsimp only
  rw [rd_in hl]
  simp [List.getD, hl]

theorem netMatch_value {g : Rng ℝ R} {lo : ℝ} (L : p.Legal n as) (h1 : 1 ≤ p.outs as)
    (h : NetOk p as tr b) (hm : ∀ a ∈ as, a.memoryless = true) {x : List ℝ} (hx : x.length = n)
    (r : R) : ∃ m b', netMatch g realLibm lo false b x r = .ok (m, b', r) ∧ Told p as tr b x b' ∧
      (m = true ↔ Fires (netVal b.lays x)) := by
  obtain ⟨b', e, t⟩ := netPropagate_value (g := g) (lo := lo) L h hm hx r
  refine ⟨decide (1 / 2 < (netVal b.lays x).getD 0 0), b', ?_, t, ?_⟩
  · unfold netMatch
    rw [e]
    dsimp only
    rw [show (0 : Int) = ((0 : Nat) : Int) from rfl, t.output (by omega)]
  · unfold Fires
    rw [decide_eq_true_iff]

theorem firstMax_argmax {o : List ℝ} {n : Nat} (h1 : 1 ≤ n) (hn : n ≤ o.length) (k : Int) :
    FirstMax n o k ↔ argmax (o.take n) = .ok k.toNat ∧ 0 ≤ k := by
  have hl : (o.take n).length = n := by rw [List.length_take]; omega
  obtain ⟨i, m, e, h2, h3, h4⟩ := C45_argmax (o.take n) (by
    intro h
    rw [h] at hl
    simp at hl
    omega)
  have hi : i < n := by
    rw [← hl]
    exact (List.getElem?_eq_some_iff.1 h2).1
  have hget : ∀ j < n, (o.take n)[j]? = some (o.getD j 0) := by
    intro j hj
    rw [List.getElem?_take_of_lt hj, List.getElem?_eq_getElem (by omega)]
    simp [List.getD, show j < o.length by omega]
  have hm : m = o.getD i 0 := by
    have := hget i hi
    rw [h2] at this
    exact Option.some.inj this
  have F : ∀ j < n, o.getD j 0 ≤ o.getD i 0 := fun j hj => by
    rw [← hm]
    exact h3 _ (List.mem_of_getElem? (hget j hj))
  have G : ∀ j < i, o.getD j 0 < o.getD i 0 := fun j hj => by
    rw [← hm]
    exact h4 j _ hj (hget j (by omega))
  rw [e]
  constructor
  · rintro ⟨i', rfl, k1, k2, k3⟩
    refine ⟨?_, by omega⟩
    have : i = i' := by
      rcases Nat.lt_trichotomy i i' with h | h | h
      · exact absurd (k3 i h) (not_lt.2 (F i' k1))
      · exact h
      · exact absurd (G i' h) (not_lt.2 (k2 i hi))
    rw [this]
    rfl
  · rintro ⟨k1, k2⟩
    have k1 := Except.ok.inj k1
    exact ⟨i, by omega, hi, F, G⟩

/-- The action a network chooses. -/
noncomputable def chosen (n : Nat) (o : List ℝ) : Int :=
  match argmax (o.take n) with
  | .ok i => i
  | .error _ => 0

theorem firstMax_chosen {o : List ℝ} {n : Nat} (h1 : 1 ≤ n) (hn : n ≤ o.length) (k : Int) :
    FirstMax n o k ↔ chosen n o = k := by
  rw [firstMax_argmax h1 hn]
  obtain ⟨i, e, _⟩ := argmax_ok (l := o.take n) (by rw [List.length_take]; omega)
  unfold chosen
  rw [e]
  dsimp only
  constructor
  · rintro ⟨h, h0⟩
    have := Except.ok.inj h
    omega
  · intro h
    exact ⟨by rw [← h]; rfl, by omega⟩

theorem netAction_value {g : Rng ℝ R} {lo : ℝ} (L : p.Legal n as) {nA : Nat} (hA : 1 ≤ nA)
    (ho : (nA : Int) ≤ p.outs as) (h : NetOk p as tr b) (hm : ∀ a ∈ as, a.memoryless = true)
    {x : List ℝ} (hx : x.length = n) (r : R) :
    ∃ b', netAction g realLibm lo nA false b x r = .ok (chosen nA (netVal b.lays x), b', r) ∧
      Told p as tr b x b' := by
  obtain ⟨b', e, t⟩ := netPropagate_value (g := g) (lo := lo) L h hm hx r
  obtain ⟨l, h1, h2⟩ := t.last
  have hl := t.len
  obtain ⟨i, ei, _⟩ := argmax_ok (l := (netVal b.lays x).take nA) (by rw [List.length_take]; omega)
  refine ⟨b', ?_, t⟩
  unfold netAction chosen
  rw [e]
  dsimp only
  rw [h1]
  dsimp only
  rw [h2]
  dsimp only
  rw [if_neg (by omega), ei]

theorem bitsGo_value {out : Nat → Res ℝ} {o : Nat → ℝ} : ∀ (k : Nat),
    (∀ i, 1 ≤ i → i ≤ k → out i = .ok (o i)) →
    bitsGo out k = .ok (open Classical in ∑ i ∈ range k, if 1 / 2 < o (i + 1) then 2 ^ i else 0)
  | 0, _ => rfl
  | k + 1, h => by
    unfold bitsGo
    rw [bitsGo_value k fun i h1 h2 => h i h1 (by omega), h (k + 1) (by omega) (by omega)]
    show Except.ok (if _ then _ else _) = _
    rw [Finset.sum_range_succ]
    by_cases hh : 1 / 2 < o (k + 1)
    · rw [if_pos hh, if_pos hh]
    · rw [if_neg hh, if_neg hh, add_zero]

theorem bitsAction_value {out : Nat → Res ℝ} {o : Nat → ℝ} {nA k : Nat} (hA : 1 ≤ nA)
    (h : ∀ i, 1 ≤ i → i ≤ k → out i = .ok (o i)) :
    bitsAction nA k out = .ok (binaryAction nA k o) := by
  unfold bitsAction
  rw [bitsGo_value k h]
  show Except.ok (clampInt _ 0 _) = _
  congr 1
  unfold binaryAction
  generalize hs : (open Classical in ∑ i ∈ range k, if 1 / 2 < o (i + 1) then (2 : Int) ^ i else 0) = s
  have h0 : 0 ≤ s := by
    rw [← hs]
    refine Finset.sum_nonneg fun i _ => ?_
    split
    · positivity
    · exact le_refl _
  unfold clampInt
  rw [if_neg (by omega)]
  split
  · rw [min_eq_left (by omega)]
  · rw [min_eq_right (by omega)]

theorem netRead_value {x : List ℝ} {b' : NetBody ℝ} (t : Told p as tr b x b') : ∀ y : Nat,
    (y : Int) ≤ p.outs as → netReadGo b' y = .ok ((netVal b.lays x).take y)
  | 0, _ => rfl
  | y + 1, hy => by
    have hl : y < (netVal b.lays x).length := by rw [t.len]; omega
    unfold netReadGo
    rw [netRead_value t y (by omega)]
    dsimp only
    rw [t.output (by omega)]
    dsimp only
    rw [List.take_add_one, List.getElem?_eq_getElem hl]
    simp [List.getD, hl]

theorem netPredict_value {g : Rng ℝ R} {lo : ℝ} (L : p.Legal n as) {y : Nat}
    (hy : p.outs as = (y : Int)) (h : NetOk p as tr b) (hm : ∀ a ∈ as, a.memoryless = true)
    {x : List ℝ} (hx : x.length = n) (r : R) :
    ∃ b', netPredict g realLibm lo y false b x r = .ok (b', netVal b.lays x, r) ∧
      Told p as tr b x b' := by
  obtain ⟨b', e, t⟩ := netPropagate_value (g := g) (lo := lo) L h hm hx r
  refine ⟨b', ?_, t⟩
  unfold netPredict
  rw [e]
  dsimp only
  rw [netRead_value t y (by omega)]
  dsimp only
  rw [List.take_of_length_le (by rw [t.len]; omega)]

/-! ## Rules -/

/-- The action of a rule. -/
noncomputable def RuleKind.actionOf (n : Nat) : (t : RuleKind) → t.CBody ℝ → t.ABody ℝ → List ℝ → Int
  | .parts _ false => fun _ (a : ActInt ℝ) _ => a.action
  | .parts _ true => fun _ (b : NetBody ℝ) x => chosen n (netVal b.lays x)
  | .dgp => fun (d : Graph ℝ) _ x => binaryAction n (actionBits n)
      (statesAfter d (fun j => x.getD j 0) (startStates d true) d.t.toNat)
  | .neural => fun (b : NetBody ℝ) _ x => binaryAction n (actionBits n)
      (fun i => (netVal b.lays x).getD i 0)

variable {S : NetSetup ℝ} {nA : Nat} {pc pa pp : NetPlan}

theorem advises_iff (hA : 1 ≤ nA) : ∀ {t : RuleKind}, t.Legal S nA pc pa → t.Forgets S →
    ∀ {c : t.CBody ℝ} {a : t.ABody ℝ}, t.WA S nA pa a → ∀ {x : List ℝ}, x.length = S.xDim →
    ∀ k : Int, t.Advises nA c a x k ↔ t.actionOf nA c a x = k
  | .parts _ false, _, _, _, _, _, _, _, _ => Iff.rfl
  | .parts _ true, h, hf, c, a, wa, x, hx, k => by
    have wa : NetOk pa S.actNet false a := wa
    refine firstMax_chosen hA ?_ k
    have := netVal_length (h.2 rfl).1 wa (hf.2.2 rfl) hx
    have := (h.2 rfl).2
    omega
  | .dgp, _, _, _, _, _, _, _, _ => Iff.rfl
  | .neural, _, _, _, _, _, _, _, _ => Iff.rfl

theorem states_strip (d : Graph ℝ) (st : List ℝ) (x : List ℝ) :
    statesAfter { d with state := st } (fun j => x.getD j 0) (startStates { d with state := st } true)
      ({ d with state := st } : Graph ℝ).t.toNat =
    statesAfter d (fun j => x.getD j 0) (startStates d true) d.t.toNat :=
  statesAfter_state d st (fun j => x.getD j 0) (startStates d true) d.t.toNat

/-- What matching answers and what it leaves. -/
structure CondVal (g : Rng ℝ R) (S : NetSetup ℝ) (nA : Nat) (pa : NetPlan) (t : RuleKind)
    (c : t.CBody ℝ) (x : List ℝ) (m : Bool) (c' : t.CBody ℝ) : Prop where
  holds : m = true ↔ t.Holds S c x
  same : t.Holds S c' = t.Holds S c
  acts : ∀ a, t.actionOf nA c' a = t.actionOf nA c a
  answer : ∀ a, t.WA S nA pa a → ∀ r, ∃ a', (t.act g S nA).compute false c' a x r =
    .ok (t.actionOf nA c a x, a', r)

theorem cond_value {g : Rng ℝ R} (hA : 1 ≤ nA) (hl : S.libm = realLibm) : ∀ {t : RuleKind},
    t.Legal S nA pc pa → t.Forgets S → ∀ {c : t.CBody ℝ}, t.WC S pc c → ∀ {x : List ℝ},
    x.length = S.xDim → ∀ r : R,
    ∃ m c', (t.cond g S nA).cmatch false c x r = .ok (m, c', r) ∧ CondVal g S nA pa t c x m c'
  | .parts (some q) na, h, hf, c, wc, x, hx, r => by
    obtain ⟨m, c', e, h1, h2⟩ := cond_match (g := g) h.1 (fun e => hf.1 (by rw [e])) wc hx
    refine ⟨m, c', ?_, h1, ?_, ?_, ?_⟩
    · show ((q.vt g S.toSetup).cmatch c x >>= _) = _
      rw [e]
      rfl
    · funext y
      show q.Contains S.toSetup c' y = q.Contains S.toSetup c y
      exact propext ((contains_strip S.toSetup q c' y).symm.trans
        ((iff_of_eq (congrArg (fun b => q.Contains S.toSetup b y) h2)).trans
          (contains_strip S.toSetup q c y)))
    · intro a
      cases na <;> rfl
    · cases na with
      | false => exact fun a _ r => ⟨a, rfl⟩
      | true =>
        intro a wa r
        have wa : NetOk pa S.actNet false a := wa
        obtain ⟨b', e, _⟩ := netAction_value (g := g) (lo := S.lo) (h.2 rfl).1 hA (h.2 rfl).2 wa
          (hf.2.2 rfl) hx r
        refine ⟨b', ?_⟩
        show netAction g S.libm S.lo nA false a x r = _
        rw [hl]
        exact e
  | .parts none na, h, hf, c, wc, x, hx, r => by
    have wc : NetOk pc S.condNet false c := wc
    obtain ⟨m, c', e, t, h1⟩ := netMatch_value (g := g) (lo := S.lo) h.1.1 h.1.2 wc (hf.2.1 rfl) hx r
    refine ⟨m, c', ?_, h1, ?_, ?_, ?_⟩
    · show netMatch g S.libm S.lo false c x r = _
      rw [hl]
      exact e
    · funext y
      show Fires (netVal _ y) = Fires (netVal _ y)
      rw [t.val]
    · intro a
      cases na <;> rfl
    · cases na with
      | false => exact fun a _ r => ⟨a, rfl⟩
      | true =>
        intro a wa r
        have wa : NetOk pa S.actNet false a := wa
        obtain ⟨b', e, _⟩ := netAction_value (g := g) (lo := S.lo) (h.2 rfl).1 hA (h.2 rfl).2 wa
          (hf.2.2 rfl) hx r
        refine ⟨b', ?_⟩
        show netAction g S.libm S.lo nA false a x r = _
        rw [hl]
        exact e
  | .dgp, h, hf, c, wc, x, hx, r => by
    have wc : Wired S.dgp c := wc
    obtain ⟨st, e1, w, v⟩ := C34_update h.1 wc (h.2.1.trans_eq hx.symm) true
    have hlen : st.length = S.dgp.n := w.stateLen
    have h0 : 0 < st.length := by have := h.1.n; omega
    refine ⟨decide (1 / 2 < st.getD 0 0), { (c : Graph ℝ) with state := st }, ?_, ?_, ?_, ?_, ?_⟩
    · show (dgpMatch S.stateful c x >>= _) = _
      have hf : S.stateful = false := hf
      unfold dgpMatch
      rw [hf, show (!false) = true from rfl, e1]
      show ((getR st 0 >>= _) >>= _) = _
      rw [getR_of_lt h0 0]
      rfl
    · rw [decide_eq_true_iff, v 0 (by have := h.1.n; omega)]
      rfl
    · funext y
      exact congrArg (fun f : Nat → ℝ => 1 / 2 < f 0) (states_strip c st y)
    · intro a
      funext y
      exact congrArg (binaryAction nA (actionBits nA)) (states_strip c st y)
    · intro a _ r
      refine ⟨(), ?_⟩
      show (match ruleDgpAction nA { (c : Graph ℝ) with state := st } with
        | .error e => Except.error e
        | .ok a => Except.ok (a, (), r)) = _
      unfold ruleDgpAction
      rw [bitsAction_value (o := statesAfter (c : Graph ℝ) (fun j => x.getD j 0)
        (startStates c true) (c : Graph ℝ).t.toNat) hA]
      · rfl
      · intro i _ hi
        have := h.2.2
        rw [← v i (by omega)]
        exact getR_of_lt (show i < st.length by omega) 0
  | .neural, h, hf, c, wc, x, hx, r => by
    have wc : NetOk pc S.condNet false c := wc
    have ho := h.2
    obtain ⟨m, c', e, t, h1⟩ := netMatch_value (g := g) (lo := S.lo) h.1 (by omega) wc hf hx r
    refine ⟨m, c', ?_, h1, ?_, ?_, ?_⟩
    · show netMatch g S.libm S.lo false c x r = _
      rw [hl]
      exact e
    · funext y
      show Fires (netVal _ y) = Fires (netVal _ y)
      rw [t.val]
    · intro a
      funext y
      exact congrArg (fun f : List ℝ → List ℝ => binaryAction nA (actionBits nA) fun i => (f y).getD i 0)
        t.val
    · intro a _ r
      refine ⟨(), ?_⟩
      show (match ruleNetBits nA c' with
        | .error e => Except.error e
        | .ok a => Except.ok (a, (), r)) = _
      unfold ruleNetBits
      rw [t.ok.noted, ho, show ((actionBits nA : Int) + 1 - 1).toNat = actionBits nA by omega,
        ← ho, ← t.ok.noted,
        bitsAction_value (o := fun i => (netVal (NetBody.lays c) x).getD i 0) hA]
      · rfl
      · intro i _ hi
        exact t.output (by omega)

theorem act_value {g : Rng ℝ R} (hg : g.Open) (hb : g.Bounded) (hA : 1 ≤ nA)
    (hl : S.libm = realLibm) : ∀ {t : RuleKind},
    t.Legal S nA pc pa → t.Forgets S → ∀ {c : t.CBody ℝ} {a : t.ABody ℝ}, t.WC S pc c →
    t.WA S nA pa a → ∀ {x : List ℝ}, x.length = S.xDim → ∀ r : R,
    ∃ k a' r', (t.act g S nA).compute false c a x r = .ok (k, a', r') ∧
      t.actionOf nA c a' = t.actionOf nA c a
  | .parts _ false, h, hf, c, a, wc, wa, x, hx, r => ⟨_, a, r, rfl, rfl⟩
  | .parts _ true, h, hf, c, a, wc, wa, x, hx, r => by
    have wa : NetOk pa S.actNet false a := wa
    obtain ⟨b', e, t⟩ := netAction_value (g := g) (lo := S.lo) (h.2 rfl).1 hA (h.2 rfl).2 wa
      (hf.2.2 rfl) hx r
    refine ⟨chosen nA (netVal (NetBody.lays a) x), b', r, ?_, ?_⟩
    · show netAction g S.libm S.lo nA false a x r = _
      rw [hl]
      exact e
    · funext y
      show chosen nA (netVal _ y) = chosen nA (netVal _ y)
      rw [t.val]
  | .dgp, h, hf, c, a, wc, wa, x, hx, r => by
    obtain ⟨⟨k, a', r'⟩, e, _⟩ := (rule_act_sound hg hb (S := S)
      (by rw [hl]; exact Real.exp_pos) hA h).compute false c a x r wc wa hx
    exact ⟨k, a', r', e, rfl⟩
  | .neural, h, hf, c, a, wc, wa, x, hx, r => by
    obtain ⟨⟨k, a', r'⟩, e, _⟩ := (rule_act_sound hg hb (S := S)
      (by rw [hl]; exact Real.exp_pos) hA h).compute false c a x r wc wa hx
    exact ⟨k, a', r', e, rfl⟩

/-- The outputs of a rule as a vector. -/
noncomputable def predVec (S : NetSetup ℝ) : (q : Option PredType) → predBody ℝ q → List ℝ →
    List ℝ → List ℝ
  | some q => fun s p x => q.outputs S.toSetup (q.strip s) (q.keep p) x
  | none => fun (b : NetBody ℝ) _ x => netVal b.lays x

theorem pred_value {g : Rng ℝ R} (hl : S.libm = realLibm) : ∀ {q : Option PredType},
    PredLegal S pp q → (q = none → ∀ l ∈ S.predNet, l.memoryless = true) →
    ∀ {s : predBody ℝ q}, predW S pp q s → ∀ (p : List ℝ) {x : List ℝ}, x.length = S.xDim → ∀ r : R,
    ∃ s', (predFn g S q).compute false s p x r = .ok (s', predVec S q s p x, r) ∧
      predVec S q s' (predVec S q s p x) = predVec S q s p
  | some q, h, hf, s, w, p, x, hx, r => by
    obtain ⟨k1, k2, k3⟩ := pred_compute (g := g) S.toSetup w p x
    refine ⟨((q.vt g S.toSetup).compute s p x).1, ?_, ?_⟩
    · show Except.ok (_, ((q.vt g S.toSetup).compute s p x).2, r) = _
      rw [k3]
      rfl
    · have k3 : ((q.vt g S.toSetup).compute s p x).2 = predVec S (some q) s p x := k3
      rw [← k3]
      funext y
      show q.outputs S.toSetup _ _ y = q.outputs S.toSetup _ _ y
      rw [k1, k2]
  | none, h, hf, s, w, p, x, hx, r => by
    have w : NetOk pp S.predNet true s := w
    obtain ⟨b', e, t⟩ := netPredict_value (g := g) (lo := S.lo) h.1 h.2.2 w (hf rfl) hx r
    refine ⟨b', ?_, ?_⟩
    · show netPredict g S.libm S.lo S.pred.yDim false s x r = _
      rw [hl]
      exact e
    · funext y
      show netVal _ y = netVal _ y
      rw [t.val]

theorem predVec_get (q : Option PredType) (s : predBody ℝ q) (p x : List ℝ) (j : Nat)
    (hj : j < S.pred.yDim) : (predVec S q s p x).getD j 0 = predOutput S q s p x j := by
  cases q with
  | some q => exact outputs_get S.toSetup q s p x j hj
  | none => rfl

/-! ## Systems -/

variable (Y : NetSystem ℝ R)

/-- What a rule of the system answers to inputs. -/
noncomputable def NetSystem.learned (b : Y.Rule) (p : List ℝ) :
    (List ℝ → Prop) × (List ℝ → Int) × (List ℝ → List ℝ) :=
  (Y.rule.Holds Y.S b.1.cond, Y.rule.actionOf Y.par.nActions b.1.cond b.1.act,
    predVec Y.S Y.pred b.1.pred p)

theorem NetSystem.cmatch_value (hf : Y.Forgets) (b : Y.Rule) (x : Y.In) (r : R) :
    ((Y.kit.cmatch false b x r).1 = true ↔ Y.Holds b x.1) ∧
    (∀ p, Y.learned (Y.kit.cmatch false b x r).2.1 p = Y.learned b p) ∧
    ∀ r', (Y.kit.act false (Y.kit.cmatch false b x r).2.1 x r').1 =
      Y.rule.actionOf Y.par.nActions b.1.cond b.1.act x.1 := by
  obtain ⟨m, c', h1, V⟩ := cond_value (g := Y.pf.rng) Y.hpar.nActions hf.libm Y.hrule hf.rule
    b.2.cond x.2 r
  have h4 : (netSystemRep Y.pf.rng Y.S Y.par.nActions Y.rule Y.pred).cmatch false b.1 x r =
      .ok (m, { b.1 with cond := c' }, r) := by
    show ((Y.rule.cond Y.pf.rng Y.S Y.par.nActions).cmatch false b.1.cond x.1 r >>= _) = _
    rw [h1]; rfl
  have h5 := got_val ((C79_rules_sound Y).cmatch false b.1 x r b.2) h4
  have k1 : (Y.kit.cmatch false b x r).1 = m := congrArg Prod.fst h5
  have k2 : (Y.kit.cmatch false b x r).2.1.1 = { b.1 with cond := c' } :=
    congrArg (fun q => q.2.1) h5
  refine ⟨by rw [k1]; exact V.holds, fun p => ?_, fun r' => ?_⟩
  · unfold NetSystem.learned
    rw [k2]
    dsimp only
    rw [V.same, V.acts]
  · obtain ⟨a', ea⟩ := V.answer b.1.act b.2.act r'
    have h6 : (netSystemRep Y.pf.rng Y.S Y.par.nActions Y.rule Y.pred).act false
        (Y.kit.cmatch false b x r).2.1.1 x r' = .ok (Y.rule.actionOf Y.par.nActions b.1.cond b.1.act
          x.1, { b.1 with cond := c', act := a' }, r') := by
      rw [k2]
      show ((Y.rule.act Y.pf.rng Y.S Y.par.nActions).compute false c' b.1.act x.1 r' >>= _) = _
      rw [ea]; rfl
    exact congrArg Prod.fst (got_val ((C79_rules_sound Y).act false _ x r'
      (Y.kit.cmatch false b x r).2.1.2) h6)

open Classical in
theorem NetSystem.stateless (hf : Y.Forgets) : Stateless Y.kit Y.learned
    (fun s x => decide (s.1 x.1)) (fun s x => s.2.1 x.1) (fun s x => s.2.2 x.1) where
  passive :=
    { cmatch := fun b p x r => (Y.cmatch_value hf b x r).2.1 p
      act := fun b p x r => by
        obtain ⟨k, a', r', e, h⟩ := act_value Y.hpf.rng Y.hnormal Y.hpar.nActions hf.libm Y.hrule
          hf.rule b.2.cond b.2.act x.2 r
        have h4 : (netSystemRep Y.pf.rng Y.S Y.par.nActions Y.rule Y.pred).act false b.1 x r =
            .ok (k, { b.1 with act := a' }, r') := by
          show ((Y.rule.act Y.pf.rng Y.S Y.par.nActions).compute false b.1.cond b.1.act x.1 r >>= _) = _
          rw [e]; rfl
        have h5 : (Y.kit.act false b x r).2.1.1 = { b.1 with act := a' } :=
          congrArg (fun q => q.2.1) (got_val ((C79_rules_sound Y).act false b.1 x r b.2) h4)
        unfold NetSystem.learned
        rw [h5]
        dsimp only
        rw [h]
      predict := fun b p x r => by
        obtain ⟨s', e, h⟩ := pred_value (g := Y.pf.rng) hf.libm Y.hpred hf.pred b.2.pred p x.2 r
        have h4 : (netSystemRep Y.pf.rng Y.S Y.par.nActions Y.rule Y.pred).predict false b.1 p x r =
            .ok (predVec Y.S Y.pred b.1.pred p x.1, { b.1 with pred := s' }, r) := by
          show ((predFn Y.pf.rng Y.S Y.pred).compute false b.1.pred p x.1 r >>= _) = _
          rw [e]; rfl
        have h5 := got_val ((C79_rules_sound Y).predict false b.1 p x r b.2) h4
        have h6 : (Y.kit.predict false b p x r).2.1.1 = { b.1 with pred := s' } :=
          congrArg (fun q => q.2.1) h5
        have h7 : (Y.kit.predict false b p x r).1 = predVec Y.S Y.pred b.1.pred p x.1 :=
          congrArg (fun q => q.1) h5
        unfold NetSystem.learned
        rw [h6, h7]
        dsimp only
        rw [h] }
  cmatch := fun b p x r => by
    rw [Bool.eq_iff_iff, (Y.cmatch_value hf b x r).1, decide_eq_true_iff]
    rfl
  act := fun b p x r r' => (Y.cmatch_value hf b x r).2.2 r'
  predict := fun b p x r => by
    obtain ⟨s', e, h⟩ := pred_value (g := Y.pf.rng) hf.libm Y.hpred hf.pred b.2.pred p x.2 r
    have h4 : (netSystemRep Y.pf.rng Y.S Y.par.nActions Y.rule Y.pred).predict false b.1 p x r =
        .ok (predVec Y.S Y.pred b.1.pred p x.1, { b.1 with pred := s' }, r) := by
      show ((predFn Y.pf.rng Y.S Y.pred).compute false b.1.pred p x.1 r >>= _) = _
      rw [e]; rfl
    exact congrArg (fun q => q.1) (got_val ((C79_rules_sound Y).predict false b.1 p x r b.2) h4)

open Classical in
theorem NetSystem.weightedMean_eq (hf : Y.Forgets) (cs : List (Cl ℝ Y.Rule)) (x : Y.In) (a j : Nat)
    (hj : j < Y.S.pred.yDim) :
    weightedMean (advocating (answers Y.learned (fun s (x : Y.In) => decide (s.1 x.1))
      (fun s x => s.2.1 x.1) (fun s x => s.2.2 x.1) cs x) a) j =
    (if ((Y.advocates cs x.1 a).map Cl.fit).sum = 0 then 0 else
      ((Y.advocates cs x.1 a).map fun c => Y.output c x.1 j * c.fit).sum /
        ((Y.advocates cs x.1 a).map Cl.fit).sum) := by
  have e : advocating (answers Y.learned (fun s (x : Y.In) => decide (s.1 x.1))
      (fun s x => s.2.1 x.1) (fun s x => s.2.2 x.1) cs x) a =
      ((Y.advocates cs x.1 a).map (answer Y.learned (fun s (x : Y.In) => s.2.1 x.1)
        (fun s (x : Y.In) => s.2.2 x.1) x)).reverse := by
    unfold advocating answers NetSystem.advocates
    rw [List.filter_reverse, List.filter_map, List.filter_filter]
    congr 2
    refine List.filter_congr fun c _ => ?_
    rw [Bool.eq_iff_iff, Bool.and_eq_true, decide_eq_true_iff, decide_eq_true_iff,
      Function.comp, decide_eq_true_iff]
    have hi := advises_iff (c := c.body.1.cond) Y.hpar.nActions Y.hrule hf.rule c.body.2.act x.2
      (a : Int)
    exact ⟨fun h => ⟨h.2, hi.2 h.1⟩, fun h => ⟨hi.1 h.2, h.1⟩⟩
  unfold weightedMean
  rw [e]
  have e1 : ((Y.advocates cs x.1 a).map (answer Y.learned (fun s (x : Y.In) => s.2.1 x.1)
        (fun s (x : Y.In) => s.2.2 x.1) x)).reverse.map Cl.fit =
      ((Y.advocates cs x.1 a).map Cl.fit).reverse := by
    rw [List.map_reverse, List.map_map]; rfl
  have e2 : ((Y.advocates cs x.1 a).map (answer Y.learned (fun s (x : Y.In) => s.2.1 x.1)
        (fun s (x : Y.In) => s.2.2 x.1) x)).reverse.map (fun c => c.prediction.getD j 0 * c.fit) =
      ((Y.advocates cs x.1 a).map fun c => Y.output c x.1 j * c.fit).reverse := by
    rw [List.map_reverse, List.map_map]
    congr 1
    refine List.map_congr_left fun c _ => ?_
    show (predVec Y.S Y.pred _ _ x.1).getD j 0 * c.fit = _
    rw [predVec_get _ _ _ _ _ hj]
    rfl
  rw [e1, e2, List.sum_reverse, List.sum_reverse]

/-- The prediction of a system, from the invariant of reachable states. -/
theorem NetSystem.prediction_of (hf : Y.Forgets) {s s' : St ℝ Y.In Y.Rule R}
    (b : Between (fun _ => True) Y.par s s)
    {cv p : List ℝ} {x : Y.In} (hp : predictRow Y.par Y.kit cv x s = .ok (p, s')) :
    ((∀ c ∈ population s, ¬ Y.Holds c.body x.1) → p = cv) ∧
    ((∃ c ∈ population s, Y.Holds c.body x.1) →
      ∀ a j, a < Y.par.nActions → j < Y.par.yDim →
      p[a * Y.par.yDim + j]? = some (
        let adv := Y.advocates (population s) x.1 a
        if (adv.map Cl.fit).sum = 0 then 0
        else (adv.map fun c => Y.output c x.1 j * c.fit).sum / (adv.map Cl.fit).sum)) := by
  classical
  obtain ⟨h1, h2⟩ := row_values_of (Y.stateless hf) b hp
  refine ⟨fun k => h1 fun c hc => ?_, fun ⟨c, hc, k⟩ a j ha hj => ?_⟩
  · rw [decide_eq_false_iff_not]
    exact k c hc
  · rw [h2 ⟨c, hc, decide_eq_true_iff.2 k⟩ a j ha hj,
      Y.weightedMean_eq hf _ _ _ _ (by rw [Y.hyDim]; exact hj)]

end Xcsf
