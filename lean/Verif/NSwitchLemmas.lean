import Verif.NSwitchSpec
import Verif.NSeqLearn

/-!
# Lemmas for properties C80 and C81: mutation
-/

set_option linter.unusedSectionVars false

namespace Xcsf
variable {K R : Type} [Field K] [LinearOrder K] [IsStrictOrderedRing K] [FloorRing K]

theorem CLay.Switched.refl (s : Bool) (o : LOpt) (l : CLay K) : l.Switched s o l :=
  ⟨rfl, rfl, rfl, rfl, rfl, rfl, rfl, fun _ => ⟨rfl, rfl, rfl⟩, fun _ => rfl, fun _ => rfl, fun _ => rfl, fun _ _ => rfl,
    fun _ _ _ => rfl, fun _ _ _ _ => rfl, fun _ _ => rfl⟩

theorem CLay.Switched.trans {s : Bool} {o : LOpt} {a b c : CLay K} (h : a.Switched s o b)
    (k : b.Switched s o c) : a.Switched s o c :=
  ⟨k.opt.trans h.opt, k.etaMax.trans h.etaMax, k.etaMin.trans h.etaMin,
    k.momentum.trans h.momentum, k.decay.trans h.decay, k.maxOutputs.trans h.maxOutputs,
    k.maxGrow.trans h.maxGrow,
    fun e => ⟨(k.shape e).1.trans (h.shape e).1, (k.shape e).2.1.trans (h.shape e).2.1,
      (k.shape e).2.2.trans (h.shape e).2.2⟩, fun e => (k.eta e).trans (h.eta e), fun e => (k.fn e).trans (h.fn e),
    fun e => (k.nOut e).trans (h.nOut e), fun e f => (k.nIn e f).trans (h.nIn e f),
    fun e f d => (k.links e f d).trans (h.links e f d),
    fun e f d q => (k.weights e f d q).trans (h.weights e f d q),
    fun e f => (k.biases e f).trans (h.biases e f)⟩

theorem CLay.Switched.mono {s : Bool} {o : LOpt} {a b : CLay K} (h : a.Switched false o b) :
    a.Switched s o b :=
  ⟨h.opt, h.etaMax, h.etaMin, h.momentum, h.decay, h.maxOutputs, h.maxGrow, h.shape, h.eta, h.fn, h.nOut,
    fun _ => h.nIn rfl, fun _ => h.links rfl, fun _ => h.weights rfl, h.biases⟩

/-! ## Connected parts -/

/-- The number of inputs or outputs changes, and with it the connections and neurons; the rest
stays. -/
theorem switched_of_gist {s : Bool} {o : LOpt} {l l' : CLay K} (h : l'.gist = l.gist)
    (hs : s = false → o.neurons = true) (hn : o.neurons = true ∨
      (l'.nOutputs = l.nOutputs ∧ l'.ns = l.ns)) : l.Switched s o l' := by
  unfold CLay.gist at h
  simp only [Gist.mk.injEq, Prod.mk.injEq] at h
  obtain ⟨h1, h2, h3, h4, h5, h6, h7, h8, h9, h10⟩ := h
  refine ⟨h1, h3, h4, h5, h6, h8, h9, fun _ => h10, fun _ => h2, fun _ => h7, fun e => ?_, fun e f => ?_,
    fun e f => ?_, fun e f => ?_, fun e => ?_⟩
  · rcases hn with hn | hn
    · rw [hn] at e; cases e
    · exact hn.1
  · rw [hs e] at f; cases f
  · rw [hs e] at f; cases f
  · rw [hs e] at f; cases f
  · rcases hn with hn | hn
    · rw [hn] at e; cases e
    · exact fun _ => hn.2

theorem addNeurons_gist {g : Rng K R} {l l' : CLay K} {n : Int} {r r' : R}
    (h : addNeurons g l n r = .ok (l', r')) : l'.gist = l.gist := by
  unfold addNeurons at h
  dsimp only at h
  split at h
  · cases h
  · split at h
    · cases h
    · split at h
      · cases h
      · cases h; rfl

theorem ensureInput_gist {g : Rng K R} {fuel : Nat} {l l' : CLay K} {r r' : R}
    (h : ensureInput g fuel l r = .ok (l', r')) :
    l'.gist = l.gist ∧ l'.nOutputs = l.nOutputs ∧ l'.nInputs = l.nInputs ∧ l'.ns = l.ns := by
  unfold ensureInput at h
  split at h
  · cases h
  · split at h
    · cases h
    · cases h; exact ⟨rfl, rfl, rfl, rfl⟩

theorem connResize_gist {g : Rng K R} {fuel : Nat} {l l' : CLay K} {p : Nat} {r r' : R}
    (h : connResize g fuel l p r = .ok (l', r')) :
    l'.gist = l.gist ∧ l'.nOutputs = l.nOutputs ∧ l'.ns = l.ns := by
  unfold connResize at h
  dsimp only at h
  split at h
  · cases h
  · split at h
    · cases h
    · split at h
      · cases h
      · split at h
        · have e := ensureInput_gist h
          exact ⟨e.1, e.2.1, e.2.2.2⟩
        · cases h; exact ⟨rfl, rfl, rfl⟩

theorem connMutEta_switched (g : Rng K R) (l : CLay K) (mu : K) (r : R) {o : LOpt}
    (ho : l.opt.eta = true → o.eta = true) :
    l.Switched false o (connMutEta g l mu r).1.1 ∧
      ((connMutEta g l mu r).1.2 = false → (connMutEta g l mu r).1.1 = l) := by
  unfold connMutEta
  split
  · next h =>
    refine ⟨⟨rfl, rfl, rfl, rfl, rfl, rfl, rfl, fun _ => ⟨rfl, rfl, rfl⟩, fun e => ?_, fun _ => rfl, fun _ => rfl,
      fun _ _ => rfl, fun _ _ _ => rfl, fun _ _ _ _ => rfl, fun _ _ => rfl⟩, fun e => ?_⟩
    · rw [ho h] at e; cases e
    · unfold mutateEta at e ⊢
      dsimp only at e ⊢
      rw [decide_eq_false_iff_not, not_not] at e
      rw [e]
  · exact ⟨.refl _ _ _, fun _ => rfl⟩

theorem connMutNeurons_switched {g : Rng K R} {fuel : Nat} {l : CLay K} {mu : K} {r : R}
    {z : (CLay K × Bool) × R} (h : connMutNeurons g fuel l mu r = .ok z) {o : LOpt}
    (hp : l.opt.neurons = true → o.neurons = true) :
    l.Switched false o z.1.1 ∧ (z.1.2 = false → z.1.1 = l) := by
  unfold connMutNeurons at h
  split at h
  · next ho =>
    split at h
    · cases h
    · split at h
      · cases h; exact ⟨.refl _ _ _, fun _ => rfl⟩
      · split at h
        · cases h
        · next e =>
          cases h
          exact ⟨switched_of_gist (addNeurons_gist e) (fun _ => hp ho) (Or.inl (hp ho)),
            fun h => nomatch h⟩
  · cases h; exact ⟨.refl _ _ _, fun _ => rfl⟩

theorem connGo_same (g : Rng K R) (a b : K) : ∀ (ws : List (Wt K)) (r : R),
    (connGo g a b ws r).1.2.2 = false →
      (connGo g a b ws r).1.1 = ws ∧ (connGo g a b ws r).1.2.1 = 0
  | [], _ => fun _ => ⟨rfl, rfl⟩
  | w :: ws, r => by
    intro h
    unfold connGo at h ⊢
    dsimp only at h ⊢
    split
    · next h1 =>
      rw [if_pos h1] at h
      split
      · next h2 => rw [if_pos h2] at h; cases h
      · next h2 =>
        rw [if_neg h2] at h
        dsimp only at h ⊢
        rw [(connGo_same g a b ws _ h).1, (connGo_same g a b ws _ h).2]
        exact ⟨rfl, rfl⟩
    · next h1 =>
      rw [if_neg h1] at h
      split
      · next h2 => rw [if_pos h2] at h; cases h
      · next h2 =>
        rw [if_neg h2] at h
        dsimp only at h ⊢
        rw [(connGo_same g a b ws _ h).1, (connGo_same g a b ws _ h).2]
        exact ⟨rfl, rfl⟩

/-- A step that changes only connections is allowed if connections evolve. -/
theorem switched_of_ws {s : Bool} {o : LOpt} {l l' : CLay K} (h : l'.gist = l.gist)
    (ho : o.connect = true) (h1 : l'.nOutputs = l.nOutputs) (h2 : l'.nInputs = l.nInputs)
    (h3 : l'.ns = l.ns) : l.Switched s o l' := by
  unfold CLay.gist at h
  simp only [Gist.mk.injEq, Prod.mk.injEq] at h
  obtain ⟨k1, k2, k3, k4, k5, k6, k7, k8, k9, k10⟩ := h
  refine ⟨k1, k3, k4, k5, k6, k8, k9, fun _ => k10, fun _ => k2, fun _ => k7, fun _ => h1, fun _ _ => h2,
    fun _ _ e => ?_, fun _ _ e => ?_, fun _ _ => h3⟩
  · rw [ho] at e; cases e
  · rw [ho] at e; cases e

theorem mutateConn_switched (g : Rng K R) (l : CLay K) (a b : K) (r : R) {s : Bool} {o : LOpt}
    (ho : o.connect = true) : l.Switched s o (mutateConn g l a b r).1.1 ∧
      ((mutateConn g l a b r).1.2 = false → (mutateConn g l a b r).1.1 = l) := by
  unfold mutateConn
  split
  · refine ⟨switched_of_ws rfl ho rfl rfl rfl, fun h => ?_⟩
    dsimp only at h ⊢
    rw [(connGo_same g a b _ _ h).1, (connGo_same g a b _ _ h).2, add_zero]
  · exact ⟨.refl _ _ _, fun _ => rfl⟩

theorem connMutConn_switched {g : Rng K R} {fuel : Nat} {l : CLay K} {a b : K} {r : R}
    {z : (CLay K × Bool) × R} (h : connMutConn g fuel l a b r = .ok z) {o : LOpt}
    (hp : l.opt.connect = true → o.connect = true) :
    l.Switched false o z.1.1 ∧ (z.1.2 = false → z.1.1 = l) := by
  unfold connMutConn at h
  split at h
  · next ho =>
    replace ho := hp ho
    have C := mutateConn_switched (s := false) g l a b r ho
    dsimp only at h
    split at h
    · split at h
      · cases h
      · next e =>
        cases h
        obtain ⟨e1, e2, e3, e4⟩ := ensureInput_gist e
        exact ⟨C.1.trans (switched_of_ws e1 ho e2 e3 e4), fun h => nomatch h⟩
    · next hc =>
      cases h
      exact ⟨C.1, fun _ => C.2 (by simpa using hc)⟩
  · cases h; exact ⟨.refl _ _ _, fun _ => rfl⟩

theorem mutWtGo_same (g : Rng K R) (mu : K) : ∀ (ws : List (Wt K)) (r : R),
    (mutWtGo g mu ws r).1.1.map Wt.on = ws.map Wt.on ∧
      ((mutWtGo g mu ws r).1.2 = false → (mutWtGo g mu ws r).1.1 = ws)
  | [], _ => ⟨rfl, fun _ => rfl⟩
  | w :: ws, r => by
    unfold mutWtGo
    dsimp only
    split
    · have ih := mutWtGo_same g mu ws (g.normal 0 mu r).2
      refine ⟨?_, fun h => ?_⟩
      · dsimp only
        rw [List.map_cons, List.map_cons, ih.1]
      · dsimp only at h ⊢
        rw [Bool.or_eq_false_iff, decide_eq_false_iff_not, not_not] at h
        rw [h.1, ih.2 h.2]
    · have ih := mutWtGo_same g mu ws r
      refine ⟨?_, fun h => ?_⟩
      · dsimp only
        rw [List.map_cons, List.map_cons, ih.1]
      · dsimp only at h ⊢
        rw [ih.2 h]

theorem mutBiasGo_same (g : Rng K R) (mu : K) : ∀ (ns : List (Neuron K)) (r : R),
    (mutBiasGo g mu ns r).1.2 = false → (mutBiasGo g mu ns r).1.1 = ns
  | [], _ => fun _ => rfl
  | n :: ns, r => by
    intro h
    unfold mutBiasGo at h ⊢
    dsimp only at h ⊢
    rw [Bool.or_eq_false_iff, decide_eq_false_iff_not, not_not] at h
    rw [h.1, mutBiasGo_same g mu ns _ h.2]

theorem mutateWeights_switched (g : Rng K R) (l : CLay K) (mu : K) (r : R) {s : Bool} {o : LOpt}
    (ho : o.weights = true) : l.Switched s o (mutateWeights g l mu r).1.1 ∧
      ((mutateWeights g l mu r).1.2 = false → (mutateWeights g l mu r).1.1 = l) := by
  have h := mutWtGo_same g mu l.ws r
  refine ⟨⟨rfl, rfl, rfl, rfl, rfl, rfl, rfl, fun _ => ⟨rfl, rfl, rfl⟩, fun _ => rfl, fun _ => rfl, fun _ => rfl,
    fun _ _ => rfl, fun _ _ _ => h.1, fun _ _ _ e => ?_, fun _ e => ?_⟩, fun e => ?_⟩
  · rw [ho] at e; cases e
  · rw [ho] at e; cases e
  · unfold mutateWeights at e ⊢
    dsimp only at e ⊢
    rw [Bool.or_eq_false_iff] at e
    rw [h.2 e.1, mutBiasGo_same g mu _ _ e.2]

theorem connMutWeights_switched (g : Rng K R) (l : CLay K) (mu : K) (r : R) {o : LOpt}
    (hp : l.opt.weights = true → o.weights = true) :
    l.Switched false o (connMutWeights g l mu r).1.1 ∧
      ((connMutWeights g l mu r).1.2 = false → (connMutWeights g l mu r).1.1 = l) := by
  unfold connMutWeights
  split
  · next h => exact mutateWeights_switched g l mu r (hp h)
  · exact ⟨.refl _ _ _, fun _ => rfl⟩

theorem connMutFn_switched (g : Rng K R) (l : CLay K) (mu : K) (r : R) {o : LOpt}
    (hp : l.opt.functions = true → o.functions = true) :
    l.Switched false o (connMutFn g l mu r).1.1 ∧
      ((connMutFn g l mu r).1.2 = false → (connMutFn g l mu r).1.1 = l) := by
  unfold connMutFn
  split
  · next h =>
    unfold mutateFn
    dsimp only
    split
    · refine ⟨⟨rfl, rfl, rfl, rfl, rfl, rfl, rfl, fun _ => ⟨rfl, rfl, rfl⟩, fun _ => rfl, fun e => ?_, fun _ => rfl,
        fun _ _ => rfl, fun _ _ _ => rfl, fun _ _ _ _ => rfl, fun _ _ => rfl⟩, fun e => ?_⟩
      · rw [hp h] at e; cases e
      · dsimp only at e ⊢
        rw [decide_eq_false_iff_not, not_not] at e
        rw [e]
    · exact ⟨.refl _ _ _, fun _ => rfl⟩
  · exact ⟨.refl _ _ _, fun _ => rfl⟩

/-- The learning rate lies within its limits. -/
def CLay.InRange (l : CLay K) : Prop := l.etaMin ≤ l.eta ∧ l.eta ≤ l.etaMax

theorem connMutEta_range (g : Rng K R) {l : CLay K} (h : l.InRange) (mu : K) (r : R) :
    (connMutEta g l mu r).1.1.InRange := by
  unfold connMutEta
  split
  · exact clampK_mem _ (h.1.trans h.2)
  · exact h

theorem CLay.InRange.switched {s : Bool} {o : LOpt} {l l' : CLay K} (h : l.InRange)
    (k : l.Switched s o l') (e : o.eta = false) : l'.InRange := by
  unfold CLay.InRange
  rw [k.etaMin, k.etaMax, k.eta e]
  exact h

/-- The switches with that of the learning rate off. -/
def LOpt.noEta (o : LOpt) : LOpt := { o with eta := false }

theorem connMutate_switched {g : Rng K R} {fuel : Nat} {l : CLay K} {r : R}
    {z : (CLay K × Bool) × R} (h : connMutate g fuel l r = .ok z) :
    l.Switched false l.opt z.1.1 ∧ (z.1.2 = false → ∃ mu, z.1.1 = { l with mu := mu }) ∧
      (l.InRange → z.1.1.InRange) := by
  unfold connMutate at h
  split at h
  · cases h
  · next m0 m1 m2 m3 m4 m5 r1 _ =>
    dsimp only at h
    have hm : ∀ o, l.Switched false o { l with mu := [m0, m1, m2, m3, m4, m5] } := fun _ =>
      ⟨rfl, rfl, rfl, rfl, rfl, rfl, rfl, fun _ => ⟨rfl, rfl, rfl⟩, fun _ => rfl, fun _ => rfl, fun _ => rfl,
        fun _ _ => rfl, fun _ _ _ => rfl, fun _ _ _ _ => rfl, fun _ _ => rfl⟩
    have ha := connMutEta_switched g { l with mu := [m0, m1, m2, m3, m4, m5] } m0 r1 (o := l.opt) id
    have hr : l.InRange → (connMutEta g { l with mu := [m0, m1, m2, m3, m4, m5] } m0 r1).1.1.InRange :=
      fun h => connMutEta_range g (l := { l with mu := [m0, m1, m2, m3, m4, m5] }) h m0 r1
    generalize connMutEta g { l with mu := [m0, m1, m2, m3, m4, m5] } m0 r1 = a at h ha hr
    have oa : a.1.1.opt = l.opt := ha.1.opt
    split at h
    · cases h
    · next l1 b1 r2 e1 =>
      have hb : ∀ o : LOpt, o.neurons = l.opt.neurons → _ := fun o ho =>
        connMutNeurons_switched e1 (o := o) (by rw [oa, ho]; exact id)
      have ob : l1.opt = l.opt := (hb l.opt rfl).1.opt.trans oa
      split at h
      · cases h
      · next l2 b2 r3 e2 =>
        have hc : ∀ o : LOpt, o.connect = l.opt.connect → _ := fun o ho =>
          connMutConn_switched e2 (o := o) (by rw [ob, ho]; exact id)
        have oc : l2.opt = l.opt := (hc l.opt rfl).1.opt.trans ob
        have hd : ∀ o : LOpt, o.weights = l.opt.weights → _ := fun o ho =>
          connMutWeights_switched g l2 m4 r3 (o := o) (by rw [oc, ho]; exact id)
        generalize connMutWeights g l2 m4 r3 = c at h hd
        have od : c.1.1.opt = l.opt := (hd l.opt rfl).1.opt.trans oc
        have he : ∀ o : LOpt, o.functions = l.opt.functions → _ := fun o ho =>
          connMutFn_switched g c.1.1 m5 c.2 (o := o) (by rw [od, ho]; exact id)
        generalize connMutFn g c.1.1 m5 c.2 = d at h he
        cases h
        have tl : ∀ o : LOpt, o.neurons = l.opt.neurons → o.connect = l.opt.connect →
            o.weights = l.opt.weights → o.functions = l.opt.functions →
            a.1.1.Switched false o d.1.1 := fun o h1 h2 h3 h4 =>
          (((hb o h1).1.trans (hc o h2).1).trans (hd o h3).1).trans (he o h4).1
        refine ⟨((hm _).trans ha.1).trans (tl l.opt rfl rfl rfl rfl), fun h => ?_,
          fun h => (hr h).switched (tl l.opt.noEta rfl rfl rfl rfl) rfl⟩
        dsimp only at h
        simp only [Bool.or_eq_false_iff] at h
        obtain ⟨⟨⟨⟨f1, f2⟩, f3⟩, f4⟩, f5⟩ := h
        refine ⟨[m0, m1, m2, m3, m4, m5], ?_⟩
        rw [show d.1.1 = c.1.1 from (he l.opt rfl).2 f5, (hd l.opt rfl).2 f4,
          show l2 = l1 from (hc l.opt rfl).2 f3, show l1 = a.1.1 from (hb l.opt rfl).2 f2, ha.2 f1]
  · cases h

/-! ## Convolutional layers -/

theorem addFilters_gist {g : Rng K R} {l l' : VLay K} {n : Int} {r r' : R}
    (h : addFilters g l n r = .ok (l', r')) : l'.core.gist = l.core.gist := by
  unfold addFilters at h
  dsimp only at h
  split at h
  · cases h
  · split at h
    · cases h
    · split at h
      · cases h
      · split at h
        · cases h
        · cases h; rfl

theorem convMutFilters_switched {g : Rng K R} {fuel : Nat} {l : VLay K} {mu : K} {r : R}
    {z : (VLay K × Bool) × R} (h : convMutFilters g fuel l mu r = .ok z) {o : LOpt}
    (hp : l.core.opt.neurons = true → o.neurons = true) :
    l.core.Switched false o z.1.1.core ∧ (z.1.2 = false → z.1.1 = l) ∧
      (l.core.opt.neurons = false → z.1.1 = l) := by
  unfold convMutFilters at h
  split at h
  · next ho =>
    split at h
    · cases h
    · split at h
      · cases h; exact ⟨.refl _ _ _, fun _ => rfl, fun _ => rfl⟩
      · split at h
        · cases h
        · next e =>
          cases h
          exact ⟨switched_of_gist (addFilters_gist e) (fun _ => hp ho) (Or.inl (hp ho)),
            (fun h => nomatch h), fun h => by rw [ho] at h; cases h⟩
  · cases h; exact ⟨.refl _ _ _, fun _ => rfl, fun _ => rfl⟩

theorem convMutConn_switched (g : Rng K R) (l : VLay K) (a b : K) (r : R) {o : LOpt}
    (hp : l.core.opt.connect = true → o.connect = true) :
    l.core.Switched false o (convMutConn g l a b r).1.1.core ∧
      ((convMutConn g l a b r).1.2 = false → (convMutConn g l a b r).1.1 = l) ∧
      (convMutConn g l a b r).1.1 = { l with core := (convMutConn g l a b r).1.1.core } := by
  unfold convMutConn
  split
  · next h =>
    refine ⟨switched_of_ws rfl (hp h.1) rfl rfl rfl, fun h => ?_, rfl⟩
    dsimp only at h ⊢
    rw [(connGo_same g a b _ _ h).1, (connGo_same g a b _ _ h).2, add_zero]
  · exact ⟨.refl _ _ _, fun _ => rfl, rfl⟩

theorem convMutate_switched {g : Rng K R} {fuel : Nat} {l : VLay K} {r : R}
    {z : (VLay K × Bool) × R} (h : convMutate g fuel l r = .ok z) :
    l.core.Switched false l.core.opt z.1.1.core ∧
      (z.1.2 = false → ∃ mu, z.1.1 = { l with core := { l.core with mu := mu } }) ∧
      (l.core.InRange → z.1.1.core.InRange) ∧
      (l.core.opt.neurons = false → z.1.1 = { l with core := z.1.1.core }) := by
  unfold convMutate at h
  split at h
  · cases h
  · next m0 m1 m2 m3 m4 m5 r1 _ =>
    dsimp only at h
    have hm : ∀ o, l.core.Switched false o { l.core with mu := [m0, m1, m2, m3, m4, m5] } := fun _ =>
      ⟨rfl, rfl, rfl, rfl, rfl, rfl, rfl, fun _ => ⟨rfl, rfl, rfl⟩, fun _ => rfl, fun _ => rfl, fun _ => rfl,
        fun _ _ => rfl, fun _ _ _ => rfl, fun _ _ _ _ => rfl, fun _ _ => rfl⟩
    have ha := connMutEta_switched g { l.core with mu := [m0, m1, m2, m3, m4, m5] } m0 r1
      (o := l.core.opt) id
    have hr : l.core.InRange →
        (connMutEta g { l.core with mu := [m0, m1, m2, m3, m4, m5] } m0 r1).1.1.InRange :=
      fun h => connMutEta_range g (l := { l.core with mu := [m0, m1, m2, m3, m4, m5] }) h m0 r1
    generalize connMutEta g { l.core with mu := [m0, m1, m2, m3, m4, m5] } m0 r1 = a at h ha hr
    have oa : a.1.1.opt = l.core.opt := ha.1.opt
    split at h
    · cases h
    · next l1 b1 r2 e1 =>
      have hb : ∀ o : LOpt, o.neurons = l.core.opt.neurons → _ := fun o ho =>
        convMutFilters_switched e1 (o := o) (by rw [ho, ← oa]; exact id)
      have ob : l1.core.opt = l.core.opt := (hb l.core.opt rfl).1.opt.trans oa
      have hc : ∀ o : LOpt, o.connect = l.core.opt.connect → _ := fun o ho =>
        convMutConn_switched g l1 m2 m3 r2 (o := o) (by rw [ob, ho]; exact id)
      generalize convMutConn g l1 m2 m3 r2 = b at h hc
      have oc : b.1.1.core.opt = l.core.opt := (hc l.core.opt rfl).1.opt.trans ob
      have hd : ∀ o : LOpt, o.weights = l.core.opt.weights → _ := fun o ho =>
        connMutWeights_switched g b.1.1.core m4 b.2 (o := o) (by rw [oc, ho]; exact id)
      generalize connMutWeights g b.1.1.core m4 b.2 = c at h hd
      have od : c.1.1.opt = l.core.opt := (hd l.core.opt rfl).1.opt.trans oc
      have he : ∀ o : LOpt, o.functions = l.core.opt.functions → _ := fun o ho =>
        connMutFn_switched g c.1.1 m5 c.2 (o := o) (by rw [od, ho]; exact id)
      generalize connMutFn g c.1.1 m5 c.2 = d at h he
      cases h
      have tl : ∀ o : LOpt, o.neurons = l.core.opt.neurons → o.connect = l.core.opt.connect →
          o.weights = l.core.opt.weights → o.functions = l.core.opt.functions →
          a.1.1.Switched false o d.1.1 := fun o h1 h2 h3 h4 =>
        (((hb o h1).1.trans (hc o h2).1).trans (hd o h3).1).trans (he o h4).1
      refine ⟨((hm _).trans ha.1).trans (tl _ rfl rfl rfl rfl), fun h => ?_,
        fun h => (hr h).switched (tl l.core.opt.noEta rfl rfl rfl rfl) rfl, fun h => ?_⟩
      · dsimp only at h
        simp only [Bool.or_eq_false_iff] at h
        obtain ⟨⟨⟨⟨f1, f2⟩, f3⟩, f4⟩, f5⟩ := h
        refine ⟨[m0, m1, m2, m3, m4, m5], ?_⟩
        dsimp only
        have g1 : l1 = { l with core := a.1.1 } := (hb l.core.opt rfl).2.1 f2
        rw [show d.1.1 = c.1.1 from (he l.core.opt rfl).2 f5, (hd l.core.opt rfl).2 f4,
          (hc l.core.opt rfl).2.1 f3, g1, ha.2 f1]
      · dsimp only
        have g1 : l1 = { l with core := a.1.1 } := (hb l.core.opt rfl).2.2 (by
          show a.1.1.opt.neurons = false
          rw [oa]; exact h)
        rw [(hc l.core.opt rfl).2.2, g1]
  · cases h

/-! ## Recurrent layers -/

/-- The parts of a recurrent layer may be mutated like this. -/
structure RLay.Moved (o : LOpt) (l l' : RLay K) : Prop where
  opt : l'.opt = l.opt
  eta : o.eta = false → l'.eta = l.eta
  fn : o.functions = false → l'.fn = l.fn
  dim : o.neurons = false → l'.nOutputs = l.nOutputs ∧ l'.outW = l.outW
  inp : l.inp.Switched false o l'.inp
  self : l.self.Switched false o l'.self
  out : l.out.Switched false o l'.out

theorem RLay.Moved.refl (o : LOpt) (l : RLay K) : l.Moved o l :=
  ⟨rfl, fun _ => rfl, fun _ => rfl, fun _ => ⟨rfl, rfl⟩, .refl _ _ _, .refl _ _ _, .refl _ _ _⟩

theorem RLay.Moved.trans {o : LOpt} {a b c : RLay K} (h : a.Moved o b) (k : b.Moved o c) :
    a.Moved o c :=
  ⟨k.opt.trans h.opt, fun e => (k.eta e).trans (h.eta e), fun e => (k.fn e).trans (h.fn e),
    fun e => ⟨(k.dim e).1.trans (h.dim e).1, (k.dim e).2.trans (h.dim e).2⟩, h.inp.trans k.inp,
    h.self.trans k.self, h.out.trans k.out⟩

theorem switched_eta {o : LOpt} (ho : o.eta = true) (l : CLay K) (e : K) :
    l.Switched false o { l with eta := e } :=
  ⟨rfl, rfl, rfl, rfl, rfl, rfl, rfl, fun _ => ⟨rfl, rfl, rfl⟩, (fun h => by rw [ho] at h; cases h), fun _ => rfl, fun _ => rfl,
    fun _ _ => rfl, fun _ _ _ => rfl, fun _ _ _ _ => rfl, fun _ _ => rfl⟩

theorem recMutEta_moved (g : Rng K R) (l : RLay K) (mu : K) (r : R) :
    l.Moved l.opt (recMutEta g l mu r).1.1 ∧
      ((recMutEta g l mu r).1.2 = false → (recMutEta g l mu r).1.1 = l) := by
  unfold recMutEta
  split
  · next h =>
    dsimp only
    split
    · refine ⟨⟨rfl, fun e => ?_, fun _ => rfl, fun _ => ⟨rfl, rfl⟩, switched_eta h _ _,
        switched_eta h _ _, switched_eta h _ _⟩, fun e => nomatch e⟩
      rw [h] at e; cases e
    · next he =>
      rw [not_not] at he
      rw [he]
      exact ⟨.refl _ _, fun _ => rfl⟩
  · exact ⟨.refl _ _, fun _ => rfl⟩

theorem recMutNeurons_moved {g : Rng K R} {fuel : Nat} {l : RLay K} {mu : K} {r : R}
    {z : (RLay K × Bool) × R} (h : recMutNeurons g fuel l mu r = .ok z) :
    l.Moved l.opt z.1.1 ∧ (z.1.2 = false → z.1.1 = l) := by
  unfold recMutNeurons at h
  split at h
  · next ho =>
    cases e1 : mutateNeurons g fuel l.self mu r with
    | error e => rw [e1] at h; cases h
    | ok q =>
    rw [e1] at h
    change (if q.1 = 0 then _ else _) = _ at h
    split at h
    · cases h; exact ⟨.refl _ _, fun _ => rfl⟩
    · cases e2 : addNeurons g l.inp q.1 q.2 with
      | error e => rw [e2] at h; cases h
      | ok a =>
      rw [e2] at h
      change (addNeurons g l.self q.1 a.2 >>= _) = _ at h
      cases e3 : addNeurons g l.self q.1 a.2 with
      | error e => rw [e3] at h; cases h
      | ok b =>
      rw [e3] at h
      change (addNeurons g l.out q.1 b.2 >>= _) = _ at h
      cases e4 : addNeurons g l.out q.1 b.2 with
      | error e => rw [e4] at h; cases h
      | ok c =>
      rw [e4] at h
      change (connResize g fuel b.1 a.1.nOutputs c.2 >>= _) = _ at h
      cases e5 : connResize g fuel b.1 a.1.nOutputs c.2 with
      | error e => rw [e5] at h; cases h
      | ok d =>
      rw [e5] at h
      change (connResize g fuel c.1 a.1.nOutputs d.2 >>= _) = _ at h
      cases e6 : connResize g fuel c.1 a.1.nOutputs d.2 with
      | error e => rw [e6] at h; cases h
      | ok f =>
      rw [e6] at h
      change (guardOutputs (f.1.nOutputs : Int) >>= _) = _ at h
      cases e7 : guardOutputs (f.1.nOutputs : Int) with
      | error e => rw [e7] at h; cases h
      | ok u =>
      rw [e7] at h
      cases h
      refine ⟨⟨rfl, fun _ => rfl, fun _ => rfl, fun e => ?_, ?_, ?_, ?_⟩, fun h => nomatch h⟩
      · rw [ho] at e; cases e
      · exact switched_of_gist (addNeurons_gist e2) (fun _ => ho) (Or.inl ho)
      · exact switched_of_gist ((connResize_gist e5).1.trans (addNeurons_gist e3)) (fun _ => ho)
          (Or.inl ho)
      · exact switched_of_gist ((connResize_gist e6).1.trans (addNeurons_gist e4)) (fun _ => ho)
          (Or.inl ho)
  · cases h; exact ⟨.refl _ _, fun _ => rfl⟩

/-- A recurrent layer with all counts of active connections left out of account. -/
def RLay.Like (l l' : RLay K) : Prop := ∃ n, l' = { l with nActive := n }

theorem recMutConn_moved (g : Rng K R) (l : RLay K) (a b : K) (r : R) :
    l.Moved l.opt (recMutConn g l a b r).1.1 ∧
      ((recMutConn g l a b r).1.2 = false → l.Like (recMutConn g l a b r).1.1) := by
  unfold recMutConn
  split
  · next h =>
    have h1 := mutateConn_switched (s := false) g l.inp a b r h
    generalize mutateConn g l.inp a b r = x at h1
    dsimp only
    have h2 := mutateConn_switched (s := false) g l.self a b x.2 h
    generalize mutateConn g l.self a b x.2 = y at h2
    have h3 := mutateConn_switched (s := false) g l.out a b y.2 h
    generalize mutateConn g l.out a b y.2 = w at h3
    refine ⟨⟨rfl, fun _ => rfl, fun _ => rfl, fun _ => ⟨rfl, rfl⟩, h1.1, h2.1, h3.1⟩, fun e => ?_⟩
    simp only [Bool.or_eq_false_iff] at e
    rw [h1.2 e.1.1, h2.2 e.1.2, h3.2 e.2]
    exact ⟨_, rfl⟩
  · exact ⟨.refl _ _, fun _ => ⟨_, rfl⟩⟩

theorem recMutWeights_moved (g : Rng K R) (l : RLay K) (mu : K) (r : R) :
    l.Moved l.opt (recMutWeights g l mu r).1.1 ∧
      ((recMutWeights g l mu r).1.2 = false → (recMutWeights g l mu r).1.1 = l) := by
  unfold recMutWeights
  split
  · next h =>
    have h1 := mutateWeights_switched (s := false) g l.inp mu r h
    generalize mutateWeights g l.inp mu r = x at h1
    dsimp only
    have h2 := mutateWeights_switched (s := false) g l.self mu x.2 h
    generalize mutateWeights g l.self mu x.2 = y at h2
    have h3 := mutateWeights_switched (s := false) g l.out mu y.2 h
    generalize mutateWeights g l.out mu y.2 = w at h3
    refine ⟨⟨rfl, fun _ => rfl, fun _ => rfl, fun _ => ⟨rfl, rfl⟩, h1.1, h2.1, h3.1⟩, fun e => ?_⟩
    simp only [Bool.or_eq_false_iff] at e
    rw [h1.2 e.1.1, h2.2 e.1.2, h3.2 e.2]
  · exact ⟨.refl _ _, fun _ => rfl⟩

theorem recMutFn_moved (g : Rng K R) (l : RLay K) (mu : K) (r : R) :
    l.Moved l.opt (recMutFn g l mu r).1.1 ∧
      ((recMutFn g l mu r).1.2 = false → (recMutFn g l mu r).1.1 = l) := by
  unfold recMutFn
  split
  · next h =>
    dsimp only
    split
    · split
      · refine ⟨⟨rfl, fun _ => rfl, fun e => ?_, fun _ => ⟨rfl, rfl⟩, .refl _ _ _, .refl _ _ _,
          ⟨rfl, rfl, rfl, rfl, rfl, rfl, rfl, fun _ => ⟨rfl, rfl, rfl⟩, fun _ => rfl, fun e => ?_, fun _ => rfl,
            fun _ _ => rfl, fun _ _ _ => rfl, fun _ _ _ _ => rfl, fun _ _ => rfl⟩⟩,
          fun e => nomatch e⟩
        · rw [h] at e; cases e
        · rw [h] at e; cases e
      · exact ⟨.refl _ _, fun _ => rfl⟩
    · exact ⟨.refl _ _, fun _ => rfl⟩
  · exact ⟨.refl _ _, fun _ => rfl⟩

theorem recMutate_moved {g : Rng K R} {fuel : Nat} {l : RLay K} {r : R}
    {z : (RLay K × Bool) × R} (h : recMutate g fuel l r = .ok z) :
    l.Moved l.opt z.1.1 ∧ (z.1.2 = false → ∃ mu n, z.1.1 = { l with mu := mu, nActive := n }) := by
  unfold recMutate at h
  cases e0 : samAdapt g (List.zip recMu l.mu) r with
  | error e => rw [e0] at h; cases h
  | ok q =>
  obtain ⟨mu, r1⟩ := q
  rw [e0] at h
  change (match mu with
    | [m0, m1, m2, m3, m4, m5] => _
    | _ => _) = _ at h
  split at h
  · next m0 m1 m2 m3 m4 m5 =>
    have hm : l.Moved l.opt { l with mu := [m0, m1, m2, m3, m4, m5] } :=
      ⟨rfl, fun _ => rfl, fun _ => rfl, fun _ => ⟨rfl, rfl⟩, .refl _ _ _, .refl _ _ _, .refl _ _ _⟩
    have ha := recMutEta_moved g { l with mu := [m0, m1, m2, m3, m4, m5] } m0 r1
    generalize recMutEta g { l with mu := [m0, m1, m2, m3, m4, m5] } m0 r1 = a at h ha
    dsimp only at h
    cases e1 : recMutNeurons g fuel a.1.1 m1 a.2 with
    | error e => rw [e1] at h; cases h
    | ok b =>
    rw [e1] at h
    change Except.ok _ = _ at h
    have hb := recMutNeurons_moved e1
    have hc := recMutConn_moved g b.1.1 m2 m3 b.2
    generalize hcg : recMutConn g b.1.1 m2 m3 b.2 = c at h hc
    have hd := recMutWeights_moved g c.1.1 m4 c.2
    generalize hdg : recMutWeights g c.1.1 m4 c.2 = d at h hd
    have he := recMutFn_moved g d.1.1 m5 d.2
    generalize heg : recMutFn g d.1.1 m5 d.2 = f at h he
    cases h
    have oa : a.1.1.opt = l.opt := ha.1.opt
    have ob : b.1.1.opt = l.opt := hb.1.opt.trans oa
    have oc : c.1.1.opt = l.opt := hc.1.opt.trans ob
    have od : d.1.1.opt = l.opt := hd.1.opt.trans oc
    rw [oa] at hb
    rw [ob] at hc
    rw [oc] at hd
    rw [od] at he
    refine ⟨((((hm.trans ha.1).trans hb.1).trans hc.1).trans hd.1).trans he.1, fun h => ?_⟩
    dsimp only at h
    simp only [Bool.or_eq_false_iff] at h
    obtain ⟨⟨⟨⟨f1, f2⟩, f3⟩, f4⟩, f5⟩ := h
    obtain ⟨n, hn⟩ := hc.2 f3
    refine ⟨[m0, m1, m2, m3, m4, m5], n, ?_⟩
    rw [show f.1.1 = d.1.1 from he.2 f5, hd.2 f4, hn, hb.2 f2, ha.2 f1]
  · cases h

/-! ## LSTM layers -/

/-- A relation between the four parts. -/
structure Gates.Both {α β : Type} (P : α → β → Prop) (a : Gates α) (b : Gates β) : Prop where
  f : P a.f b.f
  i : P a.i b.i
  g : P a.g b.g
  o : P a.o b.o

theorem Gates.Both.imp {α β : Type} {P Q : α → β → Prop} {a : Gates α} {b : Gates β}
    (h : a.Both P b) (hi : ∀ x y, P x y → Q x y) : a.Both Q b :=
  ⟨hi _ _ h.f, hi _ _ h.i, hi _ _ h.g, hi _ _ h.o⟩

theorem mapR_both {α β : Type} {op : α → R → Res (β × R)} {P : α → β → Prop}
    (h : ∀ x r y r', op x r = .ok (y, r') → P x y) {a : Gates α} {r : R} {z : Gates β × R}
    (e : a.mapR op r = .ok z) : a.Both P z.1 := by
  unfold Gates.mapR at e
  cases e1 : op a.f r with
  | error x => rw [e1] at e; cases e
  | ok p1 =>
  rw [e1] at e
  change (op a.i p1.2 >>= _) = _ at e
  cases e2 : op a.i p1.2 with
  | error x => rw [e2] at e; cases e
  | ok p2 =>
  rw [e2] at e
  change (op a.g p2.2 >>= _) = _ at e
  cases e3 : op a.g p2.2 with
  | error x => rw [e3] at e; cases e
  | ok p3 =>
  rw [e3] at e
  change (op a.o p3.2 >>= _) = _ at e
  cases e4 : op a.o p3.2 with
  | error x => rw [e4] at e; cases e
  | ok p4 =>
  rw [e4] at e
  cases e
  exact ⟨h _ _ _ _ e1, h _ _ _ _ e2, h _ _ _ _ e3, h _ _ _ _ e4⟩

theorem both_list {α β : Type} {P : α → β → Prop} {a : Gates α} {b : Gates β} (h : a.Both P b) :
    List.Forall₂ P a.list b.list :=
  .cons h.f (.cons h.i (.cons h.g (.cons h.o .nil)))

/-- The parts of an LSTM layer may be mutated like this. -/
structure TLay.Moved (o : LOpt) (l l' : TLay K) : Prop where
  opt : l'.opt = l.opt
  eta : o.eta = false → l'.eta = l.eta
  fn : o.functions = false → l'.fn = l.fn ∧ l'.rfn = l.rfn
  dim : o.neurons = false → l'.nOutputs = l.nOutputs ∧ l'.outW = l.outW
  u : l.u.Both (CLay.Switched false o) l'.u
  w : l.w.Both (CLay.Switched false o) l'.w

theorem Gates.Both.refl (o : LOpt) (a : Gates (CLay K)) : a.Both (CLay.Switched false o) a :=
  ⟨.refl _ _ _, .refl _ _ _, .refl _ _ _, .refl _ _ _⟩

theorem Gates.Both.trans {o : LOpt} {a b c : Gates (CLay K)}
    (h : a.Both (CLay.Switched false o) b) (k : b.Both (CLay.Switched false o) c) :
    a.Both (CLay.Switched false o) c :=
  ⟨h.f.trans k.f, h.i.trans k.i, h.g.trans k.g, h.o.trans k.o⟩

theorem TLay.Moved.refl (o : LOpt) (l : TLay K) : l.Moved o l :=
  ⟨rfl, fun _ => rfl, fun _ => ⟨rfl, rfl⟩, fun _ => ⟨rfl, rfl⟩, .refl _ _, .refl _ _⟩

theorem TLay.Moved.trans {o : LOpt} {a b c : TLay K} (h : a.Moved o b) (k : b.Moved o c) :
    a.Moved o c :=
  ⟨k.opt.trans h.opt, fun e => (k.eta e).trans (h.eta e),
    fun e => ⟨(k.fn e).1.trans (h.fn e).1, (k.fn e).2.trans (h.fn e).2⟩,
    fun e => ⟨(k.dim e).1.trans (h.dim e).1, (k.dim e).2.trans (h.dim e).2⟩, h.u.trans k.u,
    h.w.trans k.w⟩

theorem lstmMutEta_moved (g : Rng K R) (l : TLay K) (mu : K) (r : R) :
    l.Moved l.opt (lstmMutEta g l mu r).1.1 ∧
      ((lstmMutEta g l mu r).1.2 = false → (lstmMutEta g l mu r).1.1 = l) := by
  unfold lstmMutEta
  split
  · next h =>
    have hz : ∀ e, l.u.f.Switched false l.opt { l.u.f with eta := e } := switched_eta h _
    dsimp only
    split
    · refine ⟨⟨rfl, fun e => ?_, fun _ => ⟨rfl, rfl⟩, fun _ => ⟨rfl, rfl⟩,
        ⟨hz _, switched_eta h _ _, switched_eta h _ _, switched_eta h _ _⟩,
        ⟨switched_eta h _ _, switched_eta h _ _, switched_eta h _ _, switched_eta h _ _⟩⟩,
        fun e => nomatch e⟩
      rw [h] at e; cases e
    · next he =>
      have e : (mutateEta g l.u.f mu r).1.1 = l.u.f := by
        unfold mutateEta at he ⊢
        dsimp only at he ⊢
        rw [decide_eq_true_eq, not_not] at he
        rw [he]
      rw [e]
      exact ⟨.refl _ _, fun _ => rfl⟩
  · exact ⟨.refl _ _, fun _ => rfl⟩

/-- An LSTM layer of which only the arrays that hold no parameters differ. -/
theorem lstmArrays_moved {l l' : TLay K} (h : lstmArrays l = .ok l') :
    l'.opt = l.opt ∧ l'.eta = l.eta ∧ l'.fn = l.fn ∧ l'.rfn = l.rfn ∧ l'.u = l.u ∧ l'.w = l.w ∧
      l'.nOutputs = l.nOutputs ∧ l'.outW = l.outW := by
  unfold lstmArrays at h
  split at h
  · cases h
  · cases h; exact ⟨rfl, rfl, rfl, rfl, rfl, rfl, rfl, rfl⟩

theorem lstmMutNeurons_moved {g : Rng K R} {fuel : Nat} {l : TLay K} {mu : K} {r : R}
    {z : (TLay K × Bool) × R} (h : lstmMutNeurons g fuel l mu r = .ok z) {o : LOpt}
    (hp : l.opt.neurons = true → o.neurons = true) :
    l.Moved o z.1.1 ∧ (z.1.2 = false → z.1.1 = l) := by
  unfold lstmMutNeurons at h
  split at h
  · next ho =>
    replace ho := hp ho
    cases e1 : mutateNeurons g fuel l.u.f mu r with
    | error e => rw [e1] at h; cases h
    | ok q =>
    rw [e1] at h
    change (if q.1 = 0 then _ else _) = _ at h
    split at h
    · cases h; exact ⟨.refl _ _, fun _ => rfl⟩
    · cases e2 : l.u.mapR (fun x r => addNeurons g x q.1 r) q.2 with
      | error e => rw [e2] at h; cases h
      | ok a =>
      rw [e2] at h
      change (l.w.mapR (fun x r => addNeurons g x q.1 r) a.2 >>= _) = _ at h
      cases e3 : l.w.mapR (fun x r => addNeurons g x q.1 r) a.2 with
      | error e => rw [e3] at h; cases h
      | ok b =>
      rw [e3] at h
      change (b.1.mapR (fun x r => connResize g fuel x a.1.f.nOutputs r) b.2 >>= _) = _ at h
      cases e4 : b.1.mapR (fun x r => connResize g fuel x a.1.f.nOutputs r) b.2 with
      | error e => rw [e4] at h; cases h
      | ok c =>
      rw [e4] at h
      change (lstmArrays (lstmActive { l with
        u := a.1, w := c.1, nOutputs := a.1.f.nOutputs, outW := a.1.f.nOutputs }) >>= _) = _ at h
      cases e5 : lstmArrays (lstmActive { l with
        u := a.1, w := c.1, nOutputs := a.1.f.nOutputs, outW := a.1.f.nOutputs }) with
      | error e => rw [e5] at h; cases h
      | ok d =>
      rw [e5] at h
      cases h
      obtain ⟨d1, d2, d3, d4, d5, d6, d7, d8⟩ := lstmArrays_moved e5
      have s2 := mapR_both (P := CLay.Switched false o)
        (fun x r y r' e => switched_of_gist (addNeurons_gist e) (fun _ => ho) (Or.inl ho)) e2
      have s3 := mapR_both (P := CLay.Switched false o)
        (fun x r y r' e => switched_of_gist (addNeurons_gist e) (fun _ => ho) (Or.inl ho)) e3
      have s4 := mapR_both (P := CLay.Switched false o)
        (fun x r y r' e => switched_of_gist (connResize_gist e).1 (fun _ => ho) (Or.inl ho)) e4
      refine ⟨⟨d1, fun _ => d2, fun _ => ⟨d3, d4⟩, fun e => ?_, ?_, ?_⟩, fun h => nomatch h⟩
      · rw [ho] at e; cases e
      · rw [show d.u = a.1 from d5]; exact s2
      · rw [show d.w = c.1 from d6]; exact s3.trans s4
  · cases h; exact ⟨.refl _ _, fun _ => rfl⟩

theorem both_map {α β : Type} {P : α → β → Prop} {γ : Type} {f : β → γ} {a : Gates α} {b : Gates β}
    {Q : α → γ → Prop} (h : a.Both P b) (hi : ∀ x y, P x y → Q x (f y)) :
    a.Both Q (b.map f) :=
  ⟨hi _ _ h.f, hi _ _ h.i, hi _ _ h.g, hi _ _ h.o⟩

theorem both_eq {α : Type} {a b : Gates α} (h : a.Both (fun x y => y = x) b) : b = a := by
  obtain ⟨h1, h2, h3, h4⟩ := h
  cases a
  cases b
  dsimp only at h1 h2 h3 h4
  rw [h1, h2, h3, h4]

/-- A step on all parts that is allowed and changes nothing if it says so. -/
theorem parts_step {o : LOpt} {op : CLay K → R → (CLay K × Bool) × R}
    (h : ∀ x r, x.Switched false o (op x r).1.1 ∧ ((op x r).1.2 = false → (op x r).1.1 = x))
    {a : Gates (CLay K)} {r : R} {z : Gates (CLay K × Bool) × R}
    (e : a.mapR (fun x r => .ok (op x r)) r = .ok z) :
    a.Both (CLay.Switched false o) (z.1.map (·.1)) ∧
      (z.1.f.2 = false → z.1.i.2 = false → z.1.g.2 = false → z.1.o.2 = false →
        z.1.map (·.1) = a) := by
  have k := mapR_both (P := fun x (y : CLay K × Bool) =>
    x.Switched false o y.1 ∧ (y.2 = false → y.1 = x)) (fun x r y r' e => by
      have q : op x r = (y, r') := Except.ok.inj e
      have := h x r
      rw [q] at this
      exact this) e
  exact ⟨⟨k.f.1, k.i.1, k.g.1, k.o.1⟩, fun h1 h2 h3 h4 =>
    both_eq ⟨k.f.2 h1, k.i.2 h2, k.g.2 h3, k.o.2 h4⟩⟩

theorem lstmMutConn_moved {g : Rng K R} {l : TLay K} {a b : K} {r : R}
    {z : (TLay K × Bool) × R} (h : lstmMutConn g l a b r = .ok z) {o : LOpt}
    (hp : l.opt.connect = true → o.connect = true) :
    l.Moved o z.1.1 ∧ (z.1.2 = false → ∃ n, z.1.1 = { l with nActive := n }) := by
  unfold lstmMutConn at h
  split at h
  · next ho =>
    replace ho := hp ho
    cases e1 : l.u.mapR (fun x r => (.ok (mutateConn g x a b r) : Res _)) r with
    | error e => rw [e1] at h; cases h
    | ok u =>
    rw [e1] at h
    simp only [bind, Except.bind] at h
    split at h
    · cases h
    next w e2 =>
    cases h
    have s1 := parts_step (fun x r => mutateConn_switched (s := false) g x a b r ho) e1
    have s2 := parts_step (fun x r => mutateConn_switched (s := false) g x a b r ho) e2
    refine ⟨⟨rfl, fun _ => rfl, fun _ => ⟨rfl, rfl⟩, fun _ => ⟨rfl, rfl⟩, s1.1, s2.1⟩, fun h => ?_⟩
    dsimp only at h ⊢
    simp only [Bool.or_eq_false_iff] at h
    obtain ⟨⟨⟨⟨⟨⟨⟨f1, f2⟩, f3⟩, f4⟩, f5⟩, f6⟩, f7⟩, f8⟩ := h
    rw [s1.2 f1 f2 f3 f4, s2.2 f5 f6 f7 f8]
    exact ⟨_, rfl⟩
  · cases h; exact ⟨.refl _ _, fun _ => ⟨_, rfl⟩⟩

theorem lstmMutWeights_moved {g : Rng K R} {l : TLay K} {mu : K} {r : R}
    {z : (TLay K × Bool) × R} (h : lstmMutWeights g l mu r = .ok z) {o : LOpt}
    (hp : l.opt.weights = true → o.weights = true) :
    l.Moved o z.1.1 ∧ (z.1.2 = false → z.1.1 = l) := by
  unfold lstmMutWeights at h
  split at h
  · next ho =>
    replace ho := hp ho
    cases e1 : l.u.mapR (fun x r => (.ok (mutateWeights g x mu r) : Res _)) r with
    | error e => rw [e1] at h; cases h
    | ok u =>
    rw [e1] at h
    simp only [bind, Except.bind] at h
    split at h
    · cases h
    next w e2 =>
    cases h
    have s1 := parts_step (fun x r => mutateWeights_switched (s := false) g x mu r ho) e1
    have s2 := parts_step (fun x r => mutateWeights_switched (s := false) g x mu r ho) e2
    refine ⟨⟨rfl, fun _ => rfl, fun _ => ⟨rfl, rfl⟩, fun _ => ⟨rfl, rfl⟩, s1.1, s2.1⟩, fun h => ?_⟩
    dsimp only at h ⊢
    simp only [Bool.or_eq_false_iff] at h
    obtain ⟨⟨⟨⟨⟨⟨⟨f1, f2⟩, f3⟩, f4⟩, f5⟩, f6⟩, f7⟩, f8⟩ := h
    rw [s1.2 f1 f2 f3 f4, s2.2 f5 f6 f7 f8]
  · cases h; exact ⟨.refl _ _, fun _ => rfl⟩

theorem lstmMutFn_moved (g : Rng K R) (l : TLay K) (mu : K) (r : R) {o : LOpt}
    (hp : l.opt.functions = true → o.functions = true) :
    l.Moved o (lstmMutFn g l mu r).1.1 ∧
      ((lstmMutFn g l mu r).1.2 = false → (lstmMutFn g l mu r).1.1 = l) := by
  unfold lstmMutFn
  split
  · next h =>
    refine ⟨⟨rfl, fun _ => rfl, fun e => ?_, fun _ => ⟨rfl, rfl⟩, .refl _ _, .refl _ _⟩, fun e => ?_⟩
    · rw [hp h] at e; cases e
    · dsimp only at e ⊢
      simp only [Bool.or_eq_false_iff, decide_eq_false_iff_not, not_not] at e
      rw [e.1, e.2]
  · exact ⟨.refl _ _, fun _ => rfl⟩

/-- The learning rate lies within the limits `lo` and `hi`, which are those of the part. -/
structure PartRated (lo hi : K) (l : CLay K) : Prop where
  min : l.etaMin = lo
  max : l.etaMax = hi
  ge : lo ≤ l.eta
  le : l.eta ≤ hi

theorem PartRated.switched {lo hi : K} {s : Bool} {o : LOpt} {l l' : CLay K}
    (h : PartRated lo hi l) (k : l.Switched s o l') (e : o.eta = false) : PartRated lo hi l' :=
  ⟨k.etaMin.trans h.min, k.etaMax.trans h.max, by rw [k.eta e]; exact h.ge,
    by rw [k.eta e]; exact h.le⟩

/-- All learning rates of an LSTM layer lie within the limits. -/
structure TLay.Rated (lo hi : K) (l : TLay K) : Prop where
  ge : lo ≤ l.eta
  le : l.eta ≤ hi
  u : l.u.All (PartRated lo hi)
  w : l.w.All (PartRated lo hi)

theorem TLay.Rated.moved {lo hi : K} {o : LOpt} {l l' : TLay K} (h : l.Rated lo hi)
    (k : l.Moved o l') (e : o.eta = false) : l'.Rated lo hi :=
  ⟨by rw [k.eta e]; exact h.ge, by rw [k.eta e]; exact h.le,
    ⟨h.u.f.switched k.u.f e, h.u.i.switched k.u.i e, h.u.g.switched k.u.g e, h.u.o.switched k.u.o e⟩,
    ⟨h.w.f.switched k.w.f e, h.w.i.switched k.w.i e, h.w.g.switched k.w.g e, h.w.o.switched k.w.o e⟩⟩

theorem lstmMutEta_rated (g : Rng K R) {l : TLay K} {lo hi : K} (h : l.Rated lo hi) (mu : K) (r : R) :
    (lstmMutEta g l mu r).1.1.Rated lo hi := by
  unfold lstmMutEta
  split
  · have hc : ∀ v, lo ≤ clampK v l.u.f.etaMin l.u.f.etaMax ∧
        clampK v l.u.f.etaMin l.u.f.etaMax ≤ hi := by
      intro v
      rw [h.u.f.min, h.u.f.max]
      exact clampK_mem v (h.ge.trans h.le)
    dsimp only
    split
    · exact ⟨(hc _).1, (hc _).2,
        ⟨⟨h.u.f.min, h.u.f.max, (hc _).1, (hc _).2⟩, ⟨h.u.i.min, h.u.i.max, (hc _).1, (hc _).2⟩,
          ⟨h.u.g.min, h.u.g.max, (hc _).1, (hc _).2⟩, ⟨h.u.o.min, h.u.o.max, (hc _).1, (hc _).2⟩⟩,
        ⟨⟨h.w.f.min, h.w.f.max, (hc _).1, (hc _).2⟩, ⟨h.w.i.min, h.w.i.max, (hc _).1, (hc _).2⟩,
          ⟨h.w.g.min, h.w.g.max, (hc _).1, (hc _).2⟩, ⟨h.w.o.min, h.w.o.max, (hc _).1, (hc _).2⟩⟩⟩
    · exact ⟨h.ge, h.le, ⟨⟨h.u.f.min, h.u.f.max, (hc _).1, (hc _).2⟩, h.u.i, h.u.g, h.u.o⟩, h.w⟩
  · exact h

theorem lstmMutate_moved {g : Rng K R} {fuel : Nat} {l : TLay K} {r : R}
    {z : (TLay K × Bool) × R} (h : lstmMutate g fuel l r = .ok z) :
    l.Moved l.opt z.1.1 ∧ (z.1.2 = false → ∃ mu n, z.1.1 = { l with mu := mu, nActive := n }) ∧
      ∀ lo hi, l.Rated lo hi → z.1.1.Rated lo hi := by
  unfold lstmMutate at h
  cases e0 : samAdapt g (List.zip recMu l.mu) r with
  | error e => rw [e0] at h; cases h
  | ok q =>
  obtain ⟨mu, r1⟩ := q
  rw [e0] at h
  change (match mu with
    | [m0, m1, m2, m3, m4, m5] => _
    | _ => _) = _ at h
  split at h
  · next m0 m1 m2 m3 m4 m5 =>
    have hm : ∀ o, l.Moved o { l with mu := [m0, m1, m2, m3, m4, m5] } := fun _ =>
      ⟨rfl, fun _ => rfl, fun _ => ⟨rfl, rfl⟩, fun _ => ⟨rfl, rfl⟩, .refl _ _, .refl _ _⟩
    have ha := lstmMutEta_moved g { l with mu := [m0, m1, m2, m3, m4, m5] } m0 r1
    have hr : ∀ lo hi, l.Rated lo hi →
        (lstmMutEta g { l with mu := [m0, m1, m2, m3, m4, m5] } m0 r1).1.1.Rated lo hi :=
      fun lo hi h => lstmMutEta_rated g (h.moved (hm l.opt.noEta) rfl) m0 r1
    generalize lstmMutEta g { l with mu := [m0, m1, m2, m3, m4, m5] } m0 r1 = a at h ha hr
    have oa : a.1.1.opt = l.opt := ha.1.opt
    dsimp only at h
    cases e1 : lstmMutNeurons g fuel a.1.1 m1 a.2 with
    | error e => rw [e1] at h; cases h
    | ok b =>
    rw [e1] at h
    change (lstmMutConn g b.1.1 m2 m3 b.2 >>= _) = _ at h
    have hb : ∀ o : LOpt, o.neurons = l.opt.neurons → _ := fun o ho =>
      lstmMutNeurons_moved e1 (o := o) (by rw [oa, ho]; exact id)
    have ob : b.1.1.opt = l.opt := (hb l.opt rfl).1.opt.trans oa
    cases e2 : lstmMutConn g b.1.1 m2 m3 b.2 with
    | error e => rw [e2] at h; cases h
    | ok c =>
    rw [e2] at h
    change (lstmMutWeights g c.1.1 m4 c.2 >>= _) = _ at h
    have hc : ∀ o : LOpt, o.connect = l.opt.connect → _ := fun o ho =>
      lstmMutConn_moved e2 (o := o) (by rw [ob, ho]; exact id)
    have oc : c.1.1.opt = l.opt := (hc l.opt rfl).1.opt.trans ob
    cases e3 : lstmMutWeights g c.1.1 m4 c.2 with
    | error e => rw [e3] at h; cases h
    | ok d =>
    rw [e3] at h
    change Except.ok _ = _ at h
    have hd : ∀ o : LOpt, o.weights = l.opt.weights → _ := fun o ho =>
      lstmMutWeights_moved e3 (o := o) (by rw [oc, ho]; exact id)
    have od : d.1.1.opt = l.opt := (hd l.opt rfl).1.opt.trans oc
    have he : ∀ o : LOpt, o.functions = l.opt.functions → _ := fun o ho =>
      lstmMutFn_moved g d.1.1 m5 d.2 (o := o) (by rw [od, ho]; exact id)
    generalize lstmMutFn g d.1.1 m5 d.2 = f at h he
    cases h
    have tl : ∀ o : LOpt, o.neurons = l.opt.neurons → o.connect = l.opt.connect →
        o.weights = l.opt.weights → o.functions = l.opt.functions →
        a.1.1.Moved o f.1.1 := fun o h1 h2 h3 h4 =>
      (((hb o h1).1.trans (hc o h2).1).trans (hd o h3).1).trans (he o h4).1
    refine ⟨((hm _).trans ha.1).trans (tl _ rfl rfl rfl rfl), fun h => ?_, fun lo hi h =>
      (hr lo hi h).moved (tl l.opt.noEta rfl rfl rfl rfl) rfl⟩
    dsimp only at h
    simp only [Bool.or_eq_false_iff] at h
    obtain ⟨⟨⟨⟨f1, f2⟩, f3⟩, f4⟩, f5⟩ := h
    obtain ⟨n, hn⟩ := (hc l.opt rfl).2 f3
    refine ⟨[m0, m1, m2, m3, m4, m5], n, ?_⟩
    rw [show f.1.1 = d.1.1 from (he l.opt rfl).2 f5, (hd l.opt rfl).2 f4, hn, (hb l.opt rfl).2 f2,
      ha.2 f1]
  · cases h

end Xcsf
