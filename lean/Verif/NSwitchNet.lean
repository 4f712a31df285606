import Verif.NSwitchLemmas
import Verif.NGenLearnLemmas

/-!
# Lemmas for properties C80 and C81: whole layers and networks
-/

set_option linter.unusedSectionVars false

namespace Xcsf
variable {K R : Type} [Field K] [LinearOrder K] [IsStrictOrderedRing K] [FloorRing K]

/-! ## Layers without weights -/

/-- The layer has no weights. -/
def GLay.Dull (l : GLay K) : Prop :=
  l.parts = [] ∧ l.opt = optOff ∧ l.ownRates = [] ∧ l.ownFns = []

theorem dull_switched {s : Bool} {l l' : GLay K} (h : l.Dull) (h' : l'.Dull)
    (hs : s = false → l' = l) : l.Switched s l' := by
  refine ⟨h'.2.1.trans h.2.1.symm, fun _ => ?_, fun _ => ?_, fun e _ => by rw [hs e], ?_⟩
  · unfold GLay.rates
    rw [h.1, h'.1, h.2.2.1, h'.2.2.1]
  · unfold GLay.fns
    rw [h.1, h'.1, h.2.2.2, h'.2.2.2]
  · rw [h.1, h'.1]
    exact .nil

theorem keepR_ok {α β : Type} {f : α → β} {x : Res α} {r : R} {z : β × R}
    (h : keepR f x r = .ok z) : ∃ a, x = .ok a ∧ z = (f a, r) := by
  unfold keepR at h
  split at h
  · cases h
  · cases h; exact ⟨_, rfl, rfl⟩

theorem liftR_ok {α β : Type} {f : α → β} {x : Res (α × R)} {z : β × R}
    (h : liftR f x = .ok z) : ∃ a, x = .ok a ∧ z = (f a.1, a.2) := by
  unfold liftR at h
  split at h
  · cases h
  · cases h; exact ⟨_, rfl, rfl⟩

theorem liftM_ok {α β : Type} {f : α → β} {x : Res ((α × Bool) × R)} {z : (β × Bool) × R}
    (h : liftM f x = .ok z) : ∃ a, x = .ok a ∧ z = ((f a.1.1, a.1.2), a.2) := by
  unfold liftM at h
  split at h
  · cases h
  · cases h; exact ⟨_, rfl, rfl⟩

theorem GLay.Switched.refl (s : Bool) (l : GLay K) : l.Switched s l :=
  ⟨rfl, fun _ => rfl, fun _ => rfl, fun _ _ => rfl,
    List.forall₂_same.2 fun _ _ => .refl _ _ _⟩

theorem forall₂_trans' {α : Type} {P Q S : α → α → Prop} (h : ∀ a b c, P a b → Q b c → S a c) :
    ∀ {x y z : List α}, List.Forall₂ P x y → List.Forall₂ Q y z → List.Forall₂ S x z
  | _, _, _, .nil, .nil => .nil
  | _, _, _, .cons p ps, .cons q qs => .cons (h _ _ _ p q) (forall₂_trans' h ps qs)

theorem GLay.Switched.trans {s : Bool} {a b c : GLay K} (h : a.Switched s b) (k : b.Switched s c) :
    a.Switched s c := by
  have ho := h.opt
  refine ⟨k.opt.trans ho, fun e => (k.eta (by rw [ho]; exact e)).trans (h.eta e),
    fun e => (k.fn (by rw [ho]; exact e)).trans (h.fn e),
    fun e f => (k.dim e (by rw [ho]; exact f)).trans (h.dim e f), ?_⟩
  have kp := k.parts
  rw [ho] at kp
  exact forall₂_trans' (fun _ _ _ p q => p.trans q) h.parts kp

theorem GLay.Switched.mono {s : Bool} {a b : GLay K} (h : a.Switched false b) : a.Switched s b :=
  ⟨h.opt, h.eta, h.fn, fun _ => h.dim rfl, h.parts.imp fun _ _ p => p.mono⟩

/-! ## Mutation of a layer -/

theorem layerMutate_switched {g : Rng K R} {fuel : Nat} {l : GLay K} {r : R}
    {z : (GLay K × Bool) × R} (h : layerMutate g fuel l r = .ok z) :
    l.Switched false z.1.1 ∧ (z.1.2 = false → z.1.1.bare = l.bare ∧ z.1.1.dim = l.dim) := by
  cases l with
  | conn l =>
    obtain ⟨a, e, rfl⟩ := liftM_ok h
    obtain ⟨S, hf, -⟩ := connMutate_switched e
    refine ⟨⟨S.opt, fun e => ?_, fun e => ?_, fun _ e => ?_, .cons S .nil⟩, fun e => ?_⟩
    · show [a.1.1.eta] = [l.eta]
      rw [S.eta e]
    · show [a.1.1.fn] = [l.fn]
      rw [S.fn e]
    · show (⟨_, _, _, _⟩ : Dim) = ⟨_, _, _, _⟩
      rw [S.nOut e, (S.shape e).1, (S.shape e).2.1, (S.shape e).2.2]
    · obtain ⟨mu, e⟩ := hf e
      dsimp only
      rw [e]
      exact ⟨rfl, rfl⟩
  | recu l =>
    obtain ⟨a, e, rfl⟩ := liftM_ok h
    obtain ⟨S, hf⟩ := recMutate_moved e
    refine ⟨⟨S.opt, fun e => ?_, fun e => ?_, fun _ e => ?_,
      .cons S.inp (.cons S.self (.cons S.out .nil))⟩, fun e => ?_⟩
    · show [a.1.1.eta, a.1.1.inp.eta, a.1.1.self.eta, a.1.1.out.eta] = [_, _, _, _]
      rw [S.eta e, S.inp.eta e, S.self.eta e, S.out.eta e]
    · show [a.1.1.fn, a.1.1.inp.fn, a.1.1.self.fn, a.1.1.out.fn] = [_, _, _, _]
      rw [S.fn e, S.inp.fn e, S.self.fn e, S.out.fn e]
    · show (⟨_, _, _, _⟩ : Dim) = ⟨_, _, _, _⟩
      rw [(S.dim e).1, (S.dim e).2]
    · obtain ⟨mu, n, e⟩ := hf e
      dsimp only
      rw [e]
      exact ⟨rfl, rfl⟩
  | lstm l =>
    obtain ⟨a, e, rfl⟩ := liftM_ok h
    obtain ⟨S, hf, -⟩ := lstmMutate_moved e
    refine ⟨⟨S.opt, fun e => ?_, fun e => ?_, fun _ e => ?_,
      List.rel_append (both_list S.u) (both_list S.w)⟩, fun e => ?_⟩
    · show [a.1.1.eta, a.1.1.u.f.eta, a.1.1.u.i.eta, a.1.1.u.g.eta, a.1.1.u.o.eta, a.1.1.w.f.eta,
        a.1.1.w.i.eta, a.1.1.w.g.eta, a.1.1.w.o.eta] = [_, _, _, _, _, _, _, _, _]
      rw [S.eta e, S.u.f.eta e, S.u.i.eta e, S.u.g.eta e, S.u.o.eta e, S.w.f.eta e, S.w.i.eta e,
        S.w.g.eta e, S.w.o.eta e]
    · show [a.1.1.fn, a.1.1.rfn, a.1.1.u.f.fn, a.1.1.u.i.fn, a.1.1.u.g.fn, a.1.1.u.o.fn,
        a.1.1.w.f.fn, a.1.1.w.i.fn, a.1.1.w.g.fn, a.1.1.w.o.fn] = [_, _, _, _, _, _, _, _, _, _]
      rw [(S.fn e).1, (S.fn e).2, S.u.f.fn e, S.u.i.fn e, S.u.g.fn e, S.u.o.fn e, S.w.f.fn e,
        S.w.i.fn e, S.w.g.fn e, S.w.o.fn e]
    · show (⟨_, _, _, _⟩ : Dim) = ⟨_, _, _, _⟩
      rw [(S.dim e).1, (S.dim e).2]
    · obtain ⟨mu, n, e⟩ := hf e
      dsimp only
      rw [e]
      exact ⟨rfl, rfl⟩
  | conv l =>
    obtain ⟨a, e, rfl⟩ := liftM_ok h
    obtain ⟨S, hf, -, hd⟩ := convMutate_switched e
    refine ⟨⟨S.opt, fun e => ?_, fun e => ?_, fun _ e => ?_, .cons S .nil⟩, fun e => ?_⟩
    · show [a.1.1.core.eta] = [l.core.eta]
      rw [S.eta e]
    · show [a.1.1.core.fn] = [l.core.fn]
      rw [S.fn e]
    · have := hd e
      show (⟨a.1.1.nOut, a.1.1.outW, a.1.1.outH, a.1.1.core.nOutputs⟩ : Dim) =
        ⟨l.nOut, l.outW, l.outH, l.core.nOutputs⟩
      rw [S.nOut e, this]
    · obtain ⟨mu, e⟩ := hf e
      dsimp only
      rw [e]
      exact ⟨rfl, rfl⟩
  | maxp l => cases h; exact ⟨.refl _ _, fun _ => ⟨rfl, rfl⟩⟩
  | avgp l => cases h; exact ⟨.refl _ _, fun _ => ⟨rfl, rfl⟩⟩
  | ups l => cases h; exact ⟨.refl _ _, fun _ => ⟨rfl, rfl⟩⟩
  | drop l => cases h; exact ⟨.refl _ _, fun _ => ⟨rfl, rfl⟩⟩
  | noise l => cases h; exact ⟨.refl _ _, fun _ => ⟨rfl, rfl⟩⟩
  | soft l => cases h; exact ⟨.refl _ _, fun _ => ⟨rfl, rfl⟩⟩

/-! ## Descriptions -/

/-- What describes a layer besides its neurons and connections: type and switches, learning rates,
activation functions and the descriptions of its parts. -/
def GLay.desc (l : GLay K) : (Nat × LOpt) × List K × List Int × List (Gist K) :=
  (l.trait, l.ownRates, l.ownFns, l.parts.map CLay.gist)

theorem weightRand_gist (g : Rng K R) (l : CLay K) (r : R) :
    (weightRand g l r).1.gist = l.gist := rfl

theorem recResize_desc {g : Rng K R} {fuel : Nat} {l : RLay K} {p : Nat} {r : R} {z : RLay K × R}
    (h : recResize g fuel l p r = .ok z) :
    ∃ i r', connResize g fuel l.inp p r = .ok (i, r') ∧
      z.1 = recActive { l with inp := i, nInputs := i.nInputs } := by
  unfold recResize at h
  cases e : connResize g fuel l.inp p r with
  | error f => rw [e] at h; cases h
  | ok q => rw [e] at h; cases h; exact ⟨_, _, rfl, rfl⟩

/-- Part of a resized layer: only the connections and the number of inputs differ. -/
def Resized (l l' : CLay K) : Prop :=
  l'.gist = l.gist ∧ l'.nOutputs = l.nOutputs ∧ l'.ns = l.ns

theorem Resized.trans {a b c : CLay K} (h : Resized a b) (k : Resized b c) : Resized a c :=
  ⟨k.1.trans h.1, k.2.1.trans h.2.1, k.2.2.trans h.2.2⟩

theorem Resized.refl (a : CLay K) : Resized a a := ⟨rfl, rfl, rfl⟩

theorem lstmResize_desc {g : Rng K R} {fuel : Nat} {l : TLay K} {p : Nat} {r : R} {z : TLay K × R}
    (h : lstmResize g fuel l p r = .ok z) :
    ∃ u, l.u.Both Resized u ∧ z.1 = lstmActive { l with u := u, nInputs := p } := by
  unfold lstmResize at h
  cases e : l.u.mapR (fun x r => connResize g fuel x p r) r with
  | error f => rw [e] at h; cases h
  | ok q =>
    rw [e] at h
    have b := mapR_both (P := Resized) (fun x r y r' e => connResize_gist e) e
    change (connResize g fuel q.1.f p q.2 >>= _) = _ at h
    cases e2 : connResize g fuel q.1.f p q.2 with
    | error f => rw [e2] at h; cases h
    | ok f =>
      rw [e2] at h
      cases h
      exact ⟨{ q.1 with f := f.1 }, ⟨b.f.trans (connResize_gist e2), b.i, b.g, b.o⟩, rfl⟩

theorem convResize_desc {g : Rng K R} {l : VLay K} {w h c : Int} {r : R} {z : VLay K × R}
    (e : convResize g l w h c r = .ok z) : Resized l.core z.1.core := by
  unfold convResize at e
  dsimp only at e
  split at e
  · cases e
  · split at e
    · cases e
    · split at e
      · cases e
      · split at e
        · cases e
        · split at e
          · cases e
          · split at e
            · cases e
            · cases e; exact ⟨rfl, rfl, rfl⟩

/-- Resizing a layer keeps its description, its number of neurons and its biases. -/
theorem layerResize_parts {g : Rng K R} {fuel : Nat} {l : GLay K} {d : Dim} {r : R}
    {z : GLay K × R} (h : layerResize g fuel l d r = .ok z) :
    z.1.trait = l.trait ∧ z.1.ownRates = l.ownRates ∧ z.1.ownFns = l.ownFns ∧
      List.Forall₂ Resized l.parts z.1.parts := by
  cases l with
  | conn l =>
    obtain ⟨a, e, rfl⟩ := liftR_ok h
    have k := connResize_gist e
    exact ⟨Prod.ext rfl (congrArg Gist.opt k.1), rfl, rfl, .cons k .nil⟩
  | recu l =>
    obtain ⟨a, e, rfl⟩ := liftR_ok h
    obtain ⟨i, r', e2, q⟩ := recResize_desc e
    dsimp only
    rw [q]
    exact ⟨rfl, rfl, rfl, .cons (connResize_gist e2) (.cons (.refl _) (.cons (.refl _) .nil))⟩
  | lstm l =>
    obtain ⟨a, e, rfl⟩ := liftR_ok h
    obtain ⟨u, b, q⟩ := lstmResize_desc e
    dsimp only
    rw [q]
    exact ⟨rfl, rfl, rfl, List.rel_append (both_list b)
      (both_list ⟨.refl _, .refl _, .refl _, .refl _⟩)⟩
  | conv l =>
    obtain ⟨a, e, rfl⟩ := liftR_ok h
    have k := convResize_desc e
    exact ⟨Prod.ext rfl (congrArg Gist.opt k.1), rfl, rfl, .cons k .nil⟩
  | maxp l => obtain ⟨a, e, rfl⟩ := keepR_ok h; exact ⟨rfl, rfl, rfl, .nil⟩
  | avgp l => obtain ⟨a, e, rfl⟩ := keepR_ok h; exact ⟨rfl, rfl, rfl, .nil⟩
  | ups l => obtain ⟨a, e, rfl⟩ := keepR_ok h; exact ⟨rfl, rfl, rfl, .nil⟩
  | drop l => obtain ⟨a, e, rfl⟩ := keepR_ok h; exact ⟨rfl, rfl, rfl, .nil⟩
  | noise l => obtain ⟨a, e, rfl⟩ := keepR_ok h; exact ⟨rfl, rfl, rfl, .nil⟩
  | soft l => obtain ⟨a, e, rfl⟩ := keepR_ok h; exact ⟨rfl, rfl, rfl, .nil⟩

theorem map_of_forall₂ {α β : Type} {P : α → α → Prop} {f : α → β} (h : ∀ a b, P a b → f b = f a) :
    ∀ {x y : List α}, List.Forall₂ P x y → y.map f = x.map f
  | _, _, .nil => rfl
  | _, _, .cons p ps => by rw [List.map_cons, List.map_cons, h _ _ p, map_of_forall₂ h ps]

theorem layerResize_desc {g : Rng K R} {fuel : Nat} {l : GLay K} {d : Dim} {r : R}
    {z : GLay K × R} (h : layerResize g fuel l d r = .ok z) : z.1.desc = l.desc := by
  obtain ⟨h1, h2, h3, h4⟩ := layerResize_parts h
  unfold GLay.desc
  rw [h1, h2, h3, map_of_forall₂ (fun _ _ p => p.1) h4]

theorem trait_opt {l l' : GLay K} (h : l'.trait = l.trait) : l'.opt = l.opt := by
  have : ∀ l : GLay K, l.opt = l.trait.2 := fun l => by cases l <;> rfl
  rw [this, this, h]

theorem gist_eta {a b : CLay K} (h : b.gist = a.gist) : b.eta = a.eta := congrArg Gist.eta h

theorem gist_fn {a b : CLay K} (h : b.gist = a.gist) : b.fn = a.fn := congrArg Gist.fn h

theorem layerResize_switched {g : Rng K R} {fuel : Nat} {l : GLay K} {d : Dim} {r : R}
    {z : GLay K × R} (h : layerResize g fuel l d r = .ok z) : l.Switched true z.1 := by
  obtain ⟨h1, h2, h3, h4⟩ := layerResize_parts h
  refine ⟨trait_opt h1, fun _ => ?_, fun _ => ?_, (fun e => nomatch e), h4.imp fun a b p =>
    switched_of_gist (s := true) (o := l.opt) p.1 (fun e => nomatch e) (Or.inr ⟨p.2.1, p.2.2⟩)⟩
  · unfold GLay.rates
    rw [h2, map_of_forall₂ (fun _ _ p => gist_eta p.1) h4]
  · unfold GLay.fns
    rw [h3, map_of_forall₂ (fun _ _ p => gist_fn p.1) h4]

theorem resizeOn_switched {g : Rng K R} {fuel : Nat} {l : GLay K} {d : Option Dim} {r : R}
    {z : GLay K × R} (h : resizeOn g fuel l d r = .ok z) {s : Bool} (hs : d.isSome = true → s = true) :
    l.Switched s z.1 := by
  cases d with
  | none => cases h; exact .refl _ _
  | some d => rw [hs rfl]; exact layerResize_switched h

/-! ## Mutation of a network -/

theorem genMutate_switched {g : Rng K R} {fuel : Nat} : ∀ {ls : List (GLay K)} {d : Option Dim}
    {r : R} {z : (List (GLay K) × Bool) × R}, genMutate g fuel d ls r = .ok z → ∀ {s : Bool},
    (d.isSome = true → s = true) → AllSwitched s ls z.1.1
  | [], _, _, _, h, _, _ => by cases h; trivial
  | l :: ls, d, r, z, h, s, hs => by
    unfold genMutate at h
    split at h
    · cases h
    · next l1 r1 e1 =>
      split at h
      · cases h
      · next l2 b r2 e2 =>
        split at h
        · cases h
        · next ls' bs r3 e3 =>
          cases h
          have k := (resizeOn_switched e1 hs).trans (layerMutate_switched e2).1.mono
          refine ⟨k, genMutate_switched e3 fun h => ?_⟩
          split at h
          · next hd =>
            by_contra hc
            rw [Bool.not_eq_true, Bool.or_eq_false_iff] at hc
            exact hd (congrArg Dim.n (k.dim hc.1 hc.2))
          · cases h

theorem genMutate_report {g : Rng K R} {fuel : Nat} : ∀ {ls : List (GLay K)}
    {r : R} {z : (List (GLay K) × Bool) × R}, genMutate g fuel none ls r = .ok z → z.1.2 = false →
    z.1.1.map GLay.bare = ls.map GLay.bare
  | [], _, _, h, _ => by cases h; rfl
  | l :: ls, r, z, h, hf => by
    unfold genMutate at h
    split at h
    · cases h
    · next l1 r1 e1 =>
      cases e1
      split at h
      · cases h
      · next l2 b r2 e2 =>
        split at h
        · cases h
        · next ls' bs r3 e3 =>
          cases h
          dsimp only at hf
          rw [Bool.or_eq_false_iff] at hf
          obtain ⟨k1, k2⟩ := (layerMutate_switched e2).2 hf.1
          dsimp only at k1 k2
          rw [k2, if_neg (fun h => h rfl)] at e3
          have := genMutate_report e3 hf.2
          dsimp only at this ⊢
          rw [List.map_cons, List.map_cons, k1, this]

/-! ## Propagation and learning: connected parts -/

theorem CLay.Fed.refl (s : Bool) (l : CLay K) : l.Fed s l :=
  ⟨rfl, rfl, rfl, rfl, fun _ => rfl, fun _ => List.prefix_rfl⟩

theorem CLay.Fed.trans {s : Bool} {a b c : CLay K} (h : a.Fed s b) (k : b.Fed s c) : a.Fed s c :=
  ⟨k.gist.trans h.gist, k.nOut.trans h.nOut, k.nIn.trans h.nIn, k.links.trans h.links,
    fun e => (k.weights e).trans (h.weights e), fun e => (k.biases e).trans (h.biases e)⟩

theorem CLay.Fed.mono {s : Bool} {a b : CLay K} (h : a.Fed false b) : a.Fed s b :=
  ⟨h.gist, h.nOut, h.nIn, h.links, fun _ => h.weights rfl, fun _ => h.biases rfl⟩

theorem zipWith_prefix {α β γ : Type} {f : α → β → α} {p : α → γ} (h : ∀ a b, p (f a b) = p a) :
    ∀ (x : List α) (y : List β), (List.zipWith f x y).map p <+: x.map p
  | [], _ => by simp
  | a :: x, [] => List.nil_prefix
  | a :: x, b :: y => by
    rw [List.zipWith_cons_cons, List.map_cons, List.map_cons, h]
    exact (List.cons_prefix_cons).2 ⟨rfl, zipWith_prefix h x y⟩

/-- A part of which only the neurons differ, and those not in their biases. -/
theorem fed_ns {s : Bool} (l : CLay K) {ns : List (Neuron K)}
    (h : ns.map Neuron.bias <+: l.ns.map Neuron.bias) : l.Fed s { l with ns := ns } :=
  ⟨rfl, rfl, rfl, rfl, fun _ => rfl, fun _ => h⟩

theorem withDelta_fed (l : CLay K) (d : List K) : l.Fed false (l.withDelta d) :=
  fed_ns l (by apply zipWith_prefix; intro _ _; rfl)

theorem connForward_fed {m : Libm K} {l l' : CLay K} {x : List K} (h : connForward m l x = .ok l') :
    l.Fed false l' := by
  unfold connForward at h
  split at h
  · cases h
  · dsimp only at h
    split at h
    · cases h
    · cases h
      exact fed_ns l (by apply zipWith_prefix; intro _ _; rfl)

theorem connCopy_fed (l : CLay K) : l.Fed false (connCopy l) := by
  refine ⟨rfl, rfl, rfl, ?_, fun _ => ?_, fun _ => ?_⟩
  · unfold connCopy
    rw [List.map_map]; rfl
  · unfold connCopy
    rw [List.map_map]; rfl
  · unfold connCopy
    rw [List.map_map]
    exact List.prefix_rfl

theorem setUpd_map {γ : Type} (p : Wt K → γ) (hp : ∀ w u, p { w with upd := u } = p w)
    (ws : List (Wt K)) (us : List K) (h : ws.length ≤ us.length) :
    (List.zipWith (fun (x : Wt K) u => { x with upd := u }) ws us).map p = ws.map p :=
  map_zipWith_left _ p hp _ _ h

theorem connBackward_fed {m : Libm K} {l l' : CLay K} {x : List K} {d d' : Option (List K)}
    (h : connBackward m l x d = .ok (l', d')) : l.Fed false l' := by
  unfold connBackward at h
  split at h
  · cases h
  · split at h
    · cases h
    · next ds hds =>
      dsimp only at h
      generalize hq : (if l.opt.sgd = true then _ else _ : CLay K) = q at h
      have hF : l.Fed false q := by
        rw [← hq]
        split
        · refine ⟨rfl, rfl, rfl, ?_, fun _ => ?_, fun _ => ?_⟩
          · exact setUpd_map Wt.on (fun _ _ => rfl) _ _ (by rw [length_ofArr])
          · exact setUpd_map Wt.w (fun _ _ => rfl) _ _ (by rw [length_ofArr])
          · refine List.IsPrefix.trans (l₂ := List.map Neuron.bias (List.zipWith
              (fun (x : Neuron K) d => { x with delta := d }) l.ns ds)) ?_ ?_
            · apply zipWith_prefix; intro _ _; rfl
            · apply zipWith_prefix; intro _ _; rfl
        · exact fed_ns l (by apply zipWith_prefix; intro _ _; rfl)
      split at h
      · cases h; exact hF
      · split at h
        · cases h
        · cases h; exact hF

theorem zipPair_on (ws : List (Wt K)) (f g : Nat → K) :
    (List.zipWith (fun (x : Wt K) (p : K × K) => { x with w := p.1, upd := p.2 }) ws
      (List.zip (ofArr ws.length f) (ofArr ws.length g))).map Wt.on = ws.map Wt.on := by
  apply map_zipWith_left
  · intro _ _; rfl
  · simp [length_ofArr]

theorem connUpdate_fed (l : CLay K) : l.Fed l.opt.sgd (connUpdate l) := by
  unfold connUpdate
  split
  · next h =>
    dsimp only
    refine ⟨rfl, rfl, rfl, ?_, fun e => ?_, fun e => ?_⟩
    · unfold weightClamp
      dsimp only
      rw [List.map_map]
      exact Eq.trans rfl (zipPair_on l.ws _ _)
    · rw [h.1] at e; cases e
    · rw [h.1] at e; cases e
  · exact .refl _ _

/-! ## Propagation and learning: layers -/

/-- What propagation and learning may do to a layer. -/
structure GLay.Fed (s : Bool) (l l' : GLay K) : Prop where
  trait : l'.trait = l.trait
  rates : l'.ownRates = l.ownRates
  fns : l'.ownFns = l.ownFns
  parts : List.Forall₂ (CLay.Fed s) l.parts l'.parts

theorem forall₂_refl' {α : Type} {P : α → α → Prop} (h : ∀ a, P a a) : ∀ x : List α, List.Forall₂ P x x
  | [] => .nil
  | a :: x => .cons (h a) (forall₂_refl' h x)

theorem GLay.Fed.refl (s : Bool) (l : GLay K) : l.Fed s l :=
  ⟨rfl, rfl, rfl, forall₂_refl' (CLay.Fed.refl s) _⟩

theorem GLay.Fed.trans {s : Bool} {a b c : GLay K} (h : a.Fed s b) (k : b.Fed s c) : a.Fed s c :=
  ⟨k.trait.trans h.trait, k.rates.trans h.rates, k.fns.trans h.fns,
    forall₂_trans' (fun _ _ _ p q => p.trans q) h.parts k.parts⟩

theorem GLay.Fed.mono {s : Bool} {a b : GLay K} (h : a.Fed false b) : a.Fed s b :=
  ⟨h.trait, h.rates, h.fns, h.parts.imp fun _ _ p => p.mono⟩

theorem GLay.Fed.desc {s : Bool} {a b : GLay K} (h : a.Fed s b) : b.desc = a.desc := by
  unfold GLay.desc
  rw [h.trait, h.rates, h.fns, map_of_forall₂ (fun _ _ p => p.gist) h.parts]

theorem CLay.Fed.top {s : Bool} {a b : CLay K} (h : a.Fed s b) : a.Fed true b :=
  ⟨h.gist, h.nOut, h.nIn, h.links, (fun e => nomatch e), (fun e => nomatch e)⟩

theorem mapR_ok_both {S : Type} {P : CLay K → CLay K → Prop} {op : CLay K → S → Res (CLay K × S)}
    (h : ∀ x r y r', op x r = .ok (y, r') → P x y) {u : Gates (CLay K)} {r : S}
    {z : Gates (CLay K) × S} (e : u.mapR op r = .ok z) : u.Both P z.1 := by
  obtain ⟨v, r'⟩ := z
  exact mapR_both (P := P) (fun x r y r' e => h x r y r' e) e

theorem recForward_fed {m : Libm K} {l l' : RLay K} {x : List K} (h : recForward m l x = .ok l') :
    (GLay.recu l).Fed false (.recu l') := by
  unfold recForward at h
  simp only [bind, Except.bind] at h
  split at h
  · cases h
  split at h
  · cases h
  next i e1 =>
  split at h
  · cases h
  next s e2 =>
  split at h
  · cases h
  split at h
  · cases h
  next o e3 =>
  cases h
  exact ⟨rfl, rfl, rfl, .cons (connForward_fed e1) (.cons (connForward_fed e2)
    (.cons (connForward_fed e3) .nil))⟩

theorem lstmForward_fed {m : Libm K} {l l' : TLay K} {x : List K} (h : lstmForward m l x = .ok l') :
    (GLay.lstm l).Fed false (.lstm l') := by
  have op : ∀ (v : List K) (x : CLay K) (r : Unit) (y : CLay K) (r' : Unit),
      (connForward m x v).map (·, ()) = .ok (y, r') → x.Fed false y := by
    intro v x r y r' e
    cases e1 : connForward m x v with
    | error f => rw [e1] at e; cases e
    | ok w => rw [e1] at e; cases e; exact connForward_fed e1
  unfold lstmForward at h
  simp only [bind, Except.bind] at h
  split at h
  · cases h
  next u e1 =>
  split at h
  · cases h
  next w e2 =>
  have b1 := mapR_ok_both (P := CLay.Fed false) (op x) e1
  have b2 := mapR_ok_both (P := CLay.Fed false) (op l.h) e2
  repeat' split at h
  all_goals cases h
  exact ⟨rfl, rfl, rfl, List.rel_append (both_list b1) (both_list b2)⟩

theorem convForward_fed {m : Libm K} {l l' : VLay K} {x : List K} (h : convForward m l x = .ok l') :
    (GLay.conv l).Fed false (.conv l') := by
  unfold convForward at h
  dsimp only at h
  repeat' split at h
  all_goals cases h
  exact ⟨rfl, rfl, rfl, .cons (.refl _ _) .nil⟩

theorem layerForward_fed {g : Rng K R} {m : Libm K} {lo : K} {train : Bool} {l : GLay K} {x : List K}
    {r : R} {z : GLay K × R} (h : layerForward g m lo train l x r = .ok z) : l.Fed false z.1 := by
  cases l with
  | conn l => obtain ⟨a, e, rfl⟩ := keepR_ok h; exact ⟨Prod.ext rfl
      (congrArg Gist.opt (connForward_fed e).gist), rfl, rfl, .cons (connForward_fed e) .nil⟩
  | recu l => obtain ⟨a, e, rfl⟩ := keepR_ok h; exact recForward_fed e
  | lstm l => obtain ⟨a, e, rfl⟩ := keepR_ok h; exact lstmForward_fed e
  | conv l => obtain ⟨a, e, rfl⟩ := keepR_ok h; exact convForward_fed e
  | maxp l => obtain ⟨a, e, rfl⟩ := keepR_ok h; exact ⟨rfl, rfl, rfl, .nil⟩
  | avgp l => obtain ⟨a, e, rfl⟩ := keepR_ok h; exact ⟨rfl, rfl, rfl, .nil⟩
  | ups l => obtain ⟨a, e, rfl⟩ := keepR_ok h; exact ⟨rfl, rfl, rfl, .nil⟩
  | drop l => obtain ⟨a, e, rfl⟩ := liftR_ok h; exact ⟨rfl, rfl, rfl, .nil⟩
  | noise l => obtain ⟨a, e, rfl⟩ := liftR_ok h; exact ⟨rfl, rfl, rfl, .nil⟩
  | soft l => obtain ⟨a, e, rfl⟩ := keepR_ok h; exact ⟨rfl, rfl, rfl, .nil⟩

theorem recBackward_fed {m : Libm K} {l l' : RLay K} {x : List K} {d d' : Option (List K)}
    (h : recBackward m l x d = .ok (l', d')) : (GLay.recu l).Fed false (.recu l') := by
  unfold recBackward at h
  simp only [bind, Except.bind] at h
  split at h
  · cases h
  split at h
  · cases h
  split at h
  · cases h
  next _ t1 e1 =>
  obtain ⟨o, e⟩ := t1
  dsimp only at h
  split at h
  · cases h
  split at h
  · cases h
  split at h
  · cases h
  next _ t2 e2 =>
  obtain ⟨s, e'⟩ := t2
  dsimp only at h
  split at h
  · cases h
  next _ t3 e3 =>
  obtain ⟨i, d3⟩ := t3
  cases h
  exact ⟨rfl, rfl, rfl, .cons (((withDelta_fed _ _).trans (withDelta_fed _ _)).trans
    (connBackward_fed e3)) (.cons (((withDelta_fed _ _).trans (withDelta_fed _ _)).trans
    (connBackward_fed e2)) (.cons (connBackward_fed e1) .nil))⟩

theorem gateBack_fed {m : Libm K} {e p x : List K} {u w : CLay K} {d : Option (List K)}
    {z : (CLay K × CLay K) × Option (List K)} (h : gateBack m e p x u w d = .ok z) :
    u.Fed false z.1.1 ∧ w.Fed false z.1.2 := by
  unfold gateBack at h
  simp only [bind, Except.bind] at h
  split at h
  · cases h
  split at h
  · cases h
  next _ t1 e1 =>
  obtain ⟨a, b⟩ := t1
  dsimp only at h
  split at h
  · cases h
  next _ t2 e2 =>
  obtain ⟨a', b'⟩ := t2
  cases h
  exact ⟨(withDelta_fed _ _).trans (connBackward_fed e2),
    (withDelta_fed _ _).trans (connBackward_fed e1)⟩

theorem lstmBackward_fed {m : Libm K} {l l' : TLay K} {x : List K} {d d' : Option (List K)}
    (h : lstmBackward m l x d = .ok (l', d')) : (GLay.lstm l).Fed false (.lstm l') := by
  unfold lstmBackward at h
  simp only [bind, Except.bind] at h
  split at h
  · cases h
  split at h
  · cases h
  split at h
  · cases h
  split at h
  · cases h
  split at h
  · cases h
  next _ t1 h1 =>
  obtain ⟨⟨uo, wo⟩, d1⟩ := t1
  dsimp only at h
  split at h
  · cases h
  split at h
  · cases h
  next _ t2 h2 =>
  obtain ⟨⟨ug, wg⟩, d2⟩ := t2
  dsimp only at h
  split at h
  · cases h
  split at h
  · cases h
  next _ t3 h3 =>
  obtain ⟨⟨ui, wi⟩, d3⟩ := t3
  dsimp only at h
  split at h
  · cases h
  split at h
  · cases h
  next _ t4 h4 =>
  obtain ⟨⟨uf, wf⟩, d4⟩ := t4
  cases h
  have k1 := gateBack_fed h1
  have k2 := gateBack_fed h2
  have k3 := gateBack_fed h3
  have k4 := gateBack_fed h4
  exact ⟨rfl, rfl, rfl, List.rel_append (both_list ⟨k4.1, k3.1, k2.1, k1.1⟩)
    (both_list ⟨k4.2, k3.2, k2.2, k1.2⟩)⟩

theorem convUpdates_fed {m : Libm K} {l l' : VLay K} {x : List K} (h : convUpdates m l x = .ok l') :
    l.core.Fed false l'.core := by
  unfold convUpdates at h
  dsimp only at h
  repeat' split at h
  all_goals cases h
  refine ⟨rfl, rfl, rfl, ?_, fun _ => ?_, fun _ => ?_⟩
  · exact setUpd_map Wt.on (fun _ _ => rfl) _ _ (by rw [length_ofArr])
  · exact setUpd_map Wt.w (fun _ _ => rfl) _ _ (by rw [length_ofArr])
  · dsimp only
    apply zipWith_prefix; intro _ _; rfl

theorem convDelta_core {l l' : VLay K} {d d' : List K} (h : convDelta l d = .ok (l', d')) :
    l'.core = l.core := by
  unfold convDelta at h
  dsimp only at h
  repeat' split at h
  all_goals cases h
  · rfl
  · rfl

theorem convBackward_fed {m : Libm K} {l l' : VLay K} {x : List K} {d d' : Option (List K)}
    (h : convBackward m l x d = .ok (l', d')) : l.core.Fed false l'.core := by
  unfold convBackward at h
  dsimp only at h
  split at h
  · cases h
  · split at h
    · cases h
    · next l1 e1 =>
      have h1 : l.core.Fed false l1.core := by
        split at e1
        · exact convUpdates_fed e1
        · cases e1; exact .refl _ _
      split at h
      · cases h; exact h1
      · split at h
        · cases h
        · next e2 => cases h; rw [convDelta_core e2]; exact h1

theorem backOf_ok {α : Type} {f : α → GLay K} {x : Res (α × Option (List K))}
    {z : GLay K × Option (List K)} (h : backOf f x = .ok z) : ∃ a, x = .ok (a, z.2) ∧ z.1 = f a := by
  unfold backOf at h
  split at h
  · cases h
  · cases h; exact ⟨_, rfl, rfl⟩

theorem backOnly_ok {l : GLay K} {x : Res (Option (List K))} {z : GLay K × Option (List K)}
    (h : backOnly l x = .ok z) : z.1 = l := by
  unfold backOnly at h
  split at h
  · cases h
  · cases h; rfl

theorem layerBackward_fed {m : Libm K} {l : GLay K} {x : List K} {d : Option (List K)}
    {z : GLay K × Option (List K)} (h : layerBackward m l x d = .ok z) : l.Fed false z.1 := by
  cases l with
  | conn l =>
    obtain ⟨a, e, q⟩ := backOf_ok h
    rw [q]
    exact ⟨Prod.ext rfl (congrArg Gist.opt (connBackward_fed e).gist), rfl, rfl,
      .cons (connBackward_fed e) .nil⟩
  | recu l => obtain ⟨a, e, q⟩ := backOf_ok h; rw [q]; exact recBackward_fed e
  | lstm l => obtain ⟨a, e, q⟩ := backOf_ok h; rw [q]; exact lstmBackward_fed e
  | conv l =>
    obtain ⟨a, e, q⟩ := backOf_ok h
    rw [q]
    exact ⟨Prod.ext rfl (congrArg Gist.opt (convBackward_fed e).gist), rfl, rfl,
      .cons (convBackward_fed e) .nil⟩
  | maxp l => rw [backOnly_ok h]; exact .refl _ _
  | avgp l => rw [backOnly_ok h]; exact .refl _ _
  | ups l => rw [backOnly_ok h]; exact .refl _ _
  | drop l => rw [backOnly_ok h]; exact .refl _ _
  | noise l => rw [backOnly_ok h]; exact .refl _ _
  | soft l => rw [backOnly_ok h]; exact .refl _ _

theorem GLay.withDelta_fed (d : List K) (l : GLay K) : l.Fed false (l.withDelta d) := by
  cases l with
  | conn l => exact ⟨rfl, rfl, rfl, .cons (Xcsf.withDelta_fed _ _) .nil⟩
  | recu l => exact ⟨rfl, rfl, rfl, .cons (.refl _ _) (.cons (.refl _ _)
      (.cons (Xcsf.withDelta_fed _ _) .nil))⟩
  | lstm l => exact ⟨rfl, rfl, rfl, forall₂_refl' (CLay.Fed.refl _) _⟩
  | conv l => exact ⟨rfl, rfl, rfl, .cons (.refl _ _) .nil⟩
  | maxp l => exact ⟨rfl, rfl, rfl, .nil⟩
  | avgp l => exact ⟨rfl, rfl, rfl, .nil⟩
  | ups l => exact ⟨rfl, rfl, rfl, .nil⟩
  | drop l => exact ⟨rfl, rfl, rfl, .nil⟩
  | noise l => exact ⟨rfl, rfl, rfl, .nil⟩
  | soft l => exact ⟨rfl, rfl, rfl, .nil⟩

theorem layerUpdate_fed (l : GLay K) : l.Fed l.opt.sgd (layerUpdate l) := by
  cases l with
  | conn l =>
    exact ⟨Prod.ext rfl (congrArg Gist.opt (connUpdate_fed l).gist), rfl, rfl,
      .cons (connUpdate_fed l) .nil⟩
  | conv l =>
    exact ⟨Prod.ext rfl (congrArg Gist.opt (connUpdate_fed l.core).gist), rfl, rfl,
      .cons (connUpdate_fed l.core) .nil⟩
  | recu l =>
    show (GLay.recu l).Fed l.opt.sgd (.recu (recUpdate l))
    unfold recUpdate
    split
    · next h =>
      rw [h.1]
      exact ⟨rfl, rfl, rfl, .cons (connUpdate_fed _).top (.cons (connUpdate_fed _).top
        (.cons (connUpdate_fed _).top .nil))⟩
    · exact .refl _ _
  | lstm l =>
    show (GLay.lstm l).Fed l.opt.sgd (.lstm (lstmUpdate l))
    unfold lstmUpdate
    split
    · next h =>
      rw [h.1]
      exact ⟨rfl, rfl, rfl, List.rel_append
        (both_list ⟨(connUpdate_fed _).top, (connUpdate_fed _).top, (connUpdate_fed _).top,
          (connUpdate_fed _).top⟩)
        (both_list ⟨(connUpdate_fed _).top, (connUpdate_fed _).top, (connUpdate_fed _).top,
          (connUpdate_fed _).top⟩)⟩
    · exact .refl _ _
  | maxp l => exact .refl _ _
  | avgp l => exact .refl _ _
  | ups l => exact .refl _ _
  | drop l => exact .refl _ _
  | noise l => exact .refl _ _
  | soft l => exact .refl _ _

/-! ## Propagation and learning: networks -/

/-- What propagation and learning may do to a network. -/
def AllFed (ls ls' : List (GLay K)) : Prop :=
  List.Forall₂ (fun l l' => l.Fed l.opt.sgd l') ls ls'

theorem fed_opt {s : Bool} {a b : GLay K} (h : a.Fed s b) : b.opt = a.opt := trait_opt h.trait

theorem AllFed.refl (ls : List (GLay K)) : AllFed ls ls := forall₂_refl' (fun l => .refl _ l) ls

theorem AllFed.trans {a b c : List (GLay K)} (h : AllFed a b) (k : AllFed b c) : AllFed a c :=
  forall₂_trans' (fun _ _ _ p q => p.trans (fed_opt p ▸ q)) h k

theorem genForward_fed0 {g : Rng K R} {m : Libm K} {lo : K} {train : Bool} : ∀ {ls : List (GLay K)}
    {x : List K} {r : R} {z : List (GLay K) × R}, genForward g m lo train ls x r = .ok z →
    List.Forall₂ (GLay.Fed false) ls z.1
  | [], _, _, _, h => by cases h; exact .nil
  | l :: ls, x, r, z, h => by
    unfold genForward at h
    split at h
    · cases h
    · next e1 =>
      split at h
      · cases h
      · split at h
        · cases h
        · next e3 => cases h; exact .cons (layerForward_fed e1) (genForward_fed0 e3)

theorem genForward_fed {g : Rng K R} {m : Libm K} {lo : K} {train : Bool} {ls : List (GLay K)}
    {x : List K} {r : R} {z : List (GLay K) × R} (h : genForward g m lo train ls x r = .ok z) :
    AllFed ls z.1 := (genForward_fed0 h).imp fun _ _ p => p.mono

theorem resetAll_fed : ∀ {ls ls' : List (GLay K)}, resetAll ls = .ok ls' → AllFed ls ls'
  | [], _, h => by cases h; exact .nil
  | l :: ls, ls', h => by
    unfold resetAll at h
    split at h
    · cases h
    · next l1 e1 =>
      split at h
      · cases h
      · next ls1 e2 =>
        cases h
        unfold GLay.reset at e1
        split at e1
        · cases e1
        · cases e1; exact .cons (GLay.withDelta_fed _ _).mono (resetAll_fed e2)

theorem genBackGo_fed {m : Libm K} {x : List K} : ∀ {rest : List (GLay K)} {l : GLay K}
    {ls' : List (GLay K)}, genBackGo m x l rest = .ok ls' → AllFed (l :: rest) ls'
  | [], l, ls', h => by
    unfold genBackGo at h
    split at h
    · cases h
    · next e => cases h; exact .cons (layerBackward_fed e).mono .nil
  | p :: rest, l, ls', h => by
    unfold genBackGo at h
    split at h
    · cases h
    · split at h
      · cases h
      · cases h
      · next l1 d e =>
        split at h
        · cases h
        · next ls1 e2 =>
          cases h
          have k := genBackGo_fed e2
          refine .cons (layerBackward_fed e).mono ?_
          cases k with
          | cons k1 k2 =>
            have w := GLay.withDelta_fed d p
            exact .cons (w.mono.trans (fed_opt w ▸ k1)) k2

theorem genLearn_fed {m : Libm K} {ls ls' : List (GLay K)} {t x : List K}
    (h : genLearn m ls t x = .ok ls') : AllFed ls ls' := by
  unfold genLearn at h
  split at h
  · cases h
  · next l2 e =>
    cases h
    unfold genBackward at e
    split at e
    · cases e
    · next l1 e1 =>
      have k1 := resetAll_fed e1
      split at e
      · cases e
      · next hd rest hr =>
        split at e
        · cases e
        · next hd' e3 =>
          split at e
          · cases e
          · next l3 e4 =>
            cases e
            have k4 := genBackGo_fed e4
            have w : hd.Fed false hd' := by
              unfold GLay.headDelta at e3
              split at e3
              · cases e3
              · dsimp only at e3
                split at e3
                · cases e3
                · cases e3; exact GLay.withDelta_fed _ _
            have k5 : AllFed (hd :: rest) l3 := by
              cases k4 with
              | cons a b => exact .cons (w.mono.trans (fed_opt w ▸ a)) b
            have k6 : AllFed l1 l3.reverse := by
              have := List.rel_reverse k5
              rw [← hr, List.reverse_reverse] at this
              exact this
            refine (k1.trans k6).trans ?_
            rw [AllFed, List.forall₂_map_right_iff]
            exact forall₂_refl' (fun l => layerUpdate_fed l) _

/-! ## Legal networks -/

theorem legal_biases {k : Lim} {l : GLay K} (L : l.Legal k) : ∀ x ∈ l.parts, x.ns.length = x.nOutputs := by
  cases l with
  | conn l => intro x hx; cases List.mem_singleton.1 hx; exact L.1.nlen
  | recu l =>
    intro x hx
    change x ∈ [_, _, _] at hx
    simp only [List.mem_cons, List.not_mem_nil, or_false] at hx
    rcases hx with rfl | rfl | rfl
    · exact L.1.inp.sound.nlen
    · exact L.1.self.sound.nlen
    · exact L.1.out.sound.nlen
  | lstm l =>
    intro x hx
    rcases List.mem_append.1 hx with hx | hx
    · simp only [Gates.list, List.mem_cons, List.not_mem_nil, or_false] at hx
      rcases hx with rfl | rfl | rfl | rfl
      · exact L.1.u.f.sound.nlen
      · exact L.1.u.i.sound.nlen
      · exact L.1.u.g.sound.nlen
      · exact L.1.u.o.sound.nlen
    · simp only [Gates.list, List.mem_cons, List.not_mem_nil, or_false] at hx
      rcases hx with rfl | rfl | rfl | rfl
      · exact L.1.w.f.sound.nlen
      · exact L.1.w.i.sound.nlen
      · exact L.1.w.g.sound.nlen
      · exact L.1.w.o.sound.nlen
  | conv l => intro x hx; cases List.mem_singleton.1 hx; exact L.1.core.nlen
  | maxp l => intro x hx; cases hx
  | avgp l => intro x hx; cases hx
  | ups l => intro x hx; cases hx
  | drop l => intro x hx; cases hx
  | noise l => intro x hx; cases hx
  | soft l => intro x hx; cases hx

theorem map_of_forall₂_mem {α β : Type} {P : α → α → Prop} {f : α → β} :
    ∀ {x y : List α}, List.Forall₂ P x y → (∀ a ∈ x, ∀ b ∈ y, P a b → f b = f a) → y.map f = x.map f
  | _, _, .nil, _ => rfl
  | _, _, .cons p ps, h => by
    rw [List.map_cons, List.map_cons, h _ (by simp) _ (by simp) p,
      map_of_forall₂_mem ps fun a ha b hb => h a (by simp [ha]) b (by simp [hb])]

/-- Propagation and learning in a legal layer that stays legal. -/
theorem fed_kept {k : Lim} {s : Bool} {l l' : GLay K} (F : l.Fed s l') (L : l.Legal k)
    (L' : l'.Legal k) : l.KeptBy s l' := by
  refine ⟨fed_opt F, ?_, ?_, ?_, ?_, fun hs => ?_⟩
  · unfold GLay.rates
    rw [F.rates, map_of_forall₂ (fun _ _ p => gist_eta p.gist) F.parts]
  · unfold GLay.fns
    rw [F.fns, map_of_forall₂ (fun _ _ p => gist_fn p.gist) F.parts]
  · exact map_of_forall₂ (fun a b p => by rw [p.nIn, p.nOut]) F.parts
  · exact map_of_forall₂ (fun a b p => p.links) F.parts
  · refine map_of_forall₂_mem F.parts fun a ha b hb p => ?_
    have h1 := p.biases hs
    have h2 : b.ns.map Neuron.bias = a.ns.map Neuron.bias := by
      refine h1.eq_of_length ?_
      rw [List.length_map, List.length_map, legal_biases L a ha, legal_biases L' b hb, p.nOut]
    unfold CLay.params
    rw [p.weights hs, h2]

theorem netLegal_all {k : Lim} : ∀ {b : Bool} {d : Dim} {ls : List (GLay K)}, NetLegal k b d ls →
    ∀ l ∈ ls, l.Legal k
  | _, _, [], _, l, hl => by cases hl
  | _, _, _ :: _, ⟨L, _, _, _, N⟩, l, hl => by
    rcases List.mem_cons.1 hl with rfl | hl
    · exact L
    · exact netLegal_all N l hl

theorem forall₂_kept {k : Lim} {P : GLay K → Bool} {ls ls' : List (GLay K)}
    (F : List.Forall₂ (fun l l' => l.Fed (P l) l') ls ls') (h : ∀ l ∈ ls, l.Legal k)
    (h' : ∀ l ∈ ls', l.Legal k) : List.Forall₂ (fun l l' => l.KeptBy (P l) l') ls ls' := by
  induction F with
  | nil => exact .nil
  | cons f fs ih =>
    exact .cons (fed_kept f (h _ (by simp)) (h' _ (by simp)))
      (ih (fun l hl => h l (by simp [hl])) fun l hl => h' l (by simp [hl]))

end Xcsf
