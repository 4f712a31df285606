import Verif.NGenPool

/-!
# Layers of all types within limits
-/

set_option linter.unusedSectionVars false

namespace Xcsf
variable {K R : Type} [Field K] [LinearOrder K] [IsStrictOrderedRing K] [FloorRing K]

theorem CFault.gen {k : Lim} {b : Bool} (hb : b = true → k.evolve = true) {e : Fault}
    (h : CFault k.M b e) : GFault k e := by
  rcases h with ⟨h1, h2⟩ | ⟨h1, h2⟩
  · exact Or.inl ⟨h1, Or.inl h2⟩
  · exact Or.inr ⟨h1, hb h2⟩

theorem VFault.gen {k : Lim} {b : Bool} (hb : b = true → k.evolve = true) {e : Fault}
    (h : VFault k.M k.N b e) : GFault k e := by
  rcases h with ⟨h1, h2 | h2⟩ | ⟨h1, h2⟩
  · exact Or.inl ⟨h1, Or.inl h2⟩
  · exact Or.inl ⟨h1, Or.inr (Or.inl h2)⟩
  · exact Or.inr ⟨h1, hb h2⟩

theorem Geo.mono {B M N : Nat} {s t p w h : Int} (G : Geo B M N s t p w h B) (hs : 1 ≤ s)
    {c : Int} (hc : 1 ≤ c) (hB : c ≤ B) : Geo B M N s t p w h c := by
  have h1 : 1 ≤ w * h := one_le_mul_of_one_le_of_one_le G.wid G.hei
  have h2 := mul_le_last h1 hB
  have h3 : 1 ≤ s * s := one_le_mul_of_one_le_of_one_le hs hs
  have h4 := mul_le_last h3 hB
  refine { G with cha := hc, ins := lt_of_le_of_lt h2 G.ins, prod := ?_ }
  exact le_trans (Nat.mul_le_mul_left _ (Int.toNat_le_toNat h4)) G.prod

/-- The type of a layer and its options. -/
def GLay.trait : GLay K → Nat × LOpt
  | .conn l => (0, l.opt)
  | .recu l => (1, l.opt)
  | .lstm l => (2, l.opt)
  | .conv l => (3, l.core.opt)
  | .maxp _ => (4, ⟨false, false, false, false, false, false⟩)
  | .avgp _ => (5, ⟨false, false, false, false, false, false⟩)
  | .ups _ => (6, ⟨false, false, false, false, false, false⟩)
  | .drop _ => (7, ⟨false, false, false, false, false, false⟩)
  | .noise _ => (8, ⟨false, false, false, false, false, false⟩)
  | .soft _ => (9, ⟨false, false, false, false, false, false⟩)

/-- What a backward pass reads of a layer, besides its outputs, has been written. -/
def GLay.Primed : GLay K → Prop
  | .conv l => l.core.opt.sgd = true ∨ l.Filled
  | .maxp l => ∀ i < l.indexes.length, ∃ m : Nat, l.indexes[i]? = some (some (m : Int)) ∧
      (m : Int) < l.nIn
  | _ => True

/-- The type of a layer and its options are kept. -/
structure Kind (l l' : GLay K) : Prop where
  still : ∀ b, l'.still b = l.still b
  passes : l'.passes = l.passes
  image : l'.takes.isSome = l.takes.isSome
  trait : l'.trait = l.trait

/-- The layer reads the same as before. -/
structure Reads (l l' : GLay K) : Prop where
  ins : l'.nIn = l.nIn
  takes : l'.takes = l.takes

theorem Kind.refl (l : GLay K) : Kind l l := ⟨fun _ => rfl, rfl, rfl, rfl⟩

theorem Reads.refl (l : GLay K) : Reads l l := ⟨rfl, rfl⟩

theorem Reads.agrees {l l' : GLay K} (h : Reads l l') {d : Dim} (A : Agrees d l) : Agrees d l' :=
  ⟨by rw [h.ins, A.ins], fun t ht => A.image t (by rw [← h.takes]; exact ht)⟩

/-- What a step that keeps all sizes does with a layer. -/
structure GKeep (k : Lim) (l l' : GLay K) : Prop where
  legal : l'.Legal k
  kind : Kind l l'
  reads : Reads l l'
  dim : l'.dim = l.dim

theorem GKeep.refl {k : Lim} {l : GLay K} (h : l.Legal k) : GKeep k l l :=
  ⟨h, Kind.refl l, Reads.refl l, rfl⟩

/-- What a step that may change the number of outputs does with a layer. -/
structure GGrow (k : Lim) (l l' : GLay K) : Prop where
  legal : l'.Legal k
  kind : Kind l l'
  reads : Reads l l'
  shape : ∀ b, (l.takes.isSome = true → b = true) → l.still b = true →
    l'.dim.w = l.dim.w ∧ l'.dim.h = l.dim.h
  pass : l.passes = true → l'.dim = l.dim

theorem GKeep.grow {k : Lim} {l l' : GLay K} (h : GKeep k l l') : GGrow k l l' :=
  ⟨h.legal, h.kind, h.reads, fun _ _ _ => by rw [h.dim]; exact ⟨rfl, rfl⟩, fun _ => h.dim⟩

/-- Products of sizes. -/
theorem Lim.Ok.prodOf {k : Lim} (hk : k.Ok) {n : Nat} (h : n ≤ k.N) : k.B * n ≤ k.M :=
  le_trans (Nat.mul_le_mul_left _ h) hk.prod

theorem Lim.Ok.square {k : Lim} (hk : k.Ok) : k.B * k.B ≤ k.M := hk.prodOf hk.le

/-! ## Sizes -/

theorem legal_dim {k : Lim} (hk : k.Ok) {l : GLay K} (L : l.Legal k) {d : Dim} {b : Bool}
    (D : d.Ok k b) (hi : l.takes.isSome = true → b = true)
    (hp : l.passes = true → b = true → l.dim = d) : l.dim.Ok k (l.still b) := by
  have hle := hk.le
  cases l with
  | conn l =>
    obtain ⟨S, F, _, hw⟩ := L
    have h1 := S.outs
    have h2 := F.cur
    refine ⟨?_, ?_, fun hs => ?_⟩
    · show (1 : Int) ≤ (l.nOutputs : Int); omega
    · show (l.nOutputs : Int) ≤ k.N; omega
    · have hn : l.opt.neurons = false := by simpa [GLay.still] using hs
      obtain ⟨e1, e2, e3⟩ := hw hn
      refine ⟨?_, ?_, ?_, ?_, ?_⟩
      · show 1 ≤ (l.outW : Int); omega
      · show 1 ≤ (l.outH : Int); omega
      · show 1 ≤ (l.outC : Int); omega
      · show (l.outC : Int) ≤ k.B; omega
      · show (l.nOutputs : Int) = (l.outW : Int) * (l.outH : Int) * (l.outC : Int)
        rw [e1, e2, e3]; ring
  | recu l =>
    obtain ⟨L, _⟩ := L
    obtain ⟨h1, _, h2⟩ := L.out.outs_pos
    have h3 := L.wide
    refine ⟨?_, ?_, fun hs => ⟨?_, le_refl _, le_refl _, ?_, ?_⟩⟩
    · show (1 : Int) ≤ (l.nOutputs : Int); omega
    · show (l.nOutputs : Int) ≤ k.N; omega
    · show 1 ≤ (l.outW : Int); omega
    · show (1 : Int) ≤ k.B; omega
    · show (l.nOutputs : Int) = (l.outW : Int) * 1 * 1
      rw [h3]; ring
  | lstm l =>
    obtain ⟨L, _⟩ := L
    obtain ⟨h1, _, h2⟩ := L.u.f.outs_pos
    have h3 := L.wide
    refine ⟨?_, ?_, fun hs => ⟨?_, le_refl _, le_refl _, ?_, ?_⟩⟩
    · show (1 : Int) ≤ (l.nOutputs : Int); omega
    · show (l.nOutputs : Int) ≤ k.N; omega
    · show 1 ≤ (l.outW : Int); omega
    · show (1 : Int) ≤ k.B; omega
    · show (l.nOutputs : Int) = (l.outW : Int) * 1 * 1
      rw [h3]; ring
  | conv l =>
    obtain ⟨V, F, _, _, _⟩ := L
    have h1 := V.core.outs
    have h2 := F.core.cur
    obtain ⟨_, o1, o2⟩ := F.geo.outs hk.N V.ok.p V.ok.s V.ok.st h1 h2
    obtain ⟨_, _, o3, o4, _⟩ := F.geo.dims V.ok.p V.ok.s V.ok.st
    rw [← V.ok.outH, ← V.ok.outW] at o1 o2
    rw [← V.ok.outW] at o3
    rw [← V.ok.outH] at o4
    rw [← V.ok.nOut] at o1 o2
    refine ⟨o1, o2, fun hs => ⟨o3, o4, ?_, ?_, ?_⟩⟩
    · show (1 : Int) ≤ (l.core.nOutputs : Int); omega
    · show (l.core.nOutputs : Int) ≤ k.B; omega
    · show l.nOut = l.outW * l.outH * (l.core.nOutputs : Int)
      rw [V.ok.nOut]; ring
  | maxp l =>
    obtain ⟨V, Rm, _⟩ := L
    obtain ⟨_, h2, h3, h4⟩ := maxOk_pos V
    have h5 : 1 ≤ l.outH * l.outW := one_le_mul_of_one_le_of_one_le h2 h3
    have h6 := mul_le_last h5 Rm.cha
    have h7 := Rm.outs
    have h8 := V.nOut
    rw [V.outC] at h8
    refine ⟨h4, ?_, fun hs => ⟨h3, h2, ?_, ?_, ?_⟩⟩
    · show l.nOut ≤ k.N
      omega
    · show 1 ≤ l.outC
      rw [V.outC]; exact V.c
    · show l.outC ≤ k.B
      rw [V.outC]; exact Rm.cha
    · show l.nOut = l.outW * l.outH * l.outC
      rw [V.nOut]; ring
  | avgp l =>
    obtain ⟨V, e1, e2, hc, _⟩ := L
    have h1 := V.c
    have h2 := V.nOut
    refine ⟨?_, ?_, fun hs => ⟨?_, ?_, ?_, ?_, ?_⟩⟩
    · show 1 ≤ l.nOut; omega
    · show l.nOut ≤ k.N; omega
    · show 1 ≤ l.outW; omega
    · show 1 ≤ l.outH; omega
    · show 1 ≤ l.outC; rw [V.outC]; exact V.c
    · show l.outC ≤ k.B; rw [V.outC]; exact hc
    · show l.nOut = l.outW * l.outH * l.outC
      rw [e1, e2, V.nOut, V.outC]; ring
  | ups l =>
    obtain ⟨V, Rm, _, _⟩ := L
    have h2 : 1 ≤ l.outH := by rw [V.outH]; exact one_le_mul_of_one_le_of_one_le V.h V.st
    have h3 : 1 ≤ l.outW := by rw [V.outW]; exact one_le_mul_of_one_le_of_one_le V.w V.st
    have h5 : 1 ≤ l.outH * l.outW := one_le_mul_of_one_le_of_one_le h2 h3
    have h6 := mul_le_last h5 Rm.cha
    have h7 := Rm.outs
    have h8 := V.nOut
    rw [V.outC] at h8
    have h9 : 1 ≤ l.outH * l.outW * l.channels := one_le_mul_of_one_le_of_one_le h5 V.c
    refine ⟨?_, ?_, fun hs => ⟨h3, h2, ?_, ?_, ?_⟩⟩
    · show 1 ≤ l.nOut
      omega
    · show l.nOut ≤ k.N
      omega
    · show 1 ≤ l.outC
      rw [V.outC]; exact V.c
    · show l.outC ≤ k.B
      rw [V.outC]; exact Rm.cha
    · show l.nOut = l.outW * l.outH * l.outC
      rw [V.nOut]; ring
  | drop l =>
    obtain ⟨V, h1⟩ := L
    have h2 := V.n
    refine ⟨?_, ?_, fun hs => ?_⟩
    · show 1 ≤ l.nOut; rw [V.nOut]; exact h2
    · show l.nOut ≤ k.N; rw [V.nOut]; exact h1
    · have hb : b = true := hs
      rw [hp rfl hb]; exact D.full hb
  | noise l =>
    obtain ⟨V, h1⟩ := L
    have h2 := V.n
    refine ⟨?_, ?_, fun hs => ?_⟩
    · show 1 ≤ l.nOut; rw [V.nOut]; exact h2
    · show l.nOut ≤ k.N; rw [V.nOut]; exact h1
    · have hb : b = true := hs
      rw [hp rfl hb]; exact D.full hb
  | soft l =>
    obtain ⟨V, h1⟩ := L
    have h2 := V.n
    refine ⟨?_, ?_, fun hs => ?_⟩
    · show 1 ≤ l.nOut; rw [V.nOut]; exact h2
    · show l.nOut ≤ k.N; rw [V.nOut]; exact h1
    · exact absurd hs (by simp [GLay.still])

/-! ## Mutation -/

theorem post_liftM {α β : Type} {f : α → β} {x : Res ((α × Bool) × R)} {P : α → Prop}
    {Q : β → Prop} {E E' : Fault → Prop} (h : Post x (fun p => P p.1.1) E)
    (hq : ∀ a, P a → Q (f a)) (he : ∀ e, E e → E' e) :
    Post (liftM f x) (fun p => Q p.1.1) E' := by
  cases x with
  | error e => exact he e h
  | ok p => obtain ⟨⟨a, b⟩, r⟩ := p; exact hq a h

theorem post_liftR {α β : Type} {f : α → β} {x : Res (α × R)} {P : α → Prop}
    {Q : β → Prop} {E E' : Fault → Prop} (h : Post x (fun p => P p.1) E)
    (hq : ∀ a, P a → Q (f a)) (he : ∀ e, E e → E' e) :
    Post (liftR f x) (fun p => Q p.1) E' := by
  cases x with
  | error e => exact he e h
  | ok p => obtain ⟨a, r⟩ := p; exact hq a h

theorem post_keepR {α β : Type} {f : α → β} {x : Res α} {r : R} {P : α → Prop}
    {Q : β → Prop} {E E' : Fault → Prop} (h : Post x P E)
    (hq : ∀ a, P a → Q (f a)) (he : ∀ e, E e → E' e) :
    Post (keepR f x r) (fun p => Q p.1) E' := by
  cases x with
  | error e => exact he e h
  | ok p => exact hq p h

/-- What is known of a result if there is one. -/
theorem post_also {α : Type} {x : Res α} {P Q : α → Prop} {E : Fault → Prop} (h : Post x P E)
    (hq : ∀ a, x = .ok a → Q a) : Post x (fun a => P a ∧ Q a) E := by
  cases x with
  | error e => exact h
  | ok a => exact ⟨h, hq a rfl⟩

theorem layerMutate_step {k : Lim} (hk : k.Ok) {g : Rng K R} (O : g.Open) (Bd : g.Bounded)
    {fuel : Nat} (hf : 1 ≤ fuel) {l : GLay K} (L : l.Legal k) (r : R) :
    Post (layerMutate g fuel l r) (fun p => GGrow k l p.1.1) (GFault k) := by
  cases l with
  | conn l =>
    obtain ⟨S, F, he, hw⟩ := L
    refine post_liftM (P := fun a => CStep k.B k.M l a ∧ CSame l a ∧
      (l.opt.neurons = false → a.nOutputs = l.nOutputs))
      (post_also (connMutate_step hk.M O Bd hf S F r) (fun p e => connMutate_same e)) ?_
      (fun e => CFault.gen he)
    rintro a ⟨s, d, hn⟩
    refine ⟨⟨s.sound, s.fits, by rw [s.opt]; exact he, ?_⟩, ⟨fun b => ?_, rfl, rfl,
      by first | rfl | simp only [GLay.trait, s.opt]⟩,
      ⟨?_, rfl⟩, fun b _ _ => ⟨?_, ?_⟩, fun h => absurd h (by simp [GLay.passes])⟩
    · intro h
      rw [s.opt] at h
      obtain ⟨e1, e2, e3⟩ := hw h
      exact ⟨by rw [d.w, hn h, e1], by rw [d.h, e2], by rw [d.c, e3]⟩
    · show (!a.opt.neurons) = !l.opt.neurons
      rw [s.opt]
    · show (a.nInputs : Int) = l.nInputs
      rw [d.ins]
    · show (a.outW : Int) = l.outW
      rw [d.w]
    · show (a.outH : Int) = l.outH
      rw [d.h]
  | recu l =>
    obtain ⟨L, he⟩ := L
    refine post_liftM (P := fun a => RStep k.B k.M true l a ∧ a.nInputs = l.nInputs ∧
      (l.opt.neurons = false → a.nOutputs = l.nOutputs))
      (recMutate_step hk.M hk.square O Bd hf L r) ?_ (fun e => CFault.gen he)
    rintro a ⟨s, hi, hn⟩
    refine ⟨⟨s.legal, by rw [s.opt]; exact he⟩, ⟨fun b => ?_, rfl, rfl,
      by first | rfl | simp only [GLay.trait, s.opt]⟩,
      ⟨?_, rfl⟩, fun b _ hb => ⟨?_, rfl⟩, fun h => absurd h (by simp [GLay.passes])⟩
    · show (!a.opt.neurons) = !l.opt.neurons
      rw [s.opt]
    · show (a.nInputs : Int) = l.nInputs
      rw [hi]
    · show (a.outW : Int) = l.outW
      have : l.opt.neurons = false := by simpa [GLay.still] using hb
      rw [s.legal.wide, hn this, L.wide]
  | lstm l =>
    obtain ⟨L, he⟩ := L
    refine post_liftM (P := fun a => TStep k.B k.M true l a ∧ a.nInputs = l.nInputs ∧
      (l.opt.neurons = false → a.nOutputs = l.nOutputs))
      (lstmMutate_step hk.M hk.square O Bd hf L r) ?_ (fun e => CFault.gen he)
    rintro a ⟨s, hi, hn⟩
    refine ⟨⟨s.legal, by rw [s.opt]; exact he⟩, ⟨fun b => ?_, rfl, rfl,
      by first | rfl | simp only [GLay.trait, s.opt]⟩,
      ⟨?_, rfl⟩, fun b _ hb => ⟨?_, rfl⟩, fun h => absurd h (by simp [GLay.passes])⟩
    · show (!a.opt.neurons) = !l.opt.neurons
      rw [s.opt]
    · show (a.nInputs : Int) = l.nInputs
      rw [hi]
    · show (a.outW : Int) = l.outW
      have : l.opt.neurons = false := by simpa [GLay.still] using hb
      rw [s.legal.wide, hn this, L.wide]
  | conv l =>
    obtain ⟨V, F, he, hc, hG⟩ := L
    refine post_liftM (P := fun a => VStep k.B k.M k.N l a ∧ VSame l a)
      (post_also (convMutate_step hk.M hk.N O Bd fuel V F r) (fun p e => convMutate_same e)) ?_
      (fun e => VFault.gen he)
    rintro a ⟨s, d⟩
    refine ⟨⟨s.legal, s.fits, by rw [s.opt]; exact he, by rw [d.c]; exact hc,
      by rw [s.size, s.stride, s.pad, d.w, d.h]; exact hG⟩, ⟨fun b => rfl, rfl, rfl,
      by first | rfl | simp only [GLay.trait, s.opt]⟩,
      ⟨d.ins, ?_⟩, fun b _ _ => ⟨d.ow, d.oh⟩, fun h => absurd h (by simp [GLay.passes])⟩
    show some (a.width, a.height, a.channels) = some (l.width, l.height, l.channels)
    rw [d.w, d.h, d.c]
  | maxp l => exact (GKeep.refl L).grow
  | avgp l => exact (GKeep.refl L).grow
  | ups l => exact (GKeep.refl L).grow
  | drop l => exact (GKeep.refl L).grow
  | noise l => exact (GKeep.refl L).grow
  | soft l => exact (GKeep.refl L).grow

/-! ## Resizing -/

/-- What resizing does with a layer. -/
structure GFit (k : Lim) (b : Bool) (q : Dim) (l l' : GLay K) : Prop where
  legal : l'.Legal k
  kind : Kind l l'
  agrees : Agrees q l'
  shape : l.still b = true → l'.dim.w = l.dim.w ∧ l'.dim.h = l.dim.h
  pass : l.passes = true → b = true → l'.dim = q

theorem layerResize_step {k : Lim} (hk : k.Ok) {g : Rng K R} (O : g.Open) (Bd : g.Bounded)
    {fuel : Nat} (hf : 1 ≤ fuel) {l : GLay K} (L : l.Legal k) {b : Bool} {p q : Dim}
    (A : Agrees p l) (hi : l.takes.isSome = true → b = true)
    (hp : l.passes = true → b = true → l.dim = p) (Q : q.Ok k b)
    (hs : b = true → q.w = p.w ∧ q.h = p.h) (r : R) :
    Post (layerResize g fuel l q r) (fun z => GFit k b q l z.1) (GFault k) := by
  have q1 := Q.pos
  have q2 := Q.le
  have q3 : 1 ≤ q.n.toNat := by omega
  have q4 : k.B * q.n.toNat ≤ k.M := hk.prodOf (by omega)
  have q5 : ((q.n.toNat : Nat) : Int) = q.n := by omega
  cases l with
  | conn l =>
    obtain ⟨S, F, he, hw⟩ := L
    refine post_liftR (P := fun a => (CStep k.B k.M l a ∧ a.nInputs = q.n.toNat) ∧
      (a.nInputs = q.n.toNat ∧ a.nOutputs = l.nOutputs ∧ a.maxOutputs = l.maxOutputs ∧
        a.outW = l.outW) ∧ (a.outW = l.outW ∧ a.outH = l.outH ∧ a.outC = l.outC))
      (post_also (connResize_step hk.M O Bd hf S F q3 q4 r)
        (fun p e => ⟨connResize_dims e, connResize_same e⟩)) ?_
      (fun e => CFault.gen he)
    rintro a ⟨⟨s, hn⟩, ⟨_, ho, _, _⟩, d1, d2, d3⟩
    refine ⟨⟨s.sound, s.fits, by rw [s.opt]; exact he, ?_⟩, ⟨fun b => ?_, rfl, rfl,
      by first | rfl | simp only [GLay.trait, s.opt]⟩,
      ⟨?_, fun t h => by cases h⟩, fun _ => ⟨?_, ?_⟩, fun h => absurd h (by simp [GLay.passes])⟩
    · intro h
      rw [s.opt] at h
      obtain ⟨e1, e2, e3⟩ := hw h
      exact ⟨by rw [d1, ho, e1], by rw [d2, e2], by rw [d3, e3]⟩
    · show (!a.opt.neurons) = !l.opt.neurons
      rw [s.opt]
    · show (a.nInputs : Int) = q.n
      rw [hn]; exact q5
    · show (a.outW : Int) = l.outW
      rw [d1]
    · show (a.outH : Int) = l.outH
      rw [d2]
  | recu l =>
    obtain ⟨L, he⟩ := L
    refine post_liftR (P := fun a => RStep k.B k.M true l a ∧ a.nInputs = q.n.toNat ∧
      a.nOutputs = l.nOutputs)
      (recResize_step hk.M O Bd hf L q3 q4 r) ?_ (fun e => CFault.gen he)
    rintro a ⟨s, hn, ho⟩
    refine ⟨⟨s.legal, by rw [s.opt]; exact he⟩, ⟨fun b => ?_, rfl, rfl,
      by first | rfl | simp only [GLay.trait, s.opt]⟩,
      ⟨?_, fun t h => by cases h⟩, fun _ => ⟨?_, rfl⟩, fun h => absurd h (by simp [GLay.passes])⟩
    · show (!a.opt.neurons) = !l.opt.neurons
      rw [s.opt]
    · show (a.nInputs : Int) = q.n
      rw [hn]; exact q5
    · show (a.outW : Int) = l.outW
      rw [s.legal.wide, ho, L.wide]
  | lstm l =>
    obtain ⟨L, he⟩ := L
    refine post_liftR (P := fun a => TStep k.B k.M true l a ∧ a.nInputs = q.n.toNat ∧
      a.nOutputs = l.nOutputs)
      (lstmResize_step hk.M O Bd hf L q3 q4 r) ?_ (fun e => CFault.gen he)
    rintro a ⟨s, hn, ho⟩
    refine ⟨⟨s.legal, by rw [s.opt]; exact he⟩, ⟨fun b => ?_, rfl, rfl,
      by first | rfl | simp only [GLay.trait, s.opt]⟩,
      ⟨?_, fun t h => by cases h⟩, fun _ => ⟨?_, rfl⟩, fun h => absurd h (by simp [GLay.passes])⟩
    · show (!a.opt.neurons) = !l.opt.neurons
      rw [s.opt]
    · show (a.nInputs : Int) = q.n
      rw [hn]; exact q5
    · show (a.outW : Int) = l.outW
      rw [s.legal.wide, ho, L.wide]
  | conv l =>
    obtain ⟨V, F, he, hc, hG⟩ := L
    have hb : b = true := hi rfl
    obtain ⟨s1, s2⟩ := hs hb
    have Qf := Q.full hb
    have hA := A.image _ rfl
    simp only [Prod.mk.injEq] at hA
    obtain ⟨a1, a2, _⟩ := hA
    rw [← a1] at s1
    rw [← a2] at s2
    refine post_liftR (P := fun a => VStep k.B k.M k.N l a ∧ a.width = q.w ∧ a.height = q.h ∧
      a.channels = q.c)
      (convResize_step hk.M hk.N Bd V F (by
        rw [s1, s2]; exact hG.mono V.ok.s Qf.c Qf.cB) r) ?_
      (fun e => VFault.gen he)
    rintro a ⟨s, h1, h2, h3⟩
    refine ⟨⟨s.legal, s.fits, by rw [s.opt]; exact he, by rw [h3]; exact Qf.cB,
      by rw [s.size, s.stride, s.pad, h1, h2, s1, s2]; exact hG⟩, ⟨fun b => rfl, rfl, rfl,
      by first | rfl | simp only [GLay.trait, s.opt]⟩,
      ⟨?_, fun t h => ?_⟩, fun _ => ⟨?_, ?_⟩, fun h => absurd h (by simp [GLay.passes])⟩
    · show a.nIn = q.n
      rw [s.legal.ok.nIn, h1, h2, h3, Qf.n]
    · cases h
      rw [h1, h2, h3]
    · show a.outW = l.outW
      rw [s.legal.ok.outW, V.ok.outW, s.size, s.stride, s.pad, h1, s1]
    · show a.outH = l.outH
      rw [s.legal.ok.outH, V.ok.outH, s.size, s.stride, s.pad, h2, s2]
  | maxp l =>
    obtain ⟨V, Rm, hm⟩ := L
    have hb : b = true := hi rfl
    obtain ⟨s1, s2⟩ := hs hb
    have Qf := Q.full hb
    have hA := A.image _ rfl
    simp only [Prod.mk.injEq] at hA
    obtain ⟨a1, a2, _⟩ := hA
    rw [← a1] at s1
    rw [← a2] at s2
    refine post_keepR (maxpoolResize_step hk V Rm Qf.c Qf.cB |> (by rw [s1, s2]; exact ·)) ?_
      (fun e h => h)
    rintro a ⟨h1, h2, h3, h4, h5⟩
    refine ⟨⟨h1, h2, hm⟩, ⟨fun b => rfl, rfl, rfl,
      rfl⟩, ⟨?_, fun t h => ?_⟩, fun _ => ⟨h4, h5⟩,
      fun h => absurd h (by simp [GLay.passes])⟩
    · show a.nIn = q.n
      rw [h1.nIn, h3.w, h3.h, h3.c, ← s1, ← s2, Qf.n]; ring
    · cases h
      rw [h3.w, h3.h, h3.c, ← s1, ← s2]
  | avgp l =>
    obtain ⟨V, e1, e2, hc, hin⟩ := L
    have hb : b = true := hi rfl
    obtain ⟨s1, s2⟩ := hs hb
    have Qf := Q.full hb
    have hA := A.image _ rfl
    simp only [Prod.mk.injEq] at hA
    obtain ⟨a1, a2, _⟩ := hA
    rw [← a1] at s1
    rw [← a2] at s2
    refine post_keepR (avgpoolResize_step hk V hin Qf.c Qf.cB |> (by rw [s1, s2]; exact ·)) ?_
      (fun e h => h)
    rintro a ⟨h1, h3, h4, h5⟩
    refine ⟨⟨h1, by rw [h4, e1], by rw [h5, e2], by rw [h3.c]; exact Qf.cB,
      by rw [h3.h, h3.w]; exact hin⟩, ⟨fun b => rfl, rfl, rfl,
      rfl⟩, ⟨?_, fun t h => ?_⟩,
      fun _ => ⟨h4, h5⟩, fun h => absurd h (by simp [GLay.passes])⟩
    · show a.nIn = q.n
      rw [h1.nIn, h3.w, h3.h, h3.c, ← s1, ← s2, Qf.n]; ring
    · cases h
      rw [h3.w, h3.h, h3.c, ← s1, ← s2]
  | ups l =>
    obtain ⟨V, Rm, o1, o2⟩ := L
    have hb : b = true := hi rfl
    obtain ⟨s1, s2⟩ := hs hb
    have Qf := Q.full hb
    have hA := A.image _ rfl
    simp only [Prod.mk.injEq] at hA
    obtain ⟨a1, a2, _⟩ := hA
    rw [← a1] at s1
    rw [← a2] at s2
    refine post_keepR (upsampleResize_step hk V Rm o1 o2 Qf.c Qf.cB |> (by rw [s1, s2]; exact ·)) ?_
      (fun e h => h)
    rintro a ⟨h1, h2, h3, h4, h5⟩
    refine ⟨⟨h1, h2, by rw [h4]; exact o1, by rw [h5]; exact o2⟩, ⟨fun b => rfl, rfl, rfl,
      rfl⟩,
      ⟨?_, fun t h => ?_⟩, fun _ => ⟨h4, h5⟩, fun h => absurd h (by simp [GLay.passes])⟩
    · show a.nIn = q.n
      rw [h1.nIn, h3.w, h3.h, h3.c, ← s1, ← s2, Qf.n]; ring
    · cases h
      rw [h3.w, h3.h, h3.c, ← s1, ← s2]
  | drop l =>
    refine post_keepR (maskSet_step (k := k) l q1 q2) ?_ (fun e h => h)
    rintro a ⟨h1, h2, h3, h4⟩
    refine ⟨⟨h1, h2⟩, ⟨fun b => rfl, rfl, rfl,
      rfl⟩, ⟨h3, fun t h => by cases h⟩, fun hb => ?_, fun _ _ => h4⟩
    have hb : b = true := hb
    have e1 : (GLay.drop l).dim = p := hp rfl hb
    have e2 : (GLay.drop a).dim = q := h4
    rw [e1, e2]
    exact hs hb
  | noise l =>
    refine post_keepR (maskSet_step (k := k) l q1 q2) ?_ (fun e h => h)
    rintro a ⟨h1, h2, h3, h4⟩
    refine ⟨⟨h1, h2⟩, ⟨fun b => rfl, rfl, rfl,
      rfl⟩, ⟨h3, fun t h => by cases h⟩, fun hb => ?_, fun _ _ => h4⟩
    have hb : b = true := hb
    have e1 : (GLay.noise l).dim = p := hp rfl hb
    have e2 : (GLay.noise a).dim = q := h4
    rw [e1, e2]
    exact hs hb
  | soft l =>
    obtain ⟨V, _⟩ := L
    refine post_keepR (softSet_step (k := k) V.sc q1 q2) ?_ (fun e h => h)
    rintro a ⟨h1, h2, h3, _⟩
    exact ⟨⟨h1, h2⟩, ⟨fun b => rfl, rfl, rfl,
      rfl⟩, ⟨h3, fun t h => by cases h⟩,
      fun hb => absurd hb (by simp [GLay.still]), fun h => absurd h (by simp [GLay.passes])⟩

/-! ## Random weights and copies -/

theorem layerRand_step {k : Lim} {g : Rng K R} (Bd : g.Bounded) {l : GLay K} (L : l.Legal k)
    (r : R) : Post (layerRand g l r) (fun z => GKeep k l z.1) (GFault k) := by
  cases l with
  | conn l =>
    obtain ⟨S, F, he, hw⟩ := L
    have s := weightRand_step Bd S F r
    exact ⟨⟨s.sound, s.fits, he, hw⟩, ⟨fun _ => rfl, rfl, rfl,
      rfl⟩, ⟨rfl, rfl⟩, rfl⟩
  | recu l =>
    obtain ⟨L, he⟩ := L
    exact ⟨⟨(recRand_step Bd L r).legal, he⟩, ⟨fun _ => rfl, rfl, rfl,
      rfl⟩, ⟨rfl, rfl⟩, rfl⟩
  | lstm l =>
    obtain ⟨L, he⟩ := L
    refine post_liftR (P := fun a => TStep k.B k.M false l a ∧ a.nOutputs = l.nOutputs ∧
      a.outW = l.outW ∧ a.nInputs = l.nInputs) (post_also (lstmRand_step Bd L (fun _ => False) r)
      (fun p e => lstmRand_outs e)) ?_ (fun e h => h.elim)
    rintro a ⟨s, h1, h2, h3⟩
    refine ⟨⟨s.legal, by rw [s.opt]; exact he⟩, ⟨fun b => ?_, rfl, rfl,
      by first | rfl | simp only [GLay.trait, s.opt]⟩, ⟨?_, rfl⟩, ?_⟩
    · show (!a.opt.neurons) = !l.opt.neurons
      rw [s.opt]
    · show (a.nInputs : Int) = l.nInputs
      rw [h3]
    · show (⟨a.nOutputs, a.outW, 1, 1⟩ : Dim) = ⟨l.nOutputs, l.outW, 1, 1⟩
      rw [h1, h2]
  | conv l =>
    obtain ⟨V, F, he, hc, hG⟩ := L
    have s := convRand_step Bd V F r
    exact ⟨⟨s.legal, s.fits, he, hc, hG⟩, ⟨fun _ => rfl, rfl, rfl,
      rfl⟩, ⟨rfl, rfl⟩, rfl⟩
  | maxp l => exact GKeep.refl L
  | avgp l => exact GKeep.refl L
  | ups l => exact GKeep.refl L
  | drop l => exact GKeep.refl L
  | noise l => exact GKeep.refl L
  | soft l => exact GKeep.refl L

theorem post_map {α β : Type} {f : α → β} {x : Res α} {P : α → Prop}
    {Q : β → Prop} {E E' : Fault → Prop} (h : Post x P E)
    (hq : ∀ a, P a → Q (f a)) (he : ∀ e, E e → E' e) : Post (x.map f) Q E' := by
  cases x with
  | error e => exact he e h
  | ok p => exact hq p h

theorem poolCopy_step {k : Lim} {l : PLay K} (h1 : 1 ≤ l.nOut) (h2 : l.nOut ≤ k.N) :
    Post (poolCopy l) (fun l' => poolCopy l = .ok l') (GFault k) ∧
    Post (maxpoolCopy l) (fun l' => maxpoolCopy l = .ok l') (GFault k) := by
  unfold poolCopy maxpoolCopy
  rcases guardOutputs_N h1 h2 with e | ⟨e, h⟩
  · rw [e]; exact ⟨rfl, rfl⟩
  · rw [e]; exact ⟨h, h⟩

theorem layerCopy_step {k : Lim} (hk : k.Ok) {l : GLay K} (L : l.Legal k) {b : Bool} {d : Dim}
    (D : d.Ok k b) (hi : l.takes.isSome = true → b = true)
    (hp : l.passes = true → b = true → l.dim = d) :
    Post (layerCopy l) (GKeep k l) (GFault k) := by
  have hd := legal_dim hk L D hi hp
  cases l with
  | conn l =>
    obtain ⟨S, F, he, hw⟩ := L
    have s := connCopy_step S F
    exact ⟨⟨s.sound, s.fits, he, hw⟩, ⟨fun _ => rfl, rfl, rfl,
      rfl⟩, ⟨rfl, rfl⟩, rfl⟩
  | recu l =>
    obtain ⟨L, he⟩ := L
    obtain ⟨a, e, s⟩ := recCopy_step L
    obtain ⟨h1, h2, h3⟩ := recCopy_outs e
    show Post ((recCopy l).map GLay.recu) _ _
    rw [e]
    refine ⟨⟨s.legal, by rw [s.opt]; exact he⟩, ⟨fun b => ?_, rfl, rfl,
      by first | rfl | simp only [GLay.trait, s.opt]⟩, ⟨?_, rfl⟩, ?_⟩
    · show (!a.opt.neurons) = !l.opt.neurons
      rw [s.opt]
    · show (a.nInputs : Int) = l.nInputs
      rw [h3]
    · show (⟨a.nOutputs, a.outW, 1, 1⟩ : Dim) = ⟨l.nOutputs, l.outW, 1, 1⟩
      rw [h1, h2]
  | lstm l =>
    obtain ⟨L, he⟩ := L
    obtain ⟨a, e, s⟩ := lstmCopy_step L
    obtain ⟨h1, h2, h3⟩ := lstmCopy_outs e
    show Post ((lstmCopy l).map GLay.lstm) _ _
    rw [e]
    refine ⟨⟨s.legal, by rw [s.opt]; exact he⟩, ⟨fun b => ?_, rfl, rfl,
      by first | rfl | simp only [GLay.trait, s.opt]⟩, ⟨?_, rfl⟩, ?_⟩
    · show (!a.opt.neurons) = !l.opt.neurons
      rw [s.opt]
    · show (a.nInputs : Int) = l.nInputs
      rw [h3]
    · show (⟨a.nOutputs, a.outW, 1, 1⟩ : Dim) = ⟨l.nOutputs, l.outW, 1, 1⟩
      rw [h1, h2]
  | conv l =>
    obtain ⟨V, F, he, hc, hG⟩ := L
    refine post_map (P := fun a => VStep k.B k.M k.N l a ∧ (VSame l a ∧
      a.core.nOutputs = l.core.nOutputs ∧ a.nOut = l.nOut))
      (post_also (convCopy_step hk.N V F) (fun p e => convCopy_same e)) ?_
      (fun e => VFault.gen he)
    rintro a ⟨s, d, e1, e2⟩
    refine ⟨⟨s.legal, s.fits, by rw [s.opt]; exact he, by rw [d.c]; exact hc,
      by rw [s.size, s.stride, s.pad, d.w, d.h]; exact hG⟩, ⟨fun b => rfl, rfl, rfl,
      by first | rfl | simp only [GLay.trait, s.opt]⟩,
      ⟨d.ins, ?_⟩, ?_⟩
    · show some (a.width, a.height, a.channels) = some (l.width, l.height, l.channels)
      rw [d.w, d.h, d.c]
    · show (⟨a.nOut, a.outW, a.outH, a.core.nOutputs⟩ : Dim) =
        ⟨l.nOut, l.outW, l.outH, l.core.nOutputs⟩
      rw [e1, e2, d.ow, d.oh]
  | maxp l =>
    obtain ⟨V, Rm, hm⟩ := L
    refine post_map (poolCopy_step hd.pos hd.le).2 ?_ (fun e h => h)
    intro a e
    obtain ⟨h1, h2⟩ := C54_pool_copy.1 V e
    have Rm' : a.Room k := by rw [h2]; exact ⟨Rm.cha, Rm.ins, Rm.outs, Rm.padW, Rm.padH⟩
    refine ⟨⟨h1, Rm', hm⟩, ⟨fun b => rfl, rfl, rfl,
      rfl⟩, ⟨?_, ?_⟩, ?_⟩
    · rw [h2]; rfl
    · rw [h2]; rfl
    · rw [h2]; rfl
  | avgp l =>
    obtain ⟨V, e1, e2, hc, hin⟩ := L
    refine post_map (poolCopy_step hd.pos hd.le).1 ?_ (fun e h => h)
    intro a e
    obtain ⟨h1, h2⟩ := C54_pool_copy.2.1 V e
    refine ⟨⟨h1, by rw [h2]; exact e1, by rw [h2]; exact e2, by rw [h2]; exact hc,
      by rw [h2]; exact hin⟩, ⟨fun b => rfl, rfl, rfl,
      rfl⟩, ⟨?_, ?_⟩, ?_⟩
    · rw [h2]; rfl
    · rw [h2]; rfl
    · rw [h2]; rfl
  | ups l =>
    obtain ⟨V, Rm, o1, o2⟩ := L
    refine post_map (poolCopy_step hd.pos hd.le).1 ?_ (fun e h => h)
    intro a e
    obtain ⟨h1, h2⟩ := C54_pool_copy.2.2.1 V e
    have Rm' : a.Room k := by rw [h2]; exact ⟨Rm.cha, Rm.ins, Rm.outs, Rm.padW, Rm.padH⟩
    refine ⟨⟨h1, Rm', by rw [h2]; exact o1, by rw [h2]; exact o2⟩, ⟨fun b => rfl, rfl, rfl,
      rfl⟩,
      ⟨?_, ?_⟩, ?_⟩
    · rw [h2]; rfl
    · rw [h2]; rfl
    · rw [h2]; rfl
  | drop l =>
    obtain ⟨V, hN⟩ := L
    refine post_map (maskSet_step (k := k) l V.n hN) ?_ (fun e h => h)
    rintro a ⟨h1, h2, h3, h4⟩
    refine ⟨⟨h1, h2⟩, ⟨fun b => rfl, rfl, rfl,
      rfl⟩, ⟨h3, rfl⟩, ?_⟩
    show a.dim = l.dim
    rw [h4, ← V.nOut]; rfl
  | noise l =>
    obtain ⟨V, hN⟩ := L
    refine post_map (maskSet_step (k := k) l V.n hN) ?_ (fun e h => h)
    rintro a ⟨h1, h2, h3, h4⟩
    refine ⟨⟨h1, h2⟩, ⟨fun b => rfl, rfl, rfl,
      rfl⟩, ⟨h3, rfl⟩, ?_⟩
    show a.dim = l.dim
    rw [h4, ← V.nOut]; rfl
  | soft l =>
    obtain ⟨V, hN⟩ := L
    show Post ((softCopy l).map GLay.soft) _ _
    unfold softCopy
    rcases guardOutputs_N hd.pos hd.le with e | ⟨e, h⟩
    · have e : guardOutputs l.nOut = .ok () := e
      rw [e]
      exact ⟨⟨⟨V.n, V.nOut, by simp, by simp, V.sc⟩, hN⟩, ⟨fun b => rfl, rfl, rfl,
      rfl⟩, ⟨rfl, rfl⟩, rfl⟩
    · have e : guardOutputs l.nOut = .error .exit := e
      rw [e]
      exact h

/-! ## Forward passes -/

theorem wrote {l : PLay K} {os : List (Option K)} {n : Nat} (hl : os.length = n)
    (h : ∀ i < n, ∃ v, os[i]? = some (some v)) :
    ∃ o, written ({ l with output := os } : PLay K).output = .ok o ∧ o.length = n := by
  obtain ⟨o, e, h1, _⟩ := written_ok (o := os) (fun i hi => h i (by rw [← hl]; exact hi))
  exact ⟨o, e, by rw [h1, hl]⟩

theorem layerForward_step {k : Lim} {g : Rng K R} {m : Libm K} (hm : ∀ x, 0 < m.exp x)
    (lo : K) (train : Bool) {l : GLay K} (L : l.Legal k) {x : List K}
    (hx : x.length = l.nIn.toNat) (r : R) :
    Post (layerForward g m lo train l x r) (fun z => GKeep k l z.1 ∧
      z.1.Primed ∧ ∃ o, z.1.outs = .ok o ∧ o.length = z.1.dim.n.toNat)
      (fun e => e = .exit ∧ k.maxpool = true) := by
  cases l with
  | conn l =>
    obtain ⟨S, F, he, hw⟩ := L
    obtain ⟨a, e, s, _⟩ := connForward_step m S F (x := x)
      (by rw [hx]; show l.nInputs ≤ ((l.nInputs : Nat) : Int).toNat; omega)
    obtain ⟨d, ho⟩ := connForward_same e
    show Post (keepR GLay.conn (connForward m l x) r) _ _
    rw [e]
    refine ⟨⟨⟨s.sound, s.fits, by rw [s.opt]; exact he, ?_⟩, ⟨fun b => ?_, rfl, rfl,
      by first | rfl | simp only [GLay.trait, s.opt]⟩,
      ⟨?_, rfl⟩, ?_⟩, trivial, a.outs, rfl, ?_⟩
    · rw [s.opt, d.w, d.h, d.c, ho]; exact hw
    · show (!a.opt.neurons) = !l.opt.neurons
      rw [s.opt]
    · show (a.nInputs : Int) = l.nInputs
      rw [d.ins]
    · show (⟨a.nOutputs, a.outW, a.outH, a.outC⟩ : Dim) = ⟨l.nOutputs, l.outW, l.outH, l.outC⟩
      rw [ho, d.w, d.h, d.c]
    · show a.outs.length = ((a.nOutputs : Nat) : Int).toNat
      unfold CLay.outs
      rw [List.length_map, s.sound.nlen]; omega
  | recu l =>
    obtain ⟨L, he⟩ := L
    obtain ⟨a, e, s, hi, _⟩ := recForward_step m L (x := x)
      (by rw [hx]; show l.nInputs ≤ ((l.nInputs : Nat) : Int).toNat; omega)
    obtain ⟨h1, h2, _⟩ := recForward_outs e
    show Post (keepR GLay.recu (recForward m l x) r) _ _
    rw [e]
    refine ⟨⟨⟨s.legal, by rw [s.opt]; exact he⟩, ⟨fun b => ?_, rfl, rfl,
      by first | rfl | simp only [GLay.trait, s.opt]⟩, ⟨?_, rfl⟩, ?_⟩,
      trivial, a.out.outs, rfl, ?_⟩
    · show (!a.opt.neurons) = !l.opt.neurons
      rw [s.opt]
    · show (a.nInputs : Int) = l.nInputs
      rw [hi]
    · show (⟨a.nOutputs, a.outW, 1, 1⟩ : Dim) = ⟨l.nOutputs, l.outW, 1, 1⟩
      rw [h1, h2]
    · show a.out.outs.length = ((a.nOutputs : Nat) : Int).toNat
      rw [s.legal.out.outs_len]; omega
  | lstm l =>
    obtain ⟨L, he⟩ := L
    obtain ⟨a, e, s, hi⟩ := lstmForward_step m L (x := x)
      (by rw [hx]; show l.nInputs ≤ ((l.nInputs : Nat) : Int).toNat; omega)
    obtain ⟨h1, h2⟩ := lstmForward_outs e
    show Post (keepR GLay.lstm (lstmForward m l x) r) _ _
    rw [e]
    refine ⟨⟨⟨s.legal, by rw [s.opt]; exact he⟩, ⟨fun b => ?_, rfl, rfl,
      by first | rfl | simp only [GLay.trait, s.opt]⟩, ⟨?_, rfl⟩, ?_⟩,
      trivial, a.output, rfl, ?_⟩
    · show (!a.opt.neurons) = !l.opt.neurons
      rw [s.opt]
    · show (a.nInputs : Int) = l.nInputs
      rw [hi]
    · show (⟨a.nOutputs, a.outW, 1, 1⟩ : Dim) = ⟨l.nOutputs, l.outW, 1, 1⟩
      rw [h1, h2]
    · show a.output.length = ((a.nOutputs : Nat) : Int).toNat
      rw [s.legal.output]; omega
  | conv l =>
    obtain ⟨V, F, he, hc, hG⟩ := L
    obtain ⟨a, e, s, hfl, hi⟩ := convForward_step m V F (x := x) hx
    obtain ⟨d, h1, h2⟩ := convForward_same e
    show Post (keepR GLay.conv (convForward m l x) r) _ _
    rw [e]
    refine ⟨⟨⟨s.legal, s.fits, by rw [s.opt]; exact he, by rw [d.c]; exact hc,
      by rw [s.size, s.stride, s.pad, d.w, d.h]; exact hG⟩, ⟨fun b => rfl, rfl, rfl,
      by first | rfl | simp only [GLay.trait, s.opt]⟩,
      ⟨d.ins, ?_⟩, ?_⟩, Or.inr hfl, a.cells.map Cell.out, rfl, ?_⟩
    · show some (a.width, a.height, a.channels) = some (l.width, l.height, l.channels)
      rw [d.w, d.h, d.c]
    · show (⟨a.nOut, a.outW, a.outH, a.core.nOutputs⟩ : Dim) =
        ⟨l.nOut, l.outW, l.outH, l.core.nOutputs⟩
      rw [h1, h2, d.ow, d.oh]
    · show (a.cells.map Cell.out).length = a.nOut.toNat
      rw [List.length_map, s.legal.ok.cl]
  | maxp l =>
    obtain ⟨V, Rm, hmx⟩ := L
    refine post_keepR (f := GLay.maxp) (r := r) (Q := fun z => GKeep k (GLay.maxp l) z ∧
      z.Primed ∧ ∃ o, z.outs = .ok o ∧ o.length = z.dim.n.toNat) (maxpoolForward_any V lo hx) ?_
      (fun e h => ⟨h, hmx⟩)
    rintro a ⟨e, h1, h2, h3⟩
    have Rm' : a.Room k := by rw [e]; exact ⟨Rm.cha, Rm.ins, Rm.outs, Rm.padW, Rm.padH⟩
    refine ⟨⟨⟨h1, Rm', hmx⟩, ⟨fun b => rfl, rfl, rfl,
      rfl⟩, ⟨?_, ?_⟩, ?_⟩, ?_, ?_⟩
    · rw [e]; rfl
    · rw [e]; rfl
    · rw [e]; rfl
    · have hn : a.nIn = l.nIn := by rw [e]
      show ∀ i < a.indexes.length, ∃ m : Nat, a.indexes[i]? = some (some (m : Int)) ∧
        (m : Int) < a.nIn
      rw [hn]
      exact h3
    · obtain ⟨o, e1, h3, _⟩ := written_ok h2
      exact ⟨o, e1, by rw [h3, h1.ol]; rfl⟩
  | avgp l =>
    obtain ⟨V, e1, e2, hc, hin⟩ := L
    obtain ⟨os, e, hl, hv⟩ := C54_avgpool V (x := x) hx
    show Post (keepR GLay.avgp (avgpoolForward l x) r) _ _
    rw [e]
    refine ⟨⟨⟨{ V with ol := hl }, e1, e2, hc, hin⟩, ⟨fun b => rfl, rfl, rfl,
      rfl⟩, ⟨rfl, rfl⟩, rfl⟩, trivial, ?_⟩
    exact wrote hl (fun i hi => ⟨_, hv i (by rw [V.nOut] at hi; exact hi)⟩)
  | ups l =>
    obtain ⟨V, Rm, o1, o2⟩ := L
    obtain ⟨os, e, hl, hv⟩ := C54_upsample V (x := x) hx
    show Post (keepR GLay.ups (upsampleForward l x) r) _ _
    rw [e]
    refine ⟨⟨⟨{ V with ol := hl }, ⟨Rm.cha, Rm.ins, Rm.outs, Rm.padW, Rm.padH⟩, o1, o2⟩,
      ⟨fun b => rfl, rfl, rfl,
      rfl⟩, ⟨rfl, rfl⟩, rfl⟩, trivial, ?_⟩
    refine wrote hl (fun p hp => ?_)
    have h2 : 1 ≤ l.outH := by rw [V.outH]; exact one_le_mul_of_one_le_of_one_le V.h V.st
    have h3 : 1 ≤ l.outW := by rw [V.outW]; exact one_le_mul_of_one_le_of_one_le V.w V.st
    have hno : l.nOut.toNat = l.channels.toNat * l.outH.toNat * l.outW.toNat := by
      rw [V.nOut, V.outC, toNat_mul3 (by omega) (by omega) (by have := V.c; omega)]
      ring
    have : p ∈ (idx3 l.channels.toNat l.outH.toNat l.outW.toNat).map
        (fun t => (t.1 * l.outH.toNat + t.2.1) * l.outW.toNat + t.2.2) := by
      rw [idx3_flat, List.mem_range, ← hno]; exact hp
    obtain ⟨⟨c, i, j⟩, h4, rfl⟩ := List.mem_map.1 this
    rw [mem_idx3] at h4
    obtain ⟨q1, q2, q3⟩ := h4
    dsimp only at q1 q2 q3
    exact ⟨_, hv c i j (by omega) (by omega) (by omega)⟩
  | drop l =>
    obtain ⟨V, hN⟩ := L
    cases train with
    | false =>
      show Post (liftR GLay.drop (dropoutForward g false l x r)) _ _
      rw [(C54_mask_off V (x := x) hx r).1]
      have hl : (x.map some).length = l.nOut.toNat := by rw [List.length_map, V.nOut]; exact hx
      refine ⟨⟨⟨{ V with ol := hl }, hN⟩, ⟨fun b => rfl, rfl, rfl,
      rfl⟩, ⟨rfl, rfl⟩, rfl⟩, trivial, ?_⟩
      refine wrote hl (fun i hi => ?_)
      have hi : i < l.nOut.toNat := hi
      rw [← hl, List.length_map] at hi
      exact ⟨x[i], by rw [List.getElem?_map, List.getElem?_eq_getElem hi]; rfl⟩
    | true =>
      obtain ⟨us, os, r', e, h1, h2, _, h3, _⟩ := C54_dropout V (x := x) hx r
      show Post (liftR GLay.drop (dropoutForward g true l x r)) _ _
      rw [e]
      have hl : os.length = l.nOut.toNat := by rw [h2, V.nOut]
      refine ⟨⟨⟨{ V with ol := hl, sl := by rw [V.nOut]; exact h1 }, hN⟩,
        ⟨fun b => rfl, rfl, rfl,
      rfl⟩, ⟨rfl, rfl⟩, rfl⟩, trivial, ?_⟩
      exact wrote (l := { l with state := us }) hl
        (fun i hi => ⟨_, h3 i (by rw [← V.nOut]; exact hi)⟩)
  | noise l =>
    obtain ⟨V, hN⟩ := L
    cases train with
    | false =>
      show Post (liftR GLay.noise (noiseForward g false l x r)) _ _
      rw [(C54_mask_off V (x := x) hx r).2]
      have hl : (x.map some).length = l.nOut.toNat := by rw [List.length_map, V.nOut]; exact hx
      refine ⟨⟨⟨{ V with ol := hl }, hN⟩, ⟨fun b => rfl, rfl, rfl,
      rfl⟩, ⟨rfl, rfl⟩, rfl⟩, trivial, ?_⟩
      refine wrote hl (fun i hi => ?_)
      have hi : i < l.nOut.toNat := hi
      rw [← hl, List.length_map] at hi
      exact ⟨x[i], by rw [List.getElem?_map, List.getElem?_eq_getElem hi]; rfl⟩
    | true =>
      obtain ⟨⟨us, os, r', e, h1, h2, h3⟩, _⟩ := C54_noise (g := g) V (x := x) hx r
      show Post (liftR GLay.noise (noiseForward g true l x r)) _ _
      rw [e]
      have hl : os.length = l.nOut.toNat := by rw [h2, V.nOut]
      refine ⟨⟨⟨{ V with ol := hl, sl := by rw [V.nOut]; exact h1 }, hN⟩,
        ⟨fun b => rfl, rfl, rfl,
      rfl⟩, ⟨rfl, rfl⟩, rfl⟩, trivial, ?_⟩
      refine wrote (l := { l with state := us }) hl (fun i hi => ?_)
      obtain ⟨r1, h4⟩ := h3 i (by rw [← V.nOut]; exact hi)
      exact ⟨_, h4⟩
  | soft l =>
    obtain ⟨V, hN⟩ := L
    obtain ⟨o, e, ho⟩ := softForward_step hm V (x := x) hx
    show Post (keepR GLay.soft (softForward m l x) r) _ _
    rw [e]
    exact ⟨⟨⟨{ V with ol := ho }, hN⟩, ⟨fun b => rfl, rfl, rfl,
      rfl⟩, ⟨rfl, rfl⟩, rfl⟩, trivial, o, rfl, ho⟩

end Xcsf
