import Verif.NGenLemmas

/-!
# Networks of layers of all types within limits
-/

set_option linter.unusedSectionVars false

namespace Xcsf
variable {K R : Type} [Field K] [LinearOrder K] [IsStrictOrderedRing K] [FloorRing K]

/-! ## Creation -/

/-- `GLay.trait` of the layer to be created. -/
def GArgs.trait : GArgs K → Nat × LOpt
  | .conn a => (0, a.opt)
  | .recu a => (1, a.opt)
  | .lstm a _ => (2, a.opt)
  | .conv a => (3, a.base.opt)
  | .maxp _ => (4, ⟨false, false, false, false, false, false⟩)
  | .avgp _ => (5, ⟨false, false, false, false, false, false⟩)
  | .ups _ => (6, ⟨false, false, false, false, false, false⟩)
  | .drop _ => (7, ⟨false, false, false, false, false, false⟩)
  | .noise _ => (8, ⟨false, false, false, false, false, false⟩)
  | .soft _ => (9, ⟨false, false, false, false, false, false⟩)


/-- What creation gives. -/
structure GMade (k : Lim) (b : Bool) (d : Dim) (a : GArgs K) (l : GLay K) : Prop where
  legal : l.Legal k
  agrees : Agrees d l
  image : l.takes.isSome = a.image
  pass : l.passes = true → l.dim = d
  still : l.still b = a.still b
  dim : l.dim = a.dim d
  trait : l.trait = a.trait

theorem maxpoolInit_step {k : Lim} (hk : k.Ok) {d : Dim} (F : d.Full k) {a : PArgs K}
    (A : (GArgs.maxp a).Fits k d) :
    Post (maxpoolInit { a with height := d.h, width := d.w, channels := d.c, nInputs := d.n })
      (fun l => l.MaxOk ∧ l.Room k ∧ PDims l d.w d.h d.c ∧
        l.dim = (GArgs.maxp a).dim d) (GFault k) := by
  obtain ⟨hs, ht, hp, hcov, fw, fh, _, mw, mh, hi, ho⟩ := A
  have i1 : 1 ≤ d.h * d.w := one_le_mul_of_one_le_of_one_le F.h F.w
  have i2 := mul_le_last i1 F.cB
  have o1 := outs_pos ht fw
  have o2 := outs_pos ht fh
  have o3 : 1 ≤ ((d.h + a.pad - a.size) / a.stride + 1) *
    ((d.w + a.pad - a.size) / a.stride + 1) := one_le_mul_of_one_le_of_one_le o2 o1
  have o4 := mul_le_last o3 F.cB
  have hN := hk.N
  have o6 : 1 ≤ ((d.h + a.pad - a.size) / a.stride + 1) *
    ((d.w + a.pad - a.size) / a.stride + 1) * d.c := one_le_mul_of_one_le_of_one_le o3 F.c
  cases e : maxpoolInit { a with height := d.h, width := d.w, channels := d.c, nInputs := d.n } with
  | error f =>
    unfold maxpoolInit at e
    dsimp only at e
    rw [poolOut_eq hs ht fw mw] at e
    dsimp only at e
    rw [poolOut_eq hs ht fh mh] at e
    dsimp only at e
    rw [size3_tot o2 o1 F.c (by omega)] at e
    dsimp only at e
    rw [size3_tot F.h F.w F.c (by omega)] at e
    dsimp only at e
    rcases guardOutputs_cases o6 with e2 | ⟨e2, h⟩
    · rw [e2] at e; cases e
    · rw [e2] at e
      cases e
      exact Or.inl ⟨rfl, Or.inr (Or.inl (by omega))⟩
  | ok l =>
    have h1 := C54_maxpool_init e F.h F.w F.c hs ht hp hcov fw fh
    have hd : PDims l d.w d.h d.c ∧ l.pad = a.pad ∧ l.size = a.size ∧ l.stride = a.stride := by
      unfold maxpoolInit at e
      repeat' split at e
      all_goals cases e
      exact ⟨⟨rfl, rfl, rfl⟩, rfl, rfl, rfl⟩
    obtain ⟨D, d1, d2, d3⟩ := hd
    have ow := h1.outW
    have oh := h1.outH
    rw [D.w, d1, d2, d3] at ow
    rw [D.h, d1, d2, d3] at oh
    refine ⟨h1, ⟨?_, ?_, ?_, ?_, ?_⟩, D, ?_⟩
    · rw [D.c]; exact F.cB
    · rw [D.w, D.h]; exact hi
    · rw [ow, oh]; exact ho
    · rw [D.w, d1]; exact mw
    · rw [D.h, d1]; exact mh
    · show (⟨l.nOut, l.outW, l.outH, l.outC⟩ : Dim) = _
      rw [h1.nOut, ow, oh, h1.outC, D.c]
      rfl

theorem avgpoolInit_step {k : Lim} (hk : k.Ok) {d : Dim} (F : d.Full k) {a : PArgs K}
    (A : (GArgs.avgp a).Fits k d) :
    Post (avgpoolInit { a with height := d.h, width := d.w, channels := d.c, nInputs := d.n })
      (fun l => l.AvgOk ∧ PDims l d.w d.h d.c ∧ l.dim = (GArgs.avgp a).dim d) (GFault k) := by
  have hi : d.h * d.w * (k.B : Int) < 2147483648 := A
  have i1 : 1 ≤ d.h * d.w := one_le_mul_of_one_le_of_one_le F.h F.w
  have i2 := mul_le_last i1 F.cB
  have hB := hk.big
  cases e : avgpoolInit { a with height := d.h, width := d.w, channels := d.c, nInputs := d.n } with
  | error f =>
    exfalso
    unfold avgpoolInit at e
    dsimp only at e
    rw [size3_tot F.h F.w F.c (by omega)] at e
    dsimp only at e
    rcases guardOutputs_cases F.c with e2 | ⟨_, h⟩
    · rw [e2] at e; cases e
    · have := F.cB
      omega
  | ok l =>
    obtain ⟨h1, h2, h3, h4⟩ := (C54_avgpool_dims (l' := l)).1 e F.h F.w
    refine ⟨h1, ⟨h3, h2, h4⟩, ?_⟩
    unfold avgpoolInit at e
    repeat' split at e
    all_goals cases e
    rfl

theorem upsampleInit_step {k : Lim} (hk : k.Ok) {d : Dim} (F : d.Full k) {a : PArgs K}
    (A : (GArgs.ups a).Fits k d) :
    Post (upsampleInit { a with height := d.h, width := d.w, channels := d.c, nInputs := d.n })
      (fun l => l.UpOk ∧ l.Room k ∧ PDims l d.w d.h d.c ∧
        l.dim = (GArgs.ups a).dim d) (GFault k) := by
  obtain ⟨hs, hi, w1, h1, w2, h2, ho⟩ := A
  have hf := upsampleSet_fault hk ({ maskNew 0 0 with stride := a.stride } : PLay K) F.w F.h hs F.c
    F.cB hi w2 h2 ho
  unfold upsampleInit
  dsimp only
  cases e : upsampleSet ({ maskNew 0 0 with stride := a.stride } : PLay K) d.w d.h d.c with
  | error f => rw [e] at hf; exact hf
  | ok l =>
    obtain ⟨h1', h2', h3', h4', h5'⟩ := upsampleSet_ok e hs F.h F.w F.c
    have ow : l.outW = d.w * a.stride := by rw [h1'.outW, h3', h5']
    have oh : l.outH = d.h * a.stride := by rw [h1'.outH, h2', h5']
    have hp : l.pad = 0 := by
      unfold upsampleSet at e
      repeat' split at e
      all_goals cases e
      rfl
    refine ⟨h1', ⟨?_, ?_, ?_, ?_, ?_⟩, ⟨h3', h2', h4'⟩, ?_⟩
    · rw [h4']; exact F.cB
    · rw [h2', h3']; exact hi
    · rw [ow, oh]; exact ho
    · rw [h3', hp]; omega
    · rw [h2', hp]; omega
    · show (⟨l.nOut, l.outW, l.outH, l.outC⟩ : Dim) = _
      rw [h1'.nOut, ow, oh, h1'.outC, h4']
      rfl

theorem connInit_outs {g : Rng K R} {a : CArgs K} {r : R} {p : CLay K × R}
    (h : connInit g a r = .ok p) : p.1.outW = a.nInit ∧ p.1.outH = 1 ∧ p.1.outC = 1 := by
  unfold connInit at h
  dsimp only at h
  repeat' split at h
  all_goals cases h
  exact ⟨rfl, rfl, rfl⟩

theorem convInit_outs {g : Rng K R} {a : VArgs K} {r : R} {p : VLay K × R}
    (h : convInit g a r = .ok p) : p.1.width = a.width ∧ p.1.height = a.height ∧
      p.1.channels = a.channels ∧ p.1.core.nOutputs = a.base.nInit := by
  unfold convInit at h
  dsimp only at h
  repeat' split at h
  all_goals cases h
  exact ⟨rfl, rfl, rfl, rfl⟩

theorem layerInit_step {k : Lim} (hk : k.Ok) {g : Rng K R} (O : g.Open) (Bd : g.Bounded) {d : Dim}
    {b : Bool} (D : d.Ok k b) {a : GArgs K} (A : a.Fits k d) (hi : a.image = true → b = true)
    (r : R) : Post (layerInit g (a.after d) r) (fun z => GMade k b d a z.1) (GFault k) := by
  have q1 := D.pos
  have q2 := D.le
  have q5 : ((d.n.toNat : Nat) : Int) = d.n := by omega
  cases a with
  | conn a =>
    obtain ⟨F, he⟩ := A
    refine post_liftR (P := fun l => (l.Sound ∧ l.Fits k.B k.M ∧ l.opt = a.opt ∧ l.Rep) ∧
      (l.nInputs = d.n.toNat ∧ l.nOutputs = a.nInit ∧ l.maxOutputs = a.nMax) ∧
      (l.outW = a.nInit ∧ l.outH = 1 ∧ l.outC = 1))
      (post_also (connInit_step hk.M O Bd F r)
        (fun p e => ⟨connInit_dims e, connInit_outs e⟩)) ?_ (fun e => CFault.gen he)
    rintro l ⟨⟨S, Fl, ho, _⟩, ⟨h1, h2, _⟩, e1, e2, e3⟩
    refine ⟨⟨S, Fl, by rw [ho]; exact he, fun _ => ⟨by rw [e1, h2], e2, e3⟩⟩,
      ⟨?_, fun t h => by cases h⟩, rfl, fun h => absurd h (by simp [GLay.passes]), ?_, ?_,
      by simp only [GLay.trait, GArgs.trait, ho]⟩
    · show (l.nInputs : Int) = d.n
      rw [h1]; exact q5
    · show (!l.opt.neurons) = !a.opt.neurons
      rw [ho]
    · show (⟨l.nOutputs, l.outW, l.outH, l.outC⟩ : Dim) = ⟨a.nInit, a.nInit, 1, 1⟩
      rw [h2, e1, e2, e3]; rfl
  | recu a =>
    obtain ⟨F, he⟩ := A
    refine post_liftR (P := fun l => l.Legal k.B k.M ∧ l.opt = a.opt ∧ l.Counted ∧
      l.nInputs = d.n.toNat ∧ l.nOutputs = a.nInit)
      (recInit_step hk.M hk.square O Bd F r) ?_ (fun e => CFault.gen he)
    rintro l ⟨L, ho, _, h1, h2⟩
    refine ⟨⟨L, by rw [ho]; exact he⟩,
      ⟨?_, fun t h => by cases h⟩, rfl, fun h => absurd h (by simp [GLay.passes]), ?_, ?_,
      by simp only [GLay.trait, GArgs.trait, ho]⟩
    · show (l.nInputs : Int) = d.n
      rw [h1]; exact q5
    · show (!l.opt.neurons) = !a.opt.neurons
      rw [ho]
    · show (⟨l.nOutputs, l.outW, 1, 1⟩ : Dim) = ⟨a.nInit, a.nInit, 1, 1⟩
      rw [L.wide, h2]
  | lstm a f =>
    obtain ⟨F, he, hf⟩ := A
    refine post_liftR (P := fun l => l.Legal k.B k.M ∧ l.opt = a.opt ∧ l.Counted ∧
      l.nInputs = d.n.toNat ∧ l.nOutputs = a.nInit)
      (lstmInit_step hk.M hk.square O Bd F hf r) ?_ (fun e => CFault.gen he)
    rintro l ⟨L, ho, _, h1, h2⟩
    refine ⟨⟨L, by rw [ho]; exact he⟩,
      ⟨?_, fun t h => by cases h⟩, rfl, fun h => absurd h (by simp [GLay.passes]), ?_, ?_,
      by simp only [GLay.trait, GArgs.trait, ho]⟩
    · show (l.nInputs : Int) = d.n
      rw [h1]; exact q5
    · show (!l.opt.neurons) = !a.opt.neurons
      rw [ho]
    · show (⟨l.nOutputs, l.outW, 1, 1⟩ : Dim) = ⟨a.nInit, a.nInit, 1, 1⟩
      rw [L.wide, h2]
  | conv a =>
    obtain ⟨F, he, hG⟩ := A
    have Fd := D.full (hi rfl)
    refine post_liftR (P := fun l => (l.Legal ∧ l.Fits k.B k.M k.N ∧ l.core.opt = a.base.opt ∧
      l.size = a.size ∧ l.stride = a.stride ∧ l.pad = a.pad) ∧ (l.width = d.w ∧ l.height = d.h ∧
      l.channels = d.c ∧ l.core.nOutputs = a.base.nInit))
      (post_also (convInit_step hk.M hk.N O Bd F r) (fun p e => convInit_outs e)) ?_
      (fun e => VFault.gen he)
    rintro l ⟨⟨L, Fl, ho, e1, e2, e3⟩, d1, d2, d3, d4⟩
    refine ⟨⟨L, Fl, by rw [ho]; exact he, by rw [d3]; exact Fd.cB,
      by rw [e1, e2, e3, d1, d2]; exact hG⟩, ⟨?_, fun t h => ?_⟩, rfl,
      fun h => absurd h (by simp [GLay.passes]), rfl, ?_,
      by simp only [GLay.trait, GArgs.trait, ho]⟩
    · show l.nIn = d.n
      rw [L.ok.nIn, d1, d2, d3, Fd.n]
    · cases h; rw [d1, d2, d3]
    · show (⟨l.nOut, l.outW, l.outH, l.core.nOutputs⟩ : Dim) = _
      rw [L.ok.nOut, L.ok.outW, L.ok.outH, d4, d1, d2, e1, e2, e3]
      rfl
  | maxp a =>
    have Fd := D.full (hi rfl)
    refine post_keepR (maxpoolInit_step hk Fd A) ?_ (fun e h => h)
    rintro l ⟨h1, h2, h3, h4⟩
    refine ⟨⟨h1, h2, A.2.2.2.2.2.2.1⟩, ⟨?_, fun t h => ?_⟩, rfl,
      fun h => absurd h (by simp [GLay.passes]), rfl, h4, rfl⟩
    · show l.nIn = d.n
      rw [h1.nIn, h3.w, h3.h, h3.c, Fd.n]; ring
    · cases h; rw [h3.w, h3.h, h3.c]
  | avgp a =>
    have Fd := D.full (hi rfl)
    refine post_keepR (avgpoolInit_step hk Fd A) ?_ (fun e h => h)
    rintro l ⟨h1, h3, h4⟩
    have h5 : l.outW = 1 := congrArg Dim.w h4
    have h6 : l.outH = 1 := congrArg Dim.h h4
    refine ⟨⟨h1, h5, h6, by rw [h3.c]; exact Fd.cB, by rw [h3.w, h3.h]; exact A⟩,
      ⟨?_, fun t h => ?_⟩, rfl, fun h => absurd h (by simp [GLay.passes]), rfl, h4, rfl⟩
    · show l.nIn = d.n
      rw [h1.nIn, h3.w, h3.h, h3.c, Fd.n]; ring
    · cases h; rw [h3.w, h3.h, h3.c]
  | ups a =>
    have Fd := D.full (hi rfl)
    refine post_keepR (upsampleInit_step hk Fd A) ?_ (fun e h => h)
    rintro l ⟨h1, h2, h3, h4⟩
    obtain ⟨_, _, _, _, w2, h2', _⟩ := A
    have h5 : l.outW = d.w * a.stride := congrArg Dim.w h4
    have h6 : l.outH = d.h * a.stride := congrArg Dim.h h4
    refine ⟨⟨h1, h2, by rw [h5]; exact w2, by rw [h6]; exact h2'⟩, ⟨?_, fun t h => ?_⟩, rfl,
      fun h => absurd h (by simp [GLay.passes]), rfl, h4, rfl⟩
    · show l.nIn = d.n
      rw [h1.nIn, h3.w, h3.h, h3.c, Fd.n]; ring
    · cases h; rw [h3.w, h3.h, h3.c]
  | drop a =>
    refine post_keepR (maskSet_step (k := k) _ q1 q2) ?_ (fun e h => h)
    rintro l ⟨h1, h2, h3, h4⟩
    exact ⟨⟨h1, h2⟩, ⟨h3, fun t h => by cases h⟩, rfl, fun _ => h4, rfl, h4, rfl⟩
  | noise a =>
    refine post_keepR (maskSet_step (k := k) _ q1 q2) ?_ (fun e h => h)
    rintro l ⟨h1, h2, h3, h4⟩
    exact ⟨⟨h1, h2⟩, ⟨h3, fun t h => by cases h⟩, rfl, fun _ => h4, rfl, h4, rfl⟩
  | soft a =>
    refine post_keepR (softSet_step (k := k) A q1 q2) ?_ (fun e h => h)
    rintro l ⟨h1, h2, h3, h4, h5, h6⟩
    refine ⟨⟨h1, h2⟩, ⟨h3, fun t h => by cases h⟩, rfl, fun h => absurd h (by simp [GLay.passes]),
      rfl, ?_, rfl⟩
    show (⟨l.nOut, l.outW, l.outH, l.outC⟩ : Dim) = ⟨d.n, d.n, 1, 1⟩
    rw [h1.nOut, h3, h4, h5, h6]

theorem createGo_step {k : Lim} (hk : k.Ok) {g : Rng K R} (O : g.Open) (Bd : g.Bounded) :
    ∀ (as : List (GArgs K)) (b : Bool) (d : Dim) (r : R), d.Ok k b → ArgsFit k b d as →
    Post (createGo g d as r) (fun z => NetLegal k b d z.1 ∧
      z.1.map GLay.trait = as.map GArgs.trait) (GFault k)
  | [], b, d, r, _, _ => ⟨trivial, rfl⟩
  | a :: as, b, d, r, D, ⟨A, hi, As⟩ => by
    unfold createGo
    have h := layerInit_step hk O Bd D A hi r
    cases e : layerInit g (a.after d) r with
    | error f => rw [e] at h; exact h
    | ok p =>
      obtain ⟨l, r1⟩ := p
      rw [e] at h
      have h : GMade k b d a l := h
      dsimp only
      have hI : l.takes.isSome = true → b = true := by rw [h.image]; exact hi
      have D' := legal_dim hk h.legal D hI (fun hp _ => h.pass hp)
      rw [← h.dim, ← h.still] at As
      have h2 := createGo_step hk O Bd as _ _ r1 D' As
      cases e2 : createGo g l.dim as r1 with
      | error f => rw [e2] at h2; exact h2
      | ok q =>
        obtain ⟨ls, r2⟩ := q
        rw [e2] at h2
        exact ⟨⟨h.legal, h.agrees, hI, fun hp _ => h.pass hp, h2.1⟩, by
          rw [List.map_cons, List.map_cons, h.trait, h2.2]⟩

theorem lastDim {k : Lim} (hk : k.Ok) : ∀ (ls : List (GLay K)) (b : Bool) (d : Dim), d.Ok k b →
    NetLegal k b d ls → ∀ l ∈ ls, 1 ≤ l.dim.n ∧ l.dim.n ≤ k.N
  | [], _, _, _, _ => by simp
  | l :: ls, b, d, D, ⟨L, _, hi, hp, N⟩ => by
    have D' := legal_dim hk L D hi hp
    intro x hx
    rcases List.mem_cons.1 hx with rfl | hx
    · exact ⟨D'.pos, D'.le⟩
    · exact lastDim hk ls _ _ D' N x hx

theorem genCreate_step {k : Lim} (hk : k.Ok) {g : Rng K R} (O : g.Open) (Bd : g.Bounded)
    {as : List (GArgs K)} (hne : as ≠ []) {b : Bool} {d : Dim} (D : d.Ok k b)
    (A : ArgsFit k b d as) (h1 : ∀ a ∈ as.head?, a.first d) (r : R) :
    Post (genCreate g as r) (fun z => NetLegal k b d z.1 ∧
      z.1.map GLay.trait = as.map GArgs.trait) (GFault k) := by
  cases as with
  | nil => exact absurd rfl hne
  | cons a as =>
    have h := createGo_step hk O Bd (a :: as) b d r D A
    have ha : a.after d = a := h1 a (by simp)
    unfold createGo at h
    rw [ha] at h
    unfold genCreate
    dsimp only
    cases e : layerInit g a r with
    | error f => rw [e] at h; exact h
    | ok p =>
      obtain ⟨l, r1⟩ := p
      rw [e] at h
      dsimp only at h ⊢
      cases e2 : createGo g l.dim as r1 with
      | error f => rw [e2] at h; exact h
      | ok q =>
        obtain ⟨ls, r2⟩ := q
        rw [e2] at h
        obtain ⟨h, ht⟩ := h
        dsimp only at ht
        have h : NetLegal k b d (l :: ls) := h
        dsimp only
        rw [if_neg]
        · exact ⟨h, ht⟩
        · have h2 := (lastDim hk _ _ _ D h _ (List.getLast_mem (by simp))).1
          have h3 := h.2.1.ins
          have h4 := D.pos
          omega

/-! ## Steps -/

theorem netLegal_keep {k : Lim} {b : Bool} {l l' : GLay K} (h : GKeep k l l') {ls : List (GLay K)}
    (N : NetLegal k (l.still b) l.dim ls) : NetLegal k (l'.still b) l'.dim ls := by
  rw [h.kind.still, h.dim]; exact N

theorem dim_eq_of_n {k : Lim} {p q : Dim} (P : p.Full k) (Q : q.Full k) (hw : q.w = p.w)
    (hh : q.h = p.h) (hn : q.n = p.n) : q = p := by
  have h1 : 1 ≤ p.w * p.h := one_le_mul_of_one_le_of_one_le P.w P.h
  have h2 := P.n
  have h3 := Q.n
  rw [hw, hh, hn, h2] at h3
  have h4 : p.c = q.c := by
    have := mul_left_cancel₀ (show p.w * p.h ≠ 0 by omega) h3
    exact this
  cases p; cases q
  simp only at hw hh hn h4 ⊢
  subst hw; subst hh; subst hn; subst h4
  rfl

/-- A layer of neurons whose number does not evolve keeps its number of outputs; each layer keeps its
type and options. -/
def Fixed (l l' : GLay K) : Prop :=
  l'.still false = l.still false ∧ (l.still false = true → l'.dim.n = l.dim.n) ∧ l'.trait = l.trait

theorem fixed_width {k : Lim} {l : GLay K} (L : l.Legal k) (h : l.still false = true) :
    l.dim.n = l.dim.w := by
  cases l with
  | conn l =>
    have hn : l.opt.neurons = false := by simpa [GLay.still] using h
    show (l.nOutputs : Int) = l.outW
    rw [(L.2.2.2 hn).1]
  | recu l =>
    show (l.nOutputs : Int) = l.outW
    rw [L.1.wide]
  | lstm l =>
    show (l.nOutputs : Int) = l.outW
    rw [L.1.wide]
  | _ => simp [GLay.still] at h

theorem still_weak {l : GLay K} (h : l.still false = true) (b : Bool) : l.still b = true := by
  cases l <;> first | exact h | simp [GLay.still] at h

theorem still_takes {l : GLay K} (h : l.still false = true) : l.takes.isSome = true → False := by
  cases l <;> first | (simp [GLay.still] at h; done) | simp [GLay.takes]

theorem Fixed.refl (l : GLay K) : Fixed l l := ⟨rfl, fun _ => rfl, rfl⟩

theorem Fixed.trans {a b c : GLay K} (h1 : Fixed a b) (h2 : Fixed b c) : Fixed a c :=
  ⟨by rw [h2.1, h1.1], fun h => by rw [h2.2.1 (by rw [h1.1]; exact h), h1.2.1 h],
    h2.2.2.trans h1.2.2⟩

theorem GKeep.fixed {k : Lim} {l l' : GLay K} (h : GKeep k l l') : Fixed l l' :=
  ⟨h.kind.still _, fun _ => by rw [h.dim], h.kind.trait⟩

theorem fixed_all_refl : ∀ ls : List (GLay K), List.Forall₂ Fixed ls ls
  | [] => .nil
  | l :: ls => .cons (Fixed.refl l) (fixed_all_refl ls)

theorem fixed_all_trans : ∀ {a b c : List (GLay K)}, List.Forall₂ Fixed a b →
    List.Forall₂ Fixed b c → List.Forall₂ Fixed a c
  | _, _, _, .nil, .nil => .nil
  | _, _, _, .cons h1 t1, .cons h2 t2 => .cons (h1.trans h2) (fixed_all_trans t1 t2)

theorem genMutate_step {k : Lim} (hk : k.Ok) {g : Rng K R} (O : g.Open) (Bd : g.Bounded)
    {fuel : Nat} (hf : 1 ≤ fuel) : ∀ (ls : List (GLay K)) (b : Bool) (p q : Dim) (r : R),
    p.Ok k b → q.Ok k b → (b = true → q.w = p.w ∧ q.h = p.h) → NetLegal k b p ls →
    Post (genMutate g fuel (if q.n ≠ p.n then some q else none) ls r)
      (fun z => NetLegal k b q z.1.1 ∧ List.Forall₂ Fixed ls z.1.1) (GFault k)
  | [], _, _, _, _, _, _, _, _ => by unfold genMutate; exact ⟨trivial, .nil⟩
  | l :: ls, b, p, q, r, P, Q, hs, ⟨L, A, hi, hp, N⟩ => by
    have h1 : Post (resizeOn g fuel l (if q.n ≠ p.n then some q else none) r)
        (fun z => GFit k b q l z.1) (GFault k) := by
      by_cases hn : q.n ≠ p.n
      · rw [if_pos hn]
        exact layerResize_step hk O Bd hf L A hi hp Q hs r
      · rw [if_neg hn]
        have hn : q.n = p.n := by omega
        have hqp : b = true → q = p := fun hb =>
          dim_eq_of_n (P.full hb) (Q.full hb) (hs hb).1 (hs hb).2 hn
        refine ⟨L, Kind.refl l, ⟨by rw [A.ins, hn], fun t ht => ?_⟩, fun _ => ⟨rfl, rfl⟩,
          fun h hb => ?_⟩
        · rw [hqp (hi (by rw [ht]; rfl))]
          exact A.image t ht
        · rw [hqp hb]; exact hp h hb
    unfold genMutate
    cases e : resizeOn g fuel l (if q.n ≠ p.n then some q else none) r with
    | error f => rw [e] at h1; exact h1
    | ok z =>
      obtain ⟨l1, r1⟩ := z
      rw [e] at h1
      have h1 : GFit k b q l l1 := h1
      dsimp only
      have h2 := layerMutate_step hk O Bd hf h1.legal r1
      cases e2 : layerMutate g fuel l1 r1 with
      | error f => rw [e2] at h2; exact h2
      | ok z =>
        obtain ⟨⟨l2, b2⟩, r2⟩ := z
        rw [e2] at h2
        have h2 : GGrow k l1 l2 := h2
        dsimp only
        have hi1 : l1.takes.isSome = true → b = true := by rw [h1.kind.image]; exact hi
        have hi2 : l2.takes.isSome = true → b = true := by rw [h2.kind.image]; exact hi1
        have hp2 : l2.passes = true → b = true → l2.dim = q := by
          intro h hb
          rw [h2.kind.passes] at h
          rw [h2.pass h]
          rw [h1.kind.passes] at h
          exact h1.pass h hb
        have hst : l2.still b = l.still b := by rw [h2.kind.still, h1.kind.still]
        have P' := legal_dim hk L P hi hp
        have Q' := legal_dim hk h2.legal Q hi2 hp2
        rw [hst] at Q'
        have hs' : l.still b = true → l2.dim.w = l.dim.w ∧ l2.dim.h = l.dim.h := by
          intro hb
          have s1 := h1.shape hb
          have s2 := h2.shape b hi1 (by rw [h1.kind.still]; exact hb)
          exact ⟨by rw [s2.1, s1.1], by rw [s2.2, s1.2]⟩
        have h3 := genMutate_step hk O Bd hf ls (l.still b) l.dim l2.dim r2 P' Q' hs' N
        cases e3 : genMutate g fuel (if l2.dim.n ≠ l.dim.n then some l2.dim else none) ls r2 with
        | error f => rw [e3] at h3; exact h3
        | ok z =>
          obtain ⟨⟨ls', b3⟩, r3⟩ := z
          rw [e3] at h3
          refine ⟨⟨h2.legal, h2.reads.agrees h1.agrees, hi2, hp2, ?_⟩, .cons ?_ h3.2⟩
          · rw [hst]
            exact h3.1
          · refine ⟨by rw [h2.kind.still, h1.kind.still], fun h => ?_, h2.kind.trait.trans h1.kind.trait⟩
            have ha : l1.still false = true := by rw [h1.kind.still]; exact h
            have hb : l2.still false = true := by rw [h2.kind.still]; exact ha
            have w1 := (h1.shape (still_weak h b)).1
            have w2 := (h2.shape false (fun hh => (still_takes ha hh).elim) ha).1
            rw [fixed_width h2.legal hb, w2, w1, fixed_width L h]

theorem genResize_some {k : Lim} {g : Rng K R} {fuel : Nat} : ∀ (ls : List (GLay K)) (b : Bool)
    (d : Dim) (r : R), NetLegal k b d ls → genResize g fuel (some d) ls r = .ok (ls, r)
  | [], _, _, _, _ => rfl
  | l :: ls, b, d, r, ⟨_, A, _, _, N⟩ => by
    unfold genResize
    dsimp only
    rw [if_neg (by rw [A.ins]; simp)]
    unfold resizeOn
    dsimp only
    rw [genResize_some ls _ _ r N]

theorem genResize_step {k : Lim} {g : Rng K R} {fuel : Nat} {ls : List (GLay K)} {b : Bool}
    {d : Dim} (r : R) (N : NetLegal k b d ls) : genResize g fuel none ls r = .ok (ls, r) := by
  cases ls with
  | nil => rfl
  | cons l ls =>
    unfold genResize
    dsimp only
    unfold resizeOn
    dsimp only
    rw [genResize_some ls _ _ r N.2.2.2.2]

theorem genRand_step {k : Lim} {g : Rng K R} (Bd : g.Bounded) : ∀ (ls : List (GLay K)) (b : Bool)
    (d : Dim) (r : R), NetLegal k b d ls →
    Post (genRand g ls r) (fun z => NetLegal k b d z.1 ∧ List.Forall₂ Fixed ls z.1) (GFault k)
  | [], _, _, _, _ => ⟨trivial, .nil⟩
  | l :: ls, b, d, r, ⟨L, A, hi, hp, N⟩ => by
    unfold genRand
    have h := layerRand_step Bd L r
    cases e : layerRand g l r with
    | error f => rw [e] at h; exact h
    | ok z =>
      obtain ⟨l1, r1⟩ := z
      rw [e] at h
      have h : GKeep k l l1 := h
      dsimp only
      have h2 := genRand_step Bd ls _ _ r1 N
      cases e2 : genRand g ls r1 with
      | error f => rw [e2] at h2; exact h2
      | ok z =>
        obtain ⟨ls', r2⟩ := z
        rw [e2] at h2
        refine ⟨⟨h.legal, h.reads.agrees A, by rw [h.kind.image]; exact hi,
          by rw [h.kind.passes, h.dim]; exact hp, netLegal_keep h h2.1⟩, .cons h.fixed h2.2⟩

theorem genCopy_step {k : Lim} (hk : k.Ok) : ∀ (ls : List (GLay K)) (b : Bool)
    (d : Dim), d.Ok k b → NetLegal k b d ls →
    Post (genCopy ls) (fun z => NetLegal k b d z ∧ List.Forall₂ Fixed ls z) (GFault k)
  | [], _, _, _, _ => ⟨trivial, .nil⟩
  | l :: ls, b, d, D, ⟨L, A, hi, hp, N⟩ => by
    unfold genCopy
    have h := layerCopy_step hk L D hi hp
    cases e : layerCopy l with
    | error f => rw [e] at h; exact h
    | ok l1 =>
      rw [e] at h
      have h : GKeep k l l1 := h
      dsimp only
      have h2 := genCopy_step hk ls _ _ (legal_dim hk L D hi hp) N
      cases e2 : genCopy ls with
      | error f => rw [e2] at h2; exact h2
      | ok ls' =>
        rw [e2] at h2
        refine ⟨⟨h.legal, h.reads.agrees A, by rw [h.kind.image]; exact hi,
          by rw [h.kind.passes, h.dim]; exact hp, netLegal_keep h h2.1⟩, .cons h.fixed h2.2⟩

/-- Forward propagation through a legal network; all layers keep their sizes and afterwards every
layer has as many outputs as it reports, all of them written. -/
theorem genForward_step {k : Lim} {g : Rng K R} {m : Libm K} (hm : ∀ x, 0 < m.exp x)
    (lo : K) (train : Bool) : ∀ (ls : List (GLay K)) (b : Bool) (d : Dim) (x : List K) (r : R),
    NetLegal k b d ls → x.length = d.n.toNat →
    Post (genForward g m lo train ls x r) (fun z => NetLegal k b d z.1 ∧
      z.1.map GLay.dim = ls.map GLay.dim ∧
      (∀ l ∈ z.1, ∃ o, l.outs = .ok o ∧ o.length = l.dim.n.toNat) ∧ List.Forall₂ Fixed ls z.1 ∧
      ∀ l ∈ z.1, l.Primed)
      (fun e => e = .exit ∧ k.maxpool = true)
  | [], _, _, _, _, _, _ => ⟨trivial, rfl, by simp, .nil, by simp⟩
  | l :: ls, b, d, x, r, ⟨L, A, hi, hp, N⟩, hx => by
    unfold genForward
    have h := layerForward_step (g := g) hm lo train L (by rw [A.ins]; exact hx) r
    cases e : layerForward g m lo train l x r with
    | error f => rw [e] at h; exact h
    | ok z =>
      obtain ⟨l1, r1⟩ := z
      rw [e] at h
      obtain ⟨h, hpr, o, ho, hl⟩ := h
      dsimp only at h ho hl ⊢
      rw [ho]
      dsimp only
      have h2 := genForward_step hm lo train (g := g) ls _ _ o r1 N (by rw [hl, h.dim])
      cases e2 : genForward g m lo train ls o r1 with
      | error f => rw [e2] at h2; exact h2
      | ok z =>
        obtain ⟨ls', r2⟩ := z
        rw [e2] at h2
        obtain ⟨h2, h3, h4, h5, h6⟩ := h2
        refine ⟨⟨h.legal, h.reads.agrees A, by rw [h.kind.image]; exact hi,
          by rw [h.kind.passes, h.dim]; exact hp, netLegal_keep h h2⟩, ?_, ?_, .cons h.fixed h5, ?_⟩
        · dsimp only at h3 ⊢
          rw [List.map_cons, List.map_cons, h3, h.dim]
        · intro y hy
          rcases List.mem_cons.1 hy with rfl | hy
          · exact ⟨o, ho, hl⟩
          · exact h4 y hy
        · intro y hy
          rcases List.mem_cons.1 hy with rfl | hy
          · exact hpr
          · exact h6 y hy

theorem netLegal_chained {k : Lim} : ∀ (ls : List (GLay K)) (b : Bool) (d : Dim),
    NetLegal k b d ls → Chained ls
  | [], _, _, _ => fun i a b h => by simp at h
  | [l], _, _, _ => fun i a b _ h => by simp at h
  | l :: l2 :: ls, b, d, ⟨_, _, _, _, N⟩ => by
    intro i a c ha hc
    cases i with
    | zero =>
      simp at ha hc
      subst ha; subst hc
      exact N.2.1
    | succ i =>
      exact netLegal_chained (l2 :: ls) _ _ N i a c (by simpa using ha) (by simpa using hc)

theorem nstep_step {k : Lim} (hk : k.Ok) {g : Rng K R} (O : g.Open) (Bd : g.Bounded) {m : Libm K}
    (hm : ∀ x, 0 < m.exp x) (lo : K) {fuel : Nat} (hf : 1 ≤ fuel) {b : Bool} {d : Dim}
    (D : d.Ok k b) {ls : List (GLay K)} (N : NetLegal k b d ls) (r : R) (o : NOp K) :
    Post (nstep g m lo fuel d.n.toNat ls r o)
      (fun z => NetLegal k b d z.1 ∧ List.Forall₂ Fixed ls z.1) (GFault k) := by
  cases o with
  | mutate =>
    have h := genMutate_step hk O Bd hf ls b d d r D D (fun _ => ⟨rfl, rfl⟩) N
    rw [if_neg (by simp)] at h
    unfold nstep
    dsimp only
    cases e : genMutate g fuel none ls r with
    | error f => rw [e] at h; exact h
    | ok z => rw [e] at h; exact h
  | resize =>
    unfold nstep
    rw [genResize_step r N]
    exact ⟨N, fixed_all_refl ls⟩
  | forward t x =>
    unfold nstep
    have h := genForward_step (g := g) hm lo t ls b d (ofArr d.n.toNat x) r N (by simp [ofArr])
    dsimp only
    cases e : genForward g m lo t ls (ofArr d.n.toNat x) r with
    | error f => rw [e] at h; exact Or.inl ⟨h.1, Or.inr (Or.inr h.2)⟩
    | ok z => rw [e] at h; exact ⟨h.1, h.2.2.2.1⟩
  | rand => exact genRand_step Bd ls b d r N
  | copy =>
    unfold nstep
    have h := genCopy_step hk ls b d D N
    dsimp only
    cases e : genCopy ls with
    | error f => rw [e] at h; exact h
    | ok z => rw [e] at h; exact h

theorem nrun_step {k : Lim} (hk : k.Ok) {g : Rng K R} (O : g.Open) (Bd : g.Bounded) {m : Libm K}
    (hm : ∀ x, 0 < m.exp x) (lo : K) {fuel : Nat} (hf : 1 ≤ fuel) {b : Bool} {d : Dim}
    (D : d.Ok k b) : ∀ (os : List (NOp K)) (ls : List (GLay K)) (r : R), NetLegal k b d ls →
    Post (nrun g m lo fuel d.n.toNat os ls r)
      (fun z => NetLegal k b d z.1 ∧ List.Forall₂ Fixed ls z.1) (GFault k)
  | [], ls, _, N => ⟨N, fixed_all_refl ls⟩
  | o :: os, ls, r, N => by
    unfold nrun
    have h := nstep_step hk O Bd hm lo hf D N r o
    cases e : nstep g m lo fuel d.n.toNat ls r o with
    | error f => rw [e] at h; exact h
    | ok z =>
      obtain ⟨ls', r'⟩ := z
      rw [e] at h
      have h3 := nrun_step hk O Bd hm lo hf D os ls' r' h.1
      dsimp only
      exact post_mono h3 (fun z hz => ⟨hz.1, fixed_all_trans h.2 hz.2⟩)

end Xcsf
