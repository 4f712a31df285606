import Verif.NRepSpec
import Verif.NGenLearnLemmas

/-!
# Networks inside rules: creating, copying, randomising and mutating them
-/

set_option linter.unusedSectionVars false
set_option linter.unusedVariables false

namespace Xcsf
variable {K R : Type} [Field K] [LinearOrder K] [IsStrictOrderedRing K] [FloorRing K]

/-! ## What cannot fail to return -/

/-- The computation returns or stops the program. -/
def Ends {α : Type} (m : Res α) : Prop := m ≠ .error .hang

theorem ends_ok {α : Type} (a : α) : Ends (.ok a : Res α) := fun h => by cases h

theorem ends_bind {α β : Type} {m : Res α} {f : α → Res β} (h : Ends m) (hf : ∀ a, Ends (f a)) :
    Ends (m >>= f) := by
  cases m with
  | error e => intro h'; cases h'; exact h rfl
  | ok a => exact hf a

theorem ends_match {α β : Type} {m : Res α} {f : α → Res β} (h : Ends m) (hf : ∀ a, Ends (f a)) :
    Ends (match m with
      | .error e => .error e
      | .ok a => f a) := by
  cases m with
  | error e => intro h'; cases h'; exact h rfl
  | ok a => exact hf a

theorem ends_of {α β : Type} {m : Res α} {f : Fault} (h : Ends m) (e : m = .error f) :
    Ends (.error f : Res β) := fun h' => by cases h'; exact h e

theorem ends_if {α : Type} {p : Prop} [Decidable p] {a b : Res α} (ha : Ends a) (hb : Ends b) :
    Ends (if p then a else b) := by split <;> assumption

theorem ends_error {α : Type} {e : Fault} (h : e ≠ .hang) : Ends (.error e : Res α) :=
  fun h' => by cases h'; exact h rfl

theorem ends_map {α β : Type} {f : α → β} {m : Res α} (h : Ends m) : Ends (m.map f) := by
  cases m with
  | error e => intro h'; cases h'; exact h rfl
  | ok a => exact ends_ok _

theorem ends_liftR {α β : Type} {f : α → β} {m : Res (α × R)} (h : Ends m) : Ends (liftR f m) := by
  cases m with
  | error e => intro h'; cases h'; exact h rfl
  | ok a => exact ends_ok _

theorem ends_keepR {α β : Type} {f : α → β} {m : Res α} {r : R} (h : Ends m) :
    Ends (keepR f m r) := by
  cases m with
  | error e => intro h'; cases h'; exact h rfl
  | ok a => exact ends_ok _

theorem guardOutputs_ends (n : Int) : Ends (guardOutputs n) :=
  ends_if (ends_error (by decide)) (ends_ok _)

theorem guardWeights_ends (n : Int) : Ends (guardWeights n) :=
  ends_if (ends_error (by decide)) (ends_ok _)

theorem size3_ends (a b c : Int) : Ends (size3 a b c) :=
  ends_if (ends_error (by decide)) (ends_ok _)

theorem convWeights_ends (a b c : Int) : Ends (convWeights a b c) :=
  ends_if (ends_error (by decide)) (ends_ok _)

theorem convDim_ends (a b c d : Int) : Ends (convDim a b c d) :=
  ends_if (ends_error (by decide)) (ends_ok _)

theorem poolOut_ends (a b c d : Int) : Ends (poolOut a b c d) :=
  ends_if (ends_error (by decide)) (ends_ok _)

theorem convGuard_ends (a b c : Int) : Ends (convGuard a b c) := by
  unfold convGuard
  repeat' first
    | exact ends_ok _
    | exact ends_of (guardOutputs_ends _) (by assumption)
    | exact guardWeights_ends _
    | exact ends_of (guardWeights_ends _) (by assumption)
    | split

theorem samInit1_ends (g : Rng K R) (t : SamType) (r : R) : Ends (samInit1 g t r) := by
  cases t with
  | logNormal => exact ends_ok _
  | uniform => exact ends_ok _
  | rateSelect =>
    refine ends_bind ?_ fun _ => ends_ok _
    unfold mrateAt
    refine ends_if ?_ (ends_error (by decide))
    split
    · exact ends_ok _
    · exact ends_error (by decide)

theorem samInit_ends (g : Rng K R) : ∀ (ts : List SamType) (r : R), Ends (samInit g ts r)
  | [], _ => ends_ok _
  | t :: ts, r => by
    unfold samInit
    exact ends_bind (samInit1_ends g t r) fun a => ends_bind (samInit_ends g ts a.2) fun _ =>
      ends_ok _

theorem connInit_ends (g : Rng K R) (a : CArgs K) (r : R) : Ends (connInit g a r) := by
  unfold connInit
  dsimp only
  repeat' first
    | exact ends_ok _
    | exact ends_error (by decide)
    | exact ends_of (guardOutputs_ends _) (by assumption)
    | exact ends_of (guardWeights_ends _) (by assumption)
    | exact ends_of (samInit_ends g _ _) (by assumption)
    | split

theorem recInit_ends (g : Rng K R) (a : CArgs K) (r : R) : Ends (recInit g a r) :=
  ends_bind (connInit_ends g _ _) fun i => ends_bind (connInit_ends g _ _) fun s =>
    ends_bind (connInit_ends g _ _) fun o => ends_bind (guardOutputs_ends _) fun _ =>
      ends_bind (samInit_ends g _ _) fun _ => ends_ok _

theorem mapR_ends {α β : Type} {op : α → R → Res (β × R)} (h : ∀ a r, Ends (op a r))
    (a : Gates α) (r : R) : Ends (a.mapR op r) :=
  ends_bind (h _ _) fun f => ends_bind (h _ _) fun i => ends_bind (h _ _) fun g =>
    ends_bind (h _ _) fun o => ends_ok _

theorem lstmArrays_ends (l : TLay K) : Ends (lstmArrays l) := by
  unfold lstmArrays
  split
  · exact ends_of (guardOutputs_ends _) (by assumption)
  · exact ends_ok _

theorem lstmInit_ends (g : Rng K R) (a : CArgs K) (f : Int) (r : R) : Ends (lstmInit g a f r) :=
  ends_bind (mapR_ends (connInit_ends g) _ _) fun u =>
    ends_bind (mapR_ends (connInit_ends g) _ _) fun w =>
      ends_bind (lstmArrays_ends _) fun l => ends_bind (samInit_ends g _ _) fun _ => ends_ok _

theorem convInit_ends (g : Rng K R) (a : VArgs K) (r : R) : Ends (convInit g a r) := by
  unfold convInit
  dsimp only
  split
  · next e h => exact fun h' => by cases h'; exact convWeights_ends _ _ _ h
  · split
    · next e h => exact fun h' => by cases h'; exact convDim_ends _ _ _ _ h
    · split
      · next e h => exact fun h' => by cases h'; exact convDim_ends _ _ _ _ h
      · split
        · next e h => exact fun h' => by cases h'; exact size3_ends _ _ _ h
        · split
          · next e h => exact fun h' => by cases h'; exact size3_ends _ _ _ h
          · split
            · next e h => exact fun h' => by cases h'; exact convGuard_ends _ _ _ h
            · split
              · next e h => exact fun h' => by cases h'; exact samInit_ends g _ _ h
              · exact ends_ok _

theorem maxpoolInit_ends (a : PArgs K) : Ends (maxpoolInit a) := by
  unfold maxpoolInit
  split
  · next e h => exact fun h' => by cases h'; exact poolOut_ends _ _ _ _ h
  · split
    · next e h => exact fun h' => by cases h'; exact poolOut_ends _ _ _ _ h
    · split
      · next e h => exact fun h' => by cases h'; exact size3_ends _ _ _ h
      · split
        · next e h => exact fun h' => by cases h'; exact size3_ends _ _ _ h
        · split
          · next e h => exact fun h' => by cases h'; exact guardOutputs_ends _ h
          · exact ends_ok _

theorem maskSet_ends (l : PLay K) (n w h c : Int) : Ends (maskSet l n w h c) := by
  unfold maskSet
  split
  · exact ends_of (guardOutputs_ends _) (by assumption)
  · exact ends_ok _

theorem poolCopy_ends (l : PLay K) : Ends (poolCopy l) := by
  unfold poolCopy
  split
  · exact ends_of (guardOutputs_ends _) (by assumption)
  · exact ends_ok _

theorem maxpoolCopy_ends (l : PLay K) : Ends (maxpoolCopy l) := by
  unfold maxpoolCopy
  split
  · exact ends_of (guardOutputs_ends _) (by assumption)
  · exact ends_ok _

theorem softSet_ends (s n : _) : Ends (softSet (K := K) s n) := by
  unfold softSet
  split
  · exact ends_of (guardOutputs_ends _) (by assumption)
  · exact ends_ok _

theorem softCopy_ends (l : SLay K) : Ends (softCopy l) := by
  unfold softCopy
  split
  · exact ends_of (guardOutputs_ends _) (by assumption)
  · exact ends_ok _

theorem recCopy_ends (l : RLay K) : Ends (recCopy l) := by
  unfold recCopy
  repeat' first
    | exact ends_ok _
    | exact ends_error (by decide)
    | exact ends_of (guardOutputs_ends _) (by assumption)
    | split

theorem convCopy_ends (l : VLay K) : Ends (convCopy l) := by
  unfold convCopy
  split
  · exact ends_of (convGuard_ends _ _ _) (by assumption)
  · exact ends_ok _

theorem layerInit_ends (g : Rng K R) (a : GArgs K) (r : R) : Ends (layerInit g a r) := by
  cases a with
  | conn a => exact ends_liftR (connInit_ends g a r)
  | recu a => exact ends_liftR (recInit_ends g a r)
  | lstm a f => exact ends_liftR (lstmInit_ends g a f r)
  | conv a => exact ends_liftR (convInit_ends g a r)
  | maxp a => exact ends_keepR (maxpoolInit_ends a)
  | avgp a =>
    refine ends_keepR ?_
    unfold avgpoolInit
    repeat' first
      | exact ends_ok _
      | exact ends_of (size3_ends _ _ _) (by assumption)
      | exact ends_of (guardOutputs_ends _) (by assumption)
      | split
  | ups a =>
    refine ends_keepR ?_
    unfold upsampleInit upsampleSet
    repeat' first
      | exact ends_ok _
      | exact ends_error (by decide)
      | exact ends_of (size3_ends _ _ _) (by assumption)
      | exact ends_of (guardOutputs_ends _) (by assumption)
      | split
  | drop a => exact ends_keepR (maskSet_ends _ _ _ _ _)
  | noise a => exact ends_keepR (maskSet_ends _ _ _ _ _)
  | soft a => exact ends_keepR (softSet_ends _ _)

theorem createGo_ends (g : Rng K R) : ∀ (as : List (GArgs K)) (d : Dim) (r : R),
    Ends (createGo g d as r)
  | [], _, _ => ends_ok _
  | a :: as, d, r => by
    unfold createGo
    split
    · next e h => exact fun h' => by cases h'; exact layerInit_ends _ _ _ h
    · split
      · next e h => exact fun h' => by cases h'; exact createGo_ends g _ _ _ h
      · exact ends_ok _

theorem genCreate_ends (g : Rng K R) (as : List (GArgs K)) (r : R) : Ends (genCreate g as r) := by
  unfold genCreate
  split
  · exact ends_error (by decide)
  · split
    · next e h => exact fun h' => by cases h'; exact layerInit_ends _ _ _ h
    · split
      · next e h => exact fun h' => by cases h'; exact createGo_ends g _ _ _ h
      · exact ends_if (ends_error (by decide)) (ends_ok _)

theorem layerCopy_ends (l : GLay K) : Ends (layerCopy l) := by
  cases l with
  | conn l => exact ends_ok _
  | recu l => exact ends_map (recCopy_ends _)
  | lstm l => exact ends_map (lstmArrays_ends _)
  | conv l => exact ends_map (convCopy_ends _)
  | maxp l => exact ends_map (maxpoolCopy_ends _)
  | avgp l => exact ends_map (poolCopy_ends _)
  | ups l => exact ends_map (poolCopy_ends _)
  | drop l => exact ends_map (maskSet_ends _ _ _ _ _)
  | noise l => exact ends_map (maskSet_ends _ _ _ _ _)
  | soft l => exact ends_map (softCopy_ends _)

theorem genCopy_ends : ∀ ls : List (GLay K), Ends (genCopy ls)
  | [] => ends_ok _
  | l :: ls => by
    unfold genCopy
    repeat' first
      | exact ends_ok _
      | exact ends_of (layerCopy_ends _) (by assumption)
      | exact ends_of (genCopy_ends ls) (by assumption)
      | split

theorem layerRand_ends (g : Rng K R) (l : GLay K) (r : R) : Ends (layerRand g l r) := by
  cases l with
  | lstm l =>
    refine ends_liftR (m := lstmRand g l r) ?_
    unfold lstmRand
    exact ends_bind (mapR_ends (fun _ _ => ends_ok _) _ _) fun p =>
      ends_bind (mapR_ends (fun _ _ => ends_ok _) _ _) fun _ => ends_ok _
  | _ => exact ends_ok _

theorem genRand_ends (g : Rng K R) : ∀ (ls : List (GLay K)) (r : R), Ends (genRand g ls r)
  | [], _ => ends_ok _
  | l :: ls, r => by
    unfold genRand
    split
    · next e h => exact fun h' => by cases h'; exact layerRand_ends _ _ _ h
    · split
      · next e h => exact fun h' => by cases h'; exact genRand_ends g _ _ h
      · exact ends_ok _

/-! ## Layers whose outputs can be read -/

/-- The outputs of the layer have been written. -/
def GLay.Shown (l : GLay K) : Prop := ∃ o, l.outs = .ok o ∧ o.length = l.dim.n.toNat

theorem written_zeros (n : Nat) : ∃ o, written (List.replicate n (some (0 : K))) = .ok o ∧
    o.length = n := by
  obtain ⟨o, e, h, _⟩ := written_ok (o := List.replicate n (some (0 : K)))
    (fun i hi => ⟨0, by simp at hi; simp [hi]⟩)
  exact ⟨o, e, by rw [h, List.length_replicate]⟩

theorem layerInit_shown {k : Lim} {g : Rng K R} {a : GArgs K} {r : R} {z : GLay K × R}
    (h : layerInit g a r = .ok z) (L : z.1.Legal k) (hm : k.maxpool = false) : z.1.Shown := by
  cases a with
  | conn a =>
    unfold layerInit liftR at h
    dsimp only at h
    split at h
    · cases h
    · cases h; exact ready_of_trained L (.inl (by simp [GLay.trait]))
  | recu a =>
    unfold layerInit liftR at h
    dsimp only at h
    split at h
    · cases h
    · cases h; exact ready_of_trained L (.inl (by simp [GLay.trait]))
  | lstm a f =>
    unfold layerInit liftR at h
    dsimp only at h
    split at h
    · cases h
    · cases h; exact ready_of_trained L (.inl (by simp [GLay.trait]))
  | conv a =>
    unfold layerInit liftR at h
    dsimp only at h
    split at h
    · cases h
    · cases h; exact ready_of_trained L (.inl (by simp [GLay.trait]))
  | maxp a =>
    unfold layerInit keepR at h
    dsimp only at h
    split at h
    · cases h
    · cases h
      have := L.2.2
      rw [hm] at this
      cases this
  | avgp a =>
    unfold layerInit keepR avgpoolInit at h
    dsimp only at h
    split at h
    · cases h
    · next l e =>
      cases h
      split at e
      · cases e
      · split at e
        · cases e
        · cases e
          exact written_zeros _
  | ups a =>
    unfold layerInit keepR upsampleInit upsampleSet at h
    dsimp only at h
    split at h
    · cases h
    · next l e =>
      cases h
      split at e
      · cases e
      · split at e
        · cases e
        · split at e
          · cases e
          · split at e
            · cases e
            · cases e
              exact written_zeros _
  | drop a =>
    unfold layerInit keepR dropoutInit maskSet at h
    dsimp only at h
    split at h
    · cases h
    · next l e =>
      cases h
      split at e
      · cases e
      · cases e
        exact written_zeros _
  | noise a =>
    unfold layerInit keepR noiseInit maskSet at h
    dsimp only at h
    split at h
    · cases h
    · next l e =>
      cases h
      split at e
      · cases e
      · cases e
        exact written_zeros _
  | soft a =>
    unfold layerInit keepR at h
    dsimp only at h
    split at h
    · cases h
    · cases h; exact ready_of_trained L (.inr rfl)

theorem layerCopy_shown {k : Lim} {l l' : GLay K} (h : layerCopy l = .ok l') (L' : l'.Legal k)
    (hm : k.maxpool = false) : l'.Shown := by
  cases l with
  | conn l => cases h; exact ready_of_trained L' (.inl (by simp [GLay.trait]))
  | recu l =>
    unfold layerCopy at h
    dsimp only at h
    cases e : recCopy l with
    | error f => rw [e] at h; cases h
    | ok a => rw [e] at h; cases h; exact ready_of_trained L' (.inl (by simp [GLay.trait]))
  | lstm l =>
    unfold layerCopy at h
    dsimp only at h
    cases e : lstmCopy l with
    | error f => rw [e] at h; cases h
    | ok a => rw [e] at h; cases h; exact ready_of_trained L' (.inl (by simp [GLay.trait]))
  | conv l =>
    unfold layerCopy at h
    dsimp only at h
    cases e : convCopy l with
    | error f => rw [e] at h; cases h
    | ok a => rw [e] at h; cases h; exact ready_of_trained L' (.inl (by simp [GLay.trait]))
  | maxp l =>
    unfold layerCopy at h
    dsimp only at h
    cases e : maxpoolCopy l with
    | error f => rw [e] at h; cases h
    | ok a =>
      rw [e] at h
      cases h
      have := L'.2.2
      rw [hm] at this
      cases this
  | avgp l =>
    unfold layerCopy poolCopy at h
    dsimp only at h
    cases e : guardOutputs l.nOut with
    | error f => rw [e] at h; cases h
    | ok a => rw [e] at h; cases h; exact written_zeros _
  | ups l =>
    unfold layerCopy poolCopy at h
    dsimp only at h
    cases e : guardOutputs l.nOut with
    | error f => rw [e] at h; cases h
    | ok a => rw [e] at h; cases h; exact written_zeros _
  | drop l =>
    unfold layerCopy maskCopy maskSet at h
    dsimp only at h
    cases e : guardOutputs l.nIn with
    | error f => rw [e] at h; cases h
    | ok a => rw [e] at h; cases h; exact written_zeros _
  | noise l =>
    unfold layerCopy maskCopy maskSet at h
    dsimp only at h
    cases e : guardOutputs l.nIn with
    | error f => rw [e] at h; cases h
    | ok a => rw [e] at h; cases h; exact written_zeros _
  | soft l =>
    unfold layerCopy at h
    dsimp only at h
    cases e : softCopy l with
    | error f => rw [e] at h; cases h
    | ok a => rw [e] at h; cases h; exact ready_of_trained L' (.inr rfl)

/-! ## Creation and copies -/

theorem createGo_more {k : Lim} (hk : k.Ok) {g : Rng K R} (O : g.Open) (Bd : g.Bounded)
    (hm : k.maxpool = false) :
    ∀ (as : List (GArgs K)) (b : Bool) (d : Dim) (r : R), d.Ok k b → ArgsFit k b d as →
    ∀ z, createGo g d as r = .ok z → (∀ l ∈ z.1, l.Shown) ∧
      ∀ c : GLay K, c.dim = d → ((c :: z.1).getLast (by simp)).dim = netDim d as
  | [], b, d, r, _, _ => by
    intro z e
    cases e
    exact ⟨by simp, fun c hc => hc⟩
  | a :: as, b, d, r, D, ⟨A, hi, As⟩ => by
    intro z e
    unfold createGo at e
    have h := layerInit_step hk O Bd D A hi r
    cases e1 : layerInit g (a.after d) r with
    | error f => rw [e1] at e; cases e
    | ok p =>
      obtain ⟨l, r1⟩ := p
      rw [e1] at h e
      have h : GMade k b d a l := h
      dsimp only at e
      have hI : l.takes.isSome = true → b = true := by rw [h.image]; exact hi
      have D' := legal_dim hk h.legal D hI (fun hp _ => h.pass hp)
      have hd := h.dim
      rw [← h.dim, ← h.still] at As
      cases e2 : createGo g l.dim as r1 with
      | error f => rw [e2] at e; cases e
      | ok q =>
        obtain ⟨ls, r2⟩ := q
        rw [e2] at e
        cases e
        obtain ⟨h1, h2⟩ := createGo_more hk O Bd hm as _ _ r1 D' As _ e2
        refine ⟨?_, fun c hc => ?_⟩
        · intro x hx
          rcases List.mem_cons.1 hx with rfl | hx
          · exact layerInit_shown (z := (x, r1)) e1 h.legal hm
          · exact h1 x hx
        · rw [List.getLast_cons (by simp)]
          show _ = netDim (a.dim d) as
          rw [← hd]
          exact h2 l rfl

theorem genCreate_more {k : Lim} (hk : k.Ok) {g : Rng K R} (O : g.Open) (Bd : g.Bounded)
    (hm : k.maxpool = false) {as : List (GArgs K)} {b : Bool} {d : Dim} (D : d.Ok k b)
    (A : ArgsFit k b d as) (h1 : ∀ a ∈ as.head?, a.first d) {r : R} {z : List (GLay K) × R}
    (e : genCreate g as r = .ok z) :
    (∀ l ∈ z.1, l.Shown) ∧ ∀ h, z.1.getLast? = some h → h.dim = netDim d as := by
  cases as with
  | nil => cases e
  | cons a as =>
    have ha : a.after d = a := h1 a (by simp)
    have h := createGo_more hk O Bd hm (a :: as) b d r D A
    unfold createGo at h
    unfold genCreate at e
    rw [ha] at h
    dsimp only at e
    cases e1 : layerInit g a r with
    | error f => rw [e1] at e; cases e
    | ok p =>
      obtain ⟨l, r1⟩ := p
      rw [e1] at e h
      dsimp only at e h
      cases e2 : createGo g l.dim as r1 with
      | error f => rw [e2] at e; cases e
      | ok q =>
        obtain ⟨ls, r2⟩ := q
        rw [e2] at e h
        dsimp only at e h
        split at e
        · cases e
        · cases e
          obtain ⟨h2, h3⟩ := h _ rfl
          refine ⟨h2, fun x hx => ?_⟩
          have := h3 (.drop { maskNew (0 : K) 0 with
            nOut := d.n
            outW := d.w
            outH := d.h
            outC := d.c }) rfl
          rw [List.getLast_cons (by simp)] at this
          rw [List.getLast?_eq_some_getLast (by simp)] at hx
          cases hx
          exact this

theorem genCopy_more {k : Lim} (hk : k.Ok) (hm : k.maxpool = false) : ∀ (ls : List (GLay K))
    (b : Bool) (d : Dim), d.Ok k b → NetLegal k b d ls → ∀ z, genCopy ls = .ok z →
    (∀ l ∈ z, l.Shown) ∧ z.map GLay.dim = ls.map GLay.dim
  | [], _, _, _, _ => by
    intro z e
    cases e
    exact ⟨by simp, rfl⟩
  | l :: ls, b, d, D, ⟨L, A, hi, hp, N⟩ => by
    intro z e
    unfold genCopy at e
    have h := layerCopy_step hk L D hi hp
    cases e1 : layerCopy l with
    | error f => rw [e1] at e; cases e
    | ok l1 =>
      rw [e1] at h e
      have h : GKeep k l l1 := h
      dsimp only at e
      cases e2 : genCopy ls with
      | error f => rw [e2] at e; cases e
      | ok ls' =>
        rw [e2] at e
        cases e
        obtain ⟨h1, h2⟩ := genCopy_more hk hm ls _ _ (legal_dim hk L D hi hp) N _ e2
        refine ⟨?_, by rw [List.map_cons, List.map_cons, h.dim, h2]⟩
        intro x hx
        rcases List.mem_cons.1 hx with rfl | hx
        · exact layerCopy_shown e1 h.legal hm
        · exact h1 x hx

theorem genRand_more {k : Lim} {g : Rng K R} (Bd : g.Bounded) : ∀ (ls : List (GLay K)) (b : Bool)
    (d : Dim) (r : R), NetLegal k b d ls → ∀ z, genRand g ls r = .ok z →
    z.1.map GLay.dim = ls.map GLay.dim
  | [], _, _, _, _ => by
    intro z e
    cases e
    rfl
  | l :: ls, b, d, r, ⟨L, A, hi, hp, N⟩ => by
    intro z e
    unfold genRand at e
    have h := layerRand_step Bd L r
    cases e1 : layerRand g l r with
    | error f => rw [e1] at e; cases e
    | ok y =>
      obtain ⟨l1, r1⟩ := y
      rw [e1] at e h
      have h : GKeep k l l1 := h
      dsimp only at e
      cases e2 : genRand g ls r1 with
      | error f => rw [e2] at e; cases e
      | ok y =>
        obtain ⟨ls', r2⟩ := y
        rw [e2] at e
        cases e
        rw [List.map_cons, List.map_cons, h.dim]
        exact congrArg _ (genRand_more Bd ls _ _ r1 N _ e2)

theorem layerRand_shown {g : Rng K R} {l : GLay K} {r : R} {z : GLay K × R} {k : Lim}
    (e : layerRand g l r = .ok z) (h : GKeep k l z.1) (P : l.Shown) : z.1.Shown := by
  have ht : z.1.trait = l.trait := h.kind.trait
  cases l with
  | conn l => exact ready_of_trained h.legal (.inl (by rw [ht]; simp [GLay.trait]))
  | recu l => exact ready_of_trained h.legal (.inl (by rw [ht]; simp [GLay.trait]))
  | lstm l => exact ready_of_trained h.legal (.inl (by rw [ht]; simp [GLay.trait]))
  | conv l => exact ready_of_trained h.legal (.inl (by rw [ht]; simp [GLay.trait]))
  | _ => cases e; exact P

theorem genRand_shown {k : Lim} {g : Rng K R} (Bd : g.Bounded) : ∀ (ls : List (GLay K)) (b : Bool)
    (d : Dim) (r : R), NetLegal k b d ls → (∀ l ∈ ls, l.Shown) →
    ∀ z, genRand g ls r = .ok z → ∀ l ∈ z.1, l.Shown
  | [], _, _, _, _, _ => by
    intro z e
    cases e
    simp
  | l :: ls, b, d, r, ⟨L, A, hi, hp, N⟩, P => by
    intro z e
    unfold genRand at e
    have h := layerRand_step Bd L r
    cases e1 : layerRand g l r with
    | error f => rw [e1] at e; cases e
    | ok y =>
      obtain ⟨l1, r1⟩ := y
      rw [e1] at e h
      dsimp only at e
      cases e2 : genRand g ls r1 with
      | error f => rw [e2] at e; cases e
      | ok y =>
        obtain ⟨ls', r2⟩ := y
        rw [e2] at e
        cases e
        intro x hx
        rcases List.mem_cons.1 hx with rfl | hx
        · exact layerRand_shown e1 h (P l (by simp))
        · exact genRand_shown Bd ls _ _ r1 N (fun y hy => P y (by simp [hy])) _ e2 x hx

/-! ## Mutation when no size evolves -/

theorem convMutate_still {g : Rng K R} {fuel : Nat} {l : VLay K} {r : R}
    {p : (VLay K × Bool) × R} (h : convMutate g fuel l r = .ok p) (hn : l.core.opt.neurons = false) :
    p.1.1.nOut = l.nOut := by
  unfold convMutate at h
  split at h
  · cases h
  · next m0 m1 m2 m3 m4 m5 r1 _ =>
    dsimp only at h
    have ho := (connMutEta_same g { l.core with mu := [m0, m1, m2, m3, m4, m5] } m0 r1).1.opt
    unfold convMutFilters at h
    rw [if_neg (by rw [ho]; simp [hn])] at h
    dsimp only at h
    cases h
    show (convMutConn g _ m2 m3 _).1.1.nOut = l.nOut
    unfold convMutConn
    split <;> rfl
  · cases h

theorem layerMutate_still {k : Lim} (hk : k.Ok) {g : Rng K R} (O : g.Open) (Bd : g.Bounded)
    {fuel : Nat} (hf : 1 ≤ fuel) (he : k.evolve = false) {l : GLay K} (L : l.Legal k) {r : R}
    {z : (GLay K × Bool) × R} (e : layerMutate g fuel l r = .ok z) :
    z.1.1.dim.n = l.dim.n ∧ (4 ≤ l.trait.1 → z.1.1 = l) := by
  have h := layerMutate_step hk O Bd hf L r
  rw [e] at h
  have h : GGrow k l z.1.1 := h
  have key : l.still false = true → z.1.1.dim.n = l.dim.n := by
    intro hs
    have w := (h.shape false (fun hh => (still_takes hs hh).elim) hs).1
    have hb : z.1.1.still false = true := by rw [h.kind.still]; exact hs
    rw [fixed_width h.legal hb, w, fixed_width L hs]
  cases l with
  | conn l =>
    refine ⟨key ?_, fun h => by simp [GLay.trait] at h⟩
    have := L.2.2.1
    rw [he] at this
    simpa [GLay.still] using this
  | recu l =>
    refine ⟨key ?_, fun h => by simp [GLay.trait] at h⟩
    have := L.2
    rw [he] at this
    simpa [GLay.still] using this
  | lstm l =>
    refine ⟨key ?_, fun h => by simp [GLay.trait] at h⟩
    have := L.2
    rw [he] at this
    simpa [GLay.still] using this
  | conv l =>
    refine ⟨?_, fun h => by simp [GLay.trait] at h⟩
    have hn := L.2.2.1
    rw [he] at hn
    unfold layerMutate liftM at e
    dsimp only at e
    split at e
    · cases e
    · next a b r' e' =>
      cases e
      exact convMutate_still e' (by simpa using hn)
  | _ => cases e; exact ⟨rfl, fun _ => rfl⟩

theorem genMutate_still {k : Lim} (hk : k.Ok) {g : Rng K R} (O : g.Open) (Bd : g.Bounded)
    {fuel : Nat} (hf : 1 ≤ fuel) (he : k.evolve = false) : ∀ (ls : List (GLay K)) (b : Bool)
    (d : Dim) (r : R), NetLegal k b d ls → ∀ z, genMutate g fuel none ls r = .ok z →
    List.Forall₂ (fun l l' => l'.dim.n = l.dim.n ∧ (4 ≤ l.trait.1 → l' = l)) ls z.1.1
  | [], _, _, _, _ => by
    intro z e
    unfold genMutate at e
    cases e
    exact .nil
  | l :: ls, b, d, r, ⟨L, A, hi, hp, N⟩ => by
    intro z e
    unfold genMutate resizeOn at e
    dsimp only at e
    cases e1 : layerMutate g fuel l r with
    | error f => rw [e1] at e; cases e
    | ok y =>
      obtain ⟨⟨l1, b1⟩, r1⟩ := y
      have h := layerMutate_still hk O Bd hf he L e1
      dsimp only at h
      rw [e1] at e
      dsimp only at e
      rw [if_neg (by rw [h.1]; simp)] at e
      cases e2 : genMutate g fuel none ls r1 with
      | error f => rw [e2] at e; cases e
      | ok y =>
        obtain ⟨⟨ls', b2⟩, r2⟩ := y
        rw [e2] at e
        cases e
        exact .cons h (genMutate_still hk O Bd hf he ls _ _ r1 N _ e2)

end Xcsf
