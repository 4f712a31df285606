import Verif.NSwitchNet
import Verif.PropsUtil

/-!
# The learning rates of the layers of a network
-/

set_option linter.unusedSectionVars false

namespace Xcsf
variable {K R : Type} [Field K] [LinearOrder K] [IsStrictOrderedRing K] [FloorRing K]

/-- What describes a layer, as a type. -/
abbrev Desc (K : Type) := (Nat × LOpt) × List K × List Int × List (Gist K)

/-- Limits and learning rate of a part. -/
structure GistRated (lo hi : K) (q : Gist K) : Prop where
  min : q.etaMin = lo
  max : q.etaMax = hi
  ge : lo ≤ q.eta
  le : q.eta ≤ hi

/-- The invariant: the layer described has the type and switches of its parameters, and its rates are
those the parameters allow. -/
structure Described (a : GArgs K) (d : Desc K) : Prop where
  trait : d.1 = a.trait
  own : ∀ c ∈ a.base, ∀ e ∈ d.2.1, c.etaMin ≤ e ∧ e ≤ c.eta
  parts : ∀ c ∈ a.base, ∀ q ∈ d.2.2.2, GistRated c.etaMin c.eta q
  fixed : ∀ c ∈ a.base, c.opt.eta = false → ∀ e ∈ d.2.1 ++ d.2.2.2.map Gist.eta, e = c.eta

theorem rates_desc (l : GLay K) : l.rates = l.desc.2.1 ++ l.desc.2.2.2.map Gist.eta := by
  show _ = l.ownRates ++ (l.parts.map CLay.gist).map Gist.eta
  rw [List.map_map]
  rfl

theorem Described.rates {a : GArgs K} {l : GLay K} (h : Described a l.desc) : RatesOk a l := by
  intro c hc e he
  rw [rates_desc] at he
  refine ⟨?_, ?_, fun ho => h.fixed c hc ho e he⟩
  · rcases List.mem_append.1 he with he | he
    · exact (h.own c hc e he).1
    · obtain ⟨q, hq, rfl⟩ := List.mem_map.1 he
      exact (h.parts c hc q hq).ge
  · rcases List.mem_append.1 he with he | he
    · exact (h.own c hc e he).2
    · obtain ⟨q, hq, rfl⟩ := List.mem_map.1 he
      exact (h.parts c hc q hq).le

theorem base_opt {a : GArgs K} {c : CArgs K} (h : a.base = some c) : a.trait.2 = c.opt := by
  cases a <;> first | (cases h; done) | (cases h; rfl)

theorem trait_snd (l : GLay K) : l.trait.2 = l.opt := by cases l <;> rfl

/-! ## Mutation -/

theorem gistRated_iff {lo hi : K} {l : CLay K} : GistRated lo hi l.gist ↔ PartRated lo hi l :=
  ⟨fun h => ⟨h.min, h.max, h.ge, h.le⟩, fun h => ⟨h.min, h.max, h.ge, h.le⟩⟩

theorem PartRated.inRange {lo hi : K} {l : CLay K} (h : PartRated lo hi l) : l.InRange :=
  ⟨by rw [h.min]; exact h.ge, by rw [h.max]; exact h.le⟩

theorem PartRated.of {lo hi : K} {s : Bool} {o : LOpt} {l l' : CLay K} (h : PartRated lo hi l)
    (k : l.Switched s o l') (i : l'.InRange) : PartRated lo hi l' := by
  have h1 : l'.etaMin = lo := k.etaMin.trans h.min
  have h2 : l'.etaMax = hi := k.etaMax.trans h.max
  exact ⟨h1, h2, h1 ▸ i.1, h2 ▸ i.2⟩

theorem recEta_base {a : GArgs K} {c : CArgs K} {l : RLay K} (h : a.base = some c)
    (t : (GLay.recu l).trait = a.trait) : a.recEta = c.opt.eta := by
  cases a with
  | recu a => cases h; rfl
  | conn a => exact absurd (congrArg Prod.fst t) (by simp [GLay.trait, GArgs.trait])
  | lstm a f => exact absurd (congrArg Prod.fst t) (by simp [GLay.trait, GArgs.trait])
  | conv a => exact absurd (congrArg Prod.fst t) (by simp [GLay.trait, GArgs.trait])
  | maxp a => cases h
  | avgp a => cases h
  | ups a => cases h
  | drop a => cases h
  | noise a => cases h
  | soft a => cases h

theorem Gates.mem_list {α : Type} {P : α → Prop} {u : Gates α} :
    (∀ x ∈ u.list, P x) ↔ u.All P := by
  constructor
  · intro h
    exact ⟨h _ (by simp [Gates.list]), h _ (by simp [Gates.list]), h _ (by simp [Gates.list]),
      h _ (by simp [Gates.list])⟩
  · intro h x hx
    simp only [Gates.list, List.mem_cons, List.not_mem_nil, or_false] at hx
    rcases hx with rfl | rfl | rfl | rfl
    · exact h.f
    · exact h.i
    · exact h.g
    · exact h.o

theorem layerMutate_described {g : Rng K R} {fuel : Nat} {l : GLay K} {r : R}
    {z : (GLay K × Bool) × R} (h : layerMutate g fuel l r = .ok z) {a : GArgs K}
    (D : Described a l.desc) (hr : a.recEta = false) : Described a z.1.1.desc := by
  obtain ⟨S, -⟩ := layerMutate_switched h
  have fixed : ∀ c ∈ a.base, c.opt.eta = false →
      ∀ e ∈ z.1.1.desc.2.1 ++ z.1.1.desc.2.2.2.map Gist.eta, e = c.eta := by
    intro c hc ho e he
    have t : l.opt.eta = false := by
      rw [← trait_snd, show l.trait = a.trait from D.trait, base_opt hc]; exact ho
    rw [← rates_desc, S.eta t, rates_desc] at he
    exact D.fixed c hc ho e he
  have tr : z.1.1.desc.1 = a.trait := by
    refine Eq.trans ?_ D.trait
    have o := S.opt
    rw [← trait_snd, ← trait_snd] at o
    refine Prod.ext ?_ o
    cases l <;> first
      | (obtain ⟨q, -, rfl⟩ := liftM_ok h; rfl)
      | (cases h; rfl)
  refine ⟨tr, ?_, ?_, fixed⟩
  all_goals intro c hc
  · cases l with
    | conn l => obtain ⟨q, -, rfl⟩ := liftM_ok h; intro e he; cases he
    | conv l => obtain ⟨q, -, rfl⟩ := liftM_ok h; intro e he; cases he
    | recu l =>
      have ho : c.opt.eta = false := by rw [← recEta_base hc D.trait]; exact hr
      intro e he
      have := fixed c hc ho e (List.mem_append_left _ he)
      have old := D.own c hc l.eta (List.mem_singleton.2 rfl)
      rw [this]
      exact ⟨old.1.trans old.2, le_refl _⟩
    | lstm l =>
      obtain ⟨q, e1, rfl⟩ := liftM_ok h
      obtain ⟨-, -, hR⟩ := lstmMutate_moved e1
      have old := D.own c hc l.eta (List.mem_singleton.2 rfl)
      have ps : ∀ x ∈ (GLay.lstm l).parts, PartRated c.etaMin c.eta x := fun x hx =>
        gistRated_iff.1 (D.parts c hc _ (List.mem_map_of_mem hx))
      have R1 := hR c.etaMin c.eta ⟨old.1, old.2,
        Gates.mem_list.1 fun x hx => ps x (List.mem_append_left _ hx),
        Gates.mem_list.1 fun x hx => ps x (List.mem_append_right _ hx)⟩
      intro e he
      cases List.mem_singleton.1 he
      exact ⟨R1.ge, R1.le⟩
    | maxp l => cases h; exact D.own c hc
    | avgp l => cases h; exact D.own c hc
    | ups l => cases h; exact D.own c hc
    | drop l => cases h; exact D.own c hc
    | noise l => cases h; exact D.own c hc
    | soft l => cases h; exact D.own c hc
  · cases l with
    | conn l =>
      obtain ⟨q, e1, rfl⟩ := liftM_ok h
      obtain ⟨S1, -, hI⟩ := connMutate_switched e1
      have old := gistRated_iff.1 (D.parts c hc _ (List.mem_singleton.2 rfl))
      intro e he
      cases List.mem_singleton.1 he
      exact gistRated_iff.2 (old.of S1 (hI old.inRange))
    | conv l =>
      obtain ⟨q, e1, rfl⟩ := liftM_ok h
      obtain ⟨S1, -, hI, -⟩ := convMutate_switched e1
      have old := gistRated_iff.1 (D.parts c hc _ (List.mem_singleton.2 rfl))
      intro e he
      cases List.mem_singleton.1 he
      exact gistRated_iff.2 (old.of S1 (hI old.inRange))
    | recu l =>
      have ho : c.opt.eta = false := by rw [← recEta_base hc D.trait]; exact hr
      have t : l.opt.eta = false := by
        rw [show l.opt = (GLay.recu l).trait.2 from rfl, show (GLay.recu l).trait = a.trait from D.trait,
          base_opt hc]; exact ho
      obtain ⟨q, e1, rfl⟩ := liftM_ok h
      obtain ⟨M, -⟩ := recMutate_moved e1
      have ps : ∀ x ∈ (GLay.recu l).parts, PartRated c.etaMin c.eta x := fun x hx =>
        gistRated_iff.1 (D.parts c hc _ (List.mem_map_of_mem hx))
      intro e he
      obtain ⟨x, hx, rfl⟩ := List.mem_map.1 he
      refine gistRated_iff.2 ?_
      change x ∈ [_, _, _] at hx
      simp only [List.mem_cons, List.not_mem_nil, or_false] at hx
      rcases hx with rfl | rfl | rfl
      · exact (ps l.inp (by simp [GLay.parts])).switched M.inp t
      · exact (ps l.self (by simp [GLay.parts])).switched M.self t
      · exact (ps l.out (by simp [GLay.parts])).switched M.out t
    | lstm l =>
      obtain ⟨q, e1, rfl⟩ := liftM_ok h
      obtain ⟨-, -, hR⟩ := lstmMutate_moved e1
      have old := D.own c hc l.eta (List.mem_singleton.2 rfl)
      have ps : ∀ x ∈ (GLay.lstm l).parts, PartRated c.etaMin c.eta x := fun x hx =>
        gistRated_iff.1 (D.parts c hc _ (List.mem_map_of_mem hx))
      have R1 := hR c.etaMin c.eta ⟨old.1, old.2,
        Gates.mem_list.1 fun x hx => ps x (List.mem_append_left _ hx),
        Gates.mem_list.1 fun x hx => ps x (List.mem_append_right _ hx)⟩
      intro e he
      obtain ⟨x, hx, rfl⟩ := List.mem_map.1 he
      refine gistRated_iff.2 ?_
      rcases List.mem_append.1 hx with hx | hx
      · exact Gates.mem_list.2 R1.u x hx
      · exact Gates.mem_list.2 R1.w x hx
    | maxp l => cases h; exact D.parts c hc
    | avgp l => cases h; exact D.parts c hc
    | ups l => cases h; exact D.parts c hc
    | drop l => cases h; exact D.parts c hc
    | noise l => cases h; exact D.parts c hc
    | soft l => cases h; exact D.parts c hc

/-! ## Operations that keep the description -/

theorem layerRand_desc {g : Rng K R} {l : GLay K} {r : R} {z : GLay K × R}
    (h : layerRand g l r = .ok z) : z.1.desc = l.desc := by
  cases l with
  | conn l => cases h; rfl
  | recu l => cases h; rfl
  | lstm l =>
    obtain ⟨q, e, rfl⟩ := liftR_ok (f := GLay.lstm) (x := lstmRand g l r) h
    unfold lstmRand at e
    have op : ∀ (x : CLay K) (r : R) (y : CLay K) (r' : R),
        (Except.ok (weightRand g x r) : Res (CLay K × R)) = .ok (y, r') → y.gist = x.gist := by
      intro x r y r' e
      cases e; rfl
    simp only [bind, Except.bind] at e
    split at e
    · cases e
    next u e1 =>
    split at e
    · cases e
    next w e2 =>
    cases e
    have b1 := mapR_both (P := fun x y => y.gist = x.gist) op e1
    have b2 := mapR_both (P := fun x y => y.gist = x.gist) op e2
    have hp : List.Forall₂ (fun x y : CLay K => y.gist = x.gist) (l.u.list ++ l.w.list)
        (u.1.list ++ w.1.list) := List.rel_append (both_list b1) (both_list b2)
    show (_, _, _, List.map CLay.gist (u.1.list ++ w.1.list)) =
      (_, _, _, List.map CLay.gist (l.u.list ++ l.w.list))
    rw [map_of_forall₂ (fun _ _ p => p) hp]
    rfl
  | conv l => cases h; rfl
  | maxp l => cases h; rfl
  | avgp l => cases h; rfl
  | ups l => cases h; rfl
  | drop l => cases h; rfl
  | noise l => cases h; rfl
  | soft l => cases h; rfl

theorem mapE_ok {α β : Type} {f : α → β} {x : Res α} {z : β} (h : x.map f = .ok z) :
    ∃ a, x = .ok a ∧ z = f a := by
  cases x with
  | error e => cases h
  | ok a => cases h; exact ⟨a, rfl, rfl⟩

theorem layerCopy_fed {l l' : GLay K} (h : layerCopy l = .ok l') : l.Fed false l' := by
  cases l with
  | conn l => cases h; exact ⟨rfl, rfl, rfl, .cons (connCopy_fed _) .nil⟩
  | recu l =>
    obtain ⟨q, e, rfl⟩ := mapE_ok h
    unfold recCopy at e
    repeat' split at e
    all_goals cases e
    exact ⟨rfl, rfl, rfl, .cons (connCopy_fed _) (.cons (connCopy_fed _) (.cons (connCopy_fed _) .nil))⟩
  | lstm l =>
    obtain ⟨q, e, rfl⟩ := mapE_ok h
    obtain ⟨h1, h2, h3, h4, h5, h6, -⟩ := lstmArrays_moved e
    refine ⟨Prod.ext rfl h1, congrArg (fun x => [x]) h2, ?_, ?_⟩
    · show [q.fn, q.rfn] = [l.fn, l.rfn]
      rw [h3, h4]
    · show List.Forall₂ _ _ (q.u.list ++ q.w.list)
      rw [h5, h6]
      exact List.rel_append
        (both_list ⟨connCopy_fed _, connCopy_fed _, connCopy_fed _, connCopy_fed _⟩)
        (both_list ⟨connCopy_fed _, connCopy_fed _, connCopy_fed _, connCopy_fed _⟩)
  | conv l =>
    obtain ⟨q, e, rfl⟩ := mapE_ok h
    unfold convCopy at e
    repeat' split at e
    all_goals cases e
    exact ⟨rfl, rfl, rfl, .cons (connCopy_fed _) .nil⟩
  | maxp l => obtain ⟨q, e, rfl⟩ := mapE_ok h; exact ⟨rfl, rfl, rfl, .nil⟩
  | avgp l => obtain ⟨q, e, rfl⟩ := mapE_ok h; exact ⟨rfl, rfl, rfl, .nil⟩
  | ups l => obtain ⟨q, e, rfl⟩ := mapE_ok h; exact ⟨rfl, rfl, rfl, .nil⟩
  | drop l => obtain ⟨q, e, rfl⟩ := mapE_ok h; exact ⟨rfl, rfl, rfl, .nil⟩
  | noise l => obtain ⟨q, e, rfl⟩ := mapE_ok h; exact ⟨rfl, rfl, rfl, .nil⟩
  | soft l => obtain ⟨q, e, rfl⟩ := mapE_ok h; exact ⟨rfl, rfl, rfl, .nil⟩

theorem genCopy_fed : ∀ {ls ls' : List (GLay K)}, genCopy ls = .ok ls' → AllFed ls ls'
  | [], _, h => by cases h; exact .nil
  | l :: ls, ls', h => by
    unfold genCopy at h
    split at h
    · cases h
    · next e1 =>
      split at h
      · cases h
      · next e2 => cases h; exact .cons (layerCopy_fed e1).mono (genCopy_fed e2)

/-! ## Histories -/

/-- All layers of a network are as described by the parameters. -/
def AllDescribed (as : List (GArgs K)) (ls : List (GLay K)) : Prop :=
  List.Forall₂ (fun a l => Described a l.desc) as ls

theorem described_fed {as : List (GArgs K)} {ls ls' : List (GLay K)} (D : AllDescribed as ls)
    (F : AllFed ls ls') : AllDescribed as ls' := by
  induction D generalizing ls' with
  | nil => cases F; exact .nil
  | cons d _ ih =>
    cases F with
    | cons f fs => exact .cons (f.desc ▸ d) (ih fs)

theorem genMutate_described {g : Rng K R} {fuel : Nat} : ∀ {ls : List (GLay K)} {as : List (GArgs K)}
    {d : Option Dim} {r : R} {z : (List (GLay K) × Bool) × R}, genMutate g fuel d ls r = .ok z →
    AllDescribed as ls → (∀ a ∈ as, a.recEta = false) → AllDescribed as z.1.1
  | [], _, _, _, _, h, D, _ => by cases h; cases D; exact .nil
  | l :: ls, as, d, r, z, h, D, hr => by
    cases D with
    | cons d1 ds =>
    unfold genMutate at h
    split at h
    · cases h
    · next l1 r1 e1 =>
      split at h
      · cases h
      · next l2 b r2 e2 =>
        split at h
        · cases h
        · next ls' bs r3 e3 =>
          cases h
          refine .cons (layerMutate_described e2 ?_ (hr _ (by simp)))
            (genMutate_described e3 ds fun a ha => hr a (by simp [ha]))
          cases d with
          | none => cases e1; exact d1
          | some d => rw [layerResize_desc (z := (_, _)) e1]; exact d1

theorem resizeOn_desc {g : Rng K R} {fuel : Nat} {l : GLay K} {d : Option Dim} {r : R}
    {z : GLay K × R} (h : resizeOn g fuel l d r = .ok z) : z.1.desc = l.desc := by
  cases d with
  | none => cases h; rfl
  | some d => exact layerResize_desc h

theorem genResize_described {g : Rng K R} {fuel : Nat} : ∀ {ls : List (GLay K)} {as : List (GArgs K)}
    {d : Option Dim} {r : R} {z : List (GLay K) × R}, genResize g fuel d ls r = .ok z →
    AllDescribed as ls → AllDescribed as z.1
  | [], _, _, _, _, h, D => by cases h; cases D; exact .nil
  | l :: ls, as, d, r, z, h, D => by
    cases D with
    | cons d1 ds =>
    unfold genResize at h
    split at h
    · cases h
    · next l1 r1 e1 =>
      split at h
      · cases h
      · next ls' r3 e3 =>
        cases h
        refine .cons ?_ (genResize_described e3 ds)
        rw [← resizeOn_desc e1] at d1
        exact d1

theorem genRand_described {g : Rng K R} : ∀ {ls : List (GLay K)} {as : List (GArgs K)}
    {r : R} {z : List (GLay K) × R}, genRand g ls r = .ok z → AllDescribed as ls → AllDescribed as z.1
  | [], _, _, _, h, D => by cases h; cases D; exact .nil
  | l :: ls, as, r, z, h, D => by
    cases D with
    | cons d1 ds =>
    unfold genRand at h
    split at h
    · cases h
    · next l1 r1 e1 =>
      split at h
      · cases h
      · next ls' r3 e3 =>
        cases h
        exact .cons (by rw [← layerRand_desc (z := (_, _)) e1] at d1; exact d1) (genRand_described e3 ds)

theorem nworkStep_described {g : Rng K R} {m : Libm K} {lo : K} {fuel n : Nat} {ls : List (GLay K)}
    {as : List (GArgs K)} {r : R} {o : NTask K} {z : List (GLay K) × R}
    (h : nworkStep g m lo fuel n ls r o = .ok z) (D : AllDescribed as ls)
    (hr : ∀ a ∈ as, a.recEta = false) : AllDescribed as z.1 := by
  cases o with
  | learn t x =>
    unfold nworkStep at h
    dsimp only at h
    split at h
    · cases h
    · next e => cases h; exact described_fed D (genLearn_fed e)
  | net o =>
    unfold nworkStep nstep at h
    cases o with
    | mutate =>
      dsimp only at h
      split at h
      · cases h
      · next e => cases h; exact genMutate_described e D hr
    | resize => exact genResize_described h D
    | forward t x => exact described_fed D (genForward_fed h)
    | rand => exact genRand_described h D
    | copy =>
      dsimp only at h
      split at h
      · cases h
      · next e => cases h; exact described_fed D (genCopy_fed e)

theorem nwork_described {g : Rng K R} {m : Libm K} {lo : K} {fuel n : Nat} {as : List (GArgs K)}
    (hr : ∀ a ∈ as, a.recEta = false) : ∀ {os : List (NTask K)} {ls : List (GLay K)} {r : R}
    {z : List (GLay K) × R}, nwork g m lo fuel n os ls r = .ok z → AllDescribed as ls →
    AllDescribed as z.1
  | [], _, _, _, h, D => by cases h; exact D
  | o :: os, ls, r, z, h, D => by
    unfold nwork at h
    split at h
    · cases h
    · next e => exact nwork_described hr h (nworkStep_described e D hr)

/-! ## Creation -/

theorem initEta_mem {g : Rng K R} (O : g.Open) (o : LOpt) {lo hi : K} (h : lo ≤ hi) (r : R) :
    lo ≤ (initEta g o lo hi r).1 ∧ (initEta g o lo hi r).1 ≤ hi ∧
      (o.eta = false → (initEta g o lo hi r).1 = hi) := by
  unfold initEta
  split
  · next ho =>
    obtain ⟨h0, h1⟩ := O r
    refine ⟨?_, ?_, fun e => by rw [ho] at e; cases e⟩
    · show lo ≤ lo + (g.draw r).1 * (hi - lo)
      have := mul_nonneg (le_of_lt h0) (sub_nonneg.2 h)
      linarith
    · show lo + (g.draw r).1 * (hi - lo) ≤ hi
      have := mul_le_mul_of_nonneg_right (le_of_lt h1) (sub_nonneg.2 h)
      linarith
  · exact ⟨h, le_refl _, fun _ => rfl⟩

/-- A part as created by the parameters `c`. -/
structure Made (c : CArgs K) (l : CLay K) : Prop where
  rated : PartRated c.etaMin c.eta l
  fixed : c.opt.eta = false → l.eta = c.eta
  opt : l.opt = c.opt

theorem connInit_made {g : Rng K R} (O : g.Open) {a : CArgs K} (h : a.etaMin ≤ a.eta) {r : R}
    {z : CLay K × R} (e : connInit g a r = .ok z) : Made a z.1 := by
  obtain ⟨h1, h2, h3⟩ := initEta_mem O a.opt h r
  unfold connInit at e
  dsimp only at e
  repeat' split at e
  all_goals cases e
  exact ⟨⟨rfl, rfl, h1, h2⟩, h3, rfl⟩

/-- The rate of another part is taken over. -/
theorem Made.rate {c : CArgs K} {l l' : CLay K} (h : Made c l) (h' : Made c l') :
    Made c { l with eta := l'.eta } :=
  ⟨⟨h.rated.min, h.rated.max, h'.rated.ge, h'.rated.le⟩, h'.fixed, h.opt⟩

theorem described_made {a : GArgs K} {c : CArgs K} (hc : a.base = some c) {l : GLay K}
    (ht : l.trait = a.trait) (ho : ∀ e ∈ l.ownRates, ∃ x, Made c x ∧ e = x.eta)
    (hp : ∀ x ∈ l.parts, Made c x) : Described a l.desc := by
  refine ⟨ht, ?_, ?_, ?_⟩
  all_goals intro c' hc'
  all_goals cases (Option.some.inj (hc.symm.trans hc'))
  · intro e he
    obtain ⟨x, hx, rfl⟩ := ho e he
    exact ⟨hx.rated.ge, hx.rated.le⟩
  · intro q hq
    obtain ⟨x, hx, rfl⟩ := List.mem_map.1 hq
    exact gistRated_iff.2 (hp x hx).rated
  · intro hf e he
    rw [← rates_desc] at he
    rcases List.mem_append.1 he with he | he
    · obtain ⟨x, hx, rfl⟩ := ho e he
      exact hx.fixed hf
    · obtain ⟨x, hx, rfl⟩ := List.mem_map.1 he
      exact (hp x hx).fixed hf

theorem described_none {a : GArgs K} (hb : a.base = none) {l : GLay K} (ht : l.trait = a.trait) :
    Described a l.desc :=
  ⟨ht, (fun c hc => by rw [hb] at hc; cases hc), (fun c hc => by rw [hb] at hc; cases hc),
    (fun c hc => by rw [hb] at hc; cases hc)⟩

theorem Made.of {c c' : CArgs K} {l : CLay K} (h : Made c l) (h1 : c'.etaMin = c.etaMin)
    (h2 : c'.eta = c.eta) (h3 : c'.opt = c.opt) : Made c' l :=
  ⟨by rw [h1, h2]; exact h.rated, by rw [h2, h3]; exact h.fixed, by rw [h3]; exact h.opt⟩

theorem layerInit_described {g : Rng K R} (O : g.Open) {a : GArgs K} {r : R} {z : GLay K × R}
    (e0 : layerInit g a r = .ok z) (h : ∀ c ∈ a.base, c.etaMin ≤ c.eta) : Described a z.1.desc := by
  cases a with
  | conn a =>
    obtain ⟨q, e, rfl⟩ := liftR_ok e0
    have M := connInit_made O (h a rfl) e
    refine described_made (c := a) rfl (Prod.ext rfl M.opt) (fun e he => by cases he) ?_
    intro x hx
    cases List.mem_singleton.1 hx
    exact M
  | recu a =>
    obtain ⟨q, e, rfl⟩ := liftR_ok e0
    unfold recInit at e
    simp only [bind, Except.bind] at e
    split at e
    · cases e
    next i e1 =>
    split at e
    · cases e
    next s e2 =>
    split at e
    · cases e
    next o e3 =>
    split at e
    · cases e
    split at e
    · cases e
    cases e
    have h' := h a rfl
    have m1 : Made a i.1 := (connInit_made O (a := { a with fn := 3 }) h' e1).of rfl rfl rfl
    have m2 : Made a s.1 :=
      (connInit_made O (a := { a with fn := 3, nInputs := a.nInit }) h' e2).of rfl rfl rfl
    have m3 : Made a o.1 :=
      (connInit_made O (a := { a with nInputs := a.nInit }) h' e3).of rfl rfl rfl
    refine described_made (c := a) rfl rfl (fun e he => ⟨i.1, m1, List.mem_singleton.1 he⟩) ?_
    intro x hx
    change x ∈ [_, _, _] at hx
    simp only [List.mem_cons, List.not_mem_nil, or_false] at hx
    rcases hx with rfl | rfl | rfl
    · exact m1
    · exact m2.rate m1
    · exact m3.rate m1
  | lstm a f =>
    obtain ⟨q, e, rfl⟩ := liftR_ok e0
    unfold lstmInit at e
    simp only [bind, Except.bind] at e
    split at e
    · cases e
    next u e1 =>
    split at e
    · cases e
    next w e2 =>
    split at e
    · cases e
    next l e3 =>
    split at e
    · cases e
    cases e
    have h' := h a rfl
    have op : ∀ (x : CArgs K) (r : R) (y : CLay K) (r' : R), connInit g x r = .ok (y, r') →
        (x.etaMin ≤ x.eta → Made x y) := fun x r y r' e hx => connInit_made O hx e
    have b1 := mapR_both (P := fun x y => x.etaMin ≤ x.eta → Made x y) op e1
    have b2 := mapR_both (P := fun x y => x.etaMin ≤ x.eta → Made x y) op e2
    obtain ⟨q1, q2, q3, q4, q5, q6, -⟩ := lstmArrays_moved e3
    have mf : Made a u.1.f := (b1.f h').of rfl rfl rfl
    have mi : Made a u.1.i := (b1.i h').of rfl rfl rfl
    have mg : Made a u.1.g := (b1.g h').of rfl rfl rfl
    have mo : Made a u.1.o := (b1.o h').of rfl rfl rfl
    have wf : Made a w.1.f := (b2.f h').of rfl rfl rfl
    have wi : Made a w.1.i := (b2.i h').of rfl rfl rfl
    have wg : Made a w.1.g := (b2.g h').of rfl rfl rfl
    have wo : Made a w.1.o := (b2.o h').of rfl rfl rfl
    refine described_made (c := a) rfl (Prod.ext rfl q1)
      (fun e he => ⟨u.1.f, mf, (List.mem_singleton.1 he).trans q2⟩) ?_
    intro x hx
    change x ∈ l.u.list ++ l.w.list at hx
    rw [q5, q6] at hx
    rcases List.mem_append.1 hx with hx | hx
    · refine Gates.mem_list.2 ?_ x hx
      exact ⟨mf, mi.rate mf, mg.rate mf, mo.rate mf⟩
    · refine Gates.mem_list.2 ?_ x hx
      exact ⟨wf.rate mf, wi.rate mf, wg.rate mf, wo.rate mf⟩
  | conv a =>
    obtain ⟨q, e, rfl⟩ := liftR_ok e0
    have h' := h a.base rfl
    obtain ⟨h1, h2, h3⟩ := initEta_mem O a.base.opt h' r
    unfold convInit at e
    dsimp only at e
    repeat' split at e
    all_goals cases e
    refine described_made (c := a.base) rfl rfl (fun e he => by cases he) ?_
    intro x hx
    cases List.mem_singleton.1 hx
    exact ⟨⟨rfl, rfl, h1, h2⟩, h3, rfl⟩
  | maxp a => obtain ⟨q, -, rfl⟩ := keepR_ok e0; exact described_none rfl rfl
  | avgp a => obtain ⟨q, -, rfl⟩ := keepR_ok e0; exact described_none rfl rfl
  | ups a => obtain ⟨q, -, rfl⟩ := keepR_ok e0; exact described_none rfl rfl
  | drop a => obtain ⟨q, -, rfl⟩ := keepR_ok e0; exact described_none rfl rfl
  | noise a => obtain ⟨q, -, rfl⟩ := keepR_ok e0; exact described_none rfl rfl
  | soft a => obtain ⟨q, -, rfl⟩ := keepR_ok e0; exact described_none rfl rfl

theorem after_base {a : GArgs K} {d : Dim} {c : CArgs K} (h : a.base = some c) :
    ∃ c', (a.after d).base = some c' ∧ c'.etaMin = c.etaMin ∧ c'.eta = c.eta ∧ c'.opt = c.opt := by
  cases a with
  | conn a => cases h; exact ⟨_, rfl, rfl, rfl, rfl⟩
  | recu a => cases h; exact ⟨_, rfl, rfl, rfl, rfl⟩
  | lstm a f => cases h; exact ⟨_, rfl, rfl, rfl, rfl⟩
  | conv a => cases h; exact ⟨_, rfl, rfl, rfl, rfl⟩
  | maxp a => cases h
  | avgp a => cases h
  | ups a => cases h
  | drop a => cases h
  | noise a => cases h
  | soft a => cases h

theorem described_after {a : GArgs K} {d : Dim} {t : Desc K} (h : Described (a.after d) t) :
    Described a t := by
  refine ⟨h.trait.trans (by cases a <;> rfl), ?_, ?_, ?_⟩
  all_goals intro c hc
  all_goals obtain ⟨c', h0, h1, h2, h3⟩ := after_base (d := d) hc
  · rw [← h1, ← h2]; exact h.own c' h0
  · rw [← h1, ← h2]; exact h.parts c' h0
  · rw [← h2, ← h3]; exact h.fixed c' h0

theorem base_after {a : GArgs K} {d : Dim} (h : ∀ c ∈ a.base, c.etaMin ≤ c.eta) :
    ∀ c ∈ (a.after d).base, c.etaMin ≤ c.eta := by
  intro c hc
  cases e : a.base with
  | none => cases a <;> first | (cases e; done) | cases hc
  | some c' =>
    obtain ⟨c2, h0, h1, h2, -⟩ := after_base (d := d) e
    cases Option.some.inj (h0.symm.trans hc)
    rw [h1, h2]
    exact h c' e

theorem createGo_described {g : Rng K R} (O : g.Open) : ∀ {as : List (GArgs K)} {d : Dim} {r : R}
    {z : List (GLay K) × R}, createGo g d as r = .ok z →
    (∀ a ∈ as, ∀ c ∈ a.base, c.etaMin ≤ c.eta) → AllDescribed as z.1
  | [], _, _, _, h, _ => by cases h; exact .nil
  | a :: as, d, r, z, h, H => by
    unfold createGo at h
    split at h
    · cases h
    · next e1 =>
      split at h
      · cases h
      · next e2 =>
        cases h
        exact .cons (described_after (layerInit_described O e1 (base_after (H a (by simp)))))
          (createGo_described O e2 fun a ha => H a (by simp [ha]))

theorem genCreate_described {g : Rng K R} (O : g.Open) {as : List (GArgs K)} {r : R}
    {z : List (GLay K) × R} (h : genCreate g as r = .ok z)
    (H : ∀ a ∈ as, ∀ c ∈ a.base, c.etaMin ≤ c.eta) : AllDescribed as z.1 := by
  unfold genCreate at h
  split at h
  · cases h
  · next a as =>
    split at h
    · cases h
    · next e1 =>
      split at h
      · cases h
      · next e2 =>
        split at h
        · cases h
        · cases h
          exact .cons (layerInit_described O e1 (H a (by simp)))
            (createGo_described O e2 fun a ha => H a (by simp [ha]))

end Xcsf
