import Verif.StepsMem

/-!
# The functions on memory mirror the functions on lists

Helper lemmas: as long as the sets in memory are the sets of the system, each function of
`Steps.lean` does to the system what its counterpart of `Core.lean` and `Trial.lean` does, with the
same faults, and it keeps account of all nodes.
-/

set_option linter.unusedSectionVars false

namespace Xcsf
namespace Steps

/-- Both computations return related values or fail with the same fault. -/
def Mirror {α β : Type} (rel : α → β → Prop) : Res α → Res β → Prop
  | .ok a, .ok b => rel a b
  | .error e, .error e' => e = e'
  | _, _ => False

theorem Mirror.bind {α β α' β' : Type} {rel : α → β → Prop} {rel' : α' → β' → Prop} {m : Res α}
    {n : Res β} {f : α → Res α'} {g : β → Res β'} (hm : Mirror rel m n)
    (hf : ∀ a b, rel a b → Mirror rel' (f a) (g b)) : Mirror rel' (m >>= f) (n >>= g) := by
  cases m <;> cases n
  · exact hm
  · exact hm.elim
  · exact hm.elim
  · exact hf _ _ hm

theorem Mirror.same {α α' β' : Type} {rel' : α' → β' → Prop} {m : Res α} {f : α → Res α'}
    {g : α → Res β'} (hf : ∀ a, m = .ok a → Mirror rel' (f a) (g a)) :
    Mirror rel' (m >>= f) (m >>= g) := by
  cases h : m
  · exact rfl
  · exact hf _ h

theorem Mirror.mono {α β : Type} {rel rel' : α → β → Prop} {m : Res α} {n : Res β}
    (hm : Mirror rel m n) (h : ∀ a b, m = .ok a → n = .ok b → rel a b → rel' a b) :
    Mirror rel' m n := by
  cases m <;> cases n
  · exact hm
  · exact hm.elim
  · exact hm.elim
  · exact h _ _ rfl rfl hm

variable {K X B R : Type} [Zero K] [One K] [Add K] [Sub K] [Mul K] [Div K]
  [LT K] [DecidableLT K] [IntCast K] [DecidableEq K]
variable {par : Params K} {kit : Kit K X B R}

/-! ### Functions on the match set -/

/-- The match set in memory is the match set of the system; besides its nodes there are the nodes
`rest`. -/
def MOk (L : Low K X B R) (rest : List Nat) : Prop :=
  ∃ qs, Rep L.h L.m L.s.mset qs ∧ Live L.h (qs ++ rest)

/-- Nothing happened except to the match set (and the rules). -/
structure Only (rest : List Nat) (L L' : Low K X B R) : Prop where
  ok : MOk L' rest
  off : Off L.h L'.h rest
  a : L'.a = L.a
  p : L'.p = L.p
  arr : L'.arr = L.arr
  atop : L'.atop = L.atop
  prev : L'.prev = L.prev
  aset : L'.s.aset = L.s.aset
  prevAset : L'.s.prevAset = L.s.prevAset
  prevState : L'.s.prevState = L.s.prevState

theorem Only.refl {rest : List Nat} {L : Low K X B R} (h : MOk L rest) : Only rest L L :=
  ⟨h, Off.refl _ _, rfl, rfl, rfl, rfl, rfl, rfl, rfl, rfl⟩

theorem Only.trans {rest : List Nat} {L1 L2 L3 : Low K X B R} (a : Only rest L1 L2)
    (b : Only rest L2 L3) : Only rest L1 L3 :=
  ⟨b.ok, a.off.trans b.off, b.a.trans a.a, b.p.trans a.p, b.arr.trans a.arr, b.atop.trans a.atop,
    b.prev.trans a.prev, b.aset.trans a.aset, b.prevAset.trans a.prevAset,
    b.prevState.trans a.prevState⟩

/-- The system inside is the system on the right, and `Only`. -/
abbrev Rel (rest : List Nat) (L : Low K X B R) : Low K X B R → St K X B R → Prop :=
  fun L' s' => L'.s = s' ∧ Only rest L L'

/-- Replacing the system by one with the same sets. -/
theorem Only.sys {rest : List Nat} {L : Low K X B R} {s' : St K X B R} (h : MOk L rest)
    (e : sets s' = sets L.s) : Only rest L { L with s := s' } := by
  simp only [sets, Prod.mk.injEq] at e
  obtain ⟨e1, e2, e3, e4⟩ := e
  obtain ⟨qs, r, l⟩ := h
  exact ⟨⟨qs, by rw [show ({ L with s := s' } : Low K X B R).s.mset = L.s.mset from e1]; exact r, l⟩,
    Off.refl _ _, rfl, rfl, rfl, rfl, rfl, e2, e3, e4⟩

theorem Only.add {rest : List Nat} {L : Low K X B R} (h : MOk L rest) (i : Nat) (n : Int) :
    Only rest L (L.addM i n) := by
  obtain ⟨qs, r, l⟩ := h
  obtain ⟨r', l', o⟩ := add_spec r l i n
  exact ⟨⟨_, r', l'⟩, fun q hq => o q (List.mem_append_right _ hq), rfl, rfl, rfl, rfl, rfl, rfl, rfl,
    rfl⟩

theorem Rel.step {rest : List Nat} {L L1 : Low K X B R} (a : Only rest L L1) {m : Res (Low K X B R)}
    {n : Res (St K X B R)} (h : Mirror (Rel rest L1) m n) : Mirror (Rel rest L) m n :=
  h.mono fun _ _ _ _ ⟨e, o⟩ => ⟨e, a.trans o⟩

theorem keep_of {m : Res (St K X B R)} {g : CSet × CSet × CSet × Option X} {s' : St K X B R}
    (h : Keeps1 g m) (e : m = .ok s') : sets s' = g := by
  subst e
  exact h

theorem match_go (x : X) {rest : List Nat} : ∀ (l : List Nat) {L : Low K X B R}, MOk L rest →
    Mirror (Rel rest L) (lowMatchGo kit x l L) (matchGo kit x l L.s)
  | [], L, h => ⟨rfl, Only.refl h⟩
  | i :: l, L, h => by
    unfold lowMatchGo matchGo
    refine Mirror.same fun c _ => ?_
    generalize hm : kit.cmatch L.s.explore c.body x L.s.rng = q
    obtain ⟨m, b, r⟩ := q
    show Mirror _ (if m || kit.parallel then _ else _) (if m || kit.parallel then _ else _)
    have o1 : ∀ c' : Cl K B, Only rest L { L with s := { L.s.put i c' with rng := r } } :=
      fun c' => Only.sys h rfl
    have o2 := fun c' => (o1 c').trans (Only.add (o1 c').ok i c.num)
    cases m with
    | true =>
      simp only [Bool.true_or, if_true]
      refine Rel.step (?_ : Only rest L _) (match_go x l ?_)
      · exact (o2 _).trans (Only.sys (o2 _).ok rfl)
      · exact (Only.sys (o2 _).ok rfl).ok
    | false =>
      simp only [Bool.false_or]
      by_cases hp : kit.parallel = true
      · simp only [hp, if_true]
        refine Rel.step (?_ : Only rest L _) (match_go x l ?_)
        · exact (o1 _).trans (Only.sys (o1 _).ok rfl)
        · exact (Only.sys (o1 _).ok rfl).ok
      · simp only [hp, if_false, Bool.false_eq_true]
        exact Rel.step (o1 _) (match_go x l (o1 _).ok)

theorem coverage {rest : List Nat} {L : Low K X B R} (h : MOk L rest) :
    lowCoverage par L = actionCoverage par L.s := by
  obtain ⟨qs, r, l⟩ := h
  unfold lowCoverage actionCoverage
  rw [peek_rep r l]
  rfl

theorem cover_one (x : X) (a : Nat) {rest : List Nat} {L : Low K X B R} (h : MOk L rest) :
    Mirror (Rel rest L) (lowCoverOne par kit x a L) (coverOne par kit x a L.s) := by
  unfold lowCoverOne coverOne
  have hn : L.m.num = L.s.mset.num := by
    obtain ⟨qs, r, l⟩ := h
    exact r.num
  refine Mirror.same fun p _ => ?_
  rw [hn]
  refine ⟨rfl, ?_⟩
  have o1 : ∀ (c : Cl K B) (t : CSet),
      Only rest L { L with s := { ({ L.s with rng := p.2 }.alloc c).2 with pset := t } } :=
    fun c t => Only.sys h rfl
  exact (o1 _ _).trans (Only.add (o1 _ _).ok _ _)

theorem cover_actions (x : X) {rest : List Nat} : ∀ (cov : List Bool) (a : Nat) {L : Low K X B R},
    MOk L rest → Mirror (Rel rest L) (lowCoverActions par kit x cov a L)
      (coverActions par kit x cov a L.s)
  | [], _, L, h => ⟨rfl, Only.refl h⟩
  | true :: cov, a, L, h => by
    unfold lowCoverActions coverActions
    exact cover_actions x cov (a + 1) h
  | false :: cov, a, L, h => by
    unfold lowCoverActions coverActions
    refine Mirror.bind (cover_one x a h) ?_
    rintro L1 _ ⟨rfl, o⟩
    exact Rel.step o (cover_actions x cov (a + 1) o.ok)

/-- The outcome of the covering loop: flags and system. -/
abbrev Rel3 (rest : List Nat) (L : Low K X B R) :
    List Bool × Bool × Low K X B R → List Bool × Bool × St K X B R → Prop :=
  fun p q => p.1 = q.1 ∧ p.2.1 = q.2.1 ∧ p.2.2.s = q.2.2 ∧ Only rest L p.2.2

/-- `clset_validate(&xcsf->mset)`. -/
theorem validate_m {rest : List Nat} {L : Low K X B R} (h : MOk L rest) :
    Mirror (fun (p : Nodes × SetVar) (v : CSet) => ∃ qs, Rep p.1 p.2 v qs ∧ Live p.1 (qs ++ rest) ∧
      Off L.h p.1 rest) (nodeValidate L.s.rd Cl.num L.h L.m) (validate L.s L.s.mset) := by
  obtain ⟨qs, r, l⟩ := h
  obtain ⟨h1, h2⟩ := validate_spec (s := L.s) r l
  cases hv : validate L.s L.s.mset with
  | error e => rw [h2 e hv]; rfl
  | ok v =>
    obtain ⟨h', t', qs', e, r', l', o⟩ := h1 v hv
    rw [e]
    exact ⟨qs', r', l', o⟩

theorem cover_iter (x : X) (cov : List Bool) {rest : List Nat} {L : Low K X B R} (h : MOk L rest) :
    Mirror (Rel3 rest L) (lowCoverIter par kit x cov L) (coverIter par kit x cov L.s) := by
  unfold lowCoverIter coverIter
  refine Mirror.bind (cover_actions x cov 0 h) ?_
  rintro L1 _ ⟨rfl, o1⟩
  refine Mirror.same fun s2 hs2 => ?_
  have o2 : Only rest L { L1 with s := s2 } :=
    o1.trans (Only.sys o1.ok (keep_of ks_enforce hs2))
  show Mirror _ (if s2.pset.size < L1.s.pset.size then _ else _)
    (if s2.pset.size < L1.s.pset.size then _ else _)
  split
  · refine Mirror.bind (validate_m o2.ok) ?_
    rintro ⟨h', t'⟩ v ⟨qs, r, l, o⟩
    show Mirror _ (peek h' t' >>= _) _
    rw [peek_rep r l]
    have hsz : L1.m.size = s2.mset.size := by
      obtain ⟨qs', r', _⟩ := o2.ok
      exact r'.size
    have o3 : Only rest L { L1 with h := h', m := t', s := { s2 with mset := v } } := by
      refine o2.trans ⟨⟨qs, r, l⟩, o, rfl, rfl, rfl, rfl, rfl, rfl, rfl, rfl⟩
    show Mirror _ (if t'.size < L1.m.size then _ else _) (if v.size < s2.mset.size then _ else _)
    rw [r.size, hsz]
    split
    · rw [coverage o3.ok]
      refine Mirror.same fun q _ => ?_
      exact ⟨rfl, rfl, rfl, o3⟩
    · exact ⟨rfl, rfl, rfl, o3⟩
  · exact ⟨rfl, rfl, rfl, o2⟩

theorem cover_loop (x : X) {rest : List Nat} : ∀ (n : Nat) (cov : List Bool) (b : Bool)
    {L : Low K X B R}, MOk L rest → Mirror (Rel rest L) (lowCoverLoop par kit x n cov b L)
      (coverLoop par kit x n cov b L.s)
  | n, cov, true, L, h => by
    unfold lowCoverLoop coverLoop
    exact ⟨rfl, Only.refl h⟩
  | 0, cov, false, L, h => by
    unfold lowCoverLoop coverLoop
    exact Mirror.bind (cover_iter x cov h) fun _ _ _ => rfl
  | n + 1, cov, false, L, h => by
    unfold lowCoverLoop coverLoop
    refine Mirror.bind (cover_iter x cov h) ?_
    rintro ⟨c1, b1, L1⟩ ⟨c2, b2, s2⟩ ⟨e1, e2, e3, o⟩
    simp only at e1 e2 e3 o
    subst e1 e2 e3
    exact Rel.step o (cover_loop x n c1 b1 o.ok)

theorem cover_all (x : X) {rest : List Nat} {L : Low K X B R} (h : MOk L rest) :
    Mirror (Rel rest L) (lowCover par kit x L) (cover par kit x L.s) := by
  unfold lowCover cover
  rw [coverage h]
  exact Mirror.same fun p _ => cover_loop x _ _ _ h

theorem match_all (x : X) (cv : Bool) {rest : List Nat} {L : Low K X B R} (h : MOk L rest) :
    Mirror (Rel rest L) (lowMatch par kit x cv L) (clsetMatch par kit x cv L.s) := by
  unfold lowMatch clsetMatch
  refine Mirror.bind (match_go x _ h) ?_
  rintro L1 _ ⟨rfl, o1⟩
  have hs : ∀ {L : Low K X B R}, MOk L rest → L.m.size = L.s.mset.size := by
    rintro L ⟨qs, r, _⟩
    exact r.size
  have J : ∀ L2 : Low K X B R, Only rest L L2 → Mirror (Rel rest L)
      (L2.s.rds L2.s.pset.list >>= fun cs => .ok { L2 with s := { L2.s with
        msetSize := L2.s.msetSize + ((L2.m.size : K) - L2.s.msetSize) * par.beta
        mfrac := L2.s.mfrac + (mfracOf par kit cs - L2.s.mfrac) * par.beta } })
      (L2.s.rds L2.s.pset.list >>= fun cs => .ok { L2.s with
        msetSize := L2.s.msetSize + ((L2.s.mset.size : K) - L2.s.msetSize) * par.beta
        mfrac := L2.s.mfrac + (mfracOf par kit cs - L2.s.mfrac) * par.beta }) := by
    intro L2 o2
    refine Mirror.same fun cs _ => ?_
    rw [hs o2.ok]
    exact ⟨rfl, o2.trans (Only.sys o2.ok rfl)⟩
  have e1 := hs o1.ok
  dsimp only
  rw [e1]
  split
  · refine Mirror.bind (Rel.step o1 (cover_all x o1.ok)) ?_
    rintro L2 _ ⟨rfl, o2⟩
    exact J L2 o2
  · exact J L1 o1

theorem pa_build (x : X) {rest : List Nat} {L : Low K X B R} (h : MOk L rest) :
    Mirror (Rel rest L) (lowPaBuild par kit x L) (paBuild par kit x L.s) := by
  unfold lowPaBuild
  have : peek L.h L.m = .ok L.s.mset := by
    obtain ⟨qs, r, l⟩ := h
    exact peek_rep r l
  rw [this]
  show Mirror _ (paBuild par kit x L.s >>= fun s => .ok { L with s := s }) _
  cases hp : paBuild par kit x L.s with
  | error e => rfl
  | ok s' => exact ⟨rfl, Only.sys h (keep_of (ks_paBuild x L.s) hp)⟩

theorem decide_all (x : X) {rest : List Nat} {L : Low K X B R} (h : MOk L rest) :
    Mirror (fun p q => p.1 = q.1 ∧ p.2.s = q.2 ∧ Only rest L p.2) (lowDecision par kit x L)
      (rlDecision par kit x L.s) := by
  unfold lowDecision rlDecision
  refine Mirror.bind (match_all x true h) ?_
  rintro L1 _ ⟨rfl, o1⟩
  refine Mirror.bind (pa_build x o1.ok) ?_
  rintro L2 _ ⟨rfl, o2⟩
  have o := o1.trans o2
  show Mirror _ (if L2.s.explore = true then _ else _) (if L2.s.explore = true then _ else _)
  split
  · show Mirror _ (if (uniform kit 0 1 L2.s.rng).1 < par.pExplore then _ else _)
      (if (uniform kit 0 1 L2.s.rng).1 < par.pExplore then _ else _)
    split
    · refine Mirror.same fun p _ => ?_
      exact ⟨rfl, rfl, o.trans (Only.sys o2.ok rfl)⟩
    · refine Mirror.same fun p _ => ?_
      exact ⟨rfl, rfl, o.trans (Only.sys o2.ok rfl)⟩
  · refine Mirror.same fun p _ => ?_
    exact ⟨rfl, rfl, o.trans (Only.sys o2.ok rfl)⟩

/-! ### Functions on the action sets -/

theorem action_go (s : St K X B R) (a : Int) {rest : List Nat} : ∀ (l : List Nat) {h : Nodes}
    {t : SetVar} {c : CSet} {qs : List Nat}, Rep h t c qs → Live h (qs ++ rest) →
    Mirror (fun (p : Nodes × SetVar) (v : CSet) => ∃ qs, Rep p.1 p.2 v qs ∧ Live p.1 (qs ++ rest) ∧
      Off h p.1 rest) (lowActionGo s a l h t) (actionGo s a l c)
  | [], h, t, c, qs, r, l => ⟨qs, r, l, Off.refl _ _⟩
  | i :: is, h, t, c, qs, r, l => by
    unfold lowActionGo actionGo
    refine Mirror.same fun cl _ => ?_
    by_cases e : cl.action = a
    · simp only [if_pos e]
      obtain ⟨r', l', o⟩ := add_spec r l i cl.num
      refine (action_go s a is r' l').mono ?_
      rintro p v _ _ ⟨qs', r1, l1, o1⟩
      exact ⟨qs', r1, l1, fun q hq => (o1 q hq).trans (o q (List.mem_append_right _ hq))⟩
    · simp only [if_neg e]
      exact action_go s a is r l

/-- The outcome of an update of a set: the set, the system, the nodes. -/
abbrev RelU (rest : List Nat) (h : Nodes) (s : St K X B R) :
    Nodes × SetVar × St K X B R → CSet × St K X B R → Prop :=
  fun p q => p.2.2 = q.2 ∧ sets q.2 = sets s ∧
    ∃ qs, Rep p.1 p.2.1 q.1 qs ∧ Live p.1 (qs ++ rest) ∧ Off h p.1 rest

theorem validate_t (s : St K X B R) {rest : List Nat} {h : Nodes} {t : SetVar} {c : CSet}
    {qs : List Nat} (r : Rep h t c qs) (l : Live h (qs ++ rest)) :
    Mirror (fun (p : Nodes × SetVar) (v : CSet) => ∃ qs, Rep p.1 p.2 v qs ∧ Live p.1 (qs ++ rest) ∧
      Off h p.1 rest) (nodeValidate s.rd Cl.num h t) (validate s c) := by
  obtain ⟨h1, h2⟩ := validate_spec (s := s) r l
  cases hv : validate s c with
  | error e => rw [h2 e hv]; rfl
  | ok v =>
    obtain ⟨h', t', qs', e, r', l', o⟩ := h1 v hv
    rw [e]
    exact ⟨qs', r', l', o⟩

theorem subsume_set (s : St K X B R) {rest : List Nat} {h : Nodes} {t : SetVar} {c : CSet}
    {qs : List Nat} (r : Rep h t c qs) (l : Live h (qs ++ rest)) :
    Mirror (RelU rest h s) (lowSubsumption par kit h t s) (subsumption par kit c s) := by
  unfold lowSubsumption subsumption
  rw [peek_rep r l]
  show Mirror _ (findSubsumer par kit s c.list none >>= _) _
  refine Mirror.same fun best _ => ?_
  cases best with
  | none => exact ⟨rfl, rfl, qs, r, l, Off.refl _ _⟩
  | some sid =>
    show Mirror _ (subsumeGo kit sid c.list false s >>= _) (subsumeGo kit sid c.list false s >>= _)
    refine Mirror.same fun p hp => ?_
    have hs := post_of_ok (ks_subsumeGo (kit := kit) sid c.list false s) hp
    obtain ⟨d, s1⟩ := p
    show Mirror _ (if d = true then _ else _) (if d = true then _ else _)
    split
    · refine Mirror.bind (validate_t s1 r l) ?_
      rintro ⟨h', t'⟩ v ⟨qs', r', l', o⟩
      refine Mirror.same fun ps _ => ?_
      exact ⟨rfl, hs, qs', r', l', o⟩
    · exact ⟨rfl, hs, qs, r, l, Off.refl _ _⟩

theorem update_set (s : St K X B R) (x : X) (y : List K) (cur : Bool) {rest : List Nat} {h : Nodes}
    {t : SetVar} {c : CSet} {qs : List Nat} (r : Rep h t c qs) (l : Live h (qs ++ rest)) :
    Mirror (RelU rest h s) (lowUpdateSet par kit h t x y cur s) (clsetUpdate par kit c x y cur s) := by
  unfold lowUpdateSet clsetUpdate
  rw [peek_rep r l]
  show Mirror _ (updateGo par kit x y t.num cur c.list s >>= _) _
  rw [r.num]
  refine Mirror.same fun s1 h1 => ?_
  refine Mirror.same fun s2 h2 => ?_
  have e : sets s2 = sets s := (keep_of (ks_updateFit (kit := kit) c s1) h2).trans
    (keep_of (ks_updateGo (kit := kit) x y c.num cur c.list s) h1)
  split
  · exact (subsume_set s2 r l).mono fun p q _ _ ⟨a, b, d⟩ => ⟨a, b.trans e, d⟩
  · exact ⟨rfl, e, qs, r, l, Off.refl _ _⟩

end Steps
end Xcsf
