import Verif.Spec
import Verif.CoreInv
import Mathlib.Data.List.Forall2

/-!
# Systems with the same rules: helper lemmas for C95

Two systems are related if their rules are the same, in the same order, at other addresses.  Every
function of the life cycle keeps the relation and returns the same numbers.
-/

set_option linter.unusedSectionVars false

namespace Xcsf

/-- A correspondence between the addresses of two systems: one to one, and the addresses that are
not yet in use (from `n` and `n'` on) correspond in order. -/
structure Corr (ρ : Nat → Nat → Prop) (n n' : Nat) : Prop where
  inj : ∀ i j i' j', ρ i j → ρ i' j' → (i = i' ↔ j = j')
  fresh : ∀ k, ρ (n + k) (n' + k)

/-- Sets of corresponding rules with the same counters. -/
structure CSetRel (ρ : Nat → Nat → Prop) (t t' : CSet) : Prop where
  list : List.Forall₂ ρ t.list t'.list
  size : t.size = t'.size
  num : t.num = t'.num

section
variable {K X B R : Type}

/-- Two states with the same rules at corresponding addresses.  The flags tell which of the fields
that live only during a call are related: `fm` the match set and the kill list, `fa` the action
sets and the memory of the previous step, `fp` the prediction array. -/
structure StRel (ρ : Nat → Nat → Prop) (n n' : Nat) (fm : Bool × Bool) (fa : Bool) (fp : Bool × Bool) (s s' : St K X B R) : Prop where
  corr : Corr ρ n n'
  heap : ∀ i j, ρ i j → s.heap i = s'.heap j
  next : ∃ k, s.next = n + k ∧ s'.next = n' + k
  pset : CSetRel ρ s.pset s'.pset
  prevPset : CSetRel ρ s.prevPset s'.prevPset
  mset : fm.1 = true → CSetRel ρ s.mset s'.mset
  kset : fm.2 = true → CSetRel ρ s.kset s'.kset
  aset : fa = true → CSetRel ρ s.aset s'.aset
  prevAset : fa = true → CSetRel ρ s.prevAset s'.prevAset
  prevReward : fa = true → s.prevReward = s'.prevReward
  prevPred : fa = true → s.prevPred = s'.prevPred
  prevState : fa = true → s.prevState = s'.prevState
  pa : fp.1 = true → s.pa = s'.pa
  nr : fp.2 = true → s.nr = s'.nr
  error : s.error = s'.error
  msetSize : s.msetSize = s'.msetSize
  asetSize : s.asetSize = s'.asetSize
  mfrac : s.mfrac = s'.mfrac
  time : s.time = s'.time
  explore : s.explore = s'.explore
  rng : s.rng = s'.rng

/-- Both computations return related values or fail in the same way. -/
def ResRel {α β : Type} (Q : α → β → Prop) : Res α → Res β → Prop
  | .ok a, .ok b => Q a b
  | .error e, .error f => e = f
  | _, _ => False

theorem ResRel.bind {α β γ δ : Type} {Q : α → β → Prop} {P : γ → δ → Prop} {m : Res α} {m' : Res β}
    {f : α → Res γ} {g : β → Res δ} (h : ResRel Q m m') (k : ∀ a b, Q a b → ResRel P (f a) (g b)) :
    ResRel P (m >>= f) (m' >>= g) := by
  cases m <;> cases m'
  · exact h
  · exact h.elim
  · exact h.elim
  · exact k _ _ h

theorem ResRel.mono {α β : Type} {Q P : α → β → Prop} {m : Res α} {m' : Res β} (h : ResRel Q m m')
    (k : ∀ a b, Q a b → P a b) : ResRel P m m' := by
  cases m <;> cases m'
  · exact h
  · exact h.elim
  · exact h.elim
  · exact k _ _ h

theorem ResRel.refl {α : Type} : ∀ m : Res α, ResRel Eq m m
  | .ok _ => rfl
  | .error _ => rfl

theorem ResRel.of_eq {α : Type} {m m' : Res α} (h : m = m') : ResRel Eq m m' := h ▸ .refl m

variable {ρ : Nat → Nat → Prop} {n n' : Nat} {fm fp : Bool × Bool} {b fa : Bool} {s s' : St K X B R}

theorem CSetRel.empty : CSetRel ρ {} {} := ⟨.nil, rfl, rfl⟩

theorem CSetRel.add {t t' : CSet} (h : CSetRel ρ t t') {i j : Nat} (hi : ρ i j) (v : Int) :
    CSetRel ρ (t.add i v) (t'.add j v) :=
  ⟨.cons hi h.list, congrArg (· + 1) h.size, congrArg (· + v) h.num⟩

/-- Rules at corresponding addresses are the same. -/
theorem filterMap_eq {f f' : Nat → Option (Cl K B)} {l l' : List Nat} (h : List.Forall₂ ρ l l')
    (e : ∀ i j, ρ i j → f i = f' j) : l.filterMap f = l'.filterMap f' := by
  induction h with
  | nil => rfl
  | cons hi _ ih => rw [List.filterMap_cons, List.filterMap_cons, e _ _ hi, ih]

namespace StRel

theorem rd (h : StRel ρ n n' fm fa fp s s') {i j : Nat} (hi : ρ i j) : s.rd i = s'.rd j := by
  unfold St.rd
  rw [h.heap i j hi]

theorem rds (h : StRel ρ n n' fm fa fp s s') : ∀ {l l' : List Nat}, List.Forall₂ ρ l l' →
    s.rds l = s'.rds l'
  | _, _, .nil => rfl
  | _, _, .cons hi hl => by
    have := h.rds hl
    unfold St.rds at this ⊢
    rw [List.mapM_cons, List.mapM_cons, h.rd hi, this]

theorem put (h : StRel ρ n n' fm fa fp s s') {i j : Nat} (hi : ρ i j) (c : Cl K B) :
    StRel ρ n n' fm fa fp (s.put i c) (s'.put j c) :=
  { h with
    heap := fun a b hab => by
      show (if a = i then some c else s.heap a) = (if b = j then some c else s'.heap b)
      have := h.corr.inj a b i j hab hi
      by_cases e : a = i
      · rw [if_pos e, if_pos (this.1 e)]
      · rw [if_neg e, if_neg (fun k => e (this.2 k)), h.heap a b hab] }

theorem alloc (h : StRel ρ n n' fm fa fp s s') (c : Cl K B) :
    ρ (s.alloc c).1 (s'.alloc c).1 ∧ StRel ρ n n' fm fa fp (s.alloc c).2 (s'.alloc c).2 := by
  obtain ⟨k, e1, e2⟩ := h.next
  have hi : ρ s.next s'.next := by rw [e1, e2]; exact h.corr.fresh k
  refine ⟨hi, { h with
    heap := fun a b hab => ?_
    next := ⟨k + 1, congrArg (· + 1) e1, congrArg (· + 1) e2⟩ }⟩
  show (if a = s.next then some c else s.heap a) = (if b = s'.next then some c else s'.heap b)
  have := h.corr.inj a b _ _ hab hi
  by_cases e : a = s.next
  · rw [if_pos e, if_pos (this.1 e)]
  · rw [if_neg e, if_neg (fun k => e (this.2 k)), h.heap a b hab]

theorem freeCl (h : StRel ρ n n' fm fa fp s s') {i j : Nat} (hi : ρ i j) :
    ResRel (StRel ρ n n' fm fa fp) (s.freeCl i) (s'.freeCl j) := by
  unfold St.freeCl
  rw [← h.heap i j hi]
  cases s.heap i with
  | none => rfl
  | some c =>
    refine { h with heap := fun a b hab => ?_ }
    show (if a = i then none else s.heap a) = (if b = j then none else s'.heap b)
    have := h.corr.inj a b i j hab hi
    by_cases e : a = i
    · rw [if_pos e, if_pos (this.1 e)]
    · rw [if_neg e, if_neg (fun k => e (this.2 k)), h.heap a b hab]

theorem validateGo (h : StRel ρ n n' fm fa fp s s') : ∀ {l l' : List Nat}, List.Forall₂ ρ l l' →
    ResRel (CSetRel ρ) (Xcsf.validateGo s l) (Xcsf.validateGo s' l')
  | _, _, .nil => CSetRel.empty
  | _, _, .cons hi hl => by
    unfold Xcsf.validateGo
    refine ResRel.bind (.of_eq (h.rd hi)) ?_
    rintro c _ rfl
    refine ResRel.bind (h.validateGo hl) ?_
    intro t t' ht
    split
    · exact ht
    · exact ht.add hi c.num

theorem validate (h : StRel ρ n n' fm fa fp s s') {t t' : CSet} (ht : CSetRel ρ t t') :
    ResRel (CSetRel ρ) (Xcsf.validate s t) (Xcsf.validate s' t') := h.validateGo ht.list

theorem killGo : ∀ {l l' : List Nat} {s s' : St K X B R}, StRel ρ n n' fm fa fp s s' →
    List.Forall₂ ρ l l' → ResRel (StRel ρ n n' fm fa fp) (Xcsf.killGo s l) (Xcsf.killGo s' l')
  | _, _, _, _, h, .nil => h
  | _, _, _, _, h, .cons hi hl => by
    unfold Xcsf.killGo
    exact ResRel.bind (h.freeCl hi) fun _ _ h => killGo h hl

end StRel
end

section
variable {K X B R : Type} [Zero K] [One K] [Add K] [Sub K] [Mul K] [Div K]
  [LT K] [DecidableLT K] [IntCast K] [DecidableEq K]
variable {ρ : Nat → Nat → Prop} {n n' : Nat} {fm fp : Bool × Bool} {b fa : Bool} {s s' : St K X B R}
variable (par : Params K) (kit : Kit K X B R)

theorem forall2_get {l l' : List Nat} (h : List.Forall₂ ρ l l') (i : Nat) :
    (l[i]? = none ∧ l'[i]? = none) ∨ ∃ a b, l[i]? = some a ∧ l'[i]? = some b ∧ ρ a b := by
  induction h generalizing i with
  | nil => exact .inl ⟨rfl, rfl⟩
  | cons hi hl ih =>
    cases i with
    | zero => exact .inr ⟨_, _, rfl, rfl, hi⟩
    | succ i => exact ih i

theorem forall2_eraseIdx {l l' : List Nat} (h : List.Forall₂ ρ l l') (i : Nat) :
    List.Forall₂ ρ (l.eraseIdx i) (l'.eraseIdx i) := by
  induction h generalizing i with
  | nil => exact .nil
  | cons hi hl ih =>
    cases i with
    | zero => exact hl
    | succ i => exact .cons hi (ih i)

namespace StRel

theorem delAt (h : StRel ρ n n' (b, true) fa fp s s') (i : Nat) :
    ResRel (StRel ρ n n' (b, true) fa fp) (Xcsf.delAt s i) (Xcsf.delAt s' i) := by
  unfold Xcsf.delAt
  rcases forall2_get h.pset.list i with ⟨e1, e2⟩ | ⟨a, b, e1, e2, hab⟩
  · rw [e1, e2]; rfl
  · rw [e1, e2]
    refine ResRel.bind (.of_eq (h.rd hab)) ?_
    rintro c _ rfl
    have k := h.put hab { c with num := c.num - 1 }
    dsimp only
    split
    · exact { k with
        kset := fun _ => (h.kset rfl).add hab _
        pset := ⟨forall2_eraseIdx h.pset.list i, congrArg (· - 1) h.pset.size,
          congrArg (· - 1) h.pset.num⟩ }
    · exact { k with pset := ⟨h.pset.list, h.pset.size, congrArg (· - 1) h.pset.num⟩ }

/-- The same numbers drawn. -/
theorem withRng (h : StRel ρ n n' fm fa fp s s') (r : R) :
    StRel ρ n n' fm fa fp { s with rng := r } { s' with rng := r } :=
  { h with rng := rfl }

theorem psetDel (h : StRel ρ n n' (b, true) fa fp s s') :
    ResRel (StRel ρ n n' (b, true) fa fp) (Xcsf.psetDel par kit s) (Xcsf.psetDel par kit s') := by
  unfold Xcsf.psetDel
  have e : delChoose par kit s = delChoose par kit s' := by
    unfold delChoose
    rw [h.rds h.pset.list, h.pset.num, h.error, h.rng]
  refine ResRel.bind (.of_eq e) ?_
  rintro p _ rfl
  exact (h.withRng p.2).delAt p.1

theorem enforceGo : ∀ (m : Nat) {s s' : St K X B R}, StRel ρ n n' (b, true) fa fp s s' →
    ResRel (StRel ρ n n' (b, true) fa fp) (Xcsf.enforceGo par kit m s) (Xcsf.enforceGo par kit m s')
  | 0, s, s', h => by
    unfold Xcsf.enforceGo
    rw [h.pset.num]
    split
    · rfl
    · exact h
  | m + 1, s, s', h => by
    unfold Xcsf.enforceGo
    rw [h.pset.num]
    split
    · exact ResRel.bind (h.psetDel par kit) fun _ _ h => enforceGo m h
    · exact h

theorem enforce (h : StRel ρ n n' (b, true) fa fp s s') :
    ResRel (StRel ρ n n' (b, true) fa fp) (Xcsf.enforce par kit s) (Xcsf.enforce par kit s') := by
  unfold Xcsf.enforce
  rw [h.pset.num]
  exact enforceGo par kit _ h

theorem markActions (h : StRel ρ n n' fm fa fp s s') : ∀ {l l' : List Nat} (cov : List Bool),
    List.Forall₂ ρ l l' → Xcsf.markActions s l cov = Xcsf.markActions s' l' cov
  | _, _, _, .nil => rfl
  | _, _, cov, .cons hi hl => by
    unfold Xcsf.markActions
    rw [h.rd hi]
    simp only [h.markActions _ hl]

theorem actionCoverage (h : StRel ρ n n' (true, true) fa fp s s') :
    Xcsf.actionCoverage par s = Xcsf.actionCoverage par s' := by
  unfold Xcsf.actionCoverage
  rw [h.markActions _ (h.mset rfl).list]

theorem coverOne (h : StRel ρ n n' (true, true) fa fp s s') (x : X) (a : Nat) :
    ResRel (StRel ρ n n' (true, true) fa fp) (Xcsf.coverOne par kit x a s) (Xcsf.coverOne par kit x a s') := by
  unfold Xcsf.coverOne
  simp only [h.rng, h.explore]
  refine ResRel.bind (.refl _) ?_
  rintro q _ rfl
  have hs : StRel ρ n n' (true, true) fa fp { s with rng := q.2 } { s' with rng := q.2 } := { h with rng := rfl }
  have e1 : (s.mset.num : K) = (s'.mset.num : K) := by rw [(h.mset rfl).num]
  simp only [e1, h.time]
  obtain ⟨k1, k2⟩ := hs.alloc
    { clInit par ((s'.mset.num : K) + 1) s'.time q.1 with m := true, action := (a : Int) }
  exact { k2 with time := rfl, explore := rfl, pset := h.pset.add k1 _, mset := fun _ => (h.mset rfl).add k1 _ }

theorem coverActions (x : X) : ∀ (cov : List Bool) (a : Nat) {s s' : St K X B R},
    StRel ρ n n' (true, true) fa fp s s' → ResRel (StRel ρ n n' (true, true) fa fp)
      (Xcsf.coverActions par kit x cov a s) (Xcsf.coverActions par kit x cov a s')
  | [], _, _, _, h => h
  | true :: cov, a, _, _, h => coverActions x cov (a + 1) h
  | false :: cov, a, _, _, h => by
    unfold Xcsf.coverActions
    exact ResRel.bind (h.coverOne par kit x a) fun _ _ h => coverActions x cov (a + 1) h

theorem coverIter (x : X) (cov : List Bool) (h : StRel ρ n n' (true, true) fa fp s s') :
    ResRel (fun p q => p.1 = q.1 ∧ p.2.1 = q.2.1 ∧ StRel ρ n n' (true, true) fa fp p.2.2 q.2.2)
      (Xcsf.coverIter par kit x cov s) (Xcsf.coverIter par kit x cov s') := by
  unfold Xcsf.coverIter
  refine ResRel.bind (h.coverActions par kit x cov 0) fun s1 s1' h1 => ?_
  refine ResRel.bind (h1.enforce par kit) fun s2 s2' h2 => ?_
  rw [h1.pset.size, h2.pset.size]
  split
  · refine ResRel.bind (h2.validate (h2.mset rfl)) fun t t' ht => ?_
    dsimp only
    rw [ht.size, (h2.mset rfl).size]
    have h3 : StRel ρ n n' (true, true) fa fp { s2 with mset := t } { s2' with mset := t' } :=
      { h2 with mset := fun _ => ht }
    split
    · refine ResRel.bind (.of_eq (h3.actionCoverage par)) ?_
      rintro p _ rfl
      exact ⟨rfl, rfl, h3⟩
    · exact ⟨rfl, rfl, h3⟩
  · exact ⟨rfl, rfl, h2⟩

theorem coverLoop (x : X) : ∀ (m : Nat) (cov : List Bool) (b : Bool) {s s' : St K X B R},
    StRel ρ n n' (true, true) fa fp s s' → ResRel (StRel ρ n n' (true, true) fa fp)
      (Xcsf.coverLoop par kit x m cov b s) (Xcsf.coverLoop par kit x m cov b s')
  | 0, _, true, _, _, h => h
  | m + 1, _, true, _, _, h => h
  | 0, cov, false, _, _, h => by
    unfold Xcsf.coverLoop
    exact ResRel.bind (h.coverIter par kit x cov) fun _ _ _ => rfl
  | m + 1, cov, false, _, _, h => by
    unfold Xcsf.coverLoop
    refine ResRel.bind (h.coverIter par kit x cov) ?_
    rintro ⟨c1, d1, t⟩ ⟨c2, d2, t'⟩ ⟨e1, e2, ht⟩
    cases e1; cases e2
    exact coverLoop x m _ _ ht

theorem cover (x : X) (h : StRel ρ n n' (true, true) fa fp s s') :
    ResRel (StRel ρ n n' (true, true) fa fp) (Xcsf.cover par kit x s) (Xcsf.cover par kit x s') := by
  unfold Xcsf.cover
  refine ResRel.bind (.of_eq (h.actionCoverage par)) ?_
  rintro p _ rfl
  exact h.coverLoop par kit x _ _ _

theorem matchGo (x : X) : ∀ {l l' : List Nat} {s s' : St K X B R}, StRel ρ n n' (true, true) fa fp s s' →
    List.Forall₂ ρ l l' → ResRel (StRel ρ n n' (true, true) fa fp) (Xcsf.matchGo kit x l s)
      (Xcsf.matchGo kit x l' s')
  | _, _, _, _, h, .nil => h
  | _, _, s, s', h, .cons (a := i) (b := j) hi hl => by
    unfold Xcsf.matchGo
    refine ResRel.bind (.of_eq (h.rd hi)) ?_
    rintro c _ rfl
    have key : ∀ (t t' : St K X B R) (c : Cl K B), StRel ρ n n' (true, true) fa fp t t' →
        ResRel (StRel ρ n n' (true, true) fa fp)
          (Xcsf.matchGo kit x _ { t.put i { c with
              action := (kit.act t.explore c.body x t.rng).1
              body := (kit.act t.explore c.body x t.rng).2.1 } with
            rng := (kit.act t.explore c.body x t.rng).2.2 })
          (Xcsf.matchGo kit x _ { t'.put j { c with
              action := (kit.act t'.explore c.body x t'.rng).1
              body := (kit.act t'.explore c.body x t'.rng).2.1 } with
            rng := (kit.act t'.explore c.body x t'.rng).2.2 }) := fun t t' c ht => by
      rw [ht.explore, ht.rng]
      exact matchGo x { ht.put hi _ with rng := rfl } hl
    rw [h.rng, h.explore]
    generalize kit.cmatch s'.explore c.body x s'.rng = q
    obtain ⟨m, b, r⟩ := q
    have k : ∀ c, StRel ρ n n' (true, true) fa fp { s.put i c with rng := r }
        { s'.put j c with rng := r } := fun c => { h.put hi c with rng := rfl }
    cases m with
    | true =>
      exact key _ _ { c with m := true, body := b, mtotal := c.mtotal + 1, age := c.age + 1 }
        { k _ with mset := fun _ => (h.mset rfl).add hi c.num }
    | false =>
      have k0 := k { c with m := false, body := b, age := c.age + 1 }
      have k1 := key _ _ { c with m := false, body := b, age := c.age + 1 } k0
      cases hp : kit.parallel with
      | true => simpa [hp] using k1
      | false => simpa [hp] using matchGo x k0 hl

theorem clsetMatch (x : X) (dc : Bool) (h : StRel ρ n n' (true, true) fa fp s s') :
    ResRel (StRel ρ n n' (true, true) fa fp) (Xcsf.clsetMatch par kit x dc s)
      (Xcsf.clsetMatch par kit x dc s') := by
  unfold Xcsf.clsetMatch
  refine ResRel.bind (h.matchGo kit x h.pset.list) fun s1 s1' h1 => ?_
  have fin : ∀ {s2 s2' : St K X B R}, StRel ρ n n' (true, true) fa fp s2 s2' →
      ResRel (StRel ρ n n' (true, true) fa fp)
        (s2.rds s2.pset.list >>= fun cs => .ok { s2 with
          msetSize := s2.msetSize + ((s2.mset.size : K) - s2.msetSize) * par.beta
          mfrac := s2.mfrac + (mfracOf par kit cs - s2.mfrac) * par.beta })
        (s2'.rds s2'.pset.list >>= fun cs => .ok { s2' with
          msetSize := s2'.msetSize + ((s2'.mset.size : K) - s2'.msetSize) * par.beta
          mfrac := s2'.mfrac + (mfracOf par kit cs - s2'.mfrac) * par.beta }) := fun {s2 s2'} h2 => by
    refine ResRel.bind (.of_eq (h2.rds h2.pset.list)) ?_
    rintro cs _ rfl
    exact { h2 with
      msetSize := by dsimp only; rw [h2.msetSize, (h2.mset rfl).size]
      mfrac := by dsimp only; rw [h2.mfrac] }
  dsimp only
  rw [(h1.mset rfl).size]
  split
  · exact ResRel.bind (h1.cover par kit x) fun _ _ h2 => fin h2
  · exact fin h1

theorem actionGo (a : Int) (h : StRel ρ n n' fm fa fp s s') : ∀ {l l' : List Nat} {t t' : CSet},
    List.Forall₂ ρ l l' → CSetRel ρ t t' → ResRel (CSetRel ρ) (Xcsf.actionGo s a l t)
      (Xcsf.actionGo s' a l' t')
  | _, _, _, _, .nil, ht => ht
  | _, _, _, _, .cons hi hl, ht => by
    unfold Xcsf.actionGo
    refine ResRel.bind (.of_eq (h.rd hi)) ?_
    rintro c _ rfl
    refine h.actionGo a hl ?_
    split
    · exact ht.add hi _
    · exact ht

theorem clsetAction (a : Int) (h : StRel ρ n n' (true, true) true fp s s') :
    ResRel (StRel ρ n n' (true, true) true fp) (Xcsf.clsetAction par a s) (Xcsf.clsetAction par a s') := by
  unfold Xcsf.clsetAction
  refine ResRel.bind (h.actionGo a (h.mset rfl).list (h.aset rfl)) fun t t' ht => ?_
  exact { h with aset := fun _ => ht, asetSize := by dsimp only; rw [h.asetSize, ht.size] }

theorem updateGo (x : X) (y : List K) (num : Int) (cur : Bool) : ∀ {l l' : List Nat}
    {s s' : St K X B R}, StRel ρ n n' fm fa fp s s' → List.Forall₂ ρ l l' →
    ResRel (StRel ρ n n' fm fa fp) (Xcsf.updateGo par kit x y num cur l s)
      (Xcsf.updateGo par kit x y num cur l' s')
  | _, _, _, _, h, .nil => h
  | _, _, _, _, h, .cons hi hl => by
    unfold Xcsf.updateGo
    refine ResRel.bind (.of_eq (h.rd hi)) ?_
    rintro c _ rfl
    dsimp only
    rw [h.rng, h.explore]
    exact updateGo x y num cur { h.put hi _ with rng := rfl } hl

theorem fitGo (sum : K) : ∀ {l l' : List Nat} {s s' : St K X B R}, StRel ρ n n' fm fa fp s s' →
    List.Forall₂ ρ l l' → ResRel (StRel ρ n n' fm fa fp) (Xcsf.fitGo par kit sum l s)
      (Xcsf.fitGo par kit sum l' s')
  | _, _, _, _, h, .nil => h
  | _, _, _, _, h, .cons hi hl => by
    unfold Xcsf.fitGo
    refine ResRel.bind (.of_eq (h.rd hi)) ?_
    rintro c _ rfl
    exact fitGo sum (h.put hi _) hl

theorem updateFit {t t' : CSet} (ht : CSetRel ρ t t') (h : StRel ρ n n' fm fa fp s s') :
    ResRel (StRel ρ n n' fm fa fp) (Xcsf.updateFit par kit t s) (Xcsf.updateFit par kit t' s') := by
  unfold Xcsf.updateFit
  rw [ht.size, ht.list.length_eq]
  split
  · rfl
  · refine ResRel.bind (.of_eq (h.rds ht.list)) ?_
    rintro cs _ rfl
    exact h.fitGo par kit _ ht.list

/-- Rules that correspond, or none. -/
def OptRel (ρ : Nat → Nat → Prop) : Option Nat → Option Nat → Prop
  | none, none => True
  | some i, some j => ρ i j
  | _, _ => False

theorem findSubsumer (h : StRel ρ n n' fm fa fp s s') : ∀ {l l' : List Nat} {o o' : Option Nat},
    List.Forall₂ ρ l l' → OptRel ρ o o' → ResRel (OptRel ρ) (Xcsf.findSubsumer par kit s l o)
      (Xcsf.findSubsumer par kit s' l' o')
  | _, _, _, _, .nil, ho => ho
  | _, _, o, o', .cons hi hl, ho => by
    unfold Xcsf.findSubsumer
    refine ResRel.bind (.of_eq (h.rd hi)) ?_
    rintro c _ rfl
    have go : ∀ b : Bool, ResRel (OptRel ρ)
        (Xcsf.findSubsumer par kit s _ (if subsumer par c && b then some _ else o))
        (Xcsf.findSubsumer par kit s' _ (if subsumer par c && b then some _ else o')) := fun b => by
      refine h.findSubsumer hl ?_
      split
      · exact hi
      · exact ho
    match o, o', ho with
    | none, none, _ => exact go true
    | some i, some j, hij =>
      dsimp only
      rw [h.rd hij]
      cases s'.rd j with
      | error e => rfl
      | ok cb => exact go _

theorem subsumeGo {sid sid' : Nat} (hs : ρ sid sid') : ∀ {l l' : List Nat} (d : Bool)
    {s s' : St K X B R}, StRel ρ n n' (true, true) fa fp s s' → List.Forall₂ ρ l l' →
    ResRel (fun p q => p.1 = q.1 ∧ StRel ρ n n' (true, true) fa fp p.2 q.2) (Xcsf.subsumeGo kit sid l d s)
      (Xcsf.subsumeGo kit sid' l' d s')
  | _, _, _, _, _, h, .nil => ⟨rfl, h⟩
  | _, _, d, s, s', h, .cons (a := i) (b := j) hi hl => by
    unfold Xcsf.subsumeGo
    refine ResRel.bind (.of_eq (h.rd hi)) ?_
    rintro c _ rfl
    refine ResRel.bind (.of_eq (h.rd hs)) ?_
    rintro sc _ rfl
    have e : (sid ≠ i ∧ kit.general sc.body c.body = true) ↔
        (sid' ≠ j ∧ kit.general sc.body c.body = true) := by
      rw [Ne, Ne, h.corr.inj _ _ _ _ hs hi]
    by_cases hc : sid ≠ i ∧ kit.general sc.body c.body = true
    · rw [if_pos hc, if_pos (e.1 hc)]
      exact subsumeGo hs true
        { (h.put hs _).put hi _ with kset := fun _ => (h.kset rfl).add hi 0 } hl
    · rw [if_neg hc, if_neg (fun k => hc (e.2 k))]
      exact subsumeGo hs d h hl

theorem subsumption {t t' : CSet} (ht : CSetRel ρ t t') (h : StRel ρ n n' (true, true) fa fp s s') :
    ResRel (fun p q => CSetRel ρ p.1 q.1 ∧ StRel ρ n n' (true, true) fa fp p.2 q.2)
      (Xcsf.subsumption par kit t s) (Xcsf.subsumption par kit t' s') := by
  unfold Xcsf.subsumption
  refine ResRel.bind (h.findSubsumer par kit ht.list (o := none) (o' := none) trivial) ?_
  intro o o' ho
  match o, o', ho with
  | none, none, _ => exact ⟨ht, h⟩
  | some i, some j, hij =>
    refine ResRel.bind (subsumeGo kit hij false h ht.list) ?_
    rintro ⟨d, s1⟩ ⟨d', s1'⟩ ⟨e, h1⟩
    cases e
    dsimp only at h1 ⊢
    split
    · refine ResRel.bind (h1.validate ht) fun t1 t1' ht1 => ?_
      refine ResRel.bind (h1.validate h1.pset) fun p p' hp => ?_
      exact ⟨ht1, { h1 with pset := hp }⟩
    · exact ⟨ht, h1⟩

theorem clsetUpdate {t t' : CSet} (ht : CSetRel ρ t t') (x : X) (y : List K) (cur : Bool)
    (h : StRel ρ n n' (true, true) fa fp s s') :
    ResRel (fun p q => CSetRel ρ p.1 q.1 ∧ StRel ρ n n' (true, true) fa fp p.2 q.2)
      (Xcsf.clsetUpdate par kit t x y cur s) (Xcsf.clsetUpdate par kit t' x y cur s') := by
  unfold Xcsf.clsetUpdate
  rw [ht.num]
  refine ResRel.bind (h.updateGo par kit x y _ cur ht.list) fun s1 s1' h1 => ?_
  refine ResRel.bind (h1.updateFit par kit ht) fun s2 s2' h2 => ?_
  split
  · exact h2.subsumption par kit ht
  · exact ⟨ht, h2⟩

theorem setTimes (time : Int) : ∀ {l l' : List Nat} {s s' : St K X B R},
    StRel ρ n n' fm fa fp s s' → List.Forall₂ ρ l l' →
    ResRel (StRel ρ n n' fm fa fp) (Xcsf.setTimes time l s) (Xcsf.setTimes time l' s')
  | _, _, _, _, h, .nil => h
  | _, _, _, _, h, .cons hi hl => by
    unfold Xcsf.setTimes
    refine ResRel.bind (.of_eq (h.rd hi)) ?_
    rintro c _ rfl
    exact setTimes time (h.put hi _) hl

theorem killKset (h : StRel ρ n n' (b, true) fa fp s s') :
    ResRel (StRel ρ n n' (b, true) fa fp) (Xcsf.killKset s) (Xcsf.killKset s') := by
  unfold Xcsf.killKset
  exact ResRel.bind (h.killGo (h.kset rfl).list) fun _ _ h =>
    { h with kset := fun _ => CSetRel.empty }

/-! ### The evolutionary algorithm -/

theorem incNum (h : StRel ρ n n' fm fa fp s s') {i j : Nat} (hi : ρ i j) :
    ResRel (StRel ρ n n' fm fa fp) (Xcsf.incNum s i) (Xcsf.incNum s' j) := by
  unfold Xcsf.incNum
  refine ResRel.bind (.of_eq (h.rd hi)) ?_
  rintro c _ rfl
  exact { h.put hi _ with pset := ⟨h.pset.list, h.pset.size, congrArg (· + 1) h.pset.num⟩ }

theorem incFree (h : StRel ρ n n' fm fa fp s s') {i j p q : Nat} (hp : ρ p q) (hi : ρ i j) :
    ResRel (StRel ρ n n' fm fa fp) (Xcsf.incNum s p >>= fun s => s.freeCl i)
      (Xcsf.incNum s' q >>= fun s => s.freeCl j) :=
  ResRel.bind (h.incNum hp) fun _ _ h => h.freeCl hi

theorem addPset (h : StRel ρ n n' fm fa fp s s') {i j : Nat} (hi : ρ i j) :
    ResRel (StRel ρ n n' fm fa fp) (Xcsf.addPset s i) (Xcsf.addPset s' j) := by
  unfold Xcsf.addPset
  refine ResRel.bind (.of_eq (h.rd hi)) ?_
  rintro c _ rfl
  exact { h with pset := h.pset.add hi _ }

theorem candidates (h : StRel ρ n n' fm fa fp s s') (b : B) : ∀ {l l' : List Nat},
    List.Forall₂ ρ l l' → ResRel (List.Forall₂ ρ) (Xcsf.candidates par kit s b l)
      (Xcsf.candidates par kit s' b l')
  | _, _, .nil => .nil
  | _, _, .cons hi hl => by
    unfold Xcsf.candidates
    refine ResRel.bind (.of_eq (h.rd hi)) ?_
    rintro c _ rfl
    refine ResRel.bind (h.candidates b hl) fun r r' hr => ?_
    split
    · exact .cons hi hr
    · exact hr

theorem eaSubsume {t t' : List Nat} (ht : List.Forall₂ ρ t t') {i j p1 q1 p2 q2 : Nat} (hi : ρ i j)
    (h1 : ρ p1 q1) (h2 : ρ p2 q2) (h : StRel ρ n n' fm fa fp s s') :
    ResRel (StRel ρ n n' fm fa fp) (Xcsf.eaSubsume par kit t i p1 p2 s)
      (Xcsf.eaSubsume par kit t' j q1 q2 s') := by
  unfold Xcsf.eaSubsume
  refine ResRel.bind (.of_eq (h.rd hi)) ?_
  rintro c _ rfl
  refine ResRel.bind (.of_eq (h.rd h1)) ?_
  rintro c1 _ rfl
  split
  · exact h.incFree h1 hi
  · refine ResRel.bind (.of_eq (h.rd h2)) ?_
    rintro c2 _ rfl
    split
    · exact h.incFree h2 hi
    · refine ResRel.bind (h.candidates par kit c.body ht) fun l l' hl => ?_
      rw [hl.length_eq]
      split
      · dsimp only
        rw [h.rng]
        split
        · rcases forall2_get hl (uniformInt kit 0 (l'.length : Int) s'.rng).1.toNat with
            ⟨e1, e2⟩ | ⟨a, b, e1, e2, hab⟩
          · rw [e1, e2]; rfl
          · rw [e1, e2]
            exact (h.withRng _).incFree hab hi
        · rfl
      · exact h.addPset hi

theorem eaAdd {t t' : List Nat} (ht : List.Forall₂ ρ t t') {i j p1 q1 p2 q2 : Nat} (h1 : ρ p1 q1)
    (h2 : ρ p2 q2) (hi : ρ i j) (cm mm : Bool) (h : StRel ρ n n' fm fa fp s s') :
    ResRel (StRel ρ n n' fm fa fp) (Xcsf.eaAdd par kit t p1 p2 i cm mm s)
      (Xcsf.eaAdd par kit t' q1 q2 j cm mm s') := by
  unfold Xcsf.eaAdd
  split
  · exact h.incFree h1 hi
  · split
    · exact h.eaSubsume par kit ht hi h1 h2
    · exact h.addPset hi

theorem selectRw {t t' : List Nat} (ht : List.Forall₂ ρ t t') (fits : List K) (total : K) (r : R) :
    ResRel (fun p q => ρ p.1 q.1 ∧ p.2 = q.2) (Xcsf.selectRw kit t fits total r)
      (Xcsf.selectRw kit t' fits total r) := by
  unfold Xcsf.selectRw
  generalize uniform kit 0 total r = u
  obtain ⟨p, r⟩ := u
  dsimp only
  cases spin p fits with
  | none => rfl
  | some k =>
    dsimp only
    rcases forall2_get ht k with ⟨e1, e2⟩ | ⟨a, b, e1, e2, hab⟩
    · rw [e1, e2]; rfl
    · rw [e1, e2]; exact ⟨hab, rfl⟩

/-- Winners that correspond, or none. -/
def WinRel (ρ : Nat → Nat → Prop) : Option (Nat × K) → Option (Nat × K) → Prop
  | none, none => True
  | some p, some q => ρ p.1 q.1 ∧ p.2 = q.2
  | _, _ => False

theorem tournamentPass : ∀ {l l' : List (Nat × K)} {w w' : Option (Nat × K)} (r : R),
    List.Forall₂ (fun p q => ρ p.1 q.1 ∧ p.2 = q.2) l l' → WinRel ρ w w' →
    WinRel ρ (Xcsf.tournamentPass par kit l w r).1 (Xcsf.tournamentPass par kit l' w' r).1 ∧
      (Xcsf.tournamentPass par kit l w r).2 = (Xcsf.tournamentPass par kit l' w' r).2
  | _, _, _, _, r, .nil, hw => ⟨hw, rfl⟩
  | (i, f) :: _, (j, _) :: _, w, w', r, .cons ⟨hi, e⟩ hl, hw => by
    cases e
    unfold Xcsf.tournamentPass
    have hb : w.all (fun v => decide (v.2 < f)) = w'.all (fun v => decide (v.2 < f)) := by
      match w, w', hw with
      | none, none, _ => rfl
      | some p, some q, hpq => simp only [Option.all_some, hpq.2]
    dsimp only
    rw [hb]
    refine tournamentPass _ hl ?_
    split
    · exact ⟨hi, rfl⟩
    · exact hw

theorem selectTournament {l l' : List (Nat × K)}
    (hl : List.Forall₂ (fun p q => ρ p.1 q.1 ∧ p.2 = q.2) l l') : ∀ (m : Nat) (r : R),
    ResRel (fun p q => ρ p.1 q.1 ∧ p.2 = q.2) (Xcsf.selectTournament par kit l m r)
      (Xcsf.selectTournament par kit l' m r)
  | 0, _ => rfl
  | m + 1, r => by
    unfold Xcsf.selectTournament
    obtain ⟨h1, h2⟩ := tournamentPass par kit (w := none) (w' := none) r hl trivial
    generalize Xcsf.tournamentPass par kit l none r = a at h1 h2 ⊢
    generalize Xcsf.tournamentPass par kit l' none r = b at h1 h2 ⊢
    obtain ⟨w, r1⟩ := a
    obtain ⟨w', r2⟩ := b
    cases h2
    match w, w', h1 with
    | none, none, _ => exact selectTournament hl m _
    | some p, some q, h => exact ⟨h.1, rfl⟩

theorem forall2_zip {l l' : List Nat} (h : List.Forall₂ ρ l l') (f : List K) :
    List.Forall₂ (fun p q : Nat × K => ρ p.1 q.1 ∧ p.2 = q.2) (l.zip f) (l'.zip f) := by
  induction h generalizing f with
  | nil => exact .nil
  | cons hi hl ih =>
    cases f with
    | nil => exact .nil
    | cons v f => exact .cons ⟨hi, rfl⟩ (ih f)

theorem eaSelect {t t' : List Nat} (ht : List.Forall₂ ρ t t') (h : StRel ρ n n' fm fa fp s s') :
    ResRel (fun p q => ρ p.1 q.1 ∧ ρ p.2.1 q.2.1 ∧ p.2.2 = q.2.2) (Xcsf.eaSelect par kit t s)
      (Xcsf.eaSelect par kit t' s') := by
  unfold Xcsf.eaSelect
  refine ResRel.bind (.of_eq (h.rds ht)) ?_
  rintro cs _ rfl
  rw [h.rng]
  split
  · refine ResRel.bind (selectTournament par kit (forall2_zip ht _) _ _) ?_
    rintro ⟨a, r⟩ ⟨b, r'⟩ ⟨hab, e⟩
    cases e
    refine ResRel.bind (selectTournament par kit (forall2_zip ht _) _ _) ?_
    rintro ⟨c, r⟩ ⟨d, r'⟩ ⟨hcd, e⟩
    cases e
    exact ⟨hab, hcd, rfl⟩
  · refine ResRel.bind (selectRw kit ht _ _ _) ?_
    rintro ⟨a, r⟩ ⟨b, r'⟩ ⟨hab, e⟩
    cases e
    refine ResRel.bind (selectRw kit ht _ _ _) ?_
    rintro ⟨c, r⟩ ⟨d, r'⟩ ⟨hcd, e⟩
    cases e
    exact ⟨hab, hcd, rfl⟩

theorem eaPair {t t' : List Nat} (ht : List.Forall₂ ρ t t') {p1 q1 p2 q2 : Nat} (h1 : ρ p1 q1)
    (h2 : ρ p2 q2) (h : StRel ρ n n' fm fa fp s s') :
    ResRel (StRel ρ n n' fm fa fp) (Xcsf.eaPair par kit t p1 p2 s)
      (Xcsf.eaPair par kit t' q1 q2 s') := by
  unfold Xcsf.eaPair
  refine ResRel.bind (.of_eq (h.rd h1)) ?_
  rintro c1 _ rfl
  refine ResRel.bind (.of_eq (h.rd h2)) ?_
  rintro c2 _ rfl
  dsimp only
  rw [h.rng]
  refine ResRel.bind (.refl _) ?_
  rintro m1 _ rfl
  refine ResRel.bind (.refl _) ?_
  rintro m2 _ rfl
  have h0 : StRel ρ n n' fm fa fp { s with rng := m2.2.2 } { s' with rng := m2.2.2 } :=
    { h with rng := rfl }
  obtain ⟨k1, k2⟩ := h0.alloc _
  obtain ⟨k3, k4⟩ := k2.alloc _
  refine ResRel.bind (k4.eaAdd par kit ht h1 h2 k1 _ _) fun s1 s1' h3 => ?_
  exact h3.eaAdd par kit ht h2 h1 k3 _ _

theorem eaLoop {t t' : List Nat} (ht : List.Forall₂ ρ t t') {p1 q1 p2 q2 : Nat} (h1 : ρ p1 q1)
    (h2 : ρ p2 q2) : ∀ (m : Nat) (i : Int) {s s' : St K X B R}, StRel ρ n n' fm fa fp s s' →
    ResRel (StRel ρ n n' fm fa fp) (Xcsf.eaLoop par kit t p1 p2 m i s)
      (Xcsf.eaLoop par kit t' q1 q2 m i s')
  | 0, i, _, _, h => by
    unfold Xcsf.eaLoop
    split
    · rfl
    · exact h
  | m + 1, i, _, _, h => by
    unfold Xcsf.eaLoop
    split
    · exact ResRel.bind (h.eaPair par kit ht h1 h2) fun _ _ h => eaLoop ht h1 h2 m _ h
    · exact h

theorem eaBreed {t t' : CSet} (ht : CSetRel ρ t t') (h : StRel ρ n n' fm fa fp s s') :
    ResRel (StRel ρ n n' fm fa fp) (Xcsf.eaBreed par kit t s) (Xcsf.eaBreed par kit t' s') := by
  unfold Xcsf.eaBreed
  rw [h.time]
  refine ResRel.bind (h.setTimes _ ht.list) fun s1 s1' h1 => ?_
  refine ResRel.bind (h1.eaSelect par kit ht.list) ?_
  rintro ⟨a, b, r⟩ ⟨a', b', r'⟩ ⟨ha, hb, e⟩
  cases e
  exact eaLoop par kit ht.list ha hb _ _ { h1 with rng := rfl }

theorem ea {t t' : CSet} (ht : CSetRel ρ t t') (h : StRel ρ n n' (true, true) fa fp s s') :
    ResRel (StRel ρ n n' (true, true) fa fp) (Xcsf.ea par kit t s) (Xcsf.ea par kit t' s') := by
  unfold Xcsf.ea
  have h0 : StRel ρ n n' (true, true) fa fp { s with time := s.time + 1 } { s' with time := s'.time + 1 } :=
    { h with time := congrArg (· + 1) h.time }
  refine ResRel.bind (.of_eq (h0.rds ht.list)) ?_
  rintro cs _ rfl
  have e : eaDue par t cs (s.time + 1) = eaDue par t' cs (s'.time + 1) := by
    unfold eaDue; rw [ht.size, ht.num, h.time]
  dsimp only
  rw [e]
  split
  · exact ResRel.bind (h0.eaBreed par kit ht) fun _ _ h => h.enforce par kit
  · exact h0

/-! ### The prediction array -/

theorem predictGo (x : X) : ∀ {l l' : List Nat} {s s' : St K X B R},
    StRel ρ n n' fm fa fp s s' → List.Forall₂ ρ l l' →
    ResRel (StRel ρ n n' fm fa fp) (Xcsf.predictGo kit x l s) (Xcsf.predictGo kit x l' s')
  | _, _, _, _, h, .nil => h
  | _, _, _, _, h, .cons hi hl => by
    unfold Xcsf.predictGo
    refine ResRel.bind (.of_eq (h.rd hi)) ?_
    rintro c _ rfl
    dsimp only
    rw [h.rng, h.explore]
    exact predictGo x { h.put hi _ with rng := rfl } hl

theorem paBuild (x : X) (h : StRel ρ n n' (true, true) fa fp s s') :
    ResRel (StRel ρ n n' (true, true) fa (true, true)) (Xcsf.paBuild par kit x s) (Xcsf.paBuild par kit x s') := by
  unfold Xcsf.paBuild
  refine ResRel.bind (h.predictGo kit x (h.mset rfl).list) fun s1 s1' h1 => ?_
  refine ResRel.bind (.of_eq (h1.rds (h1.mset rfl).list)) ?_
  rintro cs _ rfl
  refine ResRel.bind (.refl _) ?_
  rintro p _ rfl
  exact { h1 with pa := fun _ => rfl, nr := fun _ => rfl }

/-! ### Trials -/

/-- Forgetting what is related. -/
theorem weaken (h : StRel ρ n n' fm fa fp s s') : StRel ρ n n' (false, false) false (false, false) s s' :=
  { h with
    mset := nofun, kset := nofun, aset := nofun, prevAset := nofun, prevReward := nofun
    prevPred := nofun, prevState := nofun, pa := nofun, nr := nofun }

theorem supSense (x : X) (cv : Option (List K)) (h : StRel ρ n n' (true, true) fa fp s s') :
    ResRel (StRel ρ n n' (true, true) fa (true, false))
      (Xcsf.supSense par kit x cv s) (Xcsf.supSense par kit x cv s') := by
  unfold Xcsf.supSense
  have built : ∀ {s s' : St K X B R}, StRel ρ n n' (true, true) fa fp s s' →
      ResRel (StRel ρ n n' (true, true) fa (true, false))
        (Xcsf.paBuild par kit x s) (Xcsf.paBuild par kit x s') := fun h =>
    (h.paBuild par kit x).mono fun _ _ h => { h with nr := nofun }
  cases cv with
  | some cv =>
    refine ResRel.bind (h.clsetMatch par kit x false) fun s1 s1' h1 => ?_
    rw [(h1.mset rfl).size]
    split
    · exact { h1 with pa := fun _ => rfl, nr := nofun }
    · exact built h1
  | none => exact ResRel.bind (h.clsetMatch par kit x true) fun s1 s1' h1 => built h1

theorem supLearn (x : X) (y : Option (List K)) (h : StRel ρ n n' (true, true) fa fp s s') :
    ResRel (StRel ρ n n' (true, true) fa fp) (Xcsf.supLearn par kit x y s)
      (Xcsf.supLearn par kit x y s') := by
  unfold Xcsf.supLearn
  rw [h.explore]
  split
  · cases y with
    | none => rfl
    | some y =>
      refine ResRel.bind (h.clsetUpdate par kit (h.mset rfl) x y true) fun p q ⟨h1, h2⟩ => ?_
      have h3 : StRel ρ n n' (true, true) fa fp { p.2 with mset := p.1 } { q.2 with mset := q.1 } :=
        { h2 with mset := fun _ => h1 }
      exact h3.ea par kit h1
  · exact h

theorem supTrial (x : X) (y cv : Option (List K)) (h : StRel ρ n n' fm fa fp s s') :
    ResRel (StRel ρ n n' (true, true) fa (true, false))
      (Xcsf.supTrial par kit x y cv s) (Xcsf.supTrial par kit x y cv s') := by
  unfold Xcsf.supTrial
  have h0 : StRel ρ n n' (true, true) fa fp { s with mset := {}, kset := {} }
      { s' with mset := {}, kset := {} } :=
    { h with mset := fun _ => CSetRel.empty, kset := fun _ => CSetRel.empty }
  refine ResRel.bind (h0.supSense par kit x cv) fun s1 s1' h1 => ?_
  refine ResRel.bind (h1.supLearn par kit x y) fun s2 s2' h2 => ?_
  refine ResRel.bind h2.killKset fun s3 s3' h3 => ?_
  exact { h3 with mset := fun _ => CSetRel.empty }

/-- Another mode. -/
theorem withExplore (h : StRel ρ n n' fm fa fp s s') (e : Bool) :
    StRel ρ n n' fm fa fp { s with explore := e } { s' with explore := e } :=
  { h with explore := rfl }

/-- Equal answers and related states. -/
def Ans {α : Type} (ρ : Nat → Nat → Prop) (n n' : Nat) (p q : α × St K X B R) : Prop :=
  p.1 = q.1 ∧ StRel ρ n n' (false, false) false (false, false) p.2 q.2

theorem fitStep (x : X) (y : List K) (h : StRel ρ n n' fm fa fp s s') :
    ResRel (Ans ρ n n') (Xcsf.fitStep par kit x y s) (Xcsf.fitStep par kit x y s') := by
  unfold Xcsf.fitStep
  refine ResRel.bind ((h.withExplore true).supTrial par kit x (some y) none) fun s1 s1' h1 => ?_
  dsimp only
  refine ⟨?_, { h1.weaken with error := ?_ }⟩ <;> dsimp only
  · rw [h1.pa rfl]
  · rw [h1.pa rfl, h1.error]

theorem testStep (x : X) (y : List K) (h : StRel ρ n n' fm fa fp s s') :
    ResRel (Ans ρ n n') (Xcsf.testStep par kit x y s) (Xcsf.testStep par kit x y s') := by
  unfold Xcsf.testStep
  refine ResRel.bind ((h.withExplore false).supTrial par kit x (some y) none) fun s1 s1' h1 => ?_
  refine ⟨?_, h1.weaken⟩
  dsimp only
  rw [h1.pa rfl]

theorem predictBatch (cv : List K) : ∀ (xs : List X) {fm fp : Bool × Bool} {fa : Bool}
    {s s' : St K X B R}, StRel ρ n n' fm fa fp s s' →
    ResRel (Ans ρ n n') (Xcsf.predictBatch par kit cv xs s) (Xcsf.predictBatch par kit cv xs s')
  | [], _, _, _, _, _, h => ⟨rfl, (h.withExplore false).weaken⟩
  | x :: xs, _, _, _, _, _, h => by
    unfold Xcsf.predictBatch Xcsf.predictRow
    refine ResRel.bind (Q := Ans ρ n n') ?_ ?_
    · refine ResRel.bind ((h.withExplore false).supTrial par kit x none (some cv)) ?_
      exact fun s1 s1' h1 => ⟨h1.pa rfl, h1.weaken⟩
    · rintro ⟨p, s1⟩ ⟨q, s1'⟩ ⟨e, h1⟩
      cases e
      refine ResRel.bind (predictBatch cv xs h1) ?_
      rintro ⟨p, s2⟩ ⟨q, s2'⟩ ⟨e, h2⟩
      cases e
      exact ⟨rfl, h2⟩

theorem scoreGo (cv : List K) : ∀ (rows : List (X × List K)) (e : K) {fm fp : Bool × Bool}
    {fa : Bool} {s s' : St K X B R}, StRel ρ n n' fm fa fp s s' →
    ResRel (Ans ρ n n') (Xcsf.scoreGo par kit cv rows e s) (Xcsf.scoreGo par kit cv rows e s')
  | [], _, _, _, _, _, _, h => ⟨rfl, (h.withExplore false).weaken⟩
  | (x, y) :: rows, e, _, _, _, _, _, h => by
    unfold Xcsf.scoreGo
    refine ResRel.bind ((h.withExplore false).supTrial par kit x (some y) (some cv)) ?_
    intro s1 s1' h1
    rw [h1.pa rfl]
    exact scoreGo cv rows _ h1

theorem score (cv : List K) (rows : List (X × List K)) (h : StRel ρ n n' fm fa fp s s') :
    ResRel (Ans ρ n n') (Xcsf.score par kit cv rows s) (Xcsf.score par kit cv rows s') := by
  unfold Xcsf.score
  refine ResRel.bind (h.scoreGo par kit cv rows 0) ?_
  rintro ⟨p, s1⟩ ⟨q, s1'⟩ ⟨e, h1⟩
  cases e
  exact ⟨rfl, h1⟩

/-! ### Reinforcement learning -/

theorem rlInitTrial (h : StRel ρ n n' fm fa fp s s') :
    StRel ρ n n' (fm.1, true) false fp (Xcsf.rlInitTrial s) (Xcsf.rlInitTrial s') :=
  { h with
    kset := fun _ => CSetRel.empty
    aset := nofun, prevAset := nofun, prevReward := nofun, prevPred := nofun, prevState := nofun }

/-- Both action sets and the memory of the previous step are related after the start of a trial
and of a step. -/
theorem rlStart (h : StRel ρ n n' fm fa fp s s') :
    StRel ρ n n' (true, true) true fp (rlInitStep (Xcsf.rlInitTrial s))
      (rlInitStep (Xcsf.rlInitTrial s')) :=
  { h with
    mset := fun _ => CSetRel.empty, kset := fun _ => CSetRel.empty
    aset := fun _ => CSetRel.empty, prevAset := fun _ => CSetRel.empty
    prevReward := fun _ => rfl, prevPred := fun _ => rfl, prevState := fun _ => rfl }

theorem rlDecision (x : X) (h : StRel ρ n n' (true, true) fa fp s s') :
    ResRel (fun p q => p.1 = q.1 ∧ StRel ρ n n' (true, true) fa (true, true) p.2 q.2)
      (Xcsf.rlDecision par kit x s) (Xcsf.rlDecision par kit x s') := by
  unfold Xcsf.rlDecision
  refine ResRel.bind (h.clsetMatch par kit x true) fun s1 s1' h1 => ?_
  refine ResRel.bind (h1.paBuild par kit x) fun s2 s2' h2 => ?_
  rcases s2 with ⟨_, _, _, _, _, _, _, _, _, _, _, _, _, _, _, pa, nr, _, ex, r⟩
  rcases s2' with ⟨_, _, _, _, _, _, _, _, _, _, _, _, _, _, _, pa', nr', _, ex', r'⟩
  obtain rfl : ex = ex' := h2.explore
  obtain rfl : r = r' := h2.rng
  obtain rfl : pa = pa' := h2.pa rfl
  obtain rfl : nr = nr' := h2.nr rfl
  cases ex with
  | true =>
    dsimp only
    split
    · split
      · refine ResRel.bind (.refl _) ?_
        rintro p _ rfl
        exact ⟨rfl, h2.withRng _⟩
      · refine ResRel.bind (.refl _) ?_
        rintro p _ rfl
        exact ⟨rfl, h2.withRng _⟩
    · contradiction
  | false =>
    refine ResRel.bind (.refl _) ?_
    rintro p _ rfl
    exact ⟨rfl, h2.withRng _⟩

/-- The evolutionary algorithm if the system explores. -/
theorem eaIf {t t' : CSet} (ht : CSetRel ρ t t') (h : StRel ρ n n' (true, true) fa fp s s') :
    ResRel (StRel ρ n n' (true, true) fa fp) (if s.explore then Xcsf.ea par kit t s else .ok s)
      (if s'.explore then Xcsf.ea par kit t' s' else .ok s') := by
  rw [h.explore]
  split
  · exact h.ea par kit ht
  · exact h

theorem rlUpdatePrev (h : StRel ρ n n' (true, true) true (true, b) s s') :
    ResRel (StRel ρ n n' (true, true) true (true, b)) (Xcsf.rlUpdatePrev par kit s)
      (Xcsf.rlUpdatePrev par kit s') := by
  unfold Xcsf.rlUpdatePrev
  have hl := (h.prevAset rfl).list
  rw [h.pa rfl, h.prevReward rfl, h.prevState rfl]
  cases e : s.prevAset.list with
  | nil =>
    rw [e] at hl
    cases e' : s'.prevAset.list with
    | nil => exact h
    | cons j l => rw [e'] at hl; cases hl
  | cons i l =>
    rw [e] at hl
    cases e' : s'.prevAset.list with
    | nil => rw [e'] at hl; cases hl
    | cons j l =>
      rw [if_neg (by simp), if_neg (by simp)]
      refine ResRel.bind (.refl _) ?_
      rintro bv _ rfl
      refine ResRel.bind (h.validate (h.prevAset rfl)) fun t t' ht => ?_
      cases s'.prevState with
      | none => rfl
      | some px =>
        refine ResRel.bind (h.clsetUpdate par kit ht px _ false) ?_
        rintro ⟨t1, s1⟩ ⟨t1', s1'⟩ ⟨ht1, h1⟩
        have h2 : StRel ρ n n' (true, true) true (true, b) { s1 with prevAset := t1 }
            { s1' with prevAset := t1' } := { h1 with prevAset := fun _ => ht1 }
        exact h2.eaIf par kit ht1

theorem rlUpdateCur (x : X) (reward : K) (done : Bool)
    (h : StRel ρ n n' (true, true) true fp s s') :
    ResRel (StRel ρ n n' (true, true) true fp) (Xcsf.rlUpdateCur par kit x reward done s)
      (Xcsf.rlUpdateCur par kit x reward done s') := by
  unfold Xcsf.rlUpdateCur
  split
  · refine ResRel.bind (h.validate (h.aset rfl)) fun t t' ht => ?_
    refine ResRel.bind (h.clsetUpdate par kit ht x _ true) ?_
    rintro ⟨t1, s1⟩ ⟨t1', s1'⟩ ⟨ht1, h1⟩
    have h2 : StRel ρ n n' (true, true) true fp { s1 with aset := t1 }
        { s1' with aset := t1' } := { h1 with aset := fun _ => ht1 }
    exact h2.eaIf par kit ht1
  · exact h

theorem rlUpdate (x : X) (a : Int) (reward : K) (done : Bool)
    (h : StRel ρ n n' (true, true) true (true, b) s s') :
    ResRel (StRel ρ n n' (true, true) true (true, b)) (Xcsf.rlUpdate par kit x a reward done s)
      (Xcsf.rlUpdate par kit x a reward done s') := by
  unfold Xcsf.rlUpdate
  refine ResRel.bind (h.clsetAction par a) fun s1 s1' h1 => ?_
  refine ResRel.bind (h1.rlUpdatePrev par kit) fun s2 s2' h2 => ?_
  exact h2.rlUpdateCur par kit x reward done

theorem rlError (a : Int) (reward : K) (done : Bool) (maxP : K)
    (h : StRel ρ n n' (true, true) true (true, b) s s') :
    ResRel (fun p q => p.1 = q.1 ∧ StRel ρ n n' (true, true) true (true, b) p.2 q.2)
      (Xcsf.rlError par kit a reward done maxP s) (Xcsf.rlError par kit a reward done maxP s') := by
  unfold Xcsf.rlError
  have hl := (h.prevAset rfl).list
  have e : (s.prevAset.list = []) ↔ (s'.prevAset.list = []) := by
    rw [← List.length_eq_zero_iff, ← List.length_eq_zero_iff, hl.length_eq]
  rw [h.pa rfl]
  refine ResRel.bind (.refl _) ?_
  rintro v _ rfl
  dsimp only
  have ee : (if s.prevAset.list = [] then (0 : K)
        else 0 + kit.loss [s.prevPred] [s.prevReward + par.gamma * v] / maxP) =
      (if s'.prevAset.list = [] then (0 : K)
        else 0 + kit.loss [s'.prevPred] [s'.prevReward + par.gamma * v] / maxP) := by
    simp only [e, h.prevPred rfl, h.prevReward rfl]
  refine ⟨?_, { h with error := ?_, pa := fun _ => rfl }⟩ <;> dsimp only
  · rw [ee]
  · rw [ee, h.error]

theorem rlEndStep (x : X) (a : Int) (reward : K)
    (h : StRel ρ n n' (true, true) true (true, b) s s') :
    ResRel (StRel ρ n n' (true, true) true (true, b)) (Xcsf.rlEndStep par x a reward s)
      (Xcsf.rlEndStep par x a reward s') := by
  unfold Xcsf.rlEndStep
  rw [h.pa rfl]
  refine ResRel.bind (.refl _) ?_
  rintro v _ rfl
  exact { h with
    mset := fun _ => CSetRel.empty, prevAset := fun _ => h.aset rfl, prevReward := fun _ => rfl
    prevPred := fun _ => rfl, prevState := fun _ => rfl, pa := fun _ => rfl }

theorem rlEndTrial (h : StRel ρ n n' (b, true) true fp s s') :
    ResRel (StRel ρ n n' (b, true) true fp) (Xcsf.rlEndTrial s) (Xcsf.rlEndTrial s') := by
  unfold Xcsf.rlEndTrial
  have h1 : StRel ρ n n' (b, true) true fp
      { s with prevAset := {}, prevState := (none : Option X) }
      { s' with prevAset := {}, prevState := (none : Option X) } :=
    { h with prevAset := fun _ => CSetRel.empty, prevState := fun _ => rfl }
  exact h1.killKset

/-- Everything of the previous step is related, the sets of the current one need not be. -/
structure Mid (ρ : Nat → Nat → Prop) (n n' : Nat) (s s' : St K X B R) : Prop where
  rel : ∃ fp, StRel ρ n n' (true, true) true fp (rlInitStep s) (rlInitStep s')
  kset : CSetRel ρ s.kset s'.kset

theorem rlTrialGo (env : Nat → EnvStep K X) : ∀ (k m : Nat) (e : K) {s s' : St K X B R},
    Mid ρ n n' s s' →
    ResRel (fun p q => p.1 = q.1 ∧ p.2.1 = q.2.1 ∧ Mid ρ n n' p.2.2 q.2.2)
      (Xcsf.rlTrialGo par kit env k m e s) (Xcsf.rlTrialGo par kit env k m e s')
  | 0, _, _, _, _, h => ⟨rfl, rfl, h⟩
  | k + 1, m, e, _, _, ⟨⟨_, h⟩, _⟩ => by
    unfold Xcsf.rlTrialGo
    refine ResRel.bind (h.rlDecision par kit _) ?_
    rintro ⟨a, s1⟩ ⟨_, s1'⟩ ⟨rfl, h1⟩
    refine ResRel.bind (h1.rlUpdate par kit _ a _ _) fun s2 s2' h2 => ?_
    refine ResRel.bind (h2.rlError par kit a _ _ _) ?_
    rintro ⟨de, s3⟩ ⟨_, s3'⟩ ⟨rfl, h3⟩
    refine ResRel.bind (h3.rlEndStep par _ a _) fun s4 s4' h4 => ?_
    have h5 : Mid ρ n n' s4 s4' := ⟨⟨_, { h4 with
      mset := fun _ => CSetRel.empty, aset := fun _ => CSetRel.empty }⟩, h4.kset rfl⟩
    dsimp only
    split
    · exact ⟨rfl, rfl, h5⟩
    · exact rlTrialGo env k _ _ h5

theorem rlTrial (env : Nat → EnvStep K X) (ex : Bool) (h : StRel ρ n n' fm fa fp s s') :
    ResRel (fun p q => p.1 = q.1 ∧ p.2.1 = q.2.1 ∧
        StRel ρ n n' (false, false) false (false, false) p.2.2 q.2.2)
      (Xcsf.rlTrial par kit env ex s) (Xcsf.rlTrial par kit env ex s') := by
  unfold Xcsf.rlTrial
  have h0 : Mid ρ n n' (Xcsf.rlInitTrial { s with explore := ex })
      (Xcsf.rlInitTrial { s' with explore := ex }) :=
    ⟨⟨_, (h.withExplore ex).rlStart⟩, CSetRel.empty⟩
  refine ResRel.bind (rlTrialGo par kit env _ _ _ h0) ?_
  rintro ⟨m, e, s1⟩ ⟨_, _, s1'⟩ ⟨rfl, rfl, ⟨⟨fp, h1⟩, hk⟩⟩
  have h2 : StRel ρ n n' (false, true) false (false, false)
      { s1 with prevAset := {}, prevState := (none : Option X) }
      { s1' with prevAset := {}, prevState := (none : Option X) } :=
    { h1 with
      mset := nofun, aset := nofun, prevAset := nofun, prevReward := nofun, prevPred := nofun
      prevState := nofun, pa := nofun, nr := nofun }
  refine ResRel.bind (m := Xcsf.rlEndTrial s1) (m' := Xcsf.rlEndTrial s1') h2.killKset ?_
  exact fun s2 s2' h3 => ⟨rfl, rfl, h3.weaken⟩

theorem rlFit (x : X) (a : Int) (reward : K) (h : StRel ρ n n' fm fa fp s s') :
    ResRel (Ans ρ n n') (Xcsf.rlFit par kit x a reward s) (Xcsf.rlFit par kit x a reward s') := by
  unfold Xcsf.rlFit
  refine ResRel.bind (h.rlStart.clsetMatch par kit x true) fun s1 s1' h1 => ?_
  refine ResRel.bind (h1.paBuild par kit x) fun s2 s2' h2 => ?_
  refine ResRel.bind (.of_eq (congrArg (paVal par · a) (h2.pa rfl))) ?_
  rintro v _ rfl
  refine ResRel.bind ((h2.withExplore true).rlUpdate par kit x a reward true) fun s3 s3' h3 => ?_
  refine ResRel.bind (h3.rlEndStep par x a reward) fun s4 s4' h4 => ?_
  refine ResRel.bind h4.rlEndTrial fun s5 s5' h5 => ?_
  exact ⟨rfl, { h5.weaken with error := by dsimp only; rw [h5.error] }⟩

/-! ### Whole populations -/

theorem storeGo : ∀ {l l' : List Nat} {s s' : St K X B R}, StRel ρ n n' fm fa fp s s' →
    List.Forall₂ ρ l l' →
    ResRel (StRel ρ n n' fm fa fp) (Xcsf.storeGo par kit l s) (Xcsf.storeGo par kit l' s')
  | _, _, _, _, h, .nil => h
  | _, _, _, s', h, .cons hi hl => by
    unfold Xcsf.storeGo
    refine ResRel.bind (.of_eq (h.rd hi)) ?_
    rintro c _ rfl
    dsimp only
    rw [h.rng]
    obtain ⟨k1, k2⟩ := h.alloc (initCopy par kit c s'.rng).1
    exact storeGo { k2 with rng := rfl, prevPset := h.prevPset.add k1 _ } hl

theorem store (h : StRel ρ n n' fm fa fp s s') :
    ResRel (StRel ρ n n' fm fa fp) (Xcsf.store par kit s) (Xcsf.store par kit s') := by
  unfold Xcsf.store
  refine ResRel.bind (h.killGo h.prevPset.list) fun s1 s1' h1 => ?_
  exact storeGo par kit { h1 with prevPset := CSetRel.empty } h1.pset.list

theorem retrieve (h : StRel ρ n n' fm fa fp s s') :
    ResRel (StRel ρ n n' fm fa fp) (Xcsf.retrieve s) (Xcsf.retrieve s') := by
  unfold Xcsf.retrieve
  rw [h.prevPset.size]
  split
  · exact h
  · refine ResRel.bind (h.killGo h.pset.list) fun s1 s1' h1 => ?_
    exact { h1 with pset := h1.prevPset, prevPset := CSetRel.empty }

theorem insertCl (c : Cl K B) (h : StRel ρ n n' fm fa fp s s') :
    ResRel (StRel ρ n n' (fm.1, true) fa fp) (Xcsf.insertCl par kit c s)
      (Xcsf.insertCl par kit c s') := by
  unfold Xcsf.insertCl
  obtain ⟨k1, k2⟩ := h.alloc c
  have k3 : StRel ρ n n' (fm.1, true) fa fp
      { (s.alloc c).2 with pset := s.pset.add (s.alloc c).1 c.num, kset := {} }
      { (s'.alloc c).2 with pset := s'.pset.add (s'.alloc c).1 c.num, kset := {} } :=
    { k2 with pset := h.pset.add k1 _, kset := fun _ => CSetRel.empty }
  exact ResRel.bind (k3.enforce par kit) fun _ _ h => h.killKset

theorem insertAll : ∀ (cs : List (Cl K B)) {s s' : St K X B R},
    StRel ρ n n' (false, false) false (false, false) s s' →
    ResRel (StRel ρ n n' (false, false) false (false, false))
      (cs.foldlM (fun s c => Xcsf.insertCl par kit c s) s)
      (cs.foldlM (fun s c => Xcsf.insertCl par kit c s) s')
  | [], _, _, h => h
  | c :: cs, _, _, h => by
    rw [List.foldlM_cons, List.foldlM_cons]
    exact ResRel.bind (h.insertCl par kit c) fun _ _ h1 => insertAll cs h1.weaken

theorem jsonInsert (cs : List (Cl K B)) (h : StRel ρ n n' fm fa fp s s') :
    ResRel (StRel ρ n n' (false, false) false (false, false)) (Xcsf.jsonInsert par kit cs s)
      (Xcsf.jsonInsert par kit cs s') := by
  cases cs with
  | nil => rfl
  | cons c cs => exact insertAll par kit _ h.weaken

/-- Related states have the same population. -/
theorem population (h : StRel ρ n n' fm fa fp s s') : Xcsf.population s = Xcsf.population s' :=
  filterMap_eq h.pset.list h.heap

theorem storedPopulation (h : StRel ρ n n' fm fa fp s s') :
    Xcsf.storedPopulation s = Xcsf.storedPopulation s' :=
  filterMap_eq h.prevPset.list h.heap
end StRel

/-! ### Building a correspondence -/

/-- The pairs of rules at the same place of two lists. -/
def Paired (l l' : List Nat) (i j : Nat) : Prop := ∃ k : Nat, l[k]? = some i ∧ l'[k]? = some j

/-- The correspondence between two states: rules at the same place of the population or of the
stored population, and addresses not yet in use. -/
def Places (s s' : St K X B R) (i j : Nat) : Prop :=
  Paired s.pset.list s'.pset.list i j ∨ Paired s.prevPset.list s'.prevPset.list i j ∨
    ∃ k, i = s.next + k ∧ j = s'.next + k

theorem Paired.left {l l' : List Nat} {i j : Nat} (h : Paired l l' i j) : i ∈ l := by
  obtain ⟨k, h, -⟩ := h
  exact List.mem_of_getElem? h

theorem Paired.right {l l' : List Nat} {i j : Nat} (h : Paired l l' i j) : j ∈ l' := by
  obtain ⟨k, -, h⟩ := h
  exact List.mem_of_getElem? h

theorem Paired.inj {l l' : List Nat} (hl : l.Nodup) (hl' : l'.Nodup) {i j i' j' : Nat}
    (h : Paired l l' i j) (h' : Paired l l' i' j') : i = i' ↔ j = j' := by
  obtain ⟨k, h1, h2⟩ := h
  obtain ⟨m, h3, h4⟩ := h'
  constructor
  · rintro rfl
    have : k = m := (List.getElem?_inj (List.getElem?_eq_some_iff.1 h1).1 hl).1 (h1.trans h3.symm)
    subst this
    exact Option.some.inj (h2.symm.trans h4)
  · rintro rfl
    have : k = m := (List.getElem?_inj (List.getElem?_eq_some_iff.1 h2).1 hl').1 (h2.trans h4.symm)
    subst this
    exact Option.some.inj (h1.symm.trans h3)

theorem paired_forall2 {l l' : List Nat} (h : l.length = l'.length) :
    List.Forall₂ (Paired l l') l l' := by
  rw [List.forall₂_iff_get]
  refine ⟨h, fun i h1 h2 => ⟨i, ?_, ?_⟩⟩
  · rw [List.getElem?_eq_getElem h1, List.get_eq_getElem]
  · rw [List.getElem?_eq_getElem h2, List.get_eq_getElem]

theorem live_filterMap {f : Nat → Option (Cl K B)} : ∀ {l : List Nat}, (∀ i ∈ l, (f i).isSome) →
    (l.filterMap f).map some = l.map f
  | [], _ => rfl
  | i :: l, h => by
    obtain ⟨c, hc⟩ := Option.isSome_iff_exists.1 (h i (by simp))
    rw [List.filterMap_cons_some hc, List.map_cons, List.map_cons, hc,
      live_filterMap fun j hj => h j (List.mem_cons_of_mem _ hj)]

/-- If the rules of two lists are the same then those at the same place are. -/
theorem live_pair {f f' : Nat → Option (Cl K B)} {l l' : List Nat} (h : ∀ i ∈ l, (f i).isSome)
    (h' : ∀ i ∈ l', (f' i).isSome) (e : l.filterMap f = l'.filterMap f') :
    l.length = l'.length ∧ ∀ i j, Paired l l' i j → f i = f' j := by
  have k : l.map f = l'.map f' := by rw [← live_filterMap h, ← live_filterMap h', e]
  refine ⟨by simpa using congrArg List.length k, ?_⟩
  rintro i j ⟨m, h1, h2⟩
  have := congrArg (·[m]?) k
  simpa [h1, h2] using this

theorem SetOK.alive {s : St K X B R} {t : CSet} (h : SetOK s.nums t) :
    ∀ i ∈ t.list, (s.heap i).isSome := by
  intro i hi
  obtain ⟨c, hc, -⟩ := h.live hi
  rw [hc]
  rfl

theorem Inv.below {s : St K X B R} (g : Inv s []) {i : Nat} (h : (s.heap i).isSome) : i < s.next := by
  by_contra hc
  have := g.fresh i (by omega)
  unfold St.nums at this
  cases e : s.heap i with
  | none => rw [e] at h; cases h
  | some c => rw [e] at this; cases this

theorem nsum_map {s : St K X B R} : ∀ {l : List Nat}, (∀ i ∈ l, (s.heap i).isSome) →
    nsum s.nums l = ((l.filterMap s.heap).map Cl.num).sum
  | [], _ => rfl
  | i :: l, h => by
    obtain ⟨c, hc⟩ := Option.isSome_iff_exists.1 (h i (by simp))
    have ih := nsum_map fun j hj => h j (List.mem_cons_of_mem i hj)
    rw [List.filterMap_cons_some hc, List.map_cons, List.sum_cons, ← ih]
    unfold nsum St.nums
    simp [hc]

/-- Sets with the same rules have the same counters. -/
theorem SetOK.same {s s' : St K X B R} {t t' : CSet} (h : SetOK s.nums t) (h' : SetOK s'.nums t')
    (e : t.list.filterMap s.heap = t'.list.filterMap s'.heap) : t.size = t'.size ∧ t.num = t'.num := by
  refine ⟨?_, ?_⟩
  · rw [h.size, h'.size, (live_pair h.alive h'.alive e).1]
  · rw [h.num, h'.num, nsum_map h.alive, nsum_map h'.alive, e]

/-- Two states with the same rules and numbers are related. -/
theorem StRel.of_places (g : Inv s []) (g' : Inv s' []) (hp : Xcsf.population s = Xcsf.population s')
    (hq : Xcsf.storedPopulation s = Xcsf.storedPopulation s') (he : s.error = s'.error)
    (hm : s.msetSize = s'.msetSize) (ha : s.asetSize = s'.asetSize) (hf : s.mfrac = s'.mfrac)
    (ht : s.time = s'.time) (hx : s.explore = s'.explore) (hr : s.rng = s'.rng) :
    StRel (Places s s') s.next s'.next (false, false) false (false, false) s s' := by
  obtain ⟨lp, vp⟩ := live_pair g.p.alive g'.p.alive hp
  obtain ⟨lq, vq⟩ := live_pair g.q.alive g'.q.alive hq
  have lt1 : ∀ {i}, i ∈ s.pset.list → i < s.next := fun h => g.below (g.p.alive _ h)
  have lt2 : ∀ {i}, i ∈ s.prevPset.list → i < s.next := fun h => g.below (g.q.alive _ h)
  have lt1' : ∀ {i}, i ∈ s'.pset.list → i < s'.next := fun h => g'.below (g'.p.alive _ h)
  have lt2' : ∀ {i}, i ∈ s'.prevPset.list → i < s'.next := fun h => g'.below (g'.q.alive _ h)
  refine
    { corr := ⟨?_, fun k => .inr (.inr ⟨k, rfl, rfl⟩)⟩
      heap := ?_
      next := ⟨0, rfl, rfl⟩
      pset := ⟨(paired_forall2 lp).imp fun _ _ h => .inl h, (g.p.same g'.p hp).1, (g.p.same g'.p hp).2⟩
      prevPset := ⟨(paired_forall2 lq).imp fun _ _ h => .inr (.inl h), (g.q.same g'.q hq).1,
        (g.q.same g'.q hq).2⟩
      mset := nofun, kset := nofun, aset := nofun, prevAset := nofun, prevReward := nofun
      prevPred := nofun, prevState := nofun, pa := nofun, nr := nofun
      error := he, msetSize := hm, asetSize := ha, mfrac := hf, time := ht, explore := hx, rng := hr }
  · rintro i j i' j' (h | h | ⟨k, rfl, rfl⟩) (h' | h' | ⟨k', rfl, rfl⟩)
    · exact h.inj g.p.nodup g'.p.nodup h'
    · exact ⟨fun e => absurd (e ▸ h'.left) (g.pq _ h.left),
        fun e => absurd (e ▸ h'.right) (g'.pq _ h.right)⟩
    · have a := lt1 h.left; have b := lt1' h.right; omega
    · exact ⟨fun e => absurd (e ▸ h.left) (g.pq _ h'.left),
        fun e => absurd (e ▸ h.right) (g'.pq _ h'.right)⟩
    · exact h.inj g.q.nodup g'.q.nodup h'
    · have a := lt2 h.left; have b := lt2' h.right; omega
    · have a := lt1 h'.left; have b := lt1' h'.right; omega
    · have a := lt2 h'.left; have b := lt2' h'.right; omega
    · omega
  · rintro i j (h | h | ⟨k, rfl, rfl⟩)
    · exact vp i j h
    · exact vq i j h
    · have e : s.heap (s.next + k) = none := by
        by_contra hc
        have := g.below (Option.isSome_iff_ne_none.2 hc)
        omega
      have e' : s'.heap (s'.next + k) = none := by
        by_contra hc
        have := g'.below (Option.isSome_iff_ne_none.2 hc)
        omega
      rw [e, e']
end
end Xcsf
