import Verif.Trial
import Mathlib.Data.List.Basic
import Mathlib.Data.List.Nodup
import Mathlib.Tactic.Common

/-!
# Invariants of the rule life-cycle: definitions and helper lemmas
-/

namespace Xcsf
variable {K X B R : Type}

/-- Numerosities of the live rules. -/
def St.nums (s : St K X B R) (i : Nat) : Option Int := (s.heap i).map Cl.num

/-- Sum of the numerosities of the rules in a list. -/
def nsum (f : Nat → Option Int) (l : List Nat) : Int := (l.map (fun i => (f i).getD 0)).sum

@[simp] theorem nsum_nil (f : Nat → Option Int) : nsum f [] = 0 := rfl
@[simp] theorem nsum_cons (f : Nat → Option Int) (i : Nat) (l : List Nat) :
    nsum f (i :: l) = (f i).getD 0 + nsum f l := by simp [nsum]

theorem nsum_congr {f g : Nat → Option Int} {l : List Nat} (h : ∀ i ∈ l, f i = g i) :
    nsum f l = nsum g l := by
  unfold nsum
  congr 1
  apply List.map_congr_left
  intro i hi; rw [h i hi]

/-- A set whose counters agree with its list of distinct, live rules of positive
numerosity. -/
structure SetOK (f : Nat → Option Int) (t : CSet) : Prop where
  nodup : t.list.Nodup
  pos : ∀ i ∈ t.list, ∃ n, f i = some n ∧ 1 ≤ n
  size : t.size = t.list.length
  num : t.num = nsum f t.list

/-- The structural invariant.  `pend` are rules that exist but are not yet in any
set (offspring under construction). -/
structure Inv (s : St K X B R) (pend : List Nat) : Prop where
  p : SetOK s.nums s.pset
  q : SetOK s.nums s.prevPset
  pq : ∀ i ∈ s.pset.list, i ∉ s.prevPset.list
  kz : ∀ i ∈ s.kset.list, s.nums i = some 0
  knd : s.kset.list.Nodup
  pnd : pend.Nodup
  p1 : ∀ i ∈ pend, s.nums i = some 1 ∧ i ∉ s.pset.list ∧ i ∉ s.prevPset.list
  own : ∀ i, (s.nums i).isSome → i ∈ s.pset.list ∨ i ∈ s.prevPset.list ∨ i ∈ s.kset.list ∨ i ∈ pend
  fresh : ∀ i, s.next ≤ i → s.nums i = none

/-- Every live rule satisfies `V`. -/
def Vals (s : St K X B R) (V : Cl K B → Prop) : Prop := ∀ i c, s.heap i = some c → V c

/-- Structural invariant together with the value invariant `V`. -/
structure Good (V : Cl K B → Prop) (s : St K X B R) (pend : List Nat) : Prop where
  inv : Inv s pend
  vals : Vals s V

/-- `s'` differs from `s` in nothing that a set of the system other than the
population and the kill list refers to. -/
structure Frame (s s' : St K X B R) : Prop where
  prevPset : s'.prevPset = s.prevPset
  mset : s'.mset = s.mset
  aset : s'.aset = s.aset
  prevAset : s'.prevAset = s.prevAset
  explore : s'.explore = s.explore
  prevState : s'.prevState = s.prevState
  prevReward : s'.prevReward = s.prevReward
  prevPred : s'.prevPred = s.prevPred
  pa : s'.pa = s.pa
  nr : s'.nr = s.nr

theorem Frame.refl (s : St K X B R) : Frame s s := ⟨rfl, rfl, rfl, rfl, rfl, rfl, rfl, rfl, rfl, rfl⟩

theorem Frame.trans {a b c : St K X B R} (h : Frame a b) (g : Frame b c) : Frame a c :=
  ⟨g.1.trans h.1, g.2.trans h.2, g.3.trans h.3, g.4.trans h.4, g.5.trans h.5, g.6.trans h.6,
   g.7.trans h.7, g.8.trans h.8, g.9.trans h.9, g.10.trans h.10⟩

/-- Rules of the population and the kill list stay there (nothing is freed), and the
stored population is not touched. -/
structure Keep (s s' : St K X B R) : Prop where
  sub : ∀ i, i ∈ s.pset.list ∨ i ∈ s.kset.list → i ∈ s'.pset.list ∨ i ∈ s'.kset.list
  prev : s'.prevPset = s.prevPset
  cells : ∀ i ∈ s.prevPset.list, s'.heap i = s.heap i

theorem Keep.refl (s : St K X B R) : Keep s s := ⟨fun _ h => h, rfl, fun _ _ => rfl⟩
theorem Keep.trans {a b c : St K X B R} (h : Keep a b) (g : Keep b c) : Keep a c :=
  ⟨fun i hi => g.sub i (h.sub i hi), g.prev.trans h.prev,
   fun i hi => (g.cells i (by rw [h.prev]; exact hi)).trans (h.cells i hi)⟩

/-! ## Heap lemmas -/

@[simp] theorem put_pset (s : St K X B R) (i : Nat) (c : Cl K B) : (s.put i c).pset = s.pset := rfl
@[simp] theorem put_heap_self (s : St K X B R) (i : Nat) (c : Cl K B) :
    (s.put i c).heap i = some c := by simp [St.put]

theorem put_heap_ne (s : St K X B R) {i j : Nat} (c : Cl K B) (h : j ≠ i) :
    (s.put i c).heap j = s.heap j := by simp [St.put, h]

theorem put_nums (s : St K X B R) (i : Nat) (c : Cl K B) (j : Nat) :
    (s.put i c).nums j = if j = i then some c.num else s.nums j := by
  simp only [St.nums, St.put]; split <;> rfl

theorem put_nums_same {s : St K X B R} {i : Nat} {c c' : Cl K B} (h : s.heap i = some c)
    (hn : c'.num = c.num) : (s.put i c').nums = s.nums := by
  funext j
  rw [put_nums]
  split
  · next e => subst e; simp [St.nums, h, hn]
  · rfl

theorem rd_ok {s : St K X B R} {i : Nat} {c : Cl K B} (h : s.heap i = some c) :
    s.rd i = .ok c := by simp [St.rd, h]

theorem heap_of_nums {s : St K X B R} {i : Nat} {n : Int} (h : s.nums i = some n) :
    ∃ c, s.heap i = some c ∧ c.num = n := by
  simp only [St.nums, Option.map_eq_some_iff] at h
  exact h

theorem nums_of_heap {s : St K X B R} {i : Nat} {c : Cl K B} (h : s.heap i = some c) :
    s.nums i = some c.num := by simp [St.nums, h]

theorem Vals.put {V : Cl K B → Prop} {s : St K X B R} (h : Vals s V) {i : Nat} {c : Cl K B}
    (hc : V c) : Vals (s.put i c) V := by
  intro j d hd
  by_cases e : j = i
  · subst e; simp at hd; subst hd; exact hc
  · rw [put_heap_ne _ _ e] at hd; exact h j d hd

/-- Invariants only look at numerosities, the fresh pointer and three sets. -/
theorem Inv.congr {s s' : St K X B R} {pend : List Nat} (h : Inv s pend)
    (hn : s'.nums = s.nums) (hx : s'.next = s.next) (hp : s'.pset = s.pset)
    (hq : s'.prevPset = s.prevPset) (hk : s'.kset = s.kset) : Inv s' pend := by
  constructor
  · rw [hn, hp]; exact h.p
  · rw [hn, hq]; exact h.q
  · rw [hp, hq]; exact h.pq
  · rw [hn, hk]; exact h.kz
  · rw [hk]; exact h.knd
  · exact h.pnd
  · rw [hn, hp, hq]; exact h.p1
  · rw [hn, hp, hq, hk]; exact h.own
  · rw [hn, hx]; exact h.fresh

theorem Inv.put_same {s : St K X B R} {pend : List Nat} (h : Inv s pend) {i : Nat}
    {c c' : Cl K B} (hc : s.heap i = some c) (hn : c'.num = c.num) : Inv (s.put i c') pend :=
  h.congr (put_nums_same hc hn) rfl rfl rfl rfl

theorem SetOK.congr {f g : Nat → Option Int} {t : CSet} (h : SetOK f t)
    (e : ∀ i ∈ t.list, g i = f i) : SetOK g t := by
  refine ⟨h.nodup, ?_, h.size, ?_⟩
  · intro i hi; rw [e i hi]; exact h.pos i hi
  · rw [h.num]; exact (nsum_congr e).symm

theorem SetOK.num_nonneg {f : Nat → Option Int} {t : CSet} (h : SetOK f t) :
    (t.list.length : Int) ≤ t.num := by
  rw [h.num]
  have : ∀ l : List Nat, (∀ i ∈ l, ∃ n, f i = some n ∧ 1 ≤ n) → (l.length : Int) ≤ nsum f l := by
    intro l
    induction l with
    | nil => simp
    | cons i l ih =>
      intro hl
      have h1 := ih (fun j hj => hl j (List.mem_cons_of_mem _ hj))
      obtain ⟨n, hn, hn1⟩ := hl i (List.mem_cons_self)
      simp only [nsum_cons, hn, Option.getD_some, List.length_cons]
      omega
  exact this _ h.pos

theorem nsum_update_notMem {f g : Nat → Option Int} {l : List Nat} {i : Nat}
    (hg : ∀ j, j ≠ i → g j = f j) (hi : i ∉ l) : nsum g l = nsum f l :=
  nsum_congr (fun j hj => hg j (fun e => hi (e ▸ hj)))

theorem nsum_update_mem {f g : Nat → Option Int} {l : List Nat} {i : Nat} {n : Int}
    (hg : ∀ j, j ≠ i → g j = f j) (hgi : g i = some n) (hl : l.Nodup) (hi : i ∈ l) :
    nsum g l = nsum f l - (f i).getD 0 + n := by
  induction l with
  | nil => simp at hi
  | cons j l ih =>
    rw [List.nodup_cons] at hl
    by_cases e : j = i
    · subst e
      rw [nsum_cons, nsum_cons, nsum_update_notMem hg hl.1, hgi]
      simp; omega
    · have hi' : i ∈ l := by
        rcases List.mem_cons.1 hi with h | h
        · exact absurd h.symm e
        · exact h
      rw [nsum_cons, nsum_cons, ih hl.2 hi', hg j e]; omega

theorem nsum_eraseIdx {f : Nat → Option Int} : ∀ {l : List Nat} {k : Nat} {i : Nat},
    l[k]? = some i → nsum f (l.eraseIdx k) = nsum f l - (f i).getD 0
  | [], k, i, h => by simp at h
  | j :: l, 0, i, h => by
    simp at h; subst h; simp; omega
  | j :: l, k + 1, i, h => by
    simp only [List.getElem?_cons_succ] at h
    have := nsum_eraseIdx (f := f) h
    simp only [List.eraseIdx_cons_succ, nsum_cons, this]; omega

theorem mem_eraseIdx_of_nodup : ∀ {l : List Nat} {k : Nat} {i : Nat}, l.Nodup →
    l[k]? = some i → ∀ j, j ∈ l.eraseIdx k ↔ (j ∈ l ∧ j ≠ i)
  | [], k, i, _, h, _ => by simp at h
  | a :: l, 0, i, hn, h, j => by
    simp at h; subst h
    rw [List.nodup_cons] at hn
    simp only [List.eraseIdx_cons_zero, List.mem_cons]
    constructor
    · intro hj; exact ⟨Or.inr hj, fun e => hn.1 (e ▸ hj)⟩
    · rintro ⟨h1 | h1, h2⟩
      · exact absurd h1 h2
      · exact h1
  | a :: l, k + 1, i, hn, h, j => by
    simp only [List.getElem?_cons_succ] at h
    rw [List.nodup_cons] at hn
    have ih := mem_eraseIdx_of_nodup hn.2 h j
    have hil : i ∈ l := List.mem_of_getElem? h
    simp only [List.eraseIdx_cons_succ, List.mem_cons, ih]
    constructor
    · rintro (h1 | ⟨h1, h2⟩)
      · subst h1; exact ⟨Or.inl rfl, fun e => hn.1 (e ▸ hil)⟩
      · exact ⟨Or.inr h1, h2⟩
    · rintro ⟨h1 | h1, h2⟩
      · exact Or.inl h1
      · exact Or.inr ⟨h1, h2⟩

theorem Good.congr {s s' : St K X B R} {pend : List Nat} {V : Cl K B → Prop} (g : Good V s pend)
    (hh : s'.heap = s.heap) (hx : s'.next = s.next) (hp : s'.pset = s.pset)
    (hq : s'.prevPset = s.prevPset) (hk : s'.kset = s.kset) : Good V s' pend := by
  refine ⟨g.inv.congr ?_ hx hp hq hk, ?_⟩
  · funext i; simp [St.nums, hh]
  · intro i c h; rw [hh] at h; exact g.vals i c h

/-! ## Reading lists of rules -/

theorem rds_ok {s : St K X B R} : ∀ {l : List Nat}, (∀ i ∈ l, (s.heap i).isSome) →
    ∃ cs, s.rds l = .ok cs ∧ l.map s.heap = cs.map some
  | [], _ => ⟨[], rfl, rfl⟩
  | i :: l, h => by
    obtain ⟨cs, h1, h2⟩ := rds_ok (s := s) (l := l) (fun j hj => h j (List.mem_cons_of_mem _ hj))
    obtain ⟨c, hc⟩ := Option.isSome_iff_exists.1 (h i List.mem_cons_self)
    refine ⟨c :: cs, ?_, by simp [hc, h2]⟩
    simp only [St.rds] at h1 ⊢
    rw [List.mapM_cons, rd_ok hc, h1]; rfl

theorem rds_length {s : St K X B R} {l : List Nat} {cs : List (Cl K B)}
    (h : l.map s.heap = cs.map some) : cs.length = l.length := by
  have := congrArg List.length h
  simpa using this.symm

theorem rds_mem {s : St K X B R} {l : List Nat} {cs : List (Cl K B)}
    (h : l.map s.heap = cs.map some) {c : Cl K B} (hc : c ∈ cs) : ∃ i ∈ l, s.heap i = some c := by
  have : some c ∈ cs.map some := List.mem_map.2 ⟨c, hc, rfl⟩
  rw [← h] at this
  obtain ⟨i, hi, e⟩ := List.mem_map.1 this
  exact ⟨i, hi, e⟩

theorem rds_get {s : St K X B R} {l : List Nat} {cs : List (Cl K B)}
    (h : l.map s.heap = cs.map some) {k i : Nat} (hk : l[k]? = some i) :
    ∃ c, cs[k]? = some c ∧ s.heap i = some c := by
  have h1 : (l.map s.heap)[k]? = some (s.heap i) := by simp [hk]
  rw [h, List.getElem?_map, Option.map_eq_some_iff] at h1
  obtain ⟨c, hc, e⟩ := h1
  exact ⟨c, hc, e.symm⟩

theorem SetOK.live {s : St K X B R} {t : CSet} (h : SetOK s.nums t) {i : Nat} (hi : i ∈ t.list) :
    ∃ c, s.heap i = some c ∧ 1 ≤ c.num := by
  obtain ⟨n, hn, h1⟩ := h.pos i hi
  obtain ⟨c, hc, e⟩ := heap_of_nums hn
  exact ⟨c, hc, e ▸ h1⟩

theorem SetOK.isSome {s : St K X B R} {t : CSet} (h : SetOK s.nums t) {i : Nat} (hi : i ∈ t.list) :
    (s.heap i).isSome := by
  obtain ⟨c, hc, _⟩ := h.live hi
  simp [hc]

end Xcsf
