import Verif.StepsFrame
import Mathlib.Data.List.Perm.Subperm

/-!
# Linked lists in memory

Helper lemmas: what the functions on lists of nodes (`Steps.lean`) do in terms of the lists of
rules that `Core.lean` has.
-/

set_option linter.unusedSectionVars false

namespace Xcsf
namespace Steps

/-- From the pointer `p` on the nodes `qs` follow, holding the rules `cs`. -/
def Seg (h : Nodes) : Option Nat → List Nat → List Nat → Prop
  | p, [], [] => p = none
  | p, q :: qs, c :: cs => p = some q ∧ ∃ nx, h.node q = some (c, nx) ∧ Seg h nx qs cs
  | _, _, _ => False

/-- The live nodes are `qs`, each once. -/
structure Live (h : Nodes) (qs : List Nat) : Prop where
  nodup : qs.Nodup
  live : ∀ q, (h.node q).isSome ↔ q ∈ qs
  lt : ∀ q ∈ qs, q < h.top

/-- The set `t` in memory is the set `c`, in the nodes `qs`. -/
structure Rep (h : Nodes) (t : SetVar) (c : CSet) (qs : List Nat) : Prop where
  seg : Seg h t.head qs c.list
  size : t.size = c.size
  num : t.num = c.num

/-- The nodes of `rest` are untouched. -/
def Off (h h' : Nodes) (rest : List Nat) : Prop := ∀ q ∈ rest, h'.node q = h.node q

variable {h h' : Nodes}

theorem Off.refl (h : Nodes) (rest : List Nat) : Off h h rest := fun _ _ => rfl

theorem Off.trans {h1 h2 h3 : Nodes} {rest : List Nat} (a : Off h1 h2 rest) (b : Off h2 h3 rest) :
    Off h1 h3 rest := fun q hq => (b q hq).trans (a q hq)

theorem Seg.congr : ∀ {qs cs : List Nat} {p : Option Nat}, Seg h p qs cs →
    (∀ q ∈ qs, h'.node q = h.node q) → Seg h' p qs cs
  | [], [], _, s, _ => s
  | q :: _, _ :: _, _, ⟨e, nx, en, s⟩, hq =>
    ⟨e, nx, (hq q List.mem_cons_self).trans en,
      s.congr (fun k hk => hq k (List.mem_cons_of_mem _ hk))⟩

theorem Rep.congr {t : SetVar} {c : CSet} {qs : List Nat} (r : Rep h t c qs) (o : Off h h' qs) :
    Rep h' t c qs := ⟨r.seg.congr o, r.size, r.num⟩

theorem Seg.length : ∀ {qs cs : List Nat} {p : Option Nat}, Seg h p qs cs → qs.length = cs.length
  | [], [], _, _ => rfl
  | _ :: qs, _ :: cs, _, ⟨_, _, _, s⟩ => by simp [s.length]

theorem Seg.none {qs cs : List Nat} (s : Seg h none qs cs) : qs = [] ∧ cs = [] := by
  match qs, cs, s with
  | [], [], _ => exact ⟨rfl, rfl⟩
  | _ :: _, _ :: _, ⟨e, _⟩ => cases e

theorem Seg.head_none {qs cs : List Nat} {p : Option Nat} (s : Seg h p qs cs) :
    p = Option.none ↔ cs = [] := by
  match qs, cs, s with
  | [], [], s => exact ⟨fun _ => rfl, fun _ => s⟩
  | _ :: _, _ :: _, ⟨e, _⟩ =>
    constructor
    · intro e'; rw [e] at e'; cases e'
    · intro e'; cases e'

theorem Live.perm {qs qs' : List Nat} (l : Live h qs) (p : qs.Perm qs') : Live h qs' :=
  ⟨p.nodup_iff.1 l.nodup, fun q => (l.live q).trans p.mem_iff, fun q hq => l.lt q (p.mem_iff.2 hq)⟩

theorem nodup_length_le : ∀ {qs : List Nat} {n : Nat}, qs.Nodup → (∀ q ∈ qs, q < n) →
    qs.length ≤ n := by
  intro qs n hn hl
  have : qs ⊆ List.range n := fun q hq => List.mem_range.2 (hl q hq)
  have := (List.subperm_of_subset hn this).length_le
  simpa using this

theorem Live.length {qs rest : List Nat} (l : Live h (qs ++ rest)) : qs.length ≤ h.top :=
  nodup_length_le (List.nodup_append.1 l.nodup).1
    (fun q hq => l.lt q (List.mem_append_left _ hq))

theorem walk_seg : ∀ {qs cs : List Nat} {p : Option Nat} {n : Nat}, Seg h p qs cs →
    qs.length ≤ n → walk h n p = .ok cs
  | [], [], _, n, s, _ => by
    have s : _ = Option.none := s
    subst s
    cases n <;> rfl
  | q :: qs, c :: cs, p, n, ⟨e, nx, en, s⟩, hn => by
    subst e
    obtain ⟨n, rfl⟩ : ∃ m, n = m + 1 := ⟨n - 1, by simp at hn; omega⟩
    simp only [walk, en]
    rw [walk_seg s (by simpa using hn)]
    rfl

theorem peek_rep {t : SetVar} {c : CSet} {qs rest : List Nat} (r : Rep h t c qs)
    (l : Live h (qs ++ rest)) : peek h t = .ok c := by
  unfold peek
  rw [walk_seg r.seg l.length]
  show Except.ok _ = _
  rw [r.size, r.num]

theorem add_spec {t : SetVar} {c : CSet} {qs rest : List Nat} (r : Rep h t c qs)
    (l : Live h (qs ++ rest)) (i : Nat) (n : Int) :
    Rep (nodeAdd h t i n).1 (nodeAdd h t i n).2 (c.add i n) (h.top :: qs) ∧
    Live (nodeAdd h t i n).1 ((h.top :: qs) ++ rest) ∧ Off h (nodeAdd h t i n).1 (qs ++ rest) := by
  have hoff : Off h (nodeAdd h t i n).1 (qs ++ rest) := by
    intro q hq
    have := l.lt q hq
    show (if q = h.top then _ else _) = _
    rw [if_neg (by omega)]
  refine ⟨⟨⟨rfl, t.head, ?_, ?_⟩, ?_, ?_⟩, ⟨?_, ?_, ?_⟩, hoff⟩
  · show (if h.top = h.top then _ else _) = _
    rw [if_pos rfl]
  · exact r.seg.congr (fun q hq => hoff q (List.mem_append_left _ hq))
  · show t.size + 1 = c.size + 1
    rw [r.size]
  · show t.num + n = c.num + n
    rw [r.num]
  · refine List.nodup_cons.2 ⟨fun hm => ?_, l.nodup⟩
    have := l.lt _ hm
    omega
  · intro q
    show (if q = h.top then some (i, t.head) else h.node q).isSome ↔ _
    by_cases e : q = h.top
    · simp [e]
    · rw [if_neg e, l.live q]
      simp [e]
  · intro q hq
    show q < h.top + 1
    rcases List.mem_cons.1 hq with rfl | hq
    · omega
    · have := l.lt q hq
      omega

theorem drop_live {q : Nat} {qs : List Nat} (l : Live h (q :: qs)) : Live (h.drop q) qs := by
  have hn := List.nodup_cons.1 l.nodup
  refine ⟨hn.2, fun k => ?_, fun k hk => l.lt k (List.mem_cons_of_mem _ hk)⟩
  show (if k = q then none else h.node k).isSome ↔ _
  by_cases e : k = q
  · subst e
    simp [hn.1]
  · rw [if_neg e, l.live k]
    simp [e]

theorem drop_off {q : Nat} {rest : List Nat} (hq : q ∉ rest) : Off h (h.drop q) rest := by
  intro k hk
  show (if k = q then none else h.node k) = _
  rw [if_neg]
  rintro rfl
  exact hq hk

theorem freeGo_spec : ∀ {qs cs rest : List Nat} {p : Option Nat} {n : Nat} {h : Nodes},
    Seg h p qs cs → Live h (qs ++ rest) → qs.length ≤ n →
    ∃ h', freeGo n p h = .ok h' ∧ Live h' rest ∧ Off h h' rest
  | [], [], rest, p, n, h, s, l, _ => by
    have s : _ = Option.none := s
    subst s
    exact ⟨h, by cases n <;> rfl, l, Off.refl _ _⟩
  | q :: qs, c :: cs, rest, p, n, h, ⟨e, nx, en, s⟩, l, hn => by
    subst e
    obtain ⟨n, rfl⟩ : ∃ m, n = m + 1 := ⟨n - 1, by simp at hn; omega⟩
    have hq : q ∉ qs ++ rest := (List.nodup_cons.1 l.nodup).1
    have o := drop_off (h := h) hq
    obtain ⟨h', e1, e2, e3⟩ := freeGo_spec (h := h.drop q) (s.congr fun k hk =>
      o k (List.mem_append_left _ hk)) (drop_live l) (by simpa using hn)
    refine ⟨h', ?_, e2, fun k hk => (e3 k hk).trans (o k (List.mem_append_right _ hk))⟩
    simp only [freeGo, en]
    exact e1

theorem free_spec {t : SetVar} {c : CSet} {qs rest : List Nat} (r : Rep h t c qs)
    (l : Live h (qs ++ rest)) :
    ∃ h', nodeFree h t = .ok (h', {}) ∧ Live h' rest ∧ Off h h' rest := by
  obtain ⟨h', e1, e2, e3⟩ := freeGo_spec r.seg l l.length
  refine ⟨h', ?_, e2, e3⟩
  unfold nodeFree
  rw [e1]
  rfl

/-! ### Unlinking -/

theorem Seg.tail : ∀ {qd cd qs cs : List Nat} {p : Option Nat} {q c : Nat},
    qd.length = cd.length → Seg h p (qd ++ q :: qs) (cd ++ c :: cs) →
    ∃ nx, h.node q = some (c, nx) ∧ Seg h nx qs cs
  | [], [], _, _, _, _, _, _, ⟨_, nx, e, s⟩ => ⟨nx, e, s⟩
  | _ :: qd, _ :: cd, _, _, _, _, _, hl, ⟨_, _, _, s⟩ => Seg.tail (by simpa using hl) s
  | [], _ :: _, _, _, _, _, _, hl, _ => by simp at hl
  | _ :: _, [], _, _, _, _, _, hl, _ => by simp at hl

theorem Seg.splice : ∀ {qd cd qs cs qs' cs' : List Nat} {p nx : Option Nat} {q c : Nat},
    qd.length = cd.length → Seg h p (qd ++ q :: qs) (cd ++ c :: cs) →
    (∀ k ∈ qd, h'.node k = h.node k) → h'.node q = some (c, nx) → Seg h' nx qs' cs' →
    Seg h' p (qd ++ q :: qs') (cd ++ c :: cs')
  | [], [], _, _, _, _, _, nx, _, _, _, ⟨e, _, _, _⟩, _, en, s => ⟨e, nx, en, s⟩
  | k :: qd, _ :: cd, _, _, _, _, _, _, _, _, hl, ⟨e, nx', en, s⟩, ho, en', s' =>
    ⟨e, nx', (ho k List.mem_cons_self).trans en,
      Seg.splice (by simpa using hl) s (fun j hj => ho j (List.mem_cons_of_mem _ hj)) en' s'⟩
  | [], _ :: _, _, _, _, _, _, _, _, _, hl, _, _, _, _ => by simp at hl
  | _ :: _, [], _, _, _, _, _, _, _, _, hl, _, _, _, _ => by simp at hl

section
variable {K X B R : Type}

theorem rd_uaf {s : St K X B R} {i : Nat} {e : Fault} (he : s.rd i = .error e) : e = .uaf := by
  unfold St.rd at he
  split at he
  · cases he
  · cases he; rfl

theorem validateGo_uaf {s : St K X B R} : ∀ {l : List Nat} {e : Fault},
    validateGo s l = .error e → e = .uaf
  | [], _, he => by simp [validateGo] at he
  | i :: l, e, he => by
    unfold validateGo at he
    cases hc : s.rd i with
    | error e' =>
      rw [hc] at he
      cases he
      exact rd_uaf hc
    | ok c =>
      rw [hc] at he
      cases hv : validateGo s l with
      | error e' =>
        have he : (validateGo s l >>= fun t => if c.num = 0 then Except.ok t else
          .ok { list := i :: t.list, size := t.size + 1, num := t.num + c.num }) = .error e := he
        rw [hv] at he
        cases he
        exact validateGo_uaf hv
      | ok v =>
        have he : (validateGo s l >>= fun t => if c.num = 0 then Except.ok t else
          .ok { list := i :: t.list, size := t.size + 1, num := t.num + c.num }) = .error e := he
        rw [hv] at he
        have he : (if c.num = 0 then Except.ok v else
          .ok { list := i :: v.list, size := v.size + 1, num := v.num + c.num }) = .error e := he
        split at he <;> cases he

/-- What the loop of `clset_validate` does: the outcome of `validateGo` on the remaining rules. -/
theorem validGo_spec {s : St K X B R} : ∀ {cs qs qd cd rest : List Nat} {prev iter : Option Nat}
    {n : Nat} {h : Nodes} {t : SetVar}, qd.length = cd.length →
    Seg h t.head (qd ++ qs) (cd ++ cs) → Seg h iter qs cs → prev = qd.getLast? →
    Live h (qd ++ (qs ++ rest)) → qs.length ≤ n →
    (∀ v, validateGo s cs = .ok v → ∃ h' t' qs',
      validGo s.rd Cl.num n prev iter h t = .ok (h', t') ∧
      Seg h' t'.head (qd ++ qs') (cd ++ v.list) ∧ t'.size = t.size + v.size ∧
      t'.num = t.num + v.num ∧ Live h' (qd ++ (qs' ++ rest)) ∧ Off h h' rest) ∧
    (∀ e, validateGo s cs = .error e → validGo s.rd Cl.num n prev iter h t = .error e)
  | [], qs, qd, cd, rest, prev, iter, n, h, t, hl, sg, si, hp, lv, hn => by
    have hq : qs = [] := by
      have := si.length
      simpa using this
    subst hq
    have si : iter = Option.none := si
    subst si
    refine ⟨fun v hv => ?_, fun e he => by simp [validateGo] at he⟩
    simp only [validateGo] at hv
    cases hv
    exact ⟨h, t, [], by cases n <;> rfl, by simpa using sg, by simp, by simp, lv, Off.refl _ _⟩
  | c :: cs, qs, qd, cd, rest, prev, iter, n, h, t, hl, sg, si, hp, lv, hn => by
    match qs, si with
    | q :: qs, ⟨ei, nx, en, sj⟩ =>
    subst ei
    obtain ⟨n, rfl⟩ : ∃ m, n = m + 1 := ⟨n - 1, by simp at hn; omega⟩
    have hn' : qs.length ≤ n := by simpa using hn
    cases hc : s.rd c with
    | error e =>
      refine ⟨fun v hv => ?_, fun e' he => ?_⟩
      · simp [validateGo, hc, bind, Except.bind] at hv
      · have : e' = e := by
          simp [validateGo, hc, bind, Except.bind] at he
          exact he.symm
        subst this
        simp only [validGo, en, hc]
        rfl
    | ok r =>
      -- the rest of the list is looked at in the same way
      have hgo : validateGo s (c :: cs) = (validateGo s cs >>= fun t => if r.num = 0 then .ok t
          else .ok { list := c :: t.list, size := t.size + 1, num := t.num + r.num }) := by
        simp only [validateGo, hc]
        rfl
      rw [hgo]
      by_cases hz : r.num = 0
      · have hgo' : (validateGo s cs >>= fun t => if r.num = 0 then (.ok t : Res CSet)
          else .ok { list := c :: t.list, size := t.size + 1, num := t.num + r.num }) =
          validateGo s cs := by
          simp only [hz, if_true]
          cases validateGo s cs <;> rfl
        rw [hgo']
        have lv0 : Live h (q :: (qd ++ (qs ++ rest))) := lv.perm (by
          exact List.perm_middle (l₁ := qd) (l₂ := qs ++ rest) (a := q))
        have hqn := (List.nodup_cons.1 lv0.nodup).1
        rcases List.eq_nil_or_concat qd with rfl | ⟨qd0, p, rfl⟩
        · have hcd : cd = [] := by
            have : cd.length = 0 := by simpa using hl.symm
            exact List.length_eq_zero_iff.1 this
          subst hcd
          have hp : prev = Option.none := hp
          subst hp
          have o := drop_off (h := h) (rest := qs ++ rest) (by simpa using hqn)
          have sd : Seg (h.drop q) nx qs cs := sj.congr fun k hk =>
            o k (List.mem_append_left _ hk)
          have key := validGo_spec (s := s) (qd := []) (cd := []) (rest := rest)
            (prev := Option.none) (n := n) (h := h.drop q) (t := { t with head := nx }) rfl sd sd rfl
            (by simpa using drop_live (by simpa using lv0)) hn'
          have hrun : validGo s.rd Cl.num (n + 1) Option.none (some q) h t =
              validGo s.rd Cl.num n Option.none nx (h.drop q) { t with head := nx } := by
            simp only [validGo, en, hc]
            show (if r.num = 0 then _ else _) = _
            rw [if_pos hz]
          rw [hrun]
          refine ⟨fun v hv => ?_, key.2⟩
          obtain ⟨h', t', qs', e1, e2, e3, e4, e5, e6⟩ := key.1 v hv
          exact ⟨h', t', qs', e1, e2, e3, e4, e5, fun k hk =>
            (e6 k hk).trans (o k (List.mem_append_right _ hk))⟩
        · obtain ⟨cd0, cp, rfl⟩ : ∃ cd0 cp, cd = cd0 ++ [cp] := by
            rcases List.eq_nil_or_concat cd with rfl | ⟨cd0, cp, rfl⟩
            · simp at hl
            · exact ⟨cd0, cp, by simp⟩
          simp only [List.concat_eq_append] at *
          have hl0 : qd0.length = cd0.length := by simpa using hl
          have hp : prev = some p := by simpa using hp
          subst hp
          have sg' : Seg h t.head (qd0 ++ p :: (q :: qs)) (cd0 ++ cp :: (c :: cs)) := by
            simpa using sg
          obtain ⟨np, enp, _⟩ := sg'.tail hl0
          have hnd := lv0.nodup
          have hpq : p ≠ q := by
            rintro rfl
            exact hqn (by simp)
          have hp0 : p ∉ qd0 ∧ p ∉ qs ∧ p ∉ rest := by
            have h1 : (qd0 ++ ([p] ++ (qs ++ rest))).Nodup := by
              simpa using (List.nodup_cons.1 hnd).2
            have h2 := List.nodup_append.1 h1
            refine ⟨fun hm => h2.2.2 p hm p (by simp) rfl, ?_, ?_⟩
            · have := ((List.nodup_cons (a := p) (l := qs ++ rest)).1 h2.2.1).1
              intro hm; exact this (by simp [hm])
            · have := ((List.nodup_cons (a := p) (l := qs ++ rest)).1 h2.2.1).1
              intro hm; exact this (by simp [hm])
          have hq0 : q ∉ qd0 ∧ q ∉ qs ∧ q ∉ rest := by
            refine ⟨fun hm => hqn (by simp [hm]), fun hm => hqn (by simp [hm]),
              fun hm => hqn (by simp [hm])⟩
          have hnode : ∀ k, k ≠ p → k ≠ q → ((h.write p (cp, nx)).drop q).node k = h.node k := by
            intro k k1 k2
            show (if k = q then none else if k = p then some (cp, nx) else h.node k) = _
            rw [if_neg k2, if_neg k1]
          have hnp : ((h.write p (cp, nx)).drop q).node p = some (cp, nx) := by
            show (if p = q then none else if p = p then some (cp, nx) else h.node p) = _
            rw [if_neg hpq, if_pos rfl]
          have sd : Seg ((h.write p (cp, nx)).drop q) nx qs cs := sj.congr fun k hk =>
            hnode k (fun e => hp0.2.1 (e ▸ hk)) (fun e => hq0.2.1 (e ▸ hk))
          have sgd : Seg ((h.write p (cp, nx)).drop q) t.head ((qd0 ++ [p]) ++ qs)
              ((cd0 ++ [cp]) ++ cs) := by
            have := sg'.splice (h' := (h.write p (cp, nx)).drop q) (qs' := qs) (cs' := cs) hl0
              (fun k hk => hnode k (fun e => hp0.1 (e ▸ hk)) (fun e => hq0.1 (e ▸ hk))) hnp sd
            simpa using this
          have lvw : Live (h.write p (cp, nx)) (q :: (qd0 ++ [p] ++ (qs ++ rest))) := by
            refine ⟨lv0.nodup, fun k => ?_, lv0.lt⟩
            show (if k = p then some (cp, nx) else h.node k).isSome ↔ _
            by_cases e : k = p
            · subst e
              simp
            · rw [if_neg e]
              exact lv0.live k
          have key := validGo_spec (s := s) (qd := qd0 ++ [p]) (cd := cd0 ++ [cp]) (rest := rest)
            (prev := some p) (n := n) (t := t) (by simp [hl0]) sgd sd (by simp) (drop_live lvw) hn'
          have hrun : validGo s.rd Cl.num (n + 1) (some p) (some q) h t =
              validGo s.rd Cl.num n (some p) nx ((h.write p (cp, nx)).drop q) t := by
            simp only [validGo, en, hc, enp]
            show (if r.num = 0 then _ else _) = _
            rw [if_pos hz]
          rw [hrun]
          refine ⟨fun v hv => ?_, key.2⟩
          obtain ⟨h', t', qs', e1, e2, e3, e4, e5, e6⟩ := key.1 v hv
          exact ⟨h', t', qs', e1, e2, e3, e4, e5, fun k hk => (e6 k hk).trans
            (hnode k (fun e => hp0.2.2 (e ▸ hk)) (fun e => hq0.2.2 (e ▸ hk)))⟩
      · have key := validGo_spec (s := s) (cs := cs) (qs := qs) (qd := qd ++ [q]) (cd := cd ++ [c])
          (rest := rest) (prev := some q) (iter := nx) (n := n) (h := h)
          (t := { t with size := t.size + 1, num := t.num + r.num }) (by simp [hl])
          (by simpa using sg) sj (by simp) (by simpa using lv) hn'
        have hrun : validGo s.rd Cl.num (n + 1) prev (some q) h t =
            validGo s.rd Cl.num n (some q) nx h
              { t with size := t.size + 1, num := t.num + r.num } := by
          simp only [validGo, en, hc]
          show (if r.num = 0 then _ else _) = _
          rw [if_neg hz]
        rw [hrun]
        simp only [if_neg hz]
        constructor
        · intro v hv
          cases hw : validateGo s cs with
          | error e => rw [hw] at hv; cases hv
          | ok w =>
            rw [hw] at hv
            cases hv
            obtain ⟨h', t', qs', e1, e2, e3, e4, e5, e6⟩ := key.1 w hw
            refine ⟨h', t', q :: qs', e1, by simpa using e2, ?_, ?_, by simpa using e5, e6⟩
            · rw [e3]; simp only; omega
            · rw [e4]; simp only; omega
        · intro e he
          cases hw : validateGo s cs with
          | error e' =>
            rw [hw] at he
            cases he
            exact key.2 _ hw
          | ok w => rw [hw] at he; cases he

/-- `clset_validate` in memory does what `validate` does to the list. -/
theorem validate_spec {s : St K X B R} {t : SetVar} {c : CSet} {qs rest : List Nat}
    (r : Rep h t c qs) (l : Live h (qs ++ rest)) :
    (∀ v, validate s c = .ok v → ∃ h' t' qs', nodeValidate s.rd Cl.num h t = .ok (h', t') ∧
      Rep h' t' v qs' ∧ Live h' (qs' ++ rest) ∧ Off h h' rest) ∧
    (∀ e, validate s c = .error e → nodeValidate s.rd Cl.num h t = .error e) := by
  have key := validGo_spec (s := s) (qd := []) (cd := []) (rest := rest) (prev := none)
    (iter := t.head) (n := h.top) (t := { t with size := 0, num := 0 }) rfl r.seg r.seg rfl l l.length
  refine ⟨fun v hv => ?_, key.2⟩
  obtain ⟨h', t', qs', e1, e2, e3, e4, e5, e6⟩ := key.1 v hv
  exact ⟨h', t', qs', e1, ⟨e2, by rw [e3]; simp, by rw [e4]; simp⟩, e5, e6⟩

end

end Steps
end Xcsf
