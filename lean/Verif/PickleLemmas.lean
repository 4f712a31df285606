import Verif.Pickle
import Verif.Pa

/-! # Helpers for pickling -/

set_option linter.unusedSectionVars false

namespace Xcsf
namespace Pickle

/-- The names of different directories are different files. -/
structure Disk.Sound (d : Disk) : Prop where
  lt : ∀ k i, d.name k = some i → i < d.next
  inj : ∀ k l i, d.name k = some i → d.name l = some i → k = l

/-- What holds of a process that is alone in its directory. -/
def Own (dir : Nat) (own : List UInt8) (d : Disk) : Stage → Prop
  | .start => True
  | .opened i => d.name dir = some i ∧ d.data i = []
  | .closed => ∃ i, d.name dir = some i ∧ d.data i = own
  | .got b => b = some own
  | .done b => b = some own

/-- The invariant of a process `p` that is alone in its directory. -/
structure Alone (dir : Nat → Nat) (own : Nat → List UInt8) (p : Nat) (w : World) : Prop where
  sound : w.disk.Sound
  others : ∀ q i, q ≠ p → w.stage q = .opened i → i < w.disk.next ∧ w.disk.name (dir p) ≠ some i
  mine : Own (dir p) (own p) w.disk (w.stage p)

/-- Opening a file that exists. -/
theorem move_some {dir i : Nat} {own : List UInt8} {d : Disk} (e : d.name dir = some i) :
    move dir own .start d =
      (.opened i, { d with data := fun k => if k = i then [] else d.data k }) := by
  simp only [move, e]

/-- Opening a file that does not exist. -/
theorem move_none {dir : Nat} {own : List UInt8} {d : Disk} (e : d.name dir = none) :
    move dir own .start d = (.opened d.next,
        { name := fun k => if k = dir then some d.next else d.name k
          data := fun k => if k = d.next then [] else d.data k
          next := d.next + 1 }) := by
  simp only [move, e]

theorem move_sound {dir : Nat} {own : List UInt8} {st : Stage} {d : Disk} (h : d.Sound) :
    (move dir own st d).2.Sound := by
  cases st with
  | start =>
    cases e : d.name dir with
    | some i => rw [move_some e]; exact ⟨h.lt, h.inj⟩
    | none =>
      rw [move_none e]
      refine ⟨fun k i hk => ?_, fun k l i hk hl => ?_⟩
      · dsimp only at hk ⊢
        split at hk
        · cases hk; omega
        · have := h.lt _ _ hk; omega
      · dsimp only at hk hl
        split at hk
        · rename_i e1
          cases hk
          split at hl
          · rename_i e2; rw [e1, e2]
          · have := h.lt _ _ hl; omega
        · split at hl
          · cases hl; have := h.lt _ _ hk; omega
          · exact h.inj _ _ _ hk hl
  | opened i => exact ⟨h.lt, h.inj⟩
  | closed => exact h
  | got b =>
    refine ⟨fun k i hk => ?_, fun k l i hk hl => ?_⟩
    · dsimp only [move] at hk
      split at hk
      · cases hk
      · exact h.lt _ _ hk
    · dsimp only [move] at hk hl
      split at hk
      · cases hk
      · split at hl
        · cases hl
        · exact h.inj _ _ _ hk hl
  | done b => exact h

/-- A step never lowers the number of inodes. -/
theorem move_next {dir : Nat} {own : List UInt8} {st : Stage} {d : Disk} :
    d.next ≤ (move dir own st d).2.next := by
  cases st with
  | start =>
    cases e : d.name dir with
    | some i => rw [move_some e]
    | none => rw [move_none e]; exact Nat.le_succ _
  | _ => exact Nat.le_refl _

/-- A step in another directory leaves the name alone. -/
theorem move_name {dir k : Nat} {own : List UInt8} {st : Stage} {d : Disk} (hk : k ≠ dir) :
    (move dir own st d).2.name k = d.name k := by
  cases st with
  | start =>
    cases e : d.name dir with
    | some i => rw [move_some e]
    | none => rw [move_none e]; exact if_neg hk
  | got b => exact if_neg hk
  | _ => rfl

/-- A step of a process in another directory leaves the file alone. -/
theorem move_data {dir k i : Nat} {own : List UInt8} {st : Stage} {d : Disk} (h : d.Sound)
    (hk : k ≠ dir) (hi : d.name k = some i) (ho : st ≠ .opened i) :
    (move dir own st d).2.data i = d.data i := by
  cases st with
  | start =>
    cases e : d.name dir with
    | some j =>
      rw [move_some e]
      refine if_neg fun ee => hk ?_
      subst ee
      exact h.inj _ _ _ hi e
    | none =>
      rw [move_none e]
      refine if_neg fun ee => ?_
      have := h.lt _ _ hi
      omega
  | opened j =>
    refine if_neg fun ee => ho ?_
    rw [ee]
  | _ => rfl

/-- What a process has opened: a file that existed or the next inode. -/
theorem move_opened {dir i : Nat} {own : List UInt8} {st : Stage} {d : Disk}
    (e : (move dir own st d).1 = .opened i) :
    (move dir own st d).2.name dir = some i := by
  cases st with
  | start =>
    cases en : d.name dir with
    | some j => rw [move_some en] at e ⊢; cases e; exact en
    | none => rw [move_none en] at e ⊢; cases e; exact if_pos rfl
  | opened j => cases e
  | closed => cases e
  | got b => cases e
  | done b => cases e

theorem own_move {dir : Nat} {own : List UInt8} {st : Stage} {d : Disk} (h : Own dir own d st) :
    Own dir own (move dir own st d).2 (move dir own st d).1 := by
  cases st with
  | start =>
    cases en : d.name dir with
    | some j => rw [move_some en]; exact ⟨en, if_pos rfl⟩
    | none => rw [move_none en]; exact ⟨if_pos rfl, if_pos rfl⟩
  | opened i =>
    refine ⟨i, h.1, ?_⟩
    show (if i = i then own ++ (d.data i).drop own.length else d.data i) = own
    rw [if_pos rfl, h.2, List.drop_nil, List.append_nil]
  | closed =>
    obtain ⟨i, e1, e2⟩ := h
    show (d.name dir).map d.data = some own
    rw [e1, Option.map_some, e2]
  | got b => exact h
  | done b => exact h

theorem alone_tick {dir : Nat → Nat} {own : Nat → List UInt8} {p : Nat}
    (hd : ∀ q, q ≠ p → dir q ≠ dir p) {w : World} (h : Alone dir own p w) (q : Nat) :
    Alone dir own p (tick dir own w q) := by
  by_cases hq : q = p
  · subst hq
    refine ⟨move_sound h.sound, fun r i hr e => ?_, ?_⟩
    · have e' : w.stage r = .opened i := by
        have := e; simp only [tick, if_neg hr] at this; exact this
      obtain ⟨h1, h2⟩ := h.others r i hr e'
      refine ⟨Nat.lt_of_lt_of_le h1 move_next, ?_⟩
      show (move (dir q) (own q) (w.stage q) w.disk).2.name (dir q) ≠ some i
      cases es : w.stage q with
      | start =>
        cases en : w.disk.name (dir q) with
        | some j => rw [move_some en]; exact fun e => h2 e
        | none =>
          rw [move_none en]
          show (if dir q = dir q then some w.disk.next else w.disk.name (dir q)) ≠ some i
          rw [if_pos rfl]
          intro e; cases e; omega
      | opened j => exact h2
      | closed => exact h2
      | got b =>
        show (if dir q = dir q then none else w.disk.name (dir q)) ≠ some i
        rw [if_pos rfl]
        intro e; cases e
      | done b => exact h2
    · show Own (dir q) (own q) (move (dir q) (own q) (w.stage q) w.disk).2 (if q = q then _ else _)
      rw [if_pos rfl]
      exact own_move h.mine
  · have hn : (move (dir q) (own q) (w.stage q) w.disk).2.name (dir p) = w.disk.name (dir p) :=
      move_name (hd q hq).symm
    refine ⟨move_sound h.sound, fun r i hr e => ?_, ?_⟩
    · by_cases er : r = q
      · subst er
        have e' : (move (dir r) (own r) (w.stage r) w.disk).1 = .opened i := by
          have := e; simp only [tick, if_true] at this; exact this
        have e2 := move_opened e'
        refine ⟨(move_sound h.sound).lt _ _ e2, fun e3 => ?_⟩
        exact hd r hr ((move_sound h.sound).inj _ _ _ e2 e3)
      · have e' : w.stage r = .opened i := by
          have := e; simp only [tick, if_neg er] at this; exact this
        obtain ⟨h1, h2⟩ := h.others r i hr e'
        refine ⟨Nat.lt_of_lt_of_le h1 move_next, ?_⟩
        show (move (dir q) (own q) (w.stage q) w.disk).2.name (dir p) ≠ some i
        rw [hn]; exact h2
    · have es : (tick dir own w q).stage p = w.stage p := if_neg fun e => hq e.symm
      rw [es]
      show Own (dir p) (own p) (move (dir q) (own q) (w.stage q) w.disk).2 (w.stage p)
      have hm := h.mine
      have data : ∀ i, w.disk.name (dir p) = some i →
          (move (dir q) (own q) (w.stage q) w.disk).2.data i = w.disk.data i := fun i hi =>
        move_data h.sound (hd q hq).symm hi fun e => (h.others q i hq e).2 hi
      cases e : w.stage p with
      | start => trivial
      | opened i =>
        rw [e] at hm
        exact ⟨hn.trans hm.1, (data i hm.1).trans hm.2⟩
      | closed =>
        rw [e] at hm
        obtain ⟨i, h1, h2⟩ := hm
        exact ⟨i, hn.trans h1, (data i h1).trans h2⟩
      | got b => rw [e] at hm; exact hm
      | done b => rw [e] at hm; exact hm

theorem alone_ticks {dir : Nat → Nat} {own : Nat → List UInt8} {p : Nat}
    (hd : ∀ q, q ≠ p → dir q ≠ dir p) (l : List Nat) : ∀ w, Alone dir own p w →
    Alone dir own p (ticks dir own l w) := by
  induction l with
  | nil => intro w h; exact h
  | cons q l ih => intro w h; exact ih _ (alone_tick hd h q)

/-- How many steps have been made. -/
def rank : Stage → Nat
  | .start => 0
  | .opened _ => 1
  | .closed => 2
  | .got _ => 3
  | .done _ => 4

theorem rank_move {dir : Nat} {own : List UInt8} (st : Stage) (d : Disk) :
    rank (move dir own st d).1 = min 4 (rank st + 1) := by
  cases st with
  | start => cases e : d.name dir <;> simp [move, e, rank]
  | _ => rfl

theorem rank_ticks {dir : Nat → Nat} {own : Nat → List UInt8} (p : Nat) (l : List Nat) : ∀ w : World,
    min 4 (rank (w.stage p) + l.count p) ≤ rank ((ticks dir own l w).stage p) := by
  induction l with
  | nil => intro w; simp [ticks]
  | cons q l ih =>
    intro w
    have := ih (tick dir own w q)
    unfold ticks
    by_cases e : p = q
    · subst e
      have e2 : (tick dir own w p).stage p = (move (dir p) (own p) (w.stage p) w.disk).1 :=
        if_pos rfl
      rw [e2, rank_move] at this
      rw [List.count_cons_self]
      omega
    · have e2 : (tick dir own w q).stage p = w.stage p := if_neg e
      rw [e2] at this
      rw [List.count_cons_of_ne (fun h => e h.symm)]
      exact this

theorem rank_done {st : Stage} (h : 4 ≤ rank st) : ∃ b, st = .done b := by
  cases st with
  | done b => exact ⟨b, rfl⟩
  | start => simp [rank] at h
  | opened i => simp [rank] at h
  | closed => simp [rank] at h
  | got b => simp [rank] at h

theorem ticks_append (dir : Nat → Nat) (own : Nat → List UInt8) (l m : List Nat) : ∀ w,
    ticks dir own (l ++ m) w = ticks dir own m (ticks dir own l w) := by
  induction l with
  | nil => intro w; rfl
  | cons q l ih => intro w; exact ih _

/-- All four steps of a process in a row. -/
theorem ticks_block (dir : Nat → Nat) (own : Nat → List UInt8) (p : Nat) (w : World)
    (h : w.stage p = .start) :
    (ticks dir own [p, p, p, p] w).stage p = .done (some (own p)) ∧
      (∀ q, q ≠ p → (ticks dir own [p, p, p, p] w).stage q = w.stage q) ∧
      (ticks dir own [p, p, p, p] w).disk.name (dir p) = none ∧
      (∀ k, k ≠ dir p → (ticks dir own [p, p, p, p] w).disk.name k = w.disk.name k) := by
  cases e : w.disk.name (dir p) with
  | none =>
    refine ⟨?_, fun q hq => ?_, ?_, fun k hk => ?_⟩ <;>
      simp_all [ticks, tick, move]
  | some i =>
    refine ⟨?_, fun q hq => ?_, ?_, fun k hk => ?_⟩ <;>
      simp_all [ticks, tick, move]

section
variable {K B : Type} [Add K] [Sub K] [Mul K] [Div K] [Neg K] [Zero K] [One K] [LE K] [DecidableLE K]
  [LT K] [DecidableLT K] [IntCast K] [DecidableEq K]

theorem addAt_cases (l : List K) (k : Int) (v : K) :
    (∃ m, addAt l k v = .ok m ∧ m.length = l.length ∧ k < l.length) ∨ addAt l k v = .error .ub := by
  unfold addAt
  split
  · cases e : l[k.toNat]? with
    | none => exact .inr rfl
    | some a =>
      have := List.getElem?_eq_some_iff.1 e
      obtain ⟨h, -⟩ := this
      exact .inl ⟨_, rfl, List.length_set, by omega⟩
  · exact .inr rfl

theorem paRule_cases (yDim : Nat) (c : Cl K B) (js : List Nat) : ∀ pa nr : List K,
    (∃ z, paRule yDim c js pa nr = .ok z ∧ z.1.length = pa.length ∧ z.2.length = nr.length ∧
      ∀ j ∈ js, c.action * (yDim : Int) + (j : Int) < pa.length) ∨
    paRule yDim c js pa nr = .error .ub := by
  induction js with
  | nil => intro pa nr; exact .inl ⟨_, rfl, rfl, rfl, by simp⟩
  | cons j js ih =>
    intro pa nr
    unfold paRule
    cases ep : c.prediction[j]? with
    | none => exact .inr rfl
    | some v =>
      rcases addAt_cases pa (c.action * (yDim : Int) + (j : Int)) (v * c.fit) with
        ⟨m, e, hl, hk⟩ | e
      · rcases addAt_cases nr (c.action * (yDim : Int) + (j : Int)) c.fit with
          ⟨m', e', hl', hk'⟩ | e'
        · simp only [e, e']
          rcases ih m m' with ⟨z, ez, h1, h2, h3⟩ | ez
          · refine .inl ⟨z, ez, by omega, by omega, fun i hi => ?_⟩
            rcases List.mem_cons.1 hi with rfl | hi
            · exact hk
            · have := h3 i hi; omega
          · exact .inr ez
        · simp only [e, e']; exact .inr rfl
      · simp only [e]; exact .inr rfl

theorem paRules_cases (yDim : Nat) (cs : List (Cl K B)) : ∀ pa nr : List K,
    (∃ z, paRules yDim cs pa nr = .ok z ∧ z.1.length = pa.length ∧
      ∀ c ∈ cs, ∀ j < yDim, c.action * (yDim : Int) + (j : Int) < pa.length) ∨
    paRules yDim cs pa nr = .error .ub := by
  induction cs with
  | nil => intro pa nr; exact .inl ⟨_, rfl, rfl, by simp⟩
  | cons c cs ih =>
    intro pa nr
    unfold paRules
    rcases paRule_cases yDim c (List.range yDim) pa nr with ⟨⟨m, m'⟩, e, h1, h2, h3⟩ | e
    · simp only [e]
      rcases ih m m' with ⟨z, ez, h4, h5⟩ | ez
      · refine .inl ⟨z, ez, by simp_all, fun c' hc j hj => ?_⟩
        rcases List.mem_cons.1 hc with rfl | hc
        · exact h3 j (List.mem_range.2 hj)
        · have := h5 c' hc j hj; simp_all
      · exact .inr ez
    · simp only [e]; exact .inr rfl

/-- A rule whose last output is behind the array makes the array be written outside. -/
theorem paRules_outside {yDim : Nat} {cs : List (Cl K B)} {pa nr : List K} {c : Cl K B} (hc : c ∈ cs)
    (hy : 0 < yDim) (h : (pa.length : Int) < (c.action + 1) * (yDim : Int)) :
    paRules yDim cs pa nr = .error .ub := by
  rcases paRules_cases yDim cs pa nr with ⟨z, -, -, h2⟩ | e
  · have := h2 c hc (yDim - 1) (by omega)
    rw [Int.add_mul, Int.one_mul] at h
    omega
  · exact e

end

end Pickle
end Xcsf
