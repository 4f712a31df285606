import Verif.RepMemPool

/-!
# C96: the memory of conditions, actions, predictions and networks

Every rule owns the arrays, trees, graphs, layers and connected sublayers it is made of.  Whatever is
done with rules, in any order and any number of times, no array is used after it was released or
released twice, and once all rules are deleted all memory is given back.  Matching, learning,
mutation and crossover do not let the memory grow.  The exception are recurrent layers read from a
file: their outputs are missing.
-/

set_option linter.unusedSectionVars false

namespace Xcsf

open RepMem

/-! ## Specification -/

/-- A history of rules from the first to the last: at the end all rules are deleted
(`xcsf_free`, xcsf.c:56-65, with `clset_kill`). -/
def ruleLives (ops : List RepMem.Op) : M Unit := do
  let pool ← RepMem.run ops []
  killAll pool

/-- What may go wrong: the program ends because a JSON import is refused or not implemented; a
recurrent layer read from a file has no outputs. -/
def MemExpected (ops : List RepMem.Op) (f : Fault) : Prop :=
  (f = .exit ∧ ∃ op ∈ ops, op.imports = true) ∨ (f = .ub ∧ ∃ op ∈ ops, op.loadsRecurrent = true)

/-- The empty heap, with an allocator that moves blocks or extends them in place as `moves` says. -/
def freshHeap (moves : Nat → Bool) : Heap := ⟨[], 0, moves⟩

/-- Whether a computation ends with the fault `f`. -/
def memFails {α : Type} (f : Fault) : Res α → Bool
  | .ok _ => false
  | .error g => decide (g = f)

namespace RepDemo

/-- Rules with a tree as condition and a network of all kinds of layers as prediction. -/
def mixed : Types where
  cond := .flat .gp
  act := .flat .integer
  pred := .net [.convolutional, .maxpool, .connected, .dropout, .lstm, .recurrent, .noise, .softmax]

/-- Rules with a network as condition and recursive least squares as prediction. -/
def neural : Types where
  cond := .net [.connected, .connected]
  act := .none
  pred := .flat .rls

/-- A history in which networks grow, are expanded, copied, turned into classifiers and deleted. -/
def busy : List RepMem.Op :=
  [.create mixed, .cover mixed 3 0, .cross 0 1, .child mixed 0 false, .ask 2, .update 2,
    .mutate 2 [] [] (List.replicate 8 ⟨true, true⟩), .ask 2, .update 2, .expand 2 [true, false, true],
    .copy 2, .classify 3 4, .free 2, .general 0 1, .ask 2, .mutate 2 [] [] [⟨true, true⟩], .free 0]

/-- Rules with a tree as condition and a small network as prediction. -/
def small : Types where
  cond := .flat .gp
  act := .none
  pred := .net [.recurrent, .connected]

/-- A history with loaded rules. -/
def loaded : List RepMem.Op := [.load neural, .cover neural 0 0, .child neural 1 true, .ask 0, .free 1]

/-- A rule with a recurrent layer is loaded and asked. -/
def recurrent : List RepMem.Op :=
  [.load { cond := .none, act := .flat .integer, pred := .net [.recurrent] }, .ask 0]

end RepDemo

section
variable {ops : List RepMem.Op} {d : Nat} {h h' : Heap} {f : Fault}

theorem has_refl (hs : h.Sane) : Has h (poolBlocks [] ++ h.live) := ⟨.refl _, hs⟩

theorem ruleLives_post (ops : List RepMem.Op) (ho : ∀ op ∈ ops, op.ok d) (hs : h.Sane) :
    Post (ruleLives ops h) (fun r => r.2.live.Perm h.live) (MemExpected ops) := by
  have t : Tri (MemExpected ops) (poolBlocks []) (ruleLives ops) (fun _ => True) (fun _ => []) := by
    rw [ruleLives]
    refine tri_bind (K := []) (tri_run (pool := []) ops (fun _ h => nomatch h) ho
      (fun op m e => .inl ⟨rfl, op, m, e⟩) (fun op m e => .inr ⟨rfl, op, m, e⟩))
      (by rw [List.append_nil]) fun p _ => ?_
    rw [List.append_nil]
    exact tri_killAll p
  have := t h.live h (has_refl hs)
  cases e : ruleLives ops h with
  | error f => rw [e] at this; exact this
  | ok r => rw [e] at this; exact this.2.1

/-! ## Theorems -/

/-- **C96.** Nothing is lost: once all rules are deleted, exactly the memory is allocated that was
allocated before the first was made, whatever was done in between. -/
theorem C96_all_memory_returned (hs : h.Sane) (ho : ∀ op ∈ ops, op.ok d)
    (hr : ruleLives ops h = .ok ((), h')) : h'.live.Perm h.live := by
  have := ruleLives_post ops ho hs
  rw [hr] at this
  exact this

example : (freshHeap fun n => n % 3 == 0).Sane ∧ (∀ op ∈ RepDemo.busy, op.ok 2) ∧
    (RepMem.run [.create RepDemo.small, .copy 0] [] (freshHeap fun n => n % 3 == 0)).toOption.map
      (fun r => (r.1.length, r.2.live.length)) = some (2, 104) := by decide +kernel

/-- **C96.** Nothing is used after it was released, nothing is released twice, and no null pointer is
followed, while rules live or when they are deleted, except: a JSON import may end the program, and a
recurrent layer read from a file has no outputs. -/
theorem C96_only_expected_faults (hs : h.Sane) (ho : ∀ op ∈ ops, op.ok d)
    (hr : ruleLives ops h = .error f) : MemExpected ops f := by
  have := ruleLives_post ops ho hs
  rw [hr] at this
  exact this

/-- **C96.** In particular nothing is ever used after it was released, or released twice. -/
theorem C96_no_use_after_release (hs : h.Sane) (ho : ∀ op ∈ ops, op.ok d) :
    ruleLives ops h ≠ .error .uaf := by
  intro hr
  rcases C96_only_expected_faults hs ho hr with ⟨e, _⟩ | ⟨e, _⟩ <;> cases e

/-- **C96 (partial).** Without JSON imports and without recurrent layers read from files, every
history runs to its end and all memory is given back. -/
theorem C96_no_fault_partial (hs : h.Sane) (ho : ∀ op ∈ ops, op.ok d)
    (hi : ∀ op ∈ ops, op.imports = false) (hl : ∀ op ∈ ops, op.loadsRecurrent = false) :
    ∃ h', ruleLives ops h = .ok ((), h') ∧ h'.live.Perm h.live := by
  cases hr : ruleLives ops h with
  | error f =>
    rcases C96_only_expected_faults hs ho hr with ⟨_, op, m, e⟩ | ⟨_, op, m, e⟩
    · rw [hi op m] at e; cases e
    · rw [hl op m] at e; cases e
  | ok r => exact ⟨r.2, rfl, C96_all_memory_returned hs ho hr⟩

example : ∃ h', ruleLives RepDemo.busy (freshHeap fun n => n % 3 == 0) = .ok ((), h') ∧
    h'.live.Perm [] :=
  C96_no_fault_partial (d := 2) (by decide) (by decide +kernel) (by decide +kernel) (by decide +kernel)

example : ∃ h', ruleLives RepDemo.loaded (freshHeap fun _ => true) = .ok ((), h') ∧
    h'.live.Perm [] :=
  C96_no_fault_partial (d := 0) (by decide) (by decide +kernel) (by decide +kernel) (by decide +kernel)

/-- **C96.** Asking, learning, mutation, crossover and comparison do not let the memory grow or
shrink, even if networks get more neurons: the number of arrays stays the same. -/
theorem C96_memory_does_not_grow {more : List RepMem.Op} {pool pool' : List Cl} {h1 h2 : Heap}
    (hs : h.Sane) (ho : ∀ op ∈ ops, op.ok d) (hr : RepMem.run ops [] h = .ok (pool, h1))
    (hm : ∀ op ∈ more, op.inPlace = true) (hr' : RepMem.run more pool h1 = .ok (pool', h2)) :
    h2.live.length = h1.live.length := by
  have t := tri_run (E := fun _ => True) (pool := []) ops (fun _ h => nomatch h) ho
    (fun _ _ _ => trivial) (fun _ _ _ => trivial) h.live h (has_refl hs)
  rw [hr] at t
  obtain ⟨⟨hp, _⟩, ha⟩ := t
  have hmo : ∀ op ∈ more, op.ok d := by
    intro op hop
    have := hm op hop
    cases op <;> first | exact trivial | cases this
  have t' := tri_run (E := fun _ => True) more hp hmo
    (fun _ _ _ => trivial) (fun _ _ _ => trivial) h.live h1 ha
  rw [hr'] at t'
  obtain ⟨⟨hp', hsz⟩, hb⟩ := t'
  rw [hb.1.length_eq, ha.1.length_eq, List.length_append, List.length_append,
    poolBlocks_length hp', poolBlocks_length hp, hsz hm]

example : ∀ op ∈ [RepMem.Op.mutate 1 [] [] [⟨true, true⟩], .cross 0 1, .update 0, .ask 1],
    op.inPlace = true := by decide

example : (RepMem.run [.create RepDemo.small, .copy 0, .mutate 1 [] [] [⟨true, true⟩]] []
      (freshHeap fun _ => true)).toOption.map (fun r => (r.1.length, r.2.live.length)) =
    some (2, 104) := by decide +kernel

/-- **C96 is refuted for recurrent layers read from a file:** the outputs of such a layer are a null
pointer, and the first prediction follows it. -/
theorem C96_loaded_recurrent_refuted : ∃ ops : List RepMem.Op, (∀ op ∈ ops, op.ok 1) ∧
    (∀ op ∈ ops, op.imports = false) ∧
    memFails .ub (ruleLives ops (freshHeap fun _ => false)) = true :=
  ⟨RepDemo.recurrent, by decide +kernel, by decide +kernel, by decide +kernel⟩

/-- **C96 is refuted for expanding rules whose predictions have no second layer:** the functions
that expand the networks of predictions check neither the number of layers nor whether the
predictions are networks at all. -/
theorem C96_expand_refuted : ∃ T : Types, T.ok 1 ∧
    memFails .ub (ruleLives [.create T, .expand 0 []] (freshHeap fun _ => false)) = true ∧
    memFails .ub (ruleLives [.create { T with pred := .flat .nlms }, .expand 0 []]
      (freshHeap fun _ => false)) = true ∧
    memFails .ub (ruleLives [.create { T with pred := .flat .nlms }, .classify 0 1]
      (freshHeap fun _ => false)) = true :=
  ⟨{ cond := .none, act := .none, pred := .net [.connected] }, by decide, by decide +kernel,
    by decide +kernel, by decide +kernel⟩

end

end Xcsf
