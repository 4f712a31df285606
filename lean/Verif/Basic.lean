/-!
# Outcomes of modelled operations

The C code ends an operation in one of five ways: it returns, it calls `exit`,
it uses or frees a rule that was freed already, it performs another undefined access (NULL
dereference, index outside an array), or it does not terminate.  The last four are the
faults of the model.
-/

namespace Xcsf

/-- Ways in which a modelled operation can fail to return.
* `exit`: the code calls `exit(EXIT_FAILURE)`;
* `ub`: NULL dereference, index outside an array, uninitialised argument;
* `uaf`: access to a freed rule, or freeing it again;
* `hang`: the loop bound of the model is exhausted (the C loop goes on). -/
inductive Fault where
  | exit
  | ub
  | uaf
  | hang
  deriving DecidableEq, Repr

/-- Result of a modelled operation. -/
abbrev Res (α : Type) := Except Fault α

/-- `Post m P E`: if `m` returns, the result satisfies `P`; if it faults, the
fault satisfies `E`. -/
def Post {α : Type} (m : Res α) (P : α → Prop) (E : Fault → Prop) : Prop :=
  match m with
  | .ok a => P a
  | .error e => E e

section Post
variable {α β : Type} {E : Fault → Prop}

@[simp] theorem post_ok (a : α) (P : α → Prop) : Post (.ok a) P E ↔ P a := Iff.rfl
@[simp] theorem post_pure (a : α) (P : α → Prop) : Post (pure a) P E ↔ P a := Iff.rfl
@[simp] theorem post_error (e : Fault) (P : α → Prop) :
    Post (.error e : Res α) P E ↔ E e := Iff.rfl

theorem post_bind {m : Res α} {f : α → Res β} {Q : α → Prop} {P : β → Prop}
    (hm : Post m Q E) (hf : ∀ a, Q a → Post (f a) P E) : Post (m >>= f) P E := by
  cases m with
  | ok a => exact hf a hm
  | error e => exact hm

theorem post_mono {m : Res α} {P Q : α → Prop} (hm : Post m P E) (h : ∀ a, P a → Q a) :
    Post m Q E := by
  cases m with
  | ok a => exact h a hm
  | error e => exact hm

theorem post_mono_fault {m : Res α} {P : α → Prop} {E' : Fault → Prop} (hm : Post m P E)
    (h : ∀ e, E e → E' e) : Post m P E' := by
  cases m with
  | ok a => exact hm
  | error e => exact h e hm

theorem post_and {m : Res α} {P Q : α → Prop} (h1 : Post m P E) (h2 : Post m Q E) :
    Post m (fun a => P a ∧ Q a) E := by
  cases m with
  | ok a => exact ⟨h1, h2⟩
  | error e => exact h1

/-- `Post` with the impossible fault predicate means: the operation returns. -/
theorem post_false_iff {m : Res α} {P : α → Prop} :
    Post m P (fun _ => False) ↔ ∃ a, m = .ok a ∧ P a := by
  cases m with
  | ok a => simp [Post]
  | error e => simp [Post]

theorem post_of_ok {m : Res α} {P : α → Prop} {a : α} (h : Post m P E) (ha : m = .ok a) :
    P a := by
  subst ha; exact h

theorem post_of_error {m : Res α} {P : α → Prop} {e : Fault} (h : Post m P E)
    (ha : m = .error e) : E e := by
  subst ha; exact h

end Post

/-- The faults of a run that is memory safe: `exit` and non-termination are
allowed, undefined behaviour is not. -/
def NoUB : Fault → Prop
  | .ub => False
  | .uaf => False
  | _ => True

/-- All faults allowed except use of freed rules. -/
def NoUAF : Fault → Prop := fun e => e ≠ .uaf

end Xcsf
