import Verif.Types

/-!
# Property C47: type names round-trip
-/

namespace Xcsf

theorem strncmpEq_iff : ∀ (n : Nat) (a b : List Char), b.length < n →
    (strncmpEq n a b = true ↔ a = b)
  | 0, _, _, h => absurd h (Nat.not_lt_zero _)
  | _ + 1, [], [], _ => by simp [strncmpEq]
  | _ + 1, [], _ :: _, _ => by simp [strncmpEq]
  | _ + 1, _ :: _, [], _ => by simp [strncmpEq]
  | n + 1, x :: xs, y :: ys, h => by
    have := strncmpEq_iff n xs ys (by simpa using h)
    simp [strncmpEq, this]

theorem strncmpEq_prefix : ∀ (b a : List Char), strncmpEq b.length a b = true ↔ b <+: a
  | [], _ => by simp [strncmpEq]
  | y :: ys, [] => by simp [strncmpEq]
  | y :: ys, x :: xs => by
    have := strncmpEq_prefix ys xs
    simp only [strncmpEq, List.length_cons, Bool.and_eq_true, decide_eq_true_eq, this,
      List.cons_prefix_cons]
    constructor <;> rintro ⟨rfl, h⟩ <;> exact ⟨rfl, h⟩

/-- Names and codes agree: the functions are inverse to each other, so every code survives the
way to its name and back, and exactly the known names are accepted. -/
def NamesExact (names : List (Int × List Char)) (codes : List (List Char × Nat × Int)) : Prop :=
  ∀ c s, codeOf codes s = some c ↔ nameOf names c = .ok s

theorem nameOf_mem {t : List (Int × List Char)} {c s} (h : nameOf t c = .ok s) : (c, s) ∈ t := by
  induction t with
  | nil => cases h
  | cons e t ih =>
    obtain ⟨d, u⟩ := e
    rw [nameOf] at h
    split at h
    · next hd => cases h; subst hd; exact List.mem_cons_self
    · exact List.mem_cons_of_mem _ (ih h)

theorem codeOf_mem {t : List (List Char × Nat × Int)} {s c} (h : codeOf t s = some c) :
    ∃ name n, (name, n, c) ∈ t ∧ strncmpEq n s name = true := by
  induction t with
  | nil => cases h
  | cons e t ih =>
    obtain ⟨name, n, d⟩ := e
    rw [codeOf] at h
    split at h
    · next hd => cases h; exact ⟨name, n, List.mem_cons_self, hd⟩
    · obtain ⟨a, b, h1, h2⟩ := ih h
      exact ⟨a, b, List.mem_cons_of_mem _ h1, h2⟩

/-- The finite facts that make two tables exact. -/
theorem namesExact_of {names codes}
    (h1 : ∀ e ∈ names, codeOf codes e.2 = some e.1)
    (h2 : ∀ e ∈ codes, e.1.length < e.2.1 ∧ nameOf names e.2.2 = .ok e.1) :
    NamesExact names codes := by
  intro c s
  constructor
  · intro h
    obtain ⟨name, n, hm, he⟩ := codeOf_mem h
    obtain ⟨h3, h4⟩ := h2 _ hm
    rw [(strncmpEq_iff n s name h3).1 he]
    exact h4
  · exact fun h => h1 _ (nameOf_mem h)

instance {ε α : Type} [DecidableEq ε] [DecidableEq α] : DecidableEq (Except ε α) := fun a b =>
  match a, b with
  | .ok x, .ok y => if h : x = y then isTrue (h ▸ rfl) else isFalse (fun e => h (Except.ok.inj e))
  | .error x, .error y =>
    if h : x = y then isTrue (h ▸ rfl) else isFalse (fun e => h (Except.error.inj e))
  | .ok _, .error _ => isFalse (fun e => nomatch e)
  | .error _, .ok _ => isFalse (fun e => nomatch e)

/-- **C47**, conditions, predictions, actions, losses, EA selection, activations, GP and DGP
functions: for all codes and all strings. -/
theorem C47_names :
    NamesExact condNames condCodes ∧ NamesExact predNames predCodes ∧
    NamesExact actNames actCodes ∧ NamesExact lossNames lossCodes ∧ NamesExact eaNames eaCodes ∧
    NamesExact activationNames activationCodes ∧ NamesExact gpNames gpCodes ∧
    NamesExact dgpNames dgpCodes := by
  refine ⟨?_, ?_, ?_, ?_, ?_, ?_, ?_, ?_⟩ <;> exact namesExact_of (by decide +kernel) (by decide +kernel)

/-- **C47**, layers: every code survives the way to its name and back; a name is accepted only if
it is the name of the code, or starts with "recurrent".  Missing from the full statement: longer
names starting with "recurrent" are not rejected. -/
theorem C47_layers_partial (c : Int) (s : List Char) :
    (nameOf layerNames c = .ok s → codeOf layerCodes s = some c) ∧
    (codeOf layerCodes s = some c →
      nameOf layerNames c = .ok s ∨ c = 4 ∧ "recurrent".toList <+: s) := by
  constructor
  · have h1 : ∀ e ∈ layerNames, codeOf layerCodes e.2 = some e.1 := by decide +kernel
    exact fun h => h1 _ (nameOf_mem h)
  · intro h
    obtain ⟨name, n, hm, he⟩ := codeOf_mem h
    have h2 : ∀ e ∈ layerCodes, (e.1.length < e.2.1 ∧ nameOf layerNames e.2.2 = .ok e.1) ∨
        (e.1.length = e.2.1 ∧ e.2.2 = 4 ∧ e.1 = "recurrent".toList) := by decide +kernel
    rcases h2 _ hm with ⟨h3, h4⟩ | ⟨h3, h4, h5⟩
    · rw [(strncmpEq_iff n s name h3).1 he]; exact Or.inl h4
    · simp only at h3 h4 h5
      subst h3
      rw [strncmpEq_prefix, h5] at he
      exact Or.inr ⟨h4, he⟩

/-- **C47** is false of layer types: an unknown name is accepted as a recurrent layer. -/
theorem C47_layers_refuted : ¬ NamesExact layerNames layerCodes := by
  intro h
  have := (h 4 "recurrent_lstm".toList).1 (by decide +kernel)
  exact absurd this (by decide +kernel)

/-- The error message for an unknown loss offers a name that is itself rejected. -/
theorem C47_loss_option_rejected : ∃ s ∈ lossOptions, codeOf lossCodes s = none :=
  ⟨"one_hot".toList, by decide +kernel, by decide +kernel⟩

-- names are told apart from their prefixes and extensions
example : codeOf lossCodes "mae".toList = some 0 ∧ codeOf lossCodes "ma".toList = none ∧
    codeOf lossCodes "maes".toList = none := by decide +kernel

end Xcsf
