import Verif.RepMemSpec

/-!
Lemmas about the memory of rules: every structure owns its blocks, and every function turns what its
arguments own into what its results own.
-/

set_option linter.unusedSectionVars false

namespace Xcsf

namespace RepMem

/-- Exactly the blocks `L` are allocated. -/
def Has (h : Heap) (L : List Nat) : Prop :=
  h.live.Perm L ∧ h.Sane

/-- `m` turns the blocks `L` into the blocks that its result owns, and leaves all others alone. -/
def Tri {α : Type} (E : Fault → Prop) (L : List Nat) (m : M α) (ok : α → Prop)
    (B : α → List Nat) : Prop :=
  ∀ F h, Has h (L ++ F) → Post (m h) (fun r => ok r.1 ∧ Has r.2 (B r.1 ++ F)) E

/-- `m` reads and writes blocks of `L` only. -/
def Rd (E : Fault → Prop) (L : List Nat) (m : M Unit) : Prop :=
  ∀ h, (∀ p ∈ L, p ∈ h.live) → m h = .ok ((), h) ∨ ∃ e, m h = .error e ∧ E e

section
variable {α β : Type} {E : Fault → Prop} {L K : List Nat}

theorem Has.perm {h : Heap} {L' : List Nat} (H : Has h L) (p : L.Perm L') : Has h L' :=
  ⟨H.1.trans p, H.2⟩

theorem tri_pure {a : α} {ok : α → Prop} {B : α → List Nat} (h1 : ok a) (h2 : L.Perm (B a)) :
    Tri E L (pure a) ok B := by
  intro F h H
  exact ⟨h1, H.perm (h2.append_right F)⟩

theorem tri_throw {e : Fault} {ok : α → Prop} {B : α → List Nat} (h1 : E e) :
    Tri E L (throw e : M α) ok B := by
  intro F h _
  exact h1

theorem tri_bind {m : M α} {k : α → M β} {L0 : List Nat} {ok : α → Prop} {B : α → List Nat}
    {ok' : β → Prop} {C : β → List Nat} (h1 : Tri E L m ok B) (p : L0.Perm (L ++ K))
    (h2 : ∀ a, ok a → Tri E (B a ++ K) (k a) ok' C) : Tri E L0 (m >>= k) ok' C := by
  intro F h H
  have H' : Has h (L ++ (K ++ F)) := H.perm (by
    rw [← List.append_assoc]; exact p.append_right F)
  have := h1 (K ++ F) h H'
  show Post ((m h).bind fun r => k r.1 r.2) _ _
  cases e : m h with
  | error x => rw [e] at this; exact this
  | ok r =>
    rw [e] at this
    obtain ⟨o, q⟩ := this
    exact h2 r.1 o F r.2 (by rw [List.append_assoc]; exact q)

theorem tri_conseq {m : M α} {L0 : List Nat} {ok ok' : α → Prop} {B C : α → List Nat}
    (h1 : Tri E L m ok B) (p : L0.Perm (L ++ K)) (h2 : ∀ a, ok a → ok' a ∧ (B a ++ K).Perm (C a)) :
    Tri E L0 m ok' C := by
  have := tri_bind (k := pure) (ok' := ok') (C := C) h1 p (fun a o => tri_pure (h2 a o).1 (h2 a o).2)
  rwa [bind_pure] at this

theorem tri_rd {m : M Unit} {k : Unit → M β} {ok' : β → Prop} {C : β → List Nat} (h1 : Rd E K m)
    (p : ∀ x ∈ K, x ∈ L) (h2 : Tri E L (k ()) ok' C) : Tri E L (m >>= k) ok' C := by
  intro F h H
  show Post ((m h).bind fun r => k r.1 r.2) _ _
  rcases h1 h (fun x hx => H.1.mem_iff.2 (List.mem_append_left _ (p x hx))) with e | ⟨x, e, ex⟩
  · rw [e]; exact h2 F h H
  · rw [e]; exact ex

theorem tri_of_rd {m : M Unit} (h1 : Rd E L m) : Tri E L m (fun _ => True) (fun _ => L) := by
  have := tri_rd (k := pure) (ok' := fun _ => True) (C := fun _ => L) h1 (fun x h => h)
    (tri_pure trivial (.refl _))
  rwa [bind_pure] at this

theorem rd_pure : Rd E L (pure ()) := fun _ _ => .inl rfl

theorem rd_bind {m : M Unit} {k : Unit → M Unit} (h1 : Rd E L m) (h2 : Rd E L (k ())) :
    Rd E L (m >>= k) := by
  intro h H
  have e0 : (m >>= k) h = (m h).bind fun r => k r.1 r.2 := rfl
  rw [e0]
  rcases h1 h H with e | ⟨x, e, ex⟩
  · rw [e]; exact h2 h H
  · rw [e]; exact .inr ⟨x, rfl, ex⟩

theorem Rd.mono {m : M Unit} (h1 : Rd E K m) (p : ∀ x ∈ K, x ∈ L) : Rd E L m :=
  fun h H => h1 h fun x hx => H x (p x hx)

/-- A pointer into `L`, or a null pointer if that is allowed to fault. -/
def Val (E : Fault → Prop) (L : List Nat) (o : Option Nat) : Prop :=
  (o = none ∧ E .ub) ∨ ∃ p ∈ L, o = some p

theorem Val.mono {o : Option Nat} (h1 : Val E K o) (p : ∀ x ∈ K, x ∈ L) : Val E L o := by
  rcases h1 with h | ⟨x, hx, e⟩
  · exact .inl h
  · exact .inr ⟨x, p x hx, e⟩

theorem rd_touch {o : Option Nat} (h1 : Val E L o) : Rd E L (touch o) := by
  intro h H
  rcases h1 with ⟨rfl, e⟩ | ⟨p, hp, rfl⟩
  · exact .inr ⟨_, rfl, e⟩
  · left
    simp only [touch]
    rw [if_pos (H p hp)]

theorem rd_self {p : Nat} (h : p ∈ L) : Rd E L (touch (some p)) :=
  rd_touch (.inr ⟨p, h, rfl⟩)

theorem tri_malloc : Tri E [] malloc (fun _ => True) (fun p => [p]) := by
  intro F h H
  refine ⟨trivial, ?_, ?_, ?_⟩
  · exact H.1.cons _
  · have := H.2.2
    show (_ :: _).Nodup
    rw [List.nodup_cons]
    exact ⟨fun m => absurd (this _ m) (Nat.lt_irrefl _), H.2.1⟩
  · intro p hp
    rcases List.mem_cons.1 hp with rfl | hp
    · exact Nat.lt_succ_self _
    · exact Nat.lt_succ_of_lt (H.2.2 p hp)

theorem tri_free {p : Nat} : Tri E [p] (free (some p)) (fun _ => True) (fun _ => []) := by
  intro F h H
  have hm : p ∈ h.live := H.1.mem_iff.2 (by simp)
  simp only [free]
  rw [if_pos hm]
  refine ⟨trivial, ?_, ?_, ?_⟩
  · have := H.1.erase p
    simpa using this
  · exact H.2.1.erase p
  · intro q hq
    exact H.2.2 q (List.mem_of_mem_erase hq)

theorem tri_free' {o : Option Nat} : Tri E o.toList (free o) (fun _ => True) (fun _ => []) := by
  cases o with
  | none => exact tri_pure (B := fun _ => []) trivial (.refl _)
  | some p => exact tri_free

theorem tri_realloc {p : Nat} : Tri E [p] (realloc (some p)) (fun _ => True) (fun q => [q]) := by
  intro F h H
  have hm : p ∈ h.live := H.1.mem_iff.2 (by simp)
  simp only [realloc]
  rw [if_pos hm]
  split
  · refine ⟨trivial, ?_, ?_, ?_⟩
    · have := (H.1.erase p).cons h.next
      simpa using this
    · show (_ :: _).Nodup
      rw [List.nodup_cons]
      exact ⟨fun m => absurd (H.2.2 _ (List.mem_of_mem_erase m)) (Nat.lt_irrefl _), H.2.1.erase p⟩
    · intro q hq
      rcases List.mem_cons.1 hq with rfl | hq
      · exact Nat.lt_succ_self _
      · exact Nat.lt_succ_of_lt (H.2.2 q (List.mem_of_mem_erase hq))
  · exact ⟨trivial, H.1, H.2.1, fun q hq => Nat.lt_succ_of_lt (H.2.2 q hq)⟩

end

theorem count_cons_cons (a x y : Nat) (L : List Nat) :
    (x :: y :: L).count a = [x].count a + (y :: L).count a := by
  rw [← List.count_append]; rfl

/-- Proves that two lists of blocks are permutations of each other. -/
macro "perm" : tactic => `(tactic| (
  rw [List.perm_iff_count]; intro a
  (try simp only [List.count_append, count_cons_cons, List.count_nil, List.flatMap_append,
    List.flatMap_cons, List.flatMap_nil]) <;> omega))

/-! ### Arrays -/

/-- The blocks of some arrays. -/
def arr (fs : List Fld) (q : Ptrs) : List Nat := fs.filterMap q

/-- No array is missing. -/
def full (fs : List Fld) (q : Ptrs) : Prop := ∀ f ∈ fs, ∃ p, q f = some p

section
variable {α β : Type} {E : Fault → Prop} {L K : List Nat} {fs gs ks : List Fld} {q q' : Ptrs}

theorem arr_cons (f : Fld) (fs : List Fld) (q : Ptrs) :
    arr (f :: fs) q = (q f).toList ++ arr fs q := by
  simp only [arr, List.filterMap_cons]
  cases q f <;> rfl

theorem arr_append : arr (fs ++ gs) q = arr fs q ++ arr gs q := List.filterMap_append

theorem arr_perm (h : fs.Perm gs) : (arr fs q).Perm (arr gs q) := h.filterMap q

theorem arr_congr (h : ∀ f ∈ fs, q f = q' f) : arr fs q = arr fs q' := by
  induction fs with
  | nil => rfl
  | cons f fs ih =>
    rw [arr_cons, arr_cons, h f (by simp), ih fun g hg => h g (List.mem_cons_of_mem _ hg)]

theorem full_sub (h : full fs q) (s : ∀ f ∈ gs, f ∈ fs) : full gs q := fun f hf => h f (s f hf)

theorem full_congr (h : ∀ f ∈ fs, q f = q' f) (H : full fs q) : full fs q' :=
  fun f hf => by rw [← h f hf]; exact H f hf

theorem arr_length (h : full fs q) : (arr fs q).length = fs.length := by
  induction fs with
  | nil => rfl
  | cons f fs ih =>
    obtain ⟨p, e⟩ := h f (by simp)
    rw [arr_cons, e]
    simp [ih (full_sub h (fun g hg => List.mem_cons_of_mem _ hg))]

theorem val_arr {f : Fld} (h : full fs q) (hf : f ∈ fs) : Val E (arr fs q) (q f) := by
  obtain ⟨p, e⟩ := h f hf
  exact .inr ⟨p, List.mem_filterMap.2 ⟨f, hf, e⟩, e⟩

theorem assign_self (q : Ptrs) (f : Fld) (p : Option Nat) : assign q f p f = p := by
  simp [assign]

theorem assign_ne {f g : Fld} (h : g ≠ f) (q : Ptrs) (p : Option Nat) : assign q f p g = q g := by
  simp [assign, h]

theorem tri_mallocs (h : fs.Nodup) :
    Tri E [] (mallocs fs q) (fun q' => full fs q' ∧ ∀ g, g ∉ fs → q' g = q g) (fun q' => arr fs q') := by
  induction fs generalizing q with
  | nil => exact tri_pure ⟨(fun _ h => nomatch h), fun _ _ => rfl⟩ (.refl _)
  | cons f fs ih =>
    rw [List.nodup_cons] at h
    refine tri_bind (K := []) tri_malloc (.refl _) fun p _ => ?_
    refine tri_conseq (K := [p]) (ih h.2) (by perm) fun q' ⟨h1, h2⟩ => ?_
    have e : q' f = some p := by rw [h2 f h.1, assign_self]
    refine ⟨⟨?_, ?_⟩, ?_⟩
    · intro g hg
      rcases List.mem_cons.1 hg with rfl | hg
      · exact ⟨p, e⟩
      · exact h1 g hg
    · intro g hg
      rw [List.mem_cons, not_or] at hg
      rw [h2 g hg.2, assign_ne hg.1]
    · rw [arr_cons, e]
      show (_ : List Nat).Perm ([p] ++ _)
      perm

theorem tri_frees : Tri E (arr fs q) (frees fs q) (fun _ => True) (fun _ => []) := by
  induction fs with
  | nil => exact tri_pure (B := fun _ => []) trivial (.refl _)
  | cons f fs ih =>
    rw [arr_cons]
    refine tri_bind (K := arr fs q) tri_free' (.refl _) fun _ _ => ?_
    exact ih

theorem tri_reallocs (h : fs.Nodup) (hf : full fs q) :
    Tri E (arr fs q) (reallocs fs q) (fun q' => full fs q' ∧ ∀ g, g ∉ fs → q' g = q g)
      (fun q' => arr fs q') := by
  induction fs generalizing q with
  | nil => exact tri_pure ⟨(fun _ h => nomatch h), fun _ _ => rfl⟩ (.refl _)
  | cons f fs ih =>
    rw [List.nodup_cons] at h
    obtain ⟨p0, e0⟩ := hf f (by simp)
    have hc : ∀ (p : Nat), ∀ g ∈ fs, q g = assign q f (some p) g := fun p g hg =>
      (assign_ne (fun (e : g = f) => h.1 (e ▸ hg)) q (some p)).symm
    rw [arr_cons, e0]
    simp only [reallocs, e0]
    refine tri_bind (K := arr fs q) tri_realloc (.refl _) fun p _ => ?_
    rw [arr_congr (hc p)]
    refine tri_conseq (K := [p])
      (ih h.2 (full_congr (hc p) (full_sub hf fun g hg => List.mem_cons_of_mem _ hg)))
      (by perm) fun q' ⟨h1, h2⟩ => ?_
    have e : q' f = some p := by rw [h2 f h.1, assign_self]
    refine ⟨⟨?_, ?_⟩, ?_⟩
    · intro g hg
      rcases List.mem_cons.1 hg with rfl | hg
      · exact ⟨p, e⟩
      · exact h1 g hg
    · intro g hg
      rw [List.mem_cons, not_or] at hg
      rw [h2 g hg.2, assign_ne hg.1]
    · rw [arr_cons, e]
      show (_ : List Nat).Perm ([p] ++ _)
      perm

theorem rd_touches (h : ∀ f ∈ gs, Val E L (q f)) : Rd E L (touches gs q) := by
  induction gs with
  | nil => exact rd_pure
  | cons f gs ih =>
    exact rd_bind (rd_touch (h f (by simp))) (ih fun g hg => h g (List.mem_cons_of_mem _ hg))

/-- Reallocation of some of the arrays. -/
theorem tri_reallocs_sub (hp : fs.Perm (gs ++ ks)) (hn : fs.Nodup) (hf : full fs q) :
    Tri E (arr fs q) (reallocs gs q) (fun q' => full fs q' ∧ ∀ g, g ∉ gs → q' g = q g)
      (fun q' => arr fs q') := by
  have hn' := (List.nodup_append.1 (hp.nodup_iff.1 hn))
  have hg : full gs q := full_sub hf fun g hg => hp.mem_iff.2 (List.mem_append_left _ hg)
  refine tri_conseq (K := arr ks q) (tri_reallocs hn'.1 hg)
    ((arr_perm hp).trans (by rw [arr_append])) fun q' ⟨h1, h2⟩ => ?_
  have hk : ∀ f ∈ ks, q f = q' f := fun f hf => (h2 f fun hg => hn'.2.2 f hg f hf rfl).symm
  refine ⟨⟨?_, h2⟩, ?_⟩
  · intro f hf'
    rcases List.mem_append.1 (hp.mem_iff.1 hf') with hg | hk'
    · exact h1 f hg
    · rw [← hk f hk']; exact hf f hf'
  · rw [arr_congr hk, ← arr_append]
    exact (arr_perm hp).symm

/-- Release and new allocation of some of the arrays. -/
theorem tri_renew (hp : fs.Perm (gs ++ ks)) (hn : fs.Nodup) (hf : full fs q) {k : Ptrs → M β}
    {ok : β → Prop} {C : β → List Nat}
    (h : ∀ q', full fs q' → (∀ g, g ∉ gs → q' g = q g) → Tri E (arr fs q' ++ K) (k q') ok C) :
    Tri E (arr fs q ++ K) (do frees gs q; let q' ← mallocs gs q; k q') ok C := by
  have hn' := (List.nodup_append.1 (hp.nodup_iff.1 hn))
  refine tri_bind (K := arr ks q ++ K) tri_frees ?_ fun _ _ => ?_
  · rw [← List.append_assoc, ← arr_append]
    exact (arr_perm hp).append_right _
  · refine tri_bind (K := arr ks q ++ K) (tri_mallocs hn'.1) (.refl _) fun q' ⟨h1, h2⟩ => ?_
    have hk : ∀ f ∈ ks, q f = q' f := fun f hf => (h2 f fun hg => hn'.2.2 f hg f hf rfl).symm
    refine tri_conseq (K := []) (h q' ?_ h2) ?_ fun a o => ⟨o, by simp⟩
    · intro f hf'
      rcases List.mem_append.1 (hp.mem_iff.1 hf') with hg | hk'
      · exact h1 f hg
      · rw [← hk f hk']; exact hf f hf'
    · rw [arr_congr hk, ← List.append_assoc, ← arr_append, List.append_nil]
      exact ((arr_perm hp).symm).append_right _

theorem rd_use {x : Obj} (h1 : x.self ∈ L) (h2 : ∀ f ∈ gs, Val E L (x.ptr f)) :
    Rd E L (x.use gs) :=
  rd_bind (rd_self h1) (rd_touches h2)

end

end RepMem

end Xcsf
