import Verif.ParHist

/-!
# Loops whose bodies use the shared generator
-/

set_option linter.unusedSectionVars false

namespace Xcsf

section Machine
variable {A C R : Type}

/-- The body uses the generator when executed on a rule. -/
def Prog.Draws : Prog A C R → C → Prop
  | .done, _ => False
  | .own f k, c => (k c).Draws (f c)
  | .draw _ _, _ => True

theorem Prog.run_rng : ∀ {p : Prog A C R} {c : C} (r : R), ¬ p.Draws c → (p.run c r).2 = r
  | .done, _, _, _ => rfl
  | .own _ k, c, r, h => Prog.run_rng (p := k c) r h
  | .draw _ _, _, _, h => absurd trivial h

theorem Prog.draws_of {p : Prog A C R} {c : C} {r : R} (h : (p.run c r).2 ≠ r) : p.Draws c := by
  by_contra hd
  exact h (Prog.run_rng r hd)

/-- The iterations left after a step are those of before, the current one advanced or removed. -/
theorem Threads.tick_cases {z z' : Threads A C R} {t : Nat} (h : z.tick t = .ok z') :
    z' = z ∨ ∃ i p q, z.todo[t]? = some ((i, p) :: q) ∧
      ((p = .done ∧ z' = { z with todo := z.todo.set t q }) ∨
       (∃ f k c, p = .own f k ∧ z.heap i = some c ∧ unshared t (z.owner i) = true ∧ z' =
          { z with
            heap := fun j => if j = i then some (f c) else z.heap j
            owner := fun j => if j = i then some t else z.owner j
            todo := z.todo.set t ((i, k c) :: q) }) ∨
       (∃ g k, p = .draw g k ∧ unshared t z.drew = true ∧ z' =
          { z with
            rng := (g z.rng).2
            drew := some t
            todo := z.todo.set t ((i, k (g z.rng).1) :: q) })) := by
  unfold Threads.tick at h
  cases hq : z.todo[t]? with
  | none => rw [hq] at h; exact Or.inl (Except.ok.inj h).symm
  | some Q =>
    rw [hq] at h
    cases Q with
    | nil => exact Or.inl (Except.ok.inj h).symm
    | cons ip q =>
      obtain ⟨i, p⟩ := ip
      refine Or.inr ⟨i, p, q, rfl, ?_⟩
      cases p with
      | done => exact Or.inl ⟨rfl, (Except.ok.inj h).symm⟩
      | own f k =>
        dsimp only at h
        by_cases hu : unshared t (z.owner i) = true
        · rw [if_pos hu] at h
          cases hc : z.heap i with
          | none => rw [hc] at h; cases h
          | some c =>
            rw [hc] at h
            exact Or.inr (Or.inl ⟨f, k, c, rfl, rfl, hu, (Except.ok.inj h).symm⟩)
        · rw [if_neg hu] at h; cases h
      | draw g k =>
        dsimp only at h
        by_cases hu : unshared t z.drew = true
        · rw [if_pos hu] at h
          exact Or.inr (Or.inr ⟨g, k, rfl, hu, (Except.ok.inj h).symm⟩)
        · rw [if_neg hu] at h; cases h

/-- Every rule whose iteration is not done exists, and occurs once. -/
structure Threads.Sane (z : Threads A C R) : Prop where
  nodup : z.pending.Nodup
  live : ∀ i ∈ z.pending, (z.heap i).isSome

theorem pending_advance {z : Threads A C R} {t i : Nat} {p p' : Prog A C R}
    {q : List (Nat × Prog A C R)} (hq : z.todo[t]? = some ((i, p) :: q)) :
    (z.todo.set t ((i, p') :: q)).flatten.map Prod.fst = z.pending := by
  unfold Threads.pending
  obtain ⟨a, b, h1, h2⟩ := flatten_set z.todo t _ ((i, p') :: q) hq
  rw [h1, h2]
  simp

theorem Threads.Sane.tick {z z' : Threads A C R} (h : z.Sane) {t : Nat} (e : z.tick t = .ok z') :
    z'.Sane := by
  rcases Threads.tick_cases e with rfl | ⟨i, p, q, hq, ⟨_, rfl⟩ | ⟨f, k, c, _, hc, _, rfl⟩ |
    ⟨g, k, _, _, rfl⟩⟩
  · exact h
  · obtain ⟨a, b, h1, h2⟩ := flatten_set z.todo t _ q hq
    have hsub : ((z.todo.set t q).flatten.map Prod.fst).Sublist z.pending := by
      unfold Threads.pending
      rw [h1, h2]
      apply List.Sublist.map
      simp only [List.cons_append]
      exact List.Sublist.append_left (List.sublist_cons_self _ _) a
    exact ⟨hsub.nodup h.nodup, fun j hj => h.live j (hsub.subset hj)⟩
  · refine ⟨?_, ?_⟩
    · show ((z.todo.set t ((i, k c) :: q)).flatten.map Prod.fst).Nodup
      rw [pending_advance hq]; exact h.nodup
    · intro j hj
      have hj : j ∈ (z.todo.set t ((i, k c) :: q)).flatten.map Prod.fst := hj
      rw [pending_advance hq] at hj
      show (if j = i then some (f c) else z.heap j).isSome
      split
      · rfl
      · exact h.live j hj
  · refine ⟨?_, ?_⟩
    · show ((z.todo.set t ((i, k (g z.rng).1) :: q)).flatten.map Prod.fst).Nodup
      rw [pending_advance hq]; exact h.nodup
    · intro j hj
      have hj : j ∈ (z.todo.set t ((i, k (g z.rng).1) :: q)).flatten.map Prod.fst := hj
      rw [pending_advance hq] at hj
      exact h.live j hj

theorem Threads.Sane.start {s : Nat → Option C} {r : R} {body : Prog A C R} {l : List Nat}
    (hn : l.Nodup) (hl : ∀ i ∈ l, (s i).isSome) {todo : List (List (Nat × Prog A C R))}
    (hp : todo.flatten.Perm (l.map fun i => (i, body))) :
    Threads.Sane { heap := s, rng := r, owner := fun _ => none, drew := none, todo := todo } := by
  have hids : (todo.flatten.map Prod.fst).Perm l := by
    have := hp.map Prod.fst
    simpa [List.map_map, Function.comp_def] using this
  exact ⟨hids.nodup_iff.2 hn, fun i hi => hl i (hids.mem_iff.1 hi)⟩

/-- Two threads have no rule in common, and a thread does a rule once. -/
theorem Threads.Sane.alone {z : Threads A C R} (h : z.Sane) {t : Nat} {i : Nat} {p : Prog A C R}
    {q : List (Nat × Prog A C R)} (hq : z.todo[t]? = some ((i, p) :: q)) :
    (∀ p', (i, p') ∉ q) ∧ ∀ (u : Nat) q' p', z.todo[u]? = some q' → (i, p') ∈ q' → u = t := by
  have hn := h.nodup
  unfold Threads.pending at hn
  obtain ⟨a, b, h1, h2⟩ := flatten_set z.todo t _ [] hq
  rw [h1] at hn
  simp only [List.map_append, List.map_cons, List.cons_append] at hn
  have hcons := List.nodup_middle.1 hn
  rw [List.nodup_cons] at hcons
  have hni := hcons.1
  simp only [List.mem_append, not_or] at hni
  refine ⟨fun p' hp => hni.2.1 (List.mem_map.2 ⟨(i, p'), hp, rfl⟩), fun u q' p' hu hp => ?_⟩
  by_contra hne
  have : (z.todo.set t [])[u]? = some q' := by
    rw [List.getElem?_set_ne (fun e => hne e.symm)]; exact hu
  have hm : (i, p') ∈ (z.todo.set t []).flatten :=
    List.mem_flatten.2 ⟨q', List.mem_of_getElem? this, hp⟩
  rw [h2] at hm
  simp only [List.nil_append, List.mem_append] at hm
  rcases hm with hm | hm
  · exact hni.1 (List.mem_map.2 ⟨(i, p'), hm, rfl⟩)
  · exact hni.2.2 (List.mem_map.2 ⟨(i, p'), hm, rfl⟩)

/-- Thread `t` has used the generator or will do so for rule `i`. -/
def Threads.Owes (z : Threads A C R) (t i : Nat) : Prop :=
  z.drew = some t ∨ ∃ q p c, z.todo[t]? = some q ∧ (i, p) ∈ q ∧ z.heap i = some c ∧ p.Draws c

theorem Threads.Owes.tick {z z' : Threads A C R} (hs : z.Sane) {t i : Nat} (h : z.Owes t i)
    {u : Nat} (e : z.tick u = .ok z') : z'.Owes t i := by
  rcases Threads.tick_cases e with rfl | ⟨j, p, q, hq, hcase⟩
  · exact h
  have hlt : u < z.todo.length := (List.getElem?_eq_some_iff.1 hq).1
  obtain ⟨ha1, ha2⟩ := hs.alone hq
  rcases h with hd | ⟨Q, p1, c1, hQ, hm, hc1, hdr⟩
  · rcases hcase with ⟨_, rfl⟩ | ⟨f, k, c, _, hc, _, rfl⟩ | ⟨g, k, _, hu, rfl⟩
    · exact Or.inl hd
    · exact Or.inl hd
    · left
      rw [hd] at hu
      have : t = u := by simpa [unshared] using hu
      rw [this]
  · rcases hcase with ⟨hp, rfl⟩ | ⟨f, k, c, hp, hc, _, rfl⟩ | ⟨g, k, hp, hu, rfl⟩
    · right
      by_cases et : t = u
      · subst et
        rw [hq] at hQ
        cases hQ
        rcases List.mem_cons.1 hm with e1 | hm
        · cases e1; rw [hp] at hdr; exact hdr.elim
        · exact ⟨q, p1, c1, List.getElem?_set_self hlt, hm, hc1, hdr⟩
      · exact ⟨Q, p1, c1, (List.getElem?_set_ne (fun e2 => et e2.symm)).trans hQ, hm, hc1, hdr⟩
    · right
      by_cases et : t = u
      · subst et
        rw [hq] at hQ
        cases hQ
        rcases List.mem_cons.1 hm with e1 | hm
        · cases e1
          rw [hp] at hdr
          rw [hc] at hc1
          cases hc1
          exact ⟨_, k c1, f c1, List.getElem?_set_self hlt, List.mem_cons_self, by simp, hdr⟩
        · have hne : i ≠ j := fun e1 => ha1 p1 (e1 ▸ hm)
          exact ⟨_, p1, c1, List.getElem?_set_self hlt, List.mem_cons_of_mem _ hm,
            by simpa [hne] using hc1, hdr⟩
      · have hne : i ≠ j := fun e1 => et (ha2 t Q p1 hQ (e1 ▸ hm))
        exact ⟨Q, p1, c1, (List.getElem?_set_ne (fun e2 => et e2.symm)).trans hQ, hm,
          by simpa [hne] using hc1, hdr⟩
    · by_cases et : t = u
      · left; rw [et]
      · right
        exact ⟨Q, p1, c1, (List.getElem?_set_ne (fun e2 => et e2.symm)).trans hQ, hm, hc1, hdr⟩

theorem Threads.Owes.never_finish {t u i j : Nat} (hne : t ≠ u) : ∀ (σ : List Nat)
    {z z' : Threads A C R}, z.Sane → z.Owes t i → z.Owes u j → z.ticks σ = .ok z' →
    ¬ z'.Finished
  | [], z, z', hs, h1, h2, e => by
    cases e
    intro hf
    have key : ∀ {t i}, z.Owes t i → z.drew = some t := by
      rintro t i (h | ⟨q, p, c, hq, hm, _⟩)
      · exact h
      · rw [hf q (List.mem_of_getElem? hq)] at hm; cases hm
    have := (key h1).symm.trans (key h2)
    exact hne (Option.some.inj this)
  | v :: σ, z, z', hs, h1, h2, e => by
    unfold Threads.ticks at e
    cases e1 : z.tick v with
    | error er => rw [e1] at e; cases e
    | ok z1 =>
      rw [e1] at e
      exact Threads.Owes.never_finish hne σ (hs.tick e1) (h1.tick hs e1) (h2.tick hs e1) e

theorem Threads.Sane.ticks : ∀ (σ : List Nat) {z z' : Threads A C R}, z.Sane →
    z.ticks σ = .ok z' → z'.Sane
  | [], z, z', hs, e => by cases e; exact hs
  | v :: σ, z, z', hs, e => by
    unfold Threads.ticks at e
    cases e1 : z.tick v with
    | error er => rw [e1] at e; cases e
    | ok z1 => rw [e1] at e; exact Threads.Sane.ticks σ (hs.tick e1) e

theorem Threads.Sane.fault {z : Threads A C R} (hs : z.Sane) {t : Nat} {f : Fault}
    (e : z.tick t = .error f) : f = .ub := by
  unfold Threads.tick at e
  cases hq : z.todo[t]? with
  | none => rw [hq] at e; cases e
  | some Q =>
    rw [hq] at e
    cases Q with
    | nil => cases e
    | cons ip q =>
      obtain ⟨i, p⟩ := ip
      cases p with
      | done => cases e
      | own f k =>
        dsimp only at e
        split at e
        · obtain ⟨c, hc⟩ := Option.isSome_iff_exists.1 (hs.live i
            (mem_pending.2 ⟨t, _, _, hq, List.mem_cons_self⟩))
          rw [hc] at e; cases e
        · cases e; rfl
      | draw g k =>
        dsimp only at e
        split at e
        · cases e
        · cases e; rfl

/-- A thread finishes its current iteration, unless there is a race. -/
theorem Threads.Sane.finishJob (t i : Nat) (q : List (Nat × Prog A C R)) : ∀ (p : Prog A C R)
    {z : Threads A C R}, z.Sane → z.todo[t]? = some ((i, p) :: q) →
    ∃ σ, z.ticks σ = .error .ub ∨ ∃ z', z.ticks σ = .ok z' ∧ z'.Sane ∧ z'.todo = z.todo.set t q := by
  intro p
  induction p with
  | done =>
    intro z hs hq
    have e : z.tick t = .ok { z with todo := z.todo.set t q } := by
      unfold Threads.tick; rw [hq]
    exact ⟨[t], Or.inr ⟨_, by unfold Threads.ticks; rw [e]; rfl, hs.tick e, rfl⟩⟩
  | own f k ih =>
    intro z hs hq
    have hlt : t < z.todo.length := (List.getElem?_eq_some_iff.1 hq).1
    cases e : z.tick t with
    | error er =>
      have := hs.fault e
      subst this
      exact ⟨[t], Or.inl (by unfold Threads.ticks; rw [e]; rfl)⟩
    | ok z1 =>
      rcases Threads.tick_cases e with rfl | ⟨i', p', q', hq', hcase⟩
      · exfalso
        unfold Threads.tick at e
        rw [hq] at e
        dsimp only at e
        split at e
        · split at e
          · cases e
          · have h1 := congrArg (fun z => z.todo[t]?) (Except.ok.inj e)
            dsimp only at h1
            rw [List.getElem?_set_self hlt, hq] at h1
            next c _ =>
              have h2 := (List.cons.inj (Option.some.inj h1)).1
              have h3 := (Prod.mk.inj h2).2
              have := congrArg sizeOf h3
              revert h3
              clear h1 h2 this ih
              intro h3
              -- a program is not a part of itself
              have : ∀ (g : C → C) (k : C → Prog A C R) (c : C), k c ≠ .own g k := by
                intro g k c hk
                have wf : ∀ p : Prog A C R, ∀ g k c, p = .own g k → k c ≠ p := by
                  intro p
                  induction p with
                  | done => intro g k c h; cases h
                  | own g' k' ih =>
                    intro g k c h hk
                    cases h
                    exact ih c g' k' c hk rfl
                  | draw g' k' ih => intro g k c h; cases h
                exact wf _ g k c rfl hk
              exact this _ _ _ h3
        · cases e
      · rw [hq] at hq'
        cases hq'
        rcases hcase with ⟨hp, _⟩ | ⟨f', k', c, hp, hc, _, rfl⟩ | ⟨g, k', hp, _⟩
        · cases hp
        · cases hp
          obtain ⟨σ, h⟩ := ih c (hs.tick e) (List.getElem?_set_self hlt)
          refine ⟨t :: σ, ?_⟩
          have e2 : z.ticks (t :: σ) = Threads.ticks σ
              { z with
                heap := fun j => if j = i then some (f c) else z.heap j
                owner := fun j => if j = i then some t else z.owner j
                todo := z.todo.set t ((i, k c) :: q) } := by
            conv_lhs => unfold Threads.ticks
            rw [e]; rfl
          rw [e2]
          rcases h with h | ⟨z2, h1, h2, h3⟩
          · exact Or.inl h
          · refine Or.inr ⟨z2, h1, h2, h3.trans ?_⟩
            rw [List.set_set]
        · cases hp
  | draw g k ih =>
    intro z hs hq
    have hlt : t < z.todo.length := (List.getElem?_eq_some_iff.1 hq).1
    by_cases hu : unshared t z.drew = true
    · have e : z.tick t = .ok { z with
            rng := (g z.rng).2
            drew := some t
            todo := z.todo.set t ((i, k (g z.rng).1) :: q) } := by
        unfold Threads.tick
        rw [hq]
        dsimp only
        rw [if_pos hu]
      obtain ⟨σ, h⟩ := ih (g z.rng).1 (hs.tick e) (List.getElem?_set_self hlt)
      refine ⟨t :: σ, ?_⟩
      have e2 : z.ticks (t :: σ) = Threads.ticks σ
          { z with
            rng := (g z.rng).2
            drew := some t
            todo := z.todo.set t ((i, k (g z.rng).1) :: q) } := by
        conv_lhs => unfold Threads.ticks
        rw [e]; rfl
      rw [e2]
      rcases h with h | ⟨z2, h1, h2, h3⟩
      · exact Or.inl h
      · refine Or.inr ⟨z2, h1, h2, h3.trans ?_⟩
        rw [List.set_set]
    · refine ⟨[t], Or.inl ?_⟩
      unfold Threads.ticks Threads.tick
      rw [hq]
      dsimp only
      rw [if_neg hu]
      rfl

/-- All threads finish, unless there is a race. -/
theorem Threads.Sane.finish : ∀ (n : Nat) {z : Threads A C R}, z.todo.flatten.length = n →
    z.Sane → ∃ σ, z.ticks σ = .error .ub ∨ ∃ z', z.ticks σ = .ok z' ∧ z'.Finished
  | 0, z, hn, _ => ⟨[], Or.inr ⟨z, rfl, fun q hq => by
      rw [List.length_eq_zero_iff] at hn
      exact List.flatten_eq_nil_iff.1 hn q hq⟩⟩
  | n + 1, z, hn, h => by
    have hne : z.todo.flatten ≠ [] := by intro e; rw [e] at hn; cases hn
    obtain ⟨⟨i, p⟩, hm⟩ := List.exists_mem_of_ne_nil _ hne
    obtain ⟨Q, hQ, hp⟩ := List.mem_flatten.1 hm
    obtain ⟨t, ht⟩ := List.mem_iff_getElem?.1 hQ
    cases Q with
    | nil => cases hp
    | cons ip q =>
      obtain ⟨j, p'⟩ := ip
      obtain ⟨σ, e1 | ⟨z1, e1, h1, ht1⟩⟩ := h.finishJob t j q p' ht
      · exact ⟨σ, Or.inl e1⟩
      · obtain ⟨a, b, f1, f2⟩ := flatten_set z.todo t _ q ht
        obtain ⟨σ', h2⟩ := Threads.Sane.finish n (by
          rw [ht1, f2]
          rw [f1] at hn
          simp at hn ⊢
          omega) h1
        refine ⟨σ ++ σ', ?_⟩
        rw [Threads.ticks_append, e1]
        exact h2

end Machine

section Loops
variable {A K X B R : Type}

/-- Two rules done by different threads, both of whose iterations use the generator: no execution
of the loop completes without a race. -/
theorem race_always {body : Prog A (Cl K B) R} {l : List Nat} (hn : l.Nodup) {s : St K X B R}
    (hl : ∀ i ∈ l, (s.heap i).isSome) {todo : List (List (Nat × Prog A (Cl K B) R))}
    (hp : todo.flatten.Perm (l.map fun i => (i, body))) {t u i j : Nat} (htu : t ≠ u)
    {q q' : List (Nat × Prog A (Cl K B) R)} (ht : todo[t]? = some q) (hu : todo[u]? = some q')
    (hi : (i, body) ∈ q) (hj : (j, body) ∈ q') {c d : Cl K B} (hc : s.heap i = some c)
    (hd : s.heap j = some d) (bc : body.Draws c) (bd : body.Draws d) (σ : List Nat)
    (z : Threads A (Cl K B) R) (e : (s.threads todo).ticks σ = .ok z) : ¬ z.Finished :=
  Threads.Owes.never_finish htu σ (Threads.Sane.start hn hl hp)
    (Or.inr ⟨q, body, c, ht, hi, hc, bc⟩) (Or.inr ⟨q', body, d, hu, hj, hd, bd⟩) e

/-- A loop with two such rules has undefined behaviour. -/
theorem parLoop_race {body : Prog A (Cl K B) R} {l : List Nat} (hn : l.Nodup) {s : St K X B R}
    (hl : ∀ i ∈ l, (s.heap i).isSome) {i j : Nat} (hi : i ∈ l) (hj : j ∈ l) (hne : i ≠ j)
    {c d : Cl K B} (hc : s.heap i = some c) (hd : s.heap j = some d) (bc : body.Draws c)
    (bd : body.Draws d) : parLoop body l s (.error .ub) := by
  have hp : ([[(i, body)], (l.erase i).map fun i => (i, body)] :
      List (List (Nat × Prog A (Cl K B) R))).flatten.Perm (l.map fun i => (i, body)) := by
    simp only [List.flatten_cons, List.flatten_nil, List.append_nil, List.singleton_append]
    exact ((List.perm_cons_erase hi).map fun i => (i, body)).symm
  have S := Threads.Sane.start (r := s.rng) hn hl hp
  obtain ⟨σ, e | ⟨z, e, hf⟩⟩ := S.finish _ rfl
  · exact ⟨_, σ, hp, Or.inr ⟨.ub, e, rfl⟩⟩
  · exfalso
    refine race_always hn hl hp (t := 0) (u := 1) (by decide) rfl rfl List.mem_cons_self
      (List.mem_map.2 ⟨j, ?_, rfl⟩) hc hd bc bd σ z e hf
    exact (List.mem_erase_of_ne (fun e => hne e.symm)).2 hj

end Loops

/-! ## One thread -/

section Single
variable {A C R : Type}

/-- The iterations of a thread, one after another. -/
def seqRun : List (Nat × Prog A C R) → (Nat → Option C) → R → Res ((Nat → Option C) × R)
  | [], h, r => .ok (h, r)
  | (i, p) :: q, h, r =>
    match h i with
    | none => .error .uaf
    | some c => seqRun q (fun j => if j = i then some (p.run c r).1 else h j) (p.run c r).2

/-- The state of a loop executed by a single thread. -/
structure Threads.Alone (z : Threads A C R) (q : List (Nat × Prog A C R)) : Prop where
  todo : z.todo = [q]
  owner : ∀ i, unshared 0 (z.owner i) = true
  drew : unshared 0 z.drew = true

theorem Threads.Alone.tick {z : Threads A C R} {q : List (Nat × Prog A C R)} (h : z.Alone q)
    (hl : ∀ ip ∈ q, (z.heap ip.1).isSome) (t : Nat) : ∃ z' q', z.tick t = .ok z' ∧ z'.Alone q' ∧
      (∀ ip ∈ q', (z'.heap ip.1).isSome) ∧ seqRun q' z'.heap z'.rng = seqRun q z.heap z.rng := by
  unfold Threads.tick
  rw [h.todo]
  cases t with
  | succ t => exact ⟨z, q, rfl, h, hl, rfl⟩
  | zero =>
    cases q with
    | nil => exact ⟨z, [], rfl, h, hl, rfl⟩
    | cons ip q =>
      obtain ⟨i, p⟩ := ip
      obtain ⟨c, hc⟩ := Option.isSome_iff_exists.1 (hl _ List.mem_cons_self)
      cases p with
      | done =>
        refine ⟨_, q, rfl, ⟨rfl, h.owner, h.drew⟩, fun ip hip => hl ip (List.mem_cons_of_mem _ hip), ?_⟩
        conv_rhs => unfold seqRun
        rw [hc]
        dsimp only [Prog.run]
        congr 1
        funext j
        by_cases e : j = i
        · subst e; simpa using hc
        · simp [e]
      | own f k =>
        have ho : unshared 0 (z.owner i) = true := h.owner i
        have hc' : z.heap i = some c := hc
        simp only [List.getElem?_cons_zero]
        rw [if_pos ho, hc']
        refine ⟨_, (i, k c) :: q, rfl, ⟨rfl, ?_, h.drew⟩, ?_, ?_⟩
        · intro j
          show unshared 0 (if j = i then some 0 else z.owner j) = true
          split
          · rfl
          · exact h.owner j
        · intro ip hip
          show (if ip.1 = i then some (f c) else z.heap ip.1).isSome
          split
          · rfl
          · rcases List.mem_cons.1 hip with e | hip
            · subst e; exact absurd rfl ‹_›
            · exact hl ip (List.mem_cons_of_mem _ hip)
        · conv_lhs => unfold seqRun
          conv_rhs => unfold seqRun
          rw [hc']
          dsimp only [Prog.run]
          rw [if_pos rfl]
          dsimp only
          congr 1
          funext j
          by_cases e : j = i <;> simp [e]
      | draw g k =>
        simp only [List.getElem?_cons_zero]
        rw [if_pos h.drew]
        refine ⟨_, (i, k (g z.rng).1) :: q, rfl, ⟨rfl, h.owner, rfl⟩, ?_, ?_⟩
        · intro ip hip
          rcases List.mem_cons.1 hip with e | hip
          · subst e; exact hl (i, .draw g k) List.mem_cons_self
          · exact hl ip (List.mem_cons_of_mem _ hip)
        · conv_lhs => unfold seqRun
          conv_rhs => unfold seqRun
          rfl

theorem Threads.Alone.ticks : ∀ (σ : List Nat) {z : Threads A C R} {q : List (Nat × Prog A C R)},
    z.Alone q → (∀ ip ∈ q, (z.heap ip.1).isSome) → ∃ z' q', z.ticks σ = .ok z' ∧ z'.Alone q' ∧
      seqRun q' z'.heap z'.rng = seqRun q z.heap z.rng
  | [], z, q, h, _ => ⟨z, q, rfl, h, rfl⟩
  | t :: σ, z, q, h, hl => by
    obtain ⟨z1, q1, e1, h1, hl1, r1⟩ := h.tick hl t
    obtain ⟨z2, q2, e2, h2, r2⟩ := Threads.Alone.ticks σ h1 hl1
    refine ⟨z2, q2, ?_, h2, r2.trans r1⟩
    unfold Threads.ticks
    rw [e1]
    exact e2

end Single

section SingleLoop
variable {A K X B R : Type}

theorem seqRun_forEach {body : Prog A (Cl K B) R} : ∀ (l : List Nat) (s : St K X B R),
    (seqRun (l.map fun i => (i, body)) s.heap s.rng >>= fun p =>
      Except.ok ({ s with heap := p.1, rng := p.2 } : St K X B R)) =
    forEachCl (fun r c => body.run c r) l s
  | [], s => rfl
  | i :: l, s => by
    unfold forEachCl
    rw [List.map_cons]
    unfold seqRun St.rd
    cases hc : s.heap i with
    | none => rfl
    | some c =>
      exact seqRun_forEach l { s.put i (body.run c s.rng).1 with rng := (body.run c s.rng).2 }

/-- With a single thread a loop is the loop in series, whether it uses the generator or not. -/
theorem single_thread {body : Prog A (Cl K B) R} {l : List Nat} {s : St K X B R}
    (hl : ∀ i ∈ l, (s.heap i).isSome) (σ : List Nat) :
    ∃ z, (s.threads [l.map fun i => (i, body)]).ticks σ = .ok z ∧ (z.Finished →
      forEachCl (fun r c => body.run c r) l s = .ok { s with heap := z.heap, rng := z.rng }) := by
  obtain ⟨z, q, e, h, r⟩ := Threads.Alone.ticks σ (z := s.threads [l.map fun i => (i, body)])
    ⟨rfl, fun _ => rfl, rfl⟩ (by
      intro ip hip
      obtain ⟨i, hi, rfl⟩ := List.mem_map.1 hip
      exact hl i hi)
  refine ⟨z, e, fun hf => ?_⟩
  have hq : q = [] := hf q (by rw [h.todo]; exact List.mem_cons_self)
  subst hq
  rw [← seqRun_forEach]
  have r : seqRun [] z.heap z.rng = seqRun (l.map fun i => (i, body)) s.heap s.rng := r
  rw [← r]
  rfl

end SingleLoop

section Serial
variable {A K X B R : Type} [Zero K] [One K] [Add K] [Sub K] [Mul K] [Div K]
  [LT K] [DecidableLT K] [IntCast K] [DecidableEq K]
variable {par : Params K} {kit : Kit K X B R}

/-- The loop in series is one of the executions of the parallel loop. -/
theorem parLoop_serial {body : Prog A (Cl K B) R} {l : List Nat} (hn : l.Nodup) {s : St K X B R}
    (hl : ∀ i ∈ l, (s.heap i).isSome) :
    ∃ s', forEachCl (fun r c => body.run c r) l s = .ok s' ∧ parLoop body l s (.ok s') := by
  have hp : ([l.map fun i => (i, body)] : List (List (Nat × Prog A (Cl K B) R))).flatten.Perm
      (l.map fun i => (i, body)) := by simp
  have S := Threads.Sane.start (r := s.rng) hn hl hp
  obtain ⟨σ, h⟩ := S.finish _ rfl
  obtain ⟨z, e, hz⟩ := single_thread (body := body) hl σ
  rcases h with h | ⟨z', h, hf⟩
  · have h : (s.threads [l.map fun i => (i, body)]).ticks σ = .error .ub := h
    rw [e] at h; cases h
  · have h : (s.threads [l.map fun i => (i, body)]).ticks σ = .ok z' := h
    rw [e] at h
    cases h
    exact ⟨_, hz hf, _, σ, hp, Or.inl ⟨z, e, hf, rfl⟩⟩

theorem forEachCl_mset (upd : R → Cl K B → Cl K B × R) (t : CSet) : ∀ (l : List Nat)
    (s : St K X B R), forEachCl upd l { s with mset := t } =
      (forEachCl upd l s >>= fun s' => .ok { s' with mset := t })
  | [], s => rfl
  | i :: l, s => by
    unfold forEachCl St.rd
    show (match s.heap i with | some c => _ | none => _) >>= _ = _
    cases s.heap i with
    | none => rfl
    | some c =>
      exact forEachCl_mset upd t l { s.put i (upd s.rng c).1 with rng := (upd s.rng c).2 }

theorem forEachCl_same (upd : R → Cl K B → Cl K B × R) : ∀ (l : List Nat) {s s' : St K X B R},
    forEachCl upd l s = .ok s' → s'.mset = s.mset ∧ s'.pset = s.pset ∧ (∀ j ∉ l, s'.heap j = s.heap j)
      ∧ ∀ j, (s.heap j).isSome → (s'.heap j).isSome
  | [], s, s', h => by cases h; exact ⟨rfl, rfl, fun _ _ => rfl, fun _ h => h⟩
  | i :: l, s, s', h => by
    unfold forEachCl at h
    cases hc : s.heap i with
    | none => rw [St.rd, hc] at h; cases h
    | some c =>
      rw [rd_ok hc] at h
      obtain ⟨h1, h2, h3, h4⟩ := forEachCl_same upd l h
      refine ⟨h1, h2, fun j hj => ?_, fun j hj => h4 j (put_live hj)⟩
      rw [List.mem_cons, not_or] at hj
      exact (h3 j hj.2).trans (put_heap_ne _ _ hj.1)

/-- Matching in series: all rules are matched before the match set is built. -/
theorem matchGo_split (hpar : kit.parallel = true) {x : X} {e : Bool} : ∀ (l : List Nat)
    (s : St K X B R), s.explore = e → l.Nodup → (∀ i ∈ l, (s.heap i).isSome) →
    matchGo kit x l s = (forEachCl (fun r c => senseCl kit e x c r) l s >>= buildMset l)
  | [], s, _, _, _ => rfl
  | i :: l, s, he, hn, hl => by
    obtain ⟨c, hc⟩ := Option.isSome_iff_exists.1 (hl i List.mem_cons_self)
    rw [List.nodup_cons] at hn
    rw [matchGo_cons hpar hc, he]
    generalize hd : (senseCl kit e x c s.rng).1 = d
    generalize hr : (senseCl kit e x c s.rng).2 = r'
    have ih := matchGo_split (x := x) (e := e) hpar l
      ({ s.put i d with
        mset := if d.m then s.mset.add i d.num else s.mset
        rng := r' } : St K X B R) he hn.2 fun j hj => put_live (hl j (List.mem_cons_of_mem _ hj))
    rw [ih]
    have h1 := forEachCl_mset (fun r c => senseCl kit e x c r)
      (if d.m then s.mset.add i d.num else s.mset) l ({ s.put i d with rng := r' } : St K X B R)
    rw [show forEachCl (fun r c => senseCl kit e x c r) l
      ({ s.put i d with
        mset := if d.m then s.mset.add i d.num else s.mset
        rng := r' } : St K X B R) = _ from h1]
    have h2 : forEachCl (fun r c => senseCl kit e x c r) (i :: l) s =
        forEachCl (fun r c => senseCl kit e x c r) l { s.put i d with rng := r' } := by
      conv_lhs => unfold forEachCl
      rw [rd_ok hc, ← hd, ← hr]
      rfl
    rw [h2]
    cases h3 : forEachCl (fun r c => senseCl kit e x c r) l
        ({ s.put i d with rng := r' } : St K X B R) with
    | error er => rfl
    | ok s' =>
      obtain ⟨k1, _, k3, _⟩ := forEachCl_same _ l h3
      have k4 : s'.heap i = some d := (k3 i hn.1).trans (put_heap_self s i d)
      show buildMset l _ = buildMset (i :: l) s'
      conv_rhs => unfold buildMset
      rw [rd_ok k4]
      show _ = buildMset l (if d.m then { s' with mset := s'.mset.add i d.num } else s')
      have k1 : s'.mset = s.mset := k1
      cases d.m
      · show buildMset l { s' with mset := s.mset } = buildMset l s'
        rw [← k1]
      · show buildMset l { s' with mset := s.mset.add i d.num } = buildMset l _
        rw [← k1]
        rfl

variable {lp : Bodies A K X B R}

/-- The outcome of the serial program is possible. -/
def serialJudge (ho : lp.Of par kit) (hpar : kit.parallel = true) : Judge par kit lp where
  J := fun m n => m n
  lift := fun _ => rfl
  bind := by
    intro α β m n h f g hf
    cases n with
    | error e => exact Or.inl ⟨e, h, rfl⟩
    | ok a => exact Or.inr ⟨a, h, hf a rfl⟩
  matchLoop := by
    intro x s hn hl
    rw [matchGo_split hpar _ _ rfl hn hl]
    obtain ⟨s', e, h⟩ := parLoop_serial (body := lp.sense s.explore x) hn hl
    simp only [ho.sense] at e
    rw [e]
    refine Or.inr ⟨s', h, ?_⟩
    show (Except.ok s' >>= buildMset s.pset.list) = buildMset s'.pset.list s'
    rw [(forEachCl_same _ _ e).2.1]
    rfl
  predictLoop := by
    intro x s l hn hl
    obtain ⟨s', e, h⟩ := parLoop_serial (body := lp.predict s.explore x) hn hl
    simp only [ho.predict] at e
    rw [predictGo_eq]
    exact (e.symm ▸ h : parLoop (lp.predict s.explore x) l s
      (forEachCl (fun r c => predictCl kit s.explore x c r) l s))
  updateLoop := by
    intro x y n cur s l hn hl
    obtain ⟨s', e, h⟩ := parLoop_serial (body := lp.update s.explore x y n cur) hn hl
    simp only [ho.update] at e
    rw [updateGo_eq]
    exact (e.symm ▸ h : parLoop (lp.update s.explore x y n cur) l s
      (forEachCl (fun r c => clUpdate par kit s.explore c x y n cur r) l s))

end Serial

/-! ## Rules that do not use the generator -/

section Silence
variable {A K X B R : Type} [Zero K] [One K] [Add K] [Sub K] [Mul K] [Div K]
  [LT K] [DecidableLT K] [IntCast K] [DecidableEq K]

/-- A function of a rule that neither reads nor changes the state of the generator. -/
def Silent {α β : Type} (f : R → α × β × R) : Prop := ∀ r r', f r' = ((f r).1, (f r).2.1, r')

/-- Neither matching, actions, predictions nor updates use the generator. -/
structure Kit.Silent (kit : Kit K X B R) : Prop where
  cmatch : ∀ e b x, Xcsf.Silent (kit.cmatch e b x)
  act : ∀ e b x, Xcsf.Silent (kit.act e b x)
  predict : ∀ e b p x, Xcsf.Silent (kit.predict e b p x)
  update : ∀ n b p x y, Xcsf.Silent (kit.update n b p x y)

/-- Loop bodies of one step; the state of the generator given does not matter. -/
def silentBodies (par : Params K) (kit : Kit K X B R) (r : R) : Bodies A K X B R where
  sense := fun e x => .own (fun c => (senseCl kit e x c r).1) fun _ => .done
  predict := fun e x => .own (fun c => (predictCl kit e x c r).1) fun _ => .done
  update := fun e x y n cur => .own (fun c => (clUpdate par kit e c x y n cur r).1) fun _ => .done

theorem silentBodies_quiet (par : Params K) (kit : Kit K X B R) (r : R) :
    (silentBodies (A := A) par kit r).Quiet :=
  ⟨fun _ _ _ => trivial, fun _ _ _ => trivial, fun _ _ _ _ _ _ => trivial⟩

theorem silent_fn {I α β : Type} {f : I → R → α × β × R} (h : ∀ i, Silent (f i)) (r : R) :
    ∃ g : I → α × β, ∀ i r', f i r' = ((g i).1, (g i).2, r') :=
  ⟨fun i => ((f i r).1, (f i r).2.1), fun i r' => h i r r'⟩

theorem silentBodies_of {par : Params K} {kit : Kit K X B R} (h : kit.Silent) (r : R) :
    (silentBodies (A := A) par kit r).Of par kit := by
  obtain ⟨gm, hm⟩ := silent_fn (f := fun (i : Bool × B × X) => kit.cmatch i.1 i.2.1 i.2.2)
    (fun i => h.cmatch _ _ _) r
  obtain ⟨ga, ha⟩ := silent_fn (f := fun (i : Bool × B × X) => kit.act i.1 i.2.1 i.2.2)
    (fun i => h.act _ _ _) r
  obtain ⟨gp, hp⟩ := silent_fn
    (f := fun (i : Bool × B × List K × X) => kit.predict i.1 i.2.1 i.2.2.1 i.2.2.2)
    (fun i => h.predict _ _ _ _) r
  obtain ⟨gu, hu⟩ := silent_fn
    (f := fun (i : Int × B × List K × X × List K) => kit.update i.1 i.2.1 i.2.2.1 i.2.2.2.1 i.2.2.2.2)
    (fun i => h.update _ _ _ _ _) r
  have km : kit.cmatch = fun e b x r => ((gm (e, b, x)).1, (gm (e, b, x)).2, r) := by
    funext e b x r; exact hm (e, b, x) r
  have ka : kit.act = fun e b x r => ((ga (e, b, x)).1, (ga (e, b, x)).2, r) := by
    funext e b x r; exact ha (e, b, x) r
  have kp : kit.predict = fun e b p x r => ((gp (e, b, p, x)).1, (gp (e, b, p, x)).2, r) := by
    funext e b p x r; exact hp (e, b, p, x) r
  have ku : kit.update = fun n b p x y r =>
      ((gu (n, b, p, x, y)).1, (gu (n, b, p, x, y)).2, r) := by
    funext n b p x y r; exact hu (n, b, p, x, y) r
  clear h hm ha hp hu
  obtain ⟨⟩ := kit
  dsimp only at km ka kp ku
  subst km ka kp ku
  refine ⟨fun e x c r' => rfl, fun e x c r' => rfl, fun e x y n cur c r' => ?_⟩
  cases cur <;> rfl

end Silence
end Xcsf
