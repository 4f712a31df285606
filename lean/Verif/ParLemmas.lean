import Verif.Par
import Verif.CoreOps5

/-!
# The outcome of a parallel loop
-/

set_option linter.unusedSectionVars false

namespace Xcsf

section Machine
variable {A C R : Type}

/-- What a body that does not use the generator makes of a rule. -/
def Prog.exec : Prog A C R → C → C
  | .done, c => c
  | .own f k, c => (k c).exec (f c)
  | .draw _ _, c => c

theorem Prog.run_quiet : ∀ {p : Prog A C R}, p.Quiet → ∀ c r, p.run c r = (p.exec c, r)
  | .done, _, _, _ => rfl
  | .own _ _, h, c, r => Prog.run_quiet (h c) _ r
  | .draw _ _, h, _, _ => h.elim

/-- The rules whose iteration is not done. -/
def Threads.pending (z : Threads A C R) : List Nat := z.todo.flatten.map Prod.fst

/-- Every step keeps what the loop will have made of each rule. -/
structure Threads.Fine (T : Nat → Option C) (r : R) (z : Threads A C R) : Prop where
  nodup : z.pending.Nodup
  rng : z.rng = r
  job : ∀ (t : Nat) q, z.todo[t]? = some q → ∀ i p, (i, p) ∈ q → p.Quiet ∧
    (∃ c, z.heap i = some c ∧ T i = some (p.exec c)) ∧ unshared t (z.owner i) = true
  rest : ∀ i, i ∉ z.pending → z.heap i = T i

theorem mem_pending {z : Threads A C R} {i : Nat} :
    i ∈ z.pending ↔ ∃ (t : Nat) (q : List (Nat × Prog A C R)) (p : Prog A C R),
      z.todo[t]? = some q ∧ (i, p) ∈ q := by
  unfold Threads.pending
  constructor
  · intro h
    obtain ⟨⟨j, p⟩, hm, e⟩ := List.mem_map.1 h
    obtain ⟨q, hq, hp⟩ := List.mem_flatten.1 hm
    obtain ⟨t, ht⟩ := List.mem_iff_getElem?.1 hq
    exact ⟨t, q, p, ht, by rw [← e]; exact hp⟩
  · rintro ⟨t, q, p, ht, hp⟩
    exact List.mem_map.2 ⟨(i, p), List.mem_flatten.2 ⟨q, List.mem_of_getElem? ht, hp⟩, rfl⟩

/-- Replacing the queue of a thread. -/
theorem flatten_set {α : Type} : ∀ (l : List (List α)) (t : Nat) (q q' : List α),
    l[t]? = some q → ∃ a b, l.flatten = a ++ (q ++ b) ∧ (l.set t q').flatten = a ++ (q' ++ b)
  | [], t, q, q', h => by simp at h
  | x :: l, 0, q, q', h => by
    rw [List.getElem?_cons_zero] at h
    cases h
    exact ⟨[], l.flatten, by simp, by simp⟩
  | x :: l, t + 1, q, q', h => by
    rw [List.getElem?_cons_succ] at h
    obtain ⟨a, b, h1, h2⟩ := flatten_set l t q q' h
    exact ⟨x ++ a, b, by simp [h1], by simp [h2]⟩

/-- Two threads have no rule in common, and a thread does a rule once. -/
theorem Threads.Fine.alone {T : Nat → Option C} {r : R} {z : Threads A C R} (h : z.Fine T r)
    {t : Nat} {i : Nat} {p : Prog A C R} {q : List (Nat × Prog A C R)}
    (hq : z.todo[t]? = some ((i, p) :: q)) :
    (∀ p', (i, p') ∉ q) ∧ ∀ (u : Nat) q' p', z.todo[u]? = some q' → (i, p') ∈ q' → u = t := by
  have hn := h.nodup
  unfold Threads.pending at hn
  obtain ⟨a, b, h1, h2⟩ := flatten_set z.todo t _ [] hq
  have hn' := hn
  rw [h1] at hn
  simp only [List.map_append, List.map_cons, List.cons_append] at hn
  have hcons := List.nodup_middle.1 hn
  rw [List.nodup_cons] at hcons
  have hni := hcons.1
  simp only [List.mem_append, not_or] at hni
  refine ⟨fun p' hp => hni.2.1 (List.mem_map.2 ⟨(i, p'), hp, rfl⟩), fun u q' p' hu hp => ?_⟩
  by_contra hne
  have : (z.todo.set t [])[u]? = some q' := by
    rw [List.getElem?_set_ne (fun e => hne e.symm)]; exact hu
  have hm : (i, p') ∈ (z.todo.set t []).flatten :=
    List.mem_flatten.2 ⟨q', List.mem_of_getElem? this, hp⟩
  rw [h2] at hm
  simp only [List.nil_append, List.mem_append] at hm
  rcases hm with hm | hm
  · exact hni.1 (List.mem_map.2 ⟨(i, p'), hm, rfl⟩)
  · exact hni.2.2 (List.mem_map.2 ⟨(i, p'), hm, rfl⟩)

theorem Threads.Fine.start {s : Nat → Option C} {r : R} {body : Prog A C R} (hb : body.Quiet)
    {l : List Nat} (hn : l.Nodup) (hl : ∀ i ∈ l, (s i).isSome)
    {todo : List (List (Nat × Prog A C R))}
    (hp : todo.flatten.Perm (l.map fun i => (i, body))) :
    Threads.Fine (fun i => if i ∈ l then (s i).map body.exec else s i) r
      { heap := s, rng := r, owner := fun _ => none, drew := none, todo := todo } := by
  have hids : (todo.flatten.map Prod.fst).Perm l := by
    have := hp.map Prod.fst
    simpa [List.map_map, Function.comp_def] using this
  refine ⟨hids.nodup_iff.2 hn, rfl, ?_, ?_⟩
  · intro t q hq i p hm
    have : (i, p) ∈ todo.flatten := List.mem_flatten.2 ⟨q, List.mem_of_getElem? hq, hm⟩
    obtain ⟨j, hj, e⟩ := List.mem_map.1 (hp.mem_iff.1 this)
    cases e
    obtain ⟨c, hc⟩ := Option.isSome_iff_exists.1 (hl i hj)
    exact ⟨hb, ⟨c, hc, by simp [hj, hc]⟩, rfl⟩
  · intro i hi
    have : i ∉ l := fun h => hi (hids.mem_iff.2 h)
    simp [this]

/-- A step of a thread that has something to do. -/
theorem Threads.Fine.tick {T : Nat → Option C} {r : R} {z : Threads A C R} (h : z.Fine T r)
    (t : Nat) : ∃ z', z.tick t = .ok z' ∧ z'.Fine T r := by
  unfold Threads.tick
  cases hq : z.todo[t]? with
  | none => exact ⟨z, rfl, h⟩
  | some Q =>
    cases Q with
    | nil => exact ⟨z, rfl, h⟩
    | cons ip q =>
      obtain ⟨i, p⟩ := ip
      obtain ⟨ha1, ha2⟩ := h.alone hq
      obtain ⟨hqu, ⟨c, hc, hT⟩, hun⟩ := h.job t _ hq i p List.mem_cons_self
      have hlt : t < z.todo.length := (List.getElem?_eq_some_iff.1 hq).1
      cases p with
      | draw g k => exact hqu.elim
      | done =>
        refine ⟨_, rfl, ?_, h.rng, ?_, ?_⟩
        · have hn := h.nodup
          unfold Threads.pending at hn ⊢
          obtain ⟨a, b, h1, h2⟩ := flatten_set z.todo t _ q hq
          rw [h1] at hn
          show ((z.todo.set t q).flatten.map Prod.fst).Nodup
          rw [h2]
          simp only [List.map_append, List.map_cons, List.cons_append] at hn ⊢
          exact (List.nodup_cons.1 (List.nodup_middle.1 hn)).2
        · intro u q' hu j p' hj
          by_cases e : u = t
          · subst e
            have hu : (z.todo.set u q)[u]? = some q' := hu
            rw [List.getElem?_set_self hlt] at hu
            cases hu
            exact h.job u _ hq j p' (List.mem_cons_of_mem _ hj)
          · have hu : (z.todo.set t q)[u]? = some q' := hu
            rw [List.getElem?_set_ne (fun e' => e e'.symm)] at hu
            exact h.job u _ hu j p' hj
        · intro j hj
          by_cases e : j = i
          · subst e
            exact hc.trans hT.symm
          · apply h.rest
            intro hp
            apply hj
            obtain ⟨u, q', p', hu, hm⟩ := mem_pending.1 hp
            by_cases e' : u = t
            · subst e'
              rw [hq] at hu
              cases hu
              rcases List.mem_cons.1 hm with e2 | hm
              · cases e2; exact absurd rfl e
              · exact mem_pending.2 ⟨u, q, p', List.getElem?_set_self hlt, hm⟩
            · exact mem_pending.2 ⟨u, q', p',
                (List.getElem?_set_ne (fun e2 => e' e2.symm)).trans hu, hm⟩
      | own f k =>
        simp only [hun, hc, if_true]
        refine ⟨_, rfl, ?_, h.rng, ?_, ?_⟩
        · have hn := h.nodup
          unfold Threads.pending at hn ⊢
          obtain ⟨a, b, h1, h2⟩ := flatten_set z.todo t _ ((i, k c) :: q) hq
          rw [h1] at hn
          show ((z.todo.set t ((i, k c) :: q)).flatten.map Prod.fst).Nodup
          rw [h2]
          simpa using hn
        · intro u q' hu j p' hj
          have hu : (z.todo.set t ((i, k c) :: q))[u]? = some q' := hu
          show p'.Quiet ∧ (∃ d, (if j = i then some (f c) else z.heap j) = some d ∧
            T j = some (p'.exec d)) ∧ unshared u (if j = i then some t else z.owner j) = true
          by_cases e : u = t
          · subst e
            rw [List.getElem?_set_self hlt] at hu
            cases hu
            rcases List.mem_cons.1 hj with e2 | hm
            · cases e2
              refine ⟨hqu c, ⟨f c, by simp, hT⟩, by simp [unshared]⟩
            · have hne : j ≠ i := fun e => ha1 p' (e ▸ hm)
              rw [if_neg hne, if_neg hne]
              exact h.job u _ hq j p' (List.mem_cons_of_mem _ hm)
          · rw [List.getElem?_set_ne (fun e' => e e'.symm)] at hu
            have hne : j ≠ i := fun e2 => e (ha2 u q' p' hu (e2 ▸ hj))
            rw [if_neg hne, if_neg hne]
            exact h.job u _ hu j p' hj
        · intro j hj
          have hi : i ∈ Threads.pending { z with
              heap := fun j => if j = i then some (f c) else z.heap j
              owner := fun j => if j = i then some t else z.owner j
              todo := z.todo.set t ((i, k c) :: q) } :=
            mem_pending.2 ⟨t, _, k c, List.getElem?_set_self hlt, List.mem_cons_self⟩
          have hne : j ≠ i := fun e => hj (e ▸ hi)
          show (if j = i then some (f c) else z.heap j) = T j
          rw [if_neg hne]
          apply h.rest
          intro hp
          apply hj
          obtain ⟨u, q', p', hu, hm⟩ := mem_pending.1 hp
          by_cases e' : u = t
          · subst e'
            rw [hq] at hu
            cases hu
            rcases List.mem_cons.1 hm with e2 | hm
            · cases e2; exact absurd rfl hne
            · exact mem_pending.2 ⟨u, _, p', List.getElem?_set_self hlt, List.mem_cons_of_mem _ hm⟩
          · exact mem_pending.2 ⟨u, q', p',
              (List.getElem?_set_ne (fun e2 => e' e2.symm)).trans hu, hm⟩

theorem Threads.Fine.ticks {T : Nat → Option C} {r : R} : ∀ (σ : List Nat) {z : Threads A C R},
    z.Fine T r → ∃ z', z.ticks σ = .ok z' ∧ z'.Fine T r
  | [], z, h => ⟨z, rfl, h⟩
  | t :: σ, z, h => by
    obtain ⟨z1, e1, h1⟩ := h.tick t
    obtain ⟨z2, e2, h2⟩ := Threads.Fine.ticks σ h1
    refine ⟨z2, ?_, h2⟩
    unfold Threads.ticks
    rw [e1]
    exact e2

theorem Threads.ticks_append : ∀ (σ σ' : List Nat) (z : Threads A C R),
    z.ticks (σ ++ σ') = z.ticks σ >>= fun z => z.ticks σ'
  | [], σ', z => rfl
  | t :: σ, σ', z => by
    show (z.tick t >>= fun z => z.ticks (σ ++ σ')) = (z.tick t >>= fun z => z.ticks σ) >>= _
    cases z.tick t with
    | error e => rfl
    | ok z1 => exact Threads.ticks_append σ σ' z1

/-- A thread finishes its current iteration. -/
theorem Threads.Fine.finishJob {T : Nat → Option C} {r : R} (t i : Nat)
    (q : List (Nat × Prog A C R)) : ∀ (p : Prog A C R) {z : Threads A C R}, z.Fine T r →
    z.todo[t]? = some ((i, p) :: q) → ∃ σ z', z.ticks σ = .ok z' ∧ z'.Fine T r ∧
      z'.todo = z.todo.set t q
  | .done, z, h, hq => by
    obtain ⟨z', e, h'⟩ := h.tick t
    refine ⟨[t], z', by unfold Threads.ticks; rw [e]; rfl, h', ?_⟩
    unfold Threads.tick at e
    rw [hq] at e
    cases e
    rfl
  | .own f k, z, h, hq => by
    obtain ⟨z1, e, h1⟩ := h.tick t
    obtain ⟨hqu, ⟨c, hc, hT⟩, hun⟩ := h.job t _ hq i _ List.mem_cons_self
    have hlt : t < z.todo.length := (List.getElem?_eq_some_iff.1 hq).1
    have e' := e
    unfold Threads.tick at e'
    rw [hq] at e'
    simp only [hun, hc, if_true] at e'
    have e2 := Except.ok.inj e'
    have ht1 : z1.todo = z.todo.set t ((i, k c) :: q) := by rw [← e2]
    obtain ⟨σ, z2, e3, h2, ht2⟩ := Threads.Fine.finishJob t i q (k c) h1 (by
      rw [ht1]; exact List.getElem?_set_self hlt)
    refine ⟨t :: σ, z2, ?_, h2, ?_⟩
    · unfold Threads.ticks
      rw [e]
      exact e3
    · rw [ht2, ht1, List.set_set]
  | .draw g k, z, h, hq => (h.job t _ hq i _ List.mem_cons_self).1.elim

/-- All threads finish, whatever has happened so far. -/
theorem Threads.Fine.finish {T : Nat → Option C} {r : R} : ∀ (n : Nat) {z : Threads A C R},
    z.todo.flatten.length = n → z.Fine T r →
    ∃ σ z', z.ticks σ = .ok z' ∧ z'.Fine T r ∧ z'.Finished
  | 0, z, hn, h => ⟨[], z, rfl, h, fun q hq => by
      rw [List.length_eq_zero_iff] at hn
      exact List.flatten_eq_nil_iff.1 hn q hq⟩
  | n + 1, z, hn, h => by
    have hne : z.todo.flatten ≠ [] := by intro e; rw [e] at hn; cases hn
    obtain ⟨⟨i, p⟩, hm⟩ := List.exists_mem_of_ne_nil _ hne
    obtain ⟨Q, hQ, hp⟩ := List.mem_flatten.1 hm
    obtain ⟨t, ht⟩ := List.mem_iff_getElem?.1 hQ
    cases Q with
    | nil => cases hp
    | cons ip q =>
      obtain ⟨j, p'⟩ := ip
      obtain ⟨σ, z1, e1, h1, ht1⟩ := h.finishJob t j q p' ht
      obtain ⟨a, b, f1, f2⟩ := flatten_set z.todo t _ q ht
      obtain ⟨σ', z2, e2, h2, h3⟩ := Threads.Fine.finish n (by
        rw [ht1, f2]
        rw [f1] at hn
        simp at hn ⊢
        omega) h1
      refine ⟨σ ++ σ', z2, ?_, h2, h3⟩
      rw [Threads.ticks_append, e1]
      exact e2

theorem Threads.Fine.result {T : Nat → Option C} {r : R} {z : Threads A C R} (h : z.Fine T r)
    (hf : z.Finished) : z.heap = T ∧ z.rng = r := by
  refine ⟨funext fun i => h.rest i ?_, h.rng⟩
  intro hp
  obtain ⟨t, q, p, hq, hm⟩ := mem_pending.1 hp
  rw [hf q (List.mem_of_getElem? hq)] at hm
  cases hm

end Machine

/-! ## Loops -/

section Loops
variable {A K X B R : Type}

/-- What a loop that does not use the generator makes of the rules. -/
def loopHeap (f : Cl K B → Cl K B) (l : List Nat) (h : Nat → Option (Cl K B)) :
    Nat → Option (Cl K B) :=
  fun i => if i ∈ l then (h i).map f else h i

theorem parLoop_quiet {body : Prog A (Cl K B) R} (hb : body.Quiet) {l : List Nat} (hn : l.Nodup)
    {s : St K X B R} (hl : ∀ i ∈ l, (s.heap i).isSome) :
    parLoop body l s = Nd.lift (.ok { s with heap := loopHeap body.exec l s.heap }) := by
  funext o
  apply propext
  constructor
  · rintro ⟨todo, σ, hp, h⟩
    have F := Threads.Fine.start (r := s.rng) hb hn hl hp
    obtain ⟨z', e, F'⟩ := F.ticks σ
    rcases h with ⟨z, e', hf, ho⟩ | ⟨er, e', _⟩
    · have e' : Threads.ticks σ _ = Except.ok z := e'
      have := e.symm.trans e'
      cases this
      obtain ⟨h1, h2⟩ := F'.result hf
      rw [ho, h1, h2]
      rfl
    · have := e.symm.trans e'
      cases this
  · intro ho
    have hp : ([l.map fun i => (i, body)] : List (List (Nat × Prog A (Cl K B) R))).flatten.Perm
        (l.map fun i => (i, body)) := by simp
    have F := Threads.Fine.start (r := s.rng) hb hn hl hp
    obtain ⟨σ, z', e, F', hf⟩ := F.finish _ rfl
    obtain ⟨h1, h2⟩ := F'.result hf
    refine ⟨_, σ, hp, Or.inl ⟨z', e, hf, ?_⟩⟩
    rw [ho, h1, h2]
    rfl

end Loops
end Xcsf
