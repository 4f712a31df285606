import Verif.RepMemRule

/-!
Lemmas about the memory of histories of rules.
-/

set_option linter.unusedSectionVars false

namespace Xcsf

namespace RepMem

attribute [local irreducible] Tri Rd clInit clCover clChild clCopy clLoad clImport clFree clAsk
  clUpdate clMutate clCross clGeneral clExpand clClassify

/-- The blocks of all rules. -/
def poolBlocks (pool : List Cl) : List Nat := pool.flatMap Cl.blocks

/-- All parts of all rules are there. -/
def poolOK (E : Fault → Prop) (d : Nat) (pool : List Cl) : Prop := ∀ c ∈ pool, c.ok E d

/-- The number of blocks of all rules. -/
def poolSize (pool : List Cl) : Nat := (pool.map Cl.size).sum

section
variable {E : Fault → Prop} {pool : List Cl} {c : Cl} {d i j : Nat}

theorem poolBlocks_nil : poolBlocks [] = [] := rfl

theorem poolBlocks_cons (c : Cl) (pool : List Cl) :
    poolBlocks (c :: pool) = c.blocks ++ poolBlocks pool := List.flatMap_cons

theorem poolBlocks_append (p q : List Cl) : poolBlocks (p ++ q) = poolBlocks p ++ poolBlocks q :=
  List.flatMap_append

theorem poolBlocks_single (c : Cl) : poolBlocks [c] = c.blocks := by
  rw [poolBlocks_cons, poolBlocks_nil, List.append_nil]

theorem poolBlocks_perm {p q : List Cl} (h : p.Perm q) : (poolBlocks p).Perm (poolBlocks q) :=
  h.flatMap_right _

theorem poolBlocks_length (h : poolOK E d pool) : (poolBlocks pool).length = poolSize pool := by
  induction pool with
  | nil => rfl
  | cons c pool ih =>
    rw [poolBlocks_cons, List.length_append, ih fun x hx => h x (List.mem_cons_of_mem _ hx),
      Cl.blocks_length (h c (by simp)), poolSize, poolSize, List.map_cons, List.sum_cons]

theorem poolOK_add (h : poolOK E d pool) (hc : c.ok E d) : poolOK E d (pool ++ [c]) := by
  intro x hx
  rcases List.mem_append.1 hx with hx | hx
  · exact h x hx
  · rw [List.mem_singleton.1 hx]; exact hc

theorem poolOK_set (h : poolOK E d pool) (hc : c.ok E d) : poolOK E d (pool.set i c) := by
  intro x hx
  rcases List.mem_or_eq_of_mem_set hx with hx | rfl
  · exact h x hx
  · exact hc

theorem poolOK.get (h : poolOK E d pool) (e : pool[i]? = some c) : c.ok E d :=
  h c (List.mem_of_getElem? e)

theorem pool_pick (e : pool[i]? = some c) : pool.Perm (c :: pool.eraseIdx i) := by
  induction pool generalizing i with
  | nil => cases e
  | cons x pool ih =>
    cases i with
    | zero => cases e; exact .refl _
    | succ i => exact ((ih e).cons x).trans (.swap c x _)

theorem pool_set (c' : Cl) (e : pool[i]? = some c) : (pool.set i c').Perm (c' :: pool.eraseIdx i) := by
  induction pool generalizing i with
  | nil => cases e
  | cons x pool ih =>
    cases i with
    | zero => cases e; exact .refl _
    | succ i => exact ((ih e).cons x).trans (.swap c' x _)

theorem pool_two {b : Cl} (hij : i ≠ j) (e : pool[i]? = some c) (e' : pool[j]? = some b) :
    ∃ rest, pool.Perm (c :: b :: rest) ∧
      ∀ c' b', ((pool.set i c').set j b').Perm (c' :: b' :: rest) := by
  induction pool generalizing i j with
  | nil => cases e
  | cons x pool ih =>
    cases i with
    | zero =>
      cases j with
      | zero => exact absurd rfl hij
      | succ j =>
        cases e
        replace e' : pool[j]? = some b := e'
        refine ⟨pool.eraseIdx j, (pool_pick e').cons _, fun c' b' => ?_⟩
        exact (pool_set b' e').cons _
    | succ i =>
      cases j with
      | zero =>
        cases e'
        replace e : pool[i]? = some c := e
        refine ⟨pool.eraseIdx i, ((pool_pick e).cons _).trans (.swap _ _ _), fun c' b' => ?_⟩
        exact ((pool_set c' e).cons _).trans (.swap _ _ _)
      | succ j =>
        obtain ⟨rest, h1, h2⟩ := ih (i := i) (j := j) (fun h => hij (congrArg _ h)) e e'
        have mv : ∀ (a b : Cl), (x :: a :: b :: rest).Perm (a :: b :: x :: rest) := fun a b =>
          (List.Perm.swap a x _).trans ((List.Perm.swap b x _).cons _)
        exact ⟨x :: rest, (h1.cons _).trans (mv _ _), fun c' b' => ((h2 c' b').cons _).trans (mv _ _)⟩

theorem poolSize_perm {p q : List Cl} (h : p.Perm q) : poolSize p = poolSize q :=
  (h.map Cl.size).sum_nat

theorem poolSize_cons (c : Cl) (p : List Cl) : poolSize (c :: p) = c.size + poolSize p := by
  rw [poolSize, List.map_cons, List.sum_cons, ← poolSize]

/-- An operation on one rule. -/
theorem tri_one {m : M Cl} {ok : Cl → Prop} (h : poolOK E d pool) (e : pool[i]? = some c)
    (hm : Tri E c.blocks m (fun c' => c'.ok E d ∧ ok c') Cl.blocks) :
    Tri E (poolBlocks pool) (m >>= fun c' => pure (pool.set i c'))
      (fun p => poolOK E d p ∧ ∃ c', p = pool.set i c' ∧ ok c') poolBlocks := by
  refine tri_bind (K := poolBlocks (pool.eraseIdx i)) hm
    (by rw [← poolBlocks_cons]; exact poolBlocks_perm (pool_pick e)) fun c' hc => ?_
  refine tri_pure ⟨poolOK_set h hc.1, c', rfl, hc.2⟩ ?_
  rw [← poolBlocks_cons]
  exact poolBlocks_perm (pool_set c' e).symm

theorem rd_one (e : pool[i]? = some c) {m : M Unit} (hm : Rd E c.blocks m) :
    Rd E (poolBlocks pool) m :=
  hm.mono fun _ hp => List.mem_flatMap.2 ⟨c, List.mem_of_getElem? e, hp⟩

theorem tri_add {m : M Cl} (h : poolOK E d pool) (hm : Tri E [] m (Cl.ok E d) Cl.blocks) :
    Tri E (poolBlocks pool) (m >>= fun c' => pure (pool ++ [c'])) (poolOK E d) poolBlocks := by
  refine tri_bind (K := poolBlocks pool) hm (by perm) fun c' hc => ?_
  refine tri_pure (poolOK_add h hc) ?_
  rw [poolBlocks_append, poolBlocks_single]
  perm

theorem tri_dup {m : M Cl} (h : poolOK E d pool) (e : pool[i]? = some c)
    (hm : Tri E c.blocks m (Cl.ok E d) (fun c' => c'.blocks ++ c.blocks)) :
    Tri E (poolBlocks pool) (m >>= fun c' => pure (pool ++ [c'])) (poolOK E d) poolBlocks := by
  have hp := poolBlocks_perm (pool_pick e)
  rw [poolBlocks_cons] at hp
  refine tri_bind (K := poolBlocks (pool.eraseIdx i)) hm hp fun c' hc => ?_
  refine tri_pure (poolOK_add h hc) ?_
  rw [poolBlocks_append, poolBlocks_single, List.append_assoc]
  refine .trans ?_ (hp.symm.append_right _)
  perm

/-- What an operation does with the memory. -/
theorem tri_step (op : Op) (h : poolOK E (min 2 d) pool) (ho : op.ok d)
    (hi : op.imports = true → E .exit) (hr : op.loadsRecurrent = true → E .ub) :
    Tri E (poolBlocks pool) (step op pool)
      (fun p => poolOK E (min 2 d) p ∧ (op.inPlace = true → poolSize p = poolSize pool))
      poolBlocks := by
  have weak : ∀ {T : Types}, T.ok d → T.ok (min 2 d) := fun h =>
    ⟨h.1, h.2.1, h.2.2.1, Nat.le_trans (Nat.min_le_right _ _) h.2.2.2⟩
  have same : Tri E (poolBlocks pool) (pure pool)
      (fun p => poolOK E (min 2 d) p ∧ (op.inPlace = true → poolSize p = poolSize pool))
      poolBlocks := tri_pure ⟨h, fun _ => rfl⟩ (.refl _)
  have noIP : ∀ {m : M (List Cl)}, op.inPlace = false → Tri E (poolBlocks pool) m
      (poolOK E (min 2 d)) poolBlocks → Tri E (poolBlocks pool) m
      (fun p => poolOK E (min 2 d) p ∧ (op.inPlace = true → poolSize p = poolSize pool))
      poolBlocks := fun hf ht => tri_conseq (K := []) ht (by rw [List.append_nil]) fun _ hp =>
        ⟨⟨hp, fun e => absurd e (by rw [hf]; decide)⟩, by rw [List.append_nil]⟩
  have ofOne : ∀ {m : M (List Cl)} {ok : List Cl → Prop}, op.inPlace = false →
      Tri E (poolBlocks pool) m (fun p => poolOK E (min 2 d) p ∧ ok p) poolBlocks →
      Tri E (poolBlocks pool) m
      (fun p => poolOK E (min 2 d) p ∧ (op.inPlace = true → poolSize p = poolSize pool))
      poolBlocks := fun hf ht => noIP hf (tri_conseq (K := []) ht (by rw [List.append_nil])
        fun _ hp => ⟨hp.1, by rw [List.append_nil]⟩)
  cases op with
  | create T => exact noIP rfl (tri_add h (tri_clInit (weak ho)))
  | cover T n m => exact noIP rfl (tri_add h (tri_clCover n m (weak ho)))
  | child T i reset =>
    simp only [step]
    split
    · exact same
    · next c e => exact noIP rfl (tri_dup h e (tri_clChild reset (weak ho) (h.get e)))
  | copy i =>
    simp only [step]
    split
    · exact same
    · next c e => exact noIP rfl (tri_dup h e (tri_clCopy (h.get e)))
  | load T => exact noIP rfl (tri_add h (tri_clLoad (weak ho) hr))
  | «import» T a p c => exact noIP rfl (tri_add h (tri_clImport a p c (weak ho) (hi rfl)))
  | ask i =>
    simp only [step]
    split
    · exact same
    · next c e => exact tri_rd (rd_one e (rd_clAsk (h.get e))) (fun _ h => h) same
  | update i =>
    simp only [step]
    split
    · exact same
    · next c e => exact tri_rd (rd_one e (rd_clUpdate (h.get e))) (fun _ h => h) same
  | mutate i a b f =>
    simp only [step]
    split
    · exact same
    · next c e =>
      refine tri_conseq (K := []) (tri_one h e (tri_clMutate a b f (h.get e)))
        (by rw [List.append_nil]) fun p hp => ⟨⟨hp.1, fun _ => ?_⟩, by rw [List.append_nil]⟩
      obtain ⟨_, c', rfl, hs⟩ := hp
      rw [poolSize_perm (pool_set c' e), poolSize_perm (pool_pick e), poolSize_cons, poolSize_cons, hs]
  | cross i j =>
    simp only [step]
    split
    · exact same
    · next hij =>
      split
      · next c b e e' =>
        obtain ⟨rest, h1, h2⟩ := pool_two hij e e'
        refine tri_bind (K := poolBlocks rest) (tri_clCross (h.get e) (h.get e')) ?_
          fun r hr => ?_
        · refine (poolBlocks_perm h1).trans ?_
          rw [poolBlocks_cons, poolBlocks_cons, List.append_assoc]
        · refine tri_pure ⟨poolOK_set (poolOK_set h hr.1.1) hr.2.1, fun _ => ?_⟩ ?_
          · rw [poolSize_perm (h2 r.1 r.2), poolSize_perm h1]
            simp only [poolSize_cons, hr.1.2, hr.2.2]
          · refine .trans ?_ (poolBlocks_perm (h2 r.1 r.2)).symm
            rw [poolBlocks_cons, poolBlocks_cons, List.append_assoc]
      · exact same
  | general i j =>
    simp only [step]
    split
    · exact same
    · next hij =>
      split
      · next c b e e' =>
        obtain ⟨rest, h1, _⟩ := pool_two hij e e'
        have hp : (poolBlocks pool).Perm (c.blocks ++ b.blocks ++ poolBlocks rest) := by
          refine (poolBlocks_perm h1).trans ?_
          rw [poolBlocks_cons, poolBlocks_cons, List.append_assoc]
        refine tri_bind (K := poolBlocks rest) (tri_clGeneral (h.get e) (h.get e')) hp
          fun _ _ => ?_
        exact tri_pure ⟨h, fun _ => rfl⟩ hp.symm
      · exact same
  | expand i bs =>
    have hd : min 2 d = 2 := Nat.min_eq_left ho
    simp only [step]
    split
    · exact same
    · next c e =>
      exact ofOne rfl (tri_one (ok := fun _ => True) h e (tri_conseq (K := [])
        (tri_clExpand bs (h.get e) hd) (by rw [List.append_nil]) fun _ hp =>
          ⟨⟨hp, trivial⟩, by rw [List.append_nil]⟩))
  | classify i k =>
    have hd : 1 ≤ min 2 d := Nat.le_min.2 ⟨by decide, ho⟩
    simp only [step]
    split
    · exact same
    · next c e =>
      exact ofOne rfl (tri_one (ok := fun _ => True) h e (tri_conseq (K := [])
        (tri_clClassify k (h.get e) hd (Nat.min_le_left _ _)) (by rw [List.append_nil]) fun _ hp =>
          ⟨⟨hp, trivial⟩, by rw [List.append_nil]⟩))
  | free i =>
    simp only [step]
    split
    · exact same
    · next c e =>
      refine noIP rfl ?_
      refine tri_bind (K := poolBlocks (pool.eraseIdx i)) (tri_clFree c)
        (by rw [← poolBlocks_cons]; exact poolBlocks_perm (pool_pick e)) fun _ _ => ?_
      exact tri_pure (fun x hx => h x (List.mem_of_mem_eraseIdx hx)) (.refl _)

/-- What a history does with the memory. -/
theorem tri_run (ops : List Op) (h : poolOK E (min 2 d) pool) (ho : ∀ op ∈ ops, op.ok d)
    (hi : ∀ op ∈ ops, op.imports = true → E .exit)
    (hr : ∀ op ∈ ops, op.loadsRecurrent = true → E .ub) :
    Tri E (poolBlocks pool) (run ops pool)
      (fun p => poolOK E (min 2 d) p ∧ ((∀ op ∈ ops, op.inPlace = true) → poolSize p = poolSize pool))
      poolBlocks := by
  induction ops generalizing pool with
  | nil => exact tri_pure ⟨h, fun _ => rfl⟩ (.refl _)
  | cons op ops ih =>
    refine tri_bind (K := []) (tri_step op h (ho op (by simp)) (hi op (by simp)) (hr op (by simp)))
      (by rw [List.append_nil]) fun p hp => ?_
    rw [List.append_nil]
    refine tri_conseq (K := []) (ih hp.1 (fun o h => ho o (List.mem_cons_of_mem _ h))
      (fun o h => hi o (List.mem_cons_of_mem _ h)) (fun o h => hr o (List.mem_cons_of_mem _ h)))
      (by rw [List.append_nil]) fun q hq => ⟨⟨hq.1, fun ha => ?_⟩, by rw [List.append_nil]⟩
    rw [hq.2 fun o h => ha o (List.mem_cons_of_mem _ h), hp.2 (ha op (by simp))]

theorem tri_killAll (pool : List Cl) :
    Tri E (poolBlocks pool) (killAll pool) (fun _ => True) (fun _ => []) := by
  induction pool with
  | nil => exact tri_pure trivial (.refl _)
  | cons c pool ih =>
    rw [poolBlocks_cons]
    refine tri_bind (K := poolBlocks pool) (tri_clFree c) (.refl _) fun _ _ => ?_
    exact ih

end

end RepMem

end Xcsf
