import Verif.ParamSystem

/-!
# What imports preserve (helper file)
-/

set_option linter.unusedSectionVars false

namespace Xcsf

section
variable {K R : Type} [Field K] [LinearOrder K] [IsStrictOrderedRing K] [FloorRing K]

/-- A setter that leads from states with `P` to states with `P` only. -/
def Preserves {S : Type} (P : S → Prop) (f : Setter K S) : Prop :=
  ∀ {j h s s'}, f j = some h → h s = .ok s' → P s → P s'

variable {S : Type} {P : S → Prop}

theorem preserves_num {ok : K → Bool} {put} (H : ∀ v s, ok v = true → P s → P (put v s)) :
    Preserves P (numSet (S := S) ok put) := by
  intro j h s s' e e' hp
  cases j <;> simp only [numSet, reduceCtorEq] at e
  cases e
  split at e'
  · next hv => cases e'; exact H _ _ hv hp
  · cases e'

theorem jsonInt_isInt (v : K) : IsInt (jsonInt v) := by
  unfold jsonInt IsInt
  split
  · omega
  split
  · omega
  next h1 h2 =>
  rw [not_le] at h1 h2
  split
  · next h0 =>
    constructor
    · have := Int.floor_nonneg.2 h0; omega
    · have : ⌊v⌋ < 2147483647 := Int.floor_lt.2 (by exact_mod_cast h1)
      omega
  · next h0 =>
    rw [not_le] at h0
    constructor
    · have : -2147483648 < ⌈v⌉ := Int.lt_ceil.2 (by exact_mod_cast h2)
      omega
    · have : ⌈v⌉ ≤ 0 := Int.ceil_le.2 (by exact_mod_cast h0.le)
      omega

theorem preserves_int {ok : Int → Bool} {put}
    (H : ∀ a s, ok a = true → IsInt a → P s → P (put a s)) :
    Preserves (K := K) P (intSet (S := S) ok put) := by
  intro j h s s' e e' hp
  cases j <;> simp only [intSet, reduceCtorEq] at e
  cases e
  split at e'
  · next hv => cases e'; exact H _ _ hv (jsonInt_isInt _) hp
  · cases e'

theorem preserves_bool {put} (H : ∀ b s, P s → P (put b s)) :
    Preserves (K := K) P (boolSet (S := S) put) := by
  intro j h s s' e e' hp
  cases j <;> simp only [boolSet, reduceCtorEq] at e
  cases e
  cases e'
  exact H _ _ hp

theorem preserves_name {codes} {put}
    (H : ∀ t c s, codeOf codes t = some c → P s → P (put c s)) :
    Preserves (K := K) P (nameSet (S := S) codes put) := by
  intro j h s s' e e' hp
  cases j <;> simp only [nameSet, reduceCtorEq] at e
  cases e
  dsimp only at e'
  split at e'
  · next hc => cases e'; exact H _ _ _ hc hp
  · cases e'

theorem preserves_any {f : Json K → S → Res S} (H : ∀ j s s', f j s = .ok s' → P s → P s') :
    Preserves P (fun j => some (f j)) := by
  intro j h s s' e e' hp
  cases e
  exact H _ _ _ e' hp

theorem mem_of_lookup {α β : Type} [BEq α] [LawfulBEq α] {l : List (α × β)} {a : α} {b : β}
    (h : l.lookup a = some b) : (a, b) ∈ l := by
  induction l with
  | nil => cases h
  | cons q l ih =>
    obtain ⟨c, d⟩ := q
    rw [List.lookup_cons] at h
    by_cases hc : a = c
    · subst hc
      simp only [beq_self_eq_true] at h
      cases h
      simp
    · rw [beq_false_of_ne hc] at h
      exact List.mem_cons_of_mem _ (ih h)

theorem member_preserves {t : List (String × Setter K S)} (H : ∀ e ∈ t, Preserves P e.2) {s s' : S}
    {m} (h : importMember t s m = .ok s') (hp : P s) : P s' := by
  unfold importMember at h
  split at h
  · cases h
  · next f hl =>
    split at h
    · cases h
    · next k hk => exact H _ (mem_of_lookup hl) hk h hp

theorem all_preserves {t : List (String × Setter K S)} (H : ∀ e ∈ t, Preserves P e.2) {s s' : S} :
    ∀ {l}, importAll t s l = .ok s' → P s → P s' := by
  intro l
  induction l generalizing s with
  | nil => intro h hp; cases h; exact hp
  | cons m l ih =>
    intro h hp
    cases hm : importMember t s m with
    | error e => simp only [importAll, List.foldlM_cons, hm, bind, Except.bind] at h; cases h
    | ok s1 =>
      rw [importAll_cons hm] at h
      exact ih h (member_preserves H hm hp)

/-- A loop over the members of a value that ends well. -/
theorem members_all {t : List (String × Setter K S)} (H : ∀ e ∈ t, Preserves P e.2) {s s' : S}
    {j : Json K} (h : (do importAll t s (← j.members)) = .ok s') (hp : P s) : P s' := by
  cases hj : j.members with
  | error e => simp only [hj, bind, Except.bind] at h; cases h
  | ok l =>
    simp only [hj, bind, Except.bind] at h
    exact all_preserves H h hp

/-! ## Documented ranges -/

theorem code_name {names : List (Int × List Char)} {codes} (N : NamesExact names codes) {t c}
    (h : codeOf codes t = some c) : nameOf names c = .ok t := (N c t).1 h

theorem code_ea {t c} (h : codeOf eaCodes t = some c) : c = 0 ∨ c = 1 := by
  have h' := code_name C47_names.2.2.2.2.1 h
  by_contra hc
  rw [not_or] at hc
  simp only [eaNames, nameOf, if_neg (Ne.symm hc.1), if_neg (Ne.symm hc.2)] at h'
  cases h'

theorem code_act {t c} (h : codeOf actCodes t = some c) : c = 0 ∨ c = 1 := by
  have h' := code_name C47_names.2.2.1 h
  by_contra hc
  rw [not_or] at hc
  simp only [actNames, nameOf, if_neg (Ne.symm hc.1), if_neg (Ne.symm hc.2)] at h'
  cases h'

theorem ea_valid : ∀ e ∈ (eaTable : List (String × Setter K (EaFile K))),
    Preserves EaFile.Valid e.2 := by
  unfold eaTable
  simp only [List.forall_mem_cons]
  refine ⟨?_, ?_, ?_, ?_, ?_, ?_, ?_, ?_, ?_, by simp⟩
  · exact preserves_name fun t c s hc V => { V with selectType := code_ea hc }
  · exact preserves_num fun v s hv V => { V with selectSize := unitK_iff.1 hv }
  · exact preserves_num fun v s hv V => { V with theta := nonnegK_iff.1 hv }
  · exact preserves_int fun v s hv _ V => { V with lambda := of_decide_eq_true hv }
  · exact preserves_num fun v s hv V => { V with pCrossover := unitK_iff.1 hv }
  · exact preserves_num fun v s hv V => { V with errReduc := unitK_iff.1 hv }
  · exact preserves_num fun v s hv V => { V with fitReduc := unitK_iff.1 hv }
  · exact preserves_bool fun b s V => { V with }
  · exact preserves_bool fun b s V => { V with }

theorem clamp01_unit (v : K) : UnitK (clamp01 v) := by
  unfold clamp01
  split
  · exact ⟨le_refl _, zero_le_one⟩
  split
  · exact ⟨zero_le_one, le_refl _⟩
  · next h1 h2 => exact ⟨not_lt.1 h1, not_lt.1 h2⟩

theorem clamp1_pos (a : Int) : 1 ≤ clamp1 a := by
  unfold clamp1
  split <;> omega

theorem clamp1_int {a : Int} (h : IsInt a) : IsInt (clamp1 a) := by
  unfold clamp1
  split
  · decide
  · exact h

theorem tern_valid : ∀ e ∈ (ternTable : List (String × Setter K (CondFile K))),
    Preserves CondFile.Valid e.2 := by
  unfold ternTable
  simp only [List.forall_mem_cons]
  refine ⟨?_, ?_, by simp⟩
  · exact preserves_num fun v s hv V => { V with pDontcare := clamp01_unit v }
  · exact preserves_int fun v s hv _ V => { V with bits := clamp1_pos v }

theorem csr_valid : ∀ e ∈ (csrTable : List (String × Setter K (CondFile K))),
    Preserves CondFile.Valid e.2 := by
  unfold csrTable
  simp only [List.forall_mem_cons]
  refine ⟨?_, ?_, ?_, ?_, by simp⟩
  · exact preserves_num fun v s hv V => { V with eta := clamp01_unit v }
  · exact preserves_num fun v s hv V => { V with }
  · exact preserves_num fun v s hv V => { V with }
  · refine preserves_num fun v s hv V => { V with spreadMin := ?_ }
    dsimp only
    split
    · exact le_refl _
    · next h => exact not_lt.1 h

/-- Ranges of the parameters of trees, as far as they are set by name. -/
def TreePar.Set (t : TreePar K) : Prop := 1 ≤ t.nConstants ∧ 1 ≤ t.initDepth ∧ 1 ≤ t.maxLen

theorem tree_valid : ∀ e ∈ (treeTable : List (String × Setter K (TreePar K))),
    Preserves TreePar.Set e.2 := by
  unfold treeTable
  simp only [List.forall_mem_cons]
  refine ⟨?_, ?_, ?_, ?_, ?_, by simp⟩
  · exact preserves_num (by intro v s _ V; exact V)
  · exact preserves_num (by intro v s _ V; exact V)
  · exact preserves_int fun v s hv _ V => ⟨clamp1_pos v, V.2⟩
  · exact preserves_int fun v s hv _ V => ⟨V.1, clamp1_pos v, V.2.2⟩
  · exact preserves_int fun v s hv _ V => ⟨V.1, V.2.1, clamp1_pos v⟩

def GraphPar.Set (t : GraphPar) : Prop := 1 ≤ t.maxK ∧ 1 ≤ t.maxT ∧ 1 ≤ t.n

theorem graph_valid : ∀ e ∈ (graphTable : List (String × Setter K GraphPar)),
    Preserves GraphPar.Set e.2 := by
  unfold graphTable
  simp only [List.forall_mem_cons]
  refine ⟨?_, ?_, ?_, ?_, by simp⟩
  · exact preserves_int fun v s hv _ V => ⟨clamp1_pos v, V.2⟩
  · exact preserves_int fun v s hv _ V => ⟨V.1, clamp1_pos v, V.2.2⟩
  · exact preserves_int fun v s hv _ V => ⟨V.1, V.2.1, clamp1_pos v⟩
  · exact preserves_bool (by intro v s V; exact V)

theorem typeMember_name {codes} {j : Json K} {c} (h : typeMember codes j = .ok c) :
    ∃ t, codeOf codes t = some c := by
  unfold typeMember at h
  split at h
  · split at h
    · next t _ c' hc => cases h; exact ⟨_, hc⟩
    · cases h
  · cases h

/-- What is done to the parameters of conditions, for any property of them. -/
theorem cond_import {g : Rng K R} {x : Int} {P : CondFile K → Prop}
    (ht : ∀ t c q, codeOf condCodes t = some c → P q → P { q with type := c })
    (h7 : ∀ e ∈ (ternTable : List (String × Setter K (CondFile K))), Preserves P e.2)
    (h1 : ∀ e ∈ (csrTable : List (String × Setter K (CondFile K))), Preserves P e.2)
    (h5 : ∀ q t l r, P q → importAll treeTable q.targs l = .ok t →
      P { q with targs := (drawConstants g t r).1 })
    (h6 : ∀ q d l, P q → importAll (K := K) graphTable q.dargs l = .ok d →
      P { q with dargs := d })
    (h4 : ∀ q l, P q → P { q with largs := l })
    {q : CondFile K} {j : Json K} {r : R} {z} (h : condParImport g x q j r = .ok z) (hq : P q) :
    P z.1 := by
  unfold condParImport at h
  cases hm : typeMember condCodes j with
  | error e => rw [hm] at h; cases h
  | ok c =>
    obtain ⟨t, hc⟩ := typeMember_name hm
    have hp := ht t c q hc hq
    simp only [hm, bind, Except.bind] at h
    split at h
    · cases h; exact hp
    next a ha =>
    generalize ({ q with type := c } : CondFile K) = q1 at h hp
    unfold condArgsImport at h
    cases hj : a.members with
    | error e =>
      simp only [hj, bind, Except.bind] at h
      split_ifs at h
      cases hl : importLayers x a with
      | error e => rw [hl] at h; cases h
      | ok l => rw [hl] at h; cases h; exact h4 _ _ hp
    | ok l =>
      simp only [hj, bind, Except.bind] at h
      split_ifs at h
      · cases e : importAll ternTable q1 l with
        | error e' => rw [e] at h; cases h
        | ok v => rw [e] at h; cases h; exact all_preserves h7 e hp
      · cases e : importAll csrTable q1 l with
        | error e' => rw [e] at h; cases h
        | ok v => rw [e] at h; cases h; exact all_preserves h1 e hp
      · cases e : importAll treeTable q1.targs l with
        | error e' => rw [e] at h; cases h
        | ok v => rw [e] at h; cases h; exact h5 _ _ _ _ hp e
      · cases e : importAll graphTable q1.dargs l with
        | error e' => rw [e] at h; cases h
        | ok v => rw [e] at h; cases h; exact h6 _ _ _ hp e
      · cases e : importLayers x a with
        | error e' => rw [e] at h; cases h
        | ok v => rw [e] at h; cases h; exact h4 _ _ hp

theorem drawN_len {α : Type} (f : R → α × R) (n : Nat) (r : R) : (drawN f n r).1.length = n :=
  (drawN_spec (P := fun _ => True) (fun _ => trivial) n r).1

theorem cond_valid {g : Rng K R} {x : Int} {q : CondFile K} {j : Json K} {r : R} {z}
    (h : condParImport g x q j r = .ok z) (V : q.Valid) : z.1.Valid := by
  refine cond_import (P := CondFile.Valid) ?_ tern_valid csr_valid ?_ ?_ ?_ h V
  · exact fun t c q hc V => { V with type := ⟨t, code_name C47_names.1 hc⟩ }
  · intro q t l r V e
    obtain ⟨h1, h2, h3⟩ := all_preserves tree_valid e ⟨V.nConstants, V.initDepth, V.maxLen⟩
    refine { V with nConstants := h1, initDepth := h2, maxLen := h3, constants := ?_ }
    show (((drawN _ _ _).1.length : Nat) : Int) = t.nConstants
    rw [drawN_len]
    omega
  · intro q d l V e
    obtain ⟨h1, h2, h3⟩ := all_preserves graph_valid e ⟨V.maxK, V.maxT, V.n⟩
    exact { V with maxK := h1, maxT := h2, n := h3 }
  · exact fun q l V => { V with }

theorem nlms_valid : ∀ e ∈ (nlmsTable : List (String × Setter K (PredFile K))),
    Preserves PredFile.Valid e.2 := by
  unfold nlmsTable
  simp only [List.forall_mem_cons]
  refine ⟨?_, ?_, ?_, ?_, by simp⟩
  · exact preserves_num fun v s hv V => { V with }
  · exact preserves_num fun v s hv V => { V with eta := clamp01_unit v }
  · exact preserves_bool fun v s V => { V with }
  · exact preserves_num fun v s hv V => { V with etaMin := clamp01_unit v }

theorem rls_valid : ∀ e ∈ (rlsTable : List (String × Setter K (PredFile K))),
    Preserves PredFile.Valid e.2 := by
  unfold rlsTable
  simp only [List.forall_mem_cons]
  refine ⟨?_, ?_, ?_, by simp⟩
  · exact preserves_num fun v s hv V => { V with }
  · exact preserves_num fun v s hv V => { V with }
  · exact preserves_num fun v s hv V => { V with }

theorem pred_valid {x : Int} {q q' : PredFile K} {j : Json K}
    (h : predParImport x q j = .ok q') (V : q.Valid) : q'.Valid := by
  unfold predParImport at h
  cases hm : typeMember predCodes j with
  | error e => rw [hm] at h; cases h
  | ok c =>
    obtain ⟨t, hc⟩ := typeMember_name hm
    have hp : ({ q with type := c } : PredFile K).Valid :=
      { V with type := ⟨t, code_name C47_names.2.1 hc⟩ }
    simp only [hm, bind, Except.bind] at h
    split at h
    · cases h; exact hp
    next a ha =>
    split_ifs at h
    · exact members_all (j := a) nlms_valid h hp
    · exact members_all (j := a) rls_valid h hp
    · cases e : importLayers x a with
      | error e' => rw [e] at h; cases h
      | ok v => rw [e] at h; cases h; exact { hp with }
    · cases h; exact hp

theorem act_valid {x : Int} {q q' : ActFile K} {j : Json K}
    (h : actParImport x q j = .ok q') : q'.type = 0 ∨ q'.type = 1 := by
  unfold actParImport at h
  cases hm : typeMember actCodes j with
  | error e => rw [hm] at h; cases h
  | ok c =>
    obtain ⟨t, hc⟩ := typeMember_name hm
    have hp := code_act hc
    simp only [hm, bind, Except.bind] at h
    split at h
    · cases h; exact hp
    next a ha =>
    split_ifs at h
    · cases e : importLayers x a with
      | error e' => rw [e] at h; cases h
      | ok v => rw [e] at h; cases h; exact hp
    · cases h; exact hp

/-- The parameters proper. -/
def OnFst {α β : Type} (P : α → Prop) (s : α × β) : Prop := P s.1

theorem param_valid (g : Rng K R) (sd : Seeds R) :
    ∀ e ∈ paramTable g sd, Preserves (OnFst SysPar.Valid) e.2 := by
  unfold paramTable
  simp only [List.forall_mem_cons]
  refine ⟨?_, ?_, ?_, ?_, ?_, ?_, ?_, ?_, ?_, ?_, ?_, ?_, ?_, ?_, ?_, ?_, ?_, ?_, ?_, ?_, ?_, ?_,
    ?_, ?_, ?_, ?_, ?_, ?_, ?_, ?_, ?_, ?_, ?_, by simp⟩
  · intro j h s s' e e' V
    cases e
    cases e'
    exact V
  · exact preserves_int fun v s hv _ V => { V with xDim := of_decide_eq_true hv }
  · exact preserves_int fun v s hv _ V => { V with yDim := of_decide_eq_true hv }
  · exact preserves_int fun v s hv _ V => { V with nActions := of_decide_eq_true hv }
  · refine preserves_int fun v s hv _ V => { V with ompNumThreads := ?_ }
    rw [Bool.and_eq_true, decide_eq_true_eq, decide_eq_true_eq] at hv
    exact hv
  · exact preserves_int fun v s hv _ V => { V with }
  · intro j h s s' e e' V
    cases j <;> simp only [fileSet, reduceCtorEq] at e
    cases e
    cases e'
    exact { V with }
  · exact preserves_int fun v s hv _ V => { V with popSize := of_decide_eq_true hv }
  · exact preserves_int fun v s hv _ V => { V with maxTrials := of_decide_eq_true hv }
  · exact preserves_bool fun v s V => { V with }
  · exact preserves_int fun v s hv _ V => { V with perfTrials := of_decide_eq_true hv }
  · exact preserves_name fun t c s hc V =>
      { V with lossFunc := ⟨t, code_name C47_names.2.2.2.1 hc⟩ }
  · exact preserves_num fun v s hv V => { V with huberDelta := nonnegK_iff.1 hv }
  · exact preserves_int fun v s hv _ V => { V with teletransportation := of_decide_eq_true hv }
  · exact preserves_num fun v s hv V => { V with gamma := unitK_iff.1 hv }
  · exact preserves_num fun v s hv V => { V with pExplore := unitK_iff.1 hv }
  · exact preserves_bool fun v s V => { V with }
  · exact preserves_int fun v s hv _ V => { V with thetaSub := of_decide_eq_true hv }
  · exact preserves_num fun v s hv V => { V with alpha := unitK_iff.1 hv }
  · exact preserves_num fun v s hv V => { V with beta := unitK_iff.1 hv }
  · exact preserves_num fun v s hv V => { V with delta := unitK_iff.1 hv }
  · exact preserves_num fun v s hv V => { V with nu := nonnegK_iff.1 hv }
  · exact preserves_int fun v s hv _ V => { V with thetaDel := of_decide_eq_true hv }
  · exact preserves_num fun v s hv V => { V with initFitness := nonnegK_iff.1 hv }
  · exact preserves_num fun v s hv V => { V with initError := nonnegK_iff.1 hv }
  · exact preserves_num fun v s hv V => { V with e0 := nonnegK_iff.1 hv }
  · exact preserves_int fun v s hv _ V => { V with mProbation := of_decide_eq_true hv }
  · exact preserves_bool fun v s V => { V with }
  · exact preserves_bool fun v s V => { V with }
  · refine preserves_any fun j s s' h V => ?_
    unfold eaStep at h
    cases hj : j.members with
    | error _ => rw [hj] at h; cases h
    | ok l =>
      simp only [hj, bind, Except.bind] at h
      cases e : importAll eaTable s.1.ea l with
      | error e' => rw [e] at h; cases h
      | ok v =>
        rw [e] at h
        cases h
        exact { V with ea := all_preserves ea_valid e V.ea }
  · refine preserves_any fun j s s' h V => ?_
    unfold actStep at h
    cases e : actParImport s.1.xDim s.1.act j with
    | error e' => simp only [e, bind, Except.bind] at h; cases h
    | ok v =>
      simp only [e, bind, Except.bind] at h
      cases h
      exact { V with actType := act_valid e }
  · refine preserves_any fun j s s' h V => ?_
    unfold condStep at h
    cases e : condParImport g s.1.xDim s.1.cond j s.2 with
    | error e' => simp only [e, bind, Except.bind] at h; cases h
    | ok v =>
      simp only [e, bind, Except.bind] at h
      cases h
      exact { V with cond := cond_valid e V.cond }
  · refine preserves_any fun j s s' h V => ?_
    unfold predStep at h
    cases e : predParImport s.1.xDim s.1.pred j with
    | error e' => simp only [e, bind, Except.bind] at h; cases h
    | ok v =>
      simp only [e, bind, Except.bind] at h
      cases h
      exact { V with pred := pred_valid e V.pred }

theorem import_valid {g : Rng K R} {sd : Seeds R} {j : Json K} {s s'}
    (h : paramImport g sd j s = .ok s') (V : s.1.Valid) : s'.1.Valid :=
  members_all (P := OnFst SysPar.Valid) (param_valid g sd) h V

/-! ## Integers -/

/-- The integers of conditions. -/
structure CondFile.Ints (c : CondFile K) : Prop where
  bits : IsInt c.bits
  maxK : IsInt c.dargs.maxK
  maxT : IsInt c.dargs.maxT
  n : IsInt c.dargs.n
  nConstants : IsInt c.targs.nConstants
  initDepth : IsInt c.targs.initDepth
  maxLen : IsInt c.targs.maxLen

/-- The integers of trees. -/
structure TreePar.Ints (t : TreePar K) : Prop where
  nConstants : IsInt t.nConstants
  initDepth : IsInt t.initDepth
  maxLen : IsInt t.maxLen

/-- The integers of graphs. -/
structure GraphPar.Ints (t : GraphPar) : Prop where
  maxK : IsInt t.maxK
  maxT : IsInt t.maxT
  n : IsInt t.n

/-- The integers of the evolutionary algorithm. -/
structure EaFile.Ints (e : EaFile K) : Prop where
  lambda : IsInt e.lambda

/-- Trees over `n` inputs. -/
structure TreePar.For (n : Int) (t : TreePar K) : Prop where
  eq : t.nInputs = n

/-- Graphs over `n` inputs. -/
structure GraphPar.For (n : Int) (t : GraphPar) : Prop where
  eq : t.nInputs = n

/-- Conditions over `n` and `m` inputs. -/
structure CondFile.For (n m : Int) (c : CondFile K) : Prop where
  tree : c.targs.nInputs = n
  graph : c.dargs.nInputs = m

theorem cond_ints {g : Rng K R} {x : Int} {q : CondFile K} {j : Json K} {r : R} {z}
    (h : condParImport g x q j r = .ok z) (V : q.Ints) : z.1.Ints := by
  refine cond_import (P := CondFile.Ints) (fun t c q hc V => { V with }) ?_ ?_ ?_ ?_ ?_ h V
  · unfold ternTable
    simp only [List.forall_mem_cons]
    refine ⟨?_, ?_, by simp⟩
    · exact preserves_num fun v s hv V => { V with }
    · exact preserves_int fun v s hv hi V => { V with bits := clamp1_int hi }
  · unfold csrTable
    simp only [List.forall_mem_cons]
    refine ⟨?_, ?_, ?_, ?_, by simp⟩ <;> exact preserves_num fun v s hv V => { V with }
  · intro q t l r V e
    have H : ∀ e ∈ (treeTable : List (String × Setter K (TreePar K))),
        Preserves TreePar.Ints e.2 := by
      unfold treeTable
      simp only [List.forall_mem_cons]
      refine ⟨?_, ?_, ?_, ?_, ?_, by simp⟩
      · exact preserves_num fun v s _ V => { V with }
      · exact preserves_num fun v s _ V => { V with }
      · exact preserves_int fun v s hv hi V => { V with nConstants := clamp1_int hi }
      · exact preserves_int fun v s hv hi V => { V with initDepth := clamp1_int hi }
      · exact preserves_int fun v s hv hi V => { V with maxLen := clamp1_int hi }
    obtain ⟨h1, h2, h3⟩ := all_preserves H e ⟨V.nConstants, V.initDepth, V.maxLen⟩
    exact { V with nConstants := h1, initDepth := h2, maxLen := h3 }
  · intro q d l V e
    have H : ∀ e ∈ (graphTable : List (String × Setter K GraphPar)),
        Preserves GraphPar.Ints e.2 := by
      unfold graphTable
      simp only [List.forall_mem_cons]
      refine ⟨?_, ?_, ?_, ?_, by simp⟩
      · exact preserves_int fun v s hv hi V => { V with maxK := clamp1_int hi }
      · exact preserves_int fun v s hv hi V => { V with maxT := clamp1_int hi }
      · exact preserves_int fun v s hv hi V => { V with n := clamp1_int hi }
      · exact preserves_bool fun v s V => { V with }
    obtain ⟨h1, h2, h3⟩ := all_preserves H e ⟨V.maxK, V.maxT, V.n⟩
    exact { V with maxK := h1, maxT := h2, n := h3 }
  · exact fun q l V => { V with }

/-- Any property of parameters is kept if it is kept by setting each of them. -/
theorem param_preserves (g : Rng K R) (sd : Seeds R) {P : SysPar K → Prop}
    (h1 : ∀ p a, 1 ≤ a → IsInt a → P p → P { p with xDim := a })
    (h2 : ∀ p a, 1 ≤ a → IsInt a → P p → P { p with yDim := a })
    (h3 : ∀ p a, 1 ≤ a → IsInt a → P p → P { p with nActions := a })
    (h4 : ∀ p a, 1 ≤ a → a ≤ 1000 → IsInt a → P p → P { p with ompNumThreads := a })
    (h5 : ∀ p a, IsInt a → P p → P { p with randomState := a })
    (h6 : ∀ p s, P p → P { p with popFile := setPopFile s })
    (h7 : ∀ p a, 1 ≤ a → IsInt a → P p → P { p with popSize := a })
    (h8 : ∀ p a, 1 ≤ a → IsInt a → P p → P { p with maxTrials := a })
    (h9 : ∀ p b, P p → P { p with popInit := b })
    (h10 : ∀ p a, 1 ≤ a → IsInt a → P p → P { p with perfTrials := a })
    (h11 : ∀ p c, P p → P { p with lossFunc := c })
    (h12 : ∀ p v, P p → P { p with huberDelta := v })
    (h13 : ∀ p a, 1 ≤ a → IsInt a → P p → P { p with teletransportation := a })
    (h14 : ∀ p v, P p → P { p with gamma := v })
    (h15 : ∀ p v, P p → P { p with pExplore := v })
    (h16 : ∀ p b, P p → P { p with setSubsumption := b })
    (h17 : ∀ p a, 0 ≤ a → IsInt a → P p → P { p with thetaSub := a })
    (h18 : ∀ p v, P p → P { p with alpha := v }) (h19 : ∀ p v, P p → P { p with beta := v })
    (h20 : ∀ p v, P p → P { p with delta := v }) (h21 : ∀ p v, P p → P { p with nu := v })
    (h22 : ∀ p a, 0 ≤ a → IsInt a → P p → P { p with thetaDel := a })
    (h23 : ∀ p v, P p → P { p with initFitness := v })
    (h24 : ∀ p v, P p → P { p with initError := v }) (h25 : ∀ p v, P p → P { p with e0 := v })
    (h26 : ∀ p a, 0 ≤ a → IsInt a → P p → P { p with mProbation := a })
    (h27 : ∀ p b, P p → P { p with stateful := b })
    (h28 : ∀ p b, P p → P { p with compaction := b })
    (h29 : ∀ p l e, importAll eaTable p.ea l = .ok e → P p → P { p with ea := e })
    (h30 : ∀ p j a, actParImport p.xDim p.act j = .ok a → P p → P { p with act := a })
    (h31 : ∀ p j r z, condParImport g p.xDim p.cond j r = .ok z → P p → P { p with cond := z.1 })
    (h32 : ∀ p j q, predParImport p.xDim p.pred j = .ok q → P p → P { p with pred := q }) :
    ∀ e ∈ paramTable g sd, Preserves (OnFst P) e.2 := by
  unfold paramTable
  simp only [List.forall_mem_cons]
  refine ⟨?_, ?_, ?_, ?_, ?_, ?_, ?_, ?_, ?_, ?_, ?_, ?_, ?_, ?_, ?_, ?_, ?_, ?_, ?_, ?_, ?_, ?_,
    ?_, ?_, ?_, ?_, ?_, ?_, ?_, ?_, ?_, ?_, ?_, by simp⟩
  · intro j h s s' e e' V
    cases e
    cases e'
    exact V
  · exact preserves_int (by intro v s hv hi V; exact h1 _ _ (of_decide_eq_true hv) hi V)
  · exact preserves_int (by intro v s hv hi V; exact h2 _ _ (of_decide_eq_true hv) hi V)
  · exact preserves_int (by intro v s hv hi V; exact h3 _ _ (of_decide_eq_true hv) hi V)
  · refine preserves_int fun v s hv hi V => ?_
    rw [Bool.and_eq_true, decide_eq_true_eq, decide_eq_true_eq] at hv
    exact h4 _ _ hv.1 hv.2 hi V
  · exact preserves_int (by intro v s hv hi V; exact h5 _ _ hi V)
  · intro j h s s' e e' V
    cases j <;> simp only [fileSet, reduceCtorEq] at e
    cases e
    cases e'
    exact h6 _ _ V
  · exact preserves_int (by intro v s hv hi V; exact h7 _ _ (of_decide_eq_true hv) hi V)
  · exact preserves_int (by intro v s hv hi V; exact h8 _ _ (of_decide_eq_true hv) hi V)
  · exact preserves_bool (by intro v s V; exact h9 _ _ V)
  · exact preserves_int (by intro v s hv hi V; exact h10 _ _ (of_decide_eq_true hv) hi V)
  · exact preserves_name (by intro t c s hc V; exact h11 _ _ V)
  · exact preserves_num (by intro v s hv V; exact h12 _ _ V)
  · exact preserves_int (by intro v s hv hi V; exact h13 _ _ (of_decide_eq_true hv) hi V)
  · exact preserves_num (by intro v s hv V; exact h14 _ _ V)
  · exact preserves_num (by intro v s hv V; exact h15 _ _ V)
  · exact preserves_bool (by intro v s V; exact h16 _ _ V)
  · exact preserves_int (by intro v s hv hi V; exact h17 _ _ (of_decide_eq_true hv) hi V)
  · exact preserves_num (by intro v s hv V; exact h18 _ _ V)
  · exact preserves_num (by intro v s hv V; exact h19 _ _ V)
  · exact preserves_num (by intro v s hv V; exact h20 _ _ V)
  · exact preserves_num (by intro v s hv V; exact h21 _ _ V)
  · exact preserves_int (by intro v s hv hi V; exact h22 _ _ (of_decide_eq_true hv) hi V)
  · exact preserves_num (by intro v s hv V; exact h23 _ _ V)
  · exact preserves_num (by intro v s hv V; exact h24 _ _ V)
  · exact preserves_num (by intro v s hv V; exact h25 _ _ V)
  · exact preserves_int (by intro v s hv hi V; exact h26 _ _ (of_decide_eq_true hv) hi V)
  · exact preserves_bool (by intro v s V; exact h27 _ _ V)
  · exact preserves_bool (by intro v s V; exact h28 _ _ V)
  · refine preserves_any fun j s s' h V => ?_
    unfold eaStep at h
    cases hj : j.members with
    | error _ => rw [hj] at h; cases h
    | ok l =>
      simp only [hj, bind, Except.bind] at h
      cases e : importAll eaTable s.1.ea l with
      | error e' => rw [e] at h; cases h
      | ok v =>
        rw [e] at h
        cases h
        exact h29 _ _ _ e V
  · refine preserves_any fun j s s' h V => ?_
    unfold actStep at h
    cases e : actParImport s.1.xDim s.1.act j with
    | error e' => simp only [e, bind, Except.bind] at h; cases h
    | ok v =>
      simp only [e, bind, Except.bind] at h
      cases h
      exact h30 _ _ _ e V
  · refine preserves_any fun j s s' h V => ?_
    unfold condStep at h
    cases e : condParImport g s.1.xDim s.1.cond j s.2 with
    | error e' => simp only [e, bind, Except.bind] at h; cases h
    | ok v =>
      simp only [e, bind, Except.bind] at h
      cases h
      exact h31 _ _ _ _ e V
  · refine preserves_any fun j s s' h V => ?_
    unfold predStep at h
    cases e : predParImport s.1.xDim s.1.pred j with
    | error e' => simp only [e, bind, Except.bind] at h; cases h
    | ok v =>
      simp only [e, bind, Except.bind] at h
      cases h
      exact h32 _ _ _ e V

theorem SysPar.Ints.condInts {p : SysPar K} (I : p.Ints) : p.cond.Ints :=
  ⟨I.bits, I.maxK, I.maxT, I.n, I.nConstants, I.initDepth, I.maxLen⟩

theorem ea_ints {e e' : EaFile K} {l} (h : importAll eaTable e l = .ok e')
    (I : IsInt e.lambda) : IsInt e'.lambda := by
  refine (all_preserves (P := EaFile.Ints) ?_ h ⟨I⟩).lambda
  unfold eaTable
  simp only [List.forall_mem_cons]
  refine ⟨?_, ?_, ?_, ?_, ?_, ?_, ?_, ?_, ?_, by simp⟩
  · exact preserves_name fun t c s _ V => { V with }
  · exact preserves_num fun t c _ V => { V with }
  · exact preserves_num fun t c _ V => { V with }
  · exact preserves_int fun t c _ hi V => { V with lambda := hi }
  · exact preserves_num fun t c _ V => { V with }
  · exact preserves_num fun t c _ V => { V with }
  · exact preserves_num fun t c _ V => { V with }
  · exact preserves_bool fun t c V => { V with }
  · exact preserves_bool fun t c V => { V with }

theorem param_ints (g : Rng K R) (sd : Seeds R) :
    ∀ e ∈ paramTable g sd, Preserves (OnFst SysPar.Ints) e.2 := by
  refine param_preserves g sd (fun p a _ hi I => { I with xDim := hi })
    (fun p a _ hi I => { I with yDim := hi }) (fun p a _ hi I => { I with nActions := hi })
    (fun p a _ _ hi I => { I with ompNumThreads := hi })
    (fun p a hi I => { I with randomState := hi }) (fun p _ I => { I with })
    (fun p a _ hi I => { I with popSize := hi }) (fun p a _ hi I => { I with maxTrials := hi })
    (fun p _ I => { I with }) (fun p a _ hi I => { I with perfTrials := hi })
    (fun p _ I => { I with }) (fun p _ I => { I with })
    (fun p a _ hi I => { I with teletransportation := hi }) (fun p _ I => { I with })
    (fun p _ I => { I with }) (fun p _ I => { I with })
    (fun p a _ hi I => { I with thetaSub := hi }) (fun p _ I => { I with })
    (fun p _ I => { I with }) (fun p _ I => { I with }) (fun p _ I => { I with })
    (fun p a _ hi I => { I with thetaDel := hi }) (fun p _ I => { I with })
    (fun p _ I => { I with }) (fun p _ I => { I with })
    (fun p a _ hi I => { I with mProbation := hi }) (fun p _ I => { I with })
    (fun p _ I => { I with }) (fun p l e he I => { I with lambda := ea_ints he I.lambda })
    (fun p j a _ I => { I with }) ?_ (fun p j a _ I => { I with })
  intro p j r z h I
  obtain ⟨h1, h2, h3, h4, h5, h6, h7⟩ := cond_ints h I.condInts
  exact { I with
    bits := h1, maxK := h2, maxT := h3, n := h4, nConstants := h5, initDepth := h6, maxLen := h7 }

theorem import_ints {g : Rng K R} {sd : Seeds R} {j : Json K} {s s'}
    (h : paramImport g sd j s = .ok s') (V : s.1.Ints) : s'.1.Ints :=
  members_all (P := OnFst SysPar.Ints) (param_ints g sd) h V

/-- The number of inputs of trees and graphs cannot be set. -/
theorem cond_inputs {g : Rng K R} {x : Int} {q : CondFile K} {j : Json K} {r : R} {z}
    (h : condParImport g x q j r = .ok z) :
    z.1.targs.nInputs = q.targs.nInputs ∧ z.1.dargs.nInputs = q.dargs.nInputs := by
  refine (fun H : z.1.For q.targs.nInputs q.dargs.nInputs => ⟨H.tree, H.graph⟩) ?_
  refine cond_import (P := CondFile.For q.targs.nInputs q.dargs.nInputs)
    (fun t c q hc V => { V with }) ?_ ?_ ?_ ?_ (fun _ _ V => { V with }) h ⟨rfl, rfl⟩
  · unfold ternTable
    simp only [List.forall_mem_cons]
    refine ⟨?_, ?_, by simp⟩
    · exact preserves_num fun v s hv V => { V with }
    · exact preserves_int fun v s hv _ V => { V with }
  · unfold csrTable
    simp only [List.forall_mem_cons]
    refine ⟨?_, ?_, ?_, ?_, by simp⟩ <;> exact preserves_num fun v s hv V => { V with }
  · intro q' t l r V e
    refine { V with tree := (all_preserves (P := TreePar.For q.targs.nInputs) ?_ e ⟨V.tree⟩).eq }
    unfold treeTable
    simp only [List.forall_mem_cons]
    refine ⟨?_, ?_, ?_, ?_, ?_, by simp⟩
    · exact preserves_num fun v s _ V => { V with }
    · exact preserves_num fun v s _ V => { V with }
    · exact preserves_int fun v s _ _ V => { V with }
    · exact preserves_int fun v s _ _ V => { V with }
    · exact preserves_int fun v s _ _ V => { V with }
  · intro q' d l V e
    refine { V with
      graph := (all_preserves (P := GraphPar.For q.dargs.nInputs) ?_ e ⟨V.graph⟩).eq }
    unfold graphTable
    simp only [List.forall_mem_cons]
    refine ⟨?_, ?_, ?_, ?_, by simp⟩
    · exact preserves_int fun v s _ _ V => { V with }
    · exact preserves_int fun v s _ _ V => { V with }
    · exact preserves_int fun v s _ _ V => { V with }
    · exact preserves_bool fun v s V => { V with }

/-- Trees and graphs for `n` inputs. -/
def ForInputs (n : Int) (p : SysPar K) : Prop :=
  p.cond.targs.nInputs = n ∧ p.cond.dargs.nInputs = n

theorem import_inputs {g : Rng K R} {sd : Seeds R} {j : Json K} {s s'} {n : Int}
    (h : paramImport g sd j s = .ok s') (V : ForInputs n s.1) : ForInputs n s'.1 := by
  refine members_all (P := OnFst (ForInputs n)) ?_ h V
  refine param_preserves g sd (fun p a _ hi I => I)
    (fun p a _ hi I => I) (fun p a _ hi I => I)
    (fun p a _ _ hi I => I)
    (fun p a hi I => I) (fun p _ I => I)
    (fun p a _ hi I => I) (fun p a _ hi I => I)
    (fun p _ I => I) (fun p a _ hi I => I)
    (fun p _ I => I) (fun p _ I => I)
    (fun p a _ hi I => I) (fun p _ I => I)
    (fun p _ I => I) (fun p _ I => I)
    (fun p a _ hi I => I) (fun p _ I => I)
    (fun p _ I => I) (fun p _ I => I) (fun p _ I => I)
    (fun p a _ hi I => I) (fun p _ I => I)
    (fun p _ I => I) (fun p _ I => I)
    (fun p a _ hi I => I) (fun p _ I => I)
    (fun p _ I => I) (fun p l e he I => I)
    (fun p j a _ I => I) ?_ (fun p j a _ I => I)
  intro p j r z h I
  obtain ⟨h1, h2⟩ := cond_inputs h
  exact ⟨h1.trans I.1, h2.trans I.2⟩

/-! ## Defaults and sequences of documents -/

/-- The dimensions of a problem. -/
structure DimsOk (xDim yDim nActions : Int) : Prop where
  x : 1 ≤ xDim ∧ IsInt xDim
  y : 1 ≤ yDim ∧ IsInt yDim
  a : 1 ≤ nActions ∧ IsInt nActions

theorem sysInit_valid (g : Rng K R) (sd : Seeds R) (error : K) (explore : Bool) {x y a : Int}
    (D : DimsOk x y a) : (sysInit g sd error explore x y a).1.Valid := by
  unfold sysInit drawConstants
  constructor
  case ea => constructor <;> norm_num [UnitK]
  case cond =>
    constructor
    case type => exact ⟨_, rfl⟩
    case constants => simp [drawN_len]
    all_goals norm_num [UnitK]
  case pred =>
    constructor
    case type => exact ⟨_, rfl⟩
    all_goals norm_num [UnitK]
  case lossFunc => exact ⟨_, rfl⟩
  case xDim => exact D.x.1
  case yDim => exact D.y.1
  case nActions => exact D.a.1
  all_goals norm_num [UnitK]

theorem sysInit_ints (g : Rng K R) (sd : Seeds R) (error : K) (explore : Bool) {x y a : Int}
    (D : DimsOk x y a) : (sysInit g sd error explore x y a).1.Ints := by
  unfold sysInit drawConstants
  constructor
  case xDim => exact D.x.2
  case yDim => exact D.y.2
  case nActions => exact D.a.2
  all_goals norm_num [IsInt]

theorem docs_keep {g : Rng K R} {sd : Seeds R} {P : SysPar K → Prop}
    (H : ∀ j s s', paramImport g sd j s = .ok s' → P s.1 → P s'.1) {docs : List (Json K)} {s s'}
    (h : pySet g sd docs s = .ok s') (V : P s.1) : P s'.1 := by
  induction docs generalizing s with
  | nil =>
    cases h
    exact V
  | cons j docs ih =>
    unfold pySet at h
    rw [List.foldlM_cons] at h
    cases e : paramImport g sd j s with
    | error f => rw [e] at h; cases h
    | ok t =>
      rw [e] at h
      exact ih h (H _ _ _ e V)

theorem made_valid {g : Rng K R} {sd : Seeds R} {error : K} {explore : Bool} {x y a : Int}
    (D : DimsOk x y a) {docs : List (Json K)} {s}
    (h : sysMade g sd error explore x y a docs = .ok s) : s.1.Valid ∧ s.1.Ints :=
  ⟨docs_keep (fun _ _ _ e V => import_valid e V) h (sysInit_valid g sd error explore D),
   docs_keep (fun _ _ _ e V => import_ints e V) h (sysInit_ints g sd error explore D)⟩

theorem made_inputs {g : Rng K R} {sd : Seeds R} {error : K} {explore : Bool} {x y a : Int}
    {docs : List (Json K)} {s} (h : sysMade g sd error explore x y a docs = .ok s) :
    ForInputs (clamp1 x) s.1 :=
  docs_keep (fun _ _ _ e V => import_inputs e V) h ⟨rfl, rfl⟩

/-! ## Refusals -/

/-- A value the setter does not take. -/
def Takes {S : Type} (k : JKind) (f : Setter K S) : Prop := ∀ j, (f j).isSome = true → k.fits j

theorem takes_num {S : Type} {ok : K → Bool} {put : K → S → S} :
    Takes .number (numSet ok put) := by
  intro j h
  cases j <;> simp only [numSet, Option.isSome_none, Bool.false_eq_true] at h
  exact ⟨_, rfl⟩

theorem takes_int {S : Type} {ok : Int → Bool} {put : Int → S → S} :
    Takes (K := K) .number (intSet ok put) := by
  intro j h
  cases j <;> simp only [intSet, Option.isSome_none, Bool.false_eq_true] at h
  exact ⟨_, rfl⟩

theorem takes_bool {S : Type} {put : Bool → S → S} : Takes (K := K) .truth (boolSet put) := by
  intro j h
  cases j <;> simp only [boolSet, Option.isSome_none, Bool.false_eq_true] at h
  exact ⟨_, rfl⟩

theorem takes_name {S : Type} {codes : List (List Char × Nat × Int)} {put : Int → S → S} :
    Takes (K := K) .text (nameSet codes put) := by
  intro j h
  cases j <;> simp only [nameSet, Option.isSome_none, Bool.false_eq_true] at h
  exact ⟨_, rfl⟩

theorem takes_file : Takes (K := K) .text (fileSet (R := R)) := by
  intro j h
  cases j <;> simp only [fileSet, Option.isSome_none, Bool.false_eq_true] at h
  exact ⟨_, rfl⟩

theorem takes_any {S : Type} {f : Setter K S} : Takes .any f := fun _ _ => trivial

theorem table_kinds (g : Rng K R) (sd : Seeds R) :
    List.Forall₂ (fun (e : String × Setter K (SysPar K × R)) (k : String × JKind) =>
      e.1 = k.1 ∧ Takes k.2 e.2) (paramTable g sd) paramKinds := by
  unfold paramTable paramKinds
  repeat' first
    | exact .nil
    | refine .cons ⟨rfl, ?_⟩ ?_
    | exact takes_num
    | exact takes_int
    | exact takes_bool
    | exact takes_name
    | exact takes_file
    | exact takes_any

theorem lookup_mem {α : Type} {l : List (String × α)} {k : String} {v : α}
    (h : l.lookup k = some v) : (k, v) ∈ l := by
  induction l with
  | nil => cases h
  | cons e l ih =>
    rw [List.lookup_cons] at h
    by_cases hk : (k == e.1) = true
    · rw [hk] at h
      simp only [Option.some.injEq] at h
      rw [beq_iff_eq] at hk
      subst hk
      subst h
      exact List.mem_cons_self
    · rw [Bool.not_eq_true] at hk
      rw [hk] at h
      exact List.mem_cons_of_mem _ (ih h)

theorem forall2_mem {α β : Type} {P : α → β → Prop} {l : List α} {m : List β}
    (h : List.Forall₂ P l m) {a : α} (ha : a ∈ l) : ∃ b ∈ m, P a b := by
  induction h with
  | nil => cases ha
  | cons h1 _ ih =>
    rcases List.mem_cons.1 ha with rfl | ha
    · exact ⟨_, List.mem_cons_self, h1⟩
    · obtain ⟨b, hb, e⟩ := ih ha
      exact ⟨b, List.mem_cons_of_mem _ hb, e⟩

theorem member_kind {g : Rng K R} {sd : Seeds R} {s s'} {m : String × Json K}
    (h : importMember (paramTable g sd) s m = .ok s') :
    ∃ k, (m.1, k) ∈ paramKinds ∧ k.fits m.2 := by
  unfold importMember at h
  cases e : (paramTable g sd).lookup m.1 with
  | none => rw [e] at h; cases h
  | some f =>
    rw [e] at h
    dsimp only at h
    cases e' : f m.2 with
    | none => rw [e'] at h; cases h
    | some u =>
      obtain ⟨⟨n, k⟩, hk, hn, ht⟩ := forall2_mem (table_kinds g sd) (lookup_mem e)
      dsimp only at hn ht
      subst hn
      exact ⟨k, hk, ht _ (by rw [e']; rfl)⟩

theorem all_kinds {g : Rng K R} {sd : Seeds R} {l : List (String × Json K)} {s s'}
    (h : importAll (paramTable g sd) s l = .ok s') :
    ∀ m ∈ l, ∃ k, (m.1, k) ∈ paramKinds ∧ k.fits m.2 := by
  induction l generalizing s with
  | nil => intro m hm; cases hm
  | cons a l ih =>
    unfold importAll at h
    rw [List.foldlM_cons] at h
    cases e : importMember (paramTable g sd) s a with
    | error f => rw [e] at h; cases h
    | ok t =>
      rw [e] at h
      intro m hm
      rcases List.mem_cons.1 hm with rfl | hm
      · exact member_kind e
      · exact ih h m hm

/-! ## Reports without networks -/

theorem nonets_export {g : Rng K R} {p : SysPar K} (V : p.Valid) (F : FileOk p.popFile)
    (N : p.NoNets) : ∃ j, ∀ r : R, paramExport g p r = .ok ((j, p), r) := by
  obtain ⟨ls, hls⟩ := V.lossFunc
  obtain ⟨cn, hcn⟩ := V.cond.type
  obtain ⟨pn, hpn⟩ := V.pred.type
  have he : ∃ t, nameOf eaNames p.ea.selectType = .ok t := by
    rcases V.ea.selectType with h | h <;> rw [h] <;> exact ⟨_, rfl⟩
  obtain ⟨en, hen⟩ := he
  have hs : ∃ l, scalarMembers p = .ok l := by
    unfold scalarMembers cstring
    rw [if_pos F.1, hls]
    exact ⟨_, rfl⟩
  obtain ⟨l, hl⟩ := hs
  have hea : ∃ e, eaExport p.ea = .ok e := by
    unfold eaExport
    rw [hen]
    exact ⟨_, rfl⟩
  obtain ⟨e, hea⟩ := hea
  have ha : ∃ a, ∀ r : R, actionMembers g p.reportsAction p.act r = .ok ((a, p.act), r) := by
    unfold actionMembers
    by_cases h : p.reportsAction = true
    · have h1 := N.act h
      have h0 : p.act.type = 0 := V.actType.resolve_right h1
      have hn : ∃ t, nameOf actNames p.act.type = .ok t := by rw [h0]; exact ⟨_, rfl⟩
      obtain ⟨t, ht⟩ := hn
      simp only [h, if_true]
      refine ⟨[("action", .obj [("type", .str (String.ofList t))])], fun r => ?_⟩
      unfold actParExport
      rw [ht]
      simp only [bind, Except.bind, if_neg h1]
    · simp only [if_neg h]
      exact ⟨_, fun r => rfl⟩
  obtain ⟨a, ha⟩ := ha
  have hc : ∃ c, ∀ r : R, condParExport g p.cond r = .ok ((c, p.cond), r) := by
    unfold condParExport
    rw [hcn]
    simp only [bind, Except.bind]
    have h' : ¬(p.cond.type = 4 ∨ p.cond.type = 12 ∨ p.cond.type = 13) := by
      rintro (h | h | h)
      · exact N.cond.1 h
      · exact N.cond.2.1 h
      · exact N.cond.2.2 h
    simp only [if_neg h']
    split_ifs <;> exact ⟨_, fun r => rfl⟩
  obtain ⟨c, hc⟩ := hc
  have hq : ∃ c, ∀ r : R, predParExport g p.pred r = .ok ((c, p.pred), r) := by
    unfold predParExport
    rw [hpn]
    simp only [bind, Except.bind]
    simp only [if_neg N.pred]
    split_ifs <;> exact ⟨_, fun r => rfl⟩
  obtain ⟨q, hq⟩ := hq
  refine ⟨.obj (l ++ [("ea", e)] ++ a ++ [("condition", c), ("prediction", q)]), fun r => ?_⟩
  unfold paramExport
  rw [hl, hea]
  simp only [bind, Except.bind, ha, hc, hq]

/-! ## Reports again -/

theorem placed_placed (d : Option Dim) (a : LArg K) : (a.placed d).placed d = a.placed d := by
  cases d with
  | none => rfl
  | some d =>
    show (a.behind d).behind d = a.behind d
    unfold LArg.behind
    dsimp only
    split_ifs <;> rfl

theorem fillLoop_again : ∀ {as : List (LArg K)} {d : Option Dim} {z},
    fillLoop d as = .ok z → fillLoop d z.2 = .ok z
  | [], d, z, h => by
    rw [fillLoop] at h
    cases h
    rfl
  | a :: as, d, z, h => by
    rw [fillLoop] at h
    cases hs : (a.placed d).sizes with
    | error e => rw [hs] at h; cases h
    | ok y =>
      rw [hs] at h
      dsimp only at h
      cases hf : fillLoop (some y.2) as with
      | error e => rw [hf] at h; cases h
      | ok w =>
        rw [hf] at h
        cases h
        dsimp only
        rw [fillLoop, placed_placed, hs]
        dsimp only
        rw [fillLoop_again hf]

theorem fillNet_again {as bs : List (LArg K)} (h : fillNet as = .ok bs) : fillNet bs = .ok bs := by
  unfold fillNet at h ⊢
  cases hf : fillLoop none as with
  | error e => rw [hf] at h; cases h
  | ok z =>
    rw [hf] at h
    dsimp only at h
    by_cases he : endsOk z.1 = true
    · rw [if_pos he] at h
      cases h
      rw [fillLoop_again hf]
      dsimp only
      rw [if_pos he]
    · rw [if_neg he] at h
      cases h

theorem exportLayers_again {g : Rng K R} (O : g.Open) {as : List (LArg K)} {r : R} {z}
    (h : exportLayers g as r = .ok z) (s : R) : ∃ s', exportLayers g z.1.2 s = .ok (z.1, s') := by
  obtain ⟨bs, ms, hf, hm, e⟩ := exportLayers_fill O as r h
  obtain ⟨s', hs⟩ := exportLayers_of O s (fillNet_again hf) hm
  rw [e]
  exact ⟨s', hs⟩

theorem act_again {g : Rng K R} (O : g.Open) {a : ActFile K} {r : R} {z}
    (h : actParExport g a r = .ok z) (s : R) :
    z.1.2.type = a.type ∧ ∃ s', actParExport g z.1.2 s = .ok (z.1, s') := by
  unfold actParExport at h ⊢
  cases hn : nameOf actNames a.type with
  | error e => rw [hn] at h; cases h
  | ok t =>
    rw [hn] at h
    simp only [bind, Except.bind] at h
    by_cases h1 : a.type = 1
    · rw [if_pos h1] at h
      cases he : exportLayers g a.largs r with
      | error e => rw [he] at h; cases h
      | ok y =>
        rw [he] at h
        cases h
        obtain ⟨s', hs⟩ := exportLayers_again O he s
        dsimp only at hs ⊢
        rw [hn]
        simp only [bind, Except.bind, if_pos h1, hs]
        exact ⟨trivial, s', rfl⟩
    · rw [if_neg h1] at h
      cases h
      dsimp only
      rw [hn]
      simp only [bind, Except.bind, if_neg h1]
      exact ⟨trivial, s, rfl⟩

theorem actions_again {g : Rng K R} (O : g.Open) {b : Bool} {a : ActFile K} {r : R} {z}
    (h : actionMembers g b a r = .ok z) (s : R) :
    ∃ s', actionMembers g b z.1.2 s = .ok (z.1, s') := by
  unfold actionMembers at h ⊢
  cases b with
  | false =>
    cases h
    exact ⟨s, rfl⟩
  | true =>
    simp only [if_true, bind, Except.bind] at h ⊢
    cases he : actParExport g a r with
    | error e => rw [he] at h; cases h
    | ok y =>
      rw [he] at h
      cases h
      obtain ⟨-, s', hs⟩ := act_again O he s
      dsimp only
      rw [hs]
      exact ⟨s', rfl⟩

theorem cond_again {g : Rng K R} (O : g.Open) {c : CondFile K} {r : R} {z}
    (h : condParExport g c r = .ok z) (s : R) :
    z.1.2.type = c.type ∧ ∃ s', condParExport g z.1.2 s = .ok (z.1, s') := by
  unfold condParExport at h ⊢
  cases hn : nameOf condNames c.type with
  | error e => rw [hn] at h; cases h
  | ok t =>
    rw [hn] at h
    simp only [bind, Except.bind] at h
    by_cases h1 : c.type = 4 ∨ c.type = 12 ∨ c.type = 13
    · have a1 : ¬c.type = 7 := by omega
      have a2 : ¬(c.type = 3 ∨ c.type = 1 ∨ c.type = 2) := by omega
      have a3 : ¬c.type = 5 := by omega
      have a4 : ¬(c.type = 6 ∨ c.type = 11) := by omega
      rw [if_neg a1, if_neg a2, if_neg a3, if_neg a4, if_pos h1] at h
      cases he : exportLayers g c.largs r with
      | error e => rw [he] at h; cases h
      | ok y =>
        rw [he] at h
        cases h
        obtain ⟨s', hs⟩ := exportLayers_again O he s
        dsimp only at hs ⊢
        rw [hn]
        simp only [bind, Except.bind, if_neg a1, if_neg a2, if_neg a3, if_neg a4, if_pos h1, hs]
        exact ⟨trivial, s', rfl⟩
    · rw [if_neg h1] at h
      have hz : z.1.2 = c := by
        split_ifs at h <;> (cases h; rfl)
      rw [hz, hn]
      refine ⟨rfl, s, ?_⟩
      simp only [bind, Except.bind, if_neg h1]
      split_ifs at h ⊢ <;> (cases h; rfl)

theorem pred_again {g : Rng K R} (O : g.Open) {c : PredFile K} {r : R} {z}
    (h : predParExport g c r = .ok z) (s : R) : ∃ s', predParExport g z.1.2 s = .ok (z.1, s') := by
  unfold predParExport at h ⊢
  cases hn : nameOf predNames c.type with
  | error e => rw [hn] at h; cases h
  | ok t =>
    rw [hn] at h
    simp only [bind, Except.bind] at h
    by_cases h1 : c.type = 5
    · have a1 : ¬(c.type = 1 ∨ c.type = 2) := by omega
      have a2 : ¬(c.type = 3 ∨ c.type = 4) := by omega
      rw [if_neg a1, if_neg a2, if_pos h1] at h
      cases he : exportLayers g c.largs r with
      | error e => rw [he] at h; cases h
      | ok y =>
        rw [he] at h
        cases h
        obtain ⟨s', hs⟩ := exportLayers_again O he s
        dsimp only at hs ⊢
        rw [hn]
        simp only [bind, Except.bind, if_neg a1, if_neg a2, if_pos h1, hs]
        exact ⟨s', rfl⟩
    · rw [if_neg h1] at h
      have hz : z.1.2 = c := by
        split_ifs at h <;> (cases h; rfl)
      rw [hz, hn]
      refine ⟨s, ?_⟩
      simp only [bind, Except.bind, if_neg h1]
      split_ifs at h ⊢ <;> (cases h; rfl)

theorem export_again {g : Rng K R} (O : g.Open) {p : SysPar K} {r : R} {z}
    (h : paramExport g p r = .ok z) (s : R) : ∃ s', paramExport g z.1.2 s = .ok (z.1, s') := by
  unfold paramExport at h
  cases hl : scalarMembers p with
  | error e => rw [hl] at h; cases h
  | ok l =>
  rw [hl] at h
  simp only [bind, Except.bind] at h
  cases he : eaExport p.ea with
  | error e => rw [he] at h; cases h
  | ok e =>
  rw [he] at h
  simp only at h
  cases ha : actionMembers g p.reportsAction p.act r with
  | error e => rw [ha] at h; cases h
  | ok a =>
  rw [ha] at h
  dsimp only at h
  cases hc : condParExport g p.cond a.2 with
  | error e => rw [hc] at h; cases h
  | ok c =>
  rw [hc] at h
  dsimp only at h
  cases hq : predParExport g p.pred c.2 with
  | error e => rw [hq] at h; cases h
  | ok q =>
  rw [hq] at h
  cases h
  obtain ⟨s1, h1⟩ := actions_again O ha s
  obtain ⟨ht, s2, h2⟩ := cond_again O hc s1
  obtain ⟨s3, h3⟩ := pred_again O hq s2
  unfold paramExport
  have e1 : scalarMembers { p with act := a.1.2, cond := c.1.2, pred := q.1.2 } = .ok l := hl
  have e2 : ({ p with act := a.1.2, cond := c.1.2, pred := q.1.2 } : SysPar K).reportsAction =
      p.reportsAction := by
    unfold SysPar.reportsAction
    dsimp only
    rw [ht]
  dsimp only
  rw [e1, he, e2]
  simp only [bind, Except.bind]
  rw [h1]
  dsimp only
  rw [h2]
  dsimp only
  rw [h3]
  exact ⟨s3, rfl⟩

end
end Xcsf
