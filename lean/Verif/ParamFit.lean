import Verif.ParamValid
import Verif.PropsRep

/-!
# Helpers for C84 and C85
-/

set_option linter.unusedSectionVars false

namespace Xcsf

section
variable {K R : Type} [Field K] [LinearOrder K] [IsStrictOrderedRing K] [FloorRing K]

/-! ## Trees and graphs read their own inputs only -/

theorem GpExpr.code_lt {nc ni : Nat} : ∀ e : GpExpr nc ni, ∀ v ∈ e.code, v < 4 + (nc : Int) + ni
  | .func f l r, v, h => by
    rw [GpExpr.code] at h
    rcases List.mem_cons.1 h with rfl | h
    · have := f.2
      omega
    · rcases List.mem_append.1 h with h | h
      · exact GpExpr.code_lt l v h
      · exact GpExpr.code_lt r v h
  | .const i, v, h => by
    rw [GpExpr.code] at h
    have := i.2
    have := List.mem_singleton.1 h
    omega
  | .input i, v, h => by
    rw [GpExpr.code] at h
    have := i.2
    have := List.mem_singleton.1 h
    omega

theorem gpEvalGo_congr {a : GpArgs K} {n : Nat} {x x' : List K} {tree : List Int}
    (ht : ∀ v ∈ tree, v < 4 + (a.constants.length : Int) + n) (hx : ∀ k < n, x[k]? = x'[k]?) :
    ∀ fuel pos, gpEvalGo a x tree fuel pos = gpEvalGo a x' tree fuel pos
  | 0, _ => rfl
  | fuel + 1, pos => by
    unfold gpEvalGo
    cases h : tree[pos]? with
    | none => rfl
    | some node =>
      have hn := ht node (List.mem_of_getElem? h)
      dsimp only
      by_cases h1 : gpFuncs + (a.constants.length : Int) ≤ node
      · rw [if_pos h1, if_pos h1]
        have e : gpFuncs = 4 := rfl
        rw [hx _ (by omega)]
      · rw [if_neg h1, if_neg h1]
        simp only [gpEvalGo_congr ht hx fuel]

theorem gpMatch_congr {a : GpArgs K} {n : Nat} {x x' : List K} {t : GpTree K}
    (w : t.Codes a.constants.length n) (hx : ∀ k < n, x[k]? = x'[k]?) :
    gpMatch a x t = gpMatch a x' t := by
  obtain ⟨e, he⟩ := w
  unfold gpMatch gpEval
  dsimp only
  rw [gpEvalGo_congr (n := n) (fun v h => e.code_lt v (he ▸ h)) hx]

theorem gp_contains_iff {a : GpArgs K} {n : Nat} {x : List K} (h : n ≤ x.length) {t : GpTree K}
    (w : t.Codes a.constants.length n) :
    (∃ e : GpExpr a.constants.length x.length,
      t.tree = e.code ∧ 1 / 2 < e.value a.constants.get x.get) ↔
      ∃ t', gpMatch a x t = .ok (true, t') := by
  constructor
  · rintro ⟨e, he, hv⟩
    rw [C33_match he, decide_eq_true hv]
    exact ⟨_, rfl⟩
  · rintro ⟨t', ht⟩
    obtain ⟨e, he⟩ := w.widen h
    refine ⟨e, he, ?_⟩
    rw [C33_match he] at ht
    simp only [Except.ok.injEq, Prod.mk.injEq] at ht
    exact of_decide_eq_true ht.1

theorem statesAfter_inputs {d : Graph K} {x x' : Nat → K} {s : Nat → K}
    (h : ∀ k < d.nInputs, x k = x' k) : ∀ t i, statesAfter d x s t i = statesAfter d x' s t i
  | 0, _ => rfl
  | t + 1, i => by
    have hw : ∀ c, wire d.nInputs x (statesAfter d x s t) c =
        wire d.nInputs x' (statesAfter d x' s t) c := by
      intro c
      unfold wire
      by_cases hc : c < d.nInputs
      · simp only [if_pos hc, h c hc]
      · simp only [if_neg hc, statesAfter_inputs h t]
    unfold statesAfter
    simp only [hw]

theorem graph_congr {a : DgpArgs} {d : Graph K} (W : Wired a d) {x x' : List K}
    (hx : ∀ k < a.nInputs, x[k]? = x'[k]?) :
    1 / 2 < statesAfter d (fun j => x.getD j 0) (startStates d true) d.t.toNat 0 ↔
      1 / 2 < statesAfter d (fun j => x'.getD j 0) (startStates d true) d.t.toNat 0 := by
  rw [statesAfter_inputs (x' := fun j => x'.getD j 0)]
  intro k hk
  rw [W.nInputs] at hk
  rw [List.getD_eq_getElem?_getD, List.getD_eq_getElem?_getD, hx k hk]

theorem contains_congr {S : Setup K} {c : CondType} (L : c.Legal S) {b : c.Body K} (W : c.W S b)
    {n : Nat} (h : (c = .gp ∧ S.gp.nInputs = n) ∨ (c = .dgp ∧ S.dgp.nInputs = n)) {x x' : List K}
    (l : x.length = S.xDim) (l' : x'.length = S.xDim) (hx : ∀ k < n, x[k]? = x'[k]?) :
    c.Contains S b x ↔ c.Contains S b x' := by
  rcases h with ⟨rfl, rfl⟩ | ⟨rfl, rfl⟩
  · have h1 := gp_contains_iff (a := S.gp) (x := x) (n := S.gp.nInputs) (L.2.trans_eq l.symm) W
    have h2 := gp_contains_iff (a := S.gp) (x := x') (n := S.gp.nInputs) (L.2.trans_eq l'.symm) W
    rw [gpMatch_congr W hx] at h1
    exact h1.trans h2.symm
  · exact graph_congr (d := b) W hx

/-! ## Sizes of networks -/

/-- The number of inputs of the first layer and of outputs of the last. -/
def netEnds (ls : List (GLay K)) : Option (Int × Int) :=
  match ls.head?, ls.getLast? with
  | some a, some b => some (a.nIn, b.dim.n)
  | _, _ => none

theorem createNet_sizes {g : Rng K R} (O : g.Open) {as : List (LArg K)} {r : R} {z}
    (h : createNet g as r = .ok z) : fillLoop none as = .ok (z.1.1.map GLay.sizes, z.1.2) := by
  unfold createNet at h
  have H := createLoop_fill O as none r
  cases hf : fillLoop none as with
  | error e =>
    rw [hf] at H
    obtain ⟨e, he⟩ := H
    rw [he] at h
    cases h
  | ok y =>
    rw [hf] at H
    obtain ⟨ls, r1, he, hl⟩ := H
    rw [he] at h
    simp only [bind, Except.bind] at h
    have hz : z = ((ls, y.2), r1) := by
      split at h
      · split_ifs at h
        cases h
        rfl
      · cases h
    rw [hz, hl]

theorem netEnds_sizes {ls : List (GLay K)} {zs : List (Int × Dim)} (h : ls.map GLay.sizes = zs) :
    netEnds ls = match zs.head?, zs.getLast? with
      | some a, some b => some (a.1, b.2.n)
      | _, _ => none := by
  subst h
  unfold netEnds
  rw [List.head?_map, List.getLast?_map]
  cases ls.head? <;> cases ls.getLast? <;> rfl

/-- A layer of which only `x` is known. -/
structure LArg.For (x : Int) (a : LArg K) : Prop where
  nInputs : a.nInputs = x

theorem layerMember_for {x : Int} {a b : LArg K} {m} (h : layerMember a m = .ok b)
    (A : a.For x) : b.For x := by
  unfold layerMember at h
  split_ifs at h
  · refine member_preserves (P := LArg.For x) ?_ h A
    intro e he
    rw [List.mem_singleton.1 he]
    exact preserves_name fun _ _ _ _ V => { V with }
  · refine member_preserves (P := LArg.For x) ?_ h A
    unfold layerTable0
    simp only [List.forall_mem_cons]
    repeat' first
      | refine ⟨?_, ?_⟩
      | exact preserves_num fun _ _ _ V => { V with }
      | exact preserves_int fun _ _ _ _ V => { V with }
      | exact preserves_bool fun _ _ V => { V with }
      | exact preserves_name fun _ _ _ _ V => { V with }
      | simp

theorem importLayer_for {x : Int} {j : Json K} {a : LArg K} (h : importLayer x j = .ok a) :
    a.For x := by
  unfold importLayer at h
  cases hj : j.members with
  | error e => rw [hj] at h; cases h
  | ok l =>
    rw [hj] at h
    simp only [bind, Except.bind] at h
    have H : ∀ (l : List (String × Json K)) (a b : LArg K), a.For x →
        l.foldlM layerMember a = .ok b → b.For x := by
      intro l
      induction l with
      | nil =>
        intro a b A h
        cases h
        exact A
      | cons m l ih =>
        intro a b A h
        rw [List.foldlM_cons] at h
        cases hm : layerMember a m with
        | error e => rw [hm] at h; cases h
        | ok c =>
          rw [hm] at h
          exact ih c b (layerMember_for hm A) h
    exact H l _ a ⟨rfl⟩ h

theorem validateLayer_for {x : Int} {a b : LArg K} (h : validateLayer a = .ok b) (A : a.For x) :
    b.For x ∧ b.type = a.type := by
  unfold validateLayer at h
  split_ifs at h
  · cases h
    exact ⟨{ A with }, rfl⟩
  · cases h
    exact ⟨A, rfl⟩

theorem validateInputs_for {x : Int} (hx : 1 ≤ x) {a b : LArg K} (h : validateInputs a = .ok b)
    (A : a.For x) : b.For x := by
  have hn : ¬a.nInputs < 1 := by rw [A.nInputs]; omega
  unfold validateInputs at h
  simp only [if_neg hn, bind, Except.bind] at h
  by_cases h1 : a.type = 1 ∨ a.type = 2
  · rw [if_pos h1] at h
    by_cases h2 : a.channels < 1 ∨ a.height < 1 ∨ a.width < 1
    · rw [if_pos h2] at h
      dsimp only at h
      split_ifs at h <;> (cases h; exact { A with })
    · rw [if_neg h2] at h
      dsimp only at h
      split_ifs at h <;> (cases h; exact A)
  · rw [if_neg h1] at h
    dsimp only at h
    split_ifs at h <;> (cases h; exact A)

theorem importLayers_for {x : Int} (hx : 1 ≤ x) {j : Json K} {as : List (LArg K)}
    (h : importLayers x j = .ok as) : ∃ b bs, as = b :: bs ∧ b.nInputs = x := by
  unfold importLayers at h
  cases hj : j.children.mapM (importLayer x) with
  | error e => rw [hj] at h; cases h
  | ok l =>
    rw [hj] at h
    simp only [bind, Except.bind] at h
    cases l with
    | nil => rw [validateLayers] at h; cases h
    | cons a l =>
      have ha : a.For x := by
        cases hc : j.children with
        | nil => rw [hc] at hj; cases hj
        | cons c cs =>
          rw [hc, List.mapM_cons] at hj
          cases hi : importLayer x c with
          | error e => rw [hi] at hj; cases hj
          | ok a' =>
            rw [hi] at hj
            simp only [bind, Except.bind] at hj
            cases hi' : cs.mapM (importLayer x) with
            | error e => rw [hi'] at hj; cases hj
            | ok l' =>
              rw [hi'] at hj
              cases hj
              exact importLayer_for hi
      rw [validateLayers] at h
      cases hv : validateInputs a with
      | error e => rw [hv] at h; cases h
      | ok a' =>
        rw [hv] at h
        simp only [bind, Except.bind, List.mapM_cons] at h
        cases hw : validateLayer a' with
        | error e => rw [hw] at h; cases h
        | ok a'' =>
          rw [hw] at h
          simp only at h
          cases hl : l.mapM validateLayer with
          | error e => rw [hl] at h; cases h
          | ok l' =>
            rw [hl] at h
            cases h
            exact ⟨a'', l', rfl, (validateLayer_for hw (validateInputs_for hx hv ha)).1.nInputs⟩

theorem sizes_inputs {a : LArg K} (hi : receivesImages a.type = false) (h1 : 0 ≤ a.nInputs) {z}
    (h : a.sizes = .ok z) : z.1 = a.nInputs := by
  unfold LArg.sizes LArg.gargs at h
  unfold receivesImages at hi
  rw [decide_eq_false_iff_not] at hi
  have e : ((a.cargs.nInputs : Nat) : Int) = a.nInputs := Int.toNat_of_nonneg h1
  by_cases t0 : a.type = 0
  · simp only [if_pos t0, shape] at h
    split at h <;> cases h
    exact e
  by_cases t1 : a.type = 1
  · simp only [if_neg t0, if_pos t1, shape] at h
    split at h <;> cases h
    rfl
  by_cases t2 : a.type = 2
  · simp only [if_neg t0, if_neg t1, if_pos t2, shape] at h
    split at h <;> cases h
    rfl
  by_cases t3 : a.type = 3
  · simp only [if_neg t0, if_neg t1, if_neg t2, if_pos t3, shape] at h
    split at h <;> cases h
    rfl
  by_cases t4 : a.type = 4
  · simp only [if_neg t0, if_neg t1, if_neg t2, if_neg t3, if_pos t4, shape] at h
    split at h
    · cases h
    · split at h <;> cases h
      exact e
  by_cases t5 : a.type = 5
  · simp only [if_neg t0, if_neg t1, if_neg t2, if_neg t3, if_neg t4, if_pos t5, shape] at h
    split at h
    · cases h
    · split at h <;> cases h
      exact e
  have t6 : ¬a.type = 6 := fun h => hi (by omega)
  have t7 : ¬a.type = 7 := fun h => hi (by omega)
  have t8 : ¬a.type = 8 := fun h => hi (by omega)
  have t9 : ¬a.type = 9 := fun h => hi (by omega)
  simp only [if_neg t0, if_neg t1, if_neg t2, if_neg t3, if_neg t4, if_neg t5, if_neg t6, if_neg t7,
    if_neg t8, if_neg t9, reduceCtorEq] at h

theorem made_one (g : Rng K R) (sd : Seeds R) (error : K) (explore : Bool) (x y a : Int)
    (j : Json K) : sysMade g sd error explore x y a [j] =
      paramImport g sd j (sysInit g sd error explore x y a) := by
  unfold sysMade pySet
  rw [List.foldlM_cons]
  cases paramImport g sd j (sysInit g sd error explore x y a) <;> rfl

/-! ## Two clocks -/

/-- The parameters without the constants of trees. -/
def SysPar.noConst (p : SysPar K) : SysPar K :=
  { p with cond := { p.cond with targs := { p.cond.targs with constants := [] } } }

/-- States that agree but for the constants of trees and, unless `b`, the random numbers; with `c`
the constants agree too. -/
structure Alike (b c : Bool) (s s' : SysPar K × R) : Prop where
  par : s.1.noConst = s'.1.noConst
  rng : b = true → s.2 = s'.2
  const : c = true → s.1.cond.targs.constants = s'.1.cond.targs.constants

/-- Outcomes that agree. -/
def AlikeR (b c : Bool) (z z' : Res (SysPar K × R)) : Prop :=
  (∃ f, z = .error f ∧ z' = .error f) ∨
    ∃ s s', z = .ok s ∧ z' = .ok s' ∧ Alike b c s s'

/-- Setters that keep states alike. -/
def Twin (b c b' c' : Bool) (j : Json K) (f f' : Setter K (SysPar K × R)) : Prop :=
  (f j = none ∧ f' j = none) ∨ ∃ h h', f j = some h ∧ f' j = some h' ∧
    ∀ s s', Alike b c s s' → AlikeR b' c' (h s) (h' s')

/-- A setter that does not touch constants and random numbers. -/
structure Calm {α : Type} (put : α → SysPar K × R → SysPar K × R) : Prop where
  par : ∀ v s, (put v s).1.noConst = (put v (s.1.noConst, s.2)).1
  const : ∀ v s, (put v s).1.cond.targs.constants = s.1.cond.targs.constants
  rng : ∀ v s, (put v s).2 = s.2
  free : ∀ v p r r', (put v (p, r)).1 = (put v (p, r')).1

theorem Calm.alike {α : Type} {put : α → SysPar K × R → SysPar K × R} (H : Calm put) {b c : Bool}
    (v : α) {s s' : SysPar K × R} (A : Alike b c s s') : Alike b c (put v s) (put v s') where
  par := by rw [H.par, H.par, A.par]; exact H.free ..
  rng := fun h => by rw [H.rng, H.rng, A.rng h]
  const := fun h => by rw [H.const, H.const, A.const h]

theorem twin_num {b c : Bool} {j : Json K} {ok : K → Bool}
    {put : K → SysPar K × R → SysPar K × R} (H : Calm put) :
    Twin b c b c j (numSet ok put) (numSet ok put) := by
  cases j
  case num v =>
    refine .inr ⟨_, _, rfl, rfl, fun s s' A => ?_⟩
    by_cases hv : ok v = true
    · simp only [if_pos hv]
      exact .inr ⟨_, _, rfl, rfl, H.alike v A⟩
    · simp only [if_neg hv]
      exact .inl ⟨_, rfl, rfl⟩
  all_goals exact .inl ⟨rfl, rfl⟩

theorem twin_int {b c : Bool} {j : Json K} {ok : Int → Bool}
    {put : Int → SysPar K × R → SysPar K × R} (H : Calm put) :
    Twin b c b c j (intSet ok put) (intSet ok put) := by
  cases j
  case num v =>
    refine .inr ⟨_, _, rfl, rfl, fun s s' A => ?_⟩
    by_cases hv : ok (jsonInt v) = true
    · simp only [if_pos hv]
      exact .inr ⟨_, _, rfl, rfl, H.alike _ A⟩
    · simp only [if_neg hv]
      exact .inl ⟨_, rfl, rfl⟩
  all_goals exact .inl ⟨rfl, rfl⟩

theorem twin_bool {b c : Bool} {j : Json K} {put : Bool → SysPar K × R → SysPar K × R}
    (H : Calm put) : Twin b c b c j (boolSet put) (boolSet put) := by
  cases j
  case bool v => exact .inr ⟨_, _, rfl, rfl, fun s s' A => .inr ⟨_, _, rfl, rfl, H.alike v A⟩⟩
  all_goals exact .inl ⟨rfl, rfl⟩

theorem twin_name {b c : Bool} {j : Json K} {codes : List (List Char × Nat × Int)}
    {put : Int → SysPar K × R → SysPar K × R} (H : Calm put) :
    Twin b c b c j (nameSet codes put) (nameSet codes put) := by
  cases j
  case str v =>
    refine .inr ⟨_, _, rfl, rfl, fun s s' A => ?_⟩
    cases codeOf codes v.toList with
    | none => exact .inl ⟨_, rfl, rfl⟩
    | some c => exact .inr ⟨_, _, rfl, rfl, H.alike c A⟩
  all_goals exact .inl ⟨rfl, rfl⟩

theorem twin_file {b c : Bool} {j : Json K} :
    Twin b c b c j (fileSet (R := R)) (fileSet (R := R)) := by
  cases j
  case str v =>
    refine .inr ⟨_, _, rfl, rfl, fun s s' A => .inr ⟨_, _, rfl, rfl, ?_⟩⟩
    exact Calm.alike (put := fun (v : String) s =>
      ({ s.1 with popFile := setPopFile (v.toList.takeWhile (· ≠ Char.ofNat 0)) }, s.2))
      ⟨fun _ _ => rfl, fun _ _ => rfl, fun _ _ => rfl, fun _ _ _ _ => rfl⟩ v A
  all_goals exact .inl ⟨rfl, rfl⟩

theorem Alike.xDim {b c : Bool} {s s' : SysPar K × R} (A : Alike b c s s') :
    s.1.xDim = s'.1.xDim := by
  have h := congrArg SysPar.xDim A.par
  exact h

theorem twin_ea {b c : Bool} {j : Json K} {s s' : SysPar K × R} (A : Alike b c s s') :
    AlikeR b c (eaStep j s) (eaStep j s') := by
  unfold eaStep
  have e : s.1.ea = s'.1.ea := by
    have h := congrArg SysPar.ea A.par
    exact h
  rw [← e]
  cases hj : j.members with
  | error f => exact .inl ⟨_, rfl, rfl⟩
  | ok l =>
    simp only [bind, Except.bind]
    cases hz : importAll eaTable s.1.ea l with
    | error f => exact .inl ⟨_, rfl, rfl⟩
    | ok z =>
      refine .inr ⟨_, _, rfl, rfl, ?_⟩
      exact Calm.alike (put := fun (v : EaFile K) s => ({ s.1 with ea := v }, s.2))
        ⟨fun _ _ => rfl, fun _ _ => rfl, fun _ _ => rfl, fun _ _ _ _ => rfl⟩ z A

theorem twin_act {b c : Bool} {j : Json K} {s s' : SysPar K × R} (A : Alike b c s s') :
    AlikeR b c (actStep j s) (actStep j s') := by
  unfold actStep
  have e : s.1.act = s'.1.act := by
    have h := congrArg SysPar.act A.par
    exact h
  rw [← e, ← A.xDim]
  simp only [bind, Except.bind]
  cases hz : actParImport s.1.xDim s.1.act j with
  | error f => exact .inl ⟨_, rfl, rfl⟩
  | ok z =>
    refine .inr ⟨_, _, rfl, rfl, ?_⟩
    exact Calm.alike (put := fun (v : ActFile K) s => ({ s.1 with act := v }, s.2))
      ⟨fun _ _ => rfl, fun _ _ => rfl, fun _ _ => rfl, fun _ _ _ _ => rfl⟩ z A

theorem twin_pred {b c : Bool} {j : Json K} {s s' : SysPar K × R} (A : Alike b c s s') :
    AlikeR b c (predStep j s) (predStep j s') := by
  unfold predStep
  have e : s.1.pred = s'.1.pred := by
    have h := congrArg SysPar.pred A.par
    exact h
  rw [← e, ← A.xDim]
  simp only [bind, Except.bind]
  cases hz : predParImport s.1.xDim s.1.pred j with
  | error f => exact .inl ⟨_, rfl, rfl⟩
  | ok z =>
    refine .inr ⟨_, _, rfl, rfl, ?_⟩
    exact Calm.alike (put := fun (v : PredFile K) s => ({ s.1 with pred := v }, s.2))
      ⟨fun _ _ => rfl, fun _ _ => rfl, fun _ _ => rfl, fun _ _ _ _ => rfl⟩ z A

/-- A setter that commutes with a change of the state. -/
def Commutes {S : Type} (u : S → S) (f : Setter K S) : Prop :=
  ∀ j h, f j = some h → ∀ s, h (u s) = (h s).map u

theorem commutes_num {S : Type} {u : S → S} {ok : K → Bool} {put : K → S → S}
    (H : ∀ v s, put v (u s) = u (put v s)) : Commutes u (numSet ok put) := by
  intro j h e s
  cases j <;> simp only [numSet, reduceCtorEq, Option.some.injEq] at e
  subst e
  dsimp only
  split_ifs
  · rw [H]; rfl
  · rfl

theorem commutes_int {S : Type} {u : S → S} {ok : Int → Bool} {put : Int → S → S}
    (H : ∀ v s, put v (u s) = u (put v s)) : Commutes (K := K) u (intSet ok put) := by
  intro j h e s
  cases j <;> simp only [intSet, reduceCtorEq, Option.some.injEq] at e
  subst e
  dsimp only
  split_ifs
  · rw [H]; rfl
  · rfl

theorem importAll_commutes {S : Type} {u : S → S} {T : List (String × Setter K S)}
    (H : ∀ e ∈ T, Commutes u e.2) : ∀ (l : List (String × Json K)) (s : S),
    importAll T (u s) l = (importAll T s l).map u
  | [], s => rfl
  | m :: l, s => by
    have hm : importMember T (u s) m = (importMember T s m).map u := by
      unfold importMember
      cases e : T.lookup m.1 with
      | none => rfl
      | some f =>
        dsimp only
        cases e' : f m.2 with
        | none => rfl
        | some h => exact H _ (lookup_mem e) _ _ e' s
    unfold importAll
    rw [List.foldlM_cons, List.foldlM_cons, hm]
    cases importMember T s m with
    | error f => rfl
    | ok t => exact importAll_commutes H l t

/-- Other constants. -/
def TreePar.setC (k : List K) (t : TreePar K) : TreePar K := { t with constants := k }

/-- Other constants. -/
def CondFile.setC (k : List K) (c : CondFile K) : CondFile K := { c with targs := c.targs.setC k }

theorem Alike.cond {b c : Bool} {s s' : SysPar K × R} (A : Alike b c s s') :
    s'.1.cond = s.1.cond.setC s'.1.cond.targs.constants := by
  have h := congrArg SysPar.cond A.par
  have h1 := congrArg (CondFile.setC s'.1.cond.targs.constants) h
  exact h1.symm

theorem Alike.put {b c b' c' : Bool} {s s' : SysPar K × R} (A : Alike b c s s') {d d' : CondFile K}
    {r r' : R} (h : d.setC [] = d'.setC []) (hr : b' = true → r = r')
    (hc : c' = true → d.targs.constants = d'.targs.constants) :
    Alike b' c' ({ s.1 with cond := d }, r) ({ s'.1 with cond := d' }, r') where
  par := by
    have h1 : ({ s.1 with cond := d } : SysPar K).noConst =
      { s.1.noConst with cond := d.setC [] } := rfl
    have h2 : ({ s'.1 with cond := d' } : SysPar K).noConst =
      { s'.1.noConst with cond := d'.setC [] } := rfl
    rw [h1, h2, A.par, h]
  rng := hr
  const := hc

/-- Whether a member `condition` draws new constants: trees with arguments. -/
def DrawsConstants (j : Json K) : Prop :=
  typeMember condCodes j = .ok 5 ∧ ∃ a, j.item "args" = some a

theorem tern_commutes (k : List K) : ∀ e ∈ (ternTable : List (String × Setter K (CondFile K))),
    Commutes (CondFile.setC k) e.2 := by
  unfold ternTable
  simp only [List.forall_mem_cons]
  exact ⟨commutes_num fun _ _ => rfl, commutes_int fun _ _ => rfl, by simp⟩

theorem csr_commutes (k : List K) : ∀ e ∈ (csrTable : List (String × Setter K (CondFile K))),
    Commutes (CondFile.setC k) e.2 := by
  unfold csrTable
  simp only [List.forall_mem_cons]
  exact ⟨commutes_num fun _ _ => rfl, commutes_num fun _ _ => rfl, commutes_num fun _ _ => rfl,
    commutes_num fun _ _ => rfl, by simp⟩

theorem tree_commutes (k : List K) : ∀ e ∈ (treeTable : List (String × Setter K (TreePar K))),
    Commutes (TreePar.setC k) e.2 := by
  unfold treeTable
  simp only [List.forall_mem_cons]
  exact ⟨commutes_num fun _ _ => rfl, commutes_num fun _ _ => rfl, commutes_int fun _ _ => rfl,
    commutes_int fun _ _ => rfl, commutes_int fun _ _ => rfl, by simp⟩

theorem args_other {g : Rng K R} {x : Int} {c : CondFile K} {a : Json K} (h5 : c.type ≠ 5) :
    (∃ f, ∀ k r, condArgsImport g x (c.setC k) a r = .error f) ∨
    ∃ d : CondFile K, ∀ k r, condArgsImport g x (c.setC k) a r = .ok (d.setC k, r) := by
  unfold condArgsImport
  have e1 : ∀ k, (c.setC k).type = c.type := fun _ => rfl
  have e2 : ∀ k, (c.setC k).dargs = c.dargs := fun _ => rfl
  simp only [e1, e2, bind, Except.bind]
  by_cases h7 : c.type = 7
  · simp only [if_pos h7]
    cases hj : a.members with
    | error f => exact .inl ⟨f, fun _ _ => rfl⟩
    | ok l =>
      cases hi : importAll ternTable c l with
      | error f =>
        refine .inl ⟨f, fun k r => ?_⟩
        simp only [importAll_commutes (tern_commutes k), hi, Except.map]
      | ok d =>
        refine .inr ⟨d, fun k r => ?_⟩
        simp only [importAll_commutes (tern_commutes k), hi, Except.map]
  · simp only [if_neg h7]
    by_cases h3 : c.type = 3 ∨ c.type = 1 ∨ c.type = 2
    · simp only [if_pos h3]
      cases hj : a.members with
      | error f => exact .inl ⟨f, fun _ _ => rfl⟩
      | ok l =>
        cases hi : importAll csrTable c l with
        | error f =>
          refine .inl ⟨f, fun k r => ?_⟩
          simp only [importAll_commutes (csr_commutes k), hi, Except.map]
        | ok d =>
          refine .inr ⟨d, fun k r => ?_⟩
          simp only [importAll_commutes (csr_commutes k), hi, Except.map]
    · simp only [if_neg h3, if_neg h5]
      by_cases h6 : c.type = 6 ∨ c.type = 11
      · simp only [if_pos h6]
        cases hj : a.members with
        | error f => exact .inl ⟨f, fun _ _ => rfl⟩
        | ok l =>
          cases hi : importAll graphTable c.dargs l with
          | error f => exact .inl ⟨f, fun k r => by simp only [hi]⟩
          | ok d => exact .inr ⟨{ c with dargs := d }, fun k r => by simp only [hi]; rfl⟩
      · simp only [if_neg h6]
        by_cases h4 : c.type = 4 ∨ c.type = 12 ∨ c.type = 13
        · simp only [if_pos h4]
          cases hi : importLayers x a with
          | error f => exact .inl ⟨f, fun k r => rfl⟩
          | ok d => exact .inr ⟨{ c with largs := d }, fun k r => rfl⟩
        · simp only [if_neg h4]
          exact .inl ⟨_, fun k r => rfl⟩

theorem args_tree {g : Rng K R} {x : Int} {c : CondFile K} {a : Json K} (h5 : c.type = 5) :
    (∃ f, ∀ k r, condArgsImport g x (c.setC k) a r = .error f) ∨
    ∃ t : TreePar K, ∀ k r, condArgsImport g x (c.setC k) a r =
      .ok ({ c with targs := (drawConstants g t r).1 }, (drawConstants g t r).2) := by
  unfold condArgsImport
  have e1 : ∀ k, (c.setC k).type = c.type := fun _ => rfl
  have e2 : ∀ k, (c.setC k).targs = c.targs.setC k := fun _ => rfl
  have h7 : ¬c.type = 7 := by omega
  have h3 : ¬(c.type = 3 ∨ c.type = 1 ∨ c.type = 2) := by omega
  simp only [e1, e2, bind, Except.bind, if_neg h7, if_neg h3, if_pos h5]
  cases hj : a.members with
  | error f => exact .inl ⟨f, fun _ _ => rfl⟩
  | ok l =>
    cases hi : importAll treeTable c.targs l with
    | error f =>
      refine .inl ⟨f, fun k r => ?_⟩
      simp only [importAll_commutes (tree_commutes k), hi, Except.map]
    | ok t =>
      refine .inr ⟨t, fun k r => ?_⟩
      simp only [importAll_commutes (tree_commutes k), hi, Except.map]
      rfl

theorem twin_cond {g : Rng K R} {b c b' c' : Bool} {j : Json K} {s s' : SysPar K × R}
    (hcb : c = true → b = true) (hb : b' = b)
    (hc : c' = true → c = true ∨ (b = true ∧ DrawsConstants j)) (A : Alike b c s s') :
    AlikeR b' c' (condStep g j s) (condStep g j s') := by
  subst hb
  unfold condStep condParImport
  rw [A.cond, ← A.xDim]
  generalize hk : s'.1.cond.targs.constants = k
  have hck : c = true → s.1.cond.targs.constants = k := fun h => (A.const h).trans hk
  simp only [bind, Except.bind]
  cases ht : typeMember condCodes j with
  | error f => exact .inl ⟨_, rfl, rfl⟩
  | ok t =>
    dsimp only
    cases ha : j.item "args" with
    | none =>
      have hc : c' = true → c = true := fun h => (hc h).resolve_right fun h => by
        obtain ⟨a, h⟩ := h.2.2
        rw [ha] at h
        cases h
      exact .inr ⟨_, _, rfl, rfl, A.put rfl A.rng fun h => hck (hc h)⟩
    | some a =>
      dsimp only
      have e0 : ({ s.1.cond with type := t } : CondFile K) =
        ({ s.1.cond with type := t } : CondFile K).setC s.1.cond.targs.constants := rfl
      have e1 : ({ s.1.cond.setC k with type := t } : CondFile K) =
        ({ s.1.cond with type := t } : CondFile K).setC k := rfl
      rw [e1, e0]
      by_cases h5 : t = 5
      · rcases args_tree (g := g) (x := s.1.xDim) (c := { s.1.cond with type := t }) (a := a) h5
          with ⟨f, h⟩ | ⟨u, h⟩
        · rw [h, ← e0, h]
          exact .inl ⟨f, rfl, rfl⟩
        · rw [h, ← e0, h]
          refine .inr ⟨_, _, rfl, rfl, A.put rfl (fun hb => by rw [A.rng hb]) fun h => ?_⟩
          have hb : b' = true := by
            rcases hc h with h | h
            · exact hcb h
            · exact h.1
          rw [A.rng hb]
      · have hc : c' = true → c = true := fun h => (hc h).resolve_right fun h => by
          have h := h.2.1
          rw [ht] at h
          exact h5 (Except.ok.inj h)
        rcases args_other (g := g) (x := s.1.xDim) (c := { s.1.cond with type := t }) (a := a) h5
          with ⟨f, h⟩ | ⟨u, h⟩
        · rw [h, ← e0, h]
          exact .inl ⟨f, rfl, rfl⟩
        · rw [h, ← e0, h]
          exact .inr ⟨_, _, rfl, rfl, A.put rfl A.rng fun h => hck (hc h)⟩

theorem AlikeR.weaken {b c c' : Bool} {z z' : Res (SysPar K × R)} (h : c' = true → c = true)
    (A : AlikeR b c z z') : AlikeR b c' z z' := by
  rcases A with A | ⟨s, s', e, e', A⟩
  · exact .inl A
  · exact .inr ⟨s, s', e, e', A.par, A.rng, fun hc => A.const (h hc)⟩

/-- The setter of `random_state`. -/
def seedSet (sd : Seeds R) : Setter K (SysPar K × R) := intSet anyK fun a s =>
  ({ s.1 with randomState := a }, if a < 0 then sd.clock else sd.seed a)

/-- Members of two tables that differ in the seeds. -/
def TwinEntry (g : Rng K R) (sd sd' : Seeds R) (e e' : String × Setter K (SysPar K × R)) : Prop :=
  e.1 = e'.1 ∧
    ((e.1 ≠ "random_state" ∧ e.1 ≠ "condition" ∧ ∀ b c j, Twin b c b c j e.2 e'.2) ∨
     (e.1 = "random_state" ∧ e.2 = seedSet sd ∧ e'.2 = seedSet sd') ∨
     (e.1 = "condition" ∧ e.2 = (fun j => some (condStep g j)) ∧
       e'.2 = (fun j => some (condStep g j))))

theorem twin_tables (g : Rng K R) (sd sd' : Seeds R) :
    List.Forall₂ (TwinEntry g sd sd') (paramTable g sd) (paramTable g sd') := by
  unfold paramTable
  dsimp only
  repeat' first
    | exact .nil
    | refine .cons ⟨rfl, .inr (.inl ⟨rfl, rfl, rfl⟩)⟩ ?_
    | refine .cons ⟨rfl, .inr (.inr ⟨rfl, rfl, rfl⟩)⟩ ?_
    | refine .cons ⟨rfl, .inl ⟨by simp, by simp, fun b c j => ?_⟩⟩ ?_
    | exact twin_num ⟨fun _ _ => rfl, fun _ _ => rfl, fun _ _ => rfl, fun _ _ _ _ => rfl⟩
    | exact twin_int ⟨fun _ _ => rfl, fun _ _ => rfl, fun _ _ => rfl, fun _ _ _ _ => rfl⟩
    | exact twin_bool ⟨fun _ _ => rfl, fun _ _ => rfl, fun _ _ => rfl, fun _ _ _ _ => rfl⟩
    | exact twin_name ⟨fun _ _ => rfl, fun _ _ => rfl, fun _ _ => rfl, fun _ _ _ _ => rfl⟩
    | exact twin_file
    | exact .inr ⟨_, _, rfl, rfl, fun s s' A => twin_ea A⟩
    | exact .inr ⟨_, _, rfl, rfl, fun s s' A => twin_act A⟩
    | exact .inr ⟨_, _, rfl, rfl, fun s s' A => twin_pred A⟩
    | exact .inr ⟨_, _, rfl, rfl, fun s s' A => .inr ⟨_, _, rfl, rfl, A⟩⟩

theorem lookup_twin {α : Type} {P : String × α → String × α → Prop} (hP : ∀ e e', P e e' → e.1 = e'.1)
    {l l' : List (String × α)} (h : List.Forall₂ P l l') (k : String) :
    (l.lookup k = none ∧ l'.lookup k = none) ∨
      ∃ v v', l.lookup k = some v ∧ l'.lookup k = some v' ∧ P (k, v) (k, v') := by
  induction h with
  | nil => exact .inl ⟨rfl, rfl⟩
  | @cons e e' l l' he _ ih =>
    obtain ⟨n, v⟩ := e
    obtain ⟨n', v'⟩ := e'
    have hn : n = n' := hP _ _ he
    subst hn
    rw [List.lookup_cons, List.lookup_cons]
    by_cases hk : (k == n) = true
    · have hk' := beq_iff_eq.1 hk
      subst hk'
      simp only [beq_self_eq_true]
      exact .inr ⟨v, v', rfl, rfl, he⟩
    · rw [Bool.not_eq_true] at hk
      simp only [hk]
      exact ih

/-- A value of `random_state` that seeds. -/
def SeedsIt (j : Json K) : Prop := ∃ v, j = .num v ∧ 0 ≤ jsonInt v

theorem member_twin {g : Rng K R} {sd sd' : Seeds R} (hs : sd.seed = sd'.seed) {b c b' c' : Bool}
    (hcb : c = true → b = true) {m : String × Json K} (hm : m.1 = "random_state" → SeedsIt m.2)
    (hb : b' = true → b = true ∨ m.1 = "random_state")
    (hc : c' = true → c = true ∨ (b = true ∧ m.1 = "condition" ∧ DrawsConstants m.2))
    {s s' : SysPar K × R} (A : Alike b c s s') :
    AlikeR b' c' (importMember (paramTable g sd) s m) (importMember (paramTable g sd') s' m) := by
  have weak : ∀ {b1 c1 : Bool} {z z' : Res (SysPar K × R)}, (b' = true → b1 = true) →
      (c' = true → c1 = true) → AlikeR b1 c1 z z' → AlikeR b' c' z z' := by
    rintro b1 c1 z z' h h' (A | ⟨s, s', e, e', A⟩)
    · exact .inl A
    · exact .inr ⟨s, s', e, e', A.par, fun hb => A.rng (h hb), fun hc => A.const (h' hc)⟩
  unfold importMember
  rcases lookup_twin (P := TwinEntry g sd sd') (fun e e' h => h.1) (twin_tables g sd sd') m.1 with
    ⟨h1, h2⟩ | ⟨f, f', h1, h2, -, h⟩
  · rw [h1, h2]
    exact .inl ⟨_, rfl, rfl⟩
  · rw [h1, h2]
    dsimp only at h ⊢
    rcases h with ⟨n1, n2, h⟩ | ⟨n, e, e'⟩ | ⟨n, e, e'⟩
    · rcases h b c m.2 with ⟨h, h'⟩ | ⟨u, u', h, h', H⟩
      · rw [h, h']
        exact .inl ⟨_, rfl, rfl⟩
      · rw [h, h']
        exact weak (fun h => (hb h).resolve_right n1)
          (fun h => (hc h).resolve_right fun h => n2 h.2.1) (H s s' A)
    · subst e
      subst e'
      obtain ⟨v, hv, hp⟩ := hm n
      rw [hv]
      refine .inr ⟨_, _, rfl, rfl, ?_⟩
      dsimp only
      have hn : ¬jsonInt v < 0 := by omega
      rw [if_neg hn, if_neg hn, hs]
      refine ⟨?_, fun _ => rfl, fun h => ?_⟩
      · have h1 : ∀ p : SysPar K, ({ p with randomState := jsonInt v } : SysPar K).noConst =
          { p.noConst with randomState := jsonInt v } := fun _ => rfl
        rw [h1, h1, A.par]
      · exact A.const ((hc h).resolve_right fun h => by
          have := h.2.1
          rw [n] at this
          exact absurd this (by decide))
    · subst e
      subst e'
      dsimp only
      refine weak (b1 := b) (c1 := c') (fun h => (hb h).resolve_right fun h => ?_) id
        (twin_cond hcb rfl (fun h => ?_) A)
      · rw [n] at h
        exact absurd h (by decide)
      · rcases hc h with h | h
        · exact .inl h
        · exact .inr ⟨h.1, h.2.2⟩

theorem all_twin {g : Rng K R} {sd sd' : Seeds R} (hs : sd.seed = sd'.seed) :
    ∀ (l : List (String × Json K)) {b c b' : Bool} (_ : c = true → b = true)
      (_ : ∀ m ∈ l, m.1 = "random_state" → SeedsIt m.2)
      (_ : b' = true → b = true ∨ ∃ m ∈ l, m.1 = "random_state")
      {s s' : SysPar K × R} (_ : Alike b c s s'),
      AlikeR b' c (importAll (paramTable g sd) s l) (importAll (paramTable g sd') s' l)
  | [], b, c, b', hcb, _, hb, s, s', A => by
    refine .inr ⟨s, s', rfl, rfl, A.par, fun h => A.rng ((hb h).resolve_right ?_), A.const⟩
    rintro ⟨m, hm, -⟩
    cases hm
  | m :: l, b, c, b', hcb, hl, hb, s, s', A => by
    unfold importAll
    rw [List.foldlM_cons, List.foldlM_cons]
    have H := member_twin (g := g) hs (b' := b || m.1 == "random_state") (c' := c) hcb
      (hl m List.mem_cons_self) (by
        intro h
        rw [Bool.or_eq_true, beq_iff_eq] at h
        exact h) (fun h => .inl h) A
    rcases H with ⟨f, e, e'⟩ | ⟨t, t', e, e', A'⟩
    · rw [e, e']
      exact .inl ⟨f, rfl, rfl⟩
    · rw [e, e']
      refine all_twin hs l (fun h => ?_) (fun m hm => hl m (List.mem_cons_of_mem _ hm))
        (fun h => ?_) A'
      · rw [hcb h]
        rfl
      · rcases hb h with h | ⟨n, hn, h⟩
        · rw [h]
          exact .inl rfl
        · rcases List.mem_cons.1 hn with rfl | hn
          · left
            rw [Bool.or_eq_true, beq_iff_eq]
            exact .inr h
          · exact .inr ⟨n, hn, h⟩

end
end Xcsf
