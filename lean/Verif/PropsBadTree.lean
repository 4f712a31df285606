import Verif.BadTree
import Verif.PropsBadInput
import Verif.PropsBadNet

/-!
# C113: what matches an incomplete input matches every completion of it
-/

set_option linter.unusedSectionVars false

namespace Xcsf.Double

variable {f : Format} {R : Type}

/-! ## Specification -/

/-- `w` is `v`, unless `v` is missing. -/
def Fills (v w : Dbl f) : Prop := v = .nan ∨ v = w

/-- `x'` is the input `x` with some or all of its missing values filled in. -/
def Completes (x x' : List (Dbl f)) : Prop := List.Forall₂ Fills x x'

/-! ## Lemmas -/

/-- Both fail alike, or both results are related. -/
def RelRes {α β : Type} (r : α → β → Prop) : Res α → Res β → Prop
  | .ok a, .ok b => r a b
  | .error e, .error e' => e = e'
  | _, _ => False

theorem ok_of_bind {α β : Type} {m : Res α} {k : α → Res β} {b : β} (h : (m >>= k) = .ok b) :
    ∃ a, m = .ok a ∧ k a = .ok b := by
  cases m with
  | error e => cases h
  | ok a => exact ⟨a, rfl, h⟩

theorem RelRes.bind {α β γ δ : Type} {r : α → β → Prop} {s : γ → δ → Prop} {m : Res α} {m' : Res β}
    {k : α → Res γ} {k' : β → Res δ} (h : RelRes r m m') (hk : ∀ a b, r a b → RelRes s (k a) (k' b)) :
    RelRes s (m >>= k) (m' >>= k') := by
  cases m with
  | error e =>
    cases m' with
    | error e' => exact h
    | ok b => exact h.elim
  | ok a =>
    cases m' with
    | error e' => exact h.elim
    | ok b => exact hk a b h

theorem RelRes.refl {α : Type} {r : α → α → Prop} (h : ∀ a, r a a) (m : Res α) : RelRes r m m := by
  cases m with
  | error e => exact rfl
  | ok a => exact h a

theorem Fills.refl (v : Dbl f) : Fills v v := .inr rfl

theorem Completes.refl : ∀ x : List (Dbl f), Completes x x
  | [] => .nil
  | v :: x => .cons (.refl v) (Completes.refl x)

theorem getR_fills : ∀ {x x' : List (Dbl f)} (i : Nat), Completes x x' → RelRes Fills (getR x i) (getR x' i)
  | _, _, _, .nil => rfl
  | _, _, 0, .cons h _ => h
  | _, _, i + 1, .cons _ t => by
    simpa [getR] using getR_fills i t

theorem getI_fills {x x' : List (Dbl f)} (i : Int) (h : Completes x x') :
    RelRes Fills (getI x i) (getI x' i) := by
  unfold getI
  split
  · exact getR_fills _ h
  · exact rfl

theorem clamp_fills {a b : Dbl f} (lo hi : Dbl f) (h : Fills a b) : Fills (clampD a lo hi) (clampD b lo hi) := by
  rcases h with rfl | rfl
  · exact .inl (clampD_nan lo hi)
  · exact .inr rfl

theorem add_fills {a b c d : Dbl f} (h : Fills a b) (k : Fills c d) : Fills (a + c) (b + d) := by
  rcases h with rfl | rfl
  · exact .inl (nan_add c)
  · rcases k with rfl | rfl
    · exact .inl (add_nan a)
    · exact .inr rfl

theorem sub_fills {a b c d : Dbl f} (h : Fills a b) (k : Fills c d) : Fills (a - c) (b - d) := by
  rcases h with rfl | rfl
  · exact .inl (nan_sub c)
  · rcases k with rfl | rfl
    · exact .inl (sub_nan a)
    · exact .inr rfl

theorem mul_fills {a b c d : Dbl f} (h : Fills a b) (k : Fills c d) : Fills (a * c) (b * d) := by
  rcases h with rfl | rfl
  · exact .inl (nan_mul c)
  · rcases k with rfl | rfl
    · exact .inl (mul_nan a)
    · exact .inr rfl

theorem div_fills {a b c d : Dbl f} (h : Fills a b) (k : Fills c d) :
    Fills (if c = 0 then a else a / c) (if d = 0 then b else b / d) := by
  rcases k with rfl | rfl
  · left
    rw [if_neg nofun]
    cases a <;> rfl
  · rcases h with rfl | rfl
    · left
      split
      · rfl
      · exact nan_div c
    · exact .inr rfl

theorem treeOp_fills (node : Int) {a b c d : Dbl f} (h : Fills a b) (k : Fills c d) :
    RelRes Fills (treeOp node a c) (treeOp node b d) := by
  have h' := clamp_fills ((-1000 : Int) : Dbl f) ((1000 : Int) : Dbl f) h
  have k' := clamp_fills ((-1000 : Int) : Dbl f) ((1000 : Int) : Dbl f) k
  unfold treeOp
  simp only
  split
  · exact add_fills h' k'
  split
  · exact sub_fills h' k'
  split
  · exact mul_fills h' k'
  split
  · exact div_fills h' k'
  · exact rfl

theorem treeEval_fills (consts : List (Dbl f)) {x x' : List (Dbl f)} (tree : List Int) (hx : Completes x x') :
    ∀ fuel pos, RelRes (fun p q => Fills p.1 q.1 ∧ p.2 = q.2) (treeEvalD consts x tree fuel pos)
      (treeEvalD consts x' tree fuel pos)
  | 0, _ => rfl
  | fuel + 1, pos => by
    unfold treeEvalD
    refine RelRes.bind (RelRes.refl (r := Eq) (fun _ => rfl) _) ?_
    rintro node _ rfl
    split
    · exact RelRes.bind (getR_fills _ hx) fun a b h => ⟨h, rfl⟩
    split
    · exact RelRes.bind (RelRes.refl Fills.refl _) fun a b h => ⟨h, rfl⟩
    · refine RelRes.bind (treeEval_fills consts tree hx fuel _) ?_
      rintro ⟨a, p⟩ ⟨b, q⟩ ⟨h1, h2⟩
      simp only at h1 h2
      subst h2
      refine RelRes.bind (treeEval_fills consts tree hx fuel _) ?_
      rintro ⟨c, p'⟩ ⟨d, q'⟩ ⟨h3, h4⟩
      exact RelRes.bind (treeOp_fills node h1 h3) fun v w h => ⟨h, h4⟩

theorem less_fills {a b c : Dbl f} (h : Fills a b) (hc : c < a) : c < b := by
  rcases h with rfl | rfl
  · exact absurd hc (not_less_nan c)
  · exact hc

/-! ## Trees -/

/-- **C113**, trees: a tree that matches an input with missing values matches every completion of it. -/
theorem C113_tree (consts : List (Dbl f)) (tree : List Int) {x x' : List (Dbl f)} (hx : Completes x x')
    (h : treeMatchD consts tree x = .ok true) : treeMatchD consts tree x' = .ok true := by
  have key : RelRes (fun b b' => b = true → b' = true) (treeMatchD consts tree x)
      (treeMatchD consts tree x') := by
    refine RelRes.bind (treeEval_fills consts tree hx _ _) ?_
    rintro ⟨v, p⟩ ⟨w, q⟩ ⟨h1, -⟩
    exact fun h => decide_eq_true (less_fills h1 (of_decide_eq_true h))
  rw [h] at key
  cases h' : treeMatchD consts tree x' with
  | error e =>
    rw [h'] at key
    exact key.elim
  | ok b =>
    rw [h'] at key
    rw [key rfl]

/-- **C113**, trees: what matches an input of which nothing is known matches every input of its length. -/
theorem C113_tree_unknown (consts : List (Dbl f)) (tree : List Int) (n : Nat)
    (h : treeMatchD consts tree (List.replicate n Dbl.nan) = .ok true) {x : List (Dbl f)} (hx : x.length = n) :
    treeMatchD consts tree x = .ok true := by
  refine C113_tree consts tree ?_ h
  clear h
  induction x generalizing n with
  | nil => subst hx; exact .nil
  | cons v x ih => subst hx; exact .cons (.inl rfl) (ih _ rfl)

/-! ## Graphs -/

theorem foldl_fills {op : Dbl f → Dbl f → Dbl f}
    (hop : ∀ {a b c d}, Fills a b → Fills c d → Fills (op a c) (op b d)) :
    ∀ {l l' : List (Dbl f)} {a b : Dbl f}, Completes l l' → Fills a b →
    Fills (l.foldl op a) (l'.foldl op b) := by
  intro l l' a b h
  induction h generalizing a b with
  | nil => exact id
  | cons h _ ih => exact fun k => ih (hop k h)

theorem nodeActivate_fills (fn : Int) {l l' : List (Dbl f)} (h : Completes l l') :
    RelRes Fills (nodeActivateD fn l) (nodeActivateD fn l') := by
  cases h with
  | nil => exact rfl
  | cons h t =>
    unfold nodeActivateD
    simp only
    split
    · exact clamp_fills 0 1 (sub_fills (.refl 1) h)
    split
    · exact clamp_fills 0 1 (foldl_fills (fun h k => mul_fills h k) t h)
    split
    · exact clamp_fills 0 1 (foldl_fills (fun h k => add_fills h k) t h)
    · exact rfl

theorem mapM_fills {g g' : Nat → Res (Dbl f)} (h : ∀ i, RelRes Fills (g i) (g' i)) :
    ∀ l : List Nat, RelRes Completes (l.mapM g) (l.mapM g')
  | [] => by
    rw [List.mapM_nil, List.mapM_nil]
    exact List.Forall₂.nil
  | i :: l => by
    rw [List.mapM_cons, List.mapM_cons]
    exact RelRes.bind (h i) fun a b k => RelRes.bind (mapM_fills h l) fun c d k' => List.Forall₂.cons k k'

theorem nodeNext_fills (d : Graph (Dbl f)) {st st' x x' : List (Dbl f)} (hs : Completes st st')
    (hx : Completes x x') (i : Nat) : RelRes Fills (nodeNextD d st x i) (nodeNextD d st' x' i) := by
  unfold nodeNextD
  refine RelRes.bind (mapM_fills (fun k => ?_) _) fun l l' hl => ?_
  · unfold nodeInputD
    refine RelRes.bind (RelRes.refl (r := Eq) (fun _ => rfl) _) ?_
    rintro c _ rfl
    split
    · exact getI_fills _ hx
    · exact getI_fills _ hs
  · refine RelRes.bind (RelRes.refl (r := Eq) (fun _ => rfl) _) ?_
    rintro fn _ rfl
    exact nodeActivate_fills fn hl

theorem cycles_fills (d : Graph (Dbl f)) {x x' : List (Dbl f)} (hx : Completes x x') :
    ∀ (k : Nat) {st st' : List (Dbl f)}, Completes st st' →
    RelRes Completes (cyclesD d x k st) (cyclesD d x' k st')
  | 0, _, _, hs => hs
  | k + 1, _, _, hs => by
    unfold cyclesD
    exact RelRes.bind (mapM_fills (nodeNext_fills d hs hx) _) fun a b h => cycles_fills d hx k h

theorem graphMatch_fills (stateful : Bool) (d : Graph (Dbl f)) {st st' x x' : List (Dbl f)}
    (hs : Completes st st') (hx : Completes x x') :
    RelRes (fun p q => (p.1 = true → q.1 = true) ∧ Completes p.2 q.2) (graphMatchD stateful d st x)
      (graphMatchD stateful d st' x') := by
  unfold graphMatchD
  refine RelRes.bind (cycles_fills d hx _ ?_) fun a b h => ?_
  · cases stateful with
    | true => exact hs
    | false => exact Completes.refl _
  · exact RelRes.bind (getR_fills 0 h) fun v w k =>
      ⟨fun hm => decide_eq_true (less_fills k (of_decide_eq_true hm)), h⟩

theorem graphMatches_fills (stateful : Bool) (d : Graph (Dbl f)) :
    ∀ {xs xs' : List (List (Dbl f))} {st st' : List (Dbl f)}, List.Forall₂ Completes xs xs' →
    Completes st st' →
    RelRes (fun p q => List.Forall₂ (fun b b' => b = true → b' = true) p.1 q.1 ∧ Completes p.2 q.2)
      (graphMatchesD stateful d st xs) (graphMatchesD stateful d st' xs')
  | _, _, _, _, .nil, hs => ⟨.nil, hs⟩
  | _, _, _, _, .cons h t, hs => by
    unfold graphMatchesD
    exact RelRes.bind (graphMatch_fills stateful d hs h) fun a b k =>
      RelRes.bind (graphMatches_fills stateful d t k.2) fun a' b' k' => ⟨.cons k.1 k'.1, k'.2⟩

/-- **C113**, graphs, with and without memory: present inputs one after another, then the same inputs with
missing values filled in. Whenever the graph matches in the first series, it matches in the second. -/
theorem C113_graph (stateful : Bool) (d : Graph (Dbl f)) (st : List (Dbl f)) {xs xs' : List (List (Dbl f))}
    (hx : List.Forall₂ Completes xs xs') {bs : List Bool} {st₁ : List (Dbl f)}
    (h : graphMatchesD stateful d st xs = .ok (bs, st₁)) :
    ∃ bs' st₂, graphMatchesD stateful d st xs' = .ok (bs', st₂) ∧ bs'.length = bs.length ∧
      ∀ i : Nat, bs[i]? = some true → bs'[i]? = some true := by
  have key := graphMatches_fills stateful d hx (Completes.refl st)
  rw [h] at key
  cases h' : graphMatchesD stateful d st xs' with
  | error e =>
    rw [h'] at key
    exact key.elim
  | ok p =>
    rw [h'] at key
    refine ⟨p.1, p.2, rfl, key.1.length_eq.symm, ?_⟩
    have : ∀ {l l' : List Bool}, List.Forall₂ (fun b b' => b = true → b' = true) l l' →
        ∀ i : Nat, l[i]? = some true → l'[i]? = some true := by
      intro l l' hl
      induction hl with
      | nil => intro i hi; exact hi
      | cons a _ ih =>
        intro i hi
        cases i with
        | zero => exact congrArg some (a (Option.some.inj hi))
        | succ i => exact ih i hi
    exact this key.1

/-- **C113**, graphs without memory: each result depends on its own input only, so missing values are
forgotten with the next input. -/
theorem C113_graph_forgets_partial (d : Graph (Dbl f)) (fresh : List (Dbl f)) :
    ∀ {xs : List (List (Dbl f))} {st st' : List (Dbl f)} {bs : List Bool},
    graphMatchesD false d st xs = .ok (bs, st') → ∀ (i : Nat) x, xs[i]? = some x →
    ∃ b st₁, bs[i]? = some b ∧ graphMatchD false d fresh x = .ok (b, st₁)
  | [], _, _, _, _, i, x, hi => by cases i <;> cases hi
  | y :: xs, st, st', bs, h, i, x, hi => by
    unfold graphMatchesD at h
    obtain ⟨a, h1, h⟩ := ok_of_bind h
    obtain ⟨b, h2, h⟩ := ok_of_bind h
    have e : (a.1 :: b.1, b.2) = (bs, st') := Except.ok.inj h
    have e1 : a.1 :: b.1 = bs := congrArg Prod.fst e
    subst e1
    cases i with
    | zero =>
      have : y = x := Option.some.inj hi
      subst this
      exact ⟨a.1, a.2, rfl, h1⟩
    | succ i => exact C113_graph_forgets_partial d fresh (st' := b.2) h2 i x hi

/-! ## Other conditions -/

/-- **C113**, hyperellipsoids. -/
theorem C113_ellipsoid {gs : List (Dbl f × Dbl f)} {x x' : List (Dbl f)} (hl : gs.length = x.length)
    (hx : Completes x x') (h : ovalMatch gs x = true) : ovalMatch gs x' = true := by
  by_cases hn : Dbl.nan ∈ x
  · obtain ⟨i, hi, e⟩ := List.getElem_of_mem hn
    have hg : gs[i]? = some (gs[i]'(hl ▸ hi)) := List.getElem?_eq_getElem _
    have hv : x[i]? = some Dbl.nan := by rw [List.getElem?_eq_getElem hi, e]
    rw [C111_ellipsoid_never hg hv (.inr rfl)] at h
    cases h
  · have : x = x' := by
      clear h hl
      induction hx with
      | nil => rfl
      | cons a _ ih =>
        rw [List.mem_cons, not_or] at hn
        rcases a with a | a
        · exact absurd a.symm hn.1
        · rw [a, ih hn.2]
    rw [← this]
    exact h

/-- **C113**, networks of connected and softmax layers. -/
theorem C113_neural {m : DLibm f} (H : m.Honest) {net : List (DLay f)} (h0 : net ≠ [])
    {x x' : List (Dbl f)} (hs : Shaped x.length net) (hx : Completes x x') (h : netMatchD m net x = true) :
    netMatchD m net x' = true := by
  by_cases hn : Dbl.nan ∈ x
  · rw [C111_neural_never H h0 hs hn] at h
    cases h
  · have : x = x' := by
      clear h hs
      induction hx with
      | nil => rfl
      | cons a _ ih =>
        rw [List.mem_cons, not_or] at hn
        rcases a with a | a
        · exact absurd a.symm hn.1
        · rw [a, ih hn.2]
    rw [← this]
    exact h

/-- **C113** (refuted), hyperrectangles: whatever the other intervals, one that has a value outside it
matches as long as that value is missing. -/
theorem C113_rectangle_refuted (csr : Bool) {g : Dbl f × Dbl f} {gs : List (Dbl f × Dbl f)} {v : Dbl f}
    {x : List (Dbl f)} (hm : boxMatch csr gs x = true) (hv : v < lower csr g ∨ upper csr g < v) :
    Completes (.nan :: x) (v :: x) ∧ boxMatch csr (g :: gs) (.nan :: x) = true ∧
      boxMatch csr (g :: gs) (v :: x) = false := by
  refine ⟨.cons (.inl rfl) (Completes.refl x), ?_, ?_⟩
  · show (if _ then false else boxMatch csr gs x) = true
    rw [if_neg (not_or.2 ⟨nan_not_less _, not_less_nan _⟩)]
    exact hm
  · show (if _ then false else boxMatch csr gs x) = false
    rw [if_pos hv]

/-! ## Concrete cases -/

/-- The tree `x₀ + 1` (one constant: code 4; inputs from 5 on), for two inputs of which the second is
missing. -/
example : treeMatchD [(1 : Dbl wide)] [0, 5, 4] [1, .nan] = .ok true := by
  obtain ⟨a, h, ha⟩ := Demo.Res.test_iff (m := treeMatchD [(1 : Dbl wide)] [0, 5, 4] [1, .nan])
    (p := id) (by decide +kernel)
  rw [h]
  exact congrArg _ ha

example : Completes ([1, .nan] : List (Dbl wide)) [1, 0] := .cons (.inr rfl) (.cons (.inl rfl) .nil)

/-- A node that adds the input to its own state. -/
def keeper (f : Format) : Graph (Dbl f) :=
  { evolve := false, nInputs := 1, n := 1, t := 1, klen := 2, maxT := 1, maxK := 2, state := [1],
    initial := [1], func := [2], conn := [0, 1], mu := [] }

theorem keeper_step (st x : Dbl f) : graphMatchD true (keeper f) [st] [x] =
    .ok (decide (Xcsf.half < clampD (x + st) 0 1), [clampD (x + st) 0 1]) := rfl

/-- **C113** (refuted) for graphs with memory: one missing value can be remembered for ever. This graph
matched; after an input with a missing value it matches nothing, whatever comes. -/
theorem C113_graph_forgets_refuted (xs : List (Dbl f)) :
    ∃ bs st, graphMatchesD true (keeper f) [1] ([.nan] :: xs.map (fun v => [v])) = .ok (bs, st) ∧
      bs.length = xs.length + 1 ∧ ∀ b ∈ bs, b = false := by
  have key : ∀ ys : List (Dbl f), ∃ bs st, graphMatchesD true (keeper f) [.nan] (ys.map (fun v => [v])) =
      .ok (bs, st) ∧ bs.length = ys.length ∧ ∀ b ∈ bs, b = false := by
    intro ys
    induction ys with
    | nil => exact ⟨[], [.nan], rfl, rfl, nofun⟩
    | cons v ys ih =>
      obtain ⟨bs, st, h1, h2, h3⟩ := ih
      refine ⟨false :: bs, st, ?_, by simp [h2], by simpa using h3⟩
      rw [List.map_cons]
      unfold graphMatchesD
      rw [keeper_step, add_nan, clampD_nan, decide_eq_false (not_less_nan _)]
      show (graphMatchesD true (keeper f) [.nan] (ys.map fun v => [v]) >>= _) = _
      rw [h1]
      rfl
  obtain ⟨bs, st, h1, h2, h3⟩ := key xs
  refine ⟨false :: bs, st, ?_, by simp [h2], by simpa using h3⟩
  unfold graphMatchesD
  rw [keeper_step, nan_add, clampD_nan, decide_eq_false (not_less_nan _)]
  show (graphMatchesD true (keeper f) [.nan] (xs.map fun v => [v]) >>= _) = _
  rw [h1]
  rfl

/-- Had nothing been missing, it would still match. -/
example : Demo.Res.test (graphMatchesD true (keeper wide) [1] [[0], [0], [1]])
    (fun p => p.1 == [true, true, true]) = true := by decide +kernel

example : ∃ (g : Dbl wide × Dbl wide) (v : Dbl wide), v < lower false g ∨ upper false g < v :=
  ⟨(0, 0), 1, by decide +kernel⟩

end Xcsf.Double
