import Verif.VizSpec
import Std.Data.String.ToNat

/-!
# Lemmas about pictures of conditions (C103)
-/

set_option linter.unusedSectionVars false

namespace Xcsf.Viz
variable {K : Type} [Field K] [LinearOrder K] [IsStrictOrderedRing K] [FloorRing K]
variable {nc ni : Nat}

/-! ## Labels -/

theorem takeWhile_stop {α : Type} {p : α → Bool} {l r : List α} {a : α} (h : ∀ x ∈ l, p x = true)
    (ha : p a = false) : (l ++ a :: r).takeWhile p = l ∧ (l ++ a :: r).dropWhile p = a :: r := by
  induction l with
  | nil => simp [ha]
  | cons b l ih =>
    obtain ⟨h1, h2⟩ := ih fun x hx => h x (List.mem_cons_of_mem _ hx)
    have hb := h b List.mem_cons_self
    refine ⟨?_, ?_⟩
    · rw [List.cons_append, List.takeWhile_cons, if_pos hb, h1]
    · rw [List.cons_append, List.dropWhile_cons, if_pos hb, h2]

theorem feature_toList (i : Nat) :
    ("feature_" ++ toString i).toList = "feature".toList ++ '_' :: Nat.toDigits 10 i := by
  rw [String.toList_append]
  show _ ++ (Nat.repr i).toList = _
  simp [Nat.repr]

theorem split_feature (i : Nat) :
    splitName ("feature_" ++ toString i) = .ok ("feature", Nat.repr i) := by
  unfold splitName
  obtain ⟨h1, h2⟩ := takeWhile_stop (p := fun c => decide (c ≠ '_')) (l := "feature".toList)
    (a := '_') (r := Nat.toDigits 10 i) (by decide) (by decide)
  rw [feature_toList, h1, h2]
  show (if '_' ∈ Nat.toDigits 10 i then _ else _) = _
  rw [if_neg Nat.underscore_not_in_toDigits]
  rfl

theorem label_input (names : Option (List String)) (i : Nat) :
    label names (.str ("feature_" ++ toString i) : Json K) = .ok (.text (inputName names i)) := by
  cases names with
  | none => rfl
  | some l =>
    show nameLabel l _ = _
    unfold nameLabel
    rw [split_feature]
    show (match (Nat.repr i).toNat? with
      | none => Except.error Err.value
      | some i => match l[i]? with
        | some name => Except.ok (Lab.text name)
        | none => .ok (.text ("feature_" ++ toString _))) = _
    rw [Nat.toNat?_repr]
    unfold inputName
    dsimp only
    rw [List.getD_eq_getElem?_getD]
    cases l[i]? <;> rfl

theorem nameLabel_op {l : List String} {s : String} (h : s = "+" ∨ s = "-" ∨ s = "*" ∨ s = "/") :
    nameLabel l s = .ok (.text s) := by
  rcases h with rfl | rfl | rfl | rfl <;> rfl

theorem sign_eq (f : Fin 4) : gpFuncString (f : Int) = sign f := by
  revert f; decide

theorem sign_cases (f : Fin 4) : sign f = "+" ∨ sign f = "-" ∨ sign f = "*" ∨ sign f = "/" := by
  revert f; decide

theorem label_op (names : Option (List String)) (f : Fin 4) :
    label names (.str (sign f) : Json K) = .ok (.text (sign f)) := by
  cases names with
  | none => rfl
  | some l => exact nameLabel_op (sign_cases f)

theorem isOp_sign (f : Fin 4) : isOp (.str (sign f) : Json K) = true := by
  rcases sign_cases f with h | h | h | h <;> rw [h] <;> rfl

theorem feature_ne_paren (i : Nat) : ("feature_" ++ toString i) ≠ "(" := by
  intro h
  have := congrArg (fun s => s.toList.length) h
  rw [feature_toList] at this
  simp at this

/-! ## Reading a tree -/

/-- The nodes drawn for an expression after `k` others. -/
def picNodes (names : Option (List String)) (c : Fin nc → K) : Nat → GpExpr nc ni → List (Nat × Lab)
  | k, .func f l r => picNodes names c k l ++ picNodes names c (k + l.size) r ++
      [(k + l.size + r.size + 1, .text (sign f))]
  | k, .const i => [(k + 1, numLabel (c i))]
  | k, .input i => [(k + 1, .text (inputName names i))]

/-- The edges drawn for an expression after `k` nodes. -/
def picEdges : Nat → GpExpr nc ni → List (Nat × Nat)
  | k, .func _ l r => picEdges k l ++ picEdges (k + l.size) r ++
      [(k + l.size + r.size + 1, k + l.size), (k + l.size + r.size + 1, k + l.size + r.size)]
  | _, _ => []

/-- The items of the array. -/
def toks (c : Fin nc → K) (e : GpExpr nc ni) : List (Json K) := (e.infixForm c).map GpTok.json

/-- The state after an expression. -/
def after (names : Option (List String)) (c : Fin nc → K) (q : Reader) (e : GpExpr nc ni) : Reader :=
  ⟨q.pos + (toks c e).length, q.cnt + e.size,
    ⟨q.pic.nodes ++ picNodes names c q.cnt e, q.pic.edges ++ picEdges q.cnt e⟩⟩

theorem toks_func (c : Fin nc → K) (f : Fin 4) (l r : GpExpr nc ni) :
    toks c (.func f l r) =
      .str "(" :: (toks c l ++ .str (sign f) :: (toks c r ++ [.str ")"])) := by
  unfold toks
  rw [GpExpr.infixForm]
  simp only [List.map_append, List.map_cons, List.map_nil, GpTok.json, sign_eq]
  simp

theorem at_mid {α : Type} (pre post : List α) (a : α) : (pre ++ a :: post)[pre.length]? = some a := by
  rw [List.getElem?_append_right (Nat.le_refl _), Nat.sub_self]
  rfl

theorem frames_pos : ∀ e : GpExpr nc ni, 1 ≤ frames e
  | .func _ _ _ => by rw [frames]; omega
  | .const _ => Nat.le_refl _
  | .input _ => Nat.le_refl _

theorem readFunction_succ (names : Option (List String)) (tree : List (Json K)) (d : Nat) (q : Reader) :
    readFunction names tree (d + 1) q = (do
      let (e1, q) ← readSub names tree d q
      match tree[q.pos]? with
      | none => .error .index
      | some symbol =>
        if isOp symbol then do
          let (e2, q) ← readFunction names tree d { q with pos := q.pos + 1 }
          let l ← label names symbol
          .ok (e2, q.add l [e1, e2])
        else .ok (e1, q)) := by
  rw [readFunction]
  rfl

theorem readSub_leaf {names : Option (List String)} {c : Fin nc → K} {e : GpExpr nc ni} {j : Json K}
    {l : Lab} (ht : toks c e = [j]) (hp : isText "(" j = false) (hl : label names j = .ok l)
    (hs : e.size = 1) (hf : frames e = 1) (hn : ∀ k, picNodes names c k e = [(k + 1, l)])
    (he : ∀ k, picEdges k e = []) (pre post : List (Json K)) (d : Nat) (q : Reader)
    (h : q.pos = pre.length) : readSub names (pre ++ toks c e ++ post) d q =
      if frames e ≤ d then .ok (q.cnt + e.size, after names c q e) else .error .recursion := by
  rw [hf]
  cases d with
  | zero => rw [if_neg (by omega), readSub]
  | succ d =>
    rw [if_pos (by omega), readSub]
    have ha : (pre ++ toks c e ++ post)[q.pos]? = some j := by
      rw [ht, h, List.append_assoc]
      exact at_mid pre post j
    rw [ha]
    dsimp only
    rw [hp, if_neg (by simp), hl]
    unfold after Reader.add
    rw [hs, hn, he, ht]
    simp
    rfl

theorem readSub_spec (names : Option (List String)) (c : Fin nc → K) : ∀ (e : GpExpr nc ni)
    (pre post : List (Json K)) (d : Nat) (q : Reader), q.pos = pre.length →
    readSub names (pre ++ toks c e ++ post) d q =
      if frames e ≤ d then .ok (q.cnt + e.size, after names c q e) else .error .recursion
  | .const i => readSub_leaf (j := .num (c i)) (l := numLabel (c i)) rfl rfl rfl rfl rfl
      (fun _ => rfl) (fun _ => rfl)
  | .input i => readSub_leaf (j := .str ("feature_" ++ toString (i : Nat)))
      (l := .text (inputName names i)) rfl
      (by
        show (_ == _) = false
        exact beq_eq_false_iff_ne.2 (feature_ne_paren _))
      (label_input names i) rfl rfl (fun _ => rfl) (fun _ => rfl)
  | .func f l r => fun pre post d q h => by
    have tl : pre ++ toks c (.func f l r) ++ post =
        (pre ++ [.str "("]) ++ toks c l ++ (.str (sign f) :: (toks c r ++ .str ")" :: post)) := by
      rw [toks_func]; simp
    have tr : pre ++ toks c (.func f l r) ++ post =
        (pre ++ [.str "("] ++ toks c l ++ [.str (sign f)]) ++ toks c r ++ (.str ")" :: post) := by
      rw [toks_func]; simp
    rw [frames]
    cases d with
    | zero => rw [if_neg (by omega), readSub]
    | succ d =>
    rw [readSub]
    have h0 : (pre ++ toks c (.func f l r) ++ post)[q.pos]? = some (.str "(") := by
      rw [h, toks_func, List.append_assoc, List.cons_append]
      exact at_mid _ _ _
    rw [h0]
    dsimp only
    rw [if_pos (show isText "(" (.str "(" : Json K) = true from rfl)]
    cases d with
    | zero => rw [if_neg (by omega), readFunction]; rfl
    | succ d =>
    rw [readFunction_succ]
    have hl := readSub_spec names c l (pre ++ [.str "("])
      (.str (sign f) :: (toks c r ++ .str ")" :: post)) d { q with pos := q.pos + 1 }
      (by simp [h])
    rw [← tl] at hl
    rw [hl]
    by_cases h1 : frames l ≤ d
    swap
    · rw [if_neg h1, if_neg (by omega)]; rfl
    rw [if_pos h1]
    have h2 : (pre ++ toks c (.func f l r) ++ post)[
        (after names c { q with pos := q.pos + 1 } l).pos]? = some (.str (sign f)) := by
      rw [tl]
      have : (after names c { q with pos := q.pos + 1 } l).pos =
          (pre ++ [(.str "(" : Json K)] ++ toks c l).length := by
        unfold after; simp [h]; omega
      rw [this]
      exact at_mid _ _ _
    show ((match (pre ++ toks c (.func f l r) ++ post)[
        (after names c { q with pos := q.pos + 1 } l).pos]? with
      | none => Except.error Err.index
      | some symbol => _) >>= _) = _
    rw [h2]
    dsimp only
    rw [isOp_sign, if_pos rfl]
    cases d with
    | zero => have := frames_pos l; omega
    | succ d =>
    rw [readFunction_succ]
    have hr := readSub_spec names c r (pre ++ [.str "("] ++ toks c l ++ [.str (sign f)])
      (.str ")" :: post) d
      { after names c { q with pos := q.pos + 1 } l with
          pos := (after names c { q with pos := q.pos + 1 } l).pos + 1 }
      (by unfold after; simp [h]; omega)
    rw [← tr] at hr
    rw [hr]
    by_cases h3 : frames r ≤ d
    swap
    · rw [if_neg h3, if_neg (by omega)]; rfl
    rw [if_pos h3, if_pos (by omega)]
    have h4 : (pre ++ toks c (.func f l r) ++ post)[
        (after names c { after names c { q with pos := q.pos + 1 } l with
          pos := (after names c { q with pos := q.pos + 1 } l).pos + 1 } r).pos]? =
        some (.str ")") := by
      rw [tr]
      have : (after names c { after names c { q with pos := q.pos + 1 } l with
          pos := (after names c { q with pos := q.pos + 1 } l).pos + 1 } r).pos =
          (pre ++ [(.str "(" : Json K)] ++ toks c l ++ [(.str (sign f) : Json K)] ++ toks c r).length := by
        unfold after; simp [h]; omega
      rw [this]
      exact at_mid _ _ _
    show (((match (pre ++ toks c (.func f l r) ++ post)[
        (after names c { after names c { q with pos := q.pos + 1 } l with
          pos := (after names c { q with pos := q.pos + 1 } l).pos + 1 } r).pos]? with
      | none => Except.error Err.index
      | some symbol => _) >>= _) >>= _) = _
    rw [h4]
    dsimp only
    rw [if_neg (show ¬ isOp (.str ")" : Json K) = true by unfold isOp isText; simp)]
    show ((label names (.str (sign f)) >>= _) >>= _) = _
    rw [label_op]
    show Except.ok _ = Except.ok _
    congr 1
    unfold after Reader.add
    rw [toks_func, GpExpr.size, picNodes, picEdges]
    simp
    omega

/-! ## The picture that is drawn -/

theorem picNodes_ids (names : Option (List String)) (c : Fin nc → K) : ∀ (e : GpExpr nc ni) (k : Nat),
    (picNodes names c k e).map Prod.fst = (List.range e.size).map fun i => k + i + 1
  | .const _, k => by simp [picNodes, GpExpr.size]
  | .input _, k => by simp [picNodes, GpExpr.size]
  | .func f l r, k => by
    rw [picNodes, List.map_append, List.map_append, picNodes_ids names c l, picNodes_ids names c r,
      GpExpr.size, show 1 + l.size + r.size = l.size + r.size + 1 by omega, List.range_succ,
      List.range_add]
    simp [Nat.add_assoc]

theorem picEdges_length : ∀ (e : GpExpr nc ni) (k : Nat), (picEdges k e).length + 1 = e.size
  | .const _, _ => rfl
  | .input _, _ => rfl
  | .func f l r, k => by
    have h1 := picEdges_length l k
    have h2 := picEdges_length r (k + l.size)
    rw [picEdges, GpExpr.size]
    simp
    omega

theorem picEdges_src : ∀ (e : GpExpr nc ni) (k : Nat), ∀ p ∈ picEdges k e,
    k < p.1 ∧ p.1 ≤ k + e.size ∧ k < p.2 ∧ p.2 < k + e.size
  | .const _, _ => nofun
  | .input _, _ => nofun
  | .func f l r, k => by
    intro p hp
    rw [picEdges, List.mem_append, List.mem_append] at hp
    have hl := GpExpr.size_pos l
    have hr := GpExpr.size_pos r
    rw [GpExpr.size]
    rcases hp with (hp | hp) | hp
    · have := picEdges_src l k p hp; omega
    · have := picEdges_src r (k + l.size) p hp; omega
    · simp only [List.mem_cons, List.not_mem_nil, or_false] at hp
      rcases hp with rfl | rfl <;> simp <;> omega

theorem picNodes_mem {names : Option (List String)} {c : Fin nc → K} {e : GpExpr nc ni} {k : Nat}
    {p : Nat × Lab} (h : p ∈ picNodes names c k e) : k < p.1 ∧ p.1 ≤ k + e.size := by
  have : p.1 ∈ (picNodes names c k e).map Prod.fst := List.mem_map_of_mem h
  rw [picNodes_ids] at this
  obtain ⟨i, hi, he⟩ := List.mem_map.1 this
  have := List.mem_range.1 hi
  omega

theorem filter_none {α : Type} {p : α → Bool} {l : List α} (h : ∀ a ∈ l, p a = false) :
    l.filter p = [] := by
  rw [List.filter_eq_nil_iff]
  intro a ha
  rw [h a ha]
  simp

/-- A part of a picture: what belongs to the numbers between `k` and `k + e.size` is what is
drawn for the expression. -/
structure Part (names : Option (List String)) (c : Fin nc → K) (p : Pic) (k : Nat)
    (e : GpExpr nc ni) : Prop where
  nodes : ∀ id, k < id → id ≤ k + e.size →
    p.nodes.filter (fun n => n.1 = id) = (picNodes names c k e).filter fun n => n.1 = id
  edges : ∀ id, k < id → id ≤ k + e.size →
    p.edges.filter (fun n => n.1 = id) = (picEdges k e).filter fun n => n.1 = id

theorem Part.left {names : Option (List String)} {c : Fin nc → K} {p : Pic} {k : Nat} {f : Fin 4}
    {l r : GpExpr nc ni} (h : Part names c p k (.func f l r)) : Part names c p k l := by
  refine ⟨fun id h1 h2 => ?_, fun id h1 h2 => ?_⟩
  · rw [h.nodes id h1 (by rw [GpExpr.size]; omega), picNodes, List.filter_append,
      List.filter_append]
    rw [filter_none (l := picNodes names c (k + l.size) r) fun a ha => by
      have := picNodes_mem ha; simp; omega]
    rw [filter_none (l := [_]) fun a ha => by
      rw [List.mem_singleton.1 ha]; simp; omega]
    simp
  · rw [h.edges id h1 (by rw [GpExpr.size]; omega), picEdges, List.filter_append,
      List.filter_append]
    rw [filter_none (l := picEdges (k + l.size) r) fun a ha => by
      have := picEdges_src r _ a ha; simp; omega]
    rw [filter_none (l := [_, _]) fun a ha => by
      simp only [List.mem_cons, List.not_mem_nil, or_false] at ha
      rcases ha with rfl | rfl <;> simp <;> omega]
    simp

theorem Part.right {names : Option (List String)} {c : Fin nc → K} {p : Pic} {k : Nat} {f : Fin 4}
    {l r : GpExpr nc ni} (h : Part names c p k (.func f l r)) :
    Part names c p (k + l.size) r := by
  refine ⟨fun id h1 h2 => ?_, fun id h1 h2 => ?_⟩
  · rw [h.nodes id (by omega) (by rw [GpExpr.size]; omega), picNodes, List.filter_append,
      List.filter_append]
    rw [filter_none (l := picNodes names c k l) fun a ha => by
      have := picNodes_mem ha; simp; omega]
    rw [filter_none (l := [_]) fun a ha => by
      rw [List.mem_singleton.1 ha]; simp; omega]
    simp
  · rw [h.edges id (by omega) (by rw [GpExpr.size]; omega), picEdges, List.filter_append,
      List.filter_append]
    rw [filter_none (l := picEdges k l) fun a ha => by
      have := picEdges_src l _ a ha; simp; omega]
    rw [filter_none (l := [_, _]) fun a ha => by
      simp only [List.mem_cons, List.not_mem_nil, or_false] at ha
      rcases ha with rfl | rfl <;> simp <;> omega]
    simp

theorem Part.shows {names : Option (List String)} {c : Fin nc → K} {p : Pic} :
    ∀ {e : GpExpr nc ni} {k : Nat}, Part names c p k e → Shows names c p (k + e.size) e
  | .const i, k, h => by
    have h1 := h.nodes (k + 1) (by omega) (Nat.le_refl _)
    have h2 := h.edges (k + 1) (by omega) (Nat.le_refl _)
    refine .const i ?_ ?_
    · unfold Pic.labels; rw [show k + GpExpr.size (.const i : GpExpr nc ni) = k + 1 from rfl, h1]
      simp [picNodes]
    · unfold Pic.below; rw [show k + GpExpr.size (.const i : GpExpr nc ni) = k + 1 from rfl, h2]
      simp [picEdges]
  | .input i, k, h => by
    have h1 := h.nodes (k + 1) (by omega) (Nat.le_refl _)
    have h2 := h.edges (k + 1) (by omega) (Nat.le_refl _)
    refine .input i ?_ ?_
    · unfold Pic.labels; rw [show k + GpExpr.size (.input i : GpExpr nc ni) = k + 1 from rfl, h1]
      simp [picNodes]
    · unfold Pic.below; rw [show k + GpExpr.size (.input i : GpExpr nc ni) = k + 1 from rfl, h2]
      simp [picEdges]
  | .func f l r, k, h => by
    have hid : k + (GpExpr.func f l r).size = k + l.size + r.size + 1 := by
      rw [GpExpr.size]; omega
    have h1 := h.nodes (k + l.size + r.size + 1) (by omega) (by omega)
    have h2 := h.edges (k + l.size + r.size + 1) (by omega) (by omega)
    rw [hid]
    refine .func f (l := k + l.size) (r := k + l.size + r.size) ?_ ?_ h.left.shows h.right.shows
    · unfold Pic.labels
      rw [h1, picNodes, List.filter_append, List.filter_append]
      rw [filter_none (l := picNodes names c k l) fun a ha => by
        have := picNodes_mem ha; simp; omega]
      rw [filter_none (l := picNodes names c (k + l.size) r) fun a ha => by
        have := picNodes_mem ha; simp; omega]
      simp
    · unfold Pic.below
      rw [h2, picEdges, List.filter_append, List.filter_append]
      rw [filter_none (l := picEdges k l) fun a ha => by
        have := picEdges_src l _ a ha; simp; omega]
      rw [filter_none (l := picEdges (k + l.size) r) fun a ha => by
        have := picEdges_src r _ a ha; simp; omega]
      simp

theorem treeViz_eq (limit : Nat) (names : Option (List String)) (c : Fin nc → K)
    (e : GpExpr nc ni) : treeViz limit names (toks c e) =
      if frames e ≤ limit then .ok ⟨picNodes names c 0 e, picEdges 0 e⟩ else .error .recursion := by
  unfold treeViz
  have h := readSub_spec names c e [] [] limit ⟨0, 0, ⟨[], []⟩⟩ rfl
  rw [List.nil_append, List.append_nil] at h
  rw [h]
  by_cases hl : frames e ≤ limit
  · rw [if_pos hl, if_pos hl]
    show Except.ok _ = _
    unfold after
    rfl
  · rw [if_neg hl, if_neg hl]
    rfl

theorem drawn_shows (names : Option (List String)) (c : Fin nc → K) (e : GpExpr nc ni) :
    Shows names c ⟨picNodes names c 0 e, picEdges 0 e⟩ e.size e := by
  have : Part names c ⟨picNodes names c 0 e, picEdges 0 e⟩ 0 e :=
    ⟨fun _ _ _ => rfl, fun _ _ _ => rfl⟩
  simpa using this.shows

/-! ## Graphs -/

/-- A picture with more in it. -/
def Net.plus (g : Net) (a : List (Int × String)) (b : List (Int × Lab)) (e : List (Name × Name)) :
    Net := { g with nodes := g.nodes ++ a, features := g.features ++ b, edges := g.edges ++ e }

theorem Net.plus_plus (g : Net) (a a' : List (Int × String)) (b b' : List (Int × Lab))
    (e e' : List (Name × Name)) :
    (g.plus a b e).plus a' b' e' = g.plus (a ++ a') (b ++ b') (e ++ e') := by
  unfold Net.plus
  simp

theorem foldlM_plus {α : Type} {f : Net → α → Py Net} {A : α → List (Int × String)}
    {B : α → List (Int × Lab)} {E : α → List (Name × Name)} : ∀ {l : List α},
    (∀ g, ∀ j ∈ l, f g j = .ok (g.plus (A j) (B j) (E j))) → ∀ g,
    l.foldlM f g = .ok (g.plus (l.flatMap A) (l.flatMap B) (l.flatMap E))
  | [], _, g => by
    show Except.ok g = _
    unfold Net.plus
    simp
  | j :: l, h, g => by
    rw [List.foldlM_cons, h g j List.mem_cons_self]
    show l.foldlM f _ = _
    rw [foldlM_plus fun g j hj => h g j (List.mem_cons_of_mem _ hj), Net.plus_plus]
    rfl

theorem flatMap_single {α β : Type} (f : α → β) : ∀ l : List α, (l.flatMap fun a => [f a]) = l.map f
  | [] => rfl
  | a :: l => by rw [List.flatMap_cons, flatMap_single f l]; rfl

/-- The text of a function. -/
def funcName (f : Int) : String :=
  if f = 0 then "Fuzzy NOT" else if f = 1 then "Fuzzy AND" else "Fuzzy OR"

/-- The source of a connection. -/
def source (nIn : Nat) (c : Int) : Name := if c < nIn then .feature c else .node (c - nIn)

/-- The number of inputs a node uses. -/
def arity (d : Graph K) (i : Nat) : Nat := if d.func.getD i 0 = 0 then 1 else d.maxK

/-- Connection `j` of node `i`. -/
def connection (d : Graph K) (i j : Nat) : Int := d.conn.getD (i * d.maxK + j) 0

/-- The arrows into a node. -/
def block (d : Graph K) (i : Nat) : List (Name × Name) :=
  (List.range (arity d i)).map fun j => (source d.nInputs (connection d i j), .node i)

/-- The features added for one connection. -/
def featureOf (names : Option (List String)) (nIn : Nat) (c : Int) : List (Int × Lab) :=
  if c < nIn then [(c, .text (inputName names c.toNat))] else []

/-- The features added for a node. -/
def featuresOf (names : Option (List String)) (d : Graph K) (i : Nat) : List (Int × Lab) :=
  (List.range (arity d i)).flatMap fun j => featureOf names d.nInputs (connection d i j)

/-- The picture of a graph. -/
def netOf (names : Option (List String)) (d : Graph K) : Net where
  nodes := (List.range d.n).map fun i : Nat => ((i : Int), funcName (d.func.getD i 0))
  features := (List.range d.n).flatMap (featuresOf names d)
  edges := (List.range d.n).flatMap (block d)
  n := d.n
  t := d.t

theorem asInt_ofInt (z : Int) : asInt (jsonOfInt z : Json K) = .ok z := by
  show (if ((⌊(z : K)⌋ : Int) : K) = (z : K) then Except.ok ⌊(z : K)⌋ else _) = _
  rw [Int.floor_intCast, if_pos rfl]

theorem at'_of_lt {α : Type} {l : List α} {i : Nat} (h : i < l.length) : at' l i = .ok l[i] := by
  unfold at'
  rw [List.getElem?_eq_getElem h]

theorem drawEdge_spec {names : Option (List String)} {d : Graph K} (hc : ∀ c ∈ d.conn, 0 ≤ c)
    {i j : Nat} (h : i * d.maxK + j < d.conn.length) (g : Net) :
    drawEdge names d.nInputs (d.conn.map jsonOfInt : List (Json K)) d.maxK i g j =
      .ok (g.plus [] (featureOf names d.nInputs (connection d i j))
        [(source d.nInputs (connection d i j), .node i)]) := by
  unfold drawEdge
  rw [at'_of_lt (by simpa using h)]
  have hg : connection d i j = d.conn[i * d.maxK + j] := getD_lt h 0
  have h0 : 0 ≤ connection d i j := hg ▸ hc _ (List.getElem_mem h)
  rw [List.getElem_map, ← hg]
  show (asInt (jsonOfInt (connection d i j) : Json K) >>= _) = _
  rw [asInt_ofInt]
  show (if connection d i j < d.nInputs then _ else _) = _
  unfold featureOf source Net.plus
  by_cases hlt : connection d i j < d.nInputs
  · rw [if_pos hlt, if_pos hlt, if_pos hlt]
    obtain ⟨m, hm⟩ := Int.eq_ofNat_of_zero_le h0
    rw [hm]
    have := label_input (K := K) names m
    show (label names (.str ("feature_" ++ toString m) : Json K) >>= _) = _
    rw [this]
    simp
    rfl
  · rw [if_neg hlt, if_neg hlt, if_neg hlt]
    simp

theorem funcName_not (f : Int) : funcName f = "Fuzzy NOT" ↔ f = 0 := by
  unfold funcName
  by_cases h : f = 0
  · simp [h]
  · rw [if_neg h]
    by_cases h1 : f = 1
    · simp [h1]
    · simp [h, h1]

theorem drawNode_spec {names : Option (List String)} {a : DgpArgs} (ha : a.Legal) {d : Graph K}
    (hd : Wired a d) {i : Nat} (hi : i < d.n) (g : Net) :
    drawNode names d.nInputs (d.func.map fun f => (.str (funcName f) : Json K))
      (d.conn.map jsonOfInt) d.maxK g i =
      .ok (g.plus [((i : Int), funcName (d.func.getD i 0))] (featuresOf names d i) (block d i)) := by
  have hif : i < d.func.length := by rw [hd.funcLen, ← hd.n]; exact hi
  unfold drawNode
  rw [at'_of_lt (by simpa using hif)]
  rw [List.getElem_map, ← getD_lt hif 0]
  show List.foldlM _ _ (List.range (if funcName (d.func.getD i 0) = "Fuzzy NOT" then 1 else d.maxK)) = _
  have har : (if funcName (d.func.getD i 0) = "Fuzzy NOT" then 1 else d.maxK) = arity d i := by
    unfold arity
    simp only [funcName_not]
  have hle : arity d i ≤ d.maxK := by
    unfold arity
    have := ha.maxK
    rw [← hd.maxK] at this
    split <;> omega
  rw [har, foldlM_plus (A := fun _ => []) (B := fun j => featureOf names d.nInputs (connection d i j))
    (E := fun j => [(source d.nInputs (connection d i j), .node i)])]
  · unfold Net.plus featuresOf block
    rw [flatMap_single]
    simp
  · intro g j hj
    refine drawEdge_spec (fun c hc => (hd.conns c hc).1) ?_ g
    have := List.mem_range.1 hj
    rw [hd.connLen, ← hd.maxK, ← hd.n]
    have h1 : i * d.maxK + d.maxK ≤ d.n * d.maxK := by
      rw [← Nat.succ_mul]; exact Nat.mul_le_mul_right _ hi
    omega

theorem export_ok {a : DgpArgs} {d : Graph K} (hd : Wired a d) : graphExport d = .ok
    { n := some d.n, t := some d.t, current := some d.state, initial := some d.initial,
      functions := some ((d.func.map funcName).map some), connectivity := some d.conn,
      mutation := some d.mu } := by
  unfold graphExport
  rw [mapM_ok (g := funcName)]
  · rfl
  · intro f hf
    rcases hd.funcs f hf with rfl | rfl | rfl <;> rfl

theorem dgpViz_spec {names : Option (List String)} {a : DgpArgs} (ha : a.Legal) {d : Graph K}
    (hd : Wired a d) {j : GraphJson K} (hj : graphExport d = .ok j) :
    dgpViz names (graphJson d.nInputs j) = .ok (netOf names d) := by
  rw [export_ok hd] at hj
  cases hj
  have hn : d.n ≠ 0 := by have := ha.n; rw [← hd.n] at this; omega
  have hk : (((d.conn.map jsonOfInt : List (Json K)).length : Int).tdiv d.n).toNat = d.maxK := by
    rw [List.length_map, hd.connLen, ← hd.n, ← hd.maxK, Nat.cast_mul,
      Int.mul_tdiv_cancel_left _ (by exact_mod_cast hn)]
    simp
  have hf : ((d.func.map funcName).map some).map (fun s => (.str (s.getD "") : Json K)) =
      d.func.map fun f => .str (funcName f) := by
    simp [Function.comp_def]
  unfold dgpViz graphJson member
  simp only [Json.item, List.lookup, Option.getD_some]
  simp only [hf]
  show (asInt (jsonOfInt _) >>= fun n => asInt (jsonOfInt _) >>= fun nIn => _) = _
  rw [asInt_ofInt]
  show (asInt (jsonOfInt _) >>= fun nIn => _) = _
  rw [asInt_ofInt]
  show (if (d.n : Int) = 0 then _ else _) = _
  rw [if_neg (by exact_mod_cast hn), hk]
  show (List.foldlM _ _ (List.range ((d.n : Int)).toNat) >>= _) = _
  rw [Int.toNat_natCast, foldlM_plus fun g i hi => drawNode_spec ha hd (List.mem_range.1 hi) g]
  show (asInt (jsonOfInt _) >>= _) = _
  rw [asInt_ofInt]
  show Except.ok _ = _
  unfold netOf Net.plus
  rw [flatMap_single]
  simp

theorem lookup_range {β : Type} (f : Nat → β) : ∀ {n i : Nat}, i < n →
    ((List.range n).map fun k : Nat => ((k : Int), f k)).lookup (i : Int) = some (f i)
  | 0, _, h => absurd h (Nat.not_lt_zero _)
  | n + 1, i, h => by
    rw [List.range_succ, List.map_append, List.lookup_append]
    by_cases hi : i < n
    · rw [lookup_range f hi]; rfl
    · have : i = n := by omega
      subst this
      rw [List.lookup_eq_none_iff.2]
      · simp
      · intro p hp
        obtain ⟨k, hk, rfl⟩ := List.mem_map.1 hp
        have := List.mem_range.1 hk
        simp
        omega

theorem filter_block {d : Graph K} {i : Nat} : ∀ {n : Nat}, i < n →
    ((List.range n).flatMap (block d)).filter (fun e => e.2 = .node i) = block d i
  | 0, h => absurd h (Nat.not_lt_zero _)
  | n + 1, h => by
    rw [List.range_succ, List.flatMap_append, List.filter_append]
    have key : ∀ k : Nat, k ≠ i → (block d k).filter (fun e => e.2 = .node i) = [] := by
      intro k hk
      refine filter_none fun e he => ?_
      obtain ⟨j, -, rfl⟩ := List.mem_map.1 he
      simp [hk]
    have self : (block d i).filter (fun e => e.2 = .node i) = block d i := by
      rw [List.filter_eq_self]
      intro e he
      obtain ⟨j, -, rfl⟩ := List.mem_map.1 he
      simp
    rw [List.flatMap_cons, List.flatMap_nil, List.append_nil]
    by_cases hi : i < n
    · rw [filter_block hi, key n (by omega), List.append_nil]
    · have : i = n := by omega
      subst this
      rw [self, filter_none]
      · rfl
      · intro e he
        obtain ⟨k, hk, he⟩ := List.mem_flatMap.1 he
        obtain ⟨j, -, rfl⟩ := List.mem_map.1 he
        have := List.mem_range.1 hk
        simp
        omega

theorem netOf_text {names : Option (List String)} {d : Graph K} {i : Nat} (h : i < d.n) :
    (netOf names d).text i = funcName (d.func.getD i 0) := by
  unfold Net.text netOf
  rw [lookup_range (fun i => funcName (d.func.getD i 0)) h]
  rfl

theorem netOf_into {names : Option (List String)} {d : Graph K} {i : Nat} (h : i < d.n) :
    (netOf names d).into i =
      (List.range (arity d i)).map fun j => source d.nInputs (connection d i j) := by
  unfold Net.into netOf
  rw [filter_block h]
  unfold block
  rw [List.map_map]
  rfl

theorem prod_range_map (f : Nat → K) : ∀ k, ((List.range k).map f).prod = ∏ j ∈ Finset.range k, f j
  | 0 => rfl
  | k + 1 => by
    rw [List.range_succ, List.map_append, List.prod_append, prod_range_map f k,
      Finset.prod_range_succ]
    simp

theorem sum_range_map (f : Nat → K) : ∀ k, ((List.range k).map f).sum = ∑ j ∈ Finset.range k, f j
  | 0 => rfl
  | k + 1 => by
    rw [List.range_succ, List.map_append, List.sum_append, sum_range_map f k,
      Finset.sum_range_succ]
    simp

theorem source_value {nIn : Nat} {c : Int} (h : 0 ≤ c) (x s : Nat → K) :
    (source nIn c).value x s = wire nIn x s c.toNat := by
  unfold source wire
  by_cases hc : c < nIn
  · rw [if_pos hc, if_pos (by omega)]
    rfl
  · rw [if_neg hc, if_neg (by omega)]
    show s (c - nIn).toNat = _
    congr 1
    omega

theorem states_eq {names : Option (List String)} {a : DgpArgs} (ha : a.Legal) {d : Graph K}
    (hd : Wired a d) (x s : Nat → K) : ∀ (t i : Nat), i < d.n →
    (netOf names d).states x s t i = statesAfter d x s t i
  | 0, _, _ => rfl
  | t + 1, i, h => by
    have ih := states_eq (names := names) ha hd x s t
    rw [Net.states, statesAfter]
    dsimp only
    rw [netOf_text h, netOf_into h, List.map_map]
    congr 2
    have hk : 1 ≤ d.maxK := by rw [hd.maxK]; exact ha.maxK
    have hif : i < d.func.length := by rw [hd.funcLen, ← hd.n]; exact h
    have hv : ∀ j, j < d.maxK → (source d.nInputs (connection d i j)).value x
        ((netOf names d).states x s t) =
        wire d.nInputs x (statesAfter d x s t) (connection d i j).toNat := by
      intro j hj
      have hlt : i * d.maxK + j < d.conn.length := by
        rw [hd.connLen, ← hd.n, ← hd.maxK]
        have : i * d.maxK + d.maxK ≤ d.n * d.maxK := by
          rw [← Nat.succ_mul]; exact Nat.mul_le_mul_right _ h
        omega
      have hg : connection d i j = d.conn[i * d.maxK + j] := getD_lt hlt 0
      have hc := hd.conns _ (List.getElem_mem hlt)
      rw [← hg] at hc
      rw [source_value hc.1]
      unfold wire
      split
      · rfl
      · refine ih _ ?_
        have := hc.2
        rw [← hd.n, ← hd.nInputs] at this
        omega
    have hall : ∀ m, m ≤ d.maxK → (List.range m).map
        (Name.value x ((netOf names d).states x s t) ∘
          fun j => source d.nInputs (connection d i j)) = (List.range m).map fun j =>
        wire d.nInputs x (statesAfter d x s t) (connection d i j).toNat := by
      intro m hm
      refine List.map_congr_left fun j hj => hv j ?_
      have := List.mem_range.1 hj
      omega
    have hf := hd.funcs _ (List.getElem_mem hif)
    rw [← getD_lt hif 0] at hf
    unfold arity connective fuzzy
    rcases hf with hf | hf | hf
    · rw [hf, if_pos rfl, if_pos rfl, if_pos (by rfl), hall 1 hk]
      rfl
    · rw [hf, if_neg (show ¬ (1 : Int) = 0 by decide),
        if_neg (show ¬ funcName 1 = "Fuzzy NOT" by decide),
        if_pos (show funcName 1 = "Fuzzy AND" by decide), if_neg (show ¬ (1 : Int) = 0 by decide),
        if_pos rfl, hall _ (Nat.le_refl _), prod_range_map]
      rfl
    · rw [hf, if_neg (show ¬ (2 : Int) = 0 by decide),
        if_neg (show ¬ funcName 2 = "Fuzzy NOT" by decide),
        if_neg (show ¬ funcName 2 = "Fuzzy AND" by decide), if_neg (show ¬ (2 : Int) = 0 by decide),
        if_neg (show ¬ (2 : Int) = 1 by decide), hall _ (Nat.le_refl _), sum_range_map]
      rfl

end Xcsf.Viz
