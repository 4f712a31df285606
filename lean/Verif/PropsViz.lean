import Verif.VizLemmas
import Verif.PropsJson
import Verif.PropsDgp2

/-!
# Property C103: the picture of a condition shows the condition
-/

set_option linter.unusedSectionVars false

namespace Xcsf.Viz
variable {K R : Type} [Field K] [LinearOrder K] [IsStrictOrderedRing K] [FloorRing K]
variable {nc ni : Nat}

/-- `condition["tree"]["array"]` of an exported condition. -/
def treeItems (j : Json K) : Option (List (Json K)) := (j.item "tree").bind (Json.elems "array")

/-- `condition["graph"]` of an exported condition. -/
def graphItem (j : Json K) : Option (Json K) := j.item "graph"

/-! ## Trees -/

theorem export_tree {S : Setup K} {t : GpTree K} {e : GpExpr S.gp.constants.length ni}
    (h : t.tree = e.code) : ∃ j, CondType.export S .gp t = .ok j ∧
      treeItems j = some (toks S.gp.constants.get e) :=
  ⟨_, C82_tree_export h, rfl⟩

theorem frames_depth : ∀ e : GpExpr nc ni, frames e ≤ 3 * e.depth + 1
  | .func _ l r => by
    have h1 := frames_depth l
    have h2 := frames_depth r
    rw [frames, GpExpr.depth]
    omega
  | .const _ => by rw [frames, GpExpr.depth] <;> simp
  | .input _ => by rw [frames, GpExpr.depth] <;> simp

/-- **C103**, trees: the exported tree of a well-formed condition is drawn if it is not nested too
deeply for Python.  The picture then has one node for every node of the tree, numbered from one,
and one line less; its last node shows the expression that decides the match, with the names that
the user gave to the inputs. -/
theorem C103_tree_partial {S : Setup K} {t : GpTree K} {e : GpExpr S.gp.constants.length ni}
    (h : t.tree = e.code) (names : Option (List String)) {limit : Nat}
    (hd : 3 * e.depth + 1 ≤ limit) :
    ∃ j items p, CondType.export S .gp t = .ok j ∧ treeItems j = some items ∧
      treeViz limit names items = .ok p ∧
      p.nodes.map Prod.fst = (List.range t.tree.length).map (· + 1) ∧
      p.edges.length + 1 = t.tree.length ∧
      Shows names S.gp.constants.get p t.tree.length e := by
  obtain ⟨j, h1, h2⟩ := export_tree h
  have hl : t.tree.length = e.size := by rw [h, GpExpr.code_length]
  refine ⟨j, _, ⟨picNodes names S.gp.constants.get 0 e, picEdges 0 e⟩, h1, h2, ?_, ?_, ?_, ?_⟩
  · rw [treeViz_eq, if_pos ((frames_depth e).trans hd)]
  · rw [hl, picNodes_ids]
    simp
  · rw [hl]; exact picEdges_length e 0
  · rw [hl]; exact drawn_shows names _ e

/-- Whether a tree can be drawn depends on nothing but the nesting of its parentheses: it is drawn,
or Python's limit of nested calls is exceeded. -/
theorem C103_tree_limit {S : Setup K} {t : GpTree K} {e : GpExpr S.gp.constants.length ni}
    (h : t.tree = e.code) (names : Option (List String)) (limit : Nat) :
    ∃ j items, CondType.export S .gp t = .ok j ∧ treeItems j = some items ∧
      ((frames e ≤ limit ∧ ∃ p, treeViz limit names items = .ok p) ∨
        (limit < frames e ∧ treeViz limit names items = .error .recursion)) := by
  obtain ⟨j, h1, h2⟩ := export_tree h
  refine ⟨j, _, h1, h2, ?_⟩
  by_cases hl : frames e ≤ limit
  · exact .inl ⟨hl, ⟨picNodes names S.gp.constants.get 0 e, picEdges 0 e⟩,
      by rw [treeViz_eq, if_pos hl]⟩
  · exact .inr ⟨Nat.lt_of_not_le hl, by rw [treeViz_eq, if_neg hl]⟩

/-- The picture can be read: if no two constants have the same label and no two inputs the same
name, a picture shows one expression only. -/
theorem C103_tree_readable {names : Option (List String)} {c : Fin nc → K} {p : Pic}
    (hc : ∀ i j, numLabel (c i) = numLabel (c j) → i = j)
    (hn : ∀ i j : Fin ni, inputName names i = inputName names j → i = j) :
    ∀ {e e' : GpExpr nc ni} {id : Nat}, Shows names c p id e → Shows names c p id e' → e = e' := by
  have hnum : ∀ (v : K) (s : String), numLabel v ≠ .text s := by
    intro v s h
    unfold numLabel at h
    split at h <;> cases h
  have hs : ∀ f g : Fin 4, sign f = sign g → f = g := by decide
  intro e e' id h
  induction h generalizing e' with
  | const i h1 h2 =>
    intro h'
    cases h' with
    | const j k1 k2 =>
      rw [k1] at h1
      rw [hc j i (List.cons.inj h1).1]
    | input j k1 k2 =>
      rw [k1] at h1
      exact absurd (List.cons.inj h1).1.symm (hnum _ _)
    | func g k1 k2 k3 k4 => rw [k2] at h2; cases h2
  | input i h1 h2 =>
    intro h'
    cases h' with
    | const j k1 k2 =>
      rw [k1] at h1
      exact absurd (List.cons.inj h1).1 (hnum _ _)
    | input j k1 k2 =>
      rw [k1] at h1
      rw [hn j i (Lab.text.inj (List.cons.inj h1).1)]
    | func g k1 k2 k3 k4 => rw [k2] at h2; cases h2
  | func f h1 h2 h3 h4 ih1 ih2 =>
    intro h'
    cases h' with
    | const j k1 k2 => rw [k2] at h2; cases h2
    | input j k1 k2 => rw [k2] at h2; cases h2
    | func g k1 k2 k3 k4 =>
      rw [k1] at h1
      rw [k2] at h2
      cases h2
      rw [ih1 k3, ih2 k4, hs g f (Lab.text.inj (List.cons.inj h1).1)]

/-! ## Graphs -/

theorem export_graph {a : DgpArgs} {d : Graph K} (hd : Wired a d) :
    ∃ j g, dgpExport d = .ok j ∧ graphExport d = .ok g ∧
      graphItem j = some (graphJson d.nInputs g) := by
  have h := export_ok hd
  generalize hg : GraphJson.mk .. = g at h
  refine ⟨.obj [("type", .str "dgp"), ("graph", graphJson d.nInputs g)], g, ?_, h, rfl⟩
  unfold dgpExport
  rw [h]
  rfl

/-- **C103**, graphs: the exported graph of a well-formed condition is drawn.  The caption has its
size and its number of cycles, and what the nodes and arrows of the picture say about the states
after any number of rounds, for any input and any starting states, is what the graph computes.
Every arrow from an input comes from a feature that is drawn with the name the user gave to it. -/
theorem C103_graph {a : DgpArgs} (ha : a.Legal) {d : Graph K} (hd : Wired a d)
    (names : Option (List String)) :
    ∃ j doc g, dgpExport d = .ok j ∧ graphItem j = some doc ∧ dgpViz names doc = .ok g ∧
      g.n = d.n ∧ g.t = d.t ∧ g.nodes.map Prod.fst = (List.range d.n).map Nat.cast ∧
      (∀ x s : Nat → K, ∀ t i, i < d.n → g.states x s t i = statesAfter d x s t i) ∧
      (∀ i, ∀ c : Int, .feature c ∈ g.into i → i < d.n →
        (c, .text (inputName names c.toNat)) ∈ g.features) ∧
      (∀ f ∈ g.features, f.2 = .text (inputName names f.1.toNat)) := by
  obtain ⟨j, doc, h1, h2, h3⟩ := export_graph hd
  refine ⟨j, _, _, h1, h3, dgpViz_spec ha hd h2, rfl, rfl, ?_,
    fun x s t i hi => states_eq ha hd x s t i hi, ?_, ?_⟩
  · unfold netOf
    rw [List.map_map]
    rfl
  · intro i c hc hi
    rw [netOf_into hi] at hc
    obtain ⟨k, hk, e⟩ := List.mem_map.1 hc
    unfold netOf
    refine List.mem_flatMap.2 ⟨i, List.mem_range.2 hi, ?_⟩
    unfold featuresOf
    refine List.mem_flatMap.2 ⟨k, hk, ?_⟩
    unfold source at e
    unfold featureOf
    by_cases hlt : connection d i k < d.nInputs
    · rw [if_pos hlt] at e ⊢
      cases e
      exact List.mem_singleton.2 rfl
    · rw [if_neg hlt] at e
      cases e
  · intro f hf
    unfold netOf at hf
    obtain ⟨i, -, hf⟩ := List.mem_flatMap.1 hf
    unfold featuresOf at hf
    obtain ⟨k, -, hf⟩ := List.mem_flatMap.1 hf
    unfold featureOf at hf
    split at hf
    · rw [List.mem_singleton.1 hf]
    · cases hf

/-! ## The rules of a system -/

theorem contains_gp {S : Setup K} {t : GpTree K} {n : Nat} {e : GpExpr S.gp.constants.length n}
    (he : t.tree = e.code) {x : List K} (hx : x.length = n) :
    CondType.Contains S .gp t x ↔
      1 / 2 < e.value S.gp.constants.get (fun i : Fin n => x.getD i 0) := by
  subst hx
  have hv : (fun i : Fin x.length => x.getD i 0) = x.get := by
    funext i
    exact getD_lt i.2 0
  rw [hv]
  refine ⟨?_, fun h => ⟨e, he, h⟩⟩
  rintro ⟨e', he', h⟩
  have h1 := C33_match (a := S.gp) (x := x) he
  rw [C33_match (a := S.gp) (x := x) he'] at h1
  have h2 := congrArg (fun q : Res (Bool × GpTree K) => match q with
    | .ok p => p.1
    | .error _ => false) h1
  have h2 : decide _ = decide _ := h2
  rw [decide_eq_decide] at h2
  exact h2.1 h

theorem tree_pictures {S : Setup K} (names : Option (List String)) : ∀ {c : CondType}, c = .gp →
    c.Legal S → ∀ {b : c.Body K}, c.W S b →
    ∃ j items, ∃ e : GpExpr S.gp.constants.length S.xDim,
      c.export S b = .ok j ∧ treeItems j = some items ∧
      (∀ x : List K, x.length = S.xDim → (c.Contains S b x ↔
        1 / 2 < e.value S.gp.constants.get (fun i : Fin S.xDim => x.getD i 0))) ∧
      ∀ limit, 3 * e.depth + 1 ≤ limit → ∃ p, treeViz limit names items = .ok p ∧
        Shows names S.gp.constants.get p e.size e
  | .gp, _, hl, b, w => by
    have w : GpTree.Codes S.gp.constants.length S.gp.nInputs b := w
    have hl : S.gp.Legal ∧ S.gp.nInputs ≤ S.xDim := hl
    obtain ⟨e, he⟩ := w.widen hl.2
    obtain ⟨j, h1, h2⟩ := export_tree he
    exact ⟨j, _, e, h1, h2, fun x hx => contains_gp he hx, fun limit hle =>
      ⟨⟨picNodes names S.gp.constants.get 0 e, picEdges 0 e⟩,
        by rw [treeViz_eq, if_pos ((frames_depth e).trans hle)], drawn_shows names _ e⟩⟩

/-- Every tree in the population of a system (all operations keep rules well-formed, C74): its
picture shows an expression,
and the rule contains an input exactly when the value of this expression is above one half. -/
theorem C103_tree_rules_partial (Y : System K R) (hg : Y.cond = .gp) (names : Option (List String))
    (s : St K Y.In Y.Rule R) : ∀ c ∈ population s, ∃ j items, ∃ e : GpExpr Y.S.gp.constants.length Y.S.xDim,
      Y.cond.export Y.S c.body.1.cond = .ok j ∧ treeItems j = some items ∧
      (∀ x : Y.In, Y.Contains c.body x.1 ↔
        1 / 2 < e.value Y.S.gp.constants.get (fun i : Fin Y.S.xDim => x.1.getD i 0)) ∧
      ∀ limit, 3 * e.depth + 1 ≤ limit → ∃ p, treeViz limit names items = .ok p ∧
        Shows names Y.S.gp.constants.get p e.size e := by
  intro c _
  obtain ⟨j, items, e, h1, h2, h3, h4⟩ := tree_pictures names hg Y.hcond c.body.2.cond
  exact ⟨j, items, e, h1, h2, fun x => h3 x.1 x.2, h4⟩

theorem graph_pictures {S : Setup K} (names : Option (List String)) : ∀ {c : CondType}, c = .dgp →
    c.Legal S → ∀ {b : c.Body K}, c.W S b →
    ∃ j doc g, ∃ init : Nat → K, c.export S b = .ok j ∧ graphItem j = some doc ∧
      dgpViz names doc = .ok g ∧
      ∀ x : List K, (c.Contains S b x ↔ 1 / 2 < g.states (fun i => x.getD i 0) init g.t.toNat 0)
  | .dgp, _, hl, b, w => by
    have w : Wired S.dgp b := w
    have hl : S.dgp.Legal ∧ S.dgp.nInputs ≤ S.xDim := hl
    obtain ⟨j, doc, g, h1, h2, h3, -, h5, -, h6, -⟩ := C103_graph hl.1 w names
    refine ⟨j, doc, g, startStates b true, h1, h2, h3, fun x => ?_⟩
    have h0 : 0 < (b : Graph K).n := by
      have := hl.1.n
      rw [← w.n] at this
      exact this
    rw [h5, h6 _ _ _ _ h0]
    rfl

/-- Every graph in the population of a system: from its picture, its caption and the initial states one finds out whether the rule contains an input. -/
theorem C103_graph_rules (Y : System K R) (hg : Y.cond = .dgp) (names : Option (List String))
    (s : St K Y.In Y.Rule R) : ∀ c ∈ population s, ∃ j doc g, ∃ init : Nat → K,
      Y.cond.export Y.S c.body.1.cond = .ok j ∧ graphItem j = some doc ∧
      dgpViz names doc = .ok g ∧
      ∀ x : Y.In, (Y.Contains c.body x.1 ↔
        1 / 2 < g.states (fun i => x.1.getD i 0) init g.t.toNat 0) := by
  intro c _
  obtain ⟨j, doc, g, init, h1, h2, h3, h4⟩ := graph_pictures names hg Y.hcond c.body.2.cond
  exact ⟨j, doc, g, init, h1, h2, h3, fun x => h4 x.1⟩

/-! ## What the pictures do not show -/

/-- A chain of sums. -/
def chain : Nat → GpExpr nc 1
  | 0 => .input 0
  | n + 1 => .func 0 (.input 0) (chain n)

theorem chain_frames : ∀ n, frames (chain n : GpExpr nc 1) = 3 * n + 1
  | 0 => rfl
  | n + 1 => by
    have := chain_frames n
    rw [chain, frames, this, frames]
    · omega
    all_goals simp

/-- A tree that is nested too deeply is not drawn, whatever limit Python has been given: the
constructor raises `RecursionError`. -/
theorem C103_deep_refuted (names : Option (List String)) (limit : Nat) (S : Setup K) :
    ∃ (t : GpTree K) (e : GpExpr S.gp.constants.length 1) (j : Json K) (items : List (Json K)),
      t.tree = e.code ∧ t.tree.length ≤ 2 * limit + 1 ∧ CondType.export S .gp t = .ok j ∧
      treeItems j = some items ∧ treeViz limit names items = .error .recursion := by
  have hsz : ∀ n, (chain n : GpExpr S.gp.constants.length 1).size = 2 * n + 1 := by
    intro n
    induction n with
    | zero => rfl
    | succ n ih => rw [chain, GpExpr.size, ih, GpExpr.size] <;> simp; omega
  obtain ⟨j, h1, h2⟩ := export_tree (S := S) (t := ⟨(chain limit).code, 0, 0⟩) (e := chain limit) rfl
  refine ⟨_, chain limit, j, _, rfl, ?_, h1, h2, ?_⟩
  · show (chain limit).code.length ≤ _
    rw [GpExpr.code_length, hsz]
  · rw [treeViz_eq, if_neg]
    rw [chain_frames]
    omega

/-- Constants are drawn with five decimals, so two trees can have the same picture although one
of them matches every input and the other none. -/
theorem C103_rounded_refuted : ∃ (a : GpArgs ℚ) (t t' : GpTree ℚ) (e e' : GpExpr a.constants.length 1)
    (items items' : List (Json ℚ)) (p : Pic),
    t.tree = e.code ∧ t'.tree = e'.code ∧
    (gpString a t.tree (t.tree.length + 1) 0).toOption.map (fun q => q.1.map GpTok.json) =
      some items ∧
    (gpString a t'.tree (t'.tree.length + 1) 0).toOption.map (fun q => q.1.map GpTok.json) =
      some items' ∧
    treeViz 1000 none items = .ok p ∧ treeViz 1000 none items' = .ok p ∧
    ∀ x : List ℚ, (gpMatch a x t).toOption.map Prod.fst = some true ∧
      (gpMatch a x t').toOption.map Prod.fst = some false := by
  refine ⟨⟨1, 1, 10, [500001 / 1000000, 499999 / 1000000]⟩, ⟨[4], 0, 0⟩, ⟨[5], 0, 0⟩, .const 0,
    .const 1, [.num (500001 / 1000000)], [.num (499999 / 1000000)], ⟨[(1, .fixed 50000)], []⟩, rfl,
    rfl, rfl, rfl, ?_, ?_, fun x => ⟨?_, ?_⟩⟩
  · have : (treeViz 1000 none [(.num (500001 / 1000000) : Json ℚ)]).toOption =
      some ⟨[(1, .fixed 50000)], []⟩ := by decide +kernel
    cases h : treeViz 1000 none [(.num (500001 / 1000000) : Json ℚ)] with
    | error => rw [h] at this; cases this
    | ok p => rw [h] at this; cases this; rfl
  · have : (treeViz 1000 none [(.num (499999 / 1000000) : Json ℚ)]).toOption =
      some ⟨[(1, .fixed 50000)], []⟩ := by decide +kernel
    cases h : treeViz 1000 none [(.num (499999 / 1000000) : Json ℚ)] with
    | error => rw [h] at this; cases this
    | ok p => rw [h] at this; cases this; rfl
  · rw [C33_match (a := ⟨1, 1, 10, [500001 / 1000000, 499999 / 1000000]⟩)
      (e := .const (⟨0, by decide⟩ : Fin 2)) rfl]
    show some (decide _) = _
    congr 1
    exact decide_eq_true (by show (1 : ℚ) / 2 < 500001 / 1000000; norm_num)
  · rw [C33_match (a := ⟨1, 1, 10, [500001 / 1000000, 499999 / 1000000]⟩)
      (e := .const (⟨1, by decide⟩ : Fin 2)) rfl]
    show some (decide _) = _
    congr 1
    exact decide_eq_false (by show ¬ (1 : ℚ) / 2 < 499999 / 1000000; norm_num)

/-! ## Examples -/

/-- The drawing of `(x + 1/2) * feature_1`, the user has named the first input only. -/
example : (treeViz 1000 (some ["x"]) (toks (fun _ => (1 / 2 : ℚ)) gpDemoExpr)).toOption =
    some ⟨[(1, .text "x"), (2, .fixed 50000), (3, .text "+"), (4, .text "feature_1"),
      (5, .text "*")], [(3, 1), (3, 2), (5, 3), (5, 4)]⟩ := by
  rw [treeViz_eq]
  decide +kernel

example : 3 * gpDemoExpr.depth + 1 ≤ 1000 := by decide

/-- Labels that can be told apart. -/
example : ∀ i j : Fin 2, numLabel ((fun k : Fin 2 => if k = 0 then (1 / 2 : ℚ) else 1 / 3) i) =
    numLabel ((fun k : Fin 2 => if k = 0 then (1 / 2 : ℚ) else 1 / 3) j) → i = j := by decide +kernel

example : ∀ i j : Fin 2, inputName (some ["x"]) i = inputName (some ["x"]) j → i = j := by
  decide +kernel

/-- The drawing of the demonstration graph. -/
example : (netOf none demoGraph).edges = [(.feature 0, .node 0), (.node 2, .node 0),
    (.feature 1, .node 1), (.node 0, .node 2), (.node 1, .node 2)] ∧
    (netOf none demoGraph).nodes = [(0, "Fuzzy OR"), (1, "Fuzzy NOT"), (2, "Fuzzy AND")] := by
  decide +kernel

example : demoDgp.Legal ∧ Wired demoDgp demoGraph :=
  ⟨⟨by decide, by decide, by decide, by decide⟩, demoGraph_wired⟩

end Xcsf.Viz
