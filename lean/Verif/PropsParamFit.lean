import Verif.ParamFit
import Verif.PropsParamJson

/-!
# Parameters and the problem they are for

C84: trees, graphs and networks that the parameters describe read the inputs of the problem and
give its outputs.  C85: with a given `random_state` the construction of a system is reproducible.
-/

set_option linter.unusedSectionVars false

namespace Xcsf

section
variable {K R : Type} [Field K] [LinearOrder K] [IsStrictOrderedRing K] [FloorRing K]

/-! ## C84 -/

/-- **C84** (partial).  Trees and graphs have the number of inputs of the problem that the system was
made for, whatever documents follow.  Missing: systems whose `x_dim` is set later, which includes all
that are made from Python (`C84_blind_refuted`). -/
theorem C84_trees_partial {g : Rng K R} {sd : Seeds R} {error : K} {explore : Bool} {x y a : Int}
    (hx : 1 ≤ x) {docs : List (Json K)} {p : SysPar K} {r : R}
    (hm : sysMade g sd error explore x y a docs = .ok (p, r)) (hp : p.xDim = x) :
    p.cond.targs.nInputs = p.xDim ∧ p.cond.dargs.nInputs = p.xDim := by
  obtain ⟨h1, h2⟩ := made_inputs hm
  have e : clamp1 x = x := if_neg (by omega)
  rw [e] at h1 h2
  exact ⟨h1.trans hp.symm, h2.trans hp.symm⟩

/-- **C84** fails for trees and graphs in Python.  Whatever the arguments of the constructor and of
`set_params` are, `x_dim` among them, tree and graph conditions look at the first input only: no rule
that a population can contain distinguishes two inputs with the same first component. -/
theorem C84_blind_refuted {g : Rng K R} {sd : Seeds R} {error : K} {explore : Bool}
    {docs : List (Json K)} {p : SysPar K} {r : R}
    (hm : sysMade g sd error explore 1 1 1 docs = .ok (p, r)) (Y : System K R)
    (hY : (Y.cond = .gp ∧ Y.S.gp = p.cond.targs.gpArgs) ∨
      (Y.cond = .dgp ∧ Y.S.dgp = p.cond.dargs.dgpArgs))
    (b : Y.Rule) (x x' : Y.In) (hx : x.1[0]? = x'.1[0]?) :
    Y.Contains b x.1 ↔ Y.Contains b x'.1 := by
  obtain ⟨h1, h2⟩ := made_inputs hm
  refine contains_congr (n := 1) Y.hcond b.2.1 ?_ x.2 x'.2 fun k hk => ?_
  · rcases hY with ⟨h, e⟩ | ⟨h, e⟩
    · refine .inl ⟨h, ?_⟩
      rw [e]
      show p.cond.targs.nInputs.toNat = 1
      rw [h1]
      rfl
    · refine .inr ⟨h, ?_⟩
      rw [e]
      show p.cond.dargs.nInputs.toNat = 1
      rw [h2]
      rfl
  · have : k = 0 := by omega
    rw [this]
    exact hx

/-- **C84** (partial), networks: layers given in a document after `x_dim` make networks with that
number of inputs, unless the first is a layer for images.  Missing: image layers
(`C84_image_refuted`), layers given before `x_dim` (`C84_order_refuted`), default layers and numbers
of outputs (`C84_defaults_refuted`). -/
theorem C84_networks_partial {g : Rng K R} (O : g.Open) {x : Int} (hx : 1 ≤ x) {j : Json K}
    {as : List (LArg K)} (h : importLayers x j = .ok as)
    (hi : ∀ a ∈ as.head?, receivesImages a.type = false) {r r' : R} {ls : List (GLay K)}
    {bs : List (LArg K)} (hc : createNet g as r = .ok ((ls, bs), r')) :
    ∃ m, netEnds ls = some (x, m) := by
  obtain ⟨b, cs, rfl, hb⟩ := importLayers_for hx h
  have hs := createNet_sizes O hc
  rw [fillLoop] at hs
  cases hz : (b.placed none).sizes with
  | error e => rw [hz] at hs; cases hs
  | ok z =>
    have e : z.1 = x := (sizes_inputs (hi b rfl) (by rw [hb]; omega) hz).trans hb
    rw [hz] at hs
    dsimp only at hs
    cases hf : fillLoop (some z.2) cs with
    | error e => rw [hf] at hs; cases hs
    | ok w =>
      rw [hf] at hs
      dsimp only at hs
      have hl : ls.map GLay.sizes = z :: w.1 := by
        injection hs with hs
        exact (congrArg Prod.fst hs).symm
      rw [netEnds_sizes hl, List.head?_cons, List.getLast?_cons]
      refine ⟨((w.1.getLast?.getD z).2.n), ?_⟩
      dsimp only
      rw [e]

/-- Dimensions, and networks with default layers. -/
def fitArgs (n m k : Int) : Json K :=
  .obj [("x_dim", jsonOfInt n), ("y_dim", jsonOfInt m), ("n_actions", jsonOfInt k),
    ("action", .obj [("type", .str "neural")]), ("condition", .obj [("type", .str "neural")]),
    ("prediction", .obj [("type", .str "neural")])]

/-- **C84** fails for default networks in Python: whatever numbers of inputs, outputs and actions are
asked for, the default networks of conditions, actions and predictions have one input, and those of
actions and predictions one output. -/
theorem C84_defaults_refuted {g : Rng K R} (O : g.Open) (sd : Seeds R) (error : K) (explore : Bool)
    {n m k : Int} (D : DimsOk n m k) :
    ∃ p r, sysMade g sd error explore 1 1 1 [fitArgs n m k] = .ok (p, r) ∧
      p.xDim = n ∧ p.yDim = m ∧ p.nActions = k ∧
      p.act.type = 1 ∧ p.cond.type = 4 ∧ p.pred.type = 5 ∧
      (∀ r z, createNet g p.act.largs r = .ok z → netEnds z.1.1 = some (1, 1)) ∧
      (∀ r z, createNet g p.cond.largs r = .ok z → netEnds z.1.1 = some (1, 10)) ∧
      (∀ r z, createNet g p.pred.largs r = .ok z → netEnds z.1.1 = some (1, 1)) := by
  have e : sysMade g sd error explore 1 1 1 [fitArgs n m k] = .ok
      ({ (sysInit g sd error explore 1 1 1).1 with
        xDim := n, yDim := m, nActions := k,
        act := { (sysInit g sd error explore 1 1 1).1.act with type := 1 },
        cond := { (sysInit g sd error explore 1 1 1).1.cond with type := 4 },
        pred := { (sysInit g sd error explore 1 1 1).1.pred with type := 5 } },
        (sysInit g sd error explore 1 1 1).2) := by
    rw [made_one]
    show importAll (paramTable g sd) _ _ = _
    rw [importAll_cons (member_int rfl D.x.2 (decide_eq_true D.x.1) _)]
    rw [importAll_cons (member_int rfl D.y.2 (decide_eq_true D.y.1) _)]
    rw [importAll_cons (member_int rfl D.a.2 (decide_eq_true D.a.1) _)]
    rfl
  refine ⟨_, _, e, rfl, rfl, rfl, rfl, rfl, rfl, ?_, ?_, ?_⟩
  · intro r z h
    have hs := createNet_sizes O h
    have hf : fillLoop none (actLayersDefault (K := K) 1 1) = .ok
      ([(1, ⟨1, 1, 1, 1⟩), (1, ⟨1, 1, 1, 1⟩), (1, ⟨1, 1, 1, 1⟩)], _) := rfl
    have hs' : fillLoop none (actLayersDefault (K := K) 1 1) = _ := hs
    rw [hf] at hs'
    rw [netEnds_sizes (congrArg Prod.fst (Except.ok.inj hs')).symm]
    rfl
  · intro r z h
    have hs := createNet_sizes O h
    have hf : fillLoop none (condLayersDefault (K := K) 1) = .ok
      ([(1, ⟨10, 10, 1, 1⟩), (10, ⟨10, 10, 1, 1⟩)], _) := rfl
    have hs' : fillLoop none (condLayersDefault (K := K) 1) = _ := hs
    rw [hf] at hs'
    rw [netEnds_sizes (congrArg Prod.fst (Except.ok.inj hs')).symm]
    rfl
  · intro r z h
    have hs := createNet_sizes O h
    have hf : fillLoop none (predLayersDefault (K := K) 1 1) = .ok
      ([(1, ⟨10, 10, 1, 1⟩), (10, ⟨1, 1, 1, 1⟩)], _) := rfl
    have hs' : fillLoop none (predLayersDefault (K := K) 1 1) = _ := hs
    rw [hf] at hs'
    rw [netEnds_sizes (congrArg Prod.fst (Except.ok.inj hs')).symm]
    rfl

/-- The numbers of inputs and outputs of the network for predictions. -/
def predEnds (docs : List (Json ℚ)) : Res (Int × Option (Int × Int)) := do
  let (p, r) ← sysMade demoRng demoSeeds 0 false 1 1 1 docs
  let ((ls, _), _) ← createNet demoRng p.pred.largs r
  .ok (p.xDim, netEnds ls)

/-- A convolution over an image. -/
def convArgs : Json ℚ :=
  .obj [("type", .str "neural"), ("args", .obj
    [("layer_0", .obj [("type", .str "convolutional"), ("activation", .str "relu"),
      ("height", jsonOfInt 3), ("width", jsonOfInt 3), ("channels", jsonOfInt 1),
      ("size", jsonOfInt 1), ("stride", jsonOfInt 1), ("n_init", jsonOfInt 1)])])]

/-- One linear neuron. -/
def lineArgs : Json ℚ :=
  .obj [("type", .str "neural"), ("args", .obj
    [("layer_0", .obj [("type", .str "connected"), ("activation", .str "linear"),
      ("n_init", jsonOfInt 1)])])]

/-- **C84** fails for images: height, width and channels of a first layer for images are not compared
with `x_dim`.  Here a network that reads nine inputs is accepted for a problem with four. -/
theorem C84_image_refuted :
    predEnds [.obj [("x_dim", jsonOfInt 4), ("prediction", convArgs)]] = .ok (4, some (9, 9)) := by
  have h : Demo.Res.test
      (predEnds [.obj [("x_dim", jsonOfInt 4), ("prediction", convArgs)]])
      (fun z => decide (z = (4, some (9, 9)))) = true := by decide +kernel
  obtain ⟨z, h1, h2⟩ := Demo.Res.test_iff h
  rw [h1, of_decide_eq_true h2]

/-- **C84** fails for layers given before `x_dim`: the order of the members of a document matters.
The same two members give networks with four inputs or with one. -/
theorem C84_order_refuted :
    predEnds [.obj [("x_dim", jsonOfInt 4), ("prediction", lineArgs)]] = .ok (4, some (4, 1)) ∧
    predEnds [.obj [("prediction", lineArgs), ("x_dim", jsonOfInt 4)]] = .ok (4, some (1, 1)) := by
  have h : Demo.Res.test
      (predEnds [.obj [("x_dim", jsonOfInt 4), ("prediction", lineArgs)]])
      (fun z => decide (z = (4, some (4, 1)))) = true := by decide +kernel
  have h' : Demo.Res.test
      (predEnds [.obj [("prediction", lineArgs), ("x_dim", jsonOfInt 4)]])
      (fun z => decide (z = (4, some (1, 1)))) = true := by decide +kernel
  obtain ⟨z, h1, h2⟩ := Demo.Res.test_iff h
  obtain ⟨z', h1', h2'⟩ := Demo.Res.test_iff h'
  rw [h1, of_decide_eq_true h2, h1', of_decide_eq_true h2']
  exact ⟨rfl, rfl⟩

/-! ## C85 -/

/-- Parameters that agree but for the constants of trees. -/
def SameButConstants (p p' : SysPar K) : Prop :=
  ∃ l l', { p with cond := { p.cond with targs := { p.cond.targs with constants := l } } } =
    { p' with cond := { p'.cond with targs := { p'.cond.targs with constants := l' } } }

/-- The document has a `random_state`, which is not negative. -/
def Seeded (l : List (String × Json K)) : Prop :=
  (∃ m ∈ l, m.1 = "random_state") ∧
    ∀ m ∈ l, m.1 = "random_state" → ∃ v, m.2 = .num v ∧ 0 ≤ jsonInt v

/-- The document asks for tree conditions with arguments, after `random_state`. -/
def TreesSeeded (l : List (String × Json K)) : Prop :=
  ∃ l1 j l2, l = l1 ++ ("condition", j) :: l2 ∧ (∃ m ∈ l1, m.1 = "random_state") ∧
    DrawsConstants j

/-- **C85** (partial).  Two systems made from the same document, with a `random_state`, at two
different times (the clocks of `sd` and `sd'` are arbitrary): both are refused in the same way, or
both are accepted, their parameters agree but for the constants of trees, and they draw the same
random numbers from then on.  If the document asks for trees with arguments after `random_state`
then the constants agree too.  Missing: trees with default arguments (`C85_constants_refuted`). -/
theorem C85_seeded_partial {g : Rng K R} {sd sd' : Seeds R} (hs : sd.seed = sd'.seed) (error : K)
    (explore : Bool) (x y a : Int) {l : List (String × Json K)} (S : Seeded l) :
    (∃ f, sysMade g sd error explore x y a [.obj l] = .error f ∧
      sysMade g sd' error explore x y a [.obj l] = .error f) ∨
    ∃ p p' r, sysMade g sd error explore x y a [.obj l] = .ok (p, r) ∧
      sysMade g sd' error explore x y a [.obj l] = .ok (p', r) ∧ SameButConstants p p' ∧
      (TreesSeeded l → p = p') := by
  rw [made_one, made_one]
  have A : Alike false false (sysInit g sd error explore x y a)
      (sysInit g sd' error explore x y a) :=
    ⟨rfl, (fun h => absurd h (by decide)), (fun h => absurd h (by decide))⟩
  show (∃ f, importAll _ _ l = _ ∧ importAll _ _ l = _) ∨ ∃ p p' r, importAll _ _ l = _ ∧
    importAll _ _ l = _ ∧ _
  have H := all_twin (g := g) hs l (b := false) (c := false) (b' := true) id
    (fun m hm h => S.2 m hm h) (fun _ => .inr S.1) A
  rcases H with ⟨f, e, e'⟩ | ⟨⟨p, r⟩, ⟨p', r'⟩, e, e', B⟩
  · exact .inl ⟨f, e, e'⟩
  · right
    have hr : r = r' := B.rng rfl
    subst hr
    refine ⟨p, p', r, e, e', ⟨[], [], B.par⟩, ?_⟩
    rintro ⟨l1, j, l2, rfl, h1, hj⟩
    have S1 : ∀ m ∈ l1, m.1 = "random_state" → SeedsIt m.2 := fun m hm h =>
      S.2 m (List.mem_append_left _ hm) h
    have S2 : ∀ m ∈ l2, m.1 = "random_state" → SeedsIt m.2 := fun m hm h =>
      S.2 m (List.mem_append_right _ (List.mem_cons_of_mem _ hm)) h
    have H1 := all_twin (g := g) hs l1 (b := false) (c := false) (b' := true) id S1
      (fun _ => .inr h1) A
    unfold importAll at e e' H1
    simp only [List.foldlM_append, List.foldlM_cons] at e e'
    rcases H1 with ⟨f, u, u'⟩ | ⟨s, s', u, u', B1⟩
    · rw [u] at e
      cases e
    · rw [u] at e
      rw [u'] at e'
      have H2 := member_twin (g := g) hs (b := true) (c := false) (b' := true) (c' := true)
        (m := ("condition", j)) (fun _ => rfl) (fun h => absurd (show "condition" = "random_state" from h) (by decide))
        (fun _ => .inl rfl)
        (fun _ => .inr ⟨rfl, rfl, hj⟩) B1
      simp only [bind, Except.bind] at e e'
      rcases H2 with ⟨f, v, v'⟩ | ⟨t, t', v, v', B2⟩
      · rw [v] at e
        cases e
      · rw [v] at e
        rw [v'] at e'
        have H3 := all_twin (g := g) hs l2 (b := true) (c := true) (b' := true) id S2
          (fun _ => .inl rfl) B2
        unfold importAll at H3
        dsimp only at e e'
        rcases H3 with ⟨f, w, w'⟩ | ⟨q, q', w, w', B3⟩
        · rw [w] at e
          cases e
        · rw [w] at e
          rw [w'] at e'
          have hc := B3.const rfl
          have hp := congrArg (fun p : SysPar K => ({ p with
            cond := { p.cond with
              targs := { p.cond.targs with constants := q.1.cond.targs.constants } } } :
                SysPar K)) B3.par
          have e1 : q.1 = ({ q'.1 with
            cond := { q'.1.cond with
              targs := { q'.1.cond.targs with constants := q.1.cond.targs.constants } } } :
                SysPar K) := hp
          rw [hc] at e1
          have z : q.1 = p := by rw [Except.ok.inj e]
          have z' : q'.1 = p' := by rw [Except.ok.inj e']
          rw [← z, ← z']
          exact e1

/-- A seed, and trees with default arguments. -/
def treeArgs : List (String × Json ℚ) :=
  [("random_state", jsonOfInt 7), ("condition", .obj [("type", .str "tree_gp")])]

/-- **C85** fails for trees with default arguments: their constants are drawn when the system is
made, from numbers that depend on the clock, before `random_state` has an effect. -/
theorem C85_constants_refuted : Seeded treeArgs ∧ ∃ p p' r,
    sysMade demoRng ⟨0, Int.toNat⟩ 0 false 1 1 1 [.obj treeArgs] = .ok (p, r) ∧
    sysMade demoRng ⟨1, Int.toNat⟩ 0 false 1 1 1 [.obj treeArgs] = .ok (p', r) ∧
    p.cond.type = 5 ∧ p'.cond.type = 5 ∧ p.cond.targs.constants ≠ p'.cond.targs.constants := by
  have S : Seeded treeArgs := by
    refine ⟨⟨_, List.mem_cons_self, rfl⟩, fun m hm h => ?_⟩
    rcases List.mem_cons.1 hm with rfl | hm
    · exact ⟨7, rfl, by decide +kernel⟩
    · rw [List.mem_singleton.1 hm] at h
      exact absurd h (by decide)
  refine ⟨S, ?_⟩
  have h : Demo.Res.test (do
      let a ← sysMade demoRng ⟨0, Int.toNat⟩ 0 false 1 1 1 [.obj treeArgs]
      let b ← sysMade demoRng ⟨1, Int.toNat⟩ 0 false 1 1 1 [.obj treeArgs]
      .ok (a, b)) (fun z => decide (z.1.1.cond.type = 5 ∧ z.2.1.cond.type = 5 ∧
        z.1.1.cond.targs.constants ≠ z.2.1.cond.targs.constants)) = true := by decide +kernel
  rcases C85_seeded_partial (g := demoRng) (sd := ⟨0, Int.toNat⟩) (sd' := ⟨1, Int.toNat⟩) rfl 0
    false 1 1 1 S with ⟨f, e, e'⟩ | ⟨p, p', r, e, e', -⟩
  · rw [e, e'] at h
    cases h
  · rw [e, e'] at h
    exact ⟨p, p', r, e, e', of_decide_eq_true h⟩

/-! ## Examples -/

/-- A tree condition of a system for two inputs that reads one: such systems exist. -/
example : ∃ Y : System ℚ Nat, Y.cond = .gp ∧ Y.S.xDim = 2 ∧ Y.S.gp.nInputs = 1 := by
  let Y := demoSystem .gp .constant
  refine ⟨{ Y with
    S := { demoSetup with gp := { demoSetup.gp with nInputs := 1 } }
    hcond := ⟨⟨by decide, by decide⟩, by decide⟩
    hxDim := rfl
    hyDim := Y.hyDim
    hbeta := Y.hbeta
    heta := Y.heta }, rfl, rfl, rfl⟩

example : ∃ as, importLayers 4 (.obj
    [("layer_0", .obj [("type", .str "connected"), ("activation", .str "linear"),
      ("n_init", jsonOfInt 2)])] : Json ℚ) = .ok as ∧
    (∀ a ∈ as.head?, receivesImages a.type = false) ∧
    ∃ z, createNet demoRng as 0 = .ok z := by
  obtain ⟨as, h1, h2⟩ := Demo.Res.test_iff (m := importLayers 4 (.obj
    [("layer_0", .obj [("type", .str "connected"), ("activation", .str "linear"),
      ("n_init", jsonOfInt 2)])] : Json ℚ))
    (p := fun as => (as.head?.all fun a => !receivesImages a.type) &&
      Demo.Res.test (createNet demoRng as 0) fun _ => true) (by decide +kernel)
  rw [Bool.and_eq_true] at h2
  obtain ⟨z, h3, -⟩ := Demo.Res.test_iff h2.2
  refine ⟨as, h1, fun a ha => ?_, z, h3⟩
  have h := h2.1
  rw [Option.mem_def.1 ha] at h
  simpa using h

example : TreesSeeded ([("random_state", jsonOfInt 7),
    ("condition", .obj [("type", .str "tree_gp"), ("args", .obj [])])] : List (String × Json ℚ)) :=
  ⟨[("random_state", jsonOfInt 7)], _, [], rfl, ⟨_, List.mem_cons_self, rfl⟩, rfl, _, rfl⟩

end
end Xcsf
