import Verif.ParamValid
import Verif.PropsUtil
import Verif.Demo

/-!
# Parameters as documents: reports, imports, limits

C83: a report of the parameters can be read back and restores them.  C86: whatever documents are
accepted, every parameter that has a range stays in it, and unknown names are refused.  C87: a
report changes nothing.
-/

set_option linter.unusedSectionVars false

namespace Xcsf

section
variable {K R : Type} [Field K] [LinearOrder K] [IsStrictOrderedRing K] [FloorRing K]

/-! ## C83 -/

/-- **C83** (partial).  However the parameters of a system came about, if they are reportable then
their report can be imported into any other system (with any other parameters `q`), gives that
system the same parameters, and any later report of it is the same document.  Missing: layers whose
reports are not read back, and names of files that do not end (`C83_image_refuted`,
`C83_default_refuted`, `C83_file_refuted`). -/
theorem C83_report_partial {g : Rng K R} (O : g.Open) (sd : Seeds R) {error : K} {explore : Bool}
    {x y a : Int} (D : DimsOk x y a) {docs : List (Json K)} {p : SysPar K} {r : R}
    (hm : sysMade g sd error explore x y a docs = .ok (p, r)) (P : p.Reportable)
    {r' : R} {j : Json K} {p1 : SysPar K} {r1 : R}
    (hr : paramExport g p r' = .ok ((j, p1), r1)) (q : SysPar K) (s : R) :
    ∃ p' s', paramImport g sd j (q, s) = .ok (p', s') ∧ SameParams p p' ∧
      ∀ u, ∃ p'' u', paramExport g p' u = .ok ((j, p''), u') := by
  obtain ⟨V, I⟩ := made_valid D hm
  exact params_trip O sd V I P.file P.act P.cond P.pred hr q s

/-- **C83** (partial), without neural networks: the report always exists, is read back, and restores
the parameters. -/
theorem C83_plain_partial {g : Rng K R} (O : g.Open) (sd : Seeds R) {error : K} {explore : Bool}
    {x y a : Int} (D : DimsOk x y a) {docs : List (Json K)} {p : SysPar K} {r : R}
    (hm : sysMade g sd error explore x y a docs = .ok (p, r)) (N : p.NoNets)
    (F : FileOk p.popFile) : ∃ j, ∀ q s, ∃ p' s', paramExport g p s = .ok ((j, p), s) ∧
      paramImport g sd j (q, s) = .ok (p', s') ∧ SameParams p p' ∧
      ∀ u, ∃ p'' u', paramExport g p' u = .ok ((j, p''), u') := by
  obtain ⟨V, I⟩ := made_valid D hm
  obtain ⟨j, hj⟩ := nonets_export (g := g) V F N
  refine ⟨j, fun q s => ?_⟩
  obtain ⟨p', s', h⟩ := params_trip O sd V I F (fun h h' => absurd h' (N.act h))
    (by
      rintro (h | h | h)
      · exact absurd h N.cond.1
      · exact absurd h N.cond.2.1
      · exact absurd h N.cond.2.2) (fun h => absurd h N.pred) (hj s) q s
  exact ⟨p', s', hj s, h⟩

/-- A number in a document. -/
def Json.numAt : List String → Json K → Option K
  | [], .num v => some v
  | [], _ => none
  | n :: l, j =>
    match j.item n with
    | some j => j.numAt l
    | none => none

/-- Seeds for the examples. -/
def demoSeeds : Seeds Nat := ⟨0, Int.toNat⟩

/-- Two reports with an import of the first between them. -/
def twoReports (kwargs : Json ℚ) : Res (Json ℚ × Json ℚ) := do
  let (p, r) ← sysMade demoRng demoSeeds 0 false 1 1 1 [kwargs]
  let ((j, p), r) ← paramExport demoRng p r
  let (p, r) ← paramImport demoRng demoSeeds j (p, r)
  let ((j', _), _) ← paramExport demoRng p r
  .ok (j, j')

/-- A dropout layer for images of size 2 × 2 and a convolution behind it. -/
def imageArgs : Json ℚ :=
  .obj [("x_dim", jsonOfInt 4), ("prediction", .obj [("type", .str "neural"), ("args", .obj
    [("layer_0", .obj [("type", .str "dropout"), ("probability", .num (1 / 2)),
      ("height", jsonOfInt 2), ("width", jsonOfInt 2), ("channels", jsonOfInt 1)]),
     ("layer_1", .obj [("type", .str "convolutional"), ("activation", .str "relu"),
      ("size", jsonOfInt 1), ("stride", jsonOfInt 1), ("n_init", jsonOfInt 1)])])])]

/-- Four inputs and the default network for predictions. -/
def defaultArgs : Json ℚ :=
  .obj [("x_dim", jsonOfInt 4), ("prediction", .obj [("type", .str "neural")])]

/-- Whether two reports differ in a number. -/
def differAt (path : List String) (z : Res (Json ℚ × Json ℚ)) : Bool :=
  match z with
  | .ok (a, b) => decide (a.numAt path ≠ b.numAt path)
  | .error _ => false

theorem differ_of {path : List String} {z : Res (Json ℚ × Json ℚ)} (h : differAt path z = true) :
    ∃ a b, z = .ok (a, b) ∧ a ≠ b := by
  unfold differAt at h
  cases z with
  | error e => cases h
  | ok z =>
    refine ⟨z.1, z.2, rfl, fun e => ?_⟩
    dsimp only at h
    rw [e] at h
    simp at h

/-- **C83** fails for images: after a first layer of dropout (or noise) an import restores the number
of inputs but not height, width and channels, so that the layers behind it are built for another
shape. -/
theorem C83_image_refuted : ∃ j j', twoReports imageArgs = .ok (j, j') ∧ j ≠ j' :=
  differ_of (path := ["prediction", "args", "layer_1", "height"]) (by decide +kernel)

/-- **C83** fails for default networks: after `x_dim` is set the default layers still have one
input, the report says so, and its import changes that to `x_dim`. -/
theorem C83_default_refuted : ∃ j j', twoReports defaultArgs = .ok (j, j') ∧ j ≠ j' :=
  differ_of (path := ["prediction", "args", "layer_0", "n_inputs"]) (by decide +kernel)

/-- The system with a given name of the population file. -/
theorem made_file (g : Rng K R) (sd : Seeds R) (error : K) (explore : Bool) (x y a : Int)
    (t : String) : sysMade g sd error explore x y a [.obj [("population_file", .str t)]] =
      .ok ({ (sysInit g sd error explore x y a).1 with
        popFile := setPopFile (t.toList.takeWhile (· ≠ Char.ofNat 0)) },
        (sysInit g sd error explore x y a).2) := rfl

/-- **C83** fails for long names: a population file whose name has more than 512 characters is
accepted, and the report then reads beyond the end of the memory for the name. -/
theorem C83_file_refuted (g : Rng K R) (sd : Seeds R) (error : K) (explore : Bool) (x y a : Int)
    (t : String) (h0 : Char.ofNat 0 ∉ t.toList) (hl : 512 < t.toList.length) :
    ∃ p r, sysMade g sd error explore x y a [.obj [("population_file", .str t)]] = .ok (p, r) ∧
      ∀ r', paramExport g p r' = .error .ub := by
  refine ⟨_, _, made_file g sd error explore x y a t, fun r' => ?_⟩
  unfold paramExport scalarMembers cstring
  rw [if_neg]
  · rfl
  · dsimp only [setPopFile]
    intro h
    rw [List.take_append_of_le_length] at h
    · exact h0 (List.takeWhile_subset _ (List.mem_of_mem_take h))
    · have e : t.toList.takeWhile (· ≠ Char.ofNat 0) = t.toList :=
        takeWhile_keep fun c hc => by
          simp only [ne_eq, decide_eq_true_eq]
          intro e
          exact h0 (e ▸ hc)
      rw [e]
      exact hl

example : Char.ofNat 0 ∉ (String.ofList (List.replicate 513 'a')).toList ∧
    512 < (String.ofList (List.replicate 513 'a')).toList.length := by
  rw [String.toList_ofList]
  refine ⟨fun h => ?_, by rw [List.length_replicate]; decide⟩
  have := List.eq_of_mem_replicate h
  exact absurd this (by decide)

/-! ## C86 -/

/-- **C86** (partial).  However the parameters of a system came about — any documents of any
content, each of which was accepted — every parameter that is not one of a layer is in its range.
Missing: the parameters of layers (`C86_layers_refuted`). -/
theorem C86_ranges_partial {g : Rng K R} {sd : Seeds R} {error : K} {explore : Bool} {x y a : Int}
    (D : DimsOk x y a) {docs : List (Json K)} {p : SysPar K} {r : R}
    (hm : sysMade g sd error explore x y a docs = .ok (p, r)) : p.Valid ∧ p.Ints :=
  made_valid D hm

/-- **C86**, refusals: a document with a name that is not that of a parameter, or with a value of
the wrong kind, is not accepted. -/
theorem C86_refuses {g : Rng K R} {sd : Seeds R} {s : SysPar K × R} {l : List (String × Json K)}
    {m : String × Json K} (hm : m ∈ l) (h : ¬∃ k, (m.1, k) ∈ paramKinds ∧ k.fits m.2) :
    ∃ f, paramImport g sd (.obj l) s = .error f := by
  cases e : paramImport g sd (.obj l) s with
  | error f => exact ⟨f, rfl⟩
  | ok s' => exact absurd (all_kinds e m hm) h

/-- One layer with a learning rate. -/
def etaArgs (v : K) : Json K :=
  .obj [("prediction", .obj [("type", .str "neural"), ("args", .obj
    [("layer_0", .obj [("type", .str "connected"), ("activation", .str "linear"),
      ("n_init", jsonOfInt 1), ("eta", .num v)])])])]

/-- **C86** fails for layers: any learning rate of a layer is accepted, negative ones included. -/
theorem C86_layers_refuted : ∃ p r,
    sysMade demoRng demoSeeds 0 false 1 1 1 [etaArgs (-1)] = .ok (p, r) ∧ p.pred.type = 5 ∧
      ∃ l ∈ p.pred.largs, l.eta < 0 := by
  obtain ⟨z, h1, h2⟩ := Demo.Res.test_iff
    (m := sysMade demoRng demoSeeds 0 false 1 1 1 [etaArgs (-1)])
    (p := fun z => z.1.pred.type == 5 && z.1.pred.largs.any fun l => decide (l.eta < 0))
    (by decide +kernel)
  rw [Bool.and_eq_true, beq_iff_eq, List.any_eq_true] at h2
  obtain ⟨h2, l, hl, h3⟩ := h2
  exact ⟨z.1, z.2, h1, h2, l, hl, of_decide_eq_true h3⟩

/-! ## C87 -/

/-- **C87** (partial), without neural networks: a report leaves the parameters and the random numbers
as they are.  Missing: neural networks (`C87_draws_refuted`). -/
theorem C87_nothing_partial {g : Rng K R} {sd : Seeds R} {error : K} {explore : Bool} {x y a : Int}
    (D : DimsOk x y a) {docs : List (Json K)} {p : SysPar K} {r : R}
    (hm : sysMade g sd error explore x y a docs = .ok (p, r)) (N : p.NoNets)
    (F : FileOk p.popFile) : ∃ j, ∀ r', paramExport g p r' = .ok ((j, p), r') :=
  nonets_export (made_valid D hm).1 F N

/-- **C87** (partial), with neural networks: a second report is the same document as the first, and
leaves the parameters as the first left them. -/
theorem C87_again_partial {g : Rng K R} (O : g.Open) {p p' : SysPar K} {r r' : R} {j : Json K}
    (h : paramExport g p r = .ok ((j, p'), r')) (s : R) :
    ∃ s', paramExport g p' s = .ok ((j, p'), s') :=
  export_again O h s

/-- The default network for predictions. -/
def neuralArgs : Json ℚ := .obj [("prediction", .obj [("type", .str "neural")])]

/-- **C87** fails for neural networks: a report builds a network, and so draws random numbers. -/
theorem C87_draws_refuted : ∃ p r j p' r',
    sysMade demoRng demoSeeds 0 false 1 1 1 [neuralArgs] = .ok (p, r) ∧
      paramExport demoRng p r = .ok ((j, p'), r') ∧ r' ≠ r := by
  obtain ⟨z, h1, h2⟩ := Demo.Res.test_iff
    (m := sysMade demoRng demoSeeds 0 false 1 1 1 [neuralArgs])
    (p := fun z => Demo.Res.test (paramExport demoRng z.1 z.2) fun y => decide (y.2 ≠ z.2))
    (by decide +kernel)
  obtain ⟨y, h3, h4⟩ := Demo.Res.test_iff h2
  exact ⟨z.1, z.2, y.1.1, y.1.2, y.2, h1, h3, of_decide_eq_true h4⟩

/-! ## Examples -/

/-- Four inputs, two actions, the default network for predictions. -/
example : ∃ p r j p1 r1, sysMade demoRng demoSeeds 0 false 4 1 2 [neuralArgs] = .ok (p, r) ∧
    p.Reportable ∧ paramExport demoRng p r = .ok ((j, p1), r1) := by
  obtain ⟨z, h1, h2⟩ := Demo.Res.test_iff (m := do
      let z ← sysMade demoRng demoSeeds 0 false 4 1 2 [neuralArgs]
      paramExport demoRng z.1 z.2) (p := fun _ => true) (by decide +kernel)
  have e : sysMade demoRng demoSeeds 0 false 4 1 2 [neuralArgs] = .ok
      ({ (sysInit demoRng demoSeeds 0 false 4 1 2).1 with
        pred := { (sysInit demoRng demoSeeds 0 false 4 1 2).1.pred with type := 5 } },
       (sysInit demoRng demoSeeds 0 false 4 1 2).2) := rfl
  rw [e] at h1 ⊢
  refine ⟨_, _, z.1.1, z.1.2, z.2, rfl, ⟨⟨by simp [sysInit], by simp [sysInit]⟩, ?_, ?_, ?_⟩, h1⟩
  · intro _ h
    exact absurd h (by decide)
  · intro h
    exact absurd h (by decide)
  · intro _
    refine ⟨?_, ?_⟩
    · intro a ha
      have ha : a ∈ predLayersDefault (K := ℚ) 4 1 := ha
      simp only [predLayersDefault, List.mem_cons, List.not_mem_nil, or_false] at ha
      rcases ha with rfl | rfl <;>
        exact ⟨⟨by decide, by decide, by decide, by decide⟩,
          ⟨by decide, by decide, by decide, by decide, by decide, by decide, by decide, by decide,
            by decide, by decide⟩⟩
    · intro a ha
      have ha : (predLayersDefault (K := ℚ) 4 1).head? = some a := ha
      simp only [predLayersDefault, List.head?_cons, Option.some.injEq] at ha
      subst ha
      exact ⟨by decide, by decide, by decide⟩

/-- Intervals, ellipsoids, least squares: no networks. -/
example : ∃ p r, sysMade demoRng demoSeeds 0 false 1 1 1
    [.obj [("x_dim", jsonOfInt 3), ("beta", .num (1 / 5)),
      ("condition", .obj [("type", .str "hyperellipsoid"), ("args", .obj [("eta", .num 2)])]),
      ("prediction", .obj [("type", .str "rls_quadratic")])]] = .ok (p, r) ∧
    p.NoNets ∧ FileOk p.popFile := by
  obtain ⟨z, h1, h2⟩ := Demo.Res.test_iff (m := sysMade demoRng demoSeeds 0 false 1 1 1
    [.obj [("x_dim", jsonOfInt 3), ("beta", .num (1 / 5)),
      ("condition", .obj [("type", .str "hyperellipsoid"), ("args", .obj [("eta", .num 2)])]),
      ("prediction", .obj [("type", .str "rls_quadratic")])]])
    (p := fun z => z.1.act.type == 0 && z.1.cond.type == 3 && z.1.pred.type == 4 &&
      z.1.popFile == [Char.ofNat 0]) (by decide +kernel)
  simp only [Bool.and_eq_true, beq_iff_eq] at h2
  obtain ⟨⟨⟨a, b⟩, c⟩, d⟩ := h2
  exact ⟨z.1, z.2, h1, ⟨by simp [a], by simp [b], by simp [c]⟩, by simp [FileOk, d]⟩

example : DimsOk 4 1 2 := ⟨by decide, by decide, by decide⟩

example : ¬∃ k, ("xdim", k) ∈ paramKinds ∧ k.fits (jsonOfInt 4 : Json ℚ) := by
  rintro ⟨k, h, -⟩
  have h' : "xdim" ∈ paramKinds.map Prod.fst := List.mem_map_of_mem (f := Prod.fst) h
  exact absurd h' (by decide)

end
end Xcsf
