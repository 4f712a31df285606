import Verif.JsonLemmas

/-!
# Property C82: exporting the population as JSON and importing it
-/

set_option linter.unusedSectionVars false
set_option linter.unusedVariables false

open Finset (range)

namespace Xcsf
variable {K R : Type} [Field K] [LinearOrder K] [IsStrictOrderedRing K] [FloorRing K]
variable (Y : System K R)

/-! ## Exporting and importing in a complete system -/

/-- A rule with its parts, without the proof that they are well-formed. -/
def Cl.raw {B : Type} {P : B → Prop} (c : Cl K { b : B // P b }) : Cl K B :=
  { err := c.err, fit := c.fit, num := c.num, exp := c.exp, size := c.size, time := c.time,
    m := c.m, prediction := c.prediction, action := c.action, age := c.age, mtotal := c.mtotal,
    body := c.body.1 }

/-- A rule whose parts are well-formed. -/
def Cl.sound {B : Type} {P : B → Prop} (c : Cl K B) (h : P c.body) : Cl K { b : B // P b } :=
  { err := c.err, fit := c.fit, num := c.num, exp := c.exp, size := c.size, time := c.time,
    m := c.m, prediction := c.prediction, action := c.action, age := c.age, mtotal := c.mtotal,
    body := ⟨c.body, h⟩ }

/-- `json_export(true, true, true)`, pybind_wrapper.cpp:806-812. -/
def System.export (s : St K Y.In Y.Rule R) : Res (Json K) :=
  popExport Y.S Y.par.nActions (clAcc Y.par Y.kit) true true true ((population s).map Cl.raw)

open Classical in
/-- `clset_json_insert_cl`, clset.c:779-788.  Documents whose parts are not well-formed for the
system are outside the model and reported as undefined. -/
noncomputable def System.insertDoc (s : St K Y.In Y.Rule R) (j : Json K) :
    Res (St K Y.In Y.Rule R) := do
  let q ← clImport (c := Y.cond) (q := Y.pred) Y.par Y.pf.rng Y.S s.pset.num s.time j s.rng
  if h : Y.Ok q.1.body then insertCl Y.par Y.kit (q.1.sound h) { s with rng := q.2 }
  else .error .ub

/-- `clset_json_insert`, clset.c:796-812: the rules of the document from the last to the first;
an empty array dereferences NULL (clset.c:803). -/
noncomputable def System.import (j : Json K) (s : St K Y.In Y.Rule R) :
    Res (St K Y.In Y.Rule R) :=
  match j.rules with
  | none => .ok s
  | some [] => .error .ub
  | some l => l.reverse.foldlM Y.insertDoc s

/-! ## Specification -/

/-- The integer attributes of a rule are values of type `int`. -/
def Cl.Ints {B : Type} (c : Cl K B) : Prop :=
  IsInt c.num ∧ IsInt c.exp ∧ IsInt c.time ∧ IsInt c.action ∧ IsInt c.age ∧ IsInt c.mtotal

/-- The sizes of the system are values of type `int`. -/
def System.Fits : Prop := Y.cond.Fits Y.S ∧ (Y.par.nActions : Int) ≤ 2147483647

/-- `c'` is `c`, but for the scratch memory of its prediction, the gain matrix of recursive least
squares and the unused mutation rate of its action if there is only one action. -/
structure System.Restored (c c' : Cl K Y.Rule) : Prop where
  attributes : c' = { c with body := c'.body }
  cond : c'.body.1.cond = c.body.1.cond
  action : Y.action c'.body = Y.action c.body
  rate : 1 < Y.par.nActions → c'.body.1.act = c.body.1.act
  pred : Y.pred.Kept Y.S c.body.1.pred c'.body.1.pred
  /-- The gain matrix is that of a new rule. -/
  gain : Y.pred = .rls → ∀ i j, i < nFeatures Y.S.pred → j < nFeatures Y.S.pred →
    Y.pred.gain Y.S c'.body.1.pred i j = if i = j then Y.S.pred.scale else 0

/-! ## One rule -/

theorem rls_init_gain (p : PredPar K) (tmp : Nat → K) {i j : Nat} (hi : i < nFeatures p)
    (hj : j < nFeatures p) :
    (rlsInit p tmp).matrix (i * nFeatures p + j) = if i = j then p.scale else 0 := by
  have := congrFun (congrFun (C39_copy_forgets p (rlsInit p tmp) tmp).2 ⟨i, hi⟩) ⟨j, hj⟩
  refine Eq.trans this ?_
  simp [Matrix.one_apply]

theorem pred_init_gain {g : Rng K R} {S : Setup K} : ∀ {q : PredType} {s : q.Body K} {r r' : R},
    (q.vt g S).init r = .ok (s, r') → q = .rls → ∀ i j, i < nFeatures S.pred →
    j < nFeatures S.pred → q.gain S s i j = if i = j then S.pred.scale else 0
  | .constant, _, _, _, _, h, _, _, _, _ => by cases h
  | .nlms, _, _, _, _, h, _, _, _, _ => by cases h
  | .rls, s, r, r', e, _, i, j, hi, hj => by
    have e : (Except.ok (rlsInit S.pred S.tmp, r) : Res (Rls K × R)) = .ok (s, r') := e
    cases e
    exact rls_init_gain _ _ hi hj

theorem System.rand_spec (r : R) : ∃ b r',
    (systemRep Y.pf.rng Y.S Y.par.nActions Y.cond Y.pred).rand r = .ok (b, r') ∧ Y.Ok b ∧
    (Y.pred = .rls → ∀ i j, i < nFeatures Y.S.pred → j < nFeatures Y.S.pred →
      Y.pred.gain Y.S b.pred i j = if i = j then Y.S.pred.scale else 0) := by
  obtain ⟨⟨b, r'⟩, h1, h2⟩ := (C74_rules_sound Y).rand r
  refine ⟨b, r', h1, h2, ?_⟩
  have h1 : ((Y.cond.vt Y.pf.rng Y.S).init r >>= fun c => _) = _ := h1
  cases e1 : (Y.cond.vt Y.pf.rng Y.S).init r with
  | error f => rw [e1] at h1; cases h1
  | ok c =>
    rw [e1] at h1
    have h1 : ((Y.pred.vt Y.pf.rng Y.S).init c.2 >>= fun p => _) = _ := h1
    cases e2 : (Y.pred.vt Y.pf.rng Y.S).init c.2 with
    | error f => rw [e2] at h1; cases h1
    | ok p =>
      rw [e2] at h1
      have h1 : ((intAct Y.pf.rng Y.par.nActions).init p.2 >>= fun a => _) = _ := h1
      cases e3 : (intAct Y.pf.rng Y.par.nActions).init p.2 with
      | error f => rw [e3] at h1; cases h1
      | ok a =>
        rw [e3] at h1
        cases h1
        exact pred_init_gain e2

/-- The members of the document of a rule. -/
theorem clExport_spec {S : Setup K} {n : Nat} {acc : K → K} {c : CondType} {q : PredType}
    {cl : Cl K (Parts K c q)} {jc : Json K} (h : c.export S cl.body.cond = .ok jc) :
    ∃ j, clExport S n acc true true true cl = .ok j ∧
      j.item "error" = some (.num cl.err) ∧ j.item "fitness" = some (.num cl.fit) ∧
      j.item "set_size" = some (.num cl.size) ∧ j.item "numerosity" = some (jsonOfInt cl.num) ∧
      j.item "experience" = some (jsonOfInt cl.exp) ∧ j.item "time" = some (jsonOfInt cl.time) ∧
      j.item "samples_seen" = some (jsonOfInt cl.age) ∧
      j.item "samples_matched" = some (jsonOfInt cl.mtotal) ∧
      j.item "current_match" = some (.bool cl.m) ∧
      j.item "current_action" = some (jsonOfInt cl.action) ∧
      j.item "current_prediction" = some (jsonNums cl.prediction) ∧
      j.item "condition" = some jc ∧
      j.item "action" = (if 1 < n then some (actExport cl.body.act) else none) ∧
      j.item "prediction" = some (q.export S cl.body.pred cl.prediction) := by
  unfold clExport
  rw [if_pos rfl, h]
  refine ⟨_, rfl, ?_⟩
  by_cases hn : 1 < n <;> simp [Json.item, List.lookup, hn]

/-- Reading the document of a well-formed rule back, up to its condition. -/
theorem System.import_parts (hf : (Y.par.nActions : Int) ≤ 2147483647) {c : Cl K Y.Rule}
    (hi : c.Ints) (hp : c.prediction.length = Y.par.yDim) {jc : Json K}
    (hc1 : Y.cond.export Y.S c.body.1.cond = .ok jc) (size : K) (time : Int) (r : R) :
    ∃ j, clExport Y.S Y.par.nActions (clAcc Y.par Y.kit) true true true c.raw = .ok j ∧
      ∃ b0 a' p' r1, Y.cond.W Y.S b0 ∧ ActInt.Valid Y.par.nActions a' ∧ Y.pred.W Y.S p' ∧
        a'.action = c.body.1.act.action ∧ (1 < Y.par.nActions → a' = c.body.1.act) ∧
        Y.pred.Kept Y.S c.body.1.pred p' ∧
        (Y.pred = .rls → ∀ i j, i < nFeatures Y.S.pred → j < nFeatures Y.S.pred →
          Y.pred.gain Y.S p' i j = if i = j then Y.S.pred.scale else 0) ∧
        clImport Y.par Y.pf.rng Y.S size time j r =
          clImportCond Y.pf.rng Y.S { c.raw with body := ⟨b0, a', p'⟩ } r1 (some jc) := by
  obtain ⟨b, r1, hb, wb, hgain⟩ := Y.rand_spec r
  obtain ⟨p', hp1, hp2, hp3, hp4⟩ := pred_roundtrip c.body.2.pred wb.pred (p := c.prediction)
    (hp.trans Y.hyDim.symm)
  obtain ⟨j, hj, e1, e2, e3, e4, e5, e6, e7, e8, e9, e10, e11, e12, e13, e14⟩ :=
    clExport_spec (n := Y.par.nActions) (acc := clAcc Y.par Y.kit) (cl := c.raw) hc1
  -- the action after reading
  obtain ⟨a', ha1, ha2, ha3, ha4⟩ : ∃ a', (∀ cl : Cl K (Parts K Y.cond Y.pred), cl.body.act = b.act →
      clImportAct cl (j.item "action") = .ok { cl with body := { cl.body with act := a' } }) ∧
      ActInt.Valid Y.par.nActions a' ∧ a'.action = c.body.1.act.action ∧
      (1 < Y.par.nActions → a' = c.body.1.act) := by
    by_cases hn : 1 < Y.par.nActions
    · refine ⟨c.body.1.act, fun cl hcl => ?_, c.body.2.act, rfl, fun _ => rfl⟩
      rw [e13, if_pos hn]
      show (actImport cl.body.act (actExport c.body.1.act) >>= _) = _
      rw [act_roundtrip hf c.body.2.act]
      rfl
    · refine ⟨b.act, fun cl hcl => ?_, wb.act, ?_, fun h => absurd h hn⟩
      · rw [e13, if_neg hn]
        show Except.ok cl = _
        rw [← hcl]
      · have h1 := wb.act.1
        have h2 := c.body.2.act.1
        omega
  refine ⟨j, hj, b.cond, a', p', r1, wb.cond, ha2, hp2, ha3, ha4, hp3, fun h i j hi hj => ?_, ?_⟩
  · rw [← hgain h i j hi hj]
    exact hp4 i j
  · unfold clImport
    rw [hb]
    show (clImportCurrent Y.par.yDim (clImportProps (clInit Y.par size time b) j) j >>= _) = _
    have k1 : clImportProps (clInit Y.par size time b) j =
        { err := c.err, fit := c.fit, num := c.num, exp := c.exp, size := c.size, time := c.time,
          m := false, prediction := List.replicate Y.par.yDim 0, action := 0, age := c.age,
          mtotal := c.mtotal, body := b } := by
      unfold clImportProps
      rw [e1, e2, e3, e4, e5, e6, e7, e8]
      have i1 := importInt_of (K := K) hi.1
      have i2 := importInt_of (K := K) hi.2.1
      have i3 := importInt_of (K := K) hi.2.2.1
      have i5 := importInt_of (K := K) hi.2.2.2.2.1
      have i6 := importInt_of (K := K) hi.2.2.2.2.2
      simp only [Cl.raw, importNum, i1, i2, i3, i5, i6]
      rfl
    have k2 : clImportCurrent Y.par.yDim (clImportProps (clInit Y.par size time b) j) j =
        .ok { err := c.err, fit := c.fit, num := c.num, exp := c.exp, size := c.size, time := c.time,
              m := c.m, prediction := c.prediction, action := c.action, age := c.age,
              mtotal := c.mtotal, body := b } := by
      rw [k1]
      unfold clImportCurrent
      rw [e9, e10, e11, importArr_of (show c.raw.prediction.length = _ from hp)]
      have i4 := importInt_of (K := K) hi.2.2.2.1
      simp only [Cl.raw, importBool, i4]
      rfl
    rw [k2]
    show (clImportAct _ (j.item "action") >>= _) = _
    rw [ha1 _ rfl]
    show (clImportPred Y.S _ (j.item "prediction") >>= _) = _
    rw [e14]
    show ((Y.pred.import Y.S b.pred c.prediction (Y.pred.export Y.S c.body.1.pred c.prediction) >>= _)
      >>= _) = _
    rw [hp1, ← e12]
    rfl

/-- Reading the document of a well-formed rule back, in any state of the random numbers. -/
theorem System.import_export (hg : Y.cond ≠ .gp) (hf : Y.Fits) {c : Cl K Y.Rule} (hi : c.Ints)
    (hp : c.prediction.length = Y.par.yDim) (size : K) (time : Int) (r : R) :
    ∃ j c' r', clExport Y.S Y.par.nActions (clAcc Y.par Y.kit) true true true c.raw = .ok j ∧
      clImport Y.par Y.pf.rng Y.S size time j r = .ok (Cl.raw c', r') ∧ Y.Restored c c' := by
  obtain ⟨jc, -, hc1, -⟩ := cond_roundtrip (g := Y.pf.rng) hg Y.hcond hf.1 c.body.2.cond
    c.body.2.cond r
  obtain ⟨j, hj, b0, a', p', r1, w, wa, wp, h1, h2, h3, h4, h5⟩ :=
    Y.import_parts hf.2 hi hp hc1 size time r
  obtain ⟨jc', r2, hc1', hc2⟩ := cond_roundtrip (g := Y.pf.rng) hg Y.hcond hf.1 c.body.2.cond w r1
  rw [hc1] at hc1'
  cases hc1'
  refine ⟨j, { c with body := ⟨⟨c.body.1.cond, a', p'⟩, ⟨c.body.2.cond, wa, wp⟩⟩ }, r2, hj, ?_,
    ⟨rfl, rfl, h1, h2, h3, h4⟩⟩
  rw [h5]
  show (Y.cond.import Y.pf.rng Y.S b0 jc r1 >>= _) = _
  rw [hc2]
  rfl

/-! ## The population -/

theorem Between.weaken {X B : Type} {V : Cl K B → Prop} {par : Params K} {S s : St K X B R}
    (b : Between V par S s) : Between (fun _ => True) par S s :=
  ⟨⟨b.good.inv, fun _ _ _ => trivial⟩, b.kset, b.cap, b.qcap, b.snap⟩

theorem Between.reseed {X B : Type} {V : Cl K B → Prop} {par : Params K} {s : St K X B R}
    (b : Between V par s s) (r : R) : Between V par { s with rng := r } { s with rng := r } :=
  (⟨b.good.congr rfl rfl rfl rfl rfl, b.kset, b.cap, b.qcap, b.snap⟩ :
    Between V par s { s with rng := r }).self

theorem Between.rules {X B : Type} {V : Cl K B → Prop} {par : Params K} {s : St K X B R}
    (b : Between V par s s) : ∀ c ∈ population s, V c ∧ 1 ≤ c.num := by
  intro c hc
  obtain ⟨i, hi, e⟩ := List.mem_filterMap.1 hc
  obtain ⟨c', e', h1, h2⟩ := b.good.liveP hi
  rw [e] at e'
  cases e'
  exact ⟨h2, h1⟩

/-- A rule of the system is fit for the life cycle. -/
abbrev System.Fit : Cl K Y.Rule → Prop := RuleOK Y.par (fun _ : Y.Rule => True)

theorem System.Restored.fit {c c' : Cl K Y.Rule} (h : Y.Restored c c') (hc : Y.Fit c) : Y.Fit c' := by
  rw [h.attributes]
  exact ⟨hc.1, hc.2, hc.3, hc.4, hc.5, hc.6, hc.7, hc.8, trivial⟩

theorem System.Restored.num {c c' : Cl K Y.Rule} (h : Y.Restored c c') : c'.num = c.num := by
  rw [h.attributes]

/-- Inserting the document of a rule into a system with room. -/
theorem System.insertDoc_spec (hg : Y.cond ≠ .gp) (hf : Y.Fits) {c : Cl K Y.Rule} (hi : c.Ints)
    (hc : Y.Fit c) (hn : 1 ≤ c.num) {j : Json K}
    (hj : clExport Y.S Y.par.nActions (clAcc Y.par Y.kit) true true true c.raw = .ok j)
    {s : St K Y.In Y.Rule R} (b : Between Y.Fit Y.par s s)
    (hroom : micro (population s) + c.num ≤ Y.par.popSize) :
    ∃ s' c', Y.insertDoc s j = .ok s' ∧ Between Y.Fit Y.par s' s' ∧
      population s' = c' :: population s ∧ Y.Restored c c' := by
  obtain ⟨j', c', r', h1, h2, h3⟩ := Y.import_export hg hf hi hc.pred s.pset.num s.time s.rng
  rw [hj] at h1
  cases h1
  have hn' : 1 ≤ c'.num := by rw [h3.num]; exact hn
  obtain ⟨s', e, -, p⟩ := insertCl_room (kit := Y.kit) Y.hpar.popSize (b.reseed r').weaken hn'
    (by rw [h3.num]; exact hroom)
  refine ⟨s', c', ?_, ?_, p, h3⟩
  · unfold System.insertDoc
    rw [h2]
    exact (dif_pos c'.body.2).trans e
  · exact (post_of_ok (insertCl_post (lawsField Y.regular) (b.reseed r') (h3.fit Y hc) hn') e).1.self

theorem System.insertDocs_spec (hg : Y.cond ≠ .gp) (hf : Y.Fits) :
    ∀ (cs : List (Cl K Y.Rule)) (js : List (Json K)), (∀ c ∈ cs, c.Ints ∧ Y.Fit c ∧ 1 ≤ c.num) →
    List.Forall₂ (fun c j => clExport Y.S Y.par.nActions (clAcc Y.par Y.kit) true true true
      (Cl.raw c) = .ok j) cs js → ∀ {s : St K Y.In Y.Rule R}, Between Y.Fit Y.par s s →
    micro (population s) + micro cs ≤ Y.par.popSize →
    ∃ s' cs', js.foldlM Y.insertDoc s = .ok s' ∧ Between Y.Fit Y.par s' s' ∧
      population s' = cs'.reverse ++ population s ∧ List.Forall₂ Y.Restored cs cs'
  | [], _, _, .nil, s, b, _ => ⟨s, [], rfl, b, rfl, .nil⟩
  | c :: cs, _, hc, .cons (b := j) (l₂ := js) hj F, s, b, hroom => by
    have hm : micro (c :: cs) = c.num + micro cs := by simp [micro]
    have hl : 0 ≤ micro cs := by
      apply List.sum_nonneg
      intro n hn
      obtain ⟨d, hd, rfl⟩ := List.mem_map.1 hn
      have := (hc d (List.mem_cons_of_mem _ hd)).2.2; omega
    obtain ⟨h1, h2, h3⟩ := hc c List.mem_cons_self
    obtain ⟨s1, c', e1, b1, p1, q1⟩ := Y.insertDoc_spec hg hf h1 h2 h3 hj b (by omega)
    obtain ⟨s2, cs', e2, b2, p2, q2⟩ := System.insertDocs_spec hg hf cs js
      (fun d hd => hc d (List.mem_cons_of_mem _ hd)) F b1 (by
        rw [p1]
        have : micro (c' :: population s) = c'.num + micro (population s) := by simp [micro]
        rw [this, q1.num]
        omega)
    refine ⟨s2, c' :: cs', ?_, b2, ?_, .cons q1 q2⟩
    · rw [List.foldlM_cons, e1]; exact e2
    · rw [p2, p1, List.reverse_cons, List.append_assoc]; rfl

theorem System.export_docs (hg : Y.cond ≠ .gp) (hf : Y.Fits) :
    ∀ (cs : List (Cl K Y.Rule)), (∀ c ∈ cs, c.Ints ∧ Y.Fit c ∧ 1 ≤ c.num) → ∀ r : R,
    ∃ js, (cs.map Cl.raw).mapM (clExport Y.S Y.par.nActions (clAcc Y.par Y.kit) true true true) =
      .ok js ∧ List.Forall₂ (fun c j => clExport Y.S Y.par.nActions (clAcc Y.par Y.kit) true true
        true (Cl.raw c) = .ok j) cs js
  | [], _, _ => ⟨[], rfl, .nil⟩
  | c :: cs, hc, r => by
    obtain ⟨h1, h2, h3⟩ := hc c List.mem_cons_self
    obtain ⟨j, -, -, e, -⟩ := Y.import_export hg hf h1 h2.pred 0 0 r
    obtain ⟨js, e2, F⟩ := System.export_docs hg hf cs (fun d hd => hc d (List.mem_cons_of_mem _ hd)) r
    refine ⟨j :: js, ?_, .cons e F⟩
    rw [List.map_cons, List.mapM_cons, e, e2]
    rfl

theorem System.Restored.contains {c c' : Cl K Y.Rule} (h : Y.Restored c c') (x : List K) :
    Y.Contains c'.body x ↔ Y.Contains c.body x := by
  unfold System.Contains
  rw [h.cond]

theorem kept_output {S : Setup K} : ∀ {q : PredType} {s s' : q.Body K}, q.Kept S s s' →
    ∀ (p x : List K) {j : Nat}, j < S.pred.yDim → q.Output S s' p x j = q.Output S s p x j
  | .constant, _, _, _, _, _, _, _ => rfl
  | .nlms, s, s', h, p, x, j, hj =>
    output_congr (w := (s : Nlms K).weights) (w' := (s' : Nlms K).weights) _ h.1 hj
  | .rls, s, s', h, p, x, j, hj =>
    output_congr (w := (s : Rls K).weights) (w' := (s' : Rls K).weights) _ h hj

theorem System.Restored.output {c c' : Cl K Y.Rule} (h : Y.Restored c c') (x : List K) {j : Nat}
    (hj : j < Y.par.yDim) : Y.output c' x j = Y.output c x j := by
  have e : c'.prediction = c.prediction := by rw [h.attributes]
  unfold System.output
  rw [e]
  exact kept_output h.pred _ _ (by rw [Y.hyDim]; exact hj)

theorem System.restored_mem {cs cs' : List (Cl K Y.Rule)} (h : List.Forall₂ Y.Restored cs cs')
    (x : List K) : (∃ c ∈ cs', Y.Contains c.body x) ↔ ∃ c ∈ cs, Y.Contains c.body x := by
  induction h with
  | nil => simp
  | @cons c c' cs cs' hc _ ih =>
    simp only [List.mem_cons, exists_eq_or_imp]
    rw [ih, hc.contains Y x]

open Classical in
theorem System.restored_advocates {cs cs' : List (Cl K Y.Rule)}
    (h : List.Forall₂ Y.Restored cs cs') (x : List K) (a : Nat) {j : Nat} (hj : j < Y.par.yDim) :
    (Y.advocates cs' x a).map Cl.fit = (Y.advocates cs x a).map Cl.fit ∧
    (Y.advocates cs' x a).map (fun c => Y.output c x j * c.fit) =
      (Y.advocates cs x a).map (fun c => Y.output c x j * c.fit) := by
  induction h with
  | nil => exact ⟨rfl, rfl⟩
  | @cons c c' cs cs' hc _ ih =>
    have ef : c'.fit = c.fit := by rw [hc.attributes]
    unfold System.advocates at ih ⊢
    have e : decide (Y.Contains c'.body x ∧ Y.action c'.body = a) =
        decide (Y.Contains c.body x ∧ Y.action c.body = a) := by
      rw [decide_eq_decide, hc.contains Y x, hc.action]
    rw [List.filter_cons, List.filter_cons, e]
    split
    · rw [List.map_cons, List.map_cons, List.map_cons, List.map_cons, ih.1, ih.2, ef,
        hc.output Y x hj]
      exact ⟨rfl, rfl⟩
    · exact ih

section roundtrip
variable {r r0 : R} {ops ops0 : List (Op K Y.In Y.Rule)} {s s0 : St K Y.In Y.Rule R}

theorem System.roundtrip (hg : Y.cond ≠ .gp) (hf : Y.Fits) (hv : ∀ op ∈ ops, op.ok Y.Fit)
    (h : run Y.par Y.kit r ops = .ok s) (hi : ∀ c ∈ population s, c.Ints) (hne : population s ≠ [])
    (hv0 : ∀ op ∈ ops0, op.ok Y.Fit) (h0 : run Y.par Y.kit r0 ops0 = .ok s0)
    (hroom : micro (population s0) + micro (population s) ≤ Y.par.popSize) :
    ∃ doc s' cs, Y.export s = .ok doc ∧ Y.import doc s0 = .ok s' ∧ Between Y.Fit Y.par s' s' ∧
      population s' = cs ++ population s0 ∧ List.Forall₂ Y.Restored (population s) cs := by
  have b := post_of_ok (run_post (lawsField Y.regular) r ops hv) h
  have b0 := post_of_ok (run_post (lawsField Y.regular) r0 ops0 hv0) h0
  have hall : ∀ c ∈ population s, c.Ints ∧ Y.Fit c ∧ 1 ≤ c.num :=
    fun c hc => ⟨hi c hc, b.rules c hc⟩
  obtain ⟨js, e, F⟩ := Y.export_docs hg hf (population s) hall r
  have hrev : micro (population s).reverse = micro (population s) := by
    simp [micro, List.map_reverse, List.sum_reverse]
  obtain ⟨s', cs, e', b', p, q⟩ := Y.insertDocs_spec hg hf (population s).reverse js.reverse
    (fun c hc => hall c (List.mem_reverse.1 hc)) (List.rel_reverse F) b0
    (by rw [hrev]; exact hroom)
  refine ⟨_, s', cs.reverse, by unfold System.export popExport; rw [e]; rfl, ?_, b', p, ?_⟩
  · cases js with
    | nil => exact absurd (List.forall₂_nil_right_iff.1 F) hne
    | cons j js => exact e'
  · have := List.rel_reverse q
    rwa [List.reverse_reverse] at this

/-- **C82.** Whatever happened to two systems with the same parameters: the population of the
first is exported, and if the second has room for it, importing the document succeeds and puts the
rules, in the same order and with all their attributes, conditions, actions and learned weights,
before its own.  (All condition types but trees, a non-empty population.  The gain matrices of
recursive least squares are those of new rules.) -/
theorem C82_roundtrip_partial (hg : Y.cond ≠ .gp) (hf : Y.Fits) (hv : ∀ op ∈ ops, op.ok Y.Fit)
    (h : run Y.par Y.kit r ops = .ok s) (hi : ∀ c ∈ population s, c.Ints) (hne : population s ≠ [])
    (hv0 : ∀ op ∈ ops0, op.ok Y.Fit) (h0 : run Y.par Y.kit r0 ops0 = .ok s0)
    (hroom : micro (population s0) + micro (population s) ≤ Y.par.popSize) :
    ∃ doc s' cs, Y.export s = .ok doc ∧ Y.import doc s0 = .ok s' ∧
      population s' = cs ++ population s0 ∧ List.Forall₂ Y.Restored (population s) cs := by
  obtain ⟨doc, s', cs, h1, h2, -, h3, h4⟩ := Y.roundtrip hg hf hv h hi hne hv0 h0 hroom
  exact ⟨doc, s', cs, h1, h2, h3, h4⟩

/-- A system without rules that imports the population of another predicts what the other
predicts, for every input. -/
theorem C82_predictions_partial (hs : Y.Static) (hg : Y.cond ≠ .gp) (hf : Y.Fits)
    (hv : ∀ op ∈ ops, op.ok Y.Fit) (h : run Y.par Y.kit r ops = .ok s)
    (hi : ∀ c ∈ population s, c.Ints) (hne : population s ≠ [])
    (hv0 : ∀ op ∈ ops0, op.ok Y.Fit) (h0 : run Y.par Y.kit r0 ops0 = .ok s0)
    (he : population s0 = []) {doc : Json K} (hd : Y.export s = .ok doc)
    {s' : St K Y.In Y.Rule R} (h' : Y.import doc s0 = .ok s') {cv p p' : List K} {x : Y.In}
    {t t' : St K Y.In Y.Rule R} (hp : predictRow Y.par Y.kit cv x s = .ok (p, t))
    (hp' : predictRow Y.par Y.kit cv x s' = .ok (p', t')) :
    ((∀ c ∈ population s, ¬ Y.Contains c.body x.1) → p' = p) ∧
    ∀ a j, a < Y.par.nActions → j < Y.par.yDim →
      p'[a * Y.par.yDim + j]? = p[a * Y.par.yDim + j]? := by
  have b := post_of_ok (run_post (lawsField Y.regular) r ops hv) h
  have hm : micro (population s) ≤ Y.par.popSize := by
    have h1 : micro (population s) = s.pset.num := by
      rw [population, filterMap_micro b.good.inv.p.allLive, b.good.inv.p.num]
    rw [h1]; exact b.cap.2
  obtain ⟨doc', s'', cs, h1, h2, b', hpop, F⟩ := Y.roundtrip hg hf hv h hi hne hv0 h0
    (by rw [he]; simpa [micro] using hm)
  rw [hd] at h1; cases h1
  rw [h'] at h2; cases h2
  rw [he, List.append_nil] at hpop
  obtain ⟨a1, a2⟩ := Y.prediction_of hs b.weaken hp
  obtain ⟨b1, b2⟩ := Y.prediction_of hs b'.weaken hp'
  rw [hpop] at b1 b2
  have hmem := Y.restored_mem F x.1
  have hnone : (∀ c ∈ population s, ¬ Y.Contains c.body x.1) → p' = p := by
    intro hn
    rw [a1 hn, b1 fun c hc hx => ?_]
    obtain ⟨c', hc', hx'⟩ := hmem.1 ⟨c, hc, hx⟩
    exact hn c' hc' hx'
  refine ⟨hnone, fun a j ha hj => ?_⟩
  by_cases hm : ∃ c ∈ population s, Y.Contains c.body x.1
  · rw [a2 hm a j ha hj, b2 (hmem.2 hm) a j ha hj]
    dsimp only
    obtain ⟨k1, k2⟩ := Y.restored_advocates F x.1 a hj
    rw [k1, k2]
  · rw [hnone fun c hc hx => hm ⟨c, hc, hx⟩]

/-- After the import the system is as safe as before: no further history of calls has undefined
behaviour or uses freed memory. -/
theorem C82_safe_after_import (hg : Y.cond ≠ .gp) (hf : Y.Fits) (hv : ∀ op ∈ ops, op.ok Y.Fit)
    (h : run Y.par Y.kit r ops = .ok s) (hi : ∀ c ∈ population s, c.Ints) (hne : population s ≠ [])
    (hv0 : ∀ op ∈ ops0, op.ok Y.Fit) (h0 : run Y.par Y.kit r0 ops0 = .ok s0)
    (hroom : micro (population s0) + micro (population s) ≤ Y.par.popSize) {doc : Json K}
    (hd : Y.export s = .ok doc) {s' : St K Y.In Y.Rule R} (h' : Y.import doc s0 = .ok s')
    {more : List (Op K Y.In Y.Rule)} (hm : ∀ op ∈ more, op.ok Y.Fit) :
    more.foldlM (step Y.par Y.kit) s' ≠ .error .ub ∧
    more.foldlM (step Y.par Y.kit) s' ≠ .error .uaf := by
  obtain ⟨doc', s'', cs, h1, h2, b, -⟩ := Y.roundtrip hg hf hv h hi hne hv0 h0 hroom
  rw [hd] at h1; cases h1
  rw [h'] at h2; cases h2
  have p := foldlM_post (lawsField Y.regular) more hm b
  exact ⟨fun h => post_of_error p h, fun h => post_of_error p h⟩

/-- An empty population is exported as a document that cannot be imported: reading it
dereferences a null pointer. -/
theorem C82_empty (he : population s = []) :
    ∃ doc, Y.export s = .ok doc ∧ Y.import doc s0 = .error .ub := by
  unfold System.export
  rw [he]
  exact ⟨_, rfl, rfl⟩

/-- Trees are exported as the infix form of their expression. -/
theorem C82_tree_export {S : Setup K} {t : GpTree K} {ni : Nat}
    {e : GpExpr S.gp.constants.length ni} (h : t.tree = e.code) :
    CondType.export S .gp t = .ok (.obj [("type", .str "tree_gp"),
      ("tree", .obj [("array", .arr ((e.infixForm S.gp.constants.get).map GpTok.json)),
        ("mutation", jsonNums [t.mu])])]) := by
  obtain ⟨x, rfl⟩ : ∃ x : List K, x.length = ni := ⟨List.replicate ni 0, by simp⟩
  show gpExport S.gp t = _
  unfold gpExport
  rw [C33_print (a := S.gp) (x := x) h]
  rfl

theorem tree_exports {S : Setup K} : ∀ {c : CondType}, c = .gp → ∀ {b : c.Body K}, c.W S b →
    ∃ j, c.export S b = .ok j
  | .gp, _, b, w => by
    have w : GpTree.Codes S.gp.constants.length S.gp.nInputs b := w
    obtain ⟨e, he⟩ := w
    exact ⟨_, C82_tree_export he⟩

theorem tree_import_exits {g : Rng K R} {S : Setup K} : ∀ {c : CondType}, c = .gp →
    ∀ (b : c.Body K) (j : Json K) (r : R), c.import g S b j r = .error .exit
  | .gp, _, _, _, _ => rfl

theorem System.tree_docs (hg : Y.cond = .gp) (hf : (Y.par.nActions : Int) ≤ 2147483647) :
    ∀ cs : List (Cl K Y.Rule), (∀ c ∈ cs, c.Ints ∧ c.prediction.length = Y.par.yDim) →
    ∃ js, (cs.map Cl.raw).mapM (clExport Y.S Y.par.nActions (clAcc Y.par Y.kit) true true true) =
      .ok js ∧ js.length = cs.length ∧ ∀ j ∈ js, ∀ s : St K Y.In Y.Rule R,
        Y.insertDoc s j = .error .exit
  | [], _ => ⟨[], rfl, rfl, nofun⟩
  | c :: cs, h => by
    obtain ⟨js, e2, hl, F⟩ := System.tree_docs hg hf cs (fun d hd => h d (List.mem_cons_of_mem _ hd))
    obtain ⟨h1, h2⟩ := h c List.mem_cons_self
    obtain ⟨jc, hjc⟩ := tree_exports hg c.body.2.cond
    obtain ⟨j, hj, -⟩ := clExport_spec (n := Y.par.nActions) (acc := clAcc Y.par Y.kit) (cl := c.raw) hjc
    refine ⟨j :: js, ?_, congrArg (· + 1) hl, fun k hk s => ?_⟩
    · rw [List.map_cons, List.mapM_cons, hj, e2]
      rfl
    · rcases List.mem_cons.1 hk with rfl | hk
      · obtain ⟨j', hj', b0, a', p', r1, -, -, -, -, -, -, -, e⟩ :=
          Y.import_parts hf h1 h2 hjc s.pset.num s.time s.rng
        rw [hj] at hj'
        cases hj'
        unfold System.insertDoc
        rw [e]
        show ((Y.cond.import Y.pf.rng Y.S b0 jc r1 >>= _) >>= _) = _
        rw [tree_import_exits hg]
        rfl
      · exact F k hk s

/-- Importing a population with tree conditions ends the program, whatever the two systems have
been through. -/
theorem C82_trees (hg : Y.cond = .gp) (hf : (Y.par.nActions : Int) ≤ 2147483647)
    (hv : ∀ op ∈ ops, op.ok Y.Fit) (h : run Y.par Y.kit r ops = .ok s)
    (hi : ∀ c ∈ population s, c.Ints) (hne : population s ≠ []) :
    ∃ doc, Y.export s = .ok doc ∧ Y.import doc s0 = .error .exit := by
  have b := post_of_ok (run_post (lawsField Y.regular) r ops hv) h
  obtain ⟨js, e, hl, F⟩ := Y.tree_docs hg hf (population s)
    (fun c hc => ⟨hi c hc, (b.rules c hc).1.pred⟩)
  refine ⟨_, by unfold System.export popExport; rw [e]; rfl, ?_⟩
  have hjs : js ≠ [] := by
    rintro rfl
    exact hne (List.length_eq_zero_iff.1 hl.symm)
  have : js.reverse.foldlM Y.insertDoc s0 = .error .exit := by
    cases hr : js.reverse with
    | nil => exact absurd (List.reverse_eq_nil_iff.1 hr) hjs
    | cons j l =>
      have hj : j ∈ js := List.mem_reverse.1 (hr ▸ List.mem_cons_self)
      rw [List.foldlM_cons, F j hj s0]
      rfl
  cases js with
  | nil => exact absurd rfl hjs
  | cons j js => exact this

/-- The type a document states is not read: a rectangle written with centres and spreads is
accepted by a system whose rectangles have two bounds, and the rule keeps the random rectangle it
was created with. -/
theorem C82_other_type_accepted {p : CondPar K} (h : p.csr = false) {n : Nat} {c c0 : Box K}
    (hc : Box.Dim n c) :
    rectImport p n c0 (rectExport { p with csr := true } c) = .ok { c0 with mu := c.mu } := by
  have e1 : (rectExport { p with csr := true } c).item "bound1" = none := by
    simp [rectExport, CondPar.names, Json.item, List.lookup]
  have e2 : (rectExport { p with csr := true } c).item "bound2" = none := by
    simp [rectExport, CondPar.names, Json.item, List.lookup]
  have e3 : (rectExport { p with csr := true } c).item "mutation" = some (jsonNums [c.mu]) := by
    simp [rectExport, CondPar.names, Json.item, List.lookup]
  unfold rectImport boxImport CondPar.names
  rw [h]
  simp only [Bool.false_eq_true, if_false]
  rw [e1, e2, samImport1_of e3 hc.2]
  show Except.ok (Box.mk (List.zip _ _) _) = _
  rw [zip_unzip]

end roundtrip

/-! ## Counterexamples and concrete cases -/

section Examples

instance {B : Type} (c : Cl K B) : Decidable c.Ints := inferInstanceAs (Decidable (_ ∧ _))

/-- Rules to export: one inserted, others covered while fitting. -/
def jsonOps (c : CondType) (q : PredType) :
    List (Op ℚ (demoSystem c q).In (demoSystem c q).Rule) :=
  [.fit ⟨[1 / 3, 1 / 3], rfl⟩ [1], .fit ⟨[2 / 3, 1 / 3], rfl⟩ [2]]

theorem jsonOps_ok (c : CondType) (q : PredType) :
    ∀ op ∈ jsonOps c q, op.ok (demoSystem c q).Fit := by
  intro op hop
  simp only [jsonOps, List.mem_cons, List.not_mem_nil, or_false] at hop
  rcases hop with rfl | rfl <;> trivial

/-- A system with rules in the range of the theorems. -/
def jsonReady (c : CondType) (q : PredType) : Bool :=
  Demo.Res.test (run Demo.par (demoSystem c q).kit 0 (jsonOps c q)) fun s =>
    !(population s).isEmpty && decide (∀ c ∈ population s, c.Ints) &&
    decide (micro (population s) ≤ Demo.par.popSize)

example : jsonReady .rectangle .nlms = true := by decide +kernel
example : jsonReady .ellipsoid .rls = true := by decide +kernel
example : jsonReady .ternary .constant = true := by decide +kernel
example : jsonReady .dgp .nlms = true := by decide +kernel

theorem demo_fits (c : CondType) (q : PredType) : (demoSystem c q).Fits := by
  refine ⟨?_, by show ((2 : Nat) : Int) ≤ _; decide⟩
  cases c with
  | dgp =>
    exact ⟨show ((demoSetup.dgp.nInputs + demoSetup.dgp.n : Nat) : Int) ≤ _ by decide,
      show ((demoSetup.dgp.maxT : Nat) : Int) ≤ _ by decide⟩
  | _ => trivial

/-- A document of the other type of rectangle. -/
example : Box.Dim 2 (⟨[(1 / 2, 1 / 4), (1 / 2, 1 / 4)], 1⟩ : Box ℚ) := ⟨rfl, zero_le_one, le_rfl⟩

/-- The expression `0.5 + x_0`. -/
example : (⟨[0, 4, 5], 0, 1⟩ : GpTree ℚ).tree =
    (GpExpr.func 0 (.const 0) (.input 0) : GpExpr 1 2).code := by decide

/-- **C82** is false for trees: a system that has learned two samples exports its rules, and no
system, not even a new one, can import them. -/
theorem C82_trees_refuted : ∃ s s0 doc,
    run Demo.par (demoSystem .gp .nlms).kit 0 (jsonOps .gp .nlms) = .ok s ∧ population s ≠ [] ∧
    run Demo.par (demoSystem .gp .nlms).kit 0 [] = .ok s0 ∧
    (demoSystem .gp .nlms).export s = .ok doc ∧
    (demoSystem .gp .nlms).import doc s0 = .error .exit := by
  obtain ⟨s, h1, h2⟩ := Demo.Res.test_iff (show jsonReady .gp .nlms = true by decide +kernel)
  simp only [Bool.and_eq_true, decide_eq_true_eq, Bool.not_eq_true', List.isEmpty_eq_false_iff] at h2
  obtain ⟨s0, h3, -⟩ := Demo.Res.test_iff (m := run Demo.par (demoSystem .gp .nlms).kit 0 [])
    (p := fun _ => true) (by decide +kernel)
  obtain ⟨doc, e1, e2⟩ := C82_trees (demoSystem .gp .nlms) (s0 := s0) rfl (by decide)
    (jsonOps_ok _ _) h1 h2.1.2 h2.1.1
  exact ⟨s, s0, doc, h1, h2.1.1, h3, e1, e2⟩

/-- **C82** is false for empty populations: the document of a new system cannot be imported. -/
theorem C82_empty_refuted : ∃ s0 doc,
    run Demo.par (demoSystem .rectangle .nlms).kit 0 [] = .ok s0 ∧
    (demoSystem .rectangle .nlms).export s0 = .ok doc ∧
    (demoSystem .rectangle .nlms).import doc s0 = .error .ub := by
  obtain ⟨s0, h1, h2⟩ := Demo.Res.test_iff (m := run Demo.par (demoSystem .rectangle .nlms).kit 0 [])
    (p := fun s => (population s).isEmpty) (by decide +kernel)
  obtain ⟨doc, e1, e2⟩ := C82_empty (demoSystem .rectangle .nlms) (s0 := s0)
    (List.isEmpty_iff.1 h2)
  exact ⟨s0, doc, h1, e1, e2⟩

end Examples

end Xcsf
