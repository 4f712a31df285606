import Verif.ParamLayers

/-!
# Importing a whole report (helper file)
-/

set_option linter.unusedSectionVars false

namespace Xcsf

section
variable {K R : Type} [Field K] [LinearOrder K] [IsStrictOrderedRing K] [FloorRing K]

theorem clamp01_of {v : K} (h : UnitK v) : clamp01 v = v := by
  unfold clamp01
  rw [if_neg (not_lt.2 h.1), if_neg (not_lt.2 h.2)]

theorem clamp1_of {a : Int} (h : 1 ≤ a) : clamp1 a = a := by
  unfold clamp1
  rw [if_neg (by omega)]

theorem typeMember_of {codes : List (List Char × Nat × Int)} {t : List Char} {c : Int}
    (h : codeOf codes t = some c) (l : List (String × Json K)) :
    typeMember codes (.obj (("type", .str (String.ofList t)) :: l)) = .ok c := by
  have e : Json.item "type" (.obj (("type", .str (String.ofList t)) :: l)) =
      some (.str (String.ofList t) : Json K) := rfl
  unfold typeMember
  rw [e]
  simp only [String.toList_ofList, h]

/-! ## Conditions -/

theorem tern_trip {c : CondFile K} (h1 : UnitK c.pDontcare) (h2 : 1 ≤ c.bits) (hi : IsInt c.bits)
    (q : CondFile K) : importAll ternTable q [("p_dontcare", .num c.pDontcare),
      ("bits", jsonOfInt c.bits)] = .ok { q with pDontcare := c.pDontcare, bits := c.bits } := by
  rw [importAll_cons (member_num rfl rfl _), importAll_cons (member_int rfl hi rfl _),
    importAll_nil, clamp01_of h1, clamp1_of h2]

theorem csr_trip {c : CondFile K} (h1 : UnitK c.eta) (h2 : 0 ≤ c.spreadMin) (q : CondFile K) :
    importAll csrTable q [("eta", .num c.eta), ("min", .num c.min), ("max", .num c.max),
      ("spread_min", .num c.spreadMin)] =
      .ok { q with eta := c.eta, min := c.min, max := c.max, spreadMin := c.spreadMin } := by
  rw [importAll_cons (member_num rfl rfl _), importAll_cons (member_num rfl rfl _),
    importAll_cons (member_num rfl rfl _), importAll_cons (member_num rfl rfl _),
    importAll_nil, clamp01_of h1, if_neg (not_lt.2 h2)]

theorem tree_trip {t : TreePar K} (h1 : 1 ≤ t.nConstants) (h2 : 1 ≤ t.initDepth)
    (h3 : 1 ≤ t.maxLen) (i1 : IsInt t.nConstants) (i2 : IsInt t.initDepth) (i3 : IsInt t.maxLen)
    (q : TreePar K) : importAll treeTable q [("min_constant", .num t.min),
      ("max_constant", .num t.max), ("n_constants", jsonOfInt t.nConstants),
      ("init_depth", jsonOfInt t.initDepth), ("max_len", jsonOfInt t.maxLen)] =
      .ok { q with
        min := t.min, max := t.max, nConstants := t.nConstants, initDepth := t.initDepth,
        maxLen := t.maxLen } := by
  rw [importAll_cons (member_num rfl rfl _), importAll_cons (member_num rfl rfl _),
    importAll_cons (member_int rfl i1 rfl _), importAll_cons (member_int rfl i2 rfl _),
    importAll_cons (member_int rfl i3 rfl _), importAll_nil, clamp1_of h1, clamp1_of h2,
    clamp1_of h3]

theorem graph_trip {d : GraphPar} (h1 : 1 ≤ d.maxK) (h2 : 1 ≤ d.maxT)
    (h3 : 1 ≤ d.n) (i1 : IsInt d.maxK) (i2 : IsInt d.maxT) (i3 : IsInt d.n)
    (q : GraphPar) : importAll (K := K) graphTable q [("max_k", jsonOfInt d.maxK),
      ("max_t", jsonOfInt d.maxT), ("n", jsonOfInt d.n), ("evolve_cycles", .bool d.evolve)] =
      .ok { q with maxK := d.maxK, maxT := d.maxT, n := d.n, evolve := d.evolve } := by
  rw [importAll_cons (member_int rfl i1 rfl _), importAll_cons (member_int rfl i2 rfl _),
    importAll_cons (member_int rfl i3 rfl _), importAll_cons (member_bool rfl _ _),
    importAll_nil, clamp1_of h1, clamp1_of h2, clamp1_of h3]

theorem item_args (t : String) (a : Json K) (l) :
    Json.item "args" (.obj (("type", .str t) :: ("args", a) :: l)) = some a := rfl

theorem cond_trip {g : Rng K R} (O : g.Open) {c : CondFile K} (V : c.Valid) (i1 : IsInt c.bits)
    (i2 : IsInt c.dargs.maxK) (i3 : IsInt c.dargs.maxT) (i4 : IsInt c.dargs.n)
    (i5 : IsInt c.targs.nConstants) (i6 : IsInt c.targs.initDepth) (i7 : IsInt c.targs.maxLen)
    {x : Int} (P : c.type = 4 ∨ c.type = 12 ∨ c.type = 13 → LayersPlain x c.largs) {r : R} {z}
    (h : condParExport g c r = .ok z) (q : CondFile K) (s : R) :
    ∃ c' s', condParImport g x q z.1.1 s = .ok (c', s') ∧ SameCond c c' ∧
      ∀ u, ∃ c'' u', condParExport g c' u = .ok ((z.1.1, c''), u') := by
  unfold condParExport at h
  cases ht : nameOf condNames c.type with
  | error e => rw [ht] at h; cases h
  | ok t =>
    have hc := (C47_names.1 c.type t).2 ht
    rw [ht] at h
    simp only [bind, Except.bind] at h
    by_cases h7 : c.type = 7
    · rw [if_pos h7] at h
      cases h
      refine ⟨{ q with type := c.type, pDontcare := c.pDontcare, bits := c.bits }, s, ?_, ?_, fun u =>
        ⟨{ q with type := c.type, pDontcare := c.pDontcare, bits := c.bits }, u, ?_⟩⟩
      · unfold condParImport
        simp only [typeMember_of hc, bind, Except.bind, item_args]
        unfold condArgsImport
        dsimp only
        rw [if_pos h7]
        simp only [Json.members, bind, Except.bind]
        rw [tern_trip V.pDontcare V.bits i1]
      · exact ⟨rfl, fun _ => ⟨rfl, rfl⟩, by omega, by omega, by omega⟩
      · unfold condParExport
        simp only [ht, bind, Except.bind, if_pos h7]
    rw [if_neg h7] at h
    by_cases h1 : c.type = 3 ∨ c.type = 1 ∨ c.type = 2
    · rw [if_pos h1] at h
      cases h
      refine ⟨{ q with
        type := c.type, eta := c.eta, min := c.min, max := c.max, spreadMin := c.spreadMin },
        s, ?_, ?_, fun u => ⟨{ q with
        type := c.type, eta := c.eta, min := c.min, max := c.max, spreadMin := c.spreadMin },
        u, ?_⟩⟩
      · unfold condParImport
        simp only [typeMember_of hc, bind, Except.bind, item_args]
        unfold condArgsImport
        dsimp only
        rw [if_neg h7, if_pos h1]
        simp only [Json.members, bind, Except.bind]
        rw [csr_trip V.eta V.spreadMin]
      · exact ⟨rfl, by omega, fun _ => ⟨rfl, rfl, rfl, rfl⟩, by omega, by omega⟩
      · unfold condParExport
        simp only [ht, bind, Except.bind, if_pos h1, if_neg h7]
    rw [if_neg h1] at h
    by_cases h5 : c.type = 5
    · rw [if_pos h5] at h
      cases h
      refine ⟨{ q with type := c.type, targs := (drawConstants g { q.targs with
        min := c.targs.min, max := c.targs.max, nConstants := c.targs.nConstants,
        initDepth := c.targs.initDepth, maxLen := c.targs.maxLen } s).1 }, (drawConstants g { q.targs with
        min := c.targs.min, max := c.targs.max, nConstants := c.targs.nConstants,
        initDepth := c.targs.initDepth, maxLen := c.targs.maxLen } s).2, ?_, ?_, fun u =>
        ⟨{ q with type := c.type, targs := (drawConstants g { q.targs with
        min := c.targs.min, max := c.targs.max, nConstants := c.targs.nConstants,
        initDepth := c.targs.initDepth, maxLen := c.targs.maxLen } s).1 }, u, ?_⟩⟩
      · unfold condParImport
        simp only [typeMember_of hc, bind, Except.bind, item_args]
        unfold condArgsImport
        dsimp only
        rw [if_neg h7, if_neg h1, if_pos h5]
        simp only [Json.members, bind, Except.bind]
        rw [tree_trip V.nConstants V.initDepth V.maxLen i5 i6 i7]
      · exact ⟨rfl, by omega, by omega, fun _ => ⟨rfl, rfl, rfl, rfl, rfl⟩, by omega⟩
      · unfold condParExport
        simp only [ht, bind, Except.bind, if_neg h1, if_neg h7, if_pos h5]
        rfl
    rw [if_neg h5] at h
    by_cases h6 : c.type = 6 ∨ c.type = 11
    · rw [if_pos h6] at h
      cases h
      refine ⟨{ q with
        type := c.type,
        dargs := { q.dargs with
          maxK := c.dargs.maxK, maxT := c.dargs.maxT, n := c.dargs.n,
          evolve := c.dargs.evolve } }, s, ?_, ?_, fun u => ⟨{ q with
        type := c.type,
        dargs := { q.dargs with
          maxK := c.dargs.maxK, maxT := c.dargs.maxT, n := c.dargs.n,
          evolve := c.dargs.evolve } }, u, ?_⟩⟩
      · unfold condParImport
        simp only [typeMember_of hc, bind, Except.bind, item_args]
        unfold condArgsImport
        dsimp only
        rw [if_neg h7, if_neg h1, if_neg h5, if_pos h6]
        simp only [Json.members, bind, Except.bind]
        rw [graph_trip V.maxK V.maxT V.n i2 i3 i4]
      · exact ⟨rfl, by omega, by omega, by omega, fun _ => ⟨rfl, rfl, rfl, rfl⟩⟩
      · unfold condParExport
        simp only [ht, bind, Except.bind, if_neg h1, if_neg h7, if_neg h5, if_pos h6]
    rw [if_neg h6] at h
    by_cases h4 : c.type = 4 ∨ c.type = 12 ∨ c.type = 13
    · rw [if_pos h4] at h
      cases he : exportLayers g c.largs r with
      | error e => rw [he] at h; cases h
      | ok w =>
        rw [he] at h
        cases h
        obtain ⟨cs, hi, hx⟩ := layers_trip O (P h4) he
        refine ⟨{ q with type := c.type, largs := cs }, s, ?_, ?_, fun u => ?_⟩
        · unfold condParImport
          simp only [typeMember_of hc, bind, Except.bind, item_args]
          unfold condArgsImport
          dsimp only
          rw [if_neg h7, if_neg h1, if_neg h5, if_neg h6, if_pos h4]
          simp only [bind, Except.bind]
          rw [hi]
        · exact ⟨rfl, by omega, by omega, by omega, by omega⟩
        · obtain ⟨bs, u', e⟩ := hx u
          refine ⟨{ q with type := c.type, largs := bs }, u', ?_⟩
          unfold condParExport
          simp only [ht, bind, Except.bind, if_neg h1, if_neg h7, if_neg h5, if_neg h6, if_pos h4, e]
    rw [if_neg h4] at h
    cases h
    refine ⟨{ q with type := c.type }, s, ?_, ?_, fun u => ⟨{ q with type := c.type }, u, ?_⟩⟩
    · unfold condParImport
      simp only [typeMember_of hc, bind, Except.bind]
      rfl
    · exact ⟨rfl, by omega, by omega, by omega, by omega⟩
    · unfold condParExport
      simp only [ht, bind, Except.bind, if_neg h1, if_neg h7, if_neg h5, if_neg h6, if_neg h4]

theorem act_trip {g : Rng K R} (O : g.Open) {c : ActFile K}
    {x : Int} (P : c.type = 1 → LayersPlain x c.largs) {r : R} {z}
    (h : actParExport g c r = .ok z) (q : ActFile K) :
    ∃ c', actParImport x q z.1.1 = .ok c' ∧ c'.type = c.type ∧
      ∀ u, ∃ c'' u', actParExport g c' u = .ok ((z.1.1, c''), u') := by
  unfold actParExport at h
  cases ht : nameOf actNames c.type with
  | error e => rw [ht] at h; cases h
  | ok t =>
    have hc := (C47_names.2.2.1 c.type t).2 ht
    rw [ht] at h
    simp only [bind, Except.bind] at h
    by_cases h1 : c.type = 1
    · rw [if_pos h1] at h
      cases he : exportLayers g c.largs r with
      | error e => rw [he] at h; cases h
      | ok w =>
        rw [he] at h
        cases h
        obtain ⟨cs, hi, hx⟩ := layers_trip O (P h1) he
        refine ⟨{ type := c.type, largs := cs }, ?_, ?_, fun u => ?_⟩
        · unfold actParImport
          simp only [typeMember_of hc, bind, Except.bind, item_args]
          rw [if_pos h1, hi]
        · rfl
        · obtain ⟨bs, u', e⟩ := hx u
          refine ⟨{ type := c.type, largs := bs }, u', ?_⟩
          unfold actParExport
          simp only [ht, bind, Except.bind, if_pos h1, e]
    · rw [if_neg h1] at h
      cases h
      refine ⟨{ q with type := c.type }, ?_, ?_, fun u => ⟨{ q with type := c.type }, u, ?_⟩⟩
      · unfold actParImport
        simp only [typeMember_of hc, bind, Except.bind]
        rfl
      · rfl
      · unfold actParExport
        simp only [ht, bind, Except.bind, if_neg h1]

theorem nlms_trip {p : PredFile K} (h1 : UnitK p.eta) (h2 : UnitK p.etaMin) (q : PredFile K) :
    importAll nlmsTable q ([("x0", .num p.x0), ("eta", .num p.eta),
      ("evolve_eta", .bool p.evolveEta)] ++
      (if p.evolveEta then [("eta_min", .num p.etaMin)] else [])) =
    .ok { q with
      x0 := p.x0, eta := p.eta, evolveEta := p.evolveEta,
      etaMin := if p.evolveEta then p.etaMin else q.etaMin } := by
  rw [List.cons_append, importAll_cons (member_num rfl rfl _),
    List.cons_append, importAll_cons (member_num rfl rfl _),
    List.cons_append, importAll_cons (member_bool rfl _ _), List.nil_append, clamp01_of h1]
  by_cases h : p.evolveEta = true
  · simp only [if_pos h]
    rw [importAll_cons (member_num rfl rfl _), clamp01_of h2]
    rfl
  · simp only [if_neg h]
    rfl

theorem rls_trip {p : PredFile K} (q : PredFile K) :
    importAll rlsTable q [("x0", .num p.x0), ("lambda", .num p.lambda),
      ("scale_factor", .num p.scaleFactor)] =
    .ok { q with x0 := p.x0, lambda := p.lambda, scaleFactor := p.scaleFactor } := by
  rw [importAll_cons (member_num rfl rfl _), importAll_cons (member_num rfl rfl _),
    importAll_cons (member_num rfl rfl _)]
  rfl

theorem pred_trip {g : Rng K R} (O : g.Open) {c : PredFile K} (V : c.Valid)
    {x : Int} (P : c.type = 5 → LayersPlain x c.largs) {r : R} {z}
    (h : predParExport g c r = .ok z) (q : PredFile K) :
    ∃ c', predParImport x q z.1.1 = .ok c' ∧ SamePred c c' ∧
      ∀ u, ∃ c'' u', predParExport g c' u = .ok ((z.1.1, c''), u') := by
  unfold predParExport at h
  cases ht : nameOf predNames c.type with
  | error e => rw [ht] at h; cases h
  | ok t =>
    have hc := (C47_names.2.1 c.type t).2 ht
    rw [ht] at h
    simp only [bind, Except.bind] at h
    by_cases h1 : c.type = 1 ∨ c.type = 2
    · rw [if_pos h1] at h
      cases h
      refine ⟨{ q with
        type := c.type, x0 := c.x0, eta := c.eta, evolveEta := c.evolveEta,
        etaMin := if c.evolveEta then c.etaMin else q.etaMin }, ?_, ?_, fun u => ⟨{ q with
        type := c.type, x0 := c.x0, eta := c.eta, evolveEta := c.evolveEta,
        etaMin := if c.evolveEta then c.etaMin else q.etaMin }, u, ?_⟩⟩
      · unfold predParImport
        simp only [typeMember_of hc, bind, Except.bind, item_args]
        rw [if_pos h1]
        simp only [Json.members]
        rw [nlms_trip V.eta V.etaMin]
      · exact ⟨rfl, fun _ => ⟨rfl, rfl, rfl, fun h => if_pos h⟩, by omega⟩
      · unfold predParExport
        simp only [ht, bind, Except.bind, if_pos h1]
        by_cases h : c.evolveEta = true
        · simp only [if_pos h]
        · simp only [if_neg h]
    rw [if_neg h1] at h
    by_cases h3 : c.type = 3 ∨ c.type = 4
    · rw [if_pos h3] at h
      cases h
      refine ⟨{ q with
        type := c.type, x0 := c.x0, lambda := c.lambda, scaleFactor := c.scaleFactor }, ?_, ?_, fun u => ⟨{ q with
        type := c.type, x0 := c.x0, lambda := c.lambda, scaleFactor := c.scaleFactor }, u, ?_⟩⟩
      · unfold predParImport
        simp only [typeMember_of hc, bind, Except.bind, item_args]
        rw [if_neg h1, if_pos h3]
        simp only [Json.members]
        rw [rls_trip]
      · exact ⟨rfl, by omega, fun _ => ⟨rfl, rfl, rfl⟩⟩
      · unfold predParExport
        simp only [ht, bind, Except.bind, if_neg h1, if_pos h3]
    rw [if_neg h3] at h
    by_cases h5 : c.type = 5
    · rw [if_pos h5] at h
      cases he : exportLayers g c.largs r with
      | error e => rw [he] at h; cases h
      | ok w =>
        rw [he] at h
        cases h
        obtain ⟨cs, hi, hx⟩ := layers_trip O (P h5) he
        refine ⟨{ q with type := c.type, largs := cs }, ?_, ?_, fun u => ?_⟩
        · unfold predParImport
          simp only [typeMember_of hc, bind, Except.bind, item_args]
          rw [if_neg h1, if_neg h3, if_pos h5, hi]
        · exact ⟨rfl, by omega, by omega⟩
        · obtain ⟨bs, u', e⟩ := hx u
          refine ⟨{ q with type := c.type, largs := bs }, u', ?_⟩
          unfold predParExport
          simp only [ht, bind, Except.bind, if_neg h1, if_neg h3, if_pos h5, e]
    rw [if_neg h5] at h
    cases h
    refine ⟨{ q with type := c.type }, ?_, ?_, fun u => ⟨{ q with type := c.type }, u, ?_⟩⟩
    · unfold predParImport
      simp only [typeMember_of hc, bind, Except.bind]
      rfl
    · exact ⟨rfl, by omega, by omega⟩
    · unfold predParExport
      simp only [ht, bind, Except.bind, if_neg h1, if_neg h3, if_neg h5]

/-! ## Everything -/

theorem cstring_takeWhile (l : List Char) :
    (l.takeWhile (· ≠ Char.ofNat 0) ++ [Char.ofNat 0]).takeWhile (· ≠ Char.ofNat 0) =
      l.takeWhile (· ≠ Char.ofNat 0) := by
  rw [List.takeWhile_append, takeWhile_takeWhile, if_pos rfl]
  simp

theorem params_trip {g : Rng K R} (O : g.Open) (sd : Seeds R) {p : SysPar K} (V : p.Valid)
    (I : p.Ints) (F : FileOk p.popFile)
    (A : p.reportsAction = true → p.act.type = 1 → LayersPlain p.xDim p.act.largs)
    (C : p.cond.type = 4 ∨ p.cond.type = 12 ∨ p.cond.type = 13 → LayersPlain p.xDim p.cond.largs)
    (Q : p.pred.type = 5 → LayersPlain p.xDim p.pred.largs) {r : R} {z}
    (h : paramExport g p r = .ok z) (q : SysPar K) (s : R) :
    ∃ p' s', paramImport g sd z.1.1 (q, s) = .ok (p', s') ∧ SameParams p p' ∧
      ∀ u, ∃ p'' u', paramExport g p' u = .ok ((z.1.1, p''), u') := by
  unfold paramExport at h
  cases hl : scalarMembers p with
  | error e => rw [hl] at h; cases h
  | ok l =>
  rw [hl] at h
  simp only [bind, Except.bind] at h
  cases he : eaExport p.ea with
  | error e => rw [he] at h; cases h
  | ok e =>
  rw [he] at h
  simp only at h
  obtain ⟨le, hle, hei⟩ := ea_trip V.ea I.lambda he q.ea
  obtain ⟨s1, hs⟩ := scalars_trip g sd V I F hl q s
  generalize hq1 : p.adopt q (p.popFile.takeWhile (· ≠ Char.ofNat 0) ++ [Char.ofNat 0]) = q1 at hs
  have hx1 : q1.xDim = p.xDim := by rw [← hq1]; rfl
  have hea : importMember (paramTable g sd) (q1, s1) ("ea", e) =
      .ok ({ q1 with ea := p.ea.adopt q.ea }, s1) := by
    have e0 : q1.ea = q.ea := by rw [← hq1]; rfl
    refine (member_any (h := eaStep e) rfl rfl _).trans ?_
    subst hle
    simp only [eaStep, Json.members, bind, Except.bind, e0, hei]
  -- actions
  have hact : ∀ {y}, actionMembers g p.reportsAction p.act r = .ok y →
      ∃ a' : ActFile K, importAll (paramTable g sd) ({ q1 with ea := p.ea.adopt q.ea }, s1) y.1.1 =
        .ok ({ q1 with ea := p.ea.adopt q.ea, act := a' }, s1) ∧
      (p.reportsAction = true → a'.type = p.act.type) ∧
      ∀ u, ∃ a'' u', actionMembers g p.reportsAction a' u = .ok ((y.1.1, a''), u') := by
    intro y hy
    unfold actionMembers at hy ⊢
    simp only [bind, Except.bind] at hy ⊢
    by_cases hr : p.reportsAction = true
    · rw [if_pos hr] at hy
      cases ha : actParExport g p.act r with
      | error e => rw [ha] at hy; cases hy
      | ok v =>
        rw [ha] at hy
        cases hy
        obtain ⟨a', e1, e2, e3⟩ := act_trip O (A hr) ha q1.act
        refine ⟨a', ?_, fun _ => e2, fun u => ?_⟩
        · refine (importAll_cons (s1 := ({ q1 with ea := p.ea.adopt q.ea, act := a' }, s1))
            ((member_any (h := actStep v.1.1) rfl rfl _).trans ?_)).trans rfl
          simp only [actStep, bind, Except.bind, hx1, e1]
        · obtain ⟨a'', u', e4⟩ := e3 u
          refine ⟨a'', u', ?_⟩
          rw [if_pos hr, e4]
    · rw [if_neg hr] at hy
      cases hy
      refine ⟨q1.act, rfl, fun h => absurd h hr, fun u => ⟨q1.act, u, ?_⟩⟩
      rw [if_neg hr]
  cases ha : actionMembers g p.reportsAction p.act r with
  | error e => rw [ha] at h; cases h
  | ok y =>
  obtain ⟨a', ai, at', ax⟩ := hact ha
  rw [ha] at h
  simp only at h
  cases hc : condParExport g p.cond y.2 with
  | error e => rw [hc] at h; cases h
  | ok w =>
  rw [hc] at h
  simp only at h
  obtain ⟨c', s2, ci, ct, cx⟩ := cond_trip O V.cond I.bits I.maxK I.maxT I.n I.nConstants I.initDepth
    I.maxLen C hc q1.cond s1
  cases hp : predParExport g p.pred w.2 with
  | error e => rw [hp] at h; cases h
  | ok v =>
  rw [hp] at h
  cases h
  obtain ⟨d', di, dt, dx⟩ := pred_trip O V.pred Q hp q1.pred
  refine ⟨{ q1 with ea := p.ea.adopt q.ea, act := a', cond := c', pred := d' }, s2, ?_, ?_,
    fun u => ?_⟩
  · unfold paramImport
    simp only [Json.members, bind, Except.bind]
    rw [List.append_assoc, List.append_assoc, importAll_append hs, List.cons_append,
      importAll_cons hea, List.nil_append, importAll_append ai]
    rw [importAll_cons (s1 := ({ q1 with ea := p.ea.adopt q.ea, act := a', cond := c' }, s2))
      ((member_any (h := condStep g w.1.1) rfl rfl _).trans (by
          simp only [condStep, bind, Except.bind, hx1, ci]))]
    rw [importAll_cons (s1 := ({ q1 with ea := p.ea.adopt q.ea, act := a', cond := c', pred := d' },
        s2))
      ((member_any (h := predStep v.1.1) rfl rfl _).trans (by
          simp only [predStep, bind, Except.bind, hx1, di]))]
    rfl
  · subst hq1
    refine ⟨⟨rfl, rfl, rfl⟩, ⟨rfl, rfl, rfl, rfl, rfl, rfl⟩, cstring_takeWhile _,
      ⟨rfl, fun h => if_pos h⟩, fun h => ⟨if_pos h, if_pos h, if_pos h⟩,
      ⟨rfl, rfl, rfl, rfl, rfl, rfl, rfl, rfl, rfl, rfl, rfl, rfl, rfl⟩,
      ⟨rfl, fun h => if_pos h, rfl, rfl, rfl, rfl, rfl, rfl, rfl⟩, at', ct, dt⟩
  · have hs2 : scalarMembers ({ q1 with
        ea := p.ea.adopt q.ea, act := a', cond := c', pred := d' } : SysPar K) = .ok l := by
      rw [← hl, ← scalars_again F q, hq1]
      rfl
    have hr2 : ({ q1 with
        ea := p.ea.adopt q.ea, act := a', cond := c', pred := d' } : SysPar K).reportsAction =
        p.reportsAction := by
      unfold SysPar.reportsAction
      dsimp only
      rw [ct.type]
      subst hq1
      rfl
    obtain ⟨a'', u1, ae⟩ := ax u
    obtain ⟨c'', u2, ce⟩ := cx u1
    obtain ⟨d'', u3, de⟩ := dx u2
    refine ⟨{ q1 with ea := p.ea.adopt q.ea, act := a'', cond := c'', pred := d'' }, u3, ?_⟩
    unfold paramExport
    rw [hs2]
    simp only [bind, Except.bind]
    rw [ea_again, he]
    simp only [hr2]
    rw [ae]
    simp only [ce, de]

end
end Xcsf
