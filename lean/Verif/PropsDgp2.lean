import Verif.PropsDgp
import Verif.Demo

/-!
# C34 (JSON, conditions), C35 and C36: rules that compute their action
-/

set_option linter.unusedSectionVars false

namespace Xcsf
variable {K R : Type} [Field K] [LinearOrder K] [IsStrictOrderedRing K]

/-! ## C34: JSON -/

theorem funcString_int {f : Int} (h : f = 0 ∨ f = 1 ∨ f = 2) :
    ∃ s, funcString f = .ok s ∧ funcInt s = .ok f := by
  rcases h with rfl | rfl | rfl
  · exact ⟨_, rfl, by decide⟩
  · exact ⟨_, rfl, by decide⟩
  · exact ⟨_, rfl, by decide⟩

theorem funcs_roundtrip : ∀ {fs : List Int}, (∀ f ∈ fs, f = 0 ∨ f = 1 ∨ f = 2) →
    ∃ ss, fs.mapM funcString = .ok ss ∧ ss.length = fs.length ∧
      ∀ old : List Int, old.length = fs.length → importFuncs old (ss.map some) = .ok fs
  | [], _ => ⟨[], rfl, rfl, fun old h => by
      cases old with
      | nil => rfl
      | cons a l => simp at h⟩
  | f :: fs, h => by
    obtain ⟨s, h1, h2⟩ := funcString_int (h f (by simp))
    obtain ⟨ss, h3, h4, h5⟩ := funcs_roundtrip (fs := fs) fun f hf => h f (by simp [hf])
    refine ⟨s :: ss, by rw [List.mapM_cons, h1, h3]; rfl, by simp [h4], ?_⟩
    intro old ho
    cases old with
    | nil => simp at ho
    | cons a l =>
      simp only [List.map_cons, importFuncs, importFunc, h2]
      show (importFuncs l (ss.map some) >>= _) = _
      rw [h5 l (by simpa using ho)]
      rfl

theorem importFuncs_spec : ∀ {old : List Int} {ss : List (Option String)} {fs : List Int},
    (∀ f ∈ old, f = 0 ∨ f = 1 ∨ f = 2) → importFuncs old ss = .ok fs →
    fs.length = old.length ∧ ∀ f ∈ fs, f = 0 ∨ f = 1 ∨ f = 2
  | [], ss, fs, _, h => by
    unfold importFuncs at h
    cases h
    simp
  | a :: l, [], fs, ho, h => by
    unfold importFuncs at h
    cases h
    exact ⟨rfl, ho⟩
  | a :: l, s :: ss, fs, ho, h => by
    unfold importFuncs at h
    cases hs : importFunc a s with
    | error e => rw [hs] at h; cases h
    | ok f =>
      rw [hs] at h
      have hfr : f = 0 ∨ f = 1 ∨ f = 2 := by
        cases s with
        | none => cases hs; exact ho _ (by simp)
        | some s =>
          have hs : funcInt s = .ok f := hs
          unfold funcInt at hs
          split_ifs at hs <;> cases hs <;> simp
      cases hl : importFuncs l ss with
      | error e => rw [hl] at h; cases h
      | ok q =>
        rw [hl] at h
        cases h
        obtain ⟨h1, h2⟩ := importFuncs_spec (fun f hf => ho f (by simp [hf])) hl
        refine ⟨by simp [h1], ?_⟩
        intro f' hf'
        rcases List.mem_cons.1 hf' with rfl | hf'
        · exact hfr
        · exact h2 f' hf'

theorem importUnit_self {n : Nat} {l : List K} (old : List K) (hl : l.length = n)
    (hu : ∀ v ∈ l, 0 ≤ v ∧ v ≤ 1) : importUnit n old (some l) = .ok l := by
  unfold importUnit
  dsimp only
  rw [if_neg (by simpa using hl), if_neg]
  simp only [List.any_eq_true, Bool.or_eq_true, decide_eq_true_eq, not_exists, not_and, not_or]
  exact fun v hv => ⟨not_lt.2 (hu v hv).1, not_lt.2 (hu v hv).2⟩

theorem importUnit_spec {n : Nat} {old st : List K} {j : Option (List K)}
    (h : importUnit n old j = .ok st) :
    (j = none ∧ st = old) ∨ (j = some st ∧ st.length = n ∧ ∀ v ∈ st, 0 ≤ v ∧ v ≤ 1) := by
  unfold importUnit at h
  cases j with
  | none => cases h; exact Or.inl ⟨rfl, rfl⟩
  | some l =>
    dsimp only at h
    split_ifs at h with h1 h2
    cases h
    refine Or.inr ⟨rfl, not_not.1 h1, ?_⟩
    simp only [List.any_eq_true, Bool.or_eq_true, decide_eq_true_eq, not_exists, not_and,
      not_or] at h2
    exact fun v hv => ⟨not_lt.1 (h2 v hv).1, not_lt.1 (h2 v hv).2⟩

variable [FloorRing K]

/-- **C34.** A well-formed graph that is written to JSON and read back is the same graph,
whatever was in the memory it is read into. -/
theorem C34_json_roundtrip {g : Rng K R} {a : DgpArgs} (ha : a.Legal) {d : Graph K}
    (hd : Wired a d) (junk : List K) (t0 : Int) (r : R) :
    ∃ j r', graphExport d = .ok j ∧ graphImport g a junk t0 j r = .ok (d, r') := by
  obtain ⟨ss, h1, h2, h3⟩ := funcs_roundtrip hd.funcs
  refine ⟨_, (graphRand g
    { evolve := a.evolve, nInputs := a.nInputs, n := d.n, t := t0, klen := d.n * a.maxK,
      maxT := a.maxT, maxK := a.maxK, state := [], initial := [], func := [], conn := [], mu := junk } r).2,
    by unfold graphExport; rw [h1]; rfl, ?_⟩
  have hn1 : ¬ ((d.n : Int) < 1) := by have := ha.n; have := hd.n; omega
  have ht1 : ¬ (d.t < 1) := not_lt.2 hd.cycles.1
  have hr : ∀ v ∈ d.mu, 0 ≤ v ∧ v ≤ 1 := fun v hv => by
    have := hd.rates.2 v hv
    exact ⟨le_trans (by norm_num) this.1, this.2⟩
  have hc2 : ¬ (d.conn.any (fun c => decide (c < 0) ||
      decide ((d.n : Int) + (a.nInputs : Int) < c)) = true) := by
    simp only [List.any_eq_true, Bool.or_eq_true, decide_eq_true_eq, not_exists, not_and, not_or]
    intro c hc
    have := hd.conns c hc
    have := hd.n
    omega
  unfold graphImport
  dsimp only [bind, Except.bind, importSize, importCycles]
  rw [if_neg hn1]
  dsimp only [Int.toNat_natCast]
  rw [if_neg ht1]
  dsimp only
  generalize hG : graphRand g
    { evolve := a.evolve, nInputs := a.nInputs, n := d.n, t := t0, klen := d.n * a.maxK,
      maxT := a.maxT, maxK := a.maxK, state := [], initial := [], func := [], conn := [], mu := junk } r = G
  have hGf : G.1.func.length = d.func.length := by
    rw [← hG]
    simp only [graphRand, List.length_map]
    rw [(drawN_spec (P := fun _ => True) (fun _ => trivial) d.n _).1, hd.funcLen, hd.n]
  have hGk : G.1.klen = a.n * a.maxK := by
    rw [← hG, ← hd.n]; rfl
  rw [importUnit_self _ (hd.stateLen.trans hd.n.symm) hd.stateUnit]
  dsimp only
  rw [importUnit_self _ (hd.initLen.trans hd.n.symm) hd.initUnit]
  dsimp only [importFuncList, importConn]
  rw [if_neg (by simp [h2, hd.funcLen, hd.n]), h3 _ hGf]
  dsimp only
  rw [if_neg (by rw [hGk]; simp [hd.connLen]), if_neg hc2]
  dsimp only
  rw [importUnit_self _ hd.rates.1 hr]
  have hGe : G.1.evolve = d.evolve ∧ G.1.nInputs = d.nInputs ∧ G.1.n = d.n ∧ G.1.klen = d.klen ∧
      G.1.maxT = d.maxT ∧ G.1.maxK = d.maxK := by
    rw [hGk, ← hG]
    exact ⟨hd.evolve.symm, hd.nInputs.symm, rfl, hd.klen.symm, hd.maxT.symm, hd.maxK.symm⟩
  obtain ⟨e1, e2, e3, e4, e5, e6⟩ := hGe
  show Except.ok _ = Except.ok _
  rw [e1, e2, e3, e4, e5, e6]

/-- **C34**, partial for imported graphs: if a JSON object is accepted and gives the size of
the arguments, no connection equal to the number of inputs and nodes, no more cycles than
allowed and legal mutation rates, then the graph is well-formed.  (The checks of the code
do not cover these four, see `C34_import_refuted`.) -/
theorem C34_import_partial {g : Rng K R} (H : g.Open) {a : DgpArgs} (ha : a.Legal)
    {junk : List K} {t0 : Int} {j : GraphJson K} {r r' : R} {d : Graph K}
    (h : graphImport g a junk t0 j r = .ok (d, r'))
    (hn : ∀ n, j.n = some n → n = a.n) (ht : ∀ t, j.t = some t → t ≤ a.maxT)
    (ht0 : 1 ≤ t0 ∧ t0 ≤ a.maxT)
    (hc : ∀ l, j.connectivity = some l → ((a.n + a.nInputs : Nat) : Int) ∉ l)
    (hm : ∃ l, j.mutation = some l ∧ ∀ m ∈ l, LegalRate m) : Wired a d := by
  obtain ⟨ml, hml, hlegal⟩ := hm
  have e0 : importSize a.n j.n = .ok a.n := by
    cases hj : j.n with
    | none => rfl
    | some n =>
      have := hn n hj
      subst this
      have := ha.n
      rw [importSize, if_neg (by omega), Int.toNat_natCast]
  unfold graphImport at h
  rw [e0] at h
  dsimp only [bind, Except.bind] at h
  generalize hG : graphRand g
    { evolve := a.evolve, nInputs := a.nInputs, n := a.n, t := t0, klen := a.n * a.maxK,
      maxT := a.maxT, maxK := a.maxK, state := [], initial := [], func := [], conn := [], mu := junk } r = G at h
  -- the random graph, with legal rates instead of the junk, is well-formed
  have hW : Wired a { G.1 with mu := [1, 1, 1] } := by
    have := graphRand_spec H ha (d :=
      { evolve := a.evolve, nInputs := a.nInputs, n := a.n, t := t0, klen := a.n * a.maxK,
        maxT := a.maxT, maxK := a.maxK, state := [], initial := [], func := [], conn := [],
        mu := [1, 1, 1] }) ⟨rfl, rfl, rfl, rfl, rfl, rfl, fun _ => ht0, rfl, by
        intro m hm
        have : m = 1 := by simpa using hm
        subst this
        exact ⟨by norm_num, le_refl _⟩⟩ r
    rw [← hG]
    exact this
  cases hT : importCycles G.1.t j.t with
  | error e => rw [hT] at h; cases h
  | ok t =>
  rw [hT] at h
  dsimp only at h
  cases hS : importUnit a.n G.1.state j.current with
  | error e => rw [hS] at h; cases h
  | ok st =>
  rw [hS] at h
  dsimp only at h
  cases hI : importUnit a.n G.1.initial j.initial with
  | error e => rw [hI] at h; cases h
  | ok ini =>
  rw [hI] at h
  dsimp only at h
  cases hF : importFuncList a.n G.1.func j.functions with
  | error e => rw [hF] at h; cases h
  | ok fs =>
  rw [hF] at h
  dsimp only at h
  cases hC : importConn a.n a.nInputs G.1.klen G.1.conn j.connectivity with
  | error e => rw [hC] at h; cases h
  | ok cs =>
  rw [hC] at h
  dsimp only at h
  cases hM : importUnit 3 G.1.mu j.mutation with
  | error e => rw [hM] at h; cases h
  | ok mu =>
  rw [hM] at h
  cases h
  have uS := importUnit_spec hS
  have uI := importUnit_spec hI
  have uM := importUnit_spec hM
  rw [hml] at uM
  have gF : fs.length = a.n ∧ ∀ f ∈ fs, f = 0 ∨ f = 1 ∨ f = 2 := by
    cases hj : j.functions with
    | none => rw [hj] at hF; cases hF; exact ⟨hW.funcLen, hW.funcs⟩
    | some l =>
      rw [hj] at hF
      simp only [importFuncList] at hF
      split_ifs at hF
      obtain ⟨h1, h2⟩ := importFuncs_spec hW.funcs hF
      exact ⟨h1.trans hW.funcLen, h2⟩
  have gC : cs.length = a.n * a.maxK ∧ ∀ c ∈ cs, 0 ≤ c ∧ c < (a.nInputs + a.n : Nat) := by
    cases hj : j.connectivity with
    | none => rw [hj] at hC; cases hC; exact ⟨hW.connLen, hW.conns⟩
    | some l =>
      rw [hj] at hC
      simp only [importConn] at hC
      split_ifs at hC with h1 h2
      cases hC
      refine ⟨(not_not.1 h1).trans hW.klen, ?_⟩
      simp only [List.any_eq_true, Bool.or_eq_true, decide_eq_true_eq, not_exists, not_and,
        not_or] at h2
      intro c hcm
      have a1 := h2 c hcm
      have a2 : c ≠ ((a.n + a.nInputs : Nat) : Int) := fun e => hc _ hj (e ▸ hcm)
      omega
  have gT : 1 ≤ t ∧ t ≤ a.maxT := by
    cases hj : j.t with
    | none => rw [hj] at hT; cases hT; exact hW.cycles
    | some t' =>
      rw [hj] at hT
      simp only [importCycles] at hT
      split_ifs at hT with h1
      cases hT
      exact ⟨not_lt.1 h1, ht t hj⟩
  have gM : mu.length = 3 ∧ ∀ m ∈ mu, LegalRate m := by
    rcases uM with ⟨h, -⟩ | ⟨h, h2, -⟩
    · cases h
    · cases h; exact ⟨h2, hlegal⟩
  exact
    { hW with
      cycles := gT
      stateLen := by rcases uS with ⟨-, e⟩ | ⟨-, e, -⟩; exacts [e ▸ hW.stateLen, e]
      initLen := by rcases uI with ⟨-, e⟩ | ⟨-, e, -⟩; exacts [e ▸ hW.initLen, e]
      stateUnit := by rcases uS with ⟨-, e⟩ | ⟨-, -, e⟩; exacts [e ▸ hW.stateUnit, e]
      initUnit := by rcases uI with ⟨-, e⟩ | ⟨-, -, e⟩; exacts [e ▸ hW.initUnit, e]
      funcLen := gF.1, funcs := gF.2, connLen := gC.1, conns := gC.2, rates := gM }

/-! ## C34: conditions -/

/-- **C34.** A graph condition matches iff node 0 ends above one half. -/
theorem C34_match {a : DgpArgs} (ha : a.Legal) {d : Graph K} (hd : Wired a d) {x : List K}
    (hx : a.nInputs ≤ x.length) (stateful : Bool) :
    ∃ m d', dgpMatch stateful d x = .ok (m, d') ∧ Wired a d' ∧
      (m = true ↔ 1 / 2 < statesAfter d (fun j => x.getD j 0) (startStates d (!stateful))
        d.t.toNat 0) := by
  obtain ⟨st, e, w, v⟩ := C34_update ha hd hx (!stateful)
  have h0 : 0 < st.length := by
    have h1 : st.length = a.n := w.stateLen
    have := ha.n
    omega
  refine ⟨decide (1 / 2 < st.getD 0 0), { d with state := st }, ?_, w, ?_⟩
  · unfold dgpMatch
    rw [e]
    show (getR st 0 >>= _) = _
    rw [getR_of_lt h0 0]
    rfl
  · rw [decide_eq_true_eq, v 0 ha.n]

/-- **C34.** If covering returns, the graph is well-formed and the last thing it did was to
match the input; a graph that is reset for every input matches it again. -/
theorem C34_cover {g : Rng K R} (H : g.Open) {a : DgpArgs} (ha : a.Legal) {x : List K}
    (hx : a.nInputs ≤ x.length) {stateful : Bool} : ∀ {k : Nat} {d d' : Graph K} {r r' : R},
    Wired a d → dgpCover g stateful x k d r = .ok (d', r') →
    Wired a d' ∧ (∃ d0, Wired a d0 ∧ dgpMatch stateful d0 x = .ok (true, d')) ∧
      (stateful = false → dgpMatch false d' x = .ok (true, d'))
  | 0, d, d', r, r', _, h => by cases h
  | k + 1, d, d', r, r', hd, h => by
    unfold dgpCover at h
    dsimp only at h
    have hw := graphRand_spec H ha hd.sized r
    obtain ⟨m, d1, e, w, -⟩ := C34_match ha hw hx stateful
    rw [e] at h
    have h : (if m = true then Except.ok (d1, (graphRand g d r).2)
      else dgpCover g stateful x k d1 (graphRand g d r).2) = .ok (d', r') := h
    cases m with
    | false => exact C34_cover H ha hx w h
    | true =>
      cases h
      refine ⟨w, ⟨_, hw, e⟩, ?_⟩
      rintro rfl
      have hu : Updated (graphRand g d r).1 d' := by
        unfold dgpMatch at e
        cases hq : graphUpdate (graphRand g d r).1 x (!false) with
        | error f => rw [hq] at e; cases e
        | ok d2 =>
          rw [hq] at e
          have e : (getR d2.state 0 >>= fun v => Except.ok (decide (1 / 2 < v), d2)) =
            .ok (true, d') := e
          cases hv : getR d2.state 0 with
          | error f => rw [hv] at e; cases e
          | ok v =>
            rw [hv] at e
            have := congrArg Prod.snd (Except.ok.inj e)
            have : d2 = d' := this
            subst this
            exact Updated.step x true Updated.refl hq
      have := C34_reset_stateless hu x
      unfold dgpMatch at e ⊢
      rw [show graphUpdate d' x (!false) = graphUpdate (graphRand g d r).1 x (!false) from this]
      exact e

/-! ## C36: computed actions -/

variable {X N : Type}

theorem clampInt_mem {n : Nat} (hn : 1 ≤ n) (v : Int) :
    0 ≤ clampInt v 0 ((n : Int) - 1) ∧ clampInt v 0 ((n : Int) - 1) < n := by
  unfold clampInt
  split
  · omega
  · split <;> omega

theorem bitsAction_valid {n bits : Nat} (hn : 1 ≤ n) {out : Nat → Res K} {a : Int}
    (h : bitsAction n bits out = .ok a) : 0 ≤ a ∧ a < n := by
  unfold bitsAction at h
  cases hb : bitsGo out bits with
  | error e => rw [hb] at h; cases h
  | ok v =>
    rw [hb] at h
    cases h
    exact clampInt_mem hn v

/-- **C36.** The action computed by a graph rule is a valid action, for every graph state. -/
theorem C36_rule_dgp {n : Nat} (hn : 1 ≤ n) {d : Graph K} {a : Int}
    (h : ruleDgpAction n d = .ok a) : 0 ≤ a ∧ a < n := bitsAction_valid hn h

/-- **C36.** The action computed by a neural rule is a valid action. -/
theorem C36_rule_neural {n : Nat} (hn : 1 ≤ n) (o : NetOps K X R N) {net : N} {a : Int}
    (h : ruleNetAction o n net = .ok a) : 0 ≤ a ∧ a < n := bitsAction_valid hn h

/-- **C36.** The action computed by a neural action with at least as many outputs as actions
is a valid action: the first output that no other exceeds. -/
theorem C36_act_neural {n : Nat} (hn : 1 ≤ n) (o : NetOps K X R N) {net : N} {x : X} {r : R}
    (hl : n ≤ (o.outputs (o.propagate net x r).1).length) :
    ∃ a, actNetAction o n net x r = .ok (a, o.propagate net x r) ∧ a < n ∧
      ∀ j, j < n → (o.outputs (o.propagate net x r).1).getD j 0 ≤
        (o.outputs (o.propagate net x r).1).getD a 0 := by
  unfold actNetAction
  generalize o.propagate net x r = p at hl
  dsimp only
  rw [if_neg (by omega)]
  have hne : (o.outputs p.1).take n ≠ [] := by
    intro h
    have := congrArg List.length h
    rw [List.length_take] at this
    simp only [List.length_nil] at this
    omega
  obtain ⟨i, m, h1, h2, h3, -⟩ := C45_argmax _ hne
  rw [h1]
  have hi : i < ((o.outputs p.1).take n).length := (List.getElem?_eq_some_iff.1 h2).1
  rw [List.length_take] at hi
  refine ⟨i, rfl, by omega, ?_⟩
  intro j hj
  rw [List.getElem?_take_of_lt (by omega)] at h2
  have e : (o.outputs p.1).getD i 0 = m := by
    rw [List.getD_eq_getElem?_getD, h2, Option.getD_some]
  rw [e]
  refine h3 _ ?_
  rw [List.mem_take_iff_getElem]
  exact ⟨j, by omega, (getD_lt (by omega) 0).symm⟩

/-- **C36.** Integer actions are valid when they are created, stay valid under mutation, and
are the requested one after covering. -/
theorem C36_act_integer {g : Rng K R} (H : g.Open) {n : Nat} (hn : 1 ≤ n) (r : R) :
    (∃ a r', actIntInit g n r = .ok (a, r') ∧ 0 ≤ actIntCompute a ∧ actIntCompute a < n) ∧
    (∀ a : ActInt K, 0 ≤ actIntCompute a ∧ actIntCompute a < n →
      ∃ mod a' r', actIntMutate g n a r = .ok (mod, a', r') ∧
        0 ≤ actIntCompute a' ∧ actIntCompute a' < n ∧
        (mod = true ↔ actIntCompute a' ≠ actIntCompute a)) ∧
    (∀ (a : ActInt K) (act : Int), actIntCompute (actIntCover a act) = act) := by
  refine ⟨?_, ?_, fun _ _ => rfl⟩
  · refine ⟨_, _, rfl, ?_⟩
    exact C45_random_int H (by omega) _
  · intro a ha
    unfold actIntMutate
    dsimp only [bind, Except.bind, samAdapt1]
    split_ifs
    · refine ⟨_, _, _, rfl, (C45_random_int H (by omega) _).1, (C45_random_int H (by omega) _).2, ?_⟩
      simp only [decide_eq_true_eq, actIntCompute]
      exact ne_comm
    · exact ⟨_, _, _, rfl, ha.1, ha.2, by simp [actIntCompute]⟩

/-- **C36**, refuted for imported rules: any integer is accepted as an action. -/
theorem C36_import_refuted (a : ActInt K) (act : Int) :
    ∃ a', actIntImport a (some act, none) = .ok a' ∧ actIntCompute a' = act :=
  ⟨_, rfl, rfl⟩

/-- **C36**, refuted for small graphs: with no more nodes than action bits the action is read
outside of the state array. -/
theorem C36_small_graph_ub {n : Nat} {d : Graph K} (h : d.state.length ≤ actionBits n) :
    ruleDgpAction n d = .error .ub := by
  unfold ruleDgpAction bitsAction
  have key : ∀ k, d.state.length ≤ k → bitsGo (getR d.state) k = .error .ub ∨ k = 0 := by
    intro k
    induction k with
    | zero => intro _; exact Or.inr rfl
    | succ k ih =>
      intro hk
      left
      unfold bitsGo
      by_cases h' : d.state.length ≤ k
      · rcases ih h' with e | rfl
        · rw [e]; rfl
        · have : getR d.state 1 = .error .ub := by
            unfold getR
            rw [List.getElem?_eq_none (by omega)]
          show (getR d.state (0 + 1) >>= _) = _
          rw [show 0 + 1 = 1 from rfl, this]
          rfl
      · have e : getR d.state (k + 1) = .error .ub := by
          unfold getR
          rw [List.getElem?_eq_none (by omega)]
        rw [e]
        have ok : ∀ i, i ≤ k → ∃ v, bitsGo (getR d.state) i = .ok v := by
          intro i
          induction i with
          | zero => intro _; exact ⟨0, rfl⟩
          | succ i ihi =>
            intro hi
            obtain ⟨v, hv⟩ := ihi (by omega)
            unfold bitsGo
            rw [hv, getR_of_lt (by omega) 0]
            exact ⟨_, rfl⟩
        obtain ⟨v, hv⟩ := ok k (le_refl _)
        rw [hv]
        rfl
  have h1 : 1 ≤ actionBits n := le_max_left _ _
  rcases key _ h with e | e
  · rw [e]; rfl
  · omega

/-- Number with the given binary digits, least significant first. -/
def ofBits (b : Nat → Bool) : Nat → Nat
  | 0 => 0
  | i + 1 => ofBits b i + (if b i then 2 ^ i else 0)

theorem ofBits_testBit (m : Nat) : ∀ k, ofBits m.testBit k = m % 2 ^ k
  | 0 => by simp [ofBits, Nat.mod_one]
  | k + 1 => by
    rw [ofBits, ofBits_testBit m k, Nat.mod_pow_succ, Nat.testBit_eq_decide_div_mod_eq]
    have h2 : m / 2 ^ k % 2 = 0 ∨ m / 2 ^ k % 2 = 1 := by omega
    rcases h2 with h | h <;> simp [h]

/-- **C36.** The action is the number whose bits are the action outputs above one half, cut
off at the last action. -/
theorem C36_bits {n : Nat} (hn : 1 ≤ n) {d : Graph K} (h : actionBits n < d.state.length) :
    ruleDgpAction n d = .ok (min (ofBits (fun i => decide (1 / 2 < d.state.getD (i + 1) 0))
      (actionBits n)) (n - 1) : Nat) := by
  have key : ∀ k, k < d.state.length → bitsGo (getR d.state) k =
      .ok (ofBits (fun i => decide (1 / 2 < d.state.getD (i + 1) 0)) k : Nat) := by
    intro k
    induction k with
    | zero => intro _; rfl
    | succ k ih =>
      intro hk
      unfold bitsGo
      rw [ih (by omega)]
      show (getR d.state (k + 1) >>= _) = _
      rw [getR_of_lt hk 0]
      show Except.ok _ = Except.ok _
      rw [ofBits]
      by_cases hb : 1 / 2 < d.state.getD (k + 1) 0
      · rw [if_pos hb, if_pos (by simpa using hb)]
        push_cast
        rfl
      · rw [if_neg hb, if_neg (by simpa using hb), Nat.add_zero]
  unfold ruleDgpAction bitsAction
  rw [key _ h]
  show Except.ok (clampInt _ 0 _) = _
  congr 1
  unfold clampInt
  rw [if_neg (by omega)]
  split <;> omega

/-- **C36.** Every action is computed by some node states: the number of action bits
suffices. -/
theorem C36_every_action {n : Nat} {m : Nat} (hm : m < n) (d : Graph K) :
    ruleDgpAction n 
      { d with state := 0 :: (List.range (actionBits n)).map fun i => if m.testBit i then 1 else 0 } = .ok (m : Int) := by
  rw [C36_bits (by omega) (by simp)]
  have hcut : ∀ (b c : Nat → Bool) (k : Nat), (∀ i < k, b i = c i) → ofBits b k = ofBits c k := by
    intro b c k
    induction k with
    | zero => intro _; rfl
    | succ k ih =>
      intro h
      rw [ofBits, ofBits, ih fun i hi => h i (by omega), h k (by omega)]
  rw [hcut _ m.testBit]
  · rw [ofBits_testBit, Nat.mod_eq_of_lt, Nat.min_eq_left (by omega)]
    calc m < n := hm
      _ ≤ 2 ^ Nat.clog 2 n := Nat.le_pow_clog (by decide) n
      _ ≤ 2 ^ actionBits n := Nat.pow_le_pow_right (by decide) (le_max_right _ _)
  · intro i hi
    rw [List.getD_cons_succ, getD_map_range _ _ hi]
    by_cases hb : m.testBit i = true
    · rw [if_pos hb, hb]
      simp only [decide_eq_true_eq]
      norm_num
    · rw [if_neg hb]
      have : m.testBit i = false := by simpa using hb
      rw [this, decide_eq_false_iff_not]
      norm_num

/-! ## C35: covering -/

/-- **C35**, partial: when covering a graph rule returns, the rule matches the input **or**
advocates the requested action.  (The claim asks for both; `C35_dgp_refuted` shows that
neither is guaranteed.) -/
theorem C35_rule_dgp_partial {g : Rng K R} {n : Nat} {x : List K} {action : Int}
    {stateful : Bool} : ∀ {k : Nat} {d d' : Graph K} {r r' : R},
    ruleDgpCover g stateful n x action k d r = .ok (d', r') →
    (∃ d0, dgpMatch stateful d0 x = .ok (true, d')) ∨ ruleDgpAction n d' = .ok action
  | 0, d, d', r, r', h => by cases h
  | k + 1, d, d', r, r', h => by
    unfold ruleDgpCover at h
    dsimp only at h
    cases hm : dgpMatch stateful (graphRand g d r).1 x with
    | error e => rw [hm] at h; cases h
    | ok p =>
      obtain ⟨m, d1⟩ := p
      rw [hm] at h
      cases m with
      | true => cases h; exact Or.inl ⟨_, hm⟩
      | false =>
        have h : (ruleDgpAction n d1 >>= fun a => if a = action then
            Except.ok (d1, (graphRand g d r).2)
          else ruleDgpCover g stateful n x action k d1 (graphRand g d r).2) = .ok (d', r') := h
        cases ha : ruleDgpAction n d1 with
        | error e => rw [ha] at h; cases h
        | ok a =>
          rw [ha] at h
          have h : (if a = action then Except.ok (d1, (graphRand g d r).2)
            else ruleDgpCover g stateful n x action k d1 (graphRand g d r).2) = .ok (d', r') := h
          split_ifs at h with hq
          · cases h; exact Or.inr (hq ▸ ha)
          · exact C35_rule_dgp_partial h

/-- **C35**, partial, for neural rules. -/
theorem C35_rule_neural_partial {o : NetOps K X R N} {n : Nat} {x : X} {action : Int} :
    ∀ {k : Nat} {net net' : N} {r r' : R}, ruleNetCover o n x action k net r = .ok (net', r') →
    (∃ v, getR (o.outputs net') 0 = .ok v ∧ 1 / 2 < v) ∨ ruleNetAction o n net' = .ok action
  | 0, net, net', r, r', h => by cases h
  | k + 1, net, net', r, r', h => by
    unfold ruleNetCover at h
    dsimp only at h
    unfold ruleNetMatch at h
    dsimp only at h
    generalize o.propagate (o.rand net r).1 x (o.rand net r).2 = p at h
    cases hv : getR (o.outputs p.1) 0 with
    | error e => rw [hv] at h; cases h
    | ok v =>
      rw [hv] at h
      by_cases hm : 1 / 2 < v
      · have h : (if decide (1 / 2 < v) = true then Except.ok p else _) = .ok (net', r') := h
        rw [if_pos (by simpa using hm)] at h
        cases h
        exact Or.inl ⟨v, hv, hm⟩
      · have h : (if decide (1 / 2 < v) = true then Except.ok p
          else (ruleNetAction o n p.1 >>= fun a => if a = action then Except.ok p
            else ruleNetCover o n x action k p.1 p.2)) = .ok (net', r') := h
        rw [if_neg (by simpa using hm)] at h
        cases ha : ruleNetAction o n p.1 with
        | error e => rw [ha] at h; cases h
        | ok a =>
          rw [ha] at h
          have h : (if a = action then Except.ok p else ruleNetCover o n x action k p.1 p.2) =
            .ok (net', r') := h
          split_ifs at h with hq
          · cases h; exact Or.inr (hq ▸ ha)
          · exact C35_rule_neural_partial h

/-- **C35.** Covering a neural *action* that returns has found a network whose outputs give
the requested action. -/
theorem C35_act_neural {o : NetOps K X R N} {n : Nat} {x : X} {action : Int} :
    ∀ {k : Nat} {net net' : N} {r r' : R}, actNetCover o n x action k net r = .ok (net', r') →
    ∃ net0 r0 a, actNetAction o n net0 x r0 = .ok (a, net', r') ∧ (a : Int) = action
  | 0, net, net', r, r', h => by cases h
  | k + 1, net, net', r, r', h => by
    unfold actNetCover at h
    dsimp only at h
    cases hm : actNetAction o n (o.rand net r).1 x (o.rand net r).2 with
    | error e => rw [hm] at h; cases h
    | ok p =>
      obtain ⟨a, net1, r1⟩ := p
      rw [hm] at h
      have h : (if (a : Int) = action then Except.ok (net1, r1)
        else actNetCover o n x action k net1 r1) = .ok (net', r') := h
      split_ifs at h with hq
      · cases h; exact ⟨_, _, a, hm, hq⟩
      · exact C35_act_neural h

/-! ## Concrete cases and refutations -/

section Examples
open Demo

/-- Arguments of the examples. -/
def demoDgp : DgpArgs := { evolve := true, maxK := 2, maxT := 3, n := 3, nInputs := 2 }

example : demoDgp.Legal := ⟨by decide, by decide, by decide, by decide⟩

/-- A generator that reads its draws from a list and then repeats one half. -/
def tapeRng : Rng ℚ (List ℚ) :=
  { draw := fun l => match l with
      | [] => (1 / 2, [])
      | a :: l => (if 0 < a ∧ a < 1 then a else 1 / 2, l)
    gauss := fun l => (0, l)
    exp := fun _ => 1 }

theorem tapeRng_open : tapeRng.Open := by
  intro l
  cases l with
  | nil => constructor <;> norm_num [tapeRng]
  | cons a l =>
    simp only [tapeRng]
    split
    · next h => exact h
    · constructor <;> norm_num

/-- A concrete graph of the demonstration arguments: node 0 is the bounded sum of input 0 and
node 2, node 1 the negation of input 1, node 2 the product of nodes 0 and 1. -/
def demoGraph : Graph ℚ :=
  { evolve := true, nInputs := 2, n := 3, t := 2, klen := 6, maxT := 3, maxK := 2,
    state := [0, 1, 1], initial := [1/4, 1/2, 1], func := [2, 0, 1], conn := [0, 4, 1, 0, 2, 3],
    mu := [1/10, 1/10, 9/10] }

theorem demoGraph_wired : Wired demoDgp demoGraph := by
  constructor <;> first | rfl | decide | (simp [demoGraph, LegalRate]; try norm_num)

example : (graphUpdate demoGraph [1/3, 3/4] true).toOption.map (·.state) =
    some [11/24, 1/4, 1/4] := by decide +kernel

example : ∃ d r', graphMutate demoRng demoGraph 1 = .ok (true, d, r') ∧ d.func ≠ demoGraph.func := by
  obtain ⟨p, h1, h2⟩ := Res.test_iff (m := graphMutate demoRng demoGraph 1)
    (p := fun p => decide (p.1 = true ∧ p.2.1.func ≠ demoGraph.func)) (by decide +kernel)
  have h2 := of_decide_eq_true h2
  obtain ⟨m, d, r'⟩ := p
  obtain ⟨rfl, h3⟩ := h2
  exact ⟨d, r', h1, h3⟩

/-- The same graph with small mutation rates for functions and connections. -/
def demoGraph2 : Graph ℚ := { demoGraph with mu := [1/1000, 1/1000, 1/2] }

theorem demoGraph2_wired : Wired demoDgp demoGraph2 := by
  constructor <;> first | rfl | decide | (simp [demoGraph2, demoGraph, LegalRate]; try norm_num)

/-- Mutation reports a change although nothing but the mutation rates is different: moving the
number of cycles by zero counts as a change (dgp.c:113-118). -/
theorem C34_mutate_overreports : ∃ (d : Graph ℚ) (d' : Graph ℚ) (r' : List ℚ), Wired demoDgp d ∧
    graphMutate tapeRng d [] = .ok (true, d', r') ∧ { d' with mu := d.mu } = d := by
  obtain ⟨p, h1, h2⟩ := Res.test_iff (m := graphMutate tapeRng
      demoGraph2 [])
    (p := fun p => decide (p.1 = true ∧ { p.2.1 with mu := demoGraph2.mu } = demoGraph2))
    (by decide +kernel)
  have h2 := of_decide_eq_true h2
  obtain ⟨m, d, r'⟩ := p
  obtain ⟨rfl, h3⟩ := h2
  exact ⟨demoGraph2, d, r', demoGraph2_wired, h1, h3⟩

/-- **C34**, refuted for imported graphs: a connection equal to the number of inputs and nodes
is accepted, and updating the graph then reads outside of the state array. -/
theorem C34_import_refuted : ∃ (j : GraphJson ℚ) (d : Graph ℚ) (r' : Nat),
    graphImport demoRng demoDgp [1, 1, 1] 1 j 0 = .ok (d, r') ∧
      graphUpdate d [1/3, 3/4] true = .error .ub := by
  refine ⟨{ n := none, t := none, current := none, initial := none, functions := none,
            connectivity := some [0, 5, 1, 0, 2, 3], mutation := none }, ?_⟩
  obtain ⟨p, h1, h2⟩ := Res.test_iff (m := graphImport demoRng demoDgp [1, 1, 1] 1
      ({ n := none, t := none, current := none, initial := none, functions := none,
         connectivity := some [0, 5, 1, 0, 2, 3], mutation := none } : GraphJson ℚ) 0)
    (p := fun p => match graphUpdate p.1 [1/3, 3/4] true with
      | .error .ub => true
      | _ => false) (by decide +kernel)
  refine ⟨p.1, p.2, h1, ?_⟩
  revert h2
  cases graphUpdate p.1 [1/3, 3/4] true with
  | ok d => intro h; cases h
  | error e => cases e <;> intro h <;> first | rfl | cases h

/-- A graph read with more nodes than the arguments say cannot be copied: the copy writes past
its arrays (C34 for imported graphs). -/
theorem C34_import_then_copy_refuted : ∃ (j : GraphJson ℚ) (d : Graph ℚ) (r' : Nat),
    graphImport demoRng demoDgp [1, 1, 1] 1 j 0 = .ok (d, r') ∧
      graphCopy demoRng demoDgp d r' = .error .ub := by
  refine ⟨{ n := some 4, t := none, current := none, initial := none, functions := none,
            connectivity := none, mutation := none }, ?_⟩
  obtain ⟨p, h1, h2⟩ := Res.test_iff (m := graphImport demoRng demoDgp [1, 1, 1] 1
      ({ n := some 4, t := none, current := none, initial := none, functions := none,
         connectivity := none, mutation := none } : GraphJson ℚ) 0)
    (p := fun p => match graphCopy demoRng demoDgp p.1 p.2 with
      | .error .ub => true
      | _ => false) (by decide +kernel)
  refine ⟨p.1, p.2, h1, ?_⟩
  revert h2
  cases graphCopy demoRng demoDgp p.1 p.2 with
  | ok d => intro h; cases h
  | error e => cases e <;> intro h <;> first | rfl | cases h

/-- A small linear congruential generator. -/
def lcgRng : Rng ℚ Nat :=
  { draw := fun r => ((((r * 37 + 11) % 101 + 1 : Nat) : ℚ) / 102, (r * 37 + 11) % 101)
    gauss := fun r => (0, r)
    exp := fun _ => 1 }

theorem lcgRng_open : lcgRng.Open := by
  intro r
  have h : (r * 37 + 11) % 101 + 1 ≤ 101 := by omega
  have h1 : (((r * 37 + 11) % 101 + 1 : Nat) : ℚ) ≤ 101 := by exact_mod_cast h
  have h0 : (1 : ℚ) ≤ (((r * 37 + 11) % 101 + 1 : Nat) : ℚ) := by
    exact_mod_cast (by omega : 1 ≤ (r * 37 + 11) % 101 + 1)
  constructor
  · exact div_pos (by linarith) (by norm_num)
  · show _ / (102 : ℚ) < 1
    rw [div_lt_one (by norm_num)]
    linarith

/-- **C35**, refuted: covering returns a rule that matches the input but advocates another
action than the requested one (rule_dgp.c:222-225 loops while neither holds). -/
theorem C35_dgp_refuted : ∃ (d' : Graph ℚ) (r' : Nat), Wired demoDgp demoGraph ∧
    ruleDgpCover lcgRng false 2 [1/3, 3/4] 0 50 demoGraph 3 = .ok (d', r') ∧
    dgpMatch false d' [1/3, 3/4] = .ok (true, d') ∧ ruleDgpAction 2 d' = .ok 1 := by
  obtain ⟨p, h1, h2⟩ := Res.test_iff (m := ruleDgpCover lcgRng false 2 [1/3, 3/4] 0 50 demoGraph 3)
    (p := fun p => Res.test (dgpMatch false p.1 [1/3, 3/4]) (fun q => decide (q = (true, p.1))) &&
      Res.test (ruleDgpAction 2 p.1) (fun a => decide (a = 1))) (by decide +kernel)
  rw [Bool.and_eq_true] at h2
  obtain ⟨a, h3, h4⟩ := Res.test_iff h2.2
  obtain ⟨b, h5, h6⟩ := Res.test_iff h2.1
  exact ⟨p.1, p.2, demoGraph_wired, h1, of_decide_eq_true h6 ▸ h5, of_decide_eq_true h4 ▸ h3⟩

/-- **C35**, refuted the other way round: covering returns a rule with the requested action
that does not match the input it was made for. -/
theorem C35_dgp_nomatch_refuted : ∃ (d' : Graph ℚ) (r' : Nat), Wired demoDgp demoGraph ∧
    ruleDgpCover lcgRng false 2 [1/3, 3/4] 1 50 demoGraph 4 = .ok (d', r') ∧
    dgpMatch false d' [1/3, 3/4] = .ok (false, d') ∧ ruleDgpAction 2 d' = .ok 1 := by
  obtain ⟨p, h1, h2⟩ := Res.test_iff (m := ruleDgpCover lcgRng false 2 [1/3, 3/4] 1 50 demoGraph 4)
    (p := fun p => Res.test (dgpMatch false p.1 [1/3, 3/4]) (fun q => decide (q = (false, p.1))) &&
      Res.test (ruleDgpAction 2 p.1) (fun a => decide (a = 1))) (by decide +kernel)
  rw [Bool.and_eq_true] at h2
  obtain ⟨a, h3, h4⟩ := Res.test_iff h2.2
  obtain ⟨b, h5, h6⟩ := Res.test_iff h2.1
  exact ⟨p.1, p.2, demoGraph_wired, h1, of_decide_eq_true h6 ▸ h5, of_decide_eq_true h4 ▸ h3⟩

/-- Covering a graph condition, concretely. -/
example : Res.test (dgpCover lcgRng false [1/3, 3/4] 50 demoGraph 4) (fun p =>
    Res.test (dgpMatch false p.1 [1/3, 3/4]) (·.1)) = true := by decide +kernel

/-- A network of two outputs: the weights are the outputs (for the refutation of C35). -/
def demoNet : NetOps ℚ (List ℚ) Nat (List ℚ) :=
  { rand := fun _ r => ([(lcgRng.draw r).1, (lcgRng.draw (lcgRng.draw r).2).1],
      (lcgRng.draw (lcgRng.draw r).2).2)
    propagate := fun n _ r => (n, r)
    outputs := fun n => n }

/-- **C35**, refuted for neural rules: it matches but advocates the wrong action. -/
theorem C35_neural_refuted : ∃ (net' : List ℚ) (r' : Nat),
    ruleNetCover demoNet 2 [1/3] 0 50 [0, 0] 5 = .ok (net', r') ∧
    (∃ v, getR (demoNet.outputs net') 0 = .ok v ∧ 1 / 2 < v) ∧
    ruleNetAction demoNet 2 net' = .ok 1 := by
  obtain ⟨p, h1, h2⟩ := Res.test_iff (m := ruleNetCover demoNet 2 [1/3] 0 50 [0, 0] 5)
    (p := fun p => Res.test (getR (demoNet.outputs p.1) 0) (fun v => decide (1 / 2 < v)) &&
      Res.test (ruleNetAction demoNet 2 p.1) (fun a => decide (a = 1))) (by decide +kernel)
  rw [Bool.and_eq_true] at h2
  obtain ⟨a, h3, h4⟩ := Res.test_iff h2.2
  obtain ⟨b, h5, h6⟩ := Res.test_iff h2.1
  exact ⟨p.1, p.2, h1, ⟨b, h5, of_decide_eq_true h6⟩, of_decide_eq_true h4 ▸ h3⟩

/-- Actions of the example graph, computed by rules and by networks. -/
example : Res.test (ruleDgpAction 4 { demoGraph with state := [0, 1, 1/4] }) (· == 1) = true := by
  decide +kernel
example : Res.test (ruleDgpAction 3 { demoGraph with state := [0, 1, 1] }) (· == 2) = true := by
  decide +kernel
example : Res.test (actNetAction demoNet 2 [1/4, 3/4] [1/3] 0) (·.1 == 1) = true := by
  decide +kernel
example : Res.test (actNetCover demoNet 2 [1/3] 1 50 [0, 0] 0) (fun _ => true) = true := by
  decide +kernel

end Examples
end Xcsf
