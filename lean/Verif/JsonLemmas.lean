import Verif.Json
import Verif.PropsRep2
import Verif.PropsDgp2

/-!
# Lemmas about the JSON functions of rules
-/

set_option linter.unusedSectionVars false
set_option linter.unusedVariables false

namespace Xcsf
variable {K R : Type} [Field K] [LinearOrder K] [IsStrictOrderedRing K] [FloorRing K]

/-- A value of type `int`. -/
def IsInt (i : Int) : Prop := -2147483648 ≤ i ∧ i ≤ 2147483647

instance (i : Int) : Decidable (IsInt i) := inferInstanceAs (Decidable (_ ∧ _))

theorem jsonInt_cast {i : Int} (h : IsInt i) : jsonInt (i : K) = i := by
  obtain ⟨h1, h2⟩ := h
  unfold jsonInt
  by_cases a : i = 2147483647
  · subst a; rw [if_pos (by norm_num)]
  · rw [if_neg (by
      rw [not_le]
      have : i < 2147483647 := by omega
      exact_mod_cast this)]
    by_cases b : i = -2147483648
    · subst b; rw [if_pos (by norm_num)]
    · rw [if_neg (by
        rw [not_le]
        have : -2147483648 < i := by omega
        exact_mod_cast this)]
      split
      · exact Int.floor_intCast i
      · exact Int.ceil_intCast i

theorem jsonOfInt_int {i : Int} (h : IsInt i) : (jsonOfInt i : Json K).int = i := jsonInt_cast h

theorem importInt_of {i : Int} (h : IsInt i) (old : Int) :
    importInt old (some (jsonOfInt i : Json K)) = i := jsonInt_cast h

theorem nums_dbl : ∀ l : List K, (l.map Json.num).map Json.dbl = l
  | [] => rfl
  | v :: l => by
    rw [List.map_cons, List.map_cons, nums_dbl l]; rfl

theorem importArr_of {n : Nat} {l : List K} (h : l.length = n) (old : List K) :
    importArr n old (some (jsonNums l)) = .ok l := by
  unfold importArr jsonNums
  dsimp only
  rw [if_pos (by rw [List.length_map]; exact h), nums_dbl]

theorem importUnit_of {l : List K} {n : Nat} (hl : l.length = n) (h : ∀ v ∈ l, 0 ≤ v ∧ v ≤ 1)
    (old : List K) : importUnit n old (some l) = .ok l := by
  unfold importUnit
  dsimp only
  rw [if_neg (by rw [hl]; exact fun k => k rfl), if_neg]
  simp only [List.any_eq_true, Bool.or_eq_true, decide_eq_true_eq, not_exists, not_and, not_or,
    not_lt]
  exact h

theorem elems_of {j : Json K} {name : String} {l : List K} (h : j.item name = some (jsonNums l)) :
    (j.elems name).map (·.map Json.dbl) = some l := by
  unfold Json.elems
  rw [h]
  exact congrArg some (nums_dbl l)

theorem samImport1_of {j : Json K} {m : K} (h : j.item "mutation" = some (jsonNums [m]))
    (hm : UnitRate m) (old : K) : samImport1 old j = .ok m := by
  unfold samImport1
  rw [elems_of h, importUnit_of (n := 1) rfl (by simpa [UnitRate] using hm)]
  rfl

/-! ## Conditions -/

theorem zip_unzip : ∀ l : List (K × K), (l.map Prod.fst).zip (l.map Prod.snd) = l
  | [] => rfl
  | g :: l => by rw [List.map_cons, List.map_cons, List.zip_cons_cons, zip_unzip l]

theorem boxImport_of {j : Json K} {names : String × String} {n : Nat} {c : Box K}
    (h : c.genes.length = n) (hm : UnitRate c.mu)
    (h1 : j.item names.1 = some (jsonNums (c.genes.map Prod.fst)))
    (h2 : j.item names.2 = some (jsonNums (c.genes.map Prod.snd)))
    (h3 : j.item "mutation" = some (jsonNums [c.mu])) (c0 : Box K) :
    boxImport names n c0 j = .ok c := by
  unfold boxImport
  rw [h1, h2, importArr_of (by rw [List.length_map]; exact h),
    importArr_of (by rw [List.length_map]; exact h), samImport1_of h3 hm]
  show Except.ok (Box.mk _ _) = _
  rw [zip_unzip]

theorem rect_roundtrip (p : CondPar K) {n : Nat} {c : Box K} (h : Box.Dim n c) (c0 : Box K) :
    rectImport p n c0 (rectExport p c) = .ok c := by
  refine boxImport_of h.1 h.2 ?_ ?_ ?_ c0 <;> unfold rectExport CondPar.names <;>
    cases p.csr <;> simp [Json.item, List.lookup]

theorem ell_roundtrip {n : Nat} {c : Box K} (h : Box.Dim n c) (c0 : Box K) :
    ellImport n c0 (ellExport c) = .ok c := by
  refine boxImport_of h.1 h.2 ?_ ?_ ?_ c0 <;> simp [ellExport, Json.item, List.lookup]

theorem takeWhile_keep {α : Type} {p : α → Bool} : ∀ {l : List α}, (∀ a ∈ l, p a = true) →
    l.takeWhile p = l
  | [], _ => rfl
  | a :: l, h => by
    rw [List.takeWhile_cons, if_pos (h a List.mem_cons_self),
      takeWhile_keep fun b hb => h b (List.mem_cons_of_mem _ hb)]

theorem tern_roundtrip {p : CondPar K} {n : Nat} {c c0 : Tern K} (h : Tern.Dim p n c)
    (h0 : c0.string.length = c.string.length) : ternImport c0 (ternExport c) = .ok c := by
  unfold ternImport
  have e1 : (ternExport c).item "string" = some (.str (String.ofList c.string)) := by
    simp [ternExport, Json.item, List.lookup]
  have e2 : (ternExport c).item "mutation" = some (jsonNums [c.mu]) := by
    simp [ternExport, Json.item, List.lookup]
  have e3 : c.string.takeWhile (· ≠ Char.ofNat 0) = c.string := by
    refine takeWhile_keep fun ch hc => ?_
    rcases h.2.1 ch hc with rfl | rfl | rfl <;> decide
  rw [e1, samImport1_of e2 h.2.2]
  have e4 : ternImportString c0.string (some (Json.str (String.ofList c.string) : Json K)) =
      .ok c.string := by
    unfold ternImportString
    dsimp only
    rw [String.toList_ofList, e3, if_neg (by omega), List.take_of_length_le (by omega)]
  rw [e4]
  rfl

theorem ints_int : ∀ {l : List Int}, (∀ c ∈ l, IsInt c) →
    (l.map (jsonOfInt (K := K))).map Json.int = l
  | [], _ => rfl
  | c :: l, h => by
    rw [List.map_cons, List.map_cons, ints_int fun d hd => h d (List.mem_cons_of_mem _ hd),
      jsonOfInt_int (h c List.mem_cons_self)]

theorem strs_strVal : ∀ l : List String,
    ((l.map some).map fun s => (Json.str (s.getD "") : Json K)).map Json.strVal = l.map some
  | [] => rfl
  | s :: l => by
    rw [List.map_cons, List.map_cons, List.map_cons, strs_strVal l]; rfl

theorem graphJson_read {n t : Int} {ini cur mu : List K} {fs : List String}
    {cs : List Int} (hn : IsInt n) (ht : IsInt t) (hc : ∀ c ∈ cs, IsInt c) (k : Nat) :
    graphRead (graphJson k
      { n := some n, t := some t, current := some cur, initial := some ini,
        functions := some (fs.map some), connectivity := some cs, mutation := some mu } : Json K) =
    .ok { n := some n, t := some t, current := some cur, initial := some ini,
          functions := some (fs.map some), connectivity := some cs, mutation := some mu } := by
  unfold graphRead
  generalize hj : (graphJson k
      { n := some n, t := some t, current := some cur, initial := some ini,
        functions := some (fs.map some), connectivity := some cs, mutation := some mu } : Json K) = j
  have e1 : j.item "n" = some (jsonOfInt n) := by
    rw [← hj]; simp [graphJson, Json.item, List.lookup]
  have e2 : j.item "t" = some (jsonOfInt t) := by
    rw [← hj]; simp [graphJson, Json.item, List.lookup]
  have e3 : j.item "initial_state" = some (jsonNums ini) := by
    rw [← hj]; simp [graphJson, Json.item, List.lookup]
  have e4 : j.item "current_state" = some (jsonNums cur) := by
    rw [← hj]; simp [graphJson, Json.item, List.lookup]
  have e5 : j.item "mutation" = some (jsonNums mu) := by
    rw [← hj]; simp [graphJson, Json.item, List.lookup]
  have e6 : j.elems "functions" = some ((fs.map some).map fun s => .str (s.getD "")) := by
    rw [← hj]; simp [graphJson, Json.elems, Json.item, List.lookup]
  have e7 : j.elems "connectivity" = some (cs.map jsonOfInt) := by
    rw [← hj]; simp [graphJson, Json.elems, Json.item, List.lookup]
  rw [e1, e2, elems_of e3, elems_of e4, elems_of e5, e6, e7]
  have g1 : ∀ {i : Int}, IsInt i → graphNum (some (jsonOfInt i : Json K)) = .ok (some i) :=
    fun h => congrArg (fun v => Except.ok (some v)) (jsonInt_cast h)
  rw [g1 hn, g1 ht]
  show Except.ok _ = Except.ok _
  rw [Option.map_some, Option.map_some, ints_int hc, strs_strVal]

theorem dgp_roundtrip {g : Rng K R} {a : DgpArgs} (ha : a.Legal) {d : Graph K} (hd : Wired a d)
    (hn : ((a.nInputs + a.n : Nat) : Int) ≤ 2147483647) (ht : (a.maxT : Int) ≤ 2147483647)
    (junk : List K) (d0 : Graph K) (r : R) :
    ∃ j r', dgpExport d = .ok j ∧ dgpImport g a junk d0 j r = .ok (d, r') := by
  obtain ⟨m, r', h1, h2⟩ := C34_json_roundtrip (g := g) ha hd junk d0.t r
  obtain ⟨ss, k1, -⟩ := funcs_roundtrip hd.funcs
  have k2 : graphExport d = .ok (GraphJson.mk (some d.n) (some d.t) (some d.state)
      (some d.initial) (some (ss.map some)) (some d.conn) (some d.mu)) := by unfold graphExport; rw [k1]; rfl
  rw [k2] at h1
  cases h1
  refine ⟨_, r', by unfold dgpExport; rw [k2]; rfl, ?_⟩
  unfold dgpImport
  have e : ∀ j : Json K, (Json.obj [("type", .str "dgp"), ("graph", j)]).item "graph" = some j := by
    intro j; simp [Json.item, List.lookup]
  rw [e]
  dsimp only
  have := hd.n
  have := hd.cycles
  rw [graphJson_read (by unfold IsInt; omega) (by unfold IsInt; omega)
    (fun c hc => by have := hd.conns c hc; unfold IsInt; omega)]
  exact h2

/-- The numbers of nodes, inputs and cycles of a graph fit in an `int`. -/
def CondType.Fits (S : Setup K) : CondType → Prop
  | .dgp => ((S.dgp.nInputs + S.dgp.n : Nat) : Int) ≤ 2147483647 ∧ (S.dgp.maxT : Int) ≤ 2147483647
  | _ => True

theorem cond_roundtrip {g : Rng K R} {S : Setup K} : ∀ {c : CondType}, c ≠ .gp → c.Legal S →
    c.Fits S → ∀ {b b0 : c.Body K}, c.W S b → c.W S b0 → ∀ r : R,
    ∃ j r', c.export S b = .ok j ∧ c.import g S b0 j r = .ok (b, r')
  | .dummy, _, _, _, b, b0, _, _, r => ⟨_, r, rfl, rfl⟩
  | .rectangle, _, _, _, b, b0, w, _, r => by
    refine ⟨_, r, rfl, ?_⟩
    show (rectImport S.cond S.xDim b0 (rectExport S.cond b) >>= fun b => Except.ok (b, r)) = _
    have e : rectImport S.cond S.xDim b0 (rectExport S.cond b) = .ok b := rect_roundtrip _ w _
    rw [e]; rfl
  | .ellipsoid, _, _, _, b, b0, w, _, r => by
    refine ⟨_, r, rfl, ?_⟩
    show (ellImport S.xDim b0 (ellExport b) >>= fun b => Except.ok (b, r)) = _
    have e : ellImport S.xDim b0 (ellExport b) = .ok b := ell_roundtrip w _
    rw [e]; rfl
  | .ternary, _, _, _, b, b0, w, w0, r => by
    refine ⟨_, r, rfl, ?_⟩
    show (ternImport b0 (ternExport b) >>= fun b => Except.ok (b, r)) = _
    rw [tern_roundtrip w (Eq.trans w0.1 (Eq.symm w.1))]; rfl
  | .gp, h, _, _, _, _, _, _, _ => absurd rfl h
  | .dgp, _, h, f, b, b0, w, w0, r => dgp_roundtrip h.1 w f.1 f.2 _ b0 r

/-! ## Actions and predictions -/

theorem act_roundtrip {n : Nat} (hn : (n : Int) ≤ 2147483647) {a : ActInt K} (h : ActInt.Valid n a)
    (a0 : ActInt K) : actImport a0 (actExport a) = .ok a := by
  have e1 : (actExport a).item "action" = some (jsonOfInt a.action) := by
    simp [actExport, Json.item, List.lookup]
  have e2 : (actExport a).item "mutation" = some (jsonNums [a.mu]) := by
    simp [actExport, Json.item, List.lookup]
  unfold actImport actIntImport
  rw [e1, elems_of e2, importInt_of (by have := h.1; unfold IsInt; omega)]
  dsimp only
  rw [importUnit_of (n := 1) rfl (by simpa [UnitRate] using h.2)]
  rfl

/-- What the document of a rule keeps of its prediction: all weights and, for NLMS, the learning
rate and its mutation rate. -/
def PredType.Kept (S : Setup K) : (q : PredType) → q.Body K → q.Body K → Prop
  | .constant => fun _ _ => True
  | .nlms => fun (s s' : Nlms K) => (∀ i < nFeatures S.pred * S.pred.yDim, s'.weights i = s.weights i) ∧
      s'.eta = s.eta ∧ s'.mu = s.mu
  | .rls => fun (s s' : Rls K) => ∀ i < nFeatures S.pred * S.pred.yDim, s'.weights i = s.weights i

theorem arrOf_ofArr' {n i : Nat} (h : i < n) (f : Nat → K) : arrOf (ofArr n f) i = f i := by
  simp [arrOf, ofArr, h]

theorem weights_roundtrip {j : Json K} {n : Nat} {w : Nat → K}
    (h : j.item "weights" = some (jsonNums (ofArr n w))) (w0 : Nat → K) :
    weightsImport n w0 j = .ok fun i => if i < n then w i else w0 i := by
  unfold weightsImport
  rw [h, importArr_of (ofArr_length n w)]
  show Except.ok _ = Except.ok _
  congr 1
  funext i
  split
  · next hi => exact arrOf_ofArr' hi w
  · rfl

theorem pred_roundtrip {S : Setup K} : ∀ {q : PredType} {s s0 : q.Body K}, q.W S s → q.W S s0 →
    ∀ {p : List K}, p.length = S.pred.yDim → ∃ s', q.import S s0 p (q.export S s p) = .ok (s', p) ∧
      q.W S s' ∧ q.Kept S s s' ∧ ∀ i j, q.gain S s' i j = q.gain S s0 i j
  | .constant, s, s0, _, _, p, hp => by
    refine ⟨s0, ?_, trivial, trivial, fun _ _ => rfl⟩
    have e : (constExport p).item "prediction" = some (jsonNums p) := by
      simp [constExport, Json.item, List.lookup]
    show (importArr S.pred.yDim p ((constExport p).item "prediction") >>= _) = _
    rw [e, importArr_of hp]; rfl
  | .nlms, s, s0, w, w0, p, hp => by
    have w : Nlms.Dim S.pred s := w
    have w0 : Nlms.Dim S.pred s0 := w0
    have e1 : (nlmsExport S.pred s).item "weights" =
        some (jsonNums (ofArr (s : Nlms K).nWeights (s : Nlms K).weights)) := by
      simp [nlmsExport, Json.item, List.lookup]
    have e2 : (nlmsExport S.pred s).item "eta" = some (.num (s : Nlms K).eta) := by
      simp [nlmsExport, Json.item, List.lookup]
    have e3 : (nlmsExport S.pred s).item "mutation" = some (jsonNums [(s : Nlms K).mu]) := by
      simp [nlmsExport, Json.item, List.lookup]
    have hw : (s0 : Nlms K).nWeights = (s : Nlms K).nWeights := by
      rw [w.2.1, w0.2.1, w.1, w0.1]
    refine ⟨{ (s0 : Nlms K) with
      weights := fun i => if i < (s : Nlms K).nWeights then (s : Nlms K).weights i
        else (s0 : Nlms K).weights i
      eta := (s : Nlms K).eta
      mu := (s : Nlms K).mu }, ?_, ⟨w0.1, w0.2.1, w.2.2⟩, ⟨fun i hi => ?_, rfl, rfl⟩, fun _ _ => rfl⟩
    · show (nlmsImport s0 (nlmsExport S.pred s) >>= fun s => Except.ok (s, p)) = _
      unfold nlmsImport
      rw [← hw] at e1 ⊢
      rw [weights_roundtrip e1, samImport1_of e3 w.2.2, e2]
      rfl
    · exact if_pos (by rw [w.2.1, w.1]; exact hi)
  | .rls, s, s0, w, w0, p, hp => by
    have w : Rls.Dim S.pred s := w
    have w0 : Rls.Dim S.pred s0 := w0
    have e1 : (rlsExport S.pred s).item "weights" =
        some (jsonNums (ofArr (s : Rls K).nWeights (s : Rls K).weights)) := by
      simp [rlsExport, Json.item, List.lookup]
    have hw : (s0 : Rls K).nWeights = (s : Rls K).nWeights := by
      rw [w.2, w0.2, w.1, w0.1]
    refine ⟨{ (s0 : Rls K) with
      weights := fun i => if i < (s : Rls K).nWeights then (s : Rls K).weights i
        else (s0 : Rls K).weights i }, ?_, w0, fun i hi => ?_, fun _ _ => rfl⟩
    · show (rlsImport s0 (rlsExport S.pred s) >>= fun s => Except.ok (s, p)) = _
      unfold rlsImport
      rw [← hw] at e1 ⊢
      rw [weights_roundtrip e1]
      rfl
    · exact if_pos (by rw [w.2, w.1]; exact hi)

end Xcsf
