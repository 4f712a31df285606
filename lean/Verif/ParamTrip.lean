import Verif.ParamShape
import Verif.ParamSpec
import Verif.PropsTypes

/-!
# Importing what was reported (helper file)
-/

set_option linter.unusedSectionVars false

namespace Xcsf

section
variable {K R : Type} [Field K] [LinearOrder K] [IsStrictOrderedRing K] [FloorRing K]

theorem importAll_nil {S : Type} (t : List (String × Setter K S)) (s : S) :
    importAll t s [] = .ok s := rfl

theorem importAll_cons {S : Type} {t : List (String × Setter K S)} {s s1 : S}
    {m : String × Json K} {l} (h : importMember t s m = .ok s1) :
    importAll t s (m :: l) = importAll t s1 l := by
  simp only [importAll, List.foldlM_cons, h, bind, Except.bind]

theorem importAll_append {S : Type} {t : List (String × Setter K S)} {s s1 : S}
    {l l' : List (String × Json K)} (h : importAll t s l = .ok s1) :
    importAll t s (l ++ l') = importAll t s1 l' := by
  simp only [importAll] at h
  simp only [importAll, List.foldlM_append, h, bind, Except.bind]

theorem member_num {S : Type} {t : List (String × Setter K S)} {n : String} {ok : K → Bool} {put}
    (h : t.lookup n = some (numSet ok put)) {v : K} (hv : ok v = true) (s : S) :
    importMember t s (n, .num v) = .ok (put v s) := by
  simp only [importMember, h, numSet, hv, if_true]

theorem member_int {S : Type} {t : List (String × Setter K S)} {n : String} {ok : Int → Bool}
    {put} (h : t.lookup n = some (intSet ok put)) {i : Int} (hi : IsInt i) (hv : ok i = true)
    (s : S) : importMember t s (n, jsonOfInt i) = .ok (put i s) := by
  simp only [importMember, h, intSet, jsonOfInt, jsonInt_cast hi, hv, if_true]

theorem member_bool {S : Type} {t : List (String × Setter K S)} {n : String} {put}
    (h : t.lookup n = some (boolSet put)) (b : Bool) (s : S) :
    importMember t s (n, .bool b) = .ok (put b s) := by
  simp only [importMember, h, boolSet]

theorem member_name {S : Type} {t : List (String × Setter K S)} {n : String} {codes} {put}
    (h : t.lookup n = some (nameSet codes put)) {x : List Char} {c : Int}
    (hc : codeOf codes x = some c) (s : S) :
    importMember t s (n, .str (String.ofList x)) = .ok (put c s) := by
  simp only [importMember, h, nameSet, String.toList_ofList, hc]

theorem member_any {S : Type} {t : List (String × Setter K S)} {n : String} {f : Setter K S}
    {h : S → Res S} {j : Json K} (hl : t.lookup n = some f) (hj : f j = some h) (s : S) :
    importMember t s (n, j) = h s := by
  simp only [importMember, hl, hj]

theorem unitK_iff {v : K} : unitK v = true ↔ UnitK v := by
  unfold unitK UnitK
  rw [Bool.not_eq_true', Bool.or_eq_false_iff, decide_eq_false_iff_not, decide_eq_false_iff_not,
    not_lt, not_lt]

theorem nonnegK_iff {v : K} : nonnegK v = true ↔ 0 ≤ v := by
  unfold nonnegK
  rw [Bool.not_eq_true', decide_eq_false_iff_not, not_lt]

/-! ## Evolutionary algorithm -/

/-- The parameters of `p` that are reported, the others from `q`. -/
def EaFile.adopt (p q : EaFile K) : EaFile K :=
  { p with selectSize := if p.selectType = 1 then p.selectSize else q.selectSize }

theorem ea_trip {p : EaFile K} (V : p.Valid) (hi : IsInt p.lambda) {j : Json K}
    (h : eaExport p = .ok j) (q : EaFile K) :
    ∃ l, j = .obj l ∧ importAll eaTable q l = .ok (p.adopt q) := by
  unfold eaExport at h
  cases ht : nameOf eaNames p.selectType with
  | error e => rw [ht] at h; cases h
  | ok x =>
    rw [ht] at h
    simp only [bind, Except.bind] at h
    cases h
    refine ⟨_, rfl, ?_⟩
    have hc := (C47_names.2.2.2.2.1 p.selectType x).2 ht
    rw [List.append_assoc, importAll_append (s1 := { q with selectType := p.selectType })
      ((importAll_cons (member_name rfl hc q)).trans rfl)]
    rw [importAll_append (s1 := { q with
      selectType := p.selectType
      selectSize := if p.selectType = 1 then p.selectSize else q.selectSize }) (by
      by_cases h1 : p.selectType = 1
      · rw [if_pos h1, if_pos h1]
        exact (importAll_cons (member_num rfl (unitK_iff.2 V.selectSize) _)).trans rfl
      · rw [if_neg h1, if_neg h1]
        rfl)]
    rw [importAll_cons (member_num rfl (nonnegK_iff.2 V.theta) _)]
    rw [importAll_cons (member_int rfl hi (by simpa using V.lambda) _)]
    rw [importAll_cons (member_num rfl (unitK_iff.2 V.pCrossover) _)]
    rw [importAll_cons (member_num rfl (unitK_iff.2 V.errReduc) _)]
    rw [importAll_cons (member_num rfl (unitK_iff.2 V.fitReduc) _)]
    rw [importAll_cons (member_bool rfl _ _)]
    rw [importAll_cons (member_bool rfl _ _)]
    rfl

theorem ea_again (p q : EaFile K) : eaExport (p.adopt q) = eaExport p := by
  unfold eaExport EaFile.adopt
  by_cases h : p.selectType = 1
  · simp only [if_pos h]
  · simp only [if_neg h]

/-! ## Scalars -/

/-- The general parameters that are reported from `p`, everything else from `q`. -/
def SysPar.adopt1 (p q : SysPar K) (file : List Char) : SysPar K :=
  { q with
    xDim := p.xDim, yDim := p.yDim, nActions := p.nActions, ompNumThreads := p.ompNumThreads,
    randomState := p.randomState, popFile := file, popInit := p.popInit,
    maxTrials := p.maxTrials, perfTrials := p.perfTrials, popSize := p.popSize,
    lossFunc := p.lossFunc }

def SysPar.adopt2 (p q : SysPar K) : SysPar K :=
  { q with huberDelta := if p.lossFunc = 6 then p.huberDelta else q.huberDelta }

def SysPar.adopt3 (p q : SysPar K) : SysPar K :=
  { q with
    gamma := if 1 < p.nActions then p.gamma else q.gamma
    teletransportation :=
      if 1 < p.nActions then p.teletransportation else q.teletransportation
    pExplore := if 1 < p.nActions then p.pExplore else q.pExplore }

def SysPar.adopt4 (p q : SysPar K) : SysPar K :=
  { q with
    setSubsumption := p.setSubsumption, thetaSub := p.thetaSub, e0 := p.e0, alpha := p.alpha,
    nu := p.nu, beta := p.beta, delta := p.delta, thetaDel := p.thetaDel,
    initFitness := p.initFitness, initError := p.initError, mProbation := p.mProbation,
    stateful := p.stateful, compaction := p.compaction }

/-- All of them. -/
def SysPar.adopt (p q : SysPar K) (file : List Char) : SysPar K :=
  p.adopt4 (p.adopt3 (p.adopt2 (p.adopt1 q file)))

theorem takeWhile_takeWhile {α : Type} (q : α → Bool) (l : List α) :
    (l.takeWhile q).takeWhile q = l.takeWhile q := by
  induction l with
  | nil => rfl
  | cons x l ih =>
    by_cases h : q x = true
    · simp [h, ih]
    · simp [h]

theorem setPopFile_short {l : List Char} (h : l.length ≤ 512) :
    setPopFile l = l ++ [Char.ofNat 0] := by
  unfold setPopFile
  apply List.take_of_length_le
  simp only [List.length_append, List.length_cons, List.length_nil]
  omega

theorem cstring_name {l : List Char} :
    cstring (l.takeWhile (· ≠ Char.ofNat 0) ++ [Char.ofNat 0]) =
      .ok (String.ofList (l.takeWhile (· ≠ Char.ofNat 0))) := by
  unfold cstring
  rw [if_pos (by simp), List.takeWhile_append, takeWhile_takeWhile]
  simp

theorem member_file (g : Rng K R) (sd : Seeds R) {x : List Char}
    (h : (x.takeWhile (· ≠ Char.ofNat 0)).length ≤ 512) (s : SysPar K × R) :
    importMember (paramTable g sd) s
      ("population_file", .str (String.ofList (x.takeWhile (· ≠ Char.ofNat 0)))) =
      .ok ({ s.1 with popFile := x.takeWhile (· ≠ Char.ofNat 0) ++ [Char.ofNat 0] }, s.2) := by
  refine (member_any (f := fileSet) rfl (by unfold fileSet; rfl) s).trans ?_
  rw [String.toList_ofList, takeWhile_takeWhile, setPopFile_short h]

theorem scalars_trip (g : Rng K R) (sd : Seeds R) {p : SysPar K} (V : p.Valid) (I : p.Ints)
    (F : FileOk p.popFile) {l} (h : scalarMembers p = .ok l) (q : SysPar K) (r : R) :
    ∃ r', importAll (paramTable g sd) (q, r) l =
      .ok (p.adopt q (p.popFile.takeWhile (· ≠ Char.ofNat 0) ++ [Char.ofNat 0]), r') := by
  unfold scalarMembers at h
  rw [cstring, if_pos F.1] at h
  cases hl : nameOf lossNames p.lossFunc with
  | error e => rw [hl] at h; cases h
  | ok x =>
    rw [hl] at h
    simp only [bind, Except.bind] at h
    cases h
    have hc := (C47_names.2.2.2.1 p.lossFunc x).2 hl
    refine ⟨if p.randomState < 0 then sd.clock else sd.seed p.randomState, ?_⟩
    unfold scalarList
    generalize hr : (if p.randomState < 0 then sd.clock else sd.seed p.randomState) = r'
    rw [List.append_assoc, List.append_assoc, importAll_append (s1 := (p.adopt1 q
      (p.popFile.takeWhile (· ≠ Char.ofNat 0) ++ [Char.ofNat 0]), r')) (by
      rw [importAll_cons (member_any rfl rfl _)]
      rw [importAll_cons (member_int rfl I.xDim (by simpa using V.xDim) _)]
      rw [importAll_cons (member_int rfl I.yDim (by simpa using V.yDim) _)]
      rw [importAll_cons (member_int rfl I.nActions (by simpa using V.nActions) _)]
      rw [importAll_cons (member_int rfl I.ompNumThreads (by simpa using V.ompNumThreads) _)]
      rw [importAll_cons (member_int rfl I.randomState rfl _)]
      rw [importAll_cons (member_file g sd F.2 _)]
      rw [importAll_cons (member_bool rfl _ _)]
      rw [importAll_cons (member_int rfl I.maxTrials (by simpa using V.maxTrials) _)]
      rw [importAll_cons (member_int rfl I.perfTrials (by simpa using V.perfTrials) _)]
      rw [importAll_cons (member_int rfl I.popSize (by simpa using V.popSize) _)]
      rw [importAll_cons (member_name rfl hc _)]
      rw [← hr]
      rfl)]
    rw [importAll_append (s1 := (p.adopt2 (p.adopt1 q
      (p.popFile.takeWhile (· ≠ Char.ofNat 0) ++ [Char.ofNat 0])), r')) (by
      unfold SysPar.adopt2
      by_cases h1 : p.lossFunc = 6
      · rw [if_pos h1, if_pos h1]
        rw [importAll_cons (member_num rfl (nonnegK_iff.2 V.huberDelta) _)]
        rfl
      · rw [if_neg h1, if_neg h1]
        rfl)]
    rw [importAll_append (s1 := (p.adopt3 (p.adopt2 (p.adopt1 q
      (p.popFile.takeWhile (· ≠ Char.ofNat 0) ++ [Char.ofNat 0]))), r')) (by
      unfold SysPar.adopt3
      by_cases h1 : 1 < p.nActions
      · simp only [if_pos h1]
        rw [importAll_cons (member_num rfl (unitK_iff.2 V.gamma) _)]
        rw [importAll_cons (member_int rfl I.teletransportation
          (by simpa using V.teletransportation) _)]
        rw [importAll_cons (member_num rfl (unitK_iff.2 V.pExplore) _)]
        rfl
      · simp only [if_neg h1]
        rfl)]
    show _ = Except.ok (p.adopt4 (p.adopt3 (p.adopt2 (p.adopt1 q
      (p.popFile.takeWhile (· ≠ Char.ofNat 0) ++ [Char.ofNat 0])))), r')
    generalize p.adopt3 (p.adopt2 (p.adopt1 q
      (p.popFile.takeWhile (· ≠ Char.ofNat 0) ++ [Char.ofNat 0]))) = q3
    rw [importAll_cons (member_bool rfl _ _)]
    rw [importAll_cons (member_int rfl I.thetaSub (by simpa using V.thetaSub) _)]
    rw [importAll_cons (member_num rfl (nonnegK_iff.2 V.e0) _)]
    rw [importAll_cons (member_num rfl (unitK_iff.2 V.alpha) _)]
    rw [importAll_cons (member_num rfl (nonnegK_iff.2 V.nu) _)]
    rw [importAll_cons (member_num rfl (unitK_iff.2 V.beta) _)]
    rw [importAll_cons (member_num rfl (unitK_iff.2 V.delta) _)]
    rw [importAll_cons (member_int rfl I.thetaDel (by simpa using V.thetaDel) _)]
    rw [importAll_cons (member_num rfl (nonnegK_iff.2 V.initFitness) _)]
    rw [importAll_cons (member_num rfl (nonnegK_iff.2 V.initError) _)]
    rw [importAll_cons (member_int rfl I.mProbation (by simpa using V.mProbation) _)]
    rw [importAll_cons (member_bool rfl _ _)]
    rw [importAll_cons (member_bool rfl _ _)]
    rfl

theorem scalars_again {p : SysPar K} (F : FileOk p.popFile) (q : SysPar K) :
    scalarMembers (p.adopt q (p.popFile.takeWhile (· ≠ Char.ofNat 0) ++ [Char.ofNat 0])) =
      scalarMembers p := by
  unfold scalarMembers
  have e : cstring p.popFile = .ok (String.ofList (p.popFile.takeWhile (· ≠ Char.ofNat 0))) := by
    unfold cstring
    rw [if_pos F.1]
  have e' : cstring (p.adopt q (p.popFile.takeWhile (· ≠ Char.ofNat 0) ++ [Char.ofNat 0])).popFile
      = .ok (String.ofList (p.popFile.takeWhile (· ≠ Char.ofNat 0))) := cstring_name
  rw [e, e']
  have h6 : p.lossFunc = 6 → (p.adopt q (p.popFile.takeWhile (· ≠ Char.ofNat 0) ++
      [Char.ofNat 0])).huberDelta = p.huberDelta := fun h => if_pos h
  have h7 : 1 < p.nActions → (p.adopt q (p.popFile.takeWhile (· ≠ Char.ofNat 0) ++
      [Char.ofNat 0])).gamma = p.gamma := fun h => if_pos h
  have h8 : 1 < p.nActions → (p.adopt q (p.popFile.takeWhile (· ≠ Char.ofNat 0) ++
      [Char.ofNat 0])).teletransportation = p.teletransportation := fun h => if_pos h
  have h9 : 1 < p.nActions → (p.adopt q (p.popFile.takeWhile (· ≠ Char.ofNat 0) ++
      [Char.ofNat 0])).pExplore = p.pExplore := fun h => if_pos h
  have hl : ∀ f x, scalarList (p.adopt q (p.popFile.takeWhile (· ≠ Char.ofNat 0) ++
      [Char.ofNat 0])) f x = scalarList p f x := by
    intro f x
    unfold scalarList
    congr 1
    congr 1
    · congr 1
      show (if p.lossFunc = 6 then _ else _) = _
      by_cases h : p.lossFunc = 6
      · rw [if_pos h, if_pos h, h6 h]
      · rw [if_neg h, if_neg h]
    · show (if 1 < p.nActions then _ else _) = _
      by_cases h : 1 < p.nActions
      · rw [if_pos h, if_pos h, h7 h, h8 h, h9 h]
      · rw [if_neg h, if_neg h]
  simp only [bind, Except.bind, hl]
  rfl

end
end Xcsf
