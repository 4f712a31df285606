import Verif.Param
import Verif.PropsTypes
import Mathlib.Algebra.Order.Ring.Rat
import Mathlib.Algebra.Field.Rat
import Mathlib.Tactic.NormNum

/-!
# Property C46: setters enforce the documented ranges
-/

set_option linter.unusedSectionVars false

namespace Xcsf
variable {K : Type} [Field K] [LinearOrder K] [IsStrictOrderedRing K]

/-- A number between zero and one. -/
def Dbl.Unit (d : Dbl K) : Prop := ∃ v, d = .fin v ∧ 0 ≤ v ∧ v ≤ 1

/-- At least zero (infinity included). -/
def Dbl.Nonneg (d : Dbl K) : Prop := d = .pinf ∨ ∃ v, d = .fin v ∧ 0 ≤ v

/-- The documented ranges. -/
structure InRange (p : PState K) : Prop where
  xDim : 1 ≤ p.xDim
  yDim : 1 ≤ p.yDim
  nActions : 1 ≤ p.nActions
  ompThreads : 1 ≤ p.ompThreads ∧ p.ompThreads ≤ 1000
  maxTrials : 1 ≤ p.maxTrials
  perfTrials : 1 ≤ p.perfTrials
  popSize : 1 ≤ p.popSize
  lossFunc : 0 ≤ p.lossFunc ∧ p.lossFunc ≤ 6
  huberDelta : p.huberDelta.Nonneg
  gamma : p.gamma.Unit
  teletransportation : 1 ≤ p.teletransportation
  pExplore : p.pExplore.Unit
  alpha : p.alpha.Unit
  beta : p.beta.Unit
  delta : p.delta.Unit
  e0 : p.e0.Nonneg
  initError : p.initError.Nonneg
  initFitness : p.initFitness.Nonneg
  nu : p.nu.Nonneg
  thetaDel : 0 ≤ p.thetaDel
  mProbation : 0 ≤ p.mProbation
  thetaSub : 0 ≤ p.thetaSub
  eaSelectSize : p.eaSelectSize.Unit
  eaTheta : p.eaTheta.Nonneg
  eaPCrossover : p.eaPCrossover.Unit
  eaLambda : 2 ≤ p.eaLambda
  eaErrReduc : p.eaErrReduc.Unit
  eaFitReduc : p.eaFitReduc.Unit
  eaSelectType : p.eaSelectType = 0 ∨ p.eaSelectType = 1
  condType : ∃ s, nameOf condNames p.condType = .ok s
  condEta : p.condEta.Unit
  condPDontcare : p.condPDontcare.Unit
  condSpreadMin : p.condSpreadMin.Nonneg
  condBits : 1 ≤ p.condBits
  predType : 0 ≤ p.predType ∧ p.predType ≤ 5
  predEta : p.predEta.Unit
  predEtaMin : p.predEtaMin.Unit
  actType : p.actType = 0 ∨ p.actType = 1

/-- The arguments of a call that are `double`s. -/
def SetCall.dbl : SetCall K → Option (Dbl K)
  | .huberDelta a | .gamma a | .pExplore a | .alpha a | .beta a | .delta a | .e0 a
  | .initError a | .initFitness a | .nu a | .eaSelectSize a | .eaTheta a | .eaPCrossover a
  | .eaErrReduc a | .eaFitReduc a | .condEta a | .condMin a | .condMax a | .condPDontcare a
  | .condSpreadMin a | .predEta a | .predEtaMin a | .predLambda a | .predScale a
  | .predX0 a => some a
  | _ => none

theorem unit_of {a : Dbl K} (hn : a ≠ .nan) (h : (a.ltV 0 || a.gtV 1) = false) : a.Unit := by
  rw [Bool.or_eq_false_iff] at h
  cases a with
  | fin v => exact ⟨v, rfl, not_lt.1 (of_decide_eq_false h.1), not_lt.1 (of_decide_eq_false h.2)⟩
  | pinf => exact absurd h.2 (by simp [Dbl.gtV])
  | ninf => exact absurd h.1 (by simp [Dbl.ltV])
  | nan => exact absurd rfl hn

theorem nonneg_of {a : Dbl K} (hn : a ≠ .nan) (h : a.ltV 0 = false) : a.Nonneg := by
  cases a with
  | fin v => exact Or.inr ⟨v, rfl, not_lt.1 (of_decide_eq_false h)⟩
  | pinf => exact Or.inl rfl
  | ninf => exact absurd h (by simp [Dbl.ltV])
  | nan => exact absurd rfl hn

theorem clampUnit_unit {a : Dbl K} (hn : a ≠ .nan) : (clampUnit a).Unit := by
  unfold clampUnit
  split
  · exact ⟨0, rfl, le_refl _, zero_le_one⟩
  · split
    · exact ⟨1, rfl, zero_le_one, le_refl _⟩
    · next h1 h2 =>
      exact unit_of hn (by rw [Bool.not_eq_true] at h1 h2; rw [h1, h2]; rfl)

theorem atLeastInt_range {p q : PState K} {lo a : Int} (h : InRange p)
    (hq : lo ≤ a → InRange q) : InRange (atLeastInt p lo a q).2 := by
  unfold atLeastInt
  split
  · exact h
  · exact hq (by omega)

theorem atLeastZero_range {p q : PState K} {a : Dbl K} (h : InRange p) (hn : a ≠ .nan)
    (hq : a.Nonneg → InRange q) : InRange (atLeastZero p a q).2 := by
  unfold atLeastZero
  split
  · exact h
  · next h' => exact hq (nonneg_of hn (by simpa using h'))

theorem inUnit_range {p q : PState K} {a : Dbl K} (h : InRange p) (hn : a ≠ .nan)
    (hq : a.Unit → InRange q) : InRange (inUnit p a q).2 := by
  unfold inUnit
  split
  · exact h
  · next h' => exact hq (unit_of hn (by simpa using h'))

theorem byName_range {p : PState K} {t : List (List Char × Nat × Int)} {s : List Char}
    {q : Int → PState K} (h : InRange p) (hq : ∀ c, codeOf t s = some c → InRange (q c)) :
    InRange (byName p t s q).2 := by
  unfold byName
  split
  · next c hc => exact hq c hc
  · exact h

theorem codeOf_range {t : List (List Char × Nat × Int)} {s : List Char} {c : Int} {P : Int → Prop}
    (h : codeOf t s = some c) (hP : ∀ e ∈ t, P e.2.2) : P c := by
  obtain ⟨name, n, hm, _⟩ := codeOf_mem h
  exact hP _ hm

theorem setParam_range {p : PState K} (h : InRange p) (c : SetCall K)
    (hn : c.dbl ≠ some .nan) : InRange (setParam p c).2 := by
  have hd : ∀ a, c.dbl = some a → a ≠ .nan := fun a e he => hn (by rw [e, he])
  cases c <;> simp only [setParam]
  case ompThreads a =>
    split
    · exact h
    · exact { h with ompThreads := by constructor <;> simp only <;> omega }
  case lossFunc s =>
    exact byName_range h fun c hc => { h with
      lossFunc := codeOf_range (P := fun c => 0 ≤ c ∧ c ≤ 6) hc (by decide +kernel) }
  case eaSelectType s =>
    exact byName_range h fun c hc => { h with
      eaSelectType := codeOf_range (P := fun c => c = 0 ∨ c = 1) hc (by decide +kernel) }
  case condType s =>
    exact byName_range h fun c hc => { h with condType := ⟨s, (C47_names.1 c s).1 hc⟩ }
  case predType s =>
    exact byName_range h fun c hc => { h with
      predType := codeOf_range (P := fun c => 0 ≤ c ∧ c ≤ 5) hc (by decide +kernel) }
  case actType s =>
    exact byName_range h fun c hc => { h with
      actType := codeOf_range (P := fun c => c = 0 ∨ c = 1) hc (by decide +kernel) }
  case condEta a => exact { h with condEta := clampUnit_unit (hd a rfl) }
  case condPDontcare a => exact { h with condPDontcare := clampUnit_unit (hd a rfl) }
  case predEta a => exact { h with predEta := clampUnit_unit (hd a rfl) }
  case predEtaMin a => exact { h with predEtaMin := clampUnit_unit (hd a rfl) }
  case condSpreadMin a =>
    refine { h with condSpreadMin := ?_ }
    simp only
    split
    · exact Or.inr ⟨0, rfl, le_refl _⟩
    · next h' => exact nonneg_of (hd a rfl) (by simpa using h')
  case condBits a => exact { h with condBits := by simp only; split <;> omega }
  case condMin a => exact { h with }
  case condMax a => exact { h with }
  case predLambda a => exact { h with }
  case predScale a => exact { h with }
  case predX0 a => exact { h with }
  case xDim a => exact atLeastInt_range h fun e => { h with xDim := e }
  case yDim a => exact atLeastInt_range h fun e => { h with yDim := e }
  case nActions a => exact atLeastInt_range h fun e => { h with nActions := e }
  case maxTrials a => exact atLeastInt_range h fun e => { h with maxTrials := e }
  case perfTrials a => exact atLeastInt_range h fun e => { h with perfTrials := e }
  case popSize a => exact atLeastInt_range h fun e => { h with popSize := e }
  case teletransportation a => exact atLeastInt_range h fun e => { h with teletransportation := e }
  case thetaDel a => exact atLeastInt_range h fun e => { h with thetaDel := e }
  case mProbation a => exact atLeastInt_range h fun e => { h with mProbation := e }
  case thetaSub a => exact atLeastInt_range h fun e => { h with thetaSub := e }
  case eaLambda a => exact atLeastInt_range h fun e => { h with eaLambda := e }
  case huberDelta a => exact atLeastZero_range h (hd a rfl) fun e => { h with huberDelta := e }
  case e0 a => exact atLeastZero_range h (hd a rfl) fun e => { h with e0 := e }
  case initError a => exact atLeastZero_range h (hd a rfl) fun e => { h with initError := e }
  case initFitness a => exact atLeastZero_range h (hd a rfl) fun e => { h with initFitness := e }
  case nu a => exact atLeastZero_range h (hd a rfl) fun e => { h with nu := e }
  case eaTheta a => exact atLeastZero_range h (hd a rfl) fun e => { h with eaTheta := e }
  case gamma a => exact inUnit_range h (hd a rfl) fun e => { h with gamma := e }
  case pExplore a => exact inUnit_range h (hd a rfl) fun e => { h with pExplore := e }
  case alpha a => exact inUnit_range h (hd a rfl) fun e => { h with alpha := e }
  case beta a => exact inUnit_range h (hd a rfl) fun e => { h with beta := e }
  case delta a => exact inUnit_range h (hd a rfl) fun e => { h with delta := e }
  case eaSelectSize a => exact inUnit_range h (hd a rfl) fun e => { h with eaSelectSize := e }
  case eaPCrossover a => exact inUnit_range h (hd a rfl) fun e => { h with eaPCrossover := e }
  case eaErrReduc a => exact inUnit_range h (hd a rfl) fun e => { h with eaErrReduc := e }
  case eaFitReduc a => exact inUnit_range h (hd a rfl) fun e => { h with eaFitReduc := e }

theorem init_range (x y n : Int) (hx : 1 ≤ x) (hy : 1 ≤ y) (hn : 1 ≤ n) :
    InRange (paramInit x y n : PState K) := by
  have u : ∀ v : K, 0 ≤ v → v ≤ 1 → (Dbl.fin v).Unit := fun v h1 h2 => ⟨v, rfl, h1, h2⟩
  have o : ∀ v : K, 0 ≤ v → (Dbl.fin v).Nonneg := fun v h => Or.inr ⟨v, rfl, h⟩
  constructor <;> simp only [paramInit] <;> first
    | assumption
    | exact u _ (by norm_num) (by norm_num)
    | exact o _ (by norm_num)
    | decide
    | exact ⟨_, rfl⟩

/-- **C46**: after any sequence of setter calls from the defaults, accepted or not, every
parameter is in its documented range.  Missing from the full statement: arguments that are
not-a-number (see `C46_nan_refuted`). -/
theorem C46_ranges_partial (x y n : Int) (hx : 1 ≤ x) (hy : 1 ≤ y) (hn : 1 ≤ n)
    (cs : List (SetCall K)) (hc : ∀ c ∈ cs, c.dbl ≠ some .nan) :
    InRange (setAll (paramInit x y n) cs) := by
  have : ∀ (cs : List (SetCall K)) (p : PState K), InRange p → (∀ c ∈ cs, c.dbl ≠ some .nan) →
      InRange (setAll p cs) := by
    intro cs
    induction cs with
    | nil => exact fun p h _ => h
    | cons c cs ih =>
      intro p h hc
      exact ih _ (setParam_range h c (hc c List.mem_cons_self))
        (fun d hd => hc d (List.mem_cons_of_mem _ hd))
  exact this cs _ (init_range x y n hx hy hn) hc

/-- **C46**: a rejected call changes nothing. -/
theorem C46_rejected_unchanged (p : PState K) (c : SetCall K) (h : (setParam p c).1 = false) :
    (setParam p c).2 = p := by
  cases c <;> simp only [setParam, atLeastInt, atLeastZero, inUnit, byName] at h ⊢ <;>
    first
    | (split <;> [rfl; (rename_i e; simp [e] at h)])
    | (split <;> [(rename_i e; simp [e] at h); rfl])
    | simp at h

/-- Every value inside its range is accepted and stored (shown for one parameter of each kind). -/
theorem C46_accepted_stored (p : PState K) (v : K) (h0 : 0 ≤ v) :
    (v ≤ 1 → setParam p (.beta (.fin v)) = (true, { p with beta := .fin v })) ∧
    setParam p (.e0 (.fin v)) = (true, { p with e0 := .fin v }) ∧
    (v ≤ 1 → setParam p (.predEta (.fin v)) = (true, { p with predEta := .fin v })) ∧
    (∀ a : Int, 1 ≤ a → setParam p (.popSize a) = (true, { p with popSize := a })) := by
  have l0 : (Dbl.fin v).ltV 0 = false := decide_eq_false (not_lt.2 h0)
  have g1 : v ≤ 1 → (Dbl.fin v).gtV 1 = false := fun h => decide_eq_false (not_lt.2 h)
  refine ⟨fun h => ?_, ?_, fun h => ?_, fun a ha => ?_⟩
  · simp [setParam, inUnit, l0, g1 h]
  · simp [setParam, atLeastZero, l0]
  · simp [setParam, clampUnit, l0, g1 h]
  · simp only [setParam, atLeastInt, if_neg (show ¬ a < 1 by omega)]

/-- **C46** is false for not-a-number: it passes every comparison, so the setter accepts it. -/
theorem C46_nan_refuted : ∃ c : SetCall K, (setParam (paramInit 1 1 1) c).1 = true ∧
    ¬ InRange (setAll (paramInit 1 1 1) [c]) :=
  ⟨.beta .nan, rfl, fun h => by obtain ⟨v, hv, _⟩ := h.beta; exact absurd hv (by simp [setAll, setParam, inUnit, Dbl.ltV, Dbl.gtV])⟩

/-- The setters do not relate parameters to each other: the smallest evolved learning rate can be
set above the largest, and the lower end of the inputs above the upper. -/
theorem C46_pairs_unordered : ∃ cs : List (SetCall ℚ), (∀ c ∈ cs, c.dbl ≠ some .nan) ∧
    (setAll (paramInit 1 1 1) cs).predEta = .fin (1 / 10) ∧
    (setAll (paramInit 1 1 1) cs).predEtaMin = .fin 1 ∧
    (setAll (paramInit 1 1 1) cs).condMin = .fin 5 ∧
    (setAll (paramInit 1 1 1) cs).condMax = .fin 1 :=
  ⟨[.predEtaMin (.fin 1), .condMin (.fin 5)], by decide +kernel, by decide +kernel,
    by decide +kernel, by decide +kernel, by decide +kernel⟩

-- a rejected and an accepted call, a clamped one
example : (setAll (paramInit 3 1 2 : PState ℚ) [.beta (.fin 2), .beta (.fin (1 / 4)), .popSize 0,
      .condEta .pinf, .lossFunc "mse".toList, .lossFunc "x".toList]).beta = .fin (1 / 4) ∧
    (setAll (paramInit 3 1 2 : PState ℚ) [.popSize 0]).popSize = 2000 ∧
    (setAll (paramInit 3 1 2 : PState ℚ) [.condEta .pinf]).condEta = .fin 1 ∧
    (setAll (paramInit 3 1 2 : PState ℚ)
      [.lossFunc "mse".toList, .lossFunc "x".toList]).lossFunc = 1 := by
  decide +kernel

end Xcsf
