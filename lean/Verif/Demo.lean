import Verif.Spec
import Verif.CoreLaws
import Mathlib.Algebra.Order.Ring.Rat
import Mathlib.Algebra.Field.Rat
import Mathlib.Tactic.NormNum
import Mathlib.Tactic.Linarith

/-!
# A small concrete system

Used beside the theorems to show that their hypotheses are met by non-trivial
executions.  Inputs are naturals; a rule body is a key and an action: key 0 matches
everything, another key matches the equal input only.
-/

namespace Xcsf.Demo

/-- Parameters of the demonstration system. -/
def par : Params ℚ :=
  { popSize := 4, nActions := 2, yDim := 1, alpha := 1/10, beta := 1/5, delta := 1/10, e0 := 1/100,
    nu := 5, initErr := 0, initFit := 1/100, gamma := 9/10, pExplore := 9/10, thetaDel := 20,
    thetaSub := 1, mProbation := 3, setSubsumption := true, compaction := false,
    popInit := false, teletransportation := 3, maxCover := 100, loopBound := 10,
    eaTournament := false, eaSelectSize := 2/5, eaTheta := 1, eaLambda := 2,
    eaErrReduc := 1, eaFitReduc := 1/10, eaSubsumption := true, eaPredReset := false }

/-- Representation, generator and loss of the demonstration system. -/
def kit : Kit ℚ Nat (Nat × Nat) Nat :=
  { draw := fun r => ((2 * ((r % 4 : Nat) : ℚ) + 1) / 8, r + 1)
    floor := Rat.floor
    pow := fun _ _ => 1/2
    eps := 1/1000
    dblMax := 1000000
    loss := fun p y => (p.headD 0 - y.headD 0) * (p.headD 0 - y.headD 0)
    rand := fun r => ((0, 0), r)
    cover := fun _ _ x a r => .ok ((x, a.toNat), r)
    cmatch := fun _ b x r => (b.1 == 0 || b.1 == x, b, r)
    act := fun _ b _ r => ((b.2 % 2 : Nat), b, r)
    predict := fun _ b p x r => (p.map (fun _ => (x : ℚ) + b.2), b, r)
    update := fun _ b p _ _ r => (b, p, r)
    general := fun a b => a.1 == 0 && b.1 != 0 && a.2 == b.2
    crossover := fun a b r => (r % 2 == 0, if r % 2 == 0 then (b.1, a.2) else a,
      if r % 2 == 0 then (a.1, b.2) else b, r + 1)
    mutate := fun b r => .ok (r % 3 == 0, if r % 3 == 0 then (0, b.2) else b, r + 1)
    copy := fun _ b r => (b, r)
    clone := fun b r => (b, r)
    condSize := fun _ => 1
    predSize := fun _ => 1 }

/-- The demonstration system is regular. -/
theorem regular : Regular par kit (fun _ => True) where
  popSize := by decide
  nActions := by decide
  yDim := by decide
  beta0 := by norm_num [par]
  beta1 := by norm_num [par]
  initErr := by norm_num [par]
  initFit0 := by norm_num [par]
  initFit1 := by norm_num [par]
  errReduc := by norm_num [par]
  fitReduc0 := by norm_num [par]
  fitReduc1 := by norm_num [par]
  draw0 := by intro r; simp only [kit]; positivity
  draw1 := by
    intro r
    simp only [kit]
    have : ((r % 4 : Nat) : ℚ) ≤ 3 := by exact_mod_cast (by omega : r % 4 ≤ 3)
    linarith
  floor0 := fun v => by simpa [kit] using Rat.floor_le v
  floor1 := fun v => by simpa [kit] using Rat.lt_floor_add_one v
  eps := by norm_num [kit]
  loss := fun p y => mul_self_nonneg _
  wRand := fun _ => trivial
  wCover := fun _ _ _ _ _ _ _ _ _ _ => trivial
  coverErr := fun _ _ _ _ _ _ _ => ⟨nofun, nofun⟩
  wMatch := fun _ _ _ _ _ => trivial
  wAct := fun _ _ _ _ _ => trivial
  act0 := fun _ b _ _ _ => by simp only [kit]; omega
  act1 := fun _ b _ _ _ => by simp only [kit, par]; omega
  wPredict := fun _ _ _ _ _ _ => trivial
  predictLen := fun _ _ p _ _ _ h => by simpa [kit] using h
  wUpdate := fun _ _ _ _ _ _ _ => trivial
  updateLen := fun _ _ _ _ _ _ _ h => h
  wCross := fun _ _ _ _ _ => ⟨trivial, trivial⟩
  wMutate := fun _ _ _ _ _ => trivial
  mutateErr := fun _ _ _ => ⟨nofun, nofun⟩
  wCopy := fun _ _ _ _ => trivial
  wClone := fun _ _ _ => trivial

/-- A history with learning, prediction, validation and a store/retrieve pair. -/
def ops : List (Op ℚ Nat (Nat × Nat)) :=
  [.fit 1 [1], .fit 2 [2], .fit 1 [3], .store, .fit 2 [1], .predict [3, 1] [0], .score [(1, [1])] [0],
   .test 5 [5], .rlTrial (fun n => ⟨n + 1, fun a => (a, n == 1), 1⟩) true, .rlFit 2 1 1]

/-- Boolean test on the outcome of a computation. -/
def Res.test {α : Type} (m : Res α) (p : α → Bool) : Bool :=
  match m with
  | .ok a => p a
  | .error _ => false

theorem Res.test_iff {α : Type} {m : Res α} {p : α → Bool} (h : Res.test m p = true) :
    ∃ a, m = .ok a ∧ p a = true := by
  cases m with
  | ok a => exact ⟨a, rfl, h⟩
  | error e => cases h

example : Res.test (run par kit 0 ops) (fun s => s.pset.num == 4 && s.prevPset.num == 4) = true := by
  decide +kernel

end Xcsf.Demo
