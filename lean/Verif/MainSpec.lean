import Verif.Main
import Verif.PropsConfig

/-!
# Specification for property C107: the data sets of the stand-alone program
-/

namespace Xcsf.Program
open Xcsf

variable {K B R : Type} [Field K] [LinearOrder K] [IsStrictOrderedRing K] [FloorRing K]

/-- A file on the disk that holds a table of `d` columns: one line per row, fields separated by
commas, lines of at most 198 characters. -/
structure Table (disk : Disk) (name : List Char) (d : Nat) (rows : List (List (List Char))) : Prop where
  file : disk name = some (textFile (rows.map csvLine))
  some : rows ≠ []
  cols : 0 < d
  ok : ∀ row ∈ rows, CsvOk d row

/-- The samples in a table of inputs and a table of outcomes: row by row, as numbers. -/
def samples (num : List Char → K) (xs ys : List (List (List Char))) : List (List K × List K) :=
  List.zipWith (fun a b => (a.map num, b.map num)) xs ys

/-- A data set called `base`: four tables with the same columns for training and testing, and as many
outcomes as inputs. -/
structure DataSet (disk : Disk) (base : List Char) (dx dy : Nat)
    (xs ys us vs : List (List (List Char))) : Prop where
  trainX : Table disk (base ++ "_train_x.csv".toList) dx xs
  trainY : Table disk (base ++ "_train_y.csv".toList) dy ys
  testX : Table disk (base ++ "_test_x.csv".toList) dx us
  testY : Table disk (base ++ "_test_y.csv".toList) dy vs
  train : xs.length = ys.length
  test : us.length = vs.length
  name : base.length ≤ 187

/-- A configuration file, if there is one, does not set the numbers of inputs and outputs. -/
def KeepsSize (w : World K B R) (disk : Disk) (config : List Char) : Prop :=
  ∀ file text l, disk config = some file → configText file = .ok text →
    w.json text = some (.obj l) → ∀ m ∈ l, m.1 ≠ "x_dim" ∧ m.1 ≠ "y_dim"

/-- Learning from samples as `xcs_supervised_fit` does it: every trial learns from a
random training sample, and then tests a random test sample. -/
def learn (w : World K B R) (train test : List (List K × List K)) (q : SysPar K × St K (List K) B R) :
    Res (Done K B R) := do
  let (error, s) ← supFit (w.par q.1) (w.kit q.1) train (some test) true 0 q.1.maxTrials.toNat q.2
  .ok (.fitted error q.1 s)

end Xcsf.Program
