import Verif.Trial

/-!
# What an observer sees: vocabulary of the property statements
-/

namespace Xcsf
variable {K X B R : Type}

/-- The rules of the population in list order, as `print_pset`/`json` would list them. -/
def population (s : St K X B R) : List (Cl K B) := s.pset.list.filterMap s.heap

/-- The rules of the stored population in list order. -/
def storedPopulation (s : St K X B R) : List (Cl K B) := s.prevPset.list.filterMap s.heap

/-- Copies of a list of rules, made one after the other by the representation's copy function:
only current predictions are reset. -/
def copies [Zero K] (par : Params K) (kit : Kit K X B R) : List (Cl K B) → R → List (Cl K B) × R
  | [], r => ([], r)
  | c :: cs, r =>
    let b := kit.clone c.body r
    let rest := copies par kit cs b.2
    ({ c with prediction := List.replicate par.yDim 0, body := b.1 } :: rest.1, rest.2)

/-- Total number of micro-classifiers of a list of rules. -/
def micro (cs : List (Cl K B)) : Int := (cs.map Cl.num).sum

/-- A call whose arguments are acceptable: an inserted rule represents at least one
micro-classifier and an imported list is not empty. -/
def Op.valid : Op K X B → Prop
  | .insert c => 1 ≤ c.num
  | .import cs => cs ≠ [] ∧ ∀ c ∈ cs, 1 ≤ c.num
  | _ => True

instance (op : Op K X B) : Decidable op.valid := by
  cases op <;> unfold Op.valid <;> infer_instance

/-- A rule that has never matched although it saw more inputs than the probation period. -/
def NeverMatched (par : Params K) (c : Cl K B) : Prop := c.mtotal = 0 ∧ par.mProbation < c.age

instance (par : Params K) (c : Cl K B) : Decidable (NeverMatched par c) := by
  unfold NeverMatched; infer_instance

/-- What is left of a rule that loses one micro-classifier. -/
def loseOne (c : Cl K B) : List (Cl K B) := if c.num = 1 then [] else [{ c with num := c.num - 1 }]

/-- `cs'` is `cs` after exactly one deletion. -/
def DeletesOne (cs cs' : List (Cl K B)) : Prop :=
  ∃ pre c post, cs = pre ++ c :: post ∧ cs' = pre ++ loseOne c ++ post

/-- `cs'` is `cs` after exactly `n` deletions. -/
inductive Deletes : Nat → List (Cl K B) → List (Cl K B) → Prop
  | zero (cs : List (Cl K B)) : Deletes 0 cs cs
  | succ {n : Nat} {cs cs' cs'' : List (Cl K B)} :
      DeletesOne cs cs' → Deletes n cs' cs'' → Deletes (n + 1) cs cs''

/-- Two versions of a rule that differ at most in match statistics (age, match count, match
flag), action and body. -/
structure SameStats (c c' : Cl K B) : Prop where
  err : c'.err = c.err
  fit : c'.fit = c.fit
  num : c'.num = c.num
  exp : c'.exp = c.exp
  size : c'.size = c.size
  time : c'.time = c.time

/-- Experienced and accurate: `exp > theta_sub` and `error < e0`. -/
def CanSubsume [LT K] (par : Params K) (c : Cl K B) : Prop := par.thetaSub < c.exp ∧ c.err < par.e0

/-- `cs'` is `cs` with the numerosity of one rule, satisfying `Q`, raised by one. -/
def RaisesOne (Q : Cl K B → Prop) (cs cs' : List (Cl K B)) : Prop :=
  ∃ pre c post, cs = pre ++ c :: post ∧ cs' = pre ++ { c with num := c.num + 1 } :: post ∧ Q c

/-- `c'` is `c` as prediction and scoring may leave it: same record, and the same `π`, which
extracts what a rule has learned from its body and its current prediction (the current
prediction is what a rule with a constant prediction has learned). -/
def Unlearned {P : Type} (π : B → List K → P) (c c' : Cl K B) : Prop :=
  SameStats c c' ∧ π c'.body c'.prediction = π c.body c.prediction

/-- The rules of two populations correspond one to one, in order. -/
def Pointwise (rel : Cl K B → Cl K B → Prop) : List (Cl K B) → List (Cl K B) → Prop
  | [], [] => True
  | c :: cs, c' :: cs' => rel c c' ∧ Pointwise rel cs cs'
  | _, _ => False

end Xcsf
