import Verif.NValSpec
import Verif.PropsNRep

/-!
# Specification for property C93: what rules made of networks answer

A network matches if its first output exceeds one half; as action it chooses the first of its greatest
outputs; a network or graph that is the whole rule reads the action as a binary number; as prediction
its outputs are the answer.
-/

set_option linter.unusedSectionVars false

namespace Xcsf
open Finset
variable {R : Type}

/-- The first output exceeds one half. -/
def Fires (o : List ℝ) : Prop := 1 / 2 < o.getD 0 0

/-- `k` is the first of the greatest among the first `n` outputs. -/
def FirstMax (n : Nat) (o : List ℝ) (k : Int) : Prop :=
  ∃ i : Nat, k = i ∧ i < n ∧ (∀ j < n, o.getD j 0 ≤ o.getD i 0) ∧ ∀ j < i, o.getD j 0 < o.getD i 0

open Classical in
/-- The number whose binary digits are the outputs behind the first one, at most the last of `n`
actions. -/
noncomputable def binaryAction (n bits : Nat) (o : Nat → ℝ) : Int :=
  min ((n : Int) - 1) (∑ i ∈ range bits, if 1 / 2 < o (i + 1) then 2 ^ i else 0)

/-- The condition of a rule contains an input. -/
def RuleKind.Holds (S : NetSetup ℝ) : (t : RuleKind) → t.CBody ℝ → List ℝ → Prop
  | .parts (some c) _ => c.Contains S.toSetup
  | .parts none _ => fun (b : NetBody ℝ) x => Fires (netVal b.lays x)
  | .dgp => CondType.Contains S.toSetup .dgp
  | .neural => fun (b : NetBody ℝ) x => Fires (netVal b.lays x)

/-- A rule advocates an action for an input. -/
def RuleKind.Advises (n : Nat) : (t : RuleKind) → t.CBody ℝ → t.ABody ℝ → List ℝ → Int → Prop
  | .parts _ false => fun _ (a : ActInt ℝ) _ k => a.action = k
  | .parts _ true => fun _ (b : NetBody ℝ) x k => FirstMax n (netVal b.lays x) k
  | .dgp => fun (d : Graph ℝ) _ x k => binaryAction n (actionBits n)
      (statesAfter d (fun j => x.getD j 0) (startStates d true) d.t.toNat) = k
  | .neural => fun (b : NetBody ℝ) _ x k => binaryAction n (actionBits n)
      (fun i => (netVal b.lays x).getD i 0) = k

/-- Output `j` of a rule at an input. -/
noncomputable def predOutput (S : NetSetup ℝ) : (q : Option PredType) → predBody ℝ q → List ℝ →
    List ℝ → Nat → ℝ
  | some q => q.Output S.toSetup
  | none => fun (b : NetBody ℝ) _ x j => (netVal b.lays x).getD j 0

/-- Layers without memory. -/
def GArgs.memoryless : GArgs ℝ → Bool
  | .recu _ => false
  | .lstm _ _ => false
  | _ => true

/-- Conditions and actions do not remember the inputs before. -/
def RuleKind.Forgets (S : NetSetup ℝ) : RuleKind → Prop
  | .parts c a => (c = some .dgp → S.stateful = false) ∧
      (c = none → ∀ l ∈ S.condNet, l.memoryless = true) ∧
      (a = true → ∀ l ∈ S.actNet, l.memoryless = true)
  | .dgp => S.stateful = false
  | .neural => ∀ l ∈ S.condNet, l.memoryless = true

/-- A system whose rules do not remember the inputs before, with the real mathematical functions. -/
structure NetSystem.Forgets (Y : NetSystem ℝ R) : Prop where
  libm : Y.S.libm = realLibm
  rule : Y.rule.Forgets Y.S
  pred : Y.pred = none → ∀ l ∈ Y.S.predNet, l.memoryless = true

/-- The condition of a rule of the system contains an input. -/
def NetSystem.Holds (Y : NetSystem ℝ R) (b : Y.Rule) (x : List ℝ) : Prop :=
  Y.rule.Holds Y.S b.1.cond x

/-- A rule of the system advocates an action for an input. -/
def NetSystem.Advises (Y : NetSystem ℝ R) (b : Y.Rule) (x : List ℝ) (a : Int) : Prop :=
  Y.rule.Advises Y.par.nActions b.1.cond b.1.act x a

/-- Output `j` of a rule of the system. -/
noncomputable def NetSystem.output (Y : NetSystem ℝ R) (c : Cl ℝ Y.Rule) (x : List ℝ) (j : Nat) : ℝ :=
  predOutput Y.S Y.pred c.body.1.pred c.prediction x j

open Classical in
/-- The rules that contain an input and advocate an action. -/
noncomputable def NetSystem.advocates (Y : NetSystem ℝ R) (cs : List (Cl ℝ Y.Rule)) (x : List ℝ)
    (a : Nat) : List (Cl ℝ Y.Rule) :=
  cs.filter fun c => decide (Y.Holds c.body x ∧ Y.Advises c.body x a)

end Xcsf
