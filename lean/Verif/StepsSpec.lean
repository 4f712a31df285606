import Verif.Steps

/-!
# The protocol of the step-by-step interface

Specification: the order of calls that the documentation shows, and what it means that nothing is
left in memory.
-/

namespace Xcsf
namespace Steps

/-- Where a user of the interface is: between trials, in a trial between two steps, in a step before
the decision, after the decision, and after the update. -/
inductive Phase where
  | idle | trial | step | decided | updated
  deriving DecidableEq, Repr

/-- The calls that may follow, python/example_maze.py:238-257 and 365-378: `init_trial`, then steps
made of `init_step`, `decision`, `update`, `error` and `end_step`, then `end_trial`; `update` happens
at most once in a step and `error` as often as one likes; trials may be ended before they are done;
`fit`, `predict` and `score` belong between trials.  Training needs targets. -/
def Phase.next {K X : Type} : Phase → Call K X → Option Phase
  | .idle, .initTrial => some .trial
  | .idle, .fit _ _ _ => some .idle
  | .idle, .supervised _ y _ explore => if explore && y.isNone then none else some .idle
  | .trial, .initStep => some .step
  | .trial, .endTrial => some .idle
  | .step, .decision _ _ => some .decided
  | .decided, .update _ _ => some .updated
  | .decided, .error _ _ _ => some .decided
  | .decided, .endStep => some .trial
  | .updated, .error _ _ _ => some .updated
  | .updated, .endStep => some .trial
  | _, _ => none

/-- Where a sequence of calls ends; `none` if some call is out of order. -/
def follows {K X : Type} : Phase → List (Call K X) → Option Phase
  | ph, [] => some ph
  | ph, k :: ks => (ph.next k).bind fun ph' => follows ph' ks

/-- No list node and no array for a remembered state is allocated. -/
structure Clean {K X B R : Type} (c : Py K X B R) : Prop where
  nodes : ∀ q, c.low.h.node q = none
  arrays : ∀ q, c.low.arr q = none

/-- A system as Python sees it after other calls: `s` is the system, nothing is allocated for sets and
states, and all pointers to sets and states are whatever earlier trials have left there. -/
def fresh {K X B R : Type} [Zero K] (s : St K X B R) : Py K X B R :=
  { low := { s := s, h := {}, m := {}, a := {}, p := {}, arr := fun _ => none, atop := 0,
             prev := none }
    state := none, action := 0, payoff := 0 }

/-! ## The calls on sets that are values -/

section
variable {K X B R : Type} [Zero K] [One K] [Add K] [Sub K] [Mul K] [Div K]
  [LT K] [DecidableLT K] [IntCast K] [DecidableEq K]

/-- A trial as one thinks of it: the system with sets that are values, the situation that was decided
upon, the decision, and the last reward that was reported. -/
structure Plain (K X B R : Type) where
  s : St K X B R
  seen : Option X
  did : Int
  got : K

/-- What a call means: the functions of `Trial.lean` with what is remembered of the calls before. -/
def plain (par : Params K) (kit : Kit K X B R) (v : Plain K X B R) : Call K X →
    Res (Out K × Plain K X B R)
  | .initTrial => .ok (.nothing, { v with s := rlInitTrial v.s })
  | .endTrial => (rlEndTrial v.s).map fun s => (.nothing, { v with s := s })
  | .initStep => .ok (.nothing, { v with s := rlInitStep v.s })
  | .endStep =>
    match v.seen with
    | none => .error .ub
    | some x => (rlEndStep par x v.did v.got v.s).map fun s => (.nothing, { v with s := s })
  | .decision x explore =>
    (rlDecision par kit x { v.s with explore := explore }).map fun p =>
      (.act p.1, { v with s := p.2, seen := some x, did := p.1 })
  | .update reward done =>
    match v.seen with
    | none => .error .ub
    | some x => (rlUpdate par kit x v.did reward done v.s).map fun s =>
        (.nothing, { v with s := s, got := reward })
  | .error reward done maxP => (rlError par kit v.did reward done maxP v.s).map fun p =>
      (.num p.1, { v with s := p.2, got := reward })
  | .fit x a reward => (rlFit par kit x a reward v.s).map fun p =>
      (.num p.1, { v with s := p.2, seen := some x })
  | .supervised x y cv explore => (supTrial par kit x y cv { v.s with explore := explore }).map
      fun s => (.nothing, { v with s := s })

/-- A sequence of calls. -/
def plains (par : Params K) (kit : Kit K X B R) :
    List (Call K X) → Plain K X B R → Res (List (Out K) × Plain K X B R)
  | [], v => .ok ([], v)
  | k :: ks, v => do
    let p ← plain par kit v k
    let q ← plains par kit ks p.2
    .ok (p.1 :: q.1, q.2)

/-- The plain trial behind the fields of the class. -/
def Py.plain (c : Py K X B R) : Plain K X B R := ⟨c.low.s, c.state, c.action, c.payoff⟩

end

end Steps
end Xcsf
