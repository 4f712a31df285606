import Verif.Viz
import Verif.PropsGp
import Verif.PropsDgp

/-!
# What a picture of a condition shows (C103)

The specification reads a picture like a person does: from a node to the nodes below it, and from
the arrows that enter a node to what it computes.
-/

namespace Xcsf.Viz

/-! ## Trees -/

/-- The labels of a node (one, if the picture is sensible). -/
def Pic.labels (p : Pic) (id : Nat) : List Lab :=
  (p.nodes.filter fun n => n.1 = id).map Prod.snd

/-- The nodes below a node, from left to right. -/
def Pic.below (p : Pic) (id : Nat) : List Nat :=
  (p.edges.filter fun e => e.1 = id).map Prod.snd

/-- The name shown for an input: the one the user gave to it, if there is one. -/
def inputName (names : Option (List String)) (i : Nat) : String :=
  match names with
  | some l => l.getD i ("feature_" ++ toString i)
  | none => "feature_" ++ toString i

/-- The signs of the four functions. -/
def sign (f : Fin 4) : String :=
  match f with
  | 0 => "+"
  | 1 => "-"
  | 2 => "*"
  | 3 => "/"

section
variable {K : Type} [Field K] [LinearOrder K] [IsStrictOrderedRing K] [FloorRing K]
variable {nc ni : Nat}

/-- At this node the picture shows this expression. -/
inductive Shows (names : Option (List String)) (c : Fin nc → K) (p : Pic) :
    Nat → GpExpr nc ni → Prop
  | const {id : Nat} (i : Fin nc) : p.labels id = [numLabel (c i)] → p.below id = [] →
      Shows names c p id (.const i)
  | input {id : Nat} (i : Fin ni) : p.labels id = [.text (inputName names i)] → p.below id = [] →
      Shows names c p id (.input i)
  | func {id l r : Nat} (f : Fin 4) {a b : GpExpr nc ni} : p.labels id = [.text (sign f)] →
      p.below id = [l, r] → Shows names c p l a → Shows names c p r b →
      Shows names c p id (.func f a b)

/-- The nested calls it takes to read an expression: two for every pair of parentheses around it,
and one more for every right operand. -/
def frames : GpExpr nc ni → Nat
  | .func _ l r => 2 + max (frames l) (frames r + 1)
  | _ => 1

/-! ## Graphs -/

/-- What enters a node, in the order of the arrows. -/
def Net.into (g : Net) (i : Nat) : List Name :=
  (g.edges.filter fun e => e.2 = .node i).map Prod.fst

/-- The text in a node. -/
def Net.text (g : Net) (i : Nat) : String := (g.nodes.lookup (i : Int)).getD ""

/-- What the source of an arrow delivers. -/
def Name.value (x s : Nat → K) : Name → K
  | .node i => s i.toNat
  | .feature i => x i.toNat

/-- What a node computes from what enters it, by its text. -/
def connective (text : String) (l : List K) : K :=
  if text = "Fuzzy NOT" then 1 - l.headD 0
  else if text = "Fuzzy AND" then l.prod
  else l.sum

/-- The states of the nodes after a number of rounds, as far as the picture tells. -/
def Net.states (g : Net) (x s : Nat → K) : Nat → Nat → K
  | 0 => s
  | t + 1 => fun i =>
    max 0 (min 1 (connective (g.text i) ((g.into i).map (Name.value x (g.states x s t)))))

end
end Xcsf.Viz
