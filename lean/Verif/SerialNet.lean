import Verif.Serial

/-!
# Using a network that may have been loaded

The forward pass and the outputs of a network whose layers may be without memory for their outputs:
`layer_output` is then a null pointer.
-/

namespace Xcsf

section
variable {K R : Type} [Field K] [LinearOrder K] [IsStrictOrderedRing K] [FloorRing K]

/-- `neural_propagate`, neural.c:309-319, with `layer_output`, neural_layer.h:168-172: a layer that is
given a null pointer reads through it. -/
def fnetForward (g : Rng K R) (m : Libm K) (lo : K) (train : Bool) : List (FLay K) → List K → R →
    Res (List (FLay K) × R)
  | [], _, r => .ok ([], r)
  | l :: ls, x, r =>
    match layerForward g m lo train l.lay x r with
    | .error e => .error e
    | .ok (k, r) =>
      if l.wired = false then
        if ls = [] then .ok ([⟨k, false⟩], r) else .error .ub
      else
        match k.outs with
        | .error e => .error e
        | .ok o =>
          match fnetForward g m lo train ls o r with
          | .error e => .error e
          | .ok (ls, r) => .ok (⟨k, true⟩ :: ls, r)

/-- `neural_output`, neural.c:367-376. -/
def fnetOutput (n : FNet K) (i : Int) : Res K :=
  if i < 0 ∨ n.nOutputs ≤ i then .error .exit
  else
    match n.layers.getLast? with
    | none => .error .ub
    | some l =>
      if l.wired = false then .error .ub
      else
        match l.lay.outs with
        | .error e => .error e
        | .ok o => rd o i

/-- One pass through a network and the value of one output. -/
def fnetRun (g : Rng K R) (m : Libm K) (lo : K) (train : Bool) (n : FNet K) (x : List K) (r : R)
    (i : Int) : Res K :=
  match fnetForward g m lo train n.layers x r with
  | .error e => .error e
  | .ok (ls, _) => fnetOutput { n with layers := ls } i

end

end Xcsf
