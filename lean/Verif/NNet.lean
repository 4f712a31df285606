import Verif.NLayer

/-!
# Networks of connected layers (`neural.c`)

The list of layers is the one from the first layer (`net->tail`) to the output layer
(`net->head`); its pointers are the subject of `NetList.lean`.
-/

namespace Xcsf

/-- `struct Net`, neural.h:48-56. -/
structure CNet (K : Type) where
  layers : List (CLay K)
  nInputs : Nat
  nOutputs : Nat
  deriving DecidableEq, Repr

section
variable {K R : Type} [Field K] [LinearOrder K] [IsStrictOrderedRing K] [FloorRing K]

/-- `layer_output`: the array `output`, neural_layer_connected.c:327-331. -/
def CLay.outs (l : CLay K) : List K := l.ns.map Neuron.out

/-- The array `delta` of a layer. -/
def CLay.deltas (l : CLay K) : List K := l.ns.map Neuron.delta

/-- The array `delta` is overwritten. -/
def CLay.withDelta (l : CLay K) (d : List K) : CLay K :=
  { l with ns := List.zipWith (fun (n : Neuron K) v => { n with delta := v }) l.ns d }

/-- `neural_propagate`, neural.c:309-319. -/
def netForward (m : Libm K) : List (CLay K) → List K → Res (List (CLay K))
  | [], _ => .ok []
  | l :: ls, x =>
    match connForward m l x with
    | .error e => .error e
    | .ok l =>
      match netForward m ls l.outs with
      | .error e => .error e
      | .ok ls => .ok (l :: ls)

/-- The error of the output layer, neural.c:337-341. -/
def headDelta (l : CLay K) (truth : List K) : Res (CLay K) :=
  if truth.length < l.nOutputs ∨ l.ns.length ≠ l.nOutputs then .error .ub
  else .ok (l.withDelta (List.zipWith (fun t o => t - o) truth l.outs))

/-- The backward phase of `neural_learn`, neural.c:342-353, from layer `l` down to the first one:
the layers before `l` are listed from the nearest one. -/
def backGo (m : Libm K) (x : List K) : CLay K → List (CLay K) → Res (List (CLay K))
  | l, [] =>
    match connBackward m l x none with
    | .error e => .error e
    | .ok (l, _) => .ok [l]
  | l, p :: rest =>
    match connBackward m l p.outs (some p.deltas) with
    | .error e => .error e
    | .ok (_, none) => .error .ub
    | .ok (l, some d) =>
      match backGo m x (p.withDelta d) rest with
      | .error e => .error e
      | .ok ls => .ok (l :: ls)

/-- `neural_learn`, neural.c:327-353, before the update phase. -/
def netBackward (m : Libm K) (ls : List (CLay K)) (truth x : List K) : Res (List (CLay K)) :=
  match (ls.map fun l => l.withDelta (List.replicate l.ns.length 0)).reverse with
  | [] => .error .ub
  | h :: rest =>
    match headDelta h truth with
    | .error e => .error e
    | .ok h =>
      match backGo m x h rest with
      | .error e => .error e
      | .ok ls => .ok ls.reverse

/-- `neural_learn`, neural.c:327-359. -/
def netLearn (m : Libm K) (ls : List (CLay K)) (truth x : List K) : Res (List (CLay K)) :=
  match netBackward m ls truth x with
  | .error e => .error e
  | .ok ls => .ok (ls.map connUpdate)

/-- The resizing step of `neural_mutate`, neural.c:264-267; `prev` is the number of outputs of the
layer before if it changed. -/
def resizeIf (g : Rng K R) (fuel : Nat) (l : CLay K) (prev : Option Nat) (r : R) :
    Res (CLay K × R) :=
  match prev with
  | some p => connResize g fuel l p r
  | none => .ok (l, r)

/-- The loop of `neural_mutate`, neural.c:262-281. -/
def netMutGo (g : Rng K R) (fuel : Nat) : Option Nat → List (CLay K) → R →
    Res ((List (CLay K) × Bool) × R)
  | _, [], r => .ok (([], false), r)
  | prev, l :: ls, r =>
    match resizeIf g fuel l prev r with
    | .error e => .error e
    | .ok (l1, r) =>
      match connMutate g fuel l1 r with
      | .error e => .error e
      | .ok ((l2, b), r) =>
        match netMutGo g fuel (if l2.nOutputs ≠ l.nOutputs then some l2.nOutputs else none) ls r with
        | .error e => .error e
        | .ok ((ls, bs), r) => .ok ((l2 :: ls, b || bs), r)

/-- `neural_mutate`, neural.c:256-283. -/
def netMutate (g : Rng K R) (fuel : Nat) (n : CNet K) (r : R) : Res ((CNet K × Bool) × R) :=
  match netMutGo g fuel none n.layers r with
  | .error e => .error e
  | .ok ((ls, b), r) => .ok (({ n with layers := ls }, b), r)

/-- The loop of `neural_resize`, neural.c:289-301; `prev` is the number of outputs of the layer
before. -/
def netResizeGo (g : Rng K R) (fuel : Nat) : Option Nat → List (CLay K) → R →
    Res (List (CLay K) × R)
  | _, [], r => .ok ([], r)
  | prev, l :: ls, r =>
    match resizeIf g fuel l (match prev with
        | some p => if l.nInputs ≠ p then some p else none
        | none => none) r with
    | .error e => .error e
    | .ok (l, r) =>
      match netResizeGo g fuel (some l.nOutputs) ls r with
      | .error e => .error e
      | .ok (ls, r) => .ok (l :: ls, r)

/-- `neural_rand`, neural.c:241-249. -/
def netRand (g : Rng K R) : List (CLay K) → R → List (CLay K) × R
  | [], r => ([], r)
  | l :: ls, r =>
    let a := weightRand g l r
    let b := netRand g ls a.2
    (a.1 :: b.1, b.2)

/-- `neural_output`, neural.c:367-376. -/
def netOutput (n : CNet K) (i : Int) : Res K :=
  if i < 0 ∨ (n.nOutputs : Int) ≤ i then .error .exit
  else match n.layers.getLast? with
    | none => .error .ub
    | some h =>
      match h.outs[i.toNat]? with
      | some v => .ok v
      | none => .error .ub

end
end Xcsf
