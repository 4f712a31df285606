import Verif.NGen

/-!
# Gradient descent in networks of all kinds of layers (`neural.c`, `neural_layer.h`)
-/

namespace Xcsf
section
variable {K R : Type} [Field K] [LinearOrder K] [IsStrictOrderedRing K] [FloorRing K]

/-- `l->delta`, neural_layer.h:83: the errors of the outputs; those of a recurrent layer are the ones
of its output layer, neural_layer_recurrent.c:166, 266 and 307. -/
def GLay.deltas : GLay K → List K
  | .conn l => l.deltas
  | .recu l => l.out.deltas
  | .lstm l => l.delta
  | .conv l => l.cells.map Cell.delta
  | .maxp l => l.delta
  | .avgp l => l.delta
  | .ups l => l.delta
  | .drop l => l.delta
  | .noise l => l.delta
  | .soft l => l.delta

/-- The array `l->delta` is overwritten. -/
def GLay.withDelta (d : List K) : GLay K → GLay K
  | .conn l => .conn (l.withDelta d)
  | .recu l => .recu { l with out := l.out.withDelta d }
  | .lstm l => .lstm { l with delta := d }
  | .conv l => .conv { l with cells := List.zipWith (fun (c : Cell K) v => { c with delta := v }) l.cells d }
  | .maxp l => .maxp { l with delta := d }
  | .avgp l => .avgp { l with delta := d }
  | .ups l => .ups { l with delta := d }
  | .drop l => .drop { l with delta := d }
  | .noise l => .noise { l with delta := d }
  | .soft l => .soft { l with delta := d }

/-- `neural_layer_softmax_backward`, neural_layer_softmax.c:141-152. -/
def softBackward (l : SLay K) (d : Option (List K)) : Res (Option (List K)) :=
  match d with
  | none => .ok none
  | some d =>
    if (l.delta.length : Int) < l.nIn ∨ (d.length : Int) < l.nIn then .error .ub
    else .ok (some (softmaxBackward (l.delta.take l.nIn.toNat) (d.take l.nIn.toNat) ++
      d.drop l.nIn.toNat))

/-- A backward pass that only hands the errors on. -/
def backOnly (l : GLay K) (x : Res (Option (List K))) : Res (GLay K × Option (List K)) :=
  match x with
  | .error e => .error e
  | .ok d => .ok (l, d)

/-- A backward pass that changes the layer. -/
def backOf {α : Type} (f : α → GLay K) (x : Res (α × Option (List K))) :
    Res (GLay K × Option (List K)) :=
  match x with
  | .error e => .error e
  | .ok (a, d) => .ok (f a, d)

/-- `layer_backward`, neural_layer.h:193-198: `x` is the input of the layer and `d` the errors of the
layer before, if there is one. -/
def layerBackward (m : Libm K) (l : GLay K) (x : List K) (d : Option (List K)) :
    Res (GLay K × Option (List K)) :=
  match l with
  | .conn l => backOf .conn (connBackward m l x d)
  | .recu l => backOf .recu (recBackward m l x d)
  | .lstm l => backOf .lstm (lstmBackward m l x d)
  | .conv l => backOf .conv (convBackward m l x d)
  | .maxp l => backOnly (.maxp l) (maxpoolBackward l d)
  | .avgp l => backOnly (.avgp l) (avgpoolBackward l d)
  | .ups l => backOnly (.ups l) (upsampleBackward l d)
  | .drop l => backOnly (.drop l) (dropoutBackward l d)
  | .noise l => backOnly (.noise l) (noiseBackward l d)
  | .soft l => backOnly (.soft l) (softBackward l d)

/-- `layer_update`, neural_layer.h:204-208: nothing for layers without weights. -/
def layerUpdate : GLay K → GLay K
  | .conn l => .conn (connUpdate l)
  | .recu l => .recu (recUpdate l)
  | .lstm l => .lstm (lstmUpdate l)
  | .conv l => .conv (convUpdate l)
  | l => l

/-- The errors of a layer are set to zero, neural.c:330-335. -/
def GLay.reset (l : GLay K) : Res (GLay K) :=
  if (l.deltas.length : Int) < l.dim.n then .error .ub
  else .ok (l.withDelta (List.replicate l.dim.n.toNat 0 ++ l.deltas.drop l.dim.n.toNat))

/-- The first loop of `neural_learn`, neural.c:330-335. -/
def resetAll : List (GLay K) → Res (List (GLay K))
  | [] => .ok []
  | l :: ls =>
    match l.reset with
    | .error e => .error e
    | .ok l =>
      match resetAll ls with
      | .error e => .error e
      | .ok ls => .ok (l :: ls)

/-- The error of the output layer, neural.c:336-340. -/
def GLay.headDelta (l : GLay K) (truth : List K) : Res (GLay K) :=
  match l.outs with
  | .error e => .error e
  | .ok o =>
    let n := l.dim.n.toNat
    if truth.length < n ∨ o.length < n ∨ l.deltas.length < n then .error .ub
    else .ok (l.withDelta
      (List.zipWith (fun t o => t - o) (truth.take n) (o.take n) ++ l.deltas.drop n))

/-- The backward phase of `neural_learn`, neural.c:341-352, from layer `l` down to the first one: the
layers before `l` are listed from the nearest one.  The outputs of the layer before must have been
written even if the layer does not read them. -/
def genBackGo (m : Libm K) (x : List K) : GLay K → List (GLay K) → Res (List (GLay K))
  | l, [] =>
    match layerBackward m l x none with
    | .error e => .error e
    | .ok (l, _) => .ok [l]
  | l, p :: rest =>
    match p.outs with
    | .error e => .error e
    | .ok o =>
      match layerBackward m l o (some p.deltas) with
      | .error e => .error e
      | .ok (_, none) => .error .ub
      | .ok (l, some d) =>
        match genBackGo m x (p.withDelta d) rest with
        | .error e => .error e
        | .ok ls => .ok (l :: ls)

/-- `neural_learn`, neural.c:327-352, before the update phase. -/
def genBackward (m : Libm K) (ls : List (GLay K)) (truth x : List K) : Res (List (GLay K)) :=
  match resetAll ls with
  | .error e => .error e
  | .ok ls =>
    match ls.reverse with
    | [] => .error .ub
    | h :: rest =>
      match h.headDelta truth with
      | .error e => .error e
      | .ok h =>
        match genBackGo m x h rest with
        | .error e => .error e
        | .ok ls => .ok ls.reverse

/-- `neural_learn`, neural.c:327-359. -/
def genLearn (m : Libm K) (ls : List (GLay K)) (truth x : List K) : Res (List (GLay K)) :=
  match genBackward m ls truth x with
  | .error e => .error e
  | .ok ls => .ok (ls.map layerUpdate)

end
end Xcsf
