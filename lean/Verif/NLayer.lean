import Verif.Activ
import Verif.Blas
import Verif.Dgp

/-!
# Weighted layers: shared operations and the connected layer (`neural_layer.c`,
`neural_layer_connected.c`)

The arrays of `n_weights` elements (`weights`, `weight_updates`, `weight_active`) are always
allocated and resized together; so are those of `n_outputs` elements (`biases`, `bias_updates`,
`state`, `output`, `delta`; `n_biases` equals `n_outputs` in a connected layer).  They are lists of
records here.  Sizes are natural numbers: they come from guarded values (neural_layer.c:581-616).
-/

namespace Xcsf

/-- One connection: `weights[i]`, `weight_updates[i]`, `weight_active[i]`. -/
structure Wt (K : Type) where
  w : K
  upd : K
  on : Bool
  deriving DecidableEq, Repr

/-- One neuron: `biases[i]`, `bias_updates[i]`, `state[i]`, `output[i]`, `delta[i]`. -/
structure Neuron (K : Type) where
  bias : K
  bupd : K
  state : K
  out : K
  delta : K
  deriving DecidableEq, Repr

/-- The bits of `options`, neural_layer.h:51-56. -/
structure LOpt where
  weights : Bool
  neurons : Bool
  functions : Bool
  sgd : Bool
  eta : Bool
  connect : Bool
  deriving DecidableEq, Repr

/-- The fields of `struct Layer` (neural_layer.h:75-137) used by a connected layer. -/
structure CLay (K : Type) where
  nInputs : Nat
  nOutputs : Nat
  maxOutputs : Int
  maxGrow : Int
  nActive : Int
  outW : Nat
  outH : Nat
  outC : Nat
  fn : Int
  opt : LOpt
  eta : K
  etaMax : K
  etaMin : K
  momentum : K
  decay : K
  ws : List (Wt K)
  ns : List (Neuron K)
  mu : List K
  deriving DecidableEq, Repr

/-- The fields of `struct ArgsLayer` (neural_layer_args.h) used by a connected layer. -/
structure CArgs (K : Type) where
  nInputs : Nat
  nInit : Nat
  nMax : Int
  maxGrow : Int
  fn : Int
  opt : LOpt
  eta : K
  etaMin : K
  momentum : K
  decay : K

/-- `layer_guard_outputs`, neural_layer.c:594-603; `N_OUTPUTS_MAX` is neural_layer.h:64. -/
def guardOutputs (n : Int) : Res Unit :=
  if n < 1 ∨ 2000000 < n then .error .exit else .ok ()

/-- `layer_guard_weights`, neural_layer.c:610-618, and the same test in
neural_layer_connected.c:248; `N_WEIGHTS_MAX` is neural_layer.h:62. -/
def guardWeights (n : Int) : Res Unit :=
  if n < 1 ∨ 20000000 < n then .error .exit else .ok ()

/-- Whether a result does not fit into an `int`: signed overflow, which is undefined. -/
def overflows (n : Int) : Bool := decide (n < -2147483648 ∨ 2147483648 ≤ n)

section
variable {K R : Type} [Field K] [LinearOrder K] [IsStrictOrderedRing K] [FloorRing K]

/-- An array as a function of the index. -/
def arrOf (l : List K) : Nat → K := fun i => l.getD i 0

/-- The first `n` elements of an array. -/
def ofArr (n : Nat) (f : Nat → K) : List K := (List.range n).map f

/-- `round` of libm: to the nearest integer, halves away from zero. -/
def roundC (x : K) : Int := if 0 ≤ x then ⌊x + 1 / 2⌋ else -⌊-x + 1 / 2⌋

/-- `layer_mutate_eta`, neural_layer.c:86-97. -/
def mutateEta (g : Rng K R) (l : CLay K) (mu : K) (r : R) : (CLay K × Bool) × R :=
  let z := g.normal 0 mu r
  let eta := clampK (l.eta + z.1) l.etaMin l.etaMax
  (({ l with eta := eta }, decide (eta ≠ l.eta)), z.2)

/-- The loop of `layer_mutate_neurons`, neural_layer.c:109-112, for at most `fuel` rounds. -/
def growLoop (g : Rng K R) (maxGrow : Int) : Nat → R → Res (Int × R)
  | 0, _ => .error .hang
  | fuel + 1, r =>
    let z := g.normal 0 (1 / 2) r
    let n := roundC (clampK z.1 (-1) 1 * (maxGrow : K))
    if n = 0 then growLoop g maxGrow fuel z.2 else .ok (n, z.2)

/-- `layer_mutate_neurons`, neural_layer.c:105-121. -/
def mutateNeurons (g : Rng K R) (fuel : Nat) (l : CLay K) (mu : K) (r : R) : Res (Int × R) :=
  let u := g.uni 0 (1 / 10) r
  if u.1 < mu then
    match growLoop g l.maxGrow fuel u.2 with
    | .error e => .error e
    | .ok (n, r) =>
      if overflows ((l.nOutputs : Int) + n) then .error .ub
      else if (l.nOutputs : Int) + n < 1 then .ok (-((l.nOutputs : Int) - 1), r)
      else if l.maxOutputs < (l.nOutputs : Int) + n then .ok (l.maxOutputs - (l.nOutputs : Int), r)
      else .ok (n, r)
  else .ok (0, u.2)

/-- A new connection in `layer_add_neurons`, neural_layer.c:147-156. -/
def newWt (g : Rng K R) (connect : Bool) (r : R) : Wt K × R :=
  if connect then
    let u := g.uni 0 1 r
    if u.1 < 1 / 2 then (⟨0, 0, false⟩, u.2)
    else
      let z := g.normal 0 (1 / 10) u.2
      (⟨z.1, 0, true⟩, z.2)
  else
    let z := g.normal 0 (1 / 10) r
    (⟨z.1, 0, true⟩, z.2)

/-- `layer_calc_n_active`, neural_layer.c:382-392. -/
def calcActive (ws : List (Wt K)) : Int := ((ws.countP fun w => w.on) : Nat)

/-- `layer_add_neurons`, neural_layer.c:128-166. -/
def addNeurons (g : Rng K R) (l : CLay K) (n : Int) (r : R) : Res (CLay K × R) :=
  let no := (l.nOutputs : Int) + n
  if overflows no || overflows (no * (l.nInputs : Int)) then .error .ub
  else match guardOutputs no with
  | .error e => .error e
  | .ok _ =>
    match guardWeights (no * (l.nInputs : Int)) with
    | .error e => .error e
    | .ok _ =>
      let nw := no.toNat * l.nInputs
      let fresh := drawN (newWt g l.opt.connect) (nw - l.ws.length) r
      let ws := l.ws.take nw ++ fresh.1
      let ns := l.ns.take no.toNat ++ List.replicate (no.toNat - l.ns.length) ⟨0, 0, 0, 0, 0⟩
      .ok ({ l with nOutputs := no.toNat, ws := ws, ns := ns, nActive := calcActive ws }, fresh.2)

/-- The loop of `layer_mutate_connectivity`, neural_layer.c:181-193: new connections, change of the
number of active ones, whether anything changed. -/
def connGo (g : Rng K R) (muE muD : K) : List (Wt K) → R → (List (Wt K) × Int × Bool) × R
  | [], r => (([], 0, false), r)
  | w :: ws, r =>
    let u := g.uni 0 1 r
    if !w.on then
      if u.1 < muE then
        let z := g.normal 0 (1 / 10) u.2
        let rest := connGo g muE muD ws z.2
        (({ w with w := z.1, on := true } :: rest.1.1, rest.1.2.1 + 1, true), rest.2)
      else
        let rest := connGo g muE muD ws u.2
        ((w :: rest.1.1, rest.1.2.1, rest.1.2.2), rest.2)
    else if u.1 < muD then
      let rest := connGo g muE muD ws u.2
      (({ w with w := 0, on := false } :: rest.1.1, rest.1.2.1 - 1, true), rest.2)
    else
      let rest := connGo g muE muD ws u.2
      ((w :: rest.1.1, rest.1.2.1, rest.1.2.2), rest.2)

/-- `layer_mutate_connectivity`, neural_layer.c:174-196. -/
def mutateConn (g : Rng K R) (l : CLay K) (muE muD : K) (r : R) : (CLay K × Bool) × R :=
  if 1 < l.nInputs ∧ 1 < l.nOutputs then
    let c := connGo g muE muD l.ws r
    (({ l with ws := c.1.1, nActive := l.nActive + c.1.2.1 }, c.1.2.2), c.2)
  else ((l, false), r)

/-- Connection `k` gets a random weight and becomes active. -/
def enableWt (z : K) (k : Nat) (ws : List (Wt K)) : List (Wt K) :=
  ws.modify k fun w => { w with w := z, on := true }

/-- The first loop of `layer_ensure_input_represention`, neural_layer.c:206-221, from neuron `i`
for `n` neurons: connections and number of active ones. -/
def ensureRows (g : Rng K R) (nIn : Nat) : Nat → Nat → List (Wt K) → Int → R →
    Res ((List (Wt K) × Int) × R)
  | 0, _, ws, na, r => .ok ((ws, na), r)
  | n + 1, i, ws, na, r =>
    if ws.length < nIn * i + nIn then .error .ub
    else if ((ws.drop (nIn * i)).take nIn).any (fun w => w.on) then
      ensureRows g nIn n (i + 1) ws na r
    else
      let k := g.uniInt 0 (nIn : Int) r
      let z := g.normal 0 (1 / 10) k.2
      if k.1 < 0 ∨ (ws.length : Int) ≤ (nIn * i : Nat) + k.1 then .error .ub
      else ensureRows g nIn n (i + 1) (enableWt z.1 (nIn * i + k.1.toNat) ws) (na + 1) z.2

/-- Whether input `i` has an active connection: neural_layer.c:224-229. -/
def colOn (ws : List (Wt K)) (nIn nOut i : Nat) : Bool :=
  (List.range nOut).any fun j =>
    match ws[nIn * j + i]? with
    | some w => w.on
    | none => false

/-- The `while` loop for one input, neural_layer.c:230-238, for at most `fuel` rounds. -/
def ensureCol (g : Rng K R) (nIn nOut i : Nat) : Nat → List (Wt K) → Int → R →
    Res ((List (Wt K) × Int) × R)
  | 0, _, _, _ => .error .hang
  | fuel + 1, ws, na, r =>
    let k := g.uniInt 0 (nOut : Int) r
    if k.1 < 0 then .error .ub
    else
      match ws[nIn * k.1.toNat + i]? with
      | none => .error .ub
      | some w =>
        if w.on then ensureCol g nIn nOut i fuel ws na k.2
        else
          let z := g.normal 0 (1 / 10) k.2
          .ok ((enableWt z.1 (nIn * k.1.toNat + i) ws, na + 1), z.2)

/-- The second loop of `layer_ensure_input_represention`, neural_layer.c:222-240, from input `i`
for `n` inputs. -/
def ensureCols (g : Rng K R) (fuel nIn nOut : Nat) : Nat → Nat → List (Wt K) → Int → R →
    Res ((List (Wt K) × Int) × R)
  | 0, _, ws, na, r => .ok ((ws, na), r)
  | n + 1, i, ws, na, r =>
    if ws.length < nIn * nOut then .error .ub
    else if colOn ws nIn nOut i then ensureCols g fuel nIn nOut n (i + 1) ws na r
    else
      match ensureCol g nIn nOut i fuel ws na r with
      | .error e => .error e
      | .ok ((ws, na), r) => ensureCols g fuel nIn nOut n (i + 1) ws na r

/-- `layer_ensure_input_represention`, neural_layer.c:203-241. -/
def ensureInput (g : Rng K R) (fuel : Nat) (l : CLay K) (r : R) : Res (CLay K × R) :=
  match ensureRows g l.nInputs l.nOutputs 0 l.ws l.nActive r with
  | .error e => .error e
  | .ok ((ws, na), r) =>
    match ensureCols g fuel l.nInputs l.nOutputs l.nInputs 0 ws na r with
    | .error e => .error e
    | .ok ((ws, na), r) => .ok ({ l with ws := ws, nActive := na }, r)

/-- The first loop of `layer_mutate_weights`, neural_layer.c:254-263. -/
def mutWtGo (g : Rng K R) (mu : K) : List (Wt K) → R → (List (Wt K) × Bool) × R
  | [], r => (([], false), r)
  | w :: ws, r =>
    if w.on then
      let z := g.normal 0 mu r
      let v := clampK (w.w + z.1) (-10) 10
      let rest := mutWtGo g mu ws z.2
      (({ w with w := v } :: rest.1.1, decide (v ≠ w.w) || rest.1.2), rest.2)
    else
      let rest := mutWtGo g mu ws r
      ((w :: rest.1.1, rest.1.2), rest.2)

/-- The second loop of `layer_mutate_weights`, neural_layer.c:264-271. -/
def mutBiasGo (g : Rng K R) (mu : K) : List (Neuron K) → R → (List (Neuron K) × Bool) × R
  | [], r => (([], false), r)
  | n :: ns, r =>
    let z := g.normal 0 mu r
    let v := clampK (n.bias + z.1) (-10) 10
    let rest := mutBiasGo g mu ns z.2
    (({ n with bias := v } :: rest.1.1, decide (v ≠ n.bias) || rest.1.2), rest.2)

/-- `layer_mutate_weights`, neural_layer.c:250-274. -/
def mutateWeights (g : Rng K R) (l : CLay K) (mu : K) (r : R) : (CLay K × Bool) × R :=
  let a := mutWtGo g mu l.ws r
  let b := mutBiasGo g mu l.ns a.2
  (({ l with ws := a.1.1, ns := b.1.1 }, a.1.2 || b.1.2), b.2)

/-- `layer_mutate_functions`, neural_layer.c:282-301, for a layer that is not an LSTM. -/
def mutateFn (g : Rng K R) (l : CLay K) (mu : K) (r : R) : (CLay K × Bool) × R :=
  let u := g.uni 0 1 r
  if u.1 < mu then
    let f := g.uniInt 0 11 u.2
    (({ l with fn := f.1 }, decide (f.1 ≠ l.fn)), f.2)
  else ((l, false), u.2)

/-- `layer_weight_rand`, neural_layer.c:346-358, and `neural_layer_connected_rand`,
neural_layer_connected.c:161-165. -/
def weightRand (g : Rng K R) (l : CLay K) (r : R) : CLay K × R :=
  let a := drawN (g.normal 0 1) l.ws.length r
  let b := drawN (g.normal 0 1) l.ns.length a.2
  ({ l with
      nActive := l.ws.length
      ws := List.zipWith (fun w z => { w with w := z, on := true }) l.ws a.1
      ns := List.zipWith (fun n z => { n with bias := z }) l.ns b.1 }, b.2)

/-- `layer_weight_clamp`, neural_layer.c:363-377. -/
def weightClamp (l : CLay K) : CLay K :=
  { l with
    ws := l.ws.map fun w => { w with w := if w.on then clampK w.w (-10) 10 else 0 }
    ns := l.ns.map fun n => { n with bias := clampK n.bias (-10) 10 } }

/-- `layer_init_eta`, neural_layer.c:397-406. -/
def initEta (g : Rng K R) (o : LOpt) (etaMin etaMax : K) (r : R) : K × R :=
  if o.eta then g.uni etaMin etaMax r else (etaMax, r)

/-- `MU_TYPE` of a connected layer, neural_layer_connected.c:35-42. -/
def connMu : List SamType := List.replicate 6 .rateSelect

/-- `neural_layer_connected_init`, neural_layer_connected.c:68-96, with `malloc_layer_arrays`,
48-62. -/
def connInit (g : Rng K R) (a : CArgs K) (r : R) : Res (CLay K × R) :=
  let e := initEta g a.opt a.etaMin a.eta r
  if overflows ((a.nInputs : Int) * (a.nInit : Int)) then .error .ub
  else match guardOutputs (a.nInit : Int) with
  | .error f => .error f
  | .ok _ =>
    match guardWeights ((a.nInputs : Int) * (a.nInit : Int)) with
    | .error f => .error f
    | .ok _ =>
      let z := drawN (g.normal 0 (1 / 10)) (a.nInputs * a.nInit) e.2
      match samInit g connMu z.2 with
      | .error f => .error f
      | .ok (mu, r) =>
        .ok ({ nInputs := a.nInputs, nOutputs := a.nInit, maxOutputs := a.nMax,
               maxGrow := a.maxGrow, nActive := ((a.nInputs * a.nInit : Nat) : Int),
               outW := a.nInit, outH := 1, outC := 1, fn := a.fn, opt := a.opt, eta := e.1,
               etaMax := a.eta, etaMin := a.etaMin, momentum := a.momentum, decay := a.decay,
               ws := z.1.map fun v => ⟨v, 0, true⟩,
               ns := List.replicate a.nInit ⟨0, 0, 0, 0, 0⟩, mu := mu }, r)

/-- `neural_layer_connected_copy`, neural_layer_connected.c:121-155: updates, states, outputs and
errors start from zero. -/
def connCopy (l : CLay K) : CLay K :=
  { l with
    ws := l.ws.map fun w => { w with upd := 0 }
    ns := l.ns.map fun n => ⟨n.bias, 0, 0, 0, 0⟩ }

/-- `neural_layer_connected_forward`, neural_layer_connected.c:172-186. -/
def connForward (m : Libm K) (l : CLay K) (input : List K) : Res (CLay K) :=
  if input.length < l.nInputs ∨ l.ws.length < l.nOutputs * l.nInputs ∨
      l.ns.length < l.nOutputs then .error .ub
  else
    let n := l.nOutputs
    let k := l.nInputs
    let c := gemm false true 1 n k 1 (arrOf input) k (arrOf (l.ws.map Wt.w)) k 1
      (arrOf (l.ns.map Neuron.bias)) n
    match activateArray m l.fn (ofArr n c) with
    | .error e => .error e
    | .ok (ss, os) =>
      .ok { l with ns := List.zipWith (fun (x : Neuron K) (so : K × K) =>
              { x with state := so.1, out := so.2 }) l.ns (List.zip ss os) }

/-- `neural_layer_connected_backward`, neural_layer_connected.c:194-218.  `delta` is the error of
the layer before, `none` for the first layer; the result has the layer and the new error. -/
def connBackward (m : Libm K) (l : CLay K) (input : List K) (delta : Option (List K)) :
    Res (CLay K × Option (List K)) :=
  if l.ws.length < l.nOutputs * l.nInputs ∨ l.ns.length ≠ l.nOutputs ∨
      input.length < l.nInputs then .error .ub
  else
    match gradientArray m l.fn (l.ns.map Neuron.state) (l.ns.map Neuron.delta) with
    | .error e => .error e
    | .ok ds =>
      let k := l.nOutputs
      let n := l.nInputs
      let ns := List.zipWith (fun (x : Neuron K) d => { x with delta := d }) l.ns ds
      let l : CLay K :=
        if l.opt.sgd then
          let bu := axpy k 1 (arrOf ds) 1 (arrOf (ns.map Neuron.bupd)) 0 1
          let wu := gemm true false k n 1 1 (arrOf ds) k (arrOf input) n 1
            (arrOf (l.ws.map Wt.upd)) n
          { l with
            ns := List.zipWith (fun (x : Neuron K) u => { x with bupd := u }) ns (ofArr k bu)
            ws := List.zipWith (fun (x : Wt K) u => { x with upd := u }) l.ws
              (ofArr l.ws.length wu) }
        else { l with ns := ns }
      match delta with
      | none => .ok (l, none)
      | some d =>
        if d.length < n then .error .ub
        else
          let c := gemm false false 1 n k 1 (arrOf ds) k (arrOf (l.ws.map Wt.w)) n 1 (arrOf d) n
          .ok (l, some (ofArr d.length c))

/-- `neural_layer_connected_update`, neural_layer_connected.c:223-238. -/
def connUpdate (l : CLay K) : CLay K :=
  if l.opt.sgd ∧ 0 < l.eta then
    let nb := l.ns.length
    let nw := l.ws.length
    let b := axpy nb l.eta (arrOf (l.ns.map Neuron.bupd)) 1 (arrOf (l.ns.map Neuron.bias)) 0 1
    let bu := scal nb l.momentum (arrOf (l.ns.map Neuron.bupd)) 1
    let w0 := arrOf (l.ws.map Wt.w)
    let u0 := arrOf (l.ws.map Wt.upd)
    let u1 := if 0 < l.decay then axpy nw (-l.decay) w0 1 u0 0 1 else u0
    let w := axpy nw l.eta u1 1 w0 0 1
    let u := scal nw l.momentum u1 1
    weightClamp { l with
      ns := List.zipWith (fun (x : Neuron K) (p : K × K) => { x with bias := p.1, bupd := p.2 })
        l.ns (List.zip (ofArr nb b) (ofArr nb bu))
      ws := List.zipWith (fun (x : Wt K) (p : K × K) => { x with w := p.1, upd := p.2 })
        l.ws (List.zip (ofArr nw w) (ofArr nw u)) }
  else l

/-- A connection added by `neural_layer_connected_resize`, neural_layer_connected.c:265-268. -/
def freshWt (g : Rng K R) (r : R) : Wt K × R :=
  let z := g.normal 0 (1 / 10) r
  (⟨z.1, 0, true⟩, z.2)

/-- The loops of `neural_layer_connected_resize`, neural_layer_connected.c:256-270, for `n`
neurons whose connections are at the start of `ws`. -/
def resizeRows (g : Rng K R) (nIn prev : Nat) : Nat → List (Wt K) → R → List (Wt K) × R
  | 0, _, r => ([], r)
  | n + 1, ws, r =>
    let fresh := drawN (freshWt g) (prev - nIn) r
    let rest := resizeRows g nIn prev n (ws.drop nIn) fresh.2
    (ws.take (min nIn prev) ++ fresh.1 ++ rest.1, rest.2)

/-- `neural_layer_connected_resize`, neural_layer_connected.c:244-284; `prev` is the number of
outputs of the layer before. -/
def connResize (g : Rng K R) (fuel : Nat) (l : CLay K) (prev : Nat) (r : R) :
    Res (CLay K × R) :=
  if overflows ((prev : Int) * (l.nOutputs : Int)) then .error .ub
  else match guardWeights ((prev : Int) * (l.nOutputs : Int)) with
  | .error e => .error e
  | .ok _ =>
    if l.ws.length < l.nOutputs * l.nInputs then .error .ub
    else
      let a := resizeRows g l.nInputs prev l.nOutputs l.ws r
      let l := { l with ws := a.1, nInputs := prev, nActive := calcActive a.1 }
      if l.opt.connect then ensureInput g fuel l a.2 else .ok (l, a.2)

/-- The neuron step of `neural_layer_connected_mutate`, neural_layer_connected.c:298-304. -/
def connMutNeurons (g : Rng K R) (fuel : Nat) (l : CLay K) (mu : K) (r : R) :
    Res ((CLay K × Bool) × R) :=
  if l.opt.neurons then
    match mutateNeurons g fuel l mu r with
    | .error e => .error e
    | .ok (n, r) =>
      if n = 0 then .ok ((l, false), r)
      else
        match addNeurons g l n r with
        | .error e => .error e
        | .ok (l, r) => .ok ((l, true), r)
  else .ok ((l, false), r)

/-- The connectivity step of `neural_layer_connected_mutate`,
neural_layer_connected.c:305-309. -/
def connMutConn (g : Rng K R) (fuel : Nat) (l : CLay K) (muE muD : K) (r : R) :
    Res ((CLay K × Bool) × R) :=
  if l.opt.connect then
    let c := mutateConn g l muE muD r
    if c.1.2 then
      match ensureInput g fuel c.1.1 c.2 with
      | .error e => .error e
      | .ok (l, r) => .ok ((l, true), r)
    else .ok ((c.1.1, false), c.2)
  else .ok ((l, false), r)

/-- The gradient descent step of `neural_layer_connected_mutate`,
neural_layer_connected.c:295-297. -/
def connMutEta (g : Rng K R) (l : CLay K) (mu : K) (r : R) : (CLay K × Bool) × R :=
  if l.opt.eta then mutateEta g l mu r else ((l, false), r)

/-- The weight step of `neural_layer_connected_mutate`, neural_layer_connected.c:310-313. -/
def connMutWeights (g : Rng K R) (l : CLay K) (mu : K) (r : R) : (CLay K × Bool) × R :=
  if l.opt.weights then mutateWeights g l mu r else ((l, false), r)

/-- The function step of `neural_layer_connected_mutate`, neural_layer_connected.c:314-317. -/
def connMutFn (g : Rng K R) (l : CLay K) (mu : K) (r : R) : (CLay K × Bool) × R :=
  if l.opt.functions then mutateFn g l mu r else ((l, false), r)

/-- `neural_layer_connected_mutate`, neural_layer_connected.c:290-320. -/
def connMutate (g : Rng K R) (fuel : Nat) (l : CLay K) (r : R) : Res ((CLay K × Bool) × R) :=
  match samAdapt g (List.zip connMu l.mu) r with
  | .error e => .error e
  | .ok ([m0, m1, m2, m3, m4, m5], r) =>
    let a := connMutEta g { l with mu := [m0, m1, m2, m3, m4, m5] } m0 r
    match connMutNeurons g fuel a.1.1 m1 a.2 with
    | .error e => .error e
    | .ok ((l, b1), r) =>
      match connMutConn g fuel l m2 m3 r with
      | .error e => .error e
      | .ok ((l, b2), r) =>
        let c := connMutWeights g l m4 r
        let d := connMutFn g c.1.1 m5 c.2
        .ok ((d.1.1, a.1.2 || b1 || b2 || c.1.2 || d.1.2), d.2)
  | .ok _ => .error .ub

end
end Xcsf
