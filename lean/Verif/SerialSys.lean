import Verif.Serial
import Verif.Pred

/-!
# Saving and loading rules, parameters and the whole system
-/

namespace Xcsf

section
variable {K R : Type} [Field K] [LinearOrder K] [IsStrictOrderedRing K] [FloorRing K]

/-! ## Conditions, actions and predictions -/

/-- `graph_save`, dgp.c:563-580. -/
def graphSave (d : Graph K) : List (Item K) :=
  [.bool d.evolve, .int d.nInputs, .int d.n, .int d.t, .int d.klen, .int d.maxT, .int d.maxK] ++
    d.state.map .dbl ++ d.initial.map .dbl ++ d.func.map .int ++ d.conn.map .int ++ d.mu.map .dbl

/-- `graph_load`, dgp.c:588-621. -/
def graphLoad : Rd K (Graph K) := do
  let evolve ← newBool
  let nInputs ← newNat
  let n ← newInt
  let t ← newInt
  let klen ← newInt
  let maxT ← newNat
  let maxK ← newNat
  Rd.lift (if n < 1 ∨ klen < 1 then .error .exit else .ok ())
  let state ← getArr newDbl n.toNat
  let initial ← getArr newDbl n.toNat
  let func ← getArr newInt n.toNat
  let conn ← getArr newInt klen.toNat
  let mu ← getArr newDbl 3
  .ret {
    evolve := evolve, nInputs := nInputs, n := n.toNat, t := t, klen := klen.toNat, maxT := maxT,
    maxK := maxK, state := state, initial := initial, func := func, conn := conn, mu := mu }

/-- `tree_save`, gp.c:383-392. -/
def treeSave (t : GpTree K) : List (Item K) :=
  [.int t.pos, .int t.tree.length] ++ t.tree.map .int ++ [.dbl t.mu]

/-- `tree_load`, gp.c:400-416. -/
def treeLoad : Rd K (GpTree K) := do
  let pos ← newNat
  let len ← newInt
  Rd.lift (if len < 1 then .error .exit else .ok ())
  let tree ← getArr newInt len.toNat
  let mu ← newDbl
  .ret { tree := tree, pos := pos, mu := mu }

/-- `cond_rectangle_save`, cond_rectangle.c:319-329, and `cond_ellipsoid_save`,
cond_ellipsoid.c:302-312. -/
def boxSave (b : Box K) : List (Item K) :=
  (b.genes.map fun g => .dbl g.1) ++ (b.genes.map fun g => .dbl g.2) ++ [.dbl b.mu]

/-- `cond_rectangle_load`, cond_rectangle.c:337-351, and `cond_ellipsoid_load`,
cond_ellipsoid.c:320-334. -/
def boxLoad (xDim : Nat) : Rd K (Box K) := do
  let a ← getArr newDbl xDim
  let b ← getArr newDbl xDim
  let mu ← newDbl
  .ret { genes := a.zip b, mu := mu }

/-- `cond_ternary_save`, cond_ternary.c:292-302. -/
def ternSave (t : Tern K) : List (Item K) :=
  .int t.string.length :: t.string.map .chr ++ [.dbl t.mu]

/-- `cond_ternary_load`, cond_ternary.c:311-330: the length of a new condition is zero. -/
def ternLoad : Rd K (Tern K) := do
  let n ← getInt 0
  Rd.lift (if n < 1 then .error .exit else .ok ())
  let s ← getArr newChr n.toNat
  let mu ← newDbl
  .ret { string := s, mu := mu }

/-- `cond_save` through the table of functions of the condition: cond_dummy.c, cond_rectangle.c,
cond_ellipsoid.c, cond_neural.c:212-220, cond_gp.c:210-218, cond_dgp.c:206-214, cond_ternary.c,
rule_dgp.c:136-143, rule_neural.c:145-152. -/
def condSave : FCond K → List (Item K)
  | .dummy => []
  | .rect b => boxSave b
  | .ell b => boxSave b
  | .neural n => netSave n
  | .gp t => treeSave t
  | .dgp g => graphSave g
  | .tern t => ternSave t
  | .ruleDgp g _ => graphSave g
  | .ruleNeural n => netSave n

/-- `cond_load` after `condition_set`, condition.c:38-78: cond_neural.c:228-236, cond_gp.c:226-234,
cond_dgp.c:222-230, rule_dgp.c:145-153, rule_neural.c:154-162. -/
def condLoad (p : SysPar K) : Rd K (FCond K) :=
  let t := p.cond.type
  if t = 0 then .ret .dummy
  else if t = 1 ∨ t = 2 then do let b ← boxLoad p.xDim.toNat; .ret (.rect b)
  else if t = 3 then do let b ← boxLoad p.xDim.toNat; .ret (.ell b)
  else if t = 4 then do let n ← netLoad; .ret (.neural n)
  else if t = 5 then do let t ← treeLoad; .ret (.gp t)
  else if t = 6 then do let g ← graphLoad; .ret (.dgp g)
  else if t = 7 then do let t ← ternLoad; .ret (.tern t)
  else if t = 11 then do let g ← graphLoad; .ret (.ruleDgp g (actionBits p.nActions.toNat))
  else if t = 12 then do let n ← netLoad; .ret (.ruleNeural n)
  else .fail .exit

/-- `act_save`: act_integer.c:212-221, act_neural.c:200-208; the actions of rule types save nothing,
rule_dgp.c:245-252, rule_neural.c:243-250. -/
def actSave : FAct K → List (Item K)
  | .int a => [.int a.action, .dbl a.mu]
  | .neural n => netSave n
  | .none => []

/-- The type of the rule has a condition and an action in one, condition.c:67-74. -/
def ruleType (t : Int) : Prop := t = 11 ∨ t = 12

instance (t : Int) : Decidable (ruleType t) := by unfold ruleType; infer_instance

/-- `act_load` after `action_set`, action.c:36-49, and `condition_set`: act_integer.c:230-240,
act_neural.c:216-224. -/
def actLoad (p : SysPar K) : Rd K (FAct K) :=
  if ruleType p.cond.type then .ret .none
  else if p.act.type = 0 then do
    let a ← newInt
    let mu ← newDbl
    .ret (.int ⟨a, mu⟩)
  else do
    let n ← netLoad
    .ret (.neural n)

/-- The length of the weights per output, pred_nlms.c:49-54 and pred_rls.c:39-44. -/
def fileFeatures (p : SysPar K) : Int :=
  if p.pred.type = 2 ∨ p.pred.type = 4 then
    1 + 2 * p.xDim + (p.xDim * (p.xDim - 1)).tdiv 2
  else p.xDim + 1

/-- `pred_save`: pred_constant.c saves nothing, pred_nlms.c:223-235, pred_rls.c:235-247,
pred_neural.c:183-191. -/
def predSave : FPred K → List (Item K)
  | .const => []
  | .nlms p => [.int p.n, .int p.weights.length] ++ p.weights.map .dbl ++ [.dbl p.mu, .dbl p.eta]
  | .rls p => [.int p.n, .int p.weights.length] ++ p.weights.map .dbl ++ p.matrix.map .dbl
  | .neural n => netSave n

/-- What `pred_nlms_init` draws, pred_nlms.c:61-63; the values are overwritten by `fread`. -/
def nlmsDraws (g : Rng K R) (p : SysPar K) (r : R) : R :=
  if p.pred.evolveEta then (g.uni p.pred.etaMin p.pred.eta (g.uni muEps 1 r).2).2 else r

/-- `pred_nlms_load`, pred_nlms.c:244-256.  The arrays are those of `pred_nlms_init`: undefined if the
file holds another number of weights. -/
def nlmsLoad (p : SysPar K) : Rd K (FPred K) := do
  let n ← newInt
  let nw ← newInt
  agree nw (fileFeatures p * p.yDim)
  let w ← getArr newDbl nw.toNat
  let mu ← newDbl
  let eta ← newDbl
  .ret (.nlms ⟨n, w, mu, eta⟩)

/-- `pred_rls_load`, pred_rls.c:256-268.  The arrays are those of `pred_rls_init`. -/
def rlsLoad (p : SysPar K) : Rd K (FPred K) := do
  let n ← newInt
  let nw ← newInt
  agree nw (fileFeatures p * p.yDim)
  let w ← getArr newDbl nw.toNat
  agree n (fileFeatures p)
  let m ← getArr newDbl (n * n).toNat
  .ret (.rls ⟨n, w, m⟩)

/-- `pred_load` after `prediction_set`, prediction.c:35-57; pred_neural.c:199-207. -/
def predLoad (g : Rng K R) (p : SysPar K) (r : R) : Rd K (FPred K × R) :=
  let t := p.pred.type
  if t = 0 then .ret (.const, r)
  else if t = 1 ∨ t = 2 then do let q ← nlmsLoad p; .ret (q, nlmsDraws g p r)
  else if t = 3 ∨ t = 4 then do let q ← rlsLoad p; .ret (q, r)
  else do let n ← netLoad; .ret (.neural n, r)

/-- The numbers a rule is loaded with need the type codes to be known: `action_set`,
`prediction_set`, `condition_set`. -/
def typesOk (p : SysPar K) : Prop :=
  (p.act.type = 0 ∨ p.act.type = 1) ∧ (0 ≤ p.pred.type ∧ p.pred.type ≤ 5) ∧
    ((0 ≤ p.cond.type ∧ p.cond.type ≤ 7) ∨ ruleType p.cond.type)

instance (p : SysPar K) : Decidable (typesOk p) := by unfold typesOk; infer_instance

/-! ## Classifiers and the population -/

/-- `cl_save`, cl.c:424-442. -/
def clSave (c : Cl K (Body K)) : List (Item K) :=
  [.dbl c.err, .dbl c.fit, .int c.num, .int c.exp, .dbl c.size, .int c.time, .bool c.m, .int c.age,
    .int c.mtotal] ++ c.prediction.map .dbl ++ [.int c.action] ++
  actSave c.body.act ++ predSave c.body.pred ++ condSave c.body.cond

/-- `cl_load`, cl.c:452-474. -/
def clLoad (g : Rng K R) (p : SysPar K) (r : R) : Rd K (Cl K (Body K) × R) := do
  let err ← newDbl
  let fit ← newDbl
  let num ← newInt
  let exp ← newInt
  let size ← newDbl
  let time ← newInt
  let m ← newBool
  let age ← newInt
  let mtotal ← newInt
  let prediction ← getArr newDbl p.yDim.toNat
  let action ← newInt
  Rd.lift (if typesOk p then .ok () else .error .exit)
  let act ← actLoad p
  let (pred, r) ← predLoad g p r
  let cond ← condLoad p
  .ret ({
    err := err, fit := fit, num := num, exp := exp, size := size, time := time, m := m,
    prediction := prediction, action := action, age := age, mtotal := mtotal,
    body := ⟨cond, act, pred⟩ }, r)

/-- `clset_pset_save`, clset.c:610-621. -/
def psetSave (rules : List (Cl K (Body K))) (size num : Int) : List (Item K) :=
  [.int size, .int num] ++ rules.flatMap clSave

/-- The loop of `clset_pset_load`, clset.c:657-661: `clset_add` (clset.c:423-437) puts a rule in front
of the list and counts it. -/
def psetLoop (g : Rng K R) (p : SysPar K) :
    Nat → List (Cl K (Body K)) × Int × Int → R → Rd K ((List (Cl K (Body K)) × Int × Int) × R)
  | 0, s, r => .ret (s, r)
  | n + 1, s, r => do
    let (c, r) ← clLoad g p r
    psetLoop g p n (c :: s.1, s.2.1 + 1, s.2.2 + c.num) r

/-- `clset_pset_load`, clset.c:649-664: the list is reversed at the end, `num` is not used. -/
def psetLoad (g : Rng K R) (p : SysPar K) (r : R) :
    Rd K ((List (Cl K (Body K)) × Int × Int) × R) := do
  let size ← getInt 0
  let _ ← getInt 0
  let (s, r) ← psetLoop g p size.toNat ([], 0, 0) r
  .ret ((s.1.reverse, s.2), r)

/-! ## Parameters -/

/-- `layer_args_init`, neural_layer_args.c:41-69. -/
def LArg.zero : LArg K :=
  { type := 0, nInputs := 0, nInit := 0, nMax := 0, maxGrow := 0, fn := 0, rfn := 0, height := 0,
    width := 0, channels := 0, size := 0, stride := 0, pad := 0, eta := 0, etaMin := 0,
    momentum := 0, decay := 0, probability := 0, scale := 0, evolveWeights := false,
    evolveNeurons := false, evolveFunctions := false, evolveEta := false, evolveConnect := false,
    sgdWeights := false }

/-- The elements of one layer in `layer_args_save`, neural_layer_args.c:597-621. -/
def largSave (a : LArg K) : List (Item K) :=
  [.int a.type, .int a.nInputs, .int a.nInit, .int a.nMax, .int a.maxGrow, .int a.fn, .int a.rfn,
    .int a.height, .int a.width, .int a.channels, .int a.size, .int a.stride, .int a.pad,
    .dbl a.eta, .dbl a.etaMin, .dbl a.momentum, .dbl a.decay, .dbl a.probability, .dbl a.scale,
    .bool a.evolveWeights, .bool a.evolveNeurons, .bool a.evolveFunctions, .bool a.evolveEta,
    .bool a.evolveConnect, .bool a.sgdWeights]

/-- One round of `layer_args_load`, neural_layer_args.c:640-667. -/
def largLoad : Rd K (LArg K) := do
  let z : LArg K := LArg.zero
  let type ← getInt z.type
  let nInputs ← getInt z.nInputs
  let nInit ← getInt z.nInit
  let nMax ← getInt z.nMax
  let maxGrow ← getInt z.maxGrow
  let fn ← getInt z.fn
  let rfn ← getInt z.rfn
  let height ← getInt z.height
  let width ← getInt z.width
  let channels ← getInt z.channels
  let size ← getInt z.size
  let stride ← getInt z.stride
  let pad ← getInt z.pad
  let eta ← getDbl z.eta
  let etaMin ← getDbl z.etaMin
  let momentum ← getDbl z.momentum
  let decay ← getDbl z.decay
  let probability ← getDbl z.probability
  let scale ← getDbl z.scale
  let evolveWeights ← getBool z.evolveWeights
  let evolveNeurons ← getBool z.evolveNeurons
  let evolveFunctions ← getBool z.evolveFunctions
  let evolveEta ← getBool z.evolveEta
  let evolveConnect ← getBool z.evolveConnect
  let sgdWeights ← getBool z.sgdWeights
  .ret {
    type := type, nInputs := nInputs, nInit := nInit, nMax := nMax, maxGrow := maxGrow, fn := fn,
    rfn := rfn, height := height, width := width, channels := channels, size := size,
    stride := stride, pad := pad, eta := eta, etaMin := etaMin, momentum := momentum,
    decay := decay, probability := probability, scale := scale, evolveWeights := evolveWeights,
    evolveNeurons := evolveNeurons, evolveFunctions := evolveFunctions, evolveEta := evolveEta,
    evolveConnect := evolveConnect, sgdWeights := sgdWeights }

/-- `layer_args_save`, neural_layer_args.c:589-625. -/
def largsSave (as : List (LArg K)) : List (Item K) := .int as.length :: as.flatMap largSave

/-- `layer_args_load`, neural_layer_args.c:633-680: the old list is dropped. -/
def largsLoad : Rd K (List (LArg K)) := do
  let n ← getInt 0
  getArr largLoad n.toNat

/-- `graph_args_save`, dgp.c:687-697. -/
def graphParSave (a : GraphPar) : List (Item K) :=
  [.bool a.evolve, .int a.maxK, .int a.maxT, .int a.n, .int a.nInputs]

/-- `graph_args_load`, dgp.c:705-715. -/
def graphParLoad (o : GraphPar) : Rd K GraphPar := do
  let evolve ← getBool o.evolve
  let maxK ← getInt o.maxK
  let maxT ← getInt o.maxT
  let n ← getInt o.n
  let nInputs ← getInt o.nInputs
  .ret ⟨evolve, maxK, maxT, n, nInputs⟩

/-- `tree_args_save`, gp.c:501-513. -/
def treeParSave (a : TreePar K) : List (Item K) :=
  [.dbl a.max, .dbl a.min, .int a.nInputs, .int a.nConstants, .int a.initDepth, .int a.maxLen] ++
    (a.constants.take a.nConstants.toNat).map .dbl

/-- `fread` of `n` elements into an array that is there: elements beyond its end are written outside
of it. -/
def getInto : List K → Nat → Rd K (List K)
  | bs, 0 => .ret bs
  | [], _ + 1 => .dbl fun v =>
    match v with
    | some _ => .fail .ub
    | none => .ret []
  | b :: bs, n + 1 => do
    let v ← getDbl b
    let r ← getInto bs n
    .ret (v :: r)

/-- `tree_args_load`, gp.c:521-533: the constants are read into the old array, whatever its size.  A
negative number of constants is converted to a huge one. -/
def treeParLoad (o : TreePar K) : Rd K (TreePar K) := do
  let max ← getDbl o.max
  let min ← getDbl o.min
  let nInputs ← getInt o.nInputs
  let nConstants ← getInt o.nConstants
  let initDepth ← getInt o.initDepth
  let maxLen ← getInt o.maxLen
  Rd.lift (if nConstants < 0 then .error .ub else .ok ())
  let constants ← getInto o.constants nConstants.toNat
  .ret ⟨max, min, nInputs, nConstants, initDepth, maxLen, constants⟩

/-- `ea_param_save`, ea.c:332-346. -/
def eaParSave (a : EaFile K) : List (Item K) :=
  [.int a.selectType, .dbl a.selectSize, .dbl a.theta, .int a.lambda, .dbl a.pCrossover,
    .dbl a.errReduc, .dbl a.fitReduc, .bool a.subsumption, .bool a.predReset]

/-- `ea_param_load`, ea.c:354-368. -/
def eaParLoad (o : EaFile K) : Rd K (EaFile K) := do
  let selectType ← getInt o.selectType
  let selectSize ← getDbl o.selectSize
  let theta ← getDbl o.theta
  let lambda ← getInt o.lambda
  let pCrossover ← getDbl o.pCrossover
  let errReduc ← getDbl o.errReduc
  let fitReduc ← getDbl o.fitReduc
  let subsumption ← getBool o.subsumption
  let predReset ← getBool o.predReset
  .ret ⟨selectType, selectSize, theta, lambda, pCrossover, errReduc, fitReduc, subsumption,
    predReset⟩

/-- `action_param_save`, action.c:154-162. -/
def actParSave (a : ActFile K) : List (Item K) := .int a.type :: largsSave a.largs

/-- `action_param_load`, action.c:170-178. -/
def actParLoad (o : ActFile K) : Rd K (ActFile K) := do
  let type ← getInt o.type
  let largs ← largsLoad
  .ret ⟨type, largs⟩

/-- `cond_param_save`, condition.c:318-334. -/
def condParSave (a : CondFile K) : List (Item K) :=
  [.int a.type, .dbl a.eta, .dbl a.min, .dbl a.max, .dbl a.spreadMin, .dbl a.pDontcare,
    .int a.bits] ++ graphParSave a.dargs ++ treeParSave a.targs ++ largsSave a.largs

/-- `cond_param_load`, condition.c:342-358. -/
def condParLoad (o : CondFile K) : Rd K (CondFile K) := do
  let type ← getInt o.type
  let eta ← getDbl o.eta
  let min ← getDbl o.min
  let max ← getDbl o.max
  let spreadMin ← getDbl o.spreadMin
  let pDontcare ← getDbl o.pDontcare
  let bits ← getInt o.bits
  let dargs ← graphParLoad o.dargs
  let targs ← treeParLoad o.targs
  let largs ← largsLoad
  .ret ⟨type, eta, min, max, spreadMin, pDontcare, bits, dargs, targs, largs⟩

/-- `pred_param_save`, prediction.c:209-223. -/
def predParSave (a : PredFile K) : List (Item K) :=
  [.int a.type, .dbl a.eta, .dbl a.etaMin, .dbl a.lambda, .dbl a.scaleFactor, .dbl a.x0,
    .bool a.evolveEta] ++ largsSave a.largs

/-- `pred_param_load`, prediction.c:231-245. -/
def predParLoad (o : PredFile K) : Rd K (PredFile K) := do
  let type ← getInt o.type
  let eta ← getDbl o.eta
  let etaMin ← getDbl o.etaMin
  let lambda ← getDbl o.lambda
  let scaleFactor ← getDbl o.scaleFactor
  let x0 ← getDbl o.x0
  let evolveEta ← getBool o.evolveEta
  let largs ← largsLoad
  .ret ⟨type, eta, etaMin, lambda, scaleFactor, x0, evolveEta, largs⟩

/-- `strnlen(population_file, MAX_LEN)`, param.c:499; `MAX_LEN` is 512, param.c:35. -/
def nameLen (b : List Char) : Nat := min 512 (b.takeWhile (fun c => c ≠ '\x00')).length

/-- `param_save`, param.c:494-540. -/
def parSave (p : SysPar K) : List (Item K) :=
  .size (nameLen p.popFile + 1) :: (p.popFile.take (nameLen p.popFile + 1)).map .chr ++
  [.int p.time, .dbl p.error, .dbl p.msetSize, .dbl p.asetSize, .dbl p.mfrac, .bool p.explore,
    .int p.xDim, .int p.yDim, .int p.nActions, .int p.ompNumThreads, .int p.randomState,
    .bool p.popInit, .int p.maxTrials, .int p.perfTrials, .int p.popSize, .int p.lossFunc,
    .dbl p.huberDelta, .dbl p.gamma, .int p.teletransportation, .dbl p.pExplore,
    .bool p.setSubsumption, .int p.thetaSub, .dbl p.e0, .dbl p.alpha, .dbl p.nu, .dbl p.beta,
    .dbl p.delta, .int p.thetaDel, .dbl p.initFitness, .dbl p.initError, .int p.mProbation,
    .bool p.stateful, .bool p.compaction] ++
  eaParSave p.ea ++ actParSave p.act ++ condParSave p.cond ++ predParSave p.pred

/-- `param_load`, param.c:548-612: at the end of the file a parameter keeps the value it has. -/
def parLoad (o : SysPar K) : Rd K (SysPar K) := do
  let len ← getSize 0
  Rd.lift (if len < 1 then .error .exit else .ok ())
  let popFile ← getArr newChr len
  let time ← getInt o.time
  let error ← getDbl o.error
  let msetSize ← getDbl o.msetSize
  let asetSize ← getDbl o.asetSize
  let mfrac ← getDbl o.mfrac
  let explore ← getBool o.explore
  let xDim ← getInt o.xDim
  let yDim ← getInt o.yDim
  let nActions ← getInt o.nActions
  Rd.lift (if xDim < 1 ∨ yDim < 1 ∨ nActions < 1 then .error .exit else .ok ())
  let ompNumThreads ← getInt o.ompNumThreads
  let randomState ← getInt o.randomState
  let popInit ← getBool o.popInit
  let maxTrials ← getInt o.maxTrials
  let perfTrials ← getInt o.perfTrials
  let popSize ← getInt o.popSize
  let lossFunc ← getInt o.lossFunc
  let huberDelta ← getDbl o.huberDelta
  let gamma ← getDbl o.gamma
  let teletransportation ← getInt o.teletransportation
  let pExplore ← getDbl o.pExplore
  let setSubsumption ← getBool o.setSubsumption
  let thetaSub ← getInt o.thetaSub
  let e0 ← getDbl o.e0
  let alpha ← getDbl o.alpha
  let nu ← getDbl o.nu
  let beta ← getDbl o.beta
  let delta ← getDbl o.delta
  let thetaDel ← getInt o.thetaDel
  let initFitness ← getDbl o.initFitness
  let initError ← getDbl o.initError
  let mProbation ← getInt o.mProbation
  let stateful ← getBool o.stateful
  let compaction ← getBool o.compaction
  let ea ← eaParLoad o.ea
  let act ← actParLoad o.act
  let cond ← condParLoad o.cond
  let pred ← predParLoad o.pred
  .ret {
    popFile := popFile, time := time, error := error, msetSize := msetSize, asetSize := asetSize,
    mfrac := mfrac, explore := explore, xDim := xDim, yDim := yDim, nActions := nActions,
    ompNumThreads := ompNumThreads, randomState := randomState, popInit := popInit,
    maxTrials := maxTrials, perfTrials := perfTrials, popSize := popSize, lossFunc := lossFunc,
    huberDelta := huberDelta, gamma := gamma, teletransportation := teletransportation,
    pExplore := pExplore, setSubsumption := setSubsumption, thetaSub := thetaSub, e0 := e0,
    alpha := alpha, nu := nu, beta := beta, delta := delta, thetaDel := thetaDel,
    initFitness := initFitness, initError := initError, mProbation := mProbation,
    stateful := stateful, compaction := compaction, ea := ea, act := act, cond := cond,
    pred := pred }

/-! ## The system -/

/-- `VERSION_MAJOR`, `VERSION_MINOR` and `VERSION_BUILD`, xcsf.h:38-40. -/
abbrev versionMajor : Int := 1
@[inherit_doc versionMajor] abbrev versionMinor : Int := 4
@[inherit_doc versionMajor] abbrev versionBuild : Int := 7

/-- The elements `xcsf_save` writes, xcsf.c:88-104. -/
def sysItems (s : Sys K R) : List (Item K) :=
  [.int versionMajor, .int versionMinor, .int versionBuild] ++ parSave s.par ++
    psetSave s.rules s.size s.num

/-- `xcsf_save`, xcsf.c:88-104: the bytes of the file and the number of elements written. -/
def sysSave (c : Codec K) (s : Sys K R) : List UInt8 × Nat :=
  (encodeItems c (sysItems s), (sysItems s).length)

/-- `xcsf_load` after the file has been opened, xcsf.c:123-142.  The old population is freed before,
117-120; nothing else of the system is changed. -/
def sysRead (g : Rng K R) (s : Sys K R) : Rd K (Sys K R) := do
  let major ← getInt 0
  let minor ← getInt 0
  let _ ← getInt 0
  Rd.lift (if major ≠ versionMajor ∨ minor ≠ versionMinor then .error .exit else .ok ())
  let par ← parLoad s.par
  let (q, r) ← psetLoad g par s.rng
  .ret { s with
    par := par, rules := q.1, size := q.2.1, num := q.2.2, rng := r }

/-- `xcsf_load`, xcsf.c:112-143: the new state, the bytes that have not been read and the number of
elements read; `none` is a file that cannot be opened. -/
def sysLoad (c : Codec K) (g : Rng K R) (s : Sys K R) :
    Option (List UInt8) → Res (Sys K R × List UInt8 × Nat)
  | none => .error .exit
  | some bs => (sysRead g s).runB c bs 0

end

end Xcsf
