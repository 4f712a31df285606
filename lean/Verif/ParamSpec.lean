import Verif.ParamJson
import Verif.JsonLemmas

/-!
# Specification of valid parameters
-/

namespace Xcsf

section
variable {K R : Type} [Field K] [LinearOrder K] [IsStrictOrderedRing K] [FloorRing K]

/-- A rate or probability. -/
def UnitK (v : K) : Prop := 0 ≤ v ∧ v ≤ 1

/-- Documented ranges of the evolutionary algorithm. -/
structure EaFile.Valid (p : EaFile K) : Prop where
  selectType : p.selectType = 0 ∨ p.selectType = 1
  selectSize : UnitK p.selectSize
  theta : 0 ≤ p.theta
  lambda : 2 ≤ p.lambda
  pCrossover : UnitK p.pCrossover
  errReduc : UnitK p.errReduc
  fitReduc : UnitK p.fitReduc

/-- Documented ranges of conditions, trees and graphs. -/
structure CondFile.Valid (c : CondFile K) : Prop where
  type : ∃ s, nameOf condNames c.type = .ok s
  eta : UnitK c.eta
  spreadMin : 0 ≤ c.spreadMin
  pDontcare : UnitK c.pDontcare
  bits : 1 ≤ c.bits
  maxK : 1 ≤ c.dargs.maxK
  maxT : 1 ≤ c.dargs.maxT
  n : 1 ≤ c.dargs.n
  nConstants : 1 ≤ c.targs.nConstants
  initDepth : 1 ≤ c.targs.initDepth
  maxLen : 1 ≤ c.targs.maxLen
  constants : (c.targs.constants.length : Int) = c.targs.nConstants

/-- Documented ranges of predictions. -/
structure PredFile.Valid (p : PredFile K) : Prop where
  type : ∃ s, nameOf predNames p.type = .ok s
  eta : UnitK p.eta
  etaMin : UnitK p.etaMin

/-- Documented ranges of all parameters other than those of layers. -/
structure SysPar.Valid (p : SysPar K) : Prop where
  xDim : 1 ≤ p.xDim
  yDim : 1 ≤ p.yDim
  nActions : 1 ≤ p.nActions
  ompNumThreads : 1 ≤ p.ompNumThreads ∧ p.ompNumThreads ≤ 1000
  maxTrials : 1 ≤ p.maxTrials
  perfTrials : 1 ≤ p.perfTrials
  popSize : 1 ≤ p.popSize
  lossFunc : ∃ s, nameOf lossNames p.lossFunc = .ok s
  huberDelta : 0 ≤ p.huberDelta
  gamma : UnitK p.gamma
  teletransportation : 1 ≤ p.teletransportation
  pExplore : UnitK p.pExplore
  thetaSub : 0 ≤ p.thetaSub
  e0 : 0 ≤ p.e0
  alpha : UnitK p.alpha
  nu : 0 ≤ p.nu
  beta : UnitK p.beta
  delta : UnitK p.delta
  thetaDel : 0 ≤ p.thetaDel
  initFitness : 0 ≤ p.initFitness
  initError : 0 ≤ p.initError
  mProbation : 0 ≤ p.mProbation
  ea : p.ea.Valid
  actType : p.act.type = 0 ∨ p.act.type = 1
  cond : p.cond.Valid
  pred : p.pred.Valid

/-- The integers other than those of layers are `int`s: always so in C. -/
structure SysPar.Ints (p : SysPar K) : Prop where
  xDim : IsInt p.xDim
  yDim : IsInt p.yDim
  nActions : IsInt p.nActions
  ompNumThreads : IsInt p.ompNumThreads
  randomState : IsInt p.randomState
  maxTrials : IsInt p.maxTrials
  perfTrials : IsInt p.perfTrials
  popSize : IsInt p.popSize
  teletransportation : IsInt p.teletransportation
  thetaSub : IsInt p.thetaSub
  thetaDel : IsInt p.thetaDel
  mProbation : IsInt p.mProbation
  lambda : IsInt p.ea.lambda
  bits : IsInt p.cond.bits
  maxK : IsInt p.cond.dargs.maxK
  maxT : IsInt p.cond.dargs.maxT
  n : IsInt p.cond.dargs.n
  nConstants : IsInt p.cond.targs.nConstants
  initDepth : IsInt p.cond.targs.initDepth
  maxLen : IsInt p.cond.targs.maxLen

/-- A layer whose description survives a report: if it is to evolve its number of neurons then it
is not a layer for averages or up-sampling, and its limits are consistent (for dropout, noise,
softmax and maximum layers this is not reported); no size is negative. -/
structure LArg.Plain (a : LArg K) : Prop where
  evolves : a.evolveNeurons = true → a.type ≠ 1 → a.type ≠ 2 → a.type ≠ 3 → a.type ≠ 6 →
    1 ≤ a.maxGrow ∧ 1 ≤ a.nInit ∧ a.nInit ≤ a.nMax ∧ a.type ≠ 8 ∧ a.type ≠ 9
  size : 0 ≤ a.size
  stride : 0 ≤ a.stride
  pad : 0 ≤ a.pad

/-- The first layer fits to the problem: a layer for images has an image, a dropout or noise layer
has a flat input of the size of the problem, and the others have the number of inputs of the
problem. -/
structure LArg.First (x : Int) (a : LArg K) : Prop where
  image : receivesImages a.type = true → 1 ≤ a.height ∧ 1 ≤ a.width ∧ 1 ≤ a.channels
  other : receivesImages a.type = false → a.nInputs = x
  flat : a.type = 1 ∨ a.type = 2 → a.channels = 1 ∧ a.height = 1 ∧ a.width = x

/-- The integers of a layer are `int`s: always so in C. -/
structure LArg.Ints (a : LArg K) : Prop where
  nInputs : IsInt a.nInputs
  nInit : IsInt a.nInit
  nMax : IsInt a.nMax
  maxGrow : IsInt a.maxGrow
  height : IsInt a.height
  width : IsInt a.width
  channels : IsInt a.channels
  size : IsInt a.size
  stride : IsInt a.stride
  pad : IsInt a.pad

/-- Layers whose description survives a report. -/
def LayersPlain (x : Int) (as : List (LArg K)) : Prop :=
  (∀ a ∈ as, a.Plain ∧ a.Ints) ∧ ∀ a ∈ as.head?, a.First x

/-- The name of the population file: it ends within its memory. -/
def FileOk (l : List Char) : Prop :=
  Char.ofNat 0 ∈ l ∧ (l.takeWhile (· ≠ Char.ofNat 0)).length ≤ 512

/-- Parameters whose report can be read back: the name of the population file ends, and the layers
of the kinds of neural networks that are used survive a report. -/
structure SysPar.Reportable (p : SysPar K) : Prop where
  file : FileOk p.popFile
  act : p.reportsAction = true → p.act.type = 1 → LayersPlain p.xDim p.act.largs
  cond : p.cond.type = 4 ∨ p.cond.type = 12 ∨ p.cond.type = 13 → LayersPlain p.xDim p.cond.largs
  pred : p.pred.type = 5 → LayersPlain p.xDim p.pred.largs

/-- No neural networks are used. -/
structure SysPar.NoNets (p : SysPar K) : Prop where
  act : p.reportsAction = true → p.act.type ≠ 1
  cond : p.cond.type ≠ 4 ∧ p.cond.type ≠ 12 ∧ p.cond.type ≠ 13
  pred : p.pred.type ≠ 5

/-- The kinds of values of a document. -/
inductive JKind where
  | number | truth | text | any

/-- The kind of a value. -/
def JKind.fits : JKind → Json K → Prop
  | .number, j => ∃ v, j = .num v
  | .truth, j => ∃ b, j = .bool b
  | .text, j => ∃ s, j = .str s
  | .any, _ => True

/-- The names of the parameters and the kinds of their values (those with parameters of their own
are refused or accepted by these). -/
def paramKinds : List (String × JKind) :=
  [("version", .any), ("x_dim", .number), ("y_dim", .number), ("n_actions", .number),
   ("omp_num_threads", .number), ("random_state", .number), ("population_file", .text),
   ("pop_size", .number), ("max_trials", .number), ("pop_init", .truth), ("perf_trials", .number),
   ("loss_func", .text), ("huber_delta", .number), ("teletransportation", .number),
   ("gamma", .number), ("p_explore", .number), ("set_subsumption", .truth),
   ("theta_sub", .number), ("alpha", .number), ("beta", .number), ("delta", .number),
   ("nu", .number), ("theta_del", .number), ("init_fitness", .number), ("init_error", .number),
   ("e0", .number), ("m_probation", .number), ("stateful", .truth), ("compaction", .truth),
   ("ea", .any), ("action", .any), ("condition", .any), ("prediction", .any)]

/-- The same kind of conditions, with the same parameters of this kind; those of layers are compared
by their reports. -/
structure SameCond (c c' : CondFile K) : Prop where
  type : c'.type = c.type
  ternary : c.type = 7 → c'.pDontcare = c.pDontcare ∧ c'.bits = c.bits
  interval : c.type = 3 ∨ c.type = 1 ∨ c.type = 2 →
    c'.eta = c.eta ∧ c'.min = c.min ∧ c'.max = c.max ∧ c'.spreadMin = c.spreadMin
  tree : c.type = 5 → c'.targs.min = c.targs.min ∧ c'.targs.max = c.targs.max ∧
    c'.targs.nConstants = c.targs.nConstants ∧ c'.targs.initDepth = c.targs.initDepth ∧
    c'.targs.maxLen = c.targs.maxLen
  graph : c.type = 6 ∨ c.type = 11 → c'.dargs.maxK = c.dargs.maxK ∧
    c'.dargs.maxT = c.dargs.maxT ∧ c'.dargs.n = c.dargs.n ∧ c'.dargs.evolve = c.dargs.evolve

/-- The same kind of predictions, with the same parameters of this kind. -/
structure SamePred (p p' : PredFile K) : Prop where
  type : p'.type = p.type
  nlms : p.type = 1 ∨ p.type = 2 → p'.x0 = p.x0 ∧ p'.eta = p.eta ∧ p'.evolveEta = p.evolveEta ∧
    (p.evolveEta = true → p'.etaMin = p.etaMin)
  rls : p.type = 3 ∨ p.type = 4 →
    p'.x0 = p.x0 ∧ p'.lambda = p.lambda ∧ p'.scaleFactor = p.scaleFactor

/-- The same parameters, as far as they are used: the parameter of the Huber loss if that loss is
selected, those of multi-step problems and actions if there is more than one action. -/
structure SameParams (p p' : SysPar K) : Prop where
  dims : p'.xDim = p.xDim ∧ p'.yDim = p.yDim ∧ p'.nActions = p.nActions
  run : p'.ompNumThreads = p.ompNumThreads ∧ p'.randomState = p.randomState ∧
    p'.popInit = p.popInit ∧ p'.maxTrials = p.maxTrials ∧ p'.perfTrials = p.perfTrials ∧
    p'.popSize = p.popSize
  file : p'.popFile.takeWhile (· ≠ Char.ofNat 0) = p.popFile.takeWhile (· ≠ Char.ofNat 0)
  loss : p'.lossFunc = p.lossFunc ∧ (p.lossFunc = 6 → p'.huberDelta = p.huberDelta)
  multi : 1 < p.nActions → p'.gamma = p.gamma ∧
    p'.teletransportation = p.teletransportation ∧ p'.pExplore = p.pExplore
  rules : p'.setSubsumption = p.setSubsumption ∧ p'.thetaSub = p.thetaSub ∧ p'.e0 = p.e0 ∧
    p'.alpha = p.alpha ∧ p'.nu = p.nu ∧ p'.beta = p.beta ∧ p'.delta = p.delta ∧
    p'.thetaDel = p.thetaDel ∧ p'.initFitness = p.initFitness ∧ p'.initError = p.initError ∧
    p'.mProbation = p.mProbation ∧ p'.stateful = p.stateful ∧ p'.compaction = p.compaction
  ea : p'.ea.selectType = p.ea.selectType ∧
    (p.ea.selectType = 1 → p'.ea.selectSize = p.ea.selectSize) ∧ p'.ea.theta = p.ea.theta ∧
    p'.ea.lambda = p.ea.lambda ∧ p'.ea.pCrossover = p.ea.pCrossover ∧
    p'.ea.errReduc = p.ea.errReduc ∧ p'.ea.fitReduc = p.ea.fitReduc ∧
    p'.ea.subsumption = p.ea.subsumption ∧ p'.ea.predReset = p.ea.predReset
  act : p.reportsAction = true → p'.act.type = p.act.type
  cond : SameCond p.cond p'.cond
  pred : SamePred p.pred p'.pred

end
end Xcsf
