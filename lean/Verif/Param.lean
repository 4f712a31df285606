import Verif.Types
import Mathlib.Algebra.Order.Field.Basic

/-!
# Parameters and their setters (`param.c`, `ea.c`, `condition.c`, `prediction.c`, `action.c`)

The parameters of the representations' own argument structures (GP, DGP, layers) are not here.
-/

namespace Xcsf

/-- A `double`: a number, an infinity or not-a-number. -/
inductive Dbl (K : Type) where
  | fin (v : K)
  | pinf
  | ninf
  | nan
  deriving DecidableEq, Repr

section
variable {K : Type} [Field K] [LinearOrder K] [IsStrictOrderedRing K]

/-- `a < v` for a number `v`: false for not-a-number. -/
def Dbl.ltV (a : Dbl K) (v : K) : Bool :=
  match a with
  | .fin a => decide (a < v)
  | .ninf => true
  | _ => false

/-- `a > v`. -/
def Dbl.gtV (a : Dbl K) (v : K) : Bool :=
  match a with
  | .fin a => decide (v < a)
  | .pinf => true
  | _ => false

/-- The settable parameters of `struct XCSF` (xcsf.h:113-141), `struct ArgsEA` (ea.h:40-50),
`struct ArgsCond` (condition.h), `struct ArgsPred` (prediction.h) and `struct ArgsAct`
(action.h).  Switches (`bool`) and the random state have no range and are left out. -/
structure PState (K : Type) where
  xDim : Int
  yDim : Int
  nActions : Int
  ompThreads : Int
  maxTrials : Int
  perfTrials : Int
  popSize : Int
  lossFunc : Int
  huberDelta : Dbl K
  gamma : Dbl K
  teletransportation : Int
  pExplore : Dbl K
  alpha : Dbl K
  beta : Dbl K
  delta : Dbl K
  e0 : Dbl K
  initError : Dbl K
  initFitness : Dbl K
  nu : Dbl K
  thetaDel : Int
  mProbation : Int
  thetaSub : Int
  eaSelectSize : Dbl K
  eaTheta : Dbl K
  eaPCrossover : Dbl K
  eaLambda : Int
  eaErrReduc : Dbl K
  eaFitReduc : Dbl K
  eaSelectType : Int
  condType : Int
  condEta : Dbl K
  condMin : Dbl K
  condMax : Dbl K
  condPDontcare : Dbl K
  condSpreadMin : Dbl K
  condBits : Int
  predType : Int
  predEta : Dbl K
  predEtaMin : Dbl K
  predLambda : Dbl K
  predScale : Dbl K
  predX0 : Dbl K
  actType : Int
  deriving DecidableEq

/-- The setter calls a program can make. -/
inductive SetCall (K : Type) where
  | xDim (a : Int) | yDim (a : Int) | nActions (a : Int) | ompThreads (a : Int)
  | maxTrials (a : Int) | perfTrials (a : Int) | popSize (a : Int)
  | lossFunc (a : List Char)
  | huberDelta (a : Dbl K) | gamma (a : Dbl K) | teletransportation (a : Int)
  | pExplore (a : Dbl K) | alpha (a : Dbl K) | beta (a : Dbl K) | delta (a : Dbl K)
  | e0 (a : Dbl K) | initError (a : Dbl K) | initFitness (a : Dbl K) | nu (a : Dbl K)
  | thetaDel (a : Int) | mProbation (a : Int) | thetaSub (a : Int)
  | eaSelectSize (a : Dbl K) | eaTheta (a : Dbl K) | eaPCrossover (a : Dbl K)
  | eaLambda (a : Int) | eaErrReduc (a : Dbl K) | eaFitReduc (a : Dbl K)
  | eaSelectType (a : List Char)
  | condType (a : List Char) | condEta (a : Dbl K) | condMin (a : Dbl K) | condMax (a : Dbl K)
  | condPDontcare (a : Dbl K) | condSpreadMin (a : Dbl K) | condBits (a : Int)
  | predType (a : List Char) | predEta (a : Dbl K) | predEtaMin (a : Dbl K)
  | predLambda (a : Dbl K) | predScale (a : Dbl K) | predX0 (a : Dbl K)
  | actType (a : List Char)
  deriving DecidableEq

/-- `if (a < lo) return "error"; p = a; return NULL;`: whether it was accepted, and the new
parameters. -/
def atLeastInt (p : PState K) (lo a : Int) (q : PState K) : Bool × PState K :=
  if a < lo then (false, p) else (true, q)

/-- `if (a < 0) return "error"; ...` -/
def atLeastZero (p : PState K) (a : Dbl K) (q : PState K) : Bool × PState K :=
  if a.ltV 0 then (false, p) else (true, q)

/-- `if (a < 0 || a > 1) return "error"; ...` -/
def inUnit (p : PState K) (a : Dbl K) (q : PState K) : Bool × PState K :=
  if a.ltV 0 || a.gtV 1 then (false, p) else (true, q)

/-- The setters that print a warning and store the nearest bound: `if (a < 0) p = 0; else if
(a > 1) p = 1; else p = a;` -/
def clampUnit (a : Dbl K) : Dbl K := if a.ltV 0 then .fin 0 else if a.gtV 1 then .fin 1 else a

/-- Setting a type by its name: unknown names are rejected. -/
def byName (p : PState K) (t : List (List Char × Nat × Int)) (s : List Char)
    (q : Int → PState K) : Bool × PState K :=
  match codeOf t s with
  | some c => (true, q c)
  | none => (false, p)

/-- One setter call: param.c:614-905 (in the order of the constructors, except that
`x_dim`, `y_dim`, `n_actions` are at 871, 888, 898), ea.c:408-500, condition.c:378-447,
prediction.c:291-361, action.c:192-199. -/
def setParam (p : PState K) : SetCall K → Bool × PState K
  | .xDim a => atLeastInt p 1 a { p with xDim := a }
  | .yDim a => atLeastInt p 1 a { p with yDim := a }
  | .nActions a => atLeastInt p 1 a { p with nActions := a }
  | .ompThreads a => if a < 1 ∨ 1000 < a then (false, p) else (true, { p with ompThreads := a })
  | .maxTrials a => atLeastInt p 1 a { p with maxTrials := a }
  | .perfTrials a => atLeastInt p 1 a { p with perfTrials := a }
  | .popSize a => atLeastInt p 1 a { p with popSize := a }
  | .lossFunc s => byName p lossCodes s (fun c => { p with lossFunc := c })
  | .huberDelta a => atLeastZero p a { p with huberDelta := a }
  | .gamma a => inUnit p a { p with gamma := a }
  | .teletransportation a => atLeastInt p 1 a { p with teletransportation := a }
  | .pExplore a => inUnit p a { p with pExplore := a }
  | .alpha a => inUnit p a { p with alpha := a }
  | .beta a => inUnit p a { p with beta := a }
  | .delta a => inUnit p a { p with delta := a }
  | .e0 a => atLeastZero p a { p with e0 := a }
  | .initError a => atLeastZero p a { p with initError := a }
  | .initFitness a => atLeastZero p a { p with initFitness := a }
  | .nu a => atLeastZero p a { p with nu := a }
  | .thetaDel a => atLeastInt p 0 a { p with thetaDel := a }
  | .mProbation a => atLeastInt p 0 a { p with mProbation := a }
  | .thetaSub a => atLeastInt p 0 a { p with thetaSub := a }
  | .eaSelectSize a => inUnit p a { p with eaSelectSize := a }
  | .eaTheta a => atLeastZero p a { p with eaTheta := a }
  | .eaPCrossover a => inUnit p a { p with eaPCrossover := a }
  | .eaLambda a => atLeastInt p 2 a { p with eaLambda := a }
  | .eaErrReduc a => inUnit p a { p with eaErrReduc := a }
  | .eaFitReduc a => inUnit p a { p with eaFitReduc := a }
  | .eaSelectType s => byName p eaCodes s (fun c => { p with eaSelectType := c })
  | .condType s => byName p condCodes s (fun c => { p with condType := c })
  | .condEta a => (true, { p with condEta := clampUnit a })
  | .condMin a => (true, { p with condMin := a })
  | .condMax a => (true, { p with condMax := a })
  | .condPDontcare a => (true, { p with condPDontcare := clampUnit a })
  | .condSpreadMin a => (true, { p with condSpreadMin := if a.ltV 0 then .fin 0 else a })
  | .condBits a => (true, { p with condBits := if a < 1 then 1 else a })
  | .predType s => byName p predCodes s (fun c => { p with predType := c })
  | .predEta a => (true, { p with predEta := clampUnit a })
  | .predEtaMin a => (true, { p with predEtaMin := clampUnit a })
  | .predLambda a => (true, { p with predLambda := a })
  | .predScale a => (true, { p with predScale := a })
  | .predX0 a => (true, { p with predX0 := a })
  | .actType s => byName p actCodes s (fun c => { p with actType := c })

/-- The defaults of `param_init` (param.c:44-91), `ea_param_defaults` (ea.c:237-248),
`cond_param_defaults` (condition.c:166-177, ternary: cond_ternary.c:426-430),
`pred_param_defaults` (prediction.c:120-130) and `action_param_defaults` (action.c:91-95).  The
setters for the three dimensions are called on uninitialised fields; here they must be
positive. -/
def paramInit (xDim yDim nActions : Int) : PState K :=
  { xDim, yDim, nActions
    ompThreads := 8
    maxTrials := 100000
    perfTrials := 1000
    popSize := 2000
    lossFunc := 0
    huberDelta := .fin 1
    gamma := .fin (95 / 100)
    teletransportation := 50
    pExplore := .fin (9 / 10)
    alpha := .fin (1 / 10)
    beta := .fin (1 / 10)
    delta := .fin (1 / 10)
    e0 := .fin (1 / 100)
    initError := .fin 0
    initFitness := .fin (1 / 100)
    nu := .fin 5
    thetaDel := 20
    mProbation := 10000
    thetaSub := 100
    eaSelectSize := .fin (4 / 10)
    eaTheta := .fin 50
    eaPCrossover := .fin (8 / 10)
    eaLambda := 2
    eaErrReduc := .fin 1
    eaFitReduc := .fin (1 / 10)
    eaSelectType := 0
    condType := 1
    condEta := .fin 0
    condMin := .fin 0
    condMax := .fin 1
    condPDontcare := .fin (1 / 2)
    condSpreadMin := .fin (1 / 10)
    condBits := 1
    predType := 1
    predEta := .fin (1 / 10)
    predEtaMin := .fin (1 / 100000)
    predLambda := .fin 1
    predScale := .fin 1000
    predX0 := .fin 1
    actType := 0 }

/-- A sequence of calls; rejected ones report an error and the program may go on. -/
def setAll (p : PState K) (cs : List (SetCall K)) : PState K :=
  cs.foldl (fun p c => (setParam p c).2) p

end
end Xcsf
