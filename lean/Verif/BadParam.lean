import Verif.PropsBadReward
import Verif.Par

/-!
# Setting parameters to any double

The setters of parameters that are doubles, over the doubles of `Double.lean`.  `Param.lean` has all
setters, over numbers with infinities and not-a-number but without arithmetic; here what has been set is
used for training.  Left out are parameters of representations, of crossover and of the loss, which
belong to the kit.
-/

namespace Xcsf.Double

variable {f : Format}

/-- A call of a setter with a double, param.c:734-831 and ea.c:407-465. -/
inductive DSet (f : Format) where
  | gamma (a : Dbl f) | pExplore (a : Dbl f) | alpha (a : Dbl f) | beta (a : Dbl f)
  | delta (a : Dbl f) | e0 (a : Dbl f) | initError (a : Dbl f) | initFitness (a : Dbl f)
  | nu (a : Dbl f) | selectSize (a : Dbl f) | theta (a : Dbl f) | errReduc (a : Dbl f)
  | fitReduc (a : Dbl f)

/-- The value given. -/
def DSet.value : DSet f → Dbl f
  | .gamma a | .pExplore a | .alpha a | .beta a | .delta a | .e0 a | .initError a | .initFitness a
  | .nu a | .selectSize a | .theta a | .errReduc a | .fitReduc a => a

/-- Whether the documented range is the unit interval; otherwise it is all numbers that are not
negative. -/
def DSet.unit : DSet f → Bool
  | .gamma _ | .pExplore _ | .alpha _ | .beta _ | .delta _ | .selectSize _ | .errReduc _
  | .fitReduc _ => true
  | _ => false

/-- The checks, param.c:736, 756, 766, 776, 786 and ea.c:410, 450, 460 (`a < 0 || a > 1`) and
param.c:796, 806, 816, 826 and ea.c:420 (`a < 0`). -/
def DSet.accepted (c : DSet f) : Bool :=
  if c.unit then !(decide (c.value < 0) || decide (1 < c.value)) else !decide (c.value < 0)

/-- The assignments, param.c:739, 759, 769, 779, 789, 799, 809, 819, 829 and ea.c:413, 423, 453, 463. -/
def DSet.assign (par : Params (Dbl f)) : DSet f → Params (Dbl f)
  | .gamma a => { par with gamma := a }
  | .pExplore a => { par with pExplore := a }
  | .alpha a => { par with alpha := a }
  | .beta a => { par with beta := a }
  | .delta a => { par with delta := a }
  | .e0 a => { par with e0 := a }
  | .initError a => { par with initErr := a }
  | .initFitness a => { par with initFit := a }
  | .nu a => { par with nu := a }
  | .selectSize a => { par with eaSelectSize := a }
  | .theta a => { par with eaTheta := a }
  | .errReduc a => { par with eaErrReduc := a }
  | .fitReduc a => { par with eaFitReduc := a }

/-- One setter, param.c:734-831 and ea.c:407-465: refused values leave the parameters as they are. -/
def DSet.apply (par : Params (Dbl f)) (c : DSet f) : Params (Dbl f) :=
  if c.accepted then c.assign par else par

end Xcsf.Double
