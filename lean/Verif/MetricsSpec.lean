import Verif.Metrics
import Verif.Props8

/-!
# Specification: what a record of training should say
-/

set_option linter.unusedSectionVars false

namespace Xcsf
namespace Metrics
variable {K X B R : Type} [Zero K] [One K] [Add K] [Sub K] [Mul K] [Div K]
  [LT K] [DecidableLT K] [IntCast K] [DecidableEq K]

/-- An epoch: how many trials it had, their losses, the system after them, the error on the validation
data, and the system after validation. -/
structure Epoch (K X B R : Type) where
  n : Nat
  losses : List K
  trained : St K X B R
  valErr : K
  seen : St K X B R

/-- The epoch took place in the call `j` of `fit`: the system was trained on the rows of the training
data from the row `start` on, and then scored on the validation data, if there is any, where inputs
that no rule contains have the prediction zero. -/
def Epoch.Of (par : Params K) (kit : Kit K X B R) (j : Job K X B R) (e : Epoch K X B R) : Prop :=
  e.n = min j.maxTrials j.perfTrials ∧ e.losses.length = e.n ∧
  (∃ start s m, supFit par kit j.train none j.shuffle start e.n s = .ok (m, e.trained) ∧
    m = e.losses.foldl (· + ·) 0 / ((e.n : Int) : K) ∧
    e.trained.error = ema par.beta s.error e.losses ∧ e.trained.time = s.time + e.n) ∧
  (j.val = none → e.valErr = 0 ∧ e.seen = e.trained) ∧
  ∀ v, j.val = some v →
    score par kit (List.replicate (par.nActions * par.yDim) 0) v e.trained = .ok (e.valErr, e.seen)

/-- The record `g'` continues the record `g` with these epochs, in this order: mean loss, error on the
validation data, and the sizes after validation. -/
structure Continues (g g' : Log K) (es : List (Epoch K X B R)) : Prop where
  train : g'.train = g.train ++ es.map fun e => e.losses.foldl (· + ·) 0 / ((e.n : Int) : K)
  val : g'.val = g.val ++ es.map Epoch.valErr
  psize : g'.psize = g.psize ++ es.map fun e => e.seen.pset.size
  msize : g'.msize = g.msize ++ es.map fun e => e.seen.msetSize
  mfrac : g'.mfrac = g.mfrac ++ es.map fun e => e.seen.mfrac
  counter : g'.counter = g.counter + es.length

/-- The callbacks do not change the clock of the system. -/
def Job.Calm (j : Job K X B R) : Prop :=
  (∀ g s b s', j.watch g s = .ok (b, s') → s'.time = s.time) ∧
  ∀ s s', j.finish s = .ok s' → s'.time = s.time

/-- Calls that keep the record and the clock together: `fit` with a warm start and with `n` trials per
epoch, and calls that do not train. -/
def Call.Steady (n : Nat) : Call K X B R → Prop
  | .fit j => j.warm = true ∧ min j.maxTrials j.perfTrials = n ∧ j.Calm
  | .other o => o.trains = 0 ∧ o.single = true

end Metrics
end Xcsf
