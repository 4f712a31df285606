import Verif.Trial

/-!
# Changing parameters between calls

`set_params` (pybind_wrapper.cpp:853-875) may be called at any time.  It hands its arguments to
`param_json_import` (param.c:421-474), which overwrites the parameters of the system and nothing
else: the population, the stored population and the arrays of the system stay as they are.  What the
documents do to the parameters is the subject of `ParamJson`; here a change is any new value of the
parameters the life cycle reads and of the functions of the rules, which read the parameters of the
representation.
-/

namespace Xcsf

/-- The parameters of a system: those of the life cycle, and the functions of the rules under the
parameters of the representation (`struct XCSF`, xcsf.h:52-135, without the sets). -/
structure Conf (K X B R : Type) where
  par : Params K
  kit : Kit K X B R

/-- An event in the life of a system: `set_params` (pybind_wrapper.cpp:853-875), with a new state of
the generator if `random_state` is among the arguments (param.c:626-637), or one of the calls of
`Op`. -/
inductive Ev (K X B R : Type) where
  | set (c : Conf K X B R) (seed : Option R)
  | call (op : Op K X B)

/-- A system whose parameters can change.  `paSize` is the length of the prediction array, which is
allocated by `pa_init` (pa.c:45-52) when the system is made and never again. -/
structure Live (K X B R : Type) where
  conf : Conf K X B R
  paSize : Nat
  st : St K X B R

section
variable {K X B R : Type} [Zero K] [One K] [Add K] [Sub K] [Mul K] [Div K]
  [LT K] [DecidableLT K] [IntCast K] [DecidableEq K]

/-- One event.  A call that needs more elements of the prediction array than there are writes behind
it (pa.c:94-113).  Simplification: the model says so for every call, also for those that do not
compute a system prediction. -/
def evStep (l : Live K X B R) : Ev K X B R → Res (Live K X B R)
  | .set c seed => .ok { l with conf := c, st := { l.st with rng := seed.getD l.st.rng } }
  | .call op =>
    if l.paSize < l.conf.par.nActions * l.conf.par.yDim then .error .ub
    else do
      let s ← step l.conf.par l.conf.kit l.st op
      .ok { l with st := s }

/-- A history of calls and changes of parameters from the construction of the system
(`XCS(...)`, pybind_wrapper.cpp:97-102). -/
def runEv (c : Conf K X B R) (r : R) (evs : List (Ev K X B R)) : Res (Live K X B R) := do
  let s ← xcsfInit c.par c.kit r
  evs.foldlM evStep ⟨c, c.par.nActions * c.par.yDim, s⟩

end
end Xcsf
