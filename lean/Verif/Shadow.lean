import Verif.ParamJson

/-!
# The dictionary of parameters of the Python class

The Python class keeps a dictionary of parameters beside the parameters in use.  `get_params()` returns
the dictionary, `internal_params()` reports the parameters in use.
-/

namespace Xcsf
namespace Shadow

section
variable {K R : Type} [Field K] [LinearOrder K] [IsStrictOrderedRing K] [FloorRing K]

/-- `d[k] = v` of a Python dictionary: a key that exists keeps its place. -/
def dictSet (d : List (String × Json K)) (k : String) (v : Json K) : List (String × Json K) :=
  if d.any fun m => m.1 == k then d.map fun m => if m.1 = k then (k, v) else m else d ++ [(k, v)]

/-- The loop over the arguments, pybind_wrapper.cpp:857-860. -/
def dictUpdate (d kw : List (String × Json K)) : List (String × Json K) :=
  kw.foldl (fun d m => dictSet d m.1 m.2) d

/-- An object of the class: the dictionary `params` (pybind_wrapper.cpp:70-82), the parameters in use
and the random number generator. -/
structure Obj (K R : Type) where
  dict : List (String × Json K)
  par : SysPar K
  rng : R

/-- A negative `random_state` is shown as `None`, pybind_wrapper.cpp:826-832. -/
def maskNone (m : String × Json K) : String × Json K :=
  match m with
  | (k, .num v) => if k = "random_state" ∧ v < 0 then (k, .null) else (k, .num v)
  | m => m

/-- `None` as `random_state` is -1, pybind_wrapper.cpp:861-867. -/
def unmaskNone (m : String × Json K) : String × Json K :=
  match m with
  | (k, .null) => if k = "random_state" then (k, jsonOfInt (-1)) else (k, .null)
  | m => m

/-- `update_params`, pybind_wrapper.cpp:818-834: the dictionary becomes the report. -/
def refresh (g : Rng K R) (o : Obj K R) : Res (Obj K R) := do
  let ((j, p), r) ← paramExport g o.par o.rng
  let l ← j.members
  .ok { dict := l.map maskNone, par := p, rng := r }

/-- `set_params`, pybind_wrapper.cpp:852-876: the arguments are put into the dictionary as they are,
then imported. -/
def setParams (g : Rng K R) (sd : Seeds R) (kw : List (String × Json K)) (o : Obj K R) :
    Res (Obj K R) := do
  let s ← paramImport g sd (.obj (kw.map unmaskNone)) (o.par, o.rng)
  .ok { dict := dictUpdate o.dict kw, par := s.1, rng := s.2 }

/-- `get_params`, pybind_wrapper.cpp:836-846. -/
def getParams (o : Obj K R) : List (String × Json K) := o.dict

/-- `XCS(...)`, pybind_wrapper.cpp:96-129. -/
def newObj (g : Rng K R) (sd : Seeds R) (error : K) (explore : Bool) (kw : List (String × Json K)) :
    Res (Obj K R) := do
  let s := sysInit g sd error explore 1 1 1
  let o ← refresh g { dict := [], par := s.1, rng := s.2 }
  setParams g sd kw o

/-- What a program does with an object, as far as parameters are concerned. -/
inductive Op (K : Type) where
  /-- `set_params(...)`. -/
  | set (kw : List (String × Json K))
  /-- `load(filename)`: the parameters of the file, pybind_wrapper.cpp:147-153. -/
  | load (p : SysPar K)
  /-- `internal_params()`, pybind_wrapper.cpp:878-891; its report places layers and draws random
  numbers, the dictionary stays. -/
  | report
  /-- `ae_to_classifier(y_dim, n_del)`, xcsf.c:171-176, as far as parameters are concerned; a
  number of outputs that the setter refuses is ignored, param.c:888-895. -/
  | classify (yDim : Int)

/-- One call. -/
def step (g : Rng K R) (sd : Seeds R) (o : Obj K R) : Op K → Res (Obj K R)
  | .set kw => setParams g sd kw o
  | .load p => refresh g { o with par := p }
  | .report => do
    let ((_, p), r) ← paramExport g o.par o.rng
    .ok { o with par := p, rng := r }
  | .classify y =>
    .ok { o with par := { o.par with yDim := if y < 1 then o.par.yDim else y, lossFunc := 5 } }

/-- A history of calls. -/
def runOps (g : Rng K R) (sd : Seeds R) (ops : List (Op K)) (o : Obj K R) : Res (Obj K R) :=
  ops.foldlM (step g sd) o

/-- A copy as scikit-learn makes it (`clone`): a new object with the parameters of `get_params()`. -/
def clone (g : Rng K R) (sd : Seeds R) (error : K) (explore : Bool) (o : Obj K R) : Res (Obj K R) :=
  newObj g sd error explore (getParams o)

end

end Shadow
end Xcsf
