import Verif.PropsJson
import Verif.Frame

/-!
# Starting from a population file (`population_file`, `clset_load_pop_file`)

The disk gives the contents of the files that can be opened; `parse` is `cJSON_Parse`, which is not
modelled. Names are those in `xcsf->population_file` up to the terminator, the empty name means that
no file is used.
-/

namespace Xcsf.PopFile
open Xcsf

variable {K R : Type} [Field K] [LinearOrder K] [IsStrictOrderedRing K] [FloorRing K]
variable (Y : System K R)

/-- The files that can be opened and `cJSON_Parse`. -/
structure Files (K : Type) where
  disk : List Char → Option (List Char)
  parse : List Char → Option (Json K)

/-- `clset_load_pop_file`, clset.c:281-301: a file that cannot be opened, an empty file and a file that
is not JSON (`utils_json_parse_check`, clset.c:799) end the program. -/
noncomputable def loadPopFile (F : Files K) (name : List Char) (s : St K Y.In Y.Rule R) :
    Res (St K Y.In Y.Rule R) :=
  match F.disk name with
  | none => .error .exit
  | some [] => .error .exit
  | some f =>
    match F.parse f with
    | none => .error .exit
    | some j => Y.import j s

/-- The file, if one is named, clset.c:310-312. -/
noncomputable def loadNamed (F : Files K) (name : List Char) (s : St K Y.In Y.Rule R) :
    Res (St K Y.In Y.Rule R) :=
  if name = [] then .ok s else loadPopFile Y F name s

/-- `clset_pset_init`, clset.c:307-321. -/
noncomputable def psetInit (F : Files K) (name : List Char) (s : St K Y.In Y.Rule R) :
    Res (St K Y.In Y.Rule R) := do
  let s ← loadNamed Y F name s
  if Y.par.popInit then psetInitGo Y.par Y.kit Y.par.popSize.toNat s else .ok s

/-- `xcsf_init`, xcsf.c:36-49; also what `fit` does without `warm_start`,
pybind_wrapper.cpp:503-506. -/
noncomputable def start (F : Files K) (name : List Char) (r : R) : Res (St K Y.In Y.Rule R) :=
  psetInit Y F name (initSt Y.par r)

end Xcsf.PopFile
