import Verif.Rep

/-!
# Rules as JSON (`cl.c`, `clset.c` and the JSON functions of conditions, actions and predictions)

The library cJSON is not modelled: a document is its tree of values, printing and parsing return
it unchanged (cJSON prints 15 or 17 significant digits, so this holds up to the rounding of
numbers).  `cJSON_GetObjectItem` compares names ignoring case; here they must be equal (no two
names that xcsf writes into one object differ only in case).
-/

namespace Xcsf

/-- `struct cJSON` as a tree (the source of the library is not part of the repository). -/
inductive Json (K : Type) where
  | null
  | bool (b : Bool)
  | num (v : K)
  | str (s : String)
  | arr (l : List (Json K))
  | obj (l : List (String × Json K))

section
variable {K R : Type} [Field K] [LinearOrder K] [IsStrictOrderedRing K] [FloorRing K]

/-! ## Reading values -/

/-- `cJSON_GetObjectItem`: the first member of that name, if any. -/
def Json.item (name : String) : Json K → Option (Json K)
  | .obj l => l.lookup name
  | _ => none

/-- `valueint` of a number, as cJSON sets it: truncated and saturated. -/
def jsonInt (v : K) : Int :=
  if 2147483647 ≤ v then 2147483647
  else if v ≤ -2147483648 then -2147483648
  else if 0 ≤ v then ⌊v⌋ else ⌈v⌉

/-- `item->valuedouble`: zero for what is not a number. -/
def Json.dbl : Json K → K
  | .num v => v
  | _ => 0

/-- `item->valueint`: one for `true`, zero for what is not a number. -/
def Json.int : Json K → Int
  | .num v => jsonInt v
  | .bool true => 1
  | _ => 0

/-- A number member (`item != NULL && cJSON_IsNumber(item)`), else the value so far. -/
def importNum (old : K) : Option (Json K) → K
  | some (.num v) => v
  | _ => old

/-- An integer member, else the value so far. -/
def importInt (old : Int) : Option (Json K) → Int
  | some (.num v) => jsonInt v
  | _ => old

/-- `current_match`, cl.c:576-579. -/
def importBool (old : Bool) : Option (Json K) → Bool
  | some (.bool b) => b
  | _ => old

/-- An array member, cond_rectangle.c:392-403 and the like: of the right length or the program
ends; what is not a number is read as zero. -/
def importArr (n : Nat) (old : List K) : Option (Json K) → Res (List K)
  | some (.arr l) => if l.length = n then .ok (l.map Json.dbl) else .error .exit
  | _ => .ok old

/-- The elements of an array member. -/
def Json.elems (name : String) (j : Json K) : Option (List (Json K)) :=
  match j.item name with
  | some (.arr l) => some l
  | _ => none

/-- `cJSON_CreateDoubleArray`. -/
def jsonNums (l : List K) : Json K := .arr (l.map .num)

/-- `cJSON_AddNumberToObject` of an `int`. -/
def jsonOfInt (i : Int) : Json K := .num (i : K)

/-- `sam_json_import`, sam.c:99-117, of one rate. -/
def samImport1 (old : K) (j : Json K) : Res K := do
  let mu ← importUnit 1 [old] ((j.elems "mutation").map (·.map Json.dbl))
  getR mu 0

/-! ## Conditions -/

/-- The names of the two arrays, cond_rectangle.c:388-389. -/
def CondPar.names (p : CondPar K) : String × String :=
  if p.csr then ("center", "spread") else ("bound1", "bound2")

/-- `cond_rectangle_json_export`, cond_rectangle.c:358-381. -/
def rectExport (p : CondPar K) (c : Box K) : Json K :=
  .obj [("type", .str (if p.csr then "hyperrectangle_csr" else "hyperrectangle_ubr")),
    (p.names.1, jsonNums (c.genes.map Prod.fst)), (p.names.2, jsonNums (c.genes.map Prod.snd)),
    ("mutation", jsonNums [c.mu])]

/-- The arrays of a box from its two members of the given names. -/
def boxImport (names : String × String) (n : Nat) (c : Box K) (j : Json K) : Res (Box K) := do
  let b1 ← importArr n (c.genes.map Prod.fst) (j.item names.1)
  let b2 ← importArr n (c.genes.map Prod.snd) (j.item names.2)
  let mu ← samImport1 c.mu j
  .ok ⟨b1.zip b2, mu⟩

/-- `cond_rectangle_json_import`, cond_rectangle.c:389-422. -/
def rectImport (p : CondPar K) (n : Nat) (c : Box K) (j : Json K) : Res (Box K) :=
  boxImport p.names n c j

/-- `cond_ellipsoid_json_export`, cond_ellipsoid.c:340-356. -/
def ellExport (c : Box K) : Json K :=
  .obj [("type", .str "hyperellipsoid"), ("center", jsonNums (c.genes.map Prod.fst)),
    ("spread", jsonNums (c.genes.map Prod.snd)), ("mutation", jsonNums [c.mu])]

/-- `cond_ellipsoid_json_import`, cond_ellipsoid.c:364-393. -/
def ellImport (n : Nat) (c : Box K) (j : Json K) : Res (Box K) :=
  boxImport ("center", "spread") n c j

/-- `cond_ternary_json_export`, cond_ternary.c:337-355. -/
def ternExport (c : Tern K) : Json K :=
  .obj [("type", .str "ternary"), ("string", .str (String.ofList c.string)),
    ("mutation", jsonNums [c.mu])]

/-- The loop over the string, cond_ternary.c:369-376: longer strings are cut, shorter ones end
the program (a zero character ends a string). -/
def ternImportString (old : List Char) : Option (Json K) → Res (List Char)
  | some (.str s) =>
    let cs := s.toList.takeWhile (· ≠ Char.ofNat 0)
    if cs.length < old.length then .error .exit else .ok (cs.take old.length)
  | _ => .ok old

/-- `cond_ternary_json_import`, cond_ternary.c:363-379. -/
def ternImport (c : Tern K) (j : Json K) : Res (Tern K) := do
  let s ← ternImportString c.string (j.item "string")
  let mu ← samImport1 c.mu j
  .ok ⟨s, mu⟩

/-- The strings of the functions, gp.c:35-38, 165-181. -/
def gpFuncString (f : Int) : String :=
  if f = 0 then "+" else if f = 1 then "-" else if f = 2 then "*" else "/"

/-- One item of the array, gp.c:214-244. -/
def GpTok.json : GpTok K → Json K
  | .lpar => .str "("
  | .rpar => .str ")"
  | .func f => .str (gpFuncString f)
  | .const v => .num v
  | .input i => .str ("feature_" ++ toString i)

/-- `cond_gp_json_export`, cond_gp.c:241-255, and `tree_json_export`, gp.c:252-266. -/
def gpExport (a : GpArgs K) (t : GpTree K) : Res (Json K) := do
  let s ← gpString a t.tree (t.tree.length + 1) 0
  .ok (.obj [("type", .str "tree_gp"),
    ("tree", .obj [("array", .arr (s.1.map GpTok.json)), ("mutation", jsonNums [t.mu])])])

/-- `cond_gp_json_import`, cond_gp.c:306-316, and `tree_json_import`, gp.c:274-283: always ends
the program. -/
def gpImport (_ : GpTree K) (_ : Json K) : Res (GpTree K) := .error .exit

/-- The members `graph_json_export`, dgp.c:346-370, writes. -/
def graphJson (nInputs : Nat) (g : GraphJson K) : Json K :=
  .obj [("n", jsonOfInt (g.n.getD 0)), ("t", jsonOfInt (g.t.getD 0)),
    ("n_inputs", jsonOfInt nInputs), ("initial_state", jsonNums (g.initial.getD [])),
    ("current_state", jsonNums (g.current.getD [])),
    ("functions", .arr ((g.functions.getD []).map fun s => .str (s.getD ""))),
    ("connectivity", .arr ((g.connectivity.getD []).map jsonOfInt)),
    ("mutation", jsonNums (g.mutation.getD []))]

/-- `cond_dgp_json_export`, cond_dgp.c:238-252. -/
def dgpExport (d : Graph K) : Res (Json K) := do
  let g ← graphExport d
  .ok (.obj [("type", .str "dgp"), ("graph", graphJson d.nInputs g)])

/-- A size or number of cycles: a member that is not a number ends the program, dgp.c:481-486 and
dgp.c:503-506. -/
def graphNum : Option (Json K) → Res (Option Int)
  | none => .ok none
  | some (.num v) => .ok (some (jsonInt v))
  | some _ => .error .exit

/-- A function in the list: only strings are read, dgp.c:438. -/
def Json.strVal : Json K → Option String
  | .str s => some s
  | _ => none

/-- The members `graph_json_import`, dgp.c:476-516, reads. -/
def graphRead (j : Json K) : Res (GraphJson K) := do
  let n ← graphNum (j.item "n")
  let t ← graphNum (j.item "t")
  .ok { n := n, t := t, current := (j.elems "current_state").map (·.map Json.dbl),
        initial := (j.elems "initial_state").map (·.map Json.dbl),
        functions := (j.elems "functions").map (·.map Json.strVal),
        connectivity := (j.elems "connectivity").map (·.map Json.int),
        mutation := (j.elems "mutation").map (·.map Json.dbl) }

/-- `cond_dgp_json_import`, cond_dgp.c:260-272; the fresh memory for the mutation rates holds
`junk`. -/
def dgpImport (g : Rng K R) (a : DgpArgs) (junk : List K) (d : Graph K) (j : Json K) (r : R) :
    Res (Graph K × R) :=
  match j.item "graph" with
  | none => .error .exit
  | some item => do
    let m ← graphRead item
    graphImport g a junk d.t m r

/-- `cond_json_export`, condition.h, for each type. -/
def CondType.export (S : Setup K) : (c : CondType) → c.Body K → Res (Json K)
  -- `cond_dummy_json_export`, cond_dummy.c:226-235
  | .dummy => fun _ => .ok (.obj [("type", .str "dummy")])
  | .rectangle => fun b => .ok (rectExport S.cond b)
  | .ellipsoid => fun b => .ok (ellExport b)
  | .ternary => fun b => .ok (ternExport b)
  | .gp => gpExport S.gp
  | .dgp => dgpExport

/-- `cond_json_import`, condition.h, for each type; the type written in the document is not
read. -/
def CondType.import (g : Rng K R) (S : Setup K) :
    (c : CondType) → c.Body K → Json K → R → Res (c.Body K × R)
  -- `cond_dummy_json_import`, cond_dummy.c:243-249
  | .dummy => fun b _ r => .ok (b, r)
  | .rectangle => fun b j r => do
    let b ← rectImport S.cond S.xDim b j
    .ok (b, r)
  | .ellipsoid => fun b j r => do
    let b ← ellImport S.xDim b j
    .ok (b, r)
  | .ternary => fun b j r => do
    let b ← ternImport b j
    .ok (b, r)
  | .gp => fun b j r => do
    let b ← gpImport b j
    .ok (b, r)
  | .dgp => fun d j r => dgpImport g S.dgp (ofArr 3 S.tmp) d j r

/-! ## Actions and predictions -/

/-- `act_integer_json_export`, act_integer.c:248-260. -/
def actExport (a : ActInt K) : Json K :=
  .obj [("type", .str "integer"), ("action", jsonOfInt a.action), ("mutation", jsonNums [a.mu])]

/-- `act_integer_json_import`, act_integer.c:268-280. -/
def actImport (a : ActInt K) (j : Json K) : Res (ActInt K) :=
  actIntImport a (some (importInt a.action (j.item "action")),
    (j.elems "mutation").map (·.map Json.dbl))

/-- `pred_constant_json_export`, pred_constant.c:200-211. -/
def constExport (p : List K) : Json K :=
  .obj [("type", .str "constant"), ("prediction", jsonNums p)]

/-- `pred_nlms_json_export`, pred_nlms.c:263-282. -/
def nlmsExport (p : PredPar K) (s : Nlms K) : Json K :=
  .obj [("type", .str (if p.quad then "nlms_quadratic" else "nlms_linear")),
    ("weights", jsonNums (ofArr s.nWeights s.weights)), ("eta", .num s.eta),
    ("mutation", jsonNums [s.mu])]

/-- The weights, pred_nlms.c:295-306 and pred_rls.c:305-316. -/
def weightsImport (n : Nat) (w : Nat → K) (j : Json K) : Res (Nat → K) := do
  let l ← importArr n (ofArr n w) (j.item "weights")
  .ok fun i => if i < n then arrOf l i else w i

/-- `pred_nlms_json_import`, pred_nlms.c:290-312. -/
def nlmsImport (s : Nlms K) (j : Json K) : Res (Nlms K) := do
  let w ← weightsImport s.nWeights s.weights j
  let mu ← samImport1 s.mu j
  .ok { s with weights := w, eta := importNum s.eta (j.item "eta"), mu := mu }

/-- `pred_rls_json_export`, pred_rls.c:276-291: the gain matrix is not written. -/
def rlsExport (p : PredPar K) (s : Rls K) : Json K :=
  .obj [("type", .str (if p.quad then "rls_quadratic" else "rls_linear")),
    ("weights", jsonNums (ofArr s.nWeights s.weights))]

/-- `pred_rls_json_import`, pred_rls.c:299-317. -/
def rlsImport (s : Rls K) (j : Json K) : Res (Rls K) := do
  let w ← weightsImport s.nWeights s.weights j
  .ok { s with weights := w }

/-- `pred_json_export`, prediction.h, for each type; `p` is `c->prediction`. -/
def PredType.export (S : Setup K) : (q : PredType) → q.Body K → List K → Json K
  | .constant => fun _ p => constExport p
  | .nlms => fun s _ => nlmsExport S.pred s
  | .rls => fun s _ => rlsExport S.pred s

/-- `pred_json_import`, prediction.h, for each type; the type written in the document is not
read. -/
def PredType.import (S : Setup K) :
    (q : PredType) → q.Body K → List K → Json K → Res (q.Body K × List K)
  -- `pred_constant_json_import`, pred_constant.c:219-234
  | .constant => fun s p j => do
    let p ← importArr S.pred.yDim p (j.item "prediction")
    .ok (s, p)
  | .nlms => fun s p j => do
    let s ← nlmsImport s j
    .ok (s, p)
  | .rls => fun s p j => do
    let s ← rlsImport s j
    .ok (s, p)

/-! ## Rules -/

variable {c : CondType} {q : PredType}

/-- `cl_json_export`, cl.c:486-526; `acc` is `cl_acc`, the three flags say which parts are
returned. -/
def clExport (S : Setup K) (nActions : Nat) (acc : K → K) (rc ra rp : Bool)
    (cl : Cl K (Parts K c q)) : Res (Json K) := do
  let cond ← (if rc then do
      let j ← c.export S cl.body.cond
      .ok [("condition", j)]
    else .ok [])
  let act := if ra && decide (1 < nActions) then [("action", actExport cl.body.act)] else []
  let pred := if rp then [("prediction", q.export S cl.body.pred cl.prediction)] else []
  .ok (.obj ([("error", .num cl.err), ("fitness", .num cl.fit), ("accuracy", .num (acc cl.err)),
    ("set_size", .num cl.size), ("numerosity", jsonOfInt cl.num), ("experience", jsonOfInt cl.exp),
    ("time", jsonOfInt cl.time), ("samples_seen", jsonOfInt cl.age),
    ("samples_matched", jsonOfInt cl.mtotal), ("current_match", .bool cl.m),
    ("current_action", jsonOfInt cl.action), ("current_prediction", jsonNums cl.prediction)] ++
    cond ++ act ++ pred))

/-- `cl_json_import_properties`, cl.c:534-566. -/
def clImportProps {B : Type} (cl : Cl K B) (j : Json K) : Cl K B :=
  { cl with
    err := importNum cl.err (j.item "error")
    fit := importNum cl.fit (j.item "fitness")
    size := importNum cl.size (j.item "set_size")
    num := importInt cl.num (j.item "numerosity")
    exp := importInt cl.exp (j.item "experience")
    time := importInt cl.time (j.item "time")
    age := importInt cl.age (j.item "samples_seen")
    mtotal := importInt cl.mtotal (j.item "samples_matched") }

/-- `cl_json_import_current`, cl.c:574-598. -/
def clImportCurrent {B : Type} (yDim : Nat) (cl : Cl K B) (j : Json K) : Res (Cl K B) := do
  let p ← importArr yDim cl.prediction (j.item "current_prediction")
  .ok { cl with
    m := importBool cl.m (j.item "current_match")
    action := importInt cl.action (j.item "current_action")
    prediction := p }

/-- The action of a document, cl.c:614-617. -/
def clImportAct (cl : Cl K (Parts K c q)) : Option (Json K) → Res (Cl K (Parts K c q))
  | none => .ok cl
  | some j => do
    let a ← actImport cl.body.act j
    .ok { cl with body := { cl.body with act := a } }

/-- The prediction of a document, cl.c:618-621. -/
def clImportPred (S : Setup K) (cl : Cl K (Parts K c q)) :
    Option (Json K) → Res (Cl K (Parts K c q))
  | none => .ok cl
  | some j => do
    let p ← q.import S cl.body.pred cl.prediction j
    .ok { cl with prediction := p.2, body := { cl.body with pred := p.1 } }

/-- The condition of a document, cl.c:622-625. -/
def clImportCond (g : Rng K R) (S : Setup K) (cl : Cl K (Parts K c q)) (r : R) :
    Option (Json K) → Res (Cl K (Parts K c q) × R)
  | none => .ok (cl, r)
  | some j => do
    let b ← c.import g S cl.body.cond j r
    .ok ({ cl with body := { cl.body with cond := b.1 } }, b.2)

/-- `cl_json_import`, cl.c:608-626: a random rule is created and overridden; `size` is
`xcsf->pset.num`. -/
def clImport (par : Params K) (g : Rng K R) (S : Setup K) (size : K) (time : Int) (j : Json K)
    (r : R) : Res (Cl K (Parts K c q) × R) := do
  let b ← (systemRep g S par.nActions c q).rand r
  let cl := clImportProps (clInit par size time b.1) j
  let cl ← clImportCurrent par.yDim cl j
  let cl ← clImportAct cl (j.item "action")
  let cl ← clImportPred S cl (j.item "prediction")
  clImportCond g S cl b.2 (j.item "condition")

/-- `clset_json_export`, clset.c:753-773. -/
def popExport (S : Setup K) (nActions : Nat) (acc : K → K) (rc ra rp : Bool)
    (cs : List (Cl K (Parts K c q))) : Res (Json K) := do
  let l ← cs.mapM (clExport S nActions acc rc ra rp)
  .ok (.obj [("classifiers", .arr l)])

/-- The rules of a document, clset.c:801: the elements of the first member, whatever its name,
if it is an array.  (The first element of a document that is itself an array is also taken; such
documents are not modelled.) -/
def Json.rules : Json K → Option (List (Json K))
  | .obj ((_, .arr l) :: _) => some l
  | _ => none

end
end Xcsf
