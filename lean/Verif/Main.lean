import Verif.Config
import Verif.Env
import Verif.Fit
import Verif.ParamJson

/-!
# The stand-alone program (`main.c`, `env.c`, `env_csv.c`)

The command line is the list of its words, the program's name first; the disk gives the contents of
the files that can be opened. The text of numbers (`strtod`, `strtoimax`), the JSON parser, the rules
and the loading of a stored system are arguments. What is printed is not modelled, except that a run
may end with `exit(EXIT_FAILURE)`.
-/

namespace Xcsf.Program
open Xcsf

variable {K B R : Type} [Field K] [LinearOrder K] [IsStrictOrderedRing K] [FloorRing K]

/-- The files that can be opened for reading. -/
abbrev Disk := List Char → Option (List Char)

/-- What the program calls: `strtod`, `strtoimax` with the conversion to `int`, `cJSON_Parse`, the
random numbers, memory that is not written (`param_init`, see `sysInit`), the rules and constants of
a system with given parameters, and `xcsf_load` (xcsf.c:114-143). -/
structure World (K B R : Type) where
  num : List Char → K
  int : List Char → Int
  json : List Char → Option (Json K)
  rng : Rng K R
  seeds : Seeds R
  error : K
  explore : Bool
  par : SysPar K → Params K
  kit : SysPar K → Kit K (List K) B R
  load : List Char → SysPar K → St K (List K) B R → Res (SysPar K × St K (List K) B R)

/-- An environment, `xcsf->env`. -/
inductive Problem (K : Type)
  | csv (train test : CsvInput K)
  | mp (m : Mux K)
  | maze (m : Maze)

/-- The name of a data file, env_csv.c:142-152: `snprintf` into `MAX_NAME` = 200 characters, the last
of which is the terminator. -/
def fileName (base suffix : List Char) : List Char := (base ++ suffix).take 199

/-- `fopen` in `env_csv_read`, env_csv.c:112-116, and in `env_maze_init`, env_maze.c:103-107. -/
def openOrExit (disk : Disk) (name : List Char) : Res (List Char) :=
  match disk name with
  | none => .error .exit
  | some f => .ok f

/-- `env_csv_read` of a named file, env_csv.c:109-129. -/
def readFile (w : World K B R) (disk : Disk) (name : List Char) : Res (List K × Nat × Nat) := do
  let f ← openOrExit disk name
  csvRead w.num f

/-- One data set of `env_csv_input_read`, env_csv.c:142-152; the number of samples is that of the
outcomes, which are read last. -/
def readData (w : World K B R) (disk : Disk) (base sx sy : List Char) : Res (CsvInput K) := do
  let x ← readFile w disk (fileName base sx)
  let y ← readFile w disk (fileName base sy)
  .ok { x := x.1, y := y.1, xDim := x.2.2, yDim := y.2.2, nSamples := y.2.1 }

/-- `env_csv_init`, env_csv.c:160-170, with the dimensions passed to `param_init`. -/
def csvInit (w : World K B R) (disk : Disk) (base : List Char) :
    Res (Problem K × Int × Int × Int) := do
  let train ← readData w disk base "_train_x.csv".toList "_train_y.csv".toList
  let test ← readData w disk base "_test_x.csv".toList "_test_y.csv".toList
  .ok (.csv train test, (train.xDim : Int), (train.yDim : Int), 1)

/-- `env_mux_init`, env_mux.c:43-56. -/
def mpInit (bits : Int) : Problem K × Int × Int × Int :=
  let p := muxPosBits bits
  (.mp { posBits := p, state := List.replicate (muxLen p) 0 }, (muxLen p : Int), 1, 2)

/-- `env_init`, env.c:34-51. -/
def envInit (w : World K B R) (disk : Disk) (kind arg : List Char) :
    Res (Problem K × Int × Int × Int) :=
  if kind = "mp".toList then .ok (mpInit (w.int arg))
  else if kind = "maze".toList then do
    let f ← openOrExit disk arg
    let m ← mazeInit f
    .ok (.maze m, 8, 1, 8)
  else if kind = "csv".toList then csvInit w disk arg
  else .error .exit

/-- `config_read`, config.c:49-79, with `param_json_import`: a file that cannot be opened is only
warned about; text that is not JSON ends the program (`utils_json_parse_check`). -/
def configRead (w : World K B R) (disk : Disk) (name : List Char) (s : SysPar K × R) :
    Res (SysPar K × R) :=
  match disk name with
  | none => .ok s
  | some f => do
    let text ← configText f
    match w.json text with
    | none => .error .exit
    | some j => paramImport w.rng w.seeds j s

/-- Elements `at*stride ...` of an array, as many as the system reads: `&data->x[row * x_dim]`,
xcs_supervised.c:109-110 and 120-121. The system is taken to read all its inputs and outputs. -/
def window (a : List K) (stride len row : Nat) : Res (List K) :=
  if row * stride + len ≤ a.length then .ok ((a.drop (row * stride)).take len) else .error .ub

/-- Row `i` of a data set as a system with `xDim` inputs and `yDim` outputs reads it. -/
def dataAt (d : CsvInput K) (xDim yDim : Int) (i : Int) : Res (List K × List K) :=
  if 0 ≤ i then do
    let x ← window d.x d.xDim xDim.toNat i.toNat
    let y ← window d.y d.yDim yDim.toNat i.toNat
    .ok (x, y)
  else .error .ub

/-- The loop of `xcs_supervised_fit`, xcs_supervised.c:106-127, on arrays: as `supFitGo`, with
`shuffle` true and `start` zero, main.c:57-58. -/
def fitGo (par : Params K) (kit : Kit K (List K) B R) (p : SysPar K) (train test : CsvInput K) :
    Nat → Nat → K → St K (List K) B R → Res (K × St K (List K) B R)
  | 0, _, err, s => .ok (err, s)
  | k + 1, cnt, err, s => do
    let (i, r) ← sample kit train.nSamples cnt true s.rng
    let d ← dataAt train p.xDim p.yDim i
    let (e, s) ← fitStep par kit d.1 d.2 { s with rng := r }
    let (i, r) ← sample kit test.nSamples cnt true s.rng
    let d ← dataAt test p.xDim p.yDim i
    let (_, s) ← testStep par kit d.1 d.2 { s with rng := r }
    fitGo par kit p train test k (cnt + 1) (err + e) s

/-- How a run of the program ends, if it is not ended by `exit`: with the mean training error, or
for the other problems with the experiment of `xcs_rl_exp` (xcs_rl.c:77-93, see `rlExp`) about to
begin. -/
inductive Done (K B R : Type)
  | fitted (error : K) (p : SysPar K) (s : St K (List K) B R)
  | experiment (e : Problem K) (p : SysPar K) (s : St K (List K) B R)

/-- The parameters the program starts with: `env_init` and `config_read`, main.c:43-48. -/
def prepare (w : World K B R) (disk : Disk) (kind arg config : List Char) :
    Res (Problem K × SysPar K × R) := do
  let (e, x, y, a) ← envInit w disk kind arg
  let (p, r) ← configRead w disk config (sysInit w.rng w.seeds w.error w.explore x y a)
  .ok (e, p, r)

/-- The rest of the program, main.c:49-62. A population file named in the configuration is not
modelled. -/
def work (w : World K B R) (e : Problem K) (p : SysPar K) (r : R) (saved : Option (List Char)) :
    Res (Done K B R) := do
  let s ← xcsfInit (w.par p) (w.kit p) r
  let (p, s) ← match saved with
    | none => .ok (p, s)
    | some f => w.load f p s
  match e with
  | .csv train test => do
    let (err, s) ← fitGo (w.par p) (w.kit p) p train test p.maxTrials.toNat 0 0 s
    .ok (.fitted (err / ((p.maxTrials : Int) : K)) p s)
  | e => .ok (.experiment e p s)

/-- `main`, main.c:34-67. `argv` holds the program's name and the arguments. -/
def main (w : World K B R) (disk : Disk) : List (List Char) → Res (Done K B R)
  | [_, kind, arg] => do
    let (e, p, r) ← prepare w disk kind arg "default.json".toList
    work w e p r none
  | [_, kind, arg, config] => do
    let (e, p, r) ← prepare w disk kind arg config
    work w e p r none
  | [_, kind, arg, config, saved] => do
    let (e, p, r) ← prepare w disk kind arg config
    work w e p r (some saved)
  | _ => .error .exit

end Xcsf.Program
