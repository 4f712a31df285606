import Verif.Basic

/-!
# Configuration files and CSV data (`config.c`, `env_csv.c`)

Files are lists of characters.  Opening a file that does not exist, and the parser of the JSON
text (cJSON), are not modelled.
-/

namespace Xcsf

/-- `fgets(buf, n + 1, f)` on the rest of a file: at most `n` characters up to and including a
line end; with what remains. -/
def fgets1 : Nat → List Char → List Char × List Char
  | 0, l => ([], l)
  | _ + 1, [] => ([], [])
  | n + 1, c :: cs =>
    if c = '\n' then ([c], cs)
    else
      let r := fgets1 n cs
      (c :: r.1, r.2)

/-- The buffers filled by calling `fgets(buf, n + 1, f)` until it returns NULL.  The bound on
the number of calls, the length of the file, is never reached before the end. -/
def fgetsGo (n : Nat) : Nat → List Char → List (List Char)
  | 0, _ => []
  | _ + 1, [] => []
  | fuel + 1, c :: cs =>
    let r := fgets1 n (c :: cs)
    r.1 :: fgetsGo n fuel r.2

def fgetsAll (n : Nat) (file : List Char) : List (List Char) := fgetsGo n file.length file

/-- A buffer as a C string: it ends at the first NUL. -/
def cstr (l : List Char) : List Char := l.takeWhile (· ≠ '\x00')

/-! ## `config.c` -/

/-- The characters removed by `config_trim`, config.c:38. -/
def isBlank (c : Char) : Bool := c = ' ' || c = '\t' || c = '\n' || c = '\r'

/-- `config_trim`, config.c:33-42. -/
def configTrim (l : List Char) : List Char := (cstr l).filter (fun c => !isBlank c)

/-- What one line adds to the text, config.c:67-74: nothing if it is empty or a comment, else
the part before the first `#`. -/
def configLine (l : List Char) : List Char :=
  let t := configTrim l
  if t = [] ∨ t.head? = some '#' then [] else t.takeWhile (· ≠ '#')

/-- `strncat(file_buff, line_buff, MAXLEN)`, config.c:75, into a buffer of `len` characters.
Lines are shorter than `MAXLEN`. -/
def configAppend (len : Nat) (acc l : List Char) : Res (List Char) :=
  if acc.length + l.length + 1 ≤ len then .ok (acc ++ l) else .error .ub

/-- The loop of `config_read`, config.c:63-76.  Skipped lines do not touch the buffer. -/
def configGo (len : Nat) : List (List Char) → List Char → Res (List Char)
  | [], acc => .ok acc
  | l :: ls, acc =>
    let t := configTrim l
    if t = [] ∨ t.head? = some '#' then configGo len ls acc
    else do
      let acc ← configAppend len acc (configLine l)
      configGo len ls acc

/-- `MAXLEN - 2`, the size passed to `fgets` in `config_read`, config.c:27 and 64, which reads
one character less. -/
abbrev configChunk : Nat := 124

/-- `config_read`, config.c:49-79: the text passed to `param_json_import`.  The buffer is a
variable-length array of the length of the file, which may not be zero. -/
def configText (file : List Char) : Res (List Char) :=
  if file.length = 0 then .error .ub
  else configGo file.length (fgetsAll configChunk file) []

/-! ## `env_csv.c` -/

/-- The tokens `strtok_r` returns for a line and the delimiter `,`: the non-empty stretches
between commas.  `cur` is the current token, reversed. -/
def strtokGo : List Char → List Char → List (List Char)
  | cur, [] => if cur = [] then [] else [cur.reverse]
  | cur, c :: cs =>
    if c = ',' then (if cur = [] then strtokGo [] cs else cur.reverse :: strtokGo [] cs)
    else strtokGo (c :: cur) cs

def strtok (line : List Char) : List (List Char) := strtokGo [] (cstr line)

/-- `MAX_COLS - 1`, env_csv.c:28. -/
abbrev csvChunk : Nat := 199

/-- `env_csv_samples`, env_csv.c:37-46. -/
def csvSamples (file : List Char) : Nat := (fgetsAll csvChunk file).length

/-- `env_csv_dim`, env_csv.c:53-70. -/
def csvDim (file : List Char) : Nat :=
  match fgetsAll csvChunk file with
  | [] => 0
  | l :: _ => (strtok l).length

/-- The first `nDim` fields of one line, env_csv.c:91-96.  `num` is `strtod`.  A missing token
is a NULL pointer, which `strtod` dereferences. -/
def csvRow {K : Type} (num : List Char → K) : Nat → List (List Char) → Res (List K)
  | 0, _ => .ok []
  | _ + 1, [] => .error .ub
  | n + 1, t :: ts => do
    let r ← csvRow num n ts
    .ok (num t :: r)

/-- The loop of `env_csv_read_data`, env_csv.c:90-98. -/
def csvRows {K : Type} (num : List Char → K) (nDim : Nat) : List (List Char) → Res (List K)
  | [] => .ok []
  | l :: ls => do
    let r ← csvRow num nDim (strtok l)
    let rest ← csvRows num nDim ls
    .ok (r ++ rest)

/-- `env_csv_read`, env_csv.c:109-129: the data, the number of samples and of columns. -/
def csvRead {K : Type} (num : List Char → K) (file : List Char) : Res (List K × Nat × Nat) :=
  if 0 < csvSamples file ∧ 0 < csvDim file then do
    let d ← csvRows num (csvDim file) (fgetsAll csvChunk file)
    .ok (d, csvSamples file, csvDim file)
  else .error .exit

/-- `struct Input`, xcsf.h. -/
structure CsvInput (K : Type) where
  x : List K
  y : List K
  xDim : Nat
  yDim : Nat
  nSamples : Nat

/-- Reading one data set, env_csv.c:142-152: `n_samples` is set by both files, the last one
wins. -/
def csvInput {K : Type} (num : List Char → K) (fx fy : List Char) : Res (CsvInput K) := do
  let x ← csvRead num fx
  let y ← csvRead num fy
  .ok { x := x.1, y := y.1, xDim := x.2.2, yDim := y.2.2, nSamples := y.2.1 }

end Xcsf
