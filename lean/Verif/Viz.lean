import Verif.Json
import Mathlib.Algebra.Order.Floor.Ring

/-!
# Drawing tree and graph conditions (`xcsf/utils/viz.py`)

The two Python classes get what `json.loads` makes of the exported conditions.  A Python exception
is an outcome of its own (`Err`).  The reading functions of a tree call each other; the number of
nested calls is limited by Python, and exceeding the limit is an exception.

The calls of the library `graphviz` are recorded: the picture is the list of the nodes and the
list of the edges in the order in which they were added.
-/

namespace Xcsf.Viz

/-- Exceptions: `IndexError`, `KeyError`, `RecursionError`, `TypeError`, `ValueError`,
`ZeroDivisionError`. -/
inductive Err where
  | index | key | recursion | type | value | zero
  deriving DecidableEq, Repr

/-- The outcome of a Python call. -/
abbrev Py (α : Type) := Except Err α

/-- A label: a text, a number printed as an integer, or a number printed with five decimals, in
units of the last decimal. -/
inductive Lab where
  | text (s : String)
  | whole (z : Int)
  | fixed (z : Int)
  deriving DecidableEq, Repr

section
variable {K : Type} [Field K] [LinearOrder K] [IsStrictOrderedRing K] [FloorRing K]

/-- `symbol.split("_") if "_" in symbol else (symbol, "")`, viz.py:67 and viz.py:142: exactly two
parts can be assigned. -/
def splitName (s : String) : Py (String × String) :=
  let start := s.toList.takeWhile (· ≠ '_')
  match s.toList.dropWhile (· ≠ '_') with
  | [] => .ok (s, "")
  | _ :: rest => if '_' ∈ rest then .error .value else .ok (String.ofList start, String.ofList rest)

/-- The name of an input, viz.py:66-69 and viz.py:141-144.  Numbers after the underscore that are
not written as natural numbers are errors here (they are never exported). -/
def nameLabel (names : List String) (s : String) : Py Lab := do
  let (start, rest) ← splitName s
  if start = "feature" then
    match rest.toNat? with
    | none => .error .value
    | some i =>
      match names[i]? with
      | some name => .ok (.text name)
      | none => .ok (.text s)
  else .ok (.text s)

/-- A number, viz.py:70-72 and viz.py:145-147: a number that is an integer is written into the
document without decimals (`cJSON_Print`), so that it is no `float` in Python.  Simplified: huge
integers are written with an exponent, and exact halves are rounded to even. -/
def numLabel (v : K) : Lab :=
  if (⌊v⌋ : K) = v then .whole ⌊v⌋ else .fixed ⌊v * 100000 + 1 / 2⌋

/-- `label` of both classes, viz.py:64-72 and viz.py:139-147.  Only texts and numbers occur. -/
def label (names : Option (List String)) : Json K → Py Lab
  | .str s =>
    match names with
    | some l => nameLabel l s
    | none => .ok (.text s)
  | .num v => .ok (numLabel v)
  | _ => .error .type

/-! ## Trees -/

/-- What has been drawn of a tree; the name of a node is the text of its number. -/
structure Pic where
  nodes : List (Nat × Lab)
  edges : List (Nat × Nat)
  deriving DecidableEq, Repr

/-- The attributes `pos`, `cnt` and `gviz` of `TreeViz`, viz.py:56-58. -/
structure Reader where
  pos : Nat
  cnt : Nat
  pic : Pic
  deriving DecidableEq, Repr

/-- `symbol == text`. -/
def isText (t : String) : Json K → Bool
  | .str s => s == t
  | _ => false

/-- `symbol in ("+", "-", "*", "/")`, viz.py:78. -/
def isOp (j : Json K) : Bool := isText "+" j || isText "-" j || isText "*" j || isText "/" j

/-- A new node with the given label, viz.py:81, 84 and viz.py:97-98. -/
def Reader.add (q : Reader) (l : Lab) (edges : List Nat) : Reader :=
  { q with cnt := q.cnt + 1,
           pic := ⟨q.pic.nodes ++ [(q.cnt + 1, l)],
             q.pic.edges ++ edges.map fun e => (q.cnt + 1, e)⟩ }

mutual

/-- `read_function`, viz.py:74-86.  The first number is the number of nested calls that Python
still allows. -/
def readFunction (names : Option (List String)) (tree : List (Json K)) :
    Nat → Reader → Py (Nat × Reader)
  | 0, _ => .error .recursion
  | d + 1, q => do
    let (e1, q) ← readSub names tree d q
    match tree[q.pos]? with
    | none => .error .index
    | some symbol =>
      if isOp symbol then do
        let (e2, q) ← readFunction names tree d { q with pos := q.pos + 1 }
        let l ← label names symbol
        .ok (e2, q.add l [e1, e2])
      else .ok (e1, q)

/-- `read_subexpr`, viz.py:88-98. -/
def readSub (names : Option (List String)) (tree : List (Json K)) :
    Nat → Reader → Py (Nat × Reader)
  | 0, _ => .error .recursion
  | d + 1, q =>
    match tree[q.pos]? with
    | none => .error .index
    | some symbol =>
      if isText "(" symbol then do
        let (_, q) ← readFunction names tree d { q with pos := q.pos + 1 }
        .ok (q.cnt, { q with pos := q.pos + 1 })
      else do
        let l ← label names symbol
        let q := { q with pos := q.pos + 1 }.add l []
        .ok (q.cnt, q)

end

/-- `TreeViz(tree, …)`, viz.py:34-62: the picture. -/
def treeViz (limit : Nat) (names : Option (List String)) (tree : List (Json K)) : Py Pic := do
  let (_, q) ← readSub names tree limit ⟨0, 0, ⟨[], []⟩⟩
  .ok q.pic

/-! ## Graphs -/

/-- The names of the nodes of a graph: `str(i)` and `"feature_%d"`. -/
inductive Name where
  | node (i : Int)
  | feature (i : Int)
  deriving DecidableEq, Repr

/-- What has been drawn of a graph: the nodes with their labels, the features with theirs (a
feature that is used repeatedly is added repeatedly), the edges, and the two numbers of the
caption. -/
structure Net where
  nodes : List (Int × String)
  features : List (Int × Lab)
  edges : List (Name × Name)
  n : Int
  t : Int
  deriving DecidableEq, Repr

/-- `graph[key]`. -/
def member (j : Json K) (key : String) : Py (Json K) :=
  match j.item key with
  | some v => .ok v
  | none => .error .key

/-- An integer. -/
def asInt : Json K → Py Int
  | .num v => if (⌊v⌋ : K) = v then .ok ⌊v⌋ else .error .type
  | _ => .error .type

/-- A list. -/
def asList : Json K → Py (List (Json K))
  | .arr l => .ok l
  | _ => .error .type

/-- A text. -/
def asText : Json K → Py String
  | .str s => .ok s
  | _ => .error .type

/-- `a[i]` for an index that is not negative. -/
def at' {α : Type} (l : List α) (i : Nat) : Py α :=
  match l[i]? with
  | some a => .ok a
  | none => .error .index

/-- One connection, viz.py:156-163. -/
def drawEdge (names : Option (List String)) (nIn : Int) (conn : List (Json K)) (k i : Nat) (g : Net)
    (j : Nat) : Py Net := do
  let c ← at' conn (i * k + j)
  let src ← asInt c
  if src < nIn then do
    let l ← label names (.str ("feature_" ++ toString src) : Json K)
    .ok { g with features := g.features ++ [(src, l)],
                 edges := g.edges ++ [(.feature src, .node i)] }
  else .ok { g with edges := g.edges ++ [(.node (src - nIn), .node i)] }

/-- One node with its connections, viz.py:152-163 (node 0 is shaded, viz.py:153). -/
def drawNode (names : Option (List String)) (nIn : Int) (funcs conn : List (Json K)) (k : Nat)
    (g : Net) (i : Nat) : Py Net := do
  let f ← at' funcs i
  let s ← asText f
  let m := if s = "Fuzzy NOT" then 1 else k
  (List.range m).foldlM (drawEdge names nIn conn k i) { g with nodes := g.nodes ++ [((i : Int), s)] }

/-- `DGPViz(graph, …)`, viz.py:105-163. -/
def dgpViz (names : Option (List String)) (graph : Json K) : Py Net := do
  let n ← member graph "n" >>= asInt
  let nIn ← member graph "n_inputs" >>= asInt
  let funcs ← member graph "functions" >>= asList
  let conn ← member graph "connectivity" >>= asList
  if n = 0 then .error .zero
  else do
    let k := ((conn.length : Int).tdiv n).toNat
    let g ← (List.range n.toNat).foldlM (drawNode names nIn funcs conn k) ⟨[], [], [], n, 0⟩
    let t ← member graph "t" >>= asInt
    .ok { g with t := t }

end
end Xcsf.Viz
