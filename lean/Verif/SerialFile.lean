import Verif.Basic
import Mathlib.Tactic.Common

/-!
# Files of numbers (`fwrite`, `fread`)

A file is written as a list of elements, each of one C type; `encodeItems` turns the elements into bytes.
What is read is described by a program `Rd` that asks for one element after the other; it is run on
a list of bytes, or, to reason about it, on a list of elements.
-/

namespace Xcsf

/-- One element of a file: the value of an `int`, `double`, `bool`, `char`, `uint32_t` or
`size_t`. -/
inductive Item (K : Type) where
  | int (v : Int)
  | dbl (v : K)
  | bool (b : Bool)
  | chr (c : Char)
  | u32 (n : Nat)
  | size (n : Nat)
  deriving DecidableEq, Repr

/-- How a `double` is stored: eight bytes. -/
structure Codec (K : Type) where
  enc : K → List UInt8
  dec : List UInt8 → K
  len : ∀ v, (enc v).length = 8

/-- The `w` low bytes of a number, the lowest first. -/
def leBytes : Nat → Nat → List UInt8
  | 0, _ => []
  | w + 1, n => UInt8.ofNat n :: leBytes w (n / 256)

/-- The number with the given bytes, the lowest first. -/
def leVal : List UInt8 → Nat
  | [] => 0
  | b :: bs => b.toNat + 256 * leVal bs

/-- The 32 bits of an `int` in two's complement, as a number. -/
def intBits (v : Int) : Nat := (v % 4294967296).toNat

/-- The `int` with the given 32 bits. -/
def bitsInt (n : Nat) : Int := if n < 2147483648 then (n : Int) else (n : Int) - 4294967296

variable {K α β : Type}

/-- The bytes `fwrite` puts into the file for one element. -/
def Item.bytes (c : Codec K) : Item K → List UInt8
  | .int v => leBytes 4 (intBits v)
  | .dbl v => c.enc v
  | .bool b => [if b then 1 else 0]
  | .chr ch => [UInt8.ofNat ch.toNat]
  | .u32 n => leBytes 4 n
  | .size n => leBytes 8 n

/-- The bytes of a file. -/
def encodeItems (c : Codec K) (is : List (Item K)) : List UInt8 := is.flatMap (Item.bytes c)

/-- The value fits its C type. -/
def Item.Fits (c : Codec K) : Item K → Prop
  | .int v => -2147483648 ≤ v ∧ v < 2147483648
  | .dbl v => c.dec (c.enc v) = v
  | .bool _ => True
  | .chr ch => ch.toNat < 256
  | .u32 n => n < 4294967296
  | .size n => n < 18446744073709551616

/-- A program that reads elements.  It is given nothing at the end of the file: then `fread` leaves
the variable as it was. -/
inductive Rd (K α : Type) where
  | ret (a : α)
  | fail (e : Fault)
  | int (k : Option Int → Rd K α)
  | dbl (k : Option K → Rd K α)
  | bool (k : Option Bool → Rd K α)
  | chr (k : Option Char → Rd K α)
  | u32 (k : Option Nat → Rd K α)
  | size (k : Option Nat → Rd K α)

/-- One program after the other. -/
def Rd.bind : Rd K α → (α → Rd K β) → Rd K β
  | .ret a, f => f a
  | .fail e, _ => .fail e
  | .int k, f => .int fun v => (k v).bind f
  | .dbl k, f => .dbl fun v => (k v).bind f
  | .bool k, f => .bool fun v => (k v).bind f
  | .chr k, f => .chr fun v => (k v).bind f
  | .u32 k, f => .u32 fun v => (k v).bind f
  | .size k, f => .size fun v => (k v).bind f

instance : Monad (Rd K) where
  pure := .ret
  bind := Rd.bind

/-- The next `w` bytes; nothing at the end of the file, undefined if only some of them are left:
then `fread` leaves the variable indeterminate. -/
def chunk (w : Nat) (bs : List UInt8) : Res (Option (List UInt8) × List UInt8) :=
  if bs = [] then .ok (none, [])
  else if bs.length < w then .error .ub
  else .ok (some (bs.take w), bs.drop w)

/-- Whether an element was read, as `fread` counts them. -/
def counted (o : Option α) : Nat := if o.isSome then 1 else 0

/-- A program reading bytes: the result, the bytes left and the number of elements read so far.
A byte other than zero and one is not a `bool`. -/
def Rd.runB (c : Codec K) : Rd K α → List UInt8 → Nat → Res (α × List UInt8 × Nat)
  | .ret a, bs, n => .ok (a, bs, n)
  | .fail e, _, _ => .error e
  | .int k, bs, n =>
    match chunk 4 bs with
    | .error e => .error e
    | .ok (o, r) => (k (o.map fun b => bitsInt (leVal b))).runB c r (n + counted o)
  | .dbl k, bs, n =>
    match chunk 8 bs with
    | .error e => .error e
    | .ok (o, r) => (k (o.map c.dec)).runB c r (n + counted o)
  | .bool k, bs, n =>
    match bs with
    | [] => (k none).runB c [] n
    | b :: r =>
      if b = 0 then (k (some false)).runB c r (n + 1)
      else if b = 1 then (k (some true)).runB c r (n + 1)
      else .error .ub
  | .chr k, bs, n =>
    match bs with
    | [] => (k none).runB c [] n
    | b :: r => (k (some (Char.ofNat b.toNat))).runB c r (n + 1)
  | .u32 k, bs, n =>
    match chunk 4 bs with
    | .error e => .error e
    | .ok (o, r) => (k (o.map leVal)).runB c r (n + counted o)
  | .size k, bs, n =>
    match chunk 8 bs with
    | .error e => .error e
    | .ok (o, r) => (k (o.map leVal)).runB c r (n + counted o)

/-- A program reading elements; an element of another type than the one asked for is outside this
way of running it (`hang`, which no program that reads files fails with). -/
def Rd.runI : Rd K α → List (Item K) → Res (α × List (Item K))
  | .ret a, is => .ok (a, is)
  | .fail e, _ => .error e
  | .int k, [] => (k none).runI []
  | .int k, .int v :: is => (k (some v)).runI is
  | .dbl k, [] => (k none).runI []
  | .dbl k, .dbl v :: is => (k (some v)).runI is
  | .bool k, [] => (k none).runI []
  | .bool k, .bool v :: is => (k (some v)).runI is
  | .chr k, [] => (k none).runI []
  | .chr k, .chr v :: is => (k (some v)).runI is
  | .u32 k, [] => (k none).runI []
  | .u32 k, .u32 v :: is => (k (some v)).runI is
  | .size k, [] => (k none).runI []
  | .size k, .size v :: is => (k (some v)).runI is
  | _, _ :: _ => .error .hang

/-! ## Reading one element or an array -/

/-- `fread` of an `int` into a variable that holds `old`. -/
def getInt (old : Int) : Rd K Int := .int fun v => .ret (v.getD old)
/-- The same for a `double`. -/
def getDbl (old : K) : Rd K K := .dbl fun v => .ret (v.getD old)
/-- The same for a `bool`. -/
def getBool (old : Bool) : Rd K Bool := .bool fun v => .ret (v.getD old)
/-- The same for a `size_t`. -/
def getSize (old : Nat) : Rd K Nat := .size fun v => .ret (v.getD old)
/-- The same for a `uint32_t`. -/
def getU32 (old : Nat) : Rd K Nat := .u32 fun v => .ret (v.getD old)

/-- `fread` of an `int` into memory that has not been written: indeterminate at the end of the
file. -/
def newInt : Rd K Int := .int fun v =>
  match v with
  | some v => .ret v
  | none => .fail .ub
/-- The same for a `double`. -/
def newDbl : Rd K K := .dbl fun v =>
  match v with
  | some v => .ret v
  | none => .fail .ub
/-- The same for a `bool`. -/
def newBool : Rd K Bool := .bool fun v =>
  match v with
  | some v => .ret v
  | none => .fail .ub
/-- The same for a `char`. -/
def newChr : Rd K Char := .chr fun v =>
  match v with
  | some v => .ret v
  | none => .fail .ub
/-- The same for a `uint32_t`. -/
def newU32 : Rd K Nat := .u32 fun v =>
  match v with
  | some v => .ret v
  | none => .fail .ub
/-- An `int` that is a size: the model has natural numbers, a negative one is undefined
behaviour. -/
def newNat : Rd K Nat := .int fun v =>
  match v with
  | some v => if v < 0 then .fail .ub else .ret v.toNat
  | none => .fail .ub

/-- `fread` of `n` elements into new memory; a file that ends before is reported as undefined (the
rest of the array keeps what it held). -/
def getArr (one : Rd K α) : Nat → Rd K (List α)
  | 0 => .ret []
  | n + 1 => do
    let a ← one
    let r ← getArr one n
    .ret (a :: r)

end Xcsf
