import Verif.SerialSys

/-!
# Pickling through a temporary file

Python's `pickle` writes a system to the file `_tmp_pickle.bin` of the current directory, reads that
file into a string and removes it; `unpickle` writes a string to the file, makes a new system, loads
the file and removes it.  Several processes may do so at the same time.  Files are inodes: a file that
is open when its name is removed goes on existing for the process that has opened it.

Simplified: what a process writes arrives in one piece when the file is closed; opening, closing,
reading and removing are atomic.  Threads of one process hold Python's global lock all the time.
-/

namespace Xcsf
namespace Pickle

/-- The directories as far as the temporary file is concerned (`name`), and the contents of
inodes. -/
structure Disk where
  name : Nat → Option Nat
  data : Nat → List UInt8
  next : Nat

/-- Where a process is: before opening the file for writing, with the file open, after closing it,
after reading it, and at the end.  `none` is a file that could not be opened for reading. -/
inductive Stage where
  | start
  | opened (i : Nat)
  | closed
  | got (b : Option (List UInt8))
  | done (b : Option (List UInt8))
  deriving DecidableEq

/-- One step of a process that writes `own` in directory `dir`: `fopen(filename, "wb")` or
`std::ofstream` (an existing file is emptied), closing (the bytes are written from the beginning on),
reading everything, `std::remove`; pybind_wrapper.cpp:635-651 and 658-679. -/
def move (dir : Nat) (own : List UInt8) : Stage → Disk → Stage × Disk
  | .start, d =>
    match d.name dir with
    | some i => (.opened i, { d with data := fun k => if k = i then [] else d.data k })
    | none => (.opened d.next,
        { name := fun k => if k = dir then some d.next else d.name k
          data := fun k => if k = d.next then [] else d.data k
          next := d.next + 1 })
  | .opened i, d => (.closed,
      { d with data := fun k => if k = i then own ++ (d.data i).drop own.length else d.data k })
  | .closed, d => (.got ((d.name dir).map d.data), d)
  | .got b, d => (.done b, { d with name := fun k => if k = dir then none else d.name k })
  | .done b, d => (.done b, d)

/-- All processes and the disk. -/
structure World where
  stage : Nat → Stage
  disk : Disk

/-- One step of process `p`. -/
def tick (dir : Nat → Nat) (own : Nat → List UInt8) (w : World) (p : Nat) : World :=
  { stage := fun q => if q = p then (move (dir p) (own p) (w.stage p) w.disk).1 else w.stage q
    disk := (move (dir p) (own p) (w.stage p) w.disk).2 }

/-- The processes make steps in the given order. -/
def ticks (dir : Nat → Nat) (own : Nat → List UInt8) : List Nat → World → World
  | [], w => w
  | p :: ps, w => ticks dir own ps (tick dir own w p)

/-- What `serialize` returns when the process is done: an unreadable file gives the empty string,
pybind_wrapper.cpp:641-650. -/
def pickled : Stage → Option (List UInt8)
  | .done b => some (b.getD [])
  | _ => none

section
variable {K R : Type} [Field K] [LinearOrder K] [IsStrictOrderedRing K] [FloorRing K]

/-- `deserialize`, pybind_wrapper.cpp:658-679, in a process by itself: `new` is the system that the
constructor without arguments makes. -/
def unpickle (c : Codec K) (g : Rng K R) (new : Sys K R) (bytes : List UInt8) : Res (Sys K R) := do
  let p ← sysLoad c g new (some bytes)
  .ok p.1

/-- A system made by `XCS()`, pybind_wrapper.cpp:89-93: one input, one output, one action
(`param_init(&xcs, 1, 1, 1)`, pybind_wrapper.cpp:127), a prediction array of one element (pa.c:46-53),
no rules. -/
structure Blank (s : Sys K R) : Prop where
  xDim : s.par.xDim = 1
  yDim : s.par.yDim = 1
  nActions : s.par.nActions = 1
  paSize : s.paSize = 1
  rules : s.rules = []

end

end Pickle
end Xcsf
