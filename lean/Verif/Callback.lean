import Verif.Trial
import Mathlib.Algebra.Order.Field.Basic

/-!
# Training callbacks (`pybind_callback_earlystop.h`, `pybind_callback_checkpoint.h`)

The system is any type `S` with functions that store and retrieve the population and write the
file; `PropsCallback` instantiates the former with `xcsf_store_pset` and `xcsf_retrieve_pset`.
Metrics are read from the dictionary of the wrapper: its last error and its last number of
trials.  Messages are not modelled.
-/

namespace Xcsf

section
variable {K S : Type} [Sub K] [LT K] [DecidableLT K] [Zero K]

/-! ## Early stopping -/

/-- The settings of an `EarlyStoppingCallback`, pybind_callback_earlystop.h:168-172. -/
structure EsPar (K : Type) where
  patience : Int
  restore : Bool
  minDelta : K
  startFrom : Int

/-- Its state, pybind_callback_earlystop.h:175-177. -/
structure Es (K : Type) where
  bestErr : K
  bestTrial : Int
  doRestore : Bool

/-- The constructor, pybind_callback_earlystop.h:56-79: `none` is an exception.  `huge` is the
largest `double`. -/
def esNew (huge : K) (p : EsPar K) : Option (Es K) :=
  if p.patience < 0 then none
  else if p.minDelta < 0 then none
  else some ⟨huge, 0, false⟩

/-- Recording an improvement, pybind_callback_earlystop.h:134-140, with `store`, lines 85-97. -/
def esNote (store : S → Res S) (p : EsPar K) (e : Es K) (trial : Int) (err : K) (s : S) :
    Res (Es K × S) :=
  if err < e.bestErr - p.minDelta then
    if p.restore then do
      let s ← store s
      .ok (⟨err, trial, true⟩, s)
    else .ok ({ e with bestErr := err, bestTrial := trial }, s)
  else .ok (e, s)

/-- The decision to stop, pybind_callback_earlystop.h:141-152, with `retrieve`, lines 103-116. -/
def esStop (retrieve : S → Res S) (p : EsPar K) (e : Es K) (trial : Int) (s : S) :
    Res (Bool × Es K × S) :=
  if e.bestTrial < trial - p.patience then
    if p.restore then do
      let s ← retrieve s
      .ok (true, { e with doRestore := false }, s)
    else .ok (true, e, s)
  else .ok (false, e, s)

/-- `run`, pybind_callback_earlystop.h:124-153. -/
def esRun (store retrieve : S → Res S) (p : EsPar K) (e : Es K) (trial : Int) (err : K) (s : S) :
    Res (Bool × Es K × S) :=
  if trial < p.startFrom then .ok (false, e, s)
  else do
    let q ← esNote store p e trial err s
    esStop retrieve p q.1 trial q.2

/-- `finish`, pybind_callback_earlystop.h:159-165. -/
def esFinish (retrieve : S → Res S) (p : EsPar K) (e : Es K) (s : S) : Res (Es K × S) :=
  if p.restore && e.doRestore then do
    let s ← retrieve s
    .ok ({ e with doRestore := false }, s)
  else .ok (e, s)

/-- The loop of `fit`, pybind_wrapper.cpp:520-533, with one early stopping callback.  Each
epoch is a change of the system and the error it reports; `counter` is `metric_counter` and
`n` the number of trials of an epoch.  `hist` are the metrics reported so far (trials and
error, `update_metrics`, pybind_wrapper.cpp), together with the system at that time, which the
code does not keep.  The result tells whether training was stopped. -/
def esLoop (store retrieve : S → Res S) (p : EsPar K) (n : Nat) :
    List ((S → Res S) × K) → Nat → List (Int × K × S) → Es K → S →
    Res (Bool × List (Int × K × S) × Es K × S)
  | [], _, hist, e, s => .ok (false, hist, e, s)
  | (f, err) :: rest, counter, hist, e, s => do
    let s ← f s
    let t : Int := ((1 + counter) * n : Nat)
    let q ← esRun store retrieve p e t err s
    if q.1 then .ok (true, hist ++ [(t, err, s)], q.2)
    else esLoop store retrieve p n rest (counter + 1) (hist ++ [(t, err, s)]) q.2.1 q.2.2

/-- `fit` with one early stopping callback, pybind_wrapper.cpp:498-536. -/
def esFit (store retrieve : S → Res S) (p : EsPar K) (n : Nat) (epochs : List ((S → Res S) × K))
    (counter : Nat) (e : Es K) (s : S) : Res (Bool × List (Int × K × S) × Es K × S) := do
  let q ← esLoop store retrieve p n epochs counter [] e s
  let t ← esFinish retrieve p q.2.2.1 q.2.2.2
  .ok (q.1, q.2.1, t)

/-! ## Checkpoints -/

/-- The settings of a `CheckpointCallback`, pybind_callback_checkpoint.h:124-128. -/
structure CkPar where
  bestOnly : Bool
  freq : Int

/-- Its state, pybind_callback_checkpoint.h:130-131, and the file. -/
structure Ck (K S : Type) where
  bestErr : K
  saveTrial : Int := 0
  file : Option S := none

/-- The constructor, pybind_callback_checkpoint.h:51-70: `none` is an exception. -/
def ckNew (huge : K) (p : CkPar) : Option (Ck K S) :=
  if p.freq < 0 then none else some { bestErr := huge }

/-- `run`, pybind_callback_checkpoint.h:93-110.  The result tells whether the file was
written. -/
def ckRun (p : CkPar) (c : Ck K S) (trial : Int) (err : K) (s : S) : Bool × Ck K S :=
  if c.saveTrial + p.freq ≤ trial then
    let save := !p.bestOnly || decide (err < c.bestErr)
    let c := if save then { c with saveTrial := trial, file := some s } else c
    (save, if err < c.bestErr then { c with bestErr := err } else c)
  else (false, c)

/-- `finish`, pybind_callback_checkpoint.h:116-122. -/
def ckFinish (p : CkPar) (c : Ck K S) (s : S) : Ck K S :=
  if p.bestOnly then c else { c with file := some s }

/-- The checkpoints made for a sequence of reports: trial, error and system. -/
def ckLoop (p : CkPar) : List (Int × K × S) → Ck K S → List (Int × K × S) × Ck K S
  | [], c => ([], c)
  | (t, err, s) :: rest, c =>
    let q := ckRun p c t err s
    let r := ckLoop p rest q.2
    (if q.1 then (t, err, s) :: r.1 else r.1, r.2)

end
end Xcsf
