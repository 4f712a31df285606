import Verif.PickleLemmas
import Verif.PropsSerial

/-!
# C100: pickling

`pickle.dumps(xcs)` gives the contents of the file that `save` writes, and `pickle.loads` makes a
system that has the parameters and rules of the one that was pickled.

Both use the fixed name `_tmp_pickle.bin` in the current directory.  Processes that pickle at the same
time are safe if their directories differ or if they do it one after another; otherwise (refuted) one
of them gets the system of the other and the other gets nothing.

The system that comes back has the prediction array of a system with one output and one action
(refuted for all other systems): its first prediction writes outside of the array.
-/

set_option linter.unusedSectionVars false

namespace Xcsf
namespace Pickle

section
variable {K R : Type} [Field K] [LinearOrder K] [IsStrictOrderedRing K] [FloorRing K]

/-! ## One process -/

/-- **C100 (round trip).**  A whole system that is pickled and unpickled has the same parameters
(constants of GP trees that are not in use are those of the new system) and the same rules, in the same
order, with the same counts; networks lose what is not saved (C25). -/
theorem C100_round_trip_partial (c : Codec K) (g : Rng K R) {s new : Sys K R} (h : s.Whole)
    (hp : ∀ q ∈ s.rules, ruleNets FNet.plain q = true)
    (hc : s.par.cond.targs.nConstants ≤ new.par.cond.targs.constants.length)
    (hf : ∀ i ∈ sysItems s, i.Fits c) :
    ∃ s', unpickle c g new (sysSave c s).1 = .ok s' ∧
      s'.par = s.par.onto new.par ∧ s'.rules = s.rules.map (ruleMapNet FNet.fresh) ∧
      s'.size = s.size ∧ s'.num = s.num := by
  obtain ⟨s', e, h1⟩ := C25_round_trip_partial c g h hp hc hf
  refine ⟨s', ?_, h1⟩
  simp only [unpickle, e]
  rfl

/-- **C100 (prediction array).**  The prediction array of a system that was unpickled is as large as
its outputs and actions need if and only if it has one output and one action. -/
theorem C100_array_fits_partial (c : Codec K) (g : Rng K R) {s new : Sys K R} (h : s.Whole)
    (hb : Blank new) (hc : s.par.cond.targs.nConstants ≤ new.par.cond.targs.constants.length)
    (hf : ∀ i ∈ sysItems s, i.Fits c) :
    ∃ s', unpickle c g new (sysSave c s).1 = .ok s' ∧
      (s'.par.nActions * s'.par.yDim = s'.paSize ↔ s.par.nActions * s.par.yDim = 1) := by
  obtain ⟨r, e⟩ := sys_reads g h hc
  have e2 : sysLoad c g new (some (sysSave c s).1) = _ := bytes_of_reads c e hf
  refine ⟨_, by unfold unpickle; rw [e2]; rfl, ?_⟩
  show s.par.nActions * s.par.yDim = new.paSize ↔ _
  rw [hb.paSize]

/-- **C100 (prediction array) refuted.**  Whatever system was pickled: if a rule of a later match set
advocates an action other than the first, or if there is more than one output, the next prediction of
the unpickled system writes outside of its prediction array. -/
theorem C100_array_refuted (c : Codec K) (g : Rng K R) {s new : Sys K R} (h : s.Whole)
    (hb : Blank new) (hc : s.par.cond.targs.nConstants ≤ new.par.cond.targs.constants.length)
    (hf : ∀ i ∈ sysItems s, i.Fits c) (hy : 0 < s.par.yDim) :
    ∃ s', unpickle c g new (sysSave c s).1 = .ok s' ∧
      ∀ mset : List (Cl K (Body K)), (∃ q ∈ mset, 1 < (q.action + 1) * s.par.yDim) →
        paRules s'.par.yDim.toNat mset (List.replicate s'.paSize.toNat 0)
          (List.replicate s'.paSize.toNat 0) = .error .ub := by
  obtain ⟨r, e⟩ := sys_reads g h hc
  have e2 : sysLoad c g new (some (sysSave c s).1) = _ := bytes_of_reads c e hf
  refine ⟨_, by unfold unpickle; rw [e2]; rfl, fun mset hm => ?_⟩
  obtain ⟨q, hq, ha⟩ := hm
  show paRules s.par.yDim.toNat mset (List.replicate new.paSize.toNat 0)
          (List.replicate new.paSize.toNat 0) = .error .ub
  refine paRules_outside hq (by omega) ?_
  rw [List.length_replicate, hb.paSize]
  rw [show ((s.par.yDim.toNat : Nat) : Int) = s.par.yDim by omega]
  exact ha

/-- **C100 (empty string).**  Loading what a process got that found no file ends the program. -/
theorem C100_empty_exits (c : Codec K) (g : Rng K R) (new : Sys K R) :
    unpickle c g new [] = .error .exit := by
  rfl

/-! ## Several processes -/

/-- **C100 (own directories).**  Whatever the schedule: if no other process works in the directory of
process `p`, then `p` can only get its own bytes, and it gets them after four steps. -/
theorem C100_own_directory_partial (dir : Nat → Nat) (own : Nat → List UInt8) (d : Disk) (hd : d.Sound)
    (p : Nat) (hp : ∀ q, q ≠ p → dir q ≠ dir p) (l : List Nat) :
    (∀ b, pickled ((ticks dir own l ⟨fun _ => .start, d⟩).stage p) = some b → b = own p) ∧
      (4 ≤ l.count p →
        (ticks dir own l ⟨fun _ => .start, d⟩).stage p = .done (some (own p))) := by
  have h : Alone dir own p (ticks dir own l ⟨fun _ => .start, d⟩) :=
    alone_ticks hp l _ ⟨hd, (fun q i _ e => by cases e), trivial⟩
  have hm := h.mine
  refine ⟨fun b e => ?_, fun hl => ?_⟩
  · cases es : (ticks dir own l ⟨fun _ => .start, d⟩).stage p with
    | done b' =>
      rw [es] at hm e
      have hb : b' = some (own p) := hm
      subst hb
      cases e
      rfl
    | start => rw [es] at e; cases e
    | opened i => rw [es] at e; cases e
    | closed => rw [es] at e; cases e
    | got b' => rw [es] at e; cases e
  · have hr := rank_ticks (dir := dir) (own := own) p l ⟨fun _ => .start, d⟩
    obtain ⟨b, es⟩ := rank_done (st := (ticks dir own l ⟨fun _ => .start, d⟩).stage p)
      (by
        have h0 : rank (World.stage ⟨fun _ => .start, d⟩ p) = 0 := rfl
        rw [h0] at hr
        omega)
    rw [es] at hm ⊢
    have hb : b = some (own p) := hm
    rw [hb]

/-- **C100 (one after another).**  If each process ends before the next begins, every process gets its
own bytes, whatever directories they use, and no file is left in these directories. -/
theorem C100_one_after_another_partial (dir : Nat → Nat) (own : Nat → List UInt8) (ps : List Nat)
    (hn : ps.Nodup) (w : World) (hw : ∀ p ∈ ps, w.stage p = .start) :
    ∀ p ∈ ps, (ticks dir own (ps.flatMap fun p => [p, p, p, p]) w).stage p = .done (some (own p)) ∧
      (ticks dir own (ps.flatMap fun p => [p, p, p, p]) w).disk.name (dir p) = none := by
  have key : ∀ (ps : List Nat) (w : World), ps.Nodup → (∀ p ∈ ps, w.stage p = .start) →
      (∀ p ∈ ps, (ticks dir own (ps.flatMap fun p => [p, p, p, p]) w).stage p =
        .done (some (own p))) ∧
      (∀ q, q ∉ ps → (ticks dir own (ps.flatMap fun p => [p, p, p, p]) w).stage q = w.stage q) ∧
      (∀ p ∈ ps, (ticks dir own (ps.flatMap fun p => [p, p, p, p]) w).disk.name (dir p) = none) ∧
      (∀ k, w.disk.name k = none →
        (ticks dir own (ps.flatMap fun p => [p, p, p, p]) w).disk.name k = none) := by
    intro ps
    induction ps with
    | nil => intro w _ _; exact ⟨by simp, fun q _ => rfl, by simp, fun k h => h⟩
    | cons p ps ih =>
      intro w hn hw
      rw [List.nodup_cons] at hn
      obtain ⟨b1, b2, b3, b4⟩ := ticks_block dir own p w (hw p List.mem_cons_self)
      have hne : ∀ q ∈ ps, q ≠ p := fun q hq e => hn.1 (e ▸ hq)
      obtain ⟨i1, i2, i3, i4⟩ := ih (ticks dir own [p, p, p, p] w) hn.2 fun q hq =>
        (b2 q (hne q hq)).trans (hw q (List.mem_cons_of_mem _ hq))
      rw [List.flatMap_cons, ticks_append]
      refine ⟨fun q hq => ?_, fun q hq => ?_, fun q hq => ?_, fun k hk => ?_⟩
      · rcases List.mem_cons.1 hq with rfl | hq
        · rw [i2 q hn.1, b1]
        · exact i1 q hq
      · rw [List.mem_cons, not_or] at hq
        rw [i2 q hq.2, b2 q hq.1]
      · rcases List.mem_cons.1 hq with rfl | hq
        · exact i4 _ b3
        · exact i3 q hq
      · refine i4 k ?_
        by_cases e : k = dir p
        · rw [e]; exact b3
        · rw [b4 k e]; exact hk
  obtain ⟨h1, -, h2, -⟩ := key ps w hn hw
  exact fun p hp => ⟨h1 p hp, h2 p hp⟩

/-- **C100 (processes) refuted.**  For all systems: of two processes that pickle at the same time in
one directory, one can get the system of the other, while the other gets an empty string without an
error, which ends the program that loads it. -/
theorem C100_same_directory_refuted (c : Codec K) (g : Rng K R) (s0 s1 : Sys K R) (d : Disk) :
    ∃ l : List Nat, l.count 0 = 4 ∧ l.count 1 = 4 ∧
      let w := ticks (fun _ => 0) (fun p => if p = 0 then (sysSave c s0).1 else (sysSave c s1).1) l
        ⟨fun _ => .start, d⟩
      pickled (w.stage 0) = some (sysSave c s1).1 ∧ pickled (w.stage 1) = some [] ∧
        ∀ new, unpickle c g new [] = .error .exit := by
  refine ⟨[0, 0, 1, 1, 0, 0, 1, 1], rfl, rfl, ?_, ?_, fun new => C100_empty_exits c g new⟩
  · cases e : d.name 0 <;> simp [ticks, tick, move, pickled, e]
  · cases e : d.name 0 <;> simp [ticks, tick, move, pickled, e]

end

/-! ## The hypotheses are met -/

/-- A system as `XCS()` makes it. -/
def blankSys : Sys ℚ Nat :=
  { demoTarget with par := { demoTarget.par with xDim := 1 } }

theorem blankSys_blank : Blank blankSys := ⟨rfl, rfl, rfl, rfl, rfl⟩

/-- A system with three actions, pickled and unpickled. -/
example : ∃ s', unpickle halves (stepRng 4 fun _ => 0) blankSys (sysSave halves demoSys).1 = .ok s' ∧
    s'.par = demoSys.par.onto blankSys.par ∧
    s'.rules = demoSys.rules.map (ruleMapNet FNet.fresh) ∧ s'.size = 2 ∧ s'.num = 4 :=
  C100_round_trip_partial halves _ demoSys_whole (by decide) (by decide) demoSys_fits

/-- A match set with the rules of that system writes outside. -/
example : ∃ s', unpickle halves (stepRng 4 fun _ => 0) blankSys (sysSave halves demoSys).1 = .ok s' ∧
    paRules s'.par.yDim.toNat demoSys.rules (List.replicate s'.paSize.toNat 0)
      (List.replicate s'.paSize.toNat 0) = .error .ub := by
  obtain ⟨s', e, h⟩ := C100_array_refuted halves (stepRng 4 fun _ => 0) demoSys_whole blankSys_blank
    (by decide) demoSys_fits (by decide)
  exact ⟨s', e, h _ ⟨fileRule 2, by simp [demoSys], by decide⟩⟩

/-- The array does not fit. -/
example : ∃ s', unpickle halves (stepRng 4 fun _ => 0) blankSys (sysSave halves demoSys).1 = .ok s' ∧
    s'.par.nActions * s'.par.yDim ≠ s'.paSize := by
  obtain ⟨s', e, h⟩ := C100_array_fits_partial halves (stepRng 4 fun _ => 0) demoSys_whole
    blankSys_blank (by decide) demoSys_fits
  exact ⟨s', e, fun e' => absurd (h.1 e') (by decide)⟩

/-- Two processes, each in its own directory, in an entangled order. -/
example : (ticks id (fun p => [UInt8.ofNat p, 7]) [0, 1, 1, 0, 0, 1, 1, 0]
    ⟨fun _ => .start, ⟨fun _ => none, fun _ => [], 0⟩⟩).stage 1 = .done (some [1, 7]) :=
  (C100_own_directory_partial id _ ⟨fun _ => none, fun _ => [], 0⟩
    ⟨by simp, by simp⟩ 1 (by intro q h; exact h) _).2 (by decide)

/-- Two processes in one directory, one after the other. -/
example : (ticks (fun _ => 0) (fun p => [UInt8.ofNat p, 7]) [0, 0, 0, 0, 1, 1, 1, 1]
    ⟨fun _ => .start, ⟨fun _ => none, fun _ => [], 0⟩⟩).stage 1 = .done (some [1, 7]) :=
  (C100_one_after_another_partial (fun _ => 0) (fun p => [UInt8.ofNat p, 7]) [0, 1] (by decide)
    ⟨fun _ => .start, ⟨fun _ => none, fun _ => [], 0⟩⟩ (by simp) 1 (by simp)).1

end Pickle
end Xcsf
