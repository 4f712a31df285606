import Verif.MainLemmas
import Verif.Demo

/-!
# Property C107: the stand-alone program learns from the files it is given
-/

set_option linter.unusedSectionVars false

namespace Xcsf.Program
open Xcsf

variable {K B R : Type} [Field K] [LinearOrder K] [IsStrictOrderedRing K] [FloorRing K]

/-- A command line with the wrong number of arguments ends the program with a message. -/
theorem C107_usage (w : World K B R) (disk : Disk) (argv : List (List Char))
    (h : argv.length < 3 ∨ 5 < argv.length) : main w disk argv = .error .exit := by
  match argv, h with
  | [], _ => rfl
  | [_], _ => rfl
  | [_, _], _ => rfl
  | [_, _, _], h => simp at h
  | [_, _, _, _], h => simp at h
  | [_, _, _, _, _], h => simp at h
  | _ :: _ :: _ :: _ :: _ :: _ :: _, _ => rfl

/-- Without a third argument the configuration is `default.json`. -/
theorem C107_default (w : World K B R) (disk : Disk) (prog kind arg : List Char) :
    main w disk [prog, kind, arg] = main w disk [prog, kind, arg, "default.json".toList] := rfl

theorem prepare_exit {w : World K B R} {disk : Disk} {prog kind arg : List Char} {rest : List (List Char)}
    (hr : rest.length ≤ 2) (h : envInit w disk kind arg = .error .exit) :
    main w disk (prog :: kind :: arg :: rest) = .error .exit := by
  have hp : ∀ c, prepare w disk kind arg c = .error .exit := by
    intro c
    unfold prepare
    rw [h]
    rfl
  match rest, hr with
  | [], _ => show (prepare _ _ _ _ _ >>= _) = _; rw [hp]; rfl
  | [_], _ => show (prepare _ _ _ _ _ >>= _) = _; rw [hp]; rfl
  | [_, _], _ => show (prepare _ _ _ _ _ >>= _) = _; rw [hp]; rfl
  | _ :: _ :: _ :: _, h => simp at h

/-- A kind of problem the program does not know ends it with a message. -/
theorem C107_unknown_problem (w : World K B R) (disk : Disk) (prog kind arg : List Char)
    (rest : List (List Char)) (hr : rest.length ≤ 2) (h1 : kind ≠ "mp".toList)
    (h2 : kind ≠ "maze".toList) (h3 : kind ≠ "csv".toList) :
    main w disk (prog :: kind :: arg :: rest) = .error .exit := by
  apply prepare_exit hr
  unfold envInit
  rw [if_neg h1, if_neg h2, if_neg h3]

/-- A maze that cannot be opened ends the program with a message. -/
theorem C107_missing_maze (w : World K B R) (disk : Disk) (prog arg : List Char)
    (rest : List (List Char)) (hr : rest.length ≤ 2) (h : disk arg = none) :
    main w disk (prog :: "maze".toList :: arg :: rest) = .error .exit := by
  apply prepare_exit hr
  unfold envInit openOrExit
  rw [if_neg (by decide), if_pos rfl, h]
  rfl

/-- Training inputs that cannot be opened end the program with a message. -/
theorem C107_missing_data (w : World K B R) (disk : Disk) (prog base : List Char)
    (rest : List (List Char)) (hr : rest.length ≤ 2)
    (h : disk (fileName base "_train_x.csv".toList) = none) :
    main w disk (prog :: "csv".toList :: base :: rest) = .error .exit := by
  apply prepare_exit hr
  rw [envInit_csv]
  unfold csvInit readData readFile openOrExit
  rw [h]
  rfl

/-- Property C107, a configuration that is not JSON: no system is built from it. -/
theorem C107_bad_config (w : World K B R) (disk : Disk) (prog kind arg config file text : List Char)
    (hf : disk config = some file) (ht : configText file = .ok text) (hj : w.json text = none) :
    (∃ f, main w disk [prog, kind, arg, config] = .error f) ∧
      ∀ e, envInit w disk kind arg = .ok e → main w disk [prog, kind, arg, config] = .error .exit := by
  have hc : ∀ s, configRead w disk config s = .error .exit := by
    intro s
    unfold configRead
    simp only [hf, ht, bind, Except.bind, hj]
  have hm : main w disk [prog, kind, arg, config] =
      (prepare w disk kind arg config >>= fun q => work w q.1 q.2.1 q.2.2 none) := rfl
  rw [hm]
  unfold prepare
  cases he : envInit w disk kind arg with
  | error f => exact ⟨⟨f, rfl⟩, fun e h => nomatch h⟩
  | ok e =>
    obtain ⟨a, b, c, d⟩ := e
    simp only [bind, Except.bind, hc]
    exact ⟨⟨_, rfl⟩, fun _ _ => trivial⟩

theorem work_csv {w : World K B R} {p : SysPar K} {r : R} {dx dy : Nat}
    {xs ys us vs : List (List (List Char))} {disk : Disk} {base : List Char}
    (D : DataSet disk base dx dy xs ys us vs) (px : p.xDim = dx) (py : p.yDim = dy)
    (ht : 0 ≤ p.maxTrials) :
    work w (.csv (inMemory w.num dx dy xs ys) (inMemory w.num dx dy us vs)) p r none =
      (xcsfInit (w.par p) (w.kit p) r >>= fun s =>
        learn w (samples w.num xs ys) (samples w.num us vs) (p, s)) := by
  unfold work learn supFit
  cases xcsfInit (w.par p) (w.kit p) r with
  | error e => rfl
  | ok s =>
    simp only [bind, Except.bind]
    rw [fitGo_eq (w.par p) (w.kit p) p w.num D.trainX.ok D.trainY.ok D.testX.ok D.testY.ok
      D.train D.test D.trainX.cols px py, Int.toNat_of_nonneg ht]
    cases supFitGo (w.par p) (w.kit p) (samples w.num xs ys) (some (samples w.num us vs)) true 0
      p.maxTrials.toNat 0 0 s with
    | error e => rfl
    | ok q => rfl

/-- Property C107: given the four files of a data set and a configuration that leaves the numbers of
inputs and outputs alone, the program builds a system with the parameters of the configuration and
the sizes of the files, and it learns from exactly the rows of the training files, for the configured
number of trials, testing on exactly the rows of the test files. What is missing: configurations that
set the sizes, test files of other sizes and long names, see the refutations. -/
theorem C107_learns_the_data_partial (w : World K B R) (hn : ∀ t, w.num (t ++ ['\n']) = w.num t)
    (disk : Disk) (prog base config : List Char) (dx dy : Nat) (xs ys us vs : List (List (List Char)))
    (D : DataSet disk base dx dy xs ys us vs) (hq : KeepsSize w disk config) (p : SysPar K) (r : R)
    (hc : configRead w disk config (sysInit w.rng w.seeds w.error w.explore dx dy 1) = .ok (p, r)) :
    p.xDim = dx ∧ p.yDim = dy ∧ 1 ≤ p.maxTrials ∧
    main w disk [prog, "csv".toList, base, config] =
      (xcsfInit (w.par p) (w.kit p) r >>= fun s =>
        learn w (samples w.num xs ys) (samples w.num us vs) (p, s)) := by
  obtain ⟨px, py, pt⟩ := config_dims (a := dx) (b := dy) hq hc ⟨rfl, rfl, (by decide : (1 : Int) ≤ 100000)⟩
  refine ⟨px, py, pt, ?_⟩
  show (prepare w disk "csv".toList base config >>= fun q => work w q.1 q.2.1 q.2.2 none) = _
  unfold prepare
  rw [envInit_csv, csvInit_ok hn D]
  simp only [bind, Except.bind, hc]
  exact work_csv D px py (by have : 1 ≤ p.maxTrials := pt; omega)

/-- Property C107, continuing a stored experiment: the program learns from the same rows with the
stored system, if that has the sizes of the files. -/
theorem C107_continues_partial (w : World K B R) (hn : ∀ t, w.num (t ++ ['\n']) = w.num t)
    (disk : Disk) (prog base config saved : List Char) (dx dy : Nat)
    (xs ys us vs : List (List (List Char))) (D : DataSet disk base dx dy xs ys us vs)
    (p : SysPar K) (r : R)
    (hc : configRead w disk config (sysInit w.rng w.seeds w.error w.explore dx dy 1) = .ok (p, r))
    (s : St K (List K) B R) (hs : xcsfInit (w.par p) (w.kit p) r = .ok s)
    (q : SysPar K × St K (List K) B R) (hl : w.load saved p s = .ok q)
    (px : q.1.xDim = dx) (py : q.1.yDim = dy) (pt : 0 ≤ q.1.maxTrials) :
    main w disk [prog, "csv".toList, base, config, saved] =
      learn w (samples w.num xs ys) (samples w.num us vs) q := by
  show (prepare w disk "csv".toList base config >>= fun q => work w q.1 q.2.1 q.2.2 (some saved)) = _
  unfold prepare
  rw [envInit_csv, csvInit_ok hn D]
  simp only [bind, Except.bind, hc]
  unfold work learn supFit
  simp only [hs, hl, bind, Except.bind]
  rw [fitGo_eq (w.par q.1) (w.kit q.1) q.1 w.num D.trainX.ok D.trainY.ok D.testX.ok D.testY.ok
    D.train D.test D.trainX.cols px py, Int.toNat_of_nonneg pt]
  cases supFitGo (w.par q.1) (w.kit q.1) (samples w.num xs ys) (some (samples w.num us vs)) true 0
      q.1.maxTrials.toNat 0 0 q.2 with
  | error e => rfl
  | ok q => rfl

/-- The loop with training rows that are too short. -/
theorem fitGo_ub {par : Params K} {kit : Kit K (List K) B R} {p : SysPar K} {train test : CsvInput K}
    (h : ∀ i, dataAt train p.xDim p.yDim i = .error .ub) (k cnt : Nat) (err : K)
    (s : St K (List K) B R) : fitGo par kit p train test (k + 1) cnt err s = .error .ub := by
  unfold fitGo sample
  rw [if_pos rfl]
  simp only [bind, Except.bind, h]

/-- Refuted for configurations that set the number of inputs: with `"x_dim": 2` and a training file
with one column the rows are read across their ends. The input of the first sample is made of the
first two rows. -/
theorem C107_x_dim_refuted (num : List Char → K) (a b y z : List Char) :
    dataAt (inMemory num 1 1 [[a], [b]] [[y], [z]]) 2 1 0 = .ok ([num a, num b], [num y]) := rfl

/-- Refuted for configurations that set the number of inputs: with one column and one row, any
configuration that asks for two inputs makes the program read past the end of the data. -/
theorem C107_x_dim_ub_refuted (w : World K B R) (hn : ∀ t, w.num (t ++ ['\n']) = w.num t)
    (disk : Disk) (prog base config a y : List Char) (us vs : List (List (List Char)))
    (D : DataSet disk base 1 1 [[a]] [[y]] us vs) (p : SysPar K) (r : R)
    (hc : configRead w disk config (sysInit w.rng w.seeds w.error w.explore 1 1 1) = .ok (p, r))
    (hx : p.xDim = 2) (ht : 1 ≤ p.maxTrials) (s : St K (List K) B R)
    (hs : xcsfInit (w.par p) (w.kit p) r = .ok s) :
    main w disk [prog, "csv".toList, base, config] = .error .ub := by
  have e := csvInit_ok hn D
  rw [Nat.cast_one] at e
  have h : ∀ i, dataAt (inMemory w.num 1 1 [[a]] [[y]]) p.xDim p.yDim i = .error .ub := by
    intro i
    unfold dataAt window
    rw [hx]
    by_cases h0 : 0 ≤ i
    · rw [if_pos h0, if_neg]
      · rfl
      · show ¬ (i.toNat * 1 + 2 ≤ 1)
        omega
    · rw [if_neg h0]
  show (prepare w disk "csv".toList base config >>= fun q => work w q.1 q.2.1 q.2.2 none) = _
  unfold prepare
  rw [envInit_csv, e]
  simp only [bind, Except.bind, hc]
  unfold work
  simp only [hs, bind, Except.bind]
  obtain ⟨k, hk⟩ : ∃ k, p.maxTrials.toNat = k + 1 := ⟨p.maxTrials.toNat - 1, by omega⟩
  rw [hk, fitGo_ub h]

/-- The loop with test rows that are too short never ends well. -/
theorem fitGo_bad {par : Params K} {kit : Kit K (List K) B R} {p : SysPar K} {train test : CsvInput K}
    (h : ∀ i, dataAt test p.xDim p.yDim i = .error .ub) (k cnt : Nat) (err : K)
    (s : St K (List K) B R) : ∃ f, fitGo par kit p train test (k + 1) cnt err s = .error f := by
  unfold fitGo sample
  simp only [if_true, bind, Except.bind, h]
  cases dataAt train p.xDim p.yDim (uniformInt kit 0 (train.nSamples : Int) s.rng).1 with
  | error e => exact ⟨e, rfl⟩
  | ok d =>
    simp only []
    cases fitStep par kit d.1 d.2 { s with rng := (uniformInt kit 0 (train.nSamples : Int) s.rng).2 } with
    | error e => exact ⟨e, rfl⟩
    | ok q => exact ⟨_, rfl⟩

/-- Refuted for test files of another size: they are not compared with the training files. With two
training columns and a single test value no run of the program ends well, although all files can be
read. -/
theorem C107_test_columns_refuted (w : World K B R) (hn : ∀ t, w.num (t ++ ['\n']) = w.num t)
    (disk : Disk) (prog base config u v : List Char) (xs ys : List (List (List Char)))
    (hb : base.length ≤ 187) (t1 : Table disk (base ++ "_train_x.csv".toList) 2 xs)
    (t2 : Table disk (base ++ "_train_y.csv".toList) 1 ys)
    (t3 : Table disk (base ++ "_test_x.csv".toList) 1 [[u]])
    (t4 : Table disk (base ++ "_test_y.csv".toList) 1 [[v]]) (hq : KeepsSize w disk config)
    (d : Done K B R) : main w disk [prog, "csv".toList, base, config] ≠ .ok d := by
  show (prepare w disk "csv".toList base config >>= fun q => work w q.1 q.2.1 q.2.2 none) ≠ _
  unfold prepare
  rw [envInit_csv, csvInit_tables hn hb t1 t2 t3 t4]
  cases hc : configRead w disk config (sysInit w.rng w.seeds w.error w.explore (2 : Nat) (1 : Nat) 1) with
  | error f => simp only [bind, Except.bind, hc]; exact fun h => nomatch h
  | ok q =>
    obtain ⟨p, r⟩ := q
    obtain ⟨px, py, pt⟩ := config_dims (a := 2) (b := 1) hq hc ⟨rfl, rfl, (by decide : (1 : Int) ≤ 100000)⟩
    simp only [bind, Except.bind, hc]
    have h : ∀ i, dataAt (inMemory w.num 1 1 [[u]] [[v]]) p.xDim p.yDim i = .error .ub := by
      intro i
      unfold dataAt window
      rw [px]
      by_cases h0 : 0 ≤ i
      · rw [if_pos h0, if_neg]
        · rfl
        · show ¬ (i.toNat * 1 + 2 ≤ 1)
          omega
      · rw [if_neg h0]
    unfold work
    cases xcsfInit (w.par p) (w.kit p) r with
    | error e => simp only [bind, Except.bind]; exact fun h => nomatch h
    | ok s =>
      simp only [bind, Except.bind]
      obtain ⟨k, hk⟩ : ∃ k, p.maxTrials.toNat = k + 1 := ⟨p.maxTrials.toNat - 1, by have : 1 ≤ p.maxTrials := pt; omega⟩
      obtain ⟨f, hf⟩ := fitGo_bad (par := w.par p) (kit := w.kit p)
        (train := inMemory w.num 2 1 xs ys) h k 0 0 s
      rw [hk, hf]
      exact fun h => nomatch h

/-- Refuted for long names: the name of a file is cut after 199 characters, so that a data set whose
name has 188 or more characters is not found although its four files are there. -/
theorem C107_long_name_refuted (w : World K B R) (prog base config : List Char)
    (hb : 188 ≤ base.length) (disk : Disk)
    (hd : ∀ name, (disk name).isSome ↔ name ∈ ["_train_x.csv", "_train_y.csv", "_test_x.csv",
      "_test_y.csv"].map (base ++ ·.toList)) :
    main w disk [prog, "csv".toList, base, config] = .error .exit := by
  apply C107_missing_data w disk prog _ [config] (by simp)
  cases h : disk (fileName base "_train_x.csv".toList) with
  | none => rfl
  | some f =>
    exfalso
    have hm := (hd _).1 (by rw [h]; rfl)
    have hl : (fileName base "_train_x.csv".toList).length = 199 := by
      unfold fileName
      have e : "_train_x.csv".toList.length = 12 := by decide
      rw [List.length_take, List.length_append, e]
      omega
    have key : ∀ t : List Char, t.length = 11 → "_train_x.csv".toList.take 11 ≠ t →
        fileName base "_train_x.csv".toList ≠ base ++ t := by
      intro t ht hne he
      have hb' : base.length = 188 := by
        have := congrArg List.length he
        rw [hl, List.length_append, ht] at this
        omega
      unfold fileName at he
      rw [List.take_append, List.take_of_length_le (by omega), hb'] at he
      exact hne (List.append_cancel_left he)
    have long : ∀ t : List Char, t.length = 12 → fileName base "_train_x.csv".toList ≠ base ++ t := by
      intro t ht he
      have := congrArg List.length he
      rw [hl, List.length_append, ht] at this
      omega
    simp only [List.map_cons, List.map_nil, List.mem_cons, List.not_mem_nil, or_false] at hm
    rcases hm with e | e | e | e
    · exact long _ (by decide) e
    · exact long _ (by decide) e
    · exact key _ (by decide) (by decide) e
    · exact key _ (by decide) (by decide) e

/-- Refuted for problem sizes that are not numbers: `strtoimax` gives zero, and the program begins the
experiment with a single bit instead of ending with a message. -/
theorem C107_size_refuted (w : World K B R) (disk : Disk) (prog arg config : List Char)
    (h : w.int arg = 0) (p : SysPar K) (r : R)
    (hc : configRead w disk config (sysInit w.rng w.seeds w.error w.explore 1 1 2) = .ok (p, r))
    (s : St K (List K) B R) (hs : xcsfInit (w.par p) (w.kit p) r = .ok s) :
    main w disk [prog, "mp".toList, arg, config] =
      .ok (.experiment (.mp { posBits := 0, state := [0] }) p s) := by
  show (prepare w disk "mp".toList arg config >>= fun q => work w q.1 q.2.1 q.2.2 none) = _
  unfold prepare envInit
  rw [if_pos rfl, h]
  have e : (mpInit 0 : Problem K × Int × Int × Int) = (.mp { posBits := 0, state := [0] }, 1, 1, 2) := rfl
  rw [e]
  simp only [bind, Except.bind, hc]
  unfold work
  simp only [hs, bind, Except.bind]

/-! ## A concrete run -/

/-- The rules of the demonstration system on the first of the inputs. -/
def listKit : Kit ℚ (List ℚ) (Nat × Nat) Nat :=
  let f : List ℚ → Nat := fun x => (x.headD 0).floor.toNat
  { draw := Demo.kit.draw, floor := Demo.kit.floor, pow := Demo.kit.pow, eps := Demo.kit.eps,
    dblMax := Demo.kit.dblMax, loss := Demo.kit.loss, rand := Demo.kit.rand,
    cover := fun e b x a r => Demo.kit.cover e b (f x) a r
    cmatch := fun e b x r => Demo.kit.cmatch e b (f x) r
    act := fun e b x r => Demo.kit.act e b (f x) r
    predict := fun e b p x r => Demo.kit.predict e b p (f x) r
    update := fun n b p x y r => Demo.kit.update n b p (f x) y r
    general := Demo.kit.general, crossover := Demo.kit.crossover, mutate := Demo.kit.mutate,
    copy := Demo.kit.copy, clone := Demo.kit.clone, condSize := Demo.kit.condSize,
    predSize := Demo.kit.predSize }

/-- Numbers are digits; every configuration asks for three trials. -/
def demoWorld : World ℚ (Nat × Nat) Nat :=
  { num := fun t => (demoNum t : ℚ), int := fun t => (demoNum t : Int),
    json := fun t => if t.head? = some '{' then some (.obj [("max_trials", .num 3)]) else none
    rng := ⟨fun r => (1 / 2, r + 1), fun r => (0, r + 1), id⟩, seeds := ⟨0, fun _ => 0⟩, error := 0
    explore := false, par := fun _ => Demo.par, kit := fun _ => listKit
    load := fun _ p s => .ok (p, s) }

/-- Two training samples and one test sample. -/
def demoDisk : Disk := fun name =>
  if name = "d_train_x.csv".toList then some "1,2\n3,4\n".toList
  else if name = "d_train_y.csv".toList then some "5\n6\n".toList
  else if name = "d_test_x.csv".toList then some "3,2\n".toList
  else if name = "d_test_y.csv".toList then some "7\n".toList
  else if name = "c.json".toList then some "{max}\n".toList
  else none

theorem demoDisk_data : DataSet demoDisk ['d'] 2 1 [[['1'], ['2']], [['3'], ['4']]] [[['5']], [['6']]]
    [[['3'], ['2']]] [[['7']]] where
  trainX := ⟨by decide +kernel, by decide, by decide, by
    simp only [List.forall_mem_cons, List.not_mem_nil, false_implies, implies_true, and_true]
    exact ⟨⟨rfl, by decide, by decide⟩, ⟨rfl, by decide, by decide⟩⟩⟩
  trainY := ⟨by decide +kernel, by decide, by decide, by
    simp only [List.forall_mem_cons, List.not_mem_nil, false_implies, implies_true, and_true]
    exact ⟨⟨rfl, by decide, by decide⟩, ⟨rfl, by decide, by decide⟩⟩⟩
  testX := ⟨by decide +kernel, by decide, by decide, by
    simp only [List.forall_mem_cons, List.not_mem_nil, false_implies, implies_true, and_true]
    exact ⟨rfl, by decide, by decide⟩⟩
  testY := ⟨by decide +kernel, by decide, by decide, by
    simp only [List.forall_mem_cons, List.not_mem_nil, false_implies, implies_true, and_true]
    exact ⟨rfl, by decide, by decide⟩⟩
  train := rfl
  test := rfl
  name := by decide

/-- The configuration of the demonstration sets the number of trials only. -/
theorem demoDisk_size : KeepsSize demoWorld demoDisk "c.json".toList := by
  intro file text l _ _ hj m hm
  simp only [demoWorld] at hj
  split at hj
  · cases hj
    rcases List.mem_singleton.1 hm with rfl
    exact ⟨by decide, by decide⟩
  · cases hj

/-- The demonstration ends with a fitted system. -/
def endsFitted : Res (Done ℚ (Nat × Nat) Nat) → Bool
  | .ok (.fitted _ p s) => p.maxTrials == 3 && p.xDim == 2 && s.time == 3
  | _ => false

example : endsFitted (main demoWorld demoDisk ["xcsf".toList, "csv".toList, ['d'], "c.json".toList])
    = true := by decide +kernel

/-- The same files with a configuration that sets the number of inputs. -/
def wideWorld : World ℚ (Nat × Nat) Nat :=
  { demoWorld with json := fun _ => some (.obj [("x_dim", .num 6), ("max_trials", .num 3)]) }

def endsUb : Res (Done ℚ (Nat × Nat) Nat) → Bool
  | .error .ub => true
  | _ => false

example : endsUb (main wideWorld demoDisk ["xcsf".toList, "csv".toList, ['d'], "c.json".toList])
    = true := by decide +kernel

def endsOneBit : Res (Done ℚ (Nat × Nat) Nat) → Bool
  | .ok (.experiment (.mp m) p _) => m.posBits == 0 && p.xDim == 1
  | _ => false

example : demoWorld.int "six".toList = 0 ∧
    endsOneBit (main demoWorld demoDisk ["xcsf".toList, "mp".toList, "six".toList]) = true := by
  decide +kernel

example : ∀ t, demoWorld.num (t ++ ['\n']) = demoWorld.num t := fun t =>
  congrArg (fun n : Nat => (n : ℚ)) (demoNum_newline t)

end Xcsf.Program
