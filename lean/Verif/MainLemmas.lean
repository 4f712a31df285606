import Verif.MainSpec
import Verif.ParamValid

/-!
# Lemmas for property C107: the stand-alone program
-/

set_option linter.unusedSectionVars false

namespace Xcsf.Program
open Xcsf

variable {K B R : Type} [Field K] [LinearOrder K] [IsStrictOrderedRing K] [FloorRing K]

theorem fileName_short {base suffix : List Char} (h : base.length ≤ 187) (hs : suffix.length ≤ 12) :
    fileName base suffix = base ++ suffix := by
  unfold fileName
  exact List.take_of_length_le (by rw [List.length_append]; omega)

theorem readFile_table {w : World K B R} (hn : ∀ t, w.num (t ++ ['\n']) = w.num t) {disk : Disk}
    {name : List Char} {d : Nat} {rows : List (List (List Char))} (T : Table disk name d rows) :
    readFile w disk name = .ok (rows.flatten.map w.num, rows.length, d) := by
  unfold readFile openOrExit
  rw [T.file]
  exact C68_csv_partial w.num hn d T.cols rows T.some T.ok

theorem flatten_len {d : Nat} : ∀ {L : List (List (List Char))}, (∀ row ∈ L, CsvOk d row) →
    L.flatten.length = L.length * d
  | [], _ => by simp
  | a :: L, hL => by
    rw [List.flatten_cons, List.length_append,
      flatten_len (fun q hq => hL q (List.mem_cons_of_mem _ hq)), (hL a List.mem_cons_self).fields,
      List.length_cons, Nat.succ_mul, Nat.add_comm]

/-- A row of an array. -/
theorem window_row (num : List Char → K) {d : Nat} : ∀ {rows : List (List (List Char))},
    (∀ row ∈ rows, CsvOk d row) → ∀ {i : Nat} (h : i < rows.length),
    window (rows.flatten.map num) d d i = .ok ((rows[i]).map num) := by
  intro rows hr i h
  have hsplit : ∀ {L : List (List (List Char))}, (∀ row ∈ L, CsvOk d row) → ∀ {i : Nat} (h : i < L.length),
      (L.flatten.drop (i * d)).take d = L[i] := by
    intro L
    induction L with
    | nil => intro _ i h; exact absurd h (by simp)
    | cons a L ih =>
      intro hL i h
      have ha : a.length = d := (hL a List.mem_cons_self).fields
      cases i with
      | zero => rw [Nat.zero_mul, List.drop_zero, List.flatten_cons, List.take_append_of_le_length (by omega),
          List.take_of_length_le (by omega)]; rfl
      | succ i =>
        have hd : (a ++ L.flatten).drop d = L.flatten := by rw [← ha]; exact List.drop_left
        rw [List.flatten_cons, Nat.succ_mul, Nat.add_comm, ← List.drop_drop, hd]
        exact ih (fun q hq => hL q (List.mem_cons_of_mem _ hq)) (by simpa using h)
  unfold window
  have hl : i * d + d ≤ rows.length * d := by
    rw [← Nat.succ_mul]; exact Nat.mul_le_mul_right _ h
  rw [if_pos (by rw [List.length_map, flatten_len hr]; exact hl), ← List.map_drop, ← List.map_take, hsplit hr h]

/-- A complete data set, as the program holds it. -/
def inMemory (num : List Char → K) (dx dy : Nat) (xs ys : List (List (List Char))) : CsvInput K :=
  { x := xs.flatten.map num, y := ys.flatten.map num, xDim := dx, yDim := dy, nSamples := ys.length }

theorem window_out {a : List K} {d n i : Nat} (ha : a.length = n * d) (hd : 0 < d) (h : n ≤ i) :
    window a d d i = .error .ub := by
  unfold window
  have : n * d ≤ i * d := Nat.mul_le_mul_right _ h
  rw [if_neg (by rw [ha]; omega)]

theorem dataAt_row (num : List Char → K) {dx dy : Nat} {xs ys : List (List (List Char))}
    (hx : ∀ row ∈ xs, CsvOk dx row) (hy : ∀ row ∈ ys, CsvOk dy row) (hl : xs.length = ys.length)
    (h0x : 0 < dx) (i : Int) :
    dataAt (inMemory num dx dy xs ys) (dx : Int) (dy : Int) i = rowAt (samples num xs ys) i := by
  by_cases h0 : 0 ≤ i
  · unfold dataAt rowAt
    rw [if_pos h0, if_pos h0]
    show (do let x ← window (xs.flatten.map num) dx (dx : Int).toNat i.toNat
             let y ← window (ys.flatten.map num) dy (dy : Int).toNat i.toNat
             .ok (x, y)) = _
    rw [Int.toNat_natCast, Int.toNat_natCast]
    by_cases h1 : i.toNat < ys.length
    · rw [window_row num hx (i := i.toNat) (by omega), window_row num hy (i := i.toNat) h1]
      unfold samples
      rw [List.getElem?_eq_getElem (by simp [hl, h1]), List.getElem_zipWith]
      rfl
    · rw [window_out (n := xs.length) (by rw [List.length_map, flatten_len hx]) h0x (by omega)]
      unfold samples
      rw [List.getElem?_eq_none (by simp [hl]; omega)]
      rfl
  · unfold dataAt rowAt
    rw [if_neg h0, if_neg h0]

/-- The loop on arrays is the loop on the list of samples. -/
theorem fitGo_eq (par : Params K) (kit : Kit K (List K) B R) (p : SysPar K) (num : List Char → K)
    {dx dy : Nat} {xs ys us vs : List (List (List Char))} (hx : ∀ row ∈ xs, CsvOk dx row)
    (hy : ∀ row ∈ ys, CsvOk dy row) (hu : ∀ row ∈ us, CsvOk dx row) (hv : ∀ row ∈ vs, CsvOk dy row)
    (h1 : xs.length = ys.length) (h2 : us.length = vs.length) (h0x : 0 < dx)
    (px : p.xDim = dx) (py : p.yDim = dy) : ∀ (k cnt : Nat) (err : K) (s : St K (List K) B R),
    fitGo par kit p (inMemory num dx dy xs ys) (inMemory num dx dy us vs) k cnt err s =
      supFitGo par kit (samples num xs ys) (some (samples num us vs)) true 0 k cnt err s
  | 0, _, _, _ => rfl
  | k + 1, cnt, err, s => by
    have n1 : (inMemory num dx dy xs ys).nSamples = (samples num xs ys).length := by
      show ys.length = _
      simp [samples, h1]
    have n2 : (inMemory num dx dy us vs).nSamples = (samples num us vs).length := by
      show vs.length = _
      simp [samples, h2]
    unfold fitGo supFitGo
    rw [n1, n2, px, py]
    simp only [dataAt_row num hx hy h1 h0x, dataAt_row num hu hv h2 h0x, Nat.add_zero,
      fitGo_eq par kit p num hx hy hu hv h1 h2 h0x px py k]
    simp only [bind, Except.bind]

/-- The dimensions of a system are changed by nothing but their own parameters. -/
theorem dims_keep (g : Rng K R) (sd : Seeds R) (a b : Int) :
    ∀ e ∈ paramTable g sd, e.1 ≠ "x_dim" → e.1 ≠ "y_dim" →
      Preserves (OnFst fun p : SysPar K => p.xDim = a ∧ p.yDim = b ∧ 1 ≤ p.maxTrials) e.2 := by
  unfold paramTable
  simp only [List.forall_mem_cons]
  refine ⟨?_, ?_, ?_, ?_, ?_, ?_, ?_, ?_, ?_, ?_, ?_, ?_, ?_, ?_, ?_, ?_, ?_, ?_, ?_, ?_, ?_, ?_,
    ?_, ?_, ?_, ?_, ?_, ?_, ?_, ?_, ?_, ?_, ?_, by simp⟩ <;> intro n1 n2
  · intro j h s s' e e' V
    cases e
    cases e'
    exact V
  · exact absurd rfl n1
  · exact absurd rfl n2
  · exact preserves_int (by intro v s hv hi V; exact V)
  · exact preserves_int (by intro v s hv hi V; exact V)
  · exact preserves_int (by intro v s hv hi V; exact V)
  · intro j h s s' e e' V
    cases j <;> simp only [fileSet, reduceCtorEq] at e
    cases e
    cases e'
    exact V
  · exact preserves_int (by intro v s hv hi V; exact V)
  · exact preserves_int (by intro v s hv hi V; exact ⟨V.1, V.2.1, of_decide_eq_true hv⟩)
  · exact preserves_bool (by intro v s V; exact V)
  · exact preserves_int (by intro v s hv hi V; exact V)
  · exact preserves_name (by intro t c s hc V; exact V)
  · exact preserves_num (by intro v s hv V; exact V)
  · exact preserves_int (by intro v s hv hi V; exact V)
  · exact preserves_num (by intro v s hv V; exact V)
  · exact preserves_num (by intro v s hv V; exact V)
  · exact preserves_bool (by intro v s V; exact V)
  · exact preserves_int (by intro v s hv hi V; exact V)
  · exact preserves_num (by intro v s hv V; exact V)
  · exact preserves_num (by intro v s hv V; exact V)
  · exact preserves_num (by intro v s hv V; exact V)
  · exact preserves_num (by intro v s hv V; exact V)
  · exact preserves_int (by intro v s hv hi V; exact V)
  · exact preserves_num (by intro v s hv V; exact V)
  · exact preserves_num (by intro v s hv V; exact V)
  · exact preserves_num (by intro v s hv V; exact V)
  · exact preserves_int (by intro v s hv hi V; exact V)
  · exact preserves_bool (by intro v s V; exact V)
  · exact preserves_bool (by intro v s V; exact V)
  · refine preserves_any fun j s s' h V => ?_
    unfold eaStep at h
    cases hj : j.members with
    | error _ => rw [hj] at h; cases h
    | ok l =>
      simp only [hj, bind, Except.bind] at h
      cases e : importAll eaTable s.1.ea l with
      | error e' => rw [e] at h; cases h
      | ok v =>
        rw [e] at h
        cases h
        exact V
  · refine preserves_any fun j s s' h V => ?_
    unfold actStep at h
    cases e : actParImport s.1.xDim s.1.act j with
    | error e' => simp only [e, bind, Except.bind] at h; cases h
    | ok v =>
      simp only [e, bind, Except.bind] at h
      cases h
      exact V
  · refine preserves_any fun j s s' h V => ?_
    unfold condStep at h
    cases e : condParImport g s.1.xDim s.1.cond j s.2 with
    | error e' => simp only [e, bind, Except.bind] at h; cases h
    | ok v =>
      simp only [e, bind, Except.bind] at h
      cases h
      exact V
  · refine preserves_any fun j s s' h V => ?_
    unfold predStep at h
    cases e : predParImport s.1.xDim s.1.pred j with
    | error e' => simp only [e, bind, Except.bind] at h; cases h
    | ok v =>
      simp only [e, bind, Except.bind] at h
      cases h
      exact V

theorem import_dims {g : Rng K R} {sd : Seeds R} {a b : Int} : ∀ {l : List (String × Json K)}
    {s s' : SysPar K × R}, (∀ m ∈ l, m.1 ≠ "x_dim" ∧ m.1 ≠ "y_dim") →
    importAll (paramTable g sd) s l = .ok s' → s.1.xDim = a ∧ s.1.yDim = b ∧ 1 ≤ s.1.maxTrials →
      s'.1.xDim = a ∧ s'.1.yDim = b ∧ 1 ≤ s'.1.maxTrials := by
  intro l
  induction l with
  | nil => intro s s' _ h hp; cases h; exact hp
  | cons m l ih =>
    intro s s' hm h hp
    unfold importAll at h
    rw [List.foldlM_cons] at h
    cases e : importMember (paramTable g sd) s m with
    | error e' => simp only [e, bind, Except.bind] at h; cases h
    | ok s1 =>
      simp only [e, bind, Except.bind] at h
      refine ih (fun q hq => hm q (List.mem_cons_of_mem _ hq)) h ?_
      unfold importMember at e
      split at e
      · cases e
      next f hl =>
      split at e
      · cases e
      next k hk =>
      have hmem := mem_of_lookup hl
      exact dims_keep g sd a b _ hmem (hm m List.mem_cons_self).1 (hm m List.mem_cons_self).2 hk e hp

theorem config_dims {w : World K B R} {disk : Disk} {config : List Char} {s s' : SysPar K × R}
    {a b : Int} (hq : KeepsSize w disk config) (h : configRead w disk config s = .ok s')
    (hp : s.1.xDim = a ∧ s.1.yDim = b ∧ 1 ≤ s.1.maxTrials) :
    s'.1.xDim = a ∧ s'.1.yDim = b ∧ 1 ≤ s'.1.maxTrials := by
  unfold configRead at h
  cases hd : disk config with
  | none => rw [hd] at h; cases h; exact hp
  | some f =>
    rw [hd] at h
    cases ht : configText f with
    | error e => simp only [ht, bind, Except.bind] at h; cases h
    | ok t =>
      simp only [ht, bind, Except.bind] at h
      cases hj : w.json t with
      | none => rw [hj] at h; cases h
      | some j =>
        simp only [hj] at h
        unfold paramImport at h
        cases hm : j.members with
        | error e => simp only [hm, bind, Except.bind] at h; cases h
        | ok l =>
          simp only [hm, bind, Except.bind] at h
          refine import_dims (fun m hml => ?_) h hp
          cases j with
          | obj l' =>
            cases hm
            exact hq f t l hd ht hj m hml
          | arr l' =>
            cases l' with
            | nil => cases hm; cases hml
            | cons _ _ => cases hm
          | _ => cases hm; cases hml

theorem csvInit_tables {w : World K B R} (hn : ∀ t, w.num (t ++ ['\n']) = w.num t) {disk : Disk}
    {base : List Char} {dx dy du dv : Nat} {xs ys us vs : List (List (List Char))}
    (hb : base.length ≤ 187) (t1 : Table disk (base ++ "_train_x.csv".toList) dx xs)
    (t2 : Table disk (base ++ "_train_y.csv".toList) dy ys)
    (t3 : Table disk (base ++ "_test_x.csv".toList) du us)
    (t4 : Table disk (base ++ "_test_y.csv".toList) dv vs) :
    csvInit w disk base = .ok (.csv (inMemory w.num dx dy xs ys) (inMemory w.num du dv us vs),
      (dx : Int), (dy : Int), 1) := by
  unfold csvInit readData
  rw [fileName_short hb (by decide), fileName_short hb (by decide),
    fileName_short hb (by decide), fileName_short hb (by decide),
    readFile_table hn t1, readFile_table hn t2, readFile_table hn t3, readFile_table hn t4]
  rfl

theorem csvInit_ok {w : World K B R} (hn : ∀ t, w.num (t ++ ['\n']) = w.num t) {disk : Disk}
    {base : List Char} {dx dy : Nat} {xs ys us vs : List (List (List Char))}
    (D : DataSet disk base dx dy xs ys us vs) :
    csvInit w disk base = .ok (.csv (inMemory w.num dx dy xs ys) (inMemory w.num dx dy us vs),
      (dx : Int), (dy : Int), 1) :=
  csvInit_tables hn D.name D.trainX D.trainY D.testX D.testY

theorem envInit_csv {w : World K B R} {disk : Disk} {base : List Char} :
    envInit w disk "csv".toList base = csvInit w disk base := by
  unfold envInit
  rw [if_neg (by decide), if_neg (by decide), if_pos rfl]

end Xcsf.Program
