import Verif.Config
import Verif.PropsEnv

/-!
# C57, C68: configuration files and CSV data
-/

set_option linter.unusedSectionVars false

namespace Xcsf

/-- The contents of a text file: each line followed by a line end. -/
def textFile (lines : List (List Char)) : List Char := lines.flatMap (· ++ ['\n'])

theorem fgets1_line (rest : List Char) : ∀ (l : List Char) (n : Nat), '\n' ∉ l → l.length < n →
    fgets1 n (l ++ '\n' :: rest) = (l ++ ['\n'], rest)
  | [], n + 1, _, _ => by simp [fgets1]
  | [], 0, _, h => absurd h (by simp)
  | c :: l, 0, _, h => absurd h (by simp)
  | c :: l, n + 1, hn, h => by
    have hc : c ≠ '\n' := fun e => hn (by simp [e])
    rw [List.cons_append, fgets1, if_neg hc,
      fgets1_line rest l n (fun e => hn (List.mem_cons_of_mem _ e)) (by simpa using h)]
    rfl

theorem fgetsGo_lines (n : Nat) : ∀ (lines : List (List Char)) (fuel : Nat),
    (∀ l ∈ lines, '\n' ∉ l ∧ l.length < n) → lines.length ≤ fuel →
    fgetsGo n fuel (textFile lines) = lines.map (· ++ ['\n'])
  | [], 0, _, _ => rfl
  | [], fuel + 1, _, _ => rfl
  | l :: lines, 0, _, h => absurd h (by simp)
  | l :: lines, fuel + 1, hl, h => by
    obtain ⟨h1, h2⟩ := hl l (by simp)
    have e : textFile (l :: lines) = l ++ '\n' :: textFile lines := by simp [textFile]
    have ne : ∃ c cs, textFile (l :: lines) = c :: cs := by
      rw [e]; cases l <;> exact ⟨_, _, rfl⟩
    obtain ⟨c, cs, hc⟩ := ne
    rw [hc, fgetsGo]
    rw [← hc, e, fgets1_line _ l n h1 h2]
    dsimp only
    rw [fgetsGo_lines n lines fuel (fun q hq => hl q (List.mem_cons_of_mem _ hq)) (by simpa using h)]
    rfl

theorem textFile_length (lines : List (List Char)) :
    (textFile lines).length = (lines.map List.length).sum + lines.length := by
  induction lines with
  | nil => rfl
  | cons l ls ih =>
    have e : textFile (l :: ls) = l ++ '\n' :: textFile ls := by simp [textFile]
    rw [e]
    simp only [List.length_append, List.length_cons, List.map_cons, List.sum_cons, ih]
    omega

theorem fgetsAll_lines (n : Nat) (lines : List (List Char))
    (h : ∀ l ∈ lines, '\n' ∉ l ∧ l.length < n) :
    fgetsAll n (textFile lines) = lines.map (· ++ ['\n']) :=
  fgetsGo_lines n lines _ h (by rw [textFile_length]; omega)

theorem takeWhile_all {p : Char → Bool} : ∀ {l : List Char}, (∀ c ∈ l, p c = true) → l.takeWhile p = l
  | [], _ => rfl
  | c :: l, h => by
    rw [List.takeWhile_cons, if_pos (h c (by simp)),
      takeWhile_all (fun d hd => h d (List.mem_cons_of_mem _ hd))]

theorem cstr_of_clean {l : List Char} (h : '\x00' ∉ l) : cstr l = l := by
  unfold cstr
  apply takeWhile_all
  intro c hc
  simp only [ne_eq, decide_eq_true_eq]
  rintro rfl
  exact h hc

/-- The part of a line that counts: everything before the first `#`, without blanks. -/
def settingsOf (l : List Char) : List Char := (l.takeWhile (· ≠ '#')).filter (fun c => !isBlank c)

theorem filter_takeWhile_hash : ∀ l : List Char,
    (l.filter (fun c => !isBlank c)).takeWhile (· ≠ '#') = settingsOf l
  | [] => rfl
  | c :: l => by
    have ih := filter_takeWhile_hash l
    unfold settingsOf at ih ⊢
    by_cases hc : c = '#'
    · subst hc; simp [isBlank]
    · by_cases hb : isBlank c = true
      · simp [hb, hc]; simpa using ih
      · simp [hb, hc]; simpa using ih

theorem configLine_eq {l : List Char} (h0 : '\x00' ∉ l) : configLine (l ++ ['\n']) = settingsOf l := by
  have e : configTrim (l ++ ['\n']) = l.filter (fun c => !isBlank c) := by
    unfold configTrim
    rw [cstr_of_clean (by simp [h0])]
    simp [isBlank]
  unfold configLine
  dsimp only
  rw [e, ← filter_takeWhile_hash]
  split
  · rename_i h
    rcases h with h | h
    · rw [h]; rfl
    · cases hl : l.filter (fun c => !isBlank c) with
      | nil => rfl
      | cons c cs =>
        rw [hl] at h
        simp only [List.head?_cons, Option.some.injEq] at h
        subst h
        simp
  · rfl

theorem settingsOf_length (l : List Char) : (settingsOf l).length ≤ l.length := by
  unfold settingsOf
  exact (List.length_filter_le _ _).trans (List.takeWhile_prefix _).length_le

theorem configGo_lines (len : Nat) : ∀ (lines : List (List Char)) (acc : List Char),
    (∀ l ∈ lines, '\x00' ∉ l) →
    acc.length + (lines.map List.length).sum + 1 ≤ len →
    configGo len (lines.map (· ++ ['\n'])) acc = .ok (acc ++ lines.flatMap settingsOf)
  | [], acc, _, _ => by simp [configGo]
  | l :: lines, acc, h, hlen => by
    simp only [List.map_cons, List.sum_cons] at hlen
    have hl := configLine_eq (h l (by simp))
    have hs := settingsOf_length l
    have ht := fun q hq => h q (List.mem_cons_of_mem l hq)
    rw [List.map_cons, configGo]
    split
    · rename_i hc
      have e : settingsOf l = [] := by
        rw [← hl]; unfold configLine; dsimp only; rw [if_pos hc]
      rw [configGo_lines len lines acc ht (by omega), List.flatMap_cons, e]
      rfl
    · unfold configAppend
      rw [hl, if_pos (by omega)]
      dsimp only [bind, Except.bind]
      rw [configGo_lines len lines _ ht (by rw [List.length_append]; omega), List.flatMap_cons,
        List.append_assoc]

/-- **C57 (partial).**  For files whose lines are all ended and at most 123 characters long,
the settings are exactly the text before the first `#` of each line, without blanks; the
buffer is large enough.  What is missing: longer lines and a last line without an end, see the
refutations below. -/
theorem C57_config_partial (lines : List (List Char)) (h0 : lines ≠ [])
    (h : ∀ l ∈ lines, '\n' ∉ l ∧ '\x00' ∉ l ∧ l.length ≤ 123) :
    configText (textFile lines) =
      .ok (lines.flatMap fun l => (l.takeWhile (· ≠ '#')).filter (fun c => !isBlank c)) := by
  have hpos : 0 < lines.length := List.length_pos_iff.2 h0
  have hlen := textFile_length lines
  unfold configText
  rw [if_neg (by omega), fgetsAll_lines configChunk lines (fun l hl =>
    ⟨(h l hl).1, by have := (h l hl).2.2; unfold configChunk; omega⟩),
    configGo_lines _ lines [] (fun l hl => (h l hl).2.1) (by simp only [List.length_nil]; omega)]
  rfl

/-- **C57.**  Changing, adding or removing comments never changes the settings. -/
theorem C57_comments_ignored (lines lines' : List (List Char)) (h0 : lines ≠ []) (h0' : lines' ≠ [])
    (h : ∀ l ∈ lines, '\n' ∉ l ∧ '\x00' ∉ l ∧ l.length ≤ 123)
    (h' : ∀ l ∈ lines', '\n' ∉ l ∧ '\x00' ∉ l ∧ l.length ≤ 123)
    (he : lines.map (fun l => l.takeWhile (· ≠ '#')) = lines'.map (fun l => l.takeWhile (· ≠ '#'))) :
    configText (textFile lines) = configText (textFile lines') := by
  rw [C57_config_partial lines h0 h, C57_config_partial lines' h0' h']
  congr 1
  have q : ∀ L : List (List Char),
      L.flatMap (fun l => (l.takeWhile (· ≠ '#')).filter (fun c => !isBlank c)) =
      (L.map (fun l => l.takeWhile (· ≠ '#'))).flatMap (·.filter (fun c => !isBlank c)) := by
    intro L; rw [List.flatMap_map]
  rw [q, q, he]

/-- A comment of 124 characters whose continuation is read as settings. -/
def longComment : List Char :=
  "{\n#".toList ++ List.replicate 123 'x' ++ "\"BETA\":1\n}\n".toList

/-- **C57 refuted for long lines.**  Lines are read in pieces of 124 characters, and each piece
is taken for a line of its own: the end of a long comment becomes a setting. -/
theorem C57_long_comment_refuted : configText longComment = .ok "{\"BETA\":1}".toList := by
  have : Demo.Res.test (configText longComment) (fun t => decide (t = "{\"BETA\":1}".toList)) = true := by
    decide +kernel
  obtain ⟨t, h1, h2⟩ := Demo.Res.test_iff this
  rw [h1, of_decide_eq_true h2]

/-- **C57 refuted for minimal files.**  The buffer has the length of the file and no room for
the terminating NUL: a file without line end, blank or comment overflows it. -/
theorem C57_overflow_refuted (text : List Char) (h0 : text ≠ []) (hl : text.length ≤ 124)
    (h : ∀ c ∈ text, c ≠ '#' ∧ c ≠ '\x00' ∧ isBlank c = false) : configText text = .error .ub := by
  have hn : '\n' ∉ text := fun e => by have := (h _ e).2.2; simp [isBlank] at this
  have h1 : ∀ (l : List Char) (n : Nat), '\n' ∉ l → l.length ≤ n → fgets1 n l = (l, []) := by
    intro l
    induction l with
    | nil => intro n _ _; cases n <;> rfl
    | cons c l ih =>
      intro n hn hle
      cases n with
      | zero => simp at hle
      | succ n =>
        rw [fgets1, if_neg (fun e => hn (by simp [e])), ih n (fun e => hn (List.mem_cons_of_mem _ e))
          (by simpa using hle)]
  have h2 : fgetsAll configChunk text = [text] := by
    unfold fgetsAll
    cases text with
    | nil => exact absurd rfl h0
    | cons c cs =>
      rw [List.length_cons, fgetsGo]
      rw [h1 _ _ hn hl]
      cases cs.length <;> rfl
  have h3 : configTrim text = text := by
    unfold configTrim
    rw [cstr_of_clean (fun e => (h _ e).2.1 rfl), List.filter_eq_self]
    intro c hc; simp [(h c hc).2.2]
  have h4 : ¬ (text = [] ∨ text.head? = some '#') := by
    rintro (e | e)
    · exact h0 e
    · exact (h _ (List.mem_of_mem_head? e)).1 rfl
  have h5 : configLine text = text := by
    unfold configLine
    dsimp only
    rw [h3, if_neg h4]
    exact takeWhile_all (fun c hc => by simp [(h c hc).1])
  unfold configText
  rw [if_neg (by have := List.length_pos_iff.2 h0; omega), h2, configGo]
  rw [h3, if_neg h4, h5]
  unfold configAppend
  rw [if_neg (by simp)]
  rfl

/-- Blanks are removed inside quoted strings too, and `#` starts a comment there. -/
theorem C57_strings_changed :
    Demo.Res.test (configText "{\"a b\":\n\"#1\"}\n".toList) (fun t => decide (t = "{\"ab\":\"".toList))
      = true := by
  decide +kernel

example : configText "{}".toList = .error .ub :=
  C57_overflow_refuted _ (by decide) (by decide) (by decide +kernel)

/-- Lines with comments that meet the conditions of `C57_config_partial`. -/
def configDemo : List (List Char) :=
  ["{ # start".toList, "# a comment".toList, "  \"BETA\": 0.1 # rate".toList, "}".toList]

example : configDemo ≠ [] ∧ ∀ l ∈ configDemo, '\n' ∉ l ∧ '\x00' ∉ l ∧ l.length ≤ 123 := by
  decide +kernel
example : Demo.Res.test (configText (textFile configDemo))
    (fun t => decide (t = "{\"BETA\":0.1}".toList)) = true := by decide +kernel

/-! ## C68: CSV data -/

/-- The line of a CSV file holding the given fields. -/
def csvLine (fields : List (List Char)) : List Char := List.intercalate [','] fields

theorem strtokGo_field (rest : List Char) : ∀ (t cur : List Char), ',' ∉ t →
    strtokGo cur (t ++ ',' :: rest) =
      if cur.reverse ++ t = [] then strtokGo [] rest else (cur.reverse ++ t) :: strtokGo [] rest
  | [], cur, _ => by
    rw [List.nil_append, strtokGo, if_pos rfl, List.append_nil]
    simp only [List.reverse_eq_nil_iff]
  | c :: t, cur, h => by
    have hc : c ≠ ',' := fun e => h (by simp [e])
    rw [List.cons_append, strtokGo, if_neg hc,
      strtokGo_field rest t (c :: cur) (fun e => h (List.mem_cons_of_mem _ e))]
    simp

theorem strtokGo_last : ∀ (t cur : List Char), ',' ∉ t →
    strtokGo cur t = if cur.reverse ++ t = [] then [] else [cur.reverse ++ t]
  | [], cur, _ => by
    rw [strtokGo, List.append_nil]
    simp only [List.reverse_eq_nil_iff]
  | c :: t, cur, h => by
    have hc : c ≠ ',' := fun e => h (by simp [e])
    rw [strtokGo, if_neg hc, strtokGo_last t (c :: cur) (fun e => h (List.mem_cons_of_mem _ e))]
    simp

/-- The fields found in a line that ends with a line end: the last one keeps it. -/
def withEnd : List (List Char) → List (List Char)
  | [] => []
  | [t] => [t ++ ['\n']]
  | t :: ts => t :: withEnd ts

theorem strtokGo_line : ∀ (fields : List (List Char)), fields ≠ [] →
    (∀ t ∈ fields, t ≠ [] ∧ ',' ∉ t) →
    strtokGo [] (csvLine fields ++ ['\n']) = withEnd fields
  | [], h, _ => absurd rfl h
  | [t], _, h => by
    have ht := h t (by simp)
    have e : csvLine [t] ++ ['\n'] = t ++ ['\n'] := by simp [csvLine]
    rw [e, strtokGo_last _ _ (by simp [ht.2])]
    simp [withEnd]
  | t :: u :: ts, _, h => by
    have ht := h t (by simp)
    have e : csvLine (t :: u :: ts) ++ ['\n'] = t ++ ',' :: (csvLine (u :: ts) ++ ['\n']) := by
      simp [csvLine, List.intercalate]
    rw [e, strtokGo_field _ _ _ ht.2, strtokGo_line (u :: ts) (by simp)
      (fun q hq => h q (List.mem_cons_of_mem _ hq))]
    simp [withEnd, ht.1]

theorem mem_csvLine {c : Char} : ∀ {fields : List (List Char)}, c ∈ csvLine fields →
    c = ',' ∨ ∃ t ∈ fields, c ∈ t
  | [], h => by simp [csvLine, List.intercalate] at h
  | [t], h => .inr ⟨t, by simp, by simpa [csvLine, List.intercalate] using h⟩
  | t :: u :: ts, h => by
    have e : csvLine (t :: u :: ts) = t ++ ',' :: csvLine (u :: ts) := by
      simp [csvLine, List.intercalate]
    rw [e, List.mem_append, List.mem_cons] at h
    rcases h with h | h | h
    · exact .inr ⟨t, by simp, h⟩
    · exact .inl h
    · rcases mem_csvLine h with h | ⟨q, hq, hc⟩
      · exact .inl h
      · exact .inr ⟨q, List.mem_cons_of_mem _ hq, hc⟩

theorem withEnd_length : ∀ fs : List (List Char), (withEnd fs).length = fs.length
  | [] => rfl
  | [_] => rfl
  | t :: u :: ts => by
    have := withEnd_length (u :: ts)
    simp only [withEnd, List.length_cons] at this ⊢
    omega

section
variable {K : Type}

theorem csvRow_all (num : List Char → K) : ∀ ts : List (List Char),
    csvRow num ts.length ts = .ok (ts.map num)
  | [] => rfl
  | t :: ts => by
    rw [List.length_cons, csvRow, csvRow_all num ts]
    rfl

theorem withEnd_num (num : List Char → K) (hn : ∀ t, num (t ++ ['\n']) = num t) :
    ∀ fs : List (List Char), (withEnd fs).map num = fs.map num
  | [] => rfl
  | [t] => by simp [withEnd, hn]
  | t :: u :: ts => by
    have := withEnd_num num hn (u :: ts)
    simp only [withEnd, List.map_cons] at this ⊢
    rw [this]

/-- A row of a CSV file that is read as intended: the right number of fields, all non-empty,
and a line that fits into the buffer. -/
structure CsvOk (d : Nat) (row : List (List Char)) : Prop where
  fields : row.length = d
  clean : ∀ t ∈ row, t ≠ [] ∧ ∀ c ∈ t, c ≠ ',' ∧ c ≠ '\n' ∧ c ≠ '\x00'
  short : (csvLine row).length ≤ 198

theorem strtok_row {d : Nat} (hd : 0 < d) {row : List (List Char)} (h : CsvOk d row) :
    strtok (csvLine row ++ ['\n']) = withEnd row := by
  unfold strtok
  rw [cstr_of_clean, strtokGo_line row (by rintro rfl; have := h.fields; simp at this; omega)
    (fun t ht => ⟨(h.clean t ht).1, fun hc => ((h.clean t ht).2 _ hc).1 rfl⟩)]
  intro hc
  rw [List.mem_append] at hc
  rcases hc with hc | hc
  · rcases mem_csvLine hc with e | ⟨t, ht, hc⟩
    · exact absurd e (by decide)
    · exact ((h.clean t ht).2 _ hc).2.2 rfl
  · simp at hc

theorem csvRows_ok (num : List Char → K) (hn : ∀ t, num (t ++ ['\n']) = num t) {d : Nat} (hd : 0 < d) :
    ∀ rows : List (List (List Char)), (∀ row ∈ rows, CsvOk d row) →
    csvRows num d ((rows.map csvLine).map (· ++ ['\n'])) = .ok (rows.flatten.map num)
  | [], _ => rfl
  | row :: rows, h => by
    have h1 := h row (by simp)
    have h2 : csvRow num d (strtok (csvLine row ++ ['\n'])) = .ok (row.map num) := by
      rw [strtok_row hd h1]
      have := csvRow_all num (withEnd row)
      rw [withEnd_length, h1.fields, withEnd_num num hn] at this
      exact this
    rw [List.map_cons, List.map_cons, csvRows, h2]
    dsimp only [bind, Except.bind]
    rw [csvRows_ok num hn hd rows (fun q hq => h q (List.mem_cons_of_mem _ hq))]
    simp

/-- **C68 (partial).**  A CSV file with rows of equally many fields and lines of at most 198
characters is read as it stands: row by row, field by field.  `num` is `strtod`, of which only
this is used: a line end after the number does not change it.  What is missing: longer lines
and rows of different lengths, see the refutations. -/
theorem C68_csv_partial (num : List Char → K) (hn : ∀ t, num (t ++ ['\n']) = num t) (d : Nat)
    (hd : 0 < d) (rows : List (List (List Char))) (h0 : rows ≠ []) (h : ∀ row ∈ rows, CsvOk d row) :
    csvRead num (textFile (rows.map csvLine)) = .ok (rows.flatten.map num, rows.length, d) := by
  have hl : fgetsAll csvChunk (textFile (rows.map csvLine)) =
      (rows.map csvLine).map (· ++ ['\n']) := by
    apply fgetsAll_lines
    intro l hl
    obtain ⟨row, hr, rfl⟩ := List.mem_map.1 hl
    refine ⟨fun hc => ?_, by have := (h row hr).short; unfold csvChunk; omega⟩
    rcases mem_csvLine hc with e | ⟨t, ht, hc⟩
    · exact absurd e (by decide)
    · exact (((h row hr).clean t ht).2 _ hc).2.1 rfl
  have hs : csvSamples (textFile (rows.map csvLine)) = rows.length := by
    unfold csvSamples; rw [hl]; simp
  have hdim : csvDim (textFile (rows.map csvLine)) = d := by
    unfold csvDim
    rw [hl]
    cases rows with
    | nil => exact absurd rfl h0
    | cons row rows =>
      simp only [List.map_cons]
      rw [strtok_row hd (h row (by simp)), withEnd_length]
      exact (h row (by simp)).fields
  unfold csvRead
  rw [hs, hdim, if_pos ⟨List.length_pos_iff.2 h0, hd⟩, hl, csvRows_ok num hn hd rows h]
  rfl

/-- **C68 (partial).**  With equally many rows in both files the arrays have exactly the size
the number of samples promises. -/
theorem C68_sizes_partial (num : List Char → K) (hn : ∀ t, num (t ++ ['\n']) = num t) (dx dy : Nat)
    (hx : 0 < dx) (hy : 0 < dy) (xs ys : List (List (List Char))) (h0 : xs ≠ [])
    (hlen : xs.length = ys.length) (h1 : ∀ row ∈ xs, CsvOk dx row) (h2 : ∀ row ∈ ys, CsvOk dy row) :
    ∃ i, csvInput num (textFile (xs.map csvLine)) (textFile (ys.map csvLine)) = .ok i ∧
      i.nSamples = xs.length ∧ i.x.length = i.nSamples * i.xDim ∧
      i.y.length = i.nSamples * i.yDim ∧ i.xDim = dx ∧ i.yDim = dy := by
  have h0' : ys ≠ [] := by rintro rfl; exact h0 (List.length_eq_zero_iff.1 hlen)
  have hf : ∀ (d : Nat) (L : List (List (List Char))), (∀ row ∈ L, CsvOk d row) →
      L.flatten.length = L.length * d := by
    intro d L
    induction L with
    | nil => intro _; simp
    | cons a L ih =>
      intro hL
      rw [List.flatten_cons, List.length_append, ih (fun q hq => hL q (List.mem_cons_of_mem _ hq)),
        (hL a (by simp)).fields, List.length_cons]
      ring
  unfold csvInput
  rw [C68_csv_partial num hn dx hx xs h0 h1, C68_csv_partial num hn dy hy ys h0' h2]
  refine ⟨_, rfl, hlen.symm, ?_, ?_, rfl, rfl⟩
  · simp only [List.length_map]; rw [hf dx xs h1, hlen]
  · simp only [List.length_map]; rw [hf dy ys h2]

/-- **C68 refuted for long rows.**  A row of 101 one-digit numbers takes more than one buffer:
its end is taken for another sample with too few fields, and a NULL pointer is parsed. -/
theorem C68_long_row_refuted (num : List Char → K) :
    csvRead num (textFile [csvLine (List.replicate 101 ['1'])]) = .error .ub := by
  have e : fgetsAll csvChunk (textFile [csvLine (List.replicate 101 ['1'])]) =
      [csvLine (List.replicate 100 ['1']), [',', '1', '\n']] := by decide +kernel
  have t : strtok (csvLine (List.replicate 100 ['1'])) = List.replicate 100 ['1'] := by
    decide +kernel
  have t2 : strtok [',', '1', '\n'] = [['1', '\n']] := by decide +kernel
  have hs : csvSamples (textFile [csvLine (List.replicate 101 ['1'])]) = 2 := by
    unfold csvSamples; rw [e]; rfl
  have hd : csvDim (textFile [csvLine (List.replicate 101 ['1'])]) = 100 := by
    unfold csvDim; rw [e]; dsimp only; rw [t]; simp
  unfold csvRead
  rw [hs, hd, if_pos (by omega), e, csvRows, csvRows, csvRows, t, t2]
  have := csvRow_all num (List.replicate 100 ['1'])
  rw [List.length_replicate] at this
  rw [this]
  rfl

/-- **C68 refuted for ragged files.** -/
theorem C68_ragged_refuted (num : List Char → K) : csvRead num "1,2\n3\n".toList = .error .ub := by
  have e : fgetsAll csvChunk "1,2\n3\n".toList = ["1,2\n".toList, "3\n".toList] := by decide +kernel
  have t : strtok "1,2\n".toList = [['1'], ['2', '\n']] := by decide +kernel
  have t2 : strtok "3\n".toList = [['3', '\n']] := by decide +kernel
  have hs : csvSamples "1,2\n3\n".toList = 2 := by unfold csvSamples; rw [e]; rfl
  have hd : csvDim "1,2\n3\n".toList = 2 := by unfold csvDim; rw [e]; dsimp only; rw [t]; rfl
  unfold csvRead
  rw [hs, hd, if_pos (by omega), e, csvRows, csvRows, csvRows, t, t2]
  rfl

/-- **C68 refuted for files of different lengths.**  The number of samples is that of the last
file read: with more outcomes than inputs the inputs are read past their end. -/
theorem C68_mismatch_refuted (num : List Char → K) (hn : ∀ t, num (t ++ ['\n']) = num t) :
    ∃ i, csvInput num "1\n".toList "1\n2\n".toList = .ok i ∧ i.x.length < i.nSamples * i.xDim := by
  have ok : CsvOk 1 [['1']] := ⟨rfl, by decide, by decide⟩
  have ok2 : CsvOk 1 [['2']] := ⟨rfl, by decide, by decide⟩
  have e1 := C68_csv_partial num hn 1 one_pos [[['1']]] (by simp) (by simpa using ok)
  have e2 := C68_csv_partial num hn 1 one_pos [[['1']], [['2']]] (by simp) (by simp [ok, ok2])
  have f1 : textFile ([[['1']]].map csvLine) = "1\n".toList := by decide +kernel
  have f2 : textFile ([[['1']], [['2']]].map csvLine) = "1\n2\n".toList := by decide +kernel
  rw [f1] at e1
  rw [f2] at e2
  unfold csvInput
  rw [e1, e2]
  exact ⟨_, rfl, by simp⟩

end

/-- Reading digits, stopping at any other character. -/
def demoNum (t : List Char) : Nat := (t.takeWhile Char.isDigit).foldl (fun a c => 10 * a + (c.toNat - 48)) 0

theorem demoNum_newline (t : List Char) : demoNum (t ++ ['\n']) = demoNum t := by
  unfold demoNum
  rw [List.takeWhile_append]
  split
  · have : List.takeWhile Char.isDigit ['\n'] = [] := by decide
    rw [this, List.append_nil]
    rename_i h
    congr 1
    exact ((List.takeWhile_prefix (l := t) Char.isDigit).eq_of_length h).symm
  · rfl

example : CsvOk 2 ["12".toList, "7".toList] ∧ CsvOk 2 ["3".toList, "45".toList] :=
  ⟨⟨rfl, by decide +kernel, by decide +kernel⟩, ⟨rfl, by decide +kernel, by decide +kernel⟩⟩

example : Demo.Res.test (csvRead demoNum "12,7\n3,45\n".toList)
    (fun q => decide (q = ([12, 7, 3, 45], 2, 2))) = true := by decide +kernel

end Xcsf
