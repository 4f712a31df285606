import Verif.SerialSysLemmas

/-!
# Files that fail to load, and files that have been cut
-/

set_option linter.unusedSectionVars false

namespace Xcsf

section
variable {K R α β : Type} [Field K] [LinearOrder K] [IsStrictOrderedRing K] [FloorRing K]

/-- A program fails on every file that starts with the given elements. -/
def FailsOn (p : Rd K α) (is : List (Item K)) (e : Fault) : Prop :=
  ∀ rest, p.runI (is ++ rest) = .error e

theorem FailsOn.bind {p : Rd K α} {is : List (Item K)} {e : Fault} (h : FailsOn p is e)
    (f : α → Rd K β) (rest : List (Item K)) : (p >>= f).runI (is ++ rest) = .error e := by
  rw [bind_eq, runI_bind, h]

theorem bytes_of_fails (c : Codec K) {p : Rd K α} {is : List (Item K)} {e : Fault}
    (he : e ≠ .hang) (h : FailsOn p is e) (hf : ∀ i ∈ is, i.Fits c) (n : Nat) :
    p.runB c (encodeItems c is) n = .error e :=
  runB_of_fail c p is hf e he (by have := h []; rwa [List.append_nil] at this) n

/-! ## More constants than the array holds -/

theorem into_fails : ∀ (xs bs : List K), bs.length < xs.length →
    FailsOn (getInto bs xs.length) (xs.map .dbl) .ub
  | [], bs, h => by simp at h
  | x :: xs, [], _ => by
    intro rest
    simp [getInto, Rd.runI]
  | x :: xs, b :: bs, h => by
    intro rest
    simp only [List.length_cons, getInto, List.map_cons, List.cons_append, run_getDbl,
      (into_fails xs bs (by simpa using h)).bind]

theorem treePar_fails {a : TreePar K} (h1 : 0 ≤ a.nConstants)
    (h2 : a.nConstants ≤ a.constants.length) (o : TreePar K)
    (h3 : o.constants.length < a.nConstants) :
    FailsOn (treeParLoad o) (treeParSave a) .ub := by
  intro rest
  have e : (a.constants.take a.nConstants.toNat).length = a.nConstants.toNat := by
    rw [List.length_take]; omega
  have e2 := into_fails (a.constants.take a.nConstants.toNat) o.constants (by rw [e]; omega)
  rw [e] at e2
  simp only [treeParLoad, treeParSave, List.cons_append, List.nil_append, run_getInt, run_getDbl,
    if_neg (not_lt.2 h1), run_lift, e2.bind]

theorem condPar_fails {a o : CondFile K} (h1 : 0 ≤ a.targs.nConstants)
    (h2 : a.targs.nConstants ≤ a.targs.constants.length)
    (h3 : o.targs.constants.length < a.targs.nConstants) :
    FailsOn (condParLoad o) (condParSave a) .ub := by
  intro rest
  have eg : ReadsBack (K := K) (graphParLoad o.dargs) (graphParSave a.dargs) a.dargs := fun _ => rfl
  simp only [condParLoad, condParSave, List.cons_append, List.nil_append, List.append_assoc,
    run_getInt, run_getDbl, eg.bind, (treePar_fails h1 h2 o.targs h3).bind]

theorem par_fails {p o : SysPar K} (h : p.Whole)
    (h3 : o.cond.targs.constants.length < p.cond.targs.nConstants) :
    FailsOn (parLoad o) (parSave p) .ub := by
  obtain ⟨⟨s, e1, e2, e3⟩, ⟨d1, d2, d3⟩, c1, c2⟩ := h
  intro rest
  have en := nameLen_eq e2 e3
  rw [← e1] at en
  have et : p.popFile.take (nameLen p.popFile + 1) = p.popFile := by
    rw [en, List.take_of_length_le]; simp [e1]
  have el : p.popFile.length = s.length + 1 := by simp [e1]
  have edim : ¬ (p.xDim < 1 ∨ p.yDim < 1 ∨ p.nActions < 1) := by omega
  have elen : ¬ (s.length + 1 < 1) := by omega
  have ea : ReadsBack (eaParLoad o.ea) (eaParSave p.ea) p.ea := fun _ => rfl
  have ec := condPar_fails (a := p.cond) (o := o.cond) c1 c2 h3
  unfold parLoad parSave
  rw [et, en]
  simp only [List.cons_append, List.nil_append, List.append_assoc, run_getSize, if_neg elen,
    run_lift, run_arrChr', el, run_getInt, run_getDbl, run_getBool, if_neg edim, ea.bind,
    (actPar_reads p.act o.act).bind, ec.bind]

theorem sys_fails (g : Rng K R) {s t : Sys K R} (h : s.Whole)
    (h3 : t.par.cond.targs.constants.length < s.par.cond.targs.nConstants) :
    FailsOn (sysRead g t) (sysItems s) .ub := by
  intro rest
  unfold sysRead sysItems
  have ev : ¬ (versionMajor ≠ versionMajor ∨ versionMinor ≠ versionMinor) := by decide
  simp only [List.cons_append, List.nil_append, List.append_assoc, run_getInt, if_neg ev, run_lift,
    (par_fails h.par h3).bind]

/-! ## Files that end too early -/

/-- Nothing is read from an empty file. -/
theorem runB_nil (c : Codec K) (p : Rd K α) (n : Nat) {a : α} {rest : List UInt8} {m : Nat}
    (h : p.runB c [] n = .ok (a, rest, m)) : m = n ∧ rest = [] := by
  induction p with
  | ret b => simp only [Rd.runB, Except.ok.injEq, Prod.mk.injEq] at h; exact ⟨h.2.2.symm, h.2.1.symm⟩
  | fail e => simp [Rd.runB] at h
  | int k ih => exact ih none (by simpa [Rd.runB, chunk, counted] using h)
  | dbl k ih => exact ih none (by simpa [Rd.runB, chunk, counted] using h)
  | bool k ih => exact ih none (by simpa [Rd.runB] using h)
  | chr k ih => exact ih none (by simpa [Rd.runB] using h)
  | u32 k ih => exact ih none (by simpa [Rd.runB, chunk, counted] using h)
  | size k ih => exact ih none (by simpa [Rd.runB, chunk, counted] using h)

/-- The first bytes of a file that has been cut: nothing, less than one element, or an element and a
cut file. -/
theorem chunk_cut {a b : List UInt8} {w k : Nat} (ha : a.length = w) (hw : 0 < w) :
    chunk w ((a ++ b).take k) =
      if k = 0 then .ok (none, [])
      else if k < w then .error .ub
      else .ok (some a, b.take (k - w)) := by
  have ne : a ++ b ≠ [] := by
    intro h
    rw [List.append_eq_nil_iff] at h
    rw [h.1] at ha; simp at ha; omega
  unfold chunk
  by_cases h1 : k = 0
  · subst h1; simp
  · have h2 : ¬ (a ++ b).take k = [] := by
      rw [List.take_eq_nil_iff]; tauto
    rw [if_neg h2, if_neg h1]
    by_cases h3 : k < w
    · have : ((a ++ b).take k).length < w := by
        rw [List.length_take]; omega
      rw [if_pos this, if_pos h3]
    · have : ¬ ((a ++ b).take k).length < w := by
        rw [List.length_take, List.length_append]; omega
      rw [if_neg this, if_neg h3]
      subst ha
      rw [List.take_take, List.drop_take, List.drop_left, min_eq_left (by omega), List.take_left]

/-- A program that reads exactly the elements of a file reads fewer of them if the file has been
cut. -/
theorem runB_cut (c : Codec K) (p : Rd K α) : ∀ (is : List (Item K)),
    (∀ i ∈ is, i.Fits c) → ∀ b, p.runI is = .ok (b, []) → ∀ k, k < (encodeItems c is).length →
    ∀ n a rest m, p.runB c ((encodeItems c is).take k) n = .ok (a, rest, m) → m < n + is.length := by
  induction p with
  | ret a =>
    intro is _ b h k hk
    simp only [Rd.runI, Except.ok.injEq, Prod.mk.injEq] at h
    rw [h.2] at hk; simp [encodeItems] at hk
  | fail e => intro is _ b h; simp [Rd.runI] at h
  | int f ih =>
    intro is hf b h k hk n a rest m hr
    rcases is with _ | ⟨i, is⟩
    · simp [encodeItems] at hk
    · rcases i with v | v | v | v | v | v <;> simp only [Rd.runI] at h <;> try contradiction
      have e : encodeItems c (Item.int v :: is) = leBytes 4 (intBits v) ++ encodeItems c is := rfl
      have el : (leBytes 4 (intBits v)).length = 4 := leBytes_length _ _
      rw [e, List.length_append, el] at hk
      rw [e, Rd.runB, chunk_cut el (by decide)] at hr
      simp only [List.length_cons]
      split_ifs at hr with h1 h2
      · have := runB_nil c _ _ hr; simp only [counted] at this; simp at this; omega
      · simp only [Option.map_some, leVal_leBytes _ _ (intBits_lt v),
          bitsInt_intBits (hf (.int v) (by simp)), counted] at hr
        have := ih (some v) is (fun i hi => hf i (by simp [hi])) b h (k - 4) (by omega) _ _ _ _ hr
        simp at this; omega
  | dbl f ih =>
    intro is hf b h k hk n a rest m hr
    rcases is with _ | ⟨i, is⟩
    · simp [encodeItems] at hk
    · rcases i with v | v | v | v | v | v <;> simp only [Rd.runI] at h <;> try contradiction
      have e : encodeItems c (Item.dbl v :: is) = c.enc v ++ encodeItems c is := rfl
      rw [e, List.length_append, c.len v] at hk
      rw [e, Rd.runB, chunk_cut (c.len v) (by decide)] at hr
      have f : c.dec (c.enc v) = v := hf (.dbl v) (by simp)
      simp only [List.length_cons]
      split_ifs at hr with h1 h2
      · have := runB_nil c _ _ hr; simp only [counted] at this; simp at this; omega
      · simp only [Option.map_some, f, counted] at hr
        have := ih (some v) is (fun i hi => hf i (by simp [hi])) b h (k - 8) (by omega) _ _ _ _ hr
        simp at this; omega
  | bool f ih =>
    intro is hf b h k hk n a rest m hr
    rcases is with _ | ⟨i, is⟩
    · simp [encodeItems] at hk
    · rcases i with v | v | v | v | v | v <;> simp only [Rd.runI] at h <;> try contradiction
      have e : encodeItems c (Item.bool v :: is) = (if v then 1 else 0) :: encodeItems c is := rfl
      rw [e] at hk hr
      simp only [List.length_cons] at hk ⊢
      rcases k with _ | k
      · have := runB_nil c _ _ (by simpa [Rd.runB] using hr); omega
      · have hr : (f (some v)).runB c ((encodeItems c is).take k) (n + 1) = .ok (a, rest, m) := by
          cases v
          · simpa [Rd.runB] using hr
          · have : ¬ (1 : UInt8) = 0 := by decide
            simpa [Rd.runB, this] using hr
        have := ih (some v) is (fun i hi => hf i (by simp [hi])) b h k (by omega) _ _ _ _ hr
        omega
  | chr f ih =>
    intro is hf b h k hk n a rest m hr
    rcases is with _ | ⟨i, is⟩
    · simp [encodeItems] at hk
    · rcases i with v | v | v | v | v | v <;> simp only [Rd.runI] at h <;> try contradiction
      have e : encodeItems c (Item.chr v :: is) = UInt8.ofNat v.toNat :: encodeItems c is := rfl
      have fv : v.toNat < 256 := hf (.chr v) (by simp)
      rw [e] at hk hr
      simp only [List.length_cons] at hk ⊢
      rcases k with _ | k
      · have := runB_nil c _ _ (by simpa [Rd.runB] using hr); omega
      · have hr : (f (some v)).runB c ((encodeItems c is).take k) (n + 1) = .ok (a, rest, m) := by
          simpa only [List.take_succ_cons, Rd.runB, uint8_toNat fv, char_ofNat_toNat] using hr
        have := ih (some v) is (fun i hi => hf i (by simp [hi])) b h k (by omega) _ _ _ _ hr
        omega
  | u32 f ih =>
    intro is hf b h k hk n a rest m hr
    rcases is with _ | ⟨i, is⟩
    · simp [encodeItems] at hk
    · rcases i with v | v | v | v | v | v <;> simp only [Rd.runI] at h <;> try contradiction
      have e : encodeItems c (Item.u32 v :: is) = leBytes 4 v ++ encodeItems c is := rfl
      have el : (leBytes 4 v).length = 4 := leBytes_length _ _
      have fv : v < 256 ^ 4 := by
        have : v < 4294967296 := hf (.u32 v) (by simp)
        simpa using this
      rw [e, List.length_append, el] at hk
      rw [e, Rd.runB, chunk_cut el (by decide)] at hr
      simp only [List.length_cons]
      split_ifs at hr with h1 h2
      · have := runB_nil c _ _ hr; simp only [counted] at this; simp at this; omega
      · simp only [Option.map_some, leVal_leBytes _ _ fv, counted] at hr
        have := ih (some v) is (fun i hi => hf i (by simp [hi])) b h (k - 4) (by omega) _ _ _ _ hr
        simp at this; omega
  | size f ih =>
    intro is hf b h k hk n a rest m hr
    rcases is with _ | ⟨i, is⟩
    · simp [encodeItems] at hk
    · rcases i with v | v | v | v | v | v <;> simp only [Rd.runI] at h <;> try contradiction
      have e : encodeItems c (Item.size v :: is) = leBytes 8 v ++ encodeItems c is := rfl
      have el : (leBytes 8 v).length = 8 := leBytes_length _ _
      have fv : v < 256 ^ 8 := by
        have : v < 18446744073709551616 := hf (.size v) (by simp)
        simpa using this
      rw [e, List.length_append, el] at hk
      rw [e, Rd.runB, chunk_cut el (by decide)] at hr
      simp only [List.length_cons]
      split_ifs at hr with h1 h2
      · have := runB_nil c _ _ hr; simp only [counted] at this; simp at this; omega
      · simp only [Option.map_some, leVal_leBytes _ _ fv, counted] at hr
        have := ih (some v) is (fun i hi => hf i (by simp [hi])) b h (k - 8) (by omega) _ _ _ _ hr
        simp at this; omega

/-! ## A file that ends after the numbers of inputs, outputs and actions -/

/-- The first elements of a file. -/
def headItems (p : SysPar K) : List (Item K) :=
  [.int versionMajor, .int versionMinor, .int versionBuild,
    .size (nameLen p.popFile + 1)] ++ (p.popFile.take (nameLen p.popFile + 1)).map .chr ++
  [.int p.time, .dbl p.error, .dbl p.msetSize, .dbl p.asetSize, .dbl p.mfrac, .bool p.explore,
    .int p.xDim, .int p.yDim, .int p.nActions]

/-- What a system is after such a file: the later parameters are those it had, the descriptions of
networks are empty, and there are no rules. -/
def headLoaded (s t : Sys K R) : Sys K R :=
  { par := { t.par with
      popFile := s.par.popFile, time := s.par.time, error := s.par.error,
      msetSize := s.par.msetSize, asetSize := s.par.asetSize, mfrac := s.par.mfrac,
      explore := s.par.explore, xDim := s.par.xDim, yDim := s.par.yDim, nActions := s.par.nActions,
      act := { t.par.act with largs := [] },
      cond := { t.par.cond with largs := [] },
      pred := { t.par.pred with largs := [] } }
    rules := []
    size := 0
    num := 0
    paSize := t.paSize
    rng := t.rng }

theorem sysItems_head (s : Sys K R) :
    ∃ i is, sysItems s = headItems s.par ++ i :: is := by
  unfold sysItems headItems parSave
  simp only [List.cons_append, List.nil_append, List.append_assoc, List.cons.injEq, true_and,
    List.append_cancel_left_eq]
  exact ⟨_, _, rfl, rfl⟩

/-! A program at the end of a file. -/

theorem nil_bind {p : Rd K α} {a : α} (h : p.runI [] = .ok (a, [])) (f : α → Rd K β) :
    (p >>= f).runI [] = (f a).runI [] := by rw [bind_eq, runI_bind, h]

theorem nil_getInt (v : Int) (f : Int → Rd K α) : (getInt v >>= f).runI [] = (f v).runI [] := rfl
theorem nil_getDbl (v : K) (f : K → Rd K α) : (getDbl v >>= f).runI [] = (f v).runI [] := rfl
theorem nil_getBool (v : Bool) (f : Bool → Rd K α) : (getBool v >>= f).runI [] = (f v).runI [] := rfl

theorem into_nil : ∀ (bs : List K) (n : Nat) , n ≤ bs.length →
    (getInto bs n).runI [] = .ok (bs, [])
  | bs, 0, _ => by cases bs <;> rfl
  | [], n + 1, h => by simp at h
  | b :: bs, n + 1, h => by
    simp only [getInto, nil_getDbl, nil_bind (into_nil bs n (by simpa using h))]
    rfl

theorem treePar_nil {o : TreePar K} (h1 : 0 ≤ o.nConstants)
    (h2 : o.nConstants ≤ o.constants.length) : (treeParLoad o).runI [] = .ok (o, []) := by
  simp only [treeParLoad, nil_getInt, nil_getDbl, if_neg (not_lt.2 h1), run_lift,
    nil_bind (into_nil o.constants o.nConstants.toNat (by omega))]
  rfl

theorem condPar_nil {o : CondFile K} (h1 : 0 ≤ o.targs.nConstants)
    (h2 : o.targs.nConstants ≤ o.targs.constants.length) :
    (condParLoad o).runI [] = .ok ({ o with largs := [] }, []) := by
  have eg : (graphParLoad (K := K) o.dargs).runI [] = .ok (o.dargs, []) := rfl
  have el : (largsLoad (K := K)).runI [] = .ok ([], []) := rfl
  simp only [condParLoad, nil_getInt, nil_getDbl, nil_bind eg, nil_bind (treePar_nil h1 h2),
    nil_bind el]
  rfl

theorem head_reads (g : Rng K R) {s t : Sys K R} (hs : s.par.Whole) (ht : t.par.Whole) :
    (sysRead g t).runI (headItems s.par) = .ok (headLoaded s t, []) := by
  obtain ⟨⟨n, e1, e2, e3⟩, ⟨d1, d2, d3⟩, _⟩ := hs
  obtain ⟨_, _, c1, c2⟩ := ht
  have en := nameLen_eq e2 e3
  rw [← e1] at en
  have et : s.par.popFile.take (nameLen s.par.popFile + 1) = s.par.popFile := by
    rw [en, List.take_of_length_le]; simp [e1]
  have el : s.par.popFile.length = n.length + 1 := by simp [e1]
  have edim : ¬ (s.par.xDim < 1 ∨ s.par.yDim < 1 ∨ s.par.nActions < 1) := by omega
  have elen : ¬ (n.length + 1 < 1) := by omega
  have ev : ¬ (versionMajor ≠ versionMajor ∨ versionMinor ≠ versionMinor) := by decide
  unfold sysRead headItems
  rw [et, en]
  simp only [List.cons_append, List.nil_append, run_getInt, if_neg ev, run_lift]
  rw [bind_eq, runI_bind]
  unfold parLoad
  simp only [run_getSize, if_neg elen,
    run_lift, run_arrChr', el, run_getInt, run_getDbl, run_getBool, if_neg edim]
  have ee : (eaParLoad t.par.ea).runI [] = .ok (t.par.ea, []) := rfl
  have ea : (actParLoad t.par.act).runI [] = .ok ({ t.par.act with largs := [] }, []) := rfl
  have ep : (predParLoad t.par.pred).runI [] = .ok ({ t.par.pred with largs := [] }, []) := rfl
  simp only [nil_getInt, nil_getDbl, nil_getBool, nil_bind ee, nil_bind ea,
    nil_bind (condPar_nil c1 c2), nil_bind ep]
  rfl

end

end Xcsf
