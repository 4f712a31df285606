import Verif.SerialFile

/-! # Reading back what was written -/

namespace Xcsf
variable {K α β : Type}

theorem leBytes_length : ∀ w n, (leBytes w n).length = w
  | 0, _ => rfl
  | w + 1, n => by simp [leBytes, leBytes_length w]

theorem leVal_leBytes : ∀ w n, n < 256 ^ w → leVal (leBytes w n) = n
  | 0, n, h => by simp [leBytes, leVal] at *; omega
  | w + 1, n, h => by
    have : n / 256 < 256 ^ w := by
      rw [Nat.div_lt_iff_lt_mul (by decide)]; rw [Nat.pow_succ] at h; omega
    simp only [leBytes, leVal, leVal_leBytes w _ this]
    have : (UInt8.ofNat n).toNat = n % 256 := by simp
    rw [this]; omega

theorem bitsInt_intBits {v : Int} (h : -2147483648 ≤ v ∧ v < 2147483648) :
    bitsInt (intBits v) = v := by
  unfold bitsInt intBits
  split <;> omega

theorem intBits_lt (v : Int) : intBits v < 256 ^ 4 := by
  unfold intBits
  have : (256 : Nat) ^ 4 = 4294967296 := by decide
  omega

theorem chunk_append {w : Nat} {a : List UInt8} (h : a.length = w) (hw : 0 < w) (b : List UInt8) :
    chunk w (a ++ b) = .ok (some a, b) := by
  subst h
  have : a ≠ [] := fun e => by simp [e] at hw
  unfold chunk
  rw [if_neg (by simp [this]), if_neg (by simp)]
  simp

theorem char_ofNat_toNat (c : Char) : Char.ofNat c.toNat = c := Char.ofNat_toNat c

theorem uint8_toNat {n : Nat} (h : n < 256) : (UInt8.ofNat n).toNat = n := by
  simp; omega

/-- Running a sequence of two programs. -/
theorem runI_bind (p : Rd K α) (f : α → Rd K β) : ∀ is,
    (p.bind f).runI is =
      (match p.runI is with
        | .error e => .error e
        | .ok (a, r) => (f a).runI r) := by
  induction p with
  | ret a => intro is; simp [Rd.bind, Rd.runI]
  | fail e => intro is; simp [Rd.bind, Rd.runI]
  | int k ih => intro is; rcases is with _ | ⟨_ | _, _⟩ <;> simp [Rd.bind, Rd.runI, ih]
  | dbl k ih => intro is; rcases is with _ | ⟨_ | _, _⟩ <;> simp [Rd.bind, Rd.runI, ih]
  | bool k ih => intro is; rcases is with _ | ⟨_ | _, _⟩ <;> simp [Rd.bind, Rd.runI, ih]
  | chr k ih => intro is; rcases is with _ | ⟨_ | _, _⟩ <;> simp [Rd.bind, Rd.runI, ih]
  | u32 k ih => intro is; rcases is with _ | ⟨_ | _, _⟩ <;> simp [Rd.bind, Rd.runI, ih]
  | size k ih => intro is; rcases is with _ | ⟨_ | _, _⟩ <;> simp [Rd.bind, Rd.runI, ih]

theorem bind_eq (p : Rd K α) (f : α → Rd K β) : (p >>= f) = p.bind f := rfl

/-- Reading the bytes of a list of elements is reading the elements, and as many are counted as are
taken from the list. -/
theorem runB_of_runI (c : Codec K) (p : Rd K α) : ∀ is : List (Item K),
    (∀ i ∈ is, i.Fits c) → ∀ a r, p.runI is = .ok (a, r) →
    ∀ n, ∃ m, p.runB c (encodeItems c is) n = .ok (a, encodeItems c r, m) ∧ m + r.length = n + is.length := by
  induction p with
  | ret a =>
    intro is _ b r h n
    simp only [Rd.runI] at h; cases h
    exact ⟨n, rfl, rfl⟩
  | fail e => intro is _ b r h; simp [Rd.runI] at h
  | int k ih =>
    intro is hf a r h n
    rcases is with _ | ⟨i, is⟩
    · simp only [Rd.runI] at h
      simpa [Rd.runB, encodeItems, chunk, counted] using ih none [] (by simp) a r h n
    · rcases i with v | v | v | v | v | v <;> simp only [Rd.runI, reduceCtorEq] at h
      obtain ⟨m, h1, h2⟩ := ih (some v) is (fun i hi => hf i (by simp [hi])) a r h (n + 1)
      refine ⟨m, ?_, by simp only [List.length_cons]; omega⟩
      have e : encodeItems c (Item.int v :: is) = leBytes 4 (intBits v) ++ encodeItems c is := rfl
      simp only [Rd.runB, e, chunk_append (leBytes_length _ _) (by decide : 0 < 4), Option.map_some,
        leVal_leBytes _ _ (intBits_lt v), bitsInt_intBits (hf (.int v) (by simp)), counted]
      simpa using h1
  | dbl k ih =>
    intro is hf a r h n
    rcases is with _ | ⟨i, is⟩
    · simp only [Rd.runI] at h
      simpa [Rd.runB, encodeItems, chunk, counted] using ih none [] (by simp) a r h n
    · rcases i with v | v | v | v | v | v <;> simp only [Rd.runI, reduceCtorEq] at h
      obtain ⟨m, h1, h2⟩ := ih (some v) is (fun i hi => hf i (by simp [hi])) a r h (n + 1)
      refine ⟨m, ?_, by simp only [List.length_cons]; omega⟩
      have e : encodeItems c (Item.dbl v :: is) = c.enc v ++ encodeItems c is := rfl
      have f : c.dec (c.enc v) = v := hf (.dbl v) (by simp)
      simp only [Rd.runB, e, chunk_append (c.len v) (by decide : 0 < 8), Option.map_some, f, counted]
      simpa using h1
  | bool k ih =>
    intro is hf a r h n
    rcases is with _ | ⟨i, is⟩
    · simp only [Rd.runI] at h
      simpa [Rd.runB, encodeItems] using ih none [] (by simp) a r h n
    · rcases i with v | v | v | v | v | v <;> simp only [Rd.runI, reduceCtorEq] at h
      obtain ⟨m, h1, h2⟩ := ih (some v) is (fun i hi => hf i (by simp [hi])) a r h (n + 1)
      refine ⟨m, ?_, by simp only [List.length_cons]; omega⟩
      have e : encodeItems c (Item.bool v :: is) = (if v then 1 else 0) :: encodeItems c is := rfl
      rw [e]
      cases v
      · simpa [Rd.runB] using h1
      · have : ¬ (1 : UInt8) = 0 := by decide
        simpa [Rd.runB, this] using h1
  | chr k ih =>
    intro is hf a r h n
    rcases is with _ | ⟨i, is⟩
    · simp only [Rd.runI] at h
      simpa [Rd.runB, encodeItems] using ih none [] (by simp) a r h n
    · rcases i with v | v | v | v | v | v <;> simp only [Rd.runI, reduceCtorEq] at h
      obtain ⟨m, h1, h2⟩ := ih (some v) is (fun i hi => hf i (by simp [hi])) a r h (n + 1)
      refine ⟨m, ?_, by simp only [List.length_cons]; omega⟩
      have e : encodeItems c (Item.chr v :: is) = UInt8.ofNat v.toNat :: encodeItems c is := rfl
      have f : v.toNat < 256 := hf (.chr v) (by simp)
      rw [e]
      simp only [Rd.runB, uint8_toNat f, char_ofNat_toNat]
      simpa using h1
  | u32 k ih =>
    intro is hf a r h n
    rcases is with _ | ⟨i, is⟩
    · simp only [Rd.runI] at h
      simpa [Rd.runB, encodeItems, chunk, counted] using ih none [] (by simp) a r h n
    · rcases i with v | v | v | v | v | v <;> simp only [Rd.runI, reduceCtorEq] at h
      obtain ⟨m, h1, h2⟩ := ih (some v) is (fun i hi => hf i (by simp [hi])) a r h (n + 1)
      refine ⟨m, ?_, by simp only [List.length_cons]; omega⟩
      have e : encodeItems c (Item.u32 v :: is) = leBytes 4 v ++ encodeItems c is := rfl
      have f : v < 256 ^ 4 := by
        have : v < 4294967296 := hf (.u32 v) (by simp)
        simpa using this
      simp only [Rd.runB, e, chunk_append (leBytes_length _ _) (by decide : 0 < 4), Option.map_some,
        leVal_leBytes _ _ f, counted]
      simpa using h1
  | size k ih =>
    intro is hf a r h n
    rcases is with _ | ⟨i, is⟩
    · simp only [Rd.runI] at h
      simpa [Rd.runB, encodeItems, chunk, counted] using ih none [] (by simp) a r h n
    · rcases i with v | v | v | v | v | v <;> simp only [Rd.runI, reduceCtorEq] at h
      obtain ⟨m, h1, h2⟩ := ih (some v) is (fun i hi => hf i (by simp [hi])) a r h (n + 1)
      refine ⟨m, ?_, by simp only [List.length_cons]; omega⟩
      have e : encodeItems c (Item.size v :: is) = leBytes 8 v ++ encodeItems c is := rfl
      have f : v < 256 ^ 8 := by
        have : v < 18446744073709551616 := hf (.size v) (by simp)
        simpa using this
      simp only [Rd.runB, e, chunk_append (leBytes_length _ _) (by decide : 0 < 8), Option.map_some,
        leVal_leBytes _ _ f, counted]
      simpa using h1

/-- A failure on a list of elements is one on its bytes. -/
theorem runB_of_fail (c : Codec K) (p : Rd K α) : ∀ is : List (Item K),
    (∀ i ∈ is, i.Fits c) → ∀ e, e ≠ .hang → p.runI is = .error e →
    ∀ n, p.runB c (encodeItems c is) n = .error e := by
  induction p with
  | ret a => intro is _ e _ h; simp [Rd.runI] at h
  | fail e => intro is _ e' _ h n; simp only [Rd.runI] at h; cases h; rfl
  | int k ih =>
    intro is hf e he h n
    rcases is with _ | ⟨i, is⟩
    · simp only [Rd.runI] at h
      simpa [Rd.runB, encodeItems, chunk, counted] using ih none [] (by simp) e he h n
    · rcases i with v | v | v | v | v | v <;> simp only [Rd.runI] at h <;>
        first
          | (injection h with h; exact absurd h.symm he)
          | skip
      have h1 := ih (some v) is (fun i hi => hf i (by simp [hi])) e he h (n + 1)
      have e : encodeItems c (Item.int v :: is) = leBytes 4 (intBits v) ++ encodeItems c is := rfl
      simp only [Rd.runB, e, chunk_append (leBytes_length _ _) (by decide : 0 < 4), Option.map_some,
        leVal_leBytes _ _ (intBits_lt v), bitsInt_intBits (hf (.int v) (by simp)), counted]
      simpa using h1
  | dbl k ih =>
    intro is hf e he h n
    rcases is with _ | ⟨i, is⟩
    · simp only [Rd.runI] at h
      simpa [Rd.runB, encodeItems, chunk, counted] using ih none [] (by simp) e he h n
    · rcases i with v | v | v | v | v | v <;> simp only [Rd.runI] at h <;>
        first
          | (injection h with h; exact absurd h.symm he)
          | skip
      have h1 := ih (some v) is (fun i hi => hf i (by simp [hi])) e he h (n + 1)
      have e : encodeItems c (Item.dbl v :: is) = c.enc v ++ encodeItems c is := rfl
      have f : c.dec (c.enc v) = v := hf (.dbl v) (by simp)
      simp only [Rd.runB, e, chunk_append (c.len v) (by decide : 0 < 8), Option.map_some, f, counted]
      simpa using h1
  | bool k ih =>
    intro is hf e he h n
    rcases is with _ | ⟨i, is⟩
    · simp only [Rd.runI] at h
      simpa [Rd.runB, encodeItems] using ih none [] (by simp) e he h n
    · rcases i with v | v | v | v | v | v <;> simp only [Rd.runI] at h <;>
        first
          | (injection h with h; exact absurd h.symm he)
          | skip
      have h1 := ih (some v) is (fun i hi => hf i (by simp [hi])) e he h (n + 1)
      have e : encodeItems c (Item.bool v :: is) = (if v then 1 else 0) :: encodeItems c is := rfl
      rw [e]
      cases v
      · simpa [Rd.runB] using h1
      · have : ¬ (1 : UInt8) = 0 := by decide
        simpa [Rd.runB, this] using h1
  | chr k ih =>
    intro is hf e he h n
    rcases is with _ | ⟨i, is⟩
    · simp only [Rd.runI] at h
      simpa [Rd.runB, encodeItems] using ih none [] (by simp) e he h n
    · rcases i with v | v | v | v | v | v <;> simp only [Rd.runI] at h <;>
        first
          | (injection h with h; exact absurd h.symm he)
          | skip
      have h1 := ih (some v) is (fun i hi => hf i (by simp [hi])) e he h (n + 1)
      have e : encodeItems c (Item.chr v :: is) = UInt8.ofNat v.toNat :: encodeItems c is := rfl
      have f : v.toNat < 256 := hf (.chr v) (by simp)
      rw [e]
      simp only [Rd.runB, uint8_toNat f, char_ofNat_toNat]
      simpa using h1
  | u32 k ih =>
    intro is hf e he h n
    rcases is with _ | ⟨i, is⟩
    · simp only [Rd.runI] at h
      simpa [Rd.runB, encodeItems, chunk, counted] using ih none [] (by simp) e he h n
    · rcases i with v | v | v | v | v | v <;> simp only [Rd.runI] at h <;>
        first
          | (injection h with h; exact absurd h.symm he)
          | skip
      have h1 := ih (some v) is (fun i hi => hf i (by simp [hi])) e he h (n + 1)
      have e : encodeItems c (Item.u32 v :: is) = leBytes 4 v ++ encodeItems c is := rfl
      have f : v < 256 ^ 4 := by
        have : v < 4294967296 := hf (.u32 v) (by simp)
        simpa using this
      simp only [Rd.runB, e, chunk_append (leBytes_length _ _) (by decide : 0 < 4), Option.map_some,
        leVal_leBytes _ _ f, counted]
      simpa using h1
  | size k ih =>
    intro is hf e he h n
    rcases is with _ | ⟨i, is⟩
    · simp only [Rd.runI] at h
      simpa [Rd.runB, encodeItems, chunk, counted] using ih none [] (by simp) e he h n
    · rcases i with v | v | v | v | v | v <;> simp only [Rd.runI] at h <;>
        first
          | (injection h with h; exact absurd h.symm he)
          | skip
      have h1 := ih (some v) is (fun i hi => hf i (by simp [hi])) e he h (n + 1)
      have e : encodeItems c (Item.size v :: is) = leBytes 8 v ++ encodeItems c is := rfl
      have f : v < 256 ^ 8 := by
        have : v < 18446744073709551616 := hf (.size v) (by simp)
        simpa using this
      simp only [Rd.runB, e, chunk_append (leBytes_length _ _) (by decide : 0 < 8), Option.map_some,
        leVal_leBytes _ _ f, counted]
      simpa using h1

/-- A program reads exactly the given elements and returns `a`. -/
def ReadsBack (p : Rd K α) (is : List (Item K)) (a : α) : Prop :=
  ∀ rest, p.runI (is ++ rest) = .ok (a, rest)

theorem reads_bind {p : Rd K α} {f : α → Rd K β} {is js : List (Item K)} {a : α} {b : β}
    (h1 : ReadsBack p is a) (h2 : ReadsBack (f a) js b) : ReadsBack (p >>= f) (is ++ js) b := by
  intro rest
  rw [bind_eq, runI_bind, List.append_assoc, h1]
  exact h2 rest

theorem reads_ret (a : α) : ReadsBack (.ret a : Rd K α) [] a := fun _ => rfl

theorem reads_arr {one : Rd K α} {w : α → Item K} : ∀ xs : List α,
    (∀ x ∈ xs, ReadsBack one [w x] x) → ReadsBack (getArr one xs.length) (xs.map w) xs
  | [], _ => reads_ret _
  | x :: xs, h => by
    have h2 : ReadsBack (do let ys ← getArr one xs.length; Rd.ret (x :: ys)) (xs.map w ++ []) (x :: xs) :=
      reads_bind (reads_arr xs fun y hy => h y (by simp [hy])) (reads_ret _)
    have h3 : ReadsBack (do let y ← one; let ys ← getArr one xs.length; Rd.ret (y :: ys))
        ([w x] ++ (xs.map w ++ [])) (x :: xs) := reads_bind (h x (by simp)) h2
    simpa [getArr] using h3

end Xcsf
