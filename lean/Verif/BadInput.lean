import Verif.BadSample

/-!
# Conditions over doubles

Hyperrectangles, hyperellipsoids and ternary conditions over doubles with infinities and values that are
not a number (`Double.lean`): matching, covering and the movement of centres.  Random numbers are
arguments.
-/

namespace Xcsf.Double

variable {f : Format}

/-- `fmin`, cond_rectangle.c:170: a value that is not a number is ignored. -/
def Dbl.fmin (a b : Dbl f) : Dbl f :=
  match a, b with
  | .nan, b => b
  | a, .nan => a
  | a, b => if b < a then b else a

/-- `fmax`, cond_rectangle.c:171. -/
def Dbl.fmax (a b : Dbl f) : Dbl f :=
  match a, b with
  | .nan, b => b
  | a, .nan => a
  | a, b => if b < a then a else b

/-- The lower bound of an interval, cond_rectangle.c:162 (centre and spread) and 170 (two bounds). -/
def lower (csr : Bool) (g : Dbl f × Dbl f) : Dbl f := if csr then g.1 - g.2 else g.1.fmin g.2

/-- The upper bound of an interval, cond_rectangle.c:163 and 171. -/
def upper (csr : Bool) (g : Dbl f × Dbl f) : Dbl f := if csr then g.1 + g.2 else g.1.fmax g.2

/-- `cond_rectangle_match`, cond_rectangle.c:155-178; the condition has an interval for each input. -/
def boxMatch (csr : Bool) : List (Dbl f × Dbl f) → List (Dbl f) → Bool
  | g :: gs, x :: xs => if x < lower csr g ∨ upper csr g < x then false else boxMatch csr gs xs
  | _, _ => true

/-- `cond_rectangle_cover`, cond_rectangle.c:106-125, with the random spreads for each input; `half` is
the constant 0.5. -/
def boxCover (csr : Bool) (half : Dbl f) : List (Dbl f) → List (Dbl f × Dbl f) → List (Dbl f × Dbl f)
  | x :: xs, r :: rs =>
    (if csr then (x, r.1) else (x - r.1 * half, x + r.2 * half)) :: boxCover csr half xs rs
  | _, _ => []

/-- `cond_rectangle_update`, cond_rectangle.c:134-147, for conditions of centre and spread, and
`cond_ellipsoid_update`, cond_ellipsoid.c:142-153. -/
def slide (eta : Dbl f) : List (Dbl f × Dbl f) → List (Dbl f) → List (Dbl f × Dbl f)
  | g :: gs, x :: xs => (if 0 < eta then g.1 + eta * (x - g.1) else g.1, g.2) :: slide eta gs xs
  | gs, _ => gs

/-- The loop of `cond_ellipsoid_dist`, cond_ellipsoid.c:51-54. -/
def ovalDist : List (Dbl f × Dbl f) → List (Dbl f) → Dbl f → Dbl f
  | g :: gs, x :: xs, d => ovalDist gs xs (d + (x - g.1) / g.2 * ((x - g.1) / g.2))
  | _, _, d => d

/-- `cond_ellipsoid_match`, cond_ellipsoid.c:162-167. -/
def ovalMatch (gs : List (Dbl f × Dbl f)) (x : List (Dbl f)) : Bool := decide (ovalDist gs x 0 < 1)

/-- `cond_ellipsoid_cover`, cond_ellipsoid.c:123-133, with the random spreads. -/
def ovalCover (x spreads : List (Dbl f)) : List (Dbl f × Dbl f) := x.zip spreads

/-- The digits of a number, most significant first: the loop of `float_to_binary`, utils.h:122-125. -/
def digits : Nat → Int → List Bool
  | 0, _ => []
  | n + 1, a => digits n (a / 2) ++ [decide (a % 2 = 1)]

/-- `(int) v`, utils.h:121, of a double: what has no value as an `int` is undefined. -/
def Dbl.toInt : Dbl f → Res Int
  | .fin q _ => if ⌊q⌋ ≤ 2147483647 ∧ -2147483648 ≤ ⌈q⌉ then .ok (if 0 ≤ q then ⌊q⌋ else ⌈q⌉) else .error .ub
  | _ => .error .ub

/-- `float_to_binary`, utils.h:109-127; `two` is `pow(2, bits)`. -/
def binaryOf (two : Dbl f) (v : Dbl f) (bits : Nat) : Res (List Bool) :=
  if v = 1 ∨ 1 < v then .ok (List.replicate bits true)
  else if v = 0 ∨ v < 0 then .ok (List.replicate bits false)
  else do
    let a ← (v * two).toInt
    .ok (digits bits a)

/-- `cond_ternary_match`, cond_ternary.c:160-176, for the strings of each input; `none` is a `#`. -/
def ternMatch (two : Dbl f) (bits : Nat) : List (List (Option Bool)) → List (Dbl f) → Res Bool
  | s :: ss, x :: xs => do
    let b ← binaryOf two x bits
    if List.all (List.zipWith (fun t v => t == none || t == some v) s b) id then ternMatch two bits ss xs
    else .ok false
  | _, _ => .ok true

/-! ## Lemmas -/

theorem not_less_self (x : Dbl f) : ¬ x < x := by
  cases x with
  | nan => exact id
  | inf a => cases a <;> exact fun h => by cases h.1 <;> cases h.2
  | fin q h => exact lt_irrefl q

theorem nan_not_less (a : Dbl f) : ¬ (.nan : Dbl f) < a := by cases a <;> exact id
theorem not_less_nan (a : Dbl f) : ¬ a < (.nan : Dbl f) := by cases a <;> exact id

/-- Taking away what is not negative does not make larger. -/
theorem not_less_sub {x s : Dbl f} (hs : ¬ s < 0) : ¬ x < x - s := by
  cases x with
  | nan => exact nan_not_less _
  | inf a =>
    cases s with
    | nan => exact not_less_nan _
    | inf b =>
      cases b with
      | true => exact absurd rfl hs
      | false => cases a <;> exact fun h => by first | exact h | (cases h.1; try cases h.2)
    | fin p hp => exact not_less_self (.inf a)
  | fin q hq =>
    cases s with
    | nan => exact not_less_nan _
    | inf b =>
      cases b with
      | true => exact absurd rfl hs
      | false => exact fun h => by cases h
    | fin p hp =>
      have h0 : 0 ≤ p := not_lt.1 hs
      show ¬ Dbl.less (.fin q hq) (.round f (q + -p))
      unfold Dbl.round
      split
      · show ¬ q < f.rnd (q + -p)
        rw [not_lt]
        calc f.rnd (q + -p) ≤ f.rnd q := f.mono _ _ (by linarith)
          _ = q := f.exact q hq
      · rename_i h
        have hb := f.bound q hq
        have : q + -p < 0 := by
          by_contra hn
          rw [not_lt] at hn
          apply h
          rw [abs_of_nonneg hn]
          have := le_abs_self q
          linarith
        simp [Dbl.less, this]

/-- Adding what is not negative does not make smaller. -/
theorem not_add_less {x s : Dbl f} (hs : ¬ s < 0) : ¬ x + s < x := by
  cases x with
  | nan => exact not_less_nan _
  | inf a =>
    cases s with
    | nan => exact nan_not_less _
    | inf b =>
      cases b with
      | true => exact absurd rfl hs
      | false => cases a <;> exact fun h => by first | exact h | (cases h.1; try cases h.2)
    | fin p hp => exact not_less_self (.inf a)
  | fin q hq =>
    cases s with
    | nan => exact nan_not_less _
    | inf b =>
      cases b with
      | true => exact absurd rfl hs
      | false => exact fun h => by cases h
    | fin p hp =>
      have h0 : 0 ≤ p := not_lt.1 hs
      show ¬ Dbl.less (.round f (q + p)) (.fin q hq)
      unfold Dbl.round
      split
      · show ¬ f.rnd (q + p) < q
        rw [not_lt]
        calc q = f.rnd q := (f.exact q hq).symm
          _ ≤ f.rnd (q + p) := f.mono _ _ (by linarith)
      · rename_i h
        have hb := f.bound q hq
        have : ¬ q + p < 0 := by
          intro hn
          apply h
          rw [abs_of_neg hn]
          have := neg_abs_le q
          linarith
        simp [Dbl.less, this]

theorem less_trans {a b c : Dbl f} (h1 : a < b) (h2 : b < c) : a < c := by
  have h1 : Dbl.less a b := h1
  have h2 : Dbl.less b c := h2
  show Dbl.less a c
  cases a <;> cases b <;> cases c <;> simp only [Dbl.less] at h1 h2 ⊢
  all_goals first
    | exact h1
    | exact h2
    | exact ⟨h1.1, h2.2⟩
    | exact ⟨h1, h2⟩
    | exact h1.1
    | exact h2.2
    | exact lt_trans h1 h2
    | (rw [h1] at h2; exact absurd h2 (by simp))

/-- The smaller of two numbers. -/
theorem not_less_fmin {x a b : Dbl f} (ha : ¬ x < a) (hb : a = .nan → ¬ x < b) : ¬ x < a.fmin b := by
  unfold Dbl.fmin
  split
  · exact hb rfl
  · exact ha
  · split
    · rename_i h
      exact fun h1 => ha (less_trans h1 h)
    · exact ha

/-- The larger of two numbers. -/
theorem not_fmax_less {x a b : Dbl f} (hb : ¬ b < x) (ha : b = .nan → ¬ a < x) : ¬ a.fmax b < x := by
  unfold Dbl.fmax
  split
  · exact hb
  · exact ha rfl
  · split
    · rename_i h
      exact fun h1 => hb (less_trans h h1)
    · exact hb

/-- Taking a spread away is nonsense only for a missing or the largest value. -/
theorem not_less_of_sub_nan {x s : Dbl f} (hs : ¬ s < 0) (hn : s ≠ .nan) (h : x - s = .nan) (b : Dbl f) :
    ¬ x < b := by
  cases x with
  | nan => exact nan_not_less b
  | inf a =>
    cases a with
    | false => cases b <;> exact fun h => by simp [LT.lt, Dbl.less] at h
    | true =>
      cases s with
      | nan => exact absurd rfl hn
      | inf c =>
        cases c with
        | true => exact absurd rfl hs
        | false => cases h
      | fin p hp => cases h
  | fin q hq =>
    cases s with
    | nan => exact absurd rfl hn
    | inf c => cases h
    | fin p hp =>
      have h : Dbl.round f (q + -p) = .nan := h
      unfold Dbl.round at h
      split at h <;> cases h

theorem not_less_of_add_nan {x s : Dbl f} (hs : ¬ s < 0) (hn : s ≠ .nan) (h : x + s = .nan) (b : Dbl f) :
    ¬ b < x := by
  cases x with
  | nan => exact not_less_nan b
  | inf a =>
    cases a with
    | true => cases b <;> exact fun h => by simp [LT.lt, Dbl.less] at h
    | false =>
      cases s with
      | nan => exact absurd rfl hn
      | inf c =>
        cases c with
        | true => exact absurd rfl hs
        | false => cases h
      | fin p hp => cases h
  | fin q hq =>
    cases s with
    | nan => exact absurd rfl hn
    | inf c => cases h
    | fin p hp =>
      have h : Dbl.round f (q + p) = .nan := h
      unfold Dbl.round at h
      split at h <;> cases h

theorem mul_ne_nan {s : Dbl f} (hn : s ≠ .nan) {q : ℚ} (hq : f.rep q) (h0 : 0 < q) :
    s * .fin q hq ≠ .nan := by
  cases s with
  | nan => exact absurd rfl hn
  | inf a =>
    show Dbl.scaled a q ≠ .nan
    unfold Dbl.scaled
    rw [if_neg h0.ne']
    exact nofun
  | fin p hp =>
    show Dbl.round f (p * q) ≠ .nan
    unfold Dbl.round
    split <;> exact nofun

end Xcsf.Double
