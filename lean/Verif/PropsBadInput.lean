import Verif.BadInput
import Verif.PropsBadSample

/-!
# C111: inputs that are not numbers

A user with missing values (read as not-a-number) or infinite values among the inputs may expect that a
rule made to cover such an input matches it, that all kinds of conditions treat it alike, and that
learning from it does not change what rules say about other inputs.  For hyperrectangles covering does
what it should for every double, and a missing value matches every interval; but rules that move their
centres towards inputs lose them.  Hyperellipsoids match no such input, not even the one they were made
for.  For ternary conditions the behaviour is undefined.
-/

set_option linter.unusedSectionVars false

namespace Xcsf.Double

open Demo

variable {f : Format}

/-- A finite number. -/
def Dbl.Finite : Dbl f → Prop
  | .fin _ _ => True
  | _ => False

/-- Spreads that may be drawn: one pair for each input, numbers or infinite, none of them negative. -/
def Spreads (x : List (Dbl f)) (rs : List (Dbl f × Dbl f)) : Prop :=
  rs.length = x.length ∧ ∀ r ∈ rs, (¬ r.1 < 0 ∧ r.1 ≠ .nan) ∧ (¬ r.2 < 0 ∧ r.2 ≠ .nan)

/-- **C111**: a hyperrectangle that was made to cover an input matches it, for all doubles - rounded,
infinite or missing - and both kinds of rectangles. -/
theorem C111_rectangle_covers (csr : Bool) {h : ℚ} (hr : f.rep h) (h0 : 0 < h) : ∀ {x : List (Dbl f)}
    {rs : List (Dbl f × Dbl f)}, Spreads x rs → boxMatch csr (boxCover csr (.fin h hr) x rs) x = true
  | [], [], _ => rfl
  | [], _ :: _, h => absurd h.1 (by simp)
  | _ :: _, [], h => absurd h.1 (by simp)
  | x :: xs, r :: rs, H => by
    have ih := C111_rectangle_covers csr hr h0 (x := xs) (rs := rs)
      ⟨by simpa using H.1, fun q hq => H.2 q (List.mem_cons_of_mem _ hq)⟩
    obtain ⟨⟨h1, n1⟩, h2, n2⟩ := H.2 r (by simp)
    unfold boxCover boxMatch
    rw [if_neg]
    · exact ih
    · rw [not_or]
      have hh : (Dbl.fin h hr).Nonneg := le_of_lt h0
      have m1 : ¬ r.1 * .fin h hr < 0 := (nonneg_iff _).1 (mul_nonneg' ((nonneg_iff _).2 h1) hh)
      have m2 : ¬ r.2 * .fin h hr < 0 := (nonneg_iff _).1 (mul_nonneg' ((nonneg_iff _).2 h2) hh)
      cases csr with
      | true => exact ⟨not_less_sub h1, not_add_less h1⟩
      | false =>
        exact ⟨not_less_fmin (not_less_sub m1) fun e => not_less_of_sub_nan m1 (mul_ne_nan n1 hr h0) e _,
          not_fmax_less (not_add_less m2) fun e => not_less_of_add_nan m2 (mul_ne_nan n2 hr h0) e _⟩

/-- A missing value matches every interval: the other inputs decide. -/
theorem C111_missing_matches (csr : Bool) (g : Dbl f × Dbl f) (b : List (Dbl f × Dbl f)) (y : List (Dbl f)) :
    ∀ {a : List (Dbl f × Dbl f)} {x : List (Dbl f)}, a.length = x.length →
    boxMatch csr (a ++ g :: b) (x ++ .nan :: y) = (boxMatch csr a x && boxMatch csr b y)
  | [], [], _ => by
    show (if _ then false else boxMatch csr b y) = _
    rw [if_neg (not_or.2 ⟨nan_not_less _, not_less_nan _⟩)]
    rfl
  | [], _ :: _, h => absurd h (by simp)
  | _ :: _, [], h => absurd h (by simp)
  | c :: a, z :: x, h => by
    have ih := C111_missing_matches csr g b y (a := a) (x := x) (by simpa using h)
    show (if _ then false else boxMatch csr (a ++ g :: b) (x ++ Dbl.nan :: y)) =
      ((if _ then false else boxMatch csr a x) && _)
    rw [ih]
    split <;> rfl

/-- An interval whose centre is missing matches every value. -/
theorem C111_lost_interval (s v : Dbl f) (gs : List (Dbl f × Dbl f)) (xs : List (Dbl f)) :
    boxMatch true ((.nan, s) :: gs) (v :: xs) = boxMatch true gs xs := by
  show (if _ then false else boxMatch true gs xs) = _
  rw [if_neg]
  refine not_or.2 ⟨?_, ?_⟩
  · show ¬ v < (.nan : Dbl f) - s
    rw [nan_sub]
    exact not_less_nan v
  · show ¬ (.nan : Dbl f) + s < v
    rw [nan_add]
    exact nan_not_less v

/-- Rules that move their centres towards inputs (`eta` positive) lose a centre to the first missing
value they meet, for all time; from then on they match whatever the value is. -/
theorem C111_centre_lost {eta : Dbl f} (h0 : 0 < eta) (c s v : Dbl f) (gs : List (Dbl f × Dbl f))
    (xs : List (Dbl f)) :
    (slide eta ((c, s) :: gs) (.nan :: xs)).head? = some (.nan, s) ∧
    (slide eta ((.nan, s) :: gs) (v :: xs)).head? = some (.nan, s) := by
  constructor
  · show some ((if 0 < eta then c + eta * (.nan - c) else c), s) = _
    rw [if_pos h0, nan_sub, mul_nan, add_nan]
  · show some ((if 0 < eta then .nan + eta * (v - .nan) else .nan), s) = _
    rw [if_pos h0, nan_add]

theorem ovalDist_nan : ∀ (gs : List (Dbl f × Dbl f)) (x : List (Dbl f)), ovalDist gs x .nan = .nan
  | g :: gs, x :: xs => by
    show ovalDist gs xs (.nan + _) = .nan
    rw [nan_add]
    exact ovalDist_nan gs xs
  | [], _ => by unfold ovalDist; rfl
  | _ :: _, [] => by unfold ovalDist; rfl

/-- **C111** (refuted): a hyperellipsoid matches no input with a missing value, and one with a missing
centre matches no input at all. -/
theorem C111_ellipsoid_never : ∀ {gs : List (Dbl f × Dbl f)} {x : List (Dbl f)} {i : Nat}
    {g : Dbl f × Dbl f} {v : Dbl f}, gs[i]? = some g → x[i]? = some v → (g.1 = .nan ∨ v = .nan) →
    ovalMatch gs x = false := by
  have key : ∀ (gs : List (Dbl f × Dbl f)) (x : List (Dbl f)) (i : Nat) (g : Dbl f × Dbl f) (v d : Dbl f),
      gs[i]? = some g → x[i]? = some v → (g.1 = .nan ∨ v = .nan) → ovalDist gs x d = .nan := by
    intro gs
    induction gs with
    | nil => intro x i g v d h; simp at h
    | cons g0 gs ih =>
      intro x i g v d hg hv h
      cases x with
      | nil => simp at hv
      | cons x0 xs =>
        unfold ovalDist
        cases i with
        | zero =>
          have e1 : g0 = g := Option.some.inj hg
          have e2 : x0 = v := Option.some.inj hv
          have e : x0 - g0.1 = .nan := by
            rw [e1, e2]
            rcases h with h | h
            · rw [h, sub_nan]
            · rw [h, nan_sub]
          rw [e, nan_div, nan_mul, add_nan]
          exact ovalDist_nan gs xs
        | succ i => exact ih xs i g v _ (by simpa using hg) (by simpa using hv) h
  intro gs x i g v hg hv h
  unfold ovalMatch
  rw [key gs x i g v 0 hg hv h]
  exact decide_eq_false (nan_not_less _)

/-- **C111** (refuted): so a hyperellipsoid that was made to cover an input with a missing value matches
neither this nor any other input. -/
theorem C111_ellipsoid_cover_refuted {x spreads : List (Dbl f)} (hl : spreads.length = x.length)
    {i : Nat} (hi : x[i]? = some .nan) {z : List (Dbl f)} (hz : z.length = x.length) :
    ovalMatch (ovalCover x spreads) z = false := by
  have h1 : i < x.length := (List.getElem?_eq_some_iff.1 hi).1
  have h2 : spreads[i]? = some (spreads[i]'(by omega)) := List.getElem?_eq_getElem _
  have h3 : z[i]? = some (z[i]'(by omega)) := List.getElem?_eq_getElem _
  refine C111_ellipsoid_never (i := i) (g := (.nan, spreads[i]'(by omega))) ?_ h3 (.inl rfl)
  unfold ovalCover
  rw [List.getElem?_zip_eq_some]
  exact ⟨hi, h2⟩

theorem fin_sub_self {q : ℚ} (h : f.rep q) : (.fin q h : Dbl f) - .fin q h = 0 := by
  show Dbl.round f (q + -q) = 0
  have e : q + -q = 0 := by ring
  rw [e, round_rep (by simpa using f.rep_int 0 (by norm_num) : f.rep 0)]
  rfl

theorem zero_div_self {s : Dbl f} (h0 : s ≠ 0) (hn : s ≠ .nan) : (0 : Dbl f) / s = 0 := by
  have hr : f.rep 0 := by simpa using f.rep_int 0 (by norm_num)
  cases s with
  | nan => exact absurd rfl hn
  | inf a => rfl
  | fin q h =>
    have hq : q ≠ 0 := by
      rintro rfl
      exact h0 rfl
    show (if q = 0 then _ else Dbl.round f (0 / q)) = 0
    rw [if_neg hq, zero_div, round_rep hr]
    rfl

theorem zero_mul_zero : (0 : Dbl f) * 0 = 0 := by
  have hr : f.rep 0 := by simpa using f.rep_int 0 (by norm_num)
  show Dbl.round f (0 * 0) = 0
  rw [mul_zero, round_rep hr]
  rfl

/-- **C111** (partial): for finite inputs, and spreads that are not zero, hyperellipsoids cover. -/
theorem C111_ellipsoid_covers_partial : ∀ {x spreads : List (Dbl f)}, (∀ v ∈ x, v.Finite) →
    (∀ s ∈ spreads, s ≠ 0 ∧ s ≠ .nan) → ovalMatch (ovalCover x spreads) x = true := by
  have key : ∀ (x spreads : List (Dbl f)), (∀ v ∈ x, v.Finite) → (∀ s ∈ spreads, s ≠ 0 ∧ s ≠ .nan) →
      ovalDist (ovalCover x spreads) x 0 = 0 := by
    intro x
    induction x with
    | nil => intro s _ _; simp [ovalCover, ovalDist]
    | cons v x ih =>
      intro spreads hx hs
      cases spreads with
      | nil => simp [ovalCover, ovalDist]
      | cons s spreads =>
        show ovalDist ((v, s) :: ovalCover x spreads) (v :: x) 0 = 0
        unfold ovalDist
        have hv := hx v (by simp)
        obtain ⟨h0, hn⟩ := hs s (by simp)
        have e : v - v = 0 := by
          cases v with
          | nan => exact hv.elim
          | inf _ => exact hv.elim
          | fin q h => exact fin_sub_self h
        simp only [e, zero_div_self h0 hn, zero_mul_zero, zero_plus]
        exact ih spreads (fun v h => hx v (by simp [h])) fun s h => hs s (by simp [h])
  intro x spreads hx hs
  unfold ovalMatch
  rw [key x spreads hx hs]
  exact decide_eq_true (by
    show (0 : ℚ) < 1
    norm_num)

/-- **C111** (refuted): with ternary conditions a missing value is undefined behaviour. -/
theorem C111_ternary_refuted (two : Dbl f) (bits : Nat) (s : List (Option Bool)) (ss : List (List (Option Bool)))
    (xs : List (Dbl f)) : ternMatch two bits (s :: ss) (.nan :: xs) = .error .ub := by
  have e : binaryOf two (.nan : Dbl f) bits = .error .ub := by
    unfold binaryOf
    rw [if_neg (not_or.2 ⟨nofun, not_less_nan _⟩), if_neg (not_or.2 ⟨nofun, nan_not_less _⟩), nan_mul]
    rfl
  show (binaryOf two (.nan : Dbl f) bits >>= _) = _
  rw [e]
  rfl

theorem digits_length : ∀ (n : Nat) (a : Int), (digits n a).length = n
  | 0, _ => rfl
  | n + 1, a => by simp [digits, digits_length n]

/-- **C111** (partial): every other value, infinite ones included, has its bits, for up to 30 of them. -/
theorem C111_ternary_partial {bits : Nat} (hb : bits ≤ 30) (h2 : f.rep ((2 : ℚ) ^ bits)) {v : Dbl f}
    (hv : v ≠ .nan) : ∃ l, binaryOf (.fin (2 ^ bits) h2) v bits = .ok l ∧ l.length = bits := by
  unfold binaryOf
  split
  · exact ⟨_, rfl, by simp⟩
  · split
    · exact ⟨_, rfl, by simp⟩
    · rename_i h1 h0
      rw [not_or] at h1 h0
      cases v with
      | nan => exact absurd rfl hv
      | inf a =>
        cases a with
        | true => exact absurd rfl h0.2
        | false => exact absurd rfl h1.2
      | fin q hq =>
        have q0 : 0 ≤ q := not_lt.1 h0.2
        have q1 : q ≤ 1 := not_lt.1 h1.2
        have p0 : (0 : ℚ) < 2 ^ bits := pow_pos (by norm_num) _
        have ha : |q * 2 ^ bits| < f.huge := by
          rw [abs_of_nonneg (mul_nonneg q0 p0.le)]
          have := f.bound _ h2
          rw [abs_of_pos p0] at this
          nlinarith
        have hm : (.fin q hq : Dbl f) * .fin (2 ^ bits) h2 = .fin (f.rnd (q * 2 ^ bits)) (f.rep_rnd _ ha) := by
          show Dbl.round f _ = _
          unfold Dbl.round
          rw [dif_pos ha]
        have r0 : 0 ≤ f.rnd (q * 2 ^ bits) := by
          rw [← rnd_zero (f := f)]
          exact f.mono _ _ (mul_nonneg q0 p0.le)
        have r1 : f.rnd (q * 2 ^ bits) ≤ 2 ^ bits := by
          conv_rhs => rw [← f.exact _ h2]
          exact f.mono _ _ (by nlinarith)
        have r2 : (2 : ℚ) ^ bits ≤ 2 ^ 30 := pow_le_pow_right₀ (by norm_num) hb
        rw [hm]
        have c1 : ⌊f.rnd (q * 2 ^ bits)⌋ ≤ 2147483647 := by
          have := Int.floor_le (f.rnd (q * 2 ^ bits))
          have h3 : ((⌊f.rnd (q * 2 ^ bits)⌋ : Int) : ℚ) ≤ ((2147483647 : Int) : ℚ) := by
            refine this.trans (r1.trans (r2.trans ?_))
            norm_num
          exact_mod_cast h3
        have c2 : -2147483648 ≤ ⌈f.rnd (q * 2 ^ bits)⌉ := by
          have := Int.ceil_nonneg r0
          omega
        have e : (Dbl.fin (f.rnd (q * 2 ^ bits)) (f.rep_rnd _ ha)).toInt = .ok ⌊f.rnd (q * 2 ^ bits)⌋ := by
          show (if _ then Except.ok (if _ then _ else _) else _) = _
          rw [if_pos ⟨c1, c2⟩, if_pos r0]
        rw [e]
        exact ⟨_, rfl, digits_length _ _⟩

/-! ## A system, and examples -/

/-- Hyperellipsoids of one input, spread 1, that learn constants. -/
def ovalKit (f : Format) : Kit (Dbl f) (List (Dbl f)) (List (Dbl f × Dbl f)) Nat :=
  { draw := fun r => (half f, r + 1)
    floor := Dbl.floor
    pow := fun a _ => a
    eps := 1
    dblMax := .inf false
    loss := maeLoss 1
    rand := fun r => ([(0, 1)], r)
    cover := fun _ _ x _ r => .ok (ovalCover x [1], r)
    cmatch := fun _ b x r => (ovalMatch b x, b, r)
    act := fun _ b _ r => (0, b, r)
    predict := fun _ b p _ r => (p, b, r)
    update := fun n b p _ y r => (b, List.zipWith (constLearn (half f) n) p y, r)
    general := fun _ _ => false
    crossover := fun a b r => (false, a, b, r)
    mutate := fun b r => .ok (false, b, r)
    copy := fun _ b r => (b, r)
    clone := fun b r => (b, r)
    condSize := fun _ => 1
    predSize := fun _ => 1 }

/-- **C111** (refuted): training again and again on a sample fills the population with a useless rule
for each time, if its input is missing; a system is content with one rule otherwise. -/
theorem C111_refuted :
    Res.test (run (constPar wide) (ovalKit wide) 0 [.fit [1] [1], .fit [1] [1], .fit [1] [1]])
      (fun s => s.pset.size == 1) = true ∧
    Res.test (run (constPar wide) (ovalKit wide) 0 [.fit [.nan] [1], .fit [.nan] [1], .fit [.nan] [1]])
      (fun s => s.pset.size == 3) = true := by
  constructor <;> decide +kernel

example : Spreads [(.nan : Dbl wide), .inf false, 1] [(1, 1), (.inf false, 0), (0, 1)] := by
  refine ⟨rfl, ?_⟩
  decide +kernel

example : boxMatch false (boxCover false (half wide) [(.nan : Dbl wide), .inf false, 1]
    [(1, 1), (.inf false, 0), (0, 1)]) [.nan, .inf false, 1] = true :=
  C111_rectangle_covers (h := 1 / 2) false _ (by norm_num) ⟨rfl, by decide +kernel⟩

/-- A rule around 1 of spread 1 does not match 5, but after a missing value it does. -/
example : boxMatch true [((1 : Dbl wide), 1)] [((5 : Int) : Dbl wide)] = false ∧
    boxMatch true (slide (half wide) [(1, 1)] [.nan]) [((5 : Int) : Dbl wide)] = true := by
  constructor <;> decide +kernel

example : (0 : Dbl wide) < half wide := by decide +kernel

theorem rep_eight : binary64.rep ((2 : ℚ) ^ 3) := by
  have h := binary64.rep_int 8 (by norm_num)
  have e : ((8 : Int) : ℚ) = 2 ^ 3 := by norm_num
  rwa [e] at h

example : ∃ l, binaryOf (.fin (2 ^ 3) rep_eight) (half binary64) 3 = .ok l ∧ l.length = 3 :=
  C111_ternary_partial (by norm_num) rep_eight nofun

example : ovalMatch (ovalCover [(1 : Dbl wide), 1] [1, 1]) [1, 1] = true :=
  C111_ellipsoid_covers_partial (by intro v hv; simp at hv; subst hv; trivial)
    (by decide +kernel)

end Xcsf.Double
