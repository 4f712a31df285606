import Verif.Gp
import Verif.PropsUtil

/-!
# C33: GP trees stay well formed

The specification is a type of expressions, their prefix code and their value.
-/

set_option linter.unusedSectionVars false

namespace Xcsf

/-- Expressions over `nc` constants and `ni` inputs with the four binary functions. -/
inductive GpExpr (nc ni : Nat) where
  | func (f : Fin 4) (l r : GpExpr nc ni)
  | const (i : Fin nc)
  | input (i : Fin ni)
  deriving DecidableEq

namespace GpExpr
variable {nc ni : Nat}

/-- Prefix code of an expression: functions are 0 to 3, constants and then inputs follow. -/
def code : GpExpr nc ni → List Int
  | func f l r => (f : Int) :: (l.code ++ r.code)
  | const i => [4 + (i : Int)]
  | input i => [4 + (nc : Int) + (i : Int)]

/-- Number of nodes. -/
def size : GpExpr nc ni → Nat
  | func _ l r => 1 + l.size + r.size
  | _ => 1

/-- Depth: a leaf has depth zero. -/
def depth : GpExpr nc ni → Nat
  | func _ l r => max l.depth r.depth + 1
  | _ => 0

/-- Sub-expression at position `k` of the prefix order. -/
def subAt : GpExpr nc ni → Nat → GpExpr nc ni
  | func _ l r, k + 1 => if k < l.size then l.subAt k else r.subAt (k - l.size)
  | e, _ => e

/-- The expression with the sub-expression at position `k` replaced by `n`. -/
def replaceAt : GpExpr nc ni → Nat → GpExpr nc ni → GpExpr nc ni
  | func f l r, k + 1, n =>
    if k < l.size then func f (l.replaceAt k n) r else func f l (r.replaceAt (k - l.size) n)
  | _, _, n => n

/-- Same shape: functions where there were functions, leaves where there were leaves. -/
def SameShape : GpExpr nc ni → GpExpr nc ni → Prop
  | func _ l r, func _ l' r' => l.SameShape l' ∧ r.SameShape r'
  | func _ _ _, _ => False
  | _, func _ _ _ => False
  | _, _ => True

section
variable {K : Type} [Field K] [LinearOrder K] [IsStrictOrderedRing K]

/-- Limit a value to `[-1000, 1000]`. -/
def limit (v : K) : K := max (-1000) (min 1000 v)

/-- Application of a function to the limited values of its arguments. -/
def apply (f : Fin 4) (a b : K) : K :=
  match f with
  | 0 => a + b
  | 1 => a - b
  | 2 => a * b
  | 3 => if b = 0 then a else a / b

/-- Value of an expression. -/
def value (c : Fin nc → K) (x : Fin ni → K) : GpExpr nc ni → K
  | func f l r => apply f (limit (l.value c x)) (limit (r.value c x))
  | const i => c i
  | input i => x i

/-- Infix form, fully parenthesised. -/
def infixForm (c : Fin nc → K) : GpExpr nc ni → List (GpTok K)
  | func f l r => [.lpar] ++ l.infixForm c ++ [.func (f : Int)] ++ r.infixForm c ++ [.rpar]
  | const i => [.const (c i)]
  | input i => [.input i]

end

theorem code_length : ∀ e : GpExpr nc ni, e.code.length = e.size
  | func _ l r => by simp [code, size, code_length l, code_length r]; omega
  | const _ => rfl
  | input _ => rfl

theorem size_pos : ∀ e : GpExpr nc ni, 0 < e.size
  | func _ _ _ => by rw [size]; omega
  | const _ => by simp [size]
  | input _ => by simp [size]

theorem code_sub : ∀ (e : GpExpr nc ni) (k : Nat), k < e.size →
    ∃ pre post, e.code = pre ++ (e.subAt k).code ++ post ∧ pre.length = k ∧
      ∀ n, (e.replaceAt k n).code = pre ++ n.code ++ post
  | func f l r, 0, _ => ⟨[], [], by simp [subAt], rfl, by simp [replaceAt]⟩
  | func f l r, k + 1, h => by
    by_cases hk : k < l.size
    · obtain ⟨pre, post, h1, h2, h3⟩ := code_sub l k hk
      refine ⟨(f : Int) :: pre, post ++ r.code, ?_, by simp [h2], fun n => ?_⟩
      · simp only [subAt, if_pos hk]; rw [code, h1]; simp
      · simp only [replaceAt, if_pos hk]; rw [code, h3]; simp
    · have hk' : k - l.size < r.size := by rw [size] at h; omega
      obtain ⟨pre, post, h1, h2, h3⟩ := code_sub r (k - l.size) hk'
      refine ⟨(f : Int) :: l.code ++ pre, post, ?_, ?_, fun n => ?_⟩
      · simp only [subAt, if_neg hk]; rw [code, h1]; simp
      · simp [h2, code_length]; omega
      · simp only [replaceAt, if_neg hk]; rw [code, h3]; simp
  | const i, k, h => by
    have : k = 0 := by simp [size] at h; exact h
    subst this; exact ⟨[], [], by simp [subAt], rfl, by simp [replaceAt]⟩
  | input i, k, h => by
    have : k = 0 := by simp [size] at h; exact h
    subst this; exact ⟨[], [], by simp [subAt], rfl, by simp [replaceAt]⟩

end GpExpr

open GpExpr

theorem getElem?_mid {α : Type} (pre post : List α) (a : α) :
    (pre ++ a :: post)[pre.length]? = some a := by simp

theorem gpTraverse_code {nc ni : Nat} : ∀ (e : GpExpr nc ni) (pre post : List Int) (fuel : Nat),
    e.size ≤ fuel →
    gpTraverse (pre ++ e.code ++ post) fuel pre.length = .ok (pre.length + e.size)
  | .func f l r, pre, post, 0, h => by simp [size] at h
  | .func f l r, pre, post, fuel + 1, h => by
    rw [size] at h
    have e0 : pre ++ (GpExpr.func f l r).code ++ post =
        pre ++ (f : Int) :: (l.code ++ r.code ++ post) := by simp [code]
    have e1 : pre ++ (GpExpr.func f l r).code ++ post =
        (pre ++ [(f : Int)]) ++ l.code ++ (r.code ++ post) := by simp [code]
    have e2 : pre ++ (GpExpr.func f l r).code ++ post =
        (pre ++ [(f : Int)] ++ l.code) ++ r.code ++ post := by simp [code]
    have hf : ¬ gpFuncs ≤ (f : Int) := by have := f.2; simp only [gpFuncs]; omega
    have t1 := gpTraverse_code l (pre ++ [(f : Int)]) (r.code ++ post) fuel (by omega)
    have t2 := gpTraverse_code r (pre ++ [(f : Int)] ++ l.code) post fuel (by omega)
    rw [← e1] at t1
    rw [← e2] at t2
    unfold gpTraverse
    have h0 : (pre ++ (GpExpr.func f l r).code ++ post)[pre.length]? = some (f : Int) := by
      rw [e0]; exact getElem?_mid _ _ _
    rw [h0]
    simp only [if_neg hf]
    simp only [List.length_append, List.length_cons, List.length_nil, code_length] at t1 t2
    rw [t1]
    show gpTraverse _ fuel (pre.length + (0 + 1) + l.size) = _
    rw [t2, size]
    congr 1; omega
  | .const i, pre, post, 0, h => by simp [size] at h
  | .const i, pre, post, fuel + 1, h => by
    unfold gpTraverse
    simp [code, gpFuncs, size]
  | .input i, pre, post, 0, h => by simp [size] at h
  | .input i, pre, post, fuel + 1, h => by
    unfold gpTraverse
    simp only [code, List.append_assoc, List.singleton_append, getElem?_mid, gpFuncs, size]
    rw [if_pos (by omega)]

theorem gpEnd_code {nc ni : Nat} (e : GpExpr nc ni) (pre post : List Int) :
    gpEnd (pre ++ e.code ++ post) pre.length = .ok (pre.length + e.size) :=
  gpTraverse_code e pre post _ (by simp [code_length]; omega)

theorem gpEnd_whole {nc ni : Nat} (e : GpExpr nc ni) : gpEnd e.code 0 = .ok e.size := by
  simpa using gpEnd_code e [] []

/-- On every array whatsoever the traversal stops without exhausting its budget, and moves
forward within the array or leaves it (which is undefined behaviour). -/
theorem gpTraverse_total (tree : List Int) : ∀ (fuel pos : Nat), tree.length + 1 ≤ fuel + pos →
    pos ≤ tree.length →
    Post (gpTraverse tree fuel pos) (fun n => pos < n ∧ n ≤ tree.length) (· = .ub)
  | 0, pos, h, hp => by omega
  | fuel + 1, pos, h, hp => by
    unfold gpTraverse
    cases hg : tree[pos]? with
    | none => rfl
    | some node =>
      have hlt : pos < tree.length := (List.getElem?_eq_some_iff.1 hg).1
      show Post (if gpFuncs ≤ node then _ else _) _ _
      split
      · exact ⟨by omega, by omega⟩
      · refine post_bind (gpTraverse_total tree fuel (pos + 1) (by omega) (by omega)) ?_
        intro a ⟨h1, h2⟩
        refine post_mono (gpTraverse_total tree fuel a (by omega) h2) ?_
        intro n ⟨h3, h4⟩
        exact ⟨by omega, h4⟩

section
variable {K R : Type} [Field K] [LinearOrder K] [IsStrictOrderedRing K]

theorem clampK_limit (v : K) : clampK v (-1000) 1000 = limit v := by
  have h : (-1000 : K) ≤ 1000 := by norm_num
  unfold clampK limit
  split
  · next h1 => rw [min_eq_right (by linarith), max_eq_left h1.le]
  · next h1 =>
    split
    · next h2 => rw [min_eq_left h2.le, max_eq_right h]
    · next h2 => rw [min_eq_right (not_lt.1 h2), max_eq_right (not_lt.1 h1)]

variable (a : GpArgs K) (x : List K)

theorem gpEvalGo_code : ∀ (e : GpExpr a.constants.length x.length) (pre post : List Int)
    (fuel : Nat), e.size ≤ fuel →
    gpEvalGo a x (pre ++ e.code ++ post) fuel pre.length =
      .ok (e.value a.constants.get x.get, pre.length + e.size)
  | .func f l r, pre, post, 0, h => by simp [size] at h
  | .func f l r, pre, post, fuel + 1, h => by
    rw [size] at h
    have e0 : pre ++ (GpExpr.func f l r).code ++ post =
        pre ++ (f : Int) :: (l.code ++ r.code ++ post) := by simp [code]
    have e1 : pre ++ (GpExpr.func f l r).code ++ post =
        (pre ++ [(f : Int)]) ++ l.code ++ (r.code ++ post) := by simp [code]
    have e2 : pre ++ (GpExpr.func f l r).code ++ post =
        (pre ++ [(f : Int)] ++ l.code) ++ r.code ++ post := by simp [code]
    have hf4 := f.2
    have hf : ¬ gpFuncs ≤ (f : Int) := by simp only [gpFuncs]; omega
    have hf' : ¬ gpFuncs + (a.constants.length : Int) ≤ (f : Int) := by simp only [gpFuncs]; omega
    have t1 := gpEvalGo_code l (pre ++ [(f : Int)]) (r.code ++ post) fuel (by omega)
    have t2 := gpEvalGo_code r (pre ++ [(f : Int)] ++ l.code) post fuel (by omega)
    rw [← e1] at t1
    rw [← e2] at t2
    unfold gpEvalGo
    have h0 : (pre ++ (GpExpr.func f l r).code ++ post)[pre.length]? = some (f : Int) := by
      rw [e0]; exact getElem?_mid _ _ _
    rw [h0]
    simp only [if_neg hf, if_neg hf']
    simp only [List.length_append, List.length_cons, List.length_nil, code_length] at t1 t2
    rw [t1]
    show (gpEvalGo a x _ fuel (pre.length + (0 + 1) + l.size) >>= _) = _
    rw [t2]
    have hp : pre.length + (0 + 1) + l.size + r.size = pre.length + (GpExpr.func f l r).size := by
      rw [size]; omega
    rw [hp]
    show (if ((f : Nat) : Int) = 0 then _ else _) = _
    rw [clampK_limit, clampK_limit, value]
    match f with
    | 0 => rfl
    | 1 => rfl
    | 2 => rfl
    | 3 =>
      show Except.ok (ite _ _ _, _) = Except.ok (ite _ _ _, _)
      congr 2
      simp only [ne_eq, ite_not]
  | .const i, pre, post, 0, h => by simp [size] at h
  | .const i, pre, post, fuel + 1, h => by
    unfold gpEvalGo
    have hi := i.2
    simp only [code, List.append_assoc, List.singleton_append, getElem?_mid, gpFuncs, size]
    rw [if_neg (by omega), if_pos (by omega)]
    rw [show (4 + ((i : Nat) : Int) - 4).toNat = i by omega, List.getElem?_eq_getElem hi]
    rfl
  | .input i, pre, post, 0, h => by simp [size] at h
  | .input i, pre, post, fuel + 1, h => by
    unfold gpEvalGo
    have hi := i.2
    simp only [code, List.append_assoc, List.singleton_append, getElem?_mid, gpFuncs, size]
    rw [if_pos (by omega)]
    rw [show (4 + (a.constants.length : Int) + ((i : Nat) : Int) - 4 -
      (a.constants.length : Int)).toNat = i by omega, List.getElem?_eq_getElem hi]
    rfl

theorem gpString_code : ∀ (e : GpExpr a.constants.length x.length) (pre post : List Int)
    (fuel : Nat), e.size ≤ fuel →
    gpString a (pre ++ e.code ++ post) fuel pre.length =
      .ok (e.infixForm a.constants.get, pre.length + e.size)
  | .func f l r, pre, post, 0, h => by simp [size] at h
  | .func f l r, pre, post, fuel + 1, h => by
    rw [size] at h
    have e0 : pre ++ (GpExpr.func f l r).code ++ post =
        pre ++ (f : Int) :: (l.code ++ r.code ++ post) := by simp [code]
    have e1 : pre ++ (GpExpr.func f l r).code ++ post =
        (pre ++ [(f : Int)]) ++ l.code ++ (r.code ++ post) := by simp [code]
    have e2 : pre ++ (GpExpr.func f l r).code ++ post =
        (pre ++ [(f : Int)] ++ l.code) ++ r.code ++ post := by simp [code]
    have hf4 := f.2
    have hf : ¬ gpFuncs ≤ (f : Int) := by simp only [gpFuncs]; omega
    have hf' : ¬ (f : Int) < 0 := by omega
    have t1 := gpString_code l (pre ++ [(f : Int)]) (r.code ++ post) fuel (by omega)
    have t2 := gpString_code r (pre ++ [(f : Int)] ++ l.code) post fuel (by omega)
    rw [← e1] at t1
    rw [← e2] at t2
    unfold gpString
    have h0 : (pre ++ (GpExpr.func f l r).code ++ post)[pre.length]? = some (f : Int) := by
      rw [e0]; exact getElem?_mid _ _ _
    rw [h0]
    simp only [if_neg hf]
    simp only [List.length_append, List.length_cons, List.length_nil, code_length] at t1 t2
    rw [t1]
    show (if ((f : Nat) : Int) < 0 then Except.error Fault.exit else
      (gpString a (pre ++ (GpExpr.func f l r).code ++ post) fuel
        (pre.length + (0 + 1) + l.size) >>= _)) = _
    rw [if_neg hf', t2]
    show Except.ok _ = _
    rw [size, infixForm]
    congr 2
    · simp
    · omega
  | .const i, pre, post, 0, h => by simp [size] at h
  | .const i, pre, post, fuel + 1, h => by
    unfold gpString
    have hi := i.2
    simp only [code, List.append_assoc, List.singleton_append, getElem?_mid, gpFuncs, size]
    rw [if_pos (show (4 : Int) ≤ 4 + ((i : Nat) : Int) by omega)]
    have hc : ¬ (4 : Int) + (a.constants.length : Int) ≤ 4 + ((i : Nat) : Int) := by omega
    simp only [if_neg hc]
    rw [show (4 + ((i : Nat) : Int) - 4).toNat = i by omega, List.getElem?_eq_getElem hi]
    rfl
  | .input i, pre, post, 0, h => by simp [size] at h
  | .input i, pre, post, fuel + 1, h => by
    unfold gpString
    have hi := i.2
    simp only [code, List.append_assoc, List.singleton_append, getElem?_mid, gpFuncs, size]
    rw [if_pos (show (4 : Int) ≤ 4 + (a.constants.length : Int) + ((i : Nat) : Int) by omega)]
    have hc : (4 : Int) + (a.constants.length : Int) ≤
      4 + (a.constants.length : Int) + ((i : Nat) : Int) := by omega
    simp only [if_pos hc]
    rw [show (4 + (a.constants.length : Int) + ((i : Nat) : Int) - 4 -
      (a.constants.length : Int)).toNat = i by omega]
    rfl

variable {a x}

/-- **C33**, evaluation: for a well-formed tree and any input the evaluation stays in the
array and the match is decided by the value of the expression, whatever position an earlier
evaluation left behind; only the position changes. -/
theorem C33_match {t : GpTree K} {e : GpExpr a.constants.length x.length} (h : t.tree = e.code) :
    gpMatch a x t = .ok (decide (1 / 2 < e.value a.constants.get x.get),
      { t with pos := e.size }) := by
  have := gpEvalGo_code a x e [] [] (t.tree.length + 1) (by rw [h, code_length]; omega)
  rw [List.nil_append, List.append_nil, ← h, List.length_nil, Nat.zero_add] at this
  unfold gpMatch gpEval
  show (Except.bind (Except.bind (gpEvalGo a x t.tree (t.tree.length + 1) 0) _) _) = _
  rw [this]
  rfl

/-- **C33**, printing: the printed form is the fully parenthesised infix form. -/
theorem C33_print {t : GpTree K} {e : GpExpr a.constants.length x.length} (h : t.tree = e.code) :
    gpString a t.tree (t.tree.length + 1) 0 = .ok (e.infixForm a.constants.get, e.size) := by
  have := gpString_code a x e [] [] (t.tree.length + 1) (by rw [h, code_length]; omega)
  rw [List.nil_append, List.append_nil, ← h, List.length_nil, Nat.zero_add] at this
  exact this

theorem infixForm_inj (c : Fin a.constants.length → K) :
    ∀ (e e' : GpExpr a.constants.length x.length) (s s' : List (GpTok K)),
    e.infixForm c ++ s = e'.infixForm c ++ s' →
      s = s' ∧ e.size = e'.size ∧ ∀ y, e.value c y = e'.value c y
  | .func f l r, .func f' l' r', s, s', h => by
    simp only [infixForm, List.append_assoc, List.cons_append, List.nil_append, List.cons.injEq,
      true_and] at h
    obtain ⟨h1, h2, h3⟩ := infixForm_inj c l l' _ _ h
    rw [List.cons.injEq] at h1
    obtain ⟨hf, h1⟩ := h1
    obtain ⟨g1, g2, g3⟩ := infixForm_inj c r r' _ _ h1
    rw [List.cons.injEq] at g1
    have hf' : f = f' := by
      have := GpTok.func.inj hf
      exact Fin.ext (by exact_mod_cast this)
    subst hf'
    exact ⟨g1.2, by rw [size, size, h2, g2], fun y => by rw [value, value, h3, g3]⟩
  | .const i, .const i', s, s', h => by
    simp only [infixForm, List.singleton_append, List.cons.injEq, GpTok.const.injEq] at h
    exact ⟨h.2, rfl, fun y => h.1⟩
  | .input i, .input i', s, s', h => by
    simp only [infixForm, List.singleton_append, List.cons.injEq, GpTok.input.injEq] at h
    have : i = i' := Fin.ext h.1
    subst this
    exact ⟨h.2, rfl, fun y => rfl⟩
  | .func f l r, .const i, s, s', h => by simp [infixForm] at h
  | .func f l r, .input i, s, s', h => by simp [infixForm] at h
  | .const i, .func f l r, s, s', h => by simp [infixForm] at h
  | .input i, .func f l r, s, s', h => by simp [infixForm] at h
  | .const i, .input i', s, s', h => by simp [infixForm] at h
  | .input i, .const i', s, s', h => by simp [infixForm] at h

/-- **C33**, the printed form is unambiguous: trees printed alike have the same size and the
same value for every input. -/
theorem C33_print_unambiguous {e e' : GpExpr a.constants.length x.length}
    (h : e.infixForm a.constants.get = e'.infixForm a.constants.get) :
    e.size = e'.size ∧ ∀ y, e.value a.constants.get y = e'.value a.constants.get y := by
  have := infixForm_inj (x := x) a.constants.get e e' [] [] (by rw [h])
  exact this.2

/-- **C33**, values: the arguments of every function are limited, so a sum or difference is at
most 2000 and a product at most a million in magnitude; a quotient is at most 1000 divided by
the divisor. -/
theorem C33_value_bounds (c : Fin a.constants.length → K) (y : Fin x.length → K)
    (l r : GpExpr a.constants.length x.length) :
    |(func 0 l r).value c y| ≤ 2000 ∧ |(func 1 l r).value c y| ≤ 2000 ∧
    |(func 2 l r).value c y| ≤ 1000000 ∧
    (|(func 3 l r).value c y| ≤ 1000 ∨
      |(func 3 l r).value c y| ≤ 1000 / |limit (r.value c y)|) := by
  have hl : ∀ v : K, |limit v| ≤ 1000 := fun v => by
    rw [abs_le]; unfold limit
    exact ⟨le_max_left _ _, max_le (by norm_num) (min_le_left _ _)⟩
  have h1 := hl (l.value c y)
  have h2 := hl (r.value c y)
  simp only [value, GpExpr.apply]
  generalize limit (l.value c y) = u at *
  generalize limit (r.value c y) = w at *
  refine ⟨(abs_add_le u w).trans (by linarith), (abs_sub u w).trans (by linarith), ?_, ?_⟩
  · rw [abs_mul]
    calc |u| * |w| ≤ 1000 * 1000 := mul_le_mul h1 h2 (abs_nonneg _) (by norm_num)
      _ = 1000000 := by norm_num
  · split
    · exact Or.inl h1
    · right
      rw [abs_div]
      exact div_le_div_of_nonneg_right h1 (abs_nonneg _)

variable [FloorRing K]

/-- A legal leaf: the code of a constant or an input. -/
theorem leaf_code {nc ni : Nat} {n : Int} (h0 : 4 ≤ n) (h1 : n < 4 + (nc : Int) + (ni : Int)) :
    ∃ e : GpExpr nc ni, e.code = [n] ∧ e.size = 1 ∧ e.depth = 0 := by
  by_cases h : n < 4 + (nc : Int)
  · refine ⟨.const ⟨(n - 4).toNat, by omega⟩, ?_, rfl, rfl⟩
    simp only [code]; congr 1; omega
  · refine ⟨.input ⟨(n - 4 - nc).toNat, by omega⟩, ?_, rfl, rfl⟩
    simp only [code]; congr 1; omega

/-- What a successful growth at a position leaves: the code of an expression of at most the
given depth, within the array, and everything before it untouched. -/
def GpGrown (a : GpArgs K) (depth pos : Nat) (t : Nat → Int) (n : Nat) (t' : Nat → Int) : Prop :=
  ∃ e : GpExpr a.constants.length a.nInputs, e.depth ≤ depth ∧ n = pos + e.size ∧ n ≤ a.maxLen ∧
    (∀ i, i < pos → t' i = t i) ∧ ∀ i (h : i < e.code.length), t' (pos + i) = e.code[i]

theorem grown_leaf {g : Rng K R} (H : g.Open) {a : GpArgs K}
    (hn : 0 < a.constants.length + a.nInputs) {depth pos : Nat} (hp : pos < a.maxLen)
    (t : Nat → Int) (r : R) :
    GpGrown a depth pos t (pos + 1) (Function.update t pos (g.uniInt gpFuncs a.maxTerm r).1) := by
  have hd := C45_random_int (K := K) H (lo := gpFuncs) (hi := a.maxTerm)
    (by unfold GpArgs.maxTerm; omega) r
  obtain ⟨e, h1, h2, h3⟩ := leaf_code (nc := a.constants.length) (ni := a.nInputs) hd.1
    (by have := hd.2; unfold GpArgs.maxTerm at this; exact this)
  refine ⟨e, by omega, by omega, by omega, fun i hi => ?_, fun i hi => ?_⟩
  · rw [Function.update_of_ne (by omega)]
  · have : i = 0 := by rw [code_length] at hi; omega
    subst this
    simp [h1]

theorem gpGrow_spec {g : Rng K R} (H : g.Open) {a : GpArgs K}
    (hn : 0 < a.constants.length + a.nInputs) : ∀ (depth pos : Nat) (t : Nat → Int) (r : R)
    (n : Nat) (t' : Nat → Int) (r' : R), gpGrow g a depth pos t r = (some n, t', r') →
    GpGrown a depth pos t n t'
  | 0, pos, t, r, n, t', r', h => by
    unfold gpGrow at h
    split at h
    · cases h
    · next hp =>
      cases h
      exact grown_leaf H hn (by omega) t r
  | depth + 1, pos, t, r, n, t', r', h => by
    unfold gpGrow at h
    split at h
    · cases h
    · next hp =>
      generalize (if pos = 0 then (false, r) else
        (decide ((g.uni 0 1 r).1 < 1 / 2), (g.uni 0 1 r).2)) = u at h
      obtain ⟨b, r1⟩ := u
      cases b with
      | true => cases h; exact grown_leaf H hn (by omega) t r1
      | false =>
        have hd := C45_random_int (K := K) H (lo := 0) (hi := gpFuncs) (by decide) r1
        dsimp only at h
        generalize g.uniInt 0 gpFuncs r1 = d at h hd
        obtain ⟨d1, r2⟩ := d
        dsimp only at h hd
        cases hc : gpGrow g a depth (pos + 1) (Function.update t pos d1) r2 with
        | mk o q =>
          obtain ⟨t1, r3⟩ := q
          rw [hc] at h
          simp only [Bool.false_eq_true, if_false] at h
          cases o with
          | none => cases h
          | some child =>
            obtain ⟨l, l1, l2, l3, l4, l5⟩ := gpGrow_spec H hn depth _ _ _ _ _ _ hc
            obtain ⟨w, w1, w2, w3, w4, w5⟩ := gpGrow_spec H hn depth _ _ _ _ _ _ h
            have hlt : d1.toNat < 4 := by have := hd.2; simp only [gpFuncs] at this; omega
            refine ⟨.func ⟨d1.toNat, hlt⟩ l w, ?_, ?_, w3, fun i hi => ?_, fun i hi => ?_⟩
            · rw [GpExpr.depth]; omega
            · rw [size]; omega
            · rw [w4 i (by omega), l4 i (by omega), Function.update_of_ne (by omega)]
            · have hcl : (GpExpr.func ⟨d1.toNat, hlt⟩ l w).code =
                  d1 :: (l.code ++ w.code) := by
                simp only [code]; congr 1; exact Int.toNat_of_nonneg hd.1
              cases i with
              | zero =>
                simp only [hcl, List.getElem_cons_zero, Nat.add_zero]
                rw [w4 _ (by have := l.size_pos; omega), l4 _ (by omega), Function.update_self]
              | succ i =>
                simp only [hcl, List.getElem_cons_succ]
                by_cases hil : i < l.code.length
                · rw [List.getElem_append_left hil, ← l5 i hil,
                    w4 _ (by rw [code_length] at hil; omega)]
                  congr 1; omega
                · rw [List.getElem_append_right (by omega)]
                  have hiw : i - l.code.length < w.code.length := by
                    rw [hcl] at hi; simp at hi; omega
                  rw [← w5 _ hiw]
                  congr 1
                  rw [code_length] at hil ⊢
                  omega

theorem gpRandGo_spec {g : Rng K R} (H : g.Open) {a : GpArgs K}
    (hn : 0 < a.constants.length + a.nInputs) : ∀ (fuel : Nat) (t : Nat → Int) (r : R)
    (n : Nat) (t' : Nat → Int) (r' : R), gpRandGo g a fuel t r = .ok (n, t', r') →
    ∃ t0, GpGrown a a.initDepth 0 t0 n t'
  | 0, t, r, n, t', r', h => by cases h
  | fuel + 1, t, r, n, t', r', h => by
    unfold gpRandGo at h
    cases hc : gpGrow g a a.initDepth 0 t r with
    | mk o q =>
      obtain ⟨t1, r1⟩ := q
      rw [hc] at h
      cases o with
      | some m => cases h; exact ⟨t, gpGrow_spec H hn _ _ _ _ _ _ _ hc⟩
      | none => exact gpRandGo_spec H hn fuel _ _ _ _ _ h

/-- **C33**, random trees: whenever `tree_rand` returns, whatever the memory contained, the
array is the code of an expression over the constants and inputs, of depth at most
`init_depth` and of at most `max_len` nodes. -/
theorem C33_rand {g : Rng K R} (H : g.Open) {a : GpArgs K}
    (hn : 0 < a.constants.length + a.nInputs) {fuel : Nat} {mem : Nat → Int} {pos : Nat} {r : R}
    {t : GpTree K} {r' : R} (h : gpRand g a fuel mem pos r = .ok (t, r')) :
    ∃ e : GpExpr a.constants.length a.nInputs, t.tree = e.code ∧ e.depth ≤ a.initDepth ∧
      t.tree.length ≤ a.maxLen := by
  unfold gpRand at h
  cases hg : gpRandGo g a fuel mem r with
  | error e => rw [hg] at h; cases h
  | ok q =>
    obtain ⟨n, t1, r1⟩ := q
    rw [hg] at h
    change (samInit1 g .rateSelect r1 >>= _) = _ at h
    cases hs : samInit1 g .rateSelect r1 with
    | error e => rw [hs] at h; cases h
    | ok v =>
      rw [hs] at h
      have ht : t.tree = (List.range n).map t1 := by
        have := congrArg (fun o => match o with
          | Except.ok (w : GpTree K × R) => w.1.tree | _ => []) h
        exact this.symm
      obtain ⟨t0, e, e1, e2, e3, e4, e5⟩ := gpRandGo_spec H hn _ _ _ _ _ _ hg
      refine ⟨e, ?_, e1, by rw [ht]; simp; omega⟩
      rw [ht]
      apply List.ext_getElem
      · simp [code_length]; omega
      · intro i h1 h2
        have := e5 i h2
        simpa using this

theorem gpGrow_succeeds (g : Rng K R) (a : GpArgs K) : ∀ (depth pos : Nat) (t : Nat → Int) (r : R),
    pos + 2 ^ (depth + 1) ≤ a.maxLen + 1 →
    ∃ n t' r', gpGrow g a depth pos t r = (some n, t', r') ∧ n + 1 ≤ pos + 2 ^ (depth + 1) ∧ 0 < n
  | 0, pos, t, r, h => by
    unfold gpGrow
    rw [if_neg (by simp at h; omega)]
    exact ⟨_, _, _, rfl, by simp, by omega⟩
  | depth + 1, pos, t, r, h => by
    have h2 : 2 ^ (depth + 1 + 1) = 2 ^ (depth + 1) + 2 ^ (depth + 1) := by rw [pow_succ]; omega
    have hpos : 0 < 2 ^ (depth + 1) := Nat.two_pow_pos _
    unfold gpGrow
    rw [if_neg (by omega)]
    generalize (if pos = 0 then (false, r) else
      (decide ((g.uni 0 1 r).1 < 1 / 2), (g.uni 0 1 r).2)) = u
    obtain ⟨b, r1⟩ := u
    cases b with
    | true => exact ⟨_, _, _, rfl, by omega, by omega⟩
    | false =>
      obtain ⟨n, t1, r2, e1, e2, e3⟩ := gpGrow_succeeds g a depth (pos + 1)
        (Function.update t pos (g.uniInt 0 gpFuncs r1).1) (g.uniInt 0 gpFuncs r1).2 (by omega)
      obtain ⟨n', t2, r3, f1, f2, f3⟩ := gpGrow_succeeds g a depth n t1 r2 (by omega)
      refine ⟨n', t2, r3, ?_, by omega, f3⟩
      simp only [Bool.false_eq_true, if_false, e1, f1]

/-- **C33**, termination: if `max_len` admits a full tree of depth `init_depth` (as the
defaults do: 63 ≤ 10000) the first attempt of `tree_rand` succeeds. -/
theorem C33_rand_terminates {g : Rng K R} (H : g.Open) {a : GpArgs K}
    (hl : 2 ^ (a.initDepth + 1) ≤ a.maxLen + 1) (fuel : Nat) (mem : Nat → Int) (pos : Nat) (r : R) :
    ∃ t r', gpRand g a (fuel + 1) mem pos r = .ok (t, r') := by
  obtain ⟨n, t1, r1, e1, -, -⟩ := gpGrow_succeeds g a a.initDepth 0 mem r (by omega)
  obtain ⟨vs, r2, e2, -⟩ := C44_init H [.rateSelect] r1
  unfold gpRand gpRandGo
  rw [e1]
  simp only [samInit] at e2
  cases hs : samInit1 g .rateSelect r1 with
  | error e => rw [hs] at e2; cases e2
  | ok v =>
    obtain ⟨v, r3⟩ := v
    refine ⟨⟨(List.range n).map t1, pos, v⟩, r3, ?_⟩
    show (samInit1 g .rateSelect r1 >>= _) = _
    rw [hs]
    rfl

/-- **C33**, a legal setting that hangs: the setters accept any `max_len` from 1 and any
`init_depth` from 1, but the root of a tree is always a function, so with `max_len` 1 or 2
no tree fits and the loop of `tree_rand` never ends. -/
theorem C33_small_max_len_hangs {g : Rng K R} {a : GpArgs K} (hl : a.maxLen ≤ 2)
    (hd : 0 < a.initDepth) : ∀ (fuel : Nat) (mem : Nat → Int) (pos : Nat) (r : R),
    gpRand g a fuel mem pos r = .error .hang := by
  have fail : ∀ (depth pos : Nat) (t : Nat → Int) (r : R), 2 ≤ pos →
      (gpGrow g a depth pos t r).1 = none := by
    intro depth pos t r hp
    cases depth <;> (unfold gpGrow; rw [if_pos (by omega)])
  have fail0 : ∀ (t : Nat → Int) (r : R), (gpGrow g a a.initDepth 0 t r).1 = none := by
    intro t r
    obtain ⟨m, hm⟩ : ∃ m, a.initDepth = m + 1 := ⟨a.initDepth - 1, by omega⟩
    rw [hm]
    unfold gpGrow
    split
    · rfl
    · simp only [if_pos, Bool.false_eq_true, if_false]
      split
      · rfl
      · next child hc =>
        refine fail m child _ _ ?_
        have key : ∀ (depth pos : Nat) (t : Nat → Int) (r : R) (n : Nat),
            (gpGrow g a depth pos t r).1 = some n → pos < n := by
          intro depth
          induction depth with
          | zero =>
            intro pos t r n h
            unfold gpGrow at h
            split at h
            · cases h
            · have := Option.some.inj h; omega
          | succ d ih =>
            intro pos t r n h
            unfold gpGrow at h
            split at h
            · cases h
            · generalize (if pos = 0 then (false, r) else
                (decide ((g.uni 0 1 r).1 < 1 / 2), (g.uni 0 1 r).2)) = u at h
              obtain ⟨b, r1⟩ := u
              dsimp only at h
              split at h
              · have := Option.some.inj h; omega
              · split at h
                · cases h
                · next c' hc' =>
                  have := ih _ _ _ _ hc'
                  have := ih _ _ _ _ h
                  omega
        have := key _ _ _ _ _ hc
        omega
  intro fuel mem pos r
  have go : ∀ (fuel : Nat) (t : Nat → Int) (r : R), gpRandGo g a fuel t r = .error .hang := by
    intro fuel
    induction fuel with
    | zero => intro t r; rfl
    | succ f ih =>
      intro t r
      unfold gpRandGo
      have := fail0 t r
      cases hc : gpGrow g a a.initDepth 0 t r with
      | mk o q =>
        rw [hc] at this
        cases o with
        | none => exact ih _ _
        | some m => cases this
  unfold gpRand
  rw [go]
  rfl

/-- **C33**, covering: a rule produced by covering matches the input it was created for. -/
theorem C33_cover {g : Rng K R} {a : GpArgs K} {x : List K} {fuelT : Nat} {mem : Nat → Int} :
    ∀ {fuel : Nat} {r : R} {t : GpTree K} {r' : R},
    gpCover g a x fuelT mem fuel r = .ok (t, r') → ∃ u, gpMatch a x t = .ok (true, u) := by
  intro fuel
  induction fuel with
  | zero => intro r t r' h; cases h
  | succ f ih =>
    intro r t r' h
    unfold gpCover at h
    cases hr : gpRand g a fuelT mem 0 r with
    | error e => rw [hr] at h; cases h
    | ok q =>
      obtain ⟨t1, r1⟩ := q
      rw [hr] at h
      change (gpMatch a x t1 >>= _) = _ at h
      cases hm : gpMatch a x t1 with
      | error e => rw [hm] at h; cases h
      | ok w =>
        obtain ⟨m, t2⟩ := w
        rw [hm] at h
        cases m with
        | false => exact ih h
        | true =>
          have h2 : t2 = t := by
            have : (Except.ok (t2, r1) : Res (GpTree K × R)) = .ok (t, r') := h
            cases this; rfl
          subst h2
          have hpos : gpMatch a x t2 = gpMatch a x t1 := by
            have ht : t2 = { t1 with pos := t2.pos } := by
              unfold gpMatch gpEval at hm
              change (Except.bind (Except.bind (gpEvalGo a x t1.tree (t1.tree.length + 1) 0) _) _)
                = _ at hm
              cases he : gpEvalGo a x t1.tree (t1.tree.length + 1) 0 with
              | error e => rw [he] at hm; cases hm
              | ok v =>
                rw [he] at hm
                have := congrArg (fun o => match o with
                  | Except.ok (w : Bool × GpTree K) => w.2 | _ => t2) hm
                have this : { t1 with pos := v.2 } = t2 := this
                rw [← this]
            rw [ht]
            rfl
          exact ⟨_, hpos.trans hm⟩

/-- **C33**, crossover: for well-formed parents it exchanges one sub-expression of each, at
positions within the trees, and the children are well formed. -/
theorem C33_crossover {g : Rng K R} (H : g.Open) {nc ni : Nat} {p1 p2 : GpTree K}
    {e1 e2 : GpExpr nc ni} (h1 : p1.tree = e1.code) (h2 : p2.tree = e2.code) (r : R) :
    ∃ k1 k2 q1 q2 r', k1 < e1.size ∧ k2 < e2.size ∧ gpCrossover g p1 p2 r = .ok (q1, q2, r') ∧
      q1.tree = (e1.replaceAt k1 (e2.subAt k2)).code ∧
      q2.tree = (e2.replaceAt k2 (e1.subAt k1)).code ∧
      q1.tree.length + q2.tree.length = p1.tree.length + p2.tree.length := by
  have d1 := C45_random_int (K := K) H (lo := 0) (hi := (p1.tree.length : Int))
    (by rw [h1, code_length]; exact_mod_cast e1.size_pos) r
  generalize hu1 : g.uniInt 0 (p1.tree.length : Int) r = u1 at d1
  have d2 := C45_random_int (K := K) H (lo := 0) (hi := (p2.tree.length : Int))
    (by rw [h2, code_length]; exact_mod_cast e2.size_pos) u1.2
  generalize hu2 : g.uniInt 0 (p2.tree.length : Int) u1.2 = u2 at d2
  have k1 : u1.1.toNat < e1.size := by rw [h1, code_length] at d1; omega
  have k2 : u2.1.toNat < e2.size := by rw [h2, code_length] at d2; omega
  obtain ⟨pre1, post1, c1, l1, w1⟩ := e1.code_sub _ k1
  obtain ⟨pre2, post2, c2, l2, w2⟩ := e2.code_sub _ k2
  have t1 : gpEnd p1.tree u1.1.toNat = .ok (u1.1.toNat + (e1.subAt u1.1.toNat).size) := by
    have := gpEnd_code (e1.subAt u1.1.toNat) pre1 post1
    rw [← c1, l1, ← h1] at this; exact this
  have t2 : gpEnd p2.tree u2.1.toNat = .ok (u2.1.toNat + (e2.subAt u2.1.toNat).size) := by
    have := gpEnd_code (e2.subAt u2.1.toNat) pre2 post2
    rw [← c2, l2, ← h2] at this; exact this
  have n1 : p1.tree.take u1.1.toNat ++ (p2.tree.drop u2.1.toNat).take
      (u2.1.toNat + (e2.subAt u2.1.toNat).size - u2.1.toNat) ++
      p1.tree.drop (u1.1.toNat + (e1.subAt u1.1.toNat).size) =
      (e1.replaceAt u1.1.toNat (e2.subAt u2.1.toNat)).code := by
    rw [w1, h1, h2, c1, c2]
    rw [← l1, ← l2, Nat.add_sub_cancel_left]
    simp [← code_length, List.drop_append]
  have n2 : p2.tree.take u2.1.toNat ++ (p1.tree.drop u1.1.toNat).take
      (u1.1.toNat + (e1.subAt u1.1.toNat).size - u1.1.toNat) ++
      p2.tree.drop (u2.1.toNat + (e2.subAt u2.1.toNat).size) =
      (e2.replaceAt u2.1.toNat (e1.subAt u1.1.toNat)).code := by
    rw [w2, h1, h2, c1, c2]
    rw [← l1, ← l2, Nat.add_sub_cancel_left]
    simp [← code_length, List.drop_append]
  refine ⟨u1.1.toNat, u2.1.toNat,
    { p1 with tree := (e1.replaceAt u1.1.toNat (e2.subAt u2.1.toNat)).code },
    { p2 with tree := (e2.replaceAt u2.1.toNat (e1.subAt u1.1.toNat)).code }, u2.2, k1, k2, ?_,
    rfl, rfl, ?_⟩
  · unfold gpCrossover
    simp only [hu1, t1]
    show (gpEnd p2.tree (g.uniInt 0 (p2.tree.length : Int) u1.2).1.toNat >>= _) = _
    rw [hu2, t2]
    show (gpEnd (_ ++ _ ++ _) 0 >>= _) = _
    rw [n1, n2, gpEnd_whole]
    show (gpEnd _ 0 >>= _) = _
    rw [gpEnd_whole]
    show Except.ok _ = _
    rw [← code_length, ← code_length, List.take_length, List.take_length]
  · show (GpExpr.code _).length + (GpExpr.code _).length = _
    rw [w1, w2, h1, h2, c1, c2]
    simp; omega

/-- Nodes a mutation may exchange: function for function, legal leaf for leaf. -/
def GpSwap (nc ni : Nat) (n m : Int) : Prop :=
  n = m ∨ (4 ≤ n ∧ 4 ≤ m ∧ m < 4 + (nc : Int) + (ni : Int)) ∨ (n < 4 ∧ 0 ≤ m ∧ m < 4)

theorem gpMutateGo_spec {g : Rng K R} (H : g.Open) {a : GpArgs K}
    (hn : 0 < a.constants.length + a.nInputs) (mu : K) : ∀ (l : List Int) (r : R),
    List.Forall₂ (GpSwap a.constants.length a.nInputs) l (gpMutateGo g a mu l r).1 ∧
    ((gpMutateGo g a mu l r).2.1 = true ↔ (gpMutateGo g a mu l r).1 ≠ l)
  | [], r => ⟨.nil, by simp [gpMutateGo]⟩
  | n :: l, r => by
    unfold gpMutateGo
    dsimp only
    split
    · generalize hd : (if gpFuncs ≤ n then g.uniInt gpFuncs a.maxTerm (g.uni 0 1 r).2
        else g.uniInt 0 gpFuncs (g.uni 0 1 r).2) = d
      obtain ⟨ih1, ih2⟩ := gpMutateGo_spec H hn mu l d.2
      refine ⟨.cons ?_ ih1, ?_⟩
      · right
        split at hd
        · next h4 =>
          have := C45_random_int (K := K) H (lo := gpFuncs) (hi := a.maxTerm)
            (by unfold GpArgs.maxTerm; omega) (g.uni 0 1 r).2
          rw [hd] at this
          unfold GpArgs.maxTerm at this
          exact Or.inl ⟨h4, this.1, this.2⟩
        · next h4 =>
          have := C45_random_int (K := K) H (lo := 0) (hi := gpFuncs) (by decide) (g.uni 0 1 r).2
          rw [hd] at this
          exact Or.inr ⟨by simp only [gpFuncs] at h4; omega, this.1, this.2⟩
      · simp only [Bool.or_eq_true, decide_eq_true_eq, ih2, ne_eq, List.cons.injEq, not_and_or]
    · obtain ⟨ih1, ih2⟩ := gpMutateGo_spec H hn mu l (g.uni 0 1 r).2
      refine ⟨.cons (Or.inl rfl) ih1, ?_⟩
      simp only [ih2, ne_eq, List.cons.injEq, true_and]

theorem swap_shape {nc ni : Nat} : ∀ (e : GpExpr nc ni) (l : List Int),
    List.Forall₂ (GpSwap nc ni) e.code l → ∃ e' : GpExpr nc ni, l = e'.code ∧ e.SameShape e'
  | .func f x y, l, h => by
    rw [code] at h
    cases h with
    | cons h0 hr =>
      next m l' =>
      obtain ⟨l1, l2, e0, h1, h2⟩ : ∃ l1 l2, l' = l1 ++ l2 ∧
          List.Forall₂ (GpSwap nc ni) x.code l1 ∧ List.Forall₂ (GpSwap nc ni) y.code l2 := by
        refine ⟨l'.take x.code.length, l'.drop x.code.length, by simp, ?_, ?_⟩
        · have := List.forall₂_take x.code.length hr; simpa using this
        · have := List.forall₂_drop x.code.length hr; simpa using this
      obtain ⟨x', x1, x2⟩ := swap_shape x l1 h1
      obtain ⟨y', y1, y2⟩ := swap_shape y l2 h2
      have hf := f.2
      have hm : 0 ≤ m ∧ m < 4 := by rcases h0 with h | h | h <;> omega
      refine ⟨.func ⟨m.toNat, by omega⟩ x' y', ?_, x2, y2⟩
      rw [code, e0, x1, y1]
      congr 1
      exact (Int.toNat_of_nonneg hm.1).symm
  | .const i, l, h => by
    rw [code] at h
    cases h with
    | cons h0 hr =>
      next m l' =>
      cases hr
      have hi := i.2
      have hm : 4 ≤ m ∧ m < 4 + (nc : Int) + (ni : Int) := by rcases h0 with h | h | h <;> omega
      obtain ⟨e, e1, e2, e3⟩ := leaf_code (nc := nc) (ni := ni) hm.1 hm.2
      refine ⟨e, e1.symm, ?_⟩
      cases e with
      | func f x y => simp [depth] at e3
      | const _ => trivial
      | input _ => trivial
  | .input i, l, h => by
    rw [code] at h
    cases h with
    | cons h0 hr =>
      next m l' =>
      cases hr
      have hi := i.2
      have hm : 4 ≤ m ∧ m < 4 + (nc : Int) + (ni : Int) := by rcases h0 with h | h | h <;> omega
      obtain ⟨e, e1, e2, e3⟩ := leaf_code (nc := nc) (ni := ni) hm.1 hm.2
      refine ⟨e, e1.symm, ?_⟩
      cases e with
      | func f x y => simp [depth] at e3
      | const _ => trivial
      | input _ => trivial

/-- **C33**, mutation: it keeps the shape of a well-formed tree, its result is well formed, and
it reports a change exactly when a node changed. -/
theorem C33_mutate {g : Rng K R} (H : g.Open) {a : GpArgs K}
    (hn : 0 < a.constants.length + a.nInputs) {t : GpTree K}
    {e : GpExpr a.constants.length a.nInputs} (h : t.tree = e.code) (r : R) :
    ∃ t' b r' e', gpMutate g a t r = .ok (t', b, r') ∧ t'.tree = e'.code ∧ e.SameShape e' ∧
      (b = true ↔ t'.tree ≠ t.tree) := by
  unfold gpMutate
  cases hs : samAdapt1 g .rateSelect t.mu r with
  | error e =>
    exfalso
    simp only [samAdapt1] at hs
    split at hs
    · have hd := C45_random_int (K := K) H (lo := 0) (hi := 10) (by decide) (g.uni 0 1 r).2
      obtain ⟨v, hv, -⟩ := mrateAt_legal (K := K) hd.1 hd.2
      rw [hv] at hs
      cases hs
    · cases hs
  | ok v =>
    obtain ⟨mu, r2⟩ := v
    obtain ⟨s1, s2⟩ := gpMutateGo_spec H hn mu t.tree r2
    rw [h] at s1
    obtain ⟨e', w1, w2⟩ := swap_shape e _ s1
    rw [← h] at w1
    exact ⟨_, _, _, e', rfl, w1, w2, s2⟩

/-! ## Concrete cases -/

/-- (in0 + c0) * in1 -/
def gpDemoExpr : GpExpr 1 2 := .func 2 (.func 0 (.input 0) (.const 0)) (.input 1)

example : gpDemoExpr.code = [2, 0, 5, 4, 6] := by decide

/-- It evaluates to (3 + 1/2) * 2 = 7. -/
example : gpMatch (K := ℚ) ⟨2, 3, 100, [1/2]⟩ [3, 2] ⟨[2, 0, 5, 4, 6], 17, 0⟩ =
    .ok (true, ⟨[2, 0, 5, 4, 6], 5, 0⟩) := by decide +kernel

example : gpDemoExpr.value (fun _ => (1/2 : ℚ)) (fun i => if i = 0 then 3 else 2) = 7 := by
  decide +kernel

/-- Random trees under a concrete generator: the theorem's hypothesis holds and the tree has
more than one node. -/
example : ∃ t r', gpRand demoRng ⟨2, 2, 7, [1/2]⟩ 1 (fun _ => -9) 0 0 = .ok (t, r') ∧
    3 ≤ t.tree.length ∧ t.tree.length ≤ 7 := by
  obtain ⟨t, r', h⟩ := C33_rand_terminates demoRng_open (a := ⟨2, 2, 7, [1/2]⟩) (by decide) 0
    (fun _ => -9) 0 0
  refine ⟨t, r', h, ?_⟩
  have : (match gpRand demoRng ⟨2, 2, 7, [1/2]⟩ 1 (fun _ => -9) 0 0 with
    | .ok (t, _) => decide (3 ≤ t.tree.length ∧ t.tree.length ≤ 7) | _ => false) = true := by
    decide +kernel
  rw [h] at this
  exact of_decide_eq_true this

/-- **C33**, no length limit in crossover: trees of at most `max_len` nodes can have a child
with more. -/
theorem C33_crossover_exceeds_max_len : ∃ (p1 p2 : GpTree ℚ) (q1 q2 : GpTree ℚ) (r r' : Nat),
    p1.tree.length ≤ 7 ∧ p2.tree.length ≤ 7 ∧ gpCrossover demoRng p1 p2 r = .ok (q1, q2, r') ∧
    7 < q1.tree.length := by
  refine ⟨⟨[2, 0, 5, 4, 0, 5, 6], 0, 0⟩, ⟨[2, 0, 5, 4, 0, 5, 6], 0, 0⟩, ?_⟩
  have : ∃ r ∈ List.range 8, (match gpCrossover demoRng
      ⟨[2, 0, 5, 4, 0, 5, 6], 0, 0⟩ ⟨[2, 0, 5, 4, 0, 5, 6], 0, 0⟩ r with
    | .ok (q1, _, _) => decide (7 < q1.tree.length) | _ => false) = true := by decide +kernel
  obtain ⟨r, -, h⟩ := this
  cases hc : gpCrossover demoRng
      ⟨[2, 0, 5, 4, 0, 5, 6], 0, 0⟩ ⟨[2, 0, 5, 4, 0, 5, 6], 0, 0⟩ r with
  | error e => rw [hc] at h; cases h
  | ok v =>
    obtain ⟨q1, q2, r'⟩ := v
    rw [hc] at h
    exact ⟨q1, q2, r, r', by decide, by decide, hc, of_decide_eq_true h⟩

end
end Xcsf
