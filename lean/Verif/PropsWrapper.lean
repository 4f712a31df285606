import Verif.Wrapper
import Verif.PropsDgp
import Verif.PropsCallback
import Verif.PropsEnv

/-!
# Properties of the Python wrapper (C61, C69, C70)
-/

set_option linter.unusedSectionVars false

namespace Xcsf

/-! ### What NumPy says an array contains -/

/-- The position of an element in its buffer. -/
def PyArr.position (A : PyArr) (idx : List Nat) : Int :=
  A.off + ((idx.zip A.strides).map fun q => (q.1 : Int) * q.2).sum

/-- `A[i, j, …]` as seen by the Python program. -/
def PyArr.elem {K : Type} (mem : Mem K) (A : PyArr) (idx : List Nat) : Option K :=
  match mem A.buf with
  | none => none
  | some (_, l) => if 0 ≤ A.position idx then l[(A.position idx).toNat]? else none

/-- Feature `j` of sample `i`: an array with one axis holds one feature per sample. -/
def PyArr.sample {K : Type} (mem : Mem K) (A : PyArr) (i j : Nat) : Option K :=
  A.elem mem (if A.shape.length = 1 then [i] else [i, j])

/-- The array lies inside its live buffer. -/
def PyArr.Alive {K : Type} (mem : Mem K) (A : PyArr) : Prop :=
  ∃ own l, mem A.buf = some (own, l) ∧ A.off + A.shape.prod ≤ l.length

/-- Data for `dim` features per sample, stored row after row: two axes, or one axis if there is one
feature. -/
def PyArr.RowMajor (dim : Nat) (A : PyArr) : Prop :=
  (∃ n, A.shape = [n, dim] ∧ A.strides = [(dim : Int), 1]) ∨
  (∃ n, A.shape = [n] ∧ A.strides = [1] ∧ dim = 1)

section
variable {K : Type}

theorem readAt_ok {mem : Mem K} {p : Ptr} {own : Bool} {l : List K} (h : mem p.1 = some (own, l))
    {i : Nat} (hi : p.2 + i < l.length) : readAt mem p i = .ok l[p.2 + i] := by
  unfold readAt getR
  rw [h]
  simp only [List.getElem?_eq_getElem hi]

theorem readN_ok {mem : Mem K} {p : Ptr} {own : Bool} {l : List K} (h : mem p.1 = some (own, l))
    {n : Nat} (hn : p.2 + n ≤ l.length) :
    readN mem p n = .ok ((l.drop p.2).take n) := by
  rcases Nat.eq_zero_or_pos n with rfl | hpos
  · rfl
  unfold readN
  have z : K := l[p.2]'(by omega)
  rw [mapM_ok (g := fun i => l.getD (p.2 + i) z) (fun i hi => by
    rw [List.mem_range] at hi
    rw [readAt_ok h (by omega : p.2 + i < l.length)]
    simp [List.getElem?_eq_getElem (show p.2 + i < l.length by omega)])]
  congr 1
  apply List.ext_getElem?
  intro j
  rw [List.getElem?_map, List.getElem?_take]
  by_cases hj : j < n
  · simp [hj, List.getElem?_eq_getElem (show p.2 + j < l.length by omega)]
  · simp [hj]

theorem mapM_all_or {α β : Type} {f : α → Res β} {e : Fault} :
    ∀ {l : List α}, (∀ a ∈ l, (∃ b, f a = .ok b) ∨ f a = .error e) →
      (∃ v, l.mapM f = .ok v) ∨ l.mapM f = .error e
  | [], _ => .inl ⟨[], rfl⟩
  | a :: l, h => by
    rw [List.mapM_cons]
    rcases h a (by simp) with ⟨b, hb⟩ | hb
    · rcases mapM_all_or (l := l) (fun c hc => h c (List.mem_cons_of_mem _ hc)) with ⟨v, hv⟩ | hv
      · exact .inl ⟨b :: v, by rw [hb, hv]; rfl⟩
      · exact .inr (by rw [hb, hv]; rfl)
    · exact .inr (by rw [hb]; rfl)

theorem mapM_error {α β : Type} {f : α → Res β} {e : Fault} :
    ∀ {l : List α}, (∀ a ∈ l, (∃ b, f a = .ok b) ∨ f a = .error e) →
      (∃ a ∈ l, f a = .error e) → l.mapM f = .error e
  | [], _, ⟨a, ha, _⟩ => by cases ha
  | a :: l, h, ⟨c, hc, hce⟩ => by
    rw [List.mapM_cons]
    rcases h a (by simp) with ⟨b, hb⟩ | hb
    · have : l.mapM f = .error e := by
        refine mapM_error (fun d hd => h d (List.mem_cons_of_mem _ hd)) ?_
        rcases List.mem_cons.1 hc with rfl | hc
        · rw [hb] at hce; cases hce
        · exact ⟨c, hc, hce⟩
      rw [hb, this]; rfl
    · rw [hb]; rfl

/-- Reads from a live buffer succeed or are out of range. -/
theorem readN_alive {mem : Mem K} {p : Ptr} {own : Bool} {l : List K}
    (h : mem p.1 = some (own, l)) (n : Nat) :
    (∃ v, readN mem p n = .ok v) ∨ readN mem p n = .error .ub := by
  apply mapM_all_or
  intro i _
  by_cases hi : p.2 + i < l.length
  · exact .inl ⟨_, readAt_ok h hi⟩
  · right
    unfold readAt getR
    rw [h]
    simp only [List.getElem?_eq_none (Nat.not_lt.1 hi)]

theorem readN_outside {mem : Mem K} {p : Ptr} {own : Bool} {l : List K}
    (h : mem p.1 = some (own, l)) {n : Nat} (h0 : 0 < n) (hn : l.length < p.2 + n) :
    readN mem p n = .error .ub := by
  apply mapM_error
  · intro i _
    by_cases hi : p.2 + i < l.length
    · exact .inl ⟨_, readAt_ok h hi⟩
    · right
      unfold readAt getR
      rw [h]
      simp only [List.getElem?_eq_none (Nat.not_lt.1 hi)]
  · refine ⟨n - 1, by rw [List.mem_range]; omega, ?_⟩
    unfold readAt getR
    rw [h]
    simp only [List.getElem?_eq_none (show l.length ≤ p.2 + (n - 1) by omega)]

theorem readN_dangling {mem : Mem K} {p : Ptr} (h : mem p.1 = none) {n : Nat} (h0 : 0 < n) :
    readN mem p n = .error .uaf := by
  apply mapM_error
  · intro i _
    right
    unfold readAt
    rw [h]
  · refine ⟨0, by rw [List.mem_range]; omega, ?_⟩
    unfold readAt
    rw [h]

/-! ## C61: shapes -/

/-- **C61.**  Which shapes `fit` and `score` accept: one or two axes, as many outcomes as inputs,
and with two axes the configured number of columns. -/
theorem C61_accepts (d : WDims) (X Y : PyArr) :
    (∃ i, loadInput d X Y = some i) ↔
      ((∃ n, X.shape = [n]) ∨ ∃ n, X.shape = [n, d.xDim]) ∧
      ((∃ n, Y.shape = [n]) ∨ ∃ n, Y.shape = [n, d.yDim]) ∧ X.shape.head? = Y.shape.head? := by
  have hs : ∀ (k : Nat) (s : List Nat), shapeOk k s = true ↔ (∃ n, s = [n]) ∨ ∃ n, s = [n, k] := by
    intro k s
    match s with
    | [] => simp [shapeOk]
    | [a] => simp [shapeOk]
    | [a, b] => simp [shapeOk]
    | a :: b :: c :: t => simp [shapeOk]
  unfold loadInput
  rw [← hs, ← hs]
  split
  · rename_i h; simp [h]
  · rename_i h; simp only [reduceCtorEq, exists_false, false_iff]; exact h

/-- **C61, for data stored row after row.**  What the system reads as feature `j` of sample `i` is
that element of the array, and it lies inside the array; for one-dimensional arrays this needs
`x_dim = 1`. -/
theorem C61_rows_partial {mem : Mem K} {A : PyArr} {dim : Nat} (hA : A.RowMajor dim)
    (hm : A.Alive mem) {row : Nat} (hr : row < A.shape.headD 0) :
    ∃ v, wRowAt mem (A.buf, A.off) dim row = .ok v ∧ v.length = dim ∧
      ∀ j < dim, v[j]? = A.sample mem row j ∧ ∃ u, v[j]? = some u := by
  obtain ⟨own, l, h1, h2⟩ := hm
  have key : ∀ n, row < n → A.off + n * dim ≤ l.length →
      (∀ j < dim, A.sample mem row j = l[A.off + row * dim + j]?) →
      ∃ v, wRowAt mem (A.buf, A.off) dim row = .ok v ∧ v.length = dim ∧
        ∀ j < dim, v[j]? = A.sample mem row j ∧ ∃ u, v[j]? = some u := by
    intro n hn hl hs
    have hb : row * dim + dim ≤ n * dim := by
      have := Nat.mul_le_mul_right dim (Nat.succ_le_of_lt hn)
      rwa [Nat.succ_mul] at this
    refine ⟨_, readN_ok (p := (A.buf, A.off + row * dim)) h1 (by dsimp only; omega), ?_, ?_⟩
    · rw [List.length_take, List.length_drop]; dsimp only; omega
    · intro j hj
      rw [List.getElem?_take, if_pos hj, List.getElem?_drop, hs j hj]
      exact ⟨rfl, _, List.getElem?_eq_getElem (by omega)⟩
  rcases hA with ⟨n, e1, e2⟩ | ⟨n, e1, e2, rfl⟩
  · rw [e1] at hr h2
    refine key n (by simpa using hr) (by simpa using h2) (fun j _ => ?_)
    have : A.position [row, j] = ((A.off + row * dim + j : Nat) : Int) := by
      unfold PyArr.position; rw [e2]; simp; ring
    unfold PyArr.sample PyArr.elem
    rw [e1, if_neg (by simp), h1]
    dsimp only
    rw [this, if_pos (Int.natCast_nonneg _), Int.toNat_natCast]
  · rw [e1] at hr h2
    refine key n (by simpa using hr) (by simpa using h2) (fun j hj => ?_)
    have : A.position [row] = ((A.off + row * 1 + j : Nat) : Int) := by
      unfold PyArr.position; rw [e2]; simp; omega
    unfold PyArr.sample PyArr.elem
    rw [e1, if_pos (by simp), h1]
    dsimp only
    rw [this, if_pos (Int.natCast_nonneg _), Int.toNat_natCast]

/-- The state of a wrapper whose cover array is the one allocated by the library. -/
structure WrOk [Zero K] (d : WDims) (w : Wr K) : Prop where
  own : ∃ l, w.mem w.cover.1 = some (true, l) ∧ l.length = d.paSize
  start : w.cover.2 = 0
  fresh : ∀ b, w.next ≤ b → w.mem b = none

theorem WrOk.zero [Zero K] {d : WDims} {w : Wr K} (H : WrOk d w) :
    memZero w.mem w.cover d.paSize = .ok (Function.update w.mem w.cover.1
      (some (true, List.replicate d.paSize 0))) := by
  obtain ⟨l, h1, h2⟩ := H.own
  unfold memZero
  rw [h1]
  dsimp only
  rw [if_pos (by rw [H.start, h2]; omega), H.start, Nat.zero_add, ← h2, List.drop_length]
  simp

/-- **C61 refuted for one-dimensional data.**  `predict` accepts an array with one axis whatever
`x_dim` is.  With two or more features per sample it then reads behind the end of the array. -/
theorem C61_one_axis_refuted [Zero K] {d : WDims} (sys : List K → Option (List K)) {w : Wr K}
    (H : WrOk d w) {X : PyArr} {n : Nat} {vals : List K} (hs : X.shape = [n]) (h0 : X.off = 0)
    (hb : w.mem X.buf = some (false, vals)) (hl : vals.length = n) (hn : 0 < n)
    (hd : 2 ≤ d.xDim) : wPredict d sys w X .none = .error .ub := by
  unfold wPredict
  rw [if_pos (by rw [hs]; rfl)]
  unfold setCover
  dsimp only [bind, Except.bind]
  rw [H.zero]
  dsimp only
  rw [if_pos rfl]
  obtain ⟨l, h1, h2⟩ := H.own
  have hne : X.buf ≠ w.cover.1 := by
    intro e; rw [e, h1] at hb; cases hb
  have hx : Function.update w.mem w.cover.1 (some (true, List.replicate d.paSize 0)) X.buf =
      some (false, vals) := by rw [Function.update_of_ne hne]; exact hb
  rw [mapM_error (e := .ub)]
  · intro row _
    unfold wPredictRow wRowAt
    dsimp only [bind, Except.bind]
    rcases readN_alive (p := (X.buf, X.off + row * d.xDim)) hx d.xDim with ⟨v, hv⟩ | hv
    · rw [hv]
      dsimp only
      cases sys v with
      | some o => exact .inl ⟨o, rfl⟩
      | none =>
        dsimp only
        refine readN_alive (own := true) (l := List.replicate d.paSize 0) ?_ _
        rw [Function.update_self]
    · rw [hv]; exact .inr rfl
  · refine ⟨n - 1, by rw [hs]; simp; omega, ?_⟩
    unfold wPredictRow wRowAt
    dsimp only [bind, Except.bind]
    rw [readN_outside (p := (X.buf, X.off + (n - 1) * d.xDim)) hx (by omega)]
    dsimp only
    have : n * 1 < (n - 1) * d.xDim + d.xDim := by
      rw [← Nat.succ_mul, show (n - 1).succ = n by omega]
      exact Nat.mul_lt_mul_of_pos_left (by omega) hn
    omega

/-- **C61 refuted for `decision` and `fit` with one state.**  A zero-dimensional array has no
`shape[0]`. -/
theorem C61_no_axis_refuted (d : WDims) (w : Wr K) (x : PyArr) (h : x.shape = []) :
    wDecision d w x = .error .ub := by
  unfold wDecision; rw [h]

/-- **C61 refuted for other memory layouts.**  The strides of an array are ignored: a transposed
matrix is accepted and its samples are wrong without any error. -/
theorem C61_layout_refuted {mem : Mem K} {a b c e : K} (hne : b ≠ c)
    (hm : mem 0 = some (false, [a, b, c, e])) :
    let A : PyArr := ⟨0, 0, [2, 2], [1, 2]⟩
    shapeOk 2 A.shape = true ∧ A.Alive mem ∧
      ∃ v, wRowAt mem (A.buf, A.off) 2 0 = .ok v ∧ v[1]? ≠ A.sample mem 0 1 := by
  refine ⟨rfl, ⟨false, _, hm, by simp⟩, [a, b], ?_, ?_⟩
  · exact readN_ok (p := (0, 0)) hm (by simp)
  · simp only [PyArr.sample, PyArr.elem, PyArr.position, hm]
    simpa using hne

/-! ## C69: the cover array -/

/-- What a Python program can do without passing a cover array: it cannot release or overwrite
memory of the library, and it passes data of the right kind that is still alive. -/
def WOp.Plain (d : WDims) (w : Wr K) : WOp K → Prop
  | .make _ => True
  | .drop b => ∀ l, w.mem b ≠ some (true, l)
  | .assign b _ => ∃ l, w.mem b = some (false, l)
  | .predict X c => c = .none ∧
      (shapeOk d.xDim X.shape = true → X.RowMajor d.xDim ∧ X.Alive w.mem ∧
        ∀ l, w.mem X.buf ≠ some (true, l))
  | .refit => True

/-- A history of such steps from `w` on. -/
def WPlain [Zero K] (d : WDims) (sys : List K → Option (List K)) : Wr K → List (WOp K) → Prop
  | _, [] => True
  | w, op :: ops => op.Plain d w ∧ ∀ o w', wStep d sys w op = .ok (o, w') → WPlain d sys w' ops

/-- What `predict` should return: for each sample the prediction of the system, or zeros if no
rule matches. -/
def Expected [Zero K] (d : WDims) (sys : List K → Option (List K)) (mem : Mem K) (X : PyArr)
    (out : List (List K)) : Prop :=
  out.length = X.shape.headD 0 ∧ ∀ i < out.length, ∃ x, x.length = d.xDim ∧
    (∀ j < d.xDim, x[j]? = X.sample mem i j) ∧
    out[i]? = some ((sys x).getD (List.replicate d.paSize 0))

theorem mapM_exists {α β : Type} {f : α → Res β} : ∀ {l : List α}, (∀ a ∈ l, ∃ b, f a = .ok b) →
    ∃ v, l.mapM f = .ok v ∧ v.length = l.length ∧
      ∀ (i : Nat) (a : α), l[i]? = some a → ∃ b, f a = .ok b ∧ v[i]? = some b
  | [], _ => ⟨[], rfl, rfl, by simp⟩
  | a :: l, h => by
    obtain ⟨b, hb⟩ := h a (by simp)
    obtain ⟨v, h1, h2, h3⟩ := mapM_exists (l := l) fun c hc => h c (List.mem_cons_of_mem _ hc)
    refine ⟨b :: v, ?_, by simp [h2], ?_⟩
    · rw [List.mapM_cons, hb, h1]; rfl
    · intro i c hi
      cases i with
      | zero =>
        simp only [List.getElem?_cons_zero, Option.some.injEq] at hi
        subst hi
        exact ⟨b, hb, rfl⟩
      | succ i => simpa using h3 i c (by simpa using hi)

/-- `predict` without a cover array. -/
theorem wPredict_plain [Zero K] {d : WDims} (sys : List K → Option (List K)) {w : Wr K}
    (H : WrOk d w) {X : PyArr} (hs : shapeOk d.xDim X.shape = true) (hX : X.RowMajor d.xDim)
    (ha : X.Alive w.mem) (hne : ∀ l, w.mem X.buf ≠ some (true, l)) :
    ∃ out w', wPredict d sys w X .none = .ok (some out, w') ∧ WrOk d w' ∧
      w'.cover = w.cover ∧ w'.next = w.next ∧ (∀ b, b ≠ w.cover.1 → w'.mem b = w.mem b) ∧
      Expected d sys w.mem X out := by
  obtain ⟨l, h1, h2⟩ := H.own
  have hb : X.buf ≠ w.cover.1 := fun e => hne l (by rw [e]; exact h1)
  have hx : Function.update w.mem w.cover.1 (some (true, List.replicate d.paSize 0)) X.buf =
      w.mem X.buf := Function.update_of_ne hb _ _
  have hrow : ∀ row < X.shape.headD 0, ∃ v, wRowAt (Function.update w.mem w.cover.1
      (some (true, List.replicate d.paSize 0))) (X.buf, X.off) d.xDim row = .ok v ∧
      v.length = d.xDim ∧ ∀ j < d.xDim, v[j]? = X.sample w.mem row j := by
    intro row hr
    obtain ⟨v, q1, q2, q3⟩ := C61_rows_partial (mem := Function.update w.mem w.cover.1
      (some (true, List.replicate d.paSize 0))) hX
      (by obtain ⟨o, k, p1, p2⟩ := ha; exact ⟨o, k, by rw [hx]; exact p1, p2⟩) hr
    refine ⟨v, q1, q2, fun j hj => ?_⟩
    rw [(q3 j hj).1]
    unfold PyArr.sample PyArr.elem
    rw [hx]
  have hcov : readN (Function.update w.mem w.cover.1 (some (true, List.replicate d.paSize 0)))
      w.cover d.paSize = .ok (List.replicate d.paSize 0) := by
    rw [readN_ok (own := true) (l := List.replicate d.paSize 0)
      (by rw [Function.update_self]) (by rw [H.start]; simp), H.start]
    simp
  have hpr : ∀ row < X.shape.headD 0, ∃ x, x.length = d.xDim ∧
      (∀ j < d.xDim, x[j]? = X.sample w.mem row j) ∧
      wPredictRow d sys (Function.update w.mem w.cover.1 (some (true, List.replicate d.paSize 0)))
        (X.buf, X.off) w.cover row = .ok ((sys x).getD (List.replicate d.paSize 0)) := by
    intro row hr
    obtain ⟨x, q1, q2, q3⟩ := hrow row hr
    refine ⟨x, q2, q3, ?_⟩
    unfold wPredictRow
    rw [q1]
    dsimp only [bind, Except.bind]
    cases sys x with
    | some v => rfl
    | none => exact hcov
  obtain ⟨out, o1, o2, o3⟩ := mapM_exists (l := List.range (X.shape.headD 0))
    (f := wPredictRow d sys (Function.update w.mem w.cover.1
      (some (true, List.replicate d.paSize 0))) (X.buf, X.off) w.cover) (fun row hr => by
      obtain ⟨x, _, _, q⟩ := hpr row (List.mem_range.1 hr)
      exact ⟨_, q⟩)
  rw [List.length_range] at o2
  refine ⟨out, ⟨Function.update w.mem w.cover.1
      (some (true, List.replicate d.paSize 0)), w.next, w.cover, w.state⟩, ?_, ⟨?_, H.start, ?_⟩, rfl, rfl, ?_, o2, ?_⟩
  · unfold wPredict
    rw [if_pos hs]
    unfold setCover
    rw [H.zero]
    dsimp only [bind, Except.bind]
    rw [if_pos rfl, o1]
  · exact ⟨_, Function.update_self .., by simp⟩
  · intro b hb'
    have hc : w.cover.1 < w.next := by
      by_contra hge
      have := H.fresh _ (Nat.not_lt.1 hge)
      rw [h1] at this; cases this
    dsimp only
    rw [Function.update_of_ne (by dsimp only at hb'; omega)]
    exact H.fresh b hb'
  · intro b hb'
    exact Function.update_of_ne hb' _ _
  · intro i hi
    obtain ⟨x, q1, q2, q3⟩ := hpr i (by omega)
    refine ⟨x, q1, q2, ?_⟩
    obtain ⟨b, b1, b2⟩ := o3 i i (by rw [List.getElem?_range (by omega)])
    rw [q3] at b1
    cases b1
    exact b2

theorem WrOk.reinit [Zero K] {d : WDims} {w : Wr K} (H : WrOk d w) :
    ∃ w', wReinit d w = .ok w' ∧ WrOk d w' := by
  obtain ⟨l, h1, _⟩ := H.own
  have hc : w.cover.1 < w.next := by
    by_contra hge
    have := H.fresh _ (Nat.not_lt.1 hge)
    rw [h1] at this; cases this
  unfold wReinit memFree
  rw [h1]
  dsimp only [bind, Except.bind]
  rw [if_pos ⟨rfl, H.start⟩]
  refine ⟨_, rfl, ⟨_, Function.update_self .., by simp⟩, rfl, fun b hb => ?_⟩
  dsimp only at hb ⊢
  rw [Function.update_of_ne (by omega), Function.update_of_ne (by omega)]
  exact H.fresh b (by omega)

/-- A new system owns its cover array. -/
theorem WrOk.new [Zero K] (d : WDims) : WrOk (K := K) d (wNew d) :=
  ⟨⟨_, rfl, by simp⟩, rfl, fun b hb => by
    have : b ≠ 0 := by unfold wNew at hb; dsimp only at hb; omega
    simp [wNew, this]⟩

/-- One step of a program that passes no cover array. -/
theorem wStep_plain [Zero K] {d : WDims} (sys : List K → Option (List K)) {w : Wr K}
    (H : WrOk d w) {op : WOp K} (h : op.Plain d w) :
    ∃ o w', wStep d sys w op = .ok (o, w') ∧ WrOk d w' ∧
      ∀ X c, op = .predict X c → shapeOk d.xDim X.shape = true →
        ∃ out, o = some out ∧ Expected d sys w.mem X out := by
  obtain ⟨l, h1, h2⟩ := H.own
  have hc : w.cover.1 < w.next := by
    by_contra hge
    have := H.fresh _ (Nat.not_lt.1 hge)
    rw [h1] at this; cases this
  cases op with
  | make vals =>
    refine ⟨_, _, rfl, ⟨⟨l, ?_, h2⟩, H.start, fun b hb => ?_⟩, by simp⟩
    · dsimp only; rw [Function.update_of_ne (by omega)]; exact h1
    · dsimp only at hb ⊢
      rw [Function.update_of_ne (by omega)]; exact H.fresh b (by omega)
  | drop b =>
    refine ⟨_, _, rfl, ⟨⟨l, ?_, h2⟩, H.start, fun b' hb => ?_⟩, by simp⟩
    · dsimp only
      rw [Function.update_of_ne (fun e => h l (by rw [← e]; exact h1))]; exact h1
    · dsimp only at hb ⊢
      by_cases e : b' = b
      · rw [e, Function.update_self]
      · rw [Function.update_of_ne e]; exact H.fresh b' hb
  | assign b vals =>
    obtain ⟨k, hk⟩ := h
    have hne : w.cover.1 ≠ b := fun e => by rw [← e, h1] at hk; cases hk
    refine ⟨_, _, rfl, ⟨⟨l, ?_, h2⟩, H.start, fun b' hb => ?_⟩, by simp⟩
    · dsimp only
      rw [Function.update_of_ne hne]; exact h1
    · dsimp only at hb ⊢
      rw [Function.update_of_ne (fun e => by
        have := H.fresh b' hb
        rw [e, hk] at this; cases this)]
      exact H.fresh b' hb
  | predict X c =>
    obtain ⟨rfl, hp⟩ := h
    by_cases hs : shapeOk d.xDim X.shape = true
    · obtain ⟨a1, a2, a3⟩ := hp hs
      obtain ⟨out, w', e1, e2, _, _, _, e3⟩ := wPredict_plain sys H hs a1 a2 a3
      refine ⟨_, _, e1, e2, ?_⟩
      rintro X' c' e _
      cases e
      exact ⟨out, rfl, e3⟩
    · refine ⟨none, w, ?_, H, ?_⟩
      · change wPredict d sys w X .none = _
        unfold wPredict; rw [if_neg hs]
      · rintro X' c' e hs'
        cases e
        exact absurd hs' hs
  | refit =>
    obtain ⟨w', e1, e2⟩ := H.reinit
    refine ⟨none, w', ?_, e2, by simp⟩
    change (wReinit d w >>= fun w => .ok (none, w)) = _
    rw [e1]; rfl

/-- **C69, for programs that pass no cover array.**  Whatever the sequence of predictions, new
fits and creation, modification and release of arrays, the library only uses memory that exists,
and the last prediction consists of the predictions of the system, and zeros where no rule
matches. -/
theorem C69_default_partial [Zero K] {d : WDims} (sys : List K → Option (List K)) :
    ∀ (ops : List (WOp K)) (w : Wr K), WrOk d w → WPlain d sys w ops →
      ∃ os w', wRun d sys ops w = .ok (os, w') ∧ WrOk d w' ∧
        ∀ X, X.RowMajor d.xDim → X.Alive w'.mem → (∀ l, w'.mem X.buf ≠ some (true, l)) →
          ∃ out w'', wPredict d sys w' X .none = .ok (some out, w'') ∧
            Expected d sys w'.mem X out
  | [], w, H, _ => by
    refine ⟨[], w, rfl, H, fun X hX ha hne => ?_⟩
    have hs : shapeOk d.xDim X.shape = true := by
      rcases hX with ⟨n, e, _⟩ | ⟨n, e, _⟩ <;> rw [e] <;> simp [shapeOk]
    obtain ⟨out, w', e1, _, _, _, _, e2⟩ := wPredict_plain sys H hs hX ha hne
    exact ⟨out, w', e1, e2⟩
  | op :: ops, w, H, hp => by
    obtain ⟨o, w1, e1, H1, _⟩ := wStep_plain sys H hp.1
    obtain ⟨os, w2, e2, H2, h3⟩ := C69_default_partial sys ops w1 H1 (hp.2 o w1 e1)
    refine ⟨o :: os, w2, ?_, H2, h3⟩
    unfold wRun
    rw [e1]
    dsimp only [bind, Except.bind]
    rw [e2]

/-- After a call with a cover array the wrapper holds a pointer to memory of Python. -/
theorem wPredict_cover [Zero K] {d : WDims} (sys : List K → Option (List K)) {w : Wr K} {X a : PyArr}
    (hX : X.RowMajor d.xDim) (ha : X.Alive w.mem) (hs : a.shape = [d.yDim])
    (hc : ∃ o l, w.mem a.buf = some (o, l) ∧ a.off + d.paSize ≤ l.length) :
    ∃ out, wPredict d sys w X (.arr a) = .ok (some out, { w with cover := (a.buf, a.off) }) := by
  obtain ⟨o, l, c1, c2⟩ := hc
  have hsX : shapeOk d.xDim X.shape = true := by
    rcases hX with ⟨n, e, _⟩ | ⟨n, e, _⟩ <;> rw [e] <;> simp [shapeOk]
  obtain ⟨out, o1, _, _⟩ := mapM_exists (l := List.range (X.shape.headD 0))
    (f := wPredictRow d sys w.mem (X.buf, X.off) (a.buf, a.off)) (fun row hr => by
      obtain ⟨v, q1, _, _⟩ := C61_rows_partial hX ha (List.mem_range.1 hr)
      unfold wPredictRow
      rw [q1]
      dsimp only [bind, Except.bind]
      cases sys v with
      | some u => exact ⟨u, rfl⟩
      | none => exact ⟨_, readN_ok (p := (a.buf, a.off)) c1 c2⟩)
  refine ⟨out, ?_⟩
  have hset : setCover d w (.arr a) = .ok (true, { w with cover := (a.buf, a.off) }) := by
    simp [setCover, getCover, hs]
  unfold wPredict
  rw [if_pos hsX, hset]
  dsimp only [bind, Except.bind]
  rw [if_pos rfl, o1]

/-- **C69 refuted: the caller's array is overwritten.**  `predict(X, cover=c)` followed by
`predict(X)` sets the elements of `c` to zero. -/
theorem C69_cover_overwritten [Zero K] {d : WDims} (sys : List K → Option (List K)) {w : Wr K}
    {X a : PyArr} {c : List K} (hX : X.RowMajor d.xDim) (ha : X.Alive w.mem)
    (hs : a.shape = [d.yDim]) (h0 : a.off = 0) (hb : w.mem a.buf = some (false, c))
    (hc : c.length = d.paSize) (hne : X.buf ≠ a.buf) :
    ∃ os w', wRun d sys [.predict X (.arr a), .predict X .none] w = .ok (os, w') ∧
      w'.mem a.buf = some (false, List.replicate d.paSize 0) := by
  obtain ⟨out, e1⟩ := wPredict_cover sys hX ha hs ⟨_, c, hb, by omega⟩
  have hsX : shapeOk d.xDim X.shape = true := by
    rcases hX with ⟨n, e, _⟩ | ⟨n, e, _⟩ <;> rw [e] <;> simp [shapeOk]
  have hz : memZero w.mem (a.buf, a.off) d.paSize = .ok (Function.update w.mem a.buf
      (some (false, List.replicate d.paSize 0))) := by
    unfold memZero
    dsimp only
    rw [hb]
    dsimp only
    rw [if_pos (by omega), h0, Nat.zero_add, ← hc, List.drop_length]
    simp
  obtain ⟨out2, o1, _, _⟩ := mapM_exists (l := List.range (X.shape.headD 0))
    (f := wPredictRow d sys (Function.update w.mem a.buf
      (some (false, List.replicate d.paSize 0))) (X.buf, X.off) (a.buf, a.off)) (fun row hr => by
      obtain ⟨v, q1, _, _⟩ := C61_rows_partial (mem := Function.update w.mem a.buf
        (some (false, List.replicate d.paSize 0))) hX (by
          obtain ⟨o, k, p1, p2⟩ := ha
          exact ⟨o, k, by rw [Function.update_of_ne hne]; exact p1, p2⟩) (List.mem_range.1 hr)
      unfold wPredictRow
      rw [q1]
      dsimp only [bind, Except.bind]
      cases sys v with
      | some u => exact ⟨u, rfl⟩
      | none => exact ⟨_, readN_ok (own := false) (l := List.replicate d.paSize 0)
          (p := (a.buf, a.off)) (Function.update_self ..) (by simp [h0])⟩)
  have e2 : wPredict d sys { w with cover := (a.buf, a.off) } X .none =
      .ok (some out2, { w with
        cover := (a.buf, a.off)
        mem := Function.update w.mem a.buf (some (false, List.replicate d.paSize 0)) }) := by
    unfold wPredict
    rw [if_pos hsX]
    unfold setCover
    dsimp only
    rw [hz]
    dsimp only [bind, Except.bind]
    rw [if_pos rfl, o1]
  refine ⟨[some out, some out2], { w with
    cover := (a.buf, a.off)
    mem := Function.update w.mem a.buf (some (false, List.replicate d.paSize 0)) }, ?_, ?_⟩
  · simp only [wRun, wStep, e1, e2, bind, Except.bind]
  · exact Function.update_self ..

/-- **C69 refuted: use after free.**  `predict(X, cover=c)`, then `c` goes out of scope, then
`predict(X)` writes to the released memory. -/
theorem C69_dangling_refuted [Zero K] {d : WDims} (sys : List K → Option (List K)) {w : Wr K}
    {X a : PyArr} {c : List K} (hX : X.RowMajor d.xDim) (ha : X.Alive w.mem)
    (hs : a.shape = [d.yDim]) (h0 : a.off = 0) (hb : w.mem a.buf = some (false, c))
    (hc : c.length = d.paSize) :
    wRun d sys [.predict X (.arr a), .drop a.buf, .predict X .none] w = .error .uaf := by
  obtain ⟨out, e1⟩ := wPredict_cover sys hX ha hs ⟨_, c, hb, by omega⟩
  have hsX : shapeOk d.xDim X.shape = true := by
    rcases hX with ⟨n, e, _⟩ | ⟨n, e, _⟩ <;> rw [e] <;> simp [shapeOk]
  have e2 : wPredict d sys { w with
      cover := (a.buf, a.off)
      mem := Function.update w.mem a.buf none } X .none = .error .uaf := by
    unfold wPredict
    rw [if_pos hsX]
    unfold setCover memZero
    dsimp only
    rw [Function.update_self]
    rfl
  simp only [wRun, wStep, e1, e2, bind, Except.bind]

/-- **C69 refuted: invalid free.**  `predict(X, cover=c)` followed by `fit(…)` passes the address
of a NumPy buffer to `free`. -/
theorem C69_invalid_free [Zero K] {d : WDims} (sys : List K → Option (List K)) {w : Wr K}
    {X a : PyArr} {c : List K} (hX : X.RowMajor d.xDim) (ha : X.Alive w.mem)
    (hs : a.shape = [d.yDim]) (h0 : a.off = 0) (hb : w.mem a.buf = some (false, c))
    (hc : c.length = d.paSize) : wRun d sys [.predict X (.arr a), .refit] w = .error .ub := by
  obtain ⟨out, e1⟩ := wPredict_cover sys hX ha hs ⟨_, c, hb, by omega⟩
  have e2 : wReinit d { w with cover := (a.buf, a.off) } = .error .ub := by
    unfold wReinit memFree
    dsimp only
    rw [hb]
    dsimp only
    rw [if_neg (by simp)]
    rfl
  simp only [wRun, wStep, e1, e2, bind, Except.bind]

/-- **C69 refuted: lists.**  A cover given as a Python list is converted to an array that is
released before it is used: the first sample without a matching rule reads freed memory. -/
theorem C69_list_refuted [Zero K] {d : WDims} (sys : List K → Option (List K)) {w : Wr K}
    (H : WrOk d w) {X : PyArr} {c x : List K} (hX : X.RowMajor d.xDim) (ha : X.Alive w.mem)
    (hn : 0 < X.shape.headD 0) (hc : c.length = d.yDim) (hp : 0 < d.paSize)
    (hx : wRowAt w.mem (X.buf, X.off) d.xDim 0 = .ok x) (hm : sys x = none) :
    wPredict d sys w X (.other c) = .error .uaf := by
  have hsX : shapeOk d.xDim X.shape = true := by
    rcases hX with ⟨n, e, _⟩ | ⟨n, e, _⟩ <;> rw [e] <;> simp [shapeOk]
  have hd : readN w.mem (w.next, 0) d.paSize = .error .uaf :=
    readN_dangling (H.fresh _ le_rfl) hp
  have hset : setCover d w (.other c) =
      .ok (true, { w with cover := (w.next, 0), next := w.next + 1 }) := by
    simp [setCover, hc]
  unfold wPredict
  rw [if_pos hsX, hset]
  dsimp only [bind, Except.bind]
  rw [if_pos rfl, mapM_error (e := .uaf)]
  · intro row hr
    obtain ⟨v, q1, _, _⟩ := C61_rows_partial hX ha (List.mem_range.1 hr)
    unfold wPredictRow
    rw [q1]
    dsimp only [bind, Except.bind]
    cases sys v with
    | some u => exact .inl ⟨u, rfl⟩
    | none => exact .inr hd
  · refine ⟨0, by simpa using hn, ?_⟩
    unfold wPredictRow
    rw [hx]
    dsimp only [bind, Except.bind]
    rw [hm]
    exact hd

/-- **C69 refuted: several actions.**  The cover array must have `y_dim` elements, but
`n_actions * y_dim` are read. -/
theorem C69_short_refuted [Zero K] {d : WDims} (sys : List K → Option (List K)) {w : Wr K}
    {X a : PyArr} {c x : List K} (hX : X.RowMajor d.xDim) (ha : X.Alive w.mem)
    (hn : 0 < X.shape.headD 0) (hs : a.shape = [d.yDim]) (h0 : a.off = 0)
    (hb : w.mem a.buf = some (false, c)) (hc : c.length = d.yDim) (hy : 0 < d.yDim)
    (hact : 2 ≤ d.nActions)
    (hx : wRowAt w.mem (X.buf, X.off) d.xDim 0 = .ok x) (hm : sys x = none) :
    wPredict d sys w X (.arr a) = .error .ub := by
  have hsX : shapeOk d.xDim X.shape = true := by
    rcases hX with ⟨n, e, _⟩ | ⟨n, e, _⟩ <;> rw [e] <;> simp [shapeOk]
  have hlt : d.yDim < d.paSize := by
    unfold WDims.paSize
    calc d.yDim < 2 * d.yDim := by omega
      _ ≤ d.nActions * d.yDim := Nat.mul_le_mul_right _ hact
  have hd : readN w.mem (a.buf, a.off) d.paSize = .error .ub :=
    readN_outside (p := (a.buf, a.off)) hb (by omega) (by dsimp only; omega)
  have hset : setCover d w (.arr a) = .ok (true, { w with cover := (a.buf, a.off) }) := by
    simp [setCover, getCover, hs]
  unfold wPredict
  rw [if_pos hsX, hset]
  dsimp only [bind, Except.bind]
  rw [if_pos rfl, mapM_error (e := .ub)]
  · intro row hr
    obtain ⟨v, q1, _, _⟩ := C61_rows_partial hX ha (List.mem_range.1 hr)
    unfold wPredictRow
    rw [q1]
    dsimp only [bind, Except.bind]
    cases sys v with
    | some u => exact .inl ⟨u, rfl⟩
    | none => exact .inr hd
  · refine ⟨0, by simpa using hn, ?_⟩
    unfold wPredictRow
    rw [hx]
    dsimp only [bind, Except.bind]
    rw [hm]
    exact hd

/-! ## C70: the state of a step -/

/-- **C70, for arrays that are kept and not changed.**  `update` and `end_step` refer to the state
given to `decision`. -/
theorem C70_state_partial {d : WDims} {w w' : Wr K} {x : PyArr} {v : List K}
    (h : wDecision d w x = .ok (some v, w')) {mem' : Mem K} (hm : mem' x.buf = w.mem x.buf) :
    wState d { w' with mem := mem' } = .ok v := by
  unfold wDecision at h
  cases hs : x.shape with
  | nil => rw [hs] at h; cases h
  | cons n t =>
    rw [hs] at h
    dsimp only at h
    split at h
    · dsimp only [bind, Except.bind] at h
      cases hr : readN w.mem (x.buf, x.off) d.xDim with
      | error e => rw [hr] at h; cases h
      | ok u =>
        rw [hr] at h
        cases h
        unfold wState
        dsimp only
        rw [← hr]
        unfold readN
        congr 1
        funext i
        unfold readAt
        dsimp only
        rw [hm]
    · cases h

/-- **C70 refuted: the array is gone.**  `decision` keeps the address only; when the array has been
released (a converted argument always is) `update` reads freed memory. -/
theorem C70_released_refuted {d : WDims} (hd : 0 < d.xDim) {w w' : Wr K} {x : PyArr} {v : List K}
    (h : wDecision d w x = .ok (some v, w')) :
    wState d { w' with mem := Function.update w'.mem x.buf none } = .error .uaf := by
  unfold wDecision at h
  cases hs : x.shape with
  | nil => rw [hs] at h; cases h
  | cons n t =>
    rw [hs] at h
    dsimp only at h
    split at h
    · dsimp only [bind, Except.bind] at h
      cases hr : readN w.mem (x.buf, x.off) d.xDim with
      | error e => rw [hr] at h; cases h
      | ok u =>
        rw [hr] at h
        cases h
        exact readN_dangling (p := (x.buf, x.off)) (by simp) hd
    · cases h

/-- **C70 refuted: the array is reused.**  An environment that writes the next observation into
the same array makes `update` learn from the next state instead of the one acted upon. -/
theorem C70_reused_refuted {d : WDims} {w w' : Wr K} {x : PyArr} {v v' : List K} (h0 : x.off = 0)
    (hl : v'.length = d.xDim) (h : wDecision d w x = .ok (some v, w')) :
    wState d { w' with mem := Function.update w'.mem x.buf (some (false, v')) } = .ok v' := by
  unfold wDecision at h
  cases hs : x.shape with
  | nil => rw [hs] at h; cases h
  | cons n t =>
    rw [hs] at h
    dsimp only at h
    split at h
    · dsimp only [bind, Except.bind] at h
      cases hr : readN w.mem (x.buf, x.off) d.xDim with
      | error e => rw [hr] at h; cases h
      | ok u =>
        rw [hr] at h
        cases h
        unfold wState
        dsimp only
        rw [readN_ok (p := (x.buf, x.off)) (own := false) (l := v') (by simp) (by simp [h0, hl])]
        simp [h0, ← hl]
    · cases h

end

/-! ### Concrete cases -/

/-- Two features, one outcome, one action. -/
def wDims : WDims := ⟨2, 1, 1⟩

/-- A system that matches inputs whose first feature is positive. -/
def wSys (x : List ℚ) : Option (List ℚ) :=
  match x with
  | a :: _ => if 0 < a then some [a] else none
  | [] => none

/-- A new system, three samples in buffer 1 and a cover array in buffer 2. -/
def wDemo : Wr ℚ :=
  { mem := fun b => if b = 0 then some (true, [0]) else if b = 1 then some (false, [1, 2, 0, 3, 4, 5])
      else if b = 2 then some (false, [7]) else none
    next := 3
    cover := (0, 0)
    state := none }

def wX : PyArr := ⟨1, 0, [3, 2], [2, 1]⟩
def wC : PyArr := ⟨2, 0, [1], [1]⟩

example : WrOk wDims wDemo :=
  ⟨⟨[0], rfl, rfl⟩, rfl, fun b hb => by
    have : 3 ≤ b := hb
    simp only [wDemo]
    rw [if_neg (by omega), if_neg (by omega), if_neg (by omega)]⟩
example : wX.RowMajor wDims.xDim := .inl ⟨3, rfl, rfl⟩
example : wX.Alive wDemo.mem := ⟨false, _, rfl, by decide⟩
example : wC.shape = [wDims.yDim] ∧ wDemo.mem wC.buf = some (false, [7]) ∧
    [(7 : ℚ)].length = wDims.paSize := ⟨rfl, rfl, rfl⟩
example : Demo.Res.test (wPredict wDims wSys wDemo wX .none)
    (fun q => decide (q.1 = some [[1], [0], [4]])) = true := by decide +kernel
example : Demo.Res.test (wPredict wDims wSys wDemo wX (.arr wC))
    (fun q => decide (q.1 = some [[1], [7], [4]])) = true := by decide +kernel
/-- A one-dimensional array of three elements: accepted, but six elements are read. -/
example : (wPredict wDims wSys
    { wDemo with mem := Function.update wDemo.mem 1 (some (false, [1, 2, 3])) }
    ⟨1, 0, [3], [1]⟩ .none) = .error .ub := Res.fails_iff.1 (by decide +kernel)
example : WPlain wDims wSys wDemo [.make [1], .drop 2, .refit] :=
  ⟨trivial, fun _ _ h => by
    cases h
    refine ⟨fun l => ?_, fun _ _ h => ⟨trivial, fun _ _ _ => trivial⟩⟩
    simp [wDemo, Function.update]⟩
example : Demo.Res.test (wDecision wDims wDemo ⟨1, 0, [2], [1]⟩)
    (fun q => decide (q.1 = some [1, 2])) = true := by decide +kernel

end Xcsf
