import Verif.PropsDoubleMore
import Verif.Props8

/-!
# Losses and constant predictions over doubles

The parts of `loss.c` and `pred_constant.c` that meet a sample first, over doubles with infinities and
values that are not a number (`Double.lean`).
-/

namespace Xcsf.Double

variable {f : Format}

/-- `fabs`, used in loss.c:39. -/
def Dbl.fabs : Dbl f → Dbl f
  | .nan => .nan
  | .inf _ => .inf false
  | .fin q h => .fin |q| (by
      rcases abs_choice q with e | e
      · rwa [e]
      · rw [e]; exact f.neg q h)

/-- `loss_mae`, loss.c:34-43; the arrays have at least `n` elements. -/
def maeLoss (n : Nat) (pred y : List (Dbl f)) : Dbl f :=
  (List.range n).foldl (fun e i => e + (y.getD i 0 - pred.getD i 0).fabs) 0 / ((n : Int) : Dbl f)

/-- `loss_mse`, loss.c:52-61; the arrays have at least `n` elements. -/
def mseLoss (n : Nat) (pred y : List (Dbl f)) : Dbl f :=
  (List.range n).foldl (fun e i => e + (y.getD i 0 - pred.getD i 0) * (y.getD i 0 - pred.getD i 0)) 0
    / ((n : Int) : Dbl f)

/-- `loss_rmse`, loss.c:70-74, for any square root. -/
def rmseLoss (sqrt : Dbl f → Dbl f) (n : Nat) (pred y : List (Dbl f)) : Dbl f := sqrt (mseLoss n pred y)

/-- `loss_log`, loss.c:84-92, for any logarithm; `eps` is `DBL_EPSILON`. -/
def logLoss (log : Dbl f → Dbl f) (eps : Dbl f) (n : Nat) (pred y : List (Dbl f)) : Dbl f :=
  ((List.range n).foldl (fun e i => e + y.getD i 0 * log (fmax (pred.getD i 0) eps)) 0).minus

/-- `loss_binary_log`, loss.c:101-110, for any logarithm. -/
def binaryLogLoss (log : Dbl f → Dbl f) (eps : Dbl f) (n : Nat) (pred y : List (Dbl f)) : Dbl f :=
  ((List.range n).foldl (fun e i => e + (y.getD i 0 * log (fmax (pred.getD i 0) eps) +
    (1 - y.getD i 0) * log (fmax (1 - pred.getD i 0) eps))) 0).minus

/-- The summand of `loss_huber`, loss.c:142-147; `half` is the constant 0.5. -/
def huberOne (half delta a : Dbl f) : Dbl f :=
  if delta < a.fabs then half * delta * delta + delta * (a.fabs - delta) else half * a * a

/-- `loss_huber`, loss.c:136-151. -/
def huberLoss (half delta : Dbl f) (n : Nat) (pred y : List (Dbl f)) : Dbl f :=
  (List.range n).foldl (fun e i => e + huberOne half delta (y.getD i 0 - pred.getD i 0)) 0
    / ((n : Int) : Dbl f)

/-- `loss_onehot`, loss.c:119-127; `argmax` exits for an empty array. -/
def onehotLoss (n : Nat) (pred y : List (Dbl f)) : Res (Dbl f) := do
  let i ← argmax (pred.take n)
  if y.getD i 0 ≠ 1 then .ok 1 else .ok 0

/-- `pred_constant_update`, pred_constant.c:73-88, for one output. -/
def constLearn (beta : Dbl f) (exp : Int) (v y : Dbl f) : Dbl f :=
  if (exp : Dbl f) * beta < 1 then (v * ((exp : Dbl f) - 1) + y) / (exp : Dbl f)
  else v + beta * (y - v)

/-! ## What is not a number stays so -/

theorem nan_sub (a : Dbl f) : (.nan : Dbl f) - a = .nan := rfl
theorem sub_nan (a : Dbl f) : a - .nan = .nan := by cases a <;> rfl
theorem nan_mul (a : Dbl f) : (.nan : Dbl f) * a = .nan := rfl
theorem mul_nan (a : Dbl f) : a * .nan = .nan := by cases a <;> rfl
theorem nan_div (a : Dbl f) : (.nan : Dbl f) / a = .nan := rfl

theorem sum_nan (g : Nat → Dbl f) : ∀ l : List Nat,
    l.foldl (fun e i => e + g i) .nan = .nan
  | [] => rfl
  | i :: l => by rw [List.foldl_cons, nan_add]; exact sum_nan g l

theorem foldl_hit (g : Nat → Dbl f) {k : Nat} (hg : g k = .nan) : ∀ (l : List Nat) (e : Dbl f), k ∈ l →
    l.foldl (fun e i => e + g i) e = .nan
  | i :: l, e, h => by
    rw [List.foldl_cons]
    rcases List.mem_cons.1 h with rfl | h
    · rw [hg, add_nan]; exact sum_nan g l
    · exact foldl_hit g hg l _ h

theorem ema_nan (β : Dbl f) : ∀ ls : List (Dbl f), ema β .nan ls = .nan
  | [] => rfl
  | _ :: ls => ema_nan β ls

variable {B : Type}

theorem addAt_keep {l l' : List (Dbl f)} {i : Int} {v : Dbl f} {k : Nat} (h : addAt l i v = .ok l')
    (hk : l[k]? = some .nan) : l'[k]? = some .nan := by
  unfold addAt at h
  split at h
  · split at h
    · rename_i a ha
      cases h
      rw [List.getElem?_set]
      split
      · rename_i e
        rw [e] at ha
        rw [ha] at hk
        cases Option.some.inj hk
        rw [if_pos (by rw [e]; exact (List.getElem?_eq_some_iff.1 ha).1), nan_add]
      · exact hk
    · cases h
  · cases h

theorem addAt_hit {l l' : List (Dbl f)} {i : Int} (h : addAt l i .nan = .ok l') :
    l'[i.toNat]? = some .nan := by
  unfold addAt at h
  split at h
  · split at h
    · rename_i a ha
      cases h
      rw [List.getElem?_set, if_pos rfl, if_pos (List.getElem?_eq_some_iff.1 ha).1, add_nan]
    · cases h
  · cases h

theorem paRule_step {yDim : Nat} {c : Cl (Dbl f) B} {j : Nat} {js : List Nat} {pa nr pa' nr' : List (Dbl f)}
    (h : paRule yDim c (j :: js) pa nr = .ok (pa', nr')) : ∃ p pa1 nr1, c.prediction[j]? = some p ∧
      addAt pa (c.action * (yDim : Int) + (j : Int)) (p * c.fit) = .ok pa1 ∧
      paRule yDim c js pa1 nr1 = .ok (pa', nr') := by
  unfold paRule at h
  cases hp : c.prediction[j]? with
  | none => simp only [hp] at h; cases h
  | some p =>
    simp only [hp, bind, Except.bind] at h
    cases h1 : addAt pa (c.action * (yDim : Int) + (j : Int)) (p * c.fit) with
    | error _ => simp only [h1] at h; cases h
    | ok pa1 =>
      simp only [h1] at h
      cases h2 : addAt nr (c.action * (yDim : Int) + (j : Int)) c.fit with
      | error _ => simp only [h2] at h; cases h
      | ok nr1 =>
        simp only [h2] at h
        exact ⟨p, pa1, nr1, rfl, h1, h⟩

theorem paRule_keep {yDim : Nat} {c : Cl (Dbl f) B} {k : Nat} : ∀ {js : List Nat}
    {pa nr pa' nr' : List (Dbl f)}, paRule yDim c js pa nr = .ok (pa', nr') →
    pa[k]? = some .nan → pa'[k]? = some .nan
  | [], _, _, _, _, h, hk => by
    unfold paRule at h
    cases h
    exact hk
  | _ :: _, _, _, _, _, h, hk => by
    obtain ⟨_, _, _, -, h1, h2⟩ := paRule_step h
    exact paRule_keep h2 (addAt_keep h1 hk)

theorem paRule_hit {yDim : Nat} {c : Cl (Dbl f) B} {k : Nat} (hc : c.prediction[k]? = some .nan) :
    ∀ {js : List Nat} {pa nr pa' nr' : List (Dbl f)}, paRule yDim c js pa nr = .ok (pa', nr') → k ∈ js →
    pa'[(c.action * (yDim : Int) + (k : Int)).toNat]? = some .nan
  | j :: js, _, _, _, _, h, hk => by
    obtain ⟨p, _, _, h0, h1, h2⟩ := paRule_step h
    rcases List.mem_cons.1 hk with rfl | hk
    · rw [hc] at h0
      cases Option.some.inj h0
      rw [nan_mul] at h1
      exact paRule_keep h2 (addAt_hit h1)
    · exact paRule_hit hc h2 hk

theorem paRules_step {yDim : Nat} {c : Cl (Dbl f) B} {cs : List (Cl (Dbl f) B)}
    {pa nr pa' nr' : List (Dbl f)} (h : paRules yDim (c :: cs) pa nr = .ok (pa', nr')) :
    ∃ pa1 nr1, paRule yDim c (List.range yDim) pa nr = .ok (pa1, nr1) ∧
      paRules yDim cs pa1 nr1 = .ok (pa', nr') := by
  unfold paRules at h
  cases h1 : paRule yDim c (List.range yDim) pa nr with
  | error _ => simp only [h1, bind, Except.bind] at h; cases h
  | ok q => simp only [h1, bind, Except.bind] at h; exact ⟨q.1, q.2, rfl, h⟩

theorem paRules_keep {yDim : Nat} {k : Nat} : ∀ {cs : List (Cl (Dbl f) B)}
    {pa nr pa' nr' : List (Dbl f)}, paRules yDim cs pa nr = .ok (pa', nr') →
    pa[k]? = some .nan → pa'[k]? = some .nan
  | [], _, _, _, _, h, hk => by
    unfold paRules at h
    cases h
    exact hk
  | _ :: _, _, _, _, _, h, hk => by
    obtain ⟨_, _, h1, h2⟩ := paRules_step h
    exact paRules_keep h2 (paRule_keep h1 hk)

theorem paRules_hit {yDim : Nat} {k : Nat} (hk : k < yDim) {c : Cl (Dbl f) B}
    (hc : c.prediction[k]? = some .nan) : ∀ {cs : List (Cl (Dbl f) B)}
    {pa nr pa' nr' : List (Dbl f)}, paRules yDim cs pa nr = .ok (pa', nr') → c ∈ cs →
    pa'[(c.action * (yDim : Int) + (k : Int)).toNat]? = some .nan
  | d :: cs, _, _, _, _, h, hm => by
    obtain ⟨_, _, h1, h2⟩ := paRules_step h
    rcases List.mem_cons.1 hm with rfl | hm
    · exact paRules_keep h2 (paRule_hit hc h1 (List.mem_range.2 hk))
    · exact paRules_hit hk hc h2 hm

end Xcsf.Double
