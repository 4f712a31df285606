import Verif.CoreOps5
import Mathlib.Algebra.Order.Field.Basic
import Mathlib.Algebra.Order.BigOperators.Group.List
import Mathlib.Tactic.Linarith
import Mathlib.Tactic.Positivity
import Mathlib.Tactic.FieldSimp
import Mathlib.Tactic.Ring

/-!
# Two instances of `Laws`

`lawsAny`: nothing is known about arithmetic, every fault is tolerated.
`lawsField`: exact arithmetic and a regular system, no undefined behaviour.
-/

set_option linter.unusedSectionVars false

namespace Xcsf

section Any
variable {K X B R : Type} [Zero K] [One K] [Add K] [Sub K] [Mul K] [Div K]
  [LT K] [DecidableLT K] [IntCast K] [DecidableEq K]

theorem wheel_lt (p : K) : ∀ (rest : List K) (sum : K) (i k : Nat),
    wheel p sum rest i = some k → i ≤ k ∧ k ≤ i + rest.length
  | [], sum, i, k, h => by
    unfold wheel at h; split at h
    · cases h
    · simp at h; subst h; simp
  | v :: rest, sum, i, k, h => by
    unfold wheel at h; split at h
    · have := wheel_lt p rest _ _ _ h; simp; omega
    · simp at h; subst h; simp

theorem spin_lt {p : K} {l : List K} {k : Nat} (h : spin p l = some k) : k < l.length := by
  cases l with
  | nil => simp [spin] at h
  | cons v rest => have := wheel_lt p rest v 0 k h; simp; omega

theorem delSpins_post {E : Fault → Prop} {kit : Kit K X B R} {cs : List (Cl K B)} {votes : List K}
    {total : K} (hs : E .ub ∨ ∀ r, (spin (uniform kit 0 total r).1 votes).isSome)
    (hl : votes.length = cs.length) :
    ∀ (n : Nat) (best : Option (Nat × K)) (r : R),
    (∀ q, best = some q → q.1 < cs.length) →
    Post (delSpins kit cs votes total n best r)
      (fun p => (∀ q, p.1 = some q → q.1 < cs.length) ∧ (1 ≤ n ∨ best.isSome → p.1.isSome)) E
  | 0, best, r, hb => by
    unfold delSpins
    refine ⟨hb, ?_⟩
    rintro (h | h)
    · omega
    · exact h
  | n + 1, best, r, hb => by
    unfold delSpins
    generalize hu : uniform kit 0 total r = u
    obtain ⟨p, r'⟩ := u
    show Post (match spin p votes with | none => _ | some i => _) _ _
    cases hsp : spin p votes with
    | none =>
      rcases hs with h | h
      · exact h
      · have := h r; rw [hu] at this; rw [hsp] at this; cases this
    | some i =>
      have hi := spin_lt hsp
      rw [hl] at hi
      show Post (match cs[i]? with | none => _ | some c => _) _ _
      rw [List.getElem?_eq_getElem hi]
      show Post (delSpins kit cs votes total n _ r') _ _
      refine post_mono (delSpins_post hs hl n _ r' ?_) ?_
      · intro q hq
        cases best with
        | none => simp at hq; subst hq; exact hi
        | some b =>
          simp only at hq
          split at hq
          · simp at hq; subst hq; exact hi
          · simp at hq; exact hq ▸ hb b rfl
      · rintro ⟨q, r2⟩ ⟨h1, h2⟩
        refine ⟨h1, fun _ => h2 (Or.inr ?_)⟩
        cases best with
        | none => rfl
        | some b => simp only; split <;> rfl

theorem delRoulette_post {E : Fault → Prop} {par : Params K} {kit : Kit K X B R}
    {cs : List (Cl K B)} {num : Int} {e : K} {r : R}
    (hs : E .ub ∨ ∀ r, (spin (uniform kit 0
      ((cs.map (fun c => delVote par c (totalFit cs / (num : K)))).foldl (· + ·) 0) r).1
      (cs.map (fun c => delVote par c (totalFit cs / (num : K))))).isSome) :
    Post (delRoulette par kit cs num e r) (fun p => p.1 < cs.length) E := by
  unfold delRoulette
  refine post_bind (delSpins_post hs (by simp) _ none r (by simp)) ?_
  rintro ⟨best, r'⟩ ⟨h1, h2⟩
  cases best with
  | none =>
    exfalso
    have : (1 : Nat) ≤ if par.compaction = true ∧ e < par.e0 then 2 else 1 := by split <;> omega
    simpa using h2 (Or.inl this)
  | some q => exact h1 q rfl

theorem selectRw_post {E : Fault → Prop} {kit : Kit K X B R} {t : List Nat} {fits : List K}
    {total : K} {r : R} (hl : fits.length = t.length)
    (hs : E .ub ∨ (spin (uniform kit 0 total r).1 fits).isSome) :
    Post (selectRw kit t fits total r) (fun p => p.1 ∈ t) E := by
  unfold selectRw
  generalize hu : uniform kit 0 total r = u at *
  obtain ⟨p, r'⟩ := u
  show Post (match spin p fits with | none => _ | some i => _) _ _
  cases hsp : spin p fits with
  | none =>
    rcases hs with h | h
    · exact h
    · simp only at h; rw [hsp] at h; cases h
  | some i =>
    have hi := spin_lt hsp
    rw [hl] at hi
    show Post (match t[i]? with | none => _ | some i => _) _ _
    rw [List.getElem?_eq_getElem hi]
    exact List.getElem_mem hi

theorem post_true {α : Type} {m : Res α} {P : α → Prop} (hm : m ≠ .error .uaf) (hP : ∀ a, P a) :
    Post m P NoUAF := by
  cases m with
  | ok a => exact hP a
  | error e => exact fun h => hm (h ▸ rfl)

instance : MayExit NoUAF := ⟨nofun⟩

instance : MayExit NoUB := ⟨trivial⟩

/-- For any arithmetic, any parameters and any representation. -/
theorem lawsAny (par : Params K) (kit : Kit K X B R) (hp : 0 ≤ par.popSize)
    (hc : ∀ e b x a r, kit.cover e b x a r ≠ .error .uaf)
    (hm : ∀ b r, kit.mutate b r ≠ .error .uaf) :
    Laws par kit (fun _ => True) NoUAF where
  pop := hp
  num := fun _ _ _ => trivial
  time := fun _ _ _ => trivial
  cmatch := fun _ _ _ _ _ _ => trivial
  act := fun _ _ _ _ _ => trivial
  predict := fun _ _ _ _ _ => trivial
  update := fun _ _ _ _ _ _ _ _ _ => trivial
  fit := fun _ _ _ _ => trivial
  coverErr := fun _ _ _ _ _ _ h e => hc _ _ _ _ _ (e ▸ h)
  cover := fun _ _ _ _ _ _ _ _ _ _ _ => trivial
  rand := fun _ => trivial
  offspring := fun _ _ _ _ _ _ _ =>
    post_true (fun h => hm _ _ h) fun _ => post_true (fun h => hm _ _ h) fun _ => ⟨trivial, trivial⟩
  clone := fun _ _ _ => trivial
  wheelDel := fun _ _ _ _ _ _ _ => delRoulette_post (Or.inl nofun)
  wheelSel := fun _ _ _ h _ _ => selectRw_post (by simpa using h) (Or.inl nofun)
  index := fun _ _ _ => Or.inl nofun
  action := fun _ _ => Or.inl nofun
  predLen := fun _ _ => Or.inl nofun
  dims := Or.inl nofun
  tournament := fun _ l _ => selectTournament_post nofun l _
  explore := fun _ _ _ _ _ _ h => paRandAction_post nofun (Or.inl nofun)
    (fun _ _ _ => Or.inl nofun) h _

end Any

section Wheel
variable {K : Type} [Add K] [LT K] [DecidableLT K]

/-- The wheel cannot run off the list if the point is not beyond the total, which is
computed in the same order as the partial sums.  No law of arithmetic is used. -/
theorem wheel_lands (p : K) : ∀ (rest : List K) (sum : K) (i : Nat),
    ¬ rest.foldl (· + ·) sum < p → (wheel p sum rest i).isSome
  | [], sum, i, h => by unfold wheel; rw [if_neg (by exact h)]; rfl
  | v :: rest, sum, i, h => by
    unfold wheel
    split
    · exact wheel_lands p rest _ _ h
    · rfl

theorem spin_lands [Zero K] {p : K} {l : List K} (h0 : ∀ v : K, 0 + v = v) (hl : l ≠ [])
    (h : ¬ l.foldl (· + ·) 0 < p) : (spin p l).isSome := by
  cases l with
  | nil => exact absurd rfl hl
  | cons v rest =>
    unfold spin
    apply wheel_lands
    rw [List.foldl_cons, h0] at h
    exact h

end Wheel

section Field
variable {K X B R : Type} [Field K] [LinearOrder K] [IsStrictOrderedRing K]

theorem foldl_add_sum (l : List K) (a : K) : l.foldl (· + ·) a = a + l.sum := by
  induction l generalizing a with
  | nil => simp
  | cons v l ih => rw [List.foldl_cons, ih, List.sum_cons]; ring

/-- A system with legal parameters whose representation preserves a body invariant
`W`, whose computed actions are valid, and whose random numbers and rounding behave
as documented. -/
structure Regular (par : Params K) (kit : Kit K X B R) (W : B → Prop) : Prop where
  popSize : 0 ≤ par.popSize
  nActions : 1 ≤ par.nActions
  yDim : 1 ≤ par.yDim
  beta0 : 0 ≤ par.beta
  beta1 : par.beta ≤ 1
  initErr : 0 ≤ par.initErr
  initFit0 : 0 < par.initFit
  initFit1 : par.initFit ≤ 1
  errReduc : 0 ≤ par.eaErrReduc
  fitReduc0 : 0 < par.eaFitReduc
  fitReduc1 : par.eaFitReduc ≤ 1
  draw0 : ∀ r, 0 < (kit.draw r).1
  draw1 : ∀ r, (kit.draw r).1 < 1
  floor0 : ∀ v, ((kit.floor v : Int) : K) ≤ v
  floor1 : ∀ v, v < ((kit.floor v : Int) : K) + 1
  eps : 0 < kit.eps
  loss : ∀ p y, 0 ≤ kit.loss p y
  wRand : ∀ r, W (kit.rand r).1
  wCover : ∀ e b x (a : Nat) r b' r', a < par.nActions → W b →
    kit.cover e b x a r = .ok (b', r') → W b'
  coverErr : ∀ e b x (a : Nat) r, a < par.nActions → W b →
    kit.cover e b x a r ≠ .error .ub ∧ kit.cover e b x a r ≠ .error .uaf
  wMatch : ∀ e b x r, W b → W (kit.cmatch e b x r).2.1
  wAct : ∀ e b x r, W b → W (kit.act e b x r).2.1
  act0 : ∀ e b x r, W b → 0 ≤ (kit.act e b x r).1
  act1 : ∀ e b x r, W b → (kit.act e b x r).1 < par.nActions
  wPredict : ∀ e b p x r, W b → W (kit.predict e b p x r).2.1
  predictLen : ∀ e b p x r, W b → p.length = par.yDim →
    (kit.predict e b p x r).1.length = par.yDim
  wUpdate : ∀ n b p x y r, W b → W (kit.update n b p x y r).1
  updateLen : ∀ n b p x y r, W b → p.length = par.yDim →
    (kit.update n b p x y r).2.1.length = par.yDim
  wCross : ∀ a b r, W a → W b → W (kit.crossover a b r).2.1 ∧ W (kit.crossover a b r).2.2.1
  wMutate : ∀ b r, W b → ∀ q, kit.mutate b r = .ok q → W q.2.1
  mutateErr : ∀ b r, W b → kit.mutate b r ≠ .error .ub ∧ kit.mutate b r ≠ .error .uaf
  wCopy : ∀ f b r, W b → W (kit.copy f b r).1
  wClone : ∀ b r, W b → W (kit.clone b r).1

/-- The values a rule of a regular system can have. -/
structure RuleOK (par : Params K) (W : B → Prop) (c : Cl K B) : Prop where
  err : 0 ≤ c.err
  fit0 : 0 < c.fit
  fit1 : c.fit ≤ 1
  size : 0 ≤ c.size
  exp : 0 ≤ c.exp
  act0 : 0 ≤ c.action
  act1 : c.action < par.nActions
  pred : c.prediction.length = par.yDim
  body : W c.body

variable {par : Params K} {kit : Kit K X B R} {W : B → Prop}

theorem clAcc_pos (H : Regular par kit W) (e : K) : 0 < clAcc par kit e := by
  unfold clAcc fmax
  split
  · split
    · next h => exact lt_trans H.eps h
    · exact H.eps
  · exact one_pos

theorem accSum_eq (cs : List (Cl K B)) :
    accSum par kit cs = (cs.map (fun c => clAcc par kit c.err * (c.num : K))).sum := by
  unfold accSum
  have : ∀ (l : List (Cl K B)) (a : K),
      l.foldl (fun a c => a + clAcc par kit c.err * (c.num : K)) a =
      a + (l.map (fun c => clAcc par kit c.err * (c.num : K))).sum := by
    intro l
    induction l with
    | nil => intro a; simp
    | cons c l ih => intro a; rw [List.foldl_cons, ih, List.map_cons, List.sum_cons]; ring
  rw [this]; ring

theorem totalFit_eq (cs : List (Cl K B)) : totalFit cs = (cs.map Cl.fit).sum := by
  unfold totalFit
  have : ∀ (l : List (Cl K B)) (a : K),
      l.foldl (fun a c => a + c.fit) a = a + (l.map Cl.fit).sum := by
    intro l
    induction l with
    | nil => intro a; simp
    | cons c l ih => intro a; rw [List.foldl_cons, ih, List.map_cons, List.sum_cons]; ring
  rw [this]; ring

theorem num_cast_pos {n : Int} (h : 1 ≤ n) : (0 : K) < (n : K) := by
  exact_mod_cast (by omega : (0 : Int) < n)

theorem share_bounds (H : Regular par kit W) {cs : List (Cl K B)} (hn : ∀ c ∈ cs, 1 ≤ c.num)
    {c : Cl K B} (hc : c ∈ cs) :
    0 < clAcc par kit c.err * (c.num : K) / accSum par kit cs ∧
    clAcc par kit c.err * (c.num : K) / accSum par kit cs ≤ 1 := by
  have hpos : ∀ d ∈ cs, 0 < clAcc par kit d.err * (d.num : K) := fun d hd =>
    mul_pos (clAcc_pos H _) (num_cast_pos (hn d hd))
  have hle : clAcc par kit c.err * (c.num : K) ≤ accSum par kit cs := by
    rw [accSum_eq]
    apply List.single_le_sum
    · intro v hv
      obtain ⟨d, hd, rfl⟩ := List.mem_map.1 hv
      exact (hpos d hd).le
    · exact List.mem_map.2 ⟨c, hc, rfl⟩
  have hs : 0 < accSum par kit cs := lt_of_lt_of_le (hpos c hc) hle
  exact ⟨div_pos (hpos c hc) hs, (div_le_one hs).2 hle⟩

theorem delVote_nonneg {avg : K} (ha : 0 ≤ avg) {c : Cl K B} (hc : RuleOK par W c)
    (hn : 1 ≤ c.num) : 0 ≤ delVote par c avg := by
  have h1 := num_cast_pos (K := K) hn
  have h2 := hc.fit0
  have h3 := hc.size
  unfold delVote
  split <;> positivity

theorem uniform_le (H : Regular par kit W) {t : K} (ht : 0 ≤ t) (r : R) :
    (uniform kit 0 t r).1 ≤ t ∧ 0 ≤ (uniform kit 0 t r).1 := by
  have h0 := H.draw0 r
  have h1 := H.draw1 r
  have e : (uniform kit 0 t r).1 = 0 + (kit.draw r).1 * (t - 0) := rfl
  rw [e]
  constructor
  · nlinarith
  · nlinarith

theorem uniformInt_range (H : Regular par kit W) {n : Nat} (hn : 0 < n) (r : R) :
    0 ≤ (uniformInt kit 0 (n : Int) r).1 ∧ (uniformInt kit 0 (n : Int) r).1 < n := by
  have h0 := H.draw0 r
  have h1 := H.draw1 r
  have e : (uniformInt kit 0 (n : Int) r).1 =
      kit.floor ((((0 : Int) : K)) + (kit.draw r).1 * ((((n : Int)) : K) - (((0 : Int) : K)))) := rfl
  rw [e]
  have hn' : (0 : K) < (((n : Int)) : K) := by exact_mod_cast hn
  generalize hv : (((0 : Int) : K)) + (kit.draw r).1 * ((((n : Int)) : K) - (((0 : Int) : K))) = v
  have hv0 : 0 < v := by
    rw [← hv]; simp only [Int.cast_zero, zero_add, sub_zero]; exact mul_pos h0 hn'
  have hv1 : v < (((n : Int)) : K) := by
    rw [← hv]; simp only [Int.cast_zero, zero_add, sub_zero]; nlinarith
  have f0 := H.floor0 v
  have f1 := H.floor1 v
  constructor
  · by_contra hneg
    have : kit.floor v + 1 ≤ 0 := by omega
    have : ((kit.floor v : Int) : K) + 1 ≤ 0 := by exact_mod_cast this
    linarith
  · have : ((kit.floor v : Int) : K) < (((n : Int)) : K) := lt_of_le_of_lt f0 hv1
    exact_mod_cast this

theorem clUpdate_ok (H : Regular par kit W) (e : Bool) (x : X) (y : List K) {n : Int} (hn : 0 ≤ n)
    (cur : Bool) (r : R) {c : Cl K B} (hc : RuleOK par W c) :
    RuleOK par W (clUpdate par kit e c x y n cur r).1 := by
  obtain ⟨h1, h2, h3, h4, h5, h6, h7, h8, h9⟩ := hc
  have hn' : (0 : K) ≤ (n : K) := by exact_mod_cast hn
  have hx : (0 : K) < ((c.exp + 1 : Int) : K) := by exact_mod_cast (by omega : (0 : Int) < c.exp + 1)
  have hx1 : ((c.exp + 1 : Int) : K) - 1 = (c.exp : K) := by push_cast; ring
  have hx0 : (0 : K) ≤ (c.exp : K) := by exact_mod_cast h5
  have hb0 := H.beta0
  have hb1 := H.beta1
  have hmix : ∀ u v : K, 0 ≤ u → 0 ≤ v → 0 ≤ u + par.beta * (v - u) := by
    intro u v hu hv; nlinarith [mul_nonneg hb0 hv, mul_nonneg (sub_nonneg.2 hb1) hu]
  unfold clUpdate
  cases cur with
  | true =>
    have hl := H.loss c.prediction y
    have key : ∀ d : Cl K B, d.prediction = c.prediction → d.body = c.body → W d.body ∧
      d.prediction.length = par.yDim := by intro d a b; rw [a, b]; exact ⟨h9, h8⟩
    simp only [if_true]
    split
    · refine ⟨?_, h2, h3, ?_, by show 0 ≤ c.exp + 1; omega, h6, h7, H.updateLen _ _ _ _ _ _ h9 h8,
        H.wUpdate _ _ _ _ _ _ h9⟩
      · simp only [hx1]; positivity
      · simp only [hx1]; positivity
    · exact ⟨hmix _ _ h1 hl, h2, h3, hmix _ _ h4 hn', by show 0 ≤ c.exp + 1; omega, h6, h7,
        H.updateLen _ _ _ _ _ _ h9 h8, H.wUpdate _ _ _ _ _ _ h9⟩
  | false =>
    have w := H.wPredict e c.body c.prediction x r h9
    have l := H.predictLen e c.body c.prediction x r h9 h8
    have hl := H.loss (kit.predict e c.body c.prediction x r).1 y
    simp only [Bool.false_eq_true, if_false]
    split
    · refine ⟨?_, h2, h3, ?_, by show 0 ≤ c.exp + 1; omega, h6, h7, H.updateLen _ _ _ _ _ _ w l,
        H.wUpdate _ _ _ _ _ _ w⟩
      · simp only [hx1]; positivity
      · simp only [hx1]; positivity
    · exact ⟨hmix _ _ h1 hl, h2, h3, hmix _ _ h4 hn', by show 0 ≤ c.exp + 1; omega, h6, h7,
        H.updateLen _ _ _ _ _ _ w l, H.wUpdate _ _ _ _ _ _ w⟩

theorem clInit_ok (H : Regular par kit W) {sz : K} (hs : 0 ≤ sz) (t : Int) {b : B} (hb : W b) :
    RuleOK par W (clInit par sz t b) := by
  have := H.nActions
  exact ⟨H.initErr, H.initFit0, H.initFit1, hs, Int.le_refl _, Int.le_refl _,
    by show (0 : Int) < _; omega, by simp [clInit], hb⟩

theorem reduced {c : Cl K B} (hc : RuleOK par W c) (hn : 1 ≤ c.num) :
    0 < c.fit / (c.num : K) ∧ c.fit / (c.num : K) ≤ 1 := by
  have h1 := num_cast_pos (K := K) hn
  have h2 : (1 : K) ≤ (c.num : K) := by exact_mod_cast hn
  refine ⟨div_pos hc.fit0 h1, (div_le_one h1).2 (le_trans hc.fit1 h2)⟩

theorem scaled (H : Regular par kit W) {f : K} (h0 : 0 < f) (h1 : f ≤ 1) :
    0 < par.eaFitReduc * f ∧ par.eaFitReduc * f ≤ 1 :=
  ⟨mul_pos H.fitReduc0 h0, by nlinarith [H.fitReduc0, H.fitReduc1]⟩

theorem mean_half (a b : K) : (a + b) * (half : K) = (a + b) / 2 := by
  unfold half; ring

/-- A regular system keeps `RuleOK`; the only faults are those of covering and mutation, and of the
two loops that draw until they succeed. -/
theorem lawsGen (H : Regular par kit W) {E : Fault → Prop}
    (hc : ∀ f b x (a : Nat) r e, a < par.nActions → W b → kit.cover f b x a r = .error e → E e)
    (hm : ∀ b r e, W b → kit.mutate b r = .error e → E e)
    (ht : par.eaTournament = true → ∀ l : List (Nat × K), l ≠ [] → ∀ r,
      Post (selectTournament par kit l par.loopBound r) (fun p => ∃ f, (p.1, f) ∈ l) E)
    (he : ∀ (cs : List (Cl K B)) (pa nr : List K), (∀ c ∈ cs, RuleOK par W c) →
      (∀ a, a < par.nActions → E .ub ∨ ∃ c ∈ cs, c.action = (a : Int)) →
      paRules par.yDim cs (List.replicate (par.nActions * par.yDim) 0)
        (List.replicate (par.nActions * par.yDim) 0) = .ok (pa, nr) →
      nr.length = par.nActions * par.yDim → ∀ r,
      Post (paRandAction par kit nr par.loopBound r) (fun p => 0 ≤ p.1 ∧
        (E .ub ∨ p.1 < par.nActions) ∧ ∃ v, nr[p.1.toNat]? = some v ∧ v ≠ 0) E) :
    Laws par kit (RuleOK par W) E where
  pop := H.popSize
  num := fun c n h => ⟨h.1, h.2, h.3, h.4, h.5, h.6, h.7, h.8, h.9⟩
  time := fun c n h => ⟨h.1, h.2, h.3, h.4, h.5, h.6, h.7, h.8, h.9⟩
  cmatch := fun c e x r mt h => ⟨h.1, h.2, h.3, h.4, h.5, h.6, h.7, h.8, H.wMatch _ _ _ _ h.9⟩
  act := fun c e x r h => ⟨h.1, h.2, h.3, h.4, h.5, H.act0 _ _ _ _ h.9, H.act1 _ _ _ _ h.9, h.8,
    H.wAct _ _ _ _ h.9⟩
  predict := fun c e x r h => ⟨h.1, h.2, h.3, h.4, h.5, h.6, h.7, H.predictLen _ _ _ _ _ h.9 h.8,
    H.wPredict _ _ _ _ _ h.9⟩
  update := fun c e x y n cur r h hn => clUpdate_ok H e x y hn cur r h
  fit := by
    intro cs hcs c hc
    have h := (hcs c hc).1
    obtain ⟨s0, s1⟩ := share_bounds H (fun d hd => (hcs d hd).2) hc
    refine ⟨h.1, ?_, ?_, h.4, h.5, h.6, h.7, h.8, h.9⟩
    · show 0 < c.fit + par.beta * (_ - c.fit)
      rcases eq_or_lt_of_le H.beta1 with e | e
      · rw [e]; linarith
      · nlinarith [mul_nonneg H.beta0 s0.le, mul_pos (sub_pos.2 e) h.fit0]
    · show c.fit + par.beta * (_ - c.fit) ≤ 1
      nlinarith [mul_nonneg H.beta0 (sub_nonneg.2 s1),
        mul_nonneg (sub_nonneg.2 H.beta1) (sub_nonneg.2 h.fit1)]
  coverErr := fun f r x a e ha h => hc _ _ _ _ _ _ ha (H.wRand r) h
  cover := by
    intro f r x a b r' t n ha hn h
    have hn' : (0 : K) ≤ (n : K) := by exact_mod_cast hn
    have := clInit_ok H (sz := (n : K) + 1) (by linarith) t (H.wCover _ _ _ _ _ _ _ ha (H.wRand r) h)
    exact ⟨this.1, this.2, this.3, this.4, this.5, by show (0 : Int) ≤ a; omega,
      by show (a : Int) < _; omega, this.8, this.9⟩
  rand := fun r => clInit_ok H (by exact_mod_cast H.popSize) 0 (H.wRand r)
  offspring := by
    intro p1 p2 r h1 h2 n1 n2 b1 b2 x
    have w1 : W b1.1 := H.wCopy _ _ _ h1.9
    have w2 : W b2.1 := H.wCopy _ _ _ h2.9
    have wx := H.wCross b1.1 b2.1 b2.2 w1 w2
    have hm : ∀ b r, W b → Post (kit.mutate b r) (fun q => W q.2.1) E := by
      intro b r w
      cases e : kit.mutate b r with
      | ok q => exact H.wMutate b r w q e
      | error e' => exact hm b r e' w e
    refine post_mono (hm _ _ wx.1) fun m1 wm1 => ?_
    refine post_mono (hm _ _ wx.2) fun m2 wm2 => ?_
    have i1 := clInit_ok H h1.4 p1.time wm1
    have i2 := clInit_ok H h2.4 p2.time wm2
    obtain ⟨a1, a2⟩ := reduced h1 n1
    obtain ⟨c1, c2⟩ := reduced h2 n2
    have e1 := h1.err
    have e2 := h2.err
    have he := H.errReduc
    show RuleOK par W (initOffspring par p1 p2 _ _ _).1 ∧ RuleOK par W (initOffspring par p1 p2 _ _ _).2
    unfold initOffspring
    split
    · simp only [mean_half]
      have hs := scaled H (f := (p1.fit / (p1.num : K) + p2.fit / (p2.num : K)) / 2)
        (by linarith) (by linarith)
      exact ⟨⟨by positivity, hs.1, hs.2, i1.4, i1.5, i1.6, i1.7, i1.8, i1.9⟩,
        ⟨by positivity, hs.1, hs.2, i2.4, i2.5, i2.6, i2.7, i2.8, i2.9⟩⟩
    · have s1 := scaled H a1 a2
      have s2 := scaled H c1 c2
      exact ⟨⟨by positivity, s1.1, s1.2, i1.4, i1.5, i1.6, i1.7, i1.8, i1.9⟩,
        ⟨by positivity, s2.1, s2.2, i2.4, i2.5, i2.6, i2.7, i2.8, i2.9⟩⟩
  clone := fun c r h => ⟨h.1, h.2, h.3, h.4, h.5, h.6, h.7, by simp [initCopy], H.wClone _ _ h.9⟩
  wheelDel := by
    intro cs hne hcs n e r hn
    apply delRoulette_post
    right
    intro r
    apply spin_lands (fun v => zero_add v)
    · simpa using hne
    · rw [not_lt]
      refine (uniform_le H ?_ r).1
      rw [foldl_add_sum, zero_add]
      apply List.sum_nonneg
      intro v hv
      obtain ⟨c, hc, rfl⟩ := List.mem_map.1 hv
      refine delVote_nonneg ?_ (hcs c hc).1 (hcs c hc).2
      have : 0 ≤ totalFit cs := by
        rw [totalFit_eq]
        apply List.sum_nonneg
        intro v hv
        obtain ⟨c, hc, rfl⟩ := List.mem_map.1 hv
        exact (hcs c hc).1.fit0.le
      exact div_nonneg this (num_cast_pos hn).le
  wheelSel := by
    intro t cs hne hl hcs r
    apply selectRw_post (by simpa using hl)
    right
    have e : totalFit cs = (cs.map Cl.fit).foldl (· + ·) 0 := by
      rw [totalFit_eq, foldl_add_sum, zero_add]
    rw [e]
    apply spin_lands (fun v => zero_add v)
    · simpa using hne
    · rw [not_lt]
      refine (uniform_le H ?_ r).1
      rw [foldl_add_sum, zero_add]
      apply List.sum_nonneg
      intro v hv
      obtain ⟨c, hc, rfl⟩ := List.mem_map.1 hv
      exact (hcs c hc).fit0.le
  index := fun n r hn => Or.inr (uniformInt_range H hn r)
  action := fun c h => Or.inr ⟨h.act0, h.act1⟩
  predLen := fun c h => Or.inr h.pred
  dims := Or.inr ⟨H.nActions, H.yDim⟩
  tournament := ht
  explore := he

/-- A regular system never reaches undefined behaviour and keeps `RuleOK`. -/
theorem lawsField (H : Regular par kit W) : Laws par kit (RuleOK par W) NoUB := by
  refine lawsGen H ?_ ?_ (fun _ l _ => selectTournament_post trivial l _)
    (fun _ _ _ _ _ _ h => paRandAction_post trivial (Or.inr ⟨H.nActions, H.yDim⟩)
      (fun n r hn => Or.inr (uniformInt_range H hn r)) h _)
  · intro f b x a r e ha w h
    cases e with
    | ub => exact (H.coverErr _ _ _ _ _ ha w).1 h
    | uaf => exact (H.coverErr _ _ _ _ _ ha w).2 h
    | exit => trivial
    | hang => trivial
  · intro b r e w h
    have h' := H.mutateErr b r w
    cases e with
    | ub => exact h'.1 h
    | uaf => exact h'.2 h
    | exit => trivial
    | hang => trivial

end Field
end Xcsf
