import Verif.Binary64
import Mathlib.Tactic.FinCases
import Verif.Props1

/-!
# C109: rounding, overflow, infinities and not-a-numbers do no harm

The other theorems about safety calculate exactly.  Here the program calculates with doubles:
results are rounded, too large ones are infinite, senseless ones are not a number, and whatever is
not a number makes every comparison false.  Still no roulette wheel turns past the last rule and no
random index leaves its array.
-/

set_option linter.unusedSectionVars false

namespace Xcsf.Double

variable {f : Format} {X B R : Type}

/-! ## Specification -/

/-- What is asked of a system that calculates with doubles: parameters that the setters accept (C112),
random numbers in the open unit interval with 52 binary digits, and representations that keep their
well-formedness `W`.  Data, losses, predictions, the other parameters and the powers calculated by
the library may be anything, infinite or not a number included. -/
structure Sane (par : Params (Dbl f)) (kit : Kit (Dbl f) X B R) (W : B → Prop) : Prop where
  popSize : 0 ≤ par.popSize
  nActions : 1 ≤ par.nActions
  yDim : 1 ≤ par.yDim
  beta : ¬ par.beta < 0 ∧ ¬ 1 < par.beta
  initFit : ¬ par.initFit < 0
  fitReduc : ¬ par.eaFitReduc < 0
  eps : ∃ q h, kit.eps = .fin q h ∧ 0 < q
  draw : ∀ r, Unit52 (kit.draw r).1
  floor : kit.floor = Dbl.floor
  wRand : ∀ r, W (kit.rand r).1
  wCover : ∀ e b x (a : Nat) r b' r', a < par.nActions → W b →
    kit.cover e b x a r = .ok (b', r') → W b'
  coverErr : ∀ e b x (a : Nat) r, a < par.nActions → W b →
    kit.cover e b x a r ≠ .error .ub ∧ kit.cover e b x a r ≠ .error .uaf
  wMatch : ∀ e b x r, W b → W (kit.cmatch e b x r).2.1
  wAct : ∀ e b x r, W b → W (kit.act e b x r).2.1
  act0 : ∀ e b x r, W b → 0 ≤ (kit.act e b x r).1
  act1 : ∀ e b x r, W b → (kit.act e b x r).1 < par.nActions
  wPredict : ∀ e b p x r, W b → W (kit.predict e b p x r).2.1
  predictLen : ∀ e b p x r, W b → p.length = par.yDim →
    (kit.predict e b p x r).1.length = par.yDim
  wUpdate : ∀ n b p x y r, W b → W (kit.update n b p x y r).1
  updateLen : ∀ n b p x y r, W b → p.length = par.yDim →
    (kit.update n b p x y r).2.1.length = par.yDim
  wCross : ∀ a b r, W a → W b → W (kit.crossover a b r).2.1 ∧ W (kit.crossover a b r).2.2.1
  wMutate : ∀ b r, W b → ∀ q, kit.mutate b r = .ok q → W q.2.1
  mutateErr : ∀ b r, W b → kit.mutate b r ≠ .error .ub ∧ kit.mutate b r ≠ .error .uaf
  wCopy : ∀ f b r, W b → W (kit.copy f b r).1
  wClone : ∀ b r, W b → W (kit.clone b r).1

/-- What holds of every rule: fitness and set size are not negative, the experience is a count, the
action exists, the prediction has all its elements. -/
structure RuleSane (par : Params (Dbl f)) (W : B → Prop) (c : Cl (Dbl f) B) : Prop where
  fit : ¬ c.fit < 0
  size : ¬ c.size < 0
  exp : 0 ≤ c.exp
  act0 : 0 ≤ c.action
  act1 : c.action < par.nActions
  pred : c.prediction.length = par.yDim
  body : W c.body

/-! ## Proofs -/

variable {par : Params (Dbl f)} {kit : Kit (Dbl f) X B R} {W : B → Prop}

theorem foldl_nonneg {α : Type} {g : α → Dbl f} : ∀ (l : List α) (a : Dbl f), a.Nonneg →
    (∀ v ∈ l, (g v).Nonneg) → (l.foldl (fun a v => a + g v) a).Nonneg
  | [], _, h, _ => h
  | v :: l, _, h, hl => foldl_nonneg l _ (add_nonneg' h (hl v List.mem_cons_self))
      fun w hw => hl w (List.mem_cons_of_mem _ hw)

theorem zero_nonneg : (0 : Dbl f).Nonneg := le_refl (0 : ℚ)

theorem half_nonneg : (half : Dbl f).Nonneg :=
  div_nonneg' one_nonneg (add_nonneg' one_nonneg one_nonneg)

theorem fmax_nonneg {a b : Dbl f} (hb : ∃ q h, b = .fin q h ∧ 0 < q) : (fmax a b).Nonneg := by
  obtain ⟨q, h, rfl, h0⟩ := hb
  cases a with
  | nan =>
    unfold fmax
    split
    · exact trivial
    · exact h0.le
  | inf n =>
    unfold fmax
    split
    · next hl => exact hl
    · exact h0.le
  | fin p hp =>
    unfold fmax
    split
    · next hl =>
      have : q < p := hl
      show 0 ≤ p
      linarith
    · exact h0.le

theorem acc_nonneg (H : Sane par kit W) (e : Dbl f) : (clAcc par kit e).Nonneg := by
  unfold clAcc
  split
  · exact fmax_nonneg H.eps
  · exact one_nonneg

theorem totalFit_nonneg {cs : List (Cl (Dbl f) B)} (h : ∀ c ∈ cs, RuleSane par W c) :
    (totalFit cs).Nonneg :=
  foldl_nonneg (g := Cl.fit) cs 0 zero_nonneg fun c hc => (nonneg_iff _).2 (h c hc).fit

theorem vote_nonneg {c : Cl (Dbl f) B} (h : RuleSane par W c) (hn : 1 ≤ c.num) {avg : Dbl f}
    (ha : avg.Nonneg) : (delVote par c avg).Nonneg := by
  have h1 : ((c.num : Int) : Dbl f).Nonneg := int_nonneg (by omega)
  have h2 := (nonneg_iff _).2 h.fit
  have h3 := (nonneg_iff _).2 h.size
  unfold delVote
  split
  · exact div_nonneg' (mul_nonneg' (mul_nonneg' h3 h1) ha) (div_nonneg' h2 h1)
  · exact mul_nonneg' h3 h1

theorem pred_nonneg {n : Int} (hn : 0 ≤ n) : (((n + 1 : Int) : Dbl f) - 1).Nonneg := by
  show Dbl.Nonneg (Dbl.round f (((toInt32 (n + 1) : Int) : ℚ) + -1))
  refine round_nonneg ?_
  have : 1 ≤ toInt32 (n + 1) := by unfold toInt32; omega
  have : (1 : ℚ) ≤ ((toInt32 (n + 1) : Int) : ℚ) := by exact_mod_cast this
  linarith

theorem update_sane (H : Sane par kit W) (e : Bool) (x : X) (y : List (Dbl f)) {n : Int} (hn : 0 ≤ n)
    (cur : Bool) (r : R) {c : Cl (Dbl f) B} (hc : RuleSane par W c) :
    RuleSane par W (clUpdate par kit e c x y n cur r).1 := by
  obtain ⟨h2, h4, h5, h6, h7, h8, h9⟩ := hc
  have hz := (nonneg_iff _).2 h4
  have hn' : ((n : Int) : Dbl f).Nonneg := int_nonneg hn
  have hx : ((c.exp + 1 : Int) : Dbl f).Nonneg := int_nonneg (by omega)
  have s1 : ¬ (c.size * (((c.exp + 1 : Int) : Dbl f) - 1) + ((n : Int) : Dbl f)) /
      ((c.exp + 1 : Int) : Dbl f) < 0 :=
    (nonneg_iff _).1 (div_nonneg' (add_nonneg' (mul_nonneg' hz (pred_nonneg h5)) hn') hx)
  have s2 : ¬ c.size + par.beta * (((n : Int) : Dbl f) - c.size) < 0 :=
    (nonneg_iff _).1 (mix_nonneg H.beta hz hn')
  unfold clUpdate
  cases cur with
  | true =>
    simp only [if_true]
    split
    · exact ⟨h2, s1, by show 0 ≤ c.exp + 1; omega, h6, h7, H.updateLen _ _ _ _ _ _ h9 h8,
        H.wUpdate _ _ _ _ _ _ h9⟩
    · exact ⟨h2, s2, by show 0 ≤ c.exp + 1; omega, h6, h7, H.updateLen _ _ _ _ _ _ h9 h8,
        H.wUpdate _ _ _ _ _ _ h9⟩
  | false =>
    have w := H.wPredict e c.body c.prediction x r h9
    have l := H.predictLen e c.body c.prediction x r h9 h8
    simp only [Bool.false_eq_true, if_false]
    split
    · exact ⟨h2, s1, by show 0 ≤ c.exp + 1; omega, h6, h7, H.updateLen _ _ _ _ _ _ w l,
        H.wUpdate _ _ _ _ _ _ w⟩
    · exact ⟨h2, s2, by show 0 ≤ c.exp + 1; omega, h6, h7, H.updateLen _ _ _ _ _ _ w l,
        H.wUpdate _ _ _ _ _ _ w⟩

theorem init_sane (H : Sane par kit W) {sz : Dbl f} (hs : ¬ sz < 0) (t : Int) {b : B} (hb : W b) :
    RuleSane par W (clInit par sz t b) := by
  have := H.nActions
  exact ⟨H.initFit, hs, Int.le_refl _, Int.le_refl _, by show (0 : Int) < _; omega,
    by simp [clInit], hb⟩

/-- **C109**, wheels: a wheel whose sections are not negative stops at one of them, also if sums are
rounded, infinite or not a number. -/
theorem C109_wheel_stops {d : Dbl f} (hd : Unit52 d) {l : List (Dbl f)} (hl : l ≠ [])
    (h : ∀ v ∈ l, ¬ v < 0) :
    ∃ k, spin (0 + d * (l.foldl (· + ·) 0 - 0)) l = some k ∧ k < l.length := by
  have hs : (spin (0 + d * (l.foldl (· + ·) 0 - 0)) l).isSome :=
    spin_lands zero_plus hl (drawn_le hd (foldl_nonneg (g := fun v => v) l 0 zero_nonneg
      fun v hv => (nonneg_iff _).2 (h v hv)))
  obtain ⟨k, hk⟩ := Option.isSome_iff_exists.1 hs
  exact ⟨k, hk, spin_lt hk⟩

/-- **C109**, indices: `rand_uniform_int(0, n)` returns one of the numbers from 0 to `n - 1`, however
products are rounded. -/
theorem C109_random_index (H : Sane par kit W) {n : Nat} (hn : 0 < n) (r : R) :
    0 ≤ (uniformInt kit 0 (n : Int) r).1 ∧ (uniformInt kit 0 (n : Int) r).1 < n := by
  show 0 ≤ kit.floor _ ∧ kit.floor _ < _
  rw [H.floor]
  exact index_range (H.draw r) hn

theorem lawsDouble (H : Sane par kit W) : Laws par kit (RuleSane par W) NoUB where
  pop := H.popSize
  num := fun c n h => ⟨h.1, h.2, h.3, h.4, h.5, h.6, h.7⟩
  time := fun c n h => ⟨h.1, h.2, h.3, h.4, h.5, h.6, h.7⟩
  cmatch := fun c e x r mt h => ⟨h.1, h.2, h.3, h.4, h.5, h.6, H.wMatch _ _ _ _ h.7⟩
  act := fun c e x r h => ⟨h.1, h.2, h.3, H.act0 _ _ _ _ h.7, H.act1 _ _ _ _ h.7, h.6,
    H.wAct _ _ _ _ h.7⟩
  predict := fun c e x r h => ⟨h.1, h.2, h.3, h.4, h.5, H.predictLen _ _ _ _ _ h.7 h.6,
    H.wPredict _ _ _ _ _ h.7⟩
  update := fun c e x y n cur r h hn => update_sane H e x y hn cur r h
  fit := by
    intro cs hcs c hc
    have h := (hcs c hc).1
    have hs : (accSum par kit cs).Nonneg := by
      refine foldl_nonneg (g := fun c => clAcc par kit c.err * ((c.num : Int) : Dbl f)) cs 0
        zero_nonneg fun d hd => mul_nonneg' (acc_nonneg H _) (int_nonneg ?_)
      have := (hcs d hd).2
      omega
    have hn : ((c.num : Int) : Dbl f).Nonneg := int_nonneg (by have := (hcs c hc).2; omega)
    exact ⟨(nonneg_iff _).1 (mix_nonneg H.beta ((nonneg_iff _).2 h.fit)
      (div_nonneg' (mul_nonneg' (acc_nonneg H _) hn) hs)), h.2, h.3, h.4, h.5, h.6, h.7⟩
  coverErr := by
    intro f r x a e ha h
    have h' := H.coverErr f (kit.rand r).1 x a (kit.rand r).2 ha (H.wRand r)
    cases e with
    | ub => exact h'.1 h
    | uaf => exact h'.2 h
    | exit => trivial
    | hang => trivial
  cover := by
    intro g r x a b r' t n ha hn h
    have := init_sane H (sz := ((n : Int) : Dbl f) + 1)
      ((nonneg_iff _).1 (add_nonneg' (int_nonneg hn) one_nonneg)) t
      (H.wCover _ _ _ _ _ _ _ ha (H.wRand r) h)
    exact ⟨this.1, this.2, this.3, by show (0 : Int) ≤ a; omega,
      by show (a : Int) < _; omega, this.6, this.7⟩
  rand := fun r => init_sane H ((nonneg_iff _).1 (int_nonneg H.popSize)) 0 (H.wRand r)
  offspring := by
    intro p1 p2 r h1 h2 n1 n2 b1 b2 x
    have w1 : W b1.1 := H.wCopy _ _ _ h1.7
    have w2 : W b2.1 := H.wCopy _ _ _ h2.7
    have wx := H.wCross b1.1 b2.1 b2.2 w1 w2
    have hm : ∀ b r, W b → Post (kit.mutate b r) (fun q => W q.2.1) NoUB := by
      intro b r w
      cases e : kit.mutate b r with
      | ok q => exact H.wMutate b r w q e
      | error e' =>
        have h' := H.mutateErr b r w
        cases e' with
        | ub => exact h'.1 e
        | uaf => exact h'.2 e
        | exit => trivial
        | hang => trivial
    refine post_mono (hm _ _ wx.1) fun m1 wm1 => ?_
    refine post_mono (hm _ _ wx.2) fun m2 wm2 => ?_
    have i1 := init_sane H h1.size p1.time wm1
    have i2 := init_sane H h2.size p2.time wm2
    have f1 : (p1.fit / ((p1.num : Int) : Dbl f)).Nonneg :=
      div_nonneg' ((nonneg_iff _).2 h1.fit) (int_nonneg (by omega))
    have f2 : (p2.fit / ((p2.num : Int) : Dbl f)).Nonneg :=
      div_nonneg' ((nonneg_iff _).2 h2.fit) (int_nonneg (by omega))
    have hr := (nonneg_iff _).2 H.fitReduc
    show RuleSane par W (initOffspring par p1 p2 _ _ _).1 ∧
      RuleSane par W (initOffspring par p1 p2 _ _ _).2
    unfold initOffspring
    split
    · have hs := (nonneg_iff _).1 (mul_nonneg' hr (mul_nonneg' (add_nonneg' f1 f2) half_nonneg))
      exact ⟨⟨hs, i1.2, i1.3, i1.4, i1.5, i1.6, i1.7⟩, ⟨hs, i2.2, i2.3, i2.4, i2.5, i2.6, i2.7⟩⟩
    · exact ⟨⟨(nonneg_iff _).1 (mul_nonneg' hr f1), i1.2, i1.3, i1.4, i1.5, i1.6, i1.7⟩,
        ⟨(nonneg_iff _).1 (mul_nonneg' hr f2), i2.2, i2.3, i2.4, i2.5, i2.6, i2.7⟩⟩
  clone := fun c r h => ⟨h.1, h.2, h.3, h.4, h.5, by simp [initCopy], H.wClone _ _ h.7⟩
  wheelDel := by
    intro cs hne hcs n e r hn
    apply delRoulette_post
    right
    intro r
    apply spin_lands zero_plus
    · simpa using hne
    · refine drawn_le (H.draw r) (foldl_nonneg (g := fun v => v) _ 0 zero_nonneg ?_)
      intro v hv
      obtain ⟨c, hc, rfl⟩ := List.mem_map.1 hv
      exact vote_nonneg (hcs c hc).1 (hcs c hc).2
        (div_nonneg' (totalFit_nonneg fun c hc => (hcs c hc).1) (int_nonneg (by omega)))
  wheelSel := by
    intro t cs hne hl hcs r
    apply selectRw_post (by simpa using hl)
    right
    have e : totalFit cs = (cs.map Cl.fit).foldl (· + ·) 0 := by
      rw [List.foldl_map]; rfl
    apply spin_lands zero_plus
    · simpa using hne
    · rw [← e]
      exact drawn_le (H.draw r) (totalFit_nonneg hcs)
  index := fun n r hn => Or.inr (C109_random_index H hn r)
  action := fun c h => Or.inr ⟨h.act0, h.act1⟩
  predLen := fun c h => Or.inr h.pred
  dims := Or.inr ⟨H.nActions, H.yDim⟩
  tournament := fun _ l _ => selectTournament_post trivial l _
  explore := fun _ _ _ _ _ _ h => paRandAction_post trivial (Or.inr ⟨H.nActions, H.yDim⟩)
      (fun n r hn => Or.inr (C109_random_index H hn r)) h _

/-- **C109.** No history of calls of a system that calculates with doubles has undefined behaviour or
uses freed memory: whatever the data, rewards, losses and predictions are, infinite or not a number
included, and however results are rounded. -/
theorem C109_no_undefined_behaviour (H : Sane par kit W) (r : R) {ops : List (Op (Dbl f) X B)}
    (hv : ∀ op ∈ ops, op.ok (RuleSane par W)) :
    run par kit r ops ≠ .error .ub ∧ run par kit r ops ≠ .error .uaf :=
  have p := run_post (lawsDouble H) r ops hv
  ⟨fun h => post_of_error p h, fun h => post_of_error p h⟩

/-- **C109**, values: after every history the fitness and the set size of every rule are not
negative. -/
theorem C109_not_negative (H : Sane par kit W) {r : R} {ops : List (Op (Dbl f) X B)}
    (hv : ∀ op ∈ ops, op.ok (RuleSane par W)) {s : St (Dbl f) X B R} (h : run par kit r ops = .ok s)
    {c : Cl (Dbl f) B} (hc : c ∈ population s ∨ c ∈ storedPopulation s) :
    ¬ c.fit < 0 ∧ ¬ c.size < 0 := by
  have b := (post_of_ok (run_post (lawsDouble H) r ops hv) h).good.vals
  have hh : ∃ i, s.heap i = some c := by
    rcases hc with hc | hc
    · obtain ⟨i, _, hi⟩ := List.mem_filterMap.1 hc
      exact ⟨i, hi⟩
    · obtain ⟨i, _, hi⟩ := List.mem_filterMap.1 hc
      exact ⟨i, hi⟩
  obtain ⟨i, hi⟩ := hh
  exact ⟨(b i c hi).fit, (b i c hi).size⟩

/-- **C109**, a finding: an error that is not a number stays so at every update (cl.c:188-195), and
the rule counts as fully accurate (cl.c:161-169: the comparison with `E0` is false), however wrong
it is. -/
theorem C109_nan_error_is_accurate (e : Bool) (x : X) (y : List (Dbl f)) (n : Int) (cur : Bool) (r : R)
    {c : Cl (Dbl f) B} (h : c.err = .nan) :
    (clUpdate par kit e c x y n cur r).1.err = .nan ∧
    clAcc par kit (clUpdate par kit e c x y n cur r).1.err = 1 := by
  have h1 : (clUpdate par kit e c x y n cur r).1.err = .nan := by
    unfold clUpdate
    cases cur with
    | true =>
      simp only [if_true]
      split <;> simp only [h] <;> rfl
    | false =>
      simp only [Bool.false_eq_true, if_false]
      split <;> simp only [h] <;> rfl
  refine ⟨h1, ?_⟩
  rw [h1]
  unfold clAcc
  rw [if_neg]
  show ¬ Dbl.less par.e0 .nan
  cases par.e0 <;> exact fun h => h

theorem nan_add (a : Dbl f) : Dbl.nan + a = (.nan : Dbl f) := rfl

theorem add_nan (a : Dbl f) : a + Dbl.nan = (.nan : Dbl f) := by cases a <;> rfl

theorem foldl_nan : ∀ (l : List (Dbl f)) (a : Dbl f), a = .nan ∨ .nan ∈ l →
    l.foldl (· + ·) a = .nan
  | [], a, h => by simpa using h
  | v :: l, a, h => by
    refine foldl_nan l _ ?_
    rcases h with rfl | h
    · exact Or.inl rfl
    · rcases List.mem_cons.1 h with e | h
      · left; rw [← e]; exact add_nan a
      · exact Or.inr h

/-- **C109**, a finding: one section that is not a number makes the wheel stop at its first section
at every turn (clset.c:81-88, ea.c:139-146), whatever the other sections and the random number
are. -/
theorem C109_nan_wheel_stops_at_first (d : Dbl f) {l : List (Dbl f)} (h : .nan ∈ l) :
    spin (0 + d * (l.foldl (· + ·) 0 - 0)) l = some 0 := by
  have e : (0 : Dbl f) + d * (l.foldl (· + ·) 0 - 0) = .nan := by
    rw [foldl_nan l 0 (Or.inr h), zero_plus]
    show Dbl.mul d .nan = .nan
    cases d <;> rfl
  rw [e]
  cases l with
  | nil => cases h
  | cons v l =>
    have : ¬ v < (.nan : Dbl f) := by
      show ¬ Dbl.less v .nan
      cases v <;> exact fun h => h
    cases l <;> exact if_neg this

/-! ## The hypotheses hold -/

/-- A system over doubles: losses are never a number, predictions are infinite. -/
def demoKit (f : Format) : Kit (Dbl f) Nat (Nat × Nat) Nat :=
  { draw := fun r => (.fin (1 / 2) (by simpa using f.dyadic 1 (by norm_num) 1 (by norm_num)), r + 1)
    floor := Dbl.floor
    pow := fun _ _ => .nan
    eps := 1
    dblMax := .inf false
    loss := fun _ _ => .nan
    rand := fun r => ((0, 0), r)
    cover := fun _ _ x a r => .ok ((x, a.toNat), r)
    cmatch := fun _ b x r => (b.1 == 0 || b.1 == x, b, r)
    act := fun _ b _ r => ((b.2 % 2 : Nat), b, r)
    predict := fun _ b p _ r => (p.map (fun _ => .inf true), b, r)
    update := fun _ b p _ _ r => (b, p, r)
    general := fun a b => a.1 == 0 && b.1 != 0 && a.2 == b.2
    crossover := fun a b r => (true, (b.1, a.2), (a.1, b.2), r)
    mutate := fun b r => .ok (true, (0, b.2), r)
    copy := fun _ b r => (b, r)
    clone := fun b r => (b, r)
    condSize := fun _ => 1
    predSize := fun _ => 1 }

/-- Parameters over doubles. -/
def demoPar (f : Format) : Params (Dbl f) :=
  { popSize := 100, nActions := 2, yDim := 1, alpha := 1, beta := 1, delta := .nan, e0 := 1,
    nu := .inf false, initErr := 0, initFit := 1, gamma := 1, pExplore := .nan, thetaDel := 20,
    thetaSub := 1, mProbation := 3, setSubsumption := true, compaction := false,
    popInit := true, teletransportation := 3, maxCover := 100, loopBound := 10,
    eaTournament := false, eaSelectSize := 1, eaTheta := 1, eaLambda := 2,
    eaErrReduc := 1, eaFitReduc := 1, eaSubsumption := true, eaPredReset := false }

theorem demoSane (f : Format) : Sane (demoPar f) (demoKit f) (fun _ => True) where
  popSize := (by decide : (0 : Int) ≤ 100)
  nActions := (by decide : (1 : Nat) ≤ 2)
  yDim := Nat.le_refl 1
  beta := ⟨(nonneg_iff _).1 one_nonneg, lt_irrefl (1 : ℚ)⟩
  initFit := (nonneg_iff _).1 one_nonneg
  fitReduc := (nonneg_iff _).1 one_nonneg
  eps := ⟨1, _, rfl, by norm_num⟩
  draw := fun _ => ⟨1 / 2, _, rfl, by norm_num, by norm_num⟩
  floor := rfl
  wRand := fun _ => trivial
  wCover := fun _ _ _ _ _ _ _ _ _ _ => trivial
  coverErr := fun _ _ _ _ _ _ _ => ⟨nofun, nofun⟩
  wMatch := fun _ _ _ _ _ => trivial
  wAct := fun _ _ _ _ _ => trivial
  act0 := fun _ b _ _ _ => by simp only [demoKit]; omega
  act1 := fun _ b _ _ _ => by simp only [demoKit, demoPar]; omega
  wPredict := fun _ _ _ _ _ _ => trivial
  predictLen := fun _ _ p _ _ _ h => by simpa [demoKit] using h
  wUpdate := fun _ _ _ _ _ _ _ => trivial
  updateLen := fun _ _ _ _ _ _ _ h => h
  wCross := fun _ _ _ _ _ => ⟨trivial, trivial⟩
  wMutate := fun _ _ _ _ _ => trivial
  mutateErr := fun _ _ _ => ⟨nofun, nofun⟩
  wCopy := fun _ _ _ _ => trivial
  wClone := fun _ _ _ => trivial

example : run (demoPar binary64) (demoKit binary64) 0
    [.fit 1 [.nan], .fit 2 [.inf true], .store, .predict [3, 1] [0], .fit 1 [1]] ≠ .error .ub :=
  (C109_no_undefined_behaviour (demoSane binary64) 0
    (by intro op h; fin_cases h <;> trivial)).1

example : ∃ k, spin (0 + (.fin (1 / 2) (by simpa using binary64.dyadic 1 (by norm_num) 1 (by norm_num)) :
    Dbl binary64) * ([1, .inf false, 0, .nan].foldl (· + ·) 0 - 0)) [1, .inf false, 0, .nan] = some k ∧
    k < 4 :=
  C109_wheel_stops ⟨1 / 2, _, rfl, by norm_num, by norm_num⟩ (by simp) (by
    intro v hv
    rw [← nonneg_iff]
    simp only [List.mem_cons, List.not_mem_nil, or_false] at hv
    rcases hv with rfl | rfl | rfl | rfl
    · exact one_nonneg
    · exact rfl
    · exact zero_nonneg
    · exact trivial)

end Xcsf.Double
