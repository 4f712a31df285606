import Verif.FitLemmas
import Verif.Props4
import Mathlib.Data.List.Rotate

/-!
# Properties C21, C22, C60: training on data sets, batch prediction, scoring
-/

set_option linter.unusedSectionVars false

namespace Xcsf

section Any
variable {K X B R : Type} [Zero K] [One K] [Add K] [Sub K] [Mul K] [Div K]
  [LT K] [DecidableLT K] [IntCast K] [DecidableEq K]
variable {par : Params K} {kit : Kit K X B R}
variable {S : Type} {π : B → List K → S}
variable {M : S → X → Bool} {A : S → X → Int} {P : S → X → List K}

/-! ## C21 -/

/-- Learning trials on the given rows, in order, summing the errors. -/
def trainOn (par : Params K) (kit : Kit K X B R) (rows : List (X × List K))
    (acc : K × St K X B R) : Res (K × St K X B R) :=
  rows.foldlM (fun a d => do
    let (e, s) ← fitStep par kit d.1 d.2 a.2
    .ok (a.1 + e, s)) acc

/-- The rows number `start, …, start + k - 1` of a data set continued periodically. -/
def rowsFrom (data : List (X × List K)) (start k : Nat) : List (X × List K) :=
  (List.range k).filterMap (fun i => data[(start + i) % data.length]?)

theorem rowsFrom_succ {data : List (X × List K)} (hd : data ≠ []) (start k : Nat) :
    ∃ d, data[start % data.length]? = some d ∧
      rowsFrom data start (k + 1) = d :: rowsFrom data (start + 1) k := by
  have hlt : start % data.length < data.length := Nat.mod_lt _ (List.length_pos_iff.2 hd)
  refine ⟨data[start % data.length], List.getElem?_eq_getElem hlt, ?_⟩
  unfold rowsFrom
  rw [List.range_succ_eq_map, List.filterMap_cons_some (b := data[start % data.length])
    (by rw [Nat.add_zero]; exact List.getElem?_eq_getElem hlt), List.filterMap_map]
  congr 1
  apply List.filterMap_congr
  intro i _
  show data[(start + (i + 1)) % data.length]? = _
  rw [show start + (i + 1) = start + 1 + i by omega]

theorem supFitGo_inOrder {train : List (X × List K)} (hd : train ≠ []) (start : Nat) :
    ∀ (k cnt : Nat) (e : K) (s : St K X B R),
    supFitGo par kit train none false start k cnt e s =
      trainOn par kit (rowsFrom train (start + cnt) k) (e, s)
  | 0, cnt, e, s => rfl
  | k + 1, cnt, e, s => by
    obtain ⟨d, h1, h2⟩ := rowsFrom_succ hd (start + cnt) k
    have hl : train.length ≠ 0 := fun h => hd (List.length_eq_zero_iff.1 h)
    have hs : sample kit train.length (cnt + start) false s.rng =
        .ok ((((start + cnt) % train.length : Nat) : Int), s.rng) := by
      unfold sample
      rw [if_neg (by simp), if_neg hl, Nat.add_comm cnt start]
    have hr : rowAt train (((start + cnt) % train.length : Nat) : Int) = .ok d := by
      unfold rowAt
      rw [if_pos (by omega), Int.toNat_natCast, h1]
    rw [h2]
    unfold supFitGo trainOn
    rw [hs]
    show (rowAt train (((start + cnt) % train.length : Nat) : Int) >>= _) = _
    rw [hr, List.foldlM_cons]
    show (fitStep par kit d.1 d.2 s >>= _) = ((fitStep par kit d.1 d.2 s >>= _) >>= _)
    cases fitStep par kit d.1 d.2 s with
    | error e' => rfl
    | ok p => exact supFitGo_inOrder hd start k (cnt + 1) (e + p.1) p.2

/-- **C21**, in order: without shuffling (and without test data) a call of `fit` starting at
`start` learns from the rows `start, start + 1, …` modulo the size of the data set and
returns their mean error. -/
theorem C21_in_order {train : List (X × List K)} (hd : train ≠ []) (start trials : Nat)
    (s : St K X B R) :
    supFit par kit train none false start trials s =
      (trainOn par kit (rowsFrom train start trials) (0, s) >>= fun p =>
        .ok (p.1 / ((trials : Int) : K), p.2)) := by
  unfold supFit
  rw [supFitGo_inOrder hd start trials 0 0 s]
  rfl

/-- **C21**, coverage: any `n_samples` consecutive trials visit every row exactly once. -/
theorem C21_every_row_once (train : List (X × List K)) (start : Nat) :
    (rowsFrom train start train.length).Perm train := by
  have e : rowsFrom train start train.length = train.rotate start := by
    unfold rowsFrom
    apply List.ext_getElem?
    intro i
    have hf : ∀ (l : List Nat) (f : Nat → Option (X × List K)), (∀ j ∈ l, (f j).isSome) →
        ∀ i : Nat, (l.filterMap f)[i]? = l[i]?.bind f := by
      intro l f
      induction l with
      | nil => intro _ i; simp
      | cons j l ih =>
        intro h i
        obtain ⟨c, hc⟩ := Option.isSome_iff_exists.1 (h j List.mem_cons_self)
        rw [List.filterMap_cons_some hc]
        cases i with
        | zero => simp [hc]
        | succ i => simpa using ih (fun k hk => h k (List.mem_cons_of_mem _ hk)) i
    rw [hf]
    · by_cases hi : i < train.length
      · rw [List.getElem?_range hi]
        have hlt : (start + i) % train.length < train.length := Nat.mod_lt _ (by omega)
        show train[(start + i) % train.length]? = _
        rw [List.getElem?_eq_getElem hlt, List.getElem?_eq_getElem (by simpa using hi),
          List.getElem_rotate]
        simp [Nat.add_comm]
      · rw [List.getElem?_eq_none (by simpa using hi), List.getElem?_eq_none (by simpa using hi)]
        rfl
    · intro j hj
      have := List.mem_range.1 hj
      rw [List.getElem?_eq_getElem (Nat.mod_lt _ (by omega))]; rfl
  rw [e]
  exact List.rotate_perm _ _

theorem rowsFrom_append (data : List (X × List K)) (start k m : Nat) :
    rowsFrom data start (k + m) = rowsFrom data start k ++ rowsFrom data (start + k) m := by
  unfold rowsFrom
  rw [List.range_add, List.filterMap_append, List.filterMap_map]
  congr 1
  apply List.filterMap_congr
  intro i _
  show data[(start + (k + i)) % data.length]? = _
  rw [Nat.add_assoc]

theorem rowsFrom_length {data : List (X × List K)} (hd : data ≠ []) (start k : Nat) :
    (rowsFrom data start k).length = k := by
  induction k generalizing start with
  | zero => rfl
  | succ k ih =>
    obtain ⟨d, _, e⟩ := rowsFrom_succ hd start k
    rw [e, List.length_cons, ih]

/-- Learning trials on the given rows, ignoring the errors. -/
def learnFrom (par : Params K) (kit : Kit K X B R) (rows : List (X × List K))
    (s : St K X B R) : Res (St K X B R) :=
  rows.foldlM (fun s d => do let (_, s) ← fitStep par kit d.1 d.2 s; .ok s) s

theorem trainOn_state (rows : List (X × List K)) : ∀ (acc : K × St K X B R),
    (trainOn par kit rows acc >>= fun p => .ok p.2) = learnFrom par kit rows acc.2 := by
  induction rows with
  | nil => intro acc; rfl
  | cons d rows ih =>
    intro acc
    unfold trainOn learnFrom
    rw [List.foldlM_cons, List.foldlM_cons]
    cases fitStep par kit d.1 d.2 acc.2 with
    | error e => rfl
    | ok p => exact ih (acc.1 + p.1, p.2)

theorem supFit_state {train : List (X × List K)} (hd : train ≠ []) (start trials : Nat)
    (s : St K X B R) :
    (supFit par kit train none false start trials s >>= fun p => Except.ok p.2) =
      learnFrom par kit (rowsFrom train start trials) s := by
  rw [C21_in_order hd, ← trainOn_state _ (0, s)]
  cases trainOn par kit (rowsFrom train start trials) (0, s) <;> rfl

theorem learnFrom_append (l m : List (X × List K)) (s : St K X B R) :
    learnFrom par kit (l ++ m) s = (learnFrom par kit l s >>= learnFrom par kit m) := by
  unfold learnFrom
  rw [List.foldlM_append]

/-- Callbacks that neither stop nor touch the system. -/
def idle : Callbacks K X B R := fun _ _ _ s => .ok (false, s)

theorem pyFitGo_idle {train : List (X × List K)} (hd : train ≠ []) (cv : List K) (n : Nat) :
    ∀ (k i : Nat) (s : St K X B R),
    pyFitGo par kit train none cv false n idle k i s =
      (learnFrom par kit (rowsFrom train (i * n) (k * n)) s >>= fun s => .ok (i + k, s))
  | 0, i, s => by
    show Except.ok (i, s) = _
    rw [Nat.zero_mul]; rfl
  | k + 1, i, s => by
    have hsplit : rowsFrom train (i * n) ((k + 1) * n) =
        rowsFrom train (i * n) n ++ rowsFrom train ((i + 1) * n) (k * n) := by
      rw [show (k + 1) * n = n + k * n by rw [Nat.add_mul, Nat.one_mul, Nat.add_comm],
        rowsFrom_append, show i * n + n = (i + 1) * n by rw [Nat.add_mul, Nat.one_mul]]
    rw [hsplit, learnFrom_append, ← supFit_state hd]
    unfold pyFitGo
    cases supFit par kit train none false (i * n) n s with
    | error e => rfl
    | ok p =>
      show pyFitGo par kit train none cv false n idle k (i + 1) p.2 = _
      rw [pyFitGo_idle hd cv n k (i + 1) p.2, show i + 1 + k = i + (k + 1) by omega]
      rfl

/-- **C21**, epochs: the Python `fit` (no shuffling, no validation data, callbacks that do not
interfere) learns from the rows in order, continuing across its epochs. -/
theorem C21_across_epochs {train : List (X × List K)} (hd : train ≠ []) (cv : List K)
    (maxT perfT : Nat) (s : St K X B R) :
    pyFit par kit train none cv false maxT perfT idle s =
      (learnFrom par kit (rowsFrom train 0 (nEpochs maxT perfT * epochTrials maxT perfT)) s >>=
        fun s => .ok (nEpochs maxT perfT, s)) := by
  unfold pyFit
  rw [pyFitGo_idle hd, Nat.zero_mul, Nat.zero_add]

/-! ## C60 -/

/-- The number of learning trials `fit` performs, see `C21_across_epochs`. -/
def trialsRun (maxT perfT : Nat) : Nat := nEpochs maxT perfT * epochTrials maxT perfT

theorem C60_learning_trials {train : List (X × List K)} (hd : train ≠ []) (cv : List K)
    (maxT perfT : Nat) (s : St K X B R) :
    ∃ rows : List (X × List K), rows.length = trialsRun maxT perfT ∧
      pyFit par kit train none cv false maxT perfT idle s =
        (learnFrom par kit rows s >>= fun s => .ok (nEpochs maxT perfT, s)) :=
  ⟨_, rowsFrom_length hd _ _, C21_across_epochs hd cv maxT perfT s⟩

/-- **C60, the part that holds.** `fit` runs exactly `max_trials` learning trials if
`perf_trials` divides `max_trials` or is at least `max_trials`; otherwise it runs more, but
fewer than `max_trials + perf_trials`.  Missing: the other combinations, see `C60_refuted`. -/
theorem C60_trial_count_partial {maxT perfT : Nat} (h1 : 1 ≤ maxT) (h2 : 1 ≤ perfT) :
    (trialsRun maxT perfT = maxT ↔ (perfT ∣ maxT ∨ maxT ≤ perfT)) ∧
    maxT ≤ trialsRun maxT perfT ∧ trialsRun maxT perfT < maxT + perfT := by
  unfold trialsRun nEpochs epochTrials
  rcases Nat.lt_or_ge perfT maxT with h | h
  · rw [Nat.min_eq_right (by omega)]
    have hd := Nat.div_add_mod (maxT + perfT - 1) perfT
    have hm := Nat.mod_lt (maxT + perfT - 1) (by omega : perfT > 0)
    rw [Nat.mul_comm] at hd
    refine ⟨⟨fun e => Or.inl ⟨(maxT + perfT - 1) / perfT, by rw [Nat.mul_comm]; exact e.symm⟩,
      ?_⟩, by omega, by omega⟩
    rintro (⟨q, rfl⟩ | hle)
    · have : (perfT * q + perfT - 1) / perfT = q := by
        apply Nat.div_eq_of_lt_le
        · rw [Nat.mul_comm]; omega
        · rw [Nat.add_mul, Nat.one_mul, Nat.mul_comm]; omega
      rw [this, Nat.mul_comm]
    · omega
  · rw [Nat.min_eq_left h]
    have : (maxT + perfT - 1) / perfT = 1 := by
      apply Nat.div_eq_of_lt_le
      · omega
      · omega
    rw [this]
    exact ⟨⟨fun _ => Or.inr h, fun _ => by omega⟩, by omega, by omega⟩

/-- **C60 is false**: with `max_trials = 1500` and `perf_trials = 1000`, 2000 trials are run. -/
theorem C60_refuted : trialsRun 1500 1000 = 2000 := by decide

/-! ## C22 -/

/-- **C22**, rows: `predict()` on a batch returns for each row exactly what predicting that
row alone returns. -/
theorem C22_row_by_row (H : Stateless kit π M A P) (hp : 0 ≤ par.popSize) {r : R}
    {ops : List (Op K X B)} (hv : ∀ op ∈ ops, op.valid) {s s' : St K X B R}
    (h : run par kit r ops = .ok s) {cv : List K} {xs : List X} {ps : List (List K)}
    (hpr : predictBatch par kit cv xs s = .ok (ps, s')) :
    ps.length = xs.length ∧
    ∀ (i : Nat) x p, xs[i]? = some x → ps[i]? = some p → ∃ s'', predictRow par kit cv x s = .ok (p, s'') := by
  have b := reachable_between hp hv h
  have key : ∀ (xs : List X) {ps : List (List K)} {t s' : St K X B R},
      Between (fun _ => True) par t t →
      (population t).map (fun c => (π c.body c.prediction, c.fit)) = (population s).map (fun c => (π c.body c.prediction, c.fit)) →
      predictBatch par kit cv xs t = .ok (ps, s') →
      List.Forall₂ (fun x p => rowOutcome par π M A P cv x (population s) = .ok p) xs ps := by
    intro xs
    induction xs with
    | nil => intro ps t s' _ _ h; unfold predictBatch at h; cases h; exact .nil
    | cons x xs ih =>
      intro ps t s' bt hpt h
      unfold predictBatch at h
      cases e : predictRow par kit cv x t with
      | error e' => rw [e] at h; cases h
      | ok p =>
        obtain ⟨o, t1⟩ := p
        rw [e] at h
        have h : (predictBatch par kit cv xs t1 >>= fun q => Except.ok (o :: q.1, q.2)) = _ := h
        cases e2 : predictBatch par kit cv xs t1 with
        | error e' => rw [e2] at h; cases h
        | ok q =>
          rw [e2] at h; cases h
          have ho := (predictRow_closed (par := par) (x := x) (cv := cv) (p := o) H bt.good.inv
            bt.kset).1 ⟨t1, e⟩
          rw [rowOutcome_congr cv x hpt] at ho
          refine .cons ho (ih ?_ ?_ e2)
          · have bt0 := (bt.explore false).self
            unfold predictRow at e
            cases e3 : supTrial par kit x none (some cv) { t with explore := false } with
            | error e' => rw [e3] at e; cases e
            | ok t2 =>
              rw [e3] at e; cases e
              exact supTrial_between hp bt0 (by intro h; cases h) e3
          · have hb : predictBatch par kit cv [x] t = .ok ([o], { t1 with explore := false }) := by
              unfold predictBatch
              rw [e]; rfl
            have n := predictBatch_noLearn H.passive hp bt hb
            have q := pointwise_views (n.observed bt.good.inv).1
            exact q.trans hpt
  have f2 := key xs b rfl hpr
  refine ⟨f2.length_eq.symm, ?_⟩
  intro i x p hx hpi
  obtain ⟨h1, rfl⟩ := List.getElem?_eq_some_iff.1 hx
  obtain ⟨h2, rfl⟩ := List.getElem?_eq_some_iff.1 hpi
  have := (List.forall₂_iff_get.1 f2).2 i h1 h2
  exact (predictRow_closed (par := par) H b.good.inv b.kset).2 this

end Any

section Field
variable {K X B R : Type} [Field K] [LinearOrder K] [IsStrictOrderedRing K]
variable {par : Params K} {kit : Kit K X B R} {W : B → Prop}
variable {S : Type} {π : B → List K → S}
variable {M : S → X → Bool} {A : S → X → Int} {P : S → X → List K}

/-- The values of a row, from the invariant of reachable states. -/
theorem row_values_of (H : Stateless kit π M A P) {s s' : St K X B R}
    (b : Between (fun _ => True) par s s) {cv p : List K} {x : X}
    (hpr : predictRow par kit cv x s = .ok (p, s')) :
    ((∀ c ∈ population s, M (π c.body c.prediction) x = false) → p = cv) ∧
    ((∃ c ∈ population s, M (π c.body c.prediction) x = true) →
      ∀ a j, a < par.nActions → j < par.yDim → p[a * par.yDim + j]? =
        some (weightedMean (advocating (answers π M A P (population s) x) a) j)) := by
  have ho := (predictRow_closed (par := par) (x := x) (cv := cv) (p := p) H b.good.inv
    b.kset).1 ⟨s', hpr⟩
  unfold rowOutcome at ho
  constructor
  · intro hno
    have : answers π M A P (population s) x = [] := by
      unfold answers
      rw [List.reverse_eq_nil_iff, List.map_eq_nil_iff, List.filter_eq_nil_iff]
      intro c hc; simp [hno c hc]
    rw [if_pos this] at ho; cases ho; rfl
  · rintro ⟨c, hc, hm⟩ a j ha hj
    have hne : answers π M A P (population s) x ≠ [] := by
      unfold answers
      rw [Ne, List.reverse_eq_nil_iff, List.map_eq_nil_iff, List.filter_eq_nil_iff]
      intro h'; exact h' c hc hm
    rw [if_neg hne] at ho
    cases e : paRules par.yDim (answers π M A P (population s) x)
        (List.replicate (par.nActions * par.yDim) 0)
        (List.replicate (par.nActions * par.yDim) 0) with
    | error e' => rw [e] at ho; cases ho
    | ok q =>
      obtain ⟨pa, nr⟩ := q
      rw [e] at ho
      have ho : Except.ok (paNorm pa nr) = (Except.ok p : Res (List K)) := ho
      cases ho
      obtain ⟨q1, q2, q3, q4⟩ := paRules_get (a := a) hj _ e
      have hk : a * par.yDim + j < par.nActions * par.yDim := by
        have : (a + 1) * par.yDim ≤ par.nActions * par.yDim := Nat.mul_le_mul_right _ ha
        rw [Nat.add_mul] at this; omega
      have hz : (List.replicate (par.nActions * par.yDim) (0 : K)).getD (a * par.yDim + j) 0 = 0 := by
        simp [List.getD_eq_getElem?_getD, hk]
      rw [hz, zero_add] at q3 q4
      rw [List.length_replicate] at q1 q2
      refine getD_getElem? (by simp only [paNorm, List.length_zipWith]; omega) ?_
      rw [paNorm_get (q1.trans q2.symm), q3, q4]
      unfold weightedMean advocating
      split_ifs <;> first | rfl | contradiction

/-- **C22**, values: the fallback vector is returned exactly for rows that no rule of the
population matches; otherwise the result is, for every action and output, the
fitness-weighted mean of the predictions of the matching rules advocating that action. -/
theorem C22_row_values (H : Stateless kit π M A P) (hp : 0 ≤ par.popSize) {r : R}
    {ops : List (Op K X B)} (hv : ∀ op ∈ ops, op.valid) {s s' : St K X B R}
    (h : run par kit r ops = .ok s) {cv p : List K} {x : X}
    (hpr : predictRow par kit cv x s = .ok (p, s')) :
    ((∀ c ∈ population s, M (π c.body c.prediction) x = false) → p = cv) ∧
    ((∃ c ∈ population s, M (π c.body c.prediction) x = true) →
      ∀ a j, a < par.nActions → j < par.yDim → p[a * par.yDim + j]? =
        some (weightedMean (advocating (answers π M A P (population s) x) a) j)) :=
  row_values_of H (reachable_between hp hv h) hpr

theorem scoreGo_predict (H : Stateless kit π M A P) (hp : 0 ≤ par.popSize) {cv : List K} :
    ∀ {rows : List (X × List K)} {e e' : K} {s s' : St K X B R},
    Between (fun _ => True) par s s → scoreGo par kit cv rows e s = .ok (e', s') →
    ∃ ps, predictBatch par kit cv (rows.map Prod.fst) s = .ok (ps, s') ∧
      e' = e + (List.zipWith kit.loss ps (rows.map Prod.snd)).sum
  | [], e, e', s, s', b, h => by
    unfold scoreGo at h; cases h
    exact ⟨[], rfl, by simp⟩
  | (x, y) :: rows, e, e', s, s', b, h => by
    unfold scoreGo at h
    have b0 := (b.explore false).self
    rcases supTrial_closed (par := par) (x := x) (y := some y) (cv := cv) H b0.good.inv b0.kset rfl
      with ⟨o, s1, _, h2, h3⟩ | ⟨er, _, h2⟩
    · have h : (supTrial par kit x (some y) (some cv) { s with explore := false } >>= _) = _ := h
      rw [h3 (some y)] at h
      have b1 := supTrial_between hp b0 (by intro h; cases h) (h3 none)
      obtain ⟨ps, q1, q2⟩ := scoreGo_predict H hp b1 h
      refine ⟨s1.pa :: ps, ?_, ?_⟩
      · rw [List.map_cons]
        unfold predictBatch predictRow
        rw [h3 none]
        show (predictBatch par kit cv (rows.map Prod.fst) s1 >>= _) = _
        rw [q1]; rfl
      · rw [q2]
        simp only [List.map_cons, List.zipWith_cons_cons, List.sum_cons]
        ring
    · have h : (supTrial par kit x (some y) (some cv) { s with explore := false } >>= _) = _ := h
      rw [h2] at h; cases h

/-- **C22**, score: the score of a data set is the mean of the losses of the predictions that
`predict()` returns for its rows. -/
theorem C22_score_is_mean_loss (H : Stateless kit π M A P) (hp : 0 ≤ par.popSize) {r : R}
    {ops : List (Op K X B)} (hv : ∀ op ∈ ops, op.valid) {s s' : St K X B R}
    (h : run par kit r ops = .ok s) {cv : List K} {rows : List (X × List K)} {e : K}
    (hsc : score par kit cv rows s = .ok (e, s')) :
    ∃ ps, predictBatch par kit cv (rows.map Prod.fst) s = .ok (ps, s') ∧
      e = (List.zipWith kit.loss ps (rows.map Prod.snd)).sum / (rows.length : K) := by
  have b := reachable_between hp hv h
  unfold score at hsc
  cases e2 : scoreGo par kit cv rows 0 s with
  | error e' => rw [e2] at hsc; cases hsc
  | ok q =>
    obtain ⟨e1, s1⟩ := q
    rw [e2] at hsc
    have hsc : Except.ok (e1 / ((rows.length : Int) : K), s1) = (Except.ok (e, s') : Res _) := hsc
    cases hsc
    obtain ⟨ps, q1, q2⟩ := scoreGo_predict H hp b e2
    refine ⟨ps, q1, ?_⟩
    rw [q2, zero_add]; push_cast; rfl

/-- **C21**, index: every sample index drawn for a non-empty data set is a valid row, with and
without shuffling. -/
theorem C21_index_valid (H : Regular par kit W) {n : Nat} (hn : 0 < n) (cnt : Nat) (sh : Bool) (r : R) :
    ∃ i r', sample kit n cnt sh r = .ok (i, r') ∧ 0 ≤ i ∧ i < n := by
  unfold sample
  split
  · exact ⟨_, _, rfl, uniformInt_range H hn r⟩
  · rw [if_neg (by omega)]
    refine ⟨_, _, rfl, by omega, ?_⟩
    exact_mod_cast Nat.mod_lt _ hn

/-- **C21**, safety: training on any non-empty data sets, with or without shuffling and test
data, never reads outside the data (nor runs into any other undefined behaviour), and leaves
a valid system. -/
theorem C21_fit_is_safe (H : Regular par kit W) {train : List (X × List K)} (hd : train ≠ [])
    {test : Option (List (X × List K))} (ht : ∀ t, test = some t → t ≠ []) (sh : Bool)
    (start trials : Nat) {r : R} {ops : List (Op K X B)} (hv : ∀ op ∈ ops, op.legal par W)
    {s : St K X B R} (h : run par kit r ops = .ok s) :
    Post (supFit par kit train test sh start trials s)
      (fun p => micro (population p.2) ≤ par.popSize ∧ micro (population p.2) = p.2.pset.num)
      NoUB := by
  have b := post_of_ok (run_post (lawsField H) r ops (fun op ho => (hv op ho).ok)) h
  have row : ∀ (d : List (X × List K)), d ≠ [] → ∀ cnt r, ∃ i r' v, sample kit d.length cnt sh r =
      .ok (i, r') ∧ rowAt d i = .ok v := by
    intro d hd cnt r
    obtain ⟨i, r', e, h0, h1⟩ := C21_index_valid H (List.length_pos_iff.2 hd) cnt sh r
    have hlt : i.toNat < d.length := by omega
    refine ⟨i, r', d[i.toNat], e, ?_⟩
    unfold rowAt
    rw [if_pos h0, List.getElem?_eq_getElem hlt]
  have rng : ∀ (s : St K X B R) (r : R), Between (RuleOK par W) par s s →
      Between (RuleOK par W) par { s with rng := r } { s with rng := r } := by
    intro s r b
    exact (⟨b.good.congr rfl rfl rfl rfl rfl, b.kset, b.cap, b.qcap, b.snap⟩ :
      Between (RuleOK par W) par s { s with rng := r }).self
  have go : ∀ (k cnt : Nat) (e : K) (s : St K X B R), Between (RuleOK par W) par s s →
      Post (supFitGo par kit train test sh start k cnt e s)
        (fun p => Between (RuleOK par W) par p.2 p.2) NoUB := by
    intro k
    induction k with
    | zero => intro cnt e s b; exact b
    | succ k ih =>
      intro cnt e s b
      obtain ⟨i, r', v, e1, e2⟩ := row train hd (cnt + start) s.rng
      unfold supFitGo
      rw [e1]
      show Post (rowAt train i >>= _) _ _
      rw [e2]
      show Post (fitStep par kit v.1 v.2 { s with rng := r' } >>= _) _ _
      refine post_bind (Q := fun p => Between (RuleOK par W) par p.2 p.2)
        (post_mono (fitStep_post (lawsField H) v.1 v.2 (rng s r' b)) (fun p hp => hp.self)) ?_
      intro p bp
      cases htest : test with
      | none =>
        show Post (supFitGo par kit train none sh start k (cnt + 1) (e + p.1) p.2) _ _
        rw [← htest]
        exact ih _ _ _ bp
      | some t =>
        obtain ⟨i2, r2, v2, e3, e4⟩ := row t (ht t htest) (cnt + start) p.2.rng
        show Post (sample kit t.length (cnt + start) sh p.2.rng >>= _) _ _
        rw [e3]
        show Post (rowAt t i2 >>= _) _ _
        rw [e4]
        show Post (testStep par kit v2.1 v2.2 { p.2 with rng := r2 } >>= _) _ _
        refine post_bind (Q := fun p => Between (RuleOK par W) par p.2 p.2)
          (post_mono (testStep_post (lawsField H) v2.1 v2.2 (rng p.2 r2 bp))
            (fun p hp => hp.self)) ?_
        intro u bu
        show Post (supFitGo par kit train (some t) sh start k (cnt + 1) (e + p.1) u.2) _ _
        rw [← htest]
        exact ih _ _ _ bu
  unfold supFit
  refine post_bind (go trials 0 0 s b) ?_
  rintro ⟨e, s'⟩ b'
  have hm : micro (population s') = s'.pset.num := by
    rw [population, filterMap_micro b'.good.inv.p.allLive, b'.good.inv.p.num]
  exact ⟨hm ▸ b'.cap.2, hm⟩

end Field

/-! ## The hypotheses are met by concrete cases -/

section Examples
open Demo

/-- The demonstration representation is stateless for one output. -/
theorem demo_stateless_kit : Stateless
    ({ Demo.kit with predict := fun _ b _ x r => ([(x : ℚ) + b.2], b, r) } : Kit ℚ Nat (Nat × Nat) Nat)
    (fun b _ => b) demoM (fun b _ => ((b.2 % 2 : Nat) : Int)) (fun b x => [(x : ℚ) + b.2]) :=
  ⟨⟨fun _ _ _ _ => rfl, fun _ _ _ _ => rfl, fun _ _ _ _ => rfl⟩,
    fun _ _ _ _ => rfl, fun _ _ _ _ _ => rfl, fun _ _ _ _ => rfl⟩

example : ∃ s ps s', run Demo.par
      ({ Demo.kit with predict := fun _ b _ x r => ([(x : ℚ) + b.2], b, r) } : Kit ℚ Nat (Nat × Nat) Nat)
      0 Demo.ops = .ok s ∧
    predictBatch Demo.par
      ({ Demo.kit with predict := fun _ b _ x r => ([(x : ℚ) + b.2], b, r) } : Kit ℚ Nat (Nat × Nat) Nat)
      [7, 7] [1, 2, 9] s = .ok (ps, s') ∧
    (∃ c ∈ population s, demoM c.body 2 = true) := by
  obtain ⟨s, h1, h2⟩ := Res.test_iff (m := run Demo.par
      ({ Demo.kit with predict := fun _ b _ x r => ([(x : ℚ) + b.2], b, r) } : Kit ℚ Nat (Nat × Nat) Nat)
      0 Demo.ops)
    (p := fun s => decide (∃ c ∈ population s, demoM c.body 2 = true) &&
      Res.test (predictBatch Demo.par
      ({ Demo.kit with predict := fun _ b _ x r => ([(x : ℚ) + b.2], b, r) } : Kit ℚ Nat (Nat × Nat) Nat)
      [7, 7] [1, 2, 9] s) (fun _ => true)) (by decide +kernel)
  rw [Bool.and_eq_true, decide_eq_true_eq] at h2
  obtain ⟨⟨ps, s'⟩, h3, _⟩ := Res.test_iff h2.2
  exact ⟨s, ps, s', h1, h3, h2.1⟩

/-- Training on a concrete data set returns. -/
example : ∃ s p, run Demo.par Demo.kit 0 [] = .ok s ∧
    supFit Demo.par Demo.kit [(1, [1]), (2, [3]), (5, [1])] (some [(1, [1])]) true 4 5 s = .ok p := by
  obtain ⟨s, h1, h2⟩ := Res.test_iff (m := run Demo.par Demo.kit 0 [])
    (p := fun s => Res.test (supFit Demo.par Demo.kit [(1, [1]), (2, [3]), (5, [1])]
      (some [(1, [1])]) true 4 5 s) (fun _ => true)) (by decide +kernel)
  obtain ⟨p, h3, _⟩ := Res.test_iff h2
  exact ⟨s, p, h1, h3⟩

example : rowsFrom [(1, [1]), (2, [3]), (5, [(1 : ℚ)])] 2 4 =
    [(5, [1]), (1, [1]), (2, [3]), (5, [1])] := by decide +kernel

end Examples
end Xcsf
