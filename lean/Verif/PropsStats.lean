import Verif.StatsLemmas

/-!
# Property C104: the statistics of the population are means over its rules
-/

set_option linter.unusedSectionVars false
set_option linter.unusedVariables false

namespace Xcsf.Stats
variable {K R : Type} [Field K] [LinearOrder K] [IsStrictOrderedRing K] [FloorRing K]

section
variable {X B : Type}

theorem cast_sum {α : Type} (cs : List α) (f : α → Int) (g : α → K) (h : ∀ c ∈ cs, ((f c : Int) : K) = g c) :
    (((cs.map f).sum : Int) : K) = (cs.map g).sum := by
  rw [Int.cast_list_sum, List.map_map]
  congr 1
  exact List.map_congr_left h

/-- The sum of whole numbers is the sum of the quantities. -/
theorem ints_mean {s : St K X B R} {l : List Nat} (f : B → Int) (g : B → K) (hl : Alive s l)
    (hf : ∀ c ∈ l.filterMap s.heap, 0 ≤ f c.body ∧ ((f c.body : Int) : K) = g c.body)
    (hs : ((l.filterMap s.heap).map fun c => g c.body).sum ≤ intMax)
    (hc : ((l.filterMap s.heap).length : Int) ≤ 2147483647) :
    ∃ q, sumInts s f l 0 0 = .ok q ∧
      guarded (q.1 : K) q.2 = mean ((l.filterMap s.heap).map fun c => g c.body) := by
  have e := cast_sum (l.filterMap s.heap) (fun c => f c.body) (fun c => g c.body) fun c hc => (hf c hc).2
  have hb : ((l.filterMap s.heap).map fun c => f c.body).sum ≤ 2147483647 := by
    rw [← e] at hs
    exact Int.cast_le.1 hs
  refine ⟨_, sumInts_ok s f l 0 0 hl (fun c hc => (hf c hc).1) (le_refl _) (le_refl _) (by omega)
    (by omega), ?_⟩
  dsimp only
  rw [Int.zero_add, Int.zero_add, e]
  unfold guarded mean
  rw [List.length_map, Int.cast_natCast]
  split
  · rfl
  · next h =>
    have h : (l.filterMap s.heap).length = 0 := by omega
    rw [List.length_eq_zero_iff.1 h]
    simp

theorem reals_mean {s : St K X B R} {l : List Nat} (f : B → Res K) (g : B → K) (hl : Alive s l)
    (hf : ∀ c ∈ l.filterMap s.heap, f c.body = .ok (g c.body))
    (hc : ((l.filterMap s.heap).length : Int) ≤ 2147483647) :
    ∃ q, sumReals s f l 0 0 = .ok q ∧
      guarded q.1 q.2 = mean ((l.filterMap s.heap).map fun c => g c.body) ∧
      (l.filterMap s.heap ≠ [] → divided q.1 q.2 = some (mean ((l.filterMap s.heap).map fun c => g c.body))) := by
  refine ⟨_, sumReals_ok s f g l 0 0 hl hf (le_refl _) (by omega), ?_, ?_⟩
  · dsimp only
    rw [Int.zero_add, zero_add]
    unfold guarded mean
    rw [List.length_map, Int.cast_natCast]
    split
    · rfl
    · next h =>
      have h : (l.filterMap s.heap).length = 0 := by omega
      rw [List.length_eq_zero_iff.1 h]
      simp
  · intro hne
    dsimp only
    rw [Int.zero_add, zero_add]
    unfold divided mean
    rw [List.length_map, Int.cast_natCast, if_pos]
    have := List.length_pos_iff.2 hne
    omega

end

variable (Y : NetSystem K R)

theorem ofCond_none (h : neuralCond Y.rule = false) (f : NetBody K → K) (b : Y.Rule) : ofCond Y f b = 0 := by
  unfold ofCond
  rw [condNet_none h]
  rfl

theorem ofPred_none (h : Y.pred.isNone = false) (f : NetBody K → K) (b : Y.Rule) : ofPred Y f b = 0 := by
  unfold ofPred
  have : predNet Y.pred b.1.pred = none := by
    have key : ∀ (q : Option PredType) (c : predBody K q), q.isNone = false → predNet q c = none := by
      intro q c h
      match q, c, h with
      | some _, _, _ => rfl
    exact key _ _ h
  rw [this]
  rfl

theorem mean_zero {α : Type} (cs : List α) (g : α → K) (h : ∀ c, g c = 0) : mean (cs.map g) = 0 := by
  have : cs.map g = List.replicate cs.length 0 := by
    rw [List.eq_replicate_iff]
    refine ⟨List.length_map _, fun x hx => ?_⟩
    obtain ⟨c, -, rfl⟩ := List.mem_map.1 hx
    exact h c
  unfold mean
  rw [this]
  simp

variable {Y}

theorem meanCond_eq {s : St K Y.In Y.Rule R} {l : List Nat} (f : NetBody K → Int) (g : NetBody K → K)
    (hl : Alive s l)
    (hf : ∀ c ∈ l.filterMap s.heap, ∀ n, condNet Y.rule c.body.1.cond = some n →
      0 ≤ f n ∧ ((f n : Int) : K) = g n)
    (hs : ((l.filterMap s.heap).map fun c => ofCond Y g c.body).sum ≤ intMax)
    (hc : ((l.filterMap s.heap).length : Int) ≤ 2147483647) :
    meanCond Y f s l = .ok (mean ((l.filterMap s.heap).map fun c => ofCond Y g c.body)) := by
  unfold meanCond
  by_cases h : neuralCond Y.rule = true
  · rw [if_pos h]
    obtain ⟨q, e, hq⟩ := ints_mean (s := s) (l := l) (onCond Y f) (ofCond Y g) hl (fun c hcl => by
        unfold ofCond onCond
        cases e : condNet Y.rule c.body.1.cond with
        | some n => exact hf c hcl n e
        | none => exact ⟨le_refl _, Int.cast_zero⟩) hs hc
    rw [e, ← hq]
    rfl
  · rw [if_neg h, mean_zero _ _ fun c : Cl K Y.Rule => ofCond_none Y (Bool.eq_false_iff.2 h) g c.body]

theorem meanPred_eq {s : St K Y.In Y.Rule R} {l : List Nat} (f : NetBody K → Int) (g : NetBody K → K)
    (hl : Alive s l)
    (hf : ∀ c ∈ l.filterMap s.heap, ∀ n, predNet Y.pred c.body.1.pred = some n →
      0 ≤ f n ∧ ((f n : Int) : K) = g n)
    (hs : ((l.filterMap s.heap).map fun c => ofPred Y g c.body).sum ≤ intMax)
    (hc : ((l.filterMap s.heap).length : Int) ≤ 2147483647) :
    meanPred Y f s l = .ok (mean ((l.filterMap s.heap).map fun c => ofPred Y g c.body)) := by
  unfold meanPred
  by_cases h : Y.pred.isNone = true
  · rw [if_pos h]
    obtain ⟨q, e, hq⟩ := ints_mean (s := s) (l := l) (onPred Y f) (ofPred Y g) hl (fun c hcl => by
        unfold ofPred onPred
        cases e : predNet Y.pred c.body.1.pred with
        | some n => exact hf c hcl n e
        | none => exact ⟨le_refl _, Int.cast_zero⟩) hs hc
    rw [e, ← hq]
    rfl
  · rw [if_neg h, mean_zero _ _ fun c : Cl K Y.Rule => ofPred_none Y (Bool.eq_false_iff.2 h) g c.body]

theorem meanEta_eq {s : St K Y.In Y.Rule R} {l : List Nat} (i : Int) (hl : Alive s l)
    (hc : ((l.filterMap s.heap).length : Int) ≤ 2147483647) :
    meanPredEta Y i s l = .ok (mean ((l.filterMap s.heap).map fun c => ofPred Y (atLayer rate i) c.body)) := by
  unfold meanPredEta
  by_cases h : Y.pred.isNone = true
  · rw [if_pos h]
    obtain ⟨q, e, hq, -⟩ := reals_mean (s := s) (l := l) (etaOn Y i) (ofPred Y (atLayer rate i)) hl (fun c hcl => by
        unfold ofPred etaOn
        cases e : predNet Y.pred c.body.1.pred with
        | some n => exact congrArg Except.ok (netEta_eq n i)
        | none => rfl) hc
    rw [e, ← hq]
    rfl
  · rw [if_neg h, mean_zero _ _ fun c : Cl K Y.Rule => ofPred_none Y (Bool.eq_false_iff.2 h) _ c.body]

theorem netSize_ok {n : NetBody K} (h : NetFine n) (hn : ∀ l ∈ n.lays, Noted l)
    (hm : ((weights n : Nat) : K) ≤ intMax) :
    (do .ok ((← neuralSize n.lays 0 : Int) : K) : Res K) = .ok ((weights n : Nat) : K) := by
  obtain ⟨k, h⟩ := h
  have hb : ((weights n : Nat) : Int) ≤ 2147483647 := by
    have : (((weights n : Nat) : Int) : K) ≤ ((2147483647 : Int) : K) := by rw [Int.cast_natCast]; exact hm
    exact Int.cast_le.1 this
  have e := neuralSize_ok n.lays 0 h hn (le_refl _) (by rw [Int.zero_add]; exact hb)
  rw [e, Int.zero_add]
  show (Except.ok _ : Res K) = _
  rw [Int.cast_natCast]
  rfl

theorem condSize_eq (b : Y.Rule) (hn : RuleNoted Y b) (hm : quantity Y .condSize b ≤ intMax) :
    condSize Y b = .ok (quantity Y .condSize b) := by
  obtain ⟨b, w⟩ := b
  have w := w.cond
  have hn := hn.1
  unfold condSize
  unfold quantity at *
  dsimp only at *
  have key : ∀ (t : RuleKind) (c : t.CBody K), t.WC Y.S Y.condPlan c →
      (∀ n, condNet t c = some n → ∀ l ∈ n.lays, Noted l) → ((sizeOfCond t c : Nat) : K) ≤ intMax →
      (match condNet t c with
        | some n => (do .ok ((← neuralSize n.lays 0 : Int) : K) : Res K)
        | none => .ok ((t.cond Y.pf.rng Y.S Y.par.nActions).size c)) = .ok ((sizeOfCond t c : Nat) : K) := by
    intro t c w hn hm
    match t, c, w, hn, hm with
    | .parts none _, c, w, hn, hm => exact netSize_ok ⟨_, netLegal_mem (NetOk.legal w)⟩ (hn c rfl) hm
    | .neural, c, w, hn, hm => exact netSize_ok ⟨_, netLegal_mem (NetOk.legal w)⟩ (hn c rfl) hm
    | .parts (some .dummy) _, c, w, hn, hm => exact congrArg Except.ok Nat.cast_zero.symm
    | .parts (some .rectangle) _, c, w, hn, hm =>
      have w : Box.Dim Y.S.xDim c := w
      exact congrArg (fun k : Nat => (Except.ok (k : K) : Res K)) w.1.symm
    | .parts (some .ellipsoid) _, c, w, hn, hm =>
      have w : Box.Dim Y.S.xDim c := w
      exact congrArg (fun k : Nat => (Except.ok (k : K) : Res K)) w.1.symm
    | .parts (some .ternary) _, c, w, hn, hm => rfl
    | .parts (some .gp) _, c, w, hn, hm => rfl
    | .parts (some .dgp) _, c, w, hn, hm =>
      have w : Wired Y.S.dgp c := w
      exact congrArg (fun k : Nat => (Except.ok (k : K) : Res K)) (w.stateLen.trans w.funcLen.symm)
    | .dgp, c, w, hn, hm =>
      have w : Wired Y.S.dgp c := w
      exact congrArg (fun k : Nat => (Except.ok (k : K) : Res K)) (w.stateLen.trans w.funcLen.symm)
  exact key _ _ w hn hm

theorem predSize_eq (b : Y.Rule) (hn : RuleNoted Y b) (hm : quantity Y .predSize b ≤ intMax) :
    predSize Y b = .ok (quantity Y .predSize b) := by
  obtain ⟨b, w⟩ := b
  have w := w.pred
  have hn := hn.2
  unfold predSize
  unfold quantity at *
  dsimp only at *
  have key : ∀ (q : Option PredType) (c : predBody K q), predW Y.S Y.predPlan q c →
      (∀ n, predNet q c = some n → ∀ l ∈ n.lays, Noted l) →
      ((sizeOfPred Y.S.pred q c : Nat) : K) ≤ intMax →
      (match predNet q c with
        | some n => (do .ok ((← neuralSize n.lays 0 : Int) : K) : Res K)
        | none => .ok ((predFn Y.pf.rng Y.S q).size c)) = .ok ((sizeOfPred Y.S.pred q c : Nat) : K) := by
    intro q c w hn hm
    match q, c, w, hn, hm with
    | none, c, w, hn, hm => exact netSize_ok ⟨_, netLegal_mem (NetOk.legal w)⟩ (hn c rfl) hm
    | some .constant, c, w, hn, hm => rfl
    | some .nlms, c, w, hn, hm =>
      have w : Nlms.Dim Y.S.pred c := w
      refine congrArg (fun k : Nat => (Except.ok (k : K) : Res K)) ?_
      show Nlms.nWeights c = nFeatures Y.S.pred * Y.S.pred.yDim
      rw [w.2.1, w.1]
    | some .rls, c, w, hn, hm =>
      have w : Rls.Dim Y.S.pred c := w
      refine congrArg (fun k : Nat => (Except.ok (k : K) : Res K)) ?_
      show Rls.nWeights c = nFeatures Y.S.pred * Y.S.pred.yDim
      rw [w.2, w.1]
  exact key _ _ w hn hm

/-- Reached states: the rules of the population exist and are not too many to be counted. -/
theorem reached {r : R} {ops : List (Op K Y.In Y.Rule)} (hv : ∀ op ∈ ops, op.valid)
    {s : St K Y.In Y.Rule R} (h : run Y.par Y.kit r ops = .ok s) :
    Alive s s.pset.list ∧ ((population s).length : Int) ≤ Y.par.popSize := by
  have hp : 0 ≤ Y.par.popSize := Y.hpar.popSize
  have b := reachable_between hp hv h
  have live := b.good.inv.p.allLive
  refine ⟨fun i hi => ?_, ?_⟩
  · exact Option.isSome_iff_exists.1 (live i hi)
  · have c1 := C01_population_capped hp hv h
    obtain ⟨-, -, h1, -, -⟩ := C02_counters_exact hp hv h
    refine le_trans ?_ c1
    unfold micro
    generalize population s = cs at h1
    clear c1
    induction cs with
    | nil => simp
    | cons c cs ih =>
      have a := h1 c List.mem_cons_self
      have := ih fun d hd => h1 d (List.mem_cons_of_mem _ hd)
      simp only [List.map_cons, List.sum_cons, List.length_cons, Nat.cast_add, Nat.cast_one]
      omega

/-- **C104, the part that holds.**  After every history of calls each statistic of a population with
rules is the mean over its rules, each counted once, of the quantity it is about: the size of
condition or prediction, or for the network in condition or prediction the number of its layers and,
for the layer asked for, the number of neurons, of weights in use and the learning rate, zero if there
is no such layer or no network.  Missing of the full claim: sums over the rules must not exceed the
largest `int`, without which the claim is false, and recurrent and LSTM layers must have noted their
number of weights in use, which they have unless weights are replaced after some were switched off
(C53). -/
theorem C104_means_partial {r : R} {ops : List (Op K Y.In Y.Rule)} (hv : ∀ op ∈ ops, op.valid)
    {s : St K Y.In Y.Rule R} (h : run Y.par Y.kit r ops = .ok s) (hp : Y.par.popSize ≤ 2147483647)
    (hne : population s ≠ []) (hn : ∀ c ∈ population s, RuleNoted Y c.body) (q : Stat)
    (hq : Small Y q (population s)) :
    report Y q s = .ok (some (mean ((population s).map fun c => quantity Y q c.body))) := by
  obtain ⟨hl, hlen⟩ := reached hv h
  have hc : ((s.pset.list.filterMap s.heap).length : Int) ≤ 2147483647 := le_trans hlen hp
  unfold population at *
  unfold report
  cases q with
  | condSize =>
    obtain ⟨z, e, -, hz⟩ := reals_mean (s := s) (condSize Y) (quantity Y .condSize) hl
      (fun c hcl => condSize_eq c.body (hn c hcl) (hq c hcl)) hc
    dsimp only
    rw [e, ← hz hne]; rfl
  | predSize =>
    obtain ⟨z, e, -, hz⟩ := reals_mean (s := s) (predSize Y) (quantity Y .predSize) hl
      (fun c hcl => predSize_eq c.body (hn c hcl) (hq c hcl)) hc
    dsimp only
    rw [e, ← hz hne]; rfl
  | predEta i => dsimp only; rw [meanEta_eq i hl hc]; rfl
  | predNeurons i =>
    dsimp only
    rw [meanPred_eq (netNeurons i) (atLayer (fun l => (cells l : K)) i) hl (fun c hcl n e =>
      ⟨netNeurons_nonneg (predNet_fine Y _ e) i, netNeurons_eq (predNet_fine Y _ e) i⟩) hq hc]
    rfl
  | predConns i =>
    dsimp only
    rw [meanPred_eq (netConns i) (atLayer (fun l => (inUse l : K)) i) hl (fun c hcl n e =>
      ⟨netConns_nonneg (predNet_fine Y _ e) ((hn c hcl).2 n e) i,
        netConns_eq (predNet_fine Y _ e) ((hn c hcl).2 n e) i⟩) hq hc]
    rfl
  | predLayers =>
    dsimp only
    rw [meanPred_eq netLayers (fun n => (n.lays.length : K)) hl (fun c hcl n e =>
      ⟨Int.natCast_nonneg _, Int.cast_natCast _⟩) hq hc]
    rfl
  | condNeurons i =>
    dsimp only
    rw [meanCond_eq (netNeurons i) (atLayer (fun l => (cells l : K)) i) hl (fun c hcl n e =>
      ⟨netNeurons_nonneg (condNet_fine Y _ e) i, netNeurons_eq (condNet_fine Y _ e) i⟩) hq hc]
    rfl
  | condConns i =>
    dsimp only
    rw [meanCond_eq (netConns i) (atLayer (fun l => (inUse l : K)) i) hl (fun c hcl n e =>
      ⟨netConns_nonneg (condNet_fine Y _ e) ((hn c hcl).1 n e) i,
        netConns_eq (condNet_fine Y _ e) ((hn c hcl).1 n e) i⟩) hq hc]
    rfl
  | condLayers =>
    dsimp only
    rw [meanCond_eq netLayers (fun n => (n.lays.length : K)) hl (fun c hcl n e =>
      ⟨Int.natCast_nonneg _, Int.cast_natCast _⟩) hq hc]
    rfl

/-- **C104**, what can go wrong at all: after every history of calls a statistic is read without a
freed rule being used; only a sum can overflow. -/
theorem C104_reads_live_rules {r : R} {ops : List (Op K Y.In Y.Rule)} (hv : ∀ op ∈ ops, op.valid)
    {s : St K Y.In Y.Rule R} (h : run Y.par Y.kit r ops = .ok s) (q : Stat) {e : Fault}
    (he : report Y q s = .error e) : e = .ub := by
  obtain ⟨hl, -⟩ := reached hv h
  have ints : ∀ f : Y.Rule → Int, ∀ e, (sumInts s f s.pset.list 0 0 = .error e → e = .ub) :=
    fun f e => sumInts_fault s f _ 0 0 hl
  have cond : ∀ f e, meanCond Y f s s.pset.list = .error e → e = .ub := by
    intro f e h
    unfold meanCond at h
    split at h
    · revert h
      generalize hx : sumInts s _ s.pset.list 0 0 = x
      intro h
      cases x with
      | error g => cases h; exact ints _ _ hx
      | ok v => cases h
    · cases h
  have pred : ∀ f e, meanPred Y f s s.pset.list = .error e → e = .ub := by
    intro f e h
    unfold meanPred at h
    split at h
    · revert h
      generalize hx : sumInts s _ s.pset.list 0 0 = x
      intro h
      cases x with
      | error g => cases h; exact ints _ _ hx
      | ok v => cases h
    · cases h
  have lift : ∀ (m : Res K) (e : Fault), (m >>= fun v => (Except.ok (some v) : Res (Option K))) = .error e →
      m = .error e := by
    intro m e h
    cases m with
    | error g => cases h; rfl
    | ok v => cases h
  have net : ∀ (n : NetBody K) (e : Fault),
      (do .ok ((← neuralSize n.lays 0 : Int) : K) : Res K) = .error e → e = .ub := by
    intro n e h
    cases hx : neuralSize n.lays 0 with
    | error g => rw [hx] at h; cases h; exact neuralSize_fault _ _ hx
    | ok v => rw [hx] at h; cases h
  have size : ∀ (f : Y.Rule → Res K), (∀ b e, f b = .error e → e = .ub) → ∀ e,
      (sumReals s f s.pset.list 0 0 >>= fun q => (.ok (divided q.1 q.2) : Res (Option K))) = .error e →
      e = .ub := by
    intro f hf e h
    cases hx : sumReals s f s.pset.list 0 0 with
    | error g => rw [hx] at h; cases h; exact sumReals_fault s f hf _ 0 0 hl hx
    | ok v => rw [hx] at h; cases h
  unfold report at he
  cases q with
  | condSize =>
    refine size _ (fun b e h => ?_) _ he
    unfold condSize at h
    split at h
    · exact net _ _ h
    · cases h
  | predSize =>
    refine size _ (fun b e h => ?_) _ he
    unfold predSize at h
    split at h
    · exact net _ _ h
    · cases h
  | predEta i =>
    have h := lift _ _ he
    unfold meanPredEta at h
    split at h
    · revert h
      generalize hx : sumReals s _ s.pset.list 0 0 = x
      intro h
      cases x with
      | error g =>
        cases h
        refine sumReals_fault s _ (fun b e h => ?_) _ 0 0 hl hx
        unfold etaOn at h
        split at h <;> cases h
      | ok v => cases h
    · cases h
  | predNeurons i => exact pred _ _ (lift _ _ he)
  | predConns i => exact pred _ _ (lift _ _ he)
  | predLayers => exact pred _ _ (lift _ _ he)
  | condConns i => exact cond _ _ (lift _ _ he)
  | condNeurons i => exact cond _ _ (lift _ _ he)
  | condLayers => exact cond _ _ (lift _ _ he)

/-! ## An empty population -/

/-- The statistics of an empty population: those of networks are zero, but the mean sizes are no
numbers. -/
theorem C104_empty {s : St K Y.In Y.Rule R} (h : s.pset.list = []) (q : Stat) :
    report Y q s = .ok (if q = .condSize ∨ q = .predSize then none else some 0) := by
  have ints : ∀ f : Y.Rule → Int, sumInts s f s.pset.list 0 0 = .ok (0, 0) := by
    intro f; rw [h]; rfl
  have reals : ∀ f : Y.Rule → Res K, sumReals s f s.pset.list 0 0 = .ok (0, 0) := by
    intro f; rw [h]; rfl
  have cond : ∀ f, meanCond Y f s s.pset.list = .ok 0 := by
    intro f
    unfold meanCond
    split
    · rw [ints]; rfl
    · rfl
  have pred : ∀ f, meanPred Y f s s.pset.list = .ok 0 := by
    intro f
    unfold meanPred
    split
    · rw [ints]; rfl
    · rfl
  have eta : ∀ i, meanPredEta Y i s s.pset.list = .ok 0 := by
    intro i
    unfold meanPredEta
    split
    · rw [reals]; rfl
    · rfl
  unfold report
  cases q <;> simp only [reals, eta, cond, pred] <;> rfl

/-- **C104 is false of a new system** that starts without rules: the mean sizes it reports are
0/0, not a number, although the mean numbers of its layers, neurons and connections are zero. -/
theorem C104_new_system_refuted (hi : Y.par.popInit = false) (r : R) :
    ∃ s, run Y.par Y.kit r [] = .ok s ∧ report Y .condSize s = .ok none ∧
      report Y .predSize s = .ok none ∧ report Y .predLayers s = .ok (some 0) := by
  have h : ∃ s, run Y.par Y.kit r [] = .ok s ∧ s.pset.list = [] := by
    unfold run xcsfInit
    rw [hi]
    exact ⟨_, rfl, rfl⟩
  obtain ⟨s, e, hs⟩ := h
  exact ⟨s, e, C104_empty hs _, C104_empty hs _, C104_empty hs _⟩

/-! ## Sums that overflow -/

theorem sumInts_over {X B : Type} (s : St K X B R) (f : B → Int) : ∀ (l : List Nat) (a n : Int), Alive s l →
    (∀ c ∈ l.filterMap s.heap, 0 ≤ f c.body) → 0 ≤ a → a ≤ 2147483647 →
    2147483647 < a + ((l.filterMap s.heap).map fun c => f c.body).sum →
    sumInts s f l a n = .error .ub
  | [], a, n, _, _, _, h, hs => by
    simp at hs
    omega
  | i :: is, a, n, hl, hf, ha, hm, hs => by
    obtain ⟨c, e⟩ := hl i List.mem_cons_self
    rw [List.filterMap_cons_some e] at hf hs
    simp only [List.map_cons, List.sum_cons] at hs
    have h0 := hf c List.mem_cons_self
    have hrd : s.rd i = .ok c := by unfold St.rd; rw [e]
    rw [sumInts, hrd]
    show (addInt a (f c.body) >>= fun sum => addInt n 1 >>= fun cnt => sumInts s f is sum cnt) = _
    by_cases h : a + f c.body ≤ 2147483647
    · rw [addInt_ok (by omega) h]
      show (addInt n 1 >>= fun cnt => sumInts s f is _ cnt) = _
      cases e1 : addInt n 1 with
      | error g => rw [addInt_fault e1]; rfl
      | ok m =>
        exact sumInts_over s f is _ m (fun j hj => hl j (List.mem_cons_of_mem _ hj))
          (fun d hd => hf d (List.mem_cons_of_mem _ hd)) (by omega) h (by omega)
    · rw [addInt_over (by omega)]; rfl

/-- **C104 is false of large populations**: if the layers of the networks in the predictions are
altogether more than the largest `int`, the sum overflows and the mean, however small, is undefined. -/
theorem C104_overflow_refuted {s : St K Y.In Y.Rule R} (hl : Alive s s.pset.list) (hp : Y.pred = none)
    (hb : intMax < ((population s).map fun c => quantity Y .predLayers c.body).sum) :
    report Y .predLayers s = .error .ub := by
  have hs : ∀ c ∈ population s, ((onPred Y netLayers c.body : Int) : K) = quantity Y .predLayers c.body := by
    intro c _
    unfold onPred quantity ofPred
    dsimp only
    cases predNet Y.pred c.body.1.pred with
    | some n => exact Int.cast_natCast _
    | none => exact Int.cast_zero
  have e := cast_sum (population s) (fun c => onPred Y netLayers c.body) _ hs
  rw [← e] at hb
  have hb : (2147483647 : Int) < ((population s).map fun c => onPred Y netLayers c.body).sum :=
    Int.cast_lt.1 hb
  have ho := sumInts_over s (onPred Y netLayers) s.pset.list 0 0 hl (fun c hc => by
    unfold onPred
    split
    · exact Int.natCast_nonneg _
    · exact le_refl _) (le_refl _) (by decide) (by rw [Int.zero_add]; exact hb)
  unfold report meanPred
  rw [if_pos (by rw [hp]; rfl)]
  dsimp only
  rw [ho]
  rfl

/-! ## Concrete populations -/

section Examples

instance : DecidablePred (Noted (K := ℚ)) := fun l => by
  cases l <;> unfold Noted <;> first | infer_instance | (unfold RLay.Counted; infer_instance) |
    (unfold TLay.Counted; infer_instance)

/-- A test of the hypotheses. -/
def notedTest {Y : NetSystem ℚ Nat} (b : Y.Rule) : Bool :=
  ((condNet Y.rule b.1.cond).all fun n => n.lays.all fun l => decide (Noted l)) &&
  ((predNet Y.pred b.1.pred).all fun n => n.lays.all fun l => decide (Noted l))

theorem notedTest_ok {Y : NetSystem ℚ Nat} {b : Y.Rule} (h : notedTest b = true) : RuleNoted Y b := by
  unfold notedTest at h
  rw [Bool.and_eq_true] at h
  constructor
  · intro n e l hl
    have := h.1
    rw [e] at this
    exact of_decide_eq_true (List.all_eq_true.1 this l hl)
  · intro n e l hl
    have := h.2
    rw [e] at this
    exact of_decide_eq_true (List.all_eq_true.1 this l hl)

/-- After the calls of `netCalls` there are rules that meet the hypotheses, and the statistic has the
value `v`. -/
def statTest (t : RuleKind) (q : Option PredType) (z : Stat) (v : ℚ) : Bool :=
  Demo.Res.test (run Demo.par (netSystem t q).kit 0 (netCalls t q)) fun s =>
    !(population s).isEmpty && (population s).all (fun c => notedTest c.body) &&
    decide (((population s).map fun c => quantity (netSystem t q) z c.body).sum ≤ intMax) &&
    decide (report (netSystem t q) z s = .ok (some v))

example : statTest .dgp none (.predConns 0) (9 / 2) = true := by decide +kernel
example : statTest .dgp none (.predNeurons 0) (9 / 4) = true := by decide +kernel
example : statTest .dgp none (.predNeurons 2) 0 = true := by decide +kernel
example : statTest .neural none (.condConns 0) 12 = true := by decide +kernel
example : statTest .neural none .condLayers 3 = true := by decide +kernel
example : statTest (.parts (some .rectangle) true) (some .nlms) .predLayers 0 = true := by
  decide +kernel
example : Demo.par.popInit = false := rfl

/-- A rule with networks of three and two layers. -/
def someRule : (netSystem .neural none).Rule := ((netSystem .neural none).kit.rand 0).1

theorem someRule_layers : quantity (netSystem .neural none) .predLayers someRule = 2 := by
  decide +kernel

/-- A population of more than a thousand million rules, each with the networks of `someRule`, which
has two layers in its prediction: all rules exist, and there are too many layers. -/
example (s : St ℚ (netSystem .neural none).In (netSystem .neural none).Rule Nat)
    (c : Cl ℚ (netSystem .neural none).Rule) (hc : c.body = someRule)
    (hs : s.pset.list = List.range 1073741824) (hh : s.heap = fun _ => some c) :
    report (netSystem .neural none) .predLayers s = .error .ub := by
  refine C104_overflow_refuted (fun i _ => ⟨c, by rw [hh]⟩) rfl ?_
  have : population s = List.replicate 1073741824 c := by
    unfold population
    rw [hs, hh, List.eq_replicate_iff]
    constructor
    · rw [List.length_filterMap_eq_countP]
      simp
    · intro d hd
      obtain ⟨i, -, e⟩ := List.mem_filterMap.1 hd
      exact (Option.some.inj e).symm
  rw [this, List.map_replicate, List.sum_replicate, hc, someRule_layers]
  norm_num [intMax]

end Examples

end Xcsf.Stats
