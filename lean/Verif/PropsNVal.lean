import Verif.NValRuleLemmas
import Verif.Props5

/-!
# Property C93: what systems of neural networks answer

Networks of any kinds of layers compute the composition of the functions of their layers; a system
whose rules are made of networks predicts the mean of what its matching rules compute, weighted by
their fitness; rows of a batch are predicted alike, unless layers remember the inputs before.
-/

set_option linter.unusedSectionVars false
set_option linter.unusedVariables false

namespace Xcsf
open Finset
variable {R : Type}

/-! ## Networks -/

theorem memoryless_eq {l l' : GLay ℝ} (h : l'.trait = l.trait) : l'.memoryless = l.memoryless := by
  have h1 := congrArg Prod.fst h
  cases l <;> cases l' <;> first | rfl | (simp [GLay.trait] at h1)

theorem memoryless_map : ∀ {ls : List (GLay ℝ)} {as : List (GArgs ℝ)},
    ls.map GLay.trait = as.map GArgs.trait → ls.map GLay.memoryless = as.map GArgs.memoryless
  | [], [], _ => rfl
  | [], _ :: _, h => by cases h
  | _ :: _, [], h => by cases h
  | l :: ls, a :: as, h => by
    rw [List.map_cons, List.map_cons, List.cons.injEq] at h
    rw [List.map_cons, List.map_cons, memoryless_map h.2, memoryless_trait h.1]

/-- **C93, networks.** A network that has been created with legal parameters and has then been
mutated, resized, randomised, copied and given inputs, in any order, computes for an input `x` the
composition of the functions of its layers: the outputs it reports are those of `netVal`.  Without
recurrent and LSTM layers it computes the same function again afterwards.  The generator is not
used.  Missing of the full claim: what reaches a maxpool layer must exceed -DBL_MAX, and the
restrictions of C49 apply. -/
theorem C93_network_partial {k : Lim} (hk : k.Ok) {g : Rng ℝ R} (O : g.Open) (Bd : g.Bounded)
    (lo : ℝ) {fuel : Nat} (hf : 1 ≤ fuel) {as : List (GArgs ℝ)} (hne : as ≠ []) {b : Bool} {d : Dim}
    (D : d.Ok k b) (A : ArgsFit k b d as) (h1 : ∀ a ∈ as.head?, a.first d) (ops : List (NOp ℝ))
    (r r' : R) {ls : List (GLay ℝ)}
    (h : (genCreate g as r >>= fun p => nrun g realLibm lo fuel d.n.toNat ops p.1 p.2) =
      .ok (ls, r'))
    {x : List ℝ} (hx : x.length = d.n.toNat) (hlo : Above lo ls x) (s : R) :
    ∃ ls', genForward g realLibm lo false ls x s = .ok (ls', s) ∧
      (∀ i : Int, 0 ≤ i → i < (netVal ls x).length →
        genOutput (netVal ls x).length ls' i = .ok ((netVal ls x).getD i.toNat 0)) ∧
      ((∀ a ∈ as, a.memoryless = true) → netVal ls' = netVal ls) := by
  have hp : Post (genCreate g as r >>= fun p => nrun g realLibm lo fuel d.n.toNat ops p.1 p.2)
      (fun z => NetLegal k b d z.1 ∧ z.1 ≠ [] ∧ z.1.map GLay.memoryless = as.map GArgs.memoryless)
      (GFault k) := by
    refine post_bind (genCreate_step hk O Bd hne D A h1 r) ?_
    rintro ⟨l0, r1⟩ ⟨N, T⟩
    refine post_mono (nrun_step hk O Bd Real.exp_pos lo hf D ops l0 r1 N) ?_
    rintro ⟨l1, r2⟩ ⟨N', F⟩
    have hlen : l0.length = as.length := by simpa using congrArg List.length T
    refine ⟨N', ?_, ?_⟩
    · intro e
      dsimp only at e
      subst e
      have := F.length_eq
      rw [hlen] at this
      exact hne (List.length_eq_zero_iff.1 this)
    · dsimp only
      have e1 : l0.map GLay.memoryless = as.map GArgs.memoryless := memoryless_map T
      have e2 : l1.map GLay.memoryless = l0.map GLay.memoryless := by
        refine (List.forall₂_eq_eq_eq ▸ (List.forall₂_map_left_iff.2 (List.forall₂_map_right_iff.2
          (F.flip.imp fun a b h => ?_))) : _)
        exact memoryless_eq h.2.2
      rw [e2, e1]
  obtain ⟨N, hn, hm⟩ := post_of_ok hp h
  obtain ⟨ls', e, F, hl⟩ := net_value (g := g) (lo := lo) ls b d x s N hx hlo
  refine ⟨ls', e, ?_, ?_⟩
  · intro i h0 h1
    obtain ⟨l, hl'⟩ : ∃ l, ls'.getLast? = some l := by
      cases e2 : ls'.getLast? with
      | none =>
        rw [List.getLast?_eq_none_iff] at e2
        subst e2
        have := F.length_eq
        exact absurd (List.length_eq_zero_iff.1 this) hn
      | some l => exact ⟨l, rfl⟩
    unfold genOutput
    rw [if_neg (by omega), hl']
    dsimp only
    rw [hl l hl']
    dsimp only
    obtain ⟨n, rfl⟩ := Int.eq_ofNat_of_zero_le h0
    have hn' : n < (netVal ls x).length := by omega
    rw [rd_in hn']
    simp [List.getD_eq_getElem?_getD, hn']
  · intro h
    refine sameVal_net F fun l hl => ?_
    obtain ⟨a, ha, e⟩ := map_mem_eq hm hl
    rw [e]
    exact h a ha

/-! ## Systems -/

variable (Y : NetSystem ℝ R)

/-- **C93, rules.** In a system whose rules do not remember, presented with an input a rule matches if and only if the first output of its
network exceeds one half (or the condition of another kind contains the input), and the action it
then advocates is the first of the greatest outputs of its network, or the number encoded by the
outputs behind the first one. -/
theorem C93_rule_answers_partial (hf : Y.Forgets) (b : Y.Rule) (x : Y.In) (r r' : R) :
    ((Y.kit.cmatch false b x r).1 = true ↔ Y.Holds b x.1) ∧
    ∀ a, (Y.kit.act false (Y.kit.cmatch false b x r).2.1 x r').1 = a ↔ Y.Advises b x.1 a := by
  obtain ⟨h1, _, h2⟩ := Y.cmatch_value hf b x r
  refine ⟨h1, fun a => ?_⟩
  rw [h2 r']
  exact (advises_iff Y.hpar.nActions Y.hrule hf.rule b.2.act x.2 a).symm

/-- **C93, predictions of rules.** The prediction of a rule whose prediction is a network are the
outputs of the network; of other rules those of C75. -/
theorem C93_rule_predicts_partial (hf : Y.Forgets) (c : Cl ℝ Y.Rule) (x : Y.In) (r : R) {j : Nat}
    (hj : j < Y.par.yDim) :
    (Y.kit.predict false c.body c.prediction x r).1.getD j 0 = Y.output c x.1 j := by
  rw [(Y.stateless hf).predict]
  exact predVec_get _ _ _ _ _ (by rw [Y.hyDim]; exact hj)

/-- **C93, predictions.** After any history of calls on a system whose rules are made of networks
without memory, the prediction for an input is the covering value the caller gave if no rule
contains the input; else output `j` of action `a` is the mean of the outputs of the rules that
contain the input and advocate `a`, weighted by their fitness (zero if there is none).  Missing of
the full claim: recurrent and LSTM layers, for which it is false, see below, and maxpool layers, and
the restrictions of C79. -/
theorem C93_prediction_partial (hf : Y.Forgets) {r : R} {ops : List (Op ℝ Y.In Y.Rule)}
    (hv : ∀ op ∈ ops, op.valid) {s s' : St ℝ Y.In Y.Rule R} (h : run Y.par Y.kit r ops = .ok s)
    {cv p : List ℝ} {x : Y.In} (hp : predictRow Y.par Y.kit cv x s = .ok (p, s')) :
    ((∀ c ∈ population s, ¬ Y.Holds c.body x.1) → p = cv) ∧
    ((∃ c ∈ population s, Y.Holds c.body x.1) →
      ∀ a j, a < Y.par.nActions → j < Y.par.yDim →
      p[a * Y.par.yDim + j]? = some (
        let adv := Y.advocates (population s) x.1 a
        if (adv.map Cl.fit).sum = 0 then 0
        else (adv.map fun c => Y.output c x.1 j * c.fit).sum / (adv.map Cl.fit).sum)) :=
  Y.prediction_of hf (reachable_between Y.hpar.popSize hv h) hp

theorem bind_fault {α β : Type} {m : Res α} {f : α → Res β} {e : Fault} (h : (m >>= f) = .error e) :
    m = .error e ∨ ∃ a, m = .ok a ∧ f a = .error e := by
  cases m with
  | error e' => cases h; exact .inl rfl
  | ok a => exact .inr ⟨a, rfl, h⟩

theorem paRule_faults {yDim : Nat} {c : Cl ℝ Y.Rule} : ∀ (js : List Nat) (pa nr : List ℝ) {e : Fault},
    paRule yDim c js pa nr = .error e → e = .ub
  | [], _, _, e, h => by cases h
  | j :: js, pa, nr, e, h => by
    have ha : ∀ (l : List ℝ) (k : Int) (v : ℝ) {e : Fault}, addAt l k v = .error e → e = .ub := by
      intro l k v e h
      unfold addAt at h
      split at h
      · split at h
        · cases h
        · cases h; rfl
      · cases h; rfl
    unfold paRule at h
    split at h
    · cases h; rfl
    · next p _ =>
      cases e1 : addAt pa (c.action * (yDim : Int) + (j : Int)) (p * c.fit) with
      | error e' => rw [e1] at h; cases h; exact ha _ _ _ e1
      | ok pa' =>
        rw [e1] at h
        have h : (addAt nr (c.action * (yDim : Int) + (j : Int)) c.fit >>= fun nr' =>
          paRule yDim c js pa' nr') = _ := h
        cases e2 : addAt nr (c.action * (yDim : Int) + (j : Int)) c.fit with
        | error e' => rw [e2] at h; cases h; exact ha _ _ _ e2
        | ok nr' => rw [e2] at h; exact paRule_faults js _ _ h

theorem paRules_faults {yDim : Nat} : ∀ (cs : List (Cl ℝ Y.Rule)) (pa nr : List ℝ) {e : Fault},
    paRules yDim cs pa nr = .error e → e = .ub
  | [], _, _, e, h => by cases h
  | c :: cs, pa, nr, e, h => by
    unfold paRules at h
    cases e1 : paRule yDim c (List.range yDim) pa nr with
    | error e' => rw [e1] at h; cases h; exact paRule_faults Y _ _ _ e1
    | ok p => rw [e1] at h; exact paRules_faults cs p.1 p.2 h

/-- **C93, predictions are returned**: after any history of calls `predict()` returns, for every
input. -/
theorem C93_predict_returns_partial (hf : Y.Forgets) {r : R} {ops : List (Op ℝ Y.In Y.Rule)}
    (hv : ∀ op ∈ ops, op.ok (RuleOK Y.par (fun _ : Y.Rule => True))) {s : St ℝ Y.In Y.Rule R}
    (h : run Y.par Y.kit r ops = .ok s) (cv : List ℝ) (x : Y.In) :
    ∃ p s', predictRow Y.par Y.kit cv x s = .ok (p, s') := by
  have b := post_of_ok (run_post (lawsField Y.regular) r ops hv) h
  have hp := predictRow_post (lawsField Y.regular) x cv b
  have inv : Inv ({ s with explore := false } : St ℝ Y.In Y.Rule R) [] := (b.explore false).good.inv
  rcases supTrial_closed (par := Y.par) (x := x) (y := none) (cv := cv) (Y.stateless hf)
    inv (b.explore false).kset rfl with ⟨o, s1, _, _, h3⟩ | ⟨e, h1, h2⟩
  · exact ⟨s1.pa, s1, by unfold predictRow; rw [h3 none]; rfl⟩
  · exfalso
    have : predictRow Y.par Y.kit cv x s = .error e := by
      unfold predictRow
      rw [h2]; rfl
    rw [this] at hp
    have : e = .ub := by
      unfold rowOutcome at h1
      split at h1
      · cases h1
      · next hne =>
        rcases bind_fault h1 with h1 | ⟨p, _, h1⟩
        · exact paRules_faults Y _ _ _ h1
        · cases h1
    subst this
    exact hp

/-- **C93, rows**: `predict()` on a batch returns for each row what predicting that row alone
returns. -/
theorem C93_row_by_row_partial (hf : Y.Forgets) {r : R} {ops : List (Op ℝ Y.In Y.Rule)}
    (hv : ∀ op ∈ ops, op.valid) {s s' : St ℝ Y.In Y.Rule R} (h : run Y.par Y.kit r ops = .ok s)
    {cv : List ℝ} {xs : List Y.In} {ps : List (List ℝ)}
    (hpr : predictBatch Y.par Y.kit cv xs s = .ok (ps, s')) :
    ps.length = xs.length ∧ ∀ (i : Nat) x p, xs[i]? = some x → ps[i]? = some p →
      ∃ s'', predictRow Y.par Y.kit cv x s = .ok (p, s'') :=
  C22_row_by_row (Y.stateless hf) Y.hpar.popSize hv h hpr

/-- **C93, score**: the score of a data set is the mean of the losses of the predictions of its
rows. -/
theorem C93_score_partial (hf : Y.Forgets) {r : R} {ops : List (Op ℝ Y.In Y.Rule)}
    (hv : ∀ op ∈ ops, op.valid) {s s' : St ℝ Y.In Y.Rule R} (h : run Y.par Y.kit r ops = .ok s)
    {cv : List ℝ} {rows : List (Y.In × List ℝ)} {e : ℝ}
    (hsc : score Y.par Y.kit cv rows s = .ok (e, s')) :
    ∃ ps, predictBatch Y.par Y.kit cv (rows.map Prod.fst) s = .ok (ps, s') ∧
      e = (List.zipWith Y.pf.loss ps (rows.map Prod.snd)).sum / (rows.length : ℝ) :=
  C22_score_is_mean_loss (Y.stateless hf) Y.hpar.popSize hv h hsc

/-! ## A concrete system -/

section Examples

/-- A platform over the reals. -/
noncomputable def realPf : Platform ℝ Nat where
  rng :=
    { draw := fun r => (1 / 2, r + 1)
      gauss := fun r => (1, r + 1)
      exp := Real.exp }
  pow := fun _ _ => 1 / 2
  dblMax := 1000000
  loss := fun p y => |p.headD 0 - y.headD 0|

/-- Two inputs. -/
def realPlan : NetPlan := ⟨⟨5, 1000, 100, false, false⟩, false, ⟨2, 2, 1, 1⟩⟩

/-- Linear neurons trained by gradient descent. -/
noncomputable def realNeurons (n : Nat) : CArgs ℝ :=
  { nInputs := 2, nInit := n, nMax := 5, maxGrow := 0, fn := 3,
    opt := ⟨true, false, false, true, false, false⟩, eta := 1 / 10, etaMin := 0, momentum := 0,
    decay := 0 }

/-- Conditions, actions and predictions of one layer each. -/
noncomputable def realSetup : NetSetup ℝ where
  xDim := 2
  cond :=
    { csr := true, min := 0, max := 1, spreadMin := 1 / 10, eta := 1 / 10, pDontcare := 1 / 2,
      bits := 2, pCross := 4 / 5 }
  gp := { nInputs := 2, initDepth := 1, maxLen := 8, constants := [1, 2] }
  dgp := { evolve := true, maxK := 2, maxT := 3, n := 3, nInputs := 2 }
  stateful := false
  pred :=
    { xDim := 2, yDim := 1, quad := true, x0 := 1, eta := 1 / 10, etaMin := 1 / 100,
      evolveEta := true, lambda := 1, scale := 100, beta := 1 / 5 }
  mem := fun _ => 0
  tmp := fun _ => 0
  fuel := 20
  condNet := [.conn (realNeurons 1)]
  actNet := [.conn (realNeurons 2)]
  predNet := [.conn (realNeurons 1)]
  libm := realLibm
  lo := -1000

theorem realPlan_legal {n : Nat} (h : 1 ≤ n ∧ n ≤ 5) :
    realPlan.Legal 2 [.conn (realNeurons n)] where
  lim := ⟨by decide, by decide, by decide, by decide, by decide⟩
  pool := rfl
  weights := by decide
  outputs := by decide
  ne := by simp
  dim := ⟨by decide, by decide, (fun h => nomatch h)⟩
  ins := rfl
  fit := ⟨⟨⟨by show 1 ≤ 2; decide, h.1, h.2, by show (5 : Int) ≤ 5; decide, by show 5 * 2 ≤ 1000; decide,
    by decide, by show (n : Int) ≤ 5; omega, (fun h => nomatch h), by show (0 : Int) ≤ 3 ∧ (3 : Int) < 11; decide⟩,
    (fun h => nomatch h)⟩, (fun h => nomatch h), trivial⟩
  first := by
    intro a ha
    simp at ha
    subst ha
    rfl
  last := by
    intro a ha
    simp at ha
    subst ha
    rfl
  fixed := (fun h => nomatch h)

theorem realPlan_trains (n : Nat) : realPlan.Trains [.conn (realNeurons n)] where
  teach := by
    intro a ha
    simp at ha
    subst ha
    trivial
  conv := by
    intro a ha
    simp at ha
    subst ha
    rfl
  plain := by
    intro h
    cases h

/-- A system over the reals all parts of whose rules are networks. -/
noncomputable def realSystem : NetSystem ℝ Nat where
  par :=
    { popSize := 4, nActions := 2, yDim := 1, alpha := 1/10, beta := 1/5, delta := 1/10, e0 := 1/100,
      nu := 5, initErr := 0, initFit := 1/100, gamma := 9/10, pExplore := 9/10, thetaDel := 20,
      thetaSub := 1, mProbation := 3, setSubsumption := true, compaction := false,
      popInit := false, teletransportation := 3, maxCover := 100, loopBound := 10,
      eaTournament := false, eaSelectSize := 2/5, eaTheta := 1, eaLambda := 2,
      eaErrReduc := 1, eaFitReduc := 1/10, eaSubsumption := true, eaPredReset := false }
  pf := realPf
  S := realSetup
  rule := .parts none true
  pred := none
  condPlan := realPlan
  actPlan := realPlan
  predPlan := realPlan
  hpar := by constructor <;> norm_num
  hpf := ⟨fun r => by show (0 : ℝ) < 1 / 2 ∧ (1 / 2 : ℝ) < 1; norm_num, fun p y => abs_nonneg _⟩
  hnormal := fun r => by show (-10 : ℝ) ≤ 1 ∧ (1 : ℝ) ≤ 10; norm_num
  hexp := Real.exp_pos
  hrule := ⟨⟨realPlan_legal (by decide), by show (1 : Int) ≤ ((1 : Nat) : Int); decide⟩,
    fun _ => ⟨realPlan_legal (by decide), by show ((2 : Nat) : Int) ≤ ((2 : Nat) : Int); decide⟩⟩
  hpred := ⟨realPlan_legal (by decide), realPlan_trains 1, by show ((1 : Nat) : Int) = ((1 : Nat) : Int); rfl⟩
  hyDim := rfl

theorem realSystem_forgets : realSystem.Forgets where
  libm := rfl
  rule := by
    refine ⟨(fun h => nomatch h), fun _ l hl => ?_, fun _ l hl => ?_⟩
    · have hl : l ∈ [GArgs.conn (realNeurons 1)] := hl
      simp at hl; subst hl; rfl
    · have hl : l ∈ [GArgs.conn (realNeurons 2)] := hl
      simp at hl; subst hl; rfl
  pred := by
    intro _ l hl
    have hl : l ∈ [GArgs.conn (realNeurons 1)] := hl
    simp at hl; subst hl; rfl

/-- A layer of `n` neurons with all weights one. -/
noncomputable def realLayer (n : Nat) : CLay ℝ :=
  { nInputs := 2, nOutputs := n, maxOutputs := 5, maxGrow := 0, nActive := (n * 2 : Nat), outW := n,
    outH := 1, outC := 1, fn := 3, opt := ⟨true, false, false, true, false, false⟩, eta := 1 / 10,
    etaMax := 1 / 10, etaMin := 0, momentum := 0, decay := 0
    ws := List.replicate (n * 2) ⟨1, 0, true⟩, ns := List.replicate n ⟨0, 0, 0, 0, 0⟩
    mu := List.replicate 6 1 }

theorem realLayer_ok {n : Nat} (h : 1 ≤ n ∧ n ≤ 5) (tr : Bool) :
    NetOk realPlan [.conn (realNeurons n)] tr ⟨n, [.conn (realLayer n)]⟩ where
  legal := by
    refine ⟨⟨⟨by show 1 ≤ 2; decide, h.1, by simp [realLayer], by simp [realLayer], ?_, ?_, ?_, ?_, ?_⟩,
      ⟨h.2, by show (5 : Int) ≤ 5; decide, (fun h => nomatch h), by show 5 * 2 ≤ 1000; decide,
        (fun h => nomatch h), by decide⟩, (fun h => nomatch h), fun _ => ⟨rfl, rfl, rfl⟩⟩, ?_, ?_, ?_,
      trivial⟩
    · intro w hw
      obtain rfl := List.eq_of_mem_replicate hw
      exact ⟨by norm_num, by norm_num, (fun h => nomatch h)⟩
    · intro w hw
      obtain rfl := List.eq_of_mem_replicate hw
      norm_num
    · simp [realLayer]
    · refine ⟨by simp [realLayer], fun v hv => ?_⟩
      obtain rfl := List.eq_of_mem_replicate hv
      constructor <;> norm_num
    · show (0 : Int) ≤ 3 ∧ (3 : Int) < 11
      decide
    · exact ⟨rfl, fun _ h => nomatch h⟩
    · intro h; cases h
    · intro h; cases h
  trait := rfl
  noted := rfl
  head := rfl
  shown := fun _ l hl => by
    simp at hl
    subst hl
    refine ⟨(realLayer n).ns.map Neuron.out, rfl, ?_⟩
    show _ = ((n : Nat) : Int).toNat
    rw [List.length_map]
    simp [realLayer]

/-- A rule whose networks add the inputs. -/
noncomputable def realRule : Cl ℝ realSystem.Rule where
  err := 0
  fit := 1
  num := 1
  exp := 1
  size := 1
  time := 0
  m := false
  prediction := [0]
  action := 0
  age := 0
  mtotal := 0
  body := ⟨⟨(⟨1, [.conn (realLayer 1)]⟩ : NetBody ℝ), (⟨2, [.conn (realLayer 2)]⟩ : NetBody ℝ),
    (⟨1, [.conn (realLayer 1)]⟩ : NetBody ℝ)⟩,
    ⟨realLayer_ok (n := 1) (by decide) false, realLayer_ok (n := 2) (by decide) false,
      realLayer_ok (n := 1) (by decide) true⟩⟩

/-- The rule contains the input (1, 1). -/
theorem realRule_holds : realSystem.Holds realRule.body [1, 1] := by
  show Fires (netVal [.conn (realLayer 1)] [1, 1])
  unfold Fires netVal
  simp only [List.foldl_cons, List.foldl_nil, layVal, Par.out, CLay.par, realLayer, Par.pre]
  simp [actSpec, clip, Finset.sum_range_succ]
  norm_num

/-- The history: the rule is inserted. -/
theorem realHistory : ∃ s, run realSystem.par realSystem.kit 0 [.insert realRule] = .ok s ∧
    population s = [realRule] := ⟨_, rfl, rfl⟩

/-- The hypotheses of the theorems on predictions are met, and the second case occurs. -/
example : ∃ (Y : NetSystem ℝ Nat) (ops : List (Op ℝ Y.In Y.Rule)) (x : Y.In) (s s' : St ℝ Y.In Y.Rule Nat)
    (p : List ℝ), Y.Forgets ∧ (∀ op ∈ ops, op.valid) ∧
    (∀ op ∈ ops, op.ok (RuleOK Y.par (fun _ : Y.Rule => True))) ∧ run Y.par Y.kit 0 ops = .ok s ∧
    predictRow Y.par Y.kit [0, 0] x s = .ok (p, s') ∧ ∃ c ∈ population s, Y.Holds c.body x.1 := by
  obtain ⟨s, h, hp⟩ := realHistory
  have hv : ∀ op ∈ [(.insert realRule : Op ℝ realSystem.In realSystem.Rule)],
      op.ok (RuleOK realSystem.par (fun _ : realSystem.Rule => True)) := by
    intro op ho
    simp at ho
    subst ho
    exact ⟨⟨le_refl _, one_pos, le_refl _, zero_le_one, by decide, le_refl 0,
      by show (0 : Int) < ((2 : Nat) : Int); decide, rfl, trivial⟩, le_refl 1⟩
  obtain ⟨p, s', e⟩ := C93_predict_returns_partial realSystem realSystem_forgets hv h [0, 0]
    ⟨[1, 1], rfl⟩
  refine ⟨realSystem, _, ⟨[1, 1], rfl⟩, s, s', p, realSystem_forgets, ?_, hv, h, e, realRule, ?_,
    realRule_holds⟩
  · intro op ho
    simp at ho
    subst ho
    exact le_refl 1
  · rw [hp]
    exact List.mem_singleton.2 rfl

/-- The hypotheses of the theorem on networks are met. -/
example : ∃ ls r', realPlan.lim.Ok ∧ realPf.rng.Open ∧ realPf.rng.Bounded ∧
    realPlan.dim.Ok realPlan.lim realPlan.image ∧
    ArgsFit realPlan.lim realPlan.image realPlan.dim [.conn (realNeurons 2)] ∧
    (∀ a ∈ [GArgs.conn (realNeurons 2)].head?, a.first realPlan.dim) ∧
    (genCreate realPf.rng [.conn (realNeurons 2)] 0 >>= fun p =>
      nrun realPf.rng realLibm 0 5 realPlan.dim.n.toNat [.copy, .forward true fun _ => 1, .mutate,
        .rand] p.1 p.2) = .ok (ls, r') ∧
    Above 0 ls [1, 1] := by
  have L := realPlan_legal (n := 2) (by decide)
  have h : Post (genCreate realPf.rng [.conn (realNeurons 2)] 0 >>= fun p =>
      nrun realPf.rng realLibm 0 5 realPlan.dim.n.toNat [.copy, .forward true fun _ => 1, .mutate,
        .rand] p.1 p.2) (fun z => NetLegal realPlan.lim realPlan.image realPlan.dim z.1)
      (GFault realPlan.lim) :=
    post_bind (genCreate_step L.lim realSystem.hpf.rng realSystem.hnormal (by simp) L.dim L.fit
      L.first 0) fun z hz => post_mono (nrun_step L.lim realSystem.hpf.rng realSystem.hnormal
        Real.exp_pos 0 (by decide) L.dim _ z.1 z.2 hz.1) fun w hw => hw.1
  revert h
  generalize (genCreate realPf.rng [.conn (realNeurons 2)] 0 >>= fun p =>
      nrun realPf.rng realLibm 0 5 realPlan.dim.n.toNat [.copy, .forward true fun _ => 1, .mutate,
        .rand] p.1 p.2) = q
  intro h
  cases q with
  | error e =>
    have h : GFault realPlan.lim e := h
    simp [GFault, realPlan] at h
  | ok z =>
    exact ⟨z.1, z.2, L.lim, realSystem.hpf.rng, realSystem.hnormal, L.dim, L.fit, L.first, rfl,
      above_of rfl 0 _ _ _ _ h⟩

end Examples

/-! ## Where the property fails -/

/-- Predictions by one recurrent neuron trained by gradient descent. -/
def recSetup : NetSetup ℚ :=
  { netSetup with
    predNet := [.recu { demoNeurons 1 false with nInputs := 2 }] }

theorem recPlan_pred : (netPlan false).Legal 2 recSetup.predNet where
  lim := ⟨by decide, by decide, by decide, by decide, by decide⟩
  pool := rfl
  weights := by decide
  outputs := by decide
  ne := by simp [recSetup]
  dim := ⟨by decide, by decide, (fun h => nomatch h)⟩
  ins := rfl
  fit := ⟨⟨⟨by decide, by decide, by decide, by decide, by decide, by decide, by decide,
      fun _ => by decide, by decide⟩, (fun h => nomatch h)⟩, by decide, trivial⟩
  first := by
    intro a ha
    simp [recSetup] at ha
    subst ha
    rfl
  last := by
    intro a ha
    simp [recSetup] at ha
    subst ha
    rfl
  fixed := (fun h => nomatch h)

theorem recPlan_trains : (netPlan false).Trains recSetup.predNet where
  teach := by
    intro a ha
    simp [recSetup] at ha
    subst ha
    exact Or.inr rfl
  conv := by
    intro a ha
    simp [recSetup] at ha
    subst ha
    rfl
  plain := by
    intro h
    cases h

/-- A system with such predictions; every rule matches. -/
def recSystem : NetSystem ℚ Nat where
  par := Demo.par
  pf := netPf
  S := recSetup
  rule := .parts (some .dummy) false
  pred := none
  condPlan := netPlan true
  actPlan := netPlan false
  predPlan := netPlan false
  hpar := (demoSystem .dummy .constant).hpar
  hpf := netPf_legal
  hnormal := netPf_bounded
  hexp := fun x => by show (0 : ℚ) < 1 + x * x; nlinarith [mul_self_nonneg x]
  hrule := ⟨trivial, fun h => by cases h⟩
  hpred := ⟨recPlan_pred, recPlan_trains, by decide +kernel⟩
  hyDim := rfl

/-- **C93 fails for rules with recurrent layers**: the same row twice in a batch is predicted
differently, because predicting a row changes the memory of the layer. -/
theorem C93_recurrent_refuted :
    ∃ (ops : List (Op ℚ recSystem.In recSystem.Rule)) (x : recSystem.In)
      (s s' : St ℚ recSystem.In recSystem.Rule Nat) (p q : List ℚ),
      (∀ op ∈ ops, op.valid) ∧ run recSystem.par recSystem.kit 0 ops = .ok s ∧
      predictBatch recSystem.par recSystem.kit [0, 0] [x, x] s = .ok ([p, q], s') ∧ p ≠ q := by
  have h : (match run recSystem.par recSystem.kit 0
        [.fit ⟨[1 / 2, 1 / 4], rfl⟩ [1], .fit ⟨[1 / 3, 1 / 4], rfl⟩ [1]] with
      | .ok s => (match predictBatch recSystem.par recSystem.kit [0, 0]
            [⟨[1 / 2, 1 / 4], rfl⟩, ⟨[1 / 2, 1 / 4], rfl⟩] s with
        | .ok ([p, q], _) => decide (p ≠ q)
        | _ => false)
      | _ => false) = true := by decide +kernel
  split at h
  · next s e =>
    split at h
    · next p q s' e2 =>
      refine ⟨_, ⟨[1 / 2, 1 / 4], rfl⟩, s, s', p, q, ?_, e, e2, of_decide_eq_true h⟩
      intro op ho
      simp at ho
      rcases ho with rfl | rfl <;> trivial
    · cases h
  · cases h

end Xcsf
