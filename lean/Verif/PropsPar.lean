import Verif.ParRep

/-!
# C88: histories on several threads

The default build runs the loops over rules on several threads.  The outcome of every history of
calls is the same whatever the schedule, and that of the serial loops, as long as no rule uses the
generator of random numbers while it is matched, predicts or is updated.  All rules without networks
and all networks without noise and dropout layers are of this kind.  Networks with such layers are
not: the threads race for the generator.
-/

set_option linter.unusedSectionVars false

namespace Xcsf

section General
variable {A K X B R : Type} [Zero K] [One K] [Add K] [Sub K] [Mul K] [Div K]
  [LT K] [DecidableLT K] [IntCast K] [DecidableEq K]
variable {par : Params K} {kit : Kit K X B R} {lp : Bodies A K X B R}

/-- **C88.** Whatever steps the loop bodies consist of, if none of them uses the generator then every
execution of a history of calls on several threads — every distribution of the rules over threads and
every interleaving of their steps, in every loop — has the one outcome of the loops in series: no
thread reads what another one writes, and neither the results nor the order of the match set depend
on the schedule.  Missing of the full claim: bodies that use the generator, for which it is false,
see below. -/
theorem C88_any_schedule_partial (hp : 0 ≤ par.popSize) (hpar : kit.parallel = true)
    (ho : lp.Of par kit) (hq : lp.Quiet) (r : R) (ops : List (Op K X B))
    (hv : ∀ op ∈ ops, op.ok fun _ => True) (o : Res (St K X B R)) :
    parRun par kit lp r ops o ↔ o = run par kit r ops := by
  rw [show parRun par kit lp r ops = Nd.lift (run par kit r ops) from
    parRun_judge (lawsTriv par kit hp) (quietJudge ho hq hpar) r ops hv]
  exact Iff.rfl

/-- **C88**, no thread is ever stuck: however far a loop whose bodies do not use the generator has
been executed, nothing has gone wrong and the threads can finish. -/
theorem C88_loops_finish {body : Prog A (Cl K B) R} (hb : body.Quiet) {l : List Nat} (hn : l.Nodup)
    {s : St K X B R} (hl : ∀ i ∈ l, (s.heap i).isSome)
    {todo : List (List (Nat × Prog A (Cl K B) R))}
    (hp : todo.flatten.Perm (l.map fun i => (i, body))) (σ : List Nat) :
    ∃ z, (s.threads todo).ticks σ = .ok z ∧ ∃ σ' z', z.ticks σ' = .ok z' ∧ z'.Finished := by
  have F := Threads.Fine.start (r := s.rng) hb hn hl hp
  obtain ⟨z, e, F'⟩ := F.ticks σ
  obtain ⟨σ', z', e', -, hf⟩ := F'.finish _ rfl
  exact ⟨z, e, σ', z', e', hf⟩

/-- **C88**, the serial program: its outcome is among those of the multi-threaded one, whether the
loop bodies use the generator or not. -/
theorem C88_serial_possible (hp : 0 ≤ par.popSize) (hpar : kit.parallel = true)
    (ho : lp.Of par kit) (r : R) (ops : List (Op K X B)) (hv : ∀ op ∈ ops, op.ok fun _ => True) :
    parRun par kit lp r ops (run par kit r ops) :=
  parRun_judge (lawsTriv par kit hp) (serialJudge ho hpar) r ops hv

/-- **C88**, one thread (`omp_num_threads` = 1): a loop never races, and when it is done the rules and
the generator are those of the loop in series, whether the bodies use the generator or not. -/
theorem C88_one_thread {body : Prog A (Cl K B) R} {l : List Nat} {s : St K X B R}
    (hl : ∀ i ∈ l, (s.heap i).isSome) (σ : List Nat) :
    ∃ z, (s.threads [l.map fun i => (i, body)]).ticks σ = .ok z ∧ (z.Finished →
      forEachCl (fun r c => body.run c r) l s = .ok { s with heap := z.heap, rng := z.rng }) :=
  single_thread hl σ

/-- **C88**, races: if two rules that are done by different threads both use the generator, then no
schedule completes the loop; each of them ends in undefined behaviour. -/
theorem C88_races_in_every_schedule {body : Prog A (Cl K B) R} {l : List Nat} (hn : l.Nodup)
    {s : St K X B R} (hl : ∀ i ∈ l, (s.heap i).isSome)
    {todo : List (List (Nat × Prog A (Cl K B) R))}
    (hp : todo.flatten.Perm (l.map fun i => (i, body))) {t u i j : Nat} (htu : t ≠ u)
    {q q' : List (Nat × Prog A (Cl K B) R)} (ht : todo[t]? = some q) (hu : todo[u]? = some q')
    (hi : (i, body) ∈ q) (hj : (j, body) ∈ q') {c d : Cl K B} (hc : s.heap i = some c)
    (hd : s.heap j = some d) {r r' : R} (bc : (body.run c r).2 ≠ r) (bd : (body.run d r').2 ≠ r')
    (σ : List Nat) (z : Threads A (Cl K B) R) (e : (s.threads todo).ticks σ = .ok z) :
    ¬ z.Finished ∧ ∃ σ', z.ticks σ' = .error .ub := by
  refine ⟨race_always hn hl hp htu ht hu hi hj hc hd (Prog.draws_of bc) (Prog.draws_of bd) σ z e, ?_⟩
  have S := Threads.Sane.ticks σ (Threads.Sane.start (r := s.rng) hn hl hp) e
  obtain ⟨σ', h | ⟨z', h, hf⟩⟩ := S.finish _ rfl
  · exact ⟨σ', h⟩
  · exfalso
    refine race_always hn hl hp htu ht hu hi hj hc hd (Prog.draws_of bc) (Prog.draws_of bd)
      (σ ++ σ') z' ?_ hf
    rw [Threads.ticks_append, e]
    exact h

/-- **C88**, histories that race: if after a history two rules of the population use the generator
when they are matched for exploration, then learning from one more sample can have undefined
behaviour, whatever steps the loop bodies consist of. -/
theorem C88_matching_races (hp : 0 ≤ par.popSize) (hpar : kit.parallel = true) (ho : lp.Of par kit)
    {r : R} {ops : List (Op K X B)} (hv : ∀ op ∈ ops, op.ok fun _ => True) {s : St K X B R}
    (hs : run par kit r ops = .ok s) {i j : Nat} (hi : i ∈ s.pset.list) (hj : j ∈ s.pset.list)
    (hij : i ≠ j) {c d : Cl K B} (hc : s.heap i = some c) (hd : s.heap j = some d) {x : X} {r1 r2 : R}
    (h1 : (senseCl kit true x c r1).2 ≠ r1) (h2 : (senseCl kit true x d r2).2 ≠ r2) (y : List K) :
    parRun par kit lp r (ops ++ [.fit x y]) (.error .ub) := by
  have hrun := C88_serial_possible hp hpar ho r ops hv
  rw [hs] at hrun
  have hb := post_of_ok (run_post (lawsTriv par kit hp) r ops hv) hs
  have g := hb.good.inv.p
  have happ : ∀ (ops' : List (Op K X B)) (s0 : St K X B R), parSteps par kit lp ops' s0 (.ok s) →
      parStep par kit lp s (.fit x y) (.error .ub) →
      parSteps par kit lp (ops' ++ [.fit x y]) s0 (.error .ub) := by
    intro ops'
    induction ops' with
    | nil =>
      intro s0 h k
      have h : Except.ok s = Except.ok s0 := h
      cases h
      exact Or.inl ⟨.ub, k, rfl⟩
    | cons op ops' ih =>
      rintro s0 (⟨e, _, h⟩ | ⟨s1, h, h'⟩) k
      · cases h
      · exact Or.inr ⟨s1, h, ih s1 h' k⟩
  have hstep : parStep par kit lp s (.fit x y) (.error .ub) := by
    refine Or.inl ⟨.ub, Or.inl ⟨.ub, Or.inl ⟨.ub, Or.inl ⟨.ub, Or.inl ⟨.ub, ?_, rfl⟩, rfl⟩, rfl⟩, rfl⟩,
      rfl⟩
    refine parLoop_race (s := { s with explore := true, mset := {}, kset := {} }) g.nodup
      (fun i hi => g.isSome hi) hi hj hij hc hd (Prog.draws_of (r := r1) ?_)
      (Prog.draws_of (r := r2) ?_)
    · show ((lp.sense true x).run c r1).2 ≠ r1
      rw [ho.sense]; exact h1
    · show ((lp.sense true x).run d r2).2 ≠ r2
      rw [ho.sense]; exact h2
  rcases hrun with ⟨e, _, h⟩ | ⟨s0, h, h'⟩
  · cases h
  · exact Or.inr ⟨s0, h, happ ops s0 h' hstep⟩

end General

/-! ## Complete systems -/

section Systems
variable {K R : Type} [Field K] [LinearOrder K] [IsStrictOrderedRing K] [FloorRing K]

/-- **C88** for systems with any condition, integer actions and constant, NLMS or RLS predictions:
their loop bodies need no random numbers — there are bodies without — and with all such bodies the
multi-threaded program has the outcome of the loops in series, whatever the schedule. -/
theorem C88_systems (Y : System K R) (hpar : Y.pf.parallel = true) :
    (∃ lp : Bodies K K Y.In Y.Rule R, lp.Of Y.par Y.kit ∧ lp.Quiet) ∧
    ∀ (A : Type) (lp : Bodies A K Y.In Y.Rule R), lp.Of Y.par Y.kit → lp.Quiet → ∀ (r : R)
      (ops : List (Op K Y.In Y.Rule)), (∀ op ∈ ops, op.ok fun _ => True) → ∀ o,
      (parRun Y.par Y.kit lp r ops o ↔ o = run Y.par Y.kit r ops) := by
  refine ⟨?_, fun A lp ho hq r ops hv o =>
    C88_any_schedule_partial Y.hpar.popSize hpar ho hq r ops hv o⟩
  by_cases hr : Nonempty R
  · obtain ⟨r⟩ := hr
    exact ⟨silentBodies Y.par Y.kit r, silentBodies_of Y.silent r, silentBodies_quiet _ _ _⟩
  · exact ⟨⟨fun _ _ => .done, fun _ _ => .done, fun _ _ _ _ _ => .done⟩,
      ⟨fun _ _ _ r => absurd ⟨r⟩ hr, fun _ _ _ r => absurd ⟨r⟩ hr, fun _ _ _ _ _ _ r => absurd ⟨r⟩ hr⟩,
      ⟨fun _ _ => trivial, fun _ _ => trivial, fun _ _ _ _ _ => trivial⟩⟩

/-- **C88** for systems with neural networks without noise and dropout layers, and for rules of one
graph or network. -/
theorem C88_networks_partial (Y : NetSystem K R) (hcalm : Y.Calm) (hpar : Y.pf.parallel = true) :
    (∃ lp : Bodies K K Y.In Y.Rule R, lp.Of Y.par Y.kit ∧ lp.Quiet) ∧
    ∀ (A : Type) (lp : Bodies A K Y.In Y.Rule R), lp.Of Y.par Y.kit → lp.Quiet → ∀ (r : R)
      (ops : List (Op K Y.In Y.Rule)), (∀ op ∈ ops, op.ok fun _ => True) → ∀ o,
      (parRun Y.par Y.kit lp r ops o ↔ o = run Y.par Y.kit r ops) := by
  refine ⟨?_, fun A lp ho hq r ops hv o =>
    C88_any_schedule_partial Y.hpar.popSize hpar ho hq r ops hv o⟩
  by_cases hr : Nonempty R
  · obtain ⟨r⟩ := hr
    exact ⟨silentBodies Y.par Y.kit r, silentBodies_of (Y.silent hcalm) r, silentBodies_quiet _ _ _⟩
  · exact ⟨⟨fun _ _ => .done, fun _ _ => .done, fun _ _ _ _ _ => .done⟩,
      ⟨fun _ _ _ r => absurd ⟨r⟩ hr, fun _ _ _ r => absurd ⟨r⟩ hr, fun _ _ _ _ _ _ r => absurd ⟨r⟩ hr⟩,
      ⟨fun _ _ => trivial, fun _ _ => trivial, fun _ _ _ _ _ => trivial⟩⟩

end Systems

/-! ## Concrete systems -/

section Examples

/-- The demonstration systems in a multi-threaded build. -/
def parSystem (c : CondType) (q : PredType) : System ℚ Nat :=
  { demoSystem c q with
    pf := { demoPf with parallel := true }
    hpf := ⟨demoPf_legal.rng, demoPf_legal.loss⟩ }

/-- A history of learning, prediction and a reward runs. -/
def parRuns (c : CondType) (q : PredType) : Bool :=
  Demo.Res.test (run (parSystem c q).par (parSystem c q).kit 0
    [.fit ⟨[1 / 2, 1 / 4], rfl⟩ [1], .fit ⟨[1, 1 / 3], rfl⟩ [2], .rlFit ⟨[1, 1 / 3], rfl⟩ 1 1,
      .predict [⟨[1 / 2, 1 / 2], rfl⟩] [0, 0]]) fun s => 1 < s.pset.size

example : parRuns .rectangle .rls = true := by decide +kernel
example : parRuns .dgp .nlms = true := by decide +kernel

/-- Networks without noise and dropout. -/
def calmSetup : NetSetup ℚ :=
  { netSetup with condNet := netSetup.predNet, actNet := [] }

/-- A multi-threaded system with networks as conditions and predictions. -/
def calmSystem : NetSystem ℚ Nat where
  par := Demo.par
  pf := { netPf with parallel := true }
  S := calmSetup
  rule := .parts none false
  pred := none
  condPlan := netPlan true
  actPlan := netPlan false
  predPlan := netPlan true
  hpar := (demoSystem .dummy .constant).hpar
  hpf := ⟨netPf_legal.rng, netPf_legal.loss⟩
  hnormal := netPf_bounded
  hexp := (netSystem .neural none).hexp
  hrule := ⟨⟨netPlan_pred, by decide +kernel⟩, fun h => by cases h⟩
  hpred := ⟨netPlan_pred, netPlan_trains, by decide +kernel⟩
  hyDim := rfl

example : calmSystem.Calm := ⟨by decide, by decide, by decide⟩

example : Demo.Res.test (run calmSystem.par calmSystem.kit 0
    [.fit ⟨[1 / 2, 1 / 4], rfl⟩ [1], .fit ⟨[1, 1 / 3], rfl⟩ [2],
      .predict [⟨[1 / 2, 1 / 2], rfl⟩] [0, 0]]) (fun s => 1 < s.pset.size) = true := by
  decide +kernel

end Examples

/-! ## Where the property fails -/

/-- A multi-threaded system whose conditions are networks with a noise layer. -/
def noisySystem : NetSystem ℚ Nat :=
  { netSystem (.parts none false) (some .nlms) with
    pf := { netPf with parallel := true }
    hpf := ⟨netPf_legal.rng, netPf_legal.loss⟩ }

/-- A first sample. -/
def noisyFit : Op ℚ noisySystem.In noisySystem.Rule := .fit ⟨[1 / 2, 1 / 4], rfl⟩ [1]

/-- There are two rules, and matching either of them draws random numbers. -/
def noisyState (s : St ℚ noisySystem.In noisySystem.Rule Nat) : Bool :=
  match s.pset.list with
  | i :: j :: _ =>
    match s.heap i, s.heap j with
    | some c, some d =>
      i != j && (senseCl noisySystem.kit true ⟨[1, 1 / 3], rfl⟩ c 0).2 != 0 &&
        (senseCl noisySystem.kit true ⟨[1, 1 / 3], rfl⟩ d 0).2 != 0
    | _, _ => false
  | _ => false

/-- **C88 refuted** for networks with noise layers: the second of two calls of `fit` races for the
generator, whatever steps the loop bodies consist of, although the loops in series succeed. -/
theorem C88_noise_refuted :
    (∀ (A : Type) (lp : Bodies A ℚ noisySystem.In noisySystem.Rule Nat),
      lp.Of noisySystem.par noisySystem.kit →
      parRun noisySystem.par noisySystem.kit lp 0
        [noisyFit, .fit ⟨[1, 1 / 3], rfl⟩ [2]] (.error .ub)) ∧
    ∃ s, run noisySystem.par noisySystem.kit 0 [noisyFit, .fit ⟨[1, 1 / 3], rfl⟩ [2]] = .ok s := by
  constructor
  · intro A lp ho
    have h : Demo.Res.test (run noisySystem.par noisySystem.kit 0 [noisyFit]) noisyState = true := by
      decide +kernel
    obtain ⟨s, hs, ht⟩ := Demo.Res.test_iff h
    unfold noisyState at ht
    split at ht
    · next i j l hl =>
      split at ht
      · next c d hc hd =>
        simp only [Bool.and_eq_true, bne_iff_ne, ne_eq] at ht
        exact C88_matching_races (ops := [noisyFit]) noisySystem.hpar.popSize rfl ho
          (fun op hop => by
            simp only [List.mem_singleton] at hop
            subst hop
            trivial) hs (i := i) (j := j) (by rw [hl]; simp) (by rw [hl]; simp) ht.1.1 hc hd
          (r1 := 0) (r2 := 0) ht.1.2 ht.2 [2]
      · cases ht
    · cases ht
  · have h : Demo.Res.test (run noisySystem.par noisySystem.kit 0
        [noisyFit, .fit ⟨[1, 1 / 3], rfl⟩ [2]]) (fun _ => true) = true := by
      decide +kernel
    obtain ⟨s, hs, -⟩ := Demo.Res.test_iff h
    exact ⟨s, hs⟩

/-- There are such bodies. -/
example : ∃ lp : Bodies Nat ℚ noisySystem.In noisySystem.Rule Nat,
    lp.Of noisySystem.par noisySystem.kit :=
  ⟨{ sense := fun e x => .own id fun c => .draw (fun r => (r, (senseCl noisySystem.kit e x c r).2))
        fun r => .own (fun c => (senseCl noisySystem.kit e x c r).1) fun _ => .done
     predict := fun e x => .own id fun c =>
        .draw (fun r => (r, (predictCl noisySystem.kit e x c r).2))
        fun r => .own (fun c => (predictCl noisySystem.kit e x c r).1) fun _ => .done
     update := fun e x y n cur => .own id fun c =>
        .draw (fun r => (r, (clUpdate noisySystem.par noisySystem.kit e c x y n cur r).2))
        fun r => .own (fun c => (clUpdate noisySystem.par noisySystem.kit e c x y n cur r).1)
          fun _ => .done },
    ⟨fun _ _ _ _ => rfl, fun _ _ _ _ => rfl, fun _ _ _ _ _ _ _ => rfl⟩⟩

end Xcsf
