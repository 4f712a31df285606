import Verif.Resume
import Verif.Props3
import Verif.PropsSerial

/-!
# C95: there is no hidden state; a saved system continues where it stopped

What a system will answer to every further history of calls is determined by its rules in their
order, the stored population, its running numbers and the state of the generator.  Where the rules
live in memory and what is left over from earlier calls makes no difference.  So a system loaded
from a file goes on exactly like the one that was saved, as long as the generator is in the same
state and no population was stored; without that it does not, and neither does a system whose
population has been stored and retrieved.
-/

set_option linter.unusedSectionVars false

namespace Xcsf

/-! ## Specification -/

/-- What a call returns to the caller. -/
inductive Reply (K : Type) where
  | done
  | error (e : K)
  | outputs (ps : List (List K))
  | trial (steps : Nat) (e : K)
  deriving DecidableEq

/-- What a system keeps between two calls, for all a user can tell. -/
structure SameState {K X B R : Type} (s s' : St K X B R) : Prop where
  rules : population s = population s'
  stored : storedPopulation s = storedPopulation s'
  error : s.error = s'.error
  msetSize : s.msetSize = s'.msetSize
  asetSize : s.asetSize = s'.asetSize
  mfrac : s.mfrac = s'.mfrac
  time : s.time = s'.time
  explore : s.explore = s'.explore
  rng : s.rng = s'.rng

section
variable {K X B R : Type} [Zero K] [One K] [Add K] [Sub K] [Mul K] [Div K]
  [LT K] [DecidableLT K] [IntCast K] [DecidableEq K]

/-- One call with its answer: `xcs_supervised_fit`/`_predict`/`_score`, xcs_supervised.c:98-173,
`xcs_rl_fit` and a trial, xcs_rl.c:42-119; the others return nothing. -/
def call (par : Params K) (kit : Kit K X B R) (s : St K X B R) :
    Op K X B → Res (Reply K × St K X B R)
  | .fit x y => do let p ← fitStep par kit x y s; .ok (.error p.1, p.2)
  | .test x y => do let p ← testStep par kit x y s; .ok (.error p.1, p.2)
  | .predict xs cv => do let p ← predictBatch par kit cv xs s; .ok (.outputs p.1, p.2)
  | .score rows cv => do let p ← score par kit cv rows s; .ok (.error p.1, p.2)
  | .rlFit x a reward => do let p ← rlFit par kit x a reward s; .ok (.error p.1, p.2)
  | .rlTrial env explore => do
    let p ← rlTrial par kit env explore s
    .ok (.trial p.1 p.2.1, p.2.2)
  | .insert c => do let s ← insertCl par kit c s; .ok (.done, s)
  | .import cs => do let s ← jsonInsert par kit cs s; .ok (.done, s)
  | .store => do let s ← store par kit s; .ok (.done, s)
  | .retrieve => do let s ← retrieve s; .ok (.done, s)

/-- Calls one after the other, with all answers. -/
def session (par : Params K) (kit : Kit K X B R) :
    List (Op K X B) → St K X B R → Res (List (Reply K) × St K X B R)
  | [], s => .ok ([], s)
  | op :: ops, s => do
    let p ← call par kit s op
    let q ← session par kit ops p.2
    .ok (p.1 :: q.1, q.2)

/-- Two sessions that a user cannot tell apart: they fail in the same way, or give the same answers
and end in the same state. -/
def Indistinct (m m' : Res (List (Reply K) × St K X B R)) : Prop :=
  (∃ f, m = .error f ∧ m' = .error f) ∨
    ∃ a s s', m = .ok (a, s) ∧ m' = .ok (a, s') ∧ SameState s s'

/-! ## Proofs -/

variable {par : Params K} {kit : Kit K X B R} {ρ : Nat → Nat → Prop} {n n' : Nat}

theorem StRel.same {fm fp : Bool × Bool} {fa : Bool} {s s' : St K X B R}
    (h : StRel ρ n n' fm fa fp s s') : SameState s s' :=
  ⟨h.population, h.storedPopulation, h.error, h.msetSize, h.asetSize, h.mfrac, h.time, h.explore,
    h.rng⟩

theorem call_rel {s s' : St K X B R}
    (h : StRel ρ n n' (false, false) false (false, false) s s') (op : Op K X B) :
    ResRel (StRel.Ans ρ n n') (call par kit s op) (call par kit s' op) := by
  cases op with
  | fit x y =>
    exact ResRel.bind (h.fitStep par kit x y) fun p q ⟨e, k⟩ => ⟨congrArg Reply.error e, k⟩
  | test x y =>
    exact ResRel.bind (h.testStep par kit x y) fun p q ⟨e, k⟩ => ⟨congrArg Reply.error e, k⟩
  | predict xs cv =>
    exact ResRel.bind (h.predictBatch par kit cv xs) fun p q ⟨e, k⟩ => ⟨congrArg Reply.outputs e, k⟩
  | score rows cv =>
    exact ResRel.bind (h.score par kit cv rows) fun p q ⟨e, k⟩ => ⟨congrArg Reply.error e, k⟩
  | rlFit x a v =>
    exact ResRel.bind (h.rlFit par kit x a v) fun p q ⟨e, k⟩ => ⟨congrArg Reply.error e, k⟩
  | rlTrial env ex =>
    refine ResRel.bind (h.rlTrial par kit env ex) fun p q ⟨e1, e2, k⟩ => ⟨?_, k⟩
    rw [e1, e2]
  | insert c => exact ResRel.bind (h.insertCl par kit c) fun p q k => ⟨rfl, k.weaken⟩
  | «import» cs => exact ResRel.bind (h.jsonInsert par kit cs) fun p q k => ⟨rfl, k.weaken⟩
  | store => exact ResRel.bind (h.store par kit) fun p q k => ⟨rfl, k.weaken⟩
  | retrieve => exact ResRel.bind h.retrieve fun p q k => ⟨rfl, k.weaken⟩

theorem session_rel : ∀ (ops : List (Op K X B)) {s s' : St K X B R},
    StRel ρ n n' (false, false) false (false, false) s s' →
    ResRel (StRel.Ans ρ n n') (session par kit ops s) (session par kit ops s')
  | [], _, _, h => ⟨rfl, h⟩
  | op :: ops, _, _, h => by
    unfold session
    refine ResRel.bind (call_rel h op) ?_
    rintro ⟨a, s1⟩ ⟨_, s1'⟩ ⟨e, k⟩
    cases e
    refine ResRel.bind (session_rel ops k) ?_
    rintro ⟨b, s2⟩ ⟨_, s2'⟩ ⟨e, k⟩
    cases e
    exact ⟨rfl, k⟩

theorem indistinct_of {m m' : Res (List (Reply K) × St K X B R)}
    (h : ResRel (StRel.Ans ρ n n') m m') : Indistinct m m' := by
  cases m with
  | error f => cases m' with
    | error g => cases h; exact .inl ⟨_, rfl, rfl⟩
    | ok p => exact h.elim
  | ok p => cases m' with
    | error g => exact h.elim
    | ok q =>
      obtain ⟨a, s⟩ := p
      obtain ⟨a', s'⟩ := q
      obtain ⟨e, k⟩ := h
      cases e
      exact .inr ⟨a, s, s', rfl, rfl, k.same⟩

theorem SameState.rel {s s' : St K X B R} (h : SameState s s') (g : Inv s []) (g' : Inv s' []) :
    StRel (Places s s') s.next s'.next (false, false) false (false, false) s s' :=
  .of_places g g' h.rules h.stored h.error h.msetSize h.asetSize h.mfrac h.time h.explore h.rng

theorem SameState.indistinct {s s' : St K X B R} (h : SameState s s') (g : Inv s [])
    (g' : Inv s' []) (ops : List (Op K X B)) :
    Indistinct (session par kit ops s) (session par kit ops s') :=
  indistinct_of (session_rel ops (h.rel g g'))

/-- Sessions are the histories of the other properties, with the answers. -/
theorem session_step : ∀ (ops : List (Op K X B)) (s : St K X B R),
    (session par kit ops s >>= fun p => Except.ok p.2) = ops.foldlM (step par kit) s
  | [], _ => rfl
  | op :: ops, s => by
    have e : step par kit s op = call par kit s op >>= fun p => Except.ok p.2 := by
      cases op with
      | insert c => simp only [step, call]; cases insertCl par kit c s <;> rfl
      | «import» cs => simp only [step, call]; cases jsonInsert par kit cs s <;> rfl
      | store => simp only [step, call]; cases Xcsf.store par kit s <;> rfl
      | retrieve => simp only [step, call]; cases Xcsf.retrieve s <;> rfl
      | fit x y => simp only [step, call]; cases fitStep par kit x y s <;> rfl
      | test x y => simp only [step, call]; cases testStep par kit x y s <;> rfl
      | predict xs cv => simp only [step, call]; cases predictBatch par kit cv xs s <;> rfl
      | score rows cv => simp only [step, call]; cases score par kit cv rows s <;> rfl
      | rlFit x a v => simp only [step, call]; cases rlFit par kit x a v s <;> rfl
      | rlTrial env ex => simp only [step, call]; cases rlTrial par kit env ex s <;> rfl
    rw [List.foldlM_cons, e]
    unfold session
    cases call par kit s op with
    | error f => rfl
    | ok p =>
      have ih := session_step ops p.2
      show ((session par kit ops p.2 >>= fun q => Except.ok (p.1 :: q.1, q.2)) >>=
        fun p => Except.ok p.2) = ops.foldlM (step par kit) p.2
      rw [← ih]
      cases session par kit ops p.2 <;> rfl

/-- **C95, no hidden state.**  Take two systems, each after any history of valid calls (with any
parameters and representations of its own).  If they now have the same rules in the same order, the
same stored rules, the same running numbers and a generator in the same state, then no further
history of calls tells them apart: the same calls fail in the same way, all answers are equal and so
are the rules afterwards. -/
theorem C95_no_hidden_state {p1 p2 : Params K} {k1 k2 : Kit K X B R} (hp1 : 0 ≤ p1.popSize)
    (hp2 : 0 ≤ p2.popSize) {r1 r2 : R} {o1 o2 : List (Op K X B)} (hv1 : ∀ op ∈ o1, op.valid)
    (hv2 : ∀ op ∈ o2, op.valid) {s1 s2 : St K X B R} (h1 : run p1 k1 r1 o1 = .ok s1)
    (h2 : run p2 k2 r2 o2 = .ok s2) (hs : SameState s1 s2) (par : Params K) (kit : Kit K X B R)
    (ops : List (Op K X B)) :
    Indistinct (session par kit ops s1) (session par kit ops s2) :=
  hs.indistinct (reachable_between hp1 hv1 h1).good.inv (reachable_between hp2 hv2 h2).good.inv ops

end

/-! ## Saving and loading -/

section
variable {K X R : Type} [Field K] [LinearOrder K] [IsStrictOrderedRing K] [FloorRing K]

/-- What `xcsf_save` (xcsf.c:78-103) sees of a system in state `s` with the parameters `P`: the
running numbers are among the parameters of the file. -/
def saved (P : SysPar K) (s : St K X (Body K) R) : Sys K R :=
  { par := { P with
      time := s.time, error := s.error, msetSize := s.msetSize, asetSize := s.asetSize
      mfrac := s.mfrac, explore := s.explore }
    rules := population s, size := s.pset.size, num := s.pset.num
    paSize := P.nActions * P.yDim, rng := s.rng }

/-- A process that has just loaded `t` (`xcsf_load`, xcsf.c:112-143, and `clset_pset_load`,
clset.c:650-673, into a system whose population has been freed) and whose generator is in state
`r`: the rules are new in memory, nothing is stored. -/
def resumed (t : Sys K R) (r : R) : St K X (Body K) R :=
  { heap := fun i => t.rules[i]?, next := t.rules.length
    pset := { list := List.range t.rules.length, size := t.size, num := t.num }
    prevPset := {}, mset := {}, aset := {}, kset := {}, prevAset := {}
    error := t.par.error, msetSize := t.par.msetSize, asetSize := t.par.asetSize
    mfrac := t.par.mfrac, prevReward := 0, prevPred := 0, prevState := none, pa := [], nr := []
    time := t.par.time, explore := t.par.explore, rng := r }

theorem resumed_rules (t : Sys K R) (r : R) :
    population (resumed t r : St K X (Body K) R) = t.rules := by
  show (List.range t.rules.length).filterMap (fun i => t.rules[i]?) = t.rules
  induction t.rules using List.reverseRecOn with
  | nil => rfl
  | append_singleton l a ih =>
    rw [List.length_append, List.length_singleton, List.range_succ, List.filterMap_append]
    congr 1
    · conv_rhs => rw [← ih]
      refine List.filterMap_congr fun i hi => ?_
      rw [List.getElem?_append_left (List.mem_range.1 hi)]
    · simp

theorem resumed_inv {t : Sys K R} (h1 : ∀ c ∈ t.rules, 1 ≤ c.num) (h2 : t.size = t.rules.length)
    (h3 : t.num = (t.rules.map Cl.num).sum) (r : R) :
    Inv (resumed t r : St K X (Body K) R) [] := by
  have live : ∀ i ∈ List.range t.rules.length, (t.rules[i]?).isSome := fun i hi => by
    rw [List.getElem?_eq_getElem (List.mem_range.1 hi)]; rfl
  have hn := nsum_map (s := (resumed t r : St K X (Body K) R))
    (l := List.range t.rules.length) live
  have hpop : (List.range t.rules.length).filterMap
      (resumed t r : St K X (Body K) R).heap = t.rules := resumed_rules (X := X) t r
  rw [hpop] at hn
  refine ⟨⟨List.nodup_range, ?_, ?_, ?_⟩, ⟨List.nodup_nil, by simp [resumed], rfl, rfl⟩,
    by simp [resumed], by simp [resumed], List.nodup_nil, List.nodup_nil, by simp, ?_, ?_⟩
  · intro i hi
    have hi' := List.mem_range.1 hi
    exact ⟨_, by show (t.rules[i]?).map Cl.num = _; rw [List.getElem?_eq_getElem hi']; rfl,
      h1 _ (List.getElem_mem hi')⟩
  · show t.size = _
    rw [h2]
    exact congrArg _ (List.length_range).symm
  · exact h3.trans hn.symm
  · intro i hi
    refine .inl (List.mem_range.2 ?_)
    have : (t.rules[i]?).isSome := by
      have hi : ((t.rules[i]?).map Cl.num).isSome := hi
      simpa using hi
    by_contra hc
    rw [List.getElem?_eq_none (by omega)] at this
    cases this
  · intro i hi
    show (t.rules[i]?).map Cl.num = none
    rw [List.getElem?_eq_none hi]
    rfl

/-- **C95, resuming from a file.**  Take a system after any history of valid calls, whose rules have
no networks and that has stored no population.  Write it to a file and load that file in another
process.  With the generator in the same state, the process goes on exactly like the first one: every
history of calls gets the same answers, fails in the same way and leaves the same rules — whatever
the parameters mean for the algorithm (`prm`) and for the representations (`kt`). -/
theorem C95_resume_partial (c : Codec K) (g : Rng K R) {p0 : Params K} {k0 : Kit K X (Body K) R}
    (hp : 0 ≤ p0.popSize) {r : R} {ops : List (Op K X (Body K))} (hv : ∀ op ∈ ops, op.valid)
    {s : St K X (Body K) R} (h : run p0 k0 r ops = .ok s) (hq : storedPopulation s = [])
    {P : SysPar K} {t : Sys K R} (hw : (saved P s).Whole)
    (hn : ∀ q ∈ population s, ruleNets (fun _ => false) q = true)
    (h1 : P.cond.targs.constants.length = P.cond.targs.nConstants)
    (h2 : t.par.cond.targs.constants.length = P.cond.targs.nConstants)
    (hf : ∀ i ∈ sysItems (saved P s), i.Fits c) :
    ∃ u m, sysLoad c g t (some (sysSave c (saved P s)).1) = .ok (u, [], m) ∧
      ∀ (prm : SysPar K → Params K) (kt : SysPar K → Kit K X (Body K) R)
        (calls : List (Op K X (Body K))),
        Indistinct (session (prm (saved P s).par) (kt (saved P s).par) calls s)
          (session (prm u.par) (kt u.par) calls (resumed u s.rng)) := by
  obtain ⟨u, e, e1, e2, e3, e4⟩ := C25_exact_partial c g (s := saved P s) (t := t) hw hn h1 h2 hf
  refine ⟨u, _, e, fun prm kt calls => ?_⟩
  rw [e1]
  have b := (reachable_between hp hv h).good.inv
  have g' : Inv (resumed u s.rng : St K X (Body K) R) [] := by
    refine resumed_inv ?_ ?_ ?_ _
    · rw [e2]
      intro q hq
      obtain ⟨i, hi, hh⟩ := List.mem_filterMap.1 hq
      obtain ⟨c', hc, hc1⟩ := b.p.live hi
      rw [hc] at hh
      cases hh
      exact hc1
    · rw [e2, e3]
      show s.pset.size = ((population s).length : Int)
      rw [b.p.size, population, filterMap_length b.p.allLive]
    · rw [e2, e4]
      show s.pset.num = _
      rw [b.p.num, nsum_map b.p.alive]
      rfl
  have same : SameState s (resumed u s.rng) := ⟨?_, ?_, ?_, ?_, ?_, ?_, ?_, ?_, rfl⟩
  · exact same.indistinct b g' calls
  · rw [resumed_rules, e2]; rfl
  · rw [hq]; rfl
  · exact (congrArg SysPar.error e1).symm
  · exact (congrArg SysPar.msetSize e1).symm
  · exact (congrArg SysPar.asetSize e1).symm
  · exact (congrArg SysPar.mfrac e1).symm
  · exact (congrArg SysPar.time e1).symm
  · exact (congrArg SysPar.explore e1).symm
end


/-! ## What is not resumed, and examples -/

deriving instance DecidableEq for Cl

section Examples
open Demo

/-- Two sessions of the demonstration system that end with different answers are not
indistinct. -/
theorem not_indistinct {K X B R : Type} [Zero K] [One K] [Add K] [Sub K] [Mul K] [Div K] [LT K]
    [DecidableLT K] [IntCast K] [DecidableEq K] {m m' : Res (List (Reply K) × St K X B R)}
    (h : Res.test m (fun p => Res.test m' fun q => decide (p.1 ≠ q.1)) = true) :
    ¬ Indistinct m m' := by
  obtain ⟨p, e1, h⟩ := Res.test_iff h
  obtain ⟨q, e2, h⟩ := Res.test_iff h
  rintro (⟨f, e, -⟩ | ⟨a, s, s', e, e', -⟩)
  · rw [e1] at e; cases e
  · rw [e1] at e; rw [e2] at e'
    cases e; cases e'
    exact of_decide_eq_true h rfl

/-- Rules of the demonstration system with the given key. -/
def keyed (k : Nat) : Cl ℚ (Nat × Nat) := { clInit Demo.par 1 0 (k, k) with prediction := [0] }

/-- Two different histories that lead to the same state, with the rule at another place in memory:
storing and retrieving a single rule moves it.  Ten further calls of all kinds cannot tell. -/
example : ∃ s1 s2, run Demo.par Demo.kit 0 [.insert (keyed 1)] = .ok s1 ∧
    run Demo.par Demo.kit 0 [.insert (keyed 1), .store, .retrieve] = .ok s2 ∧
    s1.pset.list ≠ s2.pset.list ∧ SameState s1 s2 ∧
    Indistinct (session Demo.par Demo.kit Demo.ops s1) (session Demo.par Demo.kit Demo.ops s2) ∧
    Res.test (session Demo.par Demo.kit Demo.ops s1) (fun p => p.1.length = 10) := by
  obtain ⟨s1, e1, h⟩ := Res.test_iff (m := run Demo.par Demo.kit 0 [.insert (keyed 1)])
    (p := fun s1 => Res.test (run Demo.par Demo.kit 0 [.insert (keyed 1), .store, .retrieve])
      fun s2 => Res.test (session Demo.par Demo.kit Demo.ops s1) fun p =>
      decide (s1.pset.list ≠ s2.pset.list ∧ population s1 = population s2 ∧
        storedPopulation s1 = storedPopulation s2 ∧ s1.error = s2.error ∧
        s1.msetSize = s2.msetSize ∧ s1.asetSize = s2.asetSize ∧ s1.mfrac = s2.mfrac ∧
        s1.time = s2.time ∧ s1.explore = s2.explore ∧ s1.rng = s2.rng ∧ p.1.length = 10))
    (by decide +kernel)
  obtain ⟨s2, e2, h⟩ := Res.test_iff h
  obtain ⟨p, e3, h⟩ := Res.test_iff h
  obtain ⟨h0, h1, h2, h3, h4, h5, h6, h7, h8, h9, h10⟩ := of_decide_eq_true h
  have same : SameState s1 s2 := ⟨h1, h2, h3, h4, h5, h6, h7, h8, h9⟩
  refine ⟨s1, s2, e1, e2, h0, same, ?_, ?_⟩
  · exact C95_no_hidden_state (by decide) (by decide) (by decide +kernel) (by decide +kernel) e1 e2
      same _ _ _
  · rw [e3]
    exact decide_eq_true h10

/-- **C95, storing and retrieving** is not without consequences: with no call in between, the rules
are the same afterwards but in reverse order, and the system answers differently later on. -/
theorem C95_store_retrieve_refuted :
    ¬ ∀ (ops : List (Op ℚ Nat (Nat × Nat))) (s s' : St ℚ Nat (Nat × Nat) Nat),
      (∀ op ∈ ops, op.valid) → run Demo.par Demo.kit 0 ops = .ok s →
      run Demo.par Demo.kit 0 (ops ++ [.store, .retrieve]) = .ok s' →
      ∀ calls, Indistinct (session Demo.par Demo.kit calls s)
        (session Demo.par Demo.kit calls s') := by
  intro hall
  let ops : List (Op ℚ Nat (Nat × Nat)) :=
    [.insert (keyed 1), .insert (keyed 2), .insert (keyed 3), .insert (keyed 4)]
  let calls : List (Op ℚ Nat (Nat × Nat)) :=
    [.insert (keyed 5), .insert (keyed 6), .predict [1, 2, 3, 4, 5, 6] [0]]
  obtain ⟨s, e1, h⟩ := Res.test_iff (m := run Demo.par Demo.kit 0 ops)
    (p := fun s => Res.test (run Demo.par Demo.kit 0 (ops ++ [.store, .retrieve])) fun s' =>
      Res.test (session Demo.par Demo.kit calls s) fun p =>
        Res.test (session Demo.par Demo.kit calls s') fun q => decide (p.1 ≠ q.1))
    (by decide +kernel)
  obtain ⟨s', e2, h⟩ := Res.test_iff h
  exact not_indistinct h (hall ops s s' (by decide +kernel) e1 e2 calls)

/-- Rules as in a file that match everything and predict the input plus their action. -/
def fileKit : Kit ℚ Nat (Body ℚ) Nat :=
  { draw := fun r => ((2 * ((r % 4 : Nat) : ℚ) + 1) / 8, r + 1)
    floor := Rat.floor, pow := fun _ _ => 1/2, eps := 1/1000, dblMax := 1000000
    loss := fun p y => (p.headD 0 - y.headD 0) * (p.headD 0 - y.headD 0)
    rand := fun r => (⟨.dummy, .none, .const⟩, r)
    cover := fun _ b _ _ r => .ok (b, r)
    cmatch := fun _ b _ r => (true, b, r)
    act := fun _ b _ r => (match b.act with | .int a => a.action | _ => 0, b, r)
    predict := fun _ b p x r => (p.map fun _ => (x : ℚ) + match b.act with
      | .int a => a.action
      | _ => 0, b, r)
    update := fun _ b p _ _ r => (b, p, r)
    general := fun _ _ => false
    crossover := fun a b r => (false, a, b, r)
    mutate := fun b r => .ok (false, b, r)
    copy := fun _ b r => (b, r), clone := fun b r => (b, r)
    condSize := fun _ => 1, predSize := fun _ => 1 }

/-- Parameters for three actions. -/
def fileParams : Params ℚ := { Demo.par with nActions := 3, e0 := 1 / 2 }

/-- The parameters in the file, all constants in use. -/
def filePar : SysPar ℚ := { demoPar with
  cond := { demoPar.cond with targs := { demoPar.cond.targs with constants := [0, 1] } } }

/-- The system that loads the file. -/
def fileTarget : Sys ℚ Nat := { demoTarget with par := { demoPar with
  nActions := 1
  cond := { demoPar.cond with targs := { demoPar.cond.targs with constants := [1, 1] } } } }

/-- **C95, the generator is not in the file.**  A file loaded in a process whose generator is not in
the state of the first one does not make it go on in the same way, although the file is complete,
nothing was stored and no rule has a network. -/
theorem C95_generator_refuted : ∃ (ops calls : List (Op ℚ Nat (Body ℚ))) (s : St ℚ Nat (Body ℚ) Nat)
    (u : Sys ℚ Nat) (m : Nat), (∀ op ∈ ops, op.valid) ∧ run fileParams fileKit 0 ops = .ok s ∧
      storedPopulation s = [] ∧ (∀ q ∈ population s, ruleNets (fun _ => false) q = true) ∧
      sysLoad halves (stepRng 4 fun _ => 0) fileTarget
        (some (sysSave halves (saved filePar s)).1) = .ok (u, [], m) ∧
      ¬ Indistinct (session fileParams fileKit calls s)
        (session fileParams fileKit calls (resumed u u.rng)) := by
  let ops : List (Op ℚ Nat (Body ℚ)) := [.insert (fileRule 0), .insert (fileRule 2)]
  let calls : List (Op ℚ Nat (Body ℚ)) :=
    [.insert (fileRule 1), .insert (fileRule 1), .predict [1] [0]]
  obtain ⟨s, e1, h⟩ := Res.test_iff (m := run fileParams fileKit 0 ops)
    (p := fun s => decide (storedPopulation s = []) &&
      decide (∀ q ∈ population s, ruleNets (fun _ => false) q = true) &&
      Res.test (sysLoad halves (stepRng 4 fun _ => 0) fileTarget
        (some (sysSave halves (saved filePar s)).1)) fun p => decide (p.2.1 = []) &&
        Res.test (session fileParams fileKit calls s) fun a =>
          Res.test (session fileParams fileKit calls (resumed p.1 p.1.rng)) fun b =>
            decide (a.1 ≠ b.1))
    (by decide +kernel)
  rw [Bool.and_eq_true, Bool.and_eq_true] at h
  obtain ⟨⟨h1, h2⟩, h⟩ := h
  obtain ⟨⟨u, l, m⟩, e2, h⟩ := Res.test_iff h
  rw [Bool.and_eq_true] at h
  have hl : l = [] := of_decide_eq_true h.1
  subst hl
  exact ⟨ops, calls, s, u, m, by decide +kernel, e1, of_decide_eq_true h1, of_decide_eq_true h2, e2,
    not_indistinct h.2⟩

/-- **C95, a stored population is not in the file.**  With the generator in the same state, a system
that has stored a population and one loaded from its file answer differently after the population has
been retrieved. -/
theorem C95_stored_refuted : ∃ (ops calls : List (Op ℚ Nat (Body ℚ))) (s : St ℚ Nat (Body ℚ) Nat)
    (u : Sys ℚ Nat) (m : Nat), (∀ op ∈ ops, op.valid) ∧ run fileParams fileKit 0 ops = .ok s ∧
      (∀ q ∈ population s, ruleNets (fun _ => false) q = true) ∧
      sysLoad halves (stepRng 4 fun _ => 0) fileTarget
        (some (sysSave halves (saved filePar s)).1) = .ok (u, [], m) ∧
      ¬ Indistinct (session fileParams fileKit calls s)
        (session fileParams fileKit calls (resumed u s.rng)) := by
  let ops : List (Op ℚ Nat (Body ℚ)) := [.insert (fileRule 0), .store, .insert (fileRule 2)]
  let calls : List (Op ℚ Nat (Body ℚ)) := [.retrieve, .predict [1] [0]]
  obtain ⟨s, e1, h⟩ := Res.test_iff (m := run fileParams fileKit 0 ops)
    (p := fun s => decide (∀ q ∈ population s, ruleNets (fun _ => false) q = true) &&
      Res.test (sysLoad halves (stepRng 4 fun _ => 0) fileTarget
        (some (sysSave halves (saved filePar s)).1)) fun p => decide (p.2.1 = []) &&
        Res.test (session fileParams fileKit calls s) fun a =>
          Res.test (session fileParams fileKit calls (resumed p.1 s.rng)) fun b =>
            decide (a.1 ≠ b.1))
    (by decide +kernel)
  rw [Bool.and_eq_true] at h
  obtain ⟨h2, h⟩ := h
  obtain ⟨⟨u, l, m⟩, e2, h⟩ := Res.test_iff h
  rw [Bool.and_eq_true] at h
  have hl : l = [] := of_decide_eq_true h.1
  subst hl
  exact ⟨ops, calls, s, u, m, by decide +kernel, e1, of_decide_eq_true h2, e2, not_indistinct h.2⟩

/-- The hypotheses of `C95_resume_partial` are met by a system with two rules, loaded into one with
other parameters. -/
example : ∃ (s : St ℚ Nat (Body ℚ) Nat) (u : Sys ℚ Nat) (m : Nat),
    run fileParams fileKit 0 [.insert (fileRule 0), .insert (fileRule 2)] = .ok s ∧
    (population s).length = 2 ∧
    sysLoad halves (stepRng 4 fun _ => 0) fileTarget
      (some (sysSave halves (saved filePar s)).1) = .ok (u, [], m) ∧
    ∀ calls, Indistinct (session fileParams fileKit calls s)
      (session fileParams fileKit calls (resumed u s.rng)) := by
  obtain ⟨s, e, h⟩ := Res.test_iff
    (m := run fileParams fileKit 0 [.insert (fileRule 0), .insert (fileRule 2)])
    (p := fun s => decide (storedPopulation s = []) &&
      (decide (population s = [fileRule 2, fileRule 0]) &&
      (decide (s.pset.size = 2 ∧ s.pset.num = 4) &&
      decide (∀ i ∈ sysItems (saved filePar s), i.Fits halves))))
    (by decide +kernel)
  simp only [Bool.and_eq_true, decide_eq_true_eq] at h
  obtain ⟨h1, h2, ⟨h3, h3'⟩, h4⟩ := h
  obtain ⟨u, m, e2, k⟩ := C95_resume_partial halves (stepRng 4 fun _ => 0) (by decide)
    (by decide +kernel) e h1 (P := filePar) (t := fileTarget) ⟨⟨⟨['p'], rfl, by decide, by decide⟩,
      (show 1 ≤ filePar.xDim ∧ 1 ≤ filePar.yDim ∧ 1 ≤ filePar.nActions by decide),
      (show 0 ≤ filePar.cond.targs.nConstants ∧
        filePar.cond.targs.nConstants ≤ filePar.cond.targs.constants.length by decide)⟩, by
        show ∀ c ∈ population s, _
        rw [h2]
        intro c hc
        simp only [List.mem_cons, List.not_mem_nil, or_false] at hc
        have hr : ¬ ruleType filePar.cond.type := by decide
        rcases hc with rfl | rfl <;> exact ⟨rfl, ⟨.inl rfl, rfl⟩, ⟨rfl, hr⟩, ⟨.inl rfl, rfl⟩⟩,
      by show s.pset.size = _; rw [h3]; show _ = ((population s).length : Int); rw [h2]; rfl,
      by show s.pset.num = _; rw [h3']; show _ = ((population s).map Cl.num).sum; rw [h2]; rfl⟩
    (by rw [h2]; decide) rfl rfl h4
  exact ⟨s, u, m, e, by rw [h2]; rfl, e2, k (fun _ => fileParams) fun _ => fileKit⟩
end Examples

end Xcsf
