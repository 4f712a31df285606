import Verif.Props5

/-!
# Properties C23, C62: credit assignment in reinforcement learning
-/

set_option linter.unusedSectionVars false

namespace Xcsf

section Any
variable {K X B R : Type} [Zero K] [One K] [Add K] [Sub K] [Mul K] [Div K]
  [LT K] [DecidableLT K] [IntCast K] [DecidableEq K]
variable {par : Params K} {kit : Kit K X B R}

/-- One step of a trial: the body of the loop of `xcs_rl_trial` (see `trial_is_steps`).
Returns the action and the contribution to the error. -/
def rlStep (par : Params K) (kit : Kit K X B R) (e : EnvStep K X) (s : St K X B R) :
    Res (Int × K × St K X B R) := do
  let s := rlInitStep s
  let (a, s) ← rlDecision par kit e.state s
  let s ← rlUpdate par kit e.state a (e.respond a).1 (e.respond a).2 s
  let (de, s) ← rlError par kit a (e.respond a).1 (e.respond a).2 e.maxPayoff s
  let s ← rlEndStep par e.state a (e.respond a).1 s
  .ok (a, de, s)

/-- A trial is a sequence of steps that ends with the first terminal one or after
`teletransportation` steps. -/
theorem trial_is_steps (env : Nat → EnvStep K X) (k n : Nat) (e : K) (s : St K X B R) :
    rlTrialGo par kit env (k + 1) n e s = (rlStep par kit (env n) s >>= fun q =>
      if ((env n).respond q.1).2 then .ok (n + 1, e + q.2.1, q.2.2)
      else rlTrialGo par kit env k (n + 1) (e + q.2.1) q.2.2) := by
  show (rlDecision par kit (env n).state (rlInitStep s) >>= _) =
    ((rlDecision par kit (env n).state (rlInitStep s) >>= _) >>= _)
  cases rlDecision par kit (env n).state (rlInitStep s) with
  | error e => rfl
  | ok p =>
    show (rlUpdate par kit (env n).state p.1 _ _ p.2 >>= _) =
      ((rlUpdate par kit (env n).state p.1 _ _ p.2 >>= _) >>= _)
    cases rlUpdate par kit (env n).state p.1 ((env n).respond p.1).1 ((env n).respond p.1).2 p.2 with
    | error e => rfl
    | ok s1 =>
      show (rlError par kit p.1 _ _ _ s1 >>= _) = ((rlError par kit p.1 _ _ _ s1 >>= _) >>= _)
      cases rlError par kit p.1 ((env n).respond p.1).1 ((env n).respond p.1).2
          (env n).maxPayoff s1 with
      | error e => rfl
      | ok q =>
        show (rlEndStep par (env n).state p.1 _ q.2 >>= _) =
          ((rlEndStep par (env n).state p.1 _ q.2 >>= _) >>= _)
        cases rlEndStep par (env n).state p.1 ((env n).respond p.1).1 q.2 <;> rfl

/-- `s` is a state between steps of a trial, `n` steps into it: started in any reachable state
and never in a terminal one. -/
inductive InTrial (par : Params K) (kit : Kit K X B R) (env : Nat → EnvStep K X) :
    Nat → St K X B R → Prop
  | start {r : R} {ops : List (Op K X B)} {s : St K X B R} (explore : Bool)
      (hv : ∀ op ∈ ops, op.valid) (h : run par kit r ops = .ok s) :
      InTrial par kit env 0 (rlInitTrial { s with explore := explore })
  | step {n : Nat} {s s' : St K X B R} {a : Int} {de : K} (h : InTrial par kit env n s)
      (hs : rlStep par kit (env n) s = .ok (a, de, s')) (hd : ((env n).respond a).2 = false) :
      InTrial par kit env (n + 1) s'

theorem rlStep_post {V : Cl K B → Prop} {E : Fault → Prop} [MayExit E] (L : Laws par kit V E)
    {S : St K X B R} (env : EnvStep K X) {s : St K X B R} (h : RlInv V par S s) :
    Post (rlStep par kit env s) (fun p => RlInv V par S p.2.2) E := by
  unfold rlStep
  have h1 := rlInitStep_inv h
  refine post_bind (rlDecision_post L env.state h1.good rfl h1.cap) ?_
  rintro ⟨a, s2⟩ ⟨ev, w, hcap, hpa, _, _⟩
  have h2 : RlInv V par S s2 := by
    refine ⟨ev.good, hcap, ?_, ?_, ?_, h1.snap.keep ev.keep⟩
    · rw [ev.prevPset]; exact h1.qcap
    · rw [ev.prevAset]; exact ⟨h1.prev.nodup, fun i hi => ev.keep.sub i (h1.prev.sub i hi)⟩
    · rw [ev.prevAset, ev.prevState]; exact h1.state
  refine post_bind (rlUpdate_post L env.state a (env.respond a).1 (env.respond a).2
    h2 w (by rw [ev.aset]; rfl) (fun _ => MayExit.exit)) ?_
  rintro s3 ⟨q1, q2, q3, q4⟩
  have hl : s3.pa.length = par.nActions * par.yDim := by rw [q3]; exact hpa
  refine post_bind (rlError_post L a _ _ _ q1 q2 hl) ?_
  rintro ⟨de, s4⟩ ⟨r1, r2, r3⟩
  have hl4 : s4.pa.length = par.nActions * par.yDim := by
    have : s4.pa = s3.pa := r3
    rw [this]; exact hl
  refine post_bind (rlEndStep_post L env.state a _ r1 r2 hl4 (fun _ => MayExit.exit)) ?_
  intro s5 h5
  exact h5

theorem InTrial.inv (hp : 0 ≤ par.popSize) {env : Nat → EnvStep K X} {n : Nat} {s : St K X B R}
    (h : InTrial par kit env n s) : ∃ S, RlInv (fun _ => True) par S s := by
  induction h with
  | start ex hv h =>
    have b := reachable_between hp hv h
    exact ⟨_, rlInitTrial_inv (S := _) (b.explore ex)⟩
  | step _ hs _ ih =>
    obtain ⟨S, i⟩ := ih
    exact ⟨S, post_of_ok (P := fun p => RlInv (fun _ => True) par S p.2.2)
      (rlStep_post (lawsTriv par kit hp) _ i) hs⟩

/-- The rules of a set that have not been deleted meanwhile (deleted rules have numerosity
zero until they are freed at the end of the trial). -/
def alive (s : St K X B R) (t : List Nat) : List Nat :=
  t.filter (fun i => (s.heap i).map Cl.num ≠ some 0)

/-- The rules of the match set that advocate action `a`. -/
def actionSet (s : St K X B R) (a : Int) : List Nat :=
  (s.mset.list.filter (fun i => (s.heap i).any (fun c => decide (c.action = a)))).reverse

/-- A rule before and after being trained on input `x` with target `y`: its experience is
incremented, the error estimate moves toward the loss of its prediction, and the prediction
is updated with the target for the input.  If `cur`, its stored prediction is scored,
otherwise a new one for `x`. -/
structure Trained (par : Params K) (kit : Kit K X B R) (x : X) (y : K) (cur : Bool)
    (c c' : Cl K B) : Prop where
  exp : c'.exp = c.exp + 1
  num : c'.num = c.num
  action : c'.action = c.action
  learn : ∃ (e : Bool) (r : R) (p : List K) (b : B) (q : R),
    (p, b, q) = (if cur then (c.prediction, c.body, r) else kit.predict e c.body c.prediction x r) ∧
    c'.body = (kit.update (c.exp + 1) b p x [y] q).1 ∧
    c'.prediction = (kit.update (c.exp + 1) b p x [y] q).2.1 ∧
    c'.err = if ((c.exp + 1 : Int) : K) * par.beta < 1
      then (c.err * (((c.exp + 1 : Int) : K) - 1) + kit.loss p [y]) / ((c.exp + 1 : Int) : K)
      else c.err + par.beta * (kit.loss p [y] - c.err)

/-- `s'` is `s` after exactly the rules `A` were trained on `x` with target `y`. -/
structure Credited (par : Params K) (kit : Kit K X B R) (A : List Nat) (x : X) (y : K)
    (cur : Bool) (s s' : St K X B R) : Prop where
  members : ∀ i ∈ A, ∃ c c', s.heap i = some c ∧ s'.heap i = some c' ∧
    Trained par kit x y cur c c'
  others : ∀ i, i ∉ A → s'.heap i = s.heap i
  pset : s'.pset = s.pset

/-- What follows the training of a set: set subsumption (if enabled), then the evolutionary
algorithm on that set (if exploring). -/
def Followed (par : Params K) (kit : Kit K X B R) (put : CSet → St K X B R → St K X B R)
    (A : List Nat) (s s' : St K X B R) : Prop :=
  ∃ t t' s1, t.list = A ∧
    (if par.setSubsumption then subsumption par kit t s else .ok (t, s)) = .ok (t', s1) ∧
    (if s1.explore then ea par kit t' (put t' s1) else .ok (put t' s1)) = .ok s'

theorem clUpdate_trained (e : Bool) (c : Cl K B) (x : X) (y : K) (n : Int) (cur : Bool) (r : R)
    (f : K) : Trained par kit x y cur c
      { (clUpdate par kit e c x [y] n cur r).1 with fit := f } := by
  unfold clUpdate
  cases cur
  · simp only [Bool.false_eq_true, if_false]
    refine ⟨?_, ?_, ?_, e, r, _, _, _, rfl, ?_, ?_, ?_⟩ <;> simp only <;> split <;> rfl
  · simp only [if_true]
    refine ⟨?_, ?_, ?_, e, r, _, _, _, rfl, ?_, ?_, ?_⟩ <;> simp only <;> split <;> rfl

theorem clsetUpdate_credited {t t' : CSet} {s s' : St K X B R} {x : X} {y : K} {cur : Bool}
    (hp : 0 ≤ par.popSize) (g : Good (fun _ => True) s []) (w : Within s t)
    (h : clsetUpdate par kit t x [y] cur s = .ok (t', s')) :
    ∃ s1, Credited par kit t.list x y cur s s1 ∧ s1.explore = s.explore ∧
      (if par.setSubsumption then subsumption par kit t s1 else .ok (t, s1)) = .ok (t', s') := by
  unfold clsetUpdate at h
  rw [updateGo_eq] at h
  obtain ⟨h1, r1, e1, k1, k2⟩ := forEachCl_spec
    (fun r c => clUpdate par kit s.explore c x [y] t.num cur r) t.list s w.nodup
    (fun i hi => g.inv.p.isSome (w.sub i hi))
  rw [e1] at h
  have hnum : ∀ i ∈ t.list, ∀ c, s.heap i = some c → ∃ c', h1 i = some c' ∧ c'.num = c.num := by
    intro i hi c hc
    obtain ⟨r, e⟩ := k2 i hi c hc
    refine ⟨_, e, ?_⟩
    exact (clUpdate_trained (par := par) (kit := kit) s.explore c x y t.num cur r
      (clUpdate par kit s.explore c x [y] t.num cur r).1.fit).num
  have g1 : Good (fun _ => True) { s with heap := h1, rng := r1 } [] := g.rewrite (by
    intro i
    by_cases hi : i ∈ t.list
    · obtain ⟨c, hc⟩ := Option.isSome_iff_exists.1 (g.inv.p.isSome (w.sub i hi))
      refine ⟨fun h => ?_, fun d hd => ?_⟩
      · rw [hc] at h; cases h
      obtain ⟨c', e, en⟩ := hnum i hi d hd
      exact ⟨c', e, en, trivial⟩
    · rw [k1 i hi]; exact ⟨id, fun c hc => ⟨c, hc, rfl, trivial⟩⟩)
  have h : (updateFit par kit t { s with heap := h1, rng := r1 } >>= _) = _ := h
  obtain ⟨h2, cs, e2, _, _, _, u1, u2⟩ := updateFit_post (par := par) (kit := kit)
    (lawsTriv par kit hp) g1 (⟨w.nodup, w.sub, w.size, w.num⟩ : Within { s with heap := h1, rng := r1 } t)
  rw [e2] at h
  refine ⟨{ s with heap := h2, rng := r1 }, ⟨?_, ?_, rfl⟩, rfl, h⟩
  · intro i hi
    obtain ⟨c, hc⟩ := Option.isSome_iff_exists.1 (g.inv.p.isSome (w.sub i hi))
    obtain ⟨r, e⟩ := k2 i hi c hc
    exact ⟨c, _, hc, u2 i hi _ e, clUpdate_trained s.explore c x y t.num cur r _⟩
  · intro i hi
    exact (u1 i hi).trans (k1 i hi)

theorem rlUpdatePrev_credit (hp : 0 ≤ par.popSize) {S s s' : St K X B R}
    (h : RlInv (fun _ => True) par S s) (hu : rlUpdatePrev par kit s = .ok s') :
    (s.prevAset.list = [] ∧ s' = s) ∨
    ∃ px bv s1, s.prevAset.list ≠ [] ∧ s.prevState = some px ∧ paBestVal s.pa = .ok bv ∧
      Credited par kit (alive s s.prevAset.list) px (s.prevReward + par.gamma * bv) false s s1 ∧
      Followed par kit (fun t s => { s with prevAset := t }) (alive s s.prevAset.list) s1 s' := by
  unfold rlUpdatePrev at hu
  split at hu
  · next he => cases hu; exact Or.inl ⟨he, rfl⟩
  · next hne =>
    right
    cases eb : paBestVal s.pa with
    | error e => rw [eb] at hu; cases hu
    | ok bv =>
      rw [eb] at hu
      obtain ⟨t, e1, e2, e3, e4, e5⟩ := validate_weak h.good h.prev
      have hu : (validate s s.prevAset >>= _) = _ := hu
      rw [e1] at hu
      obtain ⟨px, hpx⟩ := Option.isSome_iff_exists.1 (h.state hne)
      have hu : (match s.prevState with | none => _ | some px => _) = _ := hu
      rw [hpx] at hu
      have hu : (clsetUpdate par kit t px [s.prevReward + par.gamma * bv] false s >>= _) = _ := hu
      cases ec : clsetUpdate par kit t px [s.prevReward + par.gamma * bv] false s with
      | error e => rw [ec] at hu; cases hu
      | ok q =>
        obtain ⟨t', s2⟩ := q
        rw [ec] at hu
        obtain ⟨s1, c1, _, c3⟩ := clsetUpdate_credited hp h.good e2 ec
        have ht : t.list = alive s s.prevAset.list := e4
        rw [ht] at c1
        exact ⟨px, bv, s1, hne, hpx, rfl, c1, t, t', s2, ht, c3, hu⟩

theorem rlUpdateCur_credit (hp : 0 ≤ par.popSize) {S s s' : St K X B R} {x : X} {reward : K}
    {done : Bool} (h : RlInv (fun _ => True) par S s) (wa : Weak s s.aset)
    (hu : rlUpdateCur par kit x reward done s = .ok s') :
    (done = false ∧ s' = s) ∨
    ∃ s1, done = true ∧
      Credited par kit (alive s s.aset.list) x reward true s s1 ∧
      Followed par kit (fun t s => { s with aset := t }) (alive s s.aset.list) s1 s' := by
  unfold rlUpdateCur at hu
  split at hu
  · next hd =>
    right
    obtain ⟨t, e1, e2, e3, e4, e5⟩ := validate_weak h.good wa
    rw [e1] at hu
    have hu : (clsetUpdate par kit t x [reward] true s >>= _) = _ := hu
    cases ec : clsetUpdate par kit t x [reward] true s with
    | error e => rw [ec] at hu; cases hu
    | ok q =>
      obtain ⟨t', s2⟩ := q
      rw [ec] at hu
      obtain ⟨s1, c1, _, c3⟩ := clsetUpdate_credited hp h.good e2 ec
      have ht : t.list = alive s s.aset.list := e4
      rw [ht] at c1
      exact ⟨s1, hd, c1, t, t', s2, ht, c3, hu⟩
  · next hd => cases hu; exact Or.inl ⟨by simpa using hd, rfl⟩

theorem rlUpdatePrev_aset (hp : 0 ≤ par.popSize) {S s s' : St K X B R}
    (h : RlInv (fun _ => True) par S s) (hu : rlUpdatePrev par kit s = .ok s') :
    s'.aset = s.aset := by
  have L := lawsTriv par kit hp
  unfold rlUpdatePrev at hu
  split at hu
  · cases hu; rfl
  · next hne =>
    cases eb : paBestVal s.pa with
    | error e => rw [eb] at hu; cases hu
    | ok bv =>
      rw [eb] at hu
      obtain ⟨t, e1, e2, e3, e4, e5⟩ := validate_weak h.good h.prev
      have hu : (validate s s.prevAset >>= _) = _ := hu
      rw [e1] at hu
      obtain ⟨px, hpx⟩ := Option.isSome_iff_exists.1 (h.state hne)
      have hu : (match s.prevState with | none => _ | some px => _) = _ := hu
      rw [hpx] at hu
      obtain ⟨t', s2, e, k1, k2, k3, k4, k5, k6, k7⟩ := clsetUpdate_post L px
        [s.prevReward + par.gamma * bv] false h.good e2
      have hu : (clsetUpdate par kit t px [s.prevReward + par.gamma * bv] false s >>= _) = _ := hu
      rw [e] at hu
      have hu : (if s2.explore = true then ea par kit t' { s2 with prevAset := t' } else
        .ok { s2 with prevAset := t' }) = .ok s' := hu
      split at hu
      · have g2 : Good (fun _ => True) { s2 with prevAset := t' } [] :=
          k1.good.congr rfl rfl rfl rfl rfl
        have q := (post_of_ok (ea_post L (t := t') g2 ⟨k2.nodup, k2.sub, k2.size, k2.num⟩) hu).1
        rw [q.aset]; exact k1.aset
      · cases hu; exact k1.aset

theorem killGo_heap : ∀ {l : List Nat} {s s' : St K X B R}, killGo s l = .ok s' →
    ∃ h, s' = { s with heap := h }
  | [], s, s', h => by cases h; exact ⟨s.heap, rfl⟩
  | i :: l, s, s', h => by
    unfold killGo at h
    cases e : s.freeCl i with
    | error e' => rw [e] at h; cases h
    | ok s1 =>
      rw [e] at h
      obtain ⟨h2, e2⟩ := killGo_heap h
      unfold St.freeCl at e
      split at e
      · cases e; exact ⟨h2, e2⟩
      · cases e

/-- **C23**, one step of a trial.  After the decision (state `sd`, action `a`, action set
`actionSet sd a`):
* if a previous action set is remembered, exactly its rules (those still alive) are trained on
  the remembered input with the remembered reward plus `gamma` times the best entry of the
  current prediction array; otherwise nothing is trained at this point;
* then, exactly if the step is terminal, exactly the rules of the current action set (those
  still alive) are trained on the current input with the immediate reward;
* otherwise the current action set, input and reward are remembered for the next step;
* no other rule is trained, and besides the usual subsumption and evolution nothing else
  happens to the rules. -/
theorem C23_one_step (hp : 0 ≤ par.popSize) {env : Nat → EnvStep K X} {n : Nat}
    {s s' : St K X B R} (h : InTrial par kit env n s) {a : Int} {de : K}
    (hs : rlStep par kit (env n) s = .ok (a, de, s')) :
    ∃ sd s1 s2, rlDecision par kit (env n).state (rlInitStep s) = .ok (a, sd) ∧
      ((s.prevAset.list = [] ∧ s1.heap = sd.heap ∧ s1.pset = sd.pset) ∨
        ∃ px bv t0 t1, s.prevAset.list ≠ [] ∧ s.prevState = some px ∧
          paBestVal sd.pa = .ok bv ∧ t0.heap = sd.heap ∧ t0.pset = sd.pset ∧
          Credited par kit (alive sd s.prevAset.list) px (s.prevReward + par.gamma * bv) false t0 t1 ∧
          Followed par kit (fun t s => { s with prevAset := t }) (alive sd s.prevAset.list) t1 s1) ∧
      ((((env n).respond a).2 = false ∧ s2 = s1) ∨
        ∃ t1, ((env n).respond a).2 = true ∧
          Credited par kit (alive s1 (actionSet sd a)) (env n).state ((env n).respond a).1 true s1 t1 ∧
          Followed par kit (fun t s => { s with aset := t }) (alive s1 (actionSet sd a)) t1 s2) ∧
      (((env n).respond a).2 = false → s'.prevAset.list = actionSet sd a ∧
        s'.prevState = some (env n).state ∧ s'.prevReward = ((env n).respond a).1) ∧
      s'.heap = s2.heap ∧ s'.pset = s2.pset := by
  obtain ⟨S, h⟩ := h.inv hp
  have L := lawsTriv par kit hp
  unfold rlStep at hs
  have h1 := rlInitStep_inv h
  have hs : (rlDecision par kit (env n).state (rlInitStep s) >>= _) = _ := hs
  cases ed : rlDecision par kit (env n).state (rlInitStep s) with
  | error e => rw [ed] at hs; cases hs
  | ok q =>
    obtain ⟨a', sd⟩ := q
    rw [ed] at hs
    obtain ⟨ev, w, hcap, hpa, _, _⟩ := post_of_ok (rlDecision_post L (env n).state h1.good rfl h1.cap) ed
    have ev : Evolved (fun _ => True) (rlInitStep s) sd [] := ev
    have w : Within sd sd.mset := w
    have h2 : RlInv (fun _ => True) par S sd := by
      refine ⟨ev.good, hcap, ?_, ?_, ?_, h1.snap.keep ev.keep⟩
      · rw [ev.prevPset]; exact h1.qcap
      · rw [ev.prevAset]; exact ⟨h1.prev.nodup, fun i hi => ev.keep.sub i (h1.prev.sub i hi)⟩
      · rw [ev.prevAset, ev.prevState]; exact h1.state
    have hs : (rlUpdate par kit (env n).state a' ((env n).respond a').1 ((env n).respond a').2 sd
      >>= _) = _ := hs
    cases eu : rlUpdate par kit (env n).state a' ((env n).respond a').1 ((env n).respond a').2 sd with
    | error e => rw [eu] at hs; cases hs
    | ok s3 =>
      rw [eu] at hs
      have hs : (rlError par kit a' _ _ _ s3 >>= _) = _ := hs
      cases er : rlError par kit a' ((env n).respond a').1 ((env n).respond a').2
          (env n).maxPayoff s3 with
      | error e => rw [er] at hs; cases hs
      | ok q =>
        obtain ⟨de', s4⟩ := q
        rw [er] at hs
        have hs : (rlEndStep par (env n).state a' _ s4 >>= _) = _ := hs
        cases ee : rlEndStep par (env n).state a' ((env n).respond a').1 s4 with
        | error e => rw [ee] at hs; cases hs
        | ok s5 =>
          rw [ee] at hs; cases hs
          have e43 : s4.heap = s3.heap ∧ s4.pset = s3.pset ∧ s4.aset = s3.aset := by
            unfold rlError at er
            cases ev : paVal par s3.pa a with
            | error e => rw [ev] at er; cases er
            | ok v => rw [ev] at er; cases er; exact ⟨rfl, rfl, rfl⟩
          have e54 : s'.heap = s4.heap ∧ s'.pset = s4.pset ∧ s'.prevAset = s4.aset ∧
              s'.prevState = some (env n).state ∧ s'.prevReward = ((env n).respond a).1 := by
            unfold rlEndStep at ee
            cases ev : paVal par s4.pa a with
            | error e => rw [ev] at ee; cases ee
            | ok v => rw [ev] at ee; cases ee; exact ⟨rfl, rfl, rfl, rfl, rfl⟩
          unfold rlUpdate at eu
          obtain ⟨t, et, wt, _, htl⟩ := clsetAction_post (par := par) a h2.good w (by rw [ev.aset]; rfl)
          rw [et] at eu
          have eu : (rlUpdatePrev par kit { sd with
              aset := t
              asetSize := sd.asetSize + ((t.size : K) - sd.asetSize) * par.beta } >>= _) = _ := eu
          generalize hs1 : ({ sd with
              aset := t
              asetSize := sd.asetSize + ((t.size : K) - sd.asetSize) * par.beta } : St K X B R) = t0
            at eu
          have h0 : RlInv (fun _ => True) par S t0 := by
            subst hs1
            exact ⟨h2.good.congr rfl rfl rfl rfl rfl, h2.cap, h2.qcap, ⟨h2.prev.nodup, h2.prev.sub⟩,
              h2.state, h2.snap⟩
          have w0 : Weak t0 t0.aset := by
            subst hs1
            exact ⟨wt.nodup, fun i hi => Or.inl (wt.sub i hi)⟩
          have p0 : t0.heap = sd.heap ∧ t0.pset = sd.pset ∧ t0.pa = sd.pa ∧
              t0.prevAset = s.prevAset ∧ t0.prevState = s.prevState ∧
              t0.prevReward = s.prevReward ∧ t0.aset = t := by
            subst hs1
            exact ⟨rfl, rfl, rfl, ev.prevAset, ev.prevState, ev.prevReward, rfl⟩
          cases ep : rlUpdatePrev par kit t0 with
          | error e => rw [ep] at eu; cases eu
          | ok s1 =>
            rw [ep] at eu
            have eu : rlUpdateCur par kit (env n).state _ _ s1 = .ok s3 := eu
            obtain ⟨q1, q2, _, _⟩ := post_of_ok (rlUpdatePrev_post L h0 w0 (fun _ => trivial)) ep
            have haset : s1.aset = t := (rlUpdatePrev_aset hp h0 ep).trans p0.2.2.2.2.2.2
            refine ⟨sd, s1, s3, rfl, ?_, ?_, ?_, e54.1.trans e43.1, e54.2.1.trans e43.2.1⟩
            · rcases rlUpdatePrev_credit hp h0 ep with ⟨e1, rfl⟩ | ⟨px, bv, t1, c1, c2, c3, c4, c5⟩
              · rw [p0.2.2.2.1] at e1
                exact Or.inl ⟨e1, p0.1, p0.2.1⟩
              · have hal : alive t0 t0.prevAset.list = alive sd s.prevAset.list := by
                  unfold alive; rw [p0.1, p0.2.2.2.1]
                rw [hal, p0.2.2.2.2.2.1] at c4
                rw [hal] at c5
                rw [p0.2.2.2.1] at c1
                rw [p0.2.2.2.2.1] at c2
                rw [p0.2.2.1] at c3
                exact Or.inr ⟨px, bv, t0, t1, c1, c2, c3, p0.1, p0.2.1, c4, c5⟩
            · rcases rlUpdateCur_credit hp q1 q2 eu with ⟨d, rfl⟩ | ⟨t1, d, c1, c2⟩
              · exact Or.inl ⟨d, rfl⟩
              · rw [haset, htl] at c1 c2
                exact Or.inr ⟨t1, d, c1, c2⟩
            · intro hd
              rcases rlUpdateCur_credit hp q1 q2 eu with ⟨_, rfl⟩ | ⟨t1, d, _, _⟩
              · refine ⟨?_, e54.2.2.2⟩
                rw [e54.2.2.1, e43.2.2, haset]; exact htl
              · rw [hd] at d; cases d

/-- **C23**, start: no action set is remembered at the start of a trial, so a single-step trial
(terminal at once) trains exactly the current action set with the immediate reward. -/
theorem C23_single_step (hp : 0 ≤ par.popSize) {env : Nat → EnvStep K X}
    {s s' : St K X B R} (h : InTrial par kit env 0 s) {a : Int} {de : K}
    (hs : rlStep par kit (env 0) s = .ok (a, de, s')) (hd : ((env 0).respond a).2 = true) :
    ∃ sd s1 t1 s2, rlDecision par kit (env 0).state (rlInitStep s) = .ok (a, sd) ∧
      s1.heap = sd.heap ∧ s1.pset = sd.pset ∧
      Credited par kit (alive s1 (actionSet sd a)) (env 0).state ((env 0).respond a).1 true s1 t1 ∧
      Followed par kit (fun t s => { s with aset := t }) (alive s1 (actionSet sd a)) t1 s2 ∧
      s'.heap = s2.heap ∧ s'.pset = s2.pset := by
  have h0 : s.prevAset.list = [] := by
    generalize hn : 0 = n at h
    cases h with
    | start => rfl
    | step => cases hn
  obtain ⟨sd, s1, s2, q1, q2, q3, _, q5, q6⟩ := C23_one_step hp h hs
  rcases q2 with ⟨_, q2, q2'⟩ | ⟨_, _, _, _, q2, _⟩
  · rcases q3 with ⟨q3, _⟩ | ⟨t1, _, q3, q4⟩
    · rw [hd] at q3; cases q3
    · exact ⟨sd, s1, t1, s2, q1, q2, q2', q3, q4, q5, q6⟩
  · exact absurd h0 q2

/-- **C23**, `fit(input, action, reward)`: exactly the rules of the match set advocating the
action are trained on the input with the reward. -/
theorem C23_rl_fit (hp : 0 ≤ par.popSize) {r : R} {ops : List (Op K X B)}
    (hv : ∀ op ∈ ops, op.valid) {s s' : St K X B R} (h : run par kit r ops = .ok s)
    {x : X} {a : Int} {reward e : K} (hf : rlFit par kit x a reward s = .ok (e, s')) :
    ∃ sm sd t0 t1 s2, clsetMatch par kit x true (rlInitStep (rlInitTrial s)) = .ok sm ∧
      paBuild par kit x sm = .ok sd ∧ t0.heap = sd.heap ∧ t0.pset = sd.pset ∧
      Credited par kit (alive sd (actionSet sd a)) x reward true t0 t1 ∧
      Followed par kit (fun t s => { s with aset := t }) (alive sd (actionSet sd a)) t1 s2 ∧
      s'.pset = s2.pset ∧ ∀ i ∈ s'.pset.list, s'.heap i = s2.heap i := by
  have b := reachable_between hp hv h
  have L := lawsTriv par kit hp
  have h1 := rlInitStep_inv (rlInitTrial_inv b)
  unfold rlFit at hf
  have hf : (clsetMatch par kit x true (rlInitStep (rlInitTrial s)) >>= _) = _ := hf
  cases em : clsetMatch par kit x true (rlInitStep (rlInitTrial s)) with
  | error e => rw [em] at hf; cases hf
  | ok sm =>
    rw [em] at hf
    obtain ⟨a1, a2, a3⟩ := post_of_ok (clsetMatch_post L x true h1.good rfl h1.cap) em
    have hf : (paBuild par kit x sm >>= _) = _ := hf
    cases eb : paBuild par kit x sm with
    | error e => rw [eb] at hf; cases hf
    | ok sd =>
      rw [eb] at hf
      obtain ⟨b1, b2, b3, b4, b5, b6, b7⟩ := post_of_ok (paBuild_post L x a1.good a2) eb
      have ev := a1.trans b1
      have hf : (paVal par sd.pa a >>= _) = _ := hf
      cases ev2 : paVal par sd.pa a with
      | error e => rw [ev2] at hf; cases hf
      | ok v =>
        rw [ev2] at hf
        have hf : (rlUpdate par kit x a reward true { sd with explore := true } >>= _) = _ := hf
        cases eu : rlUpdate par kit x a reward true { sd with explore := true } with
        | error e => rw [eu] at hf; cases hf
        | ok s3 =>
          rw [eu] at hf
          have hf : (rlEndStep par x a reward s3 >>= _) = _ := hf
          cases ee : rlEndStep par x a reward s3 with
          | error e => rw [ee] at hf; cases hf
          | ok s4 =>
            rw [ee] at hf
            have hf : (rlEndTrial s4 >>= _) = _ := hf
            cases et : rlEndTrial s4 with
            | error e => rw [et] at hf; cases hf
            | ok s5 =>
              rw [et] at hf; cases hf
              have e43 : ∃ v, s4 = { s3 with
                  mset := {}, prevAset := s3.aset, prevReward := reward, prevPred := v,
                  prevState := some x } := by
                unfold rlEndStep at ee
                cases ev : paVal par s3.pa a with
                | error e => rw [ev] at ee; cases ee
                | ok v => rw [ev] at ee; cases ee; exact ⟨v, rfl⟩
              obtain ⟨v4, rfl⟩ := e43
              have h2 : RlInv (fun _ => True) par s { sd with explore := true } := by
                refine ⟨ev.good.congr rfl rfl rfl rfl rfl, by rw [b3]; exact a3, ?_, ?_, ?_,
                  Same.keep (s' := sd) h1.snap ev.keep⟩
                · show Cap par _ sd.prevPset.num; rw [ev.prevPset]; exact h1.qcap
                · show Weak _ sd.prevAset; rw [ev.prevAset]
                  exact ⟨h1.prev.nodup, fun i hi => ev.keep.sub i (h1.prev.sub i hi)⟩
                · show sd.prevAset.list ≠ [] → sd.prevState.isSome
                  rw [ev.prevAset, ev.prevState]; exact h1.state
              have w2 : Within { sd with explore := true } sd.mset := by
                rw [b2]; exact ⟨a2.nodup, fun i hi => b3 ▸ a2.sub i hi, a2.size, a2.num⟩
              have eu0 := eu
              unfold rlUpdate at eu
              obtain ⟨t, et', wt, _, htl⟩ := clsetAction_post (par := par) a h2.good w2
                (by show sd.aset = _; rw [ev.aset]; rfl)
              rw [et'] at eu
              have hprev : sd.prevAset = {} := ev.prevAset
              have eu : (rlUpdatePrev par kit { sd with
                  explore := true, aset := t,
                  asetSize := sd.asetSize + ((t.size : K) - sd.asetSize) * par.beta } >>= _) = _ := eu
              have ep : rlUpdatePrev par kit { sd with
                  explore := true, aset := t,
                  asetSize := sd.asetSize + ((t.size : K) - sd.asetSize) * par.beta } =
                  .ok { sd with
                  explore := true, aset := t,
                  asetSize := sd.asetSize + ((t.size : K) - sd.asetSize) * par.beta } := by
                unfold rlUpdatePrev
                rw [if_pos (by show sd.prevAset.list = []; rw [hprev])]
              rw [ep] at eu
              have eu : rlUpdateCur par kit x reward true { sd with
                  explore := true, aset := t,
                  asetSize := sd.asetSize + ((t.size : K) - sd.asetSize) * par.beta } = .ok s3 := eu
              have h3 : RlInv (fun _ => True) par s { sd with
                  explore := true, aset := t,
                  asetSize := sd.asetSize + ((t.size : K) - sd.asetSize) * par.beta } :=
                ⟨h2.good.congr rfl rfl rfl rfl rfl, h2.cap, h2.qcap, ⟨h2.prev.nodup, h2.prev.sub⟩,
                  h2.state, h2.snap⟩
              rcases rlUpdateCur_credit hp h3 ⟨wt.nodup, fun i hi => Or.inl (wt.sub i hi)⟩ eu with
                ⟨d, _⟩ | ⟨t1, _, c1, c2⟩
              · cases d
              · have c1 : Credited par kit (alive sd t.list) x reward true _ t1 := c1
                have c2 : Followed par kit _ (alive sd t.list) t1 s3 := c2
                have htl : t.list = actionSet sd a := htl
                rw [htl] at c1 c2
                obtain ⟨q1, _, _, _⟩ := post_of_ok (rlUpdate_post L x a reward true h2 w2
                  (by show sd.aset = _; rw [ev.aset]; rfl) (fun _ => trivial)) eu0
                have g4 : Good (fun _ => True) { s3 with
                    mset := {}, prevAset := {}, prevReward := reward, prevPred := v4,
                    prevState := none } [] := q1.good.congr rfl rfl rfl rfl rfl
                obtain ⟨s6, e6, g6, k6, eq6, _, hh6⟩ := killKset_post g4
                have et : killKset { s3 with
                    mset := {}, prevAset := {}, prevReward := reward, prevPred := v4,
                    prevState := none } = .ok s5 := et
                rw [e6] at et; cases et
                have hps : s5.pset = s3.pset := by rw [eq6]
                refine ⟨sm, sd, { sd with
                  explore := true, aset := t,
                  asetSize := sd.asetSize + ((t.size : K) - sd.asetSize) * par.beta }, t1, s3, rfl,
                  eb, rfl, rfl, c1, c2, hps, ?_⟩
                intro i hi
                have hi : i ∈ s5.pset.list := hi
                refine hh6 i ?_
                intro hk
                rw [hps] at hi
                obtain ⟨n, h1, h2⟩ := q1.good.inv.p.pos i hi
                have := q1.good.inv.kz i hk
                rw [this] at h1; cases h1; omega

end Any

/-! ## C62 -/

section Field
variable {K X B R : Type} [Field K] [LinearOrder K] [IsStrictOrderedRing K]
variable {par : Params K} {kit : Kit K X B R}

/-- **C62, the part that holds.** When an action has been decided on, every rule of the match
set holds its prediction for the current input.  It still does when the action set is trained
with the immediate reward, if the rule was not trained in between (`Credited.others`); missing:
the rules that were, see `C62_refuted`. -/
theorem C62_fresh_partial (hp : 0 ≤ par.popSize) {env : Nat → EnvStep K X} {n : Nat}
    {s sd : St K X B R} (h : InTrial par kit env n s) {a : Int}
    (hs : rlDecision par kit (env n).state (rlInitStep s) = .ok (a, sd)) :
    ∀ i ∈ sd.mset.list, ∃ c e b p r, sd.heap i = some c ∧
      c.prediction = (kit.predict e b p (env n).state r).1 := by
  obtain ⟨S, h⟩ := h.inv hp
  have L := lawsTriv par kit hp
  have h1 := rlInitStep_inv h
  unfold rlDecision at hs
  cases em : clsetMatch par kit (env n).state true (rlInitStep s) with
  | error e => rw [em] at hs; cases hs
  | ok sm =>
    rw [em] at hs
    obtain ⟨a1, a2, a3⟩ := post_of_ok (clsetMatch_post L (env n).state true h1.good rfl h1.cap) em
    have hs : (paBuild par kit (env n).state sm >>= _) = _ := hs
    cases eb : paBuild par kit (env n).state sm with
    | error e => rw [eb] at hs; cases hs
    | ok sb =>
      rw [eb] at hs
      obtain ⟨hh, r, pa, nr, k1, k2, _, k4⟩ := paBuild_cases a2.nodup
        (fun i hi => a1.good.inv.p.isSome (a2.sub i hi)) eb
      have key : ∀ i ∈ sb.mset.list, ∃ c e b p r, sb.heap i = some c ∧
          c.prediction = (kit.predict e b p (env n).state r).1 := by
        subst k4
        intro i hi
        obtain ⟨c, hc⟩ := Option.isSome_iff_exists.1 (a1.good.inv.p.isSome (a2.sub i hi))
        obtain ⟨r, e⟩ := k2 i hi c hc
        exact ⟨_, _, _, _, r, e, rfl⟩
      have fin : sd.heap = sb.heap ∧ sd.mset = sb.mset := by
        have hs : (if sb.explore = true then
            (if (uniform kit 0 1 sb.rng).1 < par.pExplore then
              (paRandAction par kit sb.nr par.loopBound (uniform kit 0 1 sb.rng).2 >>= fun q =>
                .ok (q.1, { sb with rng := q.2 }))
            else (paBestAction par kit sb.pa (uniform kit 0 1 sb.rng).2 >>= fun q =>
                .ok (q.1, { sb with rng := q.2 })))
          else (paBestAction par kit sb.pa sb.rng >>= fun q =>
                .ok (q.1, { sb with rng := q.2 }))) = (.ok (a, sd) : Res _) := hs
        split at hs
        · split at hs
          · cases e : paRandAction par kit sb.nr par.loopBound (uniform kit 0 1 sb.rng).2 with
            | error e' => rw [e] at hs; cases hs
            | ok q => rw [e] at hs; cases hs; exact ⟨rfl, rfl⟩
          · cases e : paBestAction par kit sb.pa (uniform kit 0 1 sb.rng).2 with
            | error e' => rw [e] at hs; cases hs
            | ok q => rw [e] at hs; cases hs; exact ⟨rfl, rfl⟩
        · cases e : paBestAction par kit sb.pa sb.rng with
          | error e' => rw [e] at hs; cases hs
          | ok q => rw [e] at hs; cases hs; exact ⟨rfl, rfl⟩
      rw [fin.1, fin.2]
      exact key

end Field

/-! ## Concrete trials -/

section Examples
open Demo

/-- A corridor: input `n`, action 1 ends the trial with reward 10. -/
def corridor (n : Nat) : EnvStep ℚ Nat :=
  { state := n + 1, respond := fun a => if a = 1 then (10, true) else (1, false), maxPayoff := 10 }

/-- A trial with a non-terminal and a terminal step, in which rules are remembered. -/
example : ∃ (s0 : St ℚ Nat (Nat × Nat) Nat) (a0 : Int) (d0 : ℚ)
    (s1 : St ℚ Nat (Nat × Nat) Nat) (a1 : Int) (d1 : ℚ) (s2 : St ℚ Nat (Nat × Nat) Nat),
    InTrial Demo.par Demo.kit corridor 0 (rlInitTrial { s0 with explore := true }) ∧
    rlStep Demo.par Demo.kit (corridor 0) (rlInitTrial { s0 with explore := true }) = .ok (a0, d0, s1) ∧
    ((corridor 0).respond a0).2 = false ∧ s1.prevAset.list ≠ [] ∧
    InTrial Demo.par Demo.kit corridor 1 s1 ∧
    rlStep Demo.par Demo.kit (corridor 1) s1 = .ok (a1, d1, s2) ∧ ((corridor 1).respond a1).2 = true := by
  have h : ∃ s0 : St ℚ Nat (Nat × Nat) Nat, run Demo.par Demo.kit 0 [] = .ok s0 ∧
      Res.test (rlStep Demo.par Demo.kit (corridor 0) (rlInitTrial { s0 with explore := true }))
        (fun p => decide (((corridor 0).respond p.1).2 = false) && decide (p.2.2.prevAset.list ≠ []) &&
          Res.test (rlStep Demo.par Demo.kit (corridor 1) p.2.2)
            (fun q => decide (((corridor 1).respond q.1).2 = true))) = true :=
    Res.test_iff (by decide +kernel)
  obtain ⟨s0, h0, h⟩ := h
  obtain ⟨⟨a0, d0, s1⟩, h1, h⟩ := Res.test_iff h
  rw [Bool.and_eq_true, Bool.and_eq_true, decide_eq_true_eq, decide_eq_true_eq] at h
  obtain ⟨⟨a1, d1, s2⟩, h2, h3⟩ := Res.test_iff h.2
  rw [decide_eq_true_eq] at h3
  exact ⟨s0, a0, d0, s1, a1, d1, s2, .start true (by simp) h0, h1, h.1.1, h.1.2,
    .step (.start true (by simp) h0) h1 h.1.1, h2, h3⟩

/-- Two steps: the second one is terminal whatever the action. -/
def twoStep (n : Nat) : EnvStep ℚ Nat :=
  { state := n + 1, respond := fun _ => (1, n == 1), maxPayoff := 1 }

/-- A population of two rules that match everything and advocate the two actions. -/
def twoRules : List (Op ℚ Nat (Nat × Nat)) :=
  [.insert (demoRule (0, 0) 1 0), .insert (demoRule (0, 1) 1 0)]

/-- **C62 is false.** A rule of the demonstration system predicts its action plus the input.
In the second, terminal step of this trial a rule of the current action set, about to be
trained on the current input with the immediate reward, holds a prediction that is not its
prediction for that input (but the one for the previous input: the rule belongs to the
previous action set as well, which has just been trained). -/
theorem C62_refuted : ∃ (s : St ℚ Nat (Nat × Nat) Nat) (a : Int) (sd t0 s1 : St ℚ Nat (Nat × Nat) Nat)
    (i : Nat) (c : Cl ℚ (Nat × Nat)),
    InTrial Demo.par Demo.kit twoStep 1 s ∧ ((twoStep 1).respond a).2 = true ∧
    rlDecision Demo.par Demo.kit (twoStep 1).state (rlInitStep s) = .ok (a, sd) ∧
    clsetAction Demo.par a sd = .ok t0 ∧ rlUpdatePrev Demo.par Demo.kit t0 = .ok s1 ∧
    i ∈ alive s1 (actionSet sd a) ∧ s1.heap i = some c ∧
    c.prediction ≠ [((twoStep 1).state : ℚ) + (c.body.2 : ℚ)] ∧
    c.prediction = [((twoStep 0).state : ℚ) + (c.body.2 : ℚ)] := by
  have h : ∃ s0 : St ℚ Nat (Nat × Nat) Nat, run Demo.par Demo.kit 0 twoRules = .ok s0 ∧
      Res.test (rlStep Demo.par Demo.kit (twoStep 0) (rlInitTrial { s0 with explore := false }))
        (fun p => Res.test (rlDecision Demo.par Demo.kit (twoStep 1).state (rlInitStep p.2.2))
          (fun q => Res.test (clsetAction Demo.par q.1 q.2)
            (fun t0 => Res.test (rlUpdatePrev Demo.par Demo.kit t0) (fun s1 =>
              (alive s1 (actionSet q.2 q.1)).any (fun i => (s1.heap i).any (fun c =>
                decide (c.prediction ≠ [((twoStep 1).state : ℚ) + (c.body.2 : ℚ)] ∧
                  c.prediction = [((twoStep 0).state : ℚ) + (c.body.2 : ℚ)]))))))) = true :=
    Res.test_iff (by decide +kernel)
  obtain ⟨s0, h0, h⟩ := h
  obtain ⟨⟨a0, d0, s⟩, h1, h⟩ := Res.test_iff h
  obtain ⟨⟨a, sd⟩, h2, h⟩ := Res.test_iff h
  obtain ⟨t0, h3, h⟩ := Res.test_iff h
  obtain ⟨s1, h4, h⟩ := Res.test_iff h
  obtain ⟨i, hi, h⟩ := List.any_eq_true.1 h
  cases hc : s1.heap i with
  | none => rw [hc] at h; cases h
  | some c =>
    rw [hc, Option.any_some, decide_eq_true_eq] at h
    exact ⟨s, a, sd, t0, s1, i, c, .step (.start false (by decide) h0) h1 rfl, rfl, h2, h3, h4, hi, hc,
      h.1, h.2⟩

end Examples
end Xcsf
