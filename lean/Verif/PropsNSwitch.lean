import Verif.NSwitchSame
import Verif.PropsNGenLearn

/-!
# Properties C80 and C81: learning rates and switches of the layers of a network
-/

set_option linter.unusedSectionVars false

namespace Xcsf
variable {K R : Type} [Field K] [LinearOrder K] [IsStrictOrderedRing K] [FloorRing K]

/-! ## C80: learning rates -/

/-- **C80 for every network and every history** of mutation, resizing, propagation, randomisation,
copying and training that does not end in a fault: the learning rates of all layers lie between the
`eta_min` and the `eta` given for them, and are exactly `eta` if they do not evolve.  Missing of the
full claim: recurrent layers with evolving learning rates, for which it is false, see below. -/
theorem C80_rates_partial {g : Rng K R} (O : g.Open) (m : Libm K) (lo : K) (fuel n : Nat)
    {as : List (GArgs K)} (hr : ∀ a ∈ as, a.recEta = false)
    (he : ∀ a ∈ as, ∀ c ∈ a.base, c.etaMin ≤ c.eta) (ops : List (NTask K)) (r : R)
    {z : List (GLay K) × R}
    (h : (genCreate g as r >>= fun p => nwork g m lo fuel n ops p.1 p.2) = .ok z) :
    List.Forall₂ RatesOk as z.1 := by
  cases e : genCreate g as r with
  | error f => rw [e] at h; cases h
  | ok p =>
    rw [e] at h
    have D := nwork_described hr (h : nwork g m lo fuel n ops p.1 p.2 = .ok z)
      (genCreate_described O e he)
    exact D.imp fun _ _ d => d.rates

/-- A recurrent layer of two neurons whose learning rate evolves between 1/100 and 1/10. -/
def evolvingRec : CArgs ℚ :=
  { growing 2 1 with opt := ⟨false, false, false, true, true, false⟩, etaMin := 1 / 100 }

/-- **C80 fails for recurrent layers with evolving learning rates**: the limits of the rate of such a
layer are never set, so the first mutation sets its rate to zero, below the minimum. -/
theorem C80_recurrent_refuted :
    ∃ z, (genCreate (stepRng 6 fun _ => 1) [.recu evolvingRec] 0 >>= fun p =>
        nwork (stepRng 6 fun _ => 1) demoLibm 0 5 1 [.net .mutate] p.1 p.2) = .ok z ∧
      z.1.map GLay.rates = [[0, 0, 0, 0]] ∧ ¬ List.Forall₂ RatesOk [.recu evolvingRec] z.1 := by
  have h : (match genCreate (stepRng 6 fun _ => 1) [.recu evolvingRec] 0 >>= fun p =>
        nwork (stepRng 6 fun _ => 1) demoLibm 0 5 1 [.net .mutate] p.1 p.2 with
      | .ok z => decide (z.1.map GLay.rates = [[0, 0, 0, 0]])
      | .error _ => false) = true := by decide +kernel
  split at h
  · next z e =>
    simp only [decide_eq_true_eq] at h
    refine ⟨z, e, h, fun F => ?_⟩
    generalize z.1 = ls at h F
    cases F with
    | @cons a l as' ls' k _ =>
      have hl : l.rates = [0, 0, 0, 0] := by
        rw [List.map_cons, List.cons.injEq] at h
        exact h.1
      have := (k evolvingRec rfl 0 (by rw [hl]; simp)).1
      unfold evolvingRec at this
      norm_num at this
  · cases h

/-! ## C81: switches -/

/-- **C81 for mutation**: whatever a network is, mutating it changes of each layer only what the
switches of the layer allow (`GLay.Switched`); the number of inputs of a layer and with it the
connections may change only if the number of neurons of an earlier layer evolves. -/
theorem C81_mutation_switches {g : Rng K R} {fuel : Nat} {ls : List (GLay K)} {r : R}
    {z : (List (GLay K) × Bool) × R} (h : genMutate g fuel none ls r = .ok z) :
    AllSwitched false ls z.1.1 := genMutate_switched h (fun e => nomatch e)

/-- **C81 for propagation**: propagating an input through a legal network changes no weight, bias,
connection, learning rate, activation function or size. -/
theorem C81_propagation {k : Lim} {g : Rng K R} {m : Libm K} (hm : ∀ x, 0 < m.exp x) {lo : K}
    {train : Bool} {b : Bool} {d : Dim} {ls : List (GLay K)} (N : NetLegal k b d ls) {x : Nat → K}
    {r : R} {z : List (GLay K) × R}
    (h : genForward g m lo train ls (ofArr d.n.toNat x) r = .ok z) :
    List.Forall₂ (GLay.KeptBy false) ls z.1 := by
  have s := genForward_step (g := g) hm lo train ls b d (ofArr d.n.toNat x) r N (by simp [ofArr])
  rw [h] at s
  exact forall₂_kept (P := fun _ => false) (genForward_fed0 h) (netLegal_all N) (netLegal_all s.1)

/-- **C81 for training**: propagating an input through a legal network and then training it changes
the weights and biases of those layers only that are trained by gradient descent, and changes no
connection, learning rate, activation function or size at all. -/
theorem C81_training_switches {k : Lim} {g : Rng K R} {m : Libm K} (hm : ∀ x, 0 < m.exp x) {lo : K}
    {train : Bool} {b : Bool} {d : Dim} {ls : List (GLay K)} (N : NetLegal k b d ls)
    (T : ∀ l ∈ ls, l.Teachable) {x y t : Nat → K} {r : R} {z : List (GLay K) × R}
    (e : genForward g m lo train ls (ofArr d.n.toNat x) r = .ok z) {ls' : List (GLay K)}
    (h : genLearn m z.1 (ofArr (headSize z.1) t) (ofArr d.n.toNat y) = .ok ls') :
    List.Forall₂ (fun l l' => l.KeptBy l.opt.sgd l') ls ls' := by
  have s := genForward_step (g := g) hm lo train ls b d (ofArr d.n.toNat x) r N (by simp [ofArr])
  rw [e] at s
  obtain ⟨N1, h1, h2, h3, h4⟩ := s
  cases hq : z.1.getLast? with
  | none =>
    rw [List.getLast?_eq_none_iff] at hq
    rw [hq] at h
    cases h
  | some q =>
    obtain ⟨vs, e2, N2, -⟩ := genLearn_step (k := k) m N1 (fun l hl => ⟨h4 l hl, h2 l hl⟩)
      (fixed_teachable h3 T) hq
      (t := ofArr (headSize z.1) t) (x := ofArr d.n.toNat y)
      (by rw [length_ofArr]; unfold headSize; rw [hq]) (by rw [length_ofArr])
    rw [h] at e2
    cases e2
    exact forall₂_kept (P := fun l => l.opt.sgd) ((genForward_fed e).trans (genLearn_fed h))
      (netLegal_all N) (netLegal_all N2)

/-- A history of using a network gives the same for networks that differ only in mutation rates and
counts. -/
theorem nwork_bare (g : Rng K R) (m : Libm K) (lo : K) (fuel n : Nat) : ∀ (ops : List (NTask K))
    (_ : ∀ o ∈ ops, o.uses = true) (ls : List (GLay K)) (r : R),
    nwork g m lo fuel n ops (ls.map GLay.bare) r =
      (nwork g m lo fuel n ops ls r).map fun p => (p.1.map GLay.bare, p.2)
  | [], _, _, _ => rfl
  | o :: os, h, ls, r => by
    have key : nworkStep g m lo fuel n (ls.map GLay.bare) r o =
        (nworkStep g m lo fuel n ls r o).map fun p => (p.1.map GLay.bare, p.2) := by
      have hu := h o (by simp)
      cases o with
      | learn t x =>
        unfold nworkStep
        dsimp only
        have hs : headSize (ls.map GLay.bare) = headSize ls := by
          unfold headSize
          rw [List.getLast?_map]
          cases ls.getLast? with
          | none => rfl
          | some l => show (l.bare.dim.n).toNat = _; rw [bare_dim]
        rw [hs, genLearn_bare]
        cases genLearn m ls _ _ with
        | error e => rfl
        | ok p => rfl
      | net o =>
        cases o with
        | forward t x => exact genForward_bare g m lo t ls _ r
        | mutate => cases hu
        | resize => cases hu
        | rand => cases hu
        | copy => cases hu
    unfold nwork
    rw [key]
    cases nworkStep g m lo fuel n ls r o with
    | error e => rfl
    | ok p => exact nwork_bare g m lo fuel n os (fun o ho => h o (by simp [ho])) p.1 p.2

/-- **C81 for the report of mutation**: if mutating a network reports that nothing has changed, then
the network cannot be told from what it was by using it: every history of propagating inputs and
training, from every state of the random numbers, gives the same outputs of all layers, or the same
fault. -/
theorem C81_unreported_mutation {g : Rng K R} {fuel : Nat} {ls : List (GLay K)} {r : R}
    {z : (List (GLay K) × Bool) × R} (h : genMutate g fuel none ls r = .ok z) (hz : z.1.2 = false)
    (m : Libm K) (lo : K) (n : Nat) (ops : List (NTask K)) (ho : ∀ o ∈ ops, o.uses = true) (s : R) :
    shown (nwork g m lo fuel n ops z.1.1 s) = shown (nwork g m lo fuel n ops ls s) := by
  have hb := genMutate_report h hz
  have k1 := nwork_bare g m lo fuel n ops ho z.1.1 s
  have k2 := nwork_bare g m lo fuel n ops ho ls s
  rw [hb, k2] at k1
  have hs : ∀ u : Res (List (GLay K) × R),
      shown (u.map fun p => (p.1.map GLay.bare, p.2)) = shown u := by
    intro u
    cases u with
    | error e => rfl
    | ok p =>
      show Except.ok ((p.1.map GLay.bare).map GLay.outs, p.2) = Except.ok (p.1.map GLay.outs, p.2)
      rw [List.map_map]
      refine congrArg Except.ok (congrArg (·, p.2) (List.map_congr_left fun l _ => ?_))
      exact bare_outs l
  rw [← hs (nwork g m lo fuel n ops z.1.1 s), ← hs (nwork g m lo fuel n ops ls s), k1]

/-! ## The hypotheses are met by concrete cases -/

/-- Two neurons whose weights and learning rate evolve, and which learn. -/
def evolvingConn : CArgs ℚ :=
  { growing 2 1 with opt := ⟨true, false, false, true, true, false⟩, etaMin := 1 / 100 }

/-- A network of a connected layer and an LSTM layer with evolving learning rates and a recurrent and
a softmax layer. -/
def evolvingNet : List (GArgs ℚ) :=
  [.conn evolvingConn, .lstm evolvingConn 3,
    .recu { growing 2 1 with opt := ⟨true, false, false, true, false, false⟩ },
    .soft { noPar with scale := 1 }]

example : ∀ a ∈ evolvingNet, a.recEta = false := by
  intro a ha
  simp only [evolvingNet, List.mem_cons, List.not_mem_nil, or_false] at ha
  rcases ha with rfl | rfl | rfl | rfl <;> rfl

example : ∀ a ∈ evolvingNet, ∀ c ∈ a.base, c.etaMin ≤ c.eta := by
  intro a ha
  simp only [evolvingNet, List.mem_cons, List.not_mem_nil, or_false] at ha
  rcases ha with rfl | rfl | rfl | rfl <;> intro c hc <;> cases hc
  · norm_num [evolvingConn, growing]
  · norm_num [evolvingConn, growing]
  · norm_num [growing]

/-- Creating, mutating, propagating and training the network works, and the rates do change. -/
example : (match genCreate (stepRng 60 fun _ => -1 / 50) evolvingNet 0 >>= fun p =>
      nwork (stepRng 60 fun _ => -1 / 50) { demoLibm with exp := fun x => 1 + x * x } 0 5 1
        [.net .mutate, .net (.forward true fun _ => 1), .learn (fun i => i) fun _ => 1] p.1 p.2 with
    | .ok (ls, _) => decide ((ls.map fun l => l.rates.head?).head? ≠ some (some (1 / 10)))
    | .error _ => false) = true := by decide +kernel

/-- A mutation that changes something and says so, and one that does not. -/
example : (match genCreate (stepRng 60 fun _ => -1 / 50) evolvingNet 0 >>= fun p =>
      genMutate (stepRng 60 fun _ => -1 / 50) 5 none p.1 p.2 with
    | .ok z => z.1.2
    | .error _ => false) = true := by decide +kernel

example : (match genCreate (stepRng 60 fun _ => 0) [.conn evolvingConn] 0 >>= fun p =>
      genMutate (stepRng 0 fun _ => 0) 5 none p.1 p.2 with
    | .ok z => !z.1.2
    | .error _ => false) = true := by decide +kernel

/-- A legal network of nine layers of all kinds, through which inputs can be propagated and which can
then be trained. -/
example : ∃ (ls : List (GLay ℚ)) (r : Nat), NetLegal demoLim true demoDim ls ∧
    (∀ l ∈ ls, l.Teachable) ∧
    ∀ x, Post (genForward (stepRng 60 fun _ => 2) { demoLibm with exp := fun _ => 1 } (-1000) true ls
      (ofArr demoDim.n.toNat x) r) (fun z => ∀ y t, ∃ ls',
        genLearn { demoLibm with exp := fun _ => 1 } z.1 (ofArr (headSize z.1) t)
          (ofArr demoDim.n.toNat y) = .ok ls') (fun e => e = .exit ∧ demoLim.maxpool = true) := by
  have hok : (match genCreate (stepRng 60 fun _ => 2) trainNet 0 with
    | .ok _ => true | .error _ => false) = true := by decide +kernel
  have h := genCreate_step (k := demoLim) demoLim_ok (stepRng_open 60 fun _ => (2 : ℚ))
    (stepRng_bounded 60 fun _ => by norm_num) (as := trainNet) (by simp [trainNet]) (b := true)
    (d := demoDim) demoDim_ok trainNet_fit (by intro a ha; cases ha; exact rfl) 0
  cases e : genCreate (stepRng 60 fun _ => 2) trainNet 0 with
  | error f => rw [e] at hok; cases hok
  | ok p =>
    rw [e] at h
    obtain ⟨N, ht⟩ := h
    have T := teachable_of_args ht trainNet_teachable
    refine ⟨p.1, p.2, N, T, fun x => ?_⟩
    refine post_mono (genForward_step (fun _ => by norm_num [demoLibm]) _ _ _ _ _ _ _ N
      (length_ofArr _ _)) ?_
    rintro z ⟨N1, h1, h2, h3, h4⟩ y t
    cases hq : z.1.getLast? with
    | none =>
      rw [List.getLast?_eq_none_iff] at hq
      rw [hq] at h1
      have := congrArg List.length h1
      have h9 := congrArg List.length ht
      simp only [List.length_map, List.length_nil] at this h9
      rw [← this] at h9
      cases h9
    | some q =>
      obtain ⟨vs, e2, -, -⟩ := genLearn_step { demoLibm with exp := fun _ => 1 } N1
        (fun l hl => ⟨h4 l hl, h2 l hl⟩) (fixed_teachable h3 T) hq
        (t := ofArr (headSize z.1) t) (x := ofArr demoDim.n.toNat y)
        (by rw [length_ofArr]; unfold headSize; rw [hq]) (by rw [length_ofArr])
      exact ⟨vs, e2⟩

end Xcsf
