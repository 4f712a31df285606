import Verif.NLstmHist
import Verif.PropsNLayer

/-!
# Property C53: histories of recurrent and LSTM layers, and where the property fails
-/

set_option linter.unusedSectionVars false

namespace Xcsf
variable {K R : Type} [Field K] [LinearOrder K] [IsStrictOrderedRing K] [FloorRing K]

/-- **C53 for recurrent layers.** Whatever is done with the layer after its creation, in any order
and with any draws, inputs and errors: the sizes of its parts agree, all weights and biases lie in
`[-10, 10]` and disconnected weights are zero (`Part.sound`), and the reported number of active
connections is right as long as the weights are not randomised (`C53_recurrent_rand_refuted`).  No
unwritten memory is used, if either the number of neurons does not evolve or the weights are not
learned (`C53_recurrent_growth_refuted`). -/
theorem C53_recurrent_history {B M : Nat} (hM : M < 2147483648) (hB : B * B ≤ M) {g : Rng K R}
    (O : g.Open) (Bd : g.Bounded) (m : Libm K) {fuel : Nat} (hf : 1 ≤ fuel) {a : CArgs K}
    (A : a.Fits B M) (hk : a.opt.sgd = false ∨ a.opt.neurons = false) (r : R)
    (os : List (COp K)) (ho : ∀ o ∈ os, o.fits B M) :
    Post (recInit g a r >>= fun p => rrun g m fuel os p.1 p.2)
      (fun p => p.1.Legal B M ∧ ((∀ o ∈ os, o.isRand = false) → p.1.Counted))
      (CFault M a.opt.neurons) := by
  refine post_bind (recInit_step hM hB O Bd A r) ?_
  rintro ⟨l, r'⟩ ⟨L, e, C, _⟩
  have e : l.opt = a.opt := e
  have h := rrun_step hM hB O Bd m hf os L (by rw [e]; exact hk) r' ho
  rw [e] at h
  refine post_mono h fun p c => ⟨c.legal, fun hr => c.count ?_ C⟩
  rw [List.all_eq_true]
  intro o ho
  rw [hr o ho]
  rfl

/-- **C53 for LSTM layers.** Whatever is done with the layer after its creation: as for recurrent
layers, and no unwritten memory is used. -/
theorem C53_lstm_history {B M : Nat} (hM : M < 2147483648) (hB : B * B ≤ M) {g : Rng K R}
    (O : g.Open) (Bd : g.Bounded) (m : Libm K) {fuel : Nat} (hf : 1 ≤ fuel) {a : CArgs K}
    (A : a.Fits B M) {rfn : Int} (hr : 0 ≤ rfn ∧ rfn < 11) (r : R)
    (os : List (COp K)) (ho : ∀ o ∈ os, o.fits B M) :
    Post (lstmInit g a rfn r >>= fun p => trun g m fuel os p.1 p.2)
      (fun p => p.1.Legal B M ∧ ((∀ o ∈ os, o.isRand = false) → p.1.Counted))
      (CFault M a.opt.neurons) := by
  refine post_bind (lstmInit_step hM hB O Bd A hr r) ?_
  rintro ⟨l, r'⟩ ⟨L, e, C, _⟩
  have e : l.opt = a.opt := e
  have h := trun_step hM hB O Bd m hf os L r' ho
  rw [e] at h
  refine post_mono h fun p c => ⟨c.legal, fun hr => c.count ?_ C⟩
  rw [List.all_eq_true]
  intro o ho
  rw [hr o ho]
  rfl

/-- Within the limits and with a fixed number of neurons no history of a recurrent layer fails. -/
theorem C53_recurrent_history_total {B M : Nat} (hM : M ≤ 20000000) (hB : B * B ≤ M) {g : Rng K R}
    (O : g.Open) (Bd : g.Bounded) (m : Libm K) {fuel : Nat} (hf : 1 ≤ fuel) {a : CArgs K}
    (A : a.Fits B M) (hn : a.opt.neurons = false) (r : R)
    (os : List (COp K)) (ho : ∀ o ∈ os, o.fits B M) :
    ∃ p, (recInit g a r >>= fun p => rrun g m fuel os p.1 p.2) = .ok p ∧ p.1.Legal B M := by
  have h := C53_recurrent_history (by omega) hB O Bd m hf A (Or.inr hn) r os ho
  cases e : (recInit g a r >>= fun p => rrun g m fuel os p.1 p.2) with
  | ok p => rw [e] at h; exact ⟨p, rfl, h.1⟩
  | error f =>
    rw [e] at h
    rcases h with ⟨_, h⟩ | ⟨_, h⟩
    · omega
    · rw [hn] at h; cases h

/-- Within the limits and with a fixed number of neurons no history of an LSTM layer fails. -/
theorem C53_lstm_history_total {B M : Nat} (hM : M ≤ 20000000) (hB : B * B ≤ M) {g : Rng K R}
    (O : g.Open) (Bd : g.Bounded) (m : Libm K) {fuel : Nat} (hf : 1 ≤ fuel) {a : CArgs K}
    (A : a.Fits B M) (hn : a.opt.neurons = false) {rfn : Int} (hr : 0 ≤ rfn ∧ rfn < 11) (r : R)
    (os : List (COp K)) (ho : ∀ o ∈ os, o.fits B M) :
    ∃ p, (lstmInit g a rfn r >>= fun p => trun g m fuel os p.1 p.2) = .ok p ∧ p.1.Legal B M := by
  have h := C53_lstm_history (by omega) hB O Bd m hf A hr r os ho
  cases e : (lstmInit g a rfn r >>= fun p => trun g m fuel os p.1 p.2) with
  | ok p => rw [e] at h; exact ⟨p, rfl, h.1⟩
  | error f =>
    rw [e] at h
    rcases h with ⟨_, h⟩ | ⟨_, h⟩
    · omega
    · rw [hn] at h; cases h

/-! ## Where the property fails -/

/-- The first six draws are 1/4, the other ones 1/20; the normal value is 2. -/
def dropRng : Rng ℚ Nat := ⟨fun n => (if n < 6 then 1 / 4 else 1 / 20, n + 1), fun n => (2, n),
  fun x => x⟩

theorem dropRng_open : dropRng.Open := by
  intro r
  simp only [dropRng]
  split <;> norm_num

theorem dropRng_bounded : dropRng.Bounded := by intro r; simp [dropRng]; norm_num

/-- A connected layer of two neurons with `n` inputs, all weights 1/5. -/
def twoPart (o : LOpt) : CLay ℚ :=
  { nInputs := 2, nOutputs := 2, maxOutputs := 3, maxGrow := 1, nActive := 4, outW := 2, outH := 1,
    outC := 1, fn := 3, opt := o, eta := 1 / 10,
    etaMax := 1 / 10, etaMin := 0, momentum := 0, decay := 0,
    ws := List.replicate 4 ⟨1 / 5, 0, true⟩,
    ns := List.replicate 2 ⟨0, 0, 0, 0, 0⟩, mu := List.replicate 6 (1 / 10) }

/-- A recurrent layer of two neurons and two inputs as created, with the largest mutation rates. -/
def twoRec (o : LOpt) : RLay ℚ :=
  { nInputs := 2, nOutputs := 2, maxOutputs := 3, nActive := 12, outW := 2, fn := 3, opt := o,
    eta := 1 / 10, etaMax := 0, etaMin := 0, state := [some 0, some 0], prev := [some 0, some 0],
    inp := twoPart o, self := twoPart o, out := twoPart o, mu := List.replicate 6 (1 / 10) }

theorem twoPart_part (o : LOpt) : Part 3 9 2 2 3 o (twoPart o) := by
  refine ⟨⟨by simp [twoPart], by simp [twoPart], rfl, rfl, ?_, ?_, rfl, ⟨rfl, ?_⟩,
      by simp [twoPart]⟩,
    ⟨by simp [twoPart], by simp [twoPart], fun _ => by simp [twoPart], by simp [twoPart],
      fun _ => by simp [twoPart], by simp⟩,
    rfl, rfl, rfl, rfl⟩
  · intro w hw
    rw [(List.mem_replicate.1 hw).2]
    refine ⟨?_, ?_, ?_⟩ <;> norm_num
  · intro n hn
    rw [(List.mem_replicate.1 hn).2]
    norm_num
  · intro v hv
    rw [(List.mem_replicate.1 hv).2]
    refine ⟨?_, ?_⟩ <;> norm_num [muEps]

theorem twoRec_legal (o : LOpt) : (twoRec o).Legal 3 9 := by
  refine ⟨twoPart_part o, twoPart_part o, twoPart_part o, rfl, rfl, fun _ => ⟨?_, ?_⟩, ⟨rfl, ?_⟩,
    by simp [twoRec], rfl⟩
  · intro v hv
    simp [twoRec] at hv
    simp [hv]
  · intro v hv
    simp [twoRec] at hv
    simp [hv]
  · exact (twoPart_part o).sound.mu.2

theorem twoRec_counted (o : LOpt) : (twoRec o).Counted := rfl

instance (l : RLay ℚ) : Decidable l.Counted := by unfold RLay.Counted; infer_instance

/-- **C53 fails for a recurrent layer whose number of neurons evolves and whose weights are
learned**: `realloc_layer_arrays` (neural_layer_recurrent.c:63-69) does not initialise the memory
of the new neurons, and the first learning step after the growth uses it. -/
theorem C53_recurrent_growth_refuted :
    (twoRec ⟨false, true, false, true, false, false⟩).Legal 3 9 ∧
    ∃ l, recMutate constRng 5 (twoRec ⟨false, true, false, true, false, false⟩) () =
        .ok ((l, true), ()) ∧ l.nOutputs = 3 ∧
      ∀ x d p, recLearn demoLibm l x d p = .error .ub := by
  refine ⟨twoRec_legal _, ?_⟩
  have h : (match recMutate constRng 5 (twoRec ⟨false, true, false, true, false, false⟩) () with
      | .ok ((l, b), _) => b && decide (l.nOutputs = 3 ∧ l.nInputs = 2 ∧
          l.state = [some 0, some 0, none] ∧ l.opt = ⟨false, true, false, true, false, false⟩)
      | .error _ => false) = true := by decide +kernel
  have hs := recMutate_step (B := 3) (M := 9) (by decide) (by decide) constRng_open
    constRng_bounded (fuel := 5) (by decide) (twoRec_legal ⟨false, true, false, true, false, false⟩) ()
  cases e : recMutate constRng 5 (twoRec ⟨false, true, false, true, false, false⟩) () with
  | error f => rw [e] at h; cases h
  | ok p =>
    obtain ⟨⟨l, b⟩, r⟩ := p
    rw [e] at h hs
    simp only [Bool.and_eq_true, decide_eq_true_eq] at h
    obtain ⟨h1, h2, h3, h4, h5⟩ := h
    subst h1
    refine ⟨l, rfl, h2, fun x d p => ?_⟩
    have L : l.Legal 3 9 := hs.1.legal
    obtain ⟨i, e1, P1, _⟩ := L.inp.forward demoLibm (x := ofArr l.nInputs x) (by rw [length_ofArr])
    obtain ⟨s, e2, P2, _⟩ := L.self.forward demoLibm (x := l.out.outs) (by rw [L.out.outs_len])
    obtain ⟨o, e3, P3, _⟩ := L.out.forward demoLibm (x := addArr l.nOutputs s.outs i.outs)
      (by rw [addArr_length])
    have hf : recForward demoLibm l (ofArr l.nInputs x) = .ok { l with
        prev := l.state,
        state := (addArr l.nOutputs s.outs i.outs).map some, inp := i, self := s, out := o } := by
      have hst : l.state.drop l.nOutputs = [] := List.drop_eq_nil_of_le L.state.le
      have hpv : l.prev.drop l.nOutputs = [] := List.drop_eq_nil_of_le L.prev.le
      have hpt : l.state.take l.nOutputs = l.state := List.take_of_length_le L.state.le
      unfold recForward
      rw [if_neg (by rw [L.state, L.prev]; omega)]
      simp only [bind, Except.bind, e1, e2]
      rw [if_neg (by rw [P1.ns_len, P2.ns_len]; omega)]
      simp only [e3, hst, hpv, hpt, List.append_nil]
    unfold recLearn
    rw [hf]
    simp only [bind, Except.bind]
    unfold recBackward recDelta
    dsimp only
    rw [if_neg (by rw [P1.ns_len, P2.ns_len]; omega)]
    have hso : (setDelta o d).opt.sgd = true := by
      rw [(P3.setDelta d).opt, h5]
    have Ps := zeroDelta_part P2 l.nOutputs
    simp only [bind, Except.bind]
    rw [hso]
    unfold readIf
    rw [if_pos rfl, readAll_some]
    dsimp only
    obtain ⟨o', e', f2, Po, wo, ao, ho'⟩ := (P3.setDelta d).backward demoLibm
      (x := addArr l.nOutputs s.outs i.outs)
      (by rw [addArr_length]) (some (zeroDelta l.nOutputs s).deltas)
      (by intro v hv; cases hv; rw [Ps.deltas_len])
    rw [f2]
    dsimp only
    cases e' with
    | none => rfl
    | some ev =>
      dsimp only
      have hse : ((zeroDelta l.nOutputs s).withDelta ev).opt.sgd = true := by
        show s.opt.sgd = true
        rw [P2.opt, h5]
      rw [hse, if_pos rfl, h4]
      rfl

/-- **C53 fails for a recurrent layer whose weights are randomised after connections were
disconnected**: all connections become active again, the reported number does not change. -/
theorem C53_recurrent_rand_refuted :
    ∃ l r, recMutate dropRng 5 (twoRec ⟨false, false, false, false, false, true⟩) 0 =
        .ok ((l, true), r) ∧ l.Counted ∧ ¬ (recRand dropRng l r).1.Counted := by
  have h : (match recMutate dropRng 5 (twoRec ⟨false, false, false, false, false, true⟩) 0 with
      | .ok ((l, b), r) => b && decide (l.Counted) && !decide ((recRand dropRng l r).1.Counted)
      | .error _ => false) = true := by
    decide +kernel
  cases e : recMutate dropRng 5 (twoRec ⟨false, false, false, false, false, true⟩) 0 with
  | error f => rw [e] at h; cases h
  | ok p =>
    obtain ⟨⟨l, b⟩, r⟩ := p
    rw [e] at h
    simp only [Bool.and_eq_true, decide_eq_true_eq, Bool.not_eq_true', decide_eq_false_iff_not] at h
    obtain ⟨⟨h1, h2⟩, h3⟩ := h
    subst h1
    exact ⟨l, r, rfl, h2, h3⟩

/-- **C53 fails for connectivity mutation of a recurrent layer**: nothing ensures that neurons and
inputs stay connected, one mutation may disconnect all of them. -/
theorem C53_recurrent_representation_refuted :
    (twoRec ⟨false, false, false, false, false, true⟩).Legal 3 9 ∧
    ∃ l r, recMutate dropRng 5 (twoRec ⟨false, false, false, false, false, true⟩) 0 =
        .ok ((l, true), r) ∧ l.inp.nOutputs = 2 ∧ ∀ w ∈ l.inp.ws, w.on = false := by
  refine ⟨twoRec_legal _, ?_⟩
  have h : (match recMutate dropRng 5 (twoRec ⟨false, false, false, false, false, true⟩) 0 with
      | .ok ((l, b), _) => b && decide (l.inp.nOutputs = 2 ∧ ∀ w ∈ l.inp.ws, w.on = false)
      | .error _ => false) = true := by
    decide +kernel
  cases e : recMutate dropRng 5 (twoRec ⟨false, false, false, false, false, true⟩) 0 with
  | error f => rw [e] at h; cases h
  | ok p =>
    obtain ⟨⟨l, b⟩, r⟩ := p
    rw [e] at h
    simp only [Bool.and_eq_true, decide_eq_true_eq] at h
    obtain ⟨h1, h2, h3⟩ := h
    subst h1
    exact ⟨l, r, rfl, h2, h3⟩

/-! ## The hypotheses are met by concrete cases -/

example : growArgs.Fits 2 4 ∧ 2 * 2 ≤ 4 :=
  ⟨⟨by decide, by decide, by decide, by decide, by decide, by decide, by decide,
    fun _ => by decide, by decide⟩, by decide⟩

example : (match (recInit constRng demoCArgs () >>= fun p => rrun constRng demoLibm 3
      [.mutate, .learn (fun _ => 1) (fun _ => 2) true, .resize 3, .copy, .mutate, .rand,
        .forward fun _ => 1] p.1 p.2) with
    | .ok p => decide (p.1.nInputs = 3 ∧ p.1.nActive = 14)
    | .error _ => false) = true := by decide +kernel

example : (match (lstmInit constRng demoCArgs 3 () >>= fun p => trun constRng demoLibm 3
      [.mutate, .learn (fun _ => 1) (fun _ => 2) true, .resize 3, .copy, .mutate, .rand,
        .forward fun _ => 1] p.1 p.2) with
    | .ok p => decide (p.1.nInputs = 3 ∧ p.1.nActive = 40)
    | .error _ => false) = true := by decide +kernel

/-- A recurrent layer whose neurons evolve and whose weights are not learned. -/
example : (match (recInit constRng { growArgs with nMax := 5 } () >>= fun p =>
      rrun constRng demoLibm 3 [.forward fun _ => 1, .mutate, .learn (fun _ => 1) (fun _ => 2) true]
      p.1 p.2) with
    | .ok p => decide (p.1.nInputs = 1)
    | .error _ => false) = true := by decide +kernel

end Xcsf
