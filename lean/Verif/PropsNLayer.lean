import Verif.NLayerLemmas
import Verif.PropsEnv

/-!
# Property C53: weights stay within limits and masked weights stay zero
-/

set_option linter.unusedSectionVars false

namespace Xcsf
variable {K R : Type} [Field K] [LinearOrder K] [IsStrictOrderedRing K] [FloorRing K]

/-- **C53.** Whatever is done with a connected layer after its creation, in any order and with any
draws, inputs and errors: array sizes agree with the dimensions, all weights and biases lie in
`[-10, 10]`, disconnected weights are zero and the reported number of active connections is right.
The only faults are the documented ends: exceeding the limit of connections, or waiting for a
large enough draw when the number of neurons evolves.  No access leaves its array. -/
theorem C53_history_partial {B M : Nat} (hM : M < 2147483648) {g : Rng K R} (O : g.Open) (Bd : g.Bounded)
    (m : Libm K) {fuel : Nat} (hf : 1 ≤ fuel) {a : CArgs K} (A : a.Fits B M) (r : R)
    (os : List (COp K)) (ho : ∀ o ∈ os, o.fits B M) :
    Post (connInit g a r >>= fun p => crun g m fuel os p.1 p.2) (fun p => p.1.Sound)
      (CFault M a.opt.neurons) := by
  refine post_bind (connInit_step hM O Bd A r) ?_
  rintro ⟨l, r'⟩ ⟨S, F, e, _⟩
  have h := crun_step hM O Bd m hf os S F r' ho
  rw [e] at h
  exact post_mono h fun _ c => c.sound

/-- **C53**, within the limits: if no more than 20 million connections are possible and the number
of neurons does not evolve, nothing ends the program. -/
theorem C53_history_total {B M : Nat} (hM : M ≤ 20000000) {g : Rng K R} (O : g.Open)
    (Bd : g.Bounded) (m : Libm K) {fuel : Nat} (hf : 1 ≤ fuel) {a : CArgs K} (A : a.Fits B M)
    (hn : a.opt.neurons = false) (r : R) (os : List (COp K)) (ho : ∀ o ∈ os, o.fits B M) :
    ∃ p, (connInit g a r >>= fun p => crun g m fuel os p.1 p.2) = .ok p ∧ p.1.Sound := by
  have h := C53_history_partial (by omega) O Bd m hf A r os ho
  cases e : (connInit g a r >>= fun p => crun g m fuel os p.1 p.2) with
  | ok p => rw [e] at h; exact ⟨p, rfl, h⟩
  | error f =>
    rw [e] at h
    rcases h with ⟨_, h⟩ | ⟨_, h⟩
    · omega
    · rw [hn] at h; cases h

/-- **C53**, representation: if the number of neurons does not evolve, every neuron always has an
active input and every input always feeds a neuron. -/
theorem C53_represented_history {B M : Nat} (hM : M < 2147483648) {g : Rng K R} (O : g.Open)
    (Bd : g.Bounded) (m : Libm K) {fuel : Nat} (hf : 1 ≤ fuel) {a : CArgs K} (A : a.Fits B M)
    (hn : a.opt.neurons = false) (r : R) (os : List (COp K)) (ho : ∀ o ∈ os, o.fits B M) :
    Post (connInit g a r >>= fun p => crun g m fuel os p.1 p.2) (fun p => p.1.Represented)
      (CFault M a.opt.neurons) := by
  refine post_bind (connInit_step hM O Bd A r) ?_
  rintro ⟨l, r'⟩ ⟨S, F, e, q⟩
  have h := crun_step hM O Bd m hf os S F r' ho
  rw [e] at h
  exact post_mono h fun _ c => (c.rep (by rw [e]; exact hn) q).rep

/-- **C53**, representation after connectivity mutation: whenever that mutation reports a change,
every neuron has an active input and every input feeds a neuron, whatever the layer was before. -/
theorem C53_represented_after_connectivity {B M : Nat} {g : Rng K R} (O : g.Open) (Bd : g.Bounded)
    {fuel : Nat} (hf : 1 ≤ fuel) {l : CLay K} (S : l.Sound) (F : l.Fits B M) (muE muD : K) (r : R) :
    ∃ l' b r', connMutConn g fuel l muE muD r = .ok ((l', b), r') ∧ l'.Sound ∧
      (b = true → l'.Represented) := by
  obtain ⟨l', b, r', e, c, h⟩ := connMutConn_step O Bd hf S F muE muD r
  exact ⟨l', b, r', e, c.sound, h⟩

/-- **C53**, resizing to a changed layer before: the number of inputs follows. -/
theorem C53_resize {B M : Nat} (hM : M < 2147483648) {g : Rng K R} (O : g.Open)
    (Bd : g.Bounded) {fuel : Nat} (hf : 1 ≤ fuel) {l : CLay K} (S : l.Sound) (F : l.Fits B M)
    {prev : Nat} (hp : 1 ≤ prev) (hpM : B * prev ≤ M) (r : R) :
    Post (connResize g fuel l prev r) (fun p => p.1.Sound ∧ p.1.nInputs = prev)
      (CFault M l.opt.neurons) :=
  post_mono (connResize_step hM O Bd hf S F hp hpM r) fun _ h => ⟨h.1.sound, h.2⟩

/-! ## Where the property fails -/

/-- A generator that always draws 1/4 and the normal value 2. -/
def constRng : Rng ℚ Unit := ⟨fun _ => (1 / 4, ()), fun _ => (2, ()), fun x => x⟩

/-- One neuron with one input whose size and connectivity evolve. -/
def growArgs : CArgs ℚ :=
  { nInputs := 1, nInit := 1, nMax := 2, maxGrow := 1, fn := 3,
    opt := ⟨false, true, false, false, false, true⟩, eta := 1 / 10, etaMin := 0, momentum := 0,
    decay := 0 }

/-- `growArgs` after initialisation with the largest mutation rates. -/
def growLay : CLay ℚ :=
  { nInputs := 1, nOutputs := 1, maxOutputs := 2, maxGrow := 1, nActive := 1, outW := 1, outH := 1,
    outC := 1, fn := 3, opt := ⟨false, true, false, false, false, true⟩, eta := 1 / 10,
    etaMax := 1 / 10, etaMin := 0, momentum := 0, decay := 0, ws := [⟨1 / 5, 0, true⟩],
    ns := [⟨0, 0, 0, 0, 0⟩], mu := List.replicate 6 (1 / 10) }

/-- The literal reading of C53 is false when the number of neurons evolves: a neuron added by
mutation may have no active input, because the new connections are drawn inactive with probability
one half and nothing ensures representation afterwards (neural_layer_connected.c:298-309). -/
theorem C53_growth_refuted :
    growLay.Sound ∧ growLay.Represented ∧
    ∃ l r, connMutate constRng 5 growLay () = .ok ((l, true), r) ∧ ¬ l.Represented := by
  refine ⟨?_, ?_, ?_⟩
  · refine ⟨by decide, by decide, rfl, rfl, ?_, ?_, rfl, ⟨rfl, ?_⟩, by decide⟩
    · simp [growLay, WtOk]; norm_num
    · simp [growLay]
    · simp [growLay, LegalRate]; norm_num
  · refine ⟨fun i hi => ⟨0, by decide, ?_⟩, fun j hj => ⟨0, by decide, ?_⟩⟩
    · have : i = 0 := by simp [growLay] at hi; exact hi
      subst this; rfl
    · have : j = 0 := by simp [growLay] at hj; exact hj
      subst this; rfl
  · have h : (match connMutate constRng 5 growLay () with
        | .ok ((l, b), _) => b && decide (l.nOutputs = 2) && decide (l.nInputs = 1) && !l.conn 1 0
        | .error _ => false) = true := by decide +kernel
    cases e : connMutate constRng 5 growLay () with
    | error f => rw [e] at h; cases h
    | ok p =>
      obtain ⟨⟨l, b⟩, r⟩ := p
      rw [e] at h
      simp only [Bool.and_eq_true, decide_eq_true_eq, Bool.not_eq_true'] at h
      obtain ⟨⟨⟨h1, h2⟩, h3⟩, h4⟩ := h
      subst h1
      refine ⟨l, r, rfl, fun hr => ?_⟩
      obtain ⟨j, hj, hc⟩ := hr.1 1 (by omega)
      have : j = 0 := by omega
      subst this
      rw [h4] at hc
      cases hc

/-- Without the limits of the theorems the size of a layer overflows before it is checked:
65536 inputs and 32768 neurons are undefined behaviour instead of a refusal. -/
theorem C53_size_overflow_refuted (g : Rng K R) (a : CArgs K) (h1 : a.nInputs = 65536)
    (h2 : a.nInit = 32768) (r : R) : connInit g a r = .error .ub := by
  unfold connInit
  dsimp only
  rw [h1, h2, if_pos (by decide)]

/-! ## The hypotheses are met by concrete cases -/

theorem constRng_open : constRng.Open := by intro r; simp [constRng]; norm_num

theorem constRng_bounded : constRng.Bounded := by intro r; simp [constRng]; norm_num

example : growArgs.Fits 2 4 :=
  ⟨by decide, by decide, by decide, by decide, by decide, by decide, by decide,
    fun _ => by decide, by decide⟩

example : growLay.Fits 2 4 := ⟨by decide, by decide, fun _ => by decide, by decide,
  fun _ => by decide, by decide⟩

/-- Two neurons with two inputs, connectivity, weights and functions evolving, with learning. -/
def demoCArgs : CArgs ℚ :=
  { nInputs := 2, nInit := 2, nMax := 2, maxGrow := 1, fn := 3,
    opt := ⟨true, false, true, true, true, true⟩, eta := 1 / 10, etaMin := 0, momentum := 0,
    decay := 0 }

example : demoCArgs.Fits 2 8 :=
  ⟨by decide, by decide, by decide, by decide, by decide, by decide, by decide,
    (fun h => by cases h), by decide⟩

/-- Linear functions suffice for the example. -/
def demoLibm : Libm ℚ := ⟨id, id, id, id, id, id⟩

example : (match (connInit constRng demoCArgs () >>= fun p => crun constRng demoLibm 3
      [.mutate, .learn (fun _ => 1) (fun _ => 2) true, .resize 3, .copy, .mutate, .rand,
        .forward fun _ => 1] p.1 p.2) with
    | .ok p => decide (p.1.nInputs = 3 ∧ p.1.nActive = 6)
    | .error _ => false) = true := by decide +kernel

end Xcsf
