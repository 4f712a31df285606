import Verif.NSeqLearn
import Verif.PropsNRec

/-!
# Property C71: recurrent and LSTM layers compute their recurrence, and which of their parameters
are learned
-/

set_option linter.unusedSectionVars false

namespace Xcsf
variable {K R : Type} [Field K] [LinearOrder K] [IsStrictOrderedRing K] [FloorRing K]

/-! ## Values -/

/-- **C71 for recurrent layers.** The output after any sequence of inputs is that of the
recurrence `recCell`, started with the output the layer had before. -/
theorem C71_recurrent_sequence {B M : Nat} {l : RLay ℝ} (L : l.Legal B M) (xs : List (List ℝ))
    (hx : ∀ x ∈ xs, x.length = l.nInputs) :
    ∃ l', recSeq realLibm xs l = .ok l' ∧
      l'.out.outs = xs.foldl (recCell l.inp.par l.self.par l.out.par) l.out.outs := by
  obtain ⟨l', e, _, h⟩ := recSeq_val xs L fun x hm => (hx x hm).ge
  exact ⟨l', e, h⟩

/-- **C71 for LSTM layers.** The memory and the output after any non-empty sequence of inputs are
those of the recurrence `lstmCell`, started with the memory and output the layer had before. -/
theorem C71_lstm_sequence {B M : Nat} {l : TLay ℝ} (L : l.Legal B M) (x : List ℝ)
    (xs : List (List ℝ)) (hx : ∀ y ∈ x :: xs, y.length = l.nInputs) :
    ∃ l', lstmSeq realLibm (x :: xs) l = .ok l' ∧ l'.output = l'.h ∧
      (l'.c, l'.h) = (x :: xs).foldl
        (lstmCell l.fn l.rfn (l.u.map CLay.par) (l.w.map CLay.par)) (l.c, l.h) := by
  obtain ⟨l1, e1, L1, d1, p1, p2, p3, p4, o1, v1⟩ := lstmForward_val L
    (hx x List.mem_cons_self).ge
  obtain ⟨l2, e2, _, o2, v2⟩ := lstmSeq_val xs L1 (fun y hy => by
    rw [d1]; exact (hx y (List.mem_cons_of_mem _ hy)).ge) o1
  refine ⟨l2, ?_, o2, ?_⟩
  · unfold lstmSeq
    rw [e1]
    exact e2
  · rw [v2, v1, p1, p2, p3, p4]
    rfl

/-! ## Learning -/

/-- **C71 fails for recurrent layers whose learning rate evolves**: after the first mutation the
layer's learning rate is zero (its limits are never set), and from then on no training changes any
weight or bias of the layer, whatever happened before. -/
theorem C71_recurrent_eta_refuted {B M : Nat} (hM : M < 2147483648) (hB : B * B ≤ M) {g : Rng K R}
    (O : g.Open) (Bd : g.Bounded) (m : Libm K) {fuel : Nat} (hf : 1 ≤ fuel) {a : CArgs K}
    (A : a.Fits B M) (hk : a.opt.sgd = false ∨ a.opt.neurons = false) (he : a.opt.eta = true)
    (r : R) (os : List (COp K)) (ho : ∀ o ∈ os, o.fits B M) (es : List (Example K)) :
    Post (recInit g a r >>= fun p => rrun g m fuel os p.1 p.2 >>= fun p => recMutate g fuel p.1 p.2)
      (fun p => p.1.1.eta = 0 ∧
        ∃ l', recTrain m es p.1.1 = .ok l' ∧ p.1.1.SamePar l') AnyFault := by
  refine post_bind (post_and (post_mono_fault (recInit_step hM hB O Bd A r) fun _ _ => trivial)
    (recInit_dead he r)) ?_
  rintro ⟨l, r1⟩ ⟨⟨L, e, _, _⟩, D⟩
  have e : l.opt = a.opt := e
  refine post_bind (post_and (post_mono_fault (rrun_step hM hB O Bd m hf os L
    (by rw [e]; exact hk) r1 ho) fun _ _ => trivial) (rrun_dead os D r1)) ?_
  rintro ⟨l2, r2⟩ ⟨s2, D2⟩
  have s2 : RStep B M _ l l2 := s2
  have D2 : EtaDead l2 := D2
  refine post_mono (post_and (post_mono_fault (recMutate_step hM hB O Bd hf s2.legal r2)
    fun _ _ => trivial) (recMutate_dead D2 r2)) ?_
  rintro ⟨⟨l3, b⟩, r3⟩ ⟨⟨s3, _⟩, _, e3⟩
  refine ⟨e3, recTrain_dead es s3.legal e3 ?_⟩
  rw [s3.opt, s2.opt, e]
  exact hk

/-- A new LSTM layer without weight decay has nothing pending. -/
theorem lstmInit_idle {g : Rng K R} {a : CArgs K} {rfn : Int} (hd : a.decay ≤ 0) (r : R) :
    Post (lstmInit g a rfn r) (fun p => TIdle p.1) AnyFault := by
  have hi : ∀ (a' : CArgs K) (r : R), a'.decay = a.decay →
      Post (connInit g a' r) (fun p => Idle p.1 ∧ IdleBias p.1) AnyFault := by
    intro a' r h
    unfold connInit
    dsimp only
    split
    · trivial
    · split
      · trivial
      · split
        · trivial
        · split
          · trivial
          · refine ⟨⟨by rw [← h] at hd; exact hd, ?_⟩, ?_⟩
            · intro w hw
              obtain ⟨v, _, rfl⟩ := List.mem_map.1 hw
              rfl
            · intro n hn
              rw [(List.mem_replicate.1 hn).2]
  have hg : ∀ (b : Gates (CArgs K)) (r : R), b.All (fun a' => a'.decay = a.decay) →
      Post (Gates.mapR (connInit g) b r) (fun p => p.1.All fun c => Idle c ∧ IdleBias c)
        AnyFault := by
    intro b r hb
    unfold Gates.mapR
    refine post_bind (hi _ _ hb.f) ?_
    rintro ⟨f, r1⟩ hf
    refine post_bind (hi _ _ hb.i) ?_
    rintro ⟨i, r2⟩ hi'
    refine post_bind (hi _ _ hb.g) ?_
    rintro ⟨g', r3⟩ hg
    refine post_bind (hi _ _ hb.o) ?_
    rintro ⟨o, r4⟩ ho
    exact ⟨hf, hi', hg, ho⟩
  unfold lstmInit
  refine post_bind (hg _ r ⟨rfl, rfl, rfl, rfl⟩) ?_
  rintro ⟨u, r1⟩ hu
  refine post_bind (hg _ r1 ⟨rfl, rfl, rfl, rfl⟩) ?_
  rintro ⟨w, r2⟩ hw
  have hu : u.All _ := hu
  have hw : w.All _ := hw
  have keep : ∀ (c : CLay K) (v : K), Idle c → Idle { c with eta := v } :=
    fun c v I => ⟨I.decay, I.upd⟩
  refine post_bind (Q := fun l => TIdle l) ?_ ?_
  · unfold lstmArrays
    split
    · trivial
    · exact ⟨⟨hu.f.1, keep _ _ hw.f.1, hu.f.2, hw.f.2⟩, keep _ _ hw.i.1, keep _ _ hw.g.1,
        keep _ _ hw.o.1⟩
  · rintro l hl
    refine post_bind (post_any _) ?_
    rintro ⟨mu, r3⟩ _
    exact ⟨hl.f, hl.i, hl.g, hl.o⟩

/-- **C71 fails for LSTM layers**: the layer never remembers its last output and memory for the
backward pass (`prev_state` and `prev_cell` stay zero), so that without weight decay no training,
however long, changes any weight or bias of the forget gate or any weight from the layer's own
output: the recurrent connections are never learned. -/
theorem C71_lstm_memory_never_learned_refuted {B M : Nat} (hM : M < 2147483648) (hB : B * B ≤ M)
    {g : Rng K R} (O : g.Open) (Bd : g.Bounded) (m : Libm K) {a : CArgs K} (A : a.Fits B M)
    (hd : a.decay ≤ 0) {rfn : Int} (hr : 0 ≤ rfn ∧ rfn < 11) (r : R) (es : List (Example K)) :
    Post (lstmInit g a rfn r) (fun p => ∃ l', lstmTrain m es p.1 = .ok l' ∧ TSame p.1 l')
      AnyFault := by
  refine post_mono (post_and (post_mono_fault (lstmInit_step hM hB O Bd A hr r)
    fun _ _ => trivial) (lstmInit_idle hd r)) ?_
  rintro ⟨l, r1⟩ ⟨⟨L, _⟩, I⟩
  exact lstmTrain_idle es L I

/-- The same for any legal layer with nothing pending, whatever its weights. -/
theorem C71_lstm_memory_never_learned {B M : Nat} (m : Libm K) {l : TLay K} (L : l.Legal B M)
    (I : TIdle l) (es : List (Example K)) : ∃ l', lstmTrain m es l = .ok l' ∧ TSame l l' :=
  lstmTrain_idle es L I

/-! ## The gradient of the recurrent weights -/

/-- One linear neuron with one input and weight `w`. -/
def onePart (w : ℚ) : CLay ℚ :=
  { nInputs := 1, nOutputs := 1, maxOutputs := 1, maxGrow := 1, nActive := 1, outW := 1, outH := 1,
    outC := 1, fn := 3, opt := ⟨false, false, false, true, false, false⟩, eta := 1 / 10,
    etaMax := 1 / 10, etaMin := 0, momentum := 0, decay := 0,
    ws := [⟨w, 0, true⟩], ns := [⟨0, 0, 0, 0, 0⟩], mu := List.replicate 6 (1 / 10) }

/-- A recurrent layer of one linear neuron: input weight 1, recurrent weight `v`, output
weight 2. -/
def oneRec (v : ℚ) : RLay ℚ :=
  { nInputs := 1, nOutputs := 1, maxOutputs := 1, nActive := 3, outW := 1, fn := 3,
    opt := ⟨false, false, false, true, false, false⟩,
    eta := 1 / 10, etaMax := 0, etaMin := 0, state := [some 0], prev := [some 0],
    inp := onePart 1, self := onePart v, out := onePart 2, mu := List.replicate 6 (1 / 10) }

/-- The output after the inputs 1 and 1. -/
def oneOut (v : ℚ) : Option (List ℚ) :=
  match recSeq demoLibm [[1], [1]] (oneRec v) with
  | .ok l => some l.out.outs
  | .error _ => none

/-- The update of the recurrent weight after the inputs 1 and 1 and the error 1. -/
def oneUpd (v : ℚ) : Option (List ℚ) :=
  match (recSeq demoLibm [[1], [1]] (oneRec v) >>= fun l =>
      recBackward demoLibm (recDelta l fun _ => 1) [1] none) with
  | .ok (l, _) => some (l.self.ws.map Wt.upd)
  | .error _ => none

theorem onePart_forward (w x s o d : ℚ) (h0 : -100 ≤ x * w) (h1 : x * w ≤ 100) :
    connForward demoLibm { onePart w with ns := [⟨0, 0, s, o, d⟩] } [x] =
      .ok { onePart w with ns := [⟨0, 0, x * w, x * w, d⟩] } := by
  have e : ofArr 1 (gemm false true 1 1 1 1 (arrOf [x]) 1 (arrOf [w]) 1 1 (arrOf [0]) 1) =
      [x * w] := by
    have h := (C43_gemm false true 1 1 1 1 (arrOf [x]) 1 (arrOf [w]) 1 1 (arrOf [0]) 1
      (Nat.le_refl _)).1 0 (by omega) 0 (by omega)
    simp only [Nat.zero_mul, Nat.add_zero, opAt, Finset.sum_range_one, one_mul] at h
    simp [ofArr, h, arrOf]
  unfold connForward
  simp only [onePart, List.map_cons, List.map_nil, List.length_cons, List.length_nil]
  rw [if_neg (by omega), e]
  simp [activateArray, activate, linearAct, clampK_id h0 h1]

theorem recSeq_cons {m : Libm K} {l l1 : RLay K} {x : List K} {xs : List (List K)}
    (h : recForward m l x = .ok l1) : recSeq m (x :: xs) l = recSeq m xs l1 := by
  unfold recSeq
  rw [h]
  cases xs <;> rfl

/-- The output of that layer is linear in the recurrent weight, with derivative 4. -/
theorem oneOut_val (v : ℚ) (h0 : 0 ≤ v) (h1 : v ≤ 2) : oneOut v = some [2 + 4 * v] := by
  unfold oneOut
  have a1 := onePart_forward 1 1 0 0 0 (by norm_num) (by norm_num)
  have a2 := onePart_forward v 0 0 0 0 (by norm_num) (by norm_num)
  have a3 := onePart_forward 2 1 0 0 0 (by norm_num) (by norm_num)
  have b1 := onePart_forward 1 1 1 1 0 (by norm_num) (by norm_num)
  have b2 := onePart_forward v 2 0 0 0 (by linarith) (by linarith)
  have b3 := onePart_forward 2 (1 + 2 * v) 2 2 0 (by linarith) (by linarith)
  have e1 : recForward demoLibm (oneRec v) [1] = .ok { oneRec v with
      state := [some 1], prev := [some 0], inp := { onePart 1 with ns := [⟨0, 0, 1, 1, 0⟩] },
      self := { onePart v with ns := [⟨0, 0, 0, 0, 0⟩] },
      out := { onePart 2 with ns := [⟨0, 0, 2, 2, 0⟩] } } := by
    have c1 : connForward demoLibm (onePart 1) [1] = _ := a1
    have c2 : connForward demoLibm (onePart v) [0] = _ := a2
    have c3 : connForward demoLibm (onePart 2) [1] = _ := a3
    have hs : addArr 1 [0 * v] [(1 : ℚ) * 1] = [1] := by simp [addArr, ofArr, arrOf]
    unfold recForward
    simp only [oneRec, bind, Except.bind, CLay.outs]
    simp only [show (onePart 2).ns.map Neuron.out = [0] from rfl, c1, c2, List.map_cons,
      List.map_nil, hs, c3]
    simp
  have e2 : recForward demoLibm { oneRec v with
      state := [some 1], prev := [some 0], inp := { onePart 1 with ns := [⟨0, 0, 1, 1, 0⟩] },
      self := { onePart v with ns := [⟨0, 0, 0, 0, 0⟩] },
      out := { onePart 2 with ns := [⟨0, 0, 2, 2, 0⟩] } } [1] = .ok { oneRec v with
      state := [some (1 + 2 * v)], prev := [some 1],
      inp := { onePart 1 with ns := [⟨0, 0, 1, 1, 0⟩] },
      self := { onePart v with ns := [⟨0, 0, 2 * v, 2 * v, 0⟩] },
      out := { onePart 2 with ns := [⟨0, 0, (1 + 2 * v) * 2, (1 + 2 * v) * 2, 0⟩] } } := by
    have hs : addArr 1 [2 * v] [(1 : ℚ) * 1] = [1 + 2 * v] := by simp [addArr, ofArr, arrOf]
    unfold recForward
    simp only [oneRec, bind, Except.bind, CLay.outs, List.map_cons, List.map_nil, b1, b2, hs, b3]
    simp
  have e3 : recSeq demoLibm [[1], [1]] (oneRec v) = .ok { oneRec v with
      state := [some (1 + 2 * v)], prev := [some 1],
      inp := { onePart 1 with ns := [⟨0, 0, 1, 1, 0⟩] },
      self := { onePart v with ns := [⟨0, 0, 2 * v, 2 * v, 0⟩] },
      out := { onePart 2 with ns := [⟨0, 0, (1 + 2 * v) * 2, (1 + 2 * v) * 2, 0⟩] } } := by
    rw [recSeq_cons e1, recSeq_cons e2]
    rfl
  rw [e3]
  simp only [CLay.outs, List.map_cons, List.map_nil]
  congr 2
  ring

/-- **C71 fails for the recurrent weights of a recurrent layer**: in the forward pass they are fed
with the last output, in the backward pass with the last state, so that the update is not the
derivative of the output.  Here the output after two inputs is `2 + 4 v` for each recurrent weight
`v` in `[0, 2]`, and with an error of one the update at `v = 1` is 2, not 4. -/
theorem C71_recurrent_self_gradient_refuted :
    (∀ v, 0 ≤ v → v ≤ 2 → oneOut v = some [2 + 4 * v]) ∧ oneUpd 1 = some [2] :=
  ⟨oneOut_val, by decide +kernel⟩

/-! ## The hypotheses are met by concrete cases -/

/-- Learning does change the other weights of an LSTM layer, and the learning rate is positive. -/
example : (match (lstmInit constRng demoCArgs 3 () >>= fun p =>
      lstmTrain demoLibm [⟨fun _ => 1, fun _ => 2, true⟩] p.1 >>= fun l => .ok (p.1, l)) with
    | .ok (l, l') => decide (0 < l.eta ∧ l'.u.o.ws.map Wt.w ≠ l.u.o.ws.map Wt.w ∧
        l'.w.o.ns.map Neuron.bias ≠ l.w.o.ns.map Neuron.bias)
    | .error _ => false) = true := by decide +kernel

/-- Arguments with an evolving learning rate. -/
def etaCArgs : CArgs ℚ :=
  { demoCArgs with opt := { demoCArgs.opt with eta := true, neurons := false, sgd := true } }

example : (match (recInit constRng etaCArgs () >>= fun p =>
      recTrain demoLibm [⟨fun _ => 1, fun _ => 2, true⟩] p.1 >>= fun l =>
      recMutate constRng 3 p.1 p.2 >>= fun q => .ok (p.1, l, q.1.1)) with
    | .ok (l, l', l'') => decide (0 < l.eta ∧ l'.out.ws.map Wt.w ≠ l.out.ws.map Wt.w ∧ l''.eta = 0)
    | .error _ => false) = true := by decide +kernel

example : demoCArgs.decay ≤ 0 ∧ ∃ B M, demoCArgs.Fits B M ∧ B * B ≤ M :=
  ⟨by decide +kernel, 5, 25, ⟨by decide +kernel, by decide +kernel, by decide +kernel,
    by decide +kernel, by decide +kernel, by decide +kernel, by decide +kernel,
    fun _ => by decide +kernel, by decide +kernel⟩, by decide⟩

end Xcsf
