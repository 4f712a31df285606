import Verif.NConvHist
import Verif.PropsNLayer

/-!
# Properties C53 and C54: histories of convolutional layers, and where the properties fail
-/

set_option linter.unusedSectionVars false

namespace Xcsf
open Finset
variable {K R : Type} [Field K] [LinearOrder K] [IsStrictOrderedRing K] [FloorRing K]

/-- **C53 for convolutional layers.** Whatever is done with the layer after its creation, in any
order and with any draws, images and errors: its sizes agree with its parameters, all weights and
biases lie in `[-10, 10]`, disconnected weights are zero and the reported number of active
connections is right.  The only faults are the documented ends; no access leaves its array and no
unwritten element is read. -/
theorem C53_conv_history {B M N : Nat} (hM : M < 2147483648) (hN : N < 2147483648) {g : Rng K R}
    (O : g.Open) (Bd : g.Bounded) (m : Libm K) (fuel : Nat) {a : VArgs K} (A : a.Fits B M N) (r : R)
    (os : List (VOp K)) (ho : ∀ o ∈ os, o.fits B M N a.size a.stride a.pad) :
    Post (convInit g a r >>= fun p => vrun g m fuel os p.1 p.2) (fun p => p.1.Legal)
      (VFault M N a.base.opt.neurons) := by
  refine post_bind (convInit_step hM hN O Bd A r) ?_
  rintro ⟨l, r'⟩ ⟨L, F, e, e1, e2, e3⟩
  have h := vrun_step hM hN O Bd m fuel os L F r' (by
    intro o h
    rw [e1, e2, e3]
    exact ho o h)
  rw [e] at h
  exact post_mono h fun _ c => c.legal

/-- **C53**, within the limits: at most 20 million weights, two million outputs, and a fixed number
of filters. -/
theorem C53_conv_history_total {B M N : Nat} (hM : M ≤ 20000000) (hN : N ≤ 2000000) {g : Rng K R}
    (O : g.Open) (Bd : g.Bounded) (m : Libm K) (fuel : Nat) {a : VArgs K} (A : a.Fits B M N)
    (hn : a.base.opt.neurons = false) (r : R)
    (os : List (VOp K)) (ho : ∀ o ∈ os, o.fits B M N a.size a.stride a.pad) :
    ∃ p, (convInit g a r >>= fun p => vrun g m fuel os p.1 p.2) = .ok p ∧ p.1.Legal := by
  have h := C53_conv_history (by omega) (by omega) O Bd m fuel A r os ho
  cases e : (convInit g a r >>= fun p => vrun g m fuel os p.1 p.2) with
  | ok p => rw [e] at h; exact ⟨p, rfl, h⟩
  | error f =>
    rw [e] at h
    rcases h with ⟨_, h⟩ | ⟨_, h⟩
    · omega
    · rw [hn] at h; cases h

/-- **C54**, resizing to a changed layer before: the dimensions follow. -/
theorem C54_conv_resize {B M N : Nat} (hM : M < 2147483648) (hN : N < 2147483648) {g : Rng K R}
    (Bd : g.Bounded) {l : VLay K} (L : l.Legal) (F : l.Fits B M N) {w h c : Int}
    (G : Geo B M N l.size l.stride l.pad w h c) (r : R) :
    Post (convResize g l w h c r) (fun p => p.1.Legal ∧ p.1.width = w ∧ p.1.height = h ∧
      p.1.channels = c ∧ p.1.core.nOutputs = l.core.nOutputs) (VFault M N l.core.opt.neurons) := by
  have h0 := convResize_step hM hN Bd L F G r
  cases e : convResize g l w h c r with
  | error f => rw [e] at h0; exact h0
  | ok p =>
    rw [e] at h0
    obtain ⟨v, h1, h2, h3⟩ := h0
    refine ⟨v.legal, h1, h2, h3, ?_⟩
    unfold convResize at e
    repeat' split at e
    all_goals cases e
    rfl

/-- Backward in the first layer: the same updates, no error is handed on. -/
theorem C54_conv_first (m : Libm K) (l l' : VLay K) (x d d' : List K)
    (h : convBackward m l x (some d) = .ok (l', some d')) :
    ∃ l'', convBackward m l x none = .ok (l'', none) ∧ l''.core = l'.core ∧
      l''.cells = l'.cells := by
  unfold convBackward at h ⊢
  dsimp only at h ⊢
  split at h
  · cases h
  · next hc =>
    rw [if_neg hc]
    generalize (if l.core.opt.sgd = true then convUpdates m l x else .ok l) = q at h ⊢
    cases q with
    | error e => cases h
    | ok l1 =>
      refine ⟨l1, rfl, ?_⟩
      dsimp only at h
      split at h
      · cases h
      · next l2 d2 e =>
        cases h
        unfold convDelta at e
        dsimp only at e
        repeat' split at e
        all_goals cases e
        all_goals exact ⟨rfl, rfl⟩

/-- Backward without gradient descent: weights, updates and errors are left alone, and the error
handed on is the adjoint of the sliding-window sum applied to the errors as they are. -/
theorem C54_conv_backward_frozen (m : Libm K) (l : VLay K) (L : l.ConvOk) (F : l.Filled)
    (x d : List K) (hd : d.length = l.nIn.toNat) (hz : l.size = 1 → ∀ v ∈ d, v = 0)
    (hs : l.core.opt.sgd = false) :
    ∃ l' d', convBackward m l x (some d) = .ok (l', some d') ∧ d'.length = d.length ∧
      l' = { l with temp := l'.temp } ∧
      ∀ v : List K, v.length = l.nIn.toNat →
        inner d' (fun i => v.getD i 0) = inner d (fun i => v.getD i 0) +
          ∑ f ∈ range l.core.nOutputs, ∑ i ∈ range l.outH.toNat, ∑ j ∈ range l.outW.toNat,
            (l.cells.map Cell.delta).getD (l.opos f i j) 0 * l.slide v f i j := by
  obtain ⟨H, W, C, S, T, P, OH, OW, D⟩ := L.dims
  rw [D.nIn] at hd
  obtain ⟨t', d', ed, tl', tf', hdl, hadj⟩ := convDelta_spec D F hd hz
  unfold convBackward
  dsimp only
  rw [D.fan, D.n, if_neg (by rw [D.wlen, D.cl, D.blen]; omega), if_neg (by rw [hs]; simp)]
  dsimp only
  rw [ed]
  refine ⟨_, d', rfl, hdl, rfl, ?_⟩
  intro v hv
  rw [D.nIn] at hv
  rw [hadj v hv, D.oh, D.ow, Int.toNat_natCast, Int.toNat_natCast]

/-! ## Where the properties fail -/

/-- One filter over one channel. -/
def demoVArgs (n size stride pad fn : Int) (sgd : Bool) : VArgs ℚ :=
  { base := { nInputs := 0, nInit := 1, nMax := 1, maxGrow := 1, fn := fn,
              opt := { eta := false, neurons := false, functions := false, sgd := sgd, weights := false,
                       connect := false },
              eta := 1 / 10, etaMin := 0, momentum := 0, decay := 0 },
    height := n, width := n, channels := 1, size := size, stride := stride, pad := pad }

/-- Kernels of size one ignore the stride: with stride two over nine pixels the second output should
be the third pixel times the weight 1/5, but is the second. -/
theorem C54_conv_unit_stride_refuted :
    ∃ l r l', convInit constRng (demoVArgs 3 1 2 0 3 true) () = .ok (l, r) ∧
      convForward demoLibm l [1, 2, 3, 4, 5, 6, 7, 8, 9] = .ok l' ∧
      l.slide [1, 2, 3, 4, 5, 6, 7, 8, 9] 0 0 1 = 3 / 5 ∧
      (l'.cells.map Cell.out)[l.opos 0 0 1]? = some (2 / 5) := by
  have h : (match convInit constRng (demoVArgs 3 1 2 0 3 true) () with
      | .ok (l, _) =>
        match convForward demoLibm l [1, 2, 3, 4, 5, 6, 7, 8, 9] with
        | .ok l' => decide (l.slide [1, 2, 3, 4, 5, 6, 7, 8, 9] 0 0 1 = 3 / 5) &&
            decide ((l'.cells.map Cell.out)[l.opos 0 0 1]? = some (2 / 5))
        | .error _ => false
      | .error _ => false) = true := by decide +kernel
  cases e : convInit constRng (demoVArgs 3 1 2 0 3 true) () with
  | error f => rw [e] at h; cases h
  | ok p =>
    obtain ⟨l, r⟩ := p
    rw [e] at h
    dsimp only at h
    cases e2 : convForward demoLibm l [1, 2, 3, 4, 5, 6, 7, 8, 9] with
    | error f => rw [e2] at h; cases h
    | ok l' =>
      rw [e2] at h
      simp only [Bool.and_eq_true, decide_eq_true_eq] at h
      exact ⟨l, r, l', rfl, e2, h.1, h.2⟩

/-- A layer made from arguments the program accepts whose forward pass is undefined. -/
def badForward (a : VArgs ℚ) (x : List ℚ) : Bool :=
  match convInit constRng a () with
  | .ok (l, _) =>
    decide (x.length = l.nIn.toNat) &&
    match convForward demoLibm l x with
    | .ok _ => false
    | .error e => decide (e = .ub)
  | .error _ => false

theorem badForward_iff {a : VArgs ℚ} {x : List ℚ} (h : badForward a x = true) :
    ∃ l r, convInit constRng a () = .ok (l, r) ∧ x.length = l.nIn.toNat ∧
      convForward demoLibm l x = .error .ub := by
  unfold badForward at h
  split at h
  · next l r e =>
    rw [Bool.and_eq_true, decide_eq_true_eq] at h
    refine ⟨l, r, e, h.1, ?_⟩
    have h2 := h.2
    split at h2
    · cases h2
    · next f e2 =>
      rw [e2]
      rw [of_decide_eq_true h2]
  · cases h

/-- Kernels of size one ignore the padding: the output of a padded image is larger than the image,
and the matrix product reads past its end. -/
theorem C54_conv_unit_pad_refuted :
    ∃ l r, convInit constRng (demoVArgs 1 1 1 1 3 true) () = .ok (l, r) ∧
      ([1] : List ℚ).length = l.nIn.toNat ∧ convForward demoLibm l [1] = .error .ub :=
  badForward_iff (by decide +kernel)

/-- An image smaller than the kernel in both directions gives two negative dimensions whose product
passes all checks; the columns are then never written, but read. -/
theorem C54_conv_small_image_refuted :
    ∃ l r, convInit constRng (demoVArgs 1 4 1 0 3 true) () = .ok (l, r) ∧
      ([1] : List ℚ).length = l.nIn.toNat ∧ convForward demoLibm l [1] = .error .ub :=
  badForward_iff (by decide +kernel)

/-- Without gradient descent in this layer the error handed on lacks the derivative of the
activation: a rectifier that is off (state -2/5, derivative zero) still passes its error on. -/
theorem C54_conv_frozen_gradient_refuted :
    ∃ l r l1 l2 d, convInit constRng (demoVArgs 1 1 1 0 1 false) () = .ok (l, r) ∧
      convForward demoLibm l [-2] = .ok l1 ∧ l1.cells.map Cell.state = [-2 / 5] ∧
      gradient demoLibm 1 (-2 / 5) = .ok 0 ∧
      convBackward demoLibm (setCells l1 fun _ => 1) [-2] (some [0]) = .ok (l2, some d) ∧
      d = [1 / 5] := by
  have h : (match convInit constRng (demoVArgs 1 1 1 0 1 false) () with
      | .ok (l, _) =>
        match convForward demoLibm l [-2] with
        | .ok l1 =>
          decide (l1.cells.map Cell.state = [-2 / 5]) &&
          match convBackward demoLibm (setCells l1 fun _ => 1) [-2] (some [0]) with
          | .ok (_, some d) => decide (d = [1 / 5])
          | _ => false
        | .error _ => false
      | .error _ => false) = true := by decide +kernel
  cases e : convInit constRng (demoVArgs 1 1 1 0 1 false) () with
  | error f => rw [e] at h; cases h
  | ok p =>
    obtain ⟨l, r⟩ := p
    rw [e] at h
    dsimp only at h
    cases e2 : convForward demoLibm l [-2] with
    | error f => rw [e2] at h; cases h
    | ok l1 =>
      rw [e2] at h
      simp only [Bool.and_eq_true, decide_eq_true_eq] at h
      obtain ⟨h1, h2⟩ := h
      cases e3 : convBackward demoLibm (setCells l1 fun _ => 1) [-2] (some [0]) with
      | error f => rw [e3] at h2; cases h2
      | ok q =>
        obtain ⟨l2, o⟩ := q
        rw [e3] at h2
        cases o with
        | none => cases h2
        | some d =>
          refine ⟨l, r, l1, l2, d, rfl, e2, h1, ?_, e3, of_decide_eq_true h2⟩
          norm_num [gradient, reluGrad, b2d]

/-! ## The hypotheses are met by concrete cases -/

example : (demoVArgs 3 2 1 1 3 true).Fits 1 4 100 :=
  { s := by decide, st := by decide, p := by decide, one := by decide, geo := by
      exact ⟨by decide, by decide, by decide, by decide, by decide, by decide, by decide, by decide,
        by decide, by decide⟩
    init := by decide, cur := by decide, max := by decide, big := by decide, le := by decide,
    grow := by decide, fn := by decide }

example : (match (convInit constRng (demoVArgs 3 2 1 1 3 true) () >>= fun p =>
      vrun constRng demoLibm 3 [.mutate, .learn (fun _ => 1) (fun _ => 2) true, .resize 2 3 2, .copy,
        .mutate, .rand, .forward fun _ => 1] p.1 p.2) with
    | .ok p => decide (p.1.nIn = 12 ∧ p.1.core.nActive = 8 ∧ p.1.outW = 3 ∧ p.1.outH = 4)
    | .error _ => false) = true := by decide +kernel

end Xcsf
