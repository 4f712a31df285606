import Verif.NGenNet
import Verif.PropsNLayer

/-!
# Property C49: the sizes of the layers of a network agree after every history
-/

set_option linter.unusedSectionVars false

namespace Xcsf
variable {K R : Type} [Field K] [LinearOrder K] [IsStrictOrderedRing K] [FloorRing K]

/-- **C49 for a network created from legal parameters and any history of mutation, resizing,
forward propagation, randomisation and copying**: each layer reads as many inputs as the layer
before has outputs, images agree in width, height and channels, and the first layer reads the input.
A forward pass then reads only storage that exists and has been written: there is no undefined
behaviour, all outputs of all layers are written and each layer has as many as it reports.  Missing
of the full claim: image layers must not follow a layer of neurons that evolves its size
(`ArgsFit`); the claim is false without that, see below. -/
theorem C49_sizes_agree_partial {k : Lim} (hk : k.Ok) {g : Rng K R} (O : g.Open) (Bd : g.Bounded)
    {m : Libm K} (hm : ∀ x, 0 < m.exp x) (lo : K) {fuel : Nat} (hf : 1 ≤ fuel)
    {as : List (GArgs K)} (hne : as ≠ []) {b : Bool} {d : Dim} (D : d.Ok k b)
    (A : ArgsFit k b d as) (h1 : ∀ a ∈ as.head?, a.first d) (ops : List (NOp K)) (r : R) :
    Post (genCreate g as r >>= fun p => nrun g m lo fuel d.n.toNat ops p.1 p.2)
      (fun z => Chained z.1 ∧ (∀ l ∈ z.1.head?, Agrees d l) ∧
        ∀ (train : Bool) (x : Nat → K) (s : R),
          Post (genForward g m lo train z.1 (ofArr d.n.toNat x) s)
            (fun w => Chained w.1 ∧ w.1.map GLay.dim = z.1.map GLay.dim ∧
              ∀ l ∈ w.1, ∃ o, l.outs = .ok o ∧ o.length = l.dim.n.toNat)
            (fun e => e = .exit ∧ k.maxpool = true))
      (GFault k) := by
  refine post_bind (genCreate_step hk O Bd hne D A h1 r) ?_
  rintro ⟨ls, r1⟩ ⟨N, _⟩
  refine post_mono (nrun_step hk O Bd hm lo hf D ops ls r1 N) ?_
  rintro ⟨ls', r2⟩ ⟨N', _⟩
  refine ⟨netLegal_chained _ _ _ N', ?_, ?_⟩
  · intro l hl
    dsimp only at hl
    cases ls' with
    | nil => simp at hl
    | cons a t => simp at hl; subst hl; exact N'.2.1
  · intro t x s
    refine post_mono (genForward_step (g := g) hm lo t ls' b d (ofArr d.n.toNat x) s N'
      (by simp [ofArr])) ?_
    rintro w ⟨W, h2, h3, _⟩
    exact ⟨netLegal_chained _ _ _ W, h2, h3⟩

/-- **C49, one mutation**: whatever a mutation does with a legal network, the result is legal again
for the same input. -/
theorem C49_mutation_partial {k : Lim} (hk : k.Ok) {g : Rng K R} (O : g.Open) (Bd : g.Bounded)
    {fuel : Nat} (hf : 1 ≤ fuel) {b : Bool} {d : Dim} (D : d.Ok k b) {ls : List (GLay K)}
    (N : NetLegal k b d ls) (r : R) :
    Post (genMutate g fuel none ls r) (fun z => NetLegal k b d z.1.1 ∧ Chained z.1.1 ∧
      z.1.1.length = ls.length) (GFault k) := by
  have h := genMutate_step hk O Bd hf ls b d d r D D (fun _ => ⟨rfl, rfl⟩) N
  rw [if_neg (by simp)] at h
  exact post_mono h (fun z hz => ⟨hz.1, netLegal_chained _ _ _ hz.1, hz.2.length_eq.symm⟩)

theorem fixed_getLast {a b : List (GLay K)} (h : List.Forall₂ Fixed a b) :
    ∀ l ∈ a.getLast?, ∃ l', b.getLast? = some l' ∧ Fixed l l' := by
  induction h with
  | nil => simp
  | @cons x y xs ys h t ih =>
    cases t with
    | nil =>
      intro l hl
      simp at hl
      subst hl
      exact ⟨y, rfl, h⟩
    | cons h2 t2 =>
      intro l hl
      rw [List.getLast?_cons_cons] at hl ⊢
      exact ih l hl

/-- **C49 for the output layer**: if it is a layer of neurons whose number does not evolve, then
the reported number of outputs stays right and each of them can be read after a forward pass,
whatever the other layers do. -/
theorem C49_outputs_readable {k : Lim} (hk : k.Ok) {g : Rng K R} (O : g.Open) (Bd : g.Bounded)
    {m : Libm K} (hm : ∀ x, 0 < m.exp x) (lo : K) {fuel : Nat} (hf : 1 ≤ fuel)
    {b : Bool} {d : Dim} (D : d.Ok k b) {ls : List (GLay K)} (N : NetLegal k b d ls) {h : GLay K}
    (hl : ls.getLast? = some h) (hs : h.still false = true) (ops : List (NOp K)) (r : R)
    (train : Bool) (x : Nat → K) :
    Post (nrun g m lo fuel d.n.toNat (ops ++ [.forward train x]) ls r)
      (fun z => ∀ i : Int, 0 ≤ i → i < h.dim.n → ∃ v, genOutput h.dim.n z.1 i = .ok v)
      (GFault k) := by
  have key : ∀ (ops : List (NOp K)) (ls : List (GLay K)) (r : R), NetLegal k b d ls →
      Post (nrun g m lo fuel d.n.toNat (ops ++ [.forward train x]) ls r)
        (fun z => (NetLegal k b d z.1 ∧ List.Forall₂ Fixed ls z.1) ∧
          ∀ l ∈ z.1, ∃ o, l.outs = .ok o ∧ o.length = l.dim.n.toNat) (GFault k) := by
    intro ops
    induction ops with
    | nil =>
      intro ls r N
      rw [List.nil_append]
      unfold nrun nstep
      dsimp only
      have h := genForward_step (g := g) hm lo train ls b d (ofArr d.n.toNat x) r N (by simp [ofArr])
      cases e : genForward g m lo train ls (ofArr d.n.toNat x) r with
      | error f => rw [e] at h; exact Or.inl ⟨h.1, Or.inr (Or.inr h.2)⟩
      | ok z => rw [e] at h; exact ⟨⟨h.1, h.2.2.2.1⟩, h.2.2.1⟩
    | cons o os ih =>
      intro ls r N
      rw [List.cons_append]
      unfold nrun
      have h := nstep_step hk O Bd hm lo hf D N r o
      cases e : nstep g m lo fuel d.n.toNat ls r o with
      | error f => rw [e] at h; exact h
      | ok z =>
        rw [e] at h
        exact post_mono (ih z.1 z.2 h.1)
          (fun z hz => ⟨⟨hz.1.1, fixed_all_trans h.2 hz.1.2⟩, hz.2⟩)
  refine post_mono (key ops ls r N) ?_
  rintro ⟨ls', r'⟩ ⟨⟨_, F⟩, W⟩ i hi0 hi1
  obtain ⟨l', e, hf'⟩ := fixed_getLast F h hl
  dsimp only at e W ⊢
  obtain ⟨o, eo, ho⟩ := W l' (List.mem_of_getLast? e)
  unfold genOutput
  rw [if_neg (by omega), e]
  dsimp only
  rw [eo]
  dsimp only
  rw [hf'.2.1 hs] at ho
  unfold rd
  rw [if_neg (by omega), List.getElem?_eq_getElem (by omega)]
  exact ⟨_, rfl⟩

/-! ## Where the property fails -/

/-- The first `n` draws are 19/20, the other ones 1/4; `z` gives the normal values. -/
def stepRng (n : Nat) (z : Nat → ℚ) : Rng ℚ Nat :=
  ⟨fun i => (if i < n then 19 / 20 else 1 / 4, i + 1), fun i => (z i, i), fun x => x⟩

theorem stepRng_open (n : Nat) (z : Nat → ℚ) : (stepRng n z).Open := by
  intro r
  simp only [stepRng]
  split <;> norm_num

theorem stepRng_bounded (n : Nat) {z : Nat → ℚ} (h : ∀ i, -10 ≤ z i ∧ z i ≤ 10) :
    (stepRng n z).Bounded := fun r => h r

/-- Parameters of `n` neurons, at most six, whose number evolves. -/
def growing (n : Nat) (grow : Int) : CArgs ℚ :=
  { nInputs := 1, nInit := n, nMax := 6, maxGrow := grow, fn := 3,
    opt := ⟨false, true, false, false, false, false⟩, eta := 1 / 10, etaMin := 0, momentum := 0,
    decay := 0 }

/-- Parameters that creation fills in. -/
def noPar : PArgs ℚ := ⟨0, 0, 0, 0, 0, 0, 0, 0, 0⟩

/-- A network after creation and one mutation. -/
def madeMutated (g : Rng ℚ Nat) (as : List (GArgs ℚ)) : Res (List (GLay ℚ) × Nat) :=
  genCreate g as 0 >>= fun p => nrun g demoLibm 0 5 1 [.mutate] p.1 p.2

/-- **C49 fails if an image layer follows a connected layer that evolves its size**: growth leaves
the layer's reported width as it was, so an average-pooling layer behind it is resized to the old
width and has fewer inputs than the layer before has outputs. -/
theorem C49_growth_refuted :
    (∃ ls r, genCreate (stepRng 6 fun _ => 2) [.conn (growing 2 1), .avgp noPar] 0 = .ok (ls, r) ∧
      Chained ls) ∧
    ∃ a l r, madeMutated (stepRng 6 fun _ => 2) [.conn (growing 2 1), .avgp noPar] =
      .ok ([a, l], r) ∧ a.dim.n = 3 ∧ l.nIn = 2 ∧ ¬ Chained [a, l] := by
  refine ⟨?_, ?_⟩
  · have h : (match genCreate (stepRng 6 fun _ => 2) [.conn (growing 2 1), .avgp noPar] 0 with
        | .ok ([a, l], _) => decide (l.nIn = a.dim.n ∧
            l.takes = some (a.dim.w, a.dim.h, a.dim.c))
        | _ => false) = true := by decide +kernel
    split at h
    · next a l r e =>
      simp only [decide_eq_true_eq] at h
      refine ⟨_, _, e, fun i x y hx hy => ?_⟩
      cases i with
      | zero =>
        simp at hx hy
        subst hx; subst hy
        exact ⟨h.1, fun t ht => by rw [h.2] at ht; exact (Option.some.inj ht).symm⟩
      | succ i => simp at hy
    · cases h
  · have h : (match madeMutated (stepRng 6 fun _ => 2) [.conn (growing 2 1), .avgp noPar] with
        | .ok ([a, l], _) => decide (a.dim.n = 3 ∧ l.nIn = 2)
        | _ => false) = true := by decide +kernel
    split at h
    · next a l r e =>
      simp only [decide_eq_true_eq] at h
      refine ⟨a, l, r, e, h.1, h.2, fun C => ?_⟩
      have := (C 0 a l rfl rfl).ins
      omega
    · cases h

/-- **C49 fails for forward propagation** in the same case if the layer shrinks: the pooling layer
reads behind the end of the outputs of the layer before. -/
theorem C49_shrink_reads_out_of_bounds_refuted :
    ∃ ls r, madeMutated (stepRng 6 fun _ => -2) [.conn (growing 2 1), .avgp noPar] = .ok (ls, r) ∧
      genForward (stepRng 6 fun _ => -2) demoLibm 0 false ls [1] r = .error .ub := by
  have h : (match madeMutated (stepRng 6 fun _ => -2) [.conn (growing 2 1), .avgp noPar] with
      | .ok (ls, r) => (match genForward (stepRng 6 fun _ => -2) demoLibm 0 false ls [1] r with
        | .error .ub => true
        | _ => false)
      | _ => false) = true := by decide +kernel
  split at h
  · next ls r e =>
    split at h
    · next e2 => exact ⟨ls, r, e, e2⟩
    · cases h
  · cases h

/-- A convolution with one filter of size one whose number of filters evolves. -/
def oneConv : VArgs ℚ := ⟨growing 1 1, 0, 0, 0, 1, 1, 0⟩

/-- **C49 fails for the shapes of images** although recurrent layers keep their width up to date: a
recurrent layer shrinks from six neurons to three while the convolution behind it grows from one
filter to two.  The convolution still has six outputs, so the next layer is not resized: it pools
over six columns of one channel although it is given three columns of two channels. -/
theorem C49_shape_refuted :
    ∃ a v l r, madeMutated (stepRng 30 fun i => if i < 38 then -2 else 2)
        [.recu (growing 6 3), .conv oneConv, .avgp noPar] = .ok ([a, v, l], r) ∧
      v.dim = ⟨6, 3, 1, 2⟩ ∧ l.nIn = 6 ∧ l.takes = some (6, 1, 1) ∧ ¬ Chained [a, v, l] := by
  have h : (match madeMutated (stepRng 30 fun i => if i < 38 then -2 else 2)
        [.recu (growing 6 3), .conv oneConv, .avgp noPar] with
      | .ok ([a, v, l], _) => decide ((v.dim.n = 6 ∧ v.dim.w = 3 ∧ v.dim.h = 1 ∧ v.dim.c = 2) ∧
          l.nIn = 6 ∧ l.takes = some (6, 1, 1))
      | _ => false) = true := by decide +kernel
  split at h
  · next a v l r e =>
    simp only [decide_eq_true_eq] at h
    obtain ⟨⟨h1, h2, h3, h4⟩, h5, h6⟩ := h
    refine ⟨a, v, l, r, e, ?_, h5, h6, fun C => ?_⟩
    · rw [← h1, ← h2, ← h3, ← h4]
    · have := (C 1 v l rfl rfl).image _ h6
      rw [h2] at this
      simp at this
  · cases h

/-- **C49 fails for the outputs of a network whose output layer evolves its size**: the number of
outputs of the network is that of its creation, so an output that no longer exists is read. -/
theorem C49_head_shrinks_refuted :
    ∃ ls r ls' r', genCreate (stepRng 6 fun _ => -2) [.conn (growing 2 1)] 0 = .ok (ls, r) ∧
      nrun (stepRng 6 fun _ => -2) demoLibm 0 5 1 [.mutate, .forward false fun _ => 1] ls r =
        .ok (ls', r') ∧
      (ls.getLast?.map fun l => l.dim.n) = some 2 ∧ genOutput 2 ls' 1 = .error .ub := by
  have h : (match genCreate (stepRng 6 fun _ => -2) [.conn (growing 2 1)] 0 with
      | .ok (ls, r) => decide ((ls.getLast?.map fun l => l.dim.n) = some 2) &&
        (match nrun (stepRng 6 fun _ => -2) demoLibm 0 5 1 [.mutate, .forward false fun _ => 1] ls r
          with
        | .ok (ls', _) => (match genOutput 2 ls' 1 with
          | .error .ub => true
          | _ => false)
        | _ => false)
      | _ => false) = true := by decide +kernel
  split at h
  · next ls r e =>
    rw [Bool.and_eq_true] at h
    obtain ⟨h1, h⟩ := h
    split at h
    · next ls' r' e2 =>
      split at h
      · next e3 => exact ⟨ls, r, ls', r', e, e2, by simpa using h1, e3⟩
      · cases h
    · cases h
  · cases h

/-! ## The hypotheses are met by concrete cases -/

/-- A convolution with three filters of size two that evolve. -/
def demoConv : VArgs ℚ :=
  ⟨{ nInputs := 16, nInit := 3, nMax := 5, maxGrow := 2, fn := 3,
     opt := ⟨true, true, true, false, false, true⟩, eta := 1 / 10, etaMin := 0, momentum := 0,
     decay := 0 }, 4, 4, 1, 2, 1, 0⟩

/-- Neurons with inputs to be filled in; the flag tells whether their number evolves. -/
def demoNeurons (n : Nat) (grow : Bool) : CArgs ℚ :=
  { nInputs := 0, nInit := n, nMax := 5, maxGrow := 2, fn := 3,
    opt := ⟨true, grow, false, true, false, false⟩, eta := 1 / 10, etaMin := 0, momentum := 0,
    decay := 0 }

/-- Convolution of an image of four by four pixels, dropout, pooling, average over an up-sampled
image, evolving neurons with memory, softmax. -/
def genDemoNet : List (GArgs ℚ) :=
  [.conv demoConv, .drop { noPar with probability := 1 / 2 },
    .maxp { noPar with size := 2, stride := 1 }, .ups { noPar with stride := 2 }, .avgp noPar,
    .recu (demoNeurons 4 true), .conn (demoNeurons 2 false), .noise noPar,
    .soft { noPar with scale := 1 }]

def demoLim : Lim := ⟨5, 1000, 100, true, true⟩

def demoDim : Dim := ⟨16, 4, 4, 1⟩

theorem demoLim_ok : demoLim.Ok := ⟨by decide, by decide, by decide, by decide, by decide⟩

theorem demoDim_ok : demoDim.Ok demoLim true :=
  ⟨by decide, by decide, fun _ => ⟨by decide, by decide, by decide, by decide, by decide⟩⟩

example : ∀ a ∈ genDemoNet.head?, a.first demoDim := by
  intro a ha
  simp [genDemoNet] at ha
  subst ha
  rfl

example : ArgsFit demoLim true demoDim genDemoNet := by
  refine ⟨⟨⟨by decide, by decide, by decide, by decide, ?_, by decide, by decide, by decide,
    by decide, by decide, fun _ => by decide, by decide⟩, fun _ => rfl, ?_⟩, fun _ => rfl, trivial,
    by decide, ⟨by decide, by decide, by decide, by decide, by decide, by decide, rfl, by decide,
      by decide, by decide, by decide⟩, fun _ => rfl, ⟨by decide, by decide, by decide, by decide,
      by decide, by decide, by decide⟩, fun _ => rfl, ?_, fun _ => rfl,
    ⟨⟨by decide, by decide, by decide, by decide, by decide, by decide, by decide,
      fun _ => by decide, by decide⟩, fun _ => rfl⟩, by decide,
    ⟨⟨by decide, by decide, by decide, by decide, by decide, by decide, by decide,
      fun _ => by decide, by decide⟩, fun _ => rfl⟩, by decide, trivial, by decide,
    ?_, by decide, trivial⟩
  · exact ⟨by decide, by decide, by decide, by decide, by decide, by decide, by decide, by decide,
      by decide, by decide⟩
  · exact ⟨by decide, by decide, by decide, by decide, by decide, by decide, by decide, by decide,
      by decide, by decide⟩
  · show (4 * 4 * 5 : Int) < 2147483648
    decide
  · show (1 : ℚ) ≠ 0
    norm_num

/-- In this history the convolution grows to five filters and the layers behind it follow. -/
example : (match genCreate (stepRng 60 fun _ => 2) genDemoNet 0 >>= fun p =>
      nrun (stepRng 60 fun _ => 2) { demoLibm with exp := fun _ => 1 } (-1000) 5 16
        [.mutate, .forward true fun _ => 1, .copy, .forward false fun _ => 1] p.1 p.2 with
    | .ok (ls, _) => decide ((ls.map fun l => (l.nIn, l.dim.n)) =
        [(16, 45), (45, 45), (45, 20), (20, 80), (80, 5), (5, 5), (5, 2), (2, 2), (2, 2)])
    | .error _ => false) = true := by decide +kernel

end Xcsf
