import Verif.NGenLearnLemmas
import Verif.PropsNGen

/-!
# Property C78: networks of all kinds of layers can be trained after every history
-/

set_option linter.unusedSectionVars false

namespace Xcsf
variable {K R : Type} [Field K] [LinearOrder K] [IsStrictOrderedRing K] [FloorRing K]

/-- **C78 for a network created from legal parameters and any history of mutation, resizing,
forward propagation, randomisation, copying and training** in which the network is trained only
after an input has been propagated since it last changed its shape: training never reads or writes
outside of an array nor uses unwritten memory, nothing but the limits on the sizes stops the program,
and the sizes of the layers still agree at the end, so the next input can be propagated, and the
number of layers and all that describes their kind are as they were created.  Missing of the full
claim: recurrent layers trained by gradient descent must have a fixed number of neurons
(`GArgs.Teachable`) and image layers must not follow a layer of neurons that evolves its size
(`ArgsFit`); the claim is false without the former, see below, and without the latter by C49. -/
theorem C78_training_partial {k : Lim} (hk : k.Ok) {g : Rng K R} (O : g.Open) (Bd : g.Bounded)
    {m : Libm K} (hm : ∀ x, 0 < m.exp x) (lo : K) {fuel : Nat} (hf : 1 ≤ fuel)
    {as : List (GArgs K)} (hne : as ≠ []) {b : Bool} {d : Dim} (D : d.Ok k b)
    (A : ArgsFit k b d as) (h1 : ∀ a ∈ as.head?, a.first d) (T : ∀ a ∈ as, a.Teachable)
    (ops : List (NTask K)) (ho : trainedAfterUse false ops = true) (r : R) :
    Post (genCreate g as r >>= fun p => nwork g m lo fuel d.n.toNat ops p.1 p.2)
      (fun z => Chained z.1 ∧ (∀ l ∈ z.1.head?, Agrees d l) ∧
        z.1.map GLay.trait = as.map GArgs.trait ∧
        ∀ (train : Bool) (x : Nat → K) (s : R),
          Post (genForward g m lo train z.1 (ofArr d.n.toNat x) s)
            (fun w => Chained w.1 ∧ w.1.map GLay.dim = z.1.map GLay.dim ∧
              ∀ l ∈ w.1, ∃ o, l.outs = .ok o ∧ o.length = l.dim.n.toNat)
            (fun e => e = .exit ∧ k.maxpool = true))
      (GFault k) := by
  refine post_bind (genCreate_step hk O Bd hne D A h1 r) ?_
  rintro ⟨ls, r1⟩ ⟨N, ht⟩
  have hls : ls ≠ [] := by
    rintro rfl
    rw [List.map_nil, eq_comm, List.map_eq_nil_iff] at ht
    exact hne ht
  refine post_mono (nwork_step hk O Bd hm lo hf D ops false ls r1 hls N (teachable_of_args ht T)
    (fun h => by cases h) ho) ?_
  rintro ⟨ls', r2⟩ ⟨N', F⟩
  refine ⟨netLegal_chained _ _ _ N', ?_, ?_, ?_⟩
  · intro l hl
    dsimp only at hl
    cases ls' with
    | nil => simp at hl
    | cons a t => simp at hl; subst hl; exact N'.2.1
  · dsimp only at F ht ⊢
    rw [← ht]
    clear ht N N' hls T
    induction F with
    | nil => rfl
    | cons h t ih => rw [List.map_cons, List.map_cons, h.2.2, ih]
  · intro t x s
    refine post_mono (genForward_step (g := g) hm lo t ls' b d (ofArr d.n.toNat x) s N'
      (by simp [ofArr])) ?_
    rintro w ⟨W, h2, h3, _⟩
    exact ⟨netLegal_chained _ _ _ W, h2, h3⟩

/-- **C78, one step of training**: after an input has been propagated through a network with legal
shape, training it cannot fail at all, whatever the desired outputs are; it keeps the number of
layers and all their sizes, and it can be repeated. -/
theorem C78_training_step {k : Lim} {g : Rng K R} {m : Libm K} (hm : ∀ x, 0 < m.exp x) (lo : K)
    {b : Bool} {d : Dim} {ls : List (GLay K)} (N : NetLegal k b d ls) (hne : ls ≠ [])
    (T : ∀ l ∈ ls, l.Teachable) (train : Bool) (x : Nat → K) {r : R} {z : List (GLay K) × R}
    (e : genForward g m lo train ls (ofArr d.n.toNat x) r = .ok z)
    (tasks : List ((Nat → K) × (Nat → K))) (s : R) :
    ∃ ls', nwork g m lo 0 d.n.toNat (tasks.map fun p => .learn p.1 p.2) z.1 s = .ok (ls', s) ∧
      ls'.map GLay.dim = ls.map GLay.dim ∧ NetLegal k b d ls' := by
  have h := genForward_step (g := g) hm lo train ls b d (ofArr d.n.toNat x) r N (by simp [ofArr])
  rw [e] at h
  obtain ⟨N1, h1, h2, h3, h4⟩ := h
  rw [← h1]
  have T1 := fixed_teachable h3 T
  have hz : z.1 ≠ [] := by
    intro hz
    rw [hz] at h3
    cases h3
    exact hne rfl
  have P1 : ∀ l ∈ z.1, l.Ready := fun l hl => ⟨h4 l hl, h2 l hl⟩
  generalize z.1 = us at N1 T1 hz P1
  clear h1 h2 h3 h4 e N hne T
  induction tasks generalizing us with
  | nil => exact ⟨us, rfl, rfl, N1⟩
  | cons p ps ih =>
    obtain ⟨q, hq⟩ : ∃ q, us.getLast? = some q := by
      cases e : us.getLast? with
      | none => rw [List.getLast?_eq_none_iff] at e; exact absurd e hz
      | some q => exact ⟨q, rfl⟩
    obtain ⟨vs, e, N2, C⟩ := genLearn_step (k := k) m N1 P1 T1 hq
      (t := ofArr (headSize us) p.1) (x := ofArr d.n.toNat p.2)
      (by rw [length_ofArr]; unfold headSize; rw [hq]) (by rw [length_ofArr])
    have F := carry_facts C
    have hv : vs ≠ [] := by
      rintro rfl
      cases C
      exact hz rfl
    obtain ⟨ls', e2, h5, h6⟩ := ih vs N2 (fixed_teachable F.2.1 T1) hv (fun l hl => (F.1 l hl).2)
    refine ⟨ls', ?_, by rw [h5, F.2.2], h6⟩
    rw [List.map_cons]
    unfold nwork nworkStep
    dsimp only
    rw [e]
    exact e2

/-! ## Where the property fails -/

/-- Two recurrent neurons, trained by gradient descent, whose number evolves. -/
def growRec : CArgs ℚ := { growing 2 1 with opt := ⟨false, true, false, true, false, false⟩ }

/-- **C78 fails for a recurrent layer trained by gradient descent whose number of neurons evolves**:
the layer grows, an input is propagated, and training uses memory that was never written. -/
theorem C78_recurrent_growth_refuted :
    ∃ ls r ls' r', genCreate (stepRng 20 fun _ => 2) [.recu growRec] 0 = .ok (ls, r) ∧
      nwork (stepRng 20 fun _ => 2) demoLibm 0 5 1
        [.net .mutate, .net (.forward true fun _ => 1)] ls r = .ok (ls', r') ∧
      trainedAfterUse false [.net .mutate, .net (.forward true fun _ => (1 : ℚ)),
        .learn (fun _ => 0) fun _ => 1] = true ∧
      nworkStep (stepRng 20 fun _ => 2) demoLibm 0 5 1 ls' r' (.learn (fun _ => 0) fun _ => 1) =
        .error .ub := by
  have h : (match genCreate (stepRng 20 fun _ => 2) [.recu growRec] 0 with
      | .ok (ls, r) => (match nwork (stepRng 20 fun _ => 2) demoLibm 0 5 1
          [.net .mutate, .net (.forward true fun _ => 1)] ls r with
        | .ok (ls', r') => (match nworkStep (stepRng 20 fun _ => 2) demoLibm 0 5 1 ls' r'
            (.learn (fun _ => 0) fun _ => 1) with
          | .error .ub => true
          | _ => false)
        | _ => false)
      | _ => false) = true := by decide +kernel
  split at h
  · next ls r e =>
    split at h
    · next ls' r' e2 =>
      split at h
      · next e3 => exact ⟨ls, r, ls', r', e, e2, rfl, e3⟩
      · cases h
    · cases h
  · cases h

/-! ## The hypotheses are met by concrete cases -/

/-- Convolution of an image of four by four pixels, dropout, pooling, average over an up-sampled
image, recurrent neurons and evolving ones, softmax. -/
def trainNet : List (GArgs ℚ) :=
  [.conv demoConv, .drop { noPar with probability := 1 / 2 },
    .maxp { noPar with size := 2, stride := 1 }, .ups { noPar with stride := 2 }, .avgp noPar,
    .recu (demoNeurons 4 false), .conn (demoNeurons 2 true), .noise noPar,
    .soft { noPar with scale := 1 }]

theorem trainNet_teachable : ∀ a ∈ trainNet, a.Teachable := by
  intro a ha
  simp only [trainNet, List.mem_cons, List.not_mem_nil, or_false] at ha
  rcases ha with rfl | rfl | rfl | rfl | rfl | rfl | rfl | rfl | rfl
  case inr.inr.inr.inr.inr.inl => exact Or.inr rfl
  all_goals trivial

theorem trainNet_fit : ArgsFit demoLim true demoDim trainNet := by
  refine ⟨⟨⟨by decide, by decide, by decide, by decide, ?_, by decide, by decide, by decide,
    by decide, by decide, fun _ => by decide, by decide⟩, fun _ => rfl, ?_⟩, fun _ => rfl, trivial,
    by decide, ⟨by decide, by decide, by decide, by decide, by decide, by decide, rfl, by decide,
      by decide, by decide, by decide⟩, fun _ => rfl, ⟨by decide, by decide, by decide, by decide,
      by decide, by decide, by decide⟩, fun _ => rfl, ?_, fun _ => rfl,
    ⟨⟨by decide, by decide, by decide, by decide, by decide, by decide, by decide,
      fun _ => by decide, by decide⟩, fun _ => rfl⟩, by decide,
    ⟨⟨by decide, by decide, by decide, by decide, by decide, by decide, by decide,
      fun _ => by decide, by decide⟩, fun _ => rfl⟩, by decide, trivial, by decide,
    ?_, by decide, trivial⟩
  · exact ⟨by decide, by decide, by decide, by decide, by decide, by decide, by decide, by decide,
      by decide, by decide⟩
  · exact ⟨by decide, by decide, by decide, by decide, by decide, by decide, by decide, by decide,
      by decide, by decide⟩
  · show (4 * 4 * 5 : Int) < 2147483648
    decide
  · show (1 : ℚ) ≠ 0
    norm_num

/-- A history in which the convolution and the connected layer grow and the network is trained
before and after. -/
def trainHist : List (NTask ℚ) :=
  [.net (.forward true fun _ => 1), .learn (fun i => i) fun _ => 1, .net .mutate,
    .net (.forward true fun i => i), .net .rand, .learn (fun _ => 1) (fun i => i), .net .copy]

example : trainedAfterUse false trainHist = true := rfl

example : (match genCreate (stepRng 60 fun _ => 2) trainNet 0 >>= fun p =>
      nwork (stepRng 60 fun _ => 2) { demoLibm with exp := fun _ => 1 } (-1000) 5 16
        trainHist p.1 p.2 with
    | .ok (ls, _) => decide ((ls.map fun l => (l.nIn, l.dim.n)) =
        [(16, 45), (45, 45), (45, 20), (20, 80), (80, 5), (5, 4), (4, 4), (4, 4), (4, 4)])
    | .error _ => false) = true := by decide +kernel

end Xcsf
