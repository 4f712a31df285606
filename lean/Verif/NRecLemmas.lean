import Verif.NRecSpec
import Verif.NLayerLemmas

/-!
# Helper lemmas: connected layers as parts of recurrent and LSTM layers
-/

set_option linter.unusedSectionVars false

namespace Xcsf
variable {K R : Type} [Field K] [LinearOrder K] [IsStrictOrderedRing K] [FloorRing K]

theorem Part.of_step {B M nIn nOut : Nat} {mx : Int} {o : LOpt} {c c' : CLay K}
    (P : Part B M nIn nOut mx o c) (s : CStep B M c c') (hi : c'.nInputs = c.nInputs)
    (ho : c'.nOutputs = c.nOutputs) (hm : c'.maxOutputs = c.maxOutputs) :
    Part B M nIn nOut mx o c' :=
  ⟨s.sound, s.fits, hi.trans P.ins, ho.trans P.outs, hm.trans P.max, s.opt.trans P.opt⟩

theorem Part.setEta {B M nIn nOut : Nat} {mx : Int} {o : LOpt} {c : CLay K}
    (P : Part B M nIn nOut mx o c) (e : K) : Part B M nIn nOut mx o { c with eta := e } :=
  ⟨⟨P.sound.ins, P.sound.outs, P.sound.wlen, P.sound.nlen, P.sound.wt, P.sound.bias,
    P.sound.active, P.sound.mu, P.sound.fn⟩,
    ⟨P.fits.cur, P.fits.max, P.fits.le, P.fits.prod, P.fits.grow, P.fits.big⟩,
    P.ins, P.outs, P.max, P.opt⟩

theorem Part.setFn {B M nIn nOut : Nat} {mx : Int} {o : LOpt} {c : CLay K}
    (P : Part B M nIn nOut mx o c) {f : Int} (h : 0 ≤ f ∧ f < 11) :
    Part B M nIn nOut mx o { c with fn := f } :=
  ⟨⟨P.sound.ins, P.sound.outs, P.sound.wlen, P.sound.nlen, P.sound.wt, P.sound.bias,
    P.sound.active, P.sound.mu, h⟩,
    ⟨P.fits.cur, P.fits.max, P.fits.le, P.fits.prod, P.fits.grow, P.fits.big⟩,
    P.ins, P.outs, P.max, P.opt⟩

theorem connForward_dims {m : Libm K} {l l' : CLay K} {x : List K}
    (h : connForward m l x = .ok l') : l'.nInputs = l.nInputs ∧ l'.nOutputs = l.nOutputs ∧
      l'.maxOutputs = l.maxOutputs ∧ l'.ws = l.ws ∧ l'.nActive = l.nActive ∧ l'.outW = l.outW := by
  unfold connForward at h
  split at h
  · cases h
  · dsimp only at h
    split at h
    · cases h
    · cases h
      exact ⟨rfl, rfl, rfl, rfl, rfl, rfl⟩

theorem Part.forward {B M nIn nOut : Nat} {mx : Int} {o : LOpt} {c : CLay K}
    (P : Part B M nIn nOut mx o c) (m : Libm K) {x : List K} (hx : nIn ≤ x.length) :
    ∃ c', connForward m c x = .ok c' ∧ Part B M nIn nOut mx o c' ∧ c'.ws = c.ws ∧
      c'.nActive = c.nActive := by
  obtain ⟨c', e, s, _⟩ := connForward_step m P.sound P.fits (x := x) (by rw [P.ins]; exact hx)
  obtain ⟨h1, h2, h3, h4, h5, _⟩ := connForward_dims e
  exact ⟨c', e, P.of_step s h1 h2 h3, h4, h5⟩

theorem Part.outs_len {B M nIn nOut : Nat} {mx : Int} {o : LOpt} {c : CLay K}
    (P : Part B M nIn nOut mx o c) : c.outs.length = nOut := by
  unfold CLay.outs
  rw [List.length_map, P.sound.nlen, P.outs]

theorem Part.deltas_len {B M nIn nOut : Nat} {mx : Int} {o : LOpt} {c : CLay K}
    (P : Part B M nIn nOut mx o c) : c.deltas.length = nOut := by
  unfold CLay.deltas
  rw [List.length_map, P.sound.nlen, P.outs]

theorem Part.ns_len {B M nIn nOut : Nat} {mx : Int} {o : LOpt} {c : CLay K}
    (P : Part B M nIn nOut mx o c) : c.ns.length = nOut := by
  rw [P.sound.nlen, P.outs]

theorem connBackward_dims {m : Libm K} {l l' : CLay K} {x : List K} {d d' : Option (List K)}
    (h : connBackward m l x d = .ok (l', d')) : l'.nInputs = l.nInputs ∧
      l'.nOutputs = l.nOutputs ∧ l'.maxOutputs = l.maxOutputs ∧
      l'.ws.map Wt.on = l.ws.map Wt.on ∧ l'.nActive = l.nActive ∧ l'.outW = l.outW ∧
      d'.map List.length = d.map List.length := by
  unfold connBackward at h
  split at h
  · cases h
  · next hc =>
    split at h
    · cases h
    · next ds _ =>
      dsimp only at h
      have key : ∀ (a : CLay K), (if l.opt.sgd = true then
          { l with
            ns := List.zipWith (fun (x : Neuron K) u => { x with bupd := u })
              (List.zipWith (fun (x : Neuron K) d => { x with delta := d }) l.ns ds)
              (ofArr l.nOutputs (axpy l.nOutputs 1 (arrOf ds) 1
                (arrOf ((List.zipWith (fun (x : Neuron K) d => { x with delta := d }) l.ns ds).map
                  Neuron.bupd)) 0 1))
            ws := List.zipWith (fun (x : Wt K) u => { x with upd := u }) l.ws
              (ofArr l.ws.length (gemm true false l.nOutputs l.nInputs 1 1 (arrOf ds) l.nOutputs
                (arrOf x) l.nInputs 1 (arrOf (l.ws.map Wt.upd)) l.nInputs)) }
        else { l with ns := List.zipWith (fun (x : Neuron K) d => { x with delta := d }) l.ns ds })
          = a → a.nInputs = l.nInputs ∧ a.nOutputs = l.nOutputs ∧ a.maxOutputs = l.maxOutputs ∧
            a.ws.map Wt.on = l.ws.map Wt.on ∧ a.nActive = l.nActive ∧ a.outW = l.outW := by
        intro a ha
        split at ha
        · subst ha
          refine ⟨rfl, rfl, rfl, ?_, rfl, rfl⟩
          refine map_zipWith_left _ Wt.on ?_ _ _ ?_
          · exact fun _ _ => rfl
          · rw [length_ofArr]
        · subst ha
          exact ⟨rfl, rfl, rfl, rfl, rfl, rfl⟩
      generalize hq : (if l.opt.sgd = true then _ else _ : CLay K) = q at h
      obtain ⟨k1, k2, k3, k4, k5, k6⟩ := key q hq
      split at h
      · cases h
        exact ⟨k1, k2, k3, k4, k5, k6, rfl⟩
      · split at h
        · cases h
        · cases h
          exact ⟨k1, k2, k3, k4, k5, k6, by simp [length_ofArr]⟩

theorem active_on {c c' : CLay K} (h : c'.ws.map Wt.on = c.ws.map Wt.on) :
    c'.active = c.active := by
  have := active_of_on h
  rw [calcActive_eq, calcActive_eq] at this
  exact_mod_cast this

theorem Part.backward {B M nIn nOut : Nat} {mx : Int} {o : LOpt} {c : CLay K}
    (P : Part B M nIn nOut mx o c) (m : Libm K) {x : List K} (hx : nIn ≤ x.length)
    (d : Option (List K)) (hd : ∀ v, d = some v → nIn ≤ v.length) :
    ∃ c' d', connBackward m c x d = .ok (c', d') ∧ Part B M nIn nOut mx o c' ∧
      c'.active = c.active ∧ c'.nActive = c.nActive ∧
      d'.map List.length = d.map List.length := by
  obtain ⟨c', d', e, s⟩ := connBackward_step m P.sound P.fits (x := x) (by rw [P.ins]; exact hx) d
    (by rw [P.ins]; exact hd)
  obtain ⟨h1, h2, h3, h4, h5, _, h6⟩ := connBackward_dims e
  exact ⟨c', d', e, P.of_step s h1 h2 h3, active_on h4, h5, h6⟩

theorem withDelta_step {B M : Nat} {l : CLay K} (S : l.Sound) (F : l.Fits B M) {d : List K}
    (hd : l.ns.length ≤ d.length) : CStep B M l (l.withDelta d) := by
  refine cstep_same S F rfl rfl rfl rfl rfl rfl rfl ?_ rfl S.wt ?_ S.fn
  · simp only [CLay.withDelta, List.length_zipWith]
    omega
  · intro n hn
    obtain ⟨a, ha, b, _, rfl⟩ := mem_zipWith hn
    exact S.bias a ha

theorem Part.withDelta {B M nIn nOut : Nat} {mx : Int} {o : LOpt} {c : CLay K}
    (P : Part B M nIn nOut mx o c) {d : List K} (hd : nOut ≤ d.length) :
    Part B M nIn nOut mx o (c.withDelta d) :=
  P.of_step (withDelta_step P.sound P.fits (by rw [P.ns_len]; exact hd)) rfl rfl rfl

theorem Part.setDelta {B M nIn nOut : Nat} {mx : Int} {o : LOpt} {c : CLay K}
    (P : Part B M nIn nOut mx o c) (d : Nat → K) : Part B M nIn nOut mx o (setDelta c d) :=
  P.of_step (setDelta_step P.sound P.fits d) rfl rfl rfl

theorem connUpdate_keeps (l : CLay K) : (connUpdate l).nInputs = l.nInputs ∧
    (connUpdate l).nOutputs = l.nOutputs ∧ (connUpdate l).maxOutputs = l.maxOutputs ∧
    (connUpdate l).nActive = l.nActive ∧ (connUpdate l).ws.map Wt.on = l.ws.map Wt.on ∧
    (connUpdate l).outW = l.outW := by
  unfold connUpdate
  split
  · refine ⟨rfl, rfl, rfl, rfl, ?_, rfl⟩
    dsimp only
    rw [(weightClamp_ok _).2.2.1]
    refine map_zipWith_left _ Wt.on ?_ _ _ ?_
    · exact fun _ _ => rfl
    · simp [length_ofArr]
  · exact ⟨rfl, rfl, rfl, rfl, rfl, rfl⟩

theorem Part.update {B M nIn nOut : Nat} {mx : Int} {o : LOpt} {c : CLay K}
    (P : Part B M nIn nOut mx o c) : Part B M nIn nOut mx o (connUpdate c) ∧
      (connUpdate c).active = c.active ∧ (connUpdate c).nActive = c.nActive := by
  obtain ⟨h1, h2, h3, h4, h5, _⟩ := connUpdate_keeps c
  exact ⟨P.of_step (connUpdate_step P.sound P.fits) h1 h2 h3, active_on h5, h4⟩

theorem Part.copy {B M nIn nOut : Nat} {mx : Int} {o : LOpt} {c : CLay K}
    (P : Part B M nIn nOut mx o c) : Part B M nIn nOut mx o (connCopy c) ∧
      (connCopy c).active = c.active ∧ (connCopy c).nActive = c.nActive :=
  ⟨P.of_step (connCopy_step P.sound P.fits) rfl rfl rfl,
    active_on (by simp [connCopy, Function.comp_def]), rfl⟩

theorem Part.rand {B M nIn nOut : Nat} {mx : Int} {o : LOpt} {c : CLay K}
    (P : Part B M nIn nOut mx o c) {g : Rng K R} (Bd : g.Bounded) (r : R) :
    Part B M nIn nOut mx o (weightRand g c r).1 :=
  P.of_step (weightRand_step Bd P.sound P.fits r) rfl rfl rfl

theorem Part.mutWeights {B M nIn nOut : Nat} {mx : Int} {o : LOpt} {c : CLay K}
    (P : Part B M nIn nOut mx o c) (g : Rng K R) (mu : K) (r : R) :
    Part B M nIn nOut mx o (mutateWeights g c mu r).1.1 ∧
      (mutateWeights g c mu r).1.1.active = c.active ∧
      (mutateWeights g c mu r).1.1.nActive = c.nActive :=
  ⟨P.of_step (mutateWeights_step g P.sound P.fits mu r) rfl rfl rfl,
    active_on (mutWtGo_spec g mu c.ws r P.sound.wt).1, rfl⟩

theorem Part.mutConn {B M nIn nOut : Nat} {mx : Int} {o : LOpt} {c : CLay K}
    (P : Part B M nIn nOut mx o c) {g : Rng K R} (Bd : g.Bounded) (muE muD : K) (r : R) :
    Part B M nIn nOut mx o (mutateConn g c muE muD r).1.1 := by
  obtain ⟨h1, h2, h3, _⟩ := mutateConn_step Bd P.sound P.fits muE muD r
  refine ⟨h1, h2, ?_, ?_, ?_, h3.trans P.opt⟩
  · rw [← P.ins]; unfold mutateConn; split <;> rfl
  · rw [← P.outs]; unfold mutateConn; split <;> rfl
  · rw [← P.max]; unfold mutateConn; split <;> rfl

theorem Part.count {B M nIn nOut : Nat} {mx : Int} {o : LOpt} {c : CLay K}
    (P : Part B M nIn nOut mx o c) : c.nActive = (c.active : Int) := P.sound.active

theorem addNeurons_dims {g : Rng K R} {l : CLay K} {n : Int} {r : R} {p : CLay K × R}
    (h : addNeurons g l n r = .ok p) : p.1.nInputs = l.nInputs ∧
      (p.1.nOutputs : Int) = (l.nOutputs : Int) + n ∧ p.1.maxOutputs = l.maxOutputs ∧
      p.1.outW = l.outW := by
  unfold addNeurons at h
  dsimp only at h
  split at h
  · cases h
  · split at h
    · cases h
    · next hg =>
      split at h
      · cases h
      · cases h
        refine ⟨rfl, ?_, rfl, rfl⟩
        unfold guardOutputs at hg
        split at hg
        · cases hg
        · show (((l.nOutputs : Int) + n).toNat : Int) = _
          omega

theorem Part.add {B M nIn nOut : Nat} {mx : Int} {o : LOpt} {c : CLay K}
    (P : Part B M nIn nOut mx o c) (hM : M < 2147483648) {g : Rng K R} (Bd : g.Bounded)
    (hn : o.neurons = true) {n : Int} {k : Nat} (hk : (nOut : Int) + n = (k : Int)) (h0 : 1 ≤ k)
    (h1 : (k : Int) ≤ mx) (r : R) :
    Post (addNeurons g c n r) (fun p => Part B M nIn k mx o p.1) (CFault M o.neurons) := by
  have h := addNeurons_step hM Bd P.sound P.fits (by rw [P.opt]; exact hn) (n := n)
    (by rw [P.outs]; omega) (by rw [P.outs, P.max]; omega) r
  rw [P.opt] at h
  cases e : addNeurons g c n r with
  | error f => rw [e] at h; exact h
  | ok p =>
    rw [e] at h
    obtain ⟨d1, d2, d3, _⟩ := addNeurons_dims e
    refine ⟨h.sound, h.fits, d1.trans P.ins, ?_, d3.trans P.max, h.opt.trans P.opt⟩
    rw [P.outs, hk] at d2
    exact_mod_cast d2

theorem connResize_dims {g : Rng K R} {fuel : Nat} {l : CLay K} {prev : Nat} {r : R}
    {p : CLay K × R} (h : connResize g fuel l prev r = .ok p) : p.1.nInputs = prev ∧
      p.1.nOutputs = l.nOutputs ∧ p.1.maxOutputs = l.maxOutputs ∧ p.1.outW = l.outW := by
  unfold connResize at h
  split at h
  · cases h
  · split at h
    · cases h
    · split at h
      · cases h
      · dsimp only at h
        split at h
        · unfold ensureInput at h
          dsimp only at h
          split at h
          · cases h
          · split at h
            · cases h
            · cases h
              exact ⟨rfl, rfl, rfl, rfl⟩
        · cases h
          exact ⟨rfl, rfl, rfl, rfl⟩

theorem Part.resize {B M nIn nOut : Nat} {mx : Int} {o : LOpt} {c : CLay K}
    (P : Part B M nIn nOut mx o c) (hM : M < 2147483648) {g : Rng K R} (O : g.Open)
    (Bd : g.Bounded) {fuel : Nat} (hf : 1 ≤ fuel) {prev : Nat} (hp : 1 ≤ prev)
    (hpM : B * prev ≤ M) (r : R) :
    Post (connResize g fuel c prev r) (fun p => Part B M prev nOut mx o p.1)
      (CFault M o.neurons) := by
  have h := connResize_step hM O Bd hf P.sound P.fits hp hpM r
  rw [P.opt] at h
  cases e : connResize g fuel c prev r with
  | error f => rw [e] at h; exact h
  | ok p =>
    rw [e] at h
    obtain ⟨d1, d2, d3, _⟩ := connResize_dims e
    exact ⟨h.1.sound, h.1.fits, d1, d2.trans P.outs, d3.trans P.max, h.1.opt.trans P.opt⟩

theorem connInit_dims {g : Rng K R} {a : CArgs K} {r : R} {p : CLay K × R}
    (h : connInit g a r = .ok p) : p.1.nInputs = a.nInputs ∧ p.1.nOutputs = a.nInit ∧
      p.1.maxOutputs = a.nMax := by
  unfold connInit at h
  dsimp only at h
  split at h
  · cases h
  · split at h
    · cases h
    · split at h
      · cases h
      · split at h
        · cases h
        · cases h
          exact ⟨rfl, rfl, rfl⟩

theorem part_init {B M : Nat} (hM : M < 2147483648) {g : Rng K R} (O : g.Open) (Bd : g.Bounded)
    {a : CArgs K} (A : a.Fits B M) (r : R) :
    Post (connInit g a r) (fun p => Part B M a.nInputs a.nInit a.nMax a.opt p.1)
      (CFault M a.opt.neurons) := by
  have h := connInit_step hM O Bd A r
  cases e : connInit g a r with
  | error f => rw [e] at h; exact h
  | ok p =>
    rw [e] at h
    obtain ⟨d1, d2, d3⟩ := connInit_dims e
    exact ⟨h.1, h.2.1, d1, d2, d3, h.2.2.1⟩

theorem mutateNeurons_part {B M nIn nOut : Nat} {mx : Int} {o : LOpt} {c : CLay K}
    (P : Part B M nIn nOut mx o c) (g : Rng K R) (fuel : Nat) (hn : o.neurons = true) (mu : K)
    (r : R) : Post (mutateNeurons g fuel c mu r)
      (fun p => 1 ≤ (nOut : Int) + p.1 ∧ (nOut : Int) + p.1 ≤ mx) (CFault M o.neurons) := by
  have h := mutateNeurons_spec g fuel P.sound P.fits (by rw [P.opt]; exact hn) mu r
  rw [P.outs, P.max] at h
  exact post_mono_fault h fun e he => Or.inr ⟨he, hn⟩

end Xcsf
