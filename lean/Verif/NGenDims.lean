import Verif.NGenSpec
import Verif.NConvHist
import Verif.NRecHist
import Verif.NLstmHist
import Verif.PropsNPool

/-!
# What operations do with the sizes of layers
-/

set_option linter.unusedSectionVars false

namespace Xcsf
variable {K R : Type} [Field K] [LinearOrder K] [IsStrictOrderedRing K] [FloorRing K]

/-- Inputs and image sizes of a connected layer are the same. -/
structure CSame (l l' : CLay K) : Prop where
  ins : l'.nInputs = l.nInputs
  w : l'.outW = l.outW
  h : l'.outH = l.outH
  c : l'.outC = l.outC
  opt : l'.opt = l.opt

theorem CSame.refl (l : CLay K) : CSame l l := ⟨rfl, rfl, rfl, rfl, rfl⟩

theorem CSame.trans {a b c : CLay K} (h1 : CSame a b) (h2 : CSame b c) : CSame a c :=
  ⟨h2.ins.trans h1.ins, h2.w.trans h1.w, h2.h.trans h1.h, h2.c.trans h1.c, h2.opt.trans h1.opt⟩

theorem addNeurons_same {g : Rng K R} {l : CLay K} {n : Int} {r : R} {p : CLay K × R}
    (h : addNeurons g l n r = .ok p) : CSame l p.1 := by
  unfold addNeurons at h
  dsimp only at h
  split at h
  · cases h
  · split at h
    · cases h
    · split at h
      · cases h
      · cases h
        exact ⟨rfl, rfl, rfl, rfl, rfl⟩

theorem connMutNeurons_same {g : Rng K R} {fuel : Nat} {l : CLay K} {mu : K} {r : R}
    {p : (CLay K × Bool) × R} (h : connMutNeurons g fuel l mu r = .ok p) :
    CSame l p.1.1 ∧ (l.opt.neurons = false → p.1.1.nOutputs = l.nOutputs) := by
  unfold connMutNeurons at h
  split at h
  · next hn =>
    have hn' : ¬ l.opt.neurons = false := by rw [hn]; decide
    split at h
    · cases h
    · split at h
      · cases h
        exact ⟨CSame.refl l, fun _ => rfl⟩
      · split at h
        · cases h
        · next e =>
          cases h
          have e' := addNeurons_same e
          exact ⟨e', fun hf => absurd hf hn'⟩
  · cases h
    exact ⟨CSame.refl l, fun _ => rfl⟩

theorem ensureInput_same {g : Rng K R} {fuel : Nat} {l : CLay K} {r : R} {p : CLay K × R}
    (h : ensureInput g fuel l r = .ok p) : CSame l p.1 ∧ p.1.nOutputs = l.nOutputs := by
  unfold ensureInput at h
  split at h
  · cases h
  · split at h
    · cases h
    · cases h
      exact ⟨⟨rfl, rfl, rfl, rfl, rfl⟩, rfl⟩

theorem mutateConn_same (g : Rng K R) (l : CLay K) (a b : K) (r : R) :
    CSame l (mutateConn g l a b r).1.1 ∧ (mutateConn g l a b r).1.1.nOutputs = l.nOutputs := by
  unfold mutateConn
  dsimp only
  split
  · exact ⟨⟨rfl, rfl, rfl, rfl, rfl⟩, rfl⟩
  · exact ⟨CSame.refl l, rfl⟩

theorem connMutConn_same {g : Rng K R} {fuel : Nat} {l : CLay K} {a b : K} {r : R}
    {p : (CLay K × Bool) × R} (h : connMutConn g fuel l a b r = .ok p) :
    CSame l p.1.1 ∧ p.1.1.nOutputs = l.nOutputs := by
  unfold connMutConn at h
  have m := mutateConn_same g l a b r
  split at h
  · dsimp only at h
    split at h
    · split at h
      · cases h
      · next e =>
        cases h
        have := ensureInput_same e
        exact ⟨m.1.trans this.1, this.2.trans m.2⟩
    · cases h
      exact m
  · cases h
    exact ⟨CSame.refl l, rfl⟩

theorem connMutEta_same (g : Rng K R) (l : CLay K) (mu : K) (r : R) :
    CSame l (connMutEta g l mu r).1.1 ∧ (connMutEta g l mu r).1.1.nOutputs = l.nOutputs := by
  unfold connMutEta
  split
  · exact ⟨⟨rfl, rfl, rfl, rfl, rfl⟩, rfl⟩
  · exact ⟨CSame.refl l, rfl⟩

theorem connMutWeights_same (g : Rng K R) (l : CLay K) (mu : K) (r : R) :
    CSame l (connMutWeights g l mu r).1.1 ∧ (connMutWeights g l mu r).1.1.nOutputs = l.nOutputs := by
  unfold connMutWeights
  split
  · exact ⟨⟨rfl, rfl, rfl, rfl, rfl⟩, rfl⟩
  · exact ⟨CSame.refl l, rfl⟩

theorem connMutFn_same (g : Rng K R) (l : CLay K) (mu : K) (r : R) :
    CSame l (connMutFn g l mu r).1.1 ∧ (connMutFn g l mu r).1.1.nOutputs = l.nOutputs := by
  unfold connMutFn
  split
  · unfold mutateFn
    dsimp only
    split
    · exact ⟨⟨rfl, rfl, rfl, rfl, rfl⟩, rfl⟩
    · exact ⟨CSame.refl l, rfl⟩
  · exact ⟨CSame.refl l, rfl⟩

theorem connMutate_same {g : Rng K R} {fuel : Nat} {l : CLay K} {r : R}
    {p : (CLay K × Bool) × R} (h : connMutate g fuel l r = .ok p) :
    CSame l p.1.1 ∧ (l.opt.neurons = false → p.1.1.nOutputs = l.nOutputs) := by
  unfold connMutate at h
  split at h
  · cases h
  · next m0 m1 m2 m3 m4 m5 r1 _ =>
    dsimp only at h
    have c0 : CSame l { l with mu := [m0, m1, m2, m3, m4, m5] } := ⟨rfl, rfl, rfl, rfl, rfl⟩
    have n0 : ({ l with mu := [m0, m1, m2, m3, m4, m5] } : CLay K).nOutputs = l.nOutputs := rfl
    generalize ({ l with mu := [m0, m1, m2, m3, m4, m5] } : CLay K) = l0 at c0 n0 h
    have c1 := connMutEta_same g l0 m0 r1
    generalize connMutEta g l0 m0 r1 = a at c1 h
    split at h
    · cases h
    · next e2 =>
      have c2 := connMutNeurons_same e2
      split at h
      · cases h
      · next l3 b3 r3 e3 =>
        have c3 := connMutConn_same e3
        dsimp only at c2 c3
        cases h
        dsimp only
        have c4 := connMutWeights_same g l3 m4 r3
        have c5 := connMutFn_same g (connMutWeights g l3 m4 r3).1.1 m5 (connMutWeights g l3 m4 r3).2
        refine ⟨((((c0.trans c1.1).trans c2.1).trans c3.1).trans c4.1).trans c5.1, fun hn => ?_⟩
        rw [c5.2, c4.2, c3.2, c2.2 (by rw [c1.1.opt, c0.opt]; exact hn), c1.2, n0]
  · cases h

/-- Image sizes of a convolutional layer are the same. -/
structure VSame (l l' : VLay K) : Prop where
  w : l'.width = l.width
  h : l'.height = l.height
  c : l'.channels = l.channels
  ow : l'.outW = l.outW
  oh : l'.outH = l.outH
  ins : l'.nIn = l.nIn

theorem VSame.refl (l : VLay K) : VSame l l := ⟨rfl, rfl, rfl, rfl, rfl, rfl⟩

theorem VSame.trans {a b c : VLay K} (h1 : VSame a b) (h2 : VSame b c) : VSame a c :=
  ⟨h2.w.trans h1.w, h2.h.trans h1.h, h2.c.trans h1.c, h2.ow.trans h1.ow, h2.oh.trans h1.oh,
    h2.ins.trans h1.ins⟩

theorem addFilters_same {g : Rng K R} {l : VLay K} {n : Int} {r : R} {p : VLay K × R}
    (h : addFilters g l n r = .ok p) : VSame l p.1 := by
  unfold addFilters at h
  dsimp only at h
  split at h
  · cases h
  · split at h
    · cases h
    · split at h
      · cases h
      · split at h
        · cases h
        · cases h
          exact ⟨rfl, rfl, rfl, rfl, rfl, rfl⟩

theorem convMutFilters_same {g : Rng K R} {fuel : Nat} {l : VLay K} {mu : K} {r : R}
    {p : (VLay K × Bool) × R} (h : convMutFilters g fuel l mu r = .ok p) : VSame l p.1.1 := by
  unfold convMutFilters at h
  split at h
  · split at h
    · cases h
    · split at h
      · cases h
        exact VSame.refl l
      · split at h
        · cases h
        · next e =>
          cases h
          have e' := addFilters_same e
          exact e'
  · cases h
    exact VSame.refl l

theorem convMutConn_same (g : Rng K R) (l : VLay K) (a b : K) (r : R) :
    VSame l (convMutConn g l a b r).1.1 := by
  unfold convMutConn
  split
  · exact ⟨rfl, rfl, rfl, rfl, rfl, rfl⟩
  · exact VSame.refl l

theorem convMutate_same {g : Rng K R} {fuel : Nat} {l : VLay K} {r : R}
    {p : (VLay K × Bool) × R} (h : convMutate g fuel l r = .ok p) : VSame l p.1.1 := by
  unfold convMutate at h
  split at h
  · cases h
  · next m0 m1 m2 m3 m4 m5 r1 _ =>
    dsimp only at h
    split at h
    · cases h
    · next l2 b2 r2 e2 =>
      have c2 := convMutFilters_same e2
      dsimp only at c2
      cases h
      have c3 := convMutConn_same g l2 m2 m3 r2
      refine VSame.trans ⟨c2.w, c2.h, c2.c, c2.ow, c2.oh, c2.ins⟩ ?_
      exact ⟨c3.w, c3.h, c3.c, c3.ow, c3.oh, c3.ins⟩
  · cases h

theorem convCopy_same {l l' : VLay K} (h : convCopy l = .ok l') : VSame l l' ∧
    l'.core.nOutputs = l.core.nOutputs ∧ l'.nOut = l.nOut := by
  unfold convCopy at h
  split at h
  · cases h
  · cases h
    exact ⟨⟨rfl, rfl, rfl, rfl, rfl, rfl⟩, rfl, rfl⟩

theorem convForward_same {m : Libm K} {l l' : VLay K} {x : List K}
    (h : convForward m l x = .ok l') : VSame l l' ∧ l'.core = l.core ∧ l'.nOut = l.nOut := by
  unfold convForward at h
  dsimp only at h
  split at h
  · cases h
  · split at h
    · cases h
    · split at h
      · cases h
      · cases h
        exact ⟨⟨rfl, rfl, rfl, rfl, rfl, rfl⟩, rfl, rfl⟩

theorem connForward_same {m : Libm K} {l l' : CLay K} {x : List K}
    (h : connForward m l x = .ok l') : CSame l l' ∧ l'.nOutputs = l.nOutputs := by
  unfold connForward at h
  split at h
  · cases h
  · dsimp only at h
    split at h
    · cases h
    · cases h
      exact ⟨⟨rfl, rfl, rfl, rfl, rfl⟩, rfl⟩

theorem connResize_same {g : Rng K R} {fuel : Nat} {l : CLay K} {prev : Nat} {r : R}
    {p : CLay K × R} (h : connResize g fuel l prev r = .ok p) : p.1.outW = l.outW ∧
      p.1.outH = l.outH ∧ p.1.outC = l.outC := by
  unfold connResize at h
  split at h
  · cases h
  · split at h
    · cases h
    · split at h
      · cases h
      · dsimp only at h
        split at h
        · have e := ensureInput_same h
          exact ⟨e.1.w, e.1.h, e.1.c⟩
        · cases h
          exact ⟨rfl, rfl, rfl⟩

theorem recForward_outs {m : Libm K} {l l' : RLay K} {x : List K}
    (h : recForward m l x = .ok l') : l'.nOutputs = l.nOutputs ∧ l'.outW = l.outW ∧
      l'.opt = l.opt := by
  unfold recForward at h
  simp only [bind, Except.bind] at h
  repeat' split at h
  all_goals cases h
  all_goals exact ⟨rfl, rfl, rfl⟩

theorem recCopy_outs {l l' : RLay K} (h : recCopy l = .ok l') : l'.nOutputs = l.nOutputs ∧
    l'.outW = l.outW ∧ l'.nInputs = l.nInputs := by
  unfold recCopy at h
  split at h
  · cases h
  · split at h
    · cases h
    · cases h
      exact ⟨rfl, rfl, rfl⟩

theorem lstmForward_outs {m : Libm K} {l l' : TLay K} {x : List K}
    (h : lstmForward m l x = .ok l') : l'.nOutputs = l.nOutputs ∧ l'.outW = l.outW := by
  unfold lstmForward at h
  simp only [bind, Except.bind] at h
  repeat' split at h
  all_goals cases h
  all_goals exact ⟨rfl, rfl⟩

theorem lstmCopy_outs {l l' : TLay K} (h : lstmCopy l = .ok l') : l'.nOutputs = l.nOutputs ∧
    l'.outW = l.outW ∧ l'.nInputs = l.nInputs := by
  unfold lstmCopy lstmArrays at h
  split at h
  · cases h
  · cases h
    exact ⟨rfl, rfl, rfl⟩

theorem lstmRand_outs {g : Rng K R} {l : TLay K} {r : R} {p : TLay K × R}
    (h : lstmRand g l r = .ok p) : p.1.nOutputs = l.nOutputs ∧ p.1.outW = l.outW ∧
      p.1.nInputs = l.nInputs := by
  unfold lstmRand at h
  simp only [bind, Except.bind] at h
  repeat' split at h
  all_goals cases h
  all_goals exact ⟨rfl, rfl, rfl⟩

end Xcsf
