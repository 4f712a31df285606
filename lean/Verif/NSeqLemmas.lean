import Verif.NSeqSpec
import Verif.NGradLemmas
import Verif.NLstmHist

/-!
# Lemmas for property C71
-/

set_option linter.unusedSectionVars false

namespace Xcsf
open Finset

/-! ## Values -/

theorem Part.shaped {B M nIn nOut : Nat} {mx : Int} {o : LOpt} {c : CLay ℝ}
    (P : Part B M nIn nOut mx o c) : c.par.Shaped :=
  ⟨by simpa [CLay.par] using P.sound.wlen, by simpa [CLay.par] using P.sound.nlen, P.sound.fn⟩

theorem Part.forward_val {B M nIn nOut : Nat} {mx : Int} {o : LOpt} {c : CLay ℝ}
    (P : Part B M nIn nOut mx o c) {x : List ℝ} (hx : nIn ≤ x.length) :
    ∃ c', connForward realLibm c x = .ok c' ∧ Part B M nIn nOut mx o c' ∧ c'.par = c.par ∧
      c'.outs = c.par.out x := by
  obtain ⟨c1, e1, P1, _⟩ := P.forward realLibm hx
  obtain ⟨c2, e2, h2, _, _, _, H⟩ := connForward_holds P.shaped (x := x) (by rw [P.ins]; exact hx)
  rw [e1] at e2
  cases e2
  exact ⟨c1, e1, P1, h2, by rw [H.out, h2]⟩

theorem ofArr_zip {n : Nat} (f : ℝ → ℝ → ℝ) {x y : List ℝ} (hx : x.length = n) (hy : y.length = n) :
    (ofArr n fun i => f (arrOf x i) (arrOf y i)) = List.zipWith f x y := by
  apply List.ext_getElem
  · rw [length_ofArr, List.length_zipWith, hx, hy, min_self]
  · intro i h1 h2
    rw [length_ofArr] at h1
    simp [ofArr, arrOf, List.getD, hx, hy, h1]

theorem addArr_zip {n : Nat} {x y : List ℝ} (hx : x.length = n) (hy : y.length = n) :
    addArr n x y = List.zipWith (· + ·) y x := by
  unfold addArr
  simp only [one_mul]
  exact ofArr_zip (fun a b => a + b) hy hx

theorem mulArr_zip {n : Nat} {x y : List ℝ} (hx : x.length = n) (hy : y.length = n) :
    mulArr n x y = List.zipWith (· * ·) y x := ofArr_zip (fun a b => a * b) hy hx

theorem recForward_val {B M : Nat} {l : RLay ℝ} (L : l.Legal B M) {x : List ℝ}
    (hx : l.nInputs ≤ x.length) :
    ∃ l', recForward realLibm l x = .ok l' ∧ l'.Legal B M ∧ l'.nInputs = l.nInputs ∧
      l'.inp.par = l.inp.par ∧ l'.self.par = l.self.par ∧ l'.out.par = l.out.par ∧
      l'.out.outs = recCell l.inp.par l.self.par l.out.par l.out.outs x := by
  obtain ⟨l1, h1, s1, d1, _⟩ := recForward_step realLibm L hx
  obtain ⟨i, e1, P1, p1, o1⟩ := L.inp.forward_val hx
  obtain ⟨s, e2, P2, p2, o2⟩ := L.self.forward_val (x := l.out.outs) (by rw [L.out.outs_len])
  obtain ⟨o, e3, P3, p3, o3⟩ := L.out.forward_val (x := addArr l.nOutputs s.outs i.outs)
    (by rw [addArr_length])
  refine ⟨l1, h1, s1.legal, d1, ?_⟩
  unfold recForward at h1
  rw [if_neg (by rw [L.state, L.prev]; omega)] at h1
  simp only [bind, Except.bind, e1, e2] at h1
  rw [if_neg (by rw [P1.ns_len, P2.ns_len]; omega)] at h1
  simp only [e3] at h1
  cases h1
  refine ⟨p1, p2, p3, ?_⟩
  show o.outs = _
  rw [o3, addArr_zip P2.outs_len P1.outs_len, o1, o2]
  rfl

theorem recSeq_val {B M : Nat} : ∀ (xs : List (List ℝ)) {l : RLay ℝ}, l.Legal B M →
    (∀ x ∈ xs, l.nInputs ≤ x.length) →
    ∃ l', recSeq realLibm xs l = .ok l' ∧ l'.Legal B M ∧
      l'.out.outs = xs.foldl (recCell l.inp.par l.self.par l.out.par) l.out.outs
  | [], l, L, _ => ⟨l, rfl, L, rfl⟩
  | x :: xs, l, L, h => by
    obtain ⟨l1, e1, L1, d1, p1, p2, p3, o1⟩ := recForward_val L (h x (by simp))
    obtain ⟨l2, e2, L2, o2⟩ := recSeq_val xs L1 (by
      intro y hy
      rw [d1]
      exact h y (by simp [hy]))
    refine ⟨l2, ?_, L2, ?_⟩
    · unfold recSeq
      rw [e1]
      exact e2
    · rw [o2, p1, p2, p3, o1]
      rfl

theorem actArr_val {fn : Int} (hf : 0 ≤ fn ∧ fn < 11) (xs : List ℝ) :
    actArr realLibm fn xs = .ok (xs.map fun s => actSpec fn (clip s)) := by
  unfold actArr
  rw [C50_activate_array hf.1 hf.2]
  rfl

theorem gateVal_val {B M n1 n2 n : Nat} {x1 x2 : Int} {o1 o2 : LOpt} {u w : CLay ℝ} {fn : Int}
    (hf : 0 ≤ fn ∧ fn < 11) (Pu : Part B M n1 n x1 o1 u) (Pw : Part B M n2 n x2 o2 w) :
    gateVal realLibm n fn u w =
      .ok (List.zipWith (fun a b => actSpec fn (clip (a + b))) w.outs u.outs) := by
  unfold gateVal
  rw [if_neg (by rw [Pu.ns_len, Pw.ns_len]; omega), C50_activate_array hf.1 hf.2,
    addArr_zip Pu.outs_len Pw.outs_len, List.map_zipWith, List.map_zipWith]
  rfl

theorem zipWith_swap (f g : ℝ → ℝ → ℝ) (h : ∀ a b, f a b = g b a) (x y : List ℝ) :
    List.zipWith f x y = List.zipWith g y x := by
  rw [List.zipWith_comm]
  congr 1
  funext a b
  exact h b a

theorem forward_gates_val {B M nIn nOut : Nat} {mx : Int} {o : LOpt} {a : Gates (CLay ℝ)}
    (h : a.All (Part B M nIn nOut mx o)) {x : List ℝ} (hx : nIn ≤ x.length) :
    ∃ b, a.mapR (fun y (_ : Unit) => (connForward realLibm y x).map (·, ())) () = .ok (b, ()) ∧
      b.All (Part B M nIn nOut mx o) ∧ b.map CLay.par = a.map CLay.par ∧
      b.map CLay.outs = a.map fun c => c.par.out x := by
  obtain ⟨f, e1, p1, w1, v1⟩ := h.f.forward_val hx
  obtain ⟨i, e2, p2, w2, v2⟩ := h.i.forward_val hx
  obtain ⟨g, e3, p3, w3, v3⟩ := h.g.forward_val hx
  obtain ⟨o, e4, p4, w4, v4⟩ := h.o.forward_val hx
  refine ⟨⟨f, i, g, o⟩, ?_, ⟨p1, p2, p3, p4⟩, ?_, ?_⟩
  · unfold Gates.mapR
    simp only [e1, e2, e3, e4]
    rfl
  · unfold Gates.map
    rw [w1, w2, w3, w4]
  · unfold Gates.map
    rw [v1, v2, v3, v4]

theorem lstmForward_val {B M : Nat} {l : TLay ℝ} (L : l.Legal B M) {x : List ℝ}
    (hx : l.nInputs ≤ x.length) :
    ∃ l', lstmForward realLibm l x = .ok l' ∧ l'.Legal B M ∧ l'.nInputs = l.nInputs ∧
      l'.u.map CLay.par = l.u.map CLay.par ∧ l'.w.map CLay.par = l.w.map CLay.par ∧
      l'.fn = l.fn ∧ l'.rfn = l.rfn ∧ l'.output = l'.h ∧
      (l'.c, l'.h) = lstmCell l.fn l.rfn (l.u.map CLay.par) (l.w.map CLay.par) (l.c, l.h) x := by
  obtain ⟨l1, h1, s1, d1⟩ := lstmForward_step realLibm L hx
  obtain ⟨u, e1, Pu, pu, ou⟩ := forward_gates_val L.u hx
  obtain ⟨w, e2, Pw, pw, ow⟩ := forward_gates_val L.w (x := l.h) (by rw [L.h])
  refine ⟨l1, h1, s1.legal, d1, ?_⟩
  unfold lstmForward at h1
  simp only [bind, Except.bind, e1, e2, gateVal_val L.rfn Pu.f Pw.f, gateVal_val L.rfn Pu.i Pw.i,
    gateVal_val L.fn Pu.g Pw.g, gateVal_val L.rfn Pu.o Pw.o, actArr_val L.fn] at h1
  rw [if_neg (by rw [L.c]; omega)] at h1
  cases h1
  refine ⟨pu, pw, rfl, rfl, rfl, ?_⟩
  unfold Gates.map at ou ow
  simp only [Gates.mk.injEq] at ou ow
  obtain ⟨a1, a2, a3, a4⟩ := ou
  obtain ⟨b1, b2, b3, b4⟩ := ow
  have hz : ∀ (f : ℝ → ℝ → ℝ) (u' w' : CLay ℝ),
      Part B M l.nInputs l.nOutputs l.maxOutputs l.opt u' →
      Part B M l.nOutputs l.nOutputs l.maxOutputs l.opt w' →
      (List.zipWith f w'.outs u'.outs).length = l.nOutputs := by
    intro f u' w' hu hw
    rw [List.length_zipWith, hu.outs_len, hw.outs_len, min_self]
  have hc : (addArr l.nOutputs
      (mulArr l.nOutputs
        (List.zipWith (fun a b => actSpec l.fn (clip (a + b))) w.g.outs u.g.outs)
        (List.zipWith (fun a b => actSpec l.rfn (clip (a + b))) w.i.outs u.i.outs))
      (mulArr l.nOutputs
        (List.zipWith (fun a b => actSpec l.rfn (clip (a + b))) w.f.outs u.f.outs) l.c)) =
      (lstmCell l.fn l.rfn (l.u.map CLay.par) (l.w.map CLay.par) (l.c, l.h) x).1 := by
    rw [addArr_zip (mulArr_length _ _ _) (mulArr_length _ _ _),
      mulArr_zip (hz _ _ _ Pu.g Pw.g) (hz _ _ _ Pu.i Pw.i), mulArr_zip (hz _ _ _ Pu.f Pw.f) L.c]
    unfold lstmCell gateFn
    simp only [Gates.map]
    rw [← a1, ← a2, ← a3, ← b1, ← b2, ← b3]
    rw [zipWith_swap _ (fun a b => a * b) (fun a b => mul_comm a b) l.c,
      zipWith_swap _ (fun a b => actSpec l.rfn (clip (a + b))) (fun a b => by rw [add_comm]) w.f.outs,
      zipWith_swap _ (fun a b => actSpec l.rfn (clip (a + b))) (fun a b => by rw [add_comm]) w.i.outs,
      zipWith_swap _ (fun a b => actSpec l.fn (clip (a + b))) (fun a b => by rw [add_comm]) w.g.outs]
  refine Prod.ext hc ?_
  dsimp only
  rw [hc, mulArr_zip (hz _ _ _ Pu.o Pw.o) (by
    rw [List.length_map, ← hc, addArr_length])]
  unfold lstmCell gateFn
  simp only [Gates.map]
  rw [← a4, ← b4, List.zipWith_map_left]
  rw [zipWith_swap _ (fun a b => actSpec l.rfn (clip (a + b))) (fun a b => by rw [add_comm]) w.o.outs]
  exact zipWith_swap _ _ (fun a b => mul_comm _ _) _ _

theorem lstmSeq_val {B M : Nat} : ∀ (xs : List (List ℝ)) {l : TLay ℝ}, l.Legal B M →
    (∀ x ∈ xs, l.nInputs ≤ x.length) → l.output = l.h →
    ∃ l', lstmSeq realLibm xs l = .ok l' ∧ l'.Legal B M ∧ l'.output = l'.h ∧
      (l'.c, l'.h) =
        xs.foldl (lstmCell l.fn l.rfn (l.u.map CLay.par) (l.w.map CLay.par)) (l.c, l.h)
  | [], l, L, _, ho => ⟨l, rfl, L, ho, rfl⟩
  | x :: xs, l, L, h, _ => by
    obtain ⟨l1, e1, L1, d1, p1, p2, p3, p4, o1, v1⟩ := lstmForward_val L (h x (by simp))
    obtain ⟨l2, e2, L2, o2, v2⟩ := lstmSeq_val xs L1 (by
      intro y hy
      rw [d1]
      exact h y (by simp [hy])) o1
    refine ⟨l2, ?_, L2, o2, ?_⟩
    · unfold lstmSeq
      rw [e1]
      exact e2
    · rw [v2, v1, p1, p2, p3, p4]
      rfl

end Xcsf
