import Verif.NGradGenPool
import Verif.PropsNConv

/-!
# Lemmas for property C92: layers with weights
-/

set_option linter.unusedSectionVars false

namespace Xcsf
open Finset Filter
variable {R : Type}

theorem modify_same {α : Type} {f : α → α} : ∀ (l : List α) (j : Nat) (a : α), l[j]? = some a →
    f a = a → l.modify j f = l
  | [], _, _, h, _ => by simp at h
  | b :: l, 0, a, h, e => by
    cases h
    rw [List.modify_zero_cons, e]
  | b :: l, j + 1, a, h, e => by
    rw [List.modify_succ_cons, modify_same l j a h e]

theorem put_val {c : CLay ℝ} {p : Prm} (h : p.Of c) : p.put (p.val c) c = c := by
  cases p with
  | w j =>
    have hj : j < c.ws.length := h
    have e : (Prm.w j).val c = c.ws[j].w := by simp [Prm.val, List.getD, hj]
    rw [e]
    show { c with ws := c.ws.modify j _ } = c
    rw [modify_same c.ws j c.ws[j] (List.getElem?_eq_getElem hj) rfl]
  | b j =>
    have hj : j < c.ns.length := h
    have e : (Prm.b j).val c = c.ns[j].bias := by simp [Prm.val, List.getD, hj]
    rw [e]
    show { c with ns := c.ns.modify j _ } = c
    rw [modify_same c.ns j c.ns[j] (List.getElem?_eq_getElem hj) rfl]

theorem onPart_same {a : GLay ℝ} {c : CLay ℝ} {k : Place} (h : a.part? k = some c) :
    a.onPart c k = a := by
  cases a <;> cases k <;> first | (cases h; rfl) | cases h

theorem map_modify_set {α : Type} {f : α → α} {p : α → ℝ} {v : ℝ} (h : ∀ a, p (f a) = v) :
    ∀ (l : List α) (j : Nat), (l.modify j f).map p = (l.map p).set j v
  | [], _ => by simp
  | b :: l, 0 => by simp [h]
  | b :: l, j + 1 => by
    rw [List.modify_succ_cons, List.map_cons, List.map_cons, List.set_cons_succ, map_modify_set h l j]

theorem map_modify_keep {α β : Type} {f : α → α} {p : α → β} (h : ∀ a, p (f a) = p a) :
    ∀ (l : List α) (j : Nat), (l.modify j f).map p = l.map p
  | [], _ => by simp
  | b :: l, 0 => by simp [h]
  | b :: l, j + 1 => by
    rw [List.modify_succ_cons, List.map_cons, List.map_cons, map_modify_keep h l j]

/-- The outputs of neurons with the weighted sums `f`. -/
noncomputable def actOut (fn : Int) (n : Nat) (f : Nat → ℝ) : List ℝ :=
  (List.range n).map fun m => actSpec fn (clip (f m))

theorem actOut_length (fn : Int) (n : Nat) (f : Nat → ℝ) : (actOut fn n f).length = n := by
  simp [actOut]

theorem actOut_getD (fn : Int) {n m : Nat} (f : Nat → ℝ) (h : m < n) :
    (actOut fn n f).getD m 0 = actSpec fn (clip (f m)) := by
  simp [actOut, List.getD, h]

/-- Layers of neurons: the weighted sums `P` have derivatives with respect to inputs and parameters,
the backward pass multiplies with the derivative of the activation function. -/
theorem good_act {g : Rng ℝ R} {lo : ℝ} {a l : GLay ℝ} {y : List ℝ} {r : R} {c0 : CLay ℝ} {n : Nat}
    {fn : Int} (P : GLay ℝ → List ℝ → Nat → ℝ) (hc : a.part? .whole = some c0)
    (hk : ∀ k c, a.part? k = some c → k = .whole)
    (fwd : layerForward g realLibm lo true a y r = .ok (l, r))
    (outs : l.outs = .ok (actOut fn n (P a y))) (hn : l.dim.n = n) (dl : l.deltas.length = n)
    (wd : ∀ d : List ℝ, d.length = n → (l.withDelta d).outs = .ok (actOut fn n (P a y)) ∧
      (l.withDelta d).deltas = d ∧ (l.withDelta d).dim.n = l.dim.n ∧
      ∀ e : List ℝ, e.length = n → (l.withDelta d).withDelta e = l.withDelta e)
    (run : ∀ z : List ℝ, z.length = y.length → ∃ l', layerForward g realLibm lo true a z r = .ok (l', r) ∧
      l'.outs = .ok (actOut fn n (P a z)))
    (runP : ∀ p : Prm, p.Of c0 → ∀ v, ∃ l',
      layerForward g realLibm lo true (a.onPart (p.put v c0) .whole) y r = .ok (l', r) ∧
      l'.outs = .ok (actOut fn n (P (a.onPart (p.put v c0) .whole) y)))
    (sm : ∀ m < n, -100 < P a y m ∧ P a y m < 100 ∧ DifferentiableAt ℝ (actSpec fn) (P a y m))
    (Dx : (Nat → ℝ) → Nat → ℝ)
    (hDx : ∀ (c : ℝ → List ℝ) (v : ℝ) (c' : Nat → ℝ), c v = y →
      (∀ i < y.length, HasDerivAt (fun u => (c u).getD i 0) (c' i) v) →
      ∀ m < n, HasDerivAt (fun u => P a (c u) m) (Dx c' m) v)
    (Dp : Prm → Nat → ℝ)
    (hDp : ∀ p : Prm, p.Of c0 → ∀ m < n,
      HasDerivAt (fun v => P (a.onPart (p.put v c0) .whole) y m) (Dp p m) (p.val c0))
    (bn : ∀ d : List ℝ, d.length = n → ∃ l2 c2,
      layerBackward realLibm (l.withDelta d) y none = .ok (l2, none) ∧ l2.part? .whole = some c2 ∧
      ∀ p : Prm, p.Of c0 → p.upd c2 = p.upd c0 +
        ∑ m ∈ range n, d.getD m 0 * deriv (actSpec fn) (P a y m) * Dp p m)
    (bs : ∀ d : List ℝ, d.length = n → ∃ l2 c2 e,
      layerBackward realLibm (l.withDelta d) y (some (List.replicate y.length 0)) =
        .ok (l2, some e) ∧ l2.part? .whole = some c2 ∧
      (∀ p : Prm, p.Of c0 → p.upd c2 = p.upd c0 +
        ∑ m ∈ range n, d.getD m 0 * deriv (actSpec fn) (P a y m) * Dp p m) ∧
      e.length = y.length ∧ ∀ c' : Nat → ℝ, ∑ j ∈ range y.length, e.getD j 0 * c' j =
        ∑ m ∈ range n, d.getD m 0 * deriv (actSpec fn) (P a y m) * Dx c' m) :
    GoodLay g lo a y r l (actOut fn n (P a y)) r := by
  have olen : (actOut fn n (P a y)).length = n := actOut_length _ _ _
  have same : ∀ p : Prm, p.Of c0 → a.onPart (p.put (p.val c0) c0) .whole = a := fun p hp => by
    rw [put_val hp, onPart_same hc]
  have climbs : ∀ (d : List ℝ) (C : List ℝ → ℝ), IsGradL C (actOut fn n (P a y)) d →
      ∀ (l2 : GLay ℝ) (c2 : CLay ℝ), l2.part? .whole = some c2 →
      (∀ p : Prm, p.Of c0 → p.upd c2 = p.upd c0 +
        ∑ m ∈ range n, d.getD m 0 * deriv (actSpec fn) (P a y m) * Dp p m) →
      Climbs a l2 (fun b => C (layOut g lo b y r).1) := by
    intro d C hg l2 c2 h2 hu k c1 h1
    obtain rfl := hk k c1 h1
    rw [hc] at h1
    cases h1
    refine ⟨c2, h2, fun p hp _ => ?_⟩
    rw [hu p hp, add_sub_cancel_left]
    have := hg (fun v => actOut fn n (P (a.onPart (p.put v c0) .whole) y)) (p.val c0)
      (fun m => deriv (actSpec fn) (P a y m) * Dp p m) (by simp only [same p hp])
      (Eventually.of_forall fun u => by rw [actOut_length, olen]) (fun m hm => by
        rw [olen] at hm
        obtain ⟨s0, s1, s2⟩ := sm m hm
        have := act_hasDeriv (a := fn) (hDp p hp m hm) (by rw [same p hp]; exact s0)
          (by rw [same p hp]; exact s1) (by rw [same p hp]; exact s2)
        rw [same p hp] at this
        refine this.congr_of_eventuallyEq (Eventually.of_forall fun u => ?_)
        exact actOut_getD _ _ hm)
    rw [olen] at this
    refine (this.congr_deriv ?_).congr_of_eventuallyEq (Eventually.of_forall fun v => ?_)
    · exact sum_congr rfl fun m _ => by ring
    · obtain ⟨l', q1, q2⟩ := runP p hp v
      show C _ = C _
      rw [layOut_eq q1 q2]
  refine ⟨fwd, outs, by rw [hn, olen], by rw [dl, olen], by rw [olen]; exact wd, ?_, ?_, ?_⟩
  · intro c v c' _ h2 _
    filter_upwards [h2] with u hu
    obtain ⟨l', q1, q2⟩ := run (c u) hu
    exact ⟨l', _, q1, q2⟩
  · intro k c1 h1 p hp v
    obtain rfl := hk k c1 h1
    rw [hc] at h1
    cases h1
    obtain ⟨l', q1, q2⟩ := runP p hp v
    exact ⟨l', _, q1, q2⟩
  · intro d hd C hg
    rw [olen] at hd
    obtain ⟨l2, c2, q1, q2, q3⟩ := bn d hd
    obtain ⟨l3, c3, e, t1, t2, t3, t4, t5⟩ := bs d hd
    refine ⟨⟨l2, q1, climbs d C hg l2 c2 q2 q3⟩, l3, e, t1, t4, climbs d C hg l3 c3 t2 t3, ?_⟩
    intro c v c' h1 h2 h3
    have := hg (fun u => actOut fn n (P a (c u))) v
      (fun m => deriv (actSpec fn) (P a y m) * Dx c' m) (by simp only [h1])
      (Eventually.of_forall fun u => by rw [actOut_length, olen]) (fun m hm => by
        rw [olen] at hm
        obtain ⟨s0, s1, s2⟩ := sm m hm
        have := act_hasDeriv (a := fn) (hDx c v c' h1 h3 m hm) (by rw [h1]; exact s0)
          (by rw [h1]; exact s1) (by rw [h1]; exact s2)
        rw [h1] at this
        refine this.congr_of_eventuallyEq (Eventually.of_forall fun u => ?_)
        exact actOut_getD _ _ hm)
    rw [olen] at this
    refine (this.congr_deriv ?_).congr_of_eventuallyEq ?_
    · rw [t5]
      exact sum_congr rfl fun m _ => by ring
    · filter_upwards [h2] with u hu
      obtain ⟨l', q1, q2⟩ := run (c u) hu
      show C _ = C _
      rw [layOut_eq q1 q2]

/-! ## Connected layers -/

theorem put_par {c : CLay ℝ} (p : Prm) (v : ℝ) : (p.put v c).par = match p with
    | .w j => { c.par with w := c.par.w.set j v }
    | .b i => { c.par with b := c.par.b.set i v } := by
  cases p with
  | w j =>
    exact congrArg (fun w => (⟨c.nInputs, c.nOutputs, c.fn, w, c.ns.map Neuron.bias⟩ : Par))
      (map_modify_set (α := Wt ℝ) (p := Wt.w) (f := fun x => { x with w := v }) (v := v)
        (fun _ => rfl) c.ws j)
  | b j =>
    exact congrArg (fun b => (⟨c.nInputs, c.nOutputs, c.fn, c.ws.map Wt.w, b⟩ : Par))
      (map_modify_set (α := Neuron ℝ) (p := Neuron.bias) (f := fun x => { x with bias := v }) (v := v)
        (fun _ => rfl) c.ns j)

theorem put_shaped {c : CLay ℝ} (S : c.par.Shaped) (p : Prm) (v : ℝ) : (p.put v c).par.Shaped := by
  rw [put_par]
  cases p with
  | w j => exact ⟨by simpa using S.wlen, S.blen, S.fn⟩
  | b j => exact ⟨S.wlen, by simpa using S.blen, S.fn⟩

theorem conn_withDelta2 {l : CLay ℝ} {d e : List ℝ} (hd : d.length = l.ns.length)
    (he : e.length = l.ns.length) : (l.withDelta d).withDelta e = l.withDelta e := by
  unfold CLay.withDelta
  dsimp only
  congr 1
  refine List.ext_getElem? fun i => ?_
  by_cases hi : i < l.ns.length
  · simp [hi, hd, he]
  · rw [List.getElem?_eq_none (by simp [hd, he]; omega), List.getElem?_eq_none (by simp [he]; omega)]

theorem good_conn {g : Rng ℝ R} {lo : ℝ} {c : CLay ℝ} {y : List ℝ}
    (hd : (GLay.conn c).Diff lo y) (r : R) : ∃ l o r1, GoodLay g lo (.conn c) y r l o r1 := by
  obtain ⟨S, hy, hsgd, hs⟩ := hd
  have hns : c.ns.length = c.nOutputs := by simpa [CLay.par] using S.blen
  have hwl : c.ws.length = c.nOutputs * c.nInputs := by simpa [CLay.par] using S.wlen
  let P : GLay ℝ → List ℝ → Nat → ℝ := fun a z m => match a with
    | .conn c => c.par.pre z m
    | _ => 0
  have run : ∀ (c : CLay ℝ), c.par.Shaped → ∀ z : List ℝ, c.nInputs ≤ z.length → ∃ l',
      layerForward g realLibm lo true (.conn c) z r = .ok (.conn l', r) ∧
      (GLay.conn l').outs = .ok (actOut c.fn c.nOutputs (c.par.pre z)) ∧ l'.par = c.par ∧
      l'.ws = c.ws ∧ l'.opt = c.opt ∧ l'.ns.map Neuron.bupd = c.ns.map Neuron.bupd ∧ HoldsSt l' z := by
    intro c S z hz
    obtain ⟨l', e, q1, q2, q3, q4, q5⟩ := connForward_holds S hz
    refine ⟨l', by show keepR GLay.conn _ r = _; rw [e]; rfl, ?_, q1, q2, q3, q4, q5⟩
    show Except.ok l'.outs = _
    rw [q5.out, q1]
    rfl
  obtain ⟨l', e, eo, ep, ew, eopt, eb, H⟩ := run c S y (by omega)
  have hl' : l'.ns.length = c.nOutputs := by
    have := congrArg (fun p : Par => p.b.length) ep
    simpa [CLay.par, hns] using this
  have hni : l'.nInputs = c.nInputs := congrArg Par.nIn ep
  have hno : l'.nOutputs = c.nOutputs := congrArg Par.nOut ep
  have hfn : l'.fn = c.fn := congrArg Par.fn ep
  let Dp : Prm → Nat → ℝ := fun p m => match p with
    | .w q => if m = q / c.nInputs then y.getD (q % c.nInputs) 0 else 0
    | .b i => if m = i then 1 else 0
  -- both forms of the backward pass
  have back : ∀ d : List ℝ, d.length = c.nOutputs → ∀ o : Option (List ℝ),
      (∀ v, o = some v → v.length = c.nInputs) → ∃ l2 o', layerBackward realLibm (.conn (l'.withDelta d)) y o =
        .ok (.conn l2, o') ∧
      (∀ p : Prm, p.Of c → p.upd l2 = p.upd c + ∑ m ∈ range c.nOutputs, d.getD m 0 *
        deriv (actSpec c.fn) (c.par.pre y m) * Dp p m) ∧
      (o = none → o' = none) ∧ (∀ v, o = some v → ∃ v', o' = some v' ∧ v'.length = v.length ∧
        ∀ j < c.nInputs, v'.getD j 0 = v.getD j 0 + ∑ m ∈ range c.nOutputs, d.getD m 0 *
          deriv (actSpec c.fn) (c.par.pre y m) * c.par.w.getD (m * c.nInputs + j) 0) := by
    intro d hd o ho
    have hdl : d.length = l'.ns.length := by rw [hl', hd]
    obtain ⟨f1, f2, f3, f4, f5, f6⟩ := withDelta_facts hdl
    have fni : (l'.withDelta d).nInputs = c.nInputs := hni
    have fno : (l'.withDelta d).nOutputs = c.nOutputs := hno
    have ffn : (l'.withDelta d).fn = c.fn := hfn
    have fws : (l'.withDelta d).ws = c.ws := ew
    have fp : (l'.withDelta d).par = c.par := f1.trans ep
    have hs' : (l'.withDelta d).par.Smooth y := by rw [fp]; exact hs
    obtain ⟨l2, o', b1, b2, b3, b4, b5⟩ := connBackward_spec (l := l'.withDelta d) (x := y)
      (by rw [fp]; exact S) (by rw [fni, hy]) (fun i hi => by
        have := smooth_clip hs' i hi
        exact this) (holds_withDelta hdl H) (by
          show l'.opt.sgd = true
          rw [eopt]; exact hsgd) o (by rw [fni]; exact ho)
    have lg : ∀ i < c.nOutputs, locGrad (l'.withDelta d) y i =
        d.getD i 0 * deriv (actSpec c.fn) (c.par.pre y i) := by
      intro i hi
      rw [locGrad_smooth hs' (by rw [fno]; exact hi), f2, ffn, fp]
    rw [fno, fni] at b2
    rw [fno] at b3
    rw [fno, fni] at b5
    refine ⟨l2, o', by show backOf GLay.conn _ = _; rw [b1]; rfl, ?_, b4, ?_⟩
    · intro p hp
      cases p with
      | w q =>
        have hq : q < c.nOutputs * c.nInputs := by rw [← hwl]; exact hp
        have hpos : 0 < c.nInputs := by
          rcases Nat.eq_zero_or_pos c.nInputs with h | h
          · rw [h] at hq; omega
          · exact h
        have h1 : q / c.nInputs < c.nOutputs := Nat.div_lt_of_lt_mul (by rw [Nat.mul_comm]; exact hq)
        have h2 := Nat.mod_lt q hpos
        have := b2 _ h1 _ h2
        rw [show q / c.nInputs * c.nInputs + q % c.nInputs = q from by
          rw [Nat.mul_comm]; exact Nat.div_add_mod _ _, fws, lg _ h1] at this
        show (l2.ws.map Wt.upd).getD q 0 = _
        rw [this, sum_eq_single (q / c.nInputs)]
        · simp [Dp, Prm.upd]
        · intro m _ hm
          simp [Dp, hm]
        · intro h
          exact absurd (mem_range.2 h1) h
      | b i =>
        have hi : i < c.nOutputs := by rw [← hns]; exact hp
        have := b3 i hi
        rw [f4, eb, lg i hi] at this
        show (l2.ns.map Neuron.bupd).getD i 0 = _
        rw [this, sum_eq_single i]
        · simp [Dp, Prm.upd]
        · intro m _ hm
          simp [Dp, hm]
        · intro h
          exact absurd (mem_range.2 hi) h
    · intro v hv
      obtain ⟨v', w1, w2, w3⟩ := b5 v hv
      refine ⟨v', w1, w2, fun j hj => ?_⟩
      rw [w3 j hj, fp]
      congr 1
      exact sum_congr rfl fun m hm => by rw [lg m (mem_range.1 hm)]
  refine ⟨.conn l', _, r, good_act (c0 := c) (n := c.nOutputs) (fn := c.fn) P rfl
    (fun k c h => by cases k <;> first | rfl | cases h) e eo
    (by show (l'.nOutputs : Int) = _; rw [hno]) (by
      show (l'.ns.map Neuron.delta).length = _
      rw [List.length_map, hl']) ?_ ?_ ?_ hs
    (fun c' m => ∑ j ∈ range c.nInputs, c.par.w.getD (m * c.nInputs + j) 0 * c' j) ?_ Dp ?_ ?_ ?_⟩
  · intro d hd
    have hdl : d.length = l'.ns.length := by rw [hl', hd]
    obtain ⟨f1, f2, f3, f4, f5, f6⟩ := withDelta_facts hdl
    refine ⟨?_, f2, rfl, fun e he => ?_⟩
    · rw [← eo]
      show Except.ok _ = Except.ok _
      rw [f3]
    · show GLay.conn _ = GLay.conn _
      rw [conn_withDelta2 hdl (by rw [hl', he])]
  · intro z hz
    obtain ⟨l1, q1, q2, _⟩ := run c S z (by omega)
    exact ⟨_, q1, q2⟩
  · intro p hp v
    obtain ⟨l1, q1, q2, _⟩ := run (p.put v c) (put_shaped S p v) y (by
      have : (p.put v c).nInputs = c.nInputs := by cases p <;> rfl
      omega)
    have h1 : (p.put v c).fn = c.fn := by cases p <;> rfl
    have h2 : (p.put v c).nOutputs = c.nOutputs := by cases p <;> rfl
    rw [h1, h2] at q2
    exact ⟨_, q1, q2⟩
  · intro c1 v c' h1 h3 m hm
    show HasDerivAt (fun u => c.par.pre (c1 u) m) _ v
    unfold Par.pre
    have := HasDerivAt.fun_sum (x := v) (u := range c.par.nIn)
      (A := fun j u => c.par.w.getD (m * c.par.nIn + j) 0 * (c1 u).getD j 0)
      (A' := fun j => c.par.w.getD (m * c.par.nIn + j) 0 * c' j)
      (fun j hj => (h3 j (by rw [hy]; exact mem_range.1 hj)).const_mul _)
    exact this.const_add _
  · intro p hp m hm
    show HasDerivAt (fun v => (p.put v c).par.pre y m) _ _
    cases p with
    | w q =>
      have hq : q < c.nOutputs * c.nInputs := by rw [← hwl]; exact hp
      have hpos : 0 < c.nInputs := by
        rcases Nat.eq_zero_or_pos c.nInputs with h | h
        · rw [h] at hq; omega
        · exact h
      have h1 : q / c.nInputs < c.nOutputs := Nat.div_lt_of_lt_mul (by rw [Nat.mul_comm]; exact hq)
      have h2 := Nat.mod_lt q hpos
      have eq : q / c.nInputs * c.nInputs + q % c.nInputs = q := by
        rw [Nat.mul_comm]; exact Nat.div_add_mod _ _
      have : (fun v => ((Prm.w q).put v c).par.pre y m) = fun v => c.par.pre y m +
          if m = q / c.nInputs then (v - c.par.w.getD q 0) * y.getD (q % c.nInputs) 0 else 0 := by
        funext v
        rw [put_par]
        have := pre_setW S y h1 h2 v m
        rw [show q / c.nInputs * c.par.nIn + q % c.nInputs = q from eq] at this
        exact this
      rw [this]
      show HasDerivAt _ (if m = q / c.nInputs then y.getD (q % c.nInputs) 0 else 0) _
      by_cases h : m = q / c.nInputs
      · simp only [if_pos h]
        have := (((hasDerivAt_id ((Prm.w q).val c)).sub_const (c.par.w.getD q 0)).mul_const
          (y.getD (q % c.nInputs) 0)).const_add (c.par.pre y m)
        simpa using this
      · simp only [if_neg h]
        exact hasDerivAt_const _ _
    | b i =>
      have hi : i < c.nOutputs := by rw [← hns]; exact hp
      have : (fun v => ((Prm.b i).put v c).par.pre y m) = fun v => c.par.pre y m +
          if m = i then v - c.par.b.getD i 0 else 0 := by
        funext v
        rw [put_par]
        exact pre_setB S y hi v m
      rw [this]
      show HasDerivAt _ (if m = i then 1 else 0) _
      by_cases h : m = i
      · simp only [if_pos h]
        have := ((hasDerivAt_id ((Prm.b i).val c)).sub_const (c.par.b.getD i 0)).const_add
          (c.par.pre y m)
        simpa using this
      · simp only [if_neg h]
        exact hasDerivAt_const _ _
  · intro d hd
    obtain ⟨l2, o', b1, b2, b3, _⟩ := back d hd none (fun v h => nomatch h)
    rw [b3 rfl] at b1
    exact ⟨_, l2, b1, rfl, b2⟩
  · intro d hd
    obtain ⟨l2, o', b1, b2, _, b4⟩ := back d hd (some (List.replicate y.length 0)) (fun v h => by
      cases h
      rw [List.length_replicate, hy])
    obtain ⟨v', rfl, w2, w3⟩ := b4 _ rfl
    refine ⟨_, l2, v', b1, rfl, b2, by rw [w2, List.length_replicate], fun c' => ?_⟩
    rw [hy]
    have : ∀ j ∈ range c.nInputs, v'.getD j 0 * c' j = ∑ m ∈ range c.nOutputs, d.getD m 0 *
        deriv (actSpec c.fn) (c.par.pre y m) * c.par.w.getD (m * c.nInputs + j) 0 * c' j := by
      intro j hj
      rw [w3 j (mem_range.1 hj), ← sum_mul]
      have : (List.replicate y.length (0 : ℝ)).getD j 0 = 0 := by
        rw [List.getD, List.getElem?_replicate]; split <;> rfl
      rw [this, zero_add]
    rw [sum_congr rfl this, sum_comm]
    refine sum_congr rfl fun m _ => ?_
    show _ = d.getD m 0 * deriv (actSpec c.fn) (c.par.pre y m) * _
    rw [mul_sum]
    exact sum_congr rfl fun j _ => by ring

/-! ## Convolutional layers -/

theorem clampK_clip (s : ℝ) : clampK s (-100) 100 = clip s := by
  unfold clampK clip
  by_cases h1 : s < -100
  · rw [if_pos h1, min_eq_right (by linarith), max_eq_left h1.le]
  · rw [if_neg h1]
    by_cases h2 : 100 < s
    · rw [if_pos h2, min_eq_left h2.le, max_eq_right (by norm_num)]
    · rw [if_neg h2, min_eq_right (not_lt.1 h2), max_eq_right (not_lt.1 h1)]

theorem convOk_core {l : VLay ℝ} (L : l.ConvOk) {c : CLay ℝ} (h1 : c.nOutputs = l.core.nOutputs)
    (h2 : c.nInputs = l.core.nInputs) (h3 : c.ws.length = l.core.ws.length)
    (h4 : c.ns.length = l.core.ns.length) (h5 : c.fn = l.core.fn) :
    VLay.ConvOk { l with core := c } where
  h := L.h
  w := L.w
  c := L.c
  s := L.s
  st := L.st
  p := L.p
  fitH := L.fitH
  fitW := L.fitW
  one := L.one
  outH := L.outH
  outW := L.outW
  nIn := L.nIn
  nOut := by show l.nOut = _ * _ * (c.nOutputs : Int); rw [h1]; exact L.nOut
  fan := by show c.nInputs = _; rw [h2]; exact L.fan
  wlen := by show c.ws.length = c.nOutputs * c.nInputs; rw [h1, h2, h3]; exact L.wlen
  blen := by show c.ns.length = c.nOutputs; rw [h1, h4]; exact L.blen
  cl := L.cl
  tl := L.tl
  fn := by show 0 ≤ c.fn ∧ c.fn < 11; rw [h5]; exact L.fn

theorem dims_core {l : VLay ℝ} {H W C S T P OH OW : Nat} (D : Dims l H W C S T P OH OW) {c : CLay ℝ}
    (h1 : c.nOutputs = l.core.nOutputs) (h3 : c.ws.length = l.core.ws.length)
    (h4 : c.ns.length = l.core.ns.length) : Dims { l with core := c } H W C S T P OH OW where
  h := D.h
  w := D.w
  c := D.c
  s := D.s
  t := D.t
  p := D.p
  oh := D.oh
  ow := D.ow
  s1 := D.s1
  hc := D.hc
  wc := D.wc
  one := D.one
  fan := D.fan
  n := D.n
  wlen := by show c.ws.length = c.nOutputs * _; rw [h1, h3]; exact D.wlen
  blen := by show c.ns.length = c.nOutputs; rw [h1, h4]; exact D.blen
  cl := by show _ = c.nOutputs * _; rw [h1]; exact D.cl
  no := by show _ = c.nOutputs * _; rw [h1]; exact D.no
  tl := D.tl
  nIn := D.nIn

/-- The column of pixels under the kernel. -/
noncomputable def colList (H W C S T P : Nat) (z : List ℝ) (i j : Nat) : List ℝ :=
  ofArr (C * S * S) fun p => colPix z H W S T P p i j

theorem slide_pre {l : VLay ℝ} {H W C S T P OH OW : Nat} (D : Dims l H W C S T P OH OW)
    (hf : l.core.nInputs = C * S * S) (z : List ℝ) (f i j : Nat) :
    (l.core.ns.map Neuron.bias).getD f 0 + l.slide z f i j =
      l.core.par.pre (colList H W C S T P z i j) f := by
  rw [slide_flat D]
  unfold Par.pre CLay.par
  dsimp only
  rw [hf]
  congr 1
  refine sum_congr rfl fun p hp => ?_
  rw [colList, arrOf_ofArr _ (mem_range.1 hp)]

theorem under_col {l : VLay ℝ} {H W C S T P OH OW : Nat} (D : Dims l H W C S T P OH OW) (z : List ℝ)
    {c a b : Nat} (i j : Nat) (ha : a < S) (hb : b < S) :
    l.under z c a b i j = colPix z H W S T P ((c * S + a) * S + b) i j := by
  unfold VLay.under colPix
  have e1 : ((c * S + a) * S + b) / S = c * S + a := by
    rw [Nat.mul_comm, Nat.mul_add_div (by omega), Nat.div_eq_of_lt hb, Nat.add_zero]
  have e2 : (c * S + a) / S = c := by
    rw [Nat.mul_comm, Nat.mul_add_div (by omega), Nat.div_eq_of_lt ha, Nat.add_zero]
  have e3 : ((c * S + a) * S + b) % S = b := by
    rw [Nat.mul_comm, Nat.mul_add_mod, Nat.mod_eq_of_lt hb]
  have e4 : (c * S + a) % S = a := by
    rw [Nat.mul_comm, Nat.mul_add_mod, Nat.mod_eq_of_lt ha]
  rw [D.h, D.w, D.t, D.p, e1, e2, e3, e4]

theorem sum_flat (a b c : Nat) (f : Nat → ℝ) : ∑ m ∈ range (a * (b * c)), f m =
    ∑ i ∈ range a, ∑ j ∈ range b, ∑ k ∈ range c, f ((i * b + j) * c + k) := by
  rw [← Nat.mul_assoc, sum_range_mul (a * b) c, sum_range_mul a b]

/-- Cells with other errors. -/
abbrev withErr (cs : List (Cell ℝ)) (d : List ℝ) : List (Cell ℝ) :=
  List.zipWith (fun (c : Cell ℝ) v => { c with delta := v }) cs d

theorem convBackward_none {l l' : VLay ℝ} {x d d' : List ℝ}
    (h : convBackward realLibm l x (some d) = .ok (l', some d')) :
    ∃ l2, convBackward realLibm l x none = .ok (l2, none) ∧ l2.core = l'.core := by
  unfold convBackward at h ⊢
  dsimp only at h ⊢
  split at h
  · cases h
  · next h0 =>
    rw [if_neg h0]
    split at h
    · cases h
    · next l1 e1 =>
      try rw [e1]
      split at h
      · cases h
      · next l3 d3 e3 =>
        cases h
        refine ⟨l1, rfl, ?_⟩
        unfold convDelta at e3
        dsimp only at e3
        repeat' split at e3
        all_goals cases e3
        all_goals rfl

theorem put_fields (c : CLay ℝ) (p : Prm) (v : ℝ) : (p.put v c).nOutputs = c.nOutputs ∧
    (p.put v c).nInputs = c.nInputs ∧ (p.put v c).ws.length = c.ws.length ∧
    (p.put v c).ns.length = c.ns.length ∧ (p.put v c).fn = c.fn := by
  cases p <;> simp [Prm.put]

theorem good_conv {g : Rng ℝ R} {lo : ℝ} {l : VLay ℝ} {y : List ℝ}
    (hd : (GLay.conv l).Diff lo y) (r : R) : ∃ l' o r1, GoodLay g lo (.conv l) y r l' o r1 := by
  obtain ⟨L, hy, hsgd, hs⟩ := hd
  obtain ⟨H, W, C, S, T, P, OH, OW, D⟩ := L.dims
  have hfan : l.core.nInputs = C * S * S := by rw [L.fan, D.fan]
  have hoh : l.outH.toNat = OH := by rw [D.oh, Int.toNat_natCast]
  have how : l.outW.toNat = OW := by rw [D.ow, Int.toNat_natCast]
  have hC : l.channels.toNat = C := by rw [D.c, Int.toNat_natCast]
  have hS : l.size.toNat = S := by rw [D.s, Int.toNat_natCast]
  have shp : l.core.par.Shaped := ⟨by simpa [CLay.par] using L.wlen, by simpa [CLay.par] using L.blen,
    L.fn⟩
  have sel : ∀ m, ∃ f i j, m < l.core.nOutputs * (OH * OW) → f < l.core.nOutputs ∧ i < OH ∧ j < OW ∧
      m = (f * OH + i) * OW + j := by
    intro m
    by_cases hm : m < l.core.nOutputs * (OH * OW)
    · obtain ⟨f, i, j, h⟩ := flat3_split (a := l.core.nOutputs) (b := OH) (c := OW) (m := m)
        (by rw [Nat.mul_assoc]; exact hm)
      exact ⟨f, i, j, fun _ => h⟩
    · exact ⟨0, 0, 0, fun h => absurd h hm⟩
  choose F I J hF using sel
  have hop : ∀ f i j, l.opos f i j = (f * OH + i) * OW + j := fun f i j => by
    unfold VLay.opos; rw [hoh, how]
  have hlt : ∀ f < l.core.nOutputs, ∀ i < OH, ∀ j < OW,
      (f * OH + i) * OW + j < l.core.nOutputs * (OH * OW) := fun f hf i hi j hj => by
    have := flat3_lt hf hi hj
    rwa [Nat.mul_assoc] at this
  have hat : ∀ f < l.core.nOutputs, ∀ i < OH, ∀ j < OW,
      F ((f * OH + i) * OW + j) = f ∧ I ((f * OH + i) * OW + j) = i ∧
      J ((f * OH + i) * OW + j) = j := by
    intro f hf i hi j hj
    obtain ⟨_, h2, h3, h4⟩ := hF _ (hlt f hf i hi j hj)
    obtain ⟨e1, e2, e3⟩ := flat3_inj hi hj h2 h3 h4
    exact ⟨e1.symm, e2.symm, e3.symm⟩
  let Q : CLay ℝ → List ℝ → Nat → ℝ := fun c z m => c.par.pre (colList H W C S T P z (I m) (J m)) (F m)
  let PP : GLay ℝ → List ℝ → Nat → ℝ := fun a z m => match a with
    | .conv l => Q l.core z m
    | _ => 0
  have run : ∀ (c : CLay ℝ), c.nOutputs = l.core.nOutputs → c.nInputs = l.core.nInputs →
      c.ws.length = l.core.ws.length → c.ns.length = l.core.ns.length → c.fn = l.core.fn →
      ∀ z : List ℝ, z.length = l.nIn.toNat → ∃ l',
        layerForward g realLibm lo true (.conv { l with core := c }) z r = .ok (.conv l', r) ∧
        l'.cells.map Cell.out = actOut l.core.fn (l.core.nOutputs * (OH * OW)) (Q c z) ∧
        l' = { l with core := c, cells := l'.cells, temp := l'.temp } ∧ l'.ConvOk ∧
        ∀ m < l.core.nOutputs * (OH * OW), ∃ x, l'.cells[m]? = some x ∧ x.state = clip (Q c z m) := by
    intro c h1 h2 h3 h4 h5 z hz
    have L' := convOk_core L h1 h2 h3 h4 h5
    have D' := dims_core D h1 h3 h4
    obtain ⟨l', e, q1, q2, _, q4⟩ := C54_conv realLibm { l with core := c } L' z hz
    have cell : ∀ m < l.core.nOutputs * (OH * OW), ∃ x, l'.cells[m]? = some x ∧
        x.state = clip (Q c z m) ∧ x.out = actSpec l.core.fn (clip (Q c z m)) := by
      intro m hm
      obtain ⟨g1, g2, g3, g4⟩ := hF m hm
      obtain ⟨n, x0, x, e1, _, e3, e4, e5, _⟩ := q4 (F m) (by show F m < c.nOutputs; rw [h1]; exact g1)
        (I m) (by show I m < l.outH.toNat; rw [hoh]; exact g2)
        (J m) (by show J m < l.outW.toNat; rw [how]; exact g3)
      have e3' : l'.cells[m]? = some x := by
        rw [← e3]
        congr 1
        exact g4.trans (hop _ _ _).symm
      have hb : (c.ns.map Neuron.bias).getD (F m) 0 = n.bias := by
        have : c.ns[F m]? = some n := e1
        simp [List.getD, this]
      have hq : n.bias + VLay.slide { l with core := c } z (F m) (I m) (J m) = Q c z m := by
        rw [← hb]
        exact slide_pre D' (h2.trans hfan) z (F m) (I m) (J m)
      rw [hq, clampK_clip] at e4
      refine ⟨x, e3', e4, ?_⟩
      rw [e4, C50_activation_function L'.fn.1 L'.fn.2] at e5
      rw [← h5]
      exact (Except.ok.inj e5).symm
    refine ⟨l', by show keepR GLay.conv _ r = _; rw [e]; rfl, ?_, q1, q2, fun m hm => ?_⟩
    · refine List.ext_getElem? fun m => ?_
      by_cases hm : m < l.core.nOutputs * (OH * OW)
      · obtain ⟨x, x1, _, x3⟩ := cell m hm
        rw [List.getElem?_map, x1]
        simp [actOut, hm, x3]
      · have hl : l'.cells.length = l.core.nOutputs * (OH * OW) := by
          have := q2.cl
          rw [this, q1]
          exact D.no
        rw [List.getElem?_eq_none (by rw [List.length_map, hl]; omega),
          List.getElem?_eq_none (by rw [actOut_length]; omega)]
    · obtain ⟨x, x1, x2, _⟩ := cell m hm
      exact ⟨x, x1, x2⟩
  obtain ⟨l', e, eo, el, L', st⟩ := run l.core rfl rfl rfl rfl rfl y hy
  have core' : l'.core = l.core := by rw [el]
  have nIn' : l'.nIn = l.nIn := by rw [el]
  have cl' : l'.cells.length = l.core.nOutputs * (OH * OW) := by
    rw [L'.cl, el]; exact D.no
  have sm : ∀ m < l.core.nOutputs * (OH * OW), -100 < Q l.core y m ∧ Q l.core y m < 100 ∧
      DifferentiableAt ℝ (actSpec l.core.fn) (Q l.core y m) := by
    intro m hm
    obtain ⟨g1, g2, g3, g4⟩ := hF m hm
    have := hs (F m) g1 (I m) (by rw [hoh]; exact g2) (J m) (by rw [how]; exact g3)
    rw [slide_pre D hfan] at this
    exact this
  let gr : List ℝ → Nat → ℝ := fun d m => d.getD m 0 * deriv (actSpec l.core.fn) (Q l.core y m)
  let Dp : Prm → Nat → ℝ := fun p m => match p with
    | .w q => if F m = q / (C * S * S) then
        (colList H W C S T P y (I m) (J m)).getD (q % (C * S * S)) 0 else 0
    | .b i => if F m = i then 1 else 0
  have hwl : l.core.ws.length = l.core.nOutputs * (C * S * S) := D.wlen
  -- the backward pass
  have back : ∀ d : List ℝ, d.length = l.core.nOutputs * (OH * OW) → ∃ l2 v',
      convBackward realLibm { l' with cells := withErr l'.cells d } y (some (List.replicate y.length 0)) = .ok (l2, some v') ∧
      (∀ p : Prm, p.Of l.core → p.upd l2.core = p.upd l.core +
        ∑ m ∈ range (l.core.nOutputs * (OH * OW)), gr d m * Dp p m) ∧
      v'.length = y.length ∧ ∀ c' : Nat → ℝ, ∑ j ∈ range y.length, v'.getD j 0 * c' j =
        ∑ m ∈ range (l.core.nOutputs * (OH * OW)), gr d m *
          l.slide (ofArr l.nIn.toNat c') (F m) (I m) (J m) := by
    intro d hd
    have ecl : (withErr l'.cells d).length =
        l'.cells.length := by simp [cl', hd]
    have Lb : VLay.ConvOk { l' with cells := withErr l'.cells d } :=
      { h := L'.h, w := L'.w, c := L'.c, s := L'.s, st := L'.st, p := L'.p, fitH := L'.fitH,
        fitW := L'.fitW, one := L'.one, outH := L'.outH, outW := L'.outW, nIn := L'.nIn,
        nOut := L'.nOut, fan := L'.fan, wlen := L'.wlen, blen := L'.blen, cl := ecl.trans L'.cl,
        tl := L'.tl, fn := L'.fn }
    obtain ⟨l2, v', b1, b2, _, _, _, b6, b7, b8, b9⟩ := C54_conv_backward realLibm _ Lb y
      (List.replicate y.length 0) (by show _ = l'.nIn.toNat; rw [nIn']; exact hy)
      (by rw [List.length_replicate]; show _ = l'.nIn.toNat; rw [nIn']; exact hy)
      (fun _ v hv => (List.mem_replicate.1 hv).2) (by show l'.core.opt.sgd = true; rw [core']; exact hsgd)
    rw [el] at b6 b7 b8 b9
    change ∀ f < l.core.nOutputs, ∀ i < l.outH.toNat, ∀ j < l.outW.toNat, ∃ c c' g,
      (withErr l'.cells d)[l.opos f i j]? = some c ∧
      l2.cells[l.opos f i j]? = some c' ∧ gradient realLibm l.core.fn c.state = .ok g ∧
      c' = { c with delta := c.delta * g } at b6
    change ∀ f < l.core.nOutputs, ∃ n, l.core.ns[f]? = some n ∧ l2.core.ns[f]? = some { n with
        bupd := n.bupd + ∑ i ∈ range l.outH.toNat, ∑ j ∈ range l.outW.toNat,
          (l2.cells.map Cell.delta).getD (l.opos f i j) 0 } at b7
    change ∀ f < l.core.nOutputs, ∀ c < l.channels.toNat, ∀ a < l.size.toNat, ∀ b < l.size.toNat, ∃ w,
        l.core.ws[l.wpos f c a b]? = some w ∧ l2.core.ws[l.wpos f c a b]? = some { w with
          upd := w.upd + ∑ i ∈ range l.outH.toNat, ∑ j ∈ range l.outW.toNat,
            (l2.cells.map Cell.delta).getD (l.opos f i j) 0 * l.under y c a b i j } at b8
    change ∀ v : List ℝ, v.length = l.nIn.toNat →
        inner v' (fun i => v.getD i 0) = inner (List.replicate y.length 0) (fun i => v.getD i 0) +
          ∑ f ∈ range l.core.nOutputs, ∑ i ∈ range l.outH.toNat, ∑ j ∈ range l.outW.toNat,
            (l2.cells.map Cell.delta).getD (l.opos f i j) 0 * l.slide v f i j at b9
    rw [hoh, how] at b6 b7 b8 b9
    rw [hC, hS] at b8
    have del : ∀ f < l.core.nOutputs, ∀ i < OH, ∀ j < OW,
        (l2.cells.map Cell.delta).getD (l.opos f i j) 0 = gr d ((f * OH + i) * OW + j) := by
      intro f hf i hi j hj
      obtain ⟨c, c', g0, e1, e2, e3, e4⟩ := b6 f hf i hi j hj
      rw [hop] at e1 e2 ⊢
      have hm := hlt f hf i hi j hj
      obtain ⟨x, x1, x2⟩ := st _ hm
      have hdm : d[(f * OH + i) * OW + j]? = some (d.getD ((f * OH + i) * OW + j) 0) := by
        have : (f * OH + i) * OW + j < d.length := by rw [hd]; exact hm
        simp [List.getD, this]
      rw [List.getElem?_zipWith, x1, hdm] at e1
      have ec := (Option.some.inj e1).symm
      obtain ⟨s0, s1, s2⟩ := sm _ hm
      rw [clip_id s0 s1] at x2
      have hg : g0 = deriv (actSpec l.core.fn) (Q l.core y ((f * OH + i) * OW + j)) := by
        rw [ec] at e3
        dsimp only at e3
        rw [x2, C50_gradient_is_derivative L.fn.1 L.fn.2 _ s2] at e3
        exact (Except.ok.inj e3).symm
      rw [List.getD, List.getElem?_map, e2, e4, ec, hg]
      rfl
    refine ⟨l2, v', b1, ?_, by rw [b2, List.length_replicate], ?_⟩
    · intro p hp
      cases p with
      | w q =>
        have hq : q < l.core.nOutputs * (C * S * S) := by rw [← hwl]; exact hp
        have hpos : 0 < C * S * S := by
          rcases Nat.eq_zero_or_pos (C * S * S) with h | h
          · rw [h] at hq; omega
          · exact h
        have h1 : q / (C * S * S) < l.core.nOutputs :=
          Nat.div_lt_of_lt_mul (by rw [Nat.mul_comm]; exact hq)
        have h2 := Nat.mod_lt q hpos
        obtain ⟨c, a, b, hc, ha, hb, hp0⟩ := flat3_split h2
        have hwp : l.wpos (q / (C * S * S)) c a b = q := by
          unfold VLay.wpos
          rw [hC, hS]
          calc ((q / (C * S * S) * C + c) * S + a) * S + b =
              C * S * S * (q / (C * S * S)) + ((c * S + a) * S + b) := by ring
            _ = q := by rw [← hp0]; exact Nat.div_add_mod _ _
        obtain ⟨w, w1, w2⟩ := b8 _ h1 c hc a ha b hb
        rw [hwp] at w1 w2
        show (l2.core.ws.map Wt.upd).getD q 0 = (l.core.ws.map Wt.upd).getD q 0 + _
        rw [List.getD, List.getElem?_map, w2, List.getD, List.getElem?_map, w1]
        show w.upd + _ = w.upd + _
        congr 1
        symm
        rw [sum_flat, sum_eq_single (q / (C * S * S))]
        · symm
          refine sum_congr rfl fun i hi => sum_congr rfl fun j hj => ?_
          obtain ⟨t1, t2, t3⟩ := hat _ h1 i (mem_range.1 hi) j (mem_range.1 hj)
          rw [del _ h1 i (mem_range.1 hi) j (mem_range.1 hj)]
          congr 1
          show _ = if _ then _ else _
          rw [t1, t2, t3, if_pos rfl, colList, arrOf_ofArr _ h2, under_col D _ _ _ ha hb, hp0]
        · intro f hf hne
          refine sum_eq_zero fun i hi => sum_eq_zero fun j hj => ?_
          obtain ⟨t1, t2, t3⟩ := hat f (mem_range.1 hf) i (mem_range.1 hi) j (mem_range.1 hj)
          show gr d _ * (if _ then _ else _) = _
          rw [t1, if_neg hne, mul_zero]
        · intro h
          exact absurd (mem_range.2 h1) h
      | b f =>
        have hf : f < l.core.nOutputs := by rw [← D.blen]; exact hp
        obtain ⟨n, n1, n2⟩ := b7 f hf
        show (l2.core.ns.map Neuron.bupd).getD f 0 = (l.core.ns.map Neuron.bupd).getD f 0 + _
        rw [List.getD, List.getElem?_map, n2, List.getD, List.getElem?_map, n1]
        show n.bupd + _ = n.bupd + _
        congr 1
        symm
        rw [sum_flat, sum_eq_single f]
        · symm
          refine sum_congr rfl fun i hi => sum_congr rfl fun j hj => ?_
          obtain ⟨t1, t2, t3⟩ := hat f hf i (mem_range.1 hi) j (mem_range.1 hj)
          rw [del f hf i (mem_range.1 hi) j (mem_range.1 hj)]
          show _ = gr d _ * (if _ then _ else _)
          rw [t1, if_pos rfl, mul_one]
        · intro f' hf' hne
          refine sum_eq_zero fun i hi => sum_eq_zero fun j hj => ?_
          obtain ⟨t1, t2, t3⟩ := hat f' (mem_range.1 hf') i (mem_range.1 hi) j (mem_range.1 hj)
          show gr d _ * (if _ then _ else _) = _
          rw [t1, if_neg hne, mul_zero]
        · intro h
          exact absurd (mem_range.2 hf) h
    · intro c'
      have vl : v'.length = y.length := by rw [b2, List.length_replicate]
      have := b9 (ofArr l.nIn.toNat c') (by simp [ofArr])
      rw [inner_zeros, zero_add] at this
      rw [sum_getD_inner v' _ vl, sum_flat]
      rw [inner_congr (v := fun i => (ofArr l.nIn.toNat c').getD i 0) (w := c') (fun i hi => by
        rw [vl, hy] at hi
        exact arrOf_ofArr c' hi)] at this
      rw [this]
      refine sum_congr rfl fun f hf => sum_congr rfl fun i hi => sum_congr rfl fun j hj => ?_
      obtain ⟨t1, t2, t3⟩ := hat f (mem_range.1 hf) i (mem_range.1 hi) j (mem_range.1 hj)
      rw [t1, t2, t3, del f (mem_range.1 hf) i (mem_range.1 hi) j (mem_range.1 hj)]
  refine ⟨.conv l', _, r, good_act (c0 := l.core) (n := l.core.nOutputs * (OH * OW)) (fn := l.core.fn)
    PP rfl (fun k c h => by cases k <;> first | rfl | cases h) e (congrArg Except.ok eo) ?_ (by
      show (l'.cells.map Cell.delta).length = _
      rw [List.length_map, cl']) ?_ ?_ ?_ sm
    (fun c' m => l.slide (ofArr l.nIn.toNat c') (F m) (I m) (J m)) ?_ Dp ?_ ?_ ?_⟩
  · show l'.nOut = _
    have h0 : 0 ≤ l.nOut := by
      rw [L.nOut, D.oh, D.ow]
      exact Int.mul_nonneg (Int.mul_nonneg (by omega) (by omega)) (by omega)
    have := D.no
    rw [el]
    show l.nOut = _
    omega
  · intro d hd
    have hd' : d.length = l'.cells.length := by rw [hd, cl']
    refine ⟨?_, ?_, rfl, fun e he => ?_⟩
    · rw [← eo]
      show Except.ok (List.map Cell.out (List.zipWith _ l'.cells d)) = _
      congr 1
      refine map_zipWith_left _ Cell.out ?_ _ _ hd'.ge
      exact fun _ _ => rfl
    · exact map_zipWith_right _ Cell.delta (fun _ _ => rfl) _ _ hd'.le
    · show GLay.conv _ = GLay.conv _
      congr 2
      refine List.ext_getElem? fun i => ?_
      have he' : e.length = l'.cells.length := by rw [he, cl']
      by_cases hi : i < l'.cells.length
      · simp [hi, hd', he']
      · rw [List.getElem?_eq_none (by simp [hd', he']; omega),
          List.getElem?_eq_none (by simp [he']; omega)]
  · intro z hz
    obtain ⟨l1, q1, q2, _⟩ := run l.core rfl rfl rfl rfl rfl z (by rw [hz, hy])
    exact ⟨_, q1, congrArg Except.ok q2⟩
  · intro p hp v
    obtain ⟨p1, p2, p3, p4, p5⟩ := put_fields l.core p v
    obtain ⟨l1, q1, q2, _⟩ := run (p.put v l.core) p1 p2 p3 p4 p5 y hy
    exact ⟨_, q1, congrArg Except.ok q2⟩
  · intro c1 v c' h1 h3 m hm
    obtain ⟨g1, g2, g3, g4⟩ := hF m hm
    show HasDerivAt (fun u => Q l.core (c1 u) m) _ v
    have e1 : (fun u => Q l.core (c1 u) m) = fun u =>
        (l.core.ns.map Neuron.bias).getD (F m) 0 + l.slide (c1 u) (F m) (I m) (J m) :=
      funext fun u => (slide_pre D hfan _ _ _ _).symm
    rw [e1]
    refine HasDerivAt.const_add _ ?_
    unfold VLay.slide
    refine HasDerivAt.fun_sum fun c hc => HasDerivAt.fun_sum fun a ha => HasDerivAt.fun_sum fun b hb => ?_
    refine HasDerivAt.const_mul _ ?_
    unfold VLay.under padPix
    by_cases hin : 0 ≤ (I m : Int) * l.stride + (a : Int) - l.pad ∧
        (I m : Int) * l.stride + (a : Int) - l.pad < l.height ∧
        0 ≤ (J m : Int) * l.stride + (b : Int) - l.pad ∧
        (J m : Int) * l.stride + (b : Int) - l.pad < l.width
    · simp only [if_pos hin]
      obtain ⟨p1, p2⟩ := pix_range (c := l.channels) (k := c) hin.1 hin.2.1 hin.2.2.1 hin.2.2.2 (by
        have := mem_range.1 hc; omega)
      rw [show l.height * l.width * l.channels = l.nIn by rw [L.nIn]; ring] at p2
      unfold pixel
      have hlt : ((J m : Int) * l.stride + (b : Int) - l.pad + l.width *
          ((I m : Int) * l.stride + (a : Int) - l.pad + l.height * (c : Int))).toNat < l.nIn.toNat := by
        omega
      rw [arrOf_ofArr _ hlt]
      exact h3 _ (by rw [hy]; exact hlt)
    · simp only [if_neg hin]
      exact hasDerivAt_const _ _
  · intro p hp m hm
    obtain ⟨g1, g2, g3, g4⟩ := hF m hm
    show HasDerivAt (fun v => Q (p.put v l.core) y m) _ _
    cases p with
    | w q =>
      have hq : q < l.core.nOutputs * (C * S * S) := by rw [← hwl]; exact hp
      have hpos : 0 < C * S * S := by
        rcases Nat.eq_zero_or_pos (C * S * S) with h | h
        · rw [h] at hq; omega
        · exact h
      have h1 : q / (C * S * S) < l.core.nOutputs :=
        Nat.div_lt_of_lt_mul (by rw [Nat.mul_comm]; exact hq)
      have h2 := Nat.mod_lt q hpos
      have eq : q / (C * S * S) * (C * S * S) + q % (C * S * S) = q := by
        rw [Nat.mul_comm]; exact Nat.div_add_mod _ _
      have : (fun v => Q ((Prm.w q).put v l.core) y m) = fun v => Q l.core y m +
          if F m = q / (C * S * S) then (v - l.core.par.w.getD q 0) *
            (colList H W C S T P y (I m) (J m)).getD (q % (C * S * S)) 0 else 0 := by
        funext v
        show Par.pre _ _ _ = _
        rw [put_par]
        have := pre_setW shp (colList H W C S T P y (I m) (J m)) (a := q / (C * S * S))
          (b := q % (C * S * S)) h1 (by show _ < l.core.nInputs; rw [hfan]; exact h2) v (F m)
        rw [show q / (C * S * S) * l.core.par.nIn + q % (C * S * S) = q from by
          show _ * l.core.nInputs + _ = _
          rw [hfan]; exact eq] at this
        exact this
      rw [this]
      show HasDerivAt _ (if F m = q / (C * S * S) then
        (colList H W C S T P y (I m) (J m)).getD (q % (C * S * S)) 0 else 0) _
      by_cases h : F m = q / (C * S * S)
      · simp only [if_pos h]
        have := (((hasDerivAt_id ((Prm.w q).val l.core)).sub_const (l.core.par.w.getD q 0)).mul_const
          ((colList H W C S T P y (I m) (J m)).getD (q % (C * S * S)) 0)).const_add (Q l.core y m)
        simpa using this
      · simp only [if_neg h]
        exact hasDerivAt_const _ _
    | b i =>
      have hi : i < l.core.nOutputs := by rw [← D.blen]; exact hp
      have : (fun v => Q ((Prm.b i).put v l.core) y m) = fun v => Q l.core y m +
          if F m = i then v - l.core.par.b.getD i 0 else 0 := by
        funext v
        show Par.pre _ _ _ = _
        rw [put_par]
        exact pre_setB shp _ hi v (F m)
      rw [this]
      show HasDerivAt _ (if F m = i then 1 else 0) _
      by_cases h : F m = i
      · simp only [if_pos h]
        have := ((hasDerivAt_id ((Prm.b i).val l.core)).sub_const (l.core.par.b.getD i 0)).const_add
          (Q l.core y m)
        simpa using this
      · simp only [if_neg h]
        exact hasDerivAt_const _ _
  · intro d hd
    obtain ⟨l2, v', b1, b2, _⟩ := back d hd
    obtain ⟨l3, b3, b4⟩ := convBackward_none b1
    refine ⟨.conv l3, l3.core, ?_, rfl, by rw [b4]; exact b2⟩
    show backOf GLay.conv _ = _
    rw [b3]
    rfl
  · intro d hd
    obtain ⟨l2, v', b1, b2, b3, b4⟩ := back d hd
    refine ⟨.conv l2, l2.core, v', ?_, rfl, b2, b3, b4⟩
    show backOf GLay.conv _ = _
    rw [b1]
    rfl

end Xcsf
