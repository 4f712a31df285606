import Verif.NGradSpec
import Verif.NLayerLemmas
import Mathlib.Analysis.Calculus.Deriv.Add
import Mathlib.Analysis.Calculus.Deriv.Mul
import Mathlib.Analysis.Calculus.Deriv.Comp
import Mathlib.Analysis.Calculus.Deriv.Pow

/-!
# Lemmas for property C52
-/

set_option linter.unusedSectionVars false

namespace Xcsf
open Finset

/-! ## Calculus -/

theorem clip_hasDeriv {s : ℝ} (h0 : -100 < s) (h1 : s < 100) : HasDerivAt clip 1 s := by
  refine (hasDerivAt_id s).congr_of_eventuallyEq ?_
  have : Set.Ioo (-100 : ℝ) 100 ∈ nhds s := Ioo_mem_nhds h0 h1
  filter_upwards [this] with y hy
  obtain ⟨h0, h1⟩ := hy
  unfold clip
  rw [min_eq_right h1.le, max_eq_right h0.le]
  rfl

theorem clip_id {s : ℝ} (h0 : -100 < s) (h1 : s < 100) : clip s = s := by
  unfold clip
  rw [min_eq_right h1.le, max_eq_right h0.le]

/-- The derivative of a neuron's output along a curve of its weighted sum. -/
theorem act_hasDeriv {a : Int} {f : ℝ → ℝ} {f' v : ℝ} (hf : HasDerivAt f f' v)
    (h0 : -100 < f v) (h1 : f v < 100) (hd : DifferentiableAt ℝ (actSpec a) (f v)) :
    HasDerivAt (fun u => actSpec a (clip (f u))) (deriv (actSpec a) (f v) * f') v := by
  have h2 : HasDerivAt (fun u => clip (f u)) (1 * f') v := (clip_hasDeriv h0 h1).comp v hf
  have h3 : HasDerivAt (actSpec a) (deriv (actSpec a) (f v)) (clip (f v)) := by
    rw [clip_id h0 h1]; exact hd.hasDerivAt
  have := h3.comp v h2
  rw [one_mul] at this
  exact this

theorem isGrad_error (t o : List ℝ) (h : t.length = o.length) :
    IsGrad (fun y => -(1 / 2) * ∑ i ∈ range t.length, (t.getD i 0 - y.getD i 0) ^ 2) o
      (List.zipWith (fun t o => t - o) t o) := by
  intro c v c' hc _ hd
  have h1 : HasDerivAt (fun u => ∑ i ∈ range t.length, (t.getD i 0 - (c u).getD i 0) ^ 2)
      (∑ i ∈ range t.length, 2 * (t.getD i 0 - (c v).getD i 0) * (0 - c' i)) v := by
    refine HasDerivAt.fun_sum fun i hi => ?_
    have hi : i < o.length := by rw [← h]; exact mem_range.1 hi
    have := (((hasDerivAt_const v (t.getD i 0)).sub (hd i hi)).pow 2)
    refine this.congr_deriv ?_
    simp
  refine (h1.const_mul (-(1 / 2))).congr_deriv ?_
  rw [mul_sum, ← h]
  refine sum_congr rfl fun i hi => ?_
  have hi : i < t.length := mem_range.1 hi
  have e : (List.zipWith (fun t o => t - o) t o).getD i 0 = t.getD i 0 - o.getD i 0 := by
    have hi' : i < o.length := by omega
    simp [List.getD, hi, hi']
  rw [e, hc]
  ring

theorem out_length (p : Par) (x : List ℝ) : (p.out x).length = p.nOut := by simp [Par.out]

theorem out_getD (p : Par) (x : List ℝ) {i : Nat} (h : i < p.nOut) :
    (p.out x).getD i 0 = actSpec p.fn (clip (p.pre x i)) := by
  simp [Par.out, List.getD, h]

/-- The gradient with respect to the inputs of a layer. -/
theorem isGrad_layer {C : List ℝ → ℝ} {p : Par} {x d e : List ℝ} (hx : p.nIn = x.length)
    (hs : p.Smooth x) (hg : IsGrad C (p.out x) d)
    (he : ∀ j < p.nIn, e.getD j 0 = ∑ i ∈ range p.nOut,
      d.getD i 0 * deriv (actSpec p.fn) (p.pre x i) * p.w.getD (i * p.nIn + j) 0) :
    IsGrad (fun y => C (p.out y)) x e := by
  intro c v c' hc hl hd
  have hpre : ∀ i, HasDerivAt (fun u => p.pre (c u) i)
      (∑ j ∈ range p.nIn, p.w.getD (i * p.nIn + j) 0 * c' j) v := by
    intro i
    unfold Par.pre
    have := HasDerivAt.fun_sum (x := v) (u := range p.nIn)
      (A := fun j u => p.w.getD (i * p.nIn + j) 0 * (c u).getD j 0)
      (A' := fun j => p.w.getD (i * p.nIn + j) 0 * c' j)
      (fun j hj => (hd j (by rw [← hx]; exact mem_range.1 hj)).const_mul _)
    exact this.const_add _
  have h1 := hg (fun u => p.out (c u)) v
    (fun i => deriv (actSpec p.fn) (p.pre x i) *
      ∑ j ∈ range p.nIn, p.w.getD (i * p.nIn + j) 0 * c' j)
    (by simp only [hc]) (fun u => by rw [out_length, out_length])
    (fun i hi => by
      rw [out_length] at hi
      obtain ⟨s0, s1, s2⟩ := hs i hi
      have := act_hasDeriv (a := p.fn) (hpre i) (by rw [hc]; exact s0) (by rw [hc]; exact s1)
        (by rw [hc]; exact s2)
      rw [hc] at this
      refine this.congr_of_eventuallyEq ?_
      exact Filter.Eventually.of_forall fun u => out_getD p (c u) hi)
  refine h1.congr_deriv ?_
  rw [out_length, ← hx]
  have e1 : ∀ i, d.getD i 0 * (deriv (actSpec p.fn) (p.pre x i) *
      ∑ j ∈ range p.nIn, p.w.getD (i * p.nIn + j) 0 * c' j) =
      ∑ j ∈ range p.nIn, d.getD i 0 * deriv (actSpec p.fn) (p.pre x i) *
        p.w.getD (i * p.nIn + j) 0 * c' j := by
    intro i
    rw [mul_sum, mul_sum]
    exact sum_congr rfl fun j _ => by ring
  rw [sum_congr rfl fun i _ => e1 i, sum_comm]
  refine sum_congr rfl fun j hj => ?_
  rw [he j (mem_range.1 hj), sum_mul]

theorem getD_set_eq (l : List ℝ) (c k : Nat) (v : ℝ) (h : c < l.length) :
    (l.set c v).getD k 0 = if k = c then v else l.getD k 0 := by
  unfold List.getD
  rw [List.getElem?_set]
  by_cases e : c = k
  · subst e; simp [h]
  · rw [if_neg e, if_neg (fun h => e h.symm)]

theorem grid_inj {n i j i' j' : Nat} (hj : j < n) (hj' : j' < n) (h : i * n + j = i' * n + j') :
    i = i' ∧ j = j' := by
  have h1 : (i * n + j) / n = i := by
    rw [Nat.mul_comm, Nat.mul_add_div (by omega), Nat.div_eq_of_lt hj]; omega
  have h2 : (i' * n + j') / n = i' := by
    rw [Nat.mul_comm, Nat.mul_add_div (by omega), Nat.div_eq_of_lt hj']; omega
  have e : i = i' := by rw [← h1, ← h2, h]
  subst e
  exact ⟨rfl, by omega⟩

/-- Changing one weight changes one weighted sum. -/
theorem pre_setW {p : Par} (S : p.Shaped) (x : List ℝ) {a b : Nat} (ha : a < p.nOut)
    (hb : b < p.nIn) (v : ℝ) (i : Nat) :
    Par.pre { p with w := p.w.set (a * p.nIn + b) v } x i =
      p.pre x i + if i = a then (v - p.w.getD (a * p.nIn + b) 0) * x.getD b 0 else 0 := by
  have hc : a * p.nIn + b < p.w.length := by
    have := gridIdx_lt hb ha (show p.nIn * p.nOut ≤ p.w.length by rw [S.wlen, Nat.mul_comm])
    rwa [Nat.mul_comm] at this
  unfold Par.pre
  dsimp only
  rw [add_assoc]
  congr 1
  have e : ∀ j ∈ range p.nIn, (p.w.set (a * p.nIn + b) v).getD (i * p.nIn + j) 0 * x.getD j 0 =
      p.w.getD (i * p.nIn + j) 0 * x.getD j 0 +
        if i = a ∧ j = b then (v - p.w.getD (a * p.nIn + b) 0) * x.getD b 0 else 0 := by
    intro j hj
    rw [getD_set_eq _ _ _ _ hc]
    by_cases h : i * p.nIn + j = a * p.nIn + b
    · obtain ⟨rfl, rfl⟩ := grid_inj (mem_range.1 hj) hb h
      simp; ring
    · rw [if_neg h, if_neg, add_zero]
      rintro ⟨rfl, rfl⟩
      exact h rfl
  rw [sum_congr rfl e, sum_add_distrib]
  congr 1
  by_cases hi : i = a
  · subst hi
    rw [if_pos rfl, sum_eq_single b]
    · simp
    · intro j _ hj
      rw [if_neg (fun h => hj h.2)]
    · intro h
      exact absurd (mem_range.2 hb) h
  · rw [if_neg hi]
    exact sum_eq_zero fun j _ => by rw [if_neg (fun h => hi h.1)]

theorem pre_setB {p : Par} (S : p.Shaped) (x : List ℝ) {a : Nat} (ha : a < p.nOut) (v : ℝ)
    (i : Nat) : Par.pre { p with b := p.b.set a v } x i =
      p.pre x i + if i = a then v - p.b.getD a 0 else 0 := by
  unfold Par.pre
  dsimp only
  rw [getD_set_eq _ _ _ _ (by rw [S.blen]; exact ha)]
  by_cases h : i = a
  · subst h; rw [if_pos rfl, if_pos rfl]; ring
  · rw [if_neg h, if_neg h]; ring

/-- The derivative along a curve of layers of which one weighted sum changes. -/
theorem grad_param {C : List ℝ → ℝ} {p : Par} {x d : List ℝ} (hs : p.Smooth x)
    (hg : IsGrad C (p.out x) d) (q : ℝ → Par) (v k : ℝ) {a : Nat} (ha : a < p.nOut)
    (hn : ∀ u, (q u).nOut = p.nOut) (hf : ∀ u, (q u).fn = p.fn)
    (hq : ∀ u i, (q u).pre x i = p.pre x i + if i = a then (u - v) * k else 0) :
    HasDerivAt (fun u => C ((q u).out x))
      (d.getD a 0 * deriv (actSpec p.fn) (p.pre x a) * k) v := by
  have hqv : (q v).out x = p.out x := by
    unfold Par.out
    rw [hn, hf]
    refine List.map_congr_left fun i _ => ?_
    rw [hq]; simp
  have h1 := hg (fun u => (q u).out x) v
    (fun i => deriv (actSpec p.fn) (p.pre x i) * if i = a then k else 0) hqv
    (fun u => by rw [out_length, out_length, hn])
    (fun i hi => by
      rw [out_length] at hi
      obtain ⟨s0, s1, s2⟩ := hs i hi
      have hpv : (q v).pre x i = p.pre x i := by rw [hq]; simp
      have hd : HasDerivAt (fun u => (q u).pre x i) (if i = a then k else 0) v := by
        by_cases h : i = a
        · have e : (fun u => (q u).pre x i) = fun u => p.pre x i + (u - v) * k := by
            funext u; rw [hq, if_pos h]
          rw [e, if_pos h]
          have := (((hasDerivAt_id v).sub_const v).mul_const k).const_add (p.pre x i)
          simpa using this
        · have e : (fun u => (q u).pre x i) = fun _ => p.pre x i := by
            funext u; rw [hq, if_neg h, add_zero]
          rw [e, if_neg h]
          exact hasDerivAt_const _ _
      have := act_hasDeriv (a := p.fn) hd (by rw [hpv]; exact s0) (by rw [hpv]; exact s1)
        (by rw [hpv]; exact s2)
      rw [hpv] at this
      refine this.congr_of_eventuallyEq ?_
      refine Filter.Eventually.of_forall fun u => ?_
      show ((q u).out x).getD i 0 = _
      rw [out_getD _ _ (by rw [hn]; exact hi), hf])
  refine h1.congr_deriv ?_
  rw [out_length, sum_eq_single a]
  · simp; ring
  · intro i _ hi
    rw [if_neg hi]; ring
  · intro h
    exact absurd (mem_range.2 ha) h


/-! ## The code -/

theorem arrOf_ofArr {n : Nat} (f : Nat → ℝ) {i : Nat} (h : i < n) : (ofArr n f).getD i 0 = f i := by
  simp [ofArr, List.getD, h]

theorem map_zipWith_right {α β γ : Type} (f : α → β → γ) (p : γ → β) (h : ∀ a b, p (f a b) = b) :
    ∀ (as : List α) (bs : List β), bs.length ≤ as.length →
      (List.zipWith f as bs).map p = bs
  | _, [], _ => by simp
  | [], _ :: _, hl => by simp at hl
  | a :: as, b :: bs, hl => by
    simp [h, map_zipWith_right f p h as bs (by simpa using hl)]

/-- The states and outputs of a layer are those of input `x`. -/
structure HoldsSt (l : CLay ℝ) (x : List ℝ) : Prop where
  state : l.ns.map Neuron.state = (List.range l.nOutputs).map fun i => clip (l.par.pre x i)
  out : l.outs = l.par.out x

theorem connForward_holds {l : CLay ℝ} (S : l.par.Shaped) {x : List ℝ} (hx : l.nInputs ≤ x.length) :
    ∃ l', connForward realLibm l x = .ok l' ∧ l'.par = l.par ∧ l'.ws = l.ws ∧ l'.opt = l.opt ∧
      l'.ns.map Neuron.bupd = l.ns.map Neuron.bupd ∧ HoldsSt l' x := by
  have hw : l.ws.length = l.nOutputs * l.nInputs := by simpa [CLay.par] using S.wlen
  have hn : l.ns.length = l.nOutputs := by simpa [CLay.par] using S.blen
  have hc : ∀ i < l.nOutputs, gemm false true 1 l.nOutputs l.nInputs 1 (arrOf x) l.nInputs
      (arrOf (l.ws.map Wt.w)) l.nInputs 1 (arrOf (l.ns.map Neuron.bias)) l.nOutputs i =
      l.par.pre x i := by
    intro i hi
    have := (C43_gemm false true 1 l.nOutputs l.nInputs 1 (arrOf x) l.nInputs
      (arrOf (l.ws.map Wt.w)) l.nInputs 1 (arrOf (l.ns.map Neuron.bias)) l.nOutputs
      (Nat.le_refl _)).1 0 (by omega) i hi
    rw [Nat.zero_mul, Nat.zero_add] at this
    rw [this, one_mul, one_mul]
    unfold Par.pre arrOf opAt CLay.par
    simp only [Bool.false_eq_true, if_false, if_true, Nat.zero_mul, Nat.zero_add]
    congr 1
    exact sum_congr rfl fun j _ => mul_comm _ _
  have ha := C50_activate_array S.fn.1 S.fn.2 (ofArr l.nOutputs (gemm false true 1 l.nOutputs
    l.nInputs 1 (arrOf x) l.nInputs (arrOf (l.ws.map Wt.w)) l.nInputs 1
    (arrOf (l.ns.map Neuron.bias)) l.nOutputs))
  have hlist : ofArr l.nOutputs (gemm false true 1 l.nOutputs l.nInputs 1 (arrOf x) l.nInputs
      (arrOf (l.ws.map Wt.w)) l.nInputs 1 (arrOf (l.ns.map Neuron.bias)) l.nOutputs) =
      (List.range l.nOutputs).map fun i => l.par.pre x i :=
    List.map_congr_left fun i hi => hc i (List.mem_range.1 hi)
  rw [hlist, List.map_map, List.map_map] at ha
  have hfn : l.par.fn = l.fn := rfl
  have e : connForward realLibm l x = .ok { l with
      ns := List.zipWith (fun (x : Neuron ℝ) (so : ℝ × ℝ) => { x with state := so.1, out := so.2 })
        l.ns (List.zip ((List.range l.nOutputs).map fun i => clip (l.par.pre x i))
          (l.par.out x)) } := by
    unfold connForward
    rw [if_neg (by omega)]
    dsimp only
    rw [hlist]
    rw [hfn] at ha
    rw [ha]
    rfl
  have hzl : (List.zip ((List.range l.nOutputs).map fun i => clip (l.par.pre x i))
      (l.par.out x)).length = l.ns.length := by
    have : l.par.nOut = l.nOutputs := rfl
    simp [out_length, hn, this]
  have hb : ∀ (p : Neuron ℝ → ℝ), (∀ (a : Neuron ℝ) (so : ℝ × ℝ),
      p { a with state := so.1, out := so.2 } = p a) →
      (List.zipWith (fun (x : Neuron ℝ) (so : ℝ × ℝ) => { x with state := so.1, out := so.2 })
        l.ns (List.zip ((List.range l.nOutputs).map fun i => clip (l.par.pre x i))
          (l.par.out x))).map p = l.ns.map p :=
    fun p hp => map_zipWith_left _ p hp _ _ hzl.ge
  have hso : (List.zipWith (fun (x : Neuron ℝ) (so : ℝ × ℝ) =>
      { x with state := so.1, out := so.2 }) l.ns
      (List.zip ((List.range l.nOutputs).map fun i => clip (l.par.pre x i)) (l.par.out x))).map
      (fun n => (n.state, n.out)) =
      List.zip ((List.range l.nOutputs).map fun i => clip (l.par.pre x i)) (l.par.out x) :=
    map_zipWith_right _ _ (fun _ _ => rfl) _ _ hzl.le
  have hpar : CLay.par { l with
      ns := List.zipWith (fun (x : Neuron ℝ) (so : ℝ × ℝ) => { x with state := so.1, out := so.2 })
        l.ns (List.zip ((List.range l.nOutputs).map fun i => clip (l.par.pre x i))
          (l.par.out x)) } = l.par := by
    exact congrArg (fun b => (⟨l.nInputs, l.nOutputs, l.fn, l.ws.map Wt.w, b⟩ : Par))
      (hb Neuron.bias (fun _ _ => rfl))
  have hlen : ((List.range l.nOutputs).map fun i => clip (l.par.pre x i)).length =
      (l.par.out x).length := by
    rw [out_length]; simp [CLay.par]
  refine ⟨_, e, hpar, rfl, rfl, hb Neuron.bupd (fun _ _ => rfl), ⟨?_, ?_⟩⟩
  · rw [hpar]
    have := congrArg (List.map Prod.fst) hso
    rw [List.map_map, List.map_fst_zip hlen.le] at this
    exact this
  · rw [hpar]
    have := congrArg (List.map Prod.snd) hso
    rw [List.map_map, List.map_snd_zip hlen.ge] at this
    exact this

/-- The product of error and derivative at each neuron. -/
noncomputable def locGrad (l : CLay ℝ) (x : List ℝ) (i : Nat) : ℝ :=
  l.deltas.getD i 0 * deriv (actSpec l.fn) (clip (l.par.pre x i))

theorem locGrad_smooth {l : CLay ℝ} {x : List ℝ} (hs : l.par.Smooth x) {i : Nat}
    (hi : i < l.nOutputs) :
    locGrad l x i = l.deltas.getD i 0 * deriv (actSpec l.fn) (l.par.pre x i) := by
  obtain ⟨s0, s1, _⟩ := hs i hi
  unfold locGrad
  rw [clip_id s0 s1]

theorem smooth_clip {p : Par} {x : List ℝ} (hs : p.Smooth x) :
    ∀ i < p.nOut, DifferentiableAt ℝ (actSpec p.fn) (clip (p.pre x i)) := by
  intro i hi
  obtain ⟨s0, s1, s2⟩ := hs i hi
  rw [clip_id s0 s1]; exact s2

/-- What the backward pass of a layer does that has the states of input `x` and reads input `z`. -/
theorem connBackward_read {l : CLay ℝ} (S : l.par.Shaped) {x z : List ℝ} (hx : l.nInputs = z.length)
    (hs : ∀ i < l.nOutputs, DifferentiableAt ℝ (actSpec l.fn) (clip (l.par.pre x i)))
    (H : HoldsSt l x) (hsgd : l.opt.sgd = true) (d : Option (List ℝ))
    (hd : ∀ v, d = some v → v.length = l.nInputs) :
    ∃ l' d', connBackward realLibm l z d = .ok (l', d') ∧
      (∀ i < l.nOutputs, ∀ j < l.nInputs, (l'.ws.map Wt.upd).getD (i * l.nInputs + j) 0 =
        (l.ws.map Wt.upd).getD (i * l.nInputs + j) 0 + locGrad l x i * z.getD j 0) ∧
      (∀ i < l.nOutputs, (l'.ns.map Neuron.bupd).getD i 0 =
        (l.ns.map Neuron.bupd).getD i 0 + locGrad l x i) ∧
      (d = none → d' = none) ∧
      (∀ v, d = some v → ∃ v', d' = some v' ∧ v'.length = v.length ∧
        ∀ j < l.nInputs, v'.getD j 0 = v.getD j 0 +
          ∑ i ∈ range l.nOutputs, locGrad l x i * l.par.w.getD (i * l.nInputs + j) 0) := by
  have hw : l.ws.length = l.nOutputs * l.nInputs := by simpa [CLay.par] using S.wlen
  have hn : l.ns.length = l.nOutputs := by simpa [CLay.par] using S.blen
  have hdiff : ∀ s ∈ l.ns.map Neuron.state, DifferentiableAt ℝ (actSpec l.par.fn) s := by
    rw [H.state]
    intro s hs'
    obtain ⟨i, hi, rfl⟩ := List.mem_map.1 hs'
    exact hs i (List.mem_range.1 hi)
  have hga := C50_gradient_array S.fn.1 S.fn.2 (l.ns.map Neuron.state) (l.ns.map Neuron.delta)
    (by simp) hdiff
  have hfn : l.par.fn = l.fn := rfl
  rw [hfn] at hga
  generalize hgs : List.zipWith (fun s d => d * deriv (actSpec l.fn) s) (l.ns.map Neuron.state)
    (l.ns.map Neuron.delta) = gs at hga
  have hgl : gs.length = l.nOutputs := by rw [← hgs]; simp [hn]
  have hgi : ∀ i < l.nOutputs, gs.getD i 0 = locGrad l x i := by
    intro i hi
    have h1 : (l.ns.map Neuron.state)[i]? = some (clip (l.par.pre x i)) := by
      rw [H.state]
      simp [hi]
    have hi' : i < (l.ns.map Neuron.delta).length := by rw [List.length_map, hn]; exact hi
    have h2 : (l.ns.map Neuron.delta)[i]? = some ((l.ns.map Neuron.delta).getD i 0) := by
      rw [List.getElem?_eq_getElem hi']
      simp only [List.getD, List.getElem?_eq_getElem hi', Option.getD_some]
    rw [← hgs]
    unfold List.getD
    rw [List.getElem?_zipWith, h1, h2]
    simp [locGrad, CLay.deltas, List.getD]
  unfold connBackward
  rw [if_neg (by omega), hga]
  simp only [hsgd, if_true]
  have hns : (List.zipWith (fun (x : Neuron ℝ) d => { x with delta := d }) l.ns gs).map
      Neuron.bupd = l.ns.map Neuron.bupd := by
    refine map_zipWith_left _ Neuron.bupd ?_ _ _ ?_
    · exact fun _ _ => rfl
    · rw [hgl, hn]
  have hup : ∀ (f : Nat → ℝ), (List.zipWith (fun (x : Wt ℝ) u => { x with upd := u }) l.ws
      (ofArr l.ws.length f)).map Wt.upd = ofArr l.ws.length f :=
    fun f => map_zipWith_right _ _ (fun _ _ => rfl) _ _ (by rw [length_ofArr])
  have hbu : ∀ (f : Nat → ℝ), (List.zipWith (fun (x : Neuron ℝ) u => { x with bupd := u })
      (List.zipWith (fun (x : Neuron ℝ) d => { x with delta := d }) l.ns gs)
      (ofArr l.nOutputs f)).map Neuron.bupd = ofArr l.nOutputs f :=
    fun f => map_zipWith_right _ _ (fun _ _ => rfl) _ _ (by
      rw [length_ofArr, List.length_zipWith, hgl, hn, Nat.min_self])
  have hwt : ∀ (f : Nat → ℝ), (List.zipWith (fun (x : Wt ℝ) u => { x with upd := u }) l.ws
      (ofArr l.ws.length f)).map Wt.w = l.ws.map Wt.w := by
    intro f
    refine map_zipWith_left _ Wt.w ?_ _ _ ?_
    · exact fun _ _ => rfl
    · rw [length_ofArr]
  have c1 : ∀ i < l.nOutputs, ∀ j < l.nInputs,
      (ofArr l.ws.length (gemm true false l.nOutputs l.nInputs 1 1 (arrOf gs) l.nOutputs (arrOf z)
        l.nInputs 1 (arrOf (l.ws.map Wt.upd)) l.nInputs)).getD (i * l.nInputs + j) 0 =
      (l.ws.map Wt.upd).getD (i * l.nInputs + j) 0 + locGrad l x i * z.getD j 0 := by
    intro i hi j hj
    have hlt : i * l.nInputs + j < l.ws.length := by
      have := gridIdx_lt hj hi (show l.nInputs * l.nOutputs ≤ l.ws.length by
        rw [hw, Nat.mul_comm])
      rwa [Nat.mul_comm] at this
    rw [arrOf_ofArr _ hlt]
    rw [(C43_gemm true false l.nOutputs l.nInputs 1 1 (arrOf gs) l.nOutputs (arrOf z)
        l.nInputs 1 (arrOf (l.ws.map Wt.upd)) l.nInputs (Nat.le_refl _)).1 i hi j hj]
    rw [one_mul, one_mul, sum_range_one]
    simp only [opAt, Nat.zero_mul, Nat.zero_add, if_true, Bool.false_eq_true, if_false]
    unfold arrOf
    rw [hgi i hi]
  have c2 : ∀ i < l.nOutputs, (ofArr l.nOutputs (axpy l.nOutputs 1 (arrOf gs) 1
      (arrOf (l.ns.map Neuron.bupd)) 0 1)).getD i 0 =
      (l.ns.map Neuron.bupd).getD i 0 + locGrad l x i := by
    intro i hi
    rw [arrOf_ofArr _ hi]
    have := (C43_axpy l.nOutputs 1 (arrOf gs) 1 (arrOf (l.ns.map Neuron.bupd)) 0 1
      (by omega)).1 i hi
    rw [Nat.mul_one, Nat.zero_add] at this
    rw [this, one_mul]
    unfold arrOf
    rw [hgi i hi]
  cases d with
  | none =>
    refine ⟨_, _, rfl, ?_, ?_, fun _ => rfl, fun v h => by cases h⟩
    · rw [hup]; exact c1
    · rw [hbu, hns]; exact c2
  | some v =>
    have hv := hd v rfl
    dsimp only
    rw [if_neg (by omega)]
    refine ⟨_, _, rfl, ?_, ?_, (fun h => by cases h), fun u hu => ?_⟩
    · rw [hup]; exact c1
    · rw [hbu, hns]; exact c2
    · cases hu
      refine ⟨_, rfl, length_ofArr _ _, fun j hj => ?_⟩
      rw [arrOf_ofArr _ (by omega), hwt]
      have := (C43_gemm false false 1 l.nInputs l.nOutputs 1 (arrOf gs) l.nOutputs
        (arrOf (l.ws.map Wt.w)) l.nInputs 1 (arrOf v) l.nInputs (Nat.le_refl _)).1 0 (by omega) j hj
      rw [Nat.zero_mul, Nat.zero_add] at this
      rw [this, one_mul, one_mul]
      unfold arrOf
      congr 1
      refine sum_congr rfl fun i hi => ?_
      simp only [opAt, Bool.false_eq_true, if_false, Nat.zero_mul, Nat.zero_add]
      rw [hgi i (mem_range.1 hi)]
      rfl

/-- What the backward pass of a layer does. -/
theorem connBackward_spec {l : CLay ℝ} (S : l.par.Shaped) {x : List ℝ} (hx : l.nInputs = x.length)
    (hs : ∀ i < l.nOutputs, DifferentiableAt ℝ (actSpec l.fn) (clip (l.par.pre x i)))
    (H : HoldsSt l x) (hsgd : l.opt.sgd = true) (d : Option (List ℝ))
    (hd : ∀ v, d = some v → v.length = l.nInputs) :
    ∃ l' d', connBackward realLibm l x d = .ok (l', d') ∧
      (∀ i < l.nOutputs, ∀ j < l.nInputs, (l'.ws.map Wt.upd).getD (i * l.nInputs + j) 0 =
        (l.ws.map Wt.upd).getD (i * l.nInputs + j) 0 + locGrad l x i * x.getD j 0) ∧
      (∀ i < l.nOutputs, (l'.ns.map Neuron.bupd).getD i 0 =
        (l.ns.map Neuron.bupd).getD i 0 + locGrad l x i) ∧
      (d = none → d' = none) ∧
      (∀ v, d = some v → ∃ v', d' = some v' ∧ v'.length = v.length ∧
        ∀ j < l.nInputs, v'.getD j 0 = v.getD j 0 +
          ∑ i ∈ range l.nOutputs, locGrad l x i * l.par.w.getD (i * l.nInputs + j) 0) :=
  connBackward_read S hx hs H hsgd d hd


/-! ## Networks -/

/-- The outputs of a network whose layers are listed from the last one. -/
noncomputable def revFn (ps : List Par) (x : List ℝ) : List ℝ := ps.foldr (fun p x => p.out x) x

/-- Layers listed from the last one hold the states of input `x` and have learning switched on. -/
def HoldsRev : List (CLay ℝ) → List ℝ → Prop
  | [], _ => True
  | l :: ls, x => l.par.Shaped ∧ l.nInputs = (revFn (ls.map CLay.par) x).length ∧
      l.par.Smooth (revFn (ls.map CLay.par) x) ∧ HoldsSt l (revFn (ls.map CLay.par) x) ∧
      l.opt.sgd = true ∧ HoldsRev ls x

theorem withDelta_facts {l : CLay ℝ} {d : List ℝ} (h : d.length = l.ns.length) :
    (l.withDelta d).par = l.par ∧ (l.withDelta d).deltas = d ∧ (l.withDelta d).outs = l.outs ∧
    (l.withDelta d).ns.map Neuron.bupd = l.ns.map Neuron.bupd ∧
    (l.withDelta d).ns.map Neuron.state = l.ns.map Neuron.state ∧
    (l.withDelta d).ns.length = l.ns.length := by
  have hp : ∀ p : Neuron ℝ → ℝ, (∀ (n : Neuron ℝ) v, p { n with delta := v } = p n) →
      (l.withDelta d).ns.map p = l.ns.map p := by
    intro p hp
    refine map_zipWith_left _ p ?_ _ _ ?_
    · exact hp
    · exact h.ge
  refine ⟨?_, ?_, hp Neuron.out (fun _ _ => rfl), hp Neuron.bupd (fun _ _ => rfl),
    hp Neuron.state (fun _ _ => rfl), by simp [CLay.withDelta, h]⟩
  · exact congrArg (fun b => (⟨l.nInputs, l.nOutputs, l.fn, l.ws.map Wt.w, b⟩ : Par))
      (hp Neuron.bias (fun _ _ => rfl))
  · exact map_zipWith_right _ Neuron.delta (fun _ _ => rfl) _ _ h.le

theorem holds_withDelta {l : CLay ℝ} {d x : List ℝ} (h : d.length = l.ns.length) (H : HoldsSt l x) :
    HoldsSt (l.withDelta d) x := by
  obtain ⟨e1, e2, e3, e4, e5, e6⟩ := withDelta_facts h
  refine ⟨?_, ?_⟩
  · rw [e5, e1]; exact H.state
  · rw [e3, e1]; exact H.out

theorem updates_layer {C : List ℝ → ℝ} {l l' : CLay ℝ} {x : List ℝ} (S : l.par.Shaped)
    (hs : l.par.Smooth x) (hg : IsGrad C (l.par.out x) l.deltas)
    (h1 : ∀ i < l.nOutputs, ∀ j < l.nInputs, (l'.ws.map Wt.upd).getD (i * l.nInputs + j) 0 =
        (l.ws.map Wt.upd).getD (i * l.nInputs + j) 0 + locGrad l x i * x.getD j 0)
    (h2 : ∀ i < l.nOutputs, (l'.ns.map Neuron.bupd).getD i 0 =
        (l.ns.map Neuron.bupd).getD i 0 + locGrad l x i) :
    UpdatesAre l l' (fun p => C (p.out x)) := by
  constructor
  · intro i hi j hj
    rw [h1 i hi j hj, add_sub_cancel_left, locGrad_smooth hs hi]
    exact grad_param (p := l.par) hs hg
      (fun v => { l.par with w := l.par.w.set (i * l.nInputs + j) v })
      (l.par.w.getD (i * l.nInputs + j) 0) (x.getD j 0) hi (fun _ => rfl) (fun _ => rfl)
      (fun u k => pre_setW S x hi hj u k)
  · intro i hi
    rw [h2 i hi, add_sub_cancel_left, locGrad_smooth hs hi]
    have := grad_param (p := l.par) hs hg
      (fun v => { l.par with b := l.par.b.set i v })
      (l.par.b.getD i 0) 1 hi (fun _ => rfl) (fun _ => rfl)
      (fun u k => by rw [pre_setB S x hi u k, mul_one])
    rw [mul_one] at this
    exact this

/-- The backward phase: by induction over the layers below. -/
theorem backGo_spec (x : List ℝ) : ∀ (rest : List (CLay ℝ)) (l : CLay ℝ) (C : List ℝ → ℝ),
    HoldsRev (l :: rest) x → IsGrad C l.outs l.deltas →
    (∀ p ∈ rest, p.deltas = List.replicate p.ns.length 0) →
    ∃ ls', backGo realLibm x l rest = .ok ls' ∧ ls'.length = rest.length + 1 ∧
      ∀ (k : Nat) (a b : CLay ℝ), (l :: rest)[k]? = some a → ls'[k]? = some b →
        UpdatesAre a b (fun q => C (revFn (((l :: rest).map CLay.par).set k q) x))
  | [], l, C, H, hg, _ => by
    obtain ⟨S, hx, hs, hh, hsgd, _⟩ := H
    obtain ⟨l', d', e, h1, h2, h3, _⟩ := connBackward_spec S hx (smooth_clip hs) hh hsgd none
      (fun v h => by cases h)
    have hup := updates_layer S hs (by rw [← hh.out]; exact hg) h1 h2
    have e2 := h3 rfl
    subst e2
    change connBackward realLibm l x none = _ at e
    refine ⟨[l'], by simp only [backGo, e], rfl, ?_⟩
    intro k a b ha hb
    match k with
    | 0 =>
      cases ha
      cases hb
      exact hup
    | k + 1 => simp at ha
  | p :: rest, l, C, H, hg, hz => by
    obtain ⟨S, hx, hs, hh, hsgd, Hr⟩ := H
    obtain ⟨Sp, hxp, hsp, hhp, hsgdp, Hrr⟩ := Hr
    have hpo : revFn ((p :: rest).map CLay.par) x = p.outs := by
      rw [hhp.out]; rfl
    rw [hpo] at hx hs hh
    have hpl : p.outs.length = p.ns.length := by simp [CLay.outs]
    have hdz := hz p List.mem_cons_self
    obtain ⟨l', d', e, h1, h2, _, h4⟩ := connBackward_spec S hx (smooth_clip hs) hh hsgd (some p.deltas)
      (fun v h => by cases h; rw [hx, hpl, CLay.deltas, List.length_map])
    have hup := updates_layer S hs (by rw [← hh.out]; exact hg) h1 h2
    obtain ⟨v', rfl, hv1, hv2⟩ := h4 _ rfl
    have hvl : v'.length = p.ns.length := by rw [hv1, CLay.deltas, List.length_map]
    obtain ⟨f1, f2, f3, f4, f5, f6⟩ := withDelta_facts hvl
    -- the error passed back is the gradient with respect to the outputs of the layer before
    have hg' : IsGrad (fun y => C (l.par.out y)) (p.withDelta v').outs (p.withDelta v').deltas := by
      rw [f3, f2]
      refine isGrad_layer hx hs (by rw [← hh.out]; exact hg) fun j hj => ?_
      rw [hv2 j hj, hdz]
      have : (List.replicate p.ns.length (0 : ℝ)).getD j 0 = 0 := by
        rw [List.getD, List.getElem?_replicate]; split <;> rfl
      rw [this, zero_add]
      refine sum_congr rfl fun i hi => ?_
      rw [locGrad_smooth hs (mem_range.1 hi)]
      rfl
    have Hw : HoldsRev (p.withDelta v' :: rest) x :=
      ⟨by rw [f1]; exact Sp, hxp, by rw [f1]; exact hsp, holds_withDelta hvl hhp, hsgdp, Hrr⟩
    obtain ⟨ls', e', hlen, hall⟩ := backGo_spec x rest (p.withDelta v') (fun y => C (l.par.out y))
      Hw hg' (fun q hq => hz q (List.mem_cons_of_mem _ hq))
    refine ⟨l' :: ls', by simp only [backGo, e, e'], by simp [hlen], ?_⟩
    intro k a b ha hb
    match k with
    | 0 =>
      cases ha
      cases hb
      rw [← hpo] at hup
      exact hup
    | 1 =>
      cases ha
      have := hall 0 (p.withDelta v') b rfl hb
      unfold UpdatesAre at this
      rw [f1, f4] at this
      exact this
    | k + 2 =>
      have := hall (k + 1) a b ha hb
      simp only [List.map_cons, f1] at this
      exact this

theorem netFn_rev (ps : List Par) (x : List ℝ) : netFn ps x = revFn ps.reverse x := by
  unfold netFn revFn
  rw [List.foldr_reverse]

/-- Forward propagation makes every layer hold its states. -/
theorem netForward_spec : ∀ (ls : List (CLay ℝ)) (x : List ℝ), NetSmooth (ls.map CLay.par) x →
    (∀ l ∈ ls, l.opt.sgd = true) →
    ∃ ls', netForward realLibm ls x = .ok ls' ∧ ls'.map CLay.par = ls.map CLay.par ∧
      ls'.map CLay.ws = ls.map CLay.ws ∧
      ls'.map (fun l => l.ns.map Neuron.bupd) = ls.map (fun l => l.ns.map Neuron.bupd) ∧
      ∀ (below : List (CLay ℝ)) (x0 : List ℝ), revFn (below.map CLay.par) x0 = x →
        HoldsRev below x0 → HoldsRev (ls'.reverse ++ below) x0
  | [], x, _, _ => ⟨[], rfl, rfl, rfl, rfl, fun below x0 _ h => by simpa using h⟩
  | l :: ls, x, ⟨S, hx, hs, hn⟩, hsgd => by
    obtain ⟨l', e, hp, hw, ho, hb, H⟩ := connForward_holds S (x := x) (by
      have : l.par.nIn = l.nInputs := rfl
      omega)
    obtain ⟨ls', e', hp', hw', hb', hH⟩ := netForward_spec ls (l.par.out x) hn
      (fun a h => hsgd a (List.mem_cons_of_mem _ h))
    have hout : l'.outs = l.par.out x := by rw [H.out, hp]
    refine ⟨l' :: ls', by simp only [netForward, e, hout, e'], by simp [hp, hp'], by simp [hw, hw'],
      by simp [hb, hb'], ?_⟩
    intro below x0 hrev hb0
    rw [List.reverse_cons, List.append_assoc]
    refine hH ([l'] ++ below) x0 ?_ ?_
    · show Par.out l'.par (revFn (below.map CLay.par) x0) = _
      rw [hrev, hp]
    · change HoldsRev (l' :: below) x0
      unfold HoldsRev
      refine ⟨by rw [hp]; exact S, ?_, ?_, ?_, ?_, hb0⟩
      · rw [hrev]
        have h2 : l'.nInputs = l.nInputs := congrArg Par.nIn hp
        rw [h2]; exact hx
      · rw [hrev, hp]; exact hs
      · rw [hrev]; exact H
      · rw [ho]; exact hsgd l List.mem_cons_self

theorem set_reverse {α : Type} (l : List α) (k : Nat) (a : α) (h : k < l.length) :
    (l.set k a).reverse = l.reverse.set (l.length - 1 - k) a := by
  refine List.ext_getElem? fun i => ?_
  by_cases hi : i < l.length
  · rw [List.getElem?_reverse (by simpa using hi), List.length_set, List.getElem?_set,
      List.getElem?_set, List.getElem?_reverse hi, List.length_reverse]
    by_cases e : k = l.length - 1 - i
    · rw [if_pos e, if_pos h, if_pos (by omega), if_pos (by omega)]
    · rw [if_neg e, if_neg (by omega)]
  · rw [List.getElem?_eq_none (by simpa using hi), List.getElem?_eq_none (by simpa using hi)]

theorem holdsRev_zero : ∀ (ls : List (CLay ℝ)) (x : List ℝ), HoldsRev ls x →
    HoldsRev (ls.map fun l => l.withDelta (List.replicate l.ns.length 0)) x ∧
    (ls.map fun l => l.withDelta (List.replicate l.ns.length 0)).map CLay.par = ls.map CLay.par
  | [], _, _ => ⟨trivial, rfl⟩
  | l :: ls, x, ⟨S, hx, hs, hh, hsgd, Hr⟩ => by
    obtain ⟨i1, i2⟩ := holdsRev_zero ls x Hr
    obtain ⟨f1, f2, f3, f4, f5, f6⟩ := withDelta_facts
      (l := l) (d := List.replicate l.ns.length 0) (by simp)
    refine ⟨⟨by rw [f1]; exact S, ?_, ?_, ?_, hsgd, i1⟩, ?_⟩
    · rw [i2]; exact hx
    · rw [i2, f1]; exact hs
    · rw [i2]; exact holds_withDelta (by simp) hh
    · rw [List.map_cons, List.map_cons, List.map_cons, i2, f1]

theorem netBackward_ok {m : Libm ℝ} {ls : List (CLay ℝ)} {t x : List ℝ} {h h' : CLay ℝ}
    {rest ls' : List (CLay ℝ)}
    (e : (ls.reverse.map fun l => l.withDelta (List.replicate l.ns.length 0)) = h :: rest)
    (e1 : headDelta h t = .ok h') (e2 : backGo m x h' rest = .ok ls') :
    netBackward m ls t x = .ok ls'.reverse := by
  unfold netBackward
  rw [← List.map_reverse, e]
  simp only [e1, e2]

end Xcsf
