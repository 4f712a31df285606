import Verif.NGradGenSpec
import Verif.NGradLemmas

/-!
# Lemmas for property C92: from layers to networks
-/

set_option linter.unusedSectionVars false

namespace Xcsf
open Finset Filter
variable {R : Type}

/-- `d` is the gradient of `C` at `o`: along every curve through `o`, near `o` of lists as long as
`o`, the derivative of `C` is the inner product. -/
def IsGradL (C : List ℝ → ℝ) (o d : List ℝ) : Prop :=
  ∀ (c : ℝ → List ℝ) (v : ℝ) (c' : Nat → ℝ), c v = o →
    (∀ᶠ u in nhds v, (c u).length = o.length) →
    (∀ i < o.length, HasDerivAt (fun u => (c u).getD i 0) (c' i) v) →
    HasDerivAt (fun u => C (c u)) (∑ i ∈ range o.length, d.getD i 0 * c' i) v

theorem isGradL_error (t o : List ℝ) (h : t.length = o.length) :
    IsGradL (halfError t) o (List.zipWith (fun t o => t - o) t o) := by
  intro c v c' hc _ hd
  have h1 : HasDerivAt (fun u => ∑ i ∈ range t.length, (t.getD i 0 - (c u).getD i 0) ^ 2)
      (∑ i ∈ range t.length, 2 * (t.getD i 0 - (c v).getD i 0) * (0 - c' i)) v := by
    refine HasDerivAt.fun_sum fun i hi => ?_
    have hi : i < o.length := by rw [← h]; exact mem_range.1 hi
    have := (((hasDerivAt_const v (t.getD i 0)).sub (hd i hi)).pow 2)
    refine this.congr_deriv ?_
    simp
  refine (h1.const_mul (-(1 / 2))).congr_deriv ?_
  rw [mul_sum, ← h]
  refine sum_congr rfl fun i hi => ?_
  have hi : i < t.length := mem_range.1 hi
  have e : (List.zipWith (fun t o => t - o) t o).getD i 0 = t.getD i 0 - o.getD i 0 := by
    have hi' : i < o.length := by omega
    simp [List.getD, hi, hi']
  rw [e, hc]
  ring

/-- The layer computes outputs for this input, and leaves the random numbers in state `r1`. -/
def Runs (g : Rng ℝ R) (lo : ℝ) (a : GLay ℝ) (y : List ℝ) (r r1 : R) : Prop :=
  ∃ l o, layerForward g realLibm lo true a y r = .ok (l, r1) ∧ l.outs = .ok o

theorem Runs.out {g : Rng ℝ R} {lo : ℝ} {a : GLay ℝ} {y : List ℝ} {r r1 : R}
    (h : Runs g lo a y r r1) : (layOut g lo a y r).2 = r1 := by
  obtain ⟨l, o, e, e1⟩ := h
  unfold layOut
  rw [e]
  dsimp only
  rw [e1]

theorem layOut_eq {g : Rng ℝ R} {lo : ℝ} {a l : GLay ℝ} {y o : List ℝ} {r r1 : R}
    (e : layerForward g realLibm lo true a y r = .ok (l, r1)) (e1 : l.outs = .ok o) :
    layOut g lo a y r = (o, r1) := by
  unfold layOut
  rw [e]
  dsimp only
  rw [e1]

/-- What a layer `a` has to satisfy at input `y`: its forward pass gives `l` with outputs `o`, its
backward pass computes gradients. -/
structure GoodLay (g : Rng ℝ R) (lo : ℝ) (a : GLay ℝ) (y : List ℝ) (r : R) (l : GLay ℝ)
    (o : List ℝ) (r1 : R) : Prop where
  fwd : layerForward g realLibm lo true a y r = .ok (l, r1)
  outs : l.outs = .ok o
  n : l.dim.n = o.length
  dl : l.deltas.length = o.length
  wd : ∀ d : List ℝ, d.length = o.length → (l.withDelta d).outs = .ok o ∧
    (l.withDelta d).deltas = d ∧ (l.withDelta d).dim.n = l.dim.n ∧
    ∀ e : List ℝ, e.length = o.length → (l.withDelta d).withDelta e = l.withDelta e
  near : ∀ (c : ℝ → List ℝ) (v : ℝ) (c' : Nat → ℝ), c v = y →
    (∀ᶠ u in nhds v, (c u).length = y.length) →
    (∀ i < y.length, HasDerivAt (fun u => (c u).getD i 0) (c' i) v) →
    ∀ᶠ u in nhds v, Runs g lo a (c u) r r1
  nearP : ∀ k c, a.part? k = some c → ∀ p : Prm, p.Of c →
    ∀ v, Runs g lo (a.onPart (p.put v c) k) y r r1
  back : ∀ d : List ℝ, d.length = o.length → ∀ C : List ℝ → ℝ, IsGradL C o d →
    (∃ l2, layerBackward realLibm (l.withDelta d) y none = .ok (l2, none) ∧
      Climbs a l2 (fun b => C (layOut g lo b y r).1)) ∧
    ∃ l2 e, layerBackward realLibm (l.withDelta d) y (some (List.replicate y.length 0)) =
        .ok (l2, some e) ∧ e.length = y.length ∧
      Climbs a l2 (fun b => C (layOut g lo b y r).1) ∧
      IsGradL (fun z => C (layOut g lo a z r).1) y e

/-- The layers, listed from the last one, before and after the forward pass of input `x`. -/
inductive Stack (g : Rng ℝ R) (lo : ℝ) (x : List ℝ) (r0 : R) :
    List (GLay ℝ × GLay ℝ) → List ℝ → R → Prop
  | nil : Stack g lo x r0 [] x r0
  | cons {st : List (GLay ℝ × GLay ℝ)} {y o : List ℝ} {r r1 : R} {a l : GLay ℝ} :
    Stack g lo x r0 st y r → GoodLay g lo a y r l o r1 → Stack g lo x r0 ((a, l) :: st) o r1

theorem netOut_cons {g : Rng ℝ R} {lo : ℝ} {a l : GLay ℝ} {y o : List ℝ} {r r1 : R}
    (e : layerForward g realLibm lo true a y r = .ok (l, r1)) (e1 : l.outs = .ok o)
    (ls : List (GLay ℝ)) : netOut g lo (a :: ls) y r = netOut g lo ls o r1 := by
  unfold netOut
  rw [genForward, e]
  dsimp only
  rw [e1]
  dsimp only
  cases e2 : genForward g realLibm lo true ls o r1 with
  | error f => rfl
  | ok z =>
    obtain ⟨ls', r2⟩ := z
    dsimp only
    cases ls' with
    | nil => simp [e1]
    | cons b bs =>
      obtain ⟨z, hz⟩ : ∃ z, (b :: bs).getLast? = some z :=
        ⟨_, List.getLast?_eq_some_getLast (List.cons_ne_nil b bs)⟩
      rw [List.getLast?_cons_cons, hz]

theorem netOut_run {g : Rng ℝ R} {lo : ℝ} {a : GLay ℝ} {y : List ℝ} {r r1 : R}
    (h : Runs g lo a y r r1) (ls : List (GLay ℝ)) :
    netOut g lo (a :: ls) y r = netOut g lo ls (layOut g lo a y r).1 r1 := by
  obtain ⟨l, o, e, e1⟩ := h
  rw [netOut_cons e e1, layOut_eq e e1]

/-- The layers below come first in the network. -/
theorem netOut_stack {g : Rng ℝ R} {lo : ℝ} {x : List ℝ} {r0 : R} :
    ∀ {st : List (GLay ℝ × GLay ℝ)} {y : List ℝ} {r : R}, Stack g lo x r0 st y r →
    ∀ ls : List (GLay ℝ), netOut g lo ((st.map Prod.fst).reverse ++ ls) x r0 = netOut g lo ls y r
  | [], _, _, h, ls => by cases h; rfl
  | (a, l) :: st, _, _, h, ls => by
    cases h with
    | cons h H =>
      rw [List.map_cons, List.reverse_cons, List.append_assoc, netOut_stack h]
      exact netOut_cons H.fwd H.outs ls

theorem climbs_congr {a b : GLay ℝ} {F G : GLay ℝ → ℝ} (h : Climbs a b F)
    (e : ∀ k c, a.part? k = some c → ∀ p : Prm, p.Of c → ∀ v,
      G (a.onPart (p.put v c) k) = F (a.onPart (p.put v c) k)) : Climbs a b G := by
  intro k c hc
  obtain ⟨c', h1, h2⟩ := h k c hc
  refine ⟨c', h1, fun p hp hk => ?_⟩
  have : (fun v => G (a.onPart (p.put v c) k)) = fun v => F (a.onPart (p.put v c) k) :=
    funext fun v => e k c hc p hp v
  rw [this]
  exact h2 p hp hk

/-- The backward phase: by induction over the layers below; `suf` are the layers above. -/
theorem genBackGo_spec {g : Rng ℝ R} {lo : ℝ} {x : List ℝ} {r0 : R} (E : List ℝ → ℝ) :
    ∀ (st : List (GLay ℝ × GLay ℝ)) (a l : GLay ℝ) (o : List ℝ) (r1 : R) (suf : List (GLay ℝ))
      (d : List ℝ), Stack g lo x r0 ((a, l) :: st) o r1 → d.length = o.length →
    IsGradL (fun z => E (netOut g lo suf z r1)) o d →
    ∃ ls', genBackGo realLibm x (l.withDelta d)
        (st.map fun q => q.2.withDelta (List.replicate q.2.deltas.length 0)) = .ok ls' ∧
      ls'.length = st.length + 1 ∧
      ∀ (k : Nat) (p : GLay ℝ × GLay ℝ) (b : GLay ℝ), ((a, l) :: st)[k]? = some p →
        ls'[k]? = some b →
        Climbs p.1 b (fun q => E (netOut g lo
          (((st.drop k).map Prod.fst).reverse ++ q :: ((((a, l) :: st).take k).map Prod.fst).reverse
            ++ suf) x r0))
  | [], a, l, o, r1, suf, d, H, hd, hg => by
    cases H with
    | cons h G =>
      cases h
      obtain ⟨⟨l2, e, hc⟩, _⟩ := G.back d hd _ hg
      refine ⟨[l2], by simp only [List.map_nil, genBackGo, e], rfl, ?_⟩
      intro k p b hp hb
      match k with
      | 0 =>
        cases hp
        cases hb
        refine climbs_congr hc fun m c hc p hp v => ?_
        exact congrArg E (netOut_run (G.nearP m c hc p hp v) suf)
      | k + 1 => simp at hp
  | (a1, l1) :: st, a, l, o, r1, suf, d, H, hd, hg => by
    cases H with
    | cons h G =>
      rename_i y r
      have h0 := h
      cases h with
      | cons hh G1 =>
        obtain ⟨_, l2, e, e1, e2, hc, hgr⟩ := G.back d hd _ hg
        have hz : (List.replicate l1.deltas.length (0 : ℝ)).length = y.length := by
          rw [List.length_replicate, G1.dl]
        obtain ⟨w1, w2, w3, w4⟩ := G1.wd _ hz
        have hgr' : IsGradL (fun z => E (netOut g lo (a :: suf) z r)) y e := by
          intro c v c' hcv hcl hcd
          refine (hgr c v c' hcv hcl hcd).congr_of_eventuallyEq ?_
          filter_upwards [G.near c v c' hcv hcl hcd] with u hu
          exact congrArg E (netOut_run hu suf)
        obtain ⟨ls', e', hlen, hall⟩ := genBackGo_spec E st a1 l1 y r (a :: suf) e h0 e2 hgr'
        refine ⟨l2 :: ls', ?_, by simp [hlen], ?_⟩
        · rw [List.map_cons, genBackGo, w1]
          dsimp only
          rw [w2, G1.dl, e1]
          dsimp only
          rw [G1.dl] at w4
          rw [w4 e e2, e']
        · intro k p b hp hb
          match k with
          | 0 =>
            cases hp
            cases hb
            refine climbs_congr hc fun m c hc p hp v => ?_
            have := netOut_stack h0 (a.onPart (p.put v c) m :: suf)
            rw [show ((List.drop 0 ((a1, l1) :: st)).map Prod.fst).reverse ++
              a.onPart (p.put v c) m :: ((((a, l) :: (a1, l1) :: st).take 0).map Prod.fst).reverse
              ++ suf = (((a1, l1) :: st).map Prod.fst).reverse ++ a.onPart (p.put v c) m :: suf by simp,
              this]
            exact congrArg E (netOut_run (G.nearP m c hc p hp v) suf)
          | k + 1 =>
            have := hall k p b hp hb
            simp only [List.take_succ_cons, List.map_cons, List.reverse_cons, List.append_assoc,
              List.drop_succ_cons, List.cons_append, List.nil_append] at this ⊢
            exact this

theorem resetAll_map : ∀ (ls : List (GLay ℝ)), (∀ l ∈ ls, l.dim.n = l.deltas.length) →
    resetAll ls = .ok (ls.map fun l => l.withDelta (List.replicate l.deltas.length 0))
  | [], _ => rfl
  | l :: ls, h => by
    have hl := h l List.mem_cons_self
    have e : l.reset = .ok (l.withDelta (List.replicate l.deltas.length 0)) := by
      unfold GLay.reset
      rw [if_neg (by omega), hl, Int.toNat_natCast, List.drop_length, List.append_nil]
    rw [resetAll, e]
    dsimp only
    rw [resetAll_map ls fun a ha => h a (List.mem_cons_of_mem _ ha)]
    rfl

/-- The forward pass puts the layers on the stack. -/
theorem genForward_stack {g : Rng ℝ R} {lo : ℝ} {x : List ℝ} {r0 : R} :
    ∀ (ls : List (GLay ℝ)) (st : List (GLay ℝ × GLay ℝ)) (y : List ℝ) (r : R),
    Stack g lo x r0 st y r →
    (∀ (a : GLay ℝ) (y : List ℝ) (r : R), a.Diff lo y →
      ∃ l o r1, GoodLay g lo a y r l o r1) →
    NetDiff g lo ls y r →
    ∃ st' o r1 ls', genForward g realLibm lo true ls y r = .ok (ls', r1) ∧
      Stack g lo x r0 (st' ++ st) o r1 ∧ (st'.map Prod.fst).reverse = ls ∧
      (st'.map Prod.snd).reverse = ls'
  | [], st, y, r, h, _, _ => ⟨[], y, r, [], rfl, h, rfl, rfl⟩
  | a :: ls, st, y, r, h, hG, ⟨hd, hn⟩ => by
    obtain ⟨l, o, r1, G⟩ := hG a y r hd
    rw [layOut_eq G.fwd G.outs] at hn
    obtain ⟨st', o', r', ls', e, S, h1, h2⟩ := genForward_stack ls ((a, l) :: st) o r1
      (.cons h G) hG hn
    refine ⟨st' ++ [(a, l)], o', r', l :: ls', ?_, by simpa using S, by simp [h1], by simp [h2]⟩
    rw [genForward, G.fwd]
    dsimp only
    rw [G.outs]
    dsimp only
    rw [e]

theorem stack_mem {g : Rng ℝ R} {lo : ℝ} {x : List ℝ} {r0 : R} :
    ∀ {st : List (GLay ℝ × GLay ℝ)} {y : List ℝ} {r : R}, Stack g lo x r0 st y r →
    ∀ q ∈ st, q.2.dim.n = q.2.deltas.length
  | [], _, _, _, q, hq => by cases hq
  | (a, l) :: st, _, _, h, q, hq => by
    cases h with
    | cons h G =>
      rcases List.mem_cons.1 hq with rfl | hq
      · rw [G.n, G.dl]
      · exact stack_mem h q hq

end Xcsf
