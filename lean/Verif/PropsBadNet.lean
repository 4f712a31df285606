import Verif.BadNet
import Verif.PropsBadNeural
import Verif.PropsBadReward

/-!
# C111, continued: neural conditions, neural actions and missing values

A neural condition matches no input with a missing value, whatever its weights, and covering such an
input does not return. A neural action is then always the first one, and covering another does not
return.
-/

set_option linter.unusedSectionVars false

namespace Xcsf.Double

variable {f : Format} {R : Type}

/-! ## Specification -/

/-- The layers fit together, starting with `n` inputs, and none is empty. -/
def Shaped : Nat → List (DLay f) → Prop
  | _, [] => True
  | n, .conn ns _ :: net => ns ≠ [] ∧ (∀ u ∈ ns, u.ws.length = n) ∧ Shaped ns.length net
  | n, .soft _ :: net => 0 < n ∧ Shaped n net

/-- The number of outputs, for `n` inputs. -/
def width : Nat → List (DLay f) → Nat
  | n, [] => n
  | _, .conn ns _ :: net => width ns.length net
  | n, .soft _ :: net => width n net

/-- The functions of the library return not-a-number for not-a-number. -/
structure DLibm.Honest (m : DLibm f) : Prop where
  exp : m.exp .nan = .nan
  expm1 : m.expm1 .nan = .nan
  log1p : m.log1p .nan = .nan
  tanh : m.tanh .nan = .nan
  sin : m.sin .nan = .nan
  cos : m.cos .nan = .nan

/-! ## Proofs -/

/-- No activation function hides that its argument is not a number. -/
theorem C111_activation_nan {m : DLibm f} (H : m.Honest) (a : Nat) : activateD m a .nan = .nan := by
  have hm : (.nan : Dbl f).minus = .nan := rfl
  have hd : ∀ a : Dbl f, a / .nan = .nan := by
    intro a
    cases a <;> rfl
  unfold activateD
  split
  · rw [hm, H.exp, add_nan, hd]
  · rw [nan_mul]
  · exact H.tanh
  · rfl
  · rw [hm, nan_mul, H.exp]
  · exact H.sin
  · exact H.cos
  · rw [H.exp, H.log1p]
  · rw [if_neg (show ¬ (0 : Dbl f) < .nan from id), mul_nan]
  · rw [mul_nan, nan_add]
  · rw [hm, H.exp, add_nan, hd, nan_sub]

theorem zip_hit : ∀ {ws : List (DWt f)} {x : List (Dbl f)} (s : Dbl f), ws.length = x.length →
    Dbl.nan ∈ x → (List.zip ws x).foldl (fun s p => s + p.2 * p.1.w) s = .nan := by
  have stay : ∀ (l : List (DWt f × Dbl f)), l.foldl (fun s p => s + p.2 * p.1.w) .nan = .nan := by
    intro l
    induction l with
    | nil => rfl
    | cons p l ih => rw [List.foldl_cons, nan_add]; exact ih
  intro ws
  induction ws with
  | nil =>
    intro x s hl hx
    cases x with
    | nil => cases hx
    | cons v x => cases hl
  | cons p ws ih =>
    intro x s hl hx
    cases x with
    | nil => cases hx
    | cons v x =>
      rw [List.zip_cons_cons, List.foldl_cons]
      rcases List.mem_cons.1 hx with e | hx
      · rw [← e]
        show (List.zip ws x).foldl _ (s + .nan * p.w) = _
        rw [nan_mul, add_nan]
        exact stay _
      · exact ih _ (by simpa using hl) hx

theorem state_nan {n : DNeuron f} {x : List (Dbl f)} (hl : n.ws.length = x.length) (hx : Dbl.nan ∈ x) :
    n.state x = .nan := by
  unfold DNeuron.state
  rw [zip_hit _ hl hx, add_nan, clampD_nan]

theorem softExps_length (m : DLibm f) (scale : Dbl f) (x : List (Dbl f)) :
    (softExps m scale x).length = x.length := by
  unfold softExps
  exact List.length_map _

theorem sum_hit : ∀ (l : List (Dbl f)) (s : Dbl f), Dbl.nan ∈ l ∨ s = .nan → l.foldl (· + ·) s = .nan
  | [], _, h => by
    rcases h with h | h
    · cases h
    · exact h
  | v :: l, s, h => by
    rw [List.foldl_cons]
    rcases h with h | rfl
    · rcases List.mem_cons.1 h with e | h
      · exact sum_hit l _ (.inr (by rw [← e, add_nan]))
      · exact sum_hit l _ (.inl h)
    · exact sum_hit l _ (.inr (nan_add v))

theorem forward_nan {m : DLibm f} (H : m.Honest) {l : DLay f} {net : List (DLay f)} {x : List (Dbl f)}
    (hs : Shaped x.length (l :: net)) (hx : Dbl.nan ∈ x) :
    Shaped (l.forward m x).length net ∧ l.forward m x ≠ [] ∧ ∀ v ∈ l.forward m x, v = Dbl.nan := by
  have hd : ∀ a : Dbl f, a / .nan = .nan := by
    intro a
    cases a <;> rfl
  cases l with
  | conn ns fn =>
    obtain ⟨h1, h2, h3⟩ := hs
    refine ⟨by simpa [DLay.forward] using h3, by simpa [DLay.forward] using h1, ?_⟩
    intro v hv
    obtain ⟨n, hn, rfl⟩ := List.mem_map.1 hv
    rw [state_nan (h2 n hn) hx]
    exact C111_activation_nan H _
  | soft scale =>
    obtain ⟨h1, h3⟩ := hs
    have hl : (DLay.forward m x (.soft scale)).length = x.length := by
      unfold DLay.forward
      rw [List.length_map, softExps_length]
    refine ⟨by rw [hl]; exact h3, fun e => ?_, ?_⟩
    · rw [e] at hl
      rw [← hl] at h1
      exact absurd h1 (Nat.lt_irrefl 0)
    · intro v hv
      obtain ⟨e, -, rfl⟩ := List.mem_map.1 hv
      have : (softExps m scale x).foldl (· + ·) 0 = .nan := by
        refine sum_hit _ _ (.inl ?_)
        unfold softExps
        refine List.mem_map.2 ⟨.nan, hx, ?_⟩
        rw [nan_div, nan_sub, H.exp]
      rw [this, hd]

theorem propagate_nan {m : DLibm f} (H : m.Honest) : ∀ (net : List (DLay f)) {x : List (Dbl f)},
    Shaped x.length net → Dbl.nan ∈ x → net ≠ [] →
    propagateD m net x ≠ [] ∧ ∀ v ∈ propagateD m net x, v = Dbl.nan
  | [], _, _, _, h => absurd rfl h
  | l :: net, x, hs, hx, _ => by
    obtain ⟨h1, h2, h3⟩ := forward_nan H hs hx
    show propagateD m net (l.forward m x) ≠ [] ∧ _
    cases net with
    | nil => exact ⟨h2, h3⟩
    | cons l' net =>
      refine propagate_nan H (l' :: net) h1 ?_ nofun
      obtain ⟨v, hv⟩ := List.exists_mem_of_ne_nil _ h2
      rw [← h3 v hv]
      exact hv

/-- **C111** (refuted), neural conditions: no network matches an input with a missing value, wherever it
is and whatever the weights are; connections that are switched off make no difference. -/
theorem C111_neural_never {m : DLibm f} (H : m.Honest) {net : List (DLay f)} (hn : net ≠ [])
    {x : List (Dbl f)} (hs : Shaped x.length net) (hx : Dbl.nan ∈ x) : netMatchD m net x = false := by
  unfold netMatchD
  obtain ⟨h1, h2⟩ := propagate_nan H net hs hx hn
  have e : (propagateD m net x).getD 0 0 = .nan := by
    cases hp : propagateD m net x with
    | nil => exact absurd hp h1
    | cons v l =>
      rw [hp] at h2
      exact h2 v List.mem_cons_self
  rw [e]
  exact decide_eq_false (by cases (Xcsf.half : Dbl f) <;> exact id)

theorem randWts_length (draw : R → Dbl f × R) : ∀ (l : List (DWt f)) (r : R),
    (randWts draw l r).1.length = l.length
  | [], _ => rfl
  | _ :: l, _ => congrArg (· + 1) (randWts_length draw l _)

theorem randRows_shape (draw : R → Dbl f × R) {k : Nat} : ∀ (l : List (DNeuron f)) (r : R),
    (∀ u ∈ l, u.ws.length = k) → (randRows draw l r).1.length = l.length ∧
      ∀ u ∈ (randRows draw l r).1, u.ws.length = k
  | [], _, _ => ⟨rfl, nofun⟩
  | n :: l, r, h => by
    have ih := randRows_shape draw l (randWts draw n.ws r).2 fun u hu => h u (List.mem_cons_of_mem _ hu)
    refine ⟨congrArg (· + 1) ih.1, fun u hu => ?_⟩
    rcases List.mem_cons.1 hu with rfl | hu
    · exact (randWts_length draw n.ws r).trans (h n List.mem_cons_self)
    · exact ih.2 u hu

theorem randBiases_shape (draw : R → Dbl f × R) {k : Nat} : ∀ (l : List (DNeuron f)) (r : R),
    (∀ u ∈ l, u.ws.length = k) → (randBiases draw l r).1.length = l.length ∧
      ∀ u ∈ (randBiases draw l r).1, u.ws.length = k
  | [], _, _ => ⟨rfl, nofun⟩
  | n :: l, r, h => by
    have ih := randBiases_shape draw l (draw r).2 fun u hu => h u (List.mem_cons_of_mem _ hu)
    refine ⟨congrArg (· + 1) ih.1, fun u hu => ?_⟩
    rcases List.mem_cons.1 hu with rfl | hu
    · exact h n List.mem_cons_self
    · exact ih.2 u hu

theorem randNet_shape (draw : R → Dbl f × R) : ∀ (net : List (DLay f)) (n : Nat) (r : R), Shaped n net →
    Shaped n (randNet draw net r).1 ∧ (net ≠ [] → (randNet draw net r).1 ≠ [])
  | [], _, _, _ => ⟨trivial, fun h => absurd rfl h⟩
  | .conn ns fn :: net, n, r, ⟨h1, h2, h3⟩ => by
    obtain ⟨a1, a2⟩ := randRows_shape draw ns r h2
    obtain ⟨b1, b2⟩ := randBiases_shape draw _ (randRows draw ns r).2 a2
    have e := b1.trans a1
    refine ⟨⟨?_, b2, ?_⟩, fun _ => nofun⟩
    · intro h
      rw [h] at e
      exact h1 (List.eq_nil_of_length_eq_zero e.symm)
    · rw [e]
      exact (randNet_shape draw net _ _ h3).1
  | .soft scale :: net, n, r, ⟨h1, h3⟩ => ⟨⟨h1, (randNet_shape draw net _ _ h3).1⟩, fun _ => nofun⟩

/-- **C111** (refuted), neural conditions: covering an input with a missing value does not return, whatever
the generator, the network and the number of tries. -/
theorem C111_neural_cover_refuted {m : DLibm f} (H : m.Honest) (draw : R → Dbl f × R) {x : List (Dbl f)}
    (hx : Dbl.nan ∈ x) : ∀ (tries : Nat) {net : List (DLay f)} (r : R), net ≠ [] →
    Shaped x.length net → netCoverD m draw x tries net r = .error .hang
  | 0, _, _, _, _ => rfl
  | tries + 1, net, r, hn, hs => by
    obtain ⟨h1, h2⟩ := randNet_shape draw net _ r hs
    unfold netCoverD
    simp only
    rw [if_neg (by rw [C111_neural_never H (h2 hn) h1 hx]; exact nofun)]
    exact C111_neural_cover_refuted H draw hx tries _ (h2 hn) h1

theorem argmax_nan {l : List (Dbl f)} (h0 : l ≠ []) (h : ∀ v ∈ l, v = Dbl.nan) : argmax l = .ok 0 := by
  cases l with
  | nil => exact absurd rfl h0
  | cons v l =>
    have hv := h v List.mem_cons_self
    subst hv
    show Except.ok (argmaxGo l 1 0 .nan) = _
    rw [argmaxGo_nan]

theorem propagate_length (m : DLibm f) : ∀ (net : List (DLay f)) (x : List (Dbl f)),
    (propagateD m net x).length = width x.length net
  | [], _ => rfl
  | .conn ns fn :: net, x => by
    show (propagateD m net ((DLay.conn ns fn).forward m x)).length = width ns.length net
    rw [propagate_length m net]
    simp [DLay.forward]
  | .soft scale :: net, x => by
    show (propagateD m net ((DLay.soft scale).forward m x)).length = width x.length net
    rw [propagate_length m net]
    simp [DLay.forward, softExps_length]

theorem randRows_length (draw : R → Dbl f × R) : ∀ (l : List (DNeuron f)) (r : R),
    (randRows draw l r).1.length = l.length
  | [], _ => rfl
  | n :: l, r => congrArg (· + 1) (randRows_length draw l (randWts draw n.ws r).2)

theorem randBiases_length (draw : R → Dbl f × R) : ∀ (l : List (DNeuron f)) (r : R),
    (randBiases draw l r).1.length = l.length
  | [], _ => rfl
  | _ :: l, r => congrArg (· + 1) (randBiases_length draw l (draw r).2)

theorem randNet_width (draw : R → Dbl f × R) : ∀ (net : List (DLay f)) (n : Nat) (r : R),
    width n (randNet draw net r).1 = width n net
  | [], _, _ => rfl
  | .conn ns fn :: net, n, r => by
    show width (randBiases draw (randRows draw ns r).1 (randRows draw ns r).2).1.length _ = _
    rw [randBiases_length, randRows_length]
    exact randNet_width draw net _ _
  | .soft scale :: net, n, r => randNet_width draw net n r

/-- **C111** (refuted), neural actions: for an input with a missing value every network with an output
for each action chooses the first action. -/
theorem C111_neural_action {m : DLibm f} (H : m.Honest) {net : List (DLay f)} (hn : net ≠ [])
    {x : List (Dbl f)} (hs : Shaped x.length net) (hx : Dbl.nan ∈ x) {nActions : Nat} (h0 : 0 < nActions)
    (hw : nActions ≤ width x.length net) : actComputeD m nActions net x = .ok 0 := by
  obtain ⟨h1, h2⟩ := propagate_nan H net hs hx hn
  unfold actComputeD
  rw [propagate_length, if_neg (by omega)]
  refine argmax_nan ?_ fun v hv => h2 v (List.mem_of_mem_take hv)
  intro e
  rw [List.take_eq_nil_iff] at e
  rcases e with e | e
  · omega
  · exact h1 e

/-- **C111** (refuted), neural actions: covering such an input with any other action does not return,
whatever weights are drawn. -/
theorem C111_action_cover_refuted {m : DLibm f} (H : m.Honest) (draw : R → Dbl f × R)
    {x : List (Dbl f)} (hx : Dbl.nan ∈ x) {nActions action : Nat} (ha : 0 < action)
    (hn : action < nActions) : ∀ (tries : Nat) {net : List (DLay f)} (r : R), net ≠ [] →
    Shaped x.length net → nActions ≤ width x.length net →
    actCoverD m draw nActions action x tries net r = .error .hang
  | 0, _, _, _, _, _ => rfl
  | tries + 1, net, r, h0, hs, hw => by
    obtain ⟨h1, h2⟩ := randNet_shape draw net _ r hs
    have hw' : nActions ≤ width x.length (randNet draw net r).1 := by
      rw [randNet_width]
      exact hw
    unfold actCoverD
    simp only
    rw [C111_neural_action H (h2 h0) h1 hx (by omega) hw']
    simp only
    rw [if_neg (by omega)]
    exact C111_action_cover_refuted H draw hx ha hn tries _ (h2 h0) h1 hw'

theorem ruleBits_nan {out : List (Dbl f)} (h : ∀ v ∈ out, v = Dbl.nan) : ∀ k, k < out.length →
    ruleBitsD out k = 0
  | 0, _ => rfl
  | k + 1, hk => by
    unfold ruleBitsD
    have e : out.getD (k + 1) 0 = .nan := by
      rw [List.getD_eq_getElem?_getD, List.getElem?_eq_getElem hk]
      exact h _ (List.getElem_mem hk)
    rw [e, if_neg (by cases (Xcsf.half : Dbl f) <;> exact id)]
    exact ruleBits_nan h k (by omega)

/-- **C111** (refuted), networks that are both condition and action: for an input with a missing value
they compute the first action. -/
theorem C111_rule_action {m : DLibm f} (H : m.Honest) {net : List (DLay f)} (hn : net ≠ [])
    {x : List (Dbl f)} (hs : Shaped x.length net) (hx : Dbl.nan ∈ x) (nActions : Nat) :
    ruleActionD nActions (propagateD m net x) = 0 := by
  obtain ⟨h1, h2⟩ := propagate_nan H net hs hx hn
  have : 0 < (propagateD m net x).length := List.length_pos_of_ne_nil h1
  unfold ruleActionD
  rw [ruleBits_nan h2 _ (by omega), Nat.zero_min]

/-- **C111** (refuted), networks that are both condition and action: covering such an input does not
return for any action but the first, whatever is drawn; for the first it returns at once, with a rule that
does not match. -/
theorem C111_rule_cover_refuted {m : DLibm f} (H : m.Honest) (draw : R → Dbl f × R)
    {x : List (Dbl f)} (hx : Dbl.nan ∈ x) (nActions : Nat) : ∀ (tries : Nat) {net : List (DLay f)} (r : R),
    net ≠ [] → Shaped x.length net →
    (∀ action, 0 < action → ruleCoverD m draw nActions action x tries net r = .error .hang) ∧
    (∃ net' r', ruleCoverD m draw nActions 0 x (tries + 1) net r = .ok (net', r') ∧
      netMatchD m net' x = false) := by
  intro tries
  induction tries with
  | zero =>
    intro net r h0 hs
    obtain ⟨h1, h2⟩ := randNet_shape draw net _ r hs
    refine ⟨fun _ _ => rfl, (randNet draw net r).1, (randNet draw net r).2, ?_,
      C111_neural_never H (h2 h0) h1 hx⟩
    · unfold ruleCoverD
      simp only
      rw [C111_rule_action H (h2 h0) h1 hx, beq_self_eq_true, Bool.or_true, if_pos rfl]
  | succ tries ih =>
    intro net r h0 hs
    obtain ⟨h1, h2⟩ := randNet_shape draw net _ r hs
    refine ⟨fun action ha => ?_, (randNet draw net r).1, (randNet draw net r).2, ?_,
      C111_neural_never H (h2 h0) h1 hx⟩
    · unfold ruleCoverD
      simp only
      rw [C111_rule_action H (h2 h0) h1 hx, C111_neural_never H (h2 h0) h1 hx, if_neg (by simp; omega)]
      exact (ih _ (h2 h0) h1).1 action ha
    · unfold ruleCoverD
      simp only
      rw [C111_rule_action H (h2 h0) h1 hx, beq_self_eq_true, Bool.or_true, if_pos rfl]

/-! ## A concrete case -/

/-- Functions of the library for examples. -/
def plainLibm (f : Format) : DLibm f := ⟨id, id, id, id, id, id, 1, 1, 1⟩

/-- Two inputs, two hidden neurons and two outputs. -/
def twoLayers (f : Format) : List (DLay f) :=
  [.conn [⟨1, 0, [⟨1, 0, true⟩, ⟨0, 0, false⟩]⟩, ⟨0, 0, [⟨1, 0, true⟩, ⟨1, 0, true⟩]⟩] 1,
    .conn [⟨1, 0, [⟨0, 0, true⟩, ⟨1, 0, true⟩]⟩, ⟨1, 0, [⟨1, 0, true⟩, ⟨1, 0, true⟩]⟩] 3]

theorem twoLayers_shaped (f : Format) : Shaped 2 (twoLayers f) := by
  simp [Shaped, twoLayers]

example (tries : Nat) : netCoverD (plainLibm binary64) (fun r : Nat => (1, r + 1)) [1, .nan] tries
    (twoLayers binary64) 0 = .error .hang :=
  C111_neural_cover_refuted ⟨rfl, rfl, rfl, rfl, rfl, rfl⟩ _ (by simp) tries 0 (by simp [twoLayers])
    (twoLayers_shaped _)

example (tries : Nat) : actCoverD (plainLibm binary64) (fun r : Nat => (1, r + 1)) 2 1 [1, .nan] tries
    (twoLayers binary64 ++ [.soft 1]) 0 = .error .hang :=
  C111_action_cover_refuted ⟨rfl, rfl, rfl, rfl, rfl, rfl⟩ _ (by simp) (by decide) (by decide) tries 0
    (by simp [twoLayers]) (by simp [Shaped, twoLayers]) (by simp [width, twoLayers])

example (tries : Nat) : ruleCoverD (plainLibm binary64) (fun r : Nat => (1, r + 1)) 2 1 [1, .nan] tries
    (twoLayers binary64) 0 = .error .hang :=
  (C111_rule_cover_refuted (x := [1, Dbl.nan]) ⟨rfl, rfl, rfl, rfl, rfl, rfl⟩ _ (by simp) 2 tries 0
    (by simp [twoLayers]) (twoLayers_shaped _)).1 1 (by decide)

/-- With a number in its place that network matches and computes the second action. -/
example : ruleActionD 2 (propagateD (plainLibm wide) (twoLayers wide) [1, 1]) = 1 := by decide +kernel

/-- With a number in its place the same network matches, and chooses the second action. -/
example : actComputeD (plainLibm wide) 2 (twoLayers wide) [1, 1] = .ok 1 := by
  obtain ⟨a, h, ha⟩ := Demo.Res.test_iff (m := actComputeD (plainLibm wide) 2 (twoLayers wide) [1, 1])
    (p := (· == 1)) (by decide +kernel)
  rw [h, eq_of_beq ha]

example : actComputeD (plainLibm wide) 2 (twoLayers wide) [1, .nan] = .ok 0 :=
  C111_neural_action (x := [1, Dbl.nan]) ⟨rfl, rfl, rfl, rfl, rfl, rfl⟩ (by simp [twoLayers])
    (twoLayers_shaped _) (by simp) (by decide) (by simp [width, twoLayers])

example : netMatchD (plainLibm wide) (twoLayers wide) [1, 1] = true := by decide +kernel

end Xcsf.Double
