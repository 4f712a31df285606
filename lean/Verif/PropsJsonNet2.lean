import Verif.PropsJsonNet

/-!
# Property C106: the settings of layers, and layers that cannot be shown

`C106_shown` says nothing about the settings that only some kinds of layers have, and nothing about
layers with codes that are no activation function.
-/

set_option linter.unusedSectionVars false

namespace Xcsf
open JsonNet
variable {K R : Type} [Field K] [LinearOrder K] [IsStrictOrderedRing K] [FloorRing K]

namespace JsonNet

/-- The settings of a layer that other kinds of layers do not have, with the names they are shown
under. -/
def settings : GLay K → List (String × K)
  | .conn _ => []
  | .recu _ => []
  | .lstm _ => []
  | .conv l => [("n_filters", (l.core.nOutputs : K)), ("size", (l.size : K)),
      ("stride", (l.stride : K)), ("pad", (l.pad : K))]
  | .maxp l => [("height", (l.height : K)), ("width", (l.width : K)), ("channels", (l.channels : K)),
      ("size", (l.size : K)), ("stride", (l.stride : K)), ("pad", (l.pad : K)),
      ("out_w", (l.outW : K)), ("out_h", (l.outH : K)), ("out_c", (l.outC : K))]
  | .avgp l => [("height", (l.height : K)), ("width", (l.width : K)), ("channels", (l.channels : K))]
  | .ups l => [("height", (l.height : K)), ("width", (l.width : K)), ("channels", (l.channels : K)),
      ("stride", (l.stride : K))]
  | .drop l => [("probability", l.probability)]
  | .noise l => [("probability", l.probability), ("stdev", l.scale)]
  | .soft l => [("temperature", l.scale)]

theorem settings_shown {w : Bool} {l : GLay K} {j : Json K} (h : layerJson w l = .ok j) :
    ∀ p ∈ settings l, j.item p.1 = some (.num p.2) := by
  cases l with
  | conn l => intro p hp; cases hp
  | recu l => intro p hp; cases hp
  | lstm l => intro p hp; cases hp
  | conv l =>
    have h : convJson w l = .ok j := h
    unfold convJson at h
    cases e : fnName (K := K) l.core.fn with
    | error f => rw [e] at h; cases h
    | ok a =>
      cases e' : rates l.core.mu with
      | error f => rw [e, e'] at h; cases h
      | ok mu =>
        rw [e, e'] at h
        cases h
        intro p hp
        simp only [settings, List.mem_cons, List.not_mem_nil, or_false] at hp
        rcases hp with rfl | rfl | rfl | rfl <;> simp [Json.item, List.lookup, jsonOfInt]
  | maxp l =>
    cases h
    intro p hp
    simp only [settings, List.mem_cons, List.not_mem_nil, or_false] at hp
    rcases hp with rfl | rfl | rfl | rfl | rfl | rfl | rfl | rfl | rfl <;> rfl
  | avgp l =>
    cases h
    intro p hp
    simp only [settings, List.mem_cons, List.not_mem_nil, or_false] at hp
    rcases hp with rfl | rfl | rfl <;> rfl
  | ups l =>
    cases h
    intro p hp
    simp only [settings, List.mem_cons, List.not_mem_nil, or_false] at hp
    rcases hp with rfl | rfl | rfl | rfl <;> rfl
  | drop l =>
    cases h
    intro p hp
    simp only [settings, List.mem_cons, List.not_mem_nil, or_false] at hp
    rcases hp with rfl
    rfl
  | noise l =>
    cases h
    intro p hp
    simp only [settings, List.mem_cons, List.not_mem_nil, or_false] at hp
    rcases hp with rfl | rfl <;> rfl
  | soft l =>
    cases h
    intro p hp
    simp only [settings, List.mem_cons, List.not_mem_nil, or_false] at hp
    rcases hp with rfl
    rfl

theorem members_made (w : Bool) : ∀ (ls : List (GLay K)) (n : Nat) (m : List (String × Json K)),
    netMembers w n ls = .ok m → ∀ (i : Nat) (l : GLay K), ls[i]? = some l →
      ∃ o, layerJson w l = .ok o ∧ m.lookup (layerName (n + i)) = some o
  | [], _, _, _, i, l, hi => by simp at hi
  | c :: ls, n, m, h, i, l, hi => by
    unfold netMembers at h
    cases e : layerJson w c with
    | error f => rw [e] at h; cases h
    | ok j =>
      cases e' : netMembers w (n + 1) ls with
      | error f => rw [e, e'] at h; cases h
      | ok q =>
        rw [e, e'] at h
        cases h
        cases i with
        | zero =>
          cases hi
          exact ⟨j, e, by simp [List.lookup, layerName]⟩
        | succ i =>
          obtain ⟨o, ho, hl⟩ := members_made w ls (n + 1) q e' i l (by simpa using hi)
          refine ⟨o, ho, ?_⟩
          have : (layerName (n + (i + 1)) == "layer_" ++ toString n) = false := by
            rw [beq_eq_false_iff_ne]
            intro e
            have := layerName_inj (j := n) e
            omega
          rw [List.lookup_cons, this]
          dsimp only
          rw [← hl, Nat.add_assoc, Nat.add_comm 1 i]

theorem fnName_unknown {fn : Int} (h : ¬ (0 ≤ fn ∧ fn ≤ 10)) (h' : fn ≠ 100) :
    fnName (K := K) fn = .error .exit := by
  have : nameOf activationNames fn = .error .exit := by
    simp only [activationNames, nameOf]
    repeat rw [if_neg (by omega)]
  unfold fnName
  rw [this]

end JsonNet

/-- **C106, the settings of layers**: whenever the document of a network can be made, the member of
each layer shows all settings that layers of this kind have besides those of `C106_shown`: the number
and the shape of filters, the sizes of pooled and enlarged images, the probability of dropping an
input, the probability and the deviation of noise, and the temperature of softmax layers. -/
theorem C106_settings {w : Bool} {ls : List (GLay K)} {j : Json K} (h : netJson w ls = .ok j)
    (i : Nat) (l : GLay K) (hi : ls[i]? = some l) :
    ∃ o, j.item (layerName i) = some o ∧ ∀ p ∈ settings l, o.item p.1 = some (.num p.2) := by
  unfold netJson at h
  cases e : netMembers w 0 ls with
  | error f => rw [e] at h; cases h
  | ok m =>
    rw [e] at h
    cases h
    obtain ⟨o, ho, hl⟩ := members_made w ls 0 m e i l hi
    rw [Nat.zero_add] at hl
    exact ⟨o, hl, settings_shown ho⟩

/-- **C106, nothing is made up**: if the code of an activation function of any layer is neither one
of the eleven functions nor that of softmax, no document is made: the program ends when it comes to
this layer. -/
theorem C106_unknown (w : Bool) {ls : List (GLay K)} {l : GLay K} (hl : l ∈ ls) {p : String × Int}
    (hp : p ∈ functions l) (h : ¬ (0 ≤ p.2 ∧ p.2 ≤ 10)) (h' : p.2 ≠ 100) :
    (∀ j, netJson w ls ≠ .ok j) ∧ layerJson w l = .error .exit := by
  have E : layerJson w l = .error .exit := by
    cases l with
    | conn c =>
      simp only [functions, List.mem_cons, List.not_mem_nil, or_false] at hp
      subst hp
      show connJson w c = _
      unfold connJson
      rw [fnName_unknown h h']
      rfl
    | recu c =>
      simp only [functions, List.mem_cons, List.not_mem_nil, or_false] at hp
      subst hp
      show recJson w c = _
      unfold recJson
      rw [fnName_unknown h h']
      rfl
    | conv c =>
      simp only [functions, List.mem_cons, List.not_mem_nil, or_false] at hp
      subst hp
      show convJson w c = _
      unfold convJson
      rw [fnName_unknown h h']
      rfl
    | lstm c =>
      simp only [functions, List.mem_cons, List.not_mem_nil, or_false] at hp
      show lstmJson w c = _
      unfold lstmJson
      rcases hp with rfl | rfl
      · rw [fnName_unknown h h']
        rfl
      · rw [fnName_unknown (fn := c.rfn) h h']
        by_cases q : (0 ≤ c.fn ∧ c.fn ≤ 10) ∨ c.fn = 100
        · cases e : fnName (K := K) c.fn with
          | ok a => rfl
          | error f =>
            exfalso
            unfold fnName at e
            rcases q with q | q
            · obtain ⟨s, hs, _⟩ := fn_names (fn := c.fn) ⟨q.1, by omega⟩
              rw [hs] at e
              cases e
            · rw [q] at e
              cases e
        · rw [fnName_unknown (fn := c.fn) (fun z => q (.inl z)) (fun z => q (.inr z))]
          rfl
    | _ => cases hp
  refine ⟨fun j hj => ?_, E⟩
  unfold netJson at hj
  cases e : netMembers w 0 ls with
  | error f => rw [e] at hj; cases hj
  | ok m =>
    obtain ⟨i, hi, rfl⟩ := List.mem_iff_getElem.1 hl
    obtain ⟨o, ho, _⟩ := members_made w ls 0 m e i _ (List.getElem?_eq_getElem hi)
    rw [E] at ho
    cases ho

/-! ## The hypotheses are met by concrete cases -/

/-- The network of nine layers of `C78` has layers with settings, and its document can be made. -/
example : (match genCreate (stepRng 60 fun _ => 2) trainNet 0 with
    | .ok (ls, _) => (match netJson false ls with
      | .ok _ => decide (4 ≤ (ls.filter fun l => decide (settings l ≠ [])).length)
      | .error _ => false)
    | .error _ => false) = true := by decide +kernel

/-- A layer with the code 11. -/
example : ("activation", (11 : Int)) ∈ functions (GLay.conn { unitConn 1 with fn := 11 }) :=
  List.mem_cons_self

end Xcsf
