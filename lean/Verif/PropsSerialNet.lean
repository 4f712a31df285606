import Verif.PropsSerial
import Verif.SerialFresh

/-!
# A loaded network computes what the saved one computed (C25)
-/

set_option linter.unusedSectionVars false

namespace Xcsf

section
variable {K R : Type} [Field K] [LinearOrder K] [IsStrictOrderedRing K] [FloorRing K]

/-- The networks of a rule: of its condition, its action and its prediction. -/
def Body.nets (b : Body K) : List (FNet K) :=
  (match b.cond with
    | .neural n => [n]
    | .ruleNeural n => [n]
    | _ => []) ++
  (match b.act with
    | .neural n => [n]
    | _ => []) ++
  (match b.pred with
    | .neural n => [n]
    | _ => [])

/-- For every input of the right length, in training and in testing, with every random state and for
every output, the networks compute the same number or fail in the same way; and if the sizes of the
layers of the first network agree, those of the second one do. -/
def SameNet (g : Rng K R) (n n' : FNet K) : Prop :=
  n'.nInputs = n.nInputs ∧ n'.nOutputs = n.nOutputs ∧
  ∀ (k : Lim) (b : Bool) (d : Dim), NetLegal k b d (n.layers.map FLay.lay) →
    NetLegal k b d (n'.layers.map FLay.lay) ∧
    ∀ (m : Libm K), (∀ x, 0 < m.exp x) → ∀ (lo : K) (train : Bool) (x : List K) (r : R) (i : Int),
      x.length = d.n.toNat → fnetRun g m lo train n' x r i = fnetRun g m lo train n x r i

theorem fresh_same (g : Rng K R) {n : FNet K} (h : n.plain = true) : SameNet g n n.fresh := by
  unfold FNet.plain at h
  rw [List.all_eq_true] at h
  have hr : ∀ l ∈ n.layers, l.wired = true ∧ l.lay.remembers = false := by
    intro l hl
    have := h l hl
    simpa using this
  refine ⟨rfl, rfl, fun k b d N => ⟨?_, ?_⟩⟩
  · have := fresh_netLegal (n.layers.map FLay.lay) b d d (by
      intro l hl
      obtain ⟨a, ha, rfl⟩ := List.mem_map.1 hl
      exact (hr a ha).2) rfl (fun _ => rfl) N
    rw [List.map_map] at this
    show NetLegal k b d ((n.layers.map fun l => ⟨l.lay.fresh, l.wired⟩).map FLay.lay)
    rw [List.map_map]
    exact this
  · intro m hm lo train x r i hx
    have h := fnet_sim (g := g) hm lo train n.layers b d x r hr N hx
    unfold fnetRun
    show (match fnetForward g m lo train (n.layers.map fun l => ⟨l.lay.fresh, l.wired⟩) x r with
      | .error e => _
      | .ok (ls, _) => _) = _
    revert h
    generalize fnetForward g m lo train (n.layers.map fun l => ⟨l.lay.fresh, l.wired⟩) x r = p
    generalize fnetForward g m lo train n.layers x r = q
    intro h
    match p, q, h with
    | .ok u, .ok v, h =>
      dsimp only
      unfold fnetOutput
      dsimp only [FNet.fresh]
      rcases last_rel h.2 with ⟨h1, h2⟩ | ⟨a, b, h1, h2, h3, h4⟩
      · rw [h1, h2]
        rfl
      · rw [h1, h2]
        dsimp only
        rw [h3, h4]
        rfl
    | .error e, .error f, h => exact congrArg Except.error h

theorem nets_of_rule {g : Rng K R} {q : Cl K (Body K)} (h : ruleNets FNet.plain q = true) :
    List.Forall₂ (SameNet g) q.body.nets (ruleMapNet FNet.fresh q).body.nets := by
  unfold ruleNets at h
  simp only [Bool.and_eq_true] at h
  obtain ⟨⟨h1, h2⟩, h3⟩ := h
  show List.Forall₂ (SameNet g) _ (Body.nets ⟨q.body.cond.mapNet _, q.body.act.mapNet _,
    q.body.pred.mapNet _⟩)
  unfold Body.nets
  dsimp only
  refine List.rel_append (List.rel_append ?_ ?_) ?_
  · cases e : q.body.cond <;> rw [e] at h1 <;>
      first | exact .nil | exact .cons (fresh_same g h1) .nil
  · cases e : q.body.act <;> rw [e] at h2 <;>
      first | exact .nil | exact .cons (fresh_same g h2) .nil
  · cases e : q.body.pred <;> rw [e] at h3 <;>
      first | exact .nil | exact .cons (fresh_same g h3) .nil

/-- **C25 (partial: no recurrent or LSTM layers), observed through the networks.**  After saving and
loading, the k-th rule has as many networks as before, their sizes agree if they did, and each of
them computes exactly the outputs it computed before: the working memory that is not saved does not
matter. -/
theorem C25_same_outputs_partial (c : Codec K) (g : Rng K R) {s t : Sys K R} (h : s.Whole)
    (hp : ∀ q ∈ s.rules, ruleNets FNet.plain q = true)
    (hc : s.par.cond.targs.nConstants ≤ t.par.cond.targs.constants.length)
    (hf : ∀ i ∈ sysItems s, i.Fits c) :
    ∃ s', sysLoad c g t (some (sysSave c s).1) = .ok (s', [], (sysSave c s).2) ∧
      s'.rules.length = s.rules.length ∧
      ∀ (k : Nat) (q : Cl K (Body K)), s.rules[k]? = some q → ∃ q', s'.rules[k]? = some q' ∧
        List.Forall₂ (SameNet g) q.body.nets q'.body.nets := by
  obtain ⟨s', e, _, h2, _⟩ := C25_round_trip_partial c g h hp hc hf
  refine ⟨s', e, by rw [h2, List.length_map], fun k q hk => ⟨ruleMapNet FNet.fresh q, ?_, ?_⟩⟩
  · rw [h2, List.getElem?_map, hk]; rfl
  · exact nets_of_rule (hp q (List.mem_of_getElem? hk))

/-- **C25**, reading outputs: an output that the network does not have is refused, whatever has been
loaded. -/
theorem C25_output_refused (g : Rng K R) (m : Libm K) (lo : K) (train : Bool) (n : FNet K) (x : List K)
    (r : R) (i : Int) (hi : i < 0 ∨ n.nOutputs ≤ i) {z : List (FLay K) × R}
    (h : fnetForward g m lo train n.layers x r = .ok z) :
    fnetRun g m lo train n x r i = .error .exit := by
  unfold fnetRun
  rw [h]
  exact if_pos hi

end

/-! ## Non-vacuity -/

/-- A connected layer that has been used: its neuron has a state, an output and an error. -/
def usedConn : CLay ℚ := { unitConn 2 with ns := [⟨1, 0, 7, 7, 1 / 2⟩] }

theorem usedConn_legal : (GLay.conn usedConn).Legal ⟨1, 1, 1, false, false⟩ := by
  refine ⟨⟨by decide, by decide, rfl, rfl, ?_, ?_, rfl, ⟨rfl, ?_⟩, by decide⟩,
    ⟨by decide, by decide, by decide, by decide, by decide, by decide⟩, by decide,
    fun _ => ⟨rfl, rfl, rfl⟩⟩
  · intro w hw
    simp only [usedConn, unitConn, List.mem_cons, List.not_mem_nil, or_false] at hw
    subst hw
    unfold WtOk
    norm_num
  · intro n hn
    simp only [usedConn, List.mem_cons, List.not_mem_nil, or_false] at hn
    subst hn
    norm_num
  · intro v hv
    simp only [usedConn, unitConn, List.mem_cons, List.not_mem_nil, or_false, or_self] at hv
    subst hv
    unfold LegalRate
    norm_num

example : NetLegal ⟨1, 1, 1, false, false⟩ true ⟨1, 1, 1, 1⟩ [GLay.conn usedConn] :=
  ⟨usedConn_legal, ⟨rfl, (fun _ h => nomatch h)⟩, fun _ => rfl, (fun h => nomatch h), trivial⟩

/-- The hypotheses hold for a system whose rule has a network that has been used. -/
example : ∃ s', sysLoad halves (stepRng 4 fun _ => 0) demoTarget
      (some (sysSave halves (neuralSys (.conn usedConn))).1) =
        .ok (s', [], (sysSave halves (neuralSys (.conn usedConn))).2) ∧
    s'.rules.length = 1 ∧
    ∀ (k : Nat) (q : Cl ℚ (Body ℚ)), (neuralSys (.conn usedConn)).rules[k]? = some q →
      ∃ q', s'.rules[k]? = some q' ∧
        List.Forall₂ (SameNet (stepRng 4 fun _ => 0)) q.body.nets q'.body.nets :=
  C25_same_outputs_partial halves _
    (neuralSys_whole (l := .conn usedConn) ⟨by decide, by decide, rfl, rfl⟩ rfl rfl) (by decide)
    (by decide) (by decide +kernel)

/-- The loaded network has other memory but the same output: 2 times 3 plus 1. -/
example : usedConn.fresh ≠ usedConn ∧
    fnetRun (stepRng 4 fun _ => 0) signLibm 0 false ⟨1, 1, [⟨.conn usedConn, true⟩]⟩ [3] 0 0 = .ok 7 ∧
    fnetRun (stepRng 4 fun _ => 0) signLibm 0 false ⟨1, 1, [⟨.conn usedConn.fresh, true⟩]⟩ [3] 0 0 =
      .ok 7 :=
  ⟨by decide +kernel, of_isVal (by decide +kernel), of_isVal (by decide +kernel)⟩

end Xcsf
