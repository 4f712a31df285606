import Verif.JsonNetSame
import Verif.PropsNGenLearn
import Verif.PropsSerialNet

/-!
# Property C106: the JSON of a network describes the network
-/

set_option linter.unusedSectionVars false

namespace Xcsf
open JsonNet
variable {K R : Type} [Field K] [LinearOrder K] [IsStrictOrderedRing K] [FloorRing K]

/-- **C106, what is shown**: for a network created from legal parameters, after any history of
mutation, resizing, forward propagation, randomisation, copying and training, the export succeeds,
with and without weights.  The document has one member for each layer, in the order of the layers,
with the type, the numbers of inputs and outputs, the activation functions by the names under which
they are chosen, the learning and mutation rates, the numbers of weights, biases and active
connections and, if asked for, all weights and biases; the number of inputs shown for a layer is the
number of outputs shown for the layer before. -/
theorem C106_shown {k : Lim} (hk : k.Ok) {g : Rng K R} (O : g.Open) (Bd : g.Bounded)
    {m : Libm K} (hm : ∀ x, 0 < m.exp x) (lo : K) {fuel : Nat} (hf : 1 ≤ fuel)
    {as : List (GArgs K)} (hne : as ≠ []) {b : Bool} {d : Dim} (D : d.Ok k b)
    (A : ArgsFit k b d as) (h1 : ∀ a ∈ as.head?, a.first d) (T : ∀ a ∈ as, a.Teachable)
    (ops : List (NTask K)) (ho : trainedAfterUse false ops = true) (r : R) :
    Post (genCreate g as r >>= fun p => nwork g m lo fuel d.n.toNat ops p.1 p.2)
      (fun z => z.1.length = as.length ∧ ∀ w : Bool, ∃ j, netJson w z.1 = .ok j ∧
        ShowsNet w z.1 j ∧
        ∀ (i : Nat) (u v : Json K), j.item (layerName i) = some u →
          j.item (layerName (i + 1)) = some v → v.item "n_inputs" = u.item "n_outputs")
      (GFault k) := by
  refine post_bind (genCreate_step hk O Bd hne D A h1 r) ?_
  rintro ⟨ls, r1⟩ ⟨N, ht⟩
  have hls : ls ≠ [] := by
    rintro rfl
    rw [List.map_nil, eq_comm, List.map_eq_nil_iff] at ht
    exact hne ht
  refine post_mono (nwork_step hk O Bd hm lo hf D ops false ls r1 hls N (teachable_of_args ht T)
    ((fun h => nomatch h)) ho) ?_
  rintro ⟨ls', r2⟩ ⟨N', F⟩
  refine ⟨?_, fun w => ?_⟩
  · have := congrArg List.length ht
    rw [List.length_map, List.length_map] at this
    exact F.length_eq.symm.trans this
  · obtain ⟨q, e, h2, h3⟩ := members_shown w ls' 0
      fun c hc => layer_shown w (legal_all ls' b d N' c hc)
    simp only [Nat.zero_add] at h2 h3
    refine ⟨.obj q, by unfold netJson; rw [e]; rfl, ⟨⟨q, rfl, h2⟩, h3⟩, ?_⟩
    intro i u v hu hv
    have mem : ∀ (n : Nat) (o : Json K), q.lookup (layerName n) = some o → n < ls'.length := by
      intro n o ho
      have : layerName n ∈ q.map Prod.fst := by
        rw [List.lookup_eq_some_iff] at ho
        obtain ⟨a, c, rfl, _⟩ := ho
        simp
      rw [h2] at this
      obtain ⟨i, hi, he⟩ := List.mem_map.1 this
      have := layerName_inj he
      rw [List.mem_range] at hi
      omega
    have hi := mem _ _ hu
    have hi' := mem _ _ hv
    obtain ⟨o, e1, s1⟩ := h3 i _ (List.getElem?_eq_getElem hi)
    obtain ⟨p, e2, s2⟩ := h3 (i + 1) _ (List.getElem?_eq_getElem hi')
    rw [show q.lookup (layerName i) = some u from hu] at e1
    rw [show q.lookup (layerName (i + 1)) = some v from hv] at e2
    cases e1
    cases e2
    rw [s2.ins, s1.outs, legal_chain ls' b d N' i _ _ (List.getElem?_eq_getElem hi)
      (List.getElem?_eq_getElem hi')]

/-- **C106, that nothing is missing**: two networks of legal layers without memory of their own,
for inputs of the same sizes, whose documents with weights are equal, compute the same outputs of
every layer for every input when they are used for predictions, or fail in the same way.  Missing of
the full claim: recurrent and LSTM layers, whose memory is not shown; that the sizes of the image
are the same, which is not shown for convolutional layers; and the documents without weights, the
only ones the program makes.  The claim is false for each of these, see below. -/
theorem C106_complete_partial {k : Lim} {g : Rng K R} {m : Libm K} (hm : ∀ x, 0 < m.exp x) (lo : K)
    {ls ls' : List (GLay K)} {b b' : Bool} {d : Dim} (N : NetLegal k b d ls)
    (N' : NetLegal k b' d ls') (hr : ∀ l ∈ ls, l.remembers = false)
    (h : netJson true ls = netJson true ls') (x : List K) (hx : x.length = d.n.toNat) (r : R) :
    computes g m lo ls x r = computes g m lo ls' x r := by
  refine net_same hm lo ls ls' 0 b b' d d x r hr N N' rfl (fun _ _ => rfl) ?_ hx
  obtain ⟨p, e, _⟩ := members_shown true ls 0
    fun c hc => layer_shown true (legal_all ls b d N c hc)
  obtain ⟨p', e', _⟩ := members_shown true ls' 0
    fun c hc => layer_shown true (legal_all ls' b' d N' c hc)
  unfold netJson at h
  rw [e, e'] at h ⊢
  rw [Json.obj.inj (Except.ok.inj h)]

/-! ## Where the property fails -/

/-- The outputs of the last layer. -/
def lastOuts (ls : List (GLay ℚ)) (x : List ℚ) : Option (List ℚ) :=
  match computes (stepRng 4 fun _ => 0) demoLibm 0 ls x 0 with
  | .ok z => (match z.1.getLast? with
    | some (.ok o) => some o
    | _ => none)
  | .error _ => none

theorem unitConn_sound {w : ℚ} (h : -10 ≤ w ∧ w ≤ 10) : (unitConn w).Sound := by
  refine ⟨Nat.le_refl 1, Nat.le_refl 1, rfl, rfl, ?_, ?_, rfl, ⟨rfl, ?_⟩, ?_⟩
  · intro v hv
    simp only [unitConn, List.mem_cons, List.not_mem_nil, or_false] at hv
    subst hv
    exact ⟨h.1, h.2, (fun h => nomatch h)⟩
  · intro n hn
    simp only [unitConn, List.mem_cons, List.not_mem_nil, or_false] at hn
    subst hn
    norm_num
  · intro v hv
    simp only [unitConn, List.mem_cons, List.not_mem_nil, or_false, or_self] at hv
    subst hv
    unfold LegalRate
    norm_num
  · show (0 : Int) ≤ 3 ∧ (3 : Int) < 11
    decide

/-- One neuron. -/
def unitLim : Lim := ⟨1, 1, 1, false, false⟩

theorem unitConn_fits (w : ℚ) : (unitConn w).Fits 1 1 :=
  ⟨Nat.le_refl 1, Int.le_refl 1, (fun h => nomatch h), Nat.le_refl 1, (fun h => nomatch h),
    by decide⟩

theorem unitConn_net {w : ℚ} (h : -10 ≤ w ∧ w ≤ 10) :
    NetLegal unitLim true ⟨1, 1, 1, 1⟩ [.conn (unitConn w)] :=
  ⟨⟨unitConn_sound h, unitConn_fits w, (fun h => nomatch h), fun _ => ⟨rfl, rfl, rfl⟩⟩,
    ⟨rfl, (fun _ h => nomatch h)⟩, fun _ => rfl, (fun h => nomatch h), trivial⟩

/-- **C106 fails for what the program shows**: `json()` never shows the weights, and two networks
with the same description give the outputs 1 and 2 for the input 1. -/
theorem C106_weights_refuted : ∃ ls ls' : List (GLay ℚ),
    NetLegal unitLim true ⟨1, 1, 1, 1⟩ ls ∧ NetLegal unitLim true ⟨1, 1, 1, 1⟩ ls' ∧
      partJson "neural" ls = partJson "neural" ls' ∧ (∃ j, partJson "neural" ls = .ok j) ∧
      lastOuts ls [1] = some [1] ∧ lastOuts ls' [1] = some [2] :=
  ⟨[.conn (unitConn 1)], [.conn (unitConn 2)], unitConn_net (by norm_num), unitConn_net (by norm_num),
    rfl, ⟨_, rfl⟩, by decide +kernel, by decide +kernel⟩

/-- A recurrent layer whose neuron remembers the output `v`. -/
def recall (v : ℚ) : RLay ℚ := { unitRec with
  opt := ⟨true, false, false, true, false, false⟩
  out := { unitConn 1 with ns := [⟨0, 0, v, v, 0⟩] } }

theorem recall_net (v : ℚ) : NetLegal unitLim true ⟨1, 1, 1, 1⟩ [.recu (recall v)] := by
  have part : ∀ w : ℚ, -10 ≤ w ∧ w ≤ 10 →
      Part 1 1 1 1 1 (recall v).opt (unitConn w) :=
    fun w h => ⟨unitConn_sound h, unitConn_fits w, rfl, rfl, rfl, rfl⟩
  have out : Part 1 1 1 1 1 (recall v).opt (recall v).out := by
    have U := unitConn_sound (w := 1) (by norm_num)
    refine ⟨⟨U.ins, U.outs, U.wlen, rfl, U.wt, ?_, U.active, U.mu, U.fn⟩, ⟨?_, ?_, ?_, ?_, ?_, ?_⟩,
      rfl, rfl, rfl, rfl⟩
    rotate_left
    · exact (unitConn_fits 1).cur
    · exact (unitConn_fits 1).max
    · exact (unitConn_fits 1).le
    · exact (unitConn_fits 1).prod
    · exact (unitConn_fits 1).grow
    · exact (unitConn_fits 1).big
    intro n hn
    simp only [recall, List.mem_cons, List.not_mem_nil, or_false] at hn
    subst hn
    norm_num
  refine ⟨⟨⟨part 2 (by norm_num), part 1 (by norm_num), out, rfl, rfl, ?_, ⟨rfl, ?_⟩,
    ?_, rfl⟩, (fun h => nomatch h)⟩, ⟨rfl, (fun _ h => nomatch h)⟩, fun _ => rfl,
    (fun h => nomatch h), trivial⟩
  · intro _
    simp [recall, unitRec]
  · intro u hu
    simp only [recall, unitRec, List.mem_cons, List.not_mem_nil, or_false, or_self] at hu
    subst hu
    unfold LegalRate
    norm_num
  · show (0 : Int) ≤ 3 ∧ (3 : Int) < 11
    decide

/-- **C106 fails for networks with memory**: the document does not show the memory, even with
weights, and the outputs differ. -/
theorem C106_memory_refuted : ∃ ls ls' : List (GLay ℚ),
    NetLegal unitLim true ⟨1, 1, 1, 1⟩ ls ∧ NetLegal unitLim true ⟨1, 1, 1, 1⟩ ls' ∧
      netJson true ls = netJson true ls' ∧ (∃ j, netJson true ls = .ok j) ∧
      lastOuts ls [1] = some [2] ∧ lastOuts ls' [1] = some [5] :=
  ⟨[.recu (recall 0)], [.recu (recall 3)], recall_net 0, recall_net 3, rfl, ⟨_, rfl⟩,
    by decide +kernel, by decide +kernel⟩

/-- A convolution of an image of the given height and width by one filter of two by two pixels, which
adds the pixels of its first column. -/
def wideConv (h w : Int) : VLay ℚ :=
  { core := { unitConn 1 with
      nInputs := 4, ws := [⟨1, 0, true⟩, ⟨0, 0, true⟩, ⟨1, 0, true⟩, ⟨0, 0, true⟩], nActive := 4 }
    height := h, width := w, channels := 1, size := 2, stride := 1, pad := 0, outH := h - 1,
    outW := w - 1, nIn := 6, nOut := 2, cells := [⟨0, 0, 0⟩, ⟨0, 0, 0⟩]
    temp := List.replicate 8 none }

/-- Two outputs of a filter with four weights. -/
def wideLim : Lim := ⟨1, 4, 2, false, false⟩

theorem wideConv_net {h w : Int} (hd : (h = 3 ∧ w = 2) ∨ (h = 2 ∧ w = 3)) :
    NetLegal wideLim true ⟨6, w, h, 1⟩ [.conv (wideConv h w)] := by
  have S : (wideConv h w).core.Sound := by
    have U := unitConn_sound (w := 1) (by norm_num)
    refine ⟨by show 1 ≤ 4; decide, Nat.le_refl 1, rfl, rfl, ?_, U.bias, rfl, U.mu, U.fn⟩
    intro v hv
    simp only [wideConv, List.mem_cons, List.not_mem_nil, or_false] at hv
    rcases hv with rfl | rfl | rfl | rfl <;> exact ⟨by norm_num, by norm_num, (fun h => nomatch h)⟩
  have F : (wideConv h w).core.Fits 1 4 :=
    ⟨Nat.le_refl 1, Int.le_refl 1, (fun h => nomatch h), Nat.le_refl 4, (fun h => nomatch h),
      by decide⟩
  have G : Geo 1 4 2 2 1 0 w h 1 := by
    rcases hd with ⟨rfl, rfl⟩ | ⟨rfl, rfl⟩ <;>
      exact ⟨by decide, by decide, by decide, by decide, by decide, by decide, by decide, by decide,
        by decide, by decide⟩
  refine ⟨⟨⟨?_, S⟩, ⟨F, G⟩, (fun h => nomatch h), Int.le_refl 1, G⟩, ⟨rfl, ?_⟩,
    fun _ => rfl, (fun h => nomatch h), trivial⟩
  · rcases hd with ⟨rfl, rfl⟩ | ⟨rfl, rfl⟩ <;>
      exact ⟨by decide, by decide, by decide, by decide, by decide, by decide, by decide, by decide,
        (fun h => nomatch h), by decide, by decide, by decide, by decide, by decide, rfl, rfl, rfl, rfl,
        S.fn⟩
  · intro t ht
    cases ht
    rfl

/-- **C106 fails for convolutional layers**: the document does not show the height and width of the
image, even with weights, and a filter of images of three by two pixels computes something else than
one of images of two by three pixels. -/
theorem C106_image_refuted : ∃ l l' : GLay ℚ,
    NetLegal wideLim true ⟨6, 2, 3, 1⟩ [l] ∧ NetLegal wideLim true ⟨6, 3, 2, 1⟩ [l'] ∧
      netJson true [l] = netJson true [l'] ∧ (∃ j, netJson true [l] = .ok j) ∧
      lastOuts [l] [1, 2, 3, 4, 5, 6] = some [4, 8] ∧
      lastOuts [l'] [1, 2, 3, 4, 5, 6] = some [5, 7] :=
  ⟨.conv (wideConv 3 2), .conv (wideConv 2 3), wideConv_net (.inl ⟨rfl, rfl⟩),
    wideConv_net (.inr ⟨rfl, rfl⟩), rfl, ⟨_, rfl⟩, by decide +kernel, by decide +kernel⟩

/-- **C106 fails in the other direction**: reading the description of any network back ends the
program. -/
theorem C106_import_refuted (type : String) (ls : List (GLay K)) (j : Json K)
    (h : partJson type ls = .ok j) : partImport j = .error .exit ∧ (j.item "network").isSome := by
  unfold partJson at h
  cases e : netJson false ls with
  | error f => rw [e] at h; cases h
  | ok n => rw [e] at h; cases h; exact ⟨rfl, rfl⟩

/-! ## The hypotheses are met by concrete cases -/

/-- The layers that memory use leaves different are shown alike. -/
example : ∃ ls ls' : List (GLay ℚ), ls ≠ ls' ∧ NetLegal unitLim true ⟨1, 1, 1, 1⟩ ls ∧
    NetLegal unitLim true ⟨1, 1, 1, 1⟩ ls' ∧ (∀ l ∈ ls, l.remembers = false) ∧
    netJson true ls = netJson true ls' :=
  ⟨[.conn usedConn], [.conn { usedConn with ns := [⟨1, 0, 0, 0, 0⟩] }],
    by decide +kernel,
    ⟨usedConn_legal, ⟨rfl, (fun _ h => nomatch h)⟩, fun _ => rfl, (fun h => nomatch h), trivial⟩,
    ⟨⟨conn_fresh_sound usedConn_legal.1 1 1 1,
      ⟨by decide, by decide, (fun h => nomatch h), by decide, (fun h => nomatch h), by decide⟩,
      (fun h => nomatch h), fun _ => ⟨rfl, rfl, rfl⟩⟩,
      ⟨rfl, (fun _ h => nomatch h)⟩, fun _ => rfl, (fun h => nomatch h), trivial⟩,
    by simp [GLay.remembers], rfl⟩

/-- The network of nine layers of `C78` meets the hypotheses of `C106_shown` and its description has
nine members. -/
example : (match genCreate (stepRng 60 fun _ => 2) trainNet 0 >>= fun p =>
      nwork (stepRng 60 fun _ => 2) { demoLibm with exp := fun _ => 1 } (-1000) 5 16
        trainHist p.1 p.2 with
    | .ok (ls, _) => (match netJson true ls with
      | .ok (.obj q) => decide (q.map Prod.fst = ["layer_0", "layer_1", "layer_2", "layer_3",
          "layer_4", "layer_5", "layer_6", "layer_7", "layer_8"])
      | _ => false)
    | .error _ => false) = true := by decide +kernel

end Xcsf
