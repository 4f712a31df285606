import Verif.SerialSpec
import Verif.SerialNet
import Verif.SerialCut
import Verif.Pa
import Verif.PropsNGen

/-!
# Properties of saving and loading (C25, C26, C72, C73)
-/

set_option linter.unusedSectionVars false

namespace Xcsf

section
variable {K R : Type} [Field K] [LinearOrder K] [IsStrictOrderedRing K] [FloorRing K]

/-! ## C25: what comes back -/

theorem rule_plain {c : Cl K (Body K)} (h : ruleNets FNet.plain c = true) :
    ruleMapNet FNet.reload c = ruleMapNet FNet.fresh c := by
  unfold ruleNets at h
  simp only [Bool.and_eq_true] at h
  obtain ⟨⟨h1, h2⟩, h3⟩ := h
  unfold ruleMapNet
  congr 2
  · cases e : c.body.cond <;> rw [e] at h1 <;> simp only [FCond.mapNet] <;>
      (rw [reload_plain h1])
  · cases e : c.body.act <;> rw [e] at h2 <;> simp only [FAct.mapNet]; rw [reload_plain h2]
  · cases e : c.body.pred <;> rw [e] at h3 <;> simp only [FPred.mapNet]; rw [reload_plain h3]

theorem rule_none {c : Cl K (Body K)} (f : FNet K → FNet K)
    (h : ruleNets (fun _ => false) c = true) : ruleMapNet f c = c := by
  unfold ruleNets at h
  simp only [Bool.and_eq_true] at h
  obtain ⟨⟨h1, h2⟩, h3⟩ := h
  have e1 : c.body.cond.mapNet f = c.body.cond := by
    cases e : c.body.cond <;> rw [e] at h1 <;> first | rfl | (simp at h1)
  have e2 : c.body.act.mapNet f = c.body.act := by
    cases e : c.body.act <;> rw [e] at h2 <;> first | rfl | (simp at h2)
  have e3 : c.body.pred.mapNet f = c.body.pred := by
    cases e : c.body.pred <;> rw [e] at h3 <;> first | rfl | (simp at h3)
  unfold ruleMapNet
  rw [e1, e2, e3]

/-- **C25 (all layer types).**  Loading what has been saved, into any system whose array of constants
is large enough, succeeds, consumes the file exactly and reports the number of elements that was
reported when saving.  All parameters come back, and the rules in their order; networks come back as
`reload` says: recurrent layers lose the limits of their learning rate and the memory of their
outputs, LSTM layers their activation functions. -/
theorem C25_all_layers_partial (c : Codec K) (g : Rng K R) {s t : Sys K R} (h : s.Whole)
    (hc : s.par.cond.targs.nConstants ≤ t.par.cond.targs.constants.length)
    (hf : ∀ i ∈ sysItems s, i.Fits c) :
    ∃ s', sysLoad c g t (some (sysSave c s).1) = .ok (s', [], (sysSave c s).2) ∧
      s'.par = s.par.onto t.par ∧ s'.rules = s.rules.map (ruleMapNet FNet.reload) ∧
      s'.size = s.size ∧ s'.num = s.num := by
  obtain ⟨r, e⟩ := sys_reads g h hc
  exact ⟨_, bytes_of_reads c e hf, rfl, rfl, rfl, rfl⟩

/-- **C25 (partial: no recurrent or LSTM layers).**  Loading what has been saved restores all
parameters, every rule in its order, and the counts of the population; it consumes the file exactly
and reports the same number of elements.  Networks come back with all weights and settings and with
new working memory.  Missing: networks with recurrent or LSTM layers
(`C25_recurrent_output_refuted`, `C25_lstm_function_refuted`) and systems with more GP constants than
the loading system has memory for (`C25_constants_refuted`). -/
theorem C25_round_trip_partial (c : Codec K) (g : Rng K R) {s t : Sys K R} (h : s.Whole)
    (hp : ∀ q ∈ s.rules, ruleNets FNet.plain q = true)
    (hc : s.par.cond.targs.nConstants ≤ t.par.cond.targs.constants.length)
    (hf : ∀ i ∈ sysItems s, i.Fits c) :
    ∃ s', sysLoad c g t (some (sysSave c s).1) = .ok (s', [], (sysSave c s).2) ∧
      s'.par = s.par.onto t.par ∧ s'.rules = s.rules.map (ruleMapNet FNet.fresh) ∧
      s'.size = s.size ∧ s'.num = s.num := by
  obtain ⟨s', e1, e2, e3, e4⟩ := C25_all_layers_partial c g h hc hf
  refine ⟨s', e1, e2, ?_, e4⟩
  rw [e3]
  exact List.map_congr_left fun q hq => rule_plain (hp q hq)

/-- **C25 (rules without networks).**  If no rule has a network the population that comes back is the
one that was saved; the parameters are too if both systems use the whole array of constants. -/
theorem C25_exact_partial (c : Codec K) (g : Rng K R) {s t : Sys K R} (h : s.Whole)
    (hp : ∀ q ∈ s.rules, ruleNets (fun _ => false) q = true)
    (h1 : s.par.cond.targs.constants.length = s.par.cond.targs.nConstants)
    (h2 : t.par.cond.targs.constants.length = s.par.cond.targs.nConstants)
    (hf : ∀ i ∈ sysItems s, i.Fits c) :
    ∃ s', sysLoad c g t (some (sysSave c s).1) = .ok (s', [], (sysSave c s).2) ∧
      s'.par = s.par ∧ s'.rules = s.rules ∧ s'.size = s.size ∧ s'.num = s.num := by
  obtain ⟨s', e1, e2, e3, e4⟩ := C25_all_layers_partial c g (t := t) h (by omega) hf
  refine ⟨s', e1, ?_, ?_, e4⟩
  · rw [e2]
    unfold SysPar.onto
    rw [List.take_of_length_le (by omega), List.drop_of_length_le (by omega), List.append_nil]
  · rw [e3]
    conv_rhs => rw [← List.map_id s.rules]
    exact List.map_congr_left fun q hq => rule_none _ (hp q hq)

/-- **C25 refuted for GP constants.**  Loading a system with more constants than the array of the
loading system holds writes behind the end of the array, for all systems. -/
theorem C25_constants_refuted (c : Codec K) (g : Rng K R) {s t : Sys K R} (h : s.Whole)
    (hc : t.par.cond.targs.constants.length < s.par.cond.targs.nConstants)
    (hf : ∀ i ∈ sysItems s, i.Fits c) :
    sysLoad c g t (some (sysSave c s).1) = .error .ub :=
  bytes_of_fails c (by decide) (sys_fails g h hc) hf 0

/-- A forward pass through a layer without memory for its outputs, if it ends at all, ends with such
a layer. -/
theorem forward_unwired (g : Rng K R) (m : Libm K) (lo : K) (train : Bool) :
    ∀ (ls : List (FLay K)) (x : List K) (r : R) {ls' : List (FLay K)} {r' : R},
      (∃ l ∈ ls, l.wired = false) → fnetForward g m lo train ls x r = .ok (ls', r') →
      ∃ l, ls'.getLast? = some l ∧ l.wired = false
  | [], _, _, _, _, h, _ => by simp at h
  | l :: ls, x, r, ls', r', h, hf => by
    unfold fnetForward at hf
    cases e : layerForward g m lo train l.lay x r with
    | error e' => rw [e] at hf; cases hf
    | ok k =>
      rw [e] at hf
      dsimp only at hf
      by_cases hw : l.wired = false
      · rw [if_pos hw] at hf
        split_ifs at hf with hn
        cases hf
        exact ⟨_, rfl, rfl⟩
      · rw [if_neg hw] at hf
        cases eo : k.1.outs with
        | error e' => rw [eo] at hf; cases hf
        | ok o =>
          rw [eo] at hf
          dsimp only at hf
          cases er : fnetForward g m lo train ls o k.2 with
          | error e' => rw [er] at hf; cases hf
          | ok z =>
            obtain ⟨zs, zr⟩ := z
            rw [er] at hf
            simp only [Except.ok.injEq, Prod.mk.injEq] at hf
            have hl : ∃ l ∈ ls, l.wired = false := by
              obtain ⟨l', h1, h2⟩ := h
              rcases List.mem_cons.1 h1 with rfl | h1
              · exact absurd h2 hw
              · exact ⟨l', h1, h2⟩
            obtain ⟨l', h1, h2⟩ := forward_unwired g m lo train ls o k.2 hl er
            refine ⟨l', ?_, h2⟩
            rw [← hf.1, List.getLast?_cons, h1]; rfl

/-- The outputs of a network with a layer without memory for its outputs cannot be computed. -/
theorem run_unwired (g : Rng K R) (m : Libm K) (lo : K) (train : Bool) {n : FNet K}
    (h : ∃ l ∈ n.layers, l.wired = false) (x : List K) (r : R) (i : Int) :
    ∃ e, fnetRun g m lo train n x r i = .error e := by
  unfold fnetRun
  cases e : fnetForward g m lo train n.layers x r with
  | error e' => exact ⟨e', rfl⟩
  | ok z =>
    obtain ⟨l, h1, h2⟩ := forward_unwired g m lo train _ _ _ h e
    dsimp only
    unfold fnetOutput
    split_ifs with hi
    · exact ⟨_, rfl⟩
    · rw [show (FNet.layers { n with layers := z.1 }).getLast? = some l from h1]
      simp [h2]

/-- **C25 refuted for recurrent layers.**  For all systems: if the prediction of a rule is a network
with a recurrent layer, the network that is loaded for it has no outputs.  Whatever the input, the
pass through it or the reading of an output goes through a null pointer (or fails before). -/
theorem C25_recurrent_output_refuted (c : Codec K) (g : Rng K R) {s t : Sys K R} (h : s.Whole)
    (hc : s.par.cond.targs.nConstants ≤ t.par.cond.targs.constants.length)
    (hf : ∀ i ∈ sysItems s, i.Fits c) {k : Nat} {q : Cl K (Body K)} {n : FNet K} {l : FLay K}
    {v : RLay K} (hk : s.rules[k]? = some q) (hq : q.body.pred = .neural n) (hl : l ∈ n.layers)
    (hv : l.lay = .recu v) :
    ∃ s' q' n', sysLoad c g t (some (sysSave c s).1) = .ok (s', [], (sysSave c s).2) ∧
      s'.rules[k]? = some q' ∧ q'.body.pred = .neural n' ∧
      ∀ (m : Libm K) (lo : K) (train : Bool) (x : List K) (r : R) (i : Int),
        ∃ e, fnetRun g m lo train n' x r i = .error e := by
  obtain ⟨s', e1, -, e3, -⟩ := C25_all_layers_partial c g h hc hf
  refine ⟨s', ruleMapNet FNet.reload q, n.reload, e1, ?_, ?_, fun m lo train x r i =>
    run_unwired g m lo train ⟨l.lay.reload, ?_, ?_⟩ x r i⟩
  · rw [e3, List.getElem?_map, hk]; rfl
  · simp only [ruleMapNet, hq, FPred.mapNet]
  · exact List.mem_map.2 ⟨l, hl, rfl⟩
  · rw [hv]; rfl

/-! ## C26: versions -/

/-- The three numbers a file starts with. -/
def fileInt (bs : List UInt8) (k : Nat) : Int := bitsInt (leVal ((bs.drop (4 * k)).take 4))

theorem chunk_long {w : Nat} (hw : 0 < w) {b : List UInt8} (hb : w ≤ b.length) :
    chunk w b = .ok (some (b.take w), b.drop w) := by
  unfold chunk
  rw [if_neg (by rintro rfl; simp at hb; omega), if_neg (by omega)]

theorem chunk_short {w : Nat} {b : List UInt8} (hb : b ≠ []) (hw : b.length < w) :
    chunk w b = .error .ub := by
  unfold chunk
  rw [if_neg hb, if_pos hw]

theorem load_start (c : Codec K) (g : Rng K R) (t : Sys K R) {bs : List UInt8}
    (h : 12 ≤ bs.length) :
    sysLoad c g t (some bs) =
      if fileInt bs 0 ≠ versionMajor ∨ fileInt bs 1 ≠ versionMinor then .error .exit
      else ((do
        let par ← parLoad t.par
        let (q, r) ← psetLoad g par t.rng
        .ret { t with
          par := par, rules := q.1, size := q.2.1, num := q.2.2, rng := r }) :
          Rd K (Sys K R)).runB c (bs.drop 12) 3 := by
  have c1 := chunk_long (w := 4) (b := bs) (by decide) (by omega)
  have c2 := chunk_long (w := 4) (b := bs.drop 4) (by decide) (by rw [List.length_drop]; omega)
  have c3 := chunk_long (w := 4) (b := (bs.drop 4).drop 4) (by decide)
    (by simp only [List.length_drop]; omega)
  unfold sysLoad sysRead
  simp only [getInt, bind_eq, Rd.bind, Rd.runB, c1, c2, c3, Option.map_some, Option.getD_some,
    counted, Option.isSome_some, if_true]
  have e0 : bitsInt (leVal (bs.take 4)) = fileInt bs 0 := by simp [fileInt]
  have e1 : bitsInt (leVal ((bs.drop 4).take 4)) = fileInt bs 1 := by simp [fileInt]
  simp only [e0, e1, List.drop_drop]
  split_ifs with hv
  · rfl
  · rfl

/-- A file of less than twelve bytes does not load. -/
theorem load_short (c : Codec K) (g : Rng K R) (t : Sys K R) {bs : List UInt8}
    (h : bs.length < 12) : ∃ e, sysLoad c g t (some bs) = .error e := by
  unfold sysLoad sysRead
  simp only [getInt, bind_eq, Rd.bind, Rd.runB]
  by_cases n1 : bs = []
  · subst n1
    exact ⟨.exit, by simp [chunk, versionMajor, Rd.lift, Rd.bind, Rd.runB]⟩
  by_cases l1 : bs.length < 4
  · rw [chunk_short n1 l1]; exact ⟨_, rfl⟩
  rw [chunk_long (w := 4) (by decide) (by omega)]
  dsimp only
  generalize e2 : bs.drop 4 = b2
  have h2 : b2.length < 8 := by rw [← e2, List.length_drop]; omega
  by_cases n2 : b2 = []
  · subst n2
    exact ⟨.exit, by simp [chunk, versionMajor, versionMinor, Rd.lift, Rd.bind, Rd.runB]⟩
  by_cases l2 : b2.length < 4
  · rw [chunk_short n2 l2]; exact ⟨_, rfl⟩
  rw [chunk_long (w := 4) (by decide) (by omega)]
  dsimp only
  generalize e3 : b2.drop 4 = b3
  have h3 : b3.length < 4 := by rw [← e3, List.length_drop]; omega
  by_cases n3 : b3 = []
  · subst n3
    refine ⟨.exit, ?_⟩
    simp only [chunk, if_true, Option.map_some, Option.getD_some]
    split_ifs
    · rfl
    · rfl
  · rw [chunk_short n3 h3]; exact ⟨_, rfl⟩

/-- **C26.**  A file whose major or minor version differs from that of the program is refused: the
program exits. -/
theorem C26_other_versions_refused (c : Codec K) (g : Rng K R) (t : Sys K R) {bs : List UInt8}
    (h : 12 ≤ bs.length) (hv : fileInt bs 0 ≠ versionMajor ∨ fileInt bs 1 ≠ versionMinor) :
    sysLoad c g t (some bs) = .error .exit := by
  rw [load_start c g t h, if_pos hv]

/-- **C26 (files of any length).**  Whatever is in the file: if it loads, it has the major and minor
version of the program. -/
theorem C26_loaded_has_version (c : Codec K) (g : Rng K R) (t : Sys K R) {bs : List UInt8}
    {z : Sys K R × List UInt8 × Nat} (h : sysLoad c g t (some bs) = .ok z) :
    12 ≤ bs.length ∧ fileInt bs 0 = versionMajor ∧ fileInt bs 1 = versionMinor := by
  have hl : 12 ≤ bs.length := by
    by_contra hl
    obtain ⟨e, he⟩ := load_short c g t (bs := bs) (by omega)
    rw [he] at h; cases h
  refine ⟨hl, ?_⟩
  by_contra hv
  rw [C26_other_versions_refused c g t hl (by tauto)] at h
  cases h

/-- **C26.**  The build number does not matter: files that differ in nothing else load to the same
system, or fail in the same way. -/
theorem C26_build_ignored (c : Codec K) (g : Rng K R) (t : Sys K R) {v b b' rest : List UInt8}
    (hv : v.length = 8) (hb : b.length = 4) (hb' : b'.length = 4) :
    sysLoad c g t (some (v ++ b ++ rest)) = sysLoad c g t (some (v ++ b' ++ rest)) := by
  have key : ∀ d : List UInt8, d.length = 4 →
      fileInt (v ++ d ++ rest) 0 = fileInt v 0 ∧ fileInt (v ++ d ++ rest) 1 = fileInt v 1 ∧
      (v ++ d ++ rest).drop 12 = rest := by
    intro d hd
    refine ⟨?_, ?_, ?_⟩
    · unfold fileInt
      rw [List.append_assoc, List.drop_append_of_le_length (by omega),
        List.take_append_of_le_length (by simp [hv])]
    · unfold fileInt
      rw [List.append_assoc, List.drop_append_of_le_length (by omega),
        List.take_append_of_le_length (by simp [hv])]
    · have : (v ++ d).length = 12 := by simp [hv, hd]
      rw [← this, List.drop_left]
  rw [load_start c g t (by simp [hv, hb]; omega), load_start c g t (by simp [hv, hb']; omega),
    (key b hb).1, (key b hb).2.1, (key b hb).2.2, (key b' hb').1, (key b' hb').2.1,
    (key b' hb').2.2]

/-! ## C72: the prediction array -/

/-- **C72 (partial).**  The prediction array has the size the loaded parameters need if both systems
have the same number of outputs and actions. -/
theorem C72_same_dimensions_partial (c : Codec K) (g : Rng K R) {s t : Sys K R} (h : s.Whole)
    (hc : s.par.cond.targs.nConstants ≤ t.par.cond.targs.constants.length)
    (hf : ∀ i ∈ sysItems s, i.Fits c)
    (ht : t.paSize = t.par.nActions * t.par.yDim)
    (hd : t.par.nActions * t.par.yDim = s.par.nActions * s.par.yDim) :
    ∃ s' n, sysLoad c g t (some (sysSave c s).1) = .ok (s', [], n) ∧
      s'.paSize = s'.par.nActions * s'.par.yDim := by
  obtain ⟨r, e⟩ := sys_reads g h hc
  exact ⟨_, _, bytes_of_reads c e hf, ht.trans hd⟩

/-! ## C73: files that have been cut -/

/-- **C73 refuted.**  For all systems, a file that has been cut after the number of actions loads
without an error: there are no rules, and all later parameters are those the loading system had
before. -/
theorem C73_cut_file_refuted (c : Codec K) (g : Rng K R) {s t : Sys K R} (hs : s.par.Whole)
    (ht : t.par.Whole) (hf : ∀ i ∈ sysItems s, i.Fits c) :
    ∃ k, k < (sysSave c s).1.length ∧ ∃ s' n,
      sysLoad c g t (some ((sysSave c s).1.take k)) = .ok (s', [], n) ∧
      s'.rules = [] ∧ s'.par.xDim = s.par.xDim ∧ s'.par.popSize = t.par.popSize ∧
      s'.par.beta = t.par.beta := by
  obtain ⟨i, is, e⟩ := sysItems_head s
  have ee : (sysSave c s).1 = encodeItems c (headItems s.par) ++ (i.bytes c ++ encodeItems c is) := by
    unfold sysSave encodeItems
    rw [e]; simp
  have hb : 0 < (i.bytes c).length := by
    rcases i with v | v | v | v | v | v <;> simp [Item.bytes, leBytes_length, c.len]
  refine ⟨(encodeItems c (headItems s.par)).length, ?_, headLoaded s t, ?_⟩
  · rw [ee, List.length_append, List.length_append]; omega
  · rw [ee, List.take_left]
    obtain ⟨m, e1, e2⟩ := runB_of_runI c (sysRead g t) (headItems s.par)
      (fun i hi => hf i (by rw [e]; simp [hi])) _ _ (head_reads g hs ht) 0
    exact ⟨m, e1, rfl, rfl, rfl, rfl⟩

/-- **C73 (partial).**  The number of elements that loading reports tells: for all cuts, a file that
has been cut either fails to load or reports fewer elements than were saved. -/
theorem C73_count_tells_partial (c : Codec K) (g : Rng K R) {s t : Sys K R} (h : s.Whole)
    (hc : s.par.cond.targs.nConstants ≤ t.par.cond.targs.constants.length)
    (hf : ∀ i ∈ sysItems s, i.Fits c) {k : Nat} (hk : k < (sysSave c s).1.length)
    {s' : Sys K R} {rest : List UInt8} {n : Nat}
    (hl : sysLoad c g t (some ((sysSave c s).1.take k)) = .ok (s', rest, n)) :
    n < (sysSave c s).2 := by
  obtain ⟨r, e⟩ := sys_reads g h hc
  have := e []
  rw [List.append_nil] at this
  have := runB_cut c (sysRead g t) (sysItems s) hf _ this k hk 0 s' rest n hl
  rw [Nat.zero_add] at this
  exact this

end

/-! ## Concrete systems -/

/-- Halves of natural numbers, stored as the number of halves. -/
def halves : Codec ℚ where
  enc v := leBytes 8 (2 * v).num.toNat
  dec b := (leVal b : ℚ) / 2
  len _ := leBytes_length _ _

instance (c : Codec ℚ) (i : Item ℚ) : Decidable (i.Fits c) := by
  unfold Item.Fits; cases i <;> infer_instance

/-- Parameters with two inputs, hyperrectangles, integer actions and linear predictions. -/
def demoPar : SysPar ℚ :=
  { popFile := ['p', '\x00'], time := 7, error := 1 / 2, msetSize := 3, asetSize := 2, mfrac := 1 / 2,
    explore := true, xDim := 2, yDim := 1, nActions := 3, ompNumThreads := 1, randomState := 5,
    popInit := true, maxTrials := 1000, perfTrials := 50, popSize := 20, lossFunc := 0,
    huberDelta := 1, gamma := 1 / 2, teletransportation := 50, pExplore := 1 / 2,
    setSubsumption := false, thetaSub := 100, e0 := 1 / 2, alpha := 1, nu := 5, beta := 1 / 2,
    delta := 1 / 2, thetaDel := 20, initFitness := 1, initError := 0, mProbation := 10000,
    stateful := true, compaction := false,
    ea := ⟨0, 1 / 2, 25, 2, 1, 1, 1 / 2, false, false⟩,
    act := ⟨0, []⟩,
    cond := ⟨1, 0, 0, 1, 1 / 2, 1 / 2, 1, ⟨true, 2, 3, 4, 2⟩, ⟨1, 0, 2, 2, 5, 100, [1 / 2, 1, 0]⟩, []⟩,
    pred := ⟨1, 1 / 2, 0, 1, 100, 1, false, []⟩ }

/-- A rule with the given action. -/
def fileRule (a : Int) : Cl ℚ (Body ℚ) :=
  { err := 1 / 2, fit := 1, num := 2, exp := 4, size := 3, time := 6, m := true, prediction := [3],
    action := a, age := 9, mtotal := 5,
    body := ⟨.rect ⟨[(1, 1 / 2), (0, 2)], 1 / 2⟩, .int ⟨a, 1 / 2⟩, .nlms ⟨3, [1, 0, 5 / 2], 1 / 2, 1⟩⟩ }

/-- A system with two rules. -/
def demoSys : Sys ℚ Nat :=
  { par := demoPar, rules := [fileRule 0, fileRule 2], size := 2, num := 4, paSize := 3, rng := 0 }

/-- A new system with one action that has more memory for constants. -/
def demoTarget : Sys ℚ Nat :=
  { par := { demoPar with
      popFile := ['\x00'], nActions := 1, popSize := 9, beta := 0,
      cond := { demoPar.cond with
        targs := { demoPar.cond.targs with nConstants := 4, constants := [1, 1, 1, 1] } } }
    rules := [], size := 0, num := 0, paSize := 1, rng := 3 }

theorem demoPar_whole : demoPar.Whole :=
  ⟨⟨['p'], rfl, by decide, by decide⟩, by decide, by decide⟩

theorem demoSys_whole : demoSys.Whole := by
  refine ⟨demoPar_whole, ?_, rfl, rfl⟩
  intro c hc
  simp only [demoSys, List.mem_cons, List.not_mem_nil, or_false] at hc
  rcases hc with rfl | rfl <;> exact ⟨rfl, ⟨.inl rfl, rfl⟩, ⟨rfl, by decide⟩, ⟨.inl rfl, rfl⟩⟩

theorem demoTarget_whole : demoTarget.Whole :=
  ⟨⟨⟨[], rfl, by decide, by decide⟩, by decide, by decide⟩, by simp [demoTarget], rfl, rfl⟩

theorem demoSys_fits : ∀ i ∈ sysItems demoSys, i.Fits halves := by decide +kernel

/-- The hypotheses of the theorems above are met, and the file is not trivial. -/
example : (∃ s', sysLoad halves (stepRng 4 fun _ => 0) demoTarget (some (sysSave halves demoSys).1) =
      .ok (s', [], (sysSave halves demoSys).2) ∧
      s'.par = demoSys.par.onto demoTarget.par ∧
      s'.rules = demoSys.rules.map (ruleMapNet FNet.fresh) ∧ s'.size = demoSys.size ∧
      s'.num = demoSys.num) ∧ 600 < (sysSave halves demoSys).1.length :=
  ⟨C25_round_trip_partial halves _ demoSys_whole (by decide) (by decide) demoSys_fits,
    by decide +kernel⟩

/-- If all rules are without networks and the arrays of constants are in use. -/
example : ∃ s', sysLoad halves (stepRng 4 fun _ => 0)
      { demoTarget with par := { demoPar with
          nActions := 1
          cond := { demoPar.cond with
            targs := { demoPar.cond.targs with constants := [1, 1] } } } }
      (some (sysSave halves { demoSys with par := { demoPar with
        cond := { demoPar.cond with
          targs := { demoPar.cond.targs with constants := [0, 1] } } } }).1) = .ok s' := by
  obtain ⟨s', e, -⟩ := C25_exact_partial halves (stepRng 4 fun _ => 0)
    (s := { demoSys with par := { demoPar with
        cond := { demoPar.cond with
          targs := { demoPar.cond.targs with constants := [0, 1] } } } })
    (t := { demoTarget with par := { demoPar with
          nActions := 1
          cond := { demoPar.cond with
            targs := { demoPar.cond.targs with constants := [1, 1] } } } })
    ⟨⟨⟨['p'], rfl, by decide, by decide⟩, by decide, by decide⟩, by
      intro c hc
      simp only [demoSys, List.mem_cons, List.not_mem_nil, or_false] at hc
      rcases hc with rfl | rfl <;> exact ⟨rfl, ⟨.inl rfl, rfl⟩, ⟨rfl, by decide⟩, ⟨.inl rfl, rfl⟩⟩,
      rfl, rfl⟩ (by decide) rfl rfl (by decide +kernel)
  exact ⟨_, e⟩

/-- A system with too few constants. -/
example : sysLoad halves (stepRng 4 fun _ => 0)
    { demoTarget with par := { demoTarget.par with
        cond := { demoTarget.par.cond with
          targs := { demoTarget.par.cond.targs with nConstants := 1, constants := [1] } } } }
    (some (sysSave halves demoSys).1) = .error .ub :=
  C25_constants_refuted halves _ demoSys_whole (by decide) demoSys_fits

/-- A file of another version, and one of another build. -/
example : sysLoad halves (stepRng 4 fun _ => 0) demoTarget
      (some (leBytes 4 1 ++ leBytes 4 3 ++ leBytes 4 0)) = .error .exit ∧
    (∃ s', sysLoad halves (stepRng 4 fun _ => 0) demoTarget
      (some (leBytes 4 1 ++ leBytes 4 4 ++ leBytes 4 99 ++ (sysSave halves demoSys).1.drop 12)) =
        .ok s') := by
  refine ⟨C26_other_versions_refused halves _ _ (by decide) (by decide), ?_⟩
  obtain ⟨s', e, -⟩ := C25_round_trip_partial halves (stepRng 4 fun _ => 0) (t := demoTarget)
    demoSys_whole (by decide) (by decide) demoSys_fits
  rw [C26_build_ignored halves _ _ (b' := leBytes 4 7) (by decide) (by decide) (by decide)]
  have : leBytes 4 1 ++ leBytes 4 4 ++ leBytes 4 7 ++ (sysSave halves demoSys).1.drop 12 =
      (sysSave halves demoSys).1 := by decide +kernel
  rw [this]
  exact ⟨_, e⟩

/-- **C72 refuted.**  A system with three actions is loaded by one that was set up with one action:
the prediction array keeps its one element, and the prediction for the rules that were loaded is
written behind it.  The system that was saved has no such problem. -/
theorem C72_array_not_resized_refuted :
    demoSys.Whole ∧ demoTarget.Whole ∧
    demoSys.paSize = demoSys.par.nActions * demoSys.par.yDim ∧
    demoTarget.paSize = demoTarget.par.nActions * demoTarget.par.yDim ∧
    (∃ z, paRules demoSys.par.yDim.toNat demoSys.rules (List.replicate demoSys.paSize.toNat 0)
      (List.replicate demoSys.paSize.toNat 0) = .ok z) ∧
    ∃ s' n, sysLoad halves (stepRng 4 fun _ => 0) demoTarget (some (sysSave halves demoSys).1) =
        .ok (s', [], n) ∧
      s'.paSize < s'.par.nActions * s'.par.yDim ∧
      paRules s'.par.yDim.toNat s'.rules (List.replicate s'.paSize.toNat 0)
        (List.replicate s'.paSize.toNat 0) = .error .ub := by
  refine ⟨demoSys_whole, demoTarget_whole, by decide, by decide, ⟨_, rfl⟩, ?_⟩
  obtain ⟨r, e⟩ := sys_reads (stepRng 4 fun _ => 0) (t := demoTarget) demoSys_whole (by decide)
  exact ⟨_, _, bytes_of_reads halves e demoSys_fits, by show (1 : Int) < 3 * 1; decide, rfl⟩

example : ∃ s' n, sysLoad halves (stepRng 4 fun _ => 0) { demoTarget with
      paSize := 3, par := { demoTarget.par with nActions := 3 } } (some (sysSave halves demoSys).1) =
        .ok (s', [], n) ∧ s'.paSize = s'.par.nActions * s'.par.yDim :=
  C72_same_dimensions_partial halves _ demoSys_whole (by decide) demoSys_fits (by decide) (by decide)

/-- The file of a system, cut. -/
example : ∃ k, k < (sysSave halves demoSys).1.length ∧ ∃ s' n,
    sysLoad halves (stepRng 4 fun _ => 0) demoTarget (some ((sysSave halves demoSys).1.take k)) =
      .ok (s', [], n) ∧ s'.rules = [] ∧ s'.par.xDim = 2 ∧ s'.par.popSize = 9 ∧ s'.par.beta = 0 :=
  C73_cut_file_refuted halves _ demoPar_whole demoTarget_whole.par demoSys_fits

/-- Cut files that report a number of elements. -/
example : ∃ k s' n, sysLoad halves (stepRng 4 fun _ => 0) demoTarget
    (some ((sysSave halves demoSys).1.take k)) = .ok (s', [], n) ∧ n < (sysSave halves demoSys).2 := by
  obtain ⟨k, hk, s', n, e, -⟩ := C73_cut_file_refuted halves (stepRng 4 fun _ => 0) demoPar_whole
    demoTarget_whole.par demoSys_fits
  exact ⟨k, s', n, e, C73_count_tells_partial halves _ demoSys_whole (by decide) demoSys_fits hk e⟩

/-! ## Networks with memory -/

/-- A connected layer with one input and one output, linear. -/
def unitConn (w : ℚ) : CLay ℚ :=
  { nInputs := 1, nOutputs := 1, maxOutputs := 1, maxGrow := 1, nActive := 1, outW := 1, outH := 1,
    outC := 1, fn := 3, opt := ⟨true, false, false, true, false, false⟩, eta := 1, etaMax := 1,
    etaMin := 0, momentum := 0, decay := 0, ws := [⟨w, 0, true⟩], ns := [⟨0, 0, 0, 0, 0⟩],
    mu := [1, 1, 1, 1, 1, 1] }

theorem unitConn_whole (w : ℚ) : (unitConn w).Whole :=
  ⟨by simp [unitConn], by simp [unitConn], rfl, rfl⟩

/-- A recurrent layer with one input and one output, linear. -/
def unitRec : RLay ℚ :=
  { nInputs := 1, nOutputs := 1, maxOutputs := 1, nActive := 1, outW := 1, fn := 3,
    opt := ⟨true, false, false, true, true, false⟩, eta := 1, etaMax := 1, etaMin := 1 / 2,
    state := [some 0], prev := [some 0], inp := unitConn 2, self := unitConn 1, out := unitConn 1,
    mu := [1, 1, 1, 1, 1, 1] }

theorem unitRec_whole : unitRec.Whole :=
  ⟨by simp [unitRec], rfl, rfl, rfl, unitConn_whole _, unitConn_whole _, unitConn_whole _⟩

/-- An LSTM layer with one input and one output, all functions linear. -/
def unitLstm : TLay ℚ :=
  { nInputs := 1, nOutputs := 1, maxOutputs := 1, maxGrow := 1, nActive := 1, outW := 1, fn := 3,
    rfn := 3, opt := ⟨true, false, false, true, false, false⟩, eta := 1, etaMax := 1, momentum := 0,
    decay := 0, u := ⟨unitConn 1, unitConn 1, unitConn 1, unitConn 1⟩,
    w := ⟨unitConn 1, unitConn 1, unitConn 1, unitConn 1⟩, gate := ⟨[0], [0], [0], [0]⟩, c := [0],
    h := [0], dc := [0], output := [0], delta := [0], prevState := [0], prevCell := [0],
    mu := [1, 1, 1, 1, 1, 1] }

theorem unitLstm_whole : unitLstm.Whole :=
  ⟨by simp [unitLstm], rfl, rfl, rfl, rfl, rfl, rfl, rfl, rfl, rfl, unitConn_whole _,
    unitConn_whole _, unitConn_whole _, unitConn_whole _, unitConn_whole _, unitConn_whole _,
    unitConn_whole _, unitConn_whole _⟩

/-- A system with one rule whose prediction is a network of one layer. -/
def neuralSys (l : GLay ℚ) : Sys ℚ Nat :=
  { demoSys with
    par := { demoPar with pred := { demoPar.pred with type := 5 } }
    rules := [{ fileRule 0 with
      body := { (fileRule 0).body with pred := .neural ⟨1, 1, [⟨l, true⟩]⟩ } }]
    size := 1
    num := 2 }

theorem neuralSys_whole {l : GLay ℚ} (h : l.Whole) (h1 : l.nIn = 1) (h2 : l.dim.n = 1) :
    (neuralSys l).Whole := by
  have w := demoPar_whole
  refine ⟨⟨w.name, w.dims, w.constants⟩, ?_, rfl, rfl⟩
  intro c hc
  simp only [neuralSys, List.mem_cons, List.not_mem_nil, or_false] at hc
  subst hc
  have w : ¬ruleType demoPar.cond.type := by decide
  exact ⟨rfl, ⟨.inl rfl, rfl⟩, ⟨rfl, w⟩, rfl, by simpa using h, by simp [h1], by simp [h2]⟩

/-- The result is the given number. -/
def isVal (v : ℚ) : Res ℚ → Bool
  | .ok w => decide (w = v)
  | .error _ => false

theorem of_isVal {v : ℚ} {x : Res ℚ} (h : isVal v x = true) : x = .ok v := by
  cases x with
  | error e => simp [isVal] at h
  | ok w => simp only [isVal, decide_eq_true_eq] at h; rw [h]

/-- The hypotheses of `C25_recurrent_output_refuted` are met by a network that has an output before
it is saved. -/
example : (∃ s' q' n', sysLoad halves (stepRng 4 fun _ => 0) demoTarget
        (some (sysSave halves (neuralSys (.recu unitRec))).1) =
          .ok (s', [], (sysSave halves (neuralSys (.recu unitRec))).2) ∧
      s'.rules[0]? = some q' ∧ q'.body.pred = .neural n' ∧
      ∀ (m : Libm ℚ) (lo : ℚ) (train : Bool) (x : List ℚ) (r : Nat) (i : Int),
        ∃ e, fnetRun (stepRng 4 fun _ => 0) m lo train n' x r i = .error e) ∧
    fnetRun (stepRng 4 fun _ => 0) demoLibm 0 false ⟨1, 1, [⟨.recu unitRec, true⟩]⟩ [3] 0 0 =
      .ok 6 :=
  ⟨C25_recurrent_output_refuted halves _ (neuralSys_whole (l := .recu unitRec) unitRec_whole rfl rfl) (by decide)
    (by decide +kernel) (k := 0) rfl rfl (l := ⟨.recu unitRec, true⟩) (by simp) rfl,
    of_isVal (by decide +kernel)⟩

/-- An exponential function with the right signs. -/
def signLibm : Libm ℚ := { demoLibm with exp := fun x => if x = 0 then 1 else if x < 0 then 1 / 2 else 2 }

/-- **C25 refuted for LSTM layers.**  The activation functions of an LSTM layer are not saved: a
network of linear LSTM layers computes zero for the input zero, the network that is loaded computes
something else. -/
theorem C25_lstm_function_refuted :
    ∃ (s t : Sys ℚ Nat) (n n' : FNet ℚ) (s' : Sys ℚ Nat), s.Whole ∧ t.Whole ∧
      sysLoad halves (stepRng 4 fun _ => 0) t (some (sysSave halves s).1) =
        .ok (s', [], (sysSave halves s).2) ∧
      s.rules.map (fun q => q.body.pred) = [.neural n] ∧
      s'.rules.map (fun q => q.body.pred) = [.neural n'] ∧
      fnetRun (stepRng 4 fun _ => 0) signLibm 0 false n [0] 0 0 = .ok 0 ∧
      ∃ v, fnetRun (stepRng 4 fun _ => 0) signLibm 0 false n' [0] 0 0 = .ok v ∧ v ≠ 0 := by
  obtain ⟨r, e⟩ := sys_reads (stepRng 4 fun _ => 0) (t := demoTarget)
    (neuralSys_whole (l := .lstm unitLstm) unitLstm_whole rfl rfl) (by decide)
  refine ⟨_, _, ⟨1, 1, [⟨.lstm unitLstm, true⟩]⟩, ⟨1, 1, [⟨.lstm unitLstm.reload, true⟩]⟩, _,
    neuralSys_whole (l := .lstm unitLstm) unitLstm_whole rfl rfl, demoTarget_whole,
    bytes_of_reads halves e (by decide +kernel), rfl, rfl, of_isVal (by decide +kernel), 1 / 3, of_isVal (by decide +kernel),
    by norm_num⟩

end Xcsf
