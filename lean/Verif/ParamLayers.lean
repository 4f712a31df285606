import Verif.ParamTrip

/-!
# Importing reported layers (helper file)
-/

set_option linter.unusedSectionVars false

namespace Xcsf

section
variable {K R : Type} [Field K] [LinearOrder K] [IsStrictOrderedRing K] [FloorRing K]

/-! ## Reading the members of a layer -/

/-- The loop over the members of a layer. -/
def layerFold (a : LArg K) (l : List (String × Json K)) : Res (LArg K) := l.foldlM layerMember a

theorem layerFold_cons {a b : LArg K} {m : String × Json K} {l} (h : layerMember a m = .ok b) :
    layerFold a (m :: l) = layerFold b l := by
  simp only [layerFold, List.foldlM_cons, h, bind, Except.bind]

theorem layerFold_append {a b : LArg K} {l l' : List (String × Json K)}
    (h : layerFold a l = .ok b) : layerFold a (l ++ l') = layerFold b l' := by
  simp only [layerFold] at h
  simp only [layerFold, List.foldlM_append, h, bind, Except.bind]

theorem layerMember_of {a : LArg K} {n : String} {j : Json K} {b : LArg K}
    (hn : isRecurrentActivation n = false) (h : importMember layerTable0 a (n, j) = .ok b) :
    layerMember a (n, j) = .ok b := by
  rw [layerMember]
  simp only [hn]
  exact h

/-- Kinds of layers without an activation function. -/
abbrev noFn (t : Int) : Prop := t = 8 ∨ t = 6 ∨ t = 9 ∨ t = 1 ∨ t = 2 ∨ t = 3

/-- Kinds of layers of which little is reported. -/
abbrev short (t : Int) : Prop := t = 2 ∨ t = 1 ∨ t = 3 ∨ t = 6

def echoFn (b a : LArg K) : LArg K :=
  if noFn b.type then a
  else if b.type = 5 then { a with fn := b.fn, rfn := b.rfn } else { a with fn := b.fn }

def posOr (x y : Int) : Int := if 0 < x then x else y

def echoIn (b a : LArg K) : LArg K :=
  if receivesImages b.type then
    { a with
      height := posOr b.height a.height, width := posOr b.width a.width,
      channels := posOr b.channels a.channels, size := posOr b.size a.size,
      stride := posOr b.stride a.stride, pad := posOr b.pad a.pad }
  else a

def echoScale (b a : LArg K) : LArg K :=
  { a with
    probability := if b.type = 2 ∨ b.type = 1 then b.probability else a.probability
    scale := if b.type = 2 ∨ b.type = 3 then b.scale else a.scale }

def echoInit (b a : LArg K) : LArg K := { a with nInit := posOr b.nInit a.nInit }

def echoEvo (b a : LArg K) : LArg K :=
  { a with
    evolveWeights := b.evolveWeights, evolveFunctions := b.evolveFunctions,
    evolveConnect := b.evolveConnect, evolveNeurons := b.evolveNeurons,
    nMax := if b.evolveNeurons then b.nMax else a.nMax,
    maxGrow := if b.evolveNeurons then b.maxGrow else a.maxGrow }

def echoSgd (b a : LArg K) : LArg K :=
  if b.sgdWeights then
    { a with
      sgdWeights := true, eta := b.eta, evolveEta := b.evolveEta,
      etaMin := if b.evolveEta then b.etaMin else a.etaMin, momentum := b.momentum,
      decay := b.decay }
  else { a with sgdWeights := false }

/-- The layer that is imported from the report of a layer. -/
def LArg.echo (x : Int) (b : LArg K) : LArg K :=
  let a := echoScale b (echoIn b (echoFn b { LArg.zero with nInputs := x, type := b.type }))
  if short b.type then a else echoSgd b (echoEvo b (echoInit b a))

theorem fold_fn {b : LArg K} {l} (h : activationMembers b = .ok l) (a : LArg K) :
    layerFold a l = .ok (echoFn b a) := by
  unfold activationMembers at h
  unfold echoFn
  by_cases h1 : noFn b.type
  · rw [if_pos h1]
    rw [if_pos h1] at h
    cases h
    rfl
  rw [if_neg h1]
  rw [if_neg h1] at h
  cases hf : nameOf activationNames b.fn with
  | error e => rw [hf] at h; cases h
  | ok f =>
    have hc := (C47_names.2.2.2.2.2.1 b.fn f).2 hf
    rw [hf] at h
    simp only [bind, Except.bind] at h
    by_cases h5 : b.type = 5
    · rw [if_pos h5]
      rw [if_pos h5] at h
      cases hr : nameOf activationNames b.rfn with
      | error e => rw [hr] at h; cases h
      | ok f2 =>
        have hc2 := (C47_names.2.2.2.2.2.1 b.rfn f2).2 hr
        rw [hr] at h
        cases h
        rw [layerFold_cons (layerMember_of rfl (member_name rfl hc a))]
        rw [layerFold_cons (b := { a with fn := b.fn, rfn := b.rfn })]
        · rfl
        · rw [layerMember, if_pos (show isRecurrentActivation "recurrent_activation" = true by
            decide +kernel)]
          exact member_name (K := K) (t := [("recurrent_activation",
            nameSet activationCodes fun c a => { a with rfn := c })]) (n := "recurrent_activation")
            rfl hc2 { a with fn := b.fn }
    · rw [if_neg h5]
      rw [if_neg h5] at h
      cases h
      rw [layerFold_cons (layerMember_of rfl (member_name rfl hc a))]
      rfl

theorem fold_pos {n : String} {put : Int → LArg K → LArg K} {old : LArg K → Int}
    (hn : isRecurrentActivation n = false)
    (ht : layerTable0.lookup n = some (intSet anyK put)) (hp : ∀ a, put (old a) a = a) {i : Int}
    (hi : IsInt i) (a : LArg K) :
    layerFold a (if 0 < i then [(n, jsonOfInt i)] else []) = .ok (put (posOr i (old a)) a) := by
  unfold posOr
  by_cases h : 0 < i
  · rw [if_pos h, if_pos h, layerFold_cons (layerMember_of hn (member_int ht hi rfl a))]
    rfl
  · rw [if_neg h, if_neg h, hp]
    rfl

theorem fold_in {b : LArg K} (I : b.Ints) (a : LArg K) :
    layerFold a (inputMembers b) = .ok (echoIn b a) := by
  unfold inputMembers echoIn
  by_cases h : receivesImages b.type = true
  · rw [if_pos h, if_pos h]
    simp only [List.append_assoc]
    rw [layerFold_append (fold_pos (old := LArg.height) rfl rfl (fun _ => rfl) I.height a),
      layerFold_append (fold_pos (old := LArg.width) rfl rfl (fun _ => rfl) I.width _),
      layerFold_append (fold_pos (old := LArg.channels) rfl rfl (fun _ => rfl) I.channels _),
      layerFold_append (fold_pos (old := LArg.size) rfl rfl (fun _ => rfl) I.size _),
      layerFold_append (fold_pos (old := LArg.stride) rfl rfl (fun _ => rfl) I.stride _)]
    exact (fold_pos (old := LArg.pad) rfl rfl (fun _ => rfl) I.pad _).trans rfl
  · rw [if_neg h, if_neg h]
    rw [layerFold_cons (layerMember_of rfl (member_int rfl I.nInputs rfl a))]
    rfl

theorem fold_scale (b a : LArg K) : layerFold a (scaleMembers b).1 = .ok (echoScale b a) := by
  unfold scaleMembers echoScale
  have h1 : layerFold a (if b.type = 2 ∨ b.type = 1 then [("probability", .num b.probability)]
      else []) = .ok { a with
        probability := if b.type = 2 ∨ b.type = 1 then b.probability else a.probability } := by
    by_cases h : b.type = 2 ∨ b.type = 1
    · rw [if_pos h, if_pos h, layerFold_cons (layerMember_of rfl (member_num rfl rfl a))]
      rfl
    · rw [if_neg h, if_neg h]
      rfl
  rw [layerFold_append h1]
  by_cases h : b.type = 2 ∨ b.type = 3
  · rw [if_pos h, if_pos h, layerFold_cons (layerMember_of rfl (member_num rfl rfl _))]
    rfl
  · rw [if_neg h, if_neg h]
    rfl

theorem fold_evo {b : LArg K} (I : b.Ints) (a : LArg K) :
    layerFold a (evoMembers b) = .ok (echoEvo b a) := by
  unfold evoMembers echoEvo
  rw [List.cons_append, layerFold_cons (layerMember_of rfl (member_bool rfl _ _)),
    List.cons_append, layerFold_cons (layerMember_of rfl (member_bool rfl _ _)),
    List.cons_append, layerFold_cons (layerMember_of rfl (member_bool rfl _ _)),
    List.cons_append, layerFold_cons (layerMember_of rfl (member_bool rfl _ _)), List.nil_append]
  by_cases h : b.evolveNeurons = true
  · simp only [if_pos h]
    rw [layerFold_cons (layerMember_of rfl (member_int rfl I.nMax rfl _)),
      layerFold_cons (layerMember_of rfl (member_int rfl I.maxGrow rfl _))]
    rfl
  · simp only [if_neg h]
    rfl

theorem fold_sgd (b a : LArg K) : layerFold a (sgdMembers b) = .ok (echoSgd b a) := by
  unfold sgdMembers echoSgd
  rw [List.cons_append, layerFold_cons (layerMember_of rfl (member_bool rfl _ _)), List.nil_append]
  by_cases h : b.sgdWeights = true
  · simp only [if_pos h]
    rw [List.append_assoc, List.cons_append,
      layerFold_cons (layerMember_of rfl (member_num rfl rfl _)), List.cons_append,
      layerFold_cons (layerMember_of rfl (member_bool rfl _ _)), List.nil_append]
    by_cases h2 : b.evolveEta = true
    · simp only [if_pos h2]
      rw [List.cons_append, layerFold_cons (layerMember_of rfl (member_num rfl rfl _)),
        List.nil_append, layerFold_cons (layerMember_of rfl (member_num rfl rfl _)),
        layerFold_cons (layerMember_of rfl (member_num rfl rfl _)), h]
      rfl
    · simp only [if_neg h2]
      rw [List.nil_append, layerFold_cons (layerMember_of rfl (member_num rfl rfl _)),
        layerFold_cons (layerMember_of rfl (member_num rfl rfl _)), h]
      rfl
  · simp only [if_neg h]
    rw [Bool.not_eq_true] at h
    rw [h]
    rfl

theorem importLayer_echo {b : LArg K} (I : b.Ints) {l} (h : layerMembers b = .ok l) (x : Int) :
    importLayer x (.obj l) = .ok (b.echo x) := by
  unfold layerMembers at h
  cases ht : nameOf layerNames b.type with
  | error e => rw [ht] at h; cases h
  | ok t =>
    rw [ht] at h
    simp only [bind, Except.bind] at h
    cases hf : activationMembers b with
    | error e => rw [hf] at h; cases h
    | ok f =>
      rw [hf] at h
      cases h
      have hc := (C47_layers_partial b.type t).1 ht
      have H : ∀ l', layerFold { LArg.zero with nInputs := x }
          (("type", .str (String.ofList t)) :: (f ++ (inputMembers b ++ ((scaleMembers b).1 ++ l'))))
          = layerFold (echoScale b (echoIn b (echoFn b
            { LArg.zero with nInputs := x, type := b.type }))) l' := by
        intro l'
        rw [layerFold_cons (layerMember_of rfl (member_name rfl hc _)),
          layerFold_append (fold_fn hf _), layerFold_append (fold_in I _),
          layerFold_append (fold_scale b _)]
      show layerFold _ _ = _
      unfold LArg.echo
      by_cases hs : short b.type
      · have hs' : (scaleMembers b).2 = true := decide_eq_true hs
        rw [if_pos hs, hs']
        simp only [if_true, List.append_assoc, List.cons_append, List.nil_append]
        have := H []
        rw [List.append_nil] at this
        exact this.trans rfl
      · have hs' : (scaleMembers b).2 = false := decide_eq_false hs
        rw [if_neg hs, hs']
        have := H ((if 0 < b.nInit then [("n_init", jsonOfInt b.nInit)] else []) ++ (evoMembers b ++
          sgdMembers b))
        simp only [Bool.false_eq_true, if_false, List.append_assoc, List.cons_append,
          List.nil_append]
        rw [this, layerFold_append (fold_pos (old := LArg.nInit) rfl rfl (fun _ => rfl) I.nInit _),
          layerFold_append (fold_evo I _), fold_sgd]
        rfl

/-! ## What a report shows -/

/-- Two descriptions with the same report. -/
structure SameView (b c : LArg K) : Prop where
  type : c.type = b.type
  fn : ¬ noFn b.type → c.fn = b.fn
  rfn : b.type = 5 → c.rfn = b.rfn
  nInputs : receivesImages b.type = false → c.nInputs = b.nInputs
  image : receivesImages b.type = true → posOr c.height 0 = posOr b.height 0 ∧
    posOr c.width 0 = posOr b.width 0 ∧ posOr c.channels 0 = posOr b.channels 0 ∧
    posOr c.size 0 = posOr b.size 0 ∧ posOr c.stride 0 = posOr b.stride 0 ∧
    posOr c.pad 0 = posOr b.pad 0
  probability : b.type = 2 ∨ b.type = 1 → c.probability = b.probability
  scale : b.type = 2 ∨ b.type = 3 → c.scale = b.scale
  nInit : ¬ short b.type → posOr c.nInit 0 = posOr b.nInit 0
  flags : ¬ short b.type → c.evolveWeights = b.evolveWeights ∧
    c.evolveFunctions = b.evolveFunctions ∧ c.evolveConnect = b.evolveConnect ∧
    c.evolveNeurons = b.evolveNeurons ∧ c.sgdWeights = b.sgdWeights
  evolves : ¬ short b.type → b.evolveNeurons = true → c.nMax = b.nMax ∧ c.maxGrow = b.maxGrow
  sgd : ¬ short b.type → b.sgdWeights = true → c.eta = b.eta ∧ c.evolveEta = b.evolveEta ∧
    c.momentum = b.momentum ∧ c.decay = b.decay
  etaMin : ¬ short b.type → b.sgdWeights = true → b.evolveEta = true → c.etaMin = b.etaMin

theorem pos_list {n : String} {x y : Int} (h : posOr y 0 = posOr x 0) :
    (if 0 < y then [(n, (jsonOfInt y : Json K))] else []) =
      if 0 < x then [(n, jsonOfInt x)] else [] := by
  unfold posOr at h
  by_cases h1 : 0 < x <;> by_cases h2 : 0 < y
  · rw [if_pos h1, if_pos h2] at h; rw [h]
  · rw [if_pos h1, if_neg h2] at h; omega
  · rw [if_neg h1, if_pos h2] at h; omega
  · rw [if_neg h1, if_neg h2]

theorem SameView.activation {b c : LArg K} (h : SameView b c) :
    activationMembers c = activationMembers b := by
  unfold activationMembers
  rw [h.type]
  by_cases h1 : noFn b.type
  · rw [if_pos h1, if_pos h1]
  rw [if_neg h1, if_neg h1, h.fn h1]
  by_cases h5 : b.type = 5
  · simp only [if_pos h5, h.rfn h5]
  · simp only [if_neg h5]

theorem SameView.inputs {b c : LArg K} (h : SameView b c) : inputMembers c = inputMembers b := by
  unfold inputMembers
  rw [h.type]
  by_cases h1 : receivesImages b.type = true
  · obtain ⟨e1, e2, e3, e4, e5, e6⟩ := h.image h1
    rw [if_pos h1, if_pos h1, pos_list e1, pos_list e2, pos_list e3, pos_list e4, pos_list e5,
      pos_list e6]
  · rw [if_neg h1, if_neg h1, h.nInputs (by simpa using h1)]

theorem SameView.scaling {b c : LArg K} (h : SameView b c) : scaleMembers c = scaleMembers b := by
  unfold scaleMembers
  rw [h.type]
  congr 2
  · by_cases h1 : b.type = 2 ∨ b.type = 1
    · rw [if_pos h1, if_pos h1, h.probability h1]
    · rw [if_neg h1, if_neg h1]
  · by_cases h1 : b.type = 2 ∨ b.type = 3
    · rw [if_pos h1, if_pos h1, h.scale h1]
    · rw [if_neg h1, if_neg h1]

theorem SameView.members {b c : LArg K} (h : SameView b c) : layerMembers c = layerMembers b := by
  unfold layerMembers
  rw [h.activation, h.inputs, h.scaling, h.type]
  by_cases hs : short b.type
  · have hs' : (scaleMembers b).2 = true := decide_eq_true hs
    simp only [hs', if_true]
  · have hs' : (scaleMembers b).2 = false := decide_eq_false hs
    have e1 : evoMembers c = evoMembers b := by
      obtain ⟨e1, e2, e3, e4, -⟩ := h.flags hs
      unfold evoMembers
      rw [e1, e2, e3, e4]
      by_cases h1 : b.evolveNeurons = true
      · rw [if_pos h1, if_pos h1, (h.evolves hs h1).1, (h.evolves hs h1).2]
      · rw [if_neg h1, if_neg h1]
    have e2 : sgdMembers c = sgdMembers b := by
      obtain ⟨-, -, -, -, e5⟩ := h.flags hs
      unfold sgdMembers
      rw [e5]
      by_cases h1 : b.sgdWeights = true
      · obtain ⟨f1, f2, f3, f4⟩ := h.sgd hs h1
        rw [if_pos h1, if_pos h1, f1, f2, f3, f4]
        by_cases h2 : b.evolveEta = true
        · rw [if_pos h2, if_pos h2, h.etaMin hs h1 h2]
        · rw [if_neg h2, if_neg h2]
      · rw [if_neg h1, if_neg h1]
    simp only [hs', e1, e2, pos_list (h.nInit hs)]

theorem SameView.all {bs cs : List (LArg K)} (h : List.Forall₂ SameView bs cs) :
    cs.mapM layerMembers = bs.mapM layerMembers := by
  induction h with
  | nil => rfl
  | cons h _ ih => rw [List.mapM_cons, List.mapM_cons, h.members, ih]

/-! ## Sizes -/

theorem gargs_type {a : LArg K} {z} (h : a.sizes = .ok z) : a.type = 0 ∨ a.type = 1 ∨ a.type = 2 ∨
    a.type = 3 ∨ a.type = 4 ∨ a.type = 5 ∨ a.type = 6 ∨ a.type = 7 ∨ a.type = 8 ∨ a.type = 9 := by
  by_contra hc
  simp only [not_or] at hc
  obtain ⟨h0, h1, h2, h3, h4, h5, h6, h7, h8, h9⟩ := hc
  unfold LArg.sizes LArg.gargs at h
  rw [if_neg h0, if_neg h1, if_neg h2, if_neg h3, if_neg h4, if_neg h5, if_neg h6, if_neg h7,
    if_neg h8, if_neg h9] at h
  cases h

/-- Descriptions of layers of the same sizes. -/
structure SameSize (b c : LArg K) : Prop where
  type : c.type = b.type
  nInputs : receivesImages b.type = false → c.nInputs = b.nInputs
  nInit : ¬ short b.type → c.nInit.toNat = b.nInit.toNat
  dims : receivesImages b.type = true ∨ b.type = 1 ∨ b.type = 2 →
    c.height = b.height ∧ c.width = b.width ∧ c.channels = b.channels
  kernel : receivesImages b.type = true →
    c.size = b.size ∧ c.stride = b.stride ∧ c.pad = b.pad

theorem SameSize.sizes {b c : LArg K} (h : SameSize b c) : c.sizes = b.sizes := by
  unfold LArg.sizes LArg.gargs
  rw [h.type]
  have E := h.type
  by_cases h0 : b.type = 0
  · simp only [if_pos h0, shape, LArg.cargs, h.nInputs (by rw [h0]; rfl),
      h.nInit (by rw [h0]; decide)]
  rw [if_neg h0, if_neg h0]
  by_cases h1 : b.type = 1
  · obtain ⟨e1, e2, e3⟩ := h.dims (Or.inr (Or.inl h1))
    simp only [if_pos h1, shape, LArg.pargs, h.nInputs (by rw [h1]; rfl), e1, e2, e3]
  rw [if_neg h1, if_neg h1]
  by_cases h2 : b.type = 2
  · obtain ⟨e1, e2, e3⟩ := h.dims (Or.inr (Or.inr h2))
    simp only [if_pos h2, shape, LArg.pargs, h.nInputs (by rw [h2]; rfl), e1, e2, e3]
  rw [if_neg h2, if_neg h2]
  by_cases h3 : b.type = 3
  · simp only [if_pos h3, shape, LArg.pargs, h.nInputs (by rw [h3]; rfl)]
  rw [if_neg h3, if_neg h3]
  by_cases h4 : b.type = 4
  · simp only [if_pos h4, shape, LArg.cargs, h.nInputs (by rw [h4]; rfl),
      h.nInit (by rw [h4]; decide)]
  rw [if_neg h4, if_neg h4]
  by_cases h5 : b.type = 5
  · simp only [if_pos h5, shape, LArg.cargs, h.nInputs (by rw [h5]; rfl),
      h.nInit (by rw [h5]; decide)]
  rw [if_neg h5, if_neg h5]
  by_cases h6 : b.type = 6
  · have hi : receivesImages b.type = true := by rw [h6]; rfl
    obtain ⟨e1, e2, e3⟩ := h.dims (Or.inl hi)
    obtain ⟨e4, e5, e6⟩ := h.kernel hi
    simp only [if_pos h6, shape, maxpoolInit, LArg.pargs, e1, e2, e3, e4, e5, e6]
  rw [if_neg h6, if_neg h6]
  by_cases h7 : b.type = 7
  · have hi : receivesImages b.type = true := by rw [h7]; rfl
    obtain ⟨e1, e2, e3⟩ := h.dims (Or.inl hi)
    obtain ⟨e4, e5, e6⟩ := h.kernel hi
    simp only [if_pos h7, shape, shapeConv, LArg.vargs, LArg.cargs, e1, e2, e3, e4, e5, e6,
      h.nInit (by rw [h7]; decide)]
  rw [if_neg h7, if_neg h7]
  by_cases h8 : b.type = 8
  · have hi : receivesImages b.type = true := by rw [h8]; rfl
    obtain ⟨e1, e2, e3⟩ := h.dims (Or.inl hi)
    simp only [if_pos h8, shape, avgpoolInit, LArg.pargs, e1, e2, e3]
  rw [if_neg h8, if_neg h8]
  by_cases h9 : b.type = 9
  · have hi : receivesImages b.type = true := by rw [h9]; rfl
    obtain ⟨e1, e2, e3⟩ := h.dims (Or.inl hi)
    obtain ⟨-, e5, -⟩ := h.kernel hi
    simp only [if_pos h9, shape, upsampleInit, LArg.pargs, e1, e2, e3, e5]
  rw [if_neg h9, if_neg h9]

/-- Sizes that are `int`s. -/
def IntDim (d : Dim) : Prop := IsInt d.n ∧ IsInt d.w ∧ IsInt d.h ∧ IsInt d.c

theorem guard_int {n : Int} {u} (h : guardOutputs n = .ok u) : IsInt n := by
  obtain ⟨h1, h2⟩ := guardOutputs_ok h
  unfold IsInt
  omega

/-- Factors of a number of outputs are `int`s. -/
theorem factor_int {a b c n : Int} (h : a * b * c = n) (h1 : 1 ≤ n) (h2 : n ≤ 2000000) :
    IsInt a ∧ IsInt b ∧ IsInt c := by
  have key : ∀ {x y : Int}, x * y = n → IsInt x := by
    intro x y e
    have hd : x ∣ n := ⟨y, e.symm⟩
    have h3 := Int.le_of_dvd (by omega) hd
    have h4 := Int.le_of_dvd (by omega) ((Int.neg_dvd).2 hd)
    unfold IsInt
    omega
  refine ⟨key (y := b * c) (by rw [← h]; ring), key (y := a * c) (by rw [← h]; ring),
    key (y := a * b) (by rw [← h]; ring)⟩

theorem not_overflows {n : Int} (h : ¬ overflows n = true) : IsInt n := by
  unfold overflows at h
  rw [decide_eq_true_eq] at h
  unfold IsInt
  omega

theorem shape_ints {a : LArg K} (I : a.Ints) {z} (h : a.sizes = .ok z) : IntDim z.2 := by
  have one : IsInt 1 := by decide
  unfold LArg.sizes LArg.gargs at h
  split_ifs at h
  · simp only [shape] at h
    split at h
    · cases h
    · next e =>
      cases h
      have := guard_int (shapeConn_guard e)
      exact ⟨this, this, one, one⟩
  · simp only [shape] at h
    split at h
    · cases h
    · next e => cases h; exact ⟨I.nInputs, I.width, I.height, I.channels⟩
  · simp only [shape] at h
    split at h
    · cases h
    · next e => cases h; exact ⟨I.nInputs, I.width, I.height, I.channels⟩
  · simp only [shape] at h
    split at h
    · cases h
    · next e => cases h; exact ⟨I.nInputs, I.nInputs, one, one⟩
  · simp only [shape] at h
    split at h
    · cases h
    · next e =>
      split at h
      · cases h
      · cases h
        have := guard_int (shapeConn_guard e)
        exact ⟨this, this, one, one⟩
  · simp only [shape] at h
    split at h
    · cases h
    · next e =>
      split at h
      · cases h
      · cases h
        have := guard_int (shapeConn_guard e)
        exact ⟨this, this, one, one⟩
  · simp only [shape] at h
    split at h
    · cases h
    · next e =>
      cases h
      unfold maxpoolInit at e
      repeat' split at e
      all_goals cases e
      next no hno _ _ _ _ _ hg =>
        obtain ⟨g1, g2⟩ := guardOutputs_ok hg
        obtain ⟨f1, f2, f3⟩ := factor_int (size3_ok hno).symm g1 g2
        exact ⟨guard_int hg, f2, f1, f3⟩
  · simp only [shape, shapeConv] at h
    repeat' split at h
    all_goals cases h
    next no hno _ _ hg =>
      unfold convGuard at hg
      split at hg
      · cases hg
      split at hg
      · cases hg
      next hg' =>
        obtain ⟨g1, g2⟩ := guardOutputs_ok hg'
        obtain ⟨f1, f2, f3⟩ := factor_int (size3_ok hno).symm g1 g2
        exact ⟨guard_int hg', f2, f1, f3⟩
  · simp only [shape] at h
    split at h
    · cases h
    · next e =>
      cases h
      unfold avgpoolInit at e
      repeat' split at e
      all_goals cases e
      exact ⟨I.channels, one, one, I.channels⟩
  · simp only [shape] at h
    split at h
    · cases h
    · next e =>
      cases h
      unfold upsampleInit upsampleSet at e
      repeat' split at e
      all_goals cases e
      next no hno _ _ _ _ _ hg =>
        obtain ⟨g1, g2⟩ := guardOutputs_ok hg
        obtain ⟨f1, f2, f3⟩ := factor_int (size3_ok hno).symm g1 g2
        exact ⟨guard_int hg, f2, f1, f3⟩

/-- `LArg.behind` field by field. -/
theorem behind_eq (d : Dim) (a : LArg K) : a.behind d = { a with
    height := d.h, width := d.w, channels := d.c, nInputs := d.n,
    nInit := if a.type = 8 ∨ a.type = 6 ∨ a.type = 1 ∨ a.type = 9 ∨ a.type = 3 ∨ a.type = 2 then d.n
      else a.nInit } := by
  unfold LArg.behind
  dsimp only
  split_ifs <;> rfl

theorem behind_ints {d : Dim} {a : LArg K} (D : IntDim d) (I : a.Ints) : (a.behind d).Ints := by
  rw [behind_eq]
  refine ⟨D.1, ?_, I.nMax, I.maxGrow, D.2.2.1, D.2.1, D.2.2.2, I.size, I.stride, I.pad⟩
  dsimp only
  split_ifs
  · exact D.1
  · exact I.nInit

theorem behind_plain {d : Dim} {a : LArg K} (I : a.Plain) : (a.behind d).Plain := by
  rw [behind_eq]
  refine ⟨fun h n1 n2 n3 n6 => ?_, I.size, I.stride, I.pad⟩
  have h' : a.evolveNeurons = true := h
  dsimp only at n1 n2 n3 n6
  obtain ⟨h1, h2, h3, h4, h5⟩ := I.evolves h' n1 n2 n3 n6
  dsimp only
  rw [if_neg (by tauto)]
  exact ⟨h1, h2, h3, h4, h5⟩

/-- The limits that an imported layer gets. -/
def raised (a : LArg K) : LArg K := { a with nMax := max a.nMax a.nInit }

theorem validateLayer_raised {a : LArg K} (h : a.evolveNeurons = true → 1 ≤ a.maxGrow) :
    validateLayer a = .ok (raised a) := by
  unfold validateLayer raised
  rw [if_neg (by rintro ⟨h1, h2⟩; have := h h1; omega)]
  congr 1
  split
  · rw [max_eq_right (by omega)]
  · rw [max_eq_left (by omega)]

section echo
variable (x : Int) (b : LArg K)

theorem echo_type : (b.echo x).type = b.type := by
  unfold LArg.echo echoSgd echoEvo echoInit echoScale echoIn echoFn
  dsimp only
  split_ifs <;> rfl

theorem echo_nInputs : (b.echo x).nInputs = x := by
  unfold LArg.echo echoSgd echoEvo echoInit echoScale echoIn echoFn
  dsimp only
  split_ifs <;> rfl

variable {b}

theorem echo_fn (h : ¬ noFn b.type) : (b.echo x).fn = b.fn := by
  unfold LArg.echo echoSgd echoEvo echoInit echoScale echoIn echoFn
  dsimp only
  split_ifs <;> rfl

theorem echo_rfn (h : b.type = 5) : (b.echo x).rfn = b.rfn := by
  have h' : ¬ noFn b.type := by rw [h]; decide
  unfold LArg.echo echoSgd echoEvo echoInit echoScale echoIn echoFn
  dsimp only
  split_ifs <;> rfl

theorem echo_image (h : receivesImages b.type = true) : (b.echo x).height = posOr b.height 0 ∧
    (b.echo x).width = posOr b.width 0 ∧ (b.echo x).channels = posOr b.channels 0 ∧
    (b.echo x).size = posOr b.size 0 ∧ (b.echo x).stride = posOr b.stride 0 ∧
    (b.echo x).pad = posOr b.pad 0 := by
  unfold LArg.echo echoSgd echoEvo echoInit echoScale echoIn echoFn
  dsimp only
  split_ifs <;> exact ⟨rfl, rfl, rfl, rfl, rfl, rfl⟩

theorem echo_flat (h : receivesImages b.type = false) : (b.echo x).height = 0 ∧
    (b.echo x).width = 0 ∧ (b.echo x).channels = 0 := by
  unfold LArg.echo echoSgd echoEvo echoInit echoScale echoIn echoFn
  dsimp only
  have h' : ¬ receivesImages b.type = true := by rw [h]; exact Bool.false_ne_true
  simp only [if_neg h']
  split_ifs <;> exact ⟨rfl, rfl, rfl⟩

theorem echo_probability (h : b.type = 2 ∨ b.type = 1) :
    (b.echo x).probability = b.probability := by
  unfold LArg.echo echoSgd echoEvo echoInit echoScale echoIn echoFn
  dsimp only
  split_ifs <;> rfl

theorem echo_scale (h : b.type = 2 ∨ b.type = 3) : (b.echo x).scale = b.scale := by
  unfold LArg.echo echoSgd echoEvo echoInit echoScale echoIn echoFn
  dsimp only
  split_ifs <;> rfl

theorem echo_nInit (h : ¬ short b.type) : (b.echo x).nInit = posOr b.nInit 0 := by
  unfold LArg.echo echoSgd echoEvo echoInit echoScale echoIn echoFn
  dsimp only
  split_ifs <;> rfl

theorem echo_flags (h : ¬ short b.type) : (b.echo x).evolveWeights = b.evolveWeights ∧
    (b.echo x).evolveFunctions = b.evolveFunctions ∧
    (b.echo x).evolveConnect = b.evolveConnect ∧ (b.echo x).evolveNeurons = b.evolveNeurons ∧
    (b.echo x).sgdWeights = b.sgdWeights := by
  unfold LArg.echo echoSgd echoEvo echoInit echoScale echoIn echoFn
  dsimp only
  split_ifs <;> exact ⟨rfl, rfl, rfl, rfl, by simp_all⟩

theorem echo_evolves (h : ¬ short b.type) (he : b.evolveNeurons = true) :
    (b.echo x).nMax = b.nMax ∧ (b.echo x).maxGrow = b.maxGrow := by
  unfold LArg.echo echoSgd echoEvo echoInit echoScale echoIn echoFn
  dsimp only
  split_ifs <;> exact ⟨rfl, rfl⟩

theorem echo_sgd (h : ¬ short b.type) (he : b.sgdWeights = true) :
    (b.echo x).eta = b.eta ∧ (b.echo x).evolveEta = b.evolveEta ∧
    (b.echo x).momentum = b.momentum ∧ (b.echo x).decay = b.decay := by
  unfold LArg.echo echoSgd echoEvo echoInit echoScale echoIn echoFn
  dsimp only
  split_ifs <;> exact ⟨rfl, rfl, rfl, rfl⟩

theorem echo_etaMin (h : ¬ short b.type) (he : b.sgdWeights = true) (hv : b.evolveEta = true) :
    (b.echo x).etaMin = b.etaMin := by
  unfold LArg.echo echoSgd echoEvo echoInit echoScale echoIn echoFn
  dsimp only
  split_ifs <;> rfl

theorem echo_short (h : short b.type) : (b.echo x).evolveNeurons = false := by
  unfold LArg.echo echoScale echoIn echoFn
  dsimp only
  split_ifs <;> rfl

theorem posOr_nonneg {n : Int} (h : 0 ≤ n) : posOr n 0 = n := by unfold posOr; split <;> omega
theorem posOr_idem (n : Int) : posOr (posOr n 0) 0 = posOr n 0 := by
  unfold posOr; split_ifs <;> omega
theorem posOr_toNat (n : Int) : (posOr n 0).toNat = n.toNat := by unfold posOr; split <;> omega

variable (hp : b.Plain)
include hp

theorem echo_valid : validateLayer (b.echo x) = .ok (raised (b.echo x)) := by
  refine validateLayer_raised fun h => ?_
  by_cases hs : short b.type
  · rw [echo_short x hs] at h; cases h
  rw [(echo_flags x hs).2.2.2.1] at h
  rw [(echo_evolves x hs h).2]
  exact (hp.evolves h (by tauto) (by tauto) (by tauto) (by tauto)).1

/-- What is common to first and other layers. -/
theorem view_of {c : LArg K} (h : c = { raised (b.echo x) with
      height := c.height, width := c.width, channels := c.channels, nInputs := c.nInputs,
      nInit := c.nInit })
    (hn : receivesImages b.type = false → c.nInputs = b.nInputs)
    (hi : ¬ short b.type → posOr c.nInit 0 = posOr b.nInit 0)
    (hm : receivesImages b.type = true → posOr c.height 0 = posOr b.height 0 ∧
      posOr c.width 0 = posOr b.width 0 ∧ posOr c.channels 0 = posOr b.channels 0) :
    SameView b c := by
  rw [h]
  refine ⟨echo_type x b, echo_fn x, echo_rfn x, hn, fun h => ?_, echo_probability x, echo_scale x,
    hi, echo_flags x, fun hs he => ⟨?_, (echo_evolves x hs he).2⟩, echo_sgd x, echo_etaMin x⟩
  · obtain ⟨-, -, -, e4, e5, e6⟩ := echo_image x h
    obtain ⟨f1, f2, f3⟩ := hm h
    refine ⟨f1, f2, f3, ?_, ?_, ?_⟩
    · show posOr (b.echo x).size 0 = _
      rw [e4, posOr_idem]
    · show posOr (b.echo x).stride 0 = _
      rw [e5, posOr_idem]
    · show posOr (b.echo x).pad 0 = _
      rw [e6, posOr_idem]
  · show max (b.echo x).nMax (b.echo x).nInit = _
    obtain ⟨-, h2, h3, -, -⟩ := hp.evolves he (by tauto) (by tauto) (by tauto) (by tauto)
    rw [(echo_evolves x hs he).1, echo_nInit x hs, posOr_nonneg (by omega), max_eq_left h3]

theorem size_of {c : LArg K} (h : c = { raised (b.echo x) with
      height := c.height, width := c.width, channels := c.channels, nInputs := c.nInputs,
      nInit := c.nInit })
    (hn : receivesImages b.type = false → c.nInputs = b.nInputs)
    (hi : ¬ short b.type → c.nInit.toNat = b.nInit.toNat)
    (hd : receivesImages b.type = true ∨ b.type = 1 ∨ b.type = 2 →
      c.height = b.height ∧ c.width = b.width ∧ c.channels = b.channels) :
    SameSize b c := by
  rw [h]
  refine ⟨echo_type x b, hn, hi, hd, fun h => ?_⟩
  obtain ⟨-, -, -, e4, e5, e6⟩ := echo_image x h
  refine ⟨?_, ?_, ?_⟩
  · show (b.echo x).size = _
    rw [e4, posOr_nonneg hp.size]
  · show (b.echo x).stride = _
    rw [e5, posOr_nonneg hp.stride]
  · show (b.echo x).pad = _
    rw [e6, posOr_nonneg hp.pad]

end echo

/-- A layer behind another, reported and imported. -/
theorem echo_behind (x : Int) {a : LArg K} {d : Dim} (hp : (a.behind d).Plain) :
    SameView (a.behind d) ((raised ((a.behind d).echo x)).behind d) ∧
    SameSize (a.behind d) ((raised ((a.behind d).echo x)).behind d) := by
  have ht : (raised ((a.behind d).echo x)).type = a.type := by
    show ((a.behind d).echo x).type = _
    rw [echo_type, behind_eq]
  have hb : (a.behind d).type = a.type := by rw [behind_eq]
  have hi : ¬ short (a.behind d).type →
      posOr ((raised ((a.behind d).echo x)).behind d).nInit 0 = posOr (a.behind d).nInit 0 := by
    intro hs
    have e := echo_nInit x hs
    rw [hb] at hs
    have e2 : (raised ((a.behind d).echo x)).nInit = posOr (a.behind d).nInit 0 := e
    rw [behind_eq d (raised _)]
    dsimp only
    rw [ht, e2, behind_eq]
    dsimp only
    split_ifs
    · rfl
    · exact posOr_idem _
  refine ⟨view_of x hp ?_ ?_ hi ?_, size_of x hp ?_ ?_ ?_ ?_⟩
  · rw [behind_eq d (raised _)]
  · intro _
    rw [behind_eq, behind_eq]
  · intro _
    rw [behind_eq, behind_eq]
    exact ⟨rfl, rfl, rfl⟩
  · rw [behind_eq d (raised _)]
  · intro _
    rw [behind_eq, behind_eq]
  · intro hs
    have := congrArg Int.toNat (hi hs)
    rwa [posOr_toNat, posOr_toNat] at this
  · intro _
    rw [behind_eq, behind_eq]
    exact ⟨rfl, rfl, rfl⟩

/-! ## Whole networks -/

theorem fill_ints : ∀ {as : List (LArg K)} {d : Option Dim} {z},
    fillLoop d as = .ok z → (∀ e ∈ d, IntDim e) → (∀ a ∈ as, a.Plain ∧ a.Ints) →
    ∀ b ∈ z.2, b.Plain ∧ b.Ints
  | [], d, z, h, _, _ => by
    rw [fillLoop] at h
    cases h
    simp
  | a :: as, d, z, h, D, H => by
    rw [fillLoop] at h
    have hb : (a.placed d).Plain ∧ (a.placed d).Ints := by
      obtain ⟨h1, h2⟩ := H a (by simp)
      cases d with
      | none => exact ⟨h1, h2⟩
      | some e => exact ⟨behind_plain h1, behind_ints (D e rfl) h2⟩
    cases hs : (a.placed d).sizes with
    | error e => rw [hs] at h; cases h
    | ok y =>
      rw [hs] at h
      dsimp only at h
      cases hf : fillLoop (some y.2) as with
      | error e => rw [hf] at h; cases h
      | ok w =>
        rw [hf] at h
        cases h
        have ih := fill_ints hf (fun e he => by cases he; exact shape_ints hb.2 hs)
          fun a ha => H a (by simp [ha])
        intro b hm
        rcases List.mem_cons.1 hm with rfl | hm
        · exact hb
        · exact ih b hm

theorem fill_tail (x : Int) : ∀ {as : List (LArg K)} {d : Dim} {z},
    fillLoop (some d) as = .ok z → (∀ a ∈ as, a.Plain) →
    ∃ cs, fillLoop (some d) (z.2.map fun b => raised (b.echo x)) = .ok (z.1, cs) ∧
      List.Forall₂ SameView z.2 cs
  | [], d, z, h, _ => by
    rw [fillLoop] at h
    cases h
    exact ⟨[], rfl, .nil⟩
  | a :: as, d, z, h, H => by
    rw [fillLoop] at h
    cases hs : (a.placed (some d)).sizes with
    | error e => rw [hs] at h; cases h
    | ok y =>
      rw [hs] at h
      dsimp only at h
      cases hf : fillLoop (some y.2) as with
      | error e => rw [hf] at h; cases h
      | ok w =>
        rw [hf] at h
        cases h
        obtain ⟨cs, hc, hv⟩ := fill_tail x hf fun a ha => H a (by simp [ha])
        obtain ⟨v, s⟩ := echo_behind x (behind_plain (d := d) (H a (by simp)))
        refine ⟨_ :: cs, ?_, .cons v hv⟩
        rw [List.map_cons, fillLoop]
        have e : ((raised ((a.placed (some d)).echo x)).placed (some d)).sizes = .ok y := by
          rw [← hs]
          exact s.sizes
        rw [e]
        dsimp only
        rw [hc]
        rfl

theorem sizes_nIn {a : LArg K} {z} (h : a.sizes = .ok z) (hi : receivesImages a.type = false)
    (h1 : 1 ≤ z.1) : 1 ≤ a.nInputs := by
  rcases gargs_type h with e | e | e | e | e | e | e | e | e | e <;> rw [e] at hi
  all_goals first
    | exact absurd hi (by decide)
    | skip
  all_goals
    unfold LArg.sizes LArg.gargs at h
    rw [e] at h
    simp only [shape] at h
    norm_num at h
    repeat' split at h
    all_goals first
      | (cases h; done)
      | (cases h; exact h1)
      | (cases h; simp only [LArg.cargs] at h1; omega)

/-- The first layer that is imported from a report. -/
def LArg.firstEcho (x : Int) (b : LArg K) : LArg K :=
  if b.type = 1 ∨ b.type = 2 then { b.echo x with channels := 1, height := 1, width := x }
  else b.echo x

theorem firstEcho_valid {x : Int} {b : LArg K} (F : b.First x)
    (hx : receivesImages b.type = false → 1 ≤ x) :
    validateInputs (b.echo x) = .ok (b.firstEcho x) := by
  unfold validateInputs LArg.firstEcho
  rw [echo_type, echo_nInputs]
  by_cases h12 : b.type = 1 ∨ b.type = 2
  · have hi : receivesImages b.type = false := by rcases h12 with e | e <;> rw [e] <;> rfl
    have h1 := hx hi
    obtain ⟨e1, e2, e3⟩ := echo_flat x hi
    rw [if_pos h12, if_pos h12, if_neg (by omega), if_pos (by rw [e3]; left; decide)]
    simp only [bind, Except.bind, echo_type, hi, echo_nInputs]
    rw [if_neg (by decide), if_neg (by omega)]
  · rw [if_neg h12, if_neg h12]
    simp only [bind, Except.bind, echo_type, echo_nInputs]
    by_cases hi : receivesImages b.type = true
    · obtain ⟨f1, f2, f3⟩ := F.image hi
      obtain ⟨e1, e2, e3, -⟩ := echo_image x hi
      rw [if_pos hi, e1, e2, e3, posOr_nonneg (by omega), posOr_nonneg (by omega),
        posOr_nonneg (by omega), if_neg (by omega)]
    · have h1 := hx (by simpa using hi)
      rw [if_neg hi, if_neg (by omega)]

theorem firstEcho_same {x : Int} {b : LArg K} (hp : b.Plain) (F : b.First x) :
    validateLayer (b.firstEcho x) = .ok (raised (b.firstEcho x)) ∧
    SameView b (raised (b.firstEcho x)) ∧ SameSize b (raised (b.firstEcho x)) := by
  have hv := echo_valid x hp
  have base : ∀ (ch h w : Int),
      (receivesImages b.type = true ∨ b.type = 1 ∨ b.type = 2 →
        h = b.height ∧ w = b.width ∧ ch = b.channels) →
      SameView b (raised { b.echo x with channels := ch, height := h, width := w }) ∧
      SameSize b (raised { b.echo x with channels := ch, height := h, width := w }) := by
    intro ch h w hd
    have hn : receivesImages b.type = false →
        (raised { b.echo x with channels := ch, height := h, width := w }).nInputs = b.nInputs := by
      intro hi
      rw [F.other hi]
      exact echo_nInputs x b
    refine ⟨view_of x hp rfl hn (fun hs => ?_) (fun hi => ?_),
      size_of x hp rfl hn (fun hs => ?_) (fun hi => hd hi)⟩
    · show posOr (b.echo x).nInit 0 = _
      rw [echo_nInit x hs, posOr_idem]
    · obtain ⟨e1, e2, e3⟩ := hd (Or.inl hi)
      exact ⟨congrArg (posOr · 0) e1, congrArg (posOr · 0) e2, congrArg (posOr · 0) e3⟩
    · show (b.echo x).nInit.toNat = _
      rw [echo_nInit x hs, posOr_toNat]
  unfold LArg.firstEcho
  by_cases h12 : b.type = 1 ∨ b.type = 2
  · have hi : receivesImages b.type = false := by rcases h12 with e | e <;> rw [e] <;> rfl
    rw [if_pos h12]
    refine ⟨?_, base 1 1 x fun _ => ?_⟩
    · refine validateLayer_raised fun h => ?_
      have hs : short b.type := by tauto
      have h' : (b.echo x).evolveNeurons = true := h
      rw [echo_short x hs] at h'
      cases h'
    · obtain ⟨e1, e2, e3⟩ := F.flat h12
      exact ⟨e2.symm, e3.symm, e1.symm⟩
  · rw [if_neg h12]
    refine ⟨hv, base (b.echo x).channels (b.echo x).height (b.echo x).width fun h => ?_⟩
    have hi : receivesImages b.type = true := by tauto
    obtain ⟨f1, f2, f3⟩ := F.image hi
    obtain ⟨e1, e2, e3, -⟩ := echo_image x hi
    rw [e1, e2, e3, posOr_nonneg (by omega), posOr_nonneg (by omega), posOr_nonneg (by omega)]
    exact ⟨rfl, rfl, rfl⟩

theorem children_numbered (js : List (Json K)) : Json.children (.obj (numbered js)) = js := by
  show (numbered js).map Prod.snd = js
  unfold numbered
  rw [List.map_map]
  have : ∀ (n : Nat), (js.zipIdx n).map (Prod.snd ∘ fun q : Json K × Nat =>
      ("layer_" ++ toString q.2, q.1)) = js := by
    intro n
    induction js generalizing n with
    | nil => rfl
    | cons j js ih =>
      rw [List.zipIdx_cons, List.map_cons, ih]
      rfl
  exact this 0

theorem imports_echo (x : Int) : ∀ {bs : List (LArg K)} {ms},
    bs.mapM layerMembers = .ok ms → (∀ b ∈ bs, b.Ints) →
    (ms.map Json.obj).mapM (importLayer x) = .ok (bs.map fun b => b.echo x)
  | [], ms, h, _ => by
    cases h
    rfl
  | b :: bs, ms, h, I => by
    rw [List.mapM_cons] at h
    cases h1 : layerMembers b with
    | error e => rw [h1] at h; cases h
    | ok l =>
      rw [h1] at h
      cases h2 : bs.mapM layerMembers with
      | error e => rw [h2] at h; cases h
      | ok ls =>
        rw [h2] at h
        cases h
        have e := importLayer_echo (I b (by simp)) h1 x
        have ih := imports_echo x h2 fun b hb => I b (by simp [hb])
        rw [List.map_cons, List.mapM_cons, e, ih]
        rfl

theorem valid_echo (x : Int) : ∀ {bs : List (LArg K)}, (∀ b ∈ bs, b.Plain) →
    (bs.map fun b => b.echo x).mapM validateLayer = .ok (bs.map fun b => raised (b.echo x))
  | [], _ => rfl
  | b :: bs, H => by
    rw [List.map_cons, List.mapM_cons, echo_valid x (H b (by simp)),
      valid_echo x fun b hb => H b (by simp [hb])]
    rfl

/-- Layers reported, imported and reported again. -/
theorem layers_trip {g : Rng K R} (O : g.Open) {x : Int} {as : List (LArg K)}
    (P : LayersPlain x as) {r : R} {z} (h : exportLayers g as r = .ok z) :
    ∃ cs, importLayers x z.1.1 = .ok cs ∧ ∀ s, ∃ bs s', exportLayers g cs s = .ok ((z.1.1, bs), s') := by
  obtain ⟨bs, ms, hf, hm, hz⟩ := exportLayers_fill O as r h
  rw [hz]
  unfold fillNet at hf
  cases hl : fillLoop none as with
  | error e => rw [hl] at hf; cases hf
  | ok w =>
    rw [hl] at hf
    obtain ⟨zs, bs'⟩ := w
    dsimp only at hf
    by_cases he : endsOk zs = true
    · rw [if_pos he] at hf
      cases hf
      have H := fill_ints hl (by simp) P.1
      cases as with
      | nil =>
        rw [fillLoop] at hl
        cases hl
        cases he
      | cons a as =>
        have F := P.2 a rfl
        rw [fillLoop] at hl
        cases hs : (a.placed none).sizes with
        | error e => rw [hs] at hl; cases hl
        | ok y =>
          rw [hs] at hl
          dsimp only at hl
          cases hf : fillLoop (some y.2) as with
          | error e => rw [hf] at hl; cases hl
          | ok w =>
            rw [hf] at hl
            cases hl
            obtain ⟨ct, hc, hv⟩ := fill_tail x hf fun a ha => (P.1 a (by simp [ha])).1
            obtain ⟨v1, v2, v3⟩ := firstEcho_same (P.1 a (by simp)).1 F
            have hx : receivesImages a.type = false → 1 ≤ x := by
              intro hi
              rw [← F.other hi]
              refine sizes_nIn hs hi ?_
              unfold endsOk at he
              rw [List.head?_cons] at he
              cases hg : (y :: w.1).getLast? with
              | none => rw [hg] at he; cases he
              | some q =>
                rw [hg] at he
                dsimp only at he
                rw [Bool.not_eq_true', Bool.or_eq_false_iff, decide_eq_false_iff_not] at he
                omega
            have hw := valid_echo x (bs := w.2) fun b hb => (H b (by simp [hb])).1
            refine ⟨raised (a.firstEcho x) :: w.2.map fun b => raised (b.echo x), ?_, fun s => ?_⟩
            · unfold importLayers
              rw [children_numbered, imports_echo x hm fun b hb => (H b hb).2]
              simp only [bind, Except.bind]
              rw [List.map_cons]
              rw [validateLayers]
              have e : validateInputs ((a.placed none).echo x) = .ok (a.firstEcho x) :=
                firstEcho_valid F hx
              rw [e]
              simp only [bind, Except.bind]
              rw [List.mapM_cons, v1, hw]
              rfl
            · refine ⟨_, exportLayers_of O s (bs := raised (a.firstEcho x) :: ct) (ms := ms) ?_ ?_⟩
              · unfold fillNet
                rw [fillLoop]
                have e : ((raised (a.firstEcho x)).placed none).sizes = .ok y := by
                  rw [← hs]
                  exact v3.sizes
                rw [e]
                dsimp only
                rw [hc]
                dsimp only
                rw [if_pos he]
                rfl
              · rw [← hm]
                exact SameView.all (.cons v2 hv)
    · rw [if_neg he] at hf
      cases hf

end
end Xcsf
