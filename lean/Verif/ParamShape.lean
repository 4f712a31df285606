import Verif.ParamJson
import Verif.JsonLemmas
import Verif.RepLemmas
import Verif.PropsNPool

/-!
# The sizes of new layers do not depend on random numbers

Helper file: `shape` computes the numbers of inputs and outputs of a layer from its arguments, and
`fillNet` the arguments that `neural_create` leaves.
-/

set_option linter.unusedSectionVars false

namespace Xcsf

section
variable {K R : Type} [Field K] [LinearOrder K] [IsStrictOrderedRing K] [FloorRing K]

/-- The checks of a fully connected layer. -/
def shapeConn (i n : Nat) : Res Unit :=
  if overflows ((i : Int) * (n : Int)) then .error .ub
  else match guardOutputs (n : Int) with
  | .error f => .error f
  | .ok _ => guardWeights ((i : Int) * (n : Int))

def shapeConv (a : VArgs K) : Res (Int × Dim) :=
  match convWeights a.channels a.base.nInit a.size with
  | .error e => .error e
  | .ok nw =>
    match convDim a.height a.pad a.size a.stride with
    | .error e => .error e
    | .ok oh =>
      match convDim a.width a.pad a.size a.stride with
      | .error e => .error e
      | .ok ow =>
        match size3 a.width a.height a.channels with
        | .error e => .error e
        | .ok ni =>
          match size3 oh ow a.base.nInit with
          | .error e => .error e
          | .ok no =>
            match convGuard a.base.nInit no nw with
            | .error e => .error e
            | .ok _ => .ok (ni, ⟨no, ow, oh, a.base.nInit⟩)

/-- Number of inputs and sizes of the output of a new layer. -/
def shape : GArgs K → Res (Int × Dim)
  | .conn a =>
    match shapeConn a.nInputs a.nInit with
    | .error e => .error e
    | .ok _ => .ok (a.nInputs, ⟨a.nInit, a.nInit, 1, 1⟩)
  | .recu a | .lstm a _ =>
    match shapeConn a.nInputs a.nInit with
    | .error e => .error e
    | .ok _ =>
      match shapeConn a.nInit a.nInit with
      | .error e => .error e
      | .ok _ => .ok (a.nInputs, ⟨a.nInit, a.nInit, 1, 1⟩)
  | .conv a => shapeConv a
  | .maxp a =>
    match maxpoolInit a with
    | .error e => .error e
    | .ok l => .ok (l.nIn, l.dim)
  | .avgp a =>
    match avgpoolInit a with
    | .error e => .error e
    | .ok l => .ok (l.nIn, l.dim)
  | .ups a =>
    match upsampleInit a with
    | .error e => .error e
    | .ok l => .ok (l.nIn, l.dim)
  | .drop a | .noise a =>
    match guardOutputs a.nInputs with
    | .error e => .error e
    | .ok _ => .ok (a.nInputs, ⟨a.nInputs, a.width, a.height, a.channels⟩)
  | .soft a =>
    match guardOutputs a.nInputs with
    | .error e => .error e
    | .ok _ => .ok (a.nInputs, ⟨a.nInputs, a.nInputs, 1, 1⟩)

/-- A computation that succeeds as the sizes say. -/
def Shapes (s : Res (Int × Dim)) (m : Res (GLay K × R)) : Prop :=
  match s with
  | .error _ => ∃ e, m = .error e
  | .ok z => ∃ l r, m = .ok (l, r) ∧ l.nIn = z.1 ∧ l.dim = z.2

theorem samInit_ok {g : Rng K R} (O : g.Open) : ∀ (ts : List SamType) (r : R),
    ∃ z, samInit g ts r = .ok z
  | [], r => ⟨_, rfl⟩
  | t :: ts, r => by
    obtain ⟨z, r1, h, -⟩ := samInit1_ok O t r
    obtain ⟨y, h'⟩ := samInit_ok O ts r1
    exact ⟨(z :: y.1, y.2), by simp only [samInit, h, h', bind, Except.bind]⟩

theorem connInit_shape {g : Rng K R} (O : g.Open) (a : CArgs K) (r : R) :
    match shapeConn a.nInputs a.nInit with
    | .error _ => ∃ e, connInit g a r = .error e
    | .ok _ => ∃ l r', connInit g a r = .ok (l, r') ∧ l.nInputs = a.nInputs ∧
        l.nOutputs = a.nInit ∧ l.outW = a.nInit ∧ l.outH = 1 ∧ l.outC = 1 := by
  unfold shapeConn connInit
  dsimp only
  by_cases h : overflows ((a.nInputs : Int) * (a.nInit : Int)) = true
  · rw [if_pos h, if_pos h]; exact ⟨_, rfl⟩
  rw [if_neg h, if_neg h]
  cases guardOutputs (a.nInit : Int) with
  | error e => exact ⟨_, rfl⟩
  | ok u =>
    cases guardWeights ((a.nInputs : Int) * (a.nInit : Int)) with
    | error e => exact ⟨_, rfl⟩
    | ok u =>
      obtain ⟨z, hz⟩ := samInit_ok O connMu (drawN (g.normal 0 (1 / 10)) (a.nInputs * a.nInit)
        (initEta g a.opt a.etaMin a.eta r).2).2
      rw [hz]
      exact ⟨_, _, rfl, rfl, rfl, rfl, rfl, rfl⟩

/-- The same with the outcome of the checks given. -/
theorem connInit_fails {g : Rng K R} (O : g.Open) {a : CArgs K} (r : R) {e}
    (h : shapeConn a.nInputs a.nInit = .error e) : ∃ e, connInit g a r = .error e := by
  have := connInit_shape O a r
  rw [h] at this
  exact this

theorem connInit_works {g : Rng K R} (O : g.Open) {a : CArgs K} (r : R) {u}
    (h : shapeConn a.nInputs a.nInit = .ok u) : ∃ l r', connInit g a r = .ok (l, r') ∧
      l.nInputs = a.nInputs ∧ l.nOutputs = a.nInit ∧ l.outW = a.nInit ∧ l.outH = 1 ∧
      l.outC = 1 := by
  have := connInit_shape O a r
  rw [h] at this
  exact this

theorem shapeConn_guard {i n : Nat} {u} (h : shapeConn i n = .ok u) :
    guardOutputs (n : Int) = .ok () := by
  unfold shapeConn at h
  split at h
  · cases h
  split at h
  · cases h
  · next v hv => exact hv

theorem recInit_shape {g : Rng K R} (O : g.Open) (a : CArgs K) (r : R) :
    Shapes (shape (.recu a)) (layerInit g (.recu a) r) := by
  unfold shape layerInit recInit liftR
  dsimp only
  cases h1 : shapeConn a.nInputs a.nInit with
  | error e =>
    obtain ⟨e, he⟩ := connInit_fails O (a := { a with fn := 3 }) r h1
    simp only [he, bind, Except.bind]
    exact ⟨_, rfl⟩
  | ok u =>
    obtain ⟨i, r1, he, -, -, -, -, -⟩ := connInit_works O (a := { a with fn := 3 }) r h1
    simp only [he, bind, Except.bind]
    cases h2 : shapeConn a.nInit a.nInit with
    | error e =>
      obtain ⟨e, he⟩ := connInit_fails O (a := { a with fn := 3, nInputs := a.nInit }) r1 h2
      simp only [he]
      exact ⟨_, rfl⟩
    | ok u =>
      obtain ⟨s, r2, he, -, -, -, -, -⟩ :=
        connInit_works O (a := { a with fn := 3, nInputs := a.nInit }) r1 h2
      obtain ⟨o, r3, he', -, -, -, -, -⟩ :=
        connInit_works O (a := { a with nInputs := a.nInit }) r2 h2
      obtain ⟨z, hz⟩ := samInit_ok O recMu r3
      simp only [he, he', shapeConn_guard h1, hz]
      exact ⟨_, _, rfl, rfl, rfl⟩

theorem mapR_works {α β : Type} {op : α → R → Res (β × R)} (a : Gates α)
    (h : ∀ r, ∀ x ∈ [a.f, a.i, a.g, a.o], ∃ l r', op x r = .ok (l, r')) (r : R) :
    ∃ l r', Gates.mapR op a r = .ok (l, r') := by
  obtain ⟨f, r1, e1⟩ := h r a.f (by simp)
  obtain ⟨i, r2, e2⟩ := h r1 a.i (by simp)
  obtain ⟨k, r3, e3⟩ := h r2 a.g (by simp)
  obtain ⟨o, r4, e4⟩ := h r3 a.o (by simp)
  exact ⟨⟨f, i, k, o⟩, r4, by simp only [Gates.mapR, e1, e2, e3, e4, bind, Except.bind]⟩

theorem lstmInit_shape {g : Rng K R} (O : g.Open) (a : CArgs K) (f : Int) (r : R) :
    Shapes (shape (.lstm a f)) (layerInit g (.lstm a f) r) := by
  unfold shape layerInit lstmInit liftR
  dsimp only
  cases h1 : shapeConn a.nInputs a.nInit with
  | error e =>
    obtain ⟨e, he⟩ := connInit_fails O (a := { a with fn := 3 }) r h1
    simp only [Gates.mapR, he, bind, Except.bind]
    exact ⟨_, rfl⟩
  | ok u =>
    obtain ⟨u, r1, he⟩ := mapR_works (op := connInit g)
      (⟨{ a with fn := 3 }, { a with fn := 3 }, { a with fn := 3 }, { a with fn := 3 }⟩)
      (fun r x hx => by
        have hx : x = { a with fn := 3 } := by simpa using hx
        subst hx
        obtain ⟨l, r', h, -⟩ := connInit_works O (a := { a with fn := 3 }) r h1
        exact ⟨l, r', h⟩) r
    simp only [he, bind, Except.bind]
    cases h2 : shapeConn a.nInit a.nInit with
    | error e =>
      obtain ⟨e, he⟩ := connInit_fails O (a := { a with fn := 3, nInputs := a.nInit }) r1 h2
      simp only [Gates.mapR, he, bind, Except.bind]
      exact ⟨_, rfl⟩
    | ok v =>
      obtain ⟨w, r2, he⟩ := mapR_works (op := connInit g)
        (⟨{ a with fn := 3, nInputs := a.nInit }, { a with fn := 3, nInputs := a.nInit },
          { a with fn := 3, nInputs := a.nInit }, { a with fn := 3, nInputs := a.nInit }⟩)
        (fun r x hx => by
          have hx : x = { a with fn := 3, nInputs := a.nInit } := by simpa using hx
          subst hx
          obtain ⟨l, r', h, -⟩ :=
            connInit_works O (a := { a with fn := 3, nInputs := a.nInit }) r h2
          exact ⟨l, r', h⟩) r1
      obtain ⟨z, hz⟩ := samInit_ok O recMu r2
      simp only [he, lstmArrays, lstmSetEta, lstmActive, shapeConn_guard h1, hz]
      exact ⟨_, _, rfl, rfl, rfl⟩

theorem convInit_shape {g : Rng K R} (O : g.Open) (a : VArgs K) (r : R) :
    Shapes (shape (.conv a)) (layerInit g (.conv a) r) := by
  show Shapes (shapeConv a) (liftR .conv (convInit g a r))
  unfold shapeConv convInit liftR
  dsimp only
  cases convWeights a.channels a.base.nInit a.size with
  | error e => exact ⟨_, rfl⟩
  | ok nw =>
  cases convDim a.height a.pad a.size a.stride with
  | error e => exact ⟨_, rfl⟩
  | ok oh =>
  cases convDim a.width a.pad a.size a.stride with
  | error e => exact ⟨_, rfl⟩
  | ok ow =>
  cases size3 a.width a.height a.channels with
  | error e => exact ⟨_, rfl⟩
  | ok ni =>
  dsimp only
  cases size3 oh ow a.base.nInit with
  | error e => exact ⟨_, rfl⟩
  | ok no =>
  dsimp only
  cases convGuard a.base.nInit no nw with
  | error e => exact ⟨_, rfl⟩
  | ok u =>
  dsimp only
  obtain ⟨z, hz⟩ := samInit_ok O connMu (drawN (g.normal 0 (1 / 10)) nw.toNat
    (initEta g a.base.opt a.base.etaMin a.base.eta r).2).2
  rw [hz]
  exact ⟨_, _, rfl, rfl, rfl⟩

/-- The sizes of a new layer are those of `shape`, and it fails if they cannot be had. -/
theorem layerInit_shape {g : Rng K R} (O : g.Open) (a : GArgs K) (r : R) :
    Shapes (shape a) (layerInit g a r) := by
  cases a with
  | conn a =>
    unfold shape layerInit liftR
    dsimp only
    cases h1 : shapeConn a.nInputs a.nInit with
    | error e =>
      obtain ⟨e, he⟩ := connInit_fails O r h1
      rw [he]
      exact ⟨_, rfl⟩
    | ok u =>
      obtain ⟨l, r1, he, h1, h2, h3, h4, h5⟩ := connInit_works O r h1
      rw [he]
      refine ⟨_, _, rfl, congrArg Int.ofNat h1, ?_⟩
      simp only [GLay.dim, h2, h3, h4, h5, Nat.cast_one]
  | recu a => exact recInit_shape O a r
  | lstm a f => exact lstmInit_shape O a f r
  | conv a => exact convInit_shape O a r
  | maxp a =>
    unfold shape layerInit keepR
    dsimp only
    cases maxpoolInit a with
    | error e => exact ⟨_, rfl⟩
    | ok l => exact ⟨_, _, rfl, rfl, rfl⟩
  | avgp a =>
    unfold shape layerInit keepR
    dsimp only
    cases avgpoolInit a with
    | error e => exact ⟨_, rfl⟩
    | ok l => exact ⟨_, _, rfl, rfl, rfl⟩
  | ups a =>
    unfold shape layerInit keepR
    dsimp only
    cases upsampleInit a with
    | error e => exact ⟨_, rfl⟩
    | ok l => exact ⟨_, _, rfl, rfl, rfl⟩
  | drop a =>
    unfold shape layerInit keepR dropoutInit maskSet
    dsimp only
    cases guardOutputs a.nInputs with
    | error e => exact ⟨_, rfl⟩
    | ok l => exact ⟨_, _, rfl, rfl, rfl⟩
  | noise a =>
    unfold shape layerInit keepR noiseInit maskSet
    dsimp only
    cases guardOutputs a.nInputs with
    | error e => exact ⟨_, rfl⟩
    | ok l => exact ⟨_, _, rfl, rfl, rfl⟩
  | soft a =>
    unfold shape layerInit keepR softSet
    dsimp only
    cases guardOutputs a.nInputs with
    | error e => exact ⟨_, rfl⟩
    | ok l => exact ⟨_, _, rfl, rfl, rfl⟩

/-! ## Networks -/

/-- The sizes of the layer that arguments describe. -/
def LArg.sizes (a : LArg K) : Res (Int × Dim) :=
  match a.gargs with
  | .error e => .error e
  | .ok ga => shape ga

/-- The sizes of the layers that `neural_create` builds, and the arguments it leaves. -/
def fillLoop : Option Dim → List (LArg K) → Res (List (Int × Dim) × List (LArg K))
  | _, [] => .ok ([], [])
  | d, a :: as =>
    match (a.placed d).sizes with
    | .error e => .error e
    | .ok z =>
      match fillLoop (some z.2) as with
      | .error e => .error e
      | .ok (zs, as) => .ok (z :: zs, a.placed d :: as)

/-- The last check of `neural_create`. -/
def endsOk (zs : List (Int × Dim)) : Bool :=
  match zs.head?, zs.getLast? with
  | some z, some y => !(decide (z.1 < 1) || decide (y.2.n < 1))
  | _, _ => false

def fillNet (as : List (LArg K)) : Res (List (LArg K)) :=
  match fillLoop none as with
  | .error e => .error e
  | .ok (zs, as) => if endsOk zs then .ok as else .error .exit

def GLay.sizes (l : GLay K) : Int × Dim := (l.nIn, l.dim)

theorem createLoop_fill {g : Rng K R} (O : g.Open) : ∀ (as : List (LArg K)) (d : Option Dim)
    (r : R), match fillLoop d as with
    | .error _ => ∃ e, createLoop g d as r = .error e
    | .ok z => ∃ ls r', createLoop g d as r = .ok ((ls, z.2), r') ∧ ls.map GLay.sizes = z.1
  | [], d, r => ⟨[], r, rfl, rfl⟩
  | a :: as, d, r => by
    unfold createLoop
    rw [fillLoop, LArg.sizes]
    simp only [bind, Except.bind]
    cases hg : (a.placed d).gargs with
    | error e => exact ⟨_, rfl⟩
    | ok ga =>
      have H := layerInit_shape O ga r
      dsimp only
      cases hs : shape ga with
      | error e =>
        rw [hs] at H
        obtain ⟨e, he⟩ := H
        rw [he]
        exact ⟨_, rfl⟩
      | ok z =>
        rw [hs] at H
        obtain ⟨l, r1, he, h1, h2⟩ := H
        rw [he]
        dsimp only
        have IH := createLoop_fill O as (some z.2) r1
        rw [← h2] at IH ⊢
        cases hf : fillLoop (some l.dim) as with
        | error e =>
          rw [hf] at IH
          obtain ⟨e, he⟩ := IH
          rw [he]
          exact ⟨_, rfl⟩
        | ok y =>
          rw [hf] at IH
          obtain ⟨ls, r2, he, h3⟩ := IH
          rw [he]
          refine ⟨l :: ls, r2, rfl, ?_⟩
          show GLay.sizes l :: ls.map GLay.sizes = z :: y.1
          rw [h3, GLay.sizes, h1, h2]

theorem endsOk_map (ls : List (GLay K)) : endsOk (ls.map GLay.sizes) =
    match ls.head?, ls.getLast? with
    | some l, some o => !(decide (l.nIn < 1) || decide (o.dim.n < 1))
    | _, _ => false := by
  unfold endsOk
  rw [List.head?_map, List.getLast?_map]
  cases ls.head? <;> cases ls.getLast? <;> rfl

/-- `neural_create` leaves the arguments that `fillNet` computes. -/
theorem createNet_fill {g : Rng K R} (O : g.Open) (as : List (LArg K)) (r : R) :
    match fillNet as with
    | .error _ => ∃ e, createNet g as r = .error e
    | .ok bs => ∃ ls r', createNet g as r = .ok ((ls, bs), r') := by
  have H := createLoop_fill O as none r
  unfold fillNet createNet
  cases hf : fillLoop none as with
  | error e =>
    rw [hf] at H
    obtain ⟨e, he⟩ := H
    simp only [he, bind, Except.bind]
    exact ⟨_, rfl⟩
  | ok z =>
    rw [hf] at H
    obtain ⟨ls, r1, he, h⟩ := H
    simp only [he, bind, Except.bind]
    rw [← h, endsOk_map]
    cases ls.head? with
    | none => exact ⟨_, rfl⟩
    | some l =>
      cases ls.getLast? with
      | none => exact ⟨_, rfl⟩
      | some o =>
        by_cases hc : l.nIn < 1 ∨ o.dim.n < 1
        · have : (!(decide (l.nIn < 1) || decide (o.dim.n < 1))) = false := by
            rw [Bool.not_eq_false', Bool.or_eq_true, decide_eq_true_eq, decide_eq_true_eq]
            exact hc
          simp only [this, if_pos hc]
          exact ⟨_, rfl⟩
        · have : (!(decide (l.nIn < 1) || decide (o.dim.n < 1))) = true := by
            simpa using hc
          simp only [this, if_neg hc]
          exact ⟨_, _, rfl⟩

/-- The outcome of `exportLayers` up to the random numbers. -/
theorem exportLayers_fill {g : Rng K R} (O : g.Open) (as : List (LArg K)) (r : R) {z}
    (h : exportLayers g as r = .ok z) : ∃ bs ms, fillNet as = .ok bs ∧
      bs.mapM layerMembers = .ok ms ∧ z.1 = (.obj (numbered (ms.map .obj)), bs) := by
  have H := createNet_fill O as r
  unfold exportLayers at h
  cases hf : fillNet as with
  | error e =>
    rw [hf] at H
    obtain ⟨e, he⟩ := H
    rw [he] at h
    cases h
  | ok bs =>
    rw [hf] at H
    obtain ⟨ls, r1, he⟩ := H
    rw [he] at h
    simp only [bind, Except.bind] at h
    split at h
    · cases h
    · next ms hm => cases h; exact ⟨bs, ms, rfl, hm, rfl⟩

theorem exportLayers_of {g : Rng K R} (O : g.Open) {as bs : List (LArg K)} (r : R) {ms}
    (hf : fillNet as = .ok bs) (hm : bs.mapM layerMembers = .ok ms) :
    ∃ r', exportLayers g as r = .ok ((.obj (numbered (ms.map .obj)), bs), r') := by
  have H := createNet_fill O as r
  rw [hf] at H
  obtain ⟨ls, r1, he⟩ := H
  refine ⟨r1, ?_⟩
  simp only [exportLayers, he, hm, bind, Except.bind]

end
end Xcsf
