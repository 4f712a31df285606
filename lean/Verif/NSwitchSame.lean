import Verif.NSwitchRates

/-!
# Mutation rates and counts of active connections do not matter for what a network computes and learns
-/

set_option linter.unusedSectionVars false

namespace Xcsf
variable {K R : Type} [Field K] [LinearOrder K] [IsStrictOrderedRing K] [FloorRing K]

/-- A test that does not depend on what is forgotten. -/
theorem map_test {α β : Type} {f : α → β} {c c' : Prop} [Decidable c] [Decidable c'] (h : c' = c)
    {x y : Res α} {x' y' : Res β} (hx : x' = x.map f) (hy : y' = y.map f) :
    (if c' then x' else y') = (if c then x else y).map f := by
  subst h
  by_cases k : c'
  · rw [if_pos k, if_pos k]; exact hx
  · rw [if_neg k, if_neg k]; exact hy

theorem same_test {α β : Type} {f : α → β} {c c' : Prop} [Decidable c] [Decidable c'] (h : c' = c)
    {x y : α} {x' y' : β} (hx : x' = f x) (hy : y' = f y) :
    (if c' then x' else y') = f (if c then x else y) := by
  subst h
  by_cases k : c'
  · rw [if_pos k, if_pos k]; exact hx
  · rw [if_neg k, if_neg k]; exact hy

/-! ## Connected parts -/

theorem connForward_bare (m : Libm K) (l : CLay K) (x : List K) :
    connForward m l.bare x = (connForward m l x).map CLay.bare := by
  unfold connForward
  refine map_test rfl rfl ?_
  dsimp only [CLay.bare]
  cases activateArray m l.fn _ with
  | error e => rfl
  | ok p => rfl

theorem connBackward_bare (m : Libm K) (l : CLay K) (x : List K) (d : Option (List K)) :
    connBackward m l.bare x d = (connBackward m l x d).map fun p => (p.1.bare, p.2) := by
  unfold connBackward
  refine map_test rfl rfl ?_
  dsimp only [CLay.bare]
  cases gradientArray m l.fn _ _ with
  | error e => rfl
  | ok p =>
    by_cases h : l.opt.sgd = true
    · simp only [h, if_true]
      cases d with
      | none => rfl
      | some d => exact map_test rfl rfl rfl
    · simp only [h, Bool.false_eq_true, if_false]
      cases d with
      | none => rfl
      | some d => exact map_test rfl rfl rfl

theorem connUpdate_bare (l : CLay K) : connUpdate l.bare = (connUpdate l).bare := by
  unfold connUpdate
  exact same_test rfl rfl rfl

/-! ## Recurrent layers -/

/-- A recurrent layer without mutation rates and counts. -/
def RLay.bare (l : RLay K) : RLay K :=
  { l with mu := [], nActive := 0, inp := l.inp.bare, self := l.self.bare, out := l.out.bare }

/-- An LSTM layer without mutation rates and counts. -/
def TLay.bare (l : TLay K) : TLay K :=
  { l with mu := [], nActive := 0, u := l.u.map CLay.bare, w := l.w.map CLay.bare }

/-- A convolutional layer without mutation rates and counts. -/
def VLay.bare (l : VLay K) : VLay K := { l with core := l.core.bare }

theorem recForward_bare (m : Libm K) (l : RLay K) (x : List K) :
    recForward m l.bare x = (recForward m l x).map RLay.bare := by
  unfold recForward
  simp only [bind, Except.bind]
  refine map_test rfl rfl ?_
  dsimp only [RLay.bare]
  rw [connForward_bare, show l.out.bare.outs = l.out.outs from rfl, connForward_bare]
  cases connForward m l.inp x with
  | error e => rfl
  | ok i =>
    cases connForward m l.self l.out.outs with
    | error e => rfl
    | ok s =>
      refine map_test rfl rfl ?_
      rw [connForward_bare, show s.bare.outs = s.outs from rfl, show i.bare.outs = i.outs from rfl]
      cases connForward m l.out _ with
      | error e => rfl
      | ok o => rfl

theorem recBackward_bare (m : Libm K) (l : RLay K) (x : List K) (d : Option (List K)) :
    recBackward m l.bare x d = (recBackward m l x d).map fun p => (p.1.bare, p.2) := by
  unfold recBackward
  simp only [bind, Except.bind]
  refine map_test rfl rfl ?_
  dsimp only [RLay.bare]
  rw [show l.out.bare.opt = l.out.opt from rfl]
  cases readIf l.out.opt.sgd l.state with
  | error e => rfl
  | ok st =>
    dsimp only
    rw [connBackward_bare, show (zeroDelta l.nOutputs l.self.bare).deltas =
      (zeroDelta l.nOutputs l.self).deltas from rfl]
    cases connBackward m l.out st _ with
    | error e => rfl
    | ok p =>
      obtain ⟨o, e⟩ := p
      cases e with
      | none => rfl
      | some e =>
        dsimp only [Except.map]
        rw [show ((zeroDelta l.nOutputs l.self.bare).withDelta e).opt =
          ((zeroDelta l.nOutputs l.self).withDelta e).opt from rfl]
        cases readIf _ l.prev with
        | error e => rfl
        | ok pv =>
          dsimp only
          rw [show (zeroDelta l.nOutputs l.self.bare).withDelta e =
            ((zeroDelta l.nOutputs l.self).withDelta e).bare from rfl, connBackward_bare]
          cases connBackward m _ pv none with
          | error e => rfl
          | ok s =>
            dsimp only [Except.map]
            rw [show ∀ d, (zeroDelta l.nOutputs l.inp.bare).withDelta d =
              ((zeroDelta l.nOutputs l.inp).withDelta d).bare from fun _ => rfl, connBackward_bare]
            rw [show (zeroDelta l.nOutputs l.inp.bare).deltas = (zeroDelta l.nOutputs l.inp).deltas
              from rfl, show ((zeroDelta l.nOutputs l.self).withDelta e).bare.deltas =
              ((zeroDelta l.nOutputs l.self).withDelta e).deltas from rfl]
            cases connBackward m _ x d with
            | error e => rfl
            | ok i => rfl

theorem recUpdate_bare (l : RLay K) : recUpdate l.bare = (recUpdate l).bare := by
  unfold recUpdate
  refine same_test rfl ?_ rfl
  dsimp only [RLay.bare]
  rw [connUpdate_bare, connUpdate_bare, connUpdate_bare]

/-! ## LSTM layers -/

theorem mapR_map {α β : Type} {f : α → α} {h : β → β} {op : α → R → Res (β × R)}
    (H : ∀ x r, op (f x) r = (op x r).map fun p => (h p.1, p.2)) (a : Gates α) (r : R) :
    (a.map f).mapR op r = (a.mapR op r).map fun p => (p.1.map h, p.2) := by
  unfold Gates.mapR
  simp only [bind, Except.bind]
  dsimp only [Gates.map]
  rw [H]
  cases op a.f r with
  | error e => rfl
  | ok p1 =>
    dsimp only [Except.map]
    rw [H]
    cases op a.i _ with
    | error e => rfl
    | ok p2 =>
      dsimp only [Except.map]
      rw [H]
      cases op a.g _ with
      | error e => rfl
      | ok p3 =>
        dsimp only [Except.map]
        rw [H]
        cases op a.o _ with
        | error e => rfl
        | ok p4 => rfl

theorem lstmForward_bare (m : Libm K) (l : TLay K) (x : List K) :
    lstmForward m l.bare x = (lstmForward m l x).map TLay.bare := by
  have H : ∀ v : List K, ∀ y (r : Unit), (connForward m y.bare v).map (·, ()) =
      ((connForward m y v).map (·, ())).map fun p => (p.1.bare, p.2) := by
    intro v y r
    rw [connForward_bare]
    cases connForward m y v with
    | error e => rfl
    | ok a => rfl
  unfold lstmForward
  simp only [bind, Except.bind]
  dsimp only [TLay.bare]
  rw [mapR_map (f := CLay.bare) (h := CLay.bare) (H x),
    mapR_map (f := CLay.bare) (h := CLay.bare) (H l.h)]
  cases l.u.mapR (fun y (_ : Unit) => (connForward m y x).map (·, ())) () with
  | error e => rfl
  | ok u =>
    cases l.w.mapR (fun y (_ : Unit) => (connForward m y l.h).map (·, ())) () with
    | error e => rfl
    | ok w =>
      have G : ∀ fn (a b : CLay K), gateVal m l.nOutputs fn a.bare b.bare =
        gateVal m l.nOutputs fn a b := fun _ _ _ => rfl
      dsimp only [Except.map, Gates.map]
      rw [G, G, G, G]
      cases gateVal m l.nOutputs l.rfn u.1.f w.1.f with
      | error e => rfl
      | ok f =>
        cases gateVal m l.nOutputs l.rfn u.1.i w.1.i with
        | error e => rfl
        | ok i =>
          cases gateVal m l.nOutputs l.fn u.1.g w.1.g with
          | error e => rfl
          | ok g =>
            cases gateVal m l.nOutputs l.rfn u.1.o w.1.o with
            | error e => rfl
            | ok o =>
              refine map_test rfl rfl ?_
              cases actArr m l.fn _ with
              | error e => rfl
              | ok a => rfl

theorem gateBack_bare (m : Libm K) (e p x : List K) (u w : CLay K) (d : Option (List K)) :
    gateBack m e p x u.bare w.bare d =
      (gateBack m e p x u w d).map fun z => ((z.1.1.bare, z.1.2.bare), z.2) := by
  unfold gateBack
  simp only [bind, Except.bind]
  refine map_test rfl rfl ?_
  rw [show w.bare.withDelta e = (w.withDelta e).bare from rfl,
    show u.bare.withDelta e = (u.withDelta e).bare from rfl, connBackward_bare, connBackward_bare]
  cases connBackward m (w.withDelta e) p none with
  | error f => rfl
  | ok a =>
    cases connBackward m (u.withDelta e) x d with
    | error f => rfl
    | ok b => rfl

theorem lstmBackward_bare (m : Libm K) (l : TLay K) (x : List K) (d : Option (List K)) :
    lstmBackward m l.bare x d = (lstmBackward m l x d).map fun p => (p.1.bare, p.2) := by
  unfold lstmBackward
  simp only [bind, Except.bind]
  refine map_test rfl rfl ?_
  dsimp only [TLay.bare, Gates.map]
  cases actArr m l.fn _ with
  | error e => rfl
  | ok act =>
    dsimp only
    cases gradientArray m l.fn _ _ with
    | error e => rfl
    | ok t2 =>
      dsimp only
      cases gradientArray m l.rfn l.gate.o _ with
      | error e => rfl
      | ok eo =>
        dsimp only
        rw [gateBack_bare]
        cases gateBack m eo _ _ _ _ _ with
        | error e => rfl
        | ok po =>
          dsimp only [Except.map]
          cases gradientArray m l.fn l.gate.g _ with
          | error e => rfl
          | ok eg =>
            dsimp only
            rw [gateBack_bare]
            cases gateBack m eg _ _ _ _ _ with
            | error e => rfl
            | ok pg =>
              dsimp only [Except.map]
              cases gradientArray m l.rfn l.gate.i _ with
              | error e => rfl
              | ok ei =>
                dsimp only
                rw [gateBack_bare]
                cases gateBack m ei _ _ _ _ _ with
                | error e => rfl
                | ok pi =>
                  dsimp only [Except.map]
                  cases gradientArray m l.rfn l.gate.f _ with
                  | error e => rfl
                  | ok ef =>
                    dsimp only
                    rw [gateBack_bare]
                    cases gateBack m ef _ _ _ _ _ with
                    | error e => rfl
                    | ok pf => rfl

theorem lstmUpdate_bare (l : TLay K) : lstmUpdate l.bare = (lstmUpdate l).bare := by
  unfold lstmUpdate
  refine same_test rfl ?_ rfl
  dsimp only [TLay.bare, Gates.map]
  simp only [connUpdate_bare]

/-! ## Convolutional layers -/

theorem convCols_bare (l : VLay K) (x : List K) : convCols l.bare x = convCols l x := rfl

theorem convForward_bare (m : Libm K) (l : VLay K) (x : List K) :
    convForward m l.bare x = (convForward m l x).map VLay.bare := by
  unfold convForward
  refine map_test rfl rfl ?_
  rw [convCols_bare]
  cases convCols l x with
  | error e => rfl
  | ok p =>
    dsimp only [VLay.bare, CLay.bare]
    cases activateArray m l.core.fn _ with
    | error e => rfl
    | ok p => rfl

theorem convUpdates_bare (m : Libm K) (l : VLay K) (x : List K) :
    convUpdates m l.bare x = (convUpdates m l x).map VLay.bare := by
  unfold convUpdates
  rw [convCols_bare]
  dsimp only [VLay.bare, CLay.bare]
  cases gradientArray m l.core.fn _ _ with
  | error e => rfl
  | ok ds =>
    cases convCols l x with
    | error e => rfl
    | ok p => rfl

theorem convDelta_bare (l : VLay K) (d : List K) :
    convDelta l.bare d = (convDelta l d).map fun p => (p.1.bare, p.2) := by
  unfold convDelta
  refine map_test rfl (map_test rfl rfl rfl) (map_test rfl rfl ?_)
  dsimp only [VLay.bare, CLay.bare]
  cases written _ with
  | error e => rfl
  | ok t0 =>
    dsimp only
    cases col2im _ l.channels l.height l.width l.size l.stride l.pad d with
    | error e => rfl
    | ok p => rfl

theorem convBackward_bare (m : Libm K) (l : VLay K) (x : List K) (d : Option (List K)) :
    convBackward m l.bare x d = (convBackward m l x d).map fun p => (p.1.bare, p.2) := by
  unfold convBackward
  refine map_test rfl rfl ?_
  have h : (if l.bare.core.opt.sgd = true then convUpdates m l.bare x else .ok l.bare) =
      (if l.core.opt.sgd = true then convUpdates m l x else .ok l).map VLay.bare :=
    map_test rfl (convUpdates_bare m l x) rfl
  rw [h]
  cases (if l.core.opt.sgd = true then convUpdates m l x else .ok l) with
  | error e => rfl
  | ok l1 =>
    cases d with
    | none => rfl
    | some d =>
      dsimp only [Except.map]
      rw [convDelta_bare]
      cases convDelta l1 d with
      | error e => rfl
      | ok p => rfl

theorem convUpdate_bare (l : VLay K) : convUpdate l.bare = (convUpdate l).bare := by
  unfold convUpdate
  dsimp only [VLay.bare]
  rw [connUpdate_bare]

/-! ## Layers -/

theorem keepR_map {α : Type} {f : α → GLay K} {f' : α → α} {b : GLay K → GLay K}
    (hb : ∀ a, b (f a) = f (f' a)) {x : Res α} {y : Res α} (h : y = x.map f') (r : R) :
    keepR f y r = (keepR f x r).map fun p => (b p.1, p.2) := by
  rw [h]
  cases x with
  | error e => rfl
  | ok a => show Except.ok (f (f' a), r) = Except.ok (b (f a), r); rw [hb]

theorem keepR_same {α : Type} {f : α → GLay K} (hb : ∀ a, (f a).bare = f a) (x : Res α) (r : R) :
    keepR f x r = (keepR f x r).map fun p => (p.1.bare, p.2) := by
  cases x with
  | error e => rfl
  | ok a => show Except.ok (f a, r) = Except.ok ((f a).bare, r); rw [hb]

theorem liftR_same {α : Type} {f : α → GLay K} (hb : ∀ a, (f a).bare = f a) (x : Res (α × R)) :
    liftR f x = (liftR f x).map fun p => (p.1.bare, p.2) := by
  cases x with
  | error e => rfl
  | ok a => show Except.ok (f a.1, a.2) = Except.ok ((f a.1).bare, a.2); rw [hb]

theorem layerForward_bare (g : Rng K R) (m : Libm K) (lo : K) (train : Bool) (l : GLay K) (x : List K)
    (r : R) : layerForward g m lo train l.bare x r =
      (layerForward g m lo train l x r).map fun p => (p.1.bare, p.2) := by
  cases l with
  | conn l => exact keepR_map (f := GLay.conn) (f' := CLay.bare) (fun _ => rfl) (connForward_bare m l x) r
  | recu l => exact keepR_map (f := GLay.recu) (f' := RLay.bare) (fun _ => rfl) (recForward_bare m l x) r
  | lstm l => exact keepR_map (f := GLay.lstm) (f' := TLay.bare) (fun _ => rfl) (lstmForward_bare m l x) r
  | conv l => exact keepR_map (f := GLay.conv) (f' := VLay.bare) (fun _ => rfl) (convForward_bare m l x) r
  | maxp l => exact keepR_same (f := GLay.maxp) (fun _ => rfl) _ _
  | avgp l => exact keepR_same (f := GLay.avgp) (fun _ => rfl) _ _
  | ups l => exact keepR_same (f := GLay.ups) (fun _ => rfl) _ _
  | drop l => exact liftR_same (f := GLay.drop) (fun _ => rfl) _
  | noise l => exact liftR_same (f := GLay.noise) (fun _ => rfl) _
  | soft l => exact keepR_same (f := GLay.soft) (fun _ => rfl) _ _

theorem bare_outs (l : GLay K) : l.bare.outs = l.outs := by cases l <;> rfl

theorem bare_dim (l : GLay K) : l.bare.dim = l.dim := by cases l <;> rfl

theorem bare_deltas (l : GLay K) : l.bare.deltas = l.deltas := by cases l <;> rfl

theorem bare_withDelta (l : GLay K) (d : List K) : l.bare.withDelta d = (l.withDelta d).bare := by
  cases l <;> rfl

theorem layerUpdate_bare (l : GLay K) : layerUpdate l.bare = (layerUpdate l).bare := by
  cases l with
  | conn l => exact congrArg GLay.conn (connUpdate_bare l)
  | recu l => exact congrArg GLay.recu (recUpdate_bare l)
  | lstm l => exact congrArg GLay.lstm (lstmUpdate_bare l)
  | conv l => exact congrArg GLay.conv (convUpdate_bare l)
  | maxp l => rfl
  | avgp l => rfl
  | ups l => rfl
  | drop l => rfl
  | noise l => rfl
  | soft l => rfl

theorem backOf_map {α : Type} {f : α → GLay K} {f' : α → α} (hb : ∀ a, (f a).bare = f (f' a))
    {x y : Res (α × Option (List K))} (h : y = x.map fun p => (f' p.1, p.2)) :
    backOf f y = (backOf f x).map fun p => (p.1.bare, p.2) := by
  rw [h]
  cases x with
  | error e => rfl
  | ok a => show Except.ok (f (f' a.1), a.2) = Except.ok ((f a.1).bare, a.2); rw [hb]

theorem backOnly_same {l : GLay K} (hb : l.bare = l) (x : Res (Option (List K))) :
    backOnly l x = (backOnly l x).map fun p => (p.1.bare, p.2) := by
  cases x with
  | error e => rfl
  | ok a => show Except.ok (l, a) = Except.ok (l.bare, a); rw [hb]

theorem layerBackward_bare (m : Libm K) (l : GLay K) (x : List K) (d : Option (List K)) :
    layerBackward m l.bare x d = (layerBackward m l x d).map fun p => (p.1.bare, p.2) := by
  cases l with
  | conn l => exact backOf_map (f := GLay.conn) (f' := CLay.bare) (fun _ => rfl) (connBackward_bare m l x d)
  | recu l => exact backOf_map (f := GLay.recu) (f' := RLay.bare) (fun _ => rfl) (recBackward_bare m l x d)
  | lstm l => exact backOf_map (f := GLay.lstm) (f' := TLay.bare) (fun _ => rfl) (lstmBackward_bare m l x d)
  | conv l => exact backOf_map (f := GLay.conv) (f' := VLay.bare) (fun _ => rfl) (convBackward_bare m l x d)
  | maxp l => exact backOnly_same rfl _
  | avgp l => exact backOnly_same rfl _
  | ups l => exact backOnly_same rfl _
  | drop l => exact backOnly_same rfl _
  | noise l => exact backOnly_same rfl _
  | soft l => exact backOnly_same rfl _

/-! ## Networks -/

theorem genForward_bare (g : Rng K R) (m : Libm K) (lo : K) (train : Bool) : ∀ (ls : List (GLay K))
    (x : List K) (r : R), genForward g m lo train (ls.map GLay.bare) x r =
      (genForward g m lo train ls x r).map fun p => (p.1.map GLay.bare, p.2)
  | [], _, _ => rfl
  | l :: ls, x, r => by
    rw [List.map_cons]
    unfold genForward
    rw [layerForward_bare]
    cases layerForward g m lo train l x r with
    | error e => rfl
    | ok p =>
      dsimp only [Except.map]
      rw [bare_outs]
      cases p.1.outs with
      | error e => rfl
      | ok o =>
        dsimp only
        rw [genForward_bare g m lo train ls o]
        cases genForward g m lo train ls o p.2 with
        | error e => rfl
        | ok q => rfl

theorem resetAll_bare : ∀ ls : List (GLay K),
    resetAll (ls.map GLay.bare) = (resetAll ls).map fun p => p.map GLay.bare
  | [] => rfl
  | l :: ls => by
    have h : l.bare.reset = l.reset.map GLay.bare := by
      unfold GLay.reset
      rw [bare_deltas, bare_dim, bare_withDelta]
      exact map_test rfl rfl rfl
    rw [List.map_cons]
    unfold resetAll
    rw [h, resetAll_bare ls]
    cases l.reset with
    | error e => rfl
    | ok l =>
      cases resetAll ls with
      | error e => rfl
      | ok ls => rfl

theorem headDelta_bare (l : GLay K) (t : List K) :
    l.bare.headDelta t = (l.headDelta t).map GLay.bare := by
  unfold GLay.headDelta
  rw [bare_deltas, bare_dim, bare_outs]
  cases l.outs with
  | error e => rfl
  | ok o =>
    dsimp only
    rw [bare_withDelta]
    exact map_test rfl rfl rfl

theorem genBackGo_bare (m : Libm K) (x : List K) : ∀ (rest : List (GLay K)) (l : GLay K),
    genBackGo m x l.bare (rest.map GLay.bare) = (genBackGo m x l rest).map fun p => p.map GLay.bare
  | [], l => by
    rw [List.map_nil]
    unfold genBackGo
    rw [layerBackward_bare]
    cases layerBackward m l x none with
    | error e => rfl
    | ok p => rfl
  | p :: rest, l => by
    rw [List.map_cons]
    unfold genBackGo
    rw [bare_outs, bare_deltas]
    cases p.outs with
    | error e => rfl
    | ok o =>
      dsimp only
      rw [layerBackward_bare]
      cases layerBackward m l o (some p.deltas) with
      | error e => rfl
      | ok q =>
        obtain ⟨l1, d⟩ := q
        cases d with
        | none => rfl
        | some d =>
          dsimp only [Except.map]
          rw [bare_withDelta, genBackGo_bare m x rest]
          cases genBackGo m x (p.withDelta d) rest with
          | error e => rfl
          | ok q => rfl

theorem genLearn_bare (m : Libm K) (ls : List (GLay K)) (t x : List K) :
    genLearn m (ls.map GLay.bare) t x = (genLearn m ls t x).map fun p => p.map GLay.bare := by
  unfold genLearn genBackward
  rw [resetAll_bare]
  cases resetAll ls with
  | error e => rfl
  | ok l1 =>
    dsimp only [Except.map]
    rw [← List.map_reverse]
    cases l1.reverse with
    | nil => rfl
    | cons h rest =>
      rw [List.map_cons]
      dsimp only
      rw [headDelta_bare]
      cases h.headDelta t with
      | error e => rfl
      | ok h1 =>
        dsimp only [Except.map]
        rw [genBackGo_bare]
        cases genBackGo m x h1 rest with
        | error e => rfl
        | ok us =>
          show Except.ok (List.map layerUpdate (us.map GLay.bare).reverse) =
            Except.ok (List.map GLay.bare (List.map layerUpdate us.reverse))
          rw [← List.map_reverse, List.map_map, List.map_map]
          refine congrArg Except.ok (List.map_congr_left fun l _ => ?_)
          exact layerUpdate_bare l

end Xcsf
