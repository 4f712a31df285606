import Verif.NExpandSpec
import Verif.NRepLemmas
import Verif.PropsLemmas

/-!
# Lemmas about networks that grow
-/

set_option linter.unusedSectionVars false
set_option linter.unusedVariables false

namespace Xcsf
variable {K R : Type} [Field K] [LinearOrder K] [IsStrictOrderedRing K] [FloorRing K]

/-! ## Lists of layers put together -/

/-- `GArgs.still` of the last layer. -/
def stillArgs : Bool → List (GArgs K) → Bool
  | b, [] => b
  | b, a :: as => stillArgs (a.still b) as

/-- `GLay.still` of the last layer. -/
def stillLays : Bool → List (GLay K) → Bool
  | b, [] => b
  | b, l :: ls => stillLays (l.still b) ls

/-- The sizes of the last layer. -/
def dimLays : Dim → List (GLay K) → Dim
  | d, [] => d
  | _, l :: ls => dimLays l.dim ls

theorem argsFit_append {k : Lim} : ∀ {as bs : List (GArgs K)} {b : Bool} {d : Dim},
    ArgsFit k b d (as ++ bs) ↔ ArgsFit k b d as ∧ ArgsFit k (stillArgs b as) (netDim d as) bs
  | [], bs, b, d => by simp [ArgsFit, stillArgs, netDim]
  | a :: as, bs, b, d => by
    simp only [List.cons_append, ArgsFit, stillArgs, netDim, argsFit_append (as := as), and_assoc]

theorem netLegal_append {k : Lim} : ∀ {as bs : List (GLay K)} {b : Bool} {d : Dim},
    NetLegal k b d (as ++ bs) ↔ NetLegal k b d as ∧ NetLegal k (stillLays b as) (dimLays d as) bs
  | [], bs, b, d => by simp [NetLegal, stillLays, dimLays]
  | a :: as, bs, b, d => by
    simp only [List.cons_append, NetLegal, stillLays, dimLays, netLegal_append (as := as), and_assoc]

theorem netDim_append : ∀ {as bs : List (GArgs K)} {d : Dim},
    netDim d (as ++ bs) = netDim (netDim d as) bs
  | [], bs, d => rfl
  | a :: as, bs, d => netDim_append (as := as)

theorem dimLays_append : ∀ {as bs : List (GLay K)} {d : Dim},
    dimLays d (as ++ bs) = dimLays (dimLays d as) bs
  | [], bs, d => rfl
  | a :: as, bs, d => dimLays_append (as := as)

theorem settled_append : ∀ {as bs : List (GArgs K)} {s : Bool},
    settled s (as ++ bs) = settled (settled s as) bs
  | [], bs, s => rfl
  | a :: as, bs, s => settled_append (as := as)

theorem slender_append : ∀ {as bs : List (GArgs K)} {s : Bool},
    slender s (as ++ bs) = slender (slender s as) bs
  | [], bs, s => rfl
  | a :: as, bs, s => slender_append (as := as)

theorem dimLays_last {ls : List (GLay K)} : ∀ {d : Dim} {l : GLay K}, ls.getLast? = some l →
    dimLays d ls = l.dim := by
  induction ls with
  | nil => intro d l h; cases h
  | cons x ls ih =>
    intro d l h
    cases ls with
    | nil => cases h; rfl
    | cons y ls =>
      rw [List.getLast?_cons_cons] at h
      exact ih (d := x.dim) h

theorem headOuts_dimLays {ls : List (GLay K)} (h : ls ≠ []) (d : Dim) :
    headOuts ls = (dimLays d ls).n := by
  unfold headOuts
  cases e : ls.getLast? with
  | none => rw [List.getLast?_eq_none_iff] at e; exact absurd e h
  | some l => rw [dimLays_last e]

theorem netLegal_dim {k : Lim} (hk : k.Ok) : ∀ {ls : List (GLay K)} {b : Bool} {d : Dim},
    d.Ok k b → NetLegal k b d ls → (dimLays d ls).Ok k (stillLays b ls)
  | [], b, d, D, _ => D
  | l :: ls, b, d, D, N => netLegal_dim (ls := ls) hk (legal_dim hk N.1 D N.2.2.1 N.2.2.2.1) N.2.2.2.2

/-! ## Slender layers -/

theorem slim_lay {k : Lim} (hk : k.Ok) {s : Bool} {a : GArgs K} {l : GLay K} {d : Dim}
    (ht : l.trait = a.trait) (L : l.Legal k) (A : Agrees d l) (hd : s = true → d.n ≤ k.B)
    (h : a.slim s = true) : l.dim.n ≤ k.B ∧ l.maxOuts ≤ k.B := by
  cases a <;> simp only [GArgs.slim] at h <;> try (cases h; done)
  all_goals
    cases l <;> simp only [GLay.trait, GArgs.trait, Prod.mk.injEq] at ht <;>
      try (exact absurd ht.1 (by decide))
  · have h1 := L.2.1.cur
    exact ⟨by simp only [GLay.dim]; omega, L.2.1.max⟩
  · next l =>
    have P := L.1.inp
    have h1 := P.fits.cur
    have h2 := P.fits.max
    rw [P.outs] at h1
    rw [P.max] at h2
    exact ⟨by simp only [GLay.dim]; omega, h2⟩
  · next l =>
    have P := L.1.u.1
    have h1 := P.fits.cur
    have h2 := P.fits.max
    rw [P.outs] at h1
    rw [P.max] at h2
    exact ⟨by simp only [GLay.dim]; omega, h2⟩
  · have h1 := L.1.nOut
    have h2 := L.2.2.2.1
    simp only [GLay.maxOuts, GLay.dim, PLay.dim]
    omega
  · have h1 := L.1.nOut
    have h2 := A.ins
    have h3 := hd h
    simp only [GLay.maxOuts, GLay.dim, PLay.dim, GLay.nIn] at *
    omega
  · have h1 := L.1.nOut
    have h2 := A.ins
    have h3 := hd h
    simp only [GLay.maxOuts, GLay.dim, PLay.dim, GLay.nIn] at *
    omega
  · have h1 := L.1.nOut
    have h2 := A.ins
    have h3 := hd h
    simp only [GLay.maxOuts, GLay.dim, GLay.nIn] at *
    omega

theorem slender_lays {k : Lim} (hk : k.Ok) : ∀ {as : List (GArgs K)} {ls : List (GLay K)}
    {s b : Bool} {d : Dim}, ls.map GLay.trait = as.map GArgs.trait → NetLegal k b d ls →
    (s = true → d.n ≤ k.B) → slender s as = true → ∀ {l}, ls.getLast? = some l →
    l.dim.n ≤ k.B ∧ l.maxOuts ≤ k.B
  | [], _, _, _, _, ht, _, _, _, _, hl => by
    rw [List.map_nil, List.map_eq_nil_iff] at ht
    subst ht
    cases hl
  | _ :: _, [], _, _, _, ht, _, _, _, _, _ => nomatch ht
  | a :: as, x :: ls, s, b, d, ht, N, hd, h, l, hl => by
    rw [List.map_cons, List.map_cons, List.cons.injEq] at ht
    have hx := slim_lay hk ht.1 N.1 N.2.1 hd
    cases ls with
    | nil =>
      have : as = [] := List.map_eq_nil_iff.1 ht.2.symm
      subst this
      cases hl
      exact hx h
    | cons y ls =>
      rw [List.getLast?_cons_cons] at hl
      exact slender_lays hk ht.2 N.2.2.2.2 (fun e => (hx e).1) h hl

/-! ## Expansion -/

theorem connInit_max (g : Rng K R) (a : CArgs K) (m : Int) (r : R) :
    connInit g { a with nMax := m } r =
      (connInit g a r).map fun z => ({ z.1 with maxOutputs := m }, z.2) := by
  unfold connInit
  dsimp only
  split
  · rfl
  · split
    · next e => rfl
    · split
      · rfl
      · split
        · rfl
        · rfl

/-- A new layer of neurons behind a layer of sizes `d`. -/
structure NewConn (k : Lim) (d : Dim) (a : CArgs K) (l : CLay K) : Prop where
  legal : (GLay.conn l).Legal k
  agrees : Agrees d (.conn l)
  outs : l.nOutputs = a.nInit
  opt : l.opt = a.opt
  shown : (GLay.conn l).Shown

theorem connNew_ok {p : NetPlan} {n : Nat} {as : List (GArgs K)} (L : p.Legal n as) {g : Rng K R}
    (O : g.Open) (Bd : g.Bounded) {d : Dim} {b : Bool} (D : d.Ok p.lim b) {a : CArgs K}
    (hi : a.nInputs = d.n.toNat) (h1 : 1 ≤ a.nInit) (hB : a.nInit ≤ p.lim.B)
    (hm : a.nMax ≤ p.lim.B) (hf : 0 ≤ a.fn ∧ a.fn < 11) (ho : a.opt.neurons = false) (r : R) :
    ∃ z, connInit g a r = .ok z ∧ NewConn p.lim d a z.1 := by
  have hk := L.lim
  have q1 := D.pos
  have q2 := D.le
  have hp : p.lim.B * d.n.toNat ≤ p.lim.M :=
    Nat.le_trans (Nat.mul_le_mul_left _ (by omega)) hk.prod
  have hN := hk.big
  have A : (GArgs.conn { a with nMax := (a.nInit : Int) }).Fits p.lim d := by
    refine ⟨⟨?_, h1, hB, ?_, hp, hN, Int.le_refl _, fun h => ?_, hf⟩, fun h => ?_⟩
    · show 1 ≤ d.n.toNat; omega
    · show ((a.nInit : Nat) : Int) ≤ _; exact_mod_cast hB
    · exact absurd (ho ▸ h) (by simp)
    · exact absurd (ho ▸ h) (by simp)
  obtain ⟨z, e, G⟩ := gfault_ends L (layerInit_step hk O Bd D A (fun h => by cases h) r)
    (by
      unfold GArgs.after layerInit liftR
      dsimp only
      split
      · next e => exact fun h => by cases h; exact connInit_ends _ _ _ e
      · exact ends_ok _)
  have hs := layerInit_shown (z := z) e G.legal L.pool
  unfold GArgs.after layerInit liftR at e
  dsimp only at e
  have e' : connInit g { a with nMax := (a.nInit : Int) } r = _ := rfl
  have hh := connInit_max g { a with nMax := (a.nInit : Int) } a.nMax r
  rw [show ({ a with nInputs := d.n.toNat, nMax := (a.nInit : Int) } : CArgs K) =
    { a with nMax := (a.nInit : Int) } by rw [← hi]] at e
  cases ez : connInit g { a with nMax := (a.nInit : Int) } r with
  | error f => rw [ez] at e; cases e
  | ok y =>
    obtain ⟨c, r1⟩ := y
    rw [ez] at e hh
    cases e
    refine ⟨({ c with maxOutputs := a.nMax }, r1), hh, ?_, ?_, ?_, ?_, ?_⟩
    · obtain ⟨S, F, h3, h4⟩ := G.legal
      refine ⟨⟨S.1, S.2, S.3, S.4, S.5, S.6, S.7, S.8, S.9⟩, ⟨F.1, hm, fun h => ?_, F.4, F.5, F.6⟩,
        h3, h4⟩
      have : c.opt = a.opt := (Prod.mk.inj G.trait).2
      rw [show ({ c with maxOutputs := a.nMax } : CLay K).opt = c.opt from rfl, this, ho] at h
      cases h
    · exact ⟨G.agrees.ins, fun t h => by cases h⟩
    · have h4 := congrArg Dim.n G.dim
      simp only [GLay.dim, GArgs.dim] at h4
      exact_mod_cast h4
    · exact (Prod.mk.inj G.trait).2
    · exact hs

theorem traits_snoc {ls : List (GLay K)} {xs : List (GArgs K)} {a : GArgs K}
    (h : ls.map GLay.trait = (xs ++ [a]).map GArgs.trait) :
    ∃ ys y, ls = ys ++ [y] ∧ ys.map GLay.trait = xs.map GArgs.trait ∧ y.trait = a.trait := by
  rw [List.map_append] at h
  obtain ⟨l1, l2, e, h1, h2⟩ := List.map_eq_append_iff.1 h
  cases l2 with
  | nil => cases h2
  | cons y l2 =>
    rw [List.map_cons, List.map_cons, List.cons.injEq] at h2
    have : l2 = [] := List.map_eq_nil_iff.1 h2.2
    subst this
    exact ⟨l1, y, e, h1, h2.1⟩

/-- The parameters of the layer that expansion adds, of `m` neurons. -/
def newArgs (o : LOpt) (e : CArgs K) (m : Nat) : CArgs K :=
  { nInputs := 0, nInit := m, nMax := m, maxGrow := 0, fn := e.fn, opt := { o with neurons := false },
    eta := e.eta, etaMin := e.etaMin, momentum := e.momentum, decay := e.decay }

theorem settles_mono {a : GArgs K} {s : Bool} (h : a.settles s = true) : a.settles true = true := by
  cases a <;> simp_all [GArgs.settles]

/-- How the number of outputs of an output layer depends on the layer before, if it does not work on
an image. -/
theorem out_fits {k : Lim} (hk : k.Ok) {a : GArgs K} {d e : Dim} (A : a.Fits k d)
    (hp : a.plain = true) (hi : a.image = false) (h1 : 1 ≤ e.n) (hN : e.n ≤ k.N) : a.Fits k e := by
  have hp' : k.B * e.n.toNat ≤ k.M := Nat.le_trans (Nat.mul_le_mul_left _ (by omega)) hk.prod
  cases a <;> simp [GArgs.plain] at hp <;> simp [GArgs.image] at hi
  · exact ⟨⟨by show 1 ≤ e.n.toNat; omega, A.1.2, A.1.3, A.1.4, hp', A.1.6, A.1.7, A.1.8, A.1.9⟩, A.2⟩
  · exact ⟨⟨by show 1 ≤ e.n.toNat; omega, A.1.2, A.1.3, A.1.4, hp', A.1.6, A.1.7, A.1.8, A.1.9⟩, A.2⟩
  · exact ⟨⟨by show 1 ≤ e.n.toNat; omega, A.1.2, A.1.3, A.1.4, hp', A.1.6, A.1.7, A.1.8, A.1.9⟩, A.2⟩
  · exact A

theorem netExpand_ok {p : NetPlan} {n : Nat} {as : List (GArgs K)} {b : NetBody K} {g : Rng K R}
    (O : g.Open) (Bd : g.Bounded) (L : p.Legal n as) (T : p.Trains as) (X : Extensible as)
    (h : NetOk p as true b) {o : CArgs K} (hf : 0 ≤ o.fn ∧ o.fn < 11) (fuel : Nat) (r : R) :
    ∃ pre hid out l r', b.lays = pre ++ [hid, out] ∧
      connInit g (expandArgs o hid.dim.n hid.dim.n hid.maxOuts) r = .ok (l, r') ∧
      netExpand g fuel o b r = .ok (⟨b.nOut, pre ++ [hid, .conn l, out]⟩, r') ∧
      (l.nInputs : Int) = hid.dim.n ∧ (l.nOutputs : Int) = hid.dim.n ∧
      ∃ as', p.Legal n as' ∧ p.Trains as' ∧ p.outs as' = p.outs as ∧ Extensible as' ∧
        NetOk p as' true ⟨b.nOut, pre ++ [hid, .conn l, out]⟩ := by
  obtain ⟨xs, a, rfl⟩ : ∃ xs a, as = xs ++ [a] :=
    ⟨as.dropLast, as.getLast L.ne, (List.dropLast_append_getLast L.ne).symm⟩
  have htop := X.top
  rw [List.dropLast_concat] at htop
  have hxs : xs ≠ [] := by rintro rfl; cases htop
  obtain ⟨ws, w, rfl⟩ : ∃ ws w, xs = ws ++ [w] :=
    ⟨xs.dropLast, xs.getLast hxs, (List.dropLast_append_getLast hxs).symm⟩
  obtain ⟨ys, out, ey, hys, hout⟩ := traits_snoc h.trait
  obtain ⟨pre, hid, rfl, hpre, hhid⟩ := traits_snoc hys
  have hlast : ((ws ++ [w] ++ [a]).getLast? : Option (GArgs K)) = some a := by simp
  have hpl := L.last a (by rw [hlast]; rfl)
  have him := X.out a (by rw [hlast]; rfl)
  have hN := h.legal
  rw [ey, netLegal_append] at hN
  obtain ⟨N1, No⟩ := hN
  have hdl : dimLays p.dim (pre ++ [hid]) = hid.dim := by rw [dimLays_append]; rfl
  rw [hdl] at No
  have D := netLegal_dim L.lim L.dim N1
  rw [hdl] at D
  have q1 := D.pos
  obtain ⟨hB, hmB⟩ := slender_lays L.lim hys N1 (fun e => by cases e) htop
    (l := hid) (by simp)
  obtain ⟨⟨l, r'⟩, e, C⟩ := connNew_ok L O Bd D (a := expandArgs o hid.dim.n hid.dim.n hid.maxOuts)
    rfl (show 1 ≤ hid.dim.n.toNat by omega) (show hid.dim.n.toNat ≤ _ by omega) hmB hf rfl r
  have hlo : (l.nOutputs : Int) = hid.dim.n := by
    have := C.outs
    simp only [expandArgs] at this
    omega
  have hopt : l.opt = { o.opt with neurons := false } := C.opt
  have hdim : (GLay.conn l).dim = ⟨hid.dim.n, hid.dim.n, 1, 1⟩ := by
    obtain ⟨h1, h2, h3⟩ := C.legal.2.2.2 (by rw [hopt])
    simp only [GLay.dim]
    rw [h1, h2, h3, hlo]
    rfl
  have htk : out.takes = none := by
    have hi : a.image = false := him
    cases a <;> simp only [GArgs.image] at hi <;> try (cases hi; done)
    all_goals
      cases out <;> simp only [GLay.trait, GArgs.trait, Prod.mk.injEq] at hout <;>
        first | rfl | exact absurd hout.1 (by decide)
  have hps : out.passes = false := by
    cases a <;> simp only [GArgs.plain] at hpl <;> try (cases hpl; done)
    all_goals
      cases out <;> simp only [GLay.trait, GArgs.trait, Prod.mk.injEq] at hout <;>
        first | rfl | exact absurd hout.1 (by decide)
  have Nnew : NetLegal p.lim p.image p.dim (pre ++ [hid, .conn l, out]) := by
    rw [show pre ++ [hid, .conn l, out] = (pre ++ [hid]) ++ [.conn l, out] by simp, netLegal_append,
      hdl]
    refine ⟨N1, C.legal, C.agrees, (fun h => nomatch h), (fun h => nomatch h), No.1, ⟨?_, ?_⟩, ?_,
      ?_, trivial⟩
    · rw [hdim]; exact No.2.1.ins
    · intro t ht; rw [htk] at ht; cases ht
    · intro ht; rw [htk] at ht; cases ht
    · intro ht; rw [hps] at ht; cases ht
  have hrun : netExpand g fuel o b r = .ok (⟨b.nOut, pre ++ [hid, .conn l, out]⟩, r') := by
    have erev : b.lays.reverse = out :: hid :: pre.reverse := by rw [ey]; simp
    unfold netExpand
    rw [erev]
    dsimp only
    rw [e]
    dsimp only
    rw [show (hid :: pre.reverse).reverse ++ [GLay.conn l, out] = pre ++ [hid, .conn l, out] by simp,
      genResize_step r' Nnew]
  have hhead : out.dim.n = p.outs (ws ++ [w] ++ [a]) := by
    rw [← h.head, headOuts, ey]
    simp
  -- sizes of the parameters
  have hfit := L.fit
  rw [argsFit_append] at hfit
  obtain ⟨F1, Fa, Fi, -⟩ := hfit
  have hsoft : (∃ z, a = .soft z) → (netDim p.dim (ws ++ [w])).n = hid.dim.n := by
    rintro ⟨z, rfl⟩
    have h1 : p.outs (ws ++ [w] ++ [.soft z]) = (netDim p.dim (ws ++ [w])).n := by
      unfold NetPlan.outs
      rw [netDim_append]
      rfl
    rw [← h1, ← hhead]
    cases out <;> simp only [GLay.trait, GArgs.trait, Prod.mk.injEq] at hout <;>
      try (exact absurd hout.1 (by decide))
    have h2 := No.1.1.nOut
    have h3 := No.2.1.ins
    simp only [GLay.dim, GLay.nIn] at *
    omega
  have hd0 : 1 ≤ (netDim p.dim (ws ++ [w])).n ∧
      p.lim.B * (netDim p.dim (ws ++ [w])).n.toNat ≤ p.lim.M := by
    have hk := L.lim
    cases a <;> simp only [GArgs.plain] at hpl <;> (try (cases hpl; done)) <;>
      simp only [GArgs.image] at him <;> try (cases him; done)
    · have h1 := Fa.1.ins
      have h2 := Fa.1.prod
      exact ⟨by simp only at h1; omega, h2⟩
    · have h1 := Fa.1.ins
      have h2 := Fa.1.prod
      exact ⟨by simp only at h1; omega, h2⟩
    · have h1 := Fa.1.ins
      have h2 := Fa.1.prod
      exact ⟨by simp only at h1; omega, h2⟩
    · rw [hsoft ⟨_, rfl⟩]
      refine ⟨q1, Nat.le_trans (Nat.mul_le_mul_left _ ?_) hk.prod⟩
      have := D.le
      omega
  let c : GArgs K := .conn (newArgs o.opt o hid.dim.n.toNat)
  have hcd : c.dim (netDim p.dim (ws ++ [w])) = ⟨hid.dim.n, hid.dim.n, 1, 1⟩ := by
    simp only [c, GArgs.dim, newArgs]
    rw [show ((hid.dim.n.toNat : Nat) : Int) = hid.dim.n by omega]
  have houts : p.outs (ws ++ [w] ++ [c, a]) = p.outs (ws ++ [w] ++ [a]) := by
    unfold NetPlan.outs
    rw [netDim_append, netDim_append (bs := [a])]
    show (a.dim (c.dim (netDim p.dim (ws ++ [w])))).n = (a.dim (netDim p.dim (ws ++ [w]))).n
    rw [hcd]
    cases a <;> simp only [GArgs.plain] at hpl <;> (try (cases hpl; done)) <;>
      simp only [GArgs.image] at him <;> try (cases him; done)
    · rfl
    · rfl
    · rfl
    · simp only [GArgs.dim]; exact (hsoft ⟨_, rfl⟩).symm
  have hmem : ∀ x, x ∈ ws ++ [w] ++ [c, a] → x = c ∨ x ∈ ws ++ [w] ++ [a] := by
    intro x hx
    simp only [List.mem_append, List.mem_cons, List.not_mem_nil, or_false] at hx ⊢
    tauto
  have hb := L.lim.big
  refine ⟨pre, hid, out, l, r', by rw [ey]; simp, e, hrun, ?_, hlo, ws ++ [w] ++ [c, a], ?_, ?_,
    houts, ?_, ?_⟩
  · exact C.agrees.ins
  · refine { L with ne := by simp, fit := ?_, first := ?_, last := ?_, fixed := ?_ }
    · rw [argsFit_append]
      refine ⟨F1, ⟨⟨?_, ?_, ?_, ?_, hd0.2, hb, Int.le_refl _, ?_, hf⟩, ?_⟩, (fun h => nomatch h), ?_,
        (fun h => by rw [him] at h; cases h), trivial⟩
      · show 1 ≤ (netDim p.dim (ws ++ [w])).n.toNat; omega
      · show 1 ≤ hid.dim.n.toNat; omega
      · show hid.dim.n.toNat ≤ _; omega
      · show ((hid.dim.n.toNat : Nat) : Int) ≤ _; omega
      · intro h; cases h
      · intro h; cases h
      · rw [hcd]
        exact out_fits L.lim Fa hpl him q1 D.le
    · intro x hx
      refine L.first x ?_
      cases ws <;> simpa using hx
    · intro x hx
      refine L.last x ?_
      rw [hlast]
      simpa using hx
    · intro he
      have := L.fixed he
      rw [settled_append] at this ⊢
      exact settles_mono this
  · refine ⟨fun x hx => ?_, fun x hx => ?_, fun he x hx => ?_⟩
    · rcases hmem x hx with rfl | hx
      · trivial
      · exact T.teach x hx
    · rcases hmem x hx with rfl | hx
      · rfl
      · exact T.conv x hx
    · rcases hmem x hx with rfl | hx
      · rfl
      · exact T.plain he x hx
  · refine ⟨?_, fun x hx => ?_⟩
    · rw [show ws ++ [w] ++ [c, a] = (ws ++ [w] ++ [c]) ++ [a] by simp, List.dropLast_concat,
        slender_append]
      rfl
    · have : x = a := by simpa using hx.symm
      rw [this]; exact him
  · refine ⟨Nnew, ?_, ?_, ?_, ?_⟩
    · show (pre ++ [hid, .conn l, out]).map GLay.trait = (ws ++ [w] ++ [c, a]).map GArgs.trait
      have h2 := congrArg (fun z => z ++ [(0, l.opt), out.trait]) hys
      simp only [List.map_append, List.map_cons, List.map_nil, List.append_assoc, List.cons_append,
        List.nil_append] at h2 ⊢
      rw [← hout]
      show _ = _
      simp only [GLay.trait] at h2 ⊢
      rw [hopt] at h2 ⊢
      exact h2
    · rw [houts]; exact h.noted
    · rw [houts, ← hhead, headOuts]
      simp
    · intro _ x hx
      have hx : x ∈ pre ++ [hid, .conn l, out] := hx
      have hx' : x = .conn l ∨ x ∈ b.lays := by
        rw [ey]
        simp only [List.mem_append, List.mem_cons, List.not_mem_nil, or_false] at hx ⊢
        tauto
      rcases hx' with rfl | hx'
      · exact C.shown
      · exact h.shown rfl x hx'

/-! ## Conversion -/

theorem popGo_prefix {α : Type} : ∀ (n : Nat) (ls : List α), ∃ t, ls = popGo n ls ++ t
  | 0, ls => ⟨[], by simp [popGo]⟩
  | n + 1, ls => by
    unfold popGo
    split
    · next h =>
      obtain ⟨t, ht⟩ := popGo_prefix n ls.dropLast
      have hne : ls ≠ [] := by rintro rfl; simp at h
      refine ⟨t ++ [ls.getLast hne], ?_⟩
      rw [← List.append_assoc, ← ht, List.dropLast_append_getLast hne]
    · exact ⟨[], by simp⟩

theorem popGo_ne {α : Type} : ∀ (n : Nat) {ls : List α}, ls ≠ [] → popGo n ls ≠ []
  | 0, ls, h => h
  | n + 1, ls, h => by
    unfold popGo
    split
    · next h1 =>
      refine popGo_ne n ?_
      intro e
      have := congrArg List.length e
      rw [List.length_dropLast] at this
      simp at this
      omega
    · exact h

theorem popGo_map {α β : Type} (f : α → β) : ∀ (n : Nat) (ls : List α),
    (popGo n ls).map f = popGo n (ls.map f)
  | 0, ls => rfl
  | n + 1, ls => by
    unfold popGo
    rw [List.length_map]
    split
    · rw [popGo_map f n, List.map_dropLast]
    · rfl

theorem popGo_length {α : Type} : ∀ (n : Nat) (ls : List α),
    (popGo n ls).length = max (min 1 ls.length) (ls.length - n)
  | 0, ls => by simp [popGo]
  | n + 1, ls => by
    unfold popGo
    split
    · rw [popGo_length n, List.length_dropLast]; omega
    · omega

theorem argsFit_dim {p : NetPlan} {n : Nat} {as : List (GArgs K)} (L : p.Legal n as) {g : Rng K R}
    (O : g.Open) (Bd : g.Bounded) (r : R) : ∀ {xs : List (GArgs K)} {b : Bool} {d : Dim},
    d.Ok p.lim b → ArgsFit p.lim b d xs → (netDim d xs).Ok p.lim (stillArgs b xs)
  | [], b, d, D, _ => D
  | a :: xs, b, d, D, ⟨A, hi, F⟩ => by
    obtain ⟨z, -, G⟩ := gfault_ends L (layerInit_step L.lim O Bd D A hi r) (layerInit_ends g _ r)
    have D' := legal_dim L.lim G.legal D (by rw [G.image]; exact hi) (fun h _ => G.pass h)
    rw [G.dim, G.still] at D'
    exact argsFit_dim (xs := xs) L O Bd r D' F

theorem softSet_one {p : NetPlan} {n : Nat} {as : List (GArgs K)} (L : p.Legal n as) {y : Nat}
    (h1 : 1 ≤ y) (hB : y ≤ p.lim.B) : ∃ t, softSet (1 : K) (y : Int) = .ok t ∧
      (GLay.soft t).Legal p.lim ∧ t.nIn = (y : Int) ∧ t.nOut = (y : Int) := by
  have h2 := L.lim.big
  have h3 := L.lim.le
  unfold softSet guardOutputs
  rw [if_neg (by omega)]
  refine ⟨_, rfl, ⟨⟨?_, rfl, ?_, ?_, one_ne_zero⟩, ?_⟩, rfl, rfl⟩
  · show (1 : Int) ≤ y; omega
  · simp
  · simp
  · show (y : Int) ≤ _; omega

theorem netToClassifier_ok {p : NetPlan} {n : Nat} {as : List (GArgs K)} {b : NetBody K}
    {g : Rng K R} (O : g.Open) (Bd : g.Bounded) (L : p.Legal n as) (T : p.Trains as)
    (h : NetOk p as true b) (o : CArgs K) {y : Nat} (h1 : 1 ≤ y) (hB : y ≤ p.lim.B)
    (nDel : Int) (r : R) :
    ∃ l t r', netToClassifier g o y nDel b r =
        .ok (⟨y, popGo nDel.toNat b.lays ++ [.conn l, .soft t]⟩, r') ∧
      (l.nInputs : Int) = headOuts (popGo nDel.toNat b.lays) ∧ l.nOutputs = y ∧ t.nOut = (y : Int) ∧
      ∃ as', p.Legal n as' ∧ p.Trains as' ∧ p.outs as' = y ∧ Extensible as' ∧
        NetOk p as' true ⟨y, popGo nDel.toNat b.lays ++ [.conn l, .soft t]⟩ := by
  generalize hm : nDel.toNat = m
  obtain ⟨us, hus⟩ := popGo_prefix m b.lays
  obtain ⟨vs, hvs⟩ := popGo_prefix m as
  have htr : (popGo m b.lays).map GLay.trait = (popGo m as).map GArgs.trait := by
    rw [popGo_map, popGo_map, h.trait]
  have hne := popGo_ne m (h.ne L)
  have hnea := popGo_ne m L.ne
  have hsub : ∀ x, x ∈ popGo m b.lays → x ∈ b.lays := by
    intro x hx; rw [hus]; exact List.mem_append_left _ hx
  have hsuba : ∀ x, x ∈ popGo m as → x ∈ as := by
    intro x hx; rw [hvs]; exact List.mem_append_left _ hx
  generalize hls : popGo m b.lays = ls at *
  generalize hxs : popGo m as = xs at *
  have hN := h.legal
  rw [hus, netLegal_append] at hN
  obtain ⟨N1, -⟩ := hN
  have D := netLegal_dim L.lim L.dim N1
  have hho := headOuts_dimLays hne p.dim
  have q1 := D.pos
  have hn : (if ls.length < b.lays.length then headOuts ls else b.nOut) = (dimLays p.dim ls).n := by
    split
    · exact hho
    · next hlt =>
      have : us = [] := by
        have := congrArg List.length hus
        rw [List.length_append] at this
        exact List.length_eq_zero_iff.1 (by omega)
      subst this
      rw [List.append_nil] at hus
      rw [h.noted, ← h.head, hus, hho]
  obtain ⟨⟨l, r'⟩, e, C⟩ := connNew_ok L O Bd D (a := classArgs o (dimLays p.dim ls).n y) rfl h1 hB
    (show (y : Int) ≤ _ by omega) (show (0 : Int) ≤ 3 ∧ (3 : Int) < 11 by decide) rfl r
  obtain ⟨t, et, Lt, ti, tn⟩ := softSet_one L h1 hB
  have hlo : l.nOutputs = y := C.outs
  have hopt : l.opt = { o.opt with neurons := false, functions := false } := C.opt
  have hrun : netToClassifier g o y nDel b r = .ok (⟨y, ls ++ [.conn l, .soft t]⟩, r') := by
    unfold netToClassifier
    dsimp only
    rw [hm, hls, hn, e]
    dsimp only
    rw [et]
  have Nnew : NetLegal p.lim p.image p.dim (ls ++ [.conn l, .soft t]) := by
    rw [netLegal_append]
    refine ⟨N1, C.legal, C.agrees, (fun h => nomatch h), (fun h => nomatch h), Lt, ⟨?_, ?_⟩, ?_, ?_,
      trivial⟩
    · show t.nIn = (l.nOutputs : Int)
      rw [ti, hlo]
    · intro t ht; cases ht
    · intro ht; cases ht
    · intro ht; cases ht
  have hfit := L.fit
  rw [hvs, argsFit_append] at hfit
  obtain ⟨F1, -⟩ := hfit
  have Da := argsFit_dim L O Bd r L.dim F1
  have a1 := Da.pos
  have a2 := Da.le
  have hp : p.lim.B * (netDim p.dim xs).n.toNat ≤ p.lim.M :=
    Nat.le_trans (Nat.mul_le_mul_left _ (by omega)) L.lim.prod
  let c : GArgs K := .conn (classArgs o 0 y)
  let q : GArgs K := .soft ⟨0, 0, 0, 0, 0, 0, 0, 0, 1⟩
  have houts : p.outs (xs ++ [c, q]) = y := by
    unfold NetPlan.outs
    rw [netDim_append]
    rfl
  have hmem : ∀ x, x ∈ xs ++ [c, q] → x = c ∨ x = q ∨ x ∈ as := by
    intro x hx
    simp only [List.mem_append, List.mem_cons, List.not_mem_nil, or_false] at hx
    rcases hx with hx | hx | hx
    · exact .inr (.inr (hsuba x hx))
    · exact .inl hx
    · exact .inr (.inl hx)
  refine ⟨l, t, r', hrun, ?_, hlo, tn, xs ++ [c, q], ?_, ?_, houts, ?_, ?_⟩
  · rw [hho]; exact C.agrees.ins
  · refine { L with ne := by simp, fit := ?_, first := ?_, last := ?_, fixed := ?_ }
    · rw [argsFit_append]
      refine ⟨F1, ⟨⟨?_, h1, hB, ?_, hp, L.lim.big, Int.le_refl _, ?_,
        (show (0 : Int) ≤ 3 ∧ (3 : Int) < 11 by decide)⟩, ?_⟩,
        (fun h => nomatch h), one_ne_zero, (fun h => nomatch h), trivial⟩
      · show 1 ≤ (netDim p.dim xs).n.toNat; omega
      · show (y : Int) ≤ _; omega
      · intro h; cases h
      · intro h; cases h
    · intro x hx
      refine L.first x ?_
      rw [hvs]
      cases xs with
      | nil => exact absurd rfl hnea
      | cons z xs => simpa using hx
    · intro x hx
      have : x = q := by simpa using hx.symm
      rw [this]; rfl
    · intro he
      rw [settled_append]
      rfl
  · refine ⟨fun x hx => ?_, fun x hx => ?_, fun he x hx => ?_⟩
    · rcases hmem x hx with rfl | rfl | hx
      · trivial
      · trivial
      · exact T.teach x hx
    · rcases hmem x hx with rfl | rfl | hx
      · rfl
      · rfl
      · exact T.conv x hx
    · rcases hmem x hx with rfl | rfl | hx
      · rfl
      · rfl
      · exact T.plain he x hx
  · refine ⟨?_, fun x hx => ?_⟩
    · rw [show xs ++ [c, q] = (xs ++ [c]) ++ [q] by simp, List.dropLast_concat, slender_append]
      rfl
    · have : x = q := by simpa using hx.symm
      rw [this]; rfl
  · refine ⟨Nnew, ?_, houts.symm, ?_, ?_⟩
    · show (ls ++ [GLay.conn l, GLay.soft t]).map GLay.trait = (xs ++ [c, q]).map GArgs.trait
      rw [List.map_append, List.map_append, htr]
      congr 1
      show [(0, l.opt), _] = _
      rw [hopt]
      rfl
    · rw [houts, headOuts]
      simp [GLay.dim, tn]
    · intro _ x hx
      have hx : x ∈ ls ++ [GLay.conn l, GLay.soft t] := hx
      simp only [List.mem_append, List.mem_cons, List.not_mem_nil, or_false] at hx
      rcases hx with hx | rfl | rfl
      · exact h.shown rfl x (hsub x hx)
      · exact C.shown
      · exact ready_of_trained Lt (.inr rfl)

end Xcsf
