import Verif.Rep
import Verif.CoreLaws
import Verif.PropsCond
import Verif.PropsPred
import Verif.PropsGp
import Verif.PropsDgp2

/-!
# The functions of the concrete representations return
-/

set_option linter.unusedSectionVars false
set_option linter.unusedVariables false

namespace Xcsf
variable {K R : Type} [Field K] [LinearOrder K] [IsStrictOrderedRing K] [FloorRing K]

/-! ## Regular systems from sound representations -/

/-- Parameters a user may set, `param.c` (the ranges of `Regular`). -/
structure Params.Legal (par : Params K) : Prop where
  popSize : 0 ≤ par.popSize
  nActions : 1 ≤ par.nActions
  yDim : 1 ≤ par.yDim
  beta0 : 0 ≤ par.beta
  beta1 : par.beta ≤ 1
  initErr : 0 ≤ par.initErr
  initFit0 : 0 < par.initFit
  initFit1 : par.initFit ≤ 1
  errReduc : 0 ≤ par.eaErrReduc
  fitReduc0 : 0 < par.eaFitReduc
  fitReduc1 : par.eaFitReduc ≤ 1

/-- The generator draws from the open unit interval and losses are not negative. -/
structure Platform.Legal (pf : Platform K R) : Prop where
  rng : pf.rng.Open
  loss : ∀ p y, 0 ≤ pf.loss p y

theorem Rep.kit_regular {X B : Type} {par : Params K} (hp : par.Legal) {v : Rep K X B R}
    {W : B → Prop} (h : v.Sound par.nActions par.yDim W) {pf : Platform K R} (hf : pf.Legal) :
    Regular par (v.kit h pf) (fun _ => True) where
  popSize := hp.popSize
  nActions := hp.nActions
  yDim := hp.yDim
  beta0 := hp.beta0
  beta1 := hp.beta1
  initErr := hp.initErr
  initFit0 := hp.initFit0
  initFit1 := hp.initFit1
  errReduc := hp.errReduc
  fitReduc0 := hp.fitReduc0
  fitReduc1 := hp.fitReduc1
  draw0 := fun r => (hf.rng r).1
  draw1 := fun r => (hf.rng r).2
  floor0 := fun v => Int.floor_le v
  floor1 := fun v => Int.lt_floor_add_one v
  eps := by show (0 : K) < dblEps; unfold dblEps; positivity
  loss := hf.loss
  wRand := fun _ => trivial
  wCover := fun _ _ _ _ _ _ _ _ _ _ => trivial
  coverErr := fun f b x a r ha _ => by
    have hc : ∀ e, (v.kit h pf).cover f b x a r = .error e → e = .hang ∨ e = .exit := by
      intro e he
      unfold Rep.kit at he
      dsimp only at he
      rw [dif_pos ⟨Int.natCast_nonneg a, by simpa using ha⟩] at he
      split at he
      · cases he
      · next f hf =>
        cases he
        rcases h.cover f b.1 x (a : Int).toNat r b.2 (by simpa using ha) with ⟨q', e', w⟩ | e' | e' <;>
          rw [hf] at e' <;> cases e'
        · exact .inl rfl
        · exact .inr rfl
    constructor
    · intro e; rcases hc _ e with h | h <;> cases h
    · intro e; rcases hc _ e with h | h <;> cases h
  wMatch := fun _ _ _ _ _ => trivial
  wAct := fun _ _ _ _ _ => trivial
  act0 := fun e b x r _ => (got (v.act e b.1 x r) (h.act e b.1 x r b.2)).2.1
  act1 := fun e b x r _ => (got (v.act e b.1 x r) (h.act e b.1 x r b.2)).2.2.1
  wPredict := fun _ _ _ _ _ _ => trivial
  predictLen := fun e b p x r _ hl =>
    (got (v.predict e b.1 p x r) (h.predict e b.1 p x r b.2)).2.2 hl
  wUpdate := fun _ _ _ _ _ _ _ => trivial
  updateLen := fun n b p x y r _ hl =>
    (got (v.update n b.1 p x y r) (h.update n b.1 p x y r b.2)).2.2 hl
  wCross := fun _ _ _ _ _ => ⟨trivial, trivial⟩
  wMutate := fun _ _ _ _ _ => trivial
  mutateErr := fun b r _ => by
    have hc : ∀ e, (v.kit h pf).mutate b r = .error e → e = .hang := by
      intro e he
      unfold Rep.kit at he
      dsimp only at he
      split at he
      · cases he
      · next f hf =>
        cases he
        rcases h.mutate b.1 r b.2 with ⟨q', e', w⟩ | e' <;> rw [hf] at e' <;> cases e'
        rfl
    constructor
    · intro e; cases hc _ e
    · intro e; cases hc _ e
  wCopy := fun _ _ _ _ => trivial
  wClone := fun _ _ _ => trivial

/-! ## Soundness of the parts -/

section
variable {C A P : Type}

/-- A condition whose functions return and keep an invariant. -/
structure CondVt.Sound (cv : CondVt K C R) (n : Nat) (W : C → Prop) : Prop where
  init : ∀ r, ∃ q, cv.init r = .ok q ∧ W q.1
  cover : ∀ c x r, W c → x.length = n → (∃ q, cv.cover c x r = .ok q ∧ W q.1) ∨
    cv.cover c x r = .error .hang ∨ cv.cover c x r = .error .exit
  cmatch : ∀ c x, W c → x.length = n → ∃ q, cv.cmatch c x = .ok q ∧ W q.2
  update : ∀ c x, W c → x.length = n → W (cv.update c x)
  crossover : ∀ c d r, W c → W d → ∃ q, cv.crossover c d r = .ok q ∧ W q.2.1 ∧ W q.2.2.1
  mutate : ∀ c r, W c → ∃ q, cv.mutate c r = .ok q ∧ W q.2.1
  copy : ∀ c r, W c → ∃ q, cv.copy c r = .ok q ∧ W q.1

/-- An action whose functions return and compute valid actions. -/
structure ActVt.Sound (av : ActVt A R) (n : Nat) (W : A → Prop) : Prop where
  init : ∀ r, ∃ q, av.init r = .ok q ∧ W q.1
  cover : ∀ a (k : Nat), W a → k < n → W (av.cover a k)
  compute : ∀ a, W a → 0 ≤ av.compute a ∧ av.compute a < n
  mutate : ∀ a r, W a → ∃ q, av.mutate a r = .ok q ∧ W q.2.1
  copy : ∀ a, W a → W (av.copy a)

/-- A prediction whose functions return and have `y_dim` elements. -/
structure PredVt.Sound (pv : PredVt K P R) (y : Nat) (W : P → Prop) : Prop where
  init : ∀ r, ∃ q, pv.init r = .ok q ∧ W q.1
  compute : ∀ s p x, W s → W (pv.compute s p x).1 ∧
    (p.length = y → (pv.compute s p x).2.length = y)
  update : ∀ n s p x t, W s → W (pv.update n s p x t).1 ∧
    (p.length = y → (pv.update n s p x t).2.length = y)
  mutate : ∀ s r, W s → ∃ q, pv.mutate s r = .ok q ∧ W q.2.1
  copy : ∀ s r, W s → ∃ q, pv.copy s r = .ok q ∧ W q.1

/-- The invariant of a rule made of three parts. -/
structure RuleBody.Ok (WC : C → Prop) (WA : A → Prop) (WP : P → Prop) (b : RuleBody C A P) :
    Prop where
  cond : WC b.cond
  act : WA b.act
  pred : WP b.pred

theorem mkRep_sound {cv : CondVt K C R} {av : ActVt A R} {pv : PredVt K P R} {n nA y : Nat}
    {WC : C → Prop} {WA : A → Prop} {WP : P → Prop} (hc : cv.Sound n WC) (ha : av.Sound nA WA)
    (hp : pv.Sound y WP) : (mkRep n nA cv av pv).Sound nA y (RuleBody.Ok WC WA WP) where
  rand := fun r => by
    obtain ⟨c, ec, wc⟩ := hc.init r
    obtain ⟨p, ep, wp⟩ := hp.init c.2
    obtain ⟨a, ea, wa⟩ := ha.init p.2
    refine ⟨(⟨c.1, a.1, p.1⟩, a.2), ?_, wc, wa, wp⟩
    show (cv.init r >>= _) = _
    rw [ec]; show (pv.init c.2 >>= _) = _
    rw [ep]; show (av.init p.2 >>= _) = _
    rw [ea]; rfl
  cover := fun _ b x a r w k => by
    rcases hc.cover b.cond x.1 r w.cond x.2 with ⟨c, ec, wc⟩ | e | e
    · refine .inl ⟨({ b with cond := c.1, act := av.cover b.act a }, c.2), ?_, wc,
        ha.cover _ _ w.act k, w.pred⟩
      show (cv.cover b.cond x.1 r >>= _) = _
      rw [ec]; rfl
    · refine .inr (.inl ?_)
      show (cv.cover b.cond x.1 r >>= _) = _
      rw [e]; rfl
    · refine .inr (.inr ?_)
      show (cv.cover b.cond x.1 r >>= _) = _
      rw [e]; rfl
  cmatch := fun _ b x r w => by
    obtain ⟨c, ec, wc⟩ := hc.cmatch b.cond x.1 w.cond x.2
    refine ⟨(c.1, { b with cond := c.2 }, r), ?_, wc, w.act, w.pred⟩
    show (cv.cmatch b.cond x.1 >>= _) = _
    rw [ec]; rfl
  act := fun _ b x r w => ⟨_, rfl, (ha.compute _ w.act).1, (ha.compute _ w.act).2, w⟩
  predict := fun _ b p x r w => ⟨_, rfl, ⟨w.cond, w.act, (hp.compute _ p x.1 w.pred).1⟩,
    (hp.compute _ p x.1 w.pred).2⟩
  update := fun n b p x t r w => ⟨_, rfl, ⟨hc.update _ _ w.cond x.2, w.act,
    (hp.update n _ p x.1 t w.pred).1⟩, (hp.update n _ p x.1 t w.pred).2⟩
  crossover := fun a b r wa wb => by
    obtain ⟨c, ec, w1, w2⟩ := hc.crossover a.cond b.cond r wa.cond wb.cond
    refine ⟨(c.1, { a with cond := c.2.1 }, { b with cond := c.2.2.1 }, c.2.2.2), ?_,
      ⟨w1, wa.act, wa.pred⟩, ⟨w2, wb.act, wb.pred⟩⟩
    show (cv.crossover a.cond b.cond r >>= _) = _
    rw [ec]; rfl
  mutate := fun b r w => by
    obtain ⟨c, ec, wc⟩ := hc.mutate b.cond r w.cond
    obtain ⟨p, ep, wp⟩ := hp.mutate b.pred c.2.2 w.pred
    left
    by_cases h : 1 < nA
    · obtain ⟨a, ea, wa⟩ := ha.mutate b.act p.2.2 w.act
      refine ⟨(c.1 || p.1 || a.1, ⟨c.2.1, a.2.1, p.2.1⟩, a.2.2), ?_, wc, wa, wp⟩
      show (cv.mutate b.cond r >>= _) = _
      rw [ec]; show (pv.mutate b.pred c.2.2 >>= _) = _
      rw [ep]; show ((if 1 < nA then av.mutate b.act p.2.2 else .ok (false, b.act, p.2.2)) >>= _) = _
      rw [if_pos h, ea]; rfl
    · refine ⟨(c.1 || p.1 || false, ⟨c.2.1, b.act, p.2.1⟩, p.2.2), ?_, wc, w.act, wp⟩
      show (cv.mutate b.cond r >>= _) = _
      rw [ec]; show (pv.mutate b.pred c.2.2 >>= _) = _
      rw [ep]; show ((if 1 < nA then av.mutate b.act p.2.2 else .ok (false, b.act, p.2.2)) >>= _) = _
      rw [if_neg h]; rfl
  copy := fun f b r w => by
    obtain ⟨c, ec, wc⟩ := hc.copy b.cond r w.cond
    have hq : ∃ q, (if f then pv.init c.2 else pv.copy b.pred c.2) = .ok q ∧ WP q.1 := by
      cases f
      · exact hp.copy _ _ w.pred
      · exact hp.init _
    obtain ⟨p, ep, wp⟩ := hq
    refine ⟨(⟨c.1, av.copy b.act, p.1⟩, p.2), ?_, wc, ha.copy _ w.act, wp⟩
    show (cv.copy b.cond r >>= _) = _
    rw [ec]; show ((if f then pv.init c.2 else pv.copy b.pred c.2) >>= _) = _
    rw [ep]; rfl
  clone := fun b r w => by
    obtain ⟨c, ec, wc⟩ := hc.copy b.cond r w.cond
    obtain ⟨p, ep, wp⟩ := hp.copy b.pred c.2 w.pred
    refine ⟨(⟨c.1, av.copy b.act, p.1⟩, p.2), ?_, wc, ha.copy _ w.act, wp⟩
    show (cv.copy b.cond r >>= _) = _
    rw [ec]; show (pv.copy b.pred c.2 >>= _) = _
    rw [ep]; rfl

end

/-! ## Random mutation rates -/

theorem samInit1_ok {g : Rng K R} (H : g.Open) (t : SamType) (r : R) :
    ∃ v r', samInit1 g t r = .ok (v, r') ∧ LegalRate v := by
  unfold samInit1
  have hu := Rng.uni_range H (show (muEps : K) < 1 by norm_num [muEps]) r
  have hl : LegalRate (g.uni muEps 1 r).1 := ⟨hu.1.le, hu.2.le⟩
  cases t with
  | logNormal => exact ⟨_, _, rfl, hl⟩
  | uniform => exact ⟨_, _, rfl, hl⟩
  | rateSelect =>
    obtain ⟨a, b⟩ := C45_random_int H (show (0 : Int) < 10 by decide) r
    obtain ⟨v, e, hv⟩ := mrateAt_legal (K := K) a b
    simp only [e]
    exact ⟨v, _, rfl, hv⟩

/-- A mutation rate is a probability. -/
def UnitRate (m : K) : Prop := 0 ≤ m ∧ m ≤ 1

theorem LegalRate.unit {m : K} (h : LegalRate m) : UnitRate m :=
  ⟨le_trans (by norm_num) h.1, h.2⟩

theorem samAdapt1_ok (g : Rng K R) (m : K) (r : R) :
    ∃ v r', samAdapt1 g .logNormal m r = .ok (v, r') ∧ LegalRate v :=
  ⟨_, _, rfl, clampK_mem _ (by norm_num [muEps])⟩

/-! ## Conditions -/

theorem dummy_sound (n : Nat) : (dummyCond : CondVt K Unit R).Sound n (fun _ => True) where
  init := fun r => ⟨_, rfl, trivial⟩
  cover := fun _ _ r _ _ => .inl ⟨_, rfl, trivial⟩
  cmatch := fun _ _ _ _ => ⟨_, rfl, trivial⟩
  update := fun _ _ _ _ => trivial
  crossover := fun _ _ r _ _ => ⟨_, rfl, trivial, trivial⟩
  mutate := fun _ r _ => ⟨_, rfl, trivial⟩
  copy := fun _ r _ => ⟨_, rfl, trivial⟩

theorem rectInitGo_length (g : Rng K R) (p : CondPar K) : ∀ (n : Nat) (r : R),
    (rectInitGo g p n r).1.length = n
  | 0, _ => rfl
  | n + 1, r => congrArg (· + 1) (rectInitGo_length g p n _)

theorem rectSpreadGo_length (g : Rng K R) (p : CondPar K) : ∀ (cs : List (K × K)) (r : R),
    (rectSpreadGo g p cs r).1.length = cs.length
  | [], _ => rfl
  | _ :: cs, r => congrArg (· + 1) (rectSpreadGo_length g p cs _)

theorem ellInitGo_length (g : Rng K R) (p : CondPar K) : ∀ (n : Nat) (r : R),
    (ellInitGo g p n r).1.length = n
  | 0, _ => rfl
  | n + 1, r => congrArg (· + 1) (ellInitGo_length g p n _)

theorem rectCoverGo_len (g : Rng K R) (p : CondPar K) : ∀ (x : List K) (r : R),
    (rectCoverGo g p x r).1.length = x.length
  | [], _ => rfl
  | _ :: xs, r => by
    unfold rectCoverGo
    split
    · exact congrArg (· + 1) (rectCoverGo_len g p xs _)
    · exact congrArg (· + 1) (rectCoverGo_len g p xs _)

theorem ellCoverGo_len (g : Rng K R) (p : CondPar K) : ∀ (x : List K) (r : R),
    (ellCoverGo g p x r).1.length = x.length
  | [], _ => rfl
  | _ :: xs, r => congrArg (· + 1) (ellCoverGo_len g p xs _)

theorem boxUpdateGo_len (eta : K) : ∀ (cs : List (K × K)) (xs : List K),
    (boxUpdateGo eta cs xs).length = cs.length
  | [], xs => by cases xs <;> rfl
  | _ :: _, [] => rfl
  | _ :: cs, _ :: xs => congrArg (· + 1) (boxUpdateGo_len eta cs xs)

/-- A box has one pair of parameters for each input, and its mutation rate is legal. -/
def Box.Dim (n : Nat) (c : Box K) : Prop := c.genes.length = n ∧ UnitRate c.mu

theorem box_cross_dim (g : Rng K R) (p : CondPar K) {n : Nat} {c d : Box K} (hc : c.Dim n)
    (hd : d.Dim n) (r : R) : (boxCross g p c d r).1.Dim n ∧ (boxCross g p c d r).2.1.Dim n := by
  obtain ⟨h1, h2, -⟩ := C31_crossover g p c d r (Eq.trans hc.1 (Eq.symm hd.1))
  refine ⟨⟨h1.trans hc.1, ?_⟩, h2.trans hd.1, ?_⟩
  · unfold boxCross
    dsimp only
    split
    · exact hc.2
    · exact hc.2
  · unfold boxCross
    dsimp only
    split
    · exact hd.2
    · exact hd.2

theorem box_mutate_dim (g : Rng K R) (p : CondPar K) (hp : p.min ≤ p.max) (sp : Bool) {n : Nat}
    {c : Box K} (hc : c.Dim n) (r : R) :
    ∃ o, boxMutate g p sp c r = .ok o ∧ o.1.Dim n := by
  obtain ⟨c', ch, r', e, h, k, -⟩ := C31_mutate g p hp sp c r
  exact ⟨_, e, h.trans hc.1, k.unit⟩

theorem rect_sound {g : Rng K R} (H : g.Open) (p : CondPar K) (hp : p.min ≤ p.max) (n : Nat) :
    (rectCond g p n).Sound n (Box.Dim n) where
  init := fun r => by
    obtain ⟨v, r', e, hv⟩ := samInit1_ok H .logNormal
      (if p.csr then rectSpreadGo g p (rectInitGo g p n r).1 (rectInitGo g p n r).2
        else rectInitGo g p n r).2
    refine ⟨(⟨(if p.csr then rectSpreadGo g p (rectInitGo g p n r).1 (rectInitGo g p n r).2
        else rectInitGo g p n r).1, v⟩, r'), ?_, ?_⟩
    · show rectInit g p n r = _
      unfold rectInit
      dsimp only
      rw [e]; rfl
    · refine ⟨?_, hv.unit⟩
      show List.length _ = n
      split
      · rw [rectSpreadGo_length, rectInitGo_length]
      · rw [rectInitGo_length]
  cover := fun c x r w hx => .inl ⟨_, rfl, (rectCoverGo_len g p x r).trans hx, w.2⟩
  cmatch := fun c x w _ => ⟨_, rfl, w⟩
  update := fun c x w _ => by
    show (rectUpdate p c x).Dim n
    unfold rectUpdate
    split
    · exact ⟨(boxUpdateGo_len _ _ _).trans w.1, w.2⟩
    · exact w
  crossover := fun c d r wc wd => ⟨_, rfl, box_cross_dim g p wc wd r⟩
  mutate := fun c r w => by
    obtain ⟨o, e, h⟩ := box_mutate_dim g p hp p.csr w r
    refine ⟨(o.2.1, o.1, o.2.2), ?_, h⟩
    show (boxMutate g p p.csr c r >>= _) = _
    rw [e]; rfl
  copy := fun c r w => ⟨_, rfl, w⟩

theorem ell_sound {g : Rng K R} (H : g.Open) (p : CondPar K) (hp : p.min ≤ p.max) (n : Nat) :
    (ellCond g p n).Sound n (Box.Dim n) where
  init := fun r => by
    obtain ⟨v, r', e, hv⟩ := samInit1_ok H .logNormal (ellInitGo g p n r).2
    refine ⟨(⟨_, v⟩, r'), ?_, ellInitGo_length g p n r, hv.unit⟩
    show ellInit g p n r = _
    unfold ellInit
    dsimp only
    rw [e]; rfl
  cover := fun c x r w hx => .inl ⟨_, rfl, (ellCoverGo_len g p x r).trans hx, w.2⟩
  cmatch := fun c x w _ => ⟨_, rfl, w⟩
  update := fun c x w _ => by
    show (ellUpdate p c x).Dim n
    unfold ellUpdate
    split
    · exact ⟨(boxUpdateGo_len _ _ _).trans w.1, w.2⟩
    · exact w
  crossover := fun c d r wc wd => ⟨_, rfl, box_cross_dim g p wc wd r⟩
  mutate := fun c r w => by
    obtain ⟨o, e, h⟩ := box_mutate_dim g p hp true w r
    refine ⟨(o.2.1, o.1, o.2.2), ?_, h⟩
    show (boxMutate g p true c r >>= _) = _
    rw [e]; rfl
  copy := fun c r w => ⟨_, rfl, w⟩

/-- A string over `0`, `1`, `#` with `bits` characters for each input, and a legal mutation rate. -/
def Tern.Dim (p : CondPar K) (n : Nat) (c : Tern K) : Prop :=
  c.string.length = n * p.bits ∧ Ternary c.string ∧ UnitRate c.mu

theorem tern_init_rate {g : Rng K R} (H : g.Open) {p : CondPar K} {n : Nat} {r : R} {z : Tern K × R}
    (h : ternInit g p n r = .ok z) : UnitRate z.1.mu := by
  obtain ⟨v, r', e, hv⟩ := samInit1_ok H .logNormal r
  unfold ternInit at h
  rw [e] at h
  cases h
  exact hv.unit

theorem tern_cover_rate {g : Rng K R} {p : CondPar K} {c : Tern K} {x : List K} {r : R}
    {z : Tern K × R} (h : ternCover g p c x r = .ok z) : z.1.mu = c.mu := by
  unfold ternCover at h
  simp only [bind, Except.bind] at h
  split at h
  · cases h
  · cases h; rfl

theorem tern_cross_rate (g : Rng K R) (p : CondPar K) (c d : Tern K) (r : R) :
    (ternCross g p c d r).1.mu = c.mu ∧ (ternCross g p c d r).2.1.mu = d.mu := by
  unfold ternCross
  dsimp only
  split
  · exact ⟨rfl, rfl⟩
  · exact ⟨rfl, rfl⟩

theorem tern_sound {g : Rng K R} (H : g.Open) (p : CondPar K) (hb : p.bits ≤ 31) (n : Nat) :
    (ternCond g p n).Sound n (Tern.Dim p n) where
  init := fun r => by
    obtain ⟨c, r', e, h⟩ := C32_init g p n r
    exact ⟨_, e, h.1, h.2, tern_init_rate H e⟩
  cover := fun c x r w hx => by
    obtain ⟨c', r', e, h1, h2, -⟩ := C32_cover g p hb c x r
    exact .inl ⟨_, e, by rw [h1, hx], h2, by rw [tern_cover_rate e]; exact w.2.2⟩
  cmatch := fun c x w hx => by
    obtain ⟨m, e, -⟩ := C32_match p hb c x (by rw [w.1, hx])
    refine ⟨(m, c), ?_, w⟩
    show (ternMatch p c x >>= _) = _
    rw [e]; rfl
  update := fun c x w _ => w
  crossover := fun c d r wc wd => by
    obtain ⟨h1, h2, -, h3, -⟩ := C32_crossover g p c d r (by rw [wc.1, wd.1])
    have h4 := tern_cross_rate g p c d r
    exact ⟨_, rfl, ⟨h1.trans wc.1, (h3 wc.2.1 wd.2.1).1, by rw [h4.1]; exact wc.2.2⟩,
      h2.trans wd.1, (h3 wc.2.1 wd.2.1).2, by rw [h4.2]; exact wd.2.2⟩
  mutate := fun c r w => by
    obtain ⟨c', ch, r', e, h0, h1, -, h2, -⟩ := C32_mutate g c r
    refine ⟨(ch, c', r'), ?_, h1.trans w.1, h2 w.2.1, h0.unit⟩
    show (ternMutate g c r >>= _) = _
    rw [e]; rfl
  copy := fun c r w => ⟨_, rfl, w⟩

/-- The array is the prefix code of an expression over the constants and the inputs. -/
def GpTree.Codes (nc ni : Nat) (t : GpTree K) : Prop := ∃ e : GpExpr nc ni, t.tree = e.code

theorem GpExpr.widen {nc ni m : Nat} (h : ni ≤ m) : ∀ e : GpExpr nc ni,
    ∃ e' : GpExpr nc m, e'.code = e.code
  | .func f l r => by
    obtain ⟨l', hl⟩ := GpExpr.widen h l
    obtain ⟨r', hr⟩ := GpExpr.widen h r
    exact ⟨.func f l' r', by rw [GpExpr.code, GpExpr.code, hl, hr]⟩
  | .const i => ⟨.const i, rfl⟩
  | .input i => ⟨.input (Fin.castLE h i), rfl⟩

theorem GpTree.Codes.widen {nc ni m : Nat} (h : ni ≤ m) {t : GpTree K} (w : t.Codes nc ni) :
    t.Codes nc m := by
  obtain ⟨e, he⟩ := w
  obtain ⟨e', h'⟩ := GpExpr.widen h e
  exact ⟨e', he.trans h'.symm⟩

/-- The arguments allow the first tree that is grown. -/
structure GpArgs.Legal (a : GpArgs K) : Prop where
  leaf : 0 < a.constants.length + a.nInputs
  room : 2 ^ (a.initDepth + 1) ≤ a.maxLen + 1

theorem gp_match_codes {a : GpArgs K} {x : List K} (hx : a.nInputs ≤ x.length) {t : GpTree K}
    (w : t.Codes a.constants.length a.nInputs) :
    ∃ m pos, gpMatch a x t = .ok (m, { t with pos := pos }) := by
  obtain ⟨e, h⟩ := w.widen hx
  exact ⟨_, _, C33_match h⟩

theorem gp_cover_sound {g : Rng K R} (H : g.Open) {a : GpArgs K} (ha : a.Legal) {x : List K}
    (hx : a.nInputs ≤ x.length) (fuelT : Nat) (mem : Nat → Int) : ∀ (fuel : Nat) (r : R),
    (∃ q, gpCover g a x (fuelT + 1) mem fuel r = .ok q ∧ q.1.Codes a.constants.length a.nInputs) ∨
      gpCover g a x (fuelT + 1) mem fuel r = .error .hang
  | 0, _ => .inr rfl
  | fuel + 1, r => by
    unfold gpCover
    obtain ⟨t, r', e⟩ := C33_rand_terminates H ha.room fuelT mem 0 r
    obtain ⟨ex, h1, -⟩ := C33_rand H ha.leaf e
    rw [e]
    obtain ⟨m, pos, hm⟩ := gp_match_codes hx (show t.Codes _ _ from ⟨ex, h1⟩)
    show (∃ q, (gpMatch a x t >>= _) = _ ∧ _) ∨ (gpMatch a x t >>= _) = _
    rw [hm]
    show (∃ q, (if m = true then Except.ok (_, r') else _) = _ ∧ _) ∨
      (if m = true then Except.ok (_, r') else _) = _
    cases m with
    | true => exact .inl ⟨_, rfl, ex, h1⟩
    | false => exact gp_cover_sound H ha hx fuelT mem fuel r'

theorem gp_sound {g : Rng K R} (H : g.Open) {a : GpArgs K} (ha : a.Legal) (pc : K)
    (mem : Nat → Int) (fuel : Nat) {n : Nat} (hn : a.nInputs ≤ n) :
    (gpCond g a pc mem fuel).Sound n (GpTree.Codes a.constants.length a.nInputs) where
  init := fun r => by
    obtain ⟨t, r', e⟩ := C33_rand_terminates H ha.room fuel mem 0 r
    obtain ⟨ex, h1, -⟩ := C33_rand H ha.leaf e
    exact ⟨_, e, ex, h1⟩
  cover := fun c x r _ hx => by
    rcases gp_cover_sound H ha (hn.trans_eq hx.symm) fuel mem fuel r with h | h
    · exact .inl h
    · exact .inr (.inl h)
  cmatch := fun c x w hx => by
    obtain ⟨m, pos, e⟩ := gp_match_codes (hn.trans_eq hx.symm) w
    exact ⟨_, e, w⟩
  update := fun c x w _ => w
  crossover := fun c d r wc wd => by
    obtain ⟨e1, h1⟩ := wc
    obtain ⟨e2, h2⟩ := wd
    show ∃ q, gpCondCrossover g pc c d r = _ ∧ _
    unfold gpCondCrossover
    dsimp only
    split
    · obtain ⟨k1, k2, q1, q2, r', -, -, e, f1, f2, -⟩ := C33_crossover H h1 h2 (g.uni 0 1 r).2
      refine ⟨(true, q1, q2, r'), ?_, ⟨_, f1⟩, ⟨_, f2⟩⟩
      rw [e]; rfl
    · exact ⟨_, rfl, ⟨e1, h1⟩, ⟨e2, h2⟩⟩
  mutate := fun c r w => by
    obtain ⟨e, h⟩ := w
    obtain ⟨t', b, r', e', h1, h2, -⟩ := C33_mutate H ha.leaf h r
    refine ⟨(b, t', r'), ?_, e', h2⟩
    show (gpMutate g a c r >>= _) = _
    rw [h1]; rfl
  copy := fun c r w => ⟨_, rfl, w⟩

theorem dgp_cover_sound {g : Rng K R} (H : g.Open) {a : DgpArgs} (ha : a.Legal) {x : List K}
    (hx : a.nInputs ≤ x.length) (st : Bool) : ∀ (fuel : Nat) (d : Graph K) (r : R), Wired a d →
    (∃ q, dgpCover g st x fuel d r = .ok q ∧ Wired a q.1) ∨
      dgpCover g st x fuel d r = .error .hang
  | 0, _, _, _ => .inr rfl
  | fuel + 1, d, r, hd => by
    unfold dgpCover
    obtain ⟨m, d', e, w, -⟩ := C34_match ha (C34_randomise H ha hd r) hx st
    dsimp only
    rw [e]
    show (∃ q, (if m = true then Except.ok (d', _) else _) = _ ∧ _) ∨
      (if m = true then Except.ok (d', _) else _) = _
    cases m with
    | true => exact .inl ⟨_, rfl, w⟩
    | false => exact dgp_cover_sound H ha hx st fuel d' _ w

theorem dgp_sound {g : Rng K R} (H : g.Open) {a : DgpArgs} (ha : a.Legal) (st : Bool)
    (fuel : Nat) {n : Nat} (hn : a.nInputs ≤ n) : (dgpCond g a st fuel).Sound n (Wired a) where
  init := fun r => by
    obtain ⟨d, r', e, w⟩ := C34_create H ha r
    exact ⟨_, e, w⟩
  cover := fun c x r w hx => by
    rcases dgp_cover_sound H ha (hn.trans_eq hx.symm) st fuel c r w with h | h
    · exact .inl h
    · exact .inr (.inl h)
  cmatch := fun c x w hx => by
    obtain ⟨m, d', e, w', -⟩ := C34_match ha w (hn.trans_eq hx.symm) st
    exact ⟨_, e, w'⟩
  update := fun c x w _ => w
  crossover := fun c d r wc wd => ⟨_, rfl, wc, wd⟩
  mutate := fun c r w => by
    obtain ⟨m, d', r', e, w', -⟩ := C34_mutate H ha w r
    exact ⟨_, e, w'⟩
  copy := fun c r w => by
    obtain ⟨r', e⟩ := C34_copy H w r
    exact ⟨_, e, w⟩

/-! ## Actions and predictions -/

/-- An action that exists, and a legal mutation rate. -/
def ActInt.Valid (n : Nat) (a : ActInt K) : Prop :=
  (0 ≤ a.action ∧ a.action < n) ∧ UnitRate a.mu

theorem int_mutate_rate {g : Rng K R} {n : Nat} {a : ActInt K} {r : R} {z : Bool × ActInt K × R}
    (h : actIntMutate g n a r = .ok z) : UnitRate z.2.1.mu := by
  obtain ⟨v, r', e, hv⟩ := samAdapt1_ok g a.mu r
  unfold actIntMutate at h
  rw [e] at h
  dsimp only [bind, Except.bind] at h
  split at h
  · cases h; exact hv.unit
  · cases h; exact hv.unit

theorem int_init_rate {g : Rng K R} (H : g.Open) {n : Nat} {r : R} {z : ActInt K × R}
    (h : actIntInit g n r = .ok z) : UnitRate z.1.mu := by
  obtain ⟨v, r', e, hv⟩ := samInit1_ok H .logNormal r
  unfold actIntInit at h
  rw [e] at h
  cases h
  exact hv.unit

theorem int_sound {g : Rng K R} (H : g.Open) {n : Nat} (hn : 1 ≤ n) :
    (intAct g n).Sound n (ActInt.Valid n) where
  init := fun r => by
    obtain ⟨a, r', e, h⟩ := (C36_act_integer H hn r).1
    exact ⟨_, e, h, int_init_rate H e⟩
  cover := fun a k w hk => ⟨⟨Int.natCast_nonneg k, Int.ofNat_lt.2 hk⟩, w.2⟩
  compute := fun a w => w.1
  mutate := fun a r w => by
    obtain ⟨m, a', r', e, h1, h2, -⟩ := (C36_act_integer H hn r).2.1 a w.1
    exact ⟨_, e, ⟨h1, h2⟩, int_mutate_rate e⟩
  copy := fun a w => w

theorem ofArr_length (n : Nat) (f : Nat → K) : (ofArr n f).length = n := by simp [ofArr]

theorem const_sound (p : PredPar K) :
    (constPred p : PredVt K Unit R).Sound p.yDim (fun _ => True) where
  init := fun r => ⟨_, rfl, trivial⟩
  compute := fun _ _ _ _ => ⟨trivial, id⟩
  update := fun _ _ _ _ _ _ => ⟨trivial, fun _ => ofArr_length _ _⟩
  mutate := fun _ r _ => ⟨_, rfl, trivial⟩
  copy := fun _ r _ => ⟨_, rfl, trivial⟩

/-- The weights are one vector of features for each output, and the mutation rate is legal. -/
def Nlms.Dim (p : PredPar K) (s : Nlms K) : Prop :=
  s.n = nFeatures p ∧ s.nWeights = s.n * p.yDim ∧ UnitRate s.mu

theorem nlmsInit_ok {g : Rng K R} (H : g.Open) (p : PredPar K) (tmp : Nat → K) (r : R) :
    ∃ s r', nlmsInit g p tmp r = .ok (s, r') ∧ s.Dim p := by
  unfold nlmsInit
  dsimp only
  split
  · obtain ⟨v, r', e, hv⟩ := samInit1_ok H .logNormal r
    rw [e]
    exact ⟨_, _, rfl, rfl, rfl, hv.unit⟩
  · exact ⟨_, _, rfl, rfl, rfl, le_refl _, zero_le_one⟩

theorem nlms_sound {g : Rng K R} (H : g.Open) (p : PredPar K) (hb : p.etaMin ≤ p.eta)
    (tmp : Nat → K) : (nlmsPred g p tmp).Sound p.yDim (Nlms.Dim p) where
  init := fun r => by
    obtain ⟨s, r', e, h⟩ := nlmsInit_ok H p tmp r
    exact ⟨_, e, h⟩
  compute := fun s q x w => ⟨w, fun _ => ofArr_length _ _⟩
  update := fun _ s q x y w => ⟨w, id⟩
  mutate := fun s r w => by
    show ∃ q, (nlmsMutate g p s r >>= _) = _ ∧ _
    unfold nlmsMutate
    split
    · obtain ⟨v, r', e, hv⟩ := samAdapt1_ok g s.mu r
      rw [e]
      exact ⟨_, rfl, w.1, w.2.1, hv.unit⟩
    · exact ⟨_, rfl, w⟩
  copy := fun s r w => by
    obtain ⟨d, r', e, h⟩ := nlmsInit_ok H p tmp r
    refine ⟨({ d with
      weights := fun i => if i < s.nWeights then s.weights i else d.weights i
      mu := s.mu, eta := s.eta }, r'), ?_, h.1, h.2.1, w.2.2⟩
    show nlmsCopy g p s tmp r = _
    unfold nlmsCopy
    rw [e]; rfl

/-- The weights are one vector of features for each output. -/
def Rls.Dim (p : PredPar K) (s : Rls K) : Prop := s.n = nFeatures p ∧ s.nWeights = s.n * p.yDim

theorem rls_sound (p : PredPar K) (tmp : Nat → K) :
    (rlsPred p tmp : PredVt K (Rls K) R).Sound p.yDim (Rls.Dim p) where
  init := fun r => ⟨_, rfl, rfl, rfl⟩
  compute := fun s q x w => ⟨w, fun _ => ofArr_length _ _⟩
  update := fun _ s q x y w => ⟨w, id⟩
  mutate := fun s r w => ⟨_, rfl, w⟩
  copy := fun s r w => ⟨_, rfl, rfl, rfl⟩

end Xcsf
