import Verif.CoreOps4
import Verif.Spec

/-!
# Prediction array, trials and histories: invariant preservation
-/

set_option linter.unusedSectionVars false

namespace Xcsf
variable {K X B R : Type} [Zero K] [One K] [Add K] [Sub K] [Mul K] [Div K]
  [LT K] [DecidableLT K] [IntCast K] [DecidableEq K]
variable {par : Params K} {kit : Kit K X B R} {V : Cl K B → Prop} {E : Fault → Prop}

/-! ## Prediction array -/

theorem addAt_ok {l : List K} {k : Int} (h0 : 0 ≤ k) (hk : k < l.length) (v : K) :
    ∃ l', addAt l k v = .ok l' ∧ l'.length = l.length := by
  unfold addAt
  rw [if_pos h0]
  have hlt : k.toNat < l.length := by omega
  rw [List.getElem?_eq_getElem hlt]
  exact ⟨_, rfl, by simp⟩

theorem addAt_any {l : List K} {k : Int} (v : K) (hub : E .ub) :
    Post (addAt l k v) (fun l' => l'.length = l.length) E := by
  unfold addAt
  split
  · split
    · simp
    · exact hub
  · exact hub

theorem paRule_post {c : Cl K B} {yDim n : Nat} : ∀ (js : List Nat) (pa nr : List K),
    (∀ j ∈ js, j < yDim) → pa.length = n * yDim → nr.length = n * yDim →
    (E .ub ∨ (0 ≤ c.action ∧ c.action < n)) → (E .ub ∨ c.prediction.length = yDim) →
    Post (paRule yDim c js pa nr) (fun p => p.1.length = n * yDim ∧ p.2.length = n * yDim) E
  | [], pa, nr, _, h1, h2, _, _ => ⟨h1, h2⟩
  | j :: js, pa, nr, hj, h1, h2, ha, hp => by
    unfold paRule
    have hj0 := hj j List.mem_cons_self
    have hjs : ∀ j ∈ js, j < yDim := fun k hk => hj k (List.mem_cons_of_mem _ hk)
    split
    · next hnone =>
      rcases hp with h | h
      · exact h
      · rw [List.getElem?_eq_none_iff] at hnone; omega
    · next p hp' =>
      rcases ha with hub | ha
      · refine post_bind (addAt_any _ hub) ?_
        intro pa' e1
        refine post_bind (addAt_any _ hub) ?_
        intro nr' e2
        exact paRule_post js pa' nr' hjs (e1.trans h1) (e2.trans h2) (Or.inl hub) hp
      · have hk0 : 0 ≤ c.action * (yDim : Int) + (j : Int) := by
          have : 0 ≤ c.action * (yDim : Int) := Int.mul_nonneg ha.1 (by omega)
          omega
        have hk : c.action * (yDim : Int) + (j : Int) < ((n * yDim : Nat) : Int) := by
          have : (c.action + 1) * (yDim : Int) ≤ (n : Int) * (yDim : Int) :=
            Int.mul_le_mul_of_nonneg_right (by omega) (by omega)
          rw [Int.add_mul] at this
          push_cast
          omega
        obtain ⟨pa', e1, l1⟩ := addAt_ok (l := pa) hk0 (by rw [h1]; exact hk) (p * c.fit)
        obtain ⟨nr', e2, l2⟩ := addAt_ok (l := nr) hk0 (by rw [h2]; exact hk) c.fit
        rw [e1]
        show Post (addAt nr _ _ >>= _) _ _
        rw [e2]
        exact paRule_post js pa' nr' hjs (l1.trans h1) (l2.trans h2) (Or.inr ha) hp

theorem paRules_post {yDim n : Nat} : ∀ (cs : List (Cl K B)) (pa nr : List K),
    pa.length = n * yDim → nr.length = n * yDim →
    (∀ c ∈ cs, (E .ub ∨ (0 ≤ c.action ∧ c.action < n)) ∧ (E .ub ∨ c.prediction.length = yDim)) →
    Post (paRules yDim cs pa nr) (fun p => p.1.length = n * yDim ∧ p.2.length = n * yDim) E
  | [], pa, nr, h1, h2, _ => ⟨h1, h2⟩
  | c :: cs, pa, nr, h1, h2, h => by
    unfold paRules
    have hc := h c List.mem_cons_self
    refine post_bind (paRule_post (n := n) (List.range yDim) pa nr (by simp) h1 h2 hc.1 hc.2) ?_
    rintro ⟨pa', nr'⟩ ⟨e1, e2⟩
    exact paRules_post cs pa' nr' e1 e2 (fun d hd => h d (List.mem_cons_of_mem _ hd))

/-- `pa_build`, with the sums it forms: they range over the rules of the match set. -/
theorem paBuild_full (L : Laws par kit V E) (x : X) {s : St K X B R} {pend : List Nat}
    (g : Good V s pend) (w : Within s s.mset) :
    Post (paBuild par kit x s) (fun s' => Evolved V s s' pend ∧ s'.mset = s.mset ∧
      s'.pset = s.pset ∧ s'.kset = s.kset ∧ s'.time = s.time ∧
      s'.pa.length = par.nActions * par.yDim ∧ s'.nr.length = par.nActions * par.yDim ∧
      ∃ cs pa, (∀ c ∈ cs, V c) ∧
        (∀ i ∈ s.mset.list, ∀ c, s.heap i = some c → ∃ c' ∈ cs, c'.action = c.action) ∧
        paRules par.yDim cs (List.replicate (par.nActions * par.yDim) 0)
          (List.replicate (par.nActions * par.yDim) 0) = .ok (pa, s'.nr)) E := by
  unfold paBuild
  rw [predictGo_eq]
  obtain ⟨h, r, e, g1, h1, h2⟩ := g.forEach (l := s.mset.list)
    (upd := fun r c => ({ c with
        prediction := (kit.predict s.explore c.body c.prediction x r).1,
        body := (kit.predict s.explore c.body c.prediction x r).2.1 },
        (kit.predict s.explore c.body c.prediction x r).2.2)) w.nodup w.sub
    (fun r c hv _ => ⟨rfl, L.predict c _ x r hv⟩)
  rw [e]
  obtain ⟨cs, ecs, hcs⟩ := rds_ok (s := { s with heap := h, rng := r }) (l := s.mset.list)
    (fun i hi => g1.inv.p.isSome (w.sub i hi))
  show Post (({ s with heap := h, rng := r } : St K X B R).rds s.mset.list >>= _) _ _
  rw [ecs]
  show Post (paRules par.yDim cs _ _ >>= _) _ _
  have hsum : Post (paRules par.yDim cs (List.replicate (par.nActions * par.yDim) 0)
      (List.replicate (par.nActions * par.yDim) 0)) (fun p => p.1.length = par.nActions * par.yDim ∧
      p.2.length = par.nActions * par.yDim) E := by
    refine paRules_post (n := par.nActions) cs _ _ (by simp) (by simp) ?_
    intro c hc
    obtain ⟨i, _, hi⟩ := rds_mem hcs hc
    have hv := g1.vals i c hi
    exact ⟨L.action c hv, L.predLen c hv⟩
  cases er : paRules par.yDim cs (List.replicate (par.nActions * par.yDim) 0)
      (List.replicate (par.nActions * par.yDim) 0) with
  | error f => rw [er] at hsum; exact hsum
  | ok p =>
    rw [er] at hsum
    obtain ⟨pa, nr⟩ := p
    have e1 : pa.length = _ := hsum.1
    have e2 : nr.length = _ := hsum.2
    exact ⟨⟨g1.congr rfl rfl rfl rfl rfl, ⟨fun _ h => h, rfl, fun i hi =>
      h1 i (fun e => g.inv.pq i (w.sub i e) hi)⟩, rfl, rfl, rfl, rfl, rfl, rfl, rfl⟩, rfl, rfl,
      rfl, rfl, by simp [paNorm, e1, e2], e2, cs, pa, (by
        intro c hc
        obtain ⟨i, _, hi⟩ := rds_mem hcs hc
        exact g1.vals i c hi), (by
        intro i hi c hc
        obtain ⟨_, e'⟩ := h2 i hi c hc
        have hm : h i ∈ cs.map some := by
          rw [← hcs]; exact List.mem_map.2 ⟨i, hi, rfl⟩
        obtain ⟨c', hc', ec⟩ := List.mem_map.1 hm
        rw [e'] at ec
        exact ⟨c', hc', by rw [Option.some.inj ec]⟩), er⟩

/-- `pa_build`: invariants. -/
theorem paBuild_post (L : Laws par kit V E) (x : X) {s : St K X B R} {pend : List Nat}
    (g : Good V s pend) (w : Within s s.mset) :
    Post (paBuild par kit x s) (fun s' => Evolved V s s' pend ∧ s'.mset = s.mset ∧
      s'.pset = s.pset ∧ s'.kset = s.kset ∧ s'.time = s.time ∧
      s'.pa.length = par.nActions * par.yDim ∧ s'.nr.length = par.nActions * par.yDim) E :=
  post_mono (paBuild_full L x g w)
    (fun _ h => ⟨h.1, h.2.1, h.2.2.1, h.2.2.2.1, h.2.2.2.2.1, h.2.2.2.2.2.1, h.2.2.2.2.2.2.1⟩)

theorem bestGo_mem : ∀ (vs : List K) (i : Nat) (mx : K) (best : List Nat),
    (∀ a ∈ best, a < i) → best ≠ [] →
    bestGo vs i mx best ≠ [] ∧ ∀ a ∈ bestGo vs i mx best, a < i + vs.length
  | [], i, mx, best, h, hne => ⟨hne, fun a ha => by have := h a ha; simp; omega⟩
  | v :: vs, i, mx, best, h, hne => by
    unfold bestGo
    have lift : ∀ best' mx', (∀ a ∈ best', a < i + 1) → best' ≠ [] →
        bestGo vs (i + 1) mx' best' ≠ [] ∧
        ∀ a ∈ bestGo vs (i + 1) mx' best', a < i + (v :: vs).length := by
      intro best' mx' h1 h2
      obtain ⟨q1, q2⟩ := bestGo_mem vs (i + 1) mx' best' h1 h2
      exact ⟨q1, fun a ha => by have := q2 a ha; simp; omega⟩
    split
    · exact lift _ _ (by simp) (by simp)
    · split
      · refine lift _ _ ?_ (by simp)
        intro a ha
        rcases List.mem_append.1 ha with h1 | h1
        · have := h a h1; omega
        · simp at h1; omega
      · exact lift _ _ (fun a ha => by have := h a ha; omega) hne

theorem bestActions_post (L : Laws par kit V E) {pa : List K}
    (hl : pa.length = par.nActions * par.yDim) :
    Post (bestActions par.nActions pa) (fun l => l ≠ [] ∧ ∀ a ∈ l, a < par.nActions) E := by
  unfold bestActions
  split
  · next h =>
    rcases L.dims with hd | hd
    · exact hd
    · have : (pa.take par.nActions).length = 0 := by rw [h]; rfl
      rw [List.length_take, hl] at this
      have : 1 * 1 ≤ par.nActions * par.yDim := Nat.mul_le_mul hd.1 hd.2
      omega
  · next v vs h =>
    obtain ⟨q1, q2⟩ := bestGo_mem vs 1 v [0] (by simp) (by simp)
    refine ⟨q1, fun a ha => ?_⟩
    have h1 := q2 a ha
    have h2 : (pa.take par.nActions).length = vs.length + 1 := by rw [h]; rfl
    rw [List.length_take] at h2
    omega

theorem paBestAction_post (L : Laws par kit V E) {pa : List K} (r : R)
    (hl : pa.length = par.nActions * par.yDim) :
    Post (paBestAction par kit pa r) (fun p => 0 ≤ p.1 ∧ p.1 < par.nActions) E := by
  unfold paBestAction
  refine post_bind (bestActions_post L hl) ?_
  rintro best ⟨h1, h2⟩
  have hidx := L.index best.length r (List.length_pos_iff.2 h1)
  show Post (if 0 ≤ (uniformInt kit 0 (best.length : Int) r).1 then _ else _) _ _
  revert hidx
  generalize uniformInt kit 0 (best.length : Int) r = k
  intro hidx
  split
  · next h0 =>
    split
    · next hnone =>
      rcases hidx with h | h
      · exact h
      · rw [List.getElem?_eq_none_iff] at hnone; omega
    · next a ha =>
      have := h2 a (List.mem_of_getElem? ha)
      simp only [post_ok]; omega
  · next h0 =>
    rcases hidx with h | h
    · exact h
    · exact absurd h.1 h0

theorem paRandAction_post (hE : E .hang) (dims : E .ub ∨ (1 ≤ par.nActions ∧ 1 ≤ par.yDim))
    (index : ∀ (n : Nat) r, 0 < n → E .ub ∨ (0 ≤ (uniformInt kit 0 (n : Int) r).1 ∧
      (uniformInt kit 0 (n : Int) r).1 < n)) {nr : List K}
    (hl : nr.length = par.nActions * par.yDim) : ∀ (n : Nat) (r : R),
    Post (paRandAction par kit nr n r)
      (fun p => 0 ≤ p.1 ∧ (E .ub ∨ p.1 < par.nActions) ∧ ∃ v, nr[p.1.toNat]? = some v ∧ v ≠ 0) E
  | 0, r => hE
  | n + 1, r => by
    unfold paRandAction
    have hidx : E .ub ∨ (1 ≤ par.nActions ∧ 1 ≤ par.yDim ∧
        0 ≤ (uniformInt kit 0 (par.nActions : Int) r).1 ∧
        (uniformInt kit 0 (par.nActions : Int) r).1 < par.nActions) := by
      rcases dims with h | h
      · exact Or.inl h
      · rcases index par.nActions r (by omega) with h' | h'
        · exact Or.inl h'
        · exact Or.inr ⟨h.1, h.2, h'⟩
    revert hidx
    show _ → Post (if 0 ≤ (uniformInt kit 0 (par.nActions : Int) r).1 then _ else _) _ _
    generalize uniformInt kit 0 (par.nActions : Int) r = k
    intro hidx
    split
    · next h0 =>
      split
      · next hnone =>
        rcases hidx with h | h
        · exact h
        · rw [List.getElem?_eq_none_iff, hl] at hnone
          have : par.nActions * 1 ≤ par.nActions * par.yDim := Nat.mul_le_mul_left _ h.2.1
          omega
      · next v hv =>
        split
        · exact paRandAction_post hE dims index hl n k.2
        · next hne =>
          refine ⟨h0, ?_, v, hv, hne⟩
          rcases hidx with h | h
          · exact Or.inl h
          · exact Or.inr h.2.2.2
    · next h0 =>
      rcases hidx with h | h
      · exact h
      · exact absurd h.2.2.1 h0

theorem argmaxGo_lt : ∀ (vs : List K) (i mi : Nat) (mx : K), mi < i →
    argmaxGo vs i mi mx < i + vs.length
  | [], i, mi, mx, h => by simpa [argmaxGo] using h
  | v :: vs, i, mi, mx, h => by
    unfold argmaxGo
    split
    · have := argmaxGo_lt vs (i + 1) i v (by omega); simp; omega
    · have := argmaxGo_lt vs (i + 1) mi mx (by omega); simp; omega

theorem paBestVal_post (pa : List K) (hex : pa = [] → E .exit) : Post (paBestVal pa) (fun v => v ∈ pa) E := by
  unfold paBestVal
  cases pa with
  | nil => exact hex rfl
  | cons v vs =>
    show Post (match (v :: vs)[argmaxGo vs 1 0 v]? with | none => _ | some v => _) _ _
    have := argmaxGo_lt vs 1 0 v (by omega)
    have hlt : argmaxGo vs 1 0 v < (v :: vs).length := by simp; omega
    rw [List.getElem?_eq_getElem hlt]
    exact List.getElem_mem hlt

theorem paVal_full (L : Laws par kit V E) {pa : List K} (a : Int)
    (hl : pa.length = par.nActions * par.yDim)
    (hx : a < 0 ∨ (par.nActions : Int) ≤ a → E .exit) :
    Post (paVal par pa a) (fun v => 0 ≤ a ∧ a < par.nActions ∧ pa[a.toNat]? = some v) E := by
  unfold paVal
  split
  · next h => exact hx h
  · next h =>
    split
    · next hnone =>
      rcases L.dims with hd | hd
      · exact hd
      · rw [List.getElem?_eq_none_iff, hl] at hnone
        have : par.nActions * 1 ≤ par.nActions * par.yDim := Nat.mul_le_mul_left _ hd.2
        omega
    · next v hv => exact ⟨by omega, by omega, hv⟩

theorem paVal_post [MayExit E] (L : Laws par kit V E) {pa : List K} (a : Int)
    (hl : pa.length = par.nActions * par.yDim) :
    Post (paVal par pa a) (fun v => 0 ≤ a ∧ a < par.nActions ∧ pa[a.toNat]? = some v) E :=
  paVal_full L a hl (fun _ => MayExit.exit)

/-! ## Supervised trials -/

/-- The stored population is the one `S` has. -/
def Same (S s : St K X B R) : Prop :=
  s.prevPset = S.prevPset ∧ ∀ i ∈ S.prevPset.list, s.heap i = S.heap i

theorem Same.keep {S s s' : St K X B R} (h : Same S s) (k : Keep s s') : Same S s' :=
  ⟨k.prev.trans h.1, fun i hi => (k.cells i (by rw [h.1]; exact hi)).trans (h.2 i hi)⟩

theorem Same.kill {S s s' : St K X B R} (h : Same S s) (g : Good V s [])
    (e : s'.prevPset = s.prevPset) (hh : ∀ i, i ∉ s.kset.list → s'.heap i = s.heap i) :
    Same S s' := by
  refine ⟨e.trans h.1, fun i hi => (hh i ?_).trans (h.2 i hi)⟩
  intro hk
  obtain ⟨n, hn, h1⟩ := g.inv.q.pos i (by rw [h.1]; exact hi)
  rw [g.inv.kz i hk] at hn; cases hn; omega

/-- The invariant between calls; the stored population is that of `S`. -/
structure BetweenM (V : Cl K B → Prop) (par : Params K) (M : Int) (S s : St K X B R) : Prop where
  good : Good V s []
  kset : s.kset.list = []
  cap : Cap par M s.pset.num
  qcap : Cap par M s.prevPset.num
  snap : Same S s

/-- The invariant between calls under one set of parameters: the limit is their population size. -/
abbrev Between (V : Cl K B → Prop) (par : Params K) (S s : St K X B R) : Prop :=
  BetweenM V par par.popSize S s

variable {M : Int}

theorem BetweenM.self {S s : St K X B R} (h : BetweenM V par M S s) : BetweenM V par M s s :=
  ⟨h.good, h.kset, h.cap, h.qcap, rfl, fun _ _ => rfl⟩

variable {S : St K X B R}

theorem Good.emptyK {s : St K X B R} {pend : List Nat} (g : Good V s pend) (h : s.kset.list = [])
    {m : CSet} : Good V { s with mset := m, kset := {} } pend := by
  refine ⟨?_, g.vals⟩
  have inv := g.inv
  refine ⟨inv.p, inv.q, inv.pq, by simp, List.nodup_nil, inv.pnd, inv.p1, ?_, inv.fresh⟩
  intro i hi
  rcases inv.own i hi with q | q | q | q
  · exact Or.inl q
  · exact Or.inr (Or.inl q)
  · rw [h] at q; simp at q
  · exact Or.inr (Or.inr (Or.inr q))

theorem supSense_post (L : Laws par kit V E) (x : X) (cv : Option (List K)) {s : St K X B R}
    {pend : List Nat} (g : Good V s pend) (hm : s.mset = {}) (hcap : Cap par M s.pset.num)
    (hx : cv = none → Room par E par.maxCover s.pset.num) :
    Post (supSense par kit x cv s) (fun s' => Evolved V s s' pend ∧ Within s' s'.mset ∧
      Cap par M s'.pset.num) E := by
  unfold supSense
  cases cv with
  | none =>
    refine post_bind (clsetMatch_full L x true g hm hcap (fun _ => hx rfl)) ?_
    rintro s1 ⟨a1, a2, a3, _⟩
    refine post_mono (paBuild_post L x a1.good a2) ?_
    rintro s2 ⟨b1, b2, b3, b4, _⟩
    refine ⟨a1.trans b1, ?_, by rw [b3]; exact a3⟩
    rw [b2]; exact ⟨a2.nodup, fun i hi => b3 ▸ a2.sub i hi, a2.size, a2.num⟩
  | some cv =>
    refine post_bind (clsetMatch_full L x false g hm hcap (fun h => nomatch h)) ?_
    rintro s1 ⟨a1, a2, a3, _⟩
    show Post (if s1.mset.size < 1 then _ else _) _ _
    split
    · exact ⟨⟨a1.good.congr rfl rfl rfl rfl rfl, ⟨a1.keep.sub, a1.keep.prev, a1.keep.cells⟩, a1.prevPset,
        a1.aset, a1.prevAset, a1.explore, a1.prevState, a1.prevReward, a1.prevPred⟩,
        ⟨a2.nodup, a2.sub, a2.size, a2.num⟩, a3⟩
    · refine post_mono (paBuild_post L x a1.good a2) ?_
      rintro s2 ⟨b1, b2, b3, b4, _⟩
      refine ⟨a1.trans b1, ?_, by rw [b3]; exact a3⟩
      rw [b2]; exact ⟨a2.nodup, fun i hi => b3 ▸ a2.sub i hi, a2.size, a2.num⟩

/-- An update of a set followed by the evolutionary algorithm. -/
theorem learn_post (L : Laws par kit V E) {t : CSet} {s : St K X B R} {pend : List Nat}
    (x : X) (y : List K) (cur : Bool) (g : Good V s pend) (w : Within s t)
    (hcap : Cap par M s.pset.num) (f : CSet → St K X B R → St K X B R)
    (hf : ∀ t s, (f t s).heap = s.heap ∧ (f t s).next = s.next ∧ (f t s).pset = s.pset ∧
      (f t s).prevPset = s.prevPset ∧ (f t s).kset = s.kset) :
    Post (clsetUpdate par kit t x y cur s >>= fun p => ea par kit p.1 (f p.1 p.2))
      (fun s' => Good V s' pend ∧ Keep s s' ∧ Cap par M s'.pset.num ∧
        s'.prevPset = s.prevPset ∧ ∃ t1 s1, Evolved V s s1 pend ∧ s1.mset = s.mset ∧ s1.pa = s.pa ∧
        s1.nr = s.nr ∧ Within s1 t1 ∧ Evolved V (f t1 s1) s' pend ∧ s'.mset = (f t1 s1).mset ∧
        s'.pa = (f t1 s1).pa ∧ s'.nr = (f t1 s1).nr) E := by
  obtain ⟨t', s2, e, k1, k2, k3, k4, _, k6, k7⟩ := clsetUpdate_post L x y cur g w
  rw [e]
  obtain ⟨f1, f2, f3, f4, f5⟩ := hf t' s2
  have g3 : Good V (f t' s2) pend := k1.good.congr f1 f2 f3 f4 f5
  refine post_mono (ea_post L (t := t') g3 ⟨k2.nodup, fun i hi => f3 ▸ k2.sub i hi, k2.size, k2.num⟩) ?_
  rintro s3 ⟨q1, q2, q3, q4, q5, cs, _, q7⟩
  refine ⟨q1.good, ?_, ?_, ?_, t', s2, k1, k4, k6, k7, k2, q1, q3, q4, q5⟩
  · refine (k1.keep.trans ?_).trans q1.keep
    exact ⟨fun i hi => by rw [f3, f5]; exact hi, f4, fun i _ => by rw [f1]⟩
  · rw [q7, f3, k3]
    split
    · exact hcap.min _
    · exact hcap
  · rw [q1.prevPset, f4, k1.prevPset]

theorem supTrial_full (L : Laws par kit V E) (x : X) (y : Option (List K))
    (cv : Option (List K)) {s : St K X B R} (h : BetweenM V par M S s)
    (hy : s.explore = true → y ≠ none) (hx : cv = none → Room par E par.maxCover s.pset.num) :
    Post (supTrial par kit x y cv s) (BetweenM V par M S) E := by
  unfold supTrial
  have g0 : Good V { s with mset := {}, kset := {} } [] := h.good.emptyK h.kset
  refine post_bind (supSense_post L x cv g0 rfl h.cap hx) ?_
  rintro s1 ⟨ev, w, hcap⟩
  have sn1 : Same S s1 := Same.keep (s := { s with mset := {}, kset := {} }) h.snap ev.keep
  refine post_bind (Q := fun s2 => Good V s2 [] ∧ s2.prevPset = s1.prevPset ∧
    Cap par M s2.pset.num ∧ Same S s2) ?_ ?_
  · unfold supLearn
    split
    · next hex =>
      rw [ev.explore] at hex
      cases y with
      | none => exact absurd rfl (hy hex)
      | some y =>
        refine post_mono (learn_post L (t := s1.mset) x y true ev.good w hcap
          (fun t s => { s with mset := t }) (fun t s => ⟨rfl, rfl, rfl, rfl, rfl⟩)) ?_
        rintro s2 ⟨q1, q2, q3, q4, _⟩
        exact ⟨q1, q4, q3, sn1.keep q2⟩
    · exact ⟨ev.good, rfl, hcap, sn1⟩
  · rintro s2 ⟨q1, q2, q3, q4⟩
    obtain ⟨s3, e, g3, k3, eq3, _, hh3⟩ := killKset_post q1
    rw [e]
    refine ⟨g3.congr rfl rfl rfl rfl rfl, by simp [k3], ?_, ?_, q4.kill q1 (by rw [eq3]) hh3⟩
    · rw [eq3]; exact q3
    · rw [eq3]; show Cap par M s2.prevPset.num; rw [q2, ev.prevPset]; exact h.qcap

theorem supTrial_post [MayExit E] (L : Laws par kit V E) (x : X) (y : Option (List K))
    (cv : Option (List K)) {s : St K X B R} (h : BetweenM V par M S s)
    (hy : s.explore = true → y ≠ none) :
    Post (supTrial par kit x y cv s) (BetweenM V par M S) E :=
  supTrial_full L x y cv h hy (fun _ => Room.may)

/-! ## Reinforcement learning -/

theorem actionGo_spec {s : St K X B R} (a : Int) : ∀ (l : List Nat) (t : CSet),
    (∀ i ∈ l, (s.heap i).isSome) →
    ∃ t', actionGo s a l t = .ok t' ∧
      t'.list = (l.filter (fun i => (s.heap i).any (fun c => decide (c.action = a)))).reverse ++ t.list ∧
      t'.size = t.size + (l.filter (fun i => (s.heap i).any (fun c => decide (c.action = a)))).length ∧
      t'.num = t.num + nsum s.nums (l.filter (fun i => (s.heap i).any (fun c => decide (c.action = a))))
  | [], t, _ => ⟨t, rfl, by simp, by simp, by simp⟩
  | i :: l, t, hl => by
    obtain ⟨c, hc⟩ := Option.isSome_iff_exists.1 (hl i List.mem_cons_self)
    unfold actionGo
    rw [rd_ok hc]
    have hl' : ∀ j ∈ l, (s.heap j).isSome := fun j hj => hl j (List.mem_cons_of_mem _ hj)
    show ∃ t', actionGo s a l (if c.action = a then t.add i c.num else t) = _ ∧ _
    by_cases e : c.action = a
    · obtain ⟨t', h1, h2, h3, h4⟩ := actionGo_spec a l (t.add i c.num) hl'
      rw [if_pos e, List.filter_cons_of_pos (by simp [hc, e])]
      refine ⟨t', h1, ?_, ?_, ?_⟩
      · rw [h2]; simp [CSet.add]
      · rw [h3]; simp [CSet.add]; omega
      · rw [h4, nsum_cons, nums_of_heap hc]; simp [CSet.add]; omega
    · obtain ⟨t', h1, h2, h3, h4⟩ := actionGo_spec a l t hl'
      rw [if_neg e, List.filter_cons_of_neg (by simp [hc, e])]
      exact ⟨t', h1, h2, h3, h4⟩

theorem nsum_nonneg {s : St K X B R} {pend : List Nat} (g : Good V s pend) :
    ∀ l : List Nat, (∀ i ∈ l, i ∈ s.pset.list) → 0 ≤ nsum s.nums l
  | [], _ => by simp
  | i :: l, hl => by
    have h1 := nsum_nonneg g l (fun j hj => hl j (List.mem_cons_of_mem _ hj))
    obtain ⟨n, hn, hn1⟩ := g.inv.p.pos i (hl i List.mem_cons_self)
    simp only [nsum_cons, hn, Option.getD_some]; omega

theorem clsetAction_post {s : St K X B R} {pend : List Nat} (a : Int) (g : Good V s pend)
    (w : Within s s.mset) (ha : s.aset = {}) :
    ∃ t, clsetAction par a s = .ok { s with
        aset := t
        asetSize := s.asetSize + ((t.size : K) - s.asetSize) * par.beta } ∧
      Within s t ∧ t.num = nsum s.nums t.list ∧
      t.list = (s.mset.list.filter
        (fun i => (s.heap i).any (fun c => decide (c.action = a)))).reverse := by
  obtain ⟨t, h1, h2, h3, h4⟩ := actionGo_spec (s := s) a s.mset.list s.aset
    (fun i hi => g.inv.p.isSome (w.sub i hi))
  rw [ha] at h2 h3 h4
  have hl : t.list = (s.mset.list.filter
        (fun i => (s.heap i).any (fun c => decide (c.action = a)))).reverse := by rw [h2]; simp
  have hsub : ∀ i ∈ t.list, i ∈ s.pset.list := by
    intro i hi
    rw [hl, List.mem_reverse] at hi
    exact w.sub i (List.mem_filter.1 hi).1
  have hnum : t.num = nsum s.nums t.list := by
    rw [h4, hl, nsum_perm (List.reverse_perm _)]; simp
  refine ⟨t, ?_, ⟨?_, hsub, ?_, ?_⟩, hnum, hl⟩
  · unfold clsetAction
    rw [h1]; rfl
  · rw [hl]; exact List.nodup_reverse.2 (w.nodup.sublist List.filter_sublist)
  · rw [h3, hl]; simp
  · rw [hnum]; exact nsum_nonneg g _ hsub

theorem rlDecision_post [MayExit E] (L : Laws par kit V E) (x : X) {s : St K X B R} {pend : List Nat}
    (g : Good V s pend) (hm : s.mset = {}) (hcap : Cap par M s.pset.num) :
    Post (rlDecision par kit x s) (fun p => Evolved V s p.2 pend ∧ Within p.2 p.2.mset ∧
      Cap par M p.2.pset.num ∧ p.2.pa.length = par.nActions * par.yDim ∧
      0 ≤ p.1 ∧ (E .ub ∨ p.1 < par.nActions)) E := by
  unfold rlDecision
  refine post_bind (clsetMatch_full L x true g hm hcap (fun _ => Room.may)) ?_
  rintro s1 ⟨a1, a2, a3, a4⟩
  refine post_bind (paBuild_full L x a1.good a2) ?_
  rintro s2 ⟨b1, b2, b3, b4, b5, b6, b7, cs, pa, c1, c2, c3⟩
  have hadv : ∀ a, a < par.nActions → E .ub ∨ ∃ c ∈ cs, c.action = (a : Int) := by
    intro a ha
    rcases a4 rfl a ha with h | ⟨i, hi, c, hc, e⟩
    · exact Or.inl h
    · obtain ⟨c', hc', e'⟩ := c2 i hi c hc
      exact Or.inr ⟨c', hc', e'.trans e⟩
  have w2 : Within s2 s2.mset := by
    rw [b2]; exact ⟨a2.nodup, fun i hi => b3 ▸ a2.sub i hi, a2.size, a2.num⟩
  have ev := a1.trans b1
  have done : ∀ r : R, Evolved V s { s2 with rng := r } pend ∧
      Within { s2 with rng := r } s2.mset ∧
      Cap par M s2.pset.num := fun r =>
    ⟨⟨ev.good.congr rfl rfl rfl rfl rfl, ⟨ev.keep.sub, ev.keep.prev, ev.keep.cells⟩, ev.prevPset, ev.aset, ev.prevAset, ev.explore,
      ev.prevState, ev.prevReward, ev.prevPred⟩, ⟨w2.nodup, w2.sub, w2.size, w2.num⟩,
      by rw [b3]; exact a3⟩
  show Post (if s2.explore = true then _ else _) _ _
  split
  · show Post (if (uniform kit 0 1 s2.rng).1 < par.pExplore then _ else _) _ _
    split
    · refine post_bind (L.explore cs pa s2.nr c1 hadv c3 b7 _) ?_
      rintro ⟨a, r⟩ ⟨h0, h1, _⟩
      obtain ⟨q1, q2, q3⟩ := done r
      exact ⟨q1, q2, q3, b6, h0, h1⟩
    · refine post_bind (paBestAction_post L _ b6) ?_
      rintro ⟨a, r⟩ ⟨h0, h1⟩
      obtain ⟨q1, q2, q3⟩ := done r
      exact ⟨q1, q2, q3, b6, h0, Or.inr h1⟩
  · refine post_bind (paBestAction_post L _ b6) ?_
    rintro ⟨a, r⟩ ⟨h0, h1⟩
    obtain ⟨q1, q2, q3⟩ := done r
    exact ⟨q1, q2, q3, b6, h0, Or.inr h1⟩

/-- What holds inside a reinforcement learning trial between steps. -/
structure RlInvM (V : Cl K B → Prop) (par : Params K) (M : Int) (S s : St K X B R) : Prop where
  good : Good V s []
  cap : Cap par M s.pset.num
  qcap : Cap par M s.prevPset.num
  prev : Weak s s.prevAset
  state : s.prevAset.list ≠ [] → s.prevState.isSome
  snap : Same S s

/-- The same under one set of parameters: the limit is their population size. -/
abbrev RlInv (V : Cl K B → Prop) (par : Params K) (S s : St K X B R) : Prop :=
  RlInvM V par par.popSize S s

theorem rlUpdatePrev_post (L : Laws par kit V E) {s : St K X B R} (h : RlInvM V par M S s)
    (wa : Weak s s.aset) (hx : s.prevAset.list ≠ [] → E .exit) :
    Post (rlUpdatePrev par kit s) (fun s' => RlInvM V par M S s' ∧ Weak s' s'.aset ∧
      s'.pa = s.pa ∧ s'.explore = s.explore) E := by
  unfold rlUpdatePrev
  split
  · exact ⟨h, wa, rfl, rfl⟩
  · next hne =>
    refine post_bind (paBestVal_post s.pa (fun _ => hx hne)) ?_
    intro bv _
    obtain ⟨t, e1, e2, e3, e4, e5⟩ := validate_weak h.good h.prev
    show Post (validate s s.prevAset >>= _) _ _
    rw [e1]
    obtain ⟨px, hpx⟩ := Option.isSome_iff_exists.1 (h.state hne)
    show Post (match s.prevState with | none => _ | some px => _) _ _
    rw [hpx]
    obtain ⟨t', s2, e, k1, k2, k3, k4, k5, k6, k7⟩ := clsetUpdate_post L px
      [s.prevReward + par.gamma * bv] false h.good e2
    show Post (clsetUpdate par kit t px _ false s >>= _) _ _
    rw [e]
    have ev2 : RlInvM V par M S { s2 with prevAset := t' } := by
      refine ⟨k1.good.congr rfl rfl rfl rfl rfl, ?_, ?_, ⟨k2.nodup, fun i hi => Or.inl (k2.sub i hi)⟩,
        fun _ => ?_, Same.keep (s' := s2) h.snap k1.keep⟩
      · show Cap par M s2.pset.num; rw [k3]; exact h.cap
      · show Cap par M s2.prevPset.num; rw [k1.prevPset]; exact h.qcap
      · show s2.prevState.isSome; rw [k1.prevState, hpx]; rfl
    have wa2 : Weak { s2 with prevAset := t' } s2.aset := by
      rw [k1.aset]
      exact ⟨wa.nodup, fun i hi => k1.keep.sub i (wa.sub i hi)⟩
    show Post (if s2.explore = true then ea par kit t' { s2 with prevAset := t' } else _) _ _
    split
    · refine post_mono (ea_post L (t := t') ev2.good ⟨k2.nodup, k2.sub, k2.size, k2.num⟩) ?_
      rintro s3 ⟨q1, q2, q3, q4, q5, cs, _, q7⟩
      refine ⟨⟨q1.good, ?_, ?_, ?_, ?_, ev2.snap.keep q1.keep⟩, ?_, ?_, ?_⟩
      · rw [q7]; split
        · exact ev2.cap.min _
        · exact ev2.cap
      · rw [q1.prevPset]; exact ev2.qcap
      · rw [q1.prevAset]; exact ⟨ev2.prev.nodup, fun i hi => q1.keep.sub i (ev2.prev.sub i hi)⟩
      · rw [q1.prevAset, q1.prevState]; exact ev2.state
      · rw [q1.aset]; exact ⟨wa2.nodup, fun i hi => q1.keep.sub i (wa2.sub i hi)⟩
      · rw [q4]; exact k6
      · rw [q1.explore]; exact k1.explore
    · exact ⟨ev2, wa2, k6, k1.explore⟩

theorem rlUpdateCur_post (L : Laws par kit V E) (x : X) (reward : K) (done : Bool)
    {s : St K X B R} (h : RlInvM V par M S s) (wa : Weak s s.aset) :
    Post (rlUpdateCur par kit x reward done s) (fun s' => RlInvM V par M S s' ∧ Weak s' s'.aset ∧
      s'.pa = s.pa ∧ s'.explore = s.explore) E := by
  unfold rlUpdateCur
  split
  · obtain ⟨t, e1, e2, e3, e4, e5⟩ := validate_weak h.good wa
    rw [e1]
    obtain ⟨t', s2, e, k1, k2, k3, k4, k5, k6, k7⟩ := clsetUpdate_post L x [reward] true h.good e2
    show Post (clsetUpdate par kit t x _ true s >>= _) _ _
    rw [e]
    have ev2 : RlInvM V par M S { s2 with aset := t' } := by
      refine ⟨k1.good.congr rfl rfl rfl rfl rfl, ?_, ?_, ?_, ?_, Same.keep (s' := s2) h.snap k1.keep⟩
      · show Cap par M s2.pset.num; rw [k3]; exact h.cap
      · show Cap par M s2.prevPset.num; rw [k1.prevPset]; exact h.qcap
      · show Weak _ s2.prevAset; rw [k1.prevAset]
        exact ⟨h.prev.nodup, fun i hi => k1.keep.sub i (h.prev.sub i hi)⟩
      · show s2.prevAset.list ≠ [] → s2.prevState.isSome
        rw [k1.prevAset, k1.prevState]; exact h.state
    have wa2 : Weak { s2 with aset := t' } t' := ⟨k2.nodup, fun i hi => Or.inl (k2.sub i hi)⟩
    show Post (if s2.explore = true then ea par kit t' { s2 with aset := t' } else _) _ _
    split
    · refine post_mono (ea_post L (t := t') ev2.good ⟨k2.nodup, k2.sub, k2.size, k2.num⟩) ?_
      rintro s3 ⟨q1, q2, q3, q4, q5, cs, _, q7⟩
      refine ⟨⟨q1.good, ?_, ?_, ?_, ?_, ev2.snap.keep q1.keep⟩, ?_, ?_, ?_⟩
      · rw [q7]; split
        · exact ev2.cap.min _
        · exact ev2.cap
      · rw [q1.prevPset]; exact ev2.qcap
      · rw [q1.prevAset]; exact ⟨ev2.prev.nodup, fun i hi => q1.keep.sub i (ev2.prev.sub i hi)⟩
      · rw [q1.prevAset, q1.prevState]; exact ev2.state
      · rw [q1.aset]; exact ⟨wa2.nodup, fun i hi => q1.keep.sub i (wa2.sub i hi)⟩
      · rw [q4]; exact k6
      · rw [q1.explore]; exact k1.explore
    · exact ⟨ev2, wa2, k6, k1.explore⟩
  · exact ⟨h, wa, rfl, rfl⟩

theorem rlUpdate_post (L : Laws par kit V E) (x : X) (a : Int) (reward : K) (done : Bool)
    {s : St K X B R} (h : RlInvM V par M S s) (w : Within s s.mset) (ha : s.aset = {})
    (hx : s.prevAset.list ≠ [] → E .exit) :
    Post (rlUpdate par kit x a reward done s) (fun s' => RlInvM V par M S s' ∧ Weak s' s'.aset ∧
      s'.pa = s.pa ∧ s'.explore = s.explore) E := by
  unfold rlUpdate
  obtain ⟨t, e, wt, _, _⟩ := clsetAction_post (par := par) a h.good w ha
  rw [e]
  generalize hs1 : ({ s with
        aset := t
        asetSize := s.asetSize + ((t.size : K) - s.asetSize) * par.beta } : St K X B R) = s1
  have h1 : RlInvM V par M S s1 := by
    subst hs1
    exact ⟨h.good.congr rfl rfl rfl rfl rfl, h.cap, h.qcap, ⟨h.prev.nodup, h.prev.sub⟩, h.state,
    h.snap⟩
  have w1 : Weak s1 s1.aset := by
    subst hs1
    exact ⟨wt.nodup, fun i hi => Or.inl (wt.sub i hi)⟩
  have p1 : s1.pa = s.pa ∧ s1.explore = s.explore := by subst hs1; exact ⟨rfl, rfl⟩
  show Post (rlUpdatePrev par kit s1 >>= _) _ _
  refine post_bind (rlUpdatePrev_post L h1 w1 (by subst hs1; exact hx)) ?_
  rintro s2 ⟨q1, q2, q3, q4⟩
  refine post_mono (rlUpdateCur_post L x reward done q1 q2) ?_
  rintro s3 ⟨r1, r2, r3, r4⟩
  exact ⟨r1, r2, r3.trans (q3.trans p1.1), r4.trans (q4.trans p1.2)⟩

theorem rlInitTrial_inv {s : St K X B R} (h : BetweenM V par M S s) :
    RlInvM V par M S (rlInitTrial s) := by
  refine ⟨?_, h.cap, h.qcap, ⟨List.nodup_nil, by simp [rlInitTrial]⟩, by simp [rlInitTrial],
    h.snap⟩
  have := h.good.emptyK h.kset (m := s.mset)
  exact this.congr rfl rfl rfl rfl rfl

theorem rlInitStep_inv {s : St K X B R} (h : RlInvM V par M S s) : RlInvM V par M S (rlInitStep s) :=
  ⟨h.good.congr rfl rfl rfl rfl rfl, h.cap, h.qcap, ⟨h.prev.nodup, h.prev.sub⟩, h.state,
    h.snap⟩

theorem rlEndStep_post (L : Laws par kit V E) (x : X) (a : Int) (reward : K) {s : St K X B R}
    (h : RlInvM V par M S s) (wa : Weak s s.aset) (hl : s.pa.length = par.nActions * par.yDim)
    (hx : a < 0 ∨ (par.nActions : Int) ≤ a → E .exit) :
    Post (rlEndStep par x a reward s) (fun s' => RlInvM V par M S s') E := by
  unfold rlEndStep
  refine post_bind (paVal_full L a hl hx) ?_
  intro v _
  exact ⟨h.good.congr rfl rfl rfl rfl rfl, h.cap, h.qcap, ⟨wa.nodup, wa.sub⟩, fun _ => rfl, h.snap⟩

theorem rlEndTrial_post {s : St K X B R} (h : RlInvM V par M S s) :
    ∃ s', rlEndTrial s = .ok s' ∧ BetweenM V par M S s' := by
  unfold rlEndTrial
  have g : Good V { s with prevAset := {}, prevState := none } [] :=
    h.good.congr rfl rfl rfl rfl rfl
  obtain ⟨s3, e, g3, k3, eq3, _, hh3⟩ := killKset_post g
  refine ⟨s3, e, g3, by simp [k3], ?_, ?_, Same.kill (s := { s with prevAset := {}, prevState := none })
    h.snap g (by rw [eq3]) hh3⟩
  · rw [eq3]; exact h.cap
  · rw [eq3]; exact h.qcap

theorem rlError_post [MayExit E] (L : Laws par kit V E) (a : Int) (reward : K) (done : Bool) (mp : K)
    {s : St K X B R} (h : RlInvM V par M S s) (wa : Weak s s.aset)
    (hl : s.pa.length = par.nActions * par.yDim) :
    Post (rlError par kit a reward done mp s) (fun p => RlInvM V par M S p.2 ∧ Weak p.2 p.2.aset ∧
      p.2.pa = s.pa) E := by
  unfold rlError
  refine post_bind (paVal_post L a hl) ?_
  intro v _
  exact ⟨⟨h.good.congr rfl rfl rfl rfl rfl, h.cap, h.qcap, ⟨h.prev.nodup, h.prev.sub⟩, h.state,
    h.snap⟩,
    ⟨wa.nodup, wa.sub⟩, rfl⟩

theorem rlTrialGo_post [MayExit E] (L : Laws par kit V E) (env : Nat → EnvStep K X) : ∀ (k n : Nat) (e : K)
    {s : St K X B R}, RlInvM V par M S s →
    Post (rlTrialGo par kit env k n e s) (fun p => RlInvM V par M S p.2.2) E
  | 0, n, e, s, h => h
  | k + 1, n, e, s, h => by
    unfold rlTrialGo
    have h1 := rlInitStep_inv h
    refine post_bind (rlDecision_post L (env n).state h1.good rfl h1.cap) ?_
    rintro ⟨a, s2⟩ ⟨ev, w, hcap, hpa, _, _⟩
    have h2 : RlInvM V par M S s2 := by
      refine ⟨ev.good, hcap, ?_, ?_, ?_, h1.snap.keep ev.keep⟩
      · rw [ev.prevPset]; exact h1.qcap
      · rw [ev.prevAset]; exact ⟨h1.prev.nodup, fun i hi => ev.keep.sub i (h1.prev.sub i hi)⟩
      · rw [ev.prevAset, ev.prevState]; exact h1.state
    refine post_bind (rlUpdate_post L (env n).state a ((env n).respond a).1 ((env n).respond a).2
      h2 w (by rw [ev.aset]; rfl) (fun _ => MayExit.exit)) ?_
    rintro s3 ⟨q1, q2, q3, q4⟩
    have hl : s3.pa.length = par.nActions * par.yDim := by rw [q3]; exact hpa
    refine post_bind (rlError_post L a _ _ _ q1 q2 hl) ?_
    rintro ⟨de, s4⟩ ⟨r1, r2, r3⟩
    have hl4 : s4.pa.length = par.nActions * par.yDim := by
      have : s4.pa = s3.pa := r3
      rw [this]; exact hl
    refine post_bind (rlEndStep_post L (env n).state a _ r1 r2 hl4 (fun _ => MayExit.exit)) ?_
    intro s5 h5
    show Post (if ((env n).respond a).2 = true then _ else _) _ _
    split
    · exact h5
    · exact rlTrialGo_post L env k (n + 1) _ h5

theorem rlTrial_post [MayExit E] (L : Laws par kit V E) (env : Nat → EnvStep K X) (ex : Bool)
    {s : St K X B R} (h : BetweenM V par M S s) :
    Post (rlTrial par kit env ex s) (fun p => BetweenM V par M S p.2.2) E := by
  unfold rlTrial
  have h1 : BetweenM V par M S { s with explore := ex } :=
    ⟨h.good.congr rfl rfl rfl rfl rfl, h.kset, h.cap, h.qcap, h.snap⟩
  refine post_bind (rlTrialGo_post L env par.teletransportation 0 0 (rlInitTrial_inv h1)) ?_
  rintro ⟨n, e, s2⟩ h2
  obtain ⟨s3, e3, h3⟩ := rlEndTrial_post h2
  show Post (rlEndTrial s2 >>= _) _ _
  rw [e3]
  exact h3

theorem rlFit_full (L : Laws par kit V E) (x : X) (a : Int) (reward : K)
    {s : St K X B R} (h : BetweenM V par M S s) (hx : Room par E par.maxCover s.pset.num)
    (ha : a < 0 ∨ (par.nActions : Int) ≤ a → E .exit) :
    Post (rlFit par kit x a reward s) (fun p => BetweenM V par M S p.2) E := by
  unfold rlFit
  have h1 := rlInitStep_inv (rlInitTrial_inv h)
  refine post_bind (clsetMatch_full L x true h1.good rfl h1.cap (fun _ => hx)) ?_
  rintro s1 ⟨a1, a2, a3, _⟩
  refine post_bind (paBuild_post L x a1.good a2) ?_
  rintro s2 ⟨b1, b2, b3, b4, b5, b6, b7⟩
  refine post_bind (paVal_full L a b6 ha) ?_
  intro v _
  have ev := a1.trans b1
  have h2 : RlInvM V par M S { s2 with explore := true } := by
    refine ⟨ev.good.congr rfl rfl rfl rfl rfl, by rw [b3]; exact a3, ?_, ?_, ?_,
      Same.keep (s' := s2) h1.snap ev.keep⟩
    · show Cap par M s2.prevPset.num; rw [ev.prevPset]; exact h1.qcap
    · show Weak _ s2.prevAset; rw [ev.prevAset]
      exact ⟨h1.prev.nodup, fun i hi => ev.keep.sub i (h1.prev.sub i hi)⟩
    · show s2.prevAset.list ≠ [] → s2.prevState.isSome
      rw [ev.prevAset, ev.prevState]; exact h1.state
  have w2 : Within { s2 with explore := true } s2.mset := by
    rw [b2]; exact ⟨a2.nodup, fun i hi => b3 ▸ a2.sub i hi, a2.size, a2.num⟩
  refine post_bind (rlUpdate_post L x a reward true h2 w2 (by show s2.aset = _; rw [ev.aset]; rfl)
    (fun hne => absurd (by show s2.prevAset.list = _; rw [ev.prevAset]; rfl) hne)) ?_
  rintro s3 ⟨q1, q2, q3, q4⟩
  have hl : s3.pa.length = par.nActions * par.yDim := by rw [q3]; exact b6
  refine post_bind (rlEndStep_post L x a _ q1 q2 hl ha) ?_
  intro s4 h4
  obtain ⟨s5, e5, h5⟩ := rlEndTrial_post h4
  show Post (rlEndTrial s4 >>= _) _ _
  rw [e5]
  exact ⟨h5.good.congr rfl rfl rfl rfl rfl, h5.kset, h5.cap, h5.qcap, h5.snap⟩

theorem rlFit_post [MayExit E] (L : Laws par kit V E) (x : X) (a : Int) (reward : K)
    {s : St K X B R} (h : BetweenM V par M S s) :
    Post (rlFit par kit x a reward s) (fun p => BetweenM V par M S p.2) E :=
  rlFit_full L x a reward h Room.may (fun _ => MayExit.exit)

/-! ## Whole-population operations -/

theorem psetInitGo_post (L : Laws par kit V E) : ∀ (n : Nat) {s : St K X B R} {pend : List Nat},
    Good V s pend → par.popSize - s.pset.num ≤ n → s.pset.num ≤ par.popSize →
    Post (psetInitGo par kit n s) (fun s' => Good V s' pend ∧ s'.pset.num = par.popSize ∧
      s'.kset = s.kset ∧ s'.prevPset = s.prevPset) E
  | 0, s, pend, g, hn, hc => by
    unfold psetInitGo
    split
    · next h => simp at hn; omega
    · next h => exact ⟨g, by omega, rfl, rfl⟩
  | n + 1, s, pend, g, hn, hc => by
    unfold psetInitGo
    split
    · next h =>
      have g1 : Good V { s with rng := (kit.rand s.rng).2 } pend := g.congr rfl rfl rfl rfl rfl
      have g2 := g1.insert (L.rand s.rng) (by simp [clInit])
      refine post_mono (psetInitGo_post L n (s := _) g2 ?_ ?_) ?_
      · show par.popSize - (s.pset.num + 1) ≤ _; push_cast at hn; omega
      · show s.pset.num + 1 ≤ _; omega
      · intro s' q; exact q
    · next h => exact ⟨g, by omega, rfl, rfl⟩

theorem xcsfInit_post (L : Laws par kit V E) (r : R) :
    Post (xcsfInit par kit r : Res (St K X B R)) (fun s => Between V par s s ∧
      s.pset.num = if par.popInit then par.popSize else 0) E := by
  unfold xcsfInit
  have g0 : Good V (initSt par r : St K X B R) [] := by
    unfold initSt
    refine ⟨⟨⟨List.nodup_nil, by simp, rfl, rfl⟩, ⟨List.nodup_nil, by simp, rfl, rfl⟩, by simp, by simp,
      List.nodup_nil, List.nodup_nil, by simp, ?_, fun _ _ => rfl⟩, ?_⟩
    · intro i hi; simp [St.nums] at hi
    · intro i c h; simp at h
  have hp := L.pop
  show Post (if par.popInit = true then _ else _) _ _
  split
  · next hi =>
    refine post_mono (psetInitGo_post L _ g0 (by simp [initSt]; exact Int.le_max_left _ _) hp) ?_
    rintro s ⟨q1, q2, q3, q4⟩
    refine ⟨⟨q1, by rw [q3]; rfl, ⟨Int.le_refl _, by omega⟩, ⟨Int.le_refl _, by rw [q4]; exact hp⟩, rfl, fun _ _ => rfl⟩, q2⟩
  · next hi => exact ⟨⟨g0, rfl, ⟨Int.le_refl _, hp⟩, ⟨Int.le_refl _, hp⟩, rfl, fun _ _ => rfl⟩, rfl⟩

/-- Allocating a rule straight into the stored population. -/
theorem Good.insertQ {s : St K X B R} {pend : List Nat} (g : Good V s pend) {c : Cl K B} (hv : V c)
    (hn : 1 ≤ c.num) (r : R) :
    Good V { (s.alloc c).2 with prevPset := s.prevPset.add s.next c.num, rng := r } pend := by
  have inv := g.inv
  obtain ⟨n1, n2, n3, n4⟩ := inv.notMem_next
  have hnums : ∀ j, j ≠ s.next → (s.alloc c).2.nums j = s.nums j := by
    intro j hj; rw [alloc_nums]; simp [hj]
  have hself : (s.alloc c).2.nums s.next = some c.num := by rw [alloc_nums]; simp
  have hq := inv.q.congr (g := (s.alloc c).2.nums) (fun j hj => hnums j (fun e => n2 (e ▸ hj)))
  refine ⟨?_, ?_⟩
  · constructor
    · exact inv.p.congr (fun j hj => hnums j (fun e => n1 (e ▸ hj)))
    · refine ⟨List.nodup_cons.2 ⟨n2, hq.nodup⟩, ?_, ?_, ?_⟩
      · intro j hj
        rcases List.mem_cons.1 hj with e | hj
        · subst e; exact ⟨_, hself, hn⟩
        · exact hq.pos j hj
      · have := hq.size; simp only [CSet.add, List.length_cons]; omega
      · show s.prevPset.num + c.num = nsum (s.alloc c).2.nums (s.next :: s.prevPset.list)
        rw [nsum_cons, hself, hq.num]; simp; omega
    · intro j hj h
      rcases List.mem_cons.1 h with e | h
      · subst e; exact n1 hj
      · exact inv.pq j hj h
    · intro j hj; exact (hnums j (fun e => n3 (e ▸ hj))).trans (inv.kz j hj)
    · exact inv.knd
    · exact inv.pnd
    · intro j hj
      refine ⟨(hnums j (fun e => n4 (e ▸ hj))).trans (inv.p1 j hj).1, (inv.p1 j hj).2.1, ?_⟩
      intro h
      rcases List.mem_cons.1 h with e | h
      · subst e; exact n4 hj
      · exact (inv.p1 j hj).2.2 h
    · intro j hj
      by_cases e : j = s.next
      · subst e; exact Or.inr (Or.inl List.mem_cons_self)
      · have : (s.nums j).isSome := by rw [← hnums j e]; exact hj
        rcases inv.own j this with h | h | h | h
        · exact Or.inl h
        · exact Or.inr (Or.inl (List.mem_cons_of_mem _ h))
        · exact Or.inr (Or.inr (Or.inl h))
        · exact Or.inr (Or.inr (Or.inr h))
    · intro j hj
      have hj' : s.next + 1 ≤ j := hj
      exact (hnums j (by omega)).trans (inv.fresh j (by omega))
  · intro j d hd
    have hd' : (s.alloc c).2.heap j = some d := hd
    rw [alloc_heap] at hd'
    split at hd'
    · cases hd'; exact hv
    · exact g.vals j d hd'

theorem storeGo_spec (L : Laws par kit V E) : ∀ (l : List Nat) {s : St K X B R}, Good V s [] →
    (∀ i ∈ l, i ∈ s.pset.list) →
    ∃ (s' : St K X B R) (new : List Nat), storeGo par kit l s = .ok s' ∧ Good V s' [] ∧ s'.pset = s.pset ∧ s'.kset = s.kset ∧
      s'.time = s.time ∧
      s'.prevPset.list = new.reverse ++ s.prevPset.list ∧
      s'.prevPset.num = s.prevPset.num + nsum s.nums l ∧
      new.map s'.heap = (copies par kit (l.filterMap s.heap) s.rng).1.map some ∧
      s'.rng = (copies par kit (l.filterMap s.heap) s.rng).2 ∧
      s.next ≤ s'.next ∧ (∀ i ∈ new, s.next ≤ i ∧ i < s'.next) ∧
      (∀ i, i < s.next → s'.heap i = s.heap i)
  | [], s, g, _ => ⟨s, [], rfl, g, rfl, rfl, rfl, by simp, by simp, rfl, rfl, Nat.le_refl _, by simp,
      fun _ _ => rfl⟩
  | i :: l, s, g, hl => by
    obtain ⟨c, hc, hc1, hv⟩ := g.liveP (hl i List.mem_cons_self)
    have g1 := g.insertQ (L.clone c s.rng hv) (by exact hc1) (initCopy par kit c s.rng).2
    obtain ⟨s', new, e, h1, h2, h3, h4, h5, h6, h7, h7', h8, h9, h10⟩ := storeGo_spec L l g1
      (fun j hj => hl j (List.mem_cons_of_mem _ hj))
    have hlt : ∀ j ∈ i :: l, j < s.next := by
      intro j hj
      by_contra hge
      have := g.inv.fresh j (by omega)
      obtain ⟨n, hn, _⟩ := g.inv.p.pos j (hl j hj)
      rw [this] at hn; cases hn
    have hfm : l.filterMap (s.alloc (initCopy par kit c s.rng).1).2.heap = l.filterMap s.heap := by
      apply List.filterMap_congr
      intro j hj
      have hj' := hlt j (List.mem_cons_of_mem _ hj)
      show (if j = s.next then _ else s.heap j) = _
      rw [if_neg (by omega)]
    have hcp : copies par kit ((i :: l).filterMap s.heap) s.rng =
        ((initCopy par kit c s.rng).1 ::
          (copies par kit (l.filterMap s.heap) (initCopy par kit c s.rng).2).1,
         (copies par kit (l.filterMap s.heap) (initCopy par kit c s.rng).2).2) := by
      rw [List.filterMap_cons_some hc]; rfl
    refine ⟨s', s.next :: new, ?_, h1, h2, h3, h4, ?_, ?_, ?_, ?_, ?_, ?_, ?_⟩
    · unfold storeGo
      rw [rd_ok hc]; exact e
    · rw [h5]; simp [CSet.add]
    · rw [h6]
      show s.prevPset.num + c.num + nsum (s.alloc (initCopy par kit c s.rng).1).2.nums l = _
      rw [nsum_cons, nums_of_heap hc, nsum_congr (g := s.nums)]
      · simp; omega
      · intro j hj
        rw [alloc_nums, if_neg]
        have := hlt j (List.mem_cons_of_mem _ hj); omega
    · rw [List.map_cons, h7, hcp, List.map_cons]
      congr 1
      · rw [h10 s.next (Nat.lt_succ_self _)]
        show (if s.next = s.next then some (initCopy par kit c s.rng).1 else _) = _
        simp
      · show List.map some (copies par kit (l.filterMap
          (s.alloc (initCopy par kit c s.rng).1).2.heap) _).1 = _
        rw [hfm]
    · rw [h7', hcp]
      show (copies par kit (l.filterMap (s.alloc (initCopy par kit c s.rng).1).2.heap) _).2 = _
      rw [hfm]
    · have : s.next + 1 ≤ s'.next := h8
      omega
    · intro j hj
      rcases List.mem_cons.1 hj with e' | hj
      · subst e'
        have : s.next + 1 ≤ s'.next := h8
        omega
      · have := h9 j hj
        have h : s.next + 1 ≤ j ∧ j < s'.next := this
        omega
    · intro j hj
      rw [h10 j (by show j < s.next + 1; omega)]
      show (if j = s.next then _ else s.heap j) = _
      rw [if_neg (by omega)]

/-- Freeing a whole set of live rules that is dropped. -/
theorem store_spec (L : Laws par kit V E) {s : St K X B R} (h : BetweenM V par M S s) :
    ∃ (s' : St K X B R) (new : List Nat), store par kit s = .ok s' ∧ BetweenM V par M s' s' ∧ s'.pset = s.pset ∧ s'.time = s.time ∧
      s'.prevPset.list = new.reverse ∧ s'.prevPset.num = s.pset.num ∧
      new.map s'.heap = (copies par kit (population s) s.rng).1.map some ∧
      s'.rng = (copies par kit (population s) s.rng).2 ∧
      (∀ i ∈ s.pset.list, s'.heap i = s.heap i) := by
  have inv := h.good.inv
  unfold store
  rw [killGo_spec s.prevPset.list s inv.q.nodup (fun i hi => inv.q.isSome hi)]
  generalize hs1 : ({ s with
    heap := fun j => if j ∈ s.prevPset.list then none else s.heap j, prevPset := {} } :
      St K X B R) = s1
  have hh : ∀ j, s1.heap j = if j ∈ s.prevPset.list then none else s.heap j := by
    subst hs1; intro j; rfl
  have hp : s1.pset = s.pset ∧ s1.kset = s.kset ∧ s1.next = s.next ∧ s1.time = s.time ∧
      s1.prevPset = {} := by subst hs1; exact ⟨rfl, rfl, rfl, rfl, rfl⟩
  have hnums : ∀ j, j ∉ s.prevPset.list → s1.nums j = s.nums j := by
    intro j hj; simp only [St.nums, hh, if_neg hj]
  have g1 : Good V s1 [] := by
    refine ⟨⟨?_, ?_, ?_, ?_, ?_, List.nodup_nil, by simp, ?_, ?_⟩, ?_⟩
    · rw [hp.1]; exact inv.p.congr (fun j hj => hnums j (inv.pq j hj))
    · rw [hp.2.2.2.2]; exact ⟨List.nodup_nil, by simp, rfl, rfl⟩
    · rw [hp.2.2.2.2]; simp
    · rw [hp.2.1, h.kset]; simp
    · rw [hp.2.1, h.kset]; exact List.nodup_nil
    · intro i hi
      by_cases hq : i ∈ s.prevPset.list
      · simp [St.nums, hh, hq] at hi
      · rw [hnums i hq] at hi
        rcases inv.own i hi with q | q | q | q
        · rw [hp.1]; exact Or.inl q
        · exact absurd q hq
        · rw [h.kset] at q; simp at q
        · simp at q
    · intro i hi
      rw [hp.2.2.1] at hi
      by_cases hq : i ∈ s.prevPset.list
      · simp [St.nums, hh, hq]
      · rw [hnums i hq]; exact inv.fresh i hi
    · intro i c hc
      rw [hh] at hc
      split at hc
      · cases hc
      · exact h.good.vals i c hc
  obtain ⟨s', new, e, q1, q2, q3, q4, q5, q6, q7, q7', q8, q9, q10⟩ := storeGo_spec L s.pset.list g1
    (fun i hi => by rw [hp.1]; exact hi)
  have hlt : ∀ j ∈ s.pset.list, j < s1.next := by
    intro j hj
    by_contra hge
    have := g1.inv.fresh j (by omega)
    obtain ⟨n, hn, _⟩ := g1.inv.p.pos j (by rw [hp.1]; exact hj)
    rw [this] at hn; cases hn
  have hfm : s.pset.list.filterMap s1.heap = s.pset.list.filterMap s.heap := by
    apply List.filterMap_congr
    intro j hj
    rw [hh, if_neg (inv.pq j hj)]
  have hrng : s1.rng = s.rng := by subst hs1; rfl
  have hnum : s'.prevPset.num = s.pset.num := by
    rw [q6, hp.2.2.2.2, inv.p.num]
    rw [nsum_congr (fun j hj => hnums j (inv.pq j hj))]; simp
  refine ⟨s', new, ?_, ⟨q1, by rw [q3, hp.2.1]; exact h.kset, by rw [q2, hp.1]; exact h.cap,
    by rw [hnum]; exact h.cap, rfl, fun _ _ => rfl⟩, q2.trans hp.1, q4.trans hp.2.2.2.1, ?_, hnum, ?_, ?_, ?_⟩
  · subst hs1; exact e
  · rw [q5, hp.2.2.2.2]; simp
  · rw [q7, hfm, hrng]; rfl
  · rw [q7', hfm, hrng]; rfl
  · intro j hj
    rw [q10 j (hlt j hj), hh, if_neg (inv.pq j hj)]

theorem retrieve_spec {s : St K X B R} (h : BetweenM V par M S s) :
    ∃ s', retrieve s = .ok s' ∧ BetweenM V par M s' s' ∧
      (s.prevPset.list = [] → s' = s) ∧
      (s.prevPset.list ≠ [] → s'.pset = s.prevPset ∧ s'.prevPset = {} ∧ s'.time = s.time ∧
        (∀ i ∈ s.prevPset.list, s'.heap i = s.heap i) ∧
        (∀ i ∈ s.pset.list, s'.heap i = none)) := by
  have inv := h.good.inv
  unfold retrieve
  have hsz := inv.q.size
  by_cases hq : s.prevPset.list = []
  · rw [if_pos (by rw [hsz, hq]; simp)]
    exact ⟨s, rfl, h.self, fun _ => rfl, fun hn => absurd hq hn⟩
  · have hpos : 0 < s.prevPset.list.length := List.length_pos_iff.2 hq
    rw [if_neg (by omega), killGo_spec s.pset.list s inv.p.nodup (fun i hi => inv.p.isSome hi)]
    have hqp : ∀ i ∈ s.prevPset.list, i ∉ s.pset.list := fun i hi hp => inv.pq i hp hi
    have hnums : ∀ j, j ∉ s.pset.list → ({ s with
        heap := fun j => if j ∈ s.pset.list then none else s.heap j, pset := s.prevPset,
        prevPset := {} } : St K X B R).nums j = s.nums j := by
      intro j hj; simp only [St.nums, if_neg hj]
    refine ⟨_, rfl, ⟨⟨⟨?_, ?_, ?_, ?_, ?_, List.nodup_nil, by simp, ?_, ?_⟩, ?_⟩, h.kset, h.qcap,
      ⟨h.cap.1, Int.le_trans (Int.le_trans (Int.natCast_nonneg _) inv.p.num_nonneg) h.cap.2⟩, rfl, fun _ _ => rfl⟩,
      fun hn => absurd hn hq, fun _ => ⟨rfl, rfl, rfl, fun i hi => by simp [hqp i hi],
        fun i hi => by simp [hi]⟩⟩
    · exact inv.q.congr (fun j hj => hnums j (hqp j hj))
    · exact ⟨List.nodup_nil, by simp, rfl, rfl⟩
    · simp
    · intro i hi; rw [show _ = s.kset from rfl, h.kset] at hi; simp at hi
    · show s.kset.list.Nodup; rw [h.kset]; exact List.nodup_nil
    · intro i hi
      by_cases hp : i ∈ s.pset.list
      · simp [St.nums, hp] at hi
      · rw [hnums i hp] at hi
        rcases inv.own i hi with q | q | q | q
        · exact absurd q hp
        · exact Or.inl q
        · rw [h.kset] at q; simp at q
        · simp at q
    · intro i hi
      by_cases hp : i ∈ s.pset.list
      · simp [St.nums, hp]
      · rw [hnums i hp]; exact inv.fresh i hi
    · intro i c hc
      have hc' : (if i ∈ s.pset.list then none else s.heap i) = some c := hc
      split at hc'
      · cases hc'
      · exact h.good.vals i c hc'

theorem insertCl_post (L : Laws par kit V E) {s : St K X B R} (h : BetweenM V par M S s) {c : Cl K B}
    (hv : V c) (hn : 1 ≤ c.num) :
    Post (insertCl par kit c s) (fun s' => BetweenM V par M S s' ∧
      s'.pset.num = min (s.pset.num + c.num) par.popSize) E := by
  unfold insertCl
  have g1 := h.good.insert hv hn
  have g2 : Good V { (s.alloc c).2 with pset := s.pset.add s.next c.num, kset := {} } [] :=
    g1.emptyK h.kset (m := s.mset)
  refine post_bind (enforce_post L g2) ?_
  rintro s1 ⟨k1, k2⟩
  obtain ⟨s3, e, g3, k3, eq3, _, hh3⟩ := killKset_post k1.good
  have sn : Same S { (s.alloc c).2 with pset := s.pset.add s.next c.num, kset := {} } := by
    refine ⟨h.snap.1, fun i hi => ?_⟩
    rw [← h.snap.2 i hi]
    refine (alloc_heap s c i).trans (if_neg ?_)
    intro e
    exact h.good.inv.notMem_next.2.1 (e ▸ h.snap.1 ▸ hi)
  rw [e]
  have hpn : s3.pset.num = min (s.pset.num + c.num) par.popSize := by rw [eq3]; exact k2
  refine ⟨⟨g3, by simp [k3], by rw [hpn]; exact h.cap.min _, ?_,
    (sn.keep k1.keep).kill k1.good (by rw [eq3]) hh3⟩, hpn⟩
  rw [eq3]; show Cap par M s1.prevPset.num; rw [k1.frame.prevPset]; exact h.qcap

/-! ## Histories -/

/-- A call that the API accepts: an imported rule has at least one copy and its
fields are valid (`cl_json_import` checks neither, see `PropsCore`). -/
def Op.ok (V : Cl K B → Prop) : Op K X B → Prop
  | .insert c => V c ∧ 1 ≤ c.num
  | .import cs => cs ≠ [] ∧ ∀ c ∈ cs, V c ∧ 1 ≤ c.num
  | _ => True

theorem predictRow_post (L : Laws par kit V E) (x : X) (cv : List K) {s : St K X B R}
    (h : BetweenM V par M S s) :
    Post (predictRow par kit cv x s) (fun p => BetweenM V par M S p.2) E := by
  unfold predictRow
  refine post_bind (supTrial_full L x none (some cv) (s := { s with explore := false })
    ⟨h.good.congr rfl rfl rfl rfl rfl, h.kset, h.cap, h.qcap, h.snap⟩ (by simp)
    (fun h => nomatch h)) ?_
  intro s1 h1
  exact h1

theorem predictBatch_post (L : Laws par kit V E) (cv : List K) : ∀ (xs : List X)
    {s : St K X B R}, BetweenM V par M S s →
    Post (predictBatch par kit cv xs s) (fun p => BetweenM V par M S p.2) E
  | [], s, h => ⟨h.good.congr rfl rfl rfl rfl rfl, h.kset, h.cap, h.qcap, h.snap⟩
  | x :: xs, s, h => by
    unfold predictBatch
    refine post_bind (predictRow_post L x cv h) ?_
    rintro ⟨p, s1⟩ h1
    show Post (predictBatch par kit cv xs s1 >>= _) _ _
    refine post_bind (predictBatch_post L cv xs h1) ?_
    rintro ⟨ps, s2⟩ h2
    exact h2

theorem insertAll_post (L : Laws par kit V E) : ∀ (cs : List (Cl K B)) {s : St K X B R},
    BetweenM V par M S s → (∀ c ∈ cs, V c ∧ 1 ≤ c.num) →
    Post (cs.foldlM (fun s c => insertCl par kit c s) s) (BetweenM V par M S) E
  | [], s, h, _ => h
  | c :: cs, s, h, hc => by
    rw [List.foldlM_cons]
    have hv := hc c List.mem_cons_self
    refine post_bind (insertCl_post L h hv.1 hv.2) ?_
    rintro s1 ⟨h1, _⟩
    exact insertAll_post L cs h1 (fun d hd => hc d (List.mem_cons_of_mem _ hd))

theorem jsonInsert_post (L : Laws par kit V E) {cs : List (Cl K B)} (hne : cs ≠ [])
    {s : St K X B R} (h : BetweenM V par M S s) (hc : ∀ c ∈ cs, V c ∧ 1 ≤ c.num) :
    Post (jsonInsert par kit cs s) (BetweenM V par M S) E := by
  cases cs with
  | nil => exact absurd rfl hne
  | cons c cs => exact insertAll_post L _ h (fun d hd => hc d (List.mem_reverse.1 hd))

theorem scoreGo_post (L : Laws par kit V E) (cv : List K) : ∀ (rows : List (X × List K)) (e : K)
    {s : St K X B R}, BetweenM V par M S s →
    Post (scoreGo par kit cv rows e s) (fun p => BetweenM V par M S p.2) E
  | [], e, s, h => ⟨h.good.congr rfl rfl rfl rfl rfl, h.kset, h.cap, h.qcap, h.snap⟩
  | (x, y) :: rows, e, s, h => by
    unfold scoreGo
    refine post_bind (supTrial_full L x (some y) (some cv) (s := { s with explore := false })
      ⟨h.good.congr rfl rfl rfl rfl rfl, h.kset, h.cap, h.qcap, h.snap⟩ (by simp) (fun h => nomatch h)) ?_
    intro s1 h1
    exact scoreGo_post L cv rows _ h1

theorem BetweenM.explore {s : St K X B R} (h : BetweenM V par M S s) (b : Bool) :
    BetweenM V par M S { s with explore := b } :=
  ⟨h.good.congr rfl rfl rfl rfl rfl, h.kset, h.cap, h.qcap, h.snap⟩

theorem fitStep_full (L : Laws par kit V E) (x : X) (y : List K) {s : St K X B R}
    (h : BetweenM V par M S s)
    (hx : Room par E par.maxCover s.pset.num) : Post (fitStep par kit x y s) (fun p => BetweenM V par M S p.2) E := by
  unfold fitStep
  refine post_bind (supTrial_full L x (some y) none (h.explore true) (by simp) (fun _ => hx)) ?_
  intro s1 h1
  exact ⟨h1.good.congr rfl rfl rfl rfl rfl, h1.kset, h1.cap, h1.qcap, h1.snap⟩

theorem fitStep_post [MayExit E] (L : Laws par kit V E) (x : X) (y : List K) {s : St K X B R}
    (h : BetweenM V par M S s) : Post (fitStep par kit x y s) (fun p => BetweenM V par M S p.2) E :=
  fitStep_full L x y h Room.may

theorem testStep_full (L : Laws par kit V E) (x : X) (y : List K) {s : St K X B R}
    (h : BetweenM V par M S s)
    (hx : Room par E par.maxCover s.pset.num) : Post (testStep par kit x y s) (fun p => BetweenM V par M S p.2) E := by
  unfold testStep
  refine post_bind (supTrial_full L x (some y) none (h.explore false) (by simp) (fun _ => hx)) ?_
  intro s1 h1
  exact h1

theorem testStep_post [MayExit E] (L : Laws par kit V E) (x : X) (y : List K) {s : St K X B R}
    (h : BetweenM V par M S s) : Post (testStep par kit x y s) (fun p => BetweenM V par M S p.2) E :=
  testStep_full L x y h Room.may

theorem score_post (L : Laws par kit V E) (cv : List K) (rows : List (X × List K))
    {s : St K X B R} (h : BetweenM V par M S s) :
    Post (score par kit cv rows s) (fun p => BetweenM V par M S p.2) E := by
  unfold score
  refine post_bind (scoreGo_post L cv rows 0 h) ?_
  rintro ⟨e, s1⟩ h1
  exact h1

/-- The call leaves the stored population alone. -/
def Op.keepsStored : Op K X B → Prop
  | .store => False
  | .retrieve => False
  | _ => True

theorem step_keeps [MayExit E] (L : Laws par kit V E) (op : Op K X B) (hop : op.ok V) (hk : op.keepsStored)
    {s : St K X B R} (h : BetweenM V par M S s) : Post (step par kit s op) (BetweenM V par M S) E := by
  cases op with
  | fit x y => exact post_bind (fitStep_post L x y h) (fun p hp => hp)
  | test x y => exact post_bind (testStep_post L x y h) (fun p hp => hp)
  | predict xs cv => exact post_bind (predictBatch_post L cv xs h) (fun p hp => hp)
  | score rows cv => exact post_bind (score_post L cv rows h) (fun p hp => hp)
  | rlFit x a reward => exact post_bind (rlFit_post L x a reward h) (fun p hp => hp)
  | rlTrial env ex => exact post_bind (rlTrial_post L env ex h) (fun p hp => hp)
  | insert c => exact post_mono (insertCl_post L h hop.1 hop.2) (fun s hs => hs.1)
  | «import» cs => exact jsonInsert_post L hop.1 h hop.2
  | store => exact hk.elim
  | retrieve => exact hk.elim

theorem step_post [MayExit E] (L : Laws par kit V E) (op : Op K X B) (hop : op.ok V) {s : St K X B R}
    (h : BetweenM V par M s s) : Post (step par kit s op) (fun s' => BetweenM V par M s' s') E := by
  by_cases hk : op.keepsStored
  · exact post_mono (step_keeps L op hop hk h) (fun s' h' => h'.self)
  · cases op with
    | store =>
      obtain ⟨s', new, e, h', _⟩ := store_spec L h
      show Post (store par kit s) _ _
      rw [e]; exact h'
    | retrieve =>
      obtain ⟨s', e, h', _⟩ := retrieve_spec h
      show Post (retrieve s) _ _
      rw [e]; exact h'
    | _ => exact absurd trivial hk

theorem foldlM_keeps [MayExit E] (L : Laws par kit V E) : ∀ (ops : List (Op K X B)),
    (∀ op ∈ ops, op.ok V ∧ op.keepsStored) → ∀ {s : St K X B R}, BetweenM V par M S s →
    Post (ops.foldlM (step par kit) s) (BetweenM V par M S) E
  | [], _, s, h => h
  | op :: ops, hops, s, h => by
    rw [List.foldlM_cons]
    have ho := hops op List.mem_cons_self
    refine post_bind (step_keeps L op ho.1 ho.2 h) ?_
    intro s1 h1
    exact foldlM_keeps L ops (fun o ho => hops o (List.mem_cons_of_mem _ ho)) h1

theorem foldlM_post [MayExit E] (L : Laws par kit V E) : ∀ (ops : List (Op K X B)),
    (∀ op ∈ ops, op.ok V) → ∀ {s : St K X B R}, BetweenM V par M s s →
    Post (ops.foldlM (step par kit) s) (fun s' => BetweenM V par M s' s') E
  | [], _, s, h => h
  | op :: ops, hops, s, h => by
    rw [List.foldlM_cons]
    refine post_bind (step_post L op (hops op List.mem_cons_self) h) ?_
    intro s1 h1
    exact foldlM_post L ops (fun o ho => hops o (List.mem_cons_of_mem _ ho)) h1

theorem run_post [MayExit E] (L : Laws par kit V E) (r : R) (ops : List (Op K X B))
    (hops : ∀ op ∈ ops, op.ok V) :
    Post (run par kit r ops) (fun s' => Between V par s' s') E := by
  unfold run
  refine post_bind (xcsfInit_post L r) ?_
  rintro s ⟨h, _⟩
  exact foldlM_post L ops hops h

end Xcsf
