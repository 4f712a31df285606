import Verif.Values
import Verif.Props1

/-!
# Properties C16–C20: estimates, fitness shares, prediction array, action choice

Exact arithmetic: `K` is any linearly ordered field.
-/

set_option linter.unusedSectionVars false

namespace Xcsf
variable {K X B R : Type} [Field K] [LinearOrder K] [IsStrictOrderedRing K]
variable {par : Params K} {kit : Kit K X B R} {W : B → Prop}

/-! ## C16 -/

/-- A call whose inserted rules have values a rule can have. -/
def Op.legal (par : Params K) (W : B → Prop) : Op K X B → Prop
  | .insert c => RuleOK par W c ∧ 1 ≤ c.num
  | .import cs => cs ≠ [] ∧ ∀ c ∈ cs, RuleOK par W c ∧ 1 ≤ c.num
  | _ => True

theorem Op.legal.ok {op : Op K X B} (h : op.legal par W) : op.ok (RuleOK par W) := by
  cases op <;> exact h

/-- **C16.** After any history of calls, every rule of the population has non-negative error
and set-size estimate and a fitness in (0, 1]. -/
theorem C16_estimates_in_range (H : Regular par kit W) {r : R} {ops : List (Op K X B)}
    (hv : ∀ op ∈ ops, op.legal par W) {s : St K X B R} (h : run par kit r ops = .ok s) :
    ∀ c ∈ population s, 0 ≤ c.err ∧ 0 < c.fit ∧ c.fit ≤ 1 ∧ 0 ≤ c.size := by
  intro c hc
  obtain ⟨i, _, e⟩ := List.mem_filterMap.1 hc
  have := (post_of_ok (run_post (lawsField H) r ops (fun op ho => (hv op ho).ok)) h).good.vals i c e
  exact ⟨this.err, this.fit0, this.fit1, this.size⟩

/-- The prediction against which a rule is scored by an update: its current one, or a new one
computed for the given input. -/
def scored (kit : Kit K X B R) (e : Bool) (c : Cl K B) (x : X) (cur : Bool) (r : R) : List K :=
  if cur then c.prediction else (kit.predict e c.body c.prediction x r).1

theorem clUpdate_values (e : Bool) (c : Cl K B) (x : X) (y : List K) (n : Int) (cur : Bool) (r : R) :
    (clUpdate par kit e c x y n cur r).1.exp = c.exp + 1 ∧
    (((c.exp + 1 : Int) : K) * par.beta < 1 →
      (clUpdate par kit e c x y n cur r).1.err =
        (c.err * (c.exp : K) + kit.loss (scored kit e c x cur r) y) / ((c.exp + 1 : Int) : K) ∧
      (clUpdate par kit e c x y n cur r).1.size =
        (c.size * (c.exp : K) + (n : K)) / ((c.exp + 1 : Int) : K)) ∧
    (¬ ((c.exp + 1 : Int) : K) * par.beta < 1 →
      (clUpdate par kit e c x y n cur r).1.err =
        c.err + par.beta * (kit.loss (scored kit e c x cur r) y - c.err) ∧
      (clUpdate par kit e c x y n cur r).1.size = c.size + par.beta * ((n : K) - c.size)) := by
  have hx1 : ((c.exp + 1 : Int) : K) - 1 = (c.exp : K) := by push_cast; ring
  unfold clUpdate scored
  cases cur <;>
  · simp only [Bool.false_eq_true, if_false, if_true]
    refine ⟨?_, fun h => ?_, fun h => ?_⟩
    · split <;> rfl
    · rw [if_pos h]; simp only [hx1]; exact ⟨trivial, trivial⟩
    · rw [if_neg h]; exact ⟨rfl, rfl⟩

/-- **C16**, one update: the new error does not exceed the larger of the old error and the
observed loss (and is not below the smaller of them). -/
theorem C16_error_between (hb0 : 0 ≤ par.beta) (hb1 : par.beta ≤ 1) {c : Cl K B} (hx : 0 ≤ c.exp)
    (e : Bool) (x : X) (y : List K) (n : Int) (cur : Bool) (r : R) :
    min c.err (kit.loss (scored kit e c x cur r) y) ≤ (clUpdate par kit e c x y n cur r).1.err ∧
    (clUpdate par kit e c x y n cur r).1.err ≤ max c.err (kit.loss (scored kit e c x cur r) y) := by
  obtain ⟨_, h1, h2⟩ := clUpdate_values (par := par) (kit := kit) e c x y n cur r
  generalize kit.loss (scored kit e c x cur r) y = l at *
  have hx0 : (0 : K) ≤ (c.exp : K) := by exact_mod_cast hx
  have hx1 : (0 : K) < ((c.exp + 1 : Int) : K) := by exact_mod_cast (by omega : (0 : Int) < c.exp + 1)
  have hc : ((c.exp + 1 : Int) : K) = (c.exp : K) + 1 := by push_cast; ring
  have m1 := min_le_left c.err l
  have m2 := min_le_right c.err l
  have m3 := le_max_left c.err l
  have m4 := le_max_right c.err l
  by_cases hm : ((c.exp + 1 : Int) : K) * par.beta < 1
  · rw [(h1 hm).1]
    constructor
    · rw [le_div_iff₀ hx1, hc]; nlinarith [mul_nonneg hx0 (sub_nonneg.2 m1)]
    · rw [div_le_iff₀ hx1, hc]; nlinarith [mul_nonneg hx0 (sub_nonneg.2 m3)]
  · rw [(h2 hm).1]
    constructor
    · nlinarith [mul_nonneg hb0 (sub_nonneg.2 m2), mul_nonneg (sub_nonneg.2 hb1) (sub_nonneg.2 m1)]
    · exact mix_le hb0 hb1 m3 m4

theorem lawsBound (H : Regular par kit W) {M : K} (hM : ∀ p y, kit.loss p y ≤ M)
    (hi : par.initErr ≤ M) (hr : par.eaErrReduc ≤ 1) :
    Laws par kit (fun c => RuleOK par W c ∧ c.err ≤ M) NoUB :=
  have L := lawsField H
  { pop := L.pop
    num := fun c n h => ⟨L.num c n h.1, h.2⟩
    time := fun c n h => ⟨L.time c n h.1, h.2⟩
    cmatch := fun c e x r mt h => ⟨L.cmatch c e x r mt h.1, h.2⟩
    act := fun c e x r h => ⟨L.act c e x r h.1, h.2⟩
    predict := fun c e x r h => ⟨L.predict c e x r h.1, h.2⟩
    update := fun c e x y n cur r h hn => ⟨L.update c e x y n cur r h.1 hn,
      (C16_error_between H.beta0 H.beta1 h.1.exp e x y n cur r).2.trans (max_le h.2 (hM _ _))⟩
    fit := fun cs hcs c hc => ⟨L.fit cs (fun d hd => ⟨(hcs d hd).1.1, (hcs d hd).2⟩) c hc,
      (hcs c hc).1.2⟩
    coverErr := L.coverErr
    cover := fun f r x a b r' t n ha hn h => ⟨L.cover f r x a b r' t n ha hn h, hi⟩
    rand := fun r => ⟨L.rand r, hi⟩
    offspring := by
      intro p1 p2 r h1 h2 n1 n2 b1 b2 x
      refine post_mono (L.offspring p1 p2 r h1.1 h2.1 n1 n2) fun m1 h => ?_
      refine post_mono h fun m2 this => ?_
      have key : ∀ v : K, 0 ≤ v → v ≤ M → par.eaErrReduc * v ≤ M := by
        intro v h0 hv; nlinarith [mul_nonneg (sub_nonneg.2 hr) h0]
      refine ⟨⟨this.1, ?_⟩, ⟨this.2, ?_⟩⟩
      · show (initOffspring par p1 p2 _ _ _).1.err ≤ M
        unfold initOffspring
        split
        · simp only [mean_half]
          exact key _ (by linarith [h1.1.err, h2.1.err]) (by linarith [h1.2, h2.2])
        · exact key _ h1.1.err h1.2
      · show (initOffspring par p1 p2 _ _ _).2.err ≤ M
        unfold initOffspring
        split
        · simp only [mean_half]
          exact key _ (by linarith [h1.1.err, h2.1.err]) (by linarith [h1.2, h2.2])
        · exact key _ h2.1.err h2.2
    clone := fun c r h => ⟨L.clone c r h.1, h.2⟩
    wheelDel := fun cs hne hcs => L.wheelDel cs hne (fun d hd => ⟨(hcs d hd).1.1, (hcs d hd).2⟩)
    wheelSel := fun t cs hne hl hcs r => L.wheelSel t cs hne hl (fun d hd => (hcs d hd).1) r
    index := L.index
    action := fun c h => L.action c h.1
    predLen := fun c h => L.predLen c h.1
    dims := L.dims
    tournament := L.tournament
    explore := fun cs pa nr hv => L.explore cs pa nr (fun c hc => (hv c hc).1) }

/-- **C16**, histories: if no loss exceeds `M`, the initial error does not, and the EA does
not raise errors, then no rule error ever exceeds `M`. -/
theorem C16_error_bounded (H : Regular par kit W) {M : K} (hM : ∀ p y, kit.loss p y ≤ M)
    (hi : par.initErr ≤ M) (hr : par.eaErrReduc ≤ 1) {r : R} {ops : List (Op K X B)}
    (hv : ∀ op ∈ ops, op.legal par W ∧ ∀ c, (op = .insert c ∨ ∃ cs, op = .import cs ∧ c ∈ cs) →
      c.err ≤ M)
    {s : St K X B R} (h : run par kit r ops = .ok s) : ∀ c ∈ population s, c.err ≤ M := by
  intro c hc
  obtain ⟨i, _, e⟩ := List.mem_filterMap.1 hc
  refine ((post_of_ok (run_post (lawsBound H hM hi hr) r ops ?_) h).good.vals i c e).2
  intro op ho
  obtain ⟨h1, h2⟩ := hv op ho
  cases op with
  | insert d => exact ⟨⟨h1.1, h2 d (Or.inl rfl)⟩, h1.2⟩
  | «import» cs =>
    exact ⟨h1.1, fun d hd => ⟨⟨(h1.2 d hd).1, h2 d (Or.inr ⟨cs, rfl, hd⟩)⟩, (h1.2 d hd).2⟩⟩
  | _ => trivial

/-- **C16**, accuracy: for `0 < e0`, `alpha ≤ 1` and a power function that maps bases above
one with a negative exponent into [0, 1), accuracy is in (0, 1], and it is 1 exactly for
errors not above `e0`. -/
theorem C16_accuracy (he : 0 < kit.eps ∧ kit.eps < 1) (h0 : 0 < par.e0)
    (ha : par.alpha ≤ 1) (hnu : 0 < par.nu)
    (hpow : ∀ b n : K, 1 < b → n < 0 → 0 ≤ kit.pow b n ∧ kit.pow b n < 1) (err : K) :
    0 < clAcc par kit err ∧ clAcc par kit err ≤ 1 ∧ (clAcc par kit err = 1 ↔ err ≤ par.e0) := by
  unfold clAcc fmax
  by_cases h : par.e0 < err
  · rw [if_pos h]
    obtain ⟨p0, p1⟩ := hpow (err / par.e0) (0 - par.nu) ((one_lt_div h0).2 h) (by linarith)
    have hlt : par.alpha * kit.pow (err / par.e0) (0 - par.nu) < 1 := by nlinarith
    have hn : ¬ err ≤ par.e0 := not_le.2 h
    split
    · next hc =>
      exact ⟨lt_trans he.1 hc, hlt.le, ⟨fun e => absurd e hlt.ne, fun e => absurd e hn⟩⟩
    · exact ⟨he.1, he.2.le, ⟨fun e => absurd e he.2.ne, fun e => absurd e hn⟩⟩
  · rw [if_neg h]
    exact ⟨one_pos, le_refl _, ⟨fun _ => not_lt.1 h, fun _ => rfl⟩⟩

/-! ## C17 -/

/-- `Seen ls ns c`: a rule that was new, has since been updated with the losses `ls` and the
set numerosities `ns` (in this order), and may have been changed otherwise in between as
long as its error, set-size estimate and experience were left alone. -/
inductive Seen (par : Params K) (kit : Kit K X B R) : List K → List Int → Cl K B → Prop
  | new {c : Cl K B} : c.exp = 0 → Seen par kit [] [] c
  | other {ls : List K} {ns : List Int} {c c' : Cl K B} : Seen par kit ls ns c →
      c'.err = c.err → c'.size = c.size → c'.exp = c.exp → Seen par kit ls ns c'
  | update {ls : List K} {ns : List Int} {c : Cl K B} (e : Bool) (x : X) (y : List K) (n : Int)
      (cur : Bool) (r : R) : Seen par kit ls ns c →
      Seen par kit (ls ++ [kit.loss (scored kit e c x cur r) y]) (ns ++ [n])
        (clUpdate par kit e c x y n cur r).1

theorem Seen.length {ls : List K} {ns : List Int} {c : Cl K B} (h : Seen par kit ls ns c) :
    c.exp = ls.length ∧ ns.length = ls.length := by
  induction h with
  | new h => exact ⟨h, rfl⟩
  | other _ _ _ h ih => exact ⟨h.trans ih.1, ih.2⟩
  | update e x y n cur r _ ih =>
    refine ⟨?_, by simp [ih.2]⟩
    rw [(clUpdate_values e _ x y n cur r).1, ih.1]; simp

/-- **C17.** While experience times `beta` is below one, a rule's error is the mean of all the
losses it has seen (whatever its initial error), and its set-size estimate the mean of all
the set sizes. -/
theorem C17_moyenne {ls : List K} {ns : List Int} {c : Cl K B} (hb : 0 ≤ par.beta)
    (h : Seen par kit ls ns c) (hne : ls ≠ []) (hexp : (c.exp : K) * par.beta < 1) :
    c.err = ls.sum / (ls.length : K) ∧
    c.size = (ns.map (fun n : Int => (n : K))).sum / (ns.length : K) := by
  induction h with
  | new => exact absurd rfl hne
  | other _ h1 h2 h3 ih => rw [h1, h2]; exact ih hne (h3 ▸ hexp)
  | @update ls ns c e x y n cur r hs ih =>
    obtain ⟨v1, v2, _⟩ := clUpdate_values (par := par) (kit := kit) e c x y n cur r
    obtain ⟨l1, l2⟩ := hs.length
    rw [v1] at hexp
    obtain ⟨v3, v4⟩ := v2 hexp
    have hlen : ((ls ++ [kit.loss (scored kit e c x cur r) y]).length : K) = (ls.length : K) + 1 := by
      simp
    have hlen' : ((ns ++ [n]).length : K) = (ls.length : K) + 1 := by simp [l2]
    have hce : (c.exp : K) = (ls.length : K) := by rw [l1]; push_cast; rfl
    have hc1 : ((c.exp + 1 : Int) : K) = (ls.length : K) + 1 := by push_cast; rw [hce]
    rw [v3, v4, hlen, hlen', hc1, hce]
    by_cases hz : ls = []
    · subst hz
      have : ns = [] := List.length_eq_zero_iff.1 l2
      subst this
      simp
    · have hlt : (c.exp : K) * par.beta < 1 := by
        have : (c.exp : K) ≤ ((c.exp + 1 : Int) : K) := by push_cast; linarith
        exact lt_of_le_of_lt (mul_le_mul_of_nonneg_right this hb) hexp
      obtain ⟨i1, i2⟩ := ih hz hlt
      have hpos : (ls.length : K) ≠ 0 := by
        have := List.length_pos_iff.2 hz
        exact_mod_cast this.ne'
      rw [i1, i2, l2]
      constructor
      · rw [div_mul_cancel₀ _ hpos, List.sum_append]; simp
      · rw [div_mul_cancel₀ _ hpos, List.map_append, List.sum_append]; simp

/-- **C17**, afterwards: each update moves error and set-size estimate by the factor `beta`
toward the observed loss and set size. -/
theorem C17_then_weighted (e : Bool) (c : Cl K B) (x : X) (y : List K) (n : Int) (cur : Bool) (r : R)
    (h : 1 ≤ ((c.exp + 1 : Int) : K) * par.beta) :
    (clUpdate par kit e c x y n cur r).1.err =
      (1 - par.beta) * c.err + par.beta * kit.loss (scored kit e c x cur r) y ∧
    (clUpdate par kit e c x y n cur r).1.size = (1 - par.beta) * c.size + par.beta * (n : K) := by
  obtain ⟨_, _, v⟩ := clUpdate_values (par := par) (kit := kit) e c x y n cur r
  obtain ⟨v1, v2⟩ := v (not_lt.2 h)
  rw [v1, v2]; constructor <;> ring

/-! ## C18 -/

/-- Rules of a set as an observer sees them. -/
def rulesOf (s : St K X B R) (t : CSet) : List (Cl K B) := t.list.filterMap s.heap

/-- The numerosity-weighted accuracy of a rule relative to the set `cs`. -/
def relativeAccuracy (par : Params K) (kit : Kit K X B R) (cs : List (Cl K B)) (c : Cl K B) : K :=
  clAcc par kit c.err * (c.num : K) / (cs.map (fun d => clAcc par kit d.err * (d.num : K))).sum

/-- **C18**, targets: over a non-empty set the relative accuracies are positive and sum to one. -/
theorem C18_shares_sum_to_one (H : Regular par kit W) {cs : List (Cl K B)} (hne : cs ≠ [])
    (hn : ∀ c ∈ cs, 1 ≤ c.num) :
    (∀ c ∈ cs, 0 < relativeAccuracy par kit cs c) ∧
    (cs.map (relativeAccuracy par kit cs)).sum = 1 := by
  constructor
  · intro c hc
    have := (share_bounds H hn hc).1
    rw [accSum_eq] at this; exact this
  · have hpos : 0 < (cs.map (fun d => clAcc par kit d.err * (d.num : K))).sum := by
      apply List.sum_pos
      · intro v hv
        obtain ⟨d, hd, rfl⟩ := List.mem_map.1 hv
        exact mul_pos (clAcc_pos H _) (num_cast_pos (hn d hd))
      · simpa using hne
    unfold relativeAccuracy
    rw [sum_map_div_const]
    exact div_self hpos.ne'

theorem fitGo_rules {t : CSet} {s s' : St K X B R} (hn : t.list.Nodup)
    (hl : ∀ i ∈ t.list, (s.heap i).isSome) (h : updateFit par kit t s = .ok s') :
    rulesOf s' t = (rulesOf s t).map (fun c => { c with
      fit := c.fit + par.beta * (relativeAccuracy par kit (rulesOf s t) c - c.fit) }) := by
  unfold updateFit at h
  split at h
  · cases h
  · rw [rds_eq_filterMap hl] at h
    have h : fitGo par kit (accSum par kit (t.list.filterMap s.heap)) t.list s = .ok s' := h
    rw [fitGo_eq] at h
    obtain ⟨hh, r, e, h1, h2⟩ := forEachCl_spec _ t.list s hn hl
    rw [e] at h; cases h
    show t.list.filterMap hh = _
    have hs : accSum par kit (t.list.filterMap s.heap) =
        ((rulesOf s t).map (fun d => clAcc par kit d.err * (d.num : K))).sum := accSum_eq _
    unfold rulesOf
    rw [List.map_filterMap]
    apply filterMap_congr'
    intro i hi
    obtain ⟨c, hc⟩ := Option.isSome_iff_exists.1 (hl i hi)
    obtain ⟨_, e2⟩ := h2 i hi c hc
    rw [e2, hc]
    show some (clUpdateFit par c (accSum par kit (t.list.filterMap s.heap)) (clAcc par kit c.err)) = _
    rw [hs]; rfl

/-- **C18.** A fitness update moves the fitness of every rule of the set by the factor `beta`
toward its relative accuracy; so the total fitness of the set moves by the factor `beta`
toward one. -/
theorem C18_fitness_update (H : Regular par kit W) {t : CSet} {s s' : St K X B R}
    (hn : t.list.Nodup) (hl : ∀ i ∈ t.list, (s.heap i).isSome) (hne : t.list ≠ [])
    (hnum : ∀ c ∈ rulesOf s t, 1 ≤ c.num) (h : updateFit par kit t s = .ok s') :
    rulesOf s' t = (rulesOf s t).map (fun c => { c with
      fit := c.fit + par.beta * (relativeAccuracy par kit (rulesOf s t) c - c.fit) }) ∧
    ((rulesOf s' t).map Cl.fit).sum = ((rulesOf s t).map Cl.fit).sum +
      par.beta * (1 - ((rulesOf s t).map Cl.fit).sum) := by
  have e := fitGo_rules hn hl h
  refine ⟨e, ?_⟩
  have hne' : rulesOf s t ≠ [] := by
    intro hnil
    have := filterMap_length hl
    unfold rulesOf at hnil
    rw [hnil] at this
    exact hne (List.length_eq_zero_iff.1 this.symm)
  rw [e, List.map_map]
  have := sum_mix (rulesOf s t) Cl.fit (relativeAccuracy par kit (rulesOf s t)) par.beta
  rw [(C18_shares_sum_to_one H hne' hnum).2] at this
  exact this

/-! ## C19 -/

/-- The rules of `cs` that advocate action `a`. -/
def advocating (cs : List (Cl K B)) (a : Nat) : List (Cl K B) :=
  cs.filter (fun c => decide (c.action = (a : Int)))

/-- The fitness-weighted mean of output `j` over the rules `cs`; zero if the fitnesses sum to
zero. -/
def weightedMean (cs : List (Cl K B)) (j : Nat) : K :=
  if (cs.map Cl.fit).sum = 0 then 0
  else (cs.map (fun c => c.prediction.getD j 0 * c.fit)).sum / (cs.map Cl.fit).sum

theorem paBuild_cases {x : X} {s s' : St K X B R} (hn : s.mset.list.Nodup)
    (hl : ∀ i ∈ s.mset.list, (s.heap i).isSome) (h : paBuild par kit x s = .ok s') :
    ∃ hh r pa nr,
      (∀ i, i ∉ s.mset.list → hh i = s.heap i) ∧
      (∀ i ∈ s.mset.list, ∀ c, s.heap i = some c → ∃ r, hh i = some { c with
        prediction := (kit.predict s.explore c.body c.prediction x r).1,
        body := (kit.predict s.explore c.body c.prediction x r).2.1 }) ∧
      paRules par.yDim (s.mset.list.filterMap hh) (List.replicate (par.nActions * par.yDim) 0)
        (List.replicate (par.nActions * par.yDim) 0) = .ok (pa, nr) ∧
      s' = { s with heap := hh, rng := r, pa := paNorm pa nr, nr := nr } := by
  unfold paBuild at h
  rw [predictGo_eq] at h
  obtain ⟨hh, r, e, h1, h2⟩ := forEachCl_spec (fun r c => ({ c with
        prediction := (kit.predict s.explore c.body c.prediction x r).1,
        body := (kit.predict s.explore c.body c.prediction x r).2.1 },
        (kit.predict s.explore c.body c.prediction x r).2.2)) s.mset.list s hn hl
  rw [e] at h
  have hl' : ∀ i ∈ s.mset.list, (({ s with heap := hh, rng := r } : St K X B R).heap i).isSome := by
    intro i hi
    obtain ⟨c, hc⟩ := Option.isSome_iff_exists.1 (hl i hi)
    obtain ⟨_, e⟩ := h2 i hi c hc
    show (hh i).isSome
    rw [e]; rfl
  have h : (({ s with heap := hh, rng := r } : St K X B R).rds s.mset.list >>= fun cs =>
    paRules par.yDim cs (List.replicate (par.nActions * par.yDim) 0)
      (List.replicate (par.nActions * par.yDim) 0) >>= fun p =>
    Except.ok ({ s with heap := hh, rng := r, pa := paNorm p.1 p.2, nr := p.2 } : St K X B R)) = _ := h
  rw [rds_eq_filterMap hl'] at h
  have h : (paRules par.yDim (s.mset.list.filterMap hh) (List.replicate (par.nActions * par.yDim) 0)
      (List.replicate (par.nActions * par.yDim) 0) >>= fun p =>
    Except.ok ({ s with heap := hh, rng := r, pa := paNorm p.1 p.2, nr := p.2 } : St K X B R)) = _ := h
  cases e3 : paRules par.yDim (s.mset.list.filterMap hh)
      (List.replicate (par.nActions * par.yDim) 0)
      (List.replicate (par.nActions * par.yDim) 0) with
  | error e' => rw [e3] at h; cases h
  | ok p =>
    rw [e3] at h
    obtain ⟨pa, nr⟩ := p
    cases h
    exact ⟨hh, r, pa, nr, h1, h2, e3, rfl⟩

theorem getD_getElem? {l : List K} {k : Nat} {v : K} (hk : k < l.length) (h : l.getD k 0 = v) :
    l[k]? = some v := by
  rw [List.getD_eq_getElem?_getD, List.getElem?_eq_getElem hk] at h
  rw [List.getElem?_eq_getElem hk]; exact congrArg some h

/-- **C19.** When the prediction array is built, every rule of the match set computes its
prediction for the input, and for each action `a` and output `j` the array holds at
`a * y_dim + j` the fitness-weighted mean of output `j` over the match-set rules advocating `a`,
and `nr` holds their total fitness. -/
theorem C19_weighted_mean {x : X} {s s' : St K X B R} (hn : s.mset.list.Nodup)
    (hl : ∀ i ∈ s.mset.list, (s.heap i).isSome) (h : paBuild par kit x s = .ok s') :
    s'.mset = s.mset ∧
    (∀ i ∈ s.mset.list, ∃ c c' r, s.heap i = some c ∧ s'.heap i = some c' ∧ c'.fit = c.fit ∧
      c'.action = c.action ∧ c'.prediction = (kit.predict s.explore c.body c.prediction x r).1) ∧
    ∀ a j, a < par.nActions → j < par.yDim →
      s'.pa[a * par.yDim + j]? = some (weightedMean (advocating (rulesOf s' s.mset) a) j) ∧
      s'.nr[a * par.yDim + j]? = some ((advocating (rulesOf s' s.mset) a).map Cl.fit).sum := by
  obtain ⟨hh, r, pa, nr, h1, h2, h3, rfl⟩ := paBuild_cases hn hl h
  refine ⟨rfl, ?_, ?_⟩
  · intro i hi
    obtain ⟨c, hc⟩ := Option.isSome_iff_exists.1 (hl i hi)
    obtain ⟨r', e⟩ := h2 i hi c hc
    exact ⟨c, _, r', hc, e, rfl, rfl, rfl⟩
  · intro a j ha hj
    obtain ⟨q1, q2, q3, q4⟩ := paRules_get (a := a) hj _ h3
    have hk : a * par.yDim + j < par.nActions * par.yDim := by
      have : (a + 1) * par.yDim ≤ par.nActions * par.yDim := Nat.mul_le_mul_right _ ha
      rw [Nat.add_mul] at this; omega
    have hz : (List.replicate (par.nActions * par.yDim) (0 : K)).getD (a * par.yDim + j) 0 = 0 := by
      simp [List.getD_eq_getElem?_getD, hk]
    rw [hz, zero_add] at q3 q4
    rw [List.length_replicate] at q1 q2
    constructor
    · refine getD_getElem? (by simp only [paNorm, List.length_zipWith]; omega) ?_
      rw [paNorm_get (q1.trans q2.symm), q3, q4]
      show _ = if ((advocating (s.mset.list.filterMap hh) a).map Cl.fit).sum = 0 then 0 else
        ((advocating (s.mset.list.filterMap hh) a).map
          (fun c => c.prediction.getD j 0 * c.fit)).sum /
        ((advocating (s.mset.list.filterMap hh) a).map Cl.fit).sum
      unfold advocating
      split_ifs <;> first | rfl | contradiction
    · exact getD_getElem? (l := nr) (by omega) q4

/-- **C19**, consequences: with non-negative fitnesses the system prediction lies between any
bounds on the predictions of the rules that contribute; it is zero if there are none. -/
theorem C19_between {cs : List (Cl K B)} {j : Nat} {lo hi : K} (hf : ∀ c ∈ cs, 0 ≤ c.fit)
    (hs : (cs.map Cl.fit).sum ≠ 0)
    (hb : ∀ c ∈ cs, lo ≤ c.prediction.getD j 0 ∧ c.prediction.getD j 0 ≤ hi) :
    lo ≤ weightedMean cs j ∧ weightedMean cs j ≤ hi := by
  have h0 : 0 ≤ (cs.map Cl.fit).sum := by
    apply List.sum_nonneg
    intro v hv
    obtain ⟨c, hc, rfl⟩ := List.mem_map.1 hv
    exact hf c hc
  have hpos : 0 < (cs.map Cl.fit).sum := lt_of_le_of_ne h0 hs.symm
  unfold weightedMean
  rw [if_neg hs]
  constructor
  · rw [le_div_iff₀ hpos]; exact mul_le_sum hf (fun c hc => (hb c hc).1)
  · rw [div_le_iff₀ hpos]; exact sum_le_mul hf (fun c hc => (hb c hc).2)

theorem C19_zero_without_support (j : Nat) : weightedMean ([] : List (Cl K B)) j = 0 := by
  simp [weightedMean]

/-! ## C20 -/

/-- **C20**, greedy choice: for one output per action, the action chosen is a valid index whose
entry is maximal. -/
theorem C20_greedy_is_maximal (hy : par.yDim = 1) {pa : List K}
    (hl : pa.length = par.nActions * par.yDim) {r r' : R} {a : Int}
    (h : paBestAction par kit pa r = .ok (a, r')) :
    0 ≤ a ∧ a < par.nActions ∧ ∃ v, pa[a.toNat]? = some v ∧ ∀ w ∈ pa, w ≤ v := by
  rw [hy, Nat.mul_one] at hl
  unfold paBestAction at h
  cases e : bestActions par.nActions pa with
  | error e' => rw [e] at h; cases h
  | ok best =>
    rw [e] at h
    obtain ⟨M, m1, m2⟩ := bestActions_max e
    rw [← hl, List.take_length] at m1 m2
    have h : (if 0 ≤ (uniformInt kit 0 (best.length : Int) r).1 then
      match best[(uniformInt kit 0 (best.length : Int) r).1.toNat]? with
      | none => Except.error Fault.ub
      | some a => Except.ok ((a : Int), (uniformInt kit 0 (best.length : Int) r).2)
      else Except.error Fault.ub) = .ok (a, r') := h
    split at h
    · split at h
      · cases h
      · next k hk =>
        simp only [Except.ok.injEq, Prod.mk.injEq] at h
        obtain ⟨h1, _⟩ := h
        have hm := (m2 k).1 (List.mem_of_getElem? hk)
        have hlt := (List.getElem?_eq_some_iff.1 hm).1
        refine ⟨by omega, by omega, M, ?_, m1⟩
        rw [← h1]; exact hm
    · cases h

/-- **C20**, greedy choice: every maximiser can be chosen; there is a range of random numbers
for which it is. -/
theorem C20_every_maximiser_possible (H : Regular par kit W) (hy : par.yDim = 1) {pa : List K}
    (hl : pa.length = par.nActions * par.yDim) {a : Nat} {v : K} (ha : pa[a]? = some v)
    (hv : ∀ w ∈ pa, w ≤ v) :
    ∃ lo hi : K, 0 ≤ lo ∧ lo < hi ∧ hi ≤ 1 ∧ ∀ r, lo < (kit.draw r).1 → (kit.draw r).1 < hi →
      paBestAction par kit pa r = .ok ((a : Int), (kit.draw r).2) := by
  rw [hy, Nat.mul_one] at hl
  cases e : bestActions par.nActions pa with
  | error e' =>
    exfalso
    unfold bestActions at e
    split at e
    · next h =>
      rw [← hl, List.take_length] at h
      rw [h] at ha; simp at ha
    · cases e
  | ok best =>
    obtain ⟨M, m1, m2⟩ := bestActions_max e
    rw [← hl, List.take_length] at m1 m2
    have hane : a ∈ best := by
      have : ∃ b, b ∈ best := by
        unfold bestActions at e
        split at e
        · cases e
        · cases e
          exact List.exists_mem_of_ne_nil _ (bestGo_mem _ 1 _ [0] (by simp) (by simp)).1
      obtain ⟨b, hb⟩ := this
      have hM := (m2 b).1 hb
      have : M = v := le_antisymm (hv M (List.mem_of_getElem? hM)) (m1 v (List.mem_of_getElem? ha))
      exact (m2 a).2 (this ▸ ha)
    obtain ⟨k, hk, ek⟩ := List.getElem_of_mem hane
    have hn : (0 : K) < (best.length : K) := by exact_mod_cast (by omega : 0 < best.length)
    refine ⟨(k : K) / (best.length : K), ((k : K) + 1) / (best.length : K),
      div_nonneg (by positivity) hn.le, ?_, ?_, ?_⟩
    · rw [div_lt_div_iff_of_pos_right hn]; linarith
    · rw [div_le_one hn]; exact_mod_cast hk
    · intro r h1 h2
      rw [div_lt_iff₀ hn] at h1
      rw [lt_div_iff₀ hn] at h2
      have hu : uniformInt kit 0 (best.length : Int) r = ((k : Int), (kit.draw r).2) := by
        show (kit.floor ((((0 : Int) : K)) + (kit.draw r).1 *
          ((((best.length : Int)) : K) - (((0 : Int) : K)))), (kit.draw r).2) = _
        rw [floor_eq H (n := (k : Int))]
        · push_cast; linarith
        · push_cast; linarith
      unfold paBestAction
      rw [e]
      show (if 0 ≤ (uniformInt kit 0 (best.length : Int) r).1 then
        match best[(uniformInt kit 0 (best.length : Int) r).1.toNat]? with
        | none => Except.error Fault.ub
        | some a => Except.ok ((a : Int), (uniformInt kit 0 (best.length : Int) r).2)
        else Except.error Fault.ub) = _
      rw [hu]
      simp only [Int.toNat_natCast]
      rw [if_pos (by omega), List.getElem?_eq_getElem hk]
      simp [ek]

/-- **C20**, exploration: for one output per action, the action chosen at random is a valid
index, and the match-set rules advocating it have non-zero total fitness. -/
theorem C20_explore_is_advocated (H : Regular par kit W) (hy : par.yDim = 1) {x : X}
    {s s' : St K X B R} (hn : s.mset.list.Nodup)
    (hl : ∀ i ∈ s.mset.list, (s.heap i).isSome) (h : paBuild par kit x s = .ok s') {n : Nat}
    {r r' : R} {a : Int} (hr : paRandAction par kit s'.nr n r = .ok (a, r')) :
    0 ≤ a ∧ a < par.nActions ∧
    ((advocating (rulesOf s' s.mset) a.toNat).map Cl.fit).sum ≠ 0 ∧
    ∃ c ∈ rulesOf s' s.mset, c.action = a := by
  obtain ⟨hh, r0, pa, nr, h1, h2, h3, e⟩ := paBuild_cases hn hl h
  have hlen : s'.nr.length = par.nActions * par.yDim := by
    have := (paRules_get (a := 0) (j := 0) (by omega) _ h3).2.1
    rw [e]; simpa using this
  have q := post_of_ok (paRandAction_post (E := NoUB) trivial (Or.inr ⟨H.nActions, H.yDim⟩)
    (fun n r hn => Or.inr (uniformInt_range H hn r)) hlen n r) hr
  obtain ⟨q1, q2, v, q3, q4⟩ := q
  have q2 : a < par.nActions := by
    rcases q2 with h | h
    · exact absurd h (by simp [NoUB])
    · exact h
  have q1 : 0 ≤ a := q1
  have hval := ((C19_weighted_mean hn hl h).2.2 a.toNat 0 (by omega) (by omega)).2
  rw [hy, Nat.mul_one, Nat.add_zero] at hval
  have q3 : s'.nr[a.toNat]? = some v := q3
  rw [q3] at hval
  have hv : v = ((advocating (rulesOf s' s.mset) a.toNat).map Cl.fit).sum := Option.some.inj hval
  refine ⟨q1, q2, hv ▸ q4, ?_⟩
  by_contra hno
  have : advocating (rulesOf s' s.mset) a.toNat = [] := by
    unfold advocating
    rw [List.filter_eq_nil_iff]
    intro c hc hcc
    refine hno ⟨c, hc, ?_⟩
    have := of_decide_eq_true hcc
    omega
  rw [this] at hv
  exact q4 (by simpa using hv)

/-- **C20**, best value: the value used for bootstrapping is the maximum of the array. -/
theorem C20_best_value {pa : List K} {v : K} (h : paBestVal pa = .ok v) :
    v ∈ pa ∧ ∀ w ∈ pa, w ≤ v := by
  unfold paBestVal at h
  cases e : argmax pa with
  | error e' => rw [e] at h; cases h
  | ok i =>
    rw [e] at h
    obtain ⟨M, m1, m2⟩ := argmax_max e
    have h : (match pa[i]? with | none => Except.error Fault.ub | some v => Except.ok v) =
      (.ok v : Res K) := h
    rw [m2] at h
    cases h
    exact ⟨List.mem_of_getElem? m2, m1⟩

/-! ## The hypotheses are met by concrete cases -/

section Examples
open Demo

example : (∀ op ∈ Demo.ops, op.legal Demo.par (fun _ => True)) ∧
    ∃ s, run Demo.par Demo.kit 0 Demo.ops = .ok s ∧ population s ≠ [] := by
  constructor
  · intro op ho
    simp only [Demo.ops, List.mem_cons, List.not_mem_nil, or_false] at ho
    rcases ho with rfl | rfl | rfl | rfl | rfl | rfl | rfl | rfl | rfl | rfl <;> trivial
  · obtain ⟨s, h1, h2⟩ := Res.test_iff (m := run Demo.par Demo.kit 0 Demo.ops)
      (p := fun s => decide (population s ≠ [])) (by decide +kernel)
    exact ⟨s, h1, of_decide_eq_true h2⟩

/-- Two updates of a new rule under `beta = 1/5`. -/
example (c : Cl ℚ (Nat × Nat)) (h : c.exp = 0) : ∃ ls ns c', Seen Demo.par Demo.kit ls ns c' ∧
    ls.length = 2 ∧ (c'.exp : ℚ) * Demo.par.beta < 1 := by
  have h2 := Seen.update true (3 : Nat) [1] 4 true 0 (Seen.update true (2 : Nat) [7] 2 true 0
    (Seen.new (par := Demo.par) (kit := Demo.kit) h))
  refine ⟨_, _, _, h2, rfl, ?_⟩
  rw [h2.length.1]
  norm_num [Demo.par]

/-- A match set built from the demonstration population. -/
example : ∃ s s' s'', run Demo.par Demo.kit 0 Demo.ops = .ok s ∧
    clsetMatch Demo.par Demo.kit 1 true { s with mset := {} } = .ok s' ∧
    s'.mset.list.Nodup ∧ s'.mset.list ≠ [] ∧ (∀ i ∈ s'.mset.list, (s'.heap i).isSome) ∧
    (∀ c ∈ rulesOf s' s'.mset, 1 ≤ c.num) ∧
    paBuild Demo.par Demo.kit 1 s' = .ok s'' ∧
    (paBestAction Demo.par Demo.kit s''.pa 0).isOk ∧
    (paRandAction Demo.par Demo.kit s''.nr 5 0).isOk := by
  obtain ⟨s, h1, h2⟩ := Res.test_iff (m := run Demo.par Demo.kit 0 Demo.ops)
    (p := fun s => Res.test (clsetMatch Demo.par Demo.kit 1 true { s with mset := {} }) (fun s' =>
      decide (s'.mset.list.Nodup ∧ s'.mset.list ≠ [] ∧ (∀ i ∈ s'.mset.list, (s'.heap i).isSome) ∧
        (∀ c ∈ rulesOf s' s'.mset, 1 ≤ c.num)) &&
      Res.test (paBuild Demo.par Demo.kit 1 s') (fun s'' =>
        (paBestAction Demo.par Demo.kit s''.pa 0).isOk &&
        (paRandAction Demo.par Demo.kit s''.nr 5 0).isOk))) (by decide +kernel)
  obtain ⟨s', h3, h4⟩ := Res.test_iff h2
  rw [Bool.and_eq_true, decide_eq_true_eq] at h4
  obtain ⟨s'', h5, h6⟩ := Res.test_iff h4.2
  rw [Bool.and_eq_true] at h6
  exact ⟨s, s', s'', h1, h3, h4.1.1, h4.1.2.1, h4.1.2.2.1, h4.1.2.2.2, h5, h6.1, h6.2⟩

end Examples
end Xcsf
