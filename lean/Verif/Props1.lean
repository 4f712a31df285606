import Verif.PropsLemmas
import Verif.Demo

/-!
# C01–C06: population limit, counters, deletion, rule memory, roulette

`run par kit r ops` is the state after initialising a system with generator state `r`
and making the calls `ops`.  `K` (the numbers), `par` (all parameters) and `kit`
(representation, generator, loss) are arbitrary unless a hypothesis says otherwise.
-/

set_option linter.unusedSectionVars false

namespace Xcsf
section Any
variable {K X B R : Type} [Zero K] [One K] [Add K] [Sub K] [Mul K] [Div K]
  [LT K] [DecidableLT K] [IntCast K] [DecidableEq K]
variable {par : Params K} {kit : Kit K X B R}

theorem Op.valid.ok {op : Op K X B} (h : op.valid) : op.ok (fun _ => True) := by
  cases op with
  | insert c => exact ⟨trivial, h⟩
  | «import» cs => exact ⟨h.1, fun c hc => ⟨trivial, h.2 c hc⟩⟩
  | _ => trivial

/-- The structural invariant holds after every history. -/
theorem reachable_between (hp : 0 ≤ par.popSize) {r : R} {ops : List (Op K X B)}
    (hv : ∀ op ∈ ops, op.valid) {s : St K X B R} (h : run par kit r ops = .ok s) :
    Between (fun _ => True) par s s :=
  post_of_ok (P := fun s' => Between (fun _ => True) par s' s')
    (run_post (lawsTriv par kit hp) r ops (fun op ho => (hv op ho).ok)) h

/-- **C01.** After every history of valid calls the number of micro-classifiers is at most
`pop_size`. -/
theorem C01_population_capped (hp : 0 ≤ par.popSize) {r : R} {ops : List (Op K X B)}
    (hv : ∀ op ∈ ops, op.valid) {s : St K X B R} (h : run par kit r ops = .ok s) :
    micro (population s) ≤ par.popSize := by
  have b := reachable_between hp hv h
  rw [population, filterMap_micro b.good.inv.p.allLive, ← b.good.inv.p.num]
  exact b.cap.2

/-- **C01**, initialisation: with `pop_init` the population starts full, otherwise empty. -/
theorem C01_initial_size (hp : 0 ≤ par.popSize) {r : R} {s : St K X B R}
    (h : xcsfInit par kit r = .ok s) :
    micro (population s) = if par.popInit then par.popSize else 0 := by
  obtain ⟨b, hn⟩ := post_of_ok (xcsfInit_post (lawsTriv par kit hp) r) h
  rw [population, filterMap_micro b.good.inv.p.allLive, ← b.good.inv.p.num]
  exact hn

/-- **C02.** After every history of valid calls the two reported counters are exact, every
rule has numerosity at least one and no rule is listed twice. -/
theorem C02_counters_exact (hp : 0 ≤ par.popSize) {r : R} {ops : List (Op K X B)}
    (hv : ∀ op ∈ ops, op.valid) {s : St K X B R} (h : run par kit r ops = .ok s) :
    s.pset.size = (population s).length ∧ s.pset.num = micro (population s) ∧
    (∀ c ∈ population s, 1 ≤ c.num) ∧ s.pset.list.Nodup ∧
    (population s).length = s.pset.list.length := by
  have b := reachable_between hp hv h
  have inv := b.good.inv
  have hl := filterMap_length inv.p.allLive
  refine ⟨?_, ?_, ?_, inv.p.nodup, hl⟩
  · rw [population, hl]; exact inv.p.size
  · rw [population, filterMap_micro inv.p.allLive]; exact inv.p.num
  · intro c hc
    obtain ⟨i, hi, e⟩ := List.mem_filterMap.1 hc
    obtain ⟨c', h1, h2⟩ := inv.p.live hi
    rw [e] at h1; cases h1; exact h2

/-- **C03**, one deletion: one rule loses one micro-classifier (and leaves when it was the
last), nothing else changes, the order is kept. -/
theorem C03_deletion_removes_one {s s' : St K X B R} {pend : List Nat} (inv : Inv s pend)
    (h : psetDel par kit s = .ok s') :
    DeletesOne (population s) (population s') ∧
    micro (population s') = micro (population s) - 1 ∧
    storedPopulation s' = storedPopulation s := by
  obtain ⟨k, r, c, _, hc, _, hp, _, hq, _⟩ := psetDel_view inv h
  have hsplit : population s = (population s).take k ++ c :: (population s).drop (k + 1) := by
    obtain ⟨hlt, he⟩ := List.getElem?_eq_some_iff.1 hc
    rw [← he, List.getElem_cons_drop, List.take_append_drop]
  refine ⟨⟨_, c, _, hsplit, hp⟩, ?_, hq⟩
  rw [hp]
  conv_rhs => rw [hsplit]
  simp only [micro, List.map_append, List.sum_append, List.map_cons, List.sum_cons, loseOne]
  split
  · next e => simp; omega
  · simp; omega

/-- **C03**, enforcing the limit: exactly as many deletions as there are micro-classifiers
too many. -/
theorem C03_enforce_deletes_excess (hp : 0 ≤ par.popSize) {s s' : St K X B R} {pend : List Nat}
    (inv : Inv s pend) (h : enforce par kit s = .ok s') :
    Deletes (micro (population s) - par.popSize).toNat (population s) (population s') := by
  have hm : micro (population s) = s.pset.num := by
    rw [population, filterMap_micro inv.p.allLive, inv.p.num]
  rw [hm]
  unfold enforce at h
  have key : ∀ (n : Nat) {s : St K X B R}, Inv s pend → (s.pset.num - par.popSize).toNat = n →
      enforceGo par kit n s = .ok s' → Deletes n (population s) (population s') := by
    intro n
    induction n with
    | zero =>
      intro s _ hn h
      unfold enforceGo at h
      split at h
      · cases h
      · cases h; exact Deletes.zero _
    | succ n ih =>
      intro s inv hn h
      unfold enforceGo at h
      split at h
      · next hgt =>
        cases hd : psetDel par kit s with
        | error e => rw [hd] at h; cases h
        | ok s1 =>
          rw [hd] at h
          have h : enforceGo par kit n s1 = .ok s' := h
          obtain ⟨q1, q2⟩ := post_of_ok (psetDel_post (lawsTriv par kit hp) inv.good
            (by omega)) hd
          exact Deletes.succ (C03_deletion_removes_one inv hd).1
            (ih q1.good.inv (by rw [q2]; omega) h)
      · next hle => omega
  exact key _ inv rfl h

theorem insert_deletes (hp : 0 ≤ par.popSize) {s s' : St K X B R}
    (b : Between (fun _ => True) par s s)
    {c : Cl K B} (hc : 1 ≤ c.num) (hi : insertCl par kit c s = .ok s') :
    Deletes (micro (population s) + c.num - par.popSize).toNat (c :: population s)
      (population s') := by
  have g1 := b.good.insert (c := c) trivial hc
  have g2 : Good (fun _ => True)
      { (s.alloc c).2 with pset := s.pset.add s.next c.num, kset := {} } [] :=
    g1.emptyK b.kset (m := s.mset)
  have hpop : population ({ (s.alloc c).2 with
      pset := s.pset.add s.next c.num, kset := {} } : St K X B R) = c :: population s := by
    show (s.next :: s.pset.list).filterMap (s.alloc c).2.heap = _
    rw [List.filterMap_cons_some (b := c) (by rw [alloc_heap]; simp)]
    congr 1
    apply filterMap_congr'
    intro j hj
    rw [alloc_heap, if_neg]
    intro e
    exact b.good.inv.notMem_next.1 (e ▸ hj)
  have hm : micro (c :: population s) = micro (population s) + c.num := by
    simp [micro]; omega
  unfold insertCl at hi
  have hi : (enforce par kit { (s.alloc c).2 with pset := s.pset.add s.next c.num, kset := {} } >>=
      fun s => killKset s) = .ok s' := hi
  cases he : enforce par kit { (s.alloc c).2 with pset := s.pset.add s.next c.num, kset := {} } with
  | error e => rw [he] at hi; cases hi
  | ok s1 =>
    rw [he] at hi
    have hi : killKset s1 = .ok s' := hi
    have d := C03_enforce_deletes_excess hp g2.inv he
    rw [hpop, hm] at d
    have g3 := (post_of_ok (enforce_post (lawsTriv par kit hp) g2) he).1.good
    obtain ⟨s2, e2, _, _, e3, _, hh⟩ := killKset_post g3
    rw [e2] at hi
    cases hi
    have : population s' = population s1 := by
      have hps : s'.pset = s1.pset := by rw [e3]
      unfold population
      rw [hps]
      apply filterMap_congr'
      intro j hj
      apply hh
      intro hk
      obtain ⟨n, hn, h1⟩ := g3.inv.p.pos j hj
      rw [g3.inv.kz j hk] at hn
      cases hn; omega
    rw [this]; exact d

/-- **C03** at the interface: inserting a rule into any reachable system deletes exactly the
excess and nothing more. -/
theorem C03_insert_deletes_excess (hp : 0 ≤ par.popSize) {r : R} {ops : List (Op K X B)}
    (hv : ∀ op ∈ ops, op.valid) {s s' : St K X B R} (h : run par kit r ops = .ok s)
    {c : Cl K B} (hc : 1 ≤ c.num) (hi : insertCl par kit c s = .ok s') :
    Deletes (micro (population s) + c.num - par.popSize).toNat (c :: population s)
      (population s') :=
  insert_deletes hp (reachable_between hp hv h) hc hi

theorem neverMatch_iff {par : Params K} : ∀ (cs : List (Cl K B)) (k : Nat),
    neverMatch par cs = some k ↔ (∃ c, cs[k]? = some c ∧ NeverMatched par c) ∧
      ∀ d ∈ cs.take k, ¬ NeverMatched par d
  | [], k => by simp [neverMatch]
  | c :: cs, k => by
    unfold neverMatch
    by_cases hc : NeverMatched par c
    · rw [if_pos (by exact hc)]
      cases k with
      | zero => simp [hc]
      | succ k => simp [hc]
    · rw [if_neg (by exact hc), Option.map_eq_some_iff]
      cases k with
      | zero => simp [hc]
      | succ k =>
        have ih := neverMatch_iff (par := par) cs k
        constructor
        · rintro ⟨j, hj, e⟩
          cases e
          rw [ih] at hj
          simpa [hc] using hj
        · intro h
          exact ⟨k, ih.2 (by simpa [hc] using h), rfl⟩

theorem neverMatch_none {par : Params K} : ∀ (cs : List (Cl K B)),
    neverMatch par cs = none ↔ ∀ c ∈ cs, ¬ NeverMatched par c
  | [] => by simp [neverMatch]
  | c :: cs => by
    unfold neverMatch
    by_cases hc : NeverMatched par c
    · rw [if_pos (by exact hc)]; simp [hc]
    · rw [if_neg (by exact hc), Option.map_eq_none_iff, neverMatch_none cs]; simp [hc]

/-- **C04**, first half: if some rule never matched within its probation, the first such
rule loses a micro-classifier, without any random choice. -/
theorem C04_never_matching_first {s s' : St K X B R} {pend : List Nat} (inv : Inv s pend)
    (h : psetDel par kit s = .ok s') (hex : ∃ c ∈ population s, NeverMatched par c) :
    ∃ pre c post, population s = pre ++ c :: post ∧ population s' = pre ++ loseOne c ++ post ∧
      NeverMatched par c ∧ (∀ d ∈ pre, ¬ NeverMatched par d) ∧ s'.rng = s.rng := by
  obtain ⟨k, r, c, hch, hc, _, hp, hr, _, _⟩ := psetDel_view inv h
  have hsplit : population s = (population s).take k ++ c :: (population s).drop (k + 1) := by
    obtain ⟨hlt, he⟩ := List.getElem?_eq_some_iff.1 hc
    rw [← he, List.getElem_cons_drop, List.take_append_drop]
  unfold delChoose at hch
  rw [rds_eq_filterMap inv.p.allLive] at hch
  have hch : (match neverMatch par (population s) with
    | some i => (Except.ok (i, s.rng) : Res (Nat × R))
    | none => delRoulette par kit (population s) s.pset.num s.error s.rng) = .ok (k, r) := hch
  cases hnm : neverMatch par (population s) with
  | none =>
    obtain ⟨d, hd, hn⟩ := hex
    exact absurd hn ((neverMatch_none _).1 hnm d hd)
  | some k' =>
    rw [hnm] at hch
    cases hch
    obtain ⟨⟨d, hd, hn⟩, hpre⟩ := (neverMatch_iff _ _).1 hnm
    rw [hc] at hd; cases hd
    exact ⟨_, c, _, hsplit, hp, hn, hpre, hr⟩

/-- **C04**, second half: otherwise the rule is the one the deletion roulette selects. -/
theorem C04_otherwise_roulette {s s' : St K X B R} {pend : List Nat} (inv : Inv s pend)
    (h : psetDel par kit s = .ok s') (hno : ∀ c ∈ population s, ¬ NeverMatched par c) :
    ∃ pre c post, population s = pre ++ c :: post ∧ population s' = pre ++ loseOne c ++ post ∧
      delRoulette par kit (population s) (micro (population s)) s.error s.rng =
        .ok (pre.length, s'.rng) := by
  obtain ⟨k, r, c, hch, hc, _, hp, hr, _, _⟩ := psetDel_view inv h
  obtain ⟨hlt, he⟩ := List.getElem?_eq_some_iff.1 hc
  have hsplit : population s = (population s).take k ++ c :: (population s).drop (k + 1) := by
    rw [← he, List.getElem_cons_drop, List.take_append_drop]
  unfold delChoose at hch
  rw [rds_eq_filterMap inv.p.allLive] at hch
  have hch : (match neverMatch par (population s) with
    | some i => (Except.ok (i, s.rng) : Res (Nat × R))
    | none => delRoulette par kit (population s) s.pset.num s.error s.rng) = .ok (k, r) := hch
  rw [(neverMatch_none _).2 hno] at hch
  refine ⟨_, c, _, hsplit, hp, ?_⟩
  rw [List.length_take, Nat.min_eq_left (Nat.le_of_lt hlt), hr]
  have hm : micro (population s) = s.pset.num := by
    rw [population, filterMap_micro inv.p.allLive, inv.p.num]
  rw [hm]; exact hch

/-- **C05**, safety: no history of valid calls uses a freed rule or frees a rule twice,
whatever the arithmetic, parameters, representation and random numbers. -/
theorem C05_no_use_after_free (hp : 0 ≤ par.popSize)
    (hcov : ∀ e b x a r, kit.cover e b x a r ≠ .error .uaf)
    (hmut : ∀ b r, kit.mutate b r ≠ .error .uaf) (r : R) {ops : List (Op K X B)}
    (hv : ∀ op ∈ ops, op.valid) : run par kit r ops ≠ .error .uaf := by
  intro h
  exact post_of_error (run_post (lawsAny par kit hp hcov hmut) r ops (fun op ho => (hv op ho).ok)) h rfl

/-- **C05**, no leak: between calls the existing rules are exactly those of the population
and of the stored population, and these do not overlap. -/
theorem C05_no_leak (hp : 0 ≤ par.popSize) {r : R} {ops : List (Op K X B)}
    (hv : ∀ op ∈ ops, op.valid) {s : St K X B R} (h : run par kit r ops = .ok s) (i : Nat) :
    ((s.heap i).isSome ↔ i ∈ s.pset.list ∨ i ∈ s.prevPset.list) ∧
    ¬ (i ∈ s.pset.list ∧ i ∈ s.prevPset.list) := by
  have b := reachable_between hp hv h
  have inv := b.good.inv
  refine ⟨⟨?_, ?_⟩, fun ⟨h1, h2⟩ => inv.pq i h1 h2⟩
  · intro hi
    rcases inv.own i (by simpa [St.nums] using hi) with q | q | q | q
    · exact Or.inl q
    · exact Or.inr q
    · rw [b.kset] at q; simp at q
    · simp at q
  · rintro (q | q)
    · exact inv.p.isSome q
    · exact inv.q.isSome q

end Any

section Field
variable {K X B R : Type} [Field K] [LinearOrder K] [IsStrictOrderedRing K]
variable {par : Params K} {kit : Kit K X B R} {W : B → Prop}

/-- **C05**, stronger for regular systems over exact arithmetic: no undefined behaviour of
any modelled kind (array index, empty roulette, missing pointer) in any history. -/
theorem C05_no_undefined_behaviour (H : Regular par kit W) (r : R) {ops : List (Op K X B)}
    (hv : ∀ op ∈ ops, op.ok (RuleOK par W)) :
    run par kit r ops ≠ .error .ub ∧ run par kit r ops ≠ .error .uaf :=
  have p := run_post (lawsField H) r ops hv
  ⟨fun h => post_of_error p h, fun h => post_of_error p h⟩

theorem wheel_interval {p : K} : ∀ (rest : List K) (sum : K) (i k : Nat),
    wheel p sum rest i = some k → i ≤ k ∧
      p ≤ sum + (rest.take (k - i)).sum ∧
      (k = i ∨ sum + (rest.take (k - i - 1)).sum < p)
  | [], sum, i, k, h => by
    unfold wheel at h
    split at h
    · cases h
    · next hn => cases h; simpa using hn
  | v :: rest, sum, i, k, h => by
    unfold wheel at h
    split at h
    · next hlt =>
      obtain ⟨h1, h2, h3⟩ := wheel_interval rest _ _ _ h
      obtain ⟨m, rfl⟩ : ∃ m, k = i + 1 + m := ⟨k - (i + 1), by omega⟩
      refine ⟨by omega, ?_, Or.inr ?_⟩
      · rw [show i + 1 + m - i = m + 1 by omega, List.take_succ_cons, List.sum_cons]
        rw [show i + 1 + m - (i + 1) = m by omega] at h2
        linarith
      · rw [show i + 1 + m - i - 1 = m by omega]
        rcases h3 with h3 | h3
        · have : m = 0 := by omega
          subst this; simpa using hlt
        · cases m with
          | zero => simpa using hlt
          | succ m =>
            rw [show i + 1 + (m + 1) - (i + 1) - 1 = m by omega] at h3
            rw [List.take_succ_cons, List.sum_cons]; linarith
    · next hn => cases h; simpa using hn

/-- **C06**, the wheel: for non-negative weights and any point up to the total the wheel
stops on an existing position whose interval of the partial sums contains the point. -/
theorem C06_wheel {p : K} {l : List K} (hl : l ≠ []) (hp : p ≤ l.sum) :
    ∃ k, spin p l = some k ∧ k < l.length ∧ p ≤ (l.take (k + 1)).sum ∧
      (k = 0 ∨ (l.take k).sum < p) := by
  have hs : (spin p l).isSome := by
    apply spin_lands (fun v => zero_add v) hl
    rw [foldl_add_sum, zero_add, not_lt]; exact hp
  obtain ⟨k, hk⟩ := Option.isSome_iff_exists.1 hs
  refine ⟨k, hk, spin_lt hk, ?_⟩
  cases l with
  | nil => exact absurd rfl hl
  | cons v rest =>
    obtain ⟨_, h2, h3⟩ := wheel_interval rest v 0 k hk
    refine ⟨by simpa using h2, ?_⟩
    rcases h3 with h3 | h3
    · exact Or.inl h3
    · cases k with
      | zero => exact Or.inl rfl
      | succ k => right; simpa using h3

/-- **C06**, parent selection: in a set of rules with non-negative fitness, not all of them
zero-weighted below the drawn point, the roulette returns a rule of the set whose
fitness interval contains the point drawn in `[0, total]`. -/
theorem C06_parent_roulette (hd0 : ∀ r, 0 < (kit.draw r).1) (hd1 : ∀ r, (kit.draw r).1 < 1)
    {t : List Nat} {fits : List K} (hl : fits.length = t.length) (hne : t ≠ [])
    (hf : ∀ f ∈ fits, 0 ≤ f) (r : R) :
    ∃ k i, selectRw kit t fits fits.sum r = .ok (i, (uniform kit 0 fits.sum r).2) ∧
      t[k]? = some i ∧
      (uniform kit 0 fits.sum r).1 ≤ (fits.take (k + 1)).sum ∧
      (k = 0 ∨ (fits.take k).sum < (uniform kit 0 fits.sum r).1) ∧
      0 ≤ (uniform kit 0 fits.sum r).1 ∧ (uniform kit 0 fits.sum r).1 ≤ fits.sum := by
  have hs0 : 0 ≤ fits.sum := List.sum_nonneg hf
  have hu : (uniform kit 0 fits.sum r).1 = (kit.draw r).1 * fits.sum := by
    simp [uniform]
  have u0 := hd0 r
  have u1 := hd1 r
  have h0 : 0 ≤ (uniform kit 0 fits.sum r).1 := by rw [hu]; positivity
  have h1 : (uniform kit 0 fits.sum r).1 ≤ fits.sum := by rw [hu]; nlinarith
  have hne' : fits ≠ [] := by
    intro e; rw [e] at hl; exact hne (List.length_eq_zero_iff.1 hl.symm)
  obtain ⟨k, e1, e2, e3, e4⟩ := C06_wheel hne' h1
  have hk : k < t.length := hl ▸ e2
  refine ⟨k, t[k], ?_, List.getElem?_eq_getElem hk, e3, e4, h0, h1⟩
  unfold selectRw
  show (match spin (uniform kit 0 fits.sum r).1 fits with | none => _ | some k => _) = _
  rw [e1]
  show (match t[k]? with | none => _ | some k => _) = _
  rw [List.getElem?_eq_getElem hk]
  rfl

/-- **C06**, deletion: for non-negative deletion votes the roulette returns the position of
an existing rule on which some point of `[0, total]` falls. -/
theorem C06_deletion_roulette (hd0 : ∀ r, 0 < (kit.draw r).1) (hd1 : ∀ r, (kit.draw r).1 < 1)
    {cs : List (Cl K B)} (hne : cs ≠ []) {num : Int} (e : K) (r : R)
    (hv : ∀ c ∈ cs, 0 ≤ delVote par c ((cs.map Cl.fit).sum / (num : K))) :
    ∃ k r' p, delRoulette par kit cs num e r = .ok (k, r') ∧ k < cs.length ∧
      0 ≤ p ∧ p ≤ (cs.map (fun c => delVote par c ((cs.map Cl.fit).sum / (num : K)))).sum ∧
      p ≤ ((cs.map (fun c => delVote par c ((cs.map Cl.fit).sum / (num : K)))).take (k + 1)).sum ∧
      (k = 0 ∨ ((cs.map (fun c => delVote par c ((cs.map Cl.fit).sum / (num : K)))).take k).sum
        < p) := by
  generalize hvs : cs.map (fun c => delVote par c ((cs.map Cl.fit).sum / (num : K))) = vs
  have hlen : vs.length = cs.length := by rw [← hvs]; simp
  have hnv : vs ≠ [] := by
    intro e; rw [e] at hlen; exact hne (List.length_eq_zero_iff.1 hlen.symm)
  have hs0 : 0 ≤ vs.sum := by
    rw [← hvs]; apply List.sum_nonneg
    intro v hv'
    obtain ⟨c, hc, rfl⟩ := List.mem_map.1 hv'
    exact hv c hc
  have hu : ∀ r, 0 ≤ (uniform kit 0 vs.sum r).1 ∧ (uniform kit 0 vs.sum r).1 ≤ vs.sum := by
    intro r
    have u0 := hd0 r
    have u1 := hd1 r
    have : (uniform kit 0 vs.sum r).1 = (kit.draw r).1 * vs.sum := by simp [uniform]
    rw [this]
    exact ⟨by positivity, by nlinarith⟩
  let Hit : Nat × K → Prop := fun q => q.1 < cs.length ∧ ∃ p, 0 ≤ p ∧ p ≤ vs.sum ∧
    p ≤ (vs.take (q.1 + 1)).sum ∧ (q.1 = 0 ∨ (vs.take q.1).sum < p)
  have key : ∀ (n : Nat) (best : Option (Nat × K)) (r : R), (∀ q, best = some q → Hit q) →
      ∃ best' r', delSpins kit cs vs vs.sum n best r = .ok (best', r') ∧
        (∀ q, best' = some q → Hit q) ∧ (1 ≤ n ∨ best.isSome → best'.isSome) := by
    intro n
    induction n with
    | zero => intro best r hb; exact ⟨best, r, rfl, hb, by rintro (h | h) <;> [omega; exact h]⟩
    | succ n ih =>
      intro best r hb
      obtain ⟨k, e1, e2, e3, e4⟩ := C06_wheel hnv (hu r).2
      have hk : k < cs.length := hlen ▸ e2
      have hit : ∀ z, Hit (k, z) := fun z => ⟨hk, _, (hu r).1, (hu r).2, e3, e4⟩
      have hnext : ∃ best1 : Option (Nat × K), (∀ q, best1 = some q → Hit q) ∧ best1.isSome ∧
          delSpins kit cs vs vs.sum (n + 1) best r =
            delSpins kit cs vs vs.sum n best1 (uniform kit 0 vs.sum r).2 := by
        conv in delSpins _ _ _ _ (n + 1) _ _ => unfold delSpins
        simp only [e1, List.getElem?_eq_getElem hk]
        cases best with
        | none => exact ⟨_, fun q hq => by cases hq; exact hit _, rfl, rfl⟩
        | some jd =>
          obtain ⟨j, d⟩ := jd
          by_cases hlt : d < kit.condSize cs[k].body + kit.predSize cs[k].body
          · refine ⟨_, ?_, ?_, rfl⟩
            · simp only [if_pos hlt]; intro q hq; cases hq; exact hit _
            · simp only [if_pos hlt]; rfl
          · refine ⟨_, ?_, ?_, rfl⟩
            · simp only [if_neg hlt]; intro q hq; cases hq; exact hb _ rfl
            · simp only [if_neg hlt]; rfl
      obtain ⟨best1, q1, q2, q3⟩ := hnext
      obtain ⟨best', r', w1, w2, w3⟩ := ih best1 (uniform kit 0 vs.sum r).2 q1
      exact ⟨best', r', q3.trans w1, w2, fun _ => w3 (Or.inr q2)⟩
  obtain ⟨best', r', w1, w2, w3⟩ := key (if par.compaction = true ∧ e < par.e0 then 2 else 1) none r
    (by simp)
  have hsome := w3 (Or.inl (by split <;> omega))
  obtain ⟨⟨k, z⟩, hb⟩ := Option.isSome_iff_exists.1 hsome
  obtain ⟨hk, p, h0, h1, h2, h3⟩ := w2 _ hb
  refine ⟨k, r', p, ?_, hk, h0, h1, h2, h3⟩
  unfold delRoulette
  simp only [totalFit_eq, hvs, foldl_add_sum, zero_add]
  rw [w1, hb]
  rfl

end Field

/-! ## The hypotheses are met by concrete executions -/

section Examples
open Demo

/-- A valid history (with learning, prediction, RL trials and storing) that succeeds and fills
the population of the demonstration system to its limit with two or more distinct rules. -/
example : (∀ op ∈ Demo.ops, op.valid) ∧ ∃ s, run Demo.par Demo.kit 0 Demo.ops = .ok s ∧
    micro (population s) = Demo.par.popSize ∧ 2 ≤ (population s).length := by
  refine ⟨by decide +kernel, ?_⟩
  obtain ⟨s, h1, h2⟩ := Res.test_iff (m := run Demo.par Demo.kit 0 Demo.ops)
    (p := fun s => decide (micro (population s) = Demo.par.popSize ∧ 2 ≤ (population s).length))
    (by decide +kernel)
  exact ⟨s, h1, of_decide_eq_true h2⟩

/-- In the state reached by that history a deletion succeeds; no rule is overdue, so the
roulette decides. -/
example : ∃ s s', run Demo.par Demo.kit 0 Demo.ops = .ok s ∧
    psetDel Demo.par Demo.kit s = .ok s' ∧ Inv s [] ∧
    (∀ c ∈ population s, ¬ NeverMatched Demo.par c) ∧ (population s').length <
      (population s).length := by
  obtain ⟨s, h1, h2⟩ := Res.test_iff (m := run Demo.par Demo.kit 0 Demo.ops)
    (p := fun s => Res.test (psetDel Demo.par Demo.kit s) (fun s' =>
      decide ((∀ c ∈ population s, ¬ NeverMatched Demo.par c) ∧ (population s').length <
      (population s).length)))
    (by decide +kernel)
  obtain ⟨s', h3, h4⟩ := Res.test_iff h2
  exact ⟨s, s', h1, h3, (reachable_between (by decide) (by decide +kernel) h1).good.inv,
    of_decide_eq_true h4⟩

/-- A history after which a rule is overdue: it was inserted first and never matched. -/
example : ∃ s s', run Demo.par Demo.kit 0
      [.insert (clInit Demo.par 1 0 (9, 0)), .fit 1 [1], .predict [1, 1, 1, 1] [0]] =
        .ok s ∧ psetDel Demo.par Demo.kit s = .ok s' ∧ Inv s [] ∧
      ∃ c ∈ population s, NeverMatched Demo.par c := by
  obtain ⟨s, h1, h2⟩ := Res.test_iff (m := run Demo.par Demo.kit 0
      [.insert (clInit Demo.par 1 0 (9, 0)), .fit 1 [1], .predict [1, 1, 1, 1] [0]])
    (p := fun s => Res.test (psetDel Demo.par Demo.kit s) (fun _ =>
      decide (∃ c ∈ population s, NeverMatched Demo.par c)))
    (by decide +kernel)
  obtain ⟨s', h3, h4⟩ := Res.test_iff h2
  exact ⟨s, s', h1, h3, (reachable_between (by decide) (by decide +kernel) h1).good.inv,
    of_decide_eq_true h4⟩

/-- Inserting a rule of numerosity 3 into the full system deletes three. -/
example : ∃ s s', run Demo.par Demo.kit 0 Demo.ops = .ok s ∧
    insertCl Demo.par Demo.kit { clInit Demo.par 1 0 (1, 0) with num := 3 } s = .ok s' := by
  obtain ⟨s, h1, h2⟩ := Res.test_iff (m := run Demo.par Demo.kit 0 Demo.ops)
    (p := fun s => Res.test
      (insertCl Demo.par Demo.kit { clInit Demo.par 1 0 (1, 0) with num := 3 } s) (fun _ => true))
    (by decide +kernel)
  obtain ⟨s', h3, _⟩ := Res.test_iff h2
  exact ⟨s, s', h1, h3⟩

example : ∀ op ∈ Demo.ops, op.ok (RuleOK Demo.par (fun _ => True)) := by
  intro op ho
  simp only [Demo.ops, List.mem_cons, List.not_mem_nil, or_false] at ho
  rcases ho with rfl | rfl | rfl | rfl | rfl | rfl | rfl | rfl | rfl | rfl <;> trivial

example : spin (5/2 : ℚ) [1, 0, 2, 3] = some 2 := by decide +kernel

/-- **C02 fails without the validity condition**: the JSON import accepts a rule with
numerosity zero, which then stays in the population. -/
theorem C02_refuted_for_zero_numerosity_import :
    ∃ s, run Demo.par Demo.kit 0 [.import [{ clInit Demo.par 1 0 (1, 0) with num := 0 }]] = .ok s ∧
      ∃ c ∈ population s, c.num = 0 := by
  obtain ⟨s, h1, h2⟩ := Res.test_iff (m := run Demo.par Demo.kit 0
      [.import [{ clInit Demo.par 1 0 (1, 0) with num := 0 }]])
    (p := fun s => decide (∃ c ∈ population s, c.num = 0)) (by decide +kernel)
  exact ⟨s, h1, of_decide_eq_true h2⟩

end Examples
end Xcsf
