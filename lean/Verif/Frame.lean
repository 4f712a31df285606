import Verif.Fit

/-!
# Which operations write the counters and estimates of the system

Helper lemmas: rule-level operations leave the error estimate, the set-size estimates, the
clock, the mode and the remembered step alone.
-/

set_option linter.unusedSectionVars false

namespace Xcsf
variable {K X B R : Type} [Zero K] [One K] [Add K] [Sub K] [Mul K] [Div K]
  [LT K] [DecidableLT K] [IntCast K] [DecidableEq K]
variable {par : Params K} {kit : Kit K X B R}

/-- The fields of the system that are not rules, sets, predictions or random numbers. -/
def gauges (s : St K X B R) : K × K × K × K × Int × Bool × K × K × Option X × CSet :=
  (s.error, s.msetSize, s.mfrac, s.asetSize, s.time, s.explore, s.prevReward, s.prevPred,
    s.prevState, s.prevAset)

/-- Faults are not restricted. -/
abbrev AnyFault : Fault → Prop := fun _ => True

theorem post_any {α : Type} (m : Res α) : Post m (fun _ => True) AnyFault := by
  cases m <;> trivial

/-- The operation leaves the gauges as they are in `s`. -/
abbrev Frames (g : K × K × K × K × Int × Bool × K × K × Option X × CSet)
    (m : Res (St K X B R)) : Prop := Post m (fun s' => gauges s' = g) AnyFault

/-- The same for operations that return something else too. -/
abbrev Frames2 {α : Type} (g : K × K × K × K × Int × Bool × K × K × Option X × CSet)
    (m : Res (α × St K X B R)) : Prop := Post m (fun p => gauges p.2 = g) AnyFault

theorem fr_free {s : St K X B R} (i : Nat) : Frames (gauges s) (s.freeCl i) := by
  unfold St.freeCl
  split
  · rfl
  · trivial

theorem fr_kill : ∀ (l : List Nat) (s : St K X B R), Frames (gauges s) (killGo s l)
  | [], s => rfl
  | i :: l, s => by
    unfold killGo
    refine post_bind (fr_free i) fun s' h => ?_
    rw [← h]
    exact fr_kill l s'

theorem fr_killKset {s : St K X B R} : Frames (gauges s) (killKset s) := by
  unfold killKset
  exact post_bind (fr_kill _ s) fun s' h => h

theorem fr_delAt {s : St K X B R} (i : Nat) : Frames (gauges s) (delAt s i) := by
  unfold delAt
  cases s.pset.list[i]? with
  | none => trivial
  | some id =>
    refine post_bind (post_any _) fun c _ => ?_
    show Post (if c.num - 1 = 0 then _ else _) _ _
    split <;> rfl

theorem fr_del {s : St K X B R} : Frames (gauges s) (psetDel par kit s) := by
  unfold psetDel
  refine post_bind (post_any _) fun p _ => ?_
  exact fr_delAt (s := { s with rng := p.2 }) p.1

theorem fr_enforceGo : ∀ (n : Nat) (s : St K X B R), Frames (gauges s) (enforceGo par kit n s)
  | 0, s => by
    unfold enforceGo
    split
    · trivial
    · rfl
  | n + 1, s => by
    unfold enforceGo
    split
    · refine post_bind fr_del fun s' h => ?_
      rw [← h]; exact fr_enforceGo n s'
    · rfl

theorem fr_enforce {s : St K X B R} : Frames (gauges s) (enforce par kit s) := fr_enforceGo _ s

theorem fr_coverOne {s : St K X B R} (x : X) (a : Nat) : Frames (gauges s) (coverOne par kit x a s) := by
  unfold coverOne
  refine post_bind (post_any _) fun p _ => ?_
  rfl

theorem fr_coverActions (x : X) : ∀ (cov : List Bool) (a : Nat) (s : St K X B R),
    Frames (gauges s) (coverActions par kit x cov a s)
  | [], _, s => rfl
  | true :: cov, a, s => by unfold coverActions; exact fr_coverActions x cov (a + 1) s
  | false :: cov, a, s => by
    unfold coverActions
    refine post_bind (fr_coverOne x a) fun s' h => ?_
    rw [← h]; exact fr_coverActions x cov (a + 1) s'

theorem fr_coverIter (x : X) (cov : List Bool) (s : St K X B R) :
    Post (coverIter par kit x cov s) (fun p => gauges p.2.2 = gauges s) AnyFault := by
  unfold coverIter
  refine post_bind (fr_coverActions x cov 0 s) fun s1 h1 => ?_
  refine post_bind (Q := fun s' => gauges s' = gauges s) (h1 ▸ fr_enforce) fun s2 h2 => ?_
  show Post (if s2.pset.size < s1.pset.size then _ else _) _ _
  split
  · refine post_bind (post_any _) fun m _ => ?_
    show Post (if m.size < s2.mset.size then _ else _) _ _
    split
    · refine post_bind (post_any _) fun q _ => ?_
      exact h2
    · exact h2
  · exact h2

theorem fr_coverLoop (x : X) : ∀ (n : Nat) (cov : List Bool) (b : Bool) (s : St K X B R),
    Frames (gauges s) (coverLoop par kit x n cov b s)
  | n, cov, true, s => by unfold coverLoop; rfl
  | 0, cov, false, s => by
    unfold coverLoop
    exact post_bind (post_any _) fun _ _ => trivial
  | n + 1, cov, false, s => by
    unfold coverLoop
    refine post_bind (fr_coverIter x cov s) fun p h => ?_
    rw [← h]; exact fr_coverLoop x n p.1 p.2.1 p.2.2

theorem fr_cover (x : X) (s : St K X B R) : Frames (gauges s) (cover par kit x s) := by
  unfold cover
  exact post_bind (post_any _) fun p _ => fr_coverLoop x _ _ _ s

theorem fr_matchGo (x : X) : ∀ (l : List Nat) (s : St K X B R),
    Frames (gauges s) (matchGo kit x l s)
  | [], s => rfl
  | i :: l, s => by
    unfold matchGo
    refine post_bind (post_any _) fun c _ => ?_
    generalize hm : kit.cmatch s.explore c.body x s.rng = q
    obtain ⟨m, b, r⟩ := q
    show Post (if m || kit.parallel then _ else _) _ _
    cases m <;> split <;> exact fr_matchGo x l _

/-- `clset_match` writes only the estimates of the match-set size and of the matching
fraction. -/
theorem fr_match (x : X) (cv : Bool) (s : St K X B R) :
    Post (clsetMatch par kit x cv s) (fun s' => ∃ mf : K,
      gauges s' = gauges { s with
        msetSize := s.msetSize + ((s'.mset.size : K) - s.msetSize) * par.beta,
        mfrac := s.mfrac + (mf - s.mfrac) * par.beta }) AnyFault := by
  unfold clsetMatch
  refine post_bind (fr_matchGo x s.pset.list s) fun s1 h1 => ?_
  have J : ∀ s2 : St K X B R, gauges s2 = gauges s → Post (s2.rds s2.pset.list >>= fun cs =>
      .ok { s2 with msetSize := s2.msetSize + ((s2.mset.size : K) - s2.msetSize) * par.beta,
                    mfrac := s2.mfrac + (mfracOf par kit cs - s2.mfrac) * par.beta })
      (fun s' => ∃ mf : K, gauges s' = gauges { s with
        msetSize := s.msetSize + ((s'.mset.size : K) - s.msetSize) * par.beta,
        mfrac := s.mfrac + (mf - s.mfrac) * par.beta }) AnyFault := by
    intro s2 h2
    refine post_bind (post_any _) fun cs _ => ?_
    simp only [gauges, Prod.mk.injEq] at h2
    obtain ⟨a1, a2, a3, a4, a5, a6, a7, a8, a9, a10⟩ := h2
    refine ⟨mfracOf par kit cs, ?_⟩
    show gauges _ = gauges _
    simp only [gauges, Prod.mk.injEq]
    exact ⟨a1, by rw [a2], by rw [a3], a4, a5, a6, a7, a8, a9, a10⟩
  dsimp only
  split
  · exact post_bind (h1 ▸ fr_cover x s1) J
  · exact J s1 h1

theorem fr_updateGo (x : X) (y : List K) (n : Int) (cur : Bool) : ∀ (l : List Nat) (s : St K X B R),
    Frames (gauges s) (updateGo par kit x y n cur l s)
  | [], s => rfl
  | i :: l, s => by
    unfold updateGo
    refine post_bind (post_any _) fun c _ => ?_
    exact fr_updateGo x y n cur l _

theorem fr_fitGo (sum : K) : ∀ (l : List Nat) (s : St K X B R),
    Frames (gauges s) (fitGo par kit sum l s)
  | [], s => rfl
  | i :: l, s => by
    unfold fitGo
    refine post_bind (post_any _) fun c _ => ?_
    exact fr_fitGo sum l _

theorem fr_updateFit (t : CSet) (s : St K X B R) : Frames (gauges s) (updateFit par kit t s) := by
  unfold updateFit
  split
  · trivial
  · exact post_bind (post_any _) fun cs _ => fr_fitGo _ _ s

theorem fr_subsumeGo (sid : Nat) : ∀ (l : List Nat) (d : Bool) (s : St K X B R),
    Frames2 (gauges s) (subsumeGo kit sid l d s)
  | [], d, s => rfl
  | i :: l, d, s => by
    unfold subsumeGo
    refine post_bind (post_any _) fun c _ => ?_
    refine post_bind (post_any _) fun sc _ => ?_
    split
    · exact fr_subsumeGo sid l true _
    · exact fr_subsumeGo sid l d s

theorem fr_subsumption (t : CSet) (s : St K X B R) :
    Frames2 (gauges s) (subsumption par kit t s) := by
  unfold subsumption
  refine post_bind (post_any _) fun best _ => ?_
  cases best with
  | none => rfl
  | some sid =>
    refine post_bind (fr_subsumeGo sid t.list false s) fun p h => ?_
    obtain ⟨d, s'⟩ := p
    show Post (if d then _ else _) _ _
    split
    · refine post_bind (post_any _) fun t' _ => ?_
      refine post_bind (post_any _) fun p' _ => ?_
      exact h
    · exact h

theorem fr_update (t : CSet) (x : X) (y : List K) (cur : Bool) (s : St K X B R) :
    Frames2 (gauges s) (clsetUpdate par kit t x y cur s) := by
  unfold clsetUpdate
  refine post_bind (fr_updateGo x y t.num cur t.list s) fun s1 h1 => ?_
  refine post_bind (Q := fun s' => gauges s' = gauges s) (h1 ▸ fr_updateFit t s1) fun s2 h2 => ?_
  split
  · exact h2 ▸ fr_subsumption t s2
  · exact h2

theorem fr_setTimes (time : Int) : ∀ (l : List Nat) (s : St K X B R),
    Frames (gauges s) (setTimes time l s)
  | [], s => rfl
  | i :: l, s => by
    unfold setTimes
    refine post_bind (post_any _) fun c _ => ?_
    exact fr_setTimes time l _

theorem fr_incNum (s : St K X B R) (i : Nat) : Frames (gauges s) (incNum s i) := by
  unfold incNum
  exact post_bind (post_any _) fun c _ => rfl

theorem fr_addPset (s : St K X B R) (i : Nat) : Frames (gauges s) (addPset s i) := by
  unfold addPset
  exact post_bind (post_any _) fun c _ => rfl

theorem fr_incFree (s : St K X B R) (i j : Nat) :
    Frames (gauges s) (incNum s i >>= fun s => s.freeCl j) :=
  post_bind (fr_incNum s i) fun _ h => h ▸ fr_free j

theorem fr_eaSubsume (t : List Nat) (i p1 p2 : Nat) (s : St K X B R) :
    Frames (gauges s) (eaSubsume par kit t i p1 p2 s) := by
  unfold eaSubsume
  refine post_bind (post_any _) fun c _ => ?_
  refine post_bind (post_any _) fun c1 _ => ?_
  split
  · exact fr_incFree s p1 i
  · refine post_bind (post_any _) fun c2 _ => ?_
    split
    · exact fr_incFree s p2 i
    · refine post_bind (post_any _) fun cand _ => ?_
      split
      · generalize uniformInt kit 0 (cand.length : Int) s.rng = k
        show Post (if 0 ≤ k.1 then _ else _) _ _
        split
        · cases cand[k.1.toNat]? with
          | none => trivial
          | some j => exact fr_incFree { s with rng := k.2 } j i
        · trivial
      · exact fr_addPset s i

theorem fr_eaAdd (t : List Nat) (p1 p2 i : Nat) (a b : Bool) (s : St K X B R) :
    Frames (gauges s) (eaAdd par kit t p1 p2 i a b s) := by
  unfold eaAdd
  split
  · exact fr_incFree s p1 i
  · split
    · exact fr_eaSubsume t i p1 p2 s
    · exact fr_addPset s i

theorem fr_eaPair (t : List Nat) (p1 p2 : Nat) (s : St K X B R) :
    Frames (gauges s) (eaPair par kit t p1 p2 s) := by
  unfold eaPair
  refine post_bind (post_any _) fun c _ => ?_
  refine post_bind (post_any _) fun c1 _ => ?_
  refine post_bind (m := kit.mutate _ _) (post_any _) fun m1 _ => ?_
  refine post_bind (m := kit.mutate _ _) (post_any _) fun m2 _ => ?_
  refine post_bind (Q := fun s' => gauges s' = gauges s) (fr_eaAdd t p1 p2 _ _ _ _) fun s2 h2 => ?_
  exact h2 ▸ fr_eaAdd t p2 p1 _ _ _ s2

theorem fr_eaLoop (t : List Nat) (p1 p2 : Nat) : ∀ (n : Nat) (i : Int) (s : St K X B R),
    Frames (gauges s) (eaLoop par kit t p1 p2 n i s)
  | 0, i, s => by
    unfold eaLoop
    split
    · trivial
    · rfl
  | n + 1, i, s => by
    unfold eaLoop
    split
    · exact post_bind (fr_eaPair t p1 p2 s) fun s' h => h ▸ fr_eaLoop t p1 p2 n (i + 1) s'
    · rfl

theorem fr_eaBreed (t : CSet) (s : St K X B R) : Frames (gauges s) (eaBreed par kit t s) := by
  unfold eaBreed
  refine post_bind (fr_setTimes s.time t.list s) fun s1 h1 => ?_
  refine post_bind (post_any _) fun p _ => ?_
  exact h1 ▸ fr_eaLoop (s := { s1 with rng := p.2.2 }) t.list p.1 p.2.1 _ _

/-- `ea` advances the clock by one and writes no other gauge. -/
theorem fr_ea (t : CSet) (s : St K X B R) :
    Frames (gauges { s with time := s.time + 1 }) (ea par kit t s) := by
  unfold ea
  refine post_bind (post_any _) fun cs _ => ?_
  split
  · exact post_bind (fr_eaBreed t _) fun s' h => h ▸ fr_enforce
  · rfl

theorem fr_predictGo (x : X) : ∀ (l : List Nat) (s : St K X B R),
    Frames (gauges s) (predictGo kit x l s)
  | [], s => rfl
  | i :: l, s => by
    unfold predictGo
    refine post_bind (post_any _) fun c _ => ?_
    exact fr_predictGo x l _

theorem fr_paBuild (x : X) (s : St K X B R) : Frames (gauges s) (paBuild par kit x s) := by
  unfold paBuild
  refine post_bind (fr_predictGo x s.mset.list s) fun s1 h1 => ?_
  refine post_bind (post_any _) fun cs _ => ?_
  refine post_bind (post_any _) fun p _ => ?_
  exact h1

/-- The error estimate and the clock. -/
def clock (s : St K X B R) : K × Int × Bool := (s.error, s.time, s.explore)

theorem clock_of {s s' : St K X B R} (h : gauges s' = gauges s) : clock s' = clock s := by
  simp only [gauges, Prod.mk.injEq] at h
  simp only [clock, h.1, h.2.2.2.2.1, h.2.2.2.2.2.1]

theorem ck_match (x : X) (cv : Bool) (s : St K X B R) :
    Post (clsetMatch par kit x cv s) (fun s' => clock s' = clock s) AnyFault :=
  post_mono (fr_match x cv s) fun _ ⟨_, h⟩ => (clock_of h).trans rfl

theorem ck_supSense (x : X) (cv : Option (List K)) (s : St K X B R) :
    Post (supSense par kit x cv s) (fun s' => clock s' = clock s) AnyFault := by
  unfold supSense
  cases cv with
  | none =>
    refine post_bind (ck_match x true s) fun s1 h1 => ?_
    exact post_mono (fr_paBuild x s1) fun s2 h2 => (clock_of h2).trans h1
  | some cv =>
    refine post_bind (ck_match x false s) fun s1 h1 => ?_
    show Post (if s1.mset.size < 1 then _ else _) _ _
    split
    · exact h1
    · exact post_mono (fr_paBuild x s1) fun s2 h2 => (clock_of h2).trans h1

theorem ck_ea (t : CSet) (s : St K X B R) : Post (ea par kit t s) (fun s' =>
    clock s' = (s.error, s.time + 1, s.explore)) AnyFault :=
  post_mono (fr_ea t s) fun _ h => (clock_of h).trans rfl

theorem ck_supLearn (x : X) (y : Option (List K)) (s : St K X B R) :
    Post (supLearn par kit x y s) (fun s' =>
      clock s' = (s.error, if s.explore then s.time + 1 else s.time, s.explore)) AnyFault := by
  unfold supLearn
  split
  · cases y with
    | none => trivial
    | some y =>
      refine post_bind (fr_update s.mset x y true s) fun p h => ?_
      have hc := clock_of h
      simp only [clock, Prod.mk.injEq] at hc
      refine post_mono (ck_ea p.1 _) fun s' h' => ?_
      rw [h']
      simp only [hc]
  · rfl

theorem ck_supTrial (x : X) (y cv : Option (List K)) (s : St K X B R) :
    Post (supTrial par kit x y cv s) (fun s' =>
      clock s' = (s.error, if s.explore then s.time + 1 else s.time, s.explore)) AnyFault := by
  unfold supTrial
  refine post_bind (ck_supSense x cv _) fun s1 h1 => ?_
  refine post_bind (ck_supLearn x y s1) fun s2 h2 => ?_
  refine post_bind (fr_killKset) fun s3 h3 => ?_
  simp only [clock, Prod.mk.injEq] at h1
  have h3' := clock_of h3
  show clock s3 = _
  rw [h3', h2]
  simp only [h1]

theorem ck_fitStep (x : X) (y : List K) (s : St K X B R) :
    Post (fitStep par kit x y s) (fun p => p.1 = kit.loss p.2.pa y ∧
      clock p.2 = (s.error + (p.1 - s.error) * par.beta, s.time + 1, true)) AnyFault := by
  unfold fitStep
  refine post_bind (ck_supTrial x (some y) none _) fun s1 h1 => ?_
  simp only [clock, Prod.mk.injEq] at h1
  refine ⟨rfl, ?_⟩
  simp only [clock, h1]
  rfl

theorem ck_testStep (x : X) (y : List K) (s : St K X B R) :
    Post (testStep par kit x y s) (fun p => clock p.2 = (s.error, s.time, false)) AnyFault := by
  unfold testStep
  refine post_bind (ck_supTrial x (some y) none _) fun s1 h1 => ?_
  exact h1

theorem ck_predictBatch (cv : List K) : ∀ (xs : List X) (s : St K X B R),
    Post (predictBatch par kit cv xs s) (fun p => clock p.2 = (s.error, s.time, false)) AnyFault
  | [], s => rfl
  | x :: xs, s => by
    unfold predictBatch
    refine post_bind (Q := fun p => clock p.2 = (s.error, s.time, false)) ?_ fun p h => ?_
    · unfold predictRow
      refine post_bind (ck_supTrial x none (some cv) _) fun s1 h1 => ?_
      exact h1
    · refine post_bind (ck_predictBatch cv xs p.2) fun q h' => ?_
      simp only [clock, Prod.mk.injEq] at h h'
      show clock q.2 = _
      simp only [clock, h', h]

theorem ck_scoreGo (cv : List K) : ∀ (rows : List (X × List K)) (e : K) (s : St K X B R),
    Post (scoreGo par kit cv rows e s) (fun p => clock p.2 = (s.error, s.time, false)) AnyFault
  | [], e, s => rfl
  | (x, y) :: rows, e, s => by
    unfold scoreGo
    refine post_bind (ck_supTrial x (some y) (some cv) _) fun s1 h1 => ?_
    refine post_mono (ck_scoreGo cv rows _ s1) fun q h' => ?_
    simp only [clock, Prod.mk.injEq] at h1 h'
    simp only [clock, h', h1]
    rfl

theorem ck_score (cv : List K) (rows : List (X × List K)) (s : St K X B R) :
    Post (score par kit cv rows s) (fun p => clock p.2 = (s.error, s.time, false)) AnyFault := by
  unfold score
  exact post_bind (ck_scoreGo cv rows 0 s) fun q h => h

theorem fr_storeGo : ∀ (l : List Nat) (s : St K X B R), Frames (gauges s) (storeGo par kit l s)
  | [], s => rfl
  | i :: l, s => by
    unfold storeGo
    refine post_bind (post_any _) fun c _ => ?_
    exact fr_storeGo l _

theorem fr_store (s : St K X B R) : Frames (gauges s) (store par kit s) := by
  unfold store
  refine post_bind (fr_kill _ s) fun s1 h1 => ?_
  exact h1 ▸ fr_storeGo s1.pset.list { s1 with prevPset := {} }

theorem fr_retrieve (s : St K X B R) : Frames (gauges s) (retrieve s) := by
  unfold retrieve
  split
  · rfl
  · exact post_bind (fr_kill _ s) fun s1 h1 => h1

theorem fr_insertCl (c : Cl K B) (s : St K X B R) : Frames (gauges s) (insertCl par kit c s) := by
  unfold insertCl
  refine post_bind (Q := fun s' => gauges s' = gauges s) fr_enforce fun s1 h1 => ?_
  exact h1 ▸ fr_killKset

theorem fr_jsonInsert (cs : List (Cl K B)) (s : St K X B R) :
    Frames (gauges s) (jsonInsert par kit cs s) := by
  have go : ∀ (l : List (Cl K B)) (s : St K X B R),
      Frames (gauges s) (l.foldlM (fun s c => insertCl par kit c s) s) := by
    intro l
    induction l with
    | nil => intro s; rfl
    | cons c l ih =>
      intro s
      rw [List.foldlM_cons]
      exact post_bind (fr_insertCl c s) fun s1 h1 => h1 ▸ ih s1
  unfold jsonInsert
  split
  · trivial
  · exact go _ s

theorem fr_action (a : Int) (s : St K X B R) :
    Post (clsetAction par a s) (fun s' => clock s' = clock s ∧ s'.prevAset = s.prevAset)
      AnyFault := by
  unfold clsetAction
  exact post_bind (post_any _) fun t _ => ⟨rfl, rfl⟩

theorem ck_rlUpdateCur (x : X) (reward : K) (done : Bool) (s : St K X B R) :
    Post (rlUpdateCur par kit x reward done s) (fun s' =>
      clock s' = (s.error, if done ∧ s.explore then s.time + 1 else s.time, s.explore)) AnyFault := by
  unfold rlUpdateCur
  cases done with
  | false => rfl
  | true =>
    refine post_bind (post_any _) fun t _ => ?_
    refine post_bind (fr_update t x [reward] true s) fun p h => ?_
    have hc := clock_of h
    simp only [clock, Prod.mk.injEq] at hc
    show Post (if p.2.explore then _ else _) _ _
    split
    · rename_i he
      refine post_mono (ck_ea _ _) fun s' h' => ?_
      rw [h']
      simp only [hc]
      rw [hc.2.2] at he
      simp [he]
    · rename_i he
      show clock p.2 = _
      rw [hc.2.2] at he
      simp only [clock, hc]
      simp [he]

theorem ck_rlUpdatePrev (s : St K X B R) :
    Post (rlUpdatePrev par kit s) (fun s' =>
      clock s' = (s.error, if s.prevAset.list ≠ [] ∧ s.explore then s.time + 1 else s.time,
        s.explore)) AnyFault := by
  unfold rlUpdatePrev
  split
  · rename_i h
    show clock s = _
    simp [clock, h]
  · rename_i hne
    refine post_bind (post_any _) fun bv _ => ?_
    refine post_bind (post_any _) fun t _ => ?_
    dsimp only
    split
    · trivial
    · rename_i px _
      refine post_bind (fr_update t px _ false s) fun p h => ?_
      have hc := clock_of h
      simp only [clock, Prod.mk.injEq] at hc
      show Post (if p.2.explore then _ else _) _ _
      split
      · rename_i he
        refine post_mono (ck_ea _ _) fun s' h' => ?_
        rw [h']
        simp only [hc]
        rw [hc.2.2] at he
        simp [he, hne]
      · rename_i he
        show clock p.2 = _
        rw [hc.2.2] at he
        simp only [clock, hc]
        simp [he]

theorem ck_rlUpdate (x : X) (a : Int) (reward : K) (done : Bool) (s : St K X B R) :
    Post (rlUpdate par kit x a reward done s) (fun s' =>
      clock s' = (s.error, s.time + (if s.explore then
        (if s.prevAset.list ≠ [] then 1 else 0) + (if done then 1 else 0) else 0), s.explore))
      AnyFault := by
  unfold rlUpdate
  refine post_bind (fr_action a s) fun s1 h1 => ?_
  refine post_bind (ck_rlUpdatePrev s1) fun s2 h2 => ?_
  refine post_mono (ck_rlUpdateCur x reward done s2) fun s3 h3 => ?_
  obtain ⟨h1, hp⟩ := h1
  simp only [clock, Prod.mk.injEq] at h1 h2
  rw [h3]
  simp only [h2, h1, hp]
  cases s.explore <;> by_cases hne : s.prevAset.list = [] <;> cases done <;>
    simp [hne, Int.add_assoc]

theorem ck_rlEndTrial (s : St K X B R) :
    Post (rlEndTrial s) (fun s' => clock s' = clock s) AnyFault := by
  unfold rlEndTrial
  exact post_mono fr_killKset fun s' h => clock_of (s := { s with prevAset := {}, prevState := none }) h

theorem ck_rlFit (x : X) (a : Int) (reward : K) (s : St K X B R) :
    Post (rlFit par kit x a reward s) (fun p => ∃ pred, p.1 = kit.loss [pred] [reward] ∧
      clock p.2 = (s.error + (p.1 - s.error) * par.beta, s.time + 1, true)) AnyFault := by
  unfold rlFit
  refine post_bind (fr_match x true _) fun s1 ⟨mf, h1⟩ => ?_
  refine post_bind (fr_paBuild x s1) fun s2 h2 => ?_
  refine post_bind (post_any _) fun pred _ => ?_
  refine post_bind (ck_rlUpdate x a reward true _) fun s3 h3 => ?_
  refine post_bind (Q := fun s' => clock s' = clock s3) ?_ fun s4 h4 => ?_
  · unfold rlEndStep
    exact post_bind (post_any _) fun v _ => rfl
  refine post_bind (ck_rlEndTrial s4) fun s5 h5 => ?_
  have h2' := h2.trans h1
  simp only [gauges, Prod.mk.injEq, rlInitStep, rlInitTrial] at h2'
  obtain ⟨b1, -, -, -, b5, -, -, -, -, b10⟩ := h2'
  have h6 := (h5.trans h4).trans h3
  simp only [b1, b5, b10, clock, Prod.mk.injEq] at h6
  refine ⟨pred, rfl, ?_⟩
  simp only [clock, h6, Prod.mk.injEq]
  simp

theorem ck_rlDecision (x : X) (s : St K X B R) :
    Post (rlDecision par kit x s) (fun p => clock p.2 = clock s ∧ p.2.prevAset = s.prevAset)
      AnyFault := by
  unfold rlDecision
  refine post_bind (fr_match x true s) fun s1 ⟨mf, h1⟩ => ?_
  refine post_bind (fr_paBuild x s1) fun s2 h2 => ?_
  have h2' := h2.trans h1
  have hc : clock s2 = clock s := (clock_of h2').trans rfl
  have hp : s2.prevAset = s.prevAset := by
    simp only [gauges, Prod.mk.injEq] at h2'
    exact h2'.2.2.2.2.2.2.2.2.2
  dsimp only
  split
  · split
    · exact post_bind (post_any _) fun p _ => ⟨hc, hp⟩
    · exact post_bind (post_any _) fun p _ => ⟨hc, hp⟩
  · exact post_bind (post_any _) fun p _ => ⟨hc, hp⟩

theorem ck_rlError (a : Int) (reward : K) (done : Bool) (maxP : K) (s : St K X B R) :
    Post (rlError par kit a reward done maxP s) (fun p =>
      clock p.2 = (s.error + (p.1 - s.error) * par.beta, s.time, s.explore)) AnyFault := by
  unfold rlError
  exact post_bind (post_any _) fun p _ => rfl

end Xcsf
