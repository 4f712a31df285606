import Verif.ParLemmas

/-!
# Histories of the multi-threaded program

Every call of the multi-threaded program whose loop bodies do not use the generator has exactly the
outcome of the loops in series.
-/

set_option linter.unusedSectionVars false

namespace Xcsf

/-! ## Computations with one outcome -/

section Nd
variable {α β : Type}

theorem Nd.bind_lift {m : Nd α} {n : Res α} (h : m = Nd.lift n) {f : α → Nd β} {g : α → Res β}
    (hf : ∀ a, n = .ok a → f a = Nd.lift (g a)) : (m >>= f) = Nd.lift (n >>= g) := by
  subst h
  funext o
  apply propext
  show ((∃ e, Except.error e = n ∧ o = .error e) ∨ ∃ a, Except.ok a = n ∧ f a o) ↔ o = (n >>= g)
  cases n with
  | error e =>
    constructor
    · rintro (⟨e', h1, h2⟩ | ⟨a, h1, _⟩)
      · cases h1; exact h2
      · cases h1
    · intro h
      exact Or.inl ⟨e, rfl, h⟩
  | ok a =>
    rw [show (Except.ok a >>= g : Res β) = g a from rfl]
    constructor
    · rintro (⟨e', h1, h2⟩ | ⟨a', h1, h2⟩)
      · cases h1
      · cases h1
        rw [hf a rfl] at h2
        exact h2
    · intro h
      refine Or.inr ⟨a, rfl, ?_⟩
      rw [hf a rfl]
      exact h

end Nd

section Loops
variable {A K X B R : Type} [Zero K] [One K] [Add K] [Sub K] [Mul K] [Div K]
  [LT K] [DecidableLT K] [IntCast K] [DecidableEq K]
variable {par : Params K} {kit : Kit K X B R}

/-! ## The loops in series -/

theorem loopHeap_cons {f : Cl K B → Cl K B} {i : Nat} {l : List Nat} (hi : i ∉ l)
    {s : St K X B R} {c : Cl K B} (hc : s.heap i = some c) :
    loopHeap f l (s.put i (f c)).heap = loopHeap f (i :: l) s.heap := by
  funext j
  unfold loopHeap
  by_cases e : j = i
  · subst e
    rw [if_neg hi, if_pos List.mem_cons_self, put_heap_self, hc]
    rfl
  · rw [put_heap_ne _ _ e]
    simp [e]

theorem loopHeap_nil (f : Cl K B → Cl K B) (h : Nat → Option (Cl K B)) : loopHeap f [] h = h := by
  funext j; simp [loopHeap]

theorem put_live {s : St K X B R} {i j : Nat} {c : Cl K B} (h : (s.heap j).isSome) :
    ((s.put i c).heap j).isSome := by
  by_cases e : j = i
  · subst e; rw [put_heap_self]; rfl
  · rw [put_heap_ne _ _ e]; exact h

theorem forEachCl_quiet {upd : R → Cl K B → Cl K B × R} {f : Cl K B → Cl K B}
    (hu : ∀ r c, upd r c = (f c, r)) : ∀ (l : List Nat) (s : St K X B R), l.Nodup →
    (∀ i ∈ l, (s.heap i).isSome) →
    forEachCl upd l s = .ok { s with heap := loopHeap f l s.heap }
  | [], s, _, _ => by rw [loopHeap_nil]; rfl
  | i :: l, s, hn, hl => by
    obtain ⟨c, hc⟩ := Option.isSome_iff_exists.1 (hl i List.mem_cons_self)
    rw [List.nodup_cons] at hn
    unfold forEachCl
    rw [rd_ok hc]
    show forEachCl upd l { s.put i (upd s.rng c).1 with rng := (upd s.rng c).2 } = _
    rw [hu]
    refine (forEachCl_quiet hu l _ hn.2 fun j hj => put_live (hl j (List.mem_cons_of_mem _ hj))).trans ?_
    rw [← loopHeap_cons hn.1 hc]
    rfl

/-- The match set built from the flags of the rules. -/
def addMatching (h : Nat → Option (Cl K B)) : List Nat → CSet → CSet
  | [], t => t
  | i :: l, t => addMatching h l
      (match h i with
      | some c => if c.m then t.add i c.num else t
      | none => t)

theorem buildMset_eq : ∀ (l : List Nat) (s : St K X B R), (∀ i ∈ l, (s.heap i).isSome) →
    buildMset l s = .ok { s with mset := addMatching s.heap l s.mset }
  | [], s, _ => rfl
  | i :: l, s, hl => by
    obtain ⟨c, hc⟩ := Option.isSome_iff_exists.1 (hl i List.mem_cons_self)
    unfold buildMset addMatching
    rw [rd_ok hc, hc]
    show buildMset l (if c.m then { s with mset := s.mset.add i c.num } else s) =
      .ok { s with mset := addMatching s.heap l (if c.m then s.mset.add i c.num else s.mset) }
    cases c.m with
    | true =>
      exact buildMset_eq l { s with mset := s.mset.add i c.num } fun j hj =>
        hl j (List.mem_cons_of_mem _ hj)
    | false => exact buildMset_eq l s fun j hj => hl j (List.mem_cons_of_mem _ hj)

theorem put_put (s : St K X B R) (i : Nat) (a b : Cl K B) : (s.put i a).put i b = s.put i b := by
  unfold St.put
  congr 1
  funext j
  by_cases e : j = i <;> simp [e]

theorem matchGo_cons (hpar : kit.parallel = true) {x : X} {i : Nat} {l : List Nat}
    {s : St K X B R} {c : Cl K B} (hc : s.heap i = some c) :
    matchGo kit x (i :: l) s = matchGo kit x l
      { s.put i (senseCl kit s.explore x c s.rng).1 with
        mset := if (senseCl kit s.explore x c s.rng).1.m then
          s.mset.add i (senseCl kit s.explore x c s.rng).1.num else s.mset
        rng := (senseCl kit s.explore x c s.rng).2 } := by
  conv_lhs => unfold matchGo
  rw [rd_ok hc]
  show (if ((kit.cmatch s.explore c.body x s.rng).1 || kit.parallel) = true then _ else _) = _
  rw [hpar, Bool.or_true, if_pos rfl]
  show matchGo kit x l _ = _
  have key : ∀ a d : Cl K B, ((s.put i a).put i d).heap = (s.put i d).heap := fun a d => by
    rw [put_put]
  congr 1
  by_cases hmm : (kit.cmatch s.explore c.body x s.rng).1 = true
  · simp only [if_pos hmm, senseCl]
    simp only [St.put] at key ⊢
    congr 1
    exact key _ _
  · simp only [if_neg hmm, senseCl]
    simp only [St.put] at key ⊢
    congr 1
    exact key _ _

theorem matchGo_quiet (hpar : kit.parallel = true) {x : X} {e : Bool} {f : Cl K B → Cl K B}
    (hf : ∀ c r, senseCl kit e x c r = (f c, r)) : ∀ (l : List Nat) (s : St K X B R), s.explore = e →
    l.Nodup → (∀ i ∈ l, (s.heap i).isSome) →
    matchGo kit x l s = .ok
      { s with
        heap := loopHeap f l s.heap
        mset := addMatching (loopHeap f l s.heap) l s.mset }
  | [], s, _, _, _ => by rw [loopHeap_nil]; rfl
  | i :: l, s, he, hn, hl => by
    obtain ⟨c, hc⟩ := Option.isSome_iff_exists.1 (hl i List.mem_cons_self)
    rw [List.nodup_cons] at hn
    have h1 := hf c s.rng
    have hm : (f c).m = (kit.cmatch e c.body x s.rng).1 := congrArg (fun p => p.1.m) h1.symm
    have hnum : (f c).num = c.num := congrArg (fun p => p.1.num) h1.symm
    have step : matchGo kit x (i :: l) s = matchGo kit x l
        { s.put i (f c) with
          mset := if (f c).m then s.mset.add i (f c).num else s.mset } := by
      have hc1 : f c = (senseCl kit e x c s.rng).1 := by rw [h1]
      have hr1 : s.rng = (senseCl kit e x c s.rng).2 := by rw [h1]
      rw [matchGo_cons hpar hc, he, ← hc1, ← hr1]
      rfl
    rw [step]
    refine (matchGo_quiet hpar hf l (({ s.put i (f c) with
          mset := if (f c).m then s.mset.add i (f c).num else s.mset } : St K X B R))
      (show (s.put i (f c)).explore = e from he) hn.2 fun j hj => ?_).trans ?_
    · exact put_live (s := s) (hl j (List.mem_cons_of_mem _ hj))
    show Except.ok ({ s with
      heap := loopHeap f l (s.put i (f c)).heap
      mset := _ } : St K X B R) = _
    rw [show loopHeap f l (s.put i (f c)).heap = loopHeap f (i :: l) s.heap from
      loopHeap_cons hn.1 hc]
    have hi : loopHeap f (i :: l) s.heap i = some (f c) := by simp [loopHeap, hc]
    conv_rhs => rw [addMatching, hi]

/-! ## The functions with parallel loops -/

variable {lp : Bodies A K X B R}

theorem live_loop {f : Cl K B → Cl K B} {l l' : List Nat} {h : Nat → Option (Cl K B)}
    (hl : ∀ i ∈ l', (h i).isSome) : ∀ i ∈ l', (loopHeap f l h i).isSome := by
  intro i hi
  unfold loopHeap
  split
  · rw [Option.isSome_map]; exact hl i hi
  · exact hl i hi

theorem matchLoop (ho : lp.Of par kit) (hq : lp.Quiet) (hpar : kit.parallel = true) (x : X)
    {s : St K X B R} (hn : s.pset.list.Nodup) (hl : ∀ i ∈ s.pset.list, (s.heap i).isSome) :
    (parLoop (lp.sense s.explore x) s.pset.list s >>= fun s =>
      Nd.lift (buildMset s.pset.list s)) = Nd.lift (matchGo kit x s.pset.list s) := by
  have hf : ∀ c r, senseCl kit s.explore x c r = ((lp.sense s.explore x).exec c, r) := fun c r => by
    rw [← ho.sense, Prog.run_quiet (hq.sense _ _)]
  rw [matchGo_quiet hpar hf _ _ rfl hn hl]
  refine (Nd.bind_lift (parLoop_quiet (hq.sense _ _) hn hl) fun a ha => rfl).trans ?_
  congr 1
  exact buildMset_eq _ _ (live_loop hl)

theorem predictLoop (ho : lp.Of par kit) (hq : lp.Quiet) (x : X) {s : St K X B R}
    {l : List Nat} (hn : l.Nodup) (hl : ∀ i ∈ l, (s.heap i).isSome) :
    parLoop (lp.predict s.explore x) l s = Nd.lift (predictGo kit x l s) := by
  rw [parLoop_quiet (hq.predict _ _) hn hl, predictGo_eq, forEachCl_quiet _ l s hn hl]
  intro r c
  have := ho.predict s.explore x c r
  rw [Prog.run_quiet (hq.predict _ _)] at this
  exact this.symm

theorem updateLoop (ho : lp.Of par kit) (hq : lp.Quiet) (x : X) (y : List K) (n : Int) (cur : Bool)
    {s : St K X B R} {l : List Nat} (hn : l.Nodup) (hl : ∀ i ∈ l, (s.heap i).isSome) :
    parLoop (lp.update s.explore x y n cur) l s = Nd.lift (updateGo par kit x y n cur l s) := by
  rw [parLoop_quiet (hq.update ..) hn hl, updateGo_eq, forEachCl_quiet _ l s hn hl]
  intro r c
  have := ho.update s.explore x y n cur c r
  rw [Prog.run_quiet (hq.update ..)] at this
  exact this.symm

/-! ## Relations between the two programs -/

/-- A relation between computations of the multi-threaded and of the serial program that holds for
the loops and is kept by composition. -/
structure Judge (par : Params K) (kit : Kit K X B R) (lp : Bodies A K X B R) where
  J : {α : Type} → Nd α → Res α → Prop
  lift : ∀ {α : Type} (m : Res α), J (Nd.lift m) m
  bind : ∀ {α β : Type} {m : Nd α} {n : Res α}, J m n → ∀ {f : α → Nd β} {g : α → Res β},
    (∀ a, n = .ok a → J (f a) (g a)) → J (m >>= f) (n >>= g)
  matchLoop : ∀ (x : X) {s : St K X B R}, s.pset.list.Nodup →
    (∀ i ∈ s.pset.list, (s.heap i).isSome) →
    J (parLoop (lp.sense s.explore x) s.pset.list s >>= fun s =>
      Nd.lift (buildMset s.pset.list s)) (matchGo kit x s.pset.list s)
  predictLoop : ∀ (x : X) {s : St K X B R} {l : List Nat}, l.Nodup →
    (∀ i ∈ l, (s.heap i).isSome) →
    J (parLoop (lp.predict s.explore x) l s) (predictGo kit x l s)
  updateLoop : ∀ (x : X) (y : List K) (n : Int) (cur : Bool) {s : St K X B R} {l : List Nat},
    l.Nodup → (∀ i ∈ l, (s.heap i).isSome) →
    J (parLoop (lp.update s.explore x y n cur) l s) (updateGo par kit x y n cur l s)

/-- The only outcome is that of the serial program. -/
def quietJudge (ho : lp.Of par kit) (hq : lp.Quiet) (hpar : kit.parallel = true) :
    Judge par kit lp where
  J := fun m n => m = Nd.lift n
  lift := fun _ => rfl
  bind := fun h _ _ hf => Nd.bind_lift h hf
  matchLoop := fun x _ hn hl => matchLoop ho hq hpar x hn hl
  predictLoop := fun x _ _ hn hl => predictLoop ho hq x hn hl
  updateLoop := fun x y n cur _ _ hn hl => updateLoop ho hq x y n cur hn hl

/-! ## Calls -/

variable {V : Cl K B → Prop} {E : Fault → Prop} [MayExit E] {S : St K X B R} {M : Int}

theorem parMatch_judge (D : Judge par kit lp) (x : X)
    (cv : Bool) {s : St K X B R} {pend : List Nat} (g : Good V s pend) :
    D.J (parMatch par kit lp x cv s) (clsetMatch par kit x cv s) := by
  have h := D.matchLoop x g.inv.p.nodup (fun i hi => g.inv.p.isSome hi)
  unfold parMatch clsetMatch
  have assoc : ∀ {α β γ : Type} (m : Nd α) (f : α → Nd β) (k : β → Nd γ),
      (m >>= fun a => f a >>= k) = ((m >>= f) >>= k) := by
    intro α β γ m f k
    funext o
    apply propext
    show ((∃ e, m (.error e) ∧ o = .error e) ∨ ∃ a, m (.ok a) ∧
        ((∃ e, f a (.error e) ∧ o = .error e) ∨ ∃ b, f a (.ok b) ∧ k b o)) ↔
      ((∃ e, ((∃ e', m (.error e') ∧ (Except.error e : Res β) = .error e') ∨
          ∃ a, m (.ok a) ∧ f a (.error e)) ∧ o = .error e) ∨
        ∃ b, ((∃ e', m (.error e') ∧ (Except.ok b : Res β) = .error e') ∨
          ∃ a, m (.ok a) ∧ f a (.ok b)) ∧ k b o)
    constructor
    · rintro (⟨e, h1, h2⟩ | ⟨a, h1, ⟨e, h2, h3⟩ | ⟨b, h2, h3⟩⟩)
      · exact Or.inl ⟨e, Or.inl ⟨e, h1, rfl⟩, h2⟩
      · exact Or.inl ⟨e, Or.inr ⟨a, h1, h2⟩, h3⟩
      · exact Or.inr ⟨b, Or.inr ⟨a, h1, h2⟩, h3⟩
    · rintro (⟨e, ⟨e', h1, h2⟩ | ⟨a, h1, h2⟩, h3⟩ | ⟨b, ⟨e', h1, h2⟩ | ⟨a, h1, h2⟩, h3⟩)
      · cases h2; exact Or.inl ⟨e, h1, h3⟩
      · exact Or.inr ⟨a, h1, Or.inl ⟨e, h2, h3⟩⟩
      · cases h2
      · exact Or.inr ⟨a, h1, Or.inr ⟨b, h2, h3⟩⟩
  rw [assoc]
  refine D.bind h fun s1 _ => ?_
  dsimp only
  split
  · exact D.bind (D.lift _) fun s2 _ => D.bind (D.lift _) fun cs _ => D.lift _
  · exact D.bind (D.lift _) fun s2 _ => D.bind (D.lift _) fun cs _ => D.lift _

theorem parBuild_judge (D : Judge par kit lp) (x : X) {s : St K X B R}
    {pend : List Nat} (g : Good V s pend) (w : Within s s.mset) :
    D.J (parBuild par lp x s) (paBuild par kit x s) := by
  unfold parBuild paBuild
  refine D.bind (D.predictLoop x w.nodup fun i hi => g.inv.p.isSome (w.sub i hi))
    fun s1 _ => ?_
  refine D.bind (D.lift _) fun cs _ => ?_
  exact D.bind (D.lift _) fun p _ => D.lift _

theorem parUpdate_judge (D : Judge par kit lp) (t : CSet) (x : X) (y : List K)
    (cur : Bool) {s : St K X B R} {pend : List Nat} (g : Good V s pend) (w : Within s t) :
    D.J (parUpdate par kit lp t x y cur s) (clsetUpdate par kit t x y cur s) := by
  unfold parUpdate clsetUpdate
  refine D.bind (D.updateLoop x y t.num cur w.nodup fun i hi =>
    g.inv.p.isSome (w.sub i hi)) fun s1 _ => ?_
  exact D.bind (D.lift _) fun s2 _ => D.lift _

theorem parSense_judge (L : Laws par kit V E) (D : Judge par kit lp) (x : X) (cv : Option (List K)) {s : St K X B R}
    {pend : List Nat} (g : Good V s pend) (hm : s.mset = {}) (hcap : Cap par M s.pset.num) :
    D.J (parSense par kit lp x cv s) (supSense par kit x cv s) := by
  cases cv with
  | none =>
    unfold parSense supSense
    refine D.bind (parMatch_judge D x true g) fun s1 h1 => ?_
    obtain ⟨a1, a2, _⟩ := post_of_ok (clsetMatch_post L x true g hm hcap) h1
    exact parBuild_judge D x a1.good a2
  | some cv =>
    unfold parSense supSense
    refine D.bind (parMatch_judge D x false g) fun s1 h1 => ?_
    obtain ⟨a1, a2, _⟩ := post_of_ok (clsetMatch_post L x false g hm hcap) h1
    by_cases hz : s1.mset.size < 1
    · rw [if_pos hz, if_pos hz]; exact D.lift _
    · rw [if_neg hz, if_neg hz]
      exact parBuild_judge D x a1.good a2

theorem parTrial_judge (L : Laws par kit V E) (D : Judge par kit lp) (x : X) (y cv : Option (List K)) {s : St K X B R}
    (h : BetweenM V par M S s) :
    D.J (parTrial par kit lp x y cv s) (supTrial par kit x y cv s) := by
  unfold parTrial supTrial
  have g0 : Good V { s with mset := {}, kset := {} } [] := h.good.emptyK h.kset
  refine D.bind (parSense_judge L D x cv g0 rfl h.cap) fun s1 h1 => ?_
  obtain ⟨ev, w, _⟩ := post_of_ok (supSense_post L x cv g0 rfl h.cap (fun _ => Room.may)) h1
  refine D.bind ?_ fun s2 _ => D.bind (D.lift _) fun s3 _ => D.lift _
  unfold parLearn supLearn
  by_cases he : s1.explore = true
  · rw [if_pos he, if_pos he]
    cases y with
    | none => exact D.lift _
    | some y =>
      exact D.bind (parUpdate_judge D _ x y true ev.good w) fun p _ => D.lift _
  · rw [if_neg he, if_neg he]; exact D.lift _

theorem parPredictRow_judge (L : Laws par kit V E) (D : Judge par kit lp) (cv : List K) (x : X) {s : St K X B R} (h : BetweenM V par M S s) :
    D.J (parPredictRow par kit lp cv x s) (predictRow par kit cv x s) :=
  D.bind (parTrial_judge L D x none (some cv) (h.explore false)) fun _ _ => D.lift _

theorem parPredict_judge (L : Laws par kit V E) (D : Judge par kit lp) (cv : List K) : ∀ (xs : List X) {s : St K X B R},
    BetweenM V par M S s → D.J (parPredict par kit lp cv xs s) (predictBatch par kit cv xs s)
  | [], s, _ => D.lift _
  | x :: xs, s, h => by
    unfold parPredict predictBatch
    refine D.bind (parPredictRow_judge L D cv x h) fun p hp => ?_
    have h1 := post_of_ok (predictRow_post L x cv h) hp
    exact D.bind (parPredict_judge L D cv xs h1) fun q _ => D.lift _

theorem parScoreGo_judge (L : Laws par kit V E) (D : Judge par kit lp) (cv : List K) : ∀ (rows : List (X × List K)) (e : K)
    {s : St K X B R}, BetweenM V par M S s →
    D.J (parScoreGo par kit lp cv rows e s) (scoreGo par kit cv rows e s)
  | [], e, s, _ => D.lift _
  | (x, y) :: rows, e, s, h => by
    unfold parScoreGo scoreGo
    refine D.bind (parTrial_judge L D x (some y) (some cv) (h.explore false))
      fun s1 h1 => ?_
    exact parScoreGo_judge L D cv rows _
      (post_of_ok (supTrial_post L x (some y) (some cv) (h.explore false) (by simp)) h1)

theorem rlDecision_eq (x : X) (s : St K X B R) : rlDecision par kit x s =
    (clsetMatch par kit x true s >>= fun s => paBuild par kit x s >>= chooseAction par kit) := rfl

theorem parDecision_judge (L : Laws par kit V E) (D : Judge par kit lp) (x : X) {s : St K X B R} {pend : List Nat} (g : Good V s pend)
    (hm : s.mset = {}) (hcap : Cap par M s.pset.num) :
    D.J (parDecision par kit lp x s) (rlDecision par kit x s) := by
  rw [rlDecision_eq]
  unfold parDecision
  refine D.bind (parMatch_judge D x true g) fun s1 h1 => ?_
  obtain ⟨a1, a2, _⟩ := post_of_ok (clsetMatch_post L x true g hm hcap) h1
  exact D.bind (parBuild_judge D x a1.good a2) fun s2 _ => D.lift _

theorem parUpdatePrev_judge (D : Judge par kit lp) {s : St K X B R}
    (h : RlInvM V par M S s) : D.J (parUpdatePrev par kit lp s) (rlUpdatePrev par kit s) := by
  unfold parUpdatePrev rlUpdatePrev
  by_cases he : s.prevAset.list = []
  · rw [if_pos he, if_pos he]; exact D.lift _
  · rw [if_neg he, if_neg he]
    refine D.bind (D.lift _) fun bv _ => ?_
    refine D.bind (D.lift _) fun t ht => ?_
    obtain ⟨t', e1, e2, _⟩ := validate_weak h.good h.prev
    rw [e1] at ht
    cases ht
    cases s.prevState with
    | none => exact D.lift _
    | some px => exact D.bind (parUpdate_judge D _ px _ false h.good e2) fun p _ => D.lift _

theorem parUpdateCur_judge (D : Judge par kit lp) (x : X) (reward : K) (done : Bool)
    {s : St K X B R} (h : RlInvM V par M S s) (wa : Weak s s.aset) :
    D.J (parUpdateCur par kit lp x reward done s) (rlUpdateCur par kit x reward done s) := by
  unfold parUpdateCur rlUpdateCur
  by_cases he : done = true
  · rw [if_pos he, if_pos he]
    refine D.bind (D.lift _) fun t ht => ?_
    obtain ⟨t', e1, e2, _⟩ := validate_weak h.good wa
    rw [e1] at ht
    cases ht
    exact D.bind (parUpdate_judge D _ x _ true h.good e2) fun p _ => D.lift _
  · rw [if_neg he, if_neg he]; exact D.lift _

theorem parRlUpdate_judge (L : Laws par kit V E) (D : Judge par kit lp) (x : X) (a : Int)
    (reward : K) (done : Bool) {s : St K X B R} (h : RlInvM V par M S s) (w : Within s s.mset)
    (ha : s.aset = {}) :
    D.J (parRlUpdate par kit lp x a reward done s) (rlUpdate par kit x a reward done s) := by
  unfold parRlUpdate rlUpdate
  obtain ⟨t, e, wt, _, _⟩ := clsetAction_post (par := par) a h.good w ha
  refine D.bind (D.lift _) fun s1 hs1 => ?_
  rw [e] at hs1
  have hs1 := Except.ok.inj hs1
  have h1 : RlInvM V par M S s1 := by
    subst hs1
    exact ⟨h.good.congr rfl rfl rfl rfl rfl, h.cap, h.qcap, ⟨h.prev.nodup, h.prev.sub⟩, h.state,
    h.snap⟩
  have w1 : Weak s1 s1.aset := by
    subst hs1
    exact ⟨wt.nodup, fun i hi => Or.inl (wt.sub i hi)⟩
  refine D.bind (parUpdatePrev_judge D h1) fun s2 h2 => ?_
  obtain ⟨q1, q2, _⟩ := post_of_ok (rlUpdatePrev_post L h1 w1 (fun _ => MayExit.exit)) h2
  exact parUpdateCur_judge D x reward done q1 q2

theorem parRlTrialGo_judge (L : Laws par kit V E) (D : Judge par kit lp) (env : Nat → EnvStep K X) : ∀ (k n : Nat) (e : K)
    {s : St K X B R}, RlInvM V par M S s →
    D.J (parRlTrialGo par kit lp env k n e s) (rlTrialGo par kit env k n e s)
  | 0, n, e, s, _ => D.lift _
  | k + 1, n, e, s, h => by
    unfold parRlTrialGo rlTrialGo
    have h1 := rlInitStep_inv h
    refine D.bind (parDecision_judge L D (env n).state h1.good rfl h1.cap) ?_
    rintro ⟨a, s2⟩ e2
    obtain ⟨ev, w, hcap, hpa, _⟩ := post_of_ok
      (rlDecision_post L (env n).state h1.good rfl h1.cap) e2
    have h2 : RlInvM V par M S s2 := by
      refine ⟨ev.good, hcap, ?_, ?_, ?_, h1.snap.keep ev.keep⟩
      · rw [ev.prevPset]; exact h1.qcap
      · rw [ev.prevAset]; exact ⟨h1.prev.nodup, fun i hi => ev.keep.sub i (h1.prev.sub i hi)⟩
      · rw [ev.prevAset, ev.prevState]; exact h1.state
    have ha : s2.aset = {} := by rw [ev.aset]; rfl
    refine D.bind (parRlUpdate_judge L D (env n).state a ((env n).respond a).1
      ((env n).respond a).2 h2 w ha) fun s3 e3 => ?_
    obtain ⟨q1, q2, q3, q4⟩ := post_of_ok (rlUpdate_post L (env n).state a
      ((env n).respond a).1 ((env n).respond a).2 h2 w ha (fun _ => MayExit.exit)) e3
    have hl : s3.pa.length = par.nActions * par.yDim := by rw [q3]; exact hpa
    refine D.bind (D.lift _) ?_
    rintro ⟨de, s4⟩ e4
    obtain ⟨r1, r2, r3⟩ := post_of_ok (rlError_post L a ((env n).respond a).1
      ((env n).respond a).2 (env n).maxPayoff q1 q2 hl) e4
    have hl4 : s4.pa.length = par.nActions * par.yDim := by
      have : s4.pa = s3.pa := r3
      rw [this]; exact hl
    refine D.bind (D.lift _) fun s5 e5 => ?_
    have h5 := post_of_ok (rlEndStep_post L (env n).state a ((env n).respond a).1 r1 r2 hl4 (fun _ => MayExit.exit)) e5
    dsimp only
    by_cases hd : ((env n).respond a).2 = true
    · rw [if_pos hd, if_pos hd]; exact D.lift _
    · rw [if_neg hd, if_neg hd]
      exact parRlTrialGo_judge L D env k (n + 1) _ h5

theorem parRlFit_judge (L : Laws par kit V E) (D : Judge par kit lp) (x : X) (a : Int) (reward : K) {s : St K X B R}
    (h : BetweenM V par M S s) :
    D.J (parRlFit par kit lp x a reward s) (rlFit par kit x a reward s) := by
  unfold parRlFit rlFit
  have h1 := rlInitStep_inv (rlInitTrial_inv h)
  refine D.bind (parMatch_judge D x true h1.good) fun s1 e1 => ?_
  obtain ⟨a1, a2, a3⟩ := post_of_ok (clsetMatch_post L x true h1.good rfl h1.cap) e1
  refine D.bind (parBuild_judge D x a1.good a2) fun s2 e2 => ?_
  obtain ⟨b1, b2, b3, b4, b5, b6, b7⟩ := post_of_ok (paBuild_post L x a1.good a2) e2
  refine D.bind (D.lift _) fun pred _ => ?_
  have ev := a1.trans b1
  have h2 : RlInvM V par M S { s2 with explore := true } := by
    refine ⟨ev.good.congr rfl rfl rfl rfl rfl, by rw [b3]; exact a3, ?_, ?_, ?_,
      Same.keep (s' := s2) h1.snap ev.keep⟩
    · show Cap par M s2.prevPset.num; rw [ev.prevPset]; exact h1.qcap
    · show Weak _ s2.prevAset; rw [ev.prevAset]
      exact ⟨h1.prev.nodup, fun i hi => ev.keep.sub i (h1.prev.sub i hi)⟩
    · show s2.prevAset.list ≠ [] → s2.prevState.isSome
      rw [ev.prevAset, ev.prevState]; exact h1.state
  have w2 : Within { s2 with explore := true } s2.mset := by
    rw [b2]; exact ⟨a2.nodup, fun i hi => b3 ▸ a2.sub i hi, a2.size, a2.num⟩
  refine D.bind (parRlUpdate_judge L D x a reward true h2 w2
    (by show s2.aset = _; rw [ev.aset]; rfl)) fun s3 _ => ?_
  refine D.bind (D.lift _) fun s4 _ => ?_
  exact D.bind (D.lift _) fun s5 _ => D.lift _

theorem parStep_judge (L : Laws par kit V E) (D : Judge par kit lp) (op : Op K X B) {s : St K X B R} (h : BetweenM V par M S s) :
    D.J (parStep par kit lp s op) (step par kit s op) := by
  cases op with
  | fit x y =>
    refine D.bind ?_ fun p _ => D.lift _
    exact D.bind (parTrial_judge L D x (some y) none (h.explore true)) fun _ _ => D.lift _
  | test x y =>
    refine D.bind ?_ fun p _ => D.lift _
    exact D.bind (parTrial_judge L D x (some y) none (h.explore false)) fun _ _ => D.lift _
  | predict xs cv => exact D.bind (parPredict_judge L D cv xs h) fun p _ => D.lift _
  | score rows cv =>
    refine D.bind ?_ fun p _ => D.lift _
    exact D.bind (parScoreGo_judge L D cv rows 0 h) fun _ _ => D.lift _
  | rlFit x a reward =>
    exact D.bind (parRlFit_judge L D x a reward h) fun p _ => D.lift _
  | rlTrial env ex =>
    refine D.bind ?_ fun p _ => D.lift _
    refine D.bind (parRlTrialGo_judge L D env _ 0 0
      (rlInitTrial_inv (h.explore ex))) fun p _ => ?_
    exact D.bind (D.lift _) fun s _ => D.lift _
  | insert c => exact D.lift _
  | «import» cs => exact D.lift _
  | store => exact D.lift _
  | retrieve => exact D.lift _

theorem parSteps_judge (L : Laws par kit V E) (D : Judge par kit lp) : ∀ (ops : List (Op K X B)), (∀ op ∈ ops, op.ok V) →
    ∀ {s : St K X B R}, BetweenM V par M s s →
    D.J (parSteps par kit lp ops s) (ops.foldlM (step par kit) s)
  | [], _, s, _ => D.lift _
  | op :: ops, hops, s, h => by
    rw [List.foldlM_cons]
    unfold parSteps
    refine D.bind (parStep_judge L D op h) fun s1 e1 => ?_
    have h1 := post_of_ok (step_post L op (hops op List.mem_cons_self) h) e1
    exact parSteps_judge L D ops (fun o ho => hops o (List.mem_cons_of_mem _ ho)) h1

theorem parRun_judge (L : Laws par kit V E) (D : Judge par kit lp) (r : R) (ops : List (Op K X B)) (hops : ∀ op ∈ ops, op.ok V) :
    D.J (parRun par kit lp r ops) (run par kit r ops) := by
  unfold parRun run
  refine D.bind (D.lift _) fun s e => ?_
  have h1 := (post_of_ok (xcsfInit_post L r) e).1
  exact parSteps_judge L D ops hops h1

end Loops
end Xcsf
