import Verif.Dgp
import Verif.PropsUtil
import Mathlib.Algebra.BigOperators.Fin
import Mathlib.Algebra.BigOperators.Intervals

/-!
# C34: dynamical GP graphs
-/

set_option linter.unusedSectionVars false

namespace Xcsf
variable {K R : Type} [Field K] [LinearOrder K] [IsStrictOrderedRing K]

/-! ## Specification -/

/-- Arguments the setters allow: every size is at least one. -/
structure DgpArgs.Legal (a : DgpArgs) : Prop where
  maxK : 1 ≤ a.maxK
  maxT : 1 ≤ a.maxT
  n : 1 ≤ a.n
  nInputs : 1 ≤ a.nInputs

/-- A well-formed graph for the arguments `a`. -/
structure Wired (a : DgpArgs) (d : Graph K) : Prop where
  evolve : d.evolve = a.evolve
  nInputs : d.nInputs = a.nInputs
  n : d.n = a.n
  klen : d.klen = a.n * a.maxK
  maxT : d.maxT = a.maxT
  maxK : d.maxK = a.maxK
  /-- between one and `max_t` update cycles -/
  cycles : 1 ≤ d.t ∧ d.t ≤ a.maxT
  stateLen : d.state.length = a.n
  initLen : d.initial.length = a.n
  funcLen : d.func.length = a.n
  connLen : d.conn.length = a.n * a.maxK
  /-- states are in the unit interval -/
  stateUnit : ∀ v ∈ d.state, 0 ≤ v ∧ v ≤ 1
  initUnit : ∀ v ∈ d.initial, 0 ≤ v ∧ v ≤ 1
  /-- every node has a function -/
  funcs : ∀ f ∈ d.func, f = 0 ∨ f = 1 ∨ f = 2
  /-- every connection is an input or a node -/
  conns : ∀ c ∈ d.conn, 0 ≤ c ∧ c < (a.nInputs + a.n : Nat)
  rates : d.mu.length = 3 ∧ ∀ m ∈ d.mu, LegalRate m

/-- The fuzzy connectives: negation of the first input, product, bounded sum. -/
def fuzzy (f : Int) (k : Nat) (v : Nat → K) : K :=
  if f = 0 then 1 - v 0 else if f = 1 then ∏ j ∈ Finset.range k, v j
  else ∑ j ∈ Finset.range k, v j

/-- What a connection delivers: an input, or the state of a node. -/
def wire (nInputs : Nat) (x s : Nat → K) (c : Nat) : K :=
  if c < nInputs then x c else s (c - nInputs)

/-- The states of all nodes after `t` synchronous updates, from the states `s`. -/
def statesAfter (d : Graph K) (x : Nat → K) (s : Nat → K) : Nat → Nat → K
  | 0 => s
  | t + 1 => fun i => max 0 (min 1 (fuzzy (d.func.getD i 0) d.maxK fun k =>
      wire d.nInputs x (statesAfter d x s t) (d.conn.getD (i * d.maxK + k) 0).toNat))

/-! ## Helpers -/

theorem getD_lt {α : Type} {l : List α} {i : Nat} (h : i < l.length) (z : α) :
    l.getD i z = l[i] := by
  rw [List.getD_eq_getElem?_getD, List.getElem?_eq_getElem h, Option.getD_some]

theorem getR_of_lt {α : Type} {l : List α} {i : Nat} (h : i < l.length) (z : α) :
    getR l i = .ok (l.getD i z) := by
  unfold getR
  rw [List.getElem?_eq_getElem h, getD_lt h z]

theorem getI_of_lt {α : Type} {l : List α} {i : Int} (h0 : 0 ≤ i) (h : i < l.length) (z : α) :
    getI l i = .ok (l.getD i.toNat z) := by
  unfold getI
  rw [if_pos h0, getR_of_lt (by omega) z]

theorem mapM_ok {α β : Type} {f : α → Res β} {g : α → β} :
    ∀ {l : List α}, (∀ a ∈ l, f a = .ok (g a)) → l.mapM f = .ok (l.map g)
  | [], _ => rfl
  | a :: l, h => by
    rw [List.mapM_cons, h a (by simp), mapM_ok fun b hb => h b (by simp [hb])]
    rfl

theorem clampK_eq (v : K) : clampK v 0 1 = max 0 (min 1 v) := by
  unfold clampK
  split
  · next h => rw [min_eq_right (by linarith), max_eq_left h.le]
  · next h =>
    split
    · next h' => rw [min_eq_left h'.le, max_eq_right zero_le_one]
    · next h' => rw [min_eq_right (not_lt.1 h'), max_eq_right (not_lt.1 h)]

theorem foldl_prod (v : Nat → K) : ∀ (k : Nat),
    ((List.range k).map fun j => v (j + 1)).foldl (· * ·) (v 0) =
      ∏ j ∈ Finset.range (k + 1), v j
  | 0 => by simp
  | k + 1 => by
    rw [List.range_succ, List.map_append, List.foldl_append, foldl_prod v k,
      Finset.prod_range_succ _ (k + 1)]
    rfl

theorem foldl_sum (v : Nat → K) : ∀ (k : Nat),
    ((List.range k).map fun j => v (j + 1)).foldl (· + ·) (v 0) =
      ∑ j ∈ Finset.range (k + 1), v j
  | 0 => by simp
  | k + 1 => by
    rw [List.range_succ, List.map_append, List.foldl_append, foldl_sum v k,
      Finset.sum_range_succ _ (k + 1)]
    rfl

theorem nodeActivate_spec {f : Int} (hf : f = 0 ∨ f = 1 ∨ f = 2) {k : Nat} (hk : 1 ≤ k)
    (v : Nat → K) :
    nodeActivate f ((List.range k).map v) = .ok (max 0 (min 1 (fuzzy f k v))) := by
  obtain ⟨k, rfl⟩ : ∃ j, k = j + 1 := ⟨k - 1, by omega⟩
  rw [List.range_succ_eq_map, List.map_cons, List.map_map]
  have e : (v ∘ Nat.succ) = fun j => v (j + 1) := rfl
  rw [e]
  unfold nodeActivate fuzzy
  rcases hf with rfl | rfl | rfl
  · simp [clampK_eq]
  · simp [clampK_eq, foldl_prod]
  · simp [clampK_eq, foldl_sum]

theorem mem_of_getD {α : Type} {l : List α} {i : Nat} (h : i < l.length) (z : α) :
    l.getD i z ∈ l := by
  rw [getD_lt h z]
  exact List.getElem_mem h

theorem idx_lt {i k n m : Nat} (hi : i < n) (hk : k < m) : i * m + k < n * m := by
  calc i * m + k < i * m + m := by omega
    _ = (i + 1) * m := by ring
    _ ≤ n * m := Nat.mul_le_mul_right _ hi

theorem nodeNext_spec {a : DgpArgs} (ha : a.Legal) {d : Graph K} (hd : Wired a d) {x : List K}
    (hx : a.nInputs ≤ x.length) {i : Nat} (hi : i < a.n) :
    nodeNext d x i = .ok (max 0 (min 1 (fuzzy (d.func.getD i 0) d.maxK fun k =>
      wire d.nInputs (fun j => x.getD j 0) (fun j => d.state.getD j 0)
        (d.conn.getD (i * d.maxK + k) 0).toNat))) := by
  have h1 : (List.range d.maxK).mapM (nodeInput d x i) = .ok ((List.range d.maxK).map fun k =>
      wire d.nInputs (fun j => x.getD j 0) (fun j => d.state.getD j 0)
        (d.conn.getD (i * d.maxK + k) 0).toNat) := by
    refine mapM_ok fun k hk => ?_
    have hk : k < d.maxK := List.mem_range.1 hk
    have hlt : i * d.maxK + k < d.conn.length := by
      rw [hd.connLen, ← hd.maxK]; exact idx_lt hi hk
    unfold nodeInput
    rw [getR_of_lt hlt 0]
    have hc := hd.conns _ (mem_of_getD hlt 0)
    generalize d.conn.getD (i * d.maxK + k) 0 = c at hc
    show (if c < (d.nInputs : Int) then getI x c else getI d.state (c - d.nInputs)) = _
    unfold wire
    by_cases hci : c < (d.nInputs : Int)
    · rw [if_pos hci, if_pos (by omega), getI_of_lt hc.1 (by have := hd.nInputs; omega) 0]
    · have hl : c - d.nInputs < d.state.length := by
        rw [hd.stateLen]; have := hd.nInputs; omega
      rw [if_neg hci, if_neg (by omega), getI_of_lt (by omega) hl 0]
      congr 2
      omega
  unfold nodeNext
  rw [h1]
  have hfl : i < d.func.length := by rw [hd.funcLen]; exact hi
  show (getR d.func i >>= fun f => nodeActivate f _) = _
  rw [getR_of_lt hfl 0]
  exact nodeActivate_spec (hd.funcs _ (mem_of_getD hfl 0)) (hd.maxK ▸ ha.maxK) _

theorem getD_map_range {β : Type} (f : Nat → β) (z : β) {n i : Nat} (h : i < n) :
    ((List.range n).map f).getD i z = f i := by
  rw [getD_lt (by simpa using h) z]
  simp

theorem syncUpdate_spec {a : DgpArgs} (ha : a.Legal) {d : Graph K} (hd : Wired a d) {x : List K}
    (hx : a.nInputs ≤ x.length) :
    ∃ st, syncUpdate d x = .ok { d with state := st } ∧ Wired a { d with state := st } ∧
      ∀ i, i < a.n → st.getD i 0 =
        statesAfter d (fun j => x.getD j 0) (fun j => d.state.getD j 0) 1 i := by
  have h := mapM_ok (l := List.range d.n) (f := nodeNext d x) fun i hi =>
    nodeNext_spec ha hd hx (hd.n ▸ List.mem_range.1 hi)
  refine ⟨_, by unfold syncUpdate; rw [h]; rfl, ?_, ?_⟩
  · exact { hd with
      stateLen := by simp [hd.n]
      stateUnit := by
        intro v hv
        obtain ⟨i, -, rfl⟩ := List.mem_map.1 hv
        exact ⟨le_max_left _ _, max_le zero_le_one (min_le_left _ _)⟩ }
  · intro i hi
    rw [getD_map_range _ _ (hd.n.symm ▸ hi)]
    rfl

theorem fuzzy_congr {f : Int} {k : Nat} (hk : 1 ≤ k) {v w : Nat → K} (h : ∀ j < k, v j = w j) :
    fuzzy f k v = fuzzy f k w := by
  unfold fuzzy
  rw [h 0 (by omega), Finset.prod_congr rfl fun j hj => h j (Finset.mem_range.1 hj),
    Finset.sum_congr rfl fun j hj => h j (Finset.mem_range.1 hj)]

/-- Only the states of the nodes matter. -/
theorem statesAfter_congr {a : DgpArgs} (ha : a.Legal) {d : Graph K} (hd : Wired a d)
    {x s s' : Nat → K} (h : ∀ i < a.n, s i = s' i) :
    ∀ (t : Nat) (i : Nat), i < a.n → statesAfter d x s t i = statesAfter d x s' t i
  | 0, i, hi => h i hi
  | t + 1, i, hi => by
    unfold statesAfter
    rw [fuzzy_congr (hd.maxK ▸ ha.maxK)]
    intro k hk
    unfold wire
    split
    · rfl
    · next hc =>
      have hlt : i * d.maxK + k < d.conn.length := by
        rw [hd.connLen, ← hd.maxK]; exact idx_lt hi hk
      have hc' := hd.conns _ (mem_of_getD hlt 0)
      exact statesAfter_congr ha hd h t _ (by have := hd.nInputs; omega)

theorem statesAfter_state (d : Graph K) (st : List K) (x s : Nat → K) :
    ∀ t, statesAfter { d with state := st } x s t = statesAfter d x s t
  | 0 => rfl
  | t + 1 => by
    unfold statesAfter
    rw [statesAfter_state d st x s t]

theorem statesAfter_succ' (d : Graph K) (x s : Nat → K) : ∀ t,
    statesAfter d x (statesAfter d x s 1) t = statesAfter d x s (t + 1)
  | 0 => rfl
  | t + 1 => by
    rw [statesAfter, statesAfter_succ' d x s t]
    rfl

theorem cycles_spec {a : DgpArgs} (ha : a.Legal) {x : List K} (hx : a.nInputs ≤ x.length) :
    ∀ (t : Nat) {d : Graph K}, Wired a d →
    ∃ st, cyclesGo x t d = .ok { d with state := st } ∧ Wired a { d with state := st } ∧
      ∀ i, i < a.n → st.getD i 0 =
        statesAfter d (fun j => x.getD j 0) (fun j => d.state.getD j 0) t i
  | 0, d, hd => ⟨d.state, rfl, hd, fun i _ => rfl⟩
  | t + 1, d, hd => by
    obtain ⟨s1, e1, w1, v1⟩ := syncUpdate_spec ha hd hx
    obtain ⟨s2, e2, w2, v2⟩ := cycles_spec ha hx t w1
    refine ⟨s2, ?_, w2, ?_⟩
    · unfold cyclesGo; rw [e1]; exact e2
    · intro i hi
      rw [v2 i hi, statesAfter_state, statesAfter_congr ha hd v1 t i hi, statesAfter_succ']

/-! ## C34: updates -/

/-- The states an update starts from. -/
def startStates (d : Graph K) (reset : Bool) : Nat → K := fun j =>
  if reset then d.initial.getD j 0 else d.state.getD j 0

/-- **C34.** Updating a well-formed graph never fails, changes nothing but the node states,
and leaves node `i` with the value of the synchronous fuzzy network after `t` cycles.  The
states stay in [0,1] whatever the inputs are. -/
theorem C34_update {a : DgpArgs} (ha : a.Legal) {d : Graph K} (hd : Wired a d) {x : List K}
    (hx : a.nInputs ≤ x.length) (reset : Bool) :
    ∃ st, graphUpdate d x reset = .ok { d with state := st } ∧ Wired a { d with state := st } ∧
      ∀ i, i < a.n → st.getD i 0 =
        statesAfter d (fun j => x.getD j 0) (startStates d reset) d.t.toNat i := by
  unfold graphUpdate
  cases reset with
  | false => exact cycles_spec ha hx _ hd
  | true =>
    have hd' : Wired a (graphReset d) :=
      { hd with stateLen := hd.initLen, stateUnit := hd.initUnit }
    obtain ⟨st, e, w, v⟩ := cycles_spec ha hx d.t.toNat hd'
    refine ⟨st, e, w, fun i hi => (v i hi).trans ?_⟩
    have := statesAfter_state d d.initial (fun j => x.getD j 0) (fun j => d.initial.getD j 0)
      d.t.toNat
    exact congrFun this i

/-- Graphs obtained from `d` by any number of updates with any inputs. -/
inductive Updated (d : Graph K) : Graph K → Prop
  | refl : Updated d d
  | step {d1 d2 : Graph K} (x : List K) (reset : Bool) : Updated d d1 →
      graphUpdate d1 x reset = .ok d2 → Updated d d2

theorem cyclesGo_frame {x : List K} : ∀ {t : Nat} {d d' : Graph K}, cyclesGo x t d = .ok d' →
    { d' with state := d.state } = d
  | 0, d, d', h => by cases h; rfl
  | t + 1, d, d', h => by
    unfold cyclesGo syncUpdate at h
    cases hm : (List.range d.n).mapM (nodeNext d x) with
    | error e => rw [hm] at h; cases h
    | ok st =>
      rw [hm] at h
      have := cyclesGo_frame (d := { d with state := st }) (t := t) h
      have h2 := congrArg (fun g : Graph K => { g with state := d.state }) this
      exact h2

/-- **C34.** A graph that is updated with reset is a function of the input alone: earlier
updates with any inputs make no difference. -/
theorem C34_reset_stateless {d d' : Graph K} (h : Updated d d') (x : List K) :
    graphUpdate d' x true = graphUpdate d x true := by
  have frame : { d' with state := d.state } = d := by
    induction h with
    | refl => rfl
    | @step d1 d2 y reset _ he ih =>
      unfold graphUpdate at he
      have h1 := cyclesGo_frame he
      have h2 : { (if reset then graphReset d1 else d1) with state := d.state } =
          { d1 with state := d.state } := by
        cases reset <;> rfl
      rw [← ih, ← h2, ← h1]
  have e : graphReset d' = graphReset d := by
    have := congrArg graphReset frame
    exact this
  have et : d'.t = d.t := by
    have := congrArg Graph.t frame
    exact this
  unfold graphUpdate
  rw [if_pos rfl, if_pos rfl, e, et]

/-- **C34.** States stay in [0,1] after any number of updates with any inputs. -/
theorem C34_states_unit {a : DgpArgs} {d d' : Graph K} (hd : Wired a d)
    (h : Updated d d') : ∀ v ∈ d'.state, 0 ≤ v ∧ v ≤ 1 := by
  have key : ∀ {x : List K} {t : Nat} {d1 d2 : Graph K}, cyclesGo x t d1 = .ok d2 →
      (∀ v ∈ d1.state, 0 ≤ v ∧ v ≤ 1) → ∀ v ∈ d2.state, 0 ≤ v ∧ v ≤ 1 := by
    intro x t
    induction t with
    | zero => intro d1 d2 h h1; cases h; exact h1
    | succ t ih =>
      intro d1 d2 h h1
      unfold cyclesGo syncUpdate at h
      cases hm : (List.range d1.n).mapM (nodeNext d1 x) with
      | error e => rw [hm] at h; cases h
      | ok st =>
        rw [hm] at h
        refine ih h ?_
        have gen : ∀ (l : List Nat) (st : List K), l.mapM (nodeNext d1 x) = .ok st →
            ∀ v ∈ st, 0 ≤ v ∧ v ≤ 1 := by
          intro l
          induction l with
          | nil => intro st h; cases h; simp
          | cons i l ihl =>
            intro st h
            rw [List.mapM_cons] at h
            cases hi : nodeNext d1 x i with
            | error e => rw [hi] at h; cases h
            | ok w =>
              rw [hi] at h
              cases hl : l.mapM (nodeNext d1 x) with
              | error e => rw [hl] at h; cases h
              | ok ws =>
                rw [hl] at h
                cases h
                intro v hv
                rcases List.mem_cons.1 hv with rfl | hv
                · unfold nodeNext at hi
                  cases h3 : (List.range d1.maxK).mapM (nodeInput d1 x i) with
                  | error e => rw [h3] at hi; cases hi
                  | ok ins =>
                    rw [h3] at hi
                    cases h4 : getR d1.func i with
                    | error e =>
                      rw [show (Except.ok ins >>= fun ins => getR d1.func i >>= fun f =>
                        nodeActivate f ins) = (getR d1.func i >>= fun f => nodeActivate f ins)
                        from rfl, h4] at hi
                      cases hi
                    | ok f =>
                      rw [show (Except.ok ins >>= fun ins => getR d1.func i >>= fun f =>
                        nodeActivate f ins) = (getR d1.func i >>= fun f => nodeActivate f ins)
                        from rfl, h4] at hi
                      have hi : nodeActivate f ins = .ok v := hi
                      unfold nodeActivate at hi
                      cases ins with
                      | nil => cases hi
                      | cons b l =>
                        dsimp only at hi
                        split_ifs at hi <;> cases hi <;> exact clampK_mem _ zero_le_one
                · exact ihl ws hl v hv
        exact gen _ _ hm
  induction h with
  | refl => exact hd.stateUnit
  | @step d1 d2 y reset hu he ih =>
    unfold graphUpdate at he
    refine key he ?_
    cases reset with
    | false => exact ih
    | true =>
      have hi : d1.initial = d.initial := by
        clear ih he
        induction hu with
        | refl => rfl
        | @step d3 d4 z rs _ hz ihz =>
          unfold graphUpdate at hz
          have := congrArg Graph.initial (cyclesGo_frame hz)
          rw [show d4.initial = d3.initial from this.trans (by cases rs <;> rfl), ihz]
      show ∀ v ∈ d1.initial, _
      rw [hi]
      exact hd.initUnit

/-! ## C34: creation, mutation, copying -/

variable [FloorRing K]

theorem drawN_spec {α : Type} {f : R → α × R} {P : α → Prop} (h : ∀ r, P (f r).1) :
    ∀ (n : Nat) (r : R), (drawN f n r).1.length = n ∧ ∀ v ∈ (drawN f n r).1, P v
  | 0, r => ⟨rfl, by simp [drawN]⟩
  | n + 1, r => by
    obtain ⟨h1, h2⟩ := drawN_spec h n (f r).2
    refine ⟨by simp [drawN, h1], ?_⟩
    intro v hv
    rcases List.mem_cons.1 hv with rfl | hv
    · exact h r
    · exact h2 v hv

theorem randConn_range {g : Rng K R} (H : g.Open) {n m : Nat} (hn : 1 ≤ n) (hm : 1 ≤ m) (r : R) :
    0 ≤ (randConn g n m r).1 ∧ (randConn g n m r).1 < (m + n : Nat) := by
  unfold randConn
  dsimp only
  split
  · obtain ⟨h1, h2⟩ := C45_random_int H (show (0 : Int) < n by omega) (g.uni 0 1 r).2
    constructor
    · show 0 ≤ _ + (m : Int); omega
    · show _ + (m : Int) < _; push_cast; omega
  · obtain ⟨h1, h2⟩ := C45_random_int H (show (0 : Int) < m by omega) (g.uni 0 1 r).2
    exact ⟨h1, by push_cast; omega⟩

theorem uni01 {g : Rng K R} (H : g.Open) (r : R) : 0 ≤ (g.uni 0 1 r).1 ∧ (g.uni 0 1 r).1 ≤ 1 := by
  have := Rng.uni_range H (show (0 : K) < 1 from zero_lt_one) r
  exact ⟨this.1.le, this.2.le⟩

theorem func_range {g : Rng K R} (H : g.Open) (r : R) :
    (g.uniInt 0 dgpFuncs r).1 = 0 ∨ (g.uniInt 0 dgpFuncs r).1 = 1 ∨
      (g.uniInt 0 dgpFuncs r).1 = 2 := by
  have := C45_random_int H (show (0 : Int) < dgpFuncs by decide) r
  have h3 : dgpFuncs = 3 := rfl
  omega

theorem cycles_range {g : Rng K R} (H : g.Open) {m : Nat} (hm : 1 ≤ m) (r : R) :
    1 ≤ (g.uniInt 1 m r).1 ∧ (g.uniInt 1 m r).1 ≤ m ∧ (1 < m → (g.uniInt 1 m r).1 < m) := by
  rcases Nat.lt_or_ge 1 m with h | h
  · obtain ⟨h1, h2⟩ := C45_random_int H (show (1 : Int) < m by omega) r
    exact ⟨h1, h2.le, fun _ => h2⟩
  · obtain rfl : m = 1 := by omega
    have : (g.uniInt 1 ((1 : Nat) : Int) r).1 = 1 := by
      simp [Rng.uniInt, Rng.uni]
    rw [this]
    exact ⟨le_refl _, le_refl _, by omega⟩

/-- The parts of well-formedness that randomising does not establish. -/
structure Sized (a : DgpArgs) (d : Graph K) : Prop where
  evolve : d.evolve = a.evolve
  nInputs : d.nInputs = a.nInputs
  n : d.n = a.n
  klen : d.klen = a.n * a.maxK
  maxT : d.maxT = a.maxT
  maxK : d.maxK = a.maxK
  cycles : a.evolve = false → 1 ≤ d.t ∧ d.t ≤ a.maxT
  rates : d.mu.length = 3 ∧ ∀ m ∈ d.mu, LegalRate m

theorem Wired.sized {a : DgpArgs} {d : Graph K} (h : Wired a d) : Sized a d :=
  ⟨h.evolve, h.nInputs, h.n, h.klen, h.maxT, h.maxK, fun _ => h.cycles, h.rates⟩

theorem graphRand_spec {g : Rng K R} (H : g.Open) {a : DgpArgs} (ha : a.Legal) {d : Graph K}
    (hd : Sized a d) (r : R) : Wired a (graphRand g d r).1 := by
  unfold graphRand
  dsimp only
  generalize ht : (if d.evolve = true then g.uniInt 1 (d.maxT : Int) r else (d.t, r)) = t
  have hn := drawN_spec (f := randNode g) (P := fun q =>
      (q.1 = 0 ∨ q.1 = 1 ∨ q.1 = 2) ∧ (0 ≤ q.2.1 ∧ q.2.1 ≤ 1) ∧ (0 ≤ q.2.2 ∧ q.2.2 ≤ 1))
    (fun r => ⟨func_range H r, uni01 H _, uni01 H _⟩) d.n t.2
  generalize drawN (randNode g) d.n t.2 = nodes at hn
  have hc := drawN_spec (f := randConn g d.n d.nInputs) (P := fun c =>
      0 ≤ c ∧ c < (d.nInputs + d.n : Nat))
    (fun r => randConn_range H (hd.n ▸ ha.n) (hd.nInputs ▸ ha.nInputs) r) d.klen nodes.2
  generalize drawN (randConn g d.n d.nInputs) d.klen nodes.2 = cs at hc
  exact
    { evolve := hd.evolve, nInputs := hd.nInputs, n := hd.n, klen := hd.klen, maxT := hd.maxT,
      maxK := hd.maxK, rates := hd.rates
      cycles := by
        show 1 ≤ t.1 ∧ t.1 ≤ _
        rw [← ht]
        split
        · have := cycles_range H (hd.maxT ▸ ha.maxT : 1 ≤ d.maxT) r
          rw [← hd.maxT]
          exact ⟨this.1, this.2.1⟩
        · next he =>
          exact hd.cycles (by rw [← hd.evolve]; simpa using he)
      stateLen := by simp [hn.1, hd.n]
      initLen := by simp [hn.1, hd.n]
      funcLen := by simp [hn.1, hd.n]
      connLen := by rw [hc.1, hd.klen]
      stateUnit := by
        intro v hv
        obtain ⟨q, hq, rfl⟩ := List.mem_map.1 hv
        exact (hn.2 q hq).2.2
      initUnit := by
        intro v hv
        obtain ⟨q, hq, rfl⟩ := List.mem_map.1 hv
        exact (hn.2 q hq).2.1
      funcs := by
        intro v hv
        obtain ⟨q, hq, rfl⟩ := List.mem_map.1 hv
        exact (hn.2 q hq).1
      conns := by
        intro c hm
        have := hc.2 c hm
        rw [hd.nInputs, hd.n] at this
        exact this }

/-- **C34.** Creating a graph never fails and gives a well-formed one. -/
theorem C34_create {g : Rng K R} (H : g.Open) {a : DgpArgs} (ha : a.Legal) (r : R) :
    ∃ d r', graphInit g a r = .ok (d, r') ∧ Wired a d := by
  obtain ⟨vs, r1, e, hl, hv⟩ := C44_init H dgpMuTypes r
  refine ⟨_, _, by unfold graphInit; rw [e]; rfl, ?_⟩
  have hm := ha.maxT
  exact graphRand_spec H ha ⟨rfl, rfl, rfl, rfl, rfl, rfl,
    fun _ => ⟨by show (1 : Int) ≤ (a.maxT : Int); omega, le_refl _⟩, hl, hv⟩ _

/-- **C34.** Randomising a well-formed graph gives a well-formed one. -/
theorem C34_randomise {g : Rng K R} (H : g.Open) {a : DgpArgs} (ha : a.Legal) {d : Graph K}
    (hd : Wired a d) (r : R) : Wired a (graphRand g d r).1 :=
  graphRand_spec H ha hd.sized r

/-- The largest number of cycles is never drawn (unless it is one). -/
theorem C34_rand_below_max {g : Rng K R} (H : g.Open) {a : DgpArgs} {d : Graph K}
    (hd : Wired a d) (he : a.evolve = true) (hm : 1 < a.maxT) (r : R) :
    (graphRand g d r).1.t < a.maxT := by
  unfold graphRand
  dsimp only
  rw [if_pos (hd.evolve.trans he), ← hd.maxT]
  exact (cycles_range H (hd.maxT ▸ hm.le : 1 ≤ d.maxT) r).2.2 (hd.maxT ▸ hm)

theorem mutateInts_spec {g : Rng K R} {rate : K} {fresh : R → Int × R} {P : Int → Prop}
    (h : ∀ r, P (fresh r).1) : ∀ (l : List Int) (r : R), (∀ c ∈ l, P c) →
    (mutateInts g rate fresh l r).2.1.length = l.length ∧
    (∀ c ∈ (mutateInts g rate fresh l r).2.1, P c) ∧
    ((mutateInts g rate fresh l r).1 = true ↔ (mutateInts g rate fresh l r).2.1 ≠ l)
  | [], r, _ => ⟨rfl, by simp [mutateInts], by simp [mutateInts]⟩
  | a :: l, r, hl => by
    unfold mutateInts
    dsimp only
    split
    · obtain ⟨h1, h2, h3⟩ := mutateInts_spec h l (fresh (g.uni 0 1 r).2).2
        (fun c hc => hl c (by simp [hc]))
      refine ⟨congrArg (· + 1) h1, ?_, ?_⟩
      · intro c hc
        rcases List.mem_cons.1 hc with rfl | hc
        · exact h _
        · exact h2 c hc
      · simp only [Bool.or_eq_true, decide_eq_true_eq, h3, ne_eq, List.cons.injEq, not_and_or]
        constructor
        · rintro (h | h)
          · exact Or.inl fun e => h e.symm
          · exact Or.inr h
        · rintro (h | h)
          · exact Or.inl fun e => h e.symm
          · exact Or.inr h
    · obtain ⟨h1, h2, h3⟩ := mutateInts_spec h l (g.uni 0 1 r).2
        (fun c hc => hl c (by simp [hc]))
      refine ⟨congrArg (· + 1) h1, ?_, ?_⟩
      · intro c hc
        rcases List.mem_cons.1 hc with rfl | hc
        · exact hl _ (by simp)
        · exact h2 c hc
      · simp only [h3, ne_eq, List.cons.injEq, true_and]

theorem cRound_unit {x : K} (h0 : -1 ≤ x) (h1 : x ≤ 1) : -1 ≤ cRound x ∧ cRound x ≤ 1 := by
  unfold cRound
  split
  · next h =>
    constructor
    · have : (0 : Int) ≤ ⌊x + 1 / 2⌋ := Int.le_floor.2 (by push_cast; linarith)
      omega
    · have : ⌊x + 1 / 2⌋ < 2 := Int.floor_lt.2 (by push_cast; linarith)
      omega
  · next h =>
    have a : (0 : Int) ≤ ⌊-x + 1 / 2⌋ := Int.le_floor.2 (by push_cast; linarith)
    have b : ⌊-x + 1 / 2⌋ < 2 := Int.floor_lt.2 (by push_cast; linarith)
    omega

/-- **C34.** Mutating a well-formed graph never fails and gives a well-formed one of the same
size; the number of cycles moves by at most one, and only if it is evolved.  If no change is
reported then functions, connections and cycles are as before; a change of functions or
connections is always reported. -/
theorem C34_mutate {g : Rng K R} (H : g.Open) {a : DgpArgs} (ha : a.Legal) {d : Graph K}
    (hd : Wired a d) (r : R) :
    ∃ mod d' r', graphMutate g d r = .ok (mod, d', r') ∧ Wired a d' ∧
      d'.state = d.state ∧ d'.initial = d.initial ∧
      (d'.t - d.t ≤ 1 ∧ d.t - d'.t ≤ 1) ∧ (a.evolve = false → d'.t = d.t) ∧
      (mod = false → d'.func = d.func ∧ d'.conn = d.conn ∧ d'.t = d.t) ∧
      (d'.func ≠ d.func ∨ d'.conn ≠ d.conn ∨ d'.t ≠ d.t → mod = true) := by
  obtain ⟨mu, r1, e, hl, hv⟩ := C44_adapt H (dgpMuTypes.zip d.mu) r
    (fun m hm => Or.inr (hd.rates.2 m.2 (List.of_mem_zip hm).2))
  have hl3 : mu.length = 3 := by
    rw [hl, List.length_zip, hd.rates.1]; rfl
  have hf := mutateInts_spec (g := g) (rate := mu.getD 0 0) (fresh := g.uniInt 0 dgpFuncs)
    (P := fun f => f = 0 ∨ f = 1 ∨ f = 2) (fun r => func_range H r) d.func r1 hd.funcs
  generalize hF : mutateInts g (mu.getD 0 0) (g.uniInt 0 dgpFuncs) d.func r1 = F at hf
  have hc := mutateInts_spec (g := g) (rate := mu.getD 1 0) (fresh := randConn g d.n d.nInputs)
    (P := fun c => 0 ≤ c ∧ c < (d.nInputs + d.n : Nat))
    (fun r => randConn_range H (hd.n ▸ ha.n) (hd.nInputs ▸ ha.nInputs) r) d.conn F.2.2
    (by rw [hd.nInputs, hd.n]; exact hd.conns)
  generalize hC : mutateInts g (mu.getD 1 0) (randConn g d.n d.nInputs) d.conn F.2.2 = C at hc
  let d1 : Graph K := { d with mu := mu, func := F.2.1, conn := C.2.1 }
  have hd1 : Wired a d1 :=
    { hd with
      rates := ⟨hl3, hv⟩
      funcLen := hf.1.trans hd.funcLen
      connLen := hc.1.trans hd.connLen
      funcs := hf.2.1
      conns := by
        intro c hm
        have := hc.2.1 c hm
        rw [hd.nInputs, hd.n] at this
        exact this }
  have e1 : graphMutate g d r = if d1.evolve then
      (mutateCycles d1 >>= fun q => .ok (F.1 || C.1 || q.1, q.2, C.2.2))
      else .ok (F.1 || C.1, d1, C.2.2) := by
    unfold graphMutate
    rw [e]
    dsimp only [bind, Except.bind]
    rw [getR_of_lt (i := 0) (by omega) 0]
    dsimp only
    rw [getR_of_lt (i := 1) (by omega) 0]
    dsimp only
    rw [hF, hC]
  have flag : (F.1 || C.1) = false → F.2.1 = d.func ∧ C.2.1 = d.conn := by
    intro h
    obtain ⟨h1, h2⟩ := Bool.or_eq_false_iff.1 h
    constructor
    · by_contra hne; rw [hf.2.2.2 hne] at h1; cases h1
    · by_contra hne; rw [hc.2.2.2 hne] at h2; cases h2
  have flag' : F.2.1 ≠ d.func ∨ C.2.1 ≠ d.conn → (F.1 || C.1) = true := by
    rintro (h | h)
    · rw [hf.2.2.2 h]; rfl
    · rw [hc.2.2.2 h]; simp
  rw [e1]
  by_cases hev : d1.evolve = true
  · rw [if_pos hev]
    have hm2 : LegalRate (mu.getD 2 0) := hv _ (mem_of_getD (by omega) 0)
    have hr := cRound_unit (x := 2 * mu.getD 2 0 - 1) (by have := hm2.1; linarith)
      (by have := hm2.2; linarith)
    generalize hN : cRound (2 * mu.getD 2 0 - 1) = N at hr
    have e2 : mutateCycles d1 = if d1.t + N < 1 ∨ (d1.maxT : Int) < d1.t + N then .ok (false, d1)
        else .ok (true, { d1 with t := d1.t + N }) := by
      unfold mutateCycles
      show (getR mu 2 >>= _) = _
      rw [getR_of_lt (by omega) 0]
      dsimp only [bind, Except.bind]
      rw [hN]
    rw [e2]
    split
    · refine ⟨_, d1, _, rfl, hd1, rfl, rfl, ⟨by simp [d1], by simp [d1]⟩, fun _ => rfl, ?_, ?_⟩
      · intro h
        simp only [Bool.or_false] at h
        exact ⟨(flag h).1, (flag h).2, rfl⟩
      · intro h
        simp only [Bool.or_false]
        refine flag' ?_
        rcases h with h | h | h
        · exact Or.inl h
        · exact Or.inr h
        · exact absurd rfl h
    · next hn =>
      simp only [not_or, not_lt] at hn
      have ht : d1.t = d.t := rfl
      refine ⟨_, _, _, rfl, ?_, rfl, rfl, ⟨?_, ?_⟩, ?_, ?_, ?_⟩
      · have hcy : 1 ≤ d1.t + N ∧ d1.t + N ≤ a.maxT := ⟨hn.1, by rw [← hd1.maxT]; exact hn.2⟩
        exact { hd1 with cycles := hcy }
      · show d1.t + N - d.t ≤ 1; omega
      · show d.t - (d1.t + N) ≤ 1; omega
      · intro h
        rw [← hd1.evolve, hev] at h
        cases h
      · intro h
        simp at h
      · intro _
        simp
  · rw [if_neg hev]
    refine ⟨_, d1, _, rfl, hd1, rfl, rfl, ⟨by simp [d1], by simp [d1]⟩, fun _ => rfl, ?_, ?_⟩
    · intro h
      exact ⟨(flag h).1, (flag h).2, rfl⟩
    · intro h
      refine flag' ?_
      rcases h with h | h | h
      · exact Or.inl h
      · exact Or.inr h
      · exact absurd rfl h

/-- **C34.** Copying a well-formed graph gives the same graph. -/
theorem C34_copy {g : Rng K R} (H : g.Open) {a : DgpArgs} {d : Graph K} (hd : Wired a d) (r : R) :
    ∃ r', graphCopy g a d r = .ok (d, r') := by
  obtain ⟨vs, r1, e, -, -⟩ := C44_init H dgpMuTypes r
  refine ⟨r1, ?_⟩
  unfold graphCopy
  rw [e]
  show (if a.n < d.n ∨ a.n * a.maxK < d.klen then _ else _) = _
  rw [if_neg]
  rw [hd.n, hd.klen]
  omega

end Xcsf
