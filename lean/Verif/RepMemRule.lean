import Verif.RepMemLay

/-!
Lemmas about the memory of networks, conditions, actions, predictions and rules.
-/

set_option linter.unusedSectionVars false

namespace Xcsf

namespace RepMem

attribute [local irreducible] mallocs frees reallocs touches malloc free realloc touch Tri Rd Obj.use
  layInit layCopy layLoad layFree layResize layMutate layRand layForward layBackward layUpdate doIf

/-! ### Networks -/

/-- The blocks of a layer in a list. -/
def Node.blocks (x : Node) : List Nat := [x.node] ++ x.lay.blocks

/-- The blocks of a network. -/
def netBlocks (n : Net) : List Nat := n.flatMap Node.blocks

/-- All parts of a network are there. -/
def netOK (E : Fault → Prop) (n : Net) : Prop := ∀ x ∈ n, x.lay.ok E

section
variable {β : Type} {E : Fault → Prop} {L K : List Nat} {n : Net} {x : Node}

theorem netBlocks_nil : netBlocks [] = [] := rfl

theorem netBlocks_cons (x : Node) (n : Net) : netBlocks (x :: n) = x.blocks ++ netBlocks n :=
  List.flatMap_cons

theorem netBlocks_append (n m : Net) : netBlocks (n ++ m) = netBlocks n ++ netBlocks m :=
  List.flatMap_append

theorem Node.node_mem : x.node ∈ x.blocks := List.mem_append_left _ (List.mem_singleton.2 rfl)

theorem Node.lay_mem {p : Nat} (h : p ∈ x.lay.blocks) : p ∈ x.blocks := List.mem_append_right _ h

theorem net_mem (hx : x ∈ n) {p : Nat} (hp : p ∈ x.blocks) : p ∈ netBlocks n :=
  List.mem_flatMap.2 ⟨x, hx, hp⟩

theorem netOK_nil : netOK E [] := fun _ h => nomatch h

theorem netOK_cons (h1 : x.lay.ok E) (h2 : netOK E n) : netOK E (x :: n) := by
  intro y hy
  rcases List.mem_cons.1 hy with rfl | hy
  · exact h1
  · exact h2 y hy

theorem netOK_append {m : Net} (h1 : netOK E n) (h2 : netOK E m) : netOK E (n ++ m) := by
  intro y hy
  rcases List.mem_append.1 hy with hy | hy
  · exact h1 y hy
  · exact h2 y hy

theorem netOK.head {y : Node} (h : netOK E (y :: n)) : y.lay.ok E := h y (by simp)

theorem netOK.tail {y : Node} (h : netOK E (y :: n)) : netOK E n :=
  fun z hz => h z (List.mem_cons_of_mem _ hz)

/-- The kinds of the layers of a network. -/
def netKinds (n : Net) : List LKind := n.map fun x => x.lay.kind

theorem tri_netInit (ks : List LKind) :
    Tri E [] (netInit ks) (fun n => netKinds n = ks ∧ netOK E n) netBlocks := by
  induction ks with
  | nil => exact tri_pure ⟨rfl, netOK_nil⟩ (.refl _)
  | cons k ks ih =>
    refine tri_bind (K := []) tri_layInit (.refl _) fun l ⟨h1, h2⟩ => ?_
    refine tri_bind (K := l.blocks) tri_malloc (by perm) fun m _ => ?_
    refine tri_bind (K := [m] ++ l.blocks) ih (by perm) fun n ⟨h3, h4⟩ => ?_
    exact tri_pure ⟨by rw [netKinds, List.map_cons, h1, ← h3]; rfl, netOK_cons h2 h4⟩
      (by simp only [netBlocks_cons, Node.blocks]; perm)

theorem tri_netLoad (ks : List LKind) (h : .recurrent ∈ ks → E .ub) :
    Tri E [] (netLoad ks) (fun n => netKinds n = ks ∧ netOK E n) netBlocks := by
  induction ks with
  | nil => exact tri_pure ⟨rfl, netOK_nil⟩ (.refl _)
  | cons k ks ih =>
    refine tri_bind (K := []) (tri_layLoad fun e => h (by rw [e]; simp)) (.refl _)
      fun l ⟨h1, h2⟩ => ?_
    refine tri_bind (K := l.blocks) tri_malloc (by perm) fun m _ => ?_
    refine tri_bind (K := [m] ++ l.blocks) (ih fun e => h (List.mem_cons_of_mem _ e)) (by perm)
      fun n ⟨h3, h4⟩ => ?_
    exact tri_pure ⟨by rw [netKinds, List.map_cons, h1, ← h3]; rfl, netOK_cons h2 h4⟩
      (by simp only [netBlocks_cons, Node.blocks]; perm)

theorem tri_netCopy (h : netOK E n) :
    Tri E (netBlocks n) (netCopy n) (fun m => netKinds m = netKinds n ∧ netOK E m)
      (fun m => netBlocks m ++ netBlocks n) := by
  induction n with
  | nil => exact tri_pure ⟨rfl, netOK_nil⟩ (.refl _)
  | cons x n ih =>
    rw [netBlocks_cons]
    refine tri_self (List.mem_append_left _ Node.node_mem) ?_
    refine tri_bind (K := [x.node] ++ netBlocks n) (tri_layCopy h.head)
      (by simp only [Node.blocks]; perm) fun l ⟨h1, h2⟩ => ?_
    refine tri_bind (K := l.blocks ++ (x.lay.blocks ++ ([x.node] ++ netBlocks n))) tri_malloc
      (by perm) fun m _ => ?_
    refine tri_bind (K := [m] ++ (l.blocks ++ (x.lay.blocks ++ [x.node]))) (ih h.tail) (by perm)
      fun m ⟨h3, h4⟩ => ?_
    refine tri_pure ⟨?_, netOK_cons h2 h4⟩ (by simp only [netBlocks_cons, Node.blocks]; perm)
    rw [netKinds, List.map_cons, netKinds, List.map_cons, h1]
    congr 1

theorem tri_node (x : Node) : Tri E x.blocks
    (do touch (some x.node); layFree x.lay; free (some x.node)) (fun _ => True) (fun _ => []) := by
  refine tri_self Node.node_mem ?_
  refine tri_bind (K := [x.node]) (tri_layFree x.lay) (by simp only [Node.blocks]; perm)
    fun _ _ => ?_
  exact tri_free

theorem tri_netFree (n : Net) : Tri E (netBlocks n) (netFree n) (fun _ => True) (fun _ => []) := by
  induction n with
  | nil => exact tri_pure trivial (.refl _)
  | cons x n ih =>
    rw [netBlocks_cons]
    refine tri_self (List.mem_append_left _ Node.node_mem) ?_
    refine tri_bind (K := [x.node] ++ netBlocks n) (tri_layFree x.lay)
      (by simp only [Node.blocks]; perm) fun _ _ => ?_
    refine tri_bind (K := netBlocks n) tri_free (.refl _) fun _ _ => ?_
    exact ih

theorem tri_netMutate {resize : Bool} {cs : List Luck} (h : netOK E n) :
    Tri E (netBlocks n) (netMutate resize cs n) (fun m => netKinds m = netKinds n ∧ netOK E m)
      netBlocks := by
  induction n generalizing resize cs with
  | nil => exact tri_pure ⟨rfl, netOK_nil⟩ (.refl _)
  | cons x n ih =>
    rw [netBlocks_cons]
    refine tri_self (List.mem_append_left _ Node.node_mem) ?_
    refine tri_bind (K := [x.node] ++ netBlocks n)
      (tri_doIf (tri_layResize h.head) ⟨rfl, h.head⟩)
      (by simp only [Node.blocks]; perm) fun l ⟨h1, h2⟩ => ?_
    refine tri_bind (K := [x.node] ++ netBlocks n) (tri_layMutate h2) (.refl _)
      fun l' ⟨h3, h4⟩ => ?_
    refine tri_bind (K := l'.blocks ++ [x.node]) (ih h.tail) (by perm) fun m ⟨h5, h6⟩ => ?_
    refine tri_pure ⟨?_, netOK_cons h4 h6⟩ (by simp only [netBlocks_cons, Node.blocks]; perm)
    rw [netKinds, List.map_cons, netKinds, List.map_cons, h3, h1]
    congr 1

theorem tri_netResize {bs : List Bool} (h : netOK E n) :
    Tri E (netBlocks n) (netResize bs n) (fun m => netKinds m = netKinds n ∧ netOK E m)
      netBlocks := by
  induction n generalizing bs with
  | nil => exact tri_pure ⟨rfl, netOK_nil⟩ (.refl _)
  | cons x n ih =>
    rw [netBlocks_cons]
    refine tri_self (List.mem_append_left _ Node.node_mem) ?_
    refine tri_bind (K := [x.node] ++ netBlocks n)
      (tri_doIf (tri_layResize h.head) ⟨rfl, h.head⟩)
      (by simp only [Node.blocks]; perm) fun l ⟨h1, h2⟩ => ?_
    refine tri_bind (K := l.blocks ++ [x.node]) (ih h.tail) (by perm) fun m ⟨h5, h6⟩ => ?_
    refine tri_pure ⟨?_, netOK_cons h2 h6⟩ (by simp only [netBlocks_cons, Node.blocks]; perm)
    rw [netKinds, List.map_cons, netKinds, List.map_cons, h1]
    congr 1

theorem rd_netRand (h : netOK E n) : Rd E (netBlocks n) (netRand n) := by
  induction n with
  | nil => exact rd_pure
  | cons x n ih =>
    rw [netBlocks_cons]
    refine rd_bind (rd_self (List.mem_append_left _ Node.node_mem)) ?_
    refine rd_bind ((rd_layRand h.head).mono fun p hp => List.mem_append_left _ (Node.lay_mem hp)) ?_
    exact (ih h.tail).mono fun p hp => List.mem_append_right _ hp

theorem rd_netUpdate (h : netOK E n) : Rd E (netBlocks n) (netUpdate n) := by
  induction n with
  | nil => exact rd_pure
  | cons x n ih =>
    rw [netBlocks_cons]
    refine rd_bind (rd_self (List.mem_append_left _ Node.node_mem)) ?_
    refine rd_bind ((rd_layUpdate h.head).mono fun p hp => List.mem_append_left _ (Node.lay_mem hp)) ?_
    exact (ih h.tail).mono fun p hp => List.mem_append_right _ hp

theorem rd_netReset (h : netOK E n) : Rd E (netBlocks n) (netReset n) := by
  induction n with
  | nil => exact rd_pure
  | cons x n ih =>
    rw [netBlocks_cons]
    refine rd_bind (rd_self (List.mem_append_left _ Node.node_mem)) ?_
    refine rd_bind (rd_use (List.mem_append_left _ (Node.lay_mem Lay.self_mem)) fun f hf => ?_) ?_
    · rw [List.mem_singleton.1 hf]
      exact (Lay.delta h.head).mono fun p hp => List.mem_append_left _ (Node.lay_mem hp)
    · exact (ih h.tail).mono fun p hp => List.mem_append_right _ hp

theorem given_output {l : Lay} (h : l.ok E) (hL : ∀ p ∈ l.blocks, p ∈ L) :
    GivenOK E L (some (l.obj.ptr .output)) := by
  intro o e
  rw [← Option.some.inj e]
  exact (Lay.output h).mono hL

theorem given_delta {l : Lay} (h : l.ok E) (hL : ∀ p ∈ l.blocks, p ∈ L) :
    GivenOK E L (some (l.obj.ptr .delta)) := by
  intro o e
  rw [← Option.some.inj e]
  exact (Lay.delta h).mono hL

theorem given_none : GivenOK E L none := fun _ e => nomatch e

theorem rd_netForward {g : Given} (h : netOK E n) (hg : GivenOK E L g)
    (hL : ∀ p ∈ netBlocks n, p ∈ L) : Rd E L (netForward g n) := by
  induction n generalizing g with
  | nil => exact rd_pure
  | cons x n ih =>
    rw [netBlocks_cons] at hL
    have hx : ∀ p ∈ x.lay.blocks, p ∈ L := fun p hp => hL p (List.mem_append_left _ (Node.lay_mem hp))
    refine rd_bind (rd_self (hL _ (List.mem_append_left _ Node.node_mem))) ?_
    refine rd_bind (rd_layForward h.head hg hx) ?_
    exact ih h.tail (given_output h.head hx) fun p hp => hL p (List.mem_append_right _ hp)

theorem rd_netBackward {g g' : Given} (h : netOK E n) (hg : GivenOK E L g) (hg' : GivenOK E L g')
    (hL : ∀ p ∈ netBlocks n, p ∈ L) : Rd E L (netBackward g g' n) := by
  induction n generalizing g g' with
  | nil => exact rd_pure
  | cons x n ih =>
    rw [netBlocks_cons] at hL
    have hx : ∀ p ∈ x.lay.blocks, p ∈ L := fun p hp => hL p (List.mem_append_left _ (Node.lay_mem hp))
    refine rd_bind (ih h.tail (given_output h.head hx) (given_delta h.head hx) fun p hp =>
      hL p (List.mem_append_right _ hp)) ?_
    refine rd_bind (rd_self (hL _ (List.mem_append_left _ Node.node_mem))) ?_
    exact rd_layBackward h.head hg hg' hx

theorem last_some (h : n ≠ []) : ∃ x, n.getLast? = some x ∧ x ∈ n ∧ n = n.dropLast ++ [x] :=
  ⟨n.getLast h, List.getLast?_eq_some_getLast h, List.getLast_mem h,
    (List.dropLast_concat_getLast h).symm⟩

theorem rd_netOutput (h : netOK E n) (hn : n ≠ []) : Rd E (netBlocks n) (netOutput n) := by
  obtain ⟨x, e, hx, _⟩ := last_some hn
  simp only [netOutput, e]
  refine rd_bind (rd_self (net_mem hx Node.node_mem)) ?_
  refine rd_use (net_mem hx (Node.lay_mem Lay.self_mem)) fun f hf => ?_
  rw [List.mem_singleton.1 hf]
  exact (Lay.output (h x hx)).mono fun p hp => net_mem hx (Node.lay_mem hp)

theorem rd_netLearn (h : netOK E n) (hn : n ≠ []) : Rd E (netBlocks n) (netLearn n) := by
  refine rd_bind (rd_netReset h) ?_
  refine rd_bind ?_ (rd_bind (rd_netBackward h given_none given_none fun _ hp => hp)
    (rd_netUpdate h))
  obtain ⟨x, e, hx, _⟩ := last_some hn
  simp only [netTarget, e]
  refine rd_bind (rd_self (net_mem hx Node.node_mem)) ?_
  refine rd_use (net_mem hx (Node.lay_mem Lay.self_mem)) fun f hf => ?_
  simp only [List.mem_cons, List.not_mem_nil, or_false] at hf
  rcases hf with rfl | rfl
  · exact (Lay.delta (h x hx)).mono fun p hp => net_mem hx (Node.lay_mem hp)
  · exact (Lay.output (h x hx)).mono fun p hp => net_mem hx (Node.lay_mem hp)

theorem tri_netPop (h : netOK E n) (hn : 1 < n.length) :
    Tri E (netBlocks n) (netPop n) (fun m => netOK E m ∧ m ≠ []) netBlocks := by
  obtain ⟨x, e, hx, ed⟩ := last_some (n := n) (fun e => by rw [e] at hn; exact absurd hn (by decide))
  simp only [netPop, e]
  rw [if_neg (Nat.not_le.2 hn)]
  refine tri_self (net_mem hx Node.node_mem) ?_
  have hb : netBlocks n = netBlocks n.dropLast ++ x.blocks := by
    have := congrArg netBlocks ed
    rwa [netBlocks_append, netBlocks_cons, netBlocks_nil, List.append_nil] at this
  rw [hb]
  refine tri_bind (K := [x.node] ++ netBlocks n.dropLast) (tri_layFree x.lay)
    (by simp only [Node.blocks]; perm) fun _ _ => ?_
  refine tri_bind (K := netBlocks n.dropLast) tri_free (.refl _) fun _ _ => ?_
  refine tri_pure ⟨fun y hy => h y (List.dropLast_subset _ hy), ?_⟩ (.refl _)
  intro e
  have := congrArg List.length e
  rw [List.length_dropLast] at this
  simp only [List.length_nil] at this
  omega

theorem tri_netPops (k : Nat) (h : netOK E n) (hn : n ≠ []) :
    Tri E (netBlocks n) (netPops k n) (fun m => netOK E m ∧ m ≠ []) netBlocks := by
  induction k generalizing n with
  | zero => exact tri_pure ⟨h, hn⟩ (.refl _)
  | succ k ih =>
    simp only [netPops]
    split
    · exact tri_pure ⟨h, hn⟩ (.refl _)
    · next hl =>
      refine tri_bind (K := []) (tri_netPop h (Nat.not_le.1 hl)) (by simp) fun m ⟨h1, h2⟩ => ?_
      rw [List.append_nil]
      exact ih h1 h2

theorem tri_netExpand (bs : List Bool) (h : netOK E n) (hn : 2 ≤ n.length) :
    Tri E (netBlocks n) (netExpand bs n) (fun m => netOK E m ∧ 2 ≤ m.length) netBlocks := by
  obtain ⟨x, e, hx, ed⟩ := last_some (n := n) (fun e => by rw [e] at hn; exact absurd hn (by decide))
  simp only [netExpand]
  refine tri_bind (K := netBlocks n) tri_layInit (by perm) fun l ⟨_, h2⟩ => ?_
  refine tri_bind (K := l.blocks ++ netBlocks n) tri_malloc (by perm) fun m _ => ?_
  simp only [e]
  rw [if_neg (by omega)]
  refine tri_conseq (K := []) (tri_netResize ?_) ?_ fun n' h' => ⟨⟨h'.2, ?_⟩, by simp⟩
  · exact netOK_append (fun y hy => h y (List.dropLast_subset _ hy))
      (netOK_cons h2 (netOK_cons (h x hx) netOK_nil))
  · have hb := congrArg netBlocks ed
    rw [hb]
    simp only [netBlocks_append, netBlocks_cons, netBlocks_nil, Node.blocks]
    perm
  · have := congrArg List.length h'.1
    simp only [netKinds, List.length_map, List.length_append, List.length_cons, List.length_nil] at this
    omega

theorem tri_netClassify (k : Nat) (h : netOK E n) (hn : n ≠ []) :
    Tri E (netBlocks n) (netClassify k n) (fun m => netOK E m ∧ 2 ≤ m.length) netBlocks := by
  refine tri_bind (K := []) (tri_netPops k h hn) (by simp) fun m ⟨h1, _⟩ => ?_
  refine tri_bind (K := netBlocks m) tri_layInit (by perm) fun l ⟨_, h2⟩ => ?_
  refine tri_bind (K := l.blocks ++ netBlocks m) tri_malloc (by perm) fun a _ => ?_
  refine tri_bind (K := [a] ++ (l.blocks ++ netBlocks m)) tri_layInit (by perm) fun l' ⟨_, h3⟩ => ?_
  refine tri_bind (K := l'.blocks ++ ([a] ++ (l.blocks ++ netBlocks m))) tri_malloc (by perm)
    fun b _ => ?_
  refine tri_pure ⟨netOK_append h1 (netOK_cons h2 (netOK_cons h3 netOK_nil)), by simp⟩ ?_
  simp only [netBlocks_append, netBlocks_cons, netBlocks_nil, Node.blocks]
  perm

theorem netBlocks_length (h : netOK E n) : (netBlocks n).length =
    ((netKinds n).map fun k => 2 + (freeFlds k).length + 10 * nSubs k).sum := by
  induction n with
  | nil => rfl
  | cons x n ih =>
    rw [netBlocks_cons, List.length_append, ih h.tail, Node.blocks, List.length_append,
      Lay.blocks_length h.head]
    simp only [netKinds, List.map_cons, List.sum_cons, List.length_cons, List.length_nil]
    omega

end

/-! ### Conditions, actions and predictions -/

/-- The blocks of a structure with arrays. -/
def fblocks (k : FKind) (x : Obj) : List Nat := [x.self] ++ arr (dropFlds k) x.ptr

/-- The blocks of a condition, an action or a prediction. -/
def Rep.blocks : Rep → List Nat
  | .none => []
  | .flat k x => fblocks k x
  | .net s n => [s] ++ netBlocks n

/-- All parts of a condition, an action or a prediction are there. -/
def Rep.ok (E : Fault → Prop) : Rep → Prop
  | .none => True
  | .flat k x => full (dropFlds k) x.ptr
  | .net _ n => netOK E n ∧ n ≠ []

/-- The number of layers of a network. -/
def Rep.layers : Rep → Nat
  | .net _ n => n.length
  | _ => 0

/-- The type of a condition, an action or a prediction. -/
def Rep.type : Rep → RKind
  | .none => .none
  | .flat k _ => .flat k
  | .net _ n => .net (netKinds n)

/-- The number of blocks of a type. -/
def RKind.size : RKind → Nat
  | .none => 0
  | .flat k => 1 + (dropFlds k).length
  | .net ks => 1 + (ks.map fun k => 2 + (freeFlds k).length + 10 * nSubs k).sum

section
variable {β : Type} {E : Fault → Prop} {L K : List Nat} {k : FKind} {x : Obj} {r : Rep}

theorem Rep.type_layers (r : Rep) : r.type.layers = r.layers := by
  cases r <;> simp [Rep.type, RKind.layers, Rep.layers, netKinds]

theorem Rep.blocks_length (h : r.ok E) : r.blocks.length = r.type.size := by
  cases r with
  | none => rfl
  | flat k x =>
    show ([x.self] ++ arr (dropFlds k) x.ptr).length = 1 + _
    rw [List.length_append, arr_length h]; rfl
  | net s n =>
    show ([s] ++ netBlocks n).length = 1 + _
    rw [List.length_append, netBlocks_length h.1]; rfl

theorem dropFlds_nodup (k : FKind) : (dropFlds k).Nodup := by cases k <;> decide

theorem initFlds_perm (k : FKind) : (dropFlds k).Perm (initFlds k) := by cases k <;> decide

theorem copyFlds_perm (k : FKind) : (dropFlds k).Perm (copyFlds k) := by cases k <;> decide

theorem loadFlds_perm (k : FKind) : (dropFlds k).Perm (loadFlds k) := by cases k <;> decide

theorem flat_self : x.self ∈ fblocks k x := List.mem_append_left _ (List.mem_singleton.2 rfl)

theorem rd_flat {gs : List Fld} (h : full (dropFlds k) x.ptr) (hg : ∀ f ∈ gs, f ∈ dropFlds k) :
    Rd E (fblocks k x) (x.use gs) :=
  rd_use flat_self fun f hf => (val_arr h (hg f hf)).mono fun _ hp => List.mem_append_right _ hp

theorem rd_flat_all (h : full (dropFlds k) x.ptr) : Rd E (fblocks k x) (x.use (dropFlds k)) :=
  rd_flat h fun _ h => h

theorem tri_mallocs_perm {fs gs : List Fld} {q : Ptrs} (hp : fs.Perm gs) (hn : fs.Nodup) :
    Tri E [] (mallocs gs q) (fun q' => full fs q') (fun q' => arr fs q') :=
  tri_conseq (K := []) (tri_mallocs (hp.nodup_iff.1 hn)) (by simp) fun q' h =>
    ⟨fun f hf => h.1 f (hp.mem_iff.1 hf), by
      rw [List.append_nil]; exact (arr_perm hp).symm⟩

theorem tri_flatArrays (q : Ptrs) :
    Tri E [] (flatArrays k q) (full (dropFlds k)) (arr (dropFlds k)) := by
  cases k
  case gp =>
    refine tri_bind (K := []) (tri_mallocs_perm (initFlds_perm .gp) (dropFlds_nodup _)) (.refl _)
      fun q h => ?_
    exact tri_conseq (K := []) (tri_reallocs_sub (fs := dropFlds .gp) (gs := [.tree]) (ks := [.mu])
      (by decide) (dropFlds_nodup _) h) (by simp) fun q' h' => ⟨h'.1, by simp⟩
  all_goals
    refine tri_bind (K := []) (tri_mallocs_perm (initFlds_perm _) (dropFlds_nodup _)) (.refl _)
      fun q h => ?_
    exact tri_pure h (by simp)

theorem tri_repInit (T : RKind) (hT : T.ok) :
    Tri E [] (repInit T) (fun r => r.ok E ∧ r.type = T) Rep.blocks := by
  cases T with
  | none => exact tri_pure ⟨trivial, rfl⟩ (.refl _)
  | flat k =>
    refine tri_bind (K := []) tri_malloc (.refl _) fun s _ => ?_
    refine tri_bind (K := [s]) (tri_flatArrays null) (by perm) fun q h => ?_
    exact tri_pure ⟨h, rfl⟩ (by simp only [Rep.blocks, fblocks]; perm)
  | net ks =>
    refine tri_bind (K := []) tri_malloc (.refl _) fun s _ => ?_
    refine tri_bind (K := [s]) (tri_netInit ks) (by perm) fun n ⟨h1, h2⟩ => ?_
    refine tri_pure ⟨⟨h2, ?_⟩, by rw [← h1]; rfl⟩ (by simp only [Rep.blocks]; perm)
    rintro rfl
    exact hT h1.symm

theorem tri_repLoad (T : RKind) (hT : T.ok) (hr : T.recurrent = true → E .ub) :
    Tri E [] (repLoad T) (fun r => r.ok E ∧ r.type = T) Rep.blocks := by
  cases T with
  | none => exact tri_pure ⟨trivial, rfl⟩ (.refl _)
  | flat k =>
    refine tri_bind (K := []) tri_malloc (.refl _) fun s _ => ?_
    refine tri_bind (K := [s]) (tri_mallocs_perm (loadFlds_perm k) (dropFlds_nodup k)) (by perm)
      fun q h => ?_
    exact tri_pure ⟨h, rfl⟩ (by simp only [Rep.blocks, fblocks]; perm)
  | net ks =>
    refine tri_bind (K := []) tri_malloc (.refl _) fun s _ => ?_
    refine tri_bind (K := [s]) (tri_netLoad ks fun h => hr (by simp [RKind.recurrent, h])) (by perm)
      fun n ⟨h1, h2⟩ => ?_
    refine tri_pure ⟨⟨h2, ?_⟩, by rw [← h1]; rfl⟩ (by simp only [Rep.blocks]; perm)
    rintro rfl
    exact hT h1.symm

theorem netKinds_ne {n m : Net} (h : netKinds m = netKinds n) (hn : n ≠ []) : m ≠ [] := by
  rintro rfl
  exact hn (List.map_eq_nil_iff.1 h.symm)

theorem tri_repCopy (h : r.ok E) :
    Tri E r.blocks (repCopy r) (fun r' => r'.ok E ∧ r'.type = r.type)
      (fun r' => r'.blocks ++ r.blocks) := by
  cases r with
  | none => exact tri_pure ⟨trivial, rfl⟩ (.refl _)
  | flat k x =>
    simp only [Rep.blocks, repCopy]
    refine tri_bind (K := fblocks k x) tri_malloc (by perm) fun s _ => ?_
    refine tri_bind (K := [s] ++ fblocks k x)
      (tri_mallocs_perm (copyFlds_perm k) (dropFlds_nodup k)) (by perm) fun q hq => ?_
    refine tri_rd (K := fblocks k x) (rd_flat h (by cases k <;> decide)) (fun _ h => by simp [h]) ?_
    exact tri_pure ⟨hq, rfl⟩ (by simp only [fblocks]; perm)
  | net s n =>
    simp only [Rep.blocks, repCopy]
    refine tri_bind (K := [s] ++ netBlocks n) tri_malloc (by perm) fun s' _ => ?_
    refine tri_self (by simp) ?_
    refine tri_bind (K := [s'] ++ [s]) (tri_netCopy h.1) (by perm) fun m ⟨h1, h2⟩ => ?_
    exact tri_pure ⟨⟨h2, netKinds_ne h1 h.2⟩, by simp only [Rep.type, h1]⟩
      (by perm)

theorem tri_repFree (r : Rep) : Tri E r.blocks (repFree r) (fun _ => True) (fun _ => []) := by
  cases r with
  | none => exact tri_pure trivial (.refl _)
  | flat k x =>
    simp only [Rep.blocks, repFree]
    refine tri_self flat_self ?_
    refine tri_bind (K := [x.self]) tri_frees (by simp only [fblocks]; perm) fun _ _ => ?_
    exact tri_free
  | net s n =>
    simp only [Rep.blocks, repFree]
    refine tri_self (by simp) ?_
    refine tri_bind (K := [s]) (tri_netFree n) (by perm) fun _ _ => ?_
    exact tri_free

theorem tri_treeRetries (m : Nat) (h : full (dropFlds .gp) x.ptr) :
    Tri E (fblocks .gp x) (treeRetries m x) (fun y => full (dropFlds .gp) y.ptr) (fblocks .gp) := by
  induction m generalizing x with
  | zero => exact tri_pure h (.refl _)
  | succ m ih =>
    refine tri_self flat_self ?_
    refine tri_bind (K := [x.self]) tri_frees (by simp only [fblocks]; perm) fun _ _ => ?_
    refine tri_bind (K := [x.self]) (tri_flatArrays x.ptr) (.refl _) fun q hq => ?_
    refine tri_rd (K := fblocks .gp ⟨x.self, q⟩) (rd_flat hq (by decide))
      (fun p hp => by simp only [fblocks, List.mem_append] at hp ⊢; exact hp.symm) ?_
    exact tri_conseq (K := []) (ih (x := ⟨x.self, q⟩) hq) (by simp only [fblocks]; perm)
      fun _ h => ⟨h, by simp⟩

theorem tri_repCover (m : Nat) (h : r.ok E) :
    Tri E r.blocks (repCover m r) (fun r' => r'.ok E ∧ r'.type = r.type) Rep.blocks := by
  cases r with
  | none => exact tri_pure ⟨trivial, rfl⟩ (.refl _)
  | flat k x =>
    cases k
    case gp =>
      refine tri_bind (K := []) (tri_treeRetries (m + 1) h) (by simp [Rep.blocks]) fun y hy => ?_
      exact tri_pure ⟨hy, rfl⟩ (by simp [Rep.blocks])
    all_goals
      exact tri_rd (K := fblocks _ x) (rd_flat_all h) (fun _ h => h)
        (tri_pure ⟨h, rfl⟩ (.refl _))
  | net s n =>
    simp only [Rep.blocks, repCover]
    have hs : ∀ p ∈ netBlocks n, p ∈ [s] ++ netBlocks n := fun _ h => List.mem_append_right _ h
    refine tri_self (by simp) ?_
    refine tri_rd (K := netBlocks n) (rd_netRand h.1) hs ?_
    refine tri_rd (K := netBlocks n) (rd_netForward h.1 given_none fun _ h => h) hs ?_
    refine tri_rd (K := netBlocks n) (rd_netOutput h.1 h.2) hs ?_
    exact tri_pure ⟨h, rfl⟩ (.refl _)

theorem rd_repAsk (h : r.ok E) : Rd E r.blocks (repAsk r) := by
  cases r with
  | none => exact rd_pure
  | flat k x => exact rd_flat_all h
  | net s n =>
    have hs : ∀ p ∈ netBlocks n, p ∈ [s] ++ netBlocks n := fun _ h => List.mem_append_right _ h
    exact rd_bind (rd_self (by simp [Rep.blocks])) <|
      rd_bind (rd_netForward h.1 given_none hs) ((rd_netOutput h.1 h.2).mono hs)

theorem rd_repUpdate (h : r.ok E) : Rd E r.blocks (repUpdate r) := by
  cases r with
  | none => exact rd_pure
  | flat k x => exact rd_flat_all h
  | net s n =>
    exact rd_bind (rd_self (by simp [Rep.blocks])) ((rd_netLearn h.1 h.2).mono fun _ h =>
      List.mem_append_right _ h)

theorem tri_repMutate (cs : List Luck) (h : r.ok E) :
    Tri E r.blocks (repMutate cs r) (fun r' => r'.ok E ∧ r'.type = r.type) Rep.blocks := by
  cases r with
  | none => exact tri_pure ⟨trivial, rfl⟩ (.refl _)
  | flat k x =>
    exact tri_rd (K := fblocks _ x) (rd_flat_all h) (fun _ h => h) (tri_pure ⟨h, rfl⟩ (.refl _))
  | net s n =>
    simp only [Rep.blocks, repMutate]
    refine tri_self (by simp) ?_
    refine tri_bind (K := [s]) (tri_netMutate h.1) (by perm) fun m ⟨h1, h2⟩ => ?_
    exact tri_pure ⟨⟨h2, netKinds_ne h1 h.2⟩, by simp only [Rep.type, h1]⟩
      (by simp only [Rep.blocks]; perm)

theorem tree_blocks (x : Obj) :
    (fblocks .gp x).Perm ([x.self] ++ ((x.ptr .tree).toList ++ (x.ptr .mu).toList)) := by
  simp only [fblocks, dropFlds, arr_cons]
  simp [arr]

theorem tri_repCross {r' : Rep} (h : r.ok E) (h' : r'.ok E) :
    Tri E (r.blocks ++ r'.blocks) (repCross r r')
      (fun s => (s.1.ok E ∧ s.1.type = r.type) ∧ (s.2.ok E ∧ s.2.type = r'.type))
      (fun s => s.1.blocks ++ s.2.blocks) := by
  have triv : Tri E (r.blocks ++ r'.blocks) (pure (r, r'))
      (fun s => (s.1.ok E ∧ s.1.type = r.type) ∧ (s.2.ok E ∧ s.2.type = r'.type))
      (fun s => s.1.blocks ++ s.2.blocks) := tri_pure ⟨⟨h, rfl⟩, h', rfl⟩ (.refl _)
  rw [repCross.eq_def]
  split
  · next x y =>
    have hx : full (dropFlds .gp) x.ptr := h
    have hy : full (dropFlds .gp) y.ptr := h'
    obtain ⟨tx, ex⟩ := hx .tree (by decide)
    obtain ⟨ty, ey⟩ := hy .tree (by decide)
    refine tri_conseq (L := [x.self] ++ ((x.ptr .tree).toList ++ (x.ptr .mu).toList) ++
      ([y.self] ++ ((y.ptr .tree).toList ++ (y.ptr .mu).toList))) (K := []) ?_ ?_
      fun _ h => ⟨h, by rw [List.append_nil]⟩
    · rw [ex, ey]
      simp only [Option.toList_some]
      refine tri_self (by simp) ?_
      refine tri_self (by simp) ?_
      refine tri_bind (K := [x.self] ++ ([tx] ++ (x.ptr .mu).toList) ++
        ([y.self] ++ ([ty] ++ (y.ptr .mu).toList))) tri_malloc (by perm) fun a _ => ?_
      refine tri_bind (K := [a] ++ ([x.self] ++ ([tx] ++ (x.ptr .mu).toList) ++
        ([y.self] ++ ([ty] ++ (y.ptr .mu).toList)))) tri_malloc (by perm) fun b _ => ?_
      refine tri_self (by simp) ?_
      refine tri_self (by simp) ?_
      refine tri_bind (K := [b] ++ ([a] ++ ([x.self] ++ ((x.ptr .mu).toList) ++
        ([y.self] ++ ([ty] ++ (y.ptr .mu).toList))))) tri_free (by perm) fun _ _ => ?_
      refine tri_bind (K := [b] ++ ([a] ++ ([x.self] ++ ((x.ptr .mu).toList) ++
        ([y.self] ++ ((y.ptr .mu).toList))))) tri_free (by perm) fun _ _ => ?_
      refine tri_rd (K := [x.self] ++ [a]) (rd_use (by simp) fun f hf => ?_) (by simp) ?_
      · rw [List.mem_singleton.1 hf]
        exact .inr ⟨a, by simp, assign_self x.ptr .tree (some a)⟩
      refine tri_rd (K := [y.self] ++ [b]) (rd_use (by simp) fun f hf => ?_) (by simp) ?_
      · rw [List.mem_singleton.1 hf]
        exact .inr ⟨b, by simp, assign_self y.ptr .tree (some b)⟩
      have hf : ∀ (q : Ptrs) (p : Nat), full (dropFlds .gp) q →
          full (dropFlds .gp) (assign q .tree (some p)) := by
        intro q p hq f hf
        by_cases e : f = .tree
        · exact ⟨p, by rw [e, assign_self]⟩
        · rw [assign_ne e]; exact hq f hf
      refine tri_pure ⟨⟨hf _ _ hx, rfl⟩, hf _ _ hy, rfl⟩ ?_
      refine List.Perm.trans ?_ (((tree_blocks _).symm).append ((tree_blocks _).symm))
      simp only [assign_self, Option.toList_some,
        assign_ne (show Fld.mu ≠ Fld.tree by decide)]
      perm
    · rw [List.append_nil]
      exact (tree_blocks x).append (tree_blocks y)
  · next k x k' y _ =>
    have hx : full (dropFlds k) x.ptr := h
    have hy : full (dropFlds k') y.ptr := h'
    exact tri_rd (K := fblocks k x) (rd_flat_all hx) (fun _ h => List.mem_append_left _ h)
      (tri_rd (K := fblocks k' y) (rd_flat_all hy) (fun _ h => List.mem_append_right _ h) triv)
  · exact triv

theorem tri_repGeneral {r' : Rep} (h : r.ok E) (h' : r'.ok E) :
    Tri E (r.blocks ++ r'.blocks) (repGeneral r r') (fun _ => True)
      (fun _ => r.blocks ++ r'.blocks) := by
  rw [repGeneral.eq_def]
  split
  · next x k y =>
    have hx : full (dropFlds .ellipsoid) x.ptr := h
    have hy : full (dropFlds k) y.ptr := h'
    refine tri_bind (K := fblocks .ellipsoid x ++ fblocks k y) tri_malloc (by simp only [Rep.blocks]; perm) fun t _ => ?_
    refine tri_rd (K := fblocks .ellipsoid x) (rd_flat hx (by decide)) (fun _ h => by simp [h]) ?_
    refine tri_rd (K := fblocks k y) (rd_flat_all hy) (fun _ h => by simp [h]) ?_
    refine tri_self (by simp) ?_
    exact tri_conseq (K := fblocks .ellipsoid x ++ fblocks k y) tri_free (.refl _)
      fun _ _ => ⟨trivial, .refl _⟩
  · next k x k' y _ =>
    have hx : full (dropFlds k) x.ptr := h
    have hy : full (dropFlds k') y.ptr := h'
    exact tri_of_rd (rd_bind ((rd_flat_all hx).mono fun _ h => List.mem_append_left _ h)
      ((rd_flat_all hy).mono fun _ h => List.mem_append_right _ h))
  · exact tri_pure trivial (.refl _)

theorem tri_repImport (h : r.ok E) (hE : E .exit) :
    Tri E r.blocks (repImport r) (fun r' => r'.ok E ∧ r'.type = r.type) Rep.blocks := by
  cases r with
  | none => exact tri_pure ⟨trivial, rfl⟩ (.refl _)
  | flat k x =>
    have hx : full (dropFlds k) x.ptr := h
    cases k
    case gp => exact tri_throw hE
    case dgp =>
      simp only [Rep.blocks, repImport]
      refine tri_self flat_self ?_
      refine tri_bind (K := [x.self]) tri_frees (by simp only [fblocks]; perm) fun _ _ => ?_
      refine tri_bind (K := [x.self])
        (tri_mallocs_perm (initFlds_perm .dgp) (dropFlds_nodup .dgp)) (.refl _) fun q hq => ?_
      refine tri_rd (K := fblocks .dgp ⟨x.self, q⟩) (rd_flat_all hq)
        (fun p hp => by simp only [fblocks, List.mem_append] at hp ⊢; exact hp.symm) ?_
      exact tri_pure ⟨hq, rfl⟩ (by simp only [Rep.blocks, fblocks]; perm)
    all_goals
      exact tri_rd (K := fblocks _ x) (rd_flat_all hx) (fun _ h => h)
        (tri_pure ⟨h, rfl⟩ (.refl _))
  | net s n => exact tri_throw hE

end

/-! ### Rules -/

/-- The blocks of a rule. -/
def Cl.blocks (c : Cl) : List Nat :=
  [c.self] ++ ([c.prediction] ++ (c.cond.blocks ++ (c.act.blocks ++ c.pred.blocks)))

/-- All parts of a rule are there; if `d > 0`, the prediction is a network of at least `d` layers. -/
structure Cl.ok (E : Fault → Prop) (d : Nat) (c : Cl) : Prop where
  cond : c.cond.ok E
  act : c.act.ok E
  pred : c.pred.ok E
  deep : d ≤ c.pred.layers

/-- The number of blocks of a rule depends on its types. -/
def Cl.size (c : Cl) : Nat := 2 + c.cond.type.size + c.act.type.size + c.pred.type.size

section
variable {β : Type} {E : Fault → Prop} {L K : List Nat} {c : Cl} {d : Nat} {T : Types}

theorem Cl.blocks_length (h : c.ok E d) : c.blocks.length = c.size := by
  simp only [Cl.blocks, Cl.size, List.length_append, List.length_cons, List.length_nil,
    Rep.blocks_length h.cond, Rep.blocks_length h.act, Rep.blocks_length h.pred]
  omega

theorem Cl.self_mem : c.self ∈ c.blocks := by simp [Cl.blocks]

theorem tri_clInit (hT : T.ok d) : Tri E [] (clInit T) (Cl.ok E d) Cl.blocks := by
  refine tri_bind (K := []) tri_malloc (.refl _) fun s _ => ?_
  refine tri_bind (K := [s]) tri_malloc (by perm) fun p _ => ?_
  refine tri_bind (K := [p] ++ [s]) (tri_repInit T.pred hT.2.2.1) (by perm) fun pr ⟨h1, e1⟩ => ?_
  refine tri_bind (K := pr.blocks ++ ([p] ++ [s])) (tri_repInit T.act hT.2.1) (by perm)
    fun ac ⟨h2, _⟩ => ?_
  refine tri_bind (K := ac.blocks ++ (pr.blocks ++ ([p] ++ [s]))) (tri_repInit T.cond hT.1) (by perm)
    fun co ⟨h3, _⟩ => ?_
  refine tri_pure ⟨h3, h2, h1, ?_⟩ (by simp only [Cl.blocks]; perm)
  show d ≤ pr.layers
  rw [← Rep.type_layers, e1]
  exact hT.2.2.2

theorem tri_clCover (m m' : Nat) (hT : T.ok d) :
    Tri E [] (clCover T m m') (Cl.ok E d) Cl.blocks := by
  refine tri_bind (K := []) (tri_clInit hT) (.refl _) fun c hc => ?_
  refine tri_bind (K := [c.self] ++ ([c.prediction] ++ (c.act.blocks ++ c.pred.blocks)))
    (tri_repCover m hc.cond) (by simp only [Cl.blocks]; perm) fun r ⟨h1, _⟩ => ?_
  refine tri_bind (K := [c.self] ++ ([c.prediction] ++ (r.blocks ++ c.pred.blocks)))
    (tri_repCover m' hc.act) (by perm) fun r' ⟨h2, _⟩ => ?_
  exact tri_pure ⟨h1, h2, hc.pred, hc.deep⟩ (by simp only [Cl.blocks]; perm)

theorem tri_childPred (reset : Bool) {r : Rep} (hT : T.ok d) (h : r.ok E) (hd : d ≤ r.layers) :
    Tri E r.blocks (childPred T reset r) (fun r' => r'.ok E ∧ d ≤ r'.layers)
      (fun r' => r'.blocks ++ r.blocks) := by
  cases reset
  · refine tri_conseq (K := []) (tri_repCopy h) (by simp) fun r' h' => ⟨⟨h'.1, ?_⟩, by simp⟩
    rw [← Rep.type_layers, h'.2, Rep.type_layers]
    exact hd
  · refine tri_conseq (K := r.blocks) (tri_repInit T.pred hT.2.2.1) (by perm)
      fun r' h' => ⟨⟨h'.1, ?_⟩, .refl _⟩
    rw [← Rep.type_layers, h'.2]
    exact hT.2.2.2

theorem tri_clChild (reset : Bool) (hT : T.ok d) (h : c.ok E d) :
    Tri E c.blocks (clChild T reset c) (Cl.ok E d) (fun c' => c'.blocks ++ c.blocks) := by
  refine tri_bind (K := c.blocks) tri_malloc (by perm) fun s _ => ?_
  refine tri_bind (K := [s] ++ c.blocks) tri_malloc (by perm) fun p _ => ?_
  refine tri_self (by simp [Cl.blocks]) ?_
  refine tri_bind (K := [p] ++ ([s] ++ ([c.self] ++ ([c.prediction] ++ (c.cond.blocks ++
    c.pred.blocks))))) (tri_repCopy h.act) (by simp only [Cl.blocks]; perm) fun ac ⟨h1, _⟩ => ?_
  refine tri_bind (K := ac.blocks ++ ([p] ++ ([s] ++ ([c.self] ++ ([c.prediction] ++ (c.act.blocks ++
    c.pred.blocks)))))) (tri_repCopy h.cond) (by perm) fun co ⟨h2, _⟩ => ?_
  refine tri_bind (K := co.blocks ++ (ac.blocks ++ ([p] ++ ([s] ++ ([c.self] ++ ([c.prediction] ++
    (c.act.blocks ++ c.cond.blocks))))))) (tri_childPred reset hT h.pred h.deep) (by perm)
    fun pr ⟨h3, h4⟩ => ?_
  exact tri_pure ⟨h2, h1, h3, h4⟩ (by simp only [Cl.blocks]; perm)

theorem tri_clCopy (h : c.ok E d) :
    Tri E c.blocks (clCopy c) (Cl.ok E d) (fun c' => c'.blocks ++ c.blocks) := by
  refine tri_bind (K := c.blocks) tri_malloc (by perm) fun s _ => ?_
  refine tri_bind (K := [s] ++ c.blocks) tri_malloc (by perm) fun p _ => ?_
  refine tri_self (by simp [Cl.blocks]) ?_
  refine tri_bind (K := [p] ++ ([s] ++ ([c.self] ++ ([c.prediction] ++ (c.cond.blocks ++
    c.pred.blocks))))) (tri_repCopy h.act) (by simp only [Cl.blocks]; perm) fun ac ⟨h1, _⟩ => ?_
  refine tri_bind (K := ac.blocks ++ ([p] ++ ([s] ++ ([c.self] ++ ([c.prediction] ++ (c.act.blocks ++
    c.pred.blocks)))))) (tri_repCopy h.cond) (by perm) fun co ⟨h2, _⟩ => ?_
  refine tri_bind (K := co.blocks ++ (ac.blocks ++ ([p] ++ ([s] ++ ([c.self] ++ ([c.prediction] ++
    (c.act.blocks ++ c.cond.blocks))))))) (tri_repCopy h.pred) (by perm)
    fun pr ⟨h3, h4⟩ => ?_
  refine tri_pure ⟨h2, h1, h3, ?_⟩ (by simp only [Cl.blocks]; perm)
  show d ≤ pr.layers
  rw [← Rep.type_layers, h4, Rep.type_layers]
  exact h.deep

theorem tri_clLoad (hT : T.ok d) (hr : (T.cond.recurrent || T.act.recurrent || T.pred.recurrent) = true → E .ub) :
    Tri E [] (clLoad T) (Cl.ok E d) Cl.blocks := by
  refine tri_bind (K := []) tri_malloc (.refl _) fun s _ => ?_
  refine tri_bind (K := [s]) tri_malloc (by perm) fun p _ => ?_
  refine tri_bind (K := [p] ++ [s]) (tri_repLoad T.act hT.2.1 fun e => hr (by simp [e])) (by perm)
    fun ac ⟨h1, _⟩ => ?_
  refine tri_bind (K := ac.blocks ++ ([p] ++ [s]))
    (tri_repLoad T.pred hT.2.2.1 fun e => hr (by simp [e])) (by perm) fun pr ⟨h2, e1⟩ => ?_
  refine tri_bind (K := pr.blocks ++ (ac.blocks ++ ([p] ++ [s])))
    (tri_repLoad T.cond hT.1 fun e => hr (by simp [e])) (by perm) fun co ⟨h3, _⟩ => ?_
  refine tri_pure ⟨h3, h1, h2, ?_⟩ (by simp only [Cl.blocks]; perm)
  show d ≤ pr.layers
  rw [← Rep.type_layers, e1]
  exact hT.2.2.2

theorem tri_clImport (a p co : Bool) (hT : T.ok d) (hE : E .exit) :
    Tri E [] (clImport T a p co) (Cl.ok E d) Cl.blocks := by
  refine tri_bind (K := []) (tri_clInit hT) (.refl _) fun c hc => ?_
  refine tri_self (by simp [Cl.blocks]) ?_
  refine tri_bind (K := [c.self] ++ ([c.prediction] ++ (c.cond.blocks ++ c.pred.blocks)))
    (tri_doIf (tri_repImport hc.act hE) ⟨hc.act, rfl⟩) (by simp only [Cl.blocks]; perm)
    fun r ⟨h1, _⟩ => ?_
  refine tri_bind (K := r.blocks ++ ([c.self] ++ ([c.prediction] ++ c.cond.blocks)))
    (tri_doIf (tri_repImport hc.pred hE) ⟨hc.pred, rfl⟩) (by perm) fun r' ⟨h2, e2⟩ => ?_
  refine tri_bind (K := r'.blocks ++ (r.blocks ++ ([c.self] ++ [c.prediction])))
    (tri_doIf (tri_repImport hc.cond hE) ⟨hc.cond, rfl⟩) (by perm) fun r'' ⟨h3, _⟩ => ?_
  refine tri_pure ⟨h3, h1, h2, ?_⟩ (by simp only [Cl.blocks]; perm)
  show d ≤ r'.layers
  rw [← Rep.type_layers, e2, Rep.type_layers]
  exact hc.deep

theorem tri_clFree (c : Cl) : Tri E c.blocks (clFree c) (fun _ => True) (fun _ => []) := by
  refine tri_self Cl.self_mem ?_
  refine tri_bind (K := [c.self] ++ (c.cond.blocks ++ (c.act.blocks ++ c.pred.blocks))) tri_free
    (by simp only [Cl.blocks]; perm) fun _ _ => ?_
  refine tri_bind (K := [c.self] ++ (c.act.blocks ++ c.pred.blocks)) (tri_repFree _) (by perm)
    fun _ _ => ?_
  refine tri_bind (K := [c.self] ++ c.pred.blocks) (tri_repFree _) (by perm) fun _ _ => ?_
  refine tri_bind (K := [c.self]) (tri_repFree _) (by perm) fun _ _ => ?_
  exact tri_free

theorem Cl.mem_cond {p : Nat} (h : p ∈ c.cond.blocks) : p ∈ c.blocks := by simp [Cl.blocks, h]
theorem Cl.mem_act {p : Nat} (h : p ∈ c.act.blocks) : p ∈ c.blocks := by simp [Cl.blocks, h]
theorem Cl.mem_pred {p : Nat} (h : p ∈ c.pred.blocks) : p ∈ c.blocks := by simp [Cl.blocks, h]

theorem rd_clAsk (h : c.ok E d) : Rd E c.blocks (clAsk c) :=
  rd_bind (rd_self Cl.self_mem) <|
  rd_bind ((rd_repAsk h.cond).mono fun _ => Cl.mem_cond) <|
  rd_bind ((rd_repAsk h.act).mono fun _ => Cl.mem_act) <|
  rd_bind ((rd_repAsk h.pred).mono fun _ => Cl.mem_pred) <|
  rd_self (by simp [Cl.blocks])

theorem rd_condUpdate {r : Rep} (h : r.ok E) : Rd E r.blocks (condUpdate r) := by
  cases r with
  | none => exact rd_pure
  | flat k x => exact rd_repUpdate h
  | net s n => exact rd_pure

theorem rd_clUpdate (h : c.ok E d) : Rd E c.blocks (clUpdate c) :=
  rd_bind (rd_self Cl.self_mem) <|
  rd_bind ((rd_repAsk h.pred).mono fun _ => Cl.mem_pred) <|
  rd_bind ((rd_condUpdate h.cond).mono fun _ => Cl.mem_cond) <|
  rd_bind ((rd_repUpdate h.pred).mono fun _ => Cl.mem_pred) <|
  rd_self (by simp [Cl.blocks])

theorem tri_clMutate (a b e : List Luck) (h : c.ok E d) :
    Tri E c.blocks (clMutate a b e c) (fun c' => c'.ok E d ∧ c'.size = c.size) Cl.blocks := by
  refine tri_self Cl.self_mem ?_
  refine tri_bind (K := [c.self] ++ ([c.prediction] ++ (c.act.blocks ++ c.pred.blocks)))
    (tri_repMutate a h.cond) (by simp only [Cl.blocks]; perm) fun r ⟨h1, e1⟩ => ?_
  refine tri_bind (K := r.blocks ++ ([c.self] ++ ([c.prediction] ++ c.act.blocks)))
    (tri_repMutate e h.pred) (by perm) fun r' ⟨h2, e2⟩ => ?_
  refine tri_bind (K := r'.blocks ++ (r.blocks ++ ([c.self] ++ [c.prediction])))
    (tri_repMutate b h.act) (by perm) fun r'' ⟨h3, e3⟩ => ?_
  refine tri_pure ⟨⟨h1, h3, h2, ?_⟩, by simp only [Cl.size, e1, e2, e3]⟩
    (by simp only [Cl.blocks]; perm)
  show d ≤ r'.layers
  rw [← Rep.type_layers, e2, Rep.type_layers]
  exact h.deep

theorem tri_clCross {c' : Cl} (h : c.ok E d) (h' : c'.ok E d) :
    Tri E (c.blocks ++ c'.blocks) (clCross c c')
      (fun s => (s.1.ok E d ∧ s.1.size = c.size) ∧ (s.2.ok E d ∧ s.2.size = c'.size))
      (fun s => s.1.blocks ++ s.2.blocks) := by
  refine tri_self (List.mem_append_left _ Cl.self_mem) ?_
  refine tri_self (List.mem_append_right _ Cl.self_mem) ?_
  refine tri_bind (K := ([c.self] ++ ([c.prediction] ++ (c.act.blocks ++ c.pred.blocks))) ++
    ([c'.self] ++ ([c'.prediction] ++ (c'.act.blocks ++ c'.pred.blocks))))
    (tri_repCross h.cond h'.cond) (by simp only [Cl.blocks]; perm) fun s ⟨⟨h1, e1⟩, h2, e2⟩ => ?_
  refine tri_pure ⟨⟨⟨h1, h.act, h.pred, h.deep⟩, by simp only [Cl.size, e1]⟩,
    ⟨h2, h'.act, h'.pred, h'.deep⟩, by simp only [Cl.size, e2]⟩ (by simp only [Cl.blocks]; perm)

theorem tri_clGeneral {c' : Cl} (h : c.ok E d) (h' : c'.ok E d) :
    Tri E (c.blocks ++ c'.blocks) (clGeneral c c') (fun _ => True)
      (fun _ => c.blocks ++ c'.blocks) := by
  refine tri_self (List.mem_append_left _ Cl.self_mem) ?_
  refine tri_self (List.mem_append_right _ Cl.self_mem) ?_
  exact tri_conseq (K := ([c.self] ++ ([c.prediction] ++ (c.act.blocks ++ c.pred.blocks))) ++
    ([c'.self] ++ ([c'.prediction] ++ (c'.act.blocks ++ c'.pred.blocks))))
    (tri_repGeneral h.cond h'.cond) (by simp only [Cl.blocks]; perm)
    fun _ _ => ⟨trivial, by simp only [Cl.blocks]; perm⟩

/-- A rule with layers has a network. -/
theorem Cl.ok.net (h : c.ok E d) (hd : 1 ≤ d) : ∃ s n, c.pred = .net s n := by
  have := h.deep
  cases e : c.pred with
  | none => rw [e] at this; exact absurd (Nat.le_trans hd this) (by decide)
  | flat k x => rw [e] at this; exact absurd (Nat.le_trans hd this) (by simp [Rep.layers])
  | net s n => exact ⟨s, n, rfl⟩

theorem tri_clExpand (bs : List Bool) (h : c.ok E d) (hd : d = 2) :
    Tri E c.blocks (clExpand bs c) (Cl.ok E d) Cl.blocks := by
  obtain ⟨s, n, e⟩ := h.net (by omega)
  have hp : netOK E n ∧ n ≠ [] := by have := h.pred; rwa [e] at this
  have hl : d ≤ n.length := by have := h.deep; rwa [e] at this
  refine tri_self Cl.self_mem ?_
  simp only [e]
  refine tri_self (by simp [Cl.blocks, e, Rep.blocks]) ?_
  refine tri_bind (K := [s] ++ ([c.self] ++ ([c.prediction] ++ (c.cond.blocks ++ c.act.blocks))))
    (tri_netExpand bs hp.1 (by omega)) (by simp only [Cl.blocks, e, Rep.blocks]; perm)
    fun m ⟨h1, h2⟩ => ?_
  refine tri_pure ⟨h.cond, h.act, ⟨h1, ?_⟩, by rw [hd]; exact h2⟩
    (by simp only [Cl.blocks, Rep.blocks]; perm)
  rintro rfl
  exact absurd h2 (by decide)

theorem tri_clClassify (k : Nat) (h : c.ok E d) (hd : 1 ≤ d) (hd2 : d ≤ 2) :
    Tri E c.blocks (clClassify k c) (Cl.ok E d) Cl.blocks := by
  obtain ⟨s, n, e⟩ := h.net hd
  have hp : netOK E n ∧ n ≠ [] := by have := h.pred; rwa [e] at this
  refine tri_self Cl.self_mem ?_
  refine tri_bind (K := [c.self] ++ (c.cond.blocks ++ (c.act.blocks ++ c.pred.blocks))) tri_free
    (by simp only [Cl.blocks]; perm) fun _ _ => ?_
  refine tri_bind (K := [c.self] ++ (c.cond.blocks ++ (c.act.blocks ++ c.pred.blocks))) tri_malloc
    (by perm) fun p _ => ?_
  simp only [e]
  refine tri_self (by simp [Rep.blocks]) ?_
  refine tri_bind (K := [s] ++ ([c.self] ++ ([p] ++ (c.cond.blocks ++ c.act.blocks))))
    (tri_netClassify k hp.1 hp.2) (by simp only [Rep.blocks]; perm)
    fun m ⟨h1, h2⟩ => ?_
  refine tri_pure ⟨h.cond, h.act, ⟨h1, ?_⟩, Nat.le_trans hd2 h2⟩
    (by simp only [Cl.blocks, Rep.blocks]; perm)
  rintro rfl
  exact absurd h2 (by decide)

end

end RepMem

end Xcsf
