import Verif.RepMemLemmas

/-!
Lemmas about the memory of layers.
-/

set_option linter.unusedSectionVars false

namespace Xcsf

namespace RepMem

/-- The blocks of a layer without parts. -/
def Obj.blocks (k : LKind) (x : Obj) : List Nat := [x.self] ++ arr (freeFlds k) x.ptr

/-- All arrays of a layer are there. -/
def Obj.ok (k : LKind) (x : Obj) : Prop := full (freeFlds k) x.ptr

/-- The number of parts of a layer. -/
def nSubs : LKind → Nat
  | .recurrent => 3
  | .lstm => 8
  | _ => 0

/-- Output and error of a recurrent layer are those of its output layer; if null pointers are allowed
to fault they may be null. -/
def linked (E : Fault → Prop) (q : Ptrs) (xs : List Obj) : Prop :=
  ∀ a b c, xs = [a, b, c] →
    ((q .output = none ∧ E .ub) ∨ q .output = c.ptr .output) ∧
    ((q .delta = none ∧ E .ub) ∨ q .delta = c.ptr .delta)

/-- The blocks of parts. -/
def subBlocks (xs : List Obj) : List Nat := xs.flatMap (Obj.blocks .connected)

/-- The blocks of a layer. -/
def Lay.blocks (l : Lay) : List Nat := l.obj.blocks l.kind ++ subBlocks l.subs

/-- All parts and arrays of a layer are there. -/
structure Lay.ok (E : Fault → Prop) (l : Lay) : Prop where
  arrays : l.obj.ok l.kind
  parts : ∀ x ∈ l.subs, x.ok .connected
  number : l.subs.length = nSubs l.kind
  link : l.kind = .recurrent → linked E l.obj.ptr l.subs

attribute [local irreducible] mallocs frees reallocs touches malloc free realloc touch connInits Tri Rd
  Obj.use

section
variable {β : Type} {E : Fault → Prop} {L K : List Nat} {k : LKind} {x : Obj} {l : Lay}

theorem mallocFlds_eq (k : LKind) : mallocFlds k = freeFlds k := by cases k <;> rfl

theorem freeFlds_nodup (k : LKind) : (freeFlds k).Nodup := by cases k <;> decide

theorem subBlocks_nil : subBlocks [] = [] := rfl

theorem subBlocks_cons (x : Obj) (xs : List Obj) :
    subBlocks (x :: xs) = x.blocks .connected ++ subBlocks xs := List.flatMap_cons

theorem subBlocks_append (xs ys : List Obj) :
    subBlocks (xs ++ ys) = subBlocks xs ++ subBlocks ys := List.flatMap_append

theorem Obj.self_mem : x.self ∈ x.blocks k := List.mem_append_left _ (List.mem_singleton.2 rfl)

theorem Obj.arr_mem {p : Nat} (h : p ∈ arr (freeFlds k) x.ptr) : p ∈ x.blocks k :=
  List.mem_append_right _ h

theorem Obj.val {f : Fld} (h : x.ok k) (hf : f ∈ freeFlds k) : Val E (x.blocks k) (x.ptr f) :=
  (val_arr h hf).mono fun _ hp => Obj.arr_mem hp

theorem Obj.rd {gs : List Fld} (h : x.ok k) (hg : ∀ f ∈ gs, f ∈ freeFlds k) :
    Rd E (x.blocks k) (x.use gs) :=
  rd_use Obj.self_mem fun f hf => Obj.val h (hg f hf)

theorem Obj.blocks_length (h : x.ok k) : (x.blocks k).length = 1 + (freeFlds k).length := by
  rw [Obj.blocks, List.length_append, arr_length h]; rfl

theorem sub_mem {xs : List Obj} (hx : x ∈ xs) {p : Nat} (hp : p ∈ x.blocks .connected) :
    p ∈ subBlocks xs := List.mem_flatMap.2 ⟨x, hx, hp⟩

theorem Lay.self_mem : l.obj.self ∈ l.blocks := List.mem_append_left _ Obj.self_mem

theorem Lay.obj_mem {p : Nat} (hp : p ∈ l.obj.blocks l.kind) : p ∈ l.blocks :=
  List.mem_append_left _ hp

theorem Lay.sub_mem' {p : Nat} (hp : p ∈ subBlocks l.subs) : p ∈ l.blocks :=
  List.mem_append_right _ hp

/-! ### Creation, copies, release -/

theorem tri_objInit : Tri E [] (objInit k) (Obj.ok k) (Obj.blocks k) := by
  refine tri_bind (K := []) tri_malloc (.refl _) fun s _ => ?_
  rw [mallocFlds_eq]
  refine tri_bind (K := [s]) (tri_mallocs (freeFlds_nodup k)) (by perm) fun q ⟨h1, _⟩ => ?_
  exact tri_pure h1 (by simp only [Obj.blocks]; perm)

theorem tri_connInits (n : Nat) : Tri E [] (connInits n)
    (fun xs => (∀ x ∈ xs, x.ok .connected) ∧ xs.length = n) subBlocks := by
  induction n with
  | zero =>
    rw [connInits]
    exact tri_pure ⟨(fun _ h => nomatch h), rfl⟩ (.refl _)
  | succ n ih =>
    rw [connInits]
    refine tri_bind (K := []) tri_objInit (.refl _) fun x hx => ?_
    refine tri_bind (K := x.blocks .connected) ih (by perm) fun xs ⟨h1, h2⟩ => ?_
    refine tri_pure ⟨?_, by simp [h2]⟩ (by rw [subBlocks_cons]; perm)
    intro y hy
    rcases List.mem_cons.1 hy with rfl | hy
    · exact hx
    · exact h1 y hy

theorem link_linked {xs : List Obj} {q q' : Ptrs} (h : xs.length = 3)
    (h1 : q' .output = link q xs .output) (h2 : q' .delta = link q xs .delta) : linked E q' xs := by
  intro a b c e
  subst e
  rw [h1, h2]
  simp only [RepMem.link]
  exact ⟨.inr (by rw [assign_ne (by decide), assign_self]), .inr (by rw [assign_self])⟩

theorem tri_layInit : Tri E [] (layInit k) (fun l => l.kind = k ∧ l.ok E) Lay.blocks := by
  cases k <;> simp only [layInit]
  case recurrent =>
    refine tri_bind (K := []) tri_malloc (.refl _) fun s _ => ?_
    refine tri_bind (K := [s]) tri_malloc (by perm) fun a _ => ?_
    refine tri_bind (K := [a] ++ [s]) (tri_connInits 3) (by perm) fun xs ⟨h1, h2⟩ => ?_
    refine tri_bind (K := subBlocks xs ++ [s]) tri_free (by perm) fun _ _ => ?_
    rw [mallocFlds_eq]
    refine tri_bind (K := subBlocks xs ++ [s]) (tri_mallocs (freeFlds_nodup _)) (by perm)
      fun q ⟨h3, h4⟩ => ?_
    refine tri_pure ⟨rfl, h3, h1, h2, fun _ => link_linked h2 (h4 _ (by decide)) (h4 _ (by decide))⟩ ?_
    simp only [Lay.blocks, Obj.blocks]
    perm
  case lstm =>
    refine tri_bind (K := []) tri_malloc (.refl _) fun s _ => ?_
    refine tri_bind (K := [s]) tri_malloc (by perm) fun a _ => ?_
    refine tri_bind (K := [a] ++ [s]) (tri_connInits 8) (by perm) fun xs ⟨h1, h2⟩ => ?_
    refine tri_bind (K := subBlocks xs ++ [s]) tri_free (by perm) fun _ _ => ?_
    rw [mallocFlds_eq]
    refine tri_bind (K := subBlocks xs ++ [s]) (tri_mallocs (freeFlds_nodup _)) (by perm)
      fun q ⟨h3, h4⟩ => ?_
    refine tri_pure ⟨rfl, h3, h1, h2, (fun h => nomatch h)⟩ ?_
    simp only [Lay.blocks, Obj.blocks]
    perm
  all_goals
    refine tri_bind (K := []) tri_objInit (.refl _) fun x hx => ?_
    exact tri_pure ⟨rfl, hx, (fun _ h => nomatch h), rfl, (fun h => nomatch h)⟩
      (by simp only [Lay.blocks, subBlocks_nil]; perm)

theorem tri_objCopy (h : x.ok k) : Tri E (x.blocks k) (objCopy k x) (Obj.ok k)
    (fun y => y.blocks k ++ x.blocks k) := by
  refine tri_rd (K := x.blocks k) (Obj.rd h (fun _ h => nomatch h)) (fun _ h => h) ?_
  refine tri_bind (K := x.blocks k) tri_objInit (by perm) fun y hy => ?_
  refine tri_rd (K := x.blocks k) (Obj.rd h (by cases k <;> decide))
    (fun _ h => List.mem_append_right _ h) ?_
  exact tri_pure hy (.refl _)

theorem tri_connCopies {xs : List Obj} (h : ∀ x ∈ xs, x.ok .connected) :
    Tri E (subBlocks xs) (connCopies xs)
      (fun ys => (∀ y ∈ ys, y.ok .connected) ∧ ys.length = xs.length)
      (fun ys => subBlocks ys ++ subBlocks xs) := by
  induction xs with
  | nil => exact tri_pure ⟨(fun _ h => nomatch h), rfl⟩ (.refl _)
  | cons x xs ih =>
    rw [subBlocks_cons]
    refine tri_bind (K := subBlocks xs) (tri_objCopy (h x (by simp))) (.refl _) fun y hy => ?_
    refine tri_bind (K := y.blocks .connected ++ x.blocks .connected)
      (ih fun z hz => h z (List.mem_cons_of_mem _ hz)) (by perm) fun ys ⟨h1, h2⟩ => ?_
    refine tri_pure ⟨?_, by simp [h2]⟩ (by rw [subBlocks_cons]; perm)
    intro z hz
    rcases List.mem_cons.1 hz with rfl | hz
    · exact hy
    · exact h1 z hz

theorem tri_layCopy (h : l.ok E) : Tri E l.blocks (layCopy l)
    (fun l' => l'.kind = l.kind ∧ l'.ok E) (fun l' => l'.blocks ++ l.blocks) := by
  obtain ⟨k, x, xs⟩ := l
  have hl : x.ok k := h.arrays
  have hp : ∀ x ∈ xs, x.ok .connected := h.parts
  have hn : xs.length = nSubs k := h.number
  show Tri E (x.blocks k ++ subBlocks xs) _ _ _
  cases k <;> simp only [layCopy]
  case recurrent =>
    refine tri_rd (K := x.blocks .recurrent) (Obj.rd hl (fun _ h => nomatch h))
      (fun _ h => List.mem_append_left _ h) ?_
    refine tri_bind (K := x.blocks .recurrent ++ subBlocks xs) tri_malloc (by perm) fun s _ => ?_
    refine tri_bind (K := [s] ++ x.blocks .recurrent) (tri_connCopies hp) (by perm)
      fun ys ⟨h1, h2⟩ => ?_
    rw [mallocFlds_eq]
    refine tri_bind (K := [s] ++ subBlocks ys ++ x.blocks .recurrent ++ subBlocks xs)
      (tri_mallocs (freeFlds_nodup _)) (by perm) fun q ⟨h3, h4⟩ => ?_
    refine tri_rd (K := x.blocks .recurrent) (Obj.rd hl (by decide)) (fun _ h => by simp [h]) ?_
    refine tri_pure ⟨rfl, h3, h1, h2.trans hn, fun _ => link_linked (h2.trans hn)
      (h4 _ (by decide)) (h4 _ (by decide))⟩ ?_
    simp only [Lay.blocks, Obj.blocks]
    perm
  case lstm =>
    refine tri_rd (K := x.blocks .lstm) (Obj.rd hl (fun _ h => nomatch h))
      (fun _ h => List.mem_append_left _ h) ?_
    refine tri_bind (K := x.blocks .lstm ++ subBlocks xs) tri_malloc (by perm) fun s _ => ?_
    refine tri_bind (K := [s] ++ x.blocks .lstm) (tri_connCopies hp) (by perm)
      fun ys ⟨h1, h2⟩ => ?_
    rw [mallocFlds_eq]
    refine tri_bind (K := [s] ++ subBlocks ys ++ x.blocks .lstm ++ subBlocks xs)
      (tri_mallocs (freeFlds_nodup _)) (by perm) fun q ⟨h3, h4⟩ => ?_
    refine tri_rd (K := x.blocks .lstm) (Obj.rd hl (by decide)) (fun _ h => by simp [h]) ?_
    refine tri_pure ⟨rfl, h3, h1, h2.trans hn, (fun h => nomatch h)⟩ ?_
    simp only [Lay.blocks, Obj.blocks]
    perm
  all_goals
    refine tri_bind (K := subBlocks xs) (tri_objCopy hl) (.refl _) fun y hy => ?_
    refine tri_pure ⟨rfl, hy, (fun _ h => nomatch h), rfl, (fun h => nomatch h)⟩ ?_
    simp only [Lay.blocks, subBlocks_nil]
    perm

theorem tri_layLoad (h : k = .recurrent → E .ub) :
    Tri E [] (layLoad k) (fun l => l.kind = k ∧ l.ok E) Lay.blocks := by
  cases k <;> simp only [layLoad]
  case recurrent =>
    refine tri_bind (K := []) tri_malloc (.refl _) fun s _ => ?_
    rw [mallocFlds_eq]
    refine tri_bind (K := [s]) (tri_mallocs (freeFlds_nodup _)) (by perm) fun q ⟨h3, h4⟩ => ?_
    refine tri_bind (K := arr (freeFlds .recurrent) q ++ [s]) (tri_connInits 3) (by perm)
      fun xs ⟨h1, h2⟩ => ?_
    refine tri_pure ⟨rfl, h3, h1, h2, fun _ a b c _ => ⟨.inl ⟨?_, h rfl⟩, .inl ⟨?_, h rfl⟩⟩⟩ ?_
    · exact h4 _ (by decide)
    · exact h4 _ (by decide)
    · simp only [Lay.blocks, Obj.blocks]
      perm
  case lstm =>
    refine tri_bind (K := []) tri_malloc (.refl _) fun s _ => ?_
    rw [mallocFlds_eq]
    refine tri_bind (K := [s]) (tri_mallocs (freeFlds_nodup _)) (by perm) fun q ⟨h3, h4⟩ => ?_
    refine tri_bind (K := arr (freeFlds .lstm) q ++ [s]) (tri_connInits 8) (by perm)
      fun xs ⟨h1, h2⟩ => ?_
    refine tri_pure ⟨rfl, h3, h1, h2, (fun h => nomatch h)⟩ ?_
    simp only [Lay.blocks, Obj.blocks]
    perm
  all_goals
    refine tri_bind (K := []) tri_objInit (.refl _) fun x hx => ?_
    exact tri_pure ⟨rfl, hx, (fun _ h => nomatch h), rfl, (fun h => nomatch h)⟩
      (by simp only [Lay.blocks, subBlocks_nil]; perm)

theorem tri_connFrees (xs : List Obj) :
    Tri E (subBlocks xs) (connFrees xs) (fun _ => True) (fun _ => xs.map Obj.self) := by
  induction xs with
  | nil => exact tri_pure trivial (.refl _)
  | cons x xs ih =>
    rw [subBlocks_cons]
    refine tri_rd (K := [x.self]) (rd_self (by simp)) (fun p hp => ?_) ?_
    · rw [List.mem_singleton.1 hp]
      exact List.mem_append_left _ Obj.self_mem
    · refine tri_bind (K := [x.self] ++ subBlocks xs) tri_frees (by simp only [Obj.blocks]; perm)
        fun _ _ => ?_
      refine tri_conseq (K := [x.self]) ih (by perm) fun _ _ => ⟨trivial, ?_⟩
      rw [List.map_cons]
      exact List.perm_append_comm

theorem tri_selfFrees (xs : List Obj) :
    Tri E (xs.map Obj.self) (selfFrees xs) (fun _ => True) (fun _ => []) := by
  induction xs with
  | nil => exact tri_pure trivial (.refl _)
  | cons x xs ih =>
    rw [List.map_cons]
    refine tri_bind (K := xs.map Obj.self) tri_free (.refl _) fun _ _ => ?_
    exact ih

theorem tri_layFree (l : Lay) : Tri E l.blocks (layFree l) (fun _ => True) (fun _ => []) := by
  refine tri_rd (K := [l.obj.self]) (rd_self (by simp)) (fun p hp => ?_) ?_
  · rw [List.mem_singleton.1 hp]
    exact Lay.self_mem
  · refine tri_bind (K := l.obj.blocks l.kind) (tri_connFrees _) (by simp only [Lay.blocks]; perm)
      fun _ _ => ?_
    refine tri_bind (K := l.obj.blocks l.kind) (tri_selfFrees _) (.refl _) fun _ _ => ?_
    refine tri_bind (K := [l.obj.self]) tri_frees (by simp only [Obj.blocks]; perm) fun _ _ => ?_
    exact tri_free

/-! ### Growth and new sizes -/

theorem tri_objGrow (h : x.ok .connected) :
    Tri E (x.blocks .connected) (objGrow x) (Obj.ok .connected) (Obj.blocks .connected) := by
  refine tri_rd (K := [x.self]) (rd_self (by simp)) (fun p hp => ?_) ?_
  · rw [List.mem_singleton.1 hp]
    exact Obj.self_mem
  · refine tri_bind (K := [x.self])
      (tri_reallocs_sub (fs := freeFlds .connected) (gs := growFlds) (ks := [.mu]) (by decide)
        (freeFlds_nodup _) h) (by simp only [Obj.blocks]; perm) fun q ⟨h1, _⟩ => ?_
    exact tri_pure h1 (by simp only [Obj.blocks]; perm)

theorem tri_objResize (h : x.ok .connected) :
    Tri E (x.blocks .connected) (objResize x) (Obj.ok .connected) (Obj.blocks .connected) := by
  have hc : ∀ q : Ptrs, (arr (freeFlds .connected) q).Perm
      ((q .weights).toList ++ ((q .weightUpdates).toList ++ ((q .weightActive).toList ++
        arr [.state, .output, .biases, .biasUpdates, .delta, .mu] q))) := by
    intro q
    have := arr_perm (q := q) (show (freeFlds .connected).Perm [.weights, .weightUpdates,
      .weightActive, .state, .output, .biases, .biasUpdates, .delta, .mu] by decide)
    rwa [arr_cons, arr_cons, arr_cons] at this
  have hb : ∀ y : Obj, (y.blocks .connected).Perm ([y.self] ++ ((y.ptr .weights).toList ++
      ((y.ptr .weightUpdates).toList ++ ((y.ptr .weightActive).toList ++
        arr [.state, .output, .biases, .biasUpdates, .delta, .mu] y.ptr)))) :=
    fun y => (hc y.ptr).append_left _
  refine tri_rd (K := [x.self]) (rd_self (by simp)) (fun p hp => ?_) ?_
  · rw [List.mem_singleton.1 hp]
    exact Obj.self_mem
  · refine tri_bind (K := x.blocks .connected) tri_malloc (by perm) fun w _ => ?_
    refine tri_bind (K := [w] ++ x.blocks .connected) tri_malloc (by perm) fun u _ => ?_
    refine tri_bind (K := [u] ++ ([w] ++ x.blocks .connected)) tri_malloc (by perm) fun a _ => ?_
    refine tri_rd (K := x.blocks .connected)
      (rd_touches fun f hf => Obj.val h ((by decide : ∀ f ∈ [Fld.weights, .weightUpdates,
        .weightActive], f ∈ freeFlds .connected) f hf)) (fun _ h => by simp [h]) ?_
    refine tri_bind (K := [a] ++ ([u] ++ ([w] ++ ([x.self] ++ ((x.ptr .weightUpdates).toList ++
      ((x.ptr .weightActive).toList ++
        arr [.state, .output, .biases, .biasUpdates, .delta, .mu] x.ptr)))))) tri_free' ?_
      fun _ _ => ?_
    · refine ((((hb x).append_left _).append_left _).append_left _).trans ?_
      perm
    refine tri_bind (K := [a] ++ ([u] ++ ([w] ++ ([x.self] ++
      ((x.ptr .weightActive).toList ++
        arr [.state, .output, .biases, .biasUpdates, .delta, .mu] x.ptr))))) tri_free' (by perm)
      fun _ _ => ?_
    refine tri_bind (K := [a] ++ ([u] ++ ([w] ++ ([x.self] ++
        arr [.state, .output, .biases, .biasUpdates, .delta, .mu] x.ptr)))) tri_free' (by perm)
      fun _ _ => ?_
    refine tri_pure ?_ ((?_ : List.Perm _ _).trans (hb _).symm)
    · show full _ (assign _ _ _)
      intro f hf
      by_cases e1 : f = .weightActive
      · exact ⟨a, by rw [e1, assign_self]⟩
      by_cases e2 : f = .weightUpdates
      · exact ⟨u, by rw [e2, assign_ne (by decide), assign_self]⟩
      by_cases e3 : f = .weights
      · exact ⟨w, by rw [e3, assign_ne (by decide), assign_ne (by decide), assign_self]⟩
      obtain ⟨p, e⟩ := h f hf
      exact ⟨p, by rw [assign_ne e1, assign_ne e2, assign_ne e3, e]⟩
    · have e : ∀ f ∈ [Fld.state, .output, .biases, .biasUpdates, .delta, .mu],
          x.ptr f = assign (assign (assign x.ptr .weights (some w)) .weightUpdates (some u))
            .weightActive (some a) f := by
        intro f hf
        rw [assign_ne, assign_ne, assign_ne] <;> (intro e; subst e; revert hf; decide)
      rw [arr_congr e]
      dsimp only
      rw [assign_self, assign_ne (by decide), assign_ne (by decide), assign_self,
        assign_ne (by decide), assign_self]
      simp only [Option.toList_some]
      perm

theorem tri_eachObj {act : Obj → M Obj} {xs : List Obj}
    (ha : ∀ x, x.ok .connected →
      Tri E (x.blocks .connected) (act x) (Obj.ok .connected) (Obj.blocks .connected))
    (h : ∀ x ∈ xs, x.ok .connected) :
    Tri E (subBlocks xs) (eachObj act xs)
      (fun ys => (∀ y ∈ ys, y.ok .connected) ∧ ys.length = xs.length) subBlocks := by
  induction xs with
  | nil => exact tri_pure ⟨(fun _ h => nomatch h), rfl⟩ (.refl _)
  | cons x xs ih =>
    rw [subBlocks_cons]
    refine tri_bind (K := subBlocks xs) (ha x (h x (by simp))) (.refl _) fun y hy => ?_
    refine tri_bind (K := y.blocks .connected)
      (ih fun z hz => h z (List.mem_cons_of_mem _ hz)) (by perm) fun ys ⟨h1, h2⟩ => ?_
    refine tri_pure ⟨?_, by simp [h2]⟩ (by rw [subBlocks_cons]; perm)
    intro z hz
    rcases List.mem_cons.1 hz with rfl | hz
    · exact hy
    · exact h1 z hz

theorem tri_self {k' : M β} {ok : β → Prop} {C : β → List Nat} {p : Nat} (h : p ∈ L)
    (h2 : Tri E L k' ok C) : Tri E L (do touch (some p); k') ok C :=
  tri_rd (K := L) (rd_self h) (fun _ h => h) h2

theorem exists_three {xs : List Obj} (h : xs.length = 3) : ∃ a b c, xs = [a, b, c] := by
  rcases xs with _ | ⟨a, _ | ⟨b, _ | ⟨c, _ | ⟨d, xs⟩⟩⟩⟩
  · exact absurd h (by simp)
  · exact absurd h (by simp)
  · exact absurd h (by simp)
  · exact ⟨a, b, c, rfl⟩
  · exact absurd h (by simp)

theorem exists_four {xs : List Obj} (h : xs.length = 8) :
    ∃ a b c d ys, xs = a :: b :: c :: d :: ys := by
  rcases xs with _ | ⟨a, _ | ⟨b, _ | ⟨c, _ | ⟨d, xs⟩⟩⟩⟩
  · exact absurd h (by simp)
  · exact absurd h (by simp)
  · exact absurd h (by simp)
  · exact absurd h (by simp)
  · exact ⟨a, b, c, d, xs, rfl⟩

/-- Reallocation of arrays of a layer without parts. -/
theorem tri_layRealloc {gs ks : List Fld} (hp : (freeFlds k).Perm (gs ++ ks)) (hx : x.ok k)
    (hk : nSubs k = 0) :
    Tri E (x.blocks k ++ subBlocks [])
      (do
        touch (some x.self)
        let q ← reallocs gs x.ptr
        pure ({ kind := k, obj := ⟨x.self, q⟩, subs := [] } : Lay))
      (fun l' => l'.kind = k ∧ l'.ok E) Lay.blocks := by
  refine tri_self (List.mem_append_left _ Obj.self_mem) ?_
  refine tri_bind (K := [x.self]) (tri_reallocs_sub hp (freeFlds_nodup _) hx)
    (by simp only [Obj.blocks, subBlocks_nil]; perm) fun q ⟨h1, _⟩ => ?_
  refine tri_pure ⟨rfl, h1, (fun _ h => nomatch h), hk.symm, fun e => ?_⟩
    (by simp only [Lay.blocks, Obj.blocks, subBlocks_nil]; perm)
  have e : k = .recurrent := e
  rw [e] at hk
  exact absurd hk (by decide)

/-- Release and new allocation of the arrays of a layer without parts. -/
theorem tri_layRenew (hx : x.ok k) (hk : nSubs k = 0) :
    Tri E (x.blocks k ++ subBlocks [])
      (do
        touch (some x.self)
        frees (freeFlds k) x.ptr
        let q ← mallocs (mallocFlds k) x.ptr
        pure ({ kind := k, obj := ⟨x.self, q⟩, subs := [] } : Lay))
      (fun l' => l'.kind = k ∧ l'.ok E) Lay.blocks := by
  refine tri_self (List.mem_append_left _ Obj.self_mem) ?_
  rw [mallocFlds_eq]
  have := tri_renew (E := E) (K := [x.self]) (fs := freeFlds k) (gs := freeFlds k) (ks := [])
    (q := x.ptr) (k := fun q => pure ({ kind := k, obj := ⟨x.self, q⟩, subs := [] } : Lay))
    (ok := fun l' => l'.kind = k ∧ l'.ok E) (C := Lay.blocks) (by simp) (freeFlds_nodup k) hx ?_
  · exact tri_conseq (K := []) this (by simp only [Obj.blocks, subBlocks_nil]; perm)
      fun a h => ⟨h, by simp⟩
  · intro q h1 _
    refine tri_pure ⟨rfl, h1, (fun _ h => nomatch h), hk.symm, fun e => ?_⟩
      (by simp only [Lay.blocks, Obj.blocks, subBlocks_nil]; perm)
    have e : k = .recurrent := e
    rw [e] at hk
    exact absurd hk (by decide)

theorem ok3 {a b c : Obj} (ha : a.ok .connected) (hb : b.ok .connected) (hc : c.ok .connected) :
    ∀ x ∈ [a, b, c], x.ok .connected := by
  intro x hx
  simp only [List.mem_cons, List.not_mem_nil, or_false] at hx
  rcases hx with rfl | rfl | rfl
  · exact ha
  · exact hb
  · exact hc

theorem tri_layResize (h : l.ok E) :
    Tri E l.blocks (layResize l) (fun l' => l'.kind = l.kind ∧ l'.ok E) Lay.blocks := by
  obtain ⟨k, x, xs⟩ := l
  have hl : x.ok k := h.arrays
  have hp : ∀ x ∈ xs, x.ok .connected := h.parts
  have hn : xs.length = nSubs k := h.number
  have hk : k = .recurrent → linked E x.ptr xs := h.link
  show Tri E (x.blocks k ++ subBlocks xs) _ _ _
  cases k <;> simp only [layResize]
  case recurrent =>
    obtain ⟨a, b, c, rfl⟩ := exists_three hn
    refine tri_self (List.mem_append_left _ Obj.self_mem) ?_
    refine tri_bind (K := x.blocks .recurrent ++ subBlocks [b, c])
      (tri_objResize (hp a (by simp))) (by rw [subBlocks_cons]; perm) fun a' ha' => ?_
    refine tri_pure ⟨rfl, hl, ok3 ha' (hp b (by simp)) (hp c (by simp)), rfl, fun _ => ?_⟩
      (by simp only [Lay.blocks]; rw [subBlocks_cons a']; perm)
    intro a1 b1 c1 e
    have e' : [a', b, c] = [a1, b1, c1] := e
    simp only [List.cons.injEq, and_true] at e'
    exact hk rfl a b c1 (by rw [e'.2.2])
  case lstm =>
    obtain ⟨a, b, c, d, ys, rfl⟩ := exists_four hn
    have ha := hp a (by simp)
    have hb := hp b (by simp)
    have hc := hp c (by simp)
    have hd := hp d (by simp)
    have hy : ∀ y ∈ ys, y.ok .connected := fun y hy => hp y (by simp [hy])
    refine tri_self (List.mem_append_left _ Obj.self_mem) ?_
    refine tri_bind (K := x.blocks .lstm ++ subBlocks (b :: c :: d :: ys)) (tri_objResize ha)
      (by rw [subBlocks_cons]; perm) fun a1 ha1 => ?_
    refine tri_bind (K := a1.blocks .connected ++ (x.blocks .lstm ++ subBlocks (c :: d :: ys)))
      (tri_objResize hb) (by rw [subBlocks_cons b]; perm) fun b1 hb1 => ?_
    refine tri_bind (K := b1.blocks .connected ++ (a1.blocks .connected ++ (x.blocks .lstm ++
      subBlocks (d :: ys)))) (tri_objResize hc) (by rw [subBlocks_cons c]; perm) fun c1 hc1 => ?_
    refine tri_bind (K := c1.blocks .connected ++ (b1.blocks .connected ++ (a1.blocks .connected ++
      (x.blocks .lstm ++ subBlocks ys)))) (tri_objResize hd) (by rw [subBlocks_cons d]; perm)
      fun d1 hd1 => ?_
    refine tri_bind (K := d1.blocks .connected ++ (c1.blocks .connected ++ (b1.blocks .connected ++
      (x.blocks .lstm ++ subBlocks ys)))) (tri_objResize ha1) (by perm) fun a2 ha2 => ?_
    refine tri_pure ⟨rfl, hl, ?_, hn, (fun h => nomatch h)⟩ ?_
    · intro z hz
      simp only [List.mem_cons] at hz
      rcases hz with rfl | rfl | rfl | rfl | hz
      · exact ha2
      · exact hb1
      · exact hc1
      · exact hd1
      · exact hy z hz
    · simp only [Lay.blocks, subBlocks_cons]
      perm
  case connected =>
    obtain rfl := List.eq_nil_of_length_eq_zero hn
    refine tri_bind (K := []) (tri_objResize hl) (by rw [subBlocks_nil]) fun y hy => ?_
    exact tri_pure ⟨rfl, hy, (fun _ h => nomatch h), rfl, (fun h => nomatch h)⟩
      (by simp only [Lay.blocks, subBlocks_nil]; perm)
  case convolutional =>
    obtain rfl := List.eq_nil_of_length_eq_zero hn
    exact tri_layRealloc (ks := [.mu]) (by decide) hl rfl
  case maxpool =>
    obtain rfl := List.eq_nil_of_length_eq_zero hn
    exact tri_layRealloc (ks := []) (by decide) hl rfl
  case avgpool =>
    obtain rfl := List.eq_nil_of_length_eq_zero hn
    exact tri_layRealloc (ks := []) (by decide) hl rfl
  all_goals
    obtain rfl := List.eq_nil_of_length_eq_zero hn
    exact tri_layRenew hl rfl

theorem rd_usesObj {xs : List Obj} {gs : List Fld} (h : ∀ x ∈ xs, x.ok .connected)
    (hg : ∀ f ∈ gs, f ∈ freeFlds .connected) : Rd E (subBlocks xs) (usesObj gs xs) := by
  induction xs with
  | nil => exact rd_pure
  | cons x xs ih =>
    refine rd_bind ((Obj.rd (h x (by simp)) hg).mono fun p hp => sub_mem (by simp) hp) ?_
    exact (ih fun z hz => h z (List.mem_cons_of_mem _ hz)).mono fun p hp => by
      rw [subBlocks_cons]
      exact List.mem_append_right _ hp

theorem tri_doIf {α : Type} {b : Bool} {act : M α} {a : α} {ok : α → Prop} {B : α → List Nat}
    (h1 : Tri E (B a) act ok B) (h2 : ok a) : Tri E (B a) (doIf b act a) ok B := by
  cases b
  · exact tri_pure h2 (.refl _)
  · exact h1

theorem tri_grow_conn {grow : Bool} (h : x.ok .connected) :
    Tri E (x.blocks .connected) (doIf grow (objGrow x) x) (Obj.ok .connected)
      (Obj.blocks .connected) :=
  tri_doIf (tri_objGrow h) h

theorem tri_grow_conv {grow : Bool} {q : Ptrs} (h : full (freeFlds .convolutional) q) :
    Tri E (arr (freeFlds .convolutional) q)
      (doIf grow (reallocs (reallocFlds .convolutional) q) q)
      (full (freeFlds .convolutional)) (arr (freeFlds .convolutional)) :=
  tri_doIf (tri_conseq (K := []) (tri_reallocs_sub (ks := [.mu]) (by decide) (freeFlds_nodup _) h)
    (by simp) fun q' h' => ⟨h'.1, by simp⟩) h

theorem tri_layMutate {grow : Bool} (h : l.ok E) :
    Tri E l.blocks (layMutate grow l) (fun l' => l'.kind = l.kind ∧ l'.ok E) Lay.blocks := by
  obtain ⟨k, x, xs⟩ := l
  have hl : x.ok k := h.arrays
  have hp : ∀ x ∈ xs, x.ok .connected := h.parts
  have hn : xs.length = nSubs k := h.number
  have hk : k = .recurrent → linked E x.ptr xs := h.link
  show Tri E (x.blocks k ++ subBlocks xs) _ _ _
  cases k <;> simp only [layMutate]
  case connected =>
    obtain rfl := List.eq_nil_of_length_eq_zero hn
    refine tri_rd (K := x.blocks .connected) (Obj.rd hl (by decide))
      (fun _ h => List.mem_append_left _ h) ?_
    refine tri_bind (K := []) (tri_grow_conn hl) (by rw [subBlocks_nil]) fun y hy => ?_
    refine tri_rd (K := y.blocks .connected) (Obj.rd hy (by decide))
      (fun _ h => List.mem_append_left _ h) ?_
    exact tri_pure ⟨rfl, hy, (fun _ h => nomatch h), rfl, (fun h => nomatch h)⟩
      (by simp only [Lay.blocks, subBlocks_nil]; perm)
  case convolutional =>
    obtain rfl := List.eq_nil_of_length_eq_zero hn
    refine tri_rd (K := x.blocks .convolutional) (Obj.rd hl (by decide))
      (fun _ h => List.mem_append_left _ h) ?_
    refine tri_bind (K := [x.self]) (tri_grow_conv hl)
      (by simp only [Obj.blocks, subBlocks_nil]; perm) fun q hq => ?_
    refine tri_rd (K := arr (freeFlds .convolutional) q)
      (rd_touches fun f hf => val_arr hq ((by decide : ∀ f ∈ mutReads,
        f ∈ freeFlds .convolutional) f hf)) (fun _ h => List.mem_append_left _ h) ?_
    exact tri_pure ⟨rfl, hq, (fun _ h => nomatch h), rfl, (fun h => nomatch h)⟩
      (by simp only [Lay.blocks, Obj.blocks, subBlocks_nil]; perm)
  case recurrent =>
    refine tri_rd (K := x.blocks .recurrent) (Obj.rd hl (by decide))
      (fun _ h => List.mem_append_left _ h) ?_
    cases grow
    · rw [if_neg (by decide)]
      refine tri_rd (K := subBlocks xs) (rd_usesObj hp (by decide))
        (fun _ h => List.mem_append_right _ h) ?_
      exact tri_pure ⟨rfl, h⟩ (.refl _)
    · rw [if_pos rfl]
      obtain ⟨a, b, c, rfl⟩ := exists_three hn
      dsimp only
      refine tri_bind (K := x.blocks .recurrent ++ subBlocks [b, c])
        (tri_objGrow (hp a (by simp))) (by rw [subBlocks_cons]; perm) fun a1 ha1 => ?_
      refine tri_bind (K := a1.blocks .connected ++ (x.blocks .recurrent ++ subBlocks [c]))
        (tri_objGrow (hp b (by simp))) (by rw [subBlocks_cons]; perm) fun b1 hb1 => ?_
      refine tri_bind (K := b1.blocks .connected ++ (a1.blocks .connected ++ x.blocks .recurrent))
        (tri_objGrow (hp c (by simp))) (by rw [subBlocks_cons, subBlocks_nil]; perm)
        fun c1 hc1 => ?_
      refine tri_bind (K := c1.blocks .connected ++ (a1.blocks .connected ++ x.blocks .recurrent))
        (tri_objResize hb1) (by perm) fun b2 hb2 => ?_
      refine tri_bind (K := b2.blocks .connected ++ (a1.blocks .connected ++ x.blocks .recurrent))
        (tri_objResize hc1) (by perm) fun c2 hc2 => ?_
      have hlk : ∀ f ∈ freeFlds .recurrent, x.ptr f = link x.ptr [a1, b2, c2] f := by
        intro f hf
        simp only [RepMem.link]
        rw [assign_ne, assign_ne] <;> (intro e; subst e; revert hf; decide)
      refine tri_bind (K := [x.self] ++ (c2.blocks .connected ++ (b2.blocks .connected ++
        a1.blocks .connected))) (tri_reallocs_sub (fs := freeFlds .recurrent) (ks := [.mu]) (by decide)
        (freeFlds_nodup _) (full_congr hlk hl)) ?_ fun q ⟨h1, h2⟩ => ?_
      · rw [← arr_congr hlk]
        simp only [Obj.blocks]
        perm
      refine tri_rd (K := subBlocks [a1, b2, c2]) (rd_usesObj (ok3 ha1 hb2 hc2) (by decide))
        (fun p hp => ?_) ?_
      · simp only [subBlocks_cons, subBlocks_nil, List.append_nil, List.mem_append] at hp ⊢
        rcases hp with hp | hp | hp
        · exact .inr (.inr (.inr (.inr hp)))
        · exact .inr (.inr (.inr (.inl hp)))
        · exact .inr (.inr (.inl hp))
      refine tri_pure ⟨rfl, h1, ok3 ha1 hb2 hc2, rfl, fun _ =>
        link_linked rfl (h2 _ (by decide)) (h2 _ (by decide))⟩ ?_
      simp only [Lay.blocks, subBlocks_cons, subBlocks_nil, Obj.blocks]
      perm
  case lstm =>
    refine tri_rd (K := x.blocks .lstm) (Obj.rd hl (by decide))
      (fun _ h => List.mem_append_left _ h) ?_
    cases grow
    · rw [if_neg (by decide)]
      refine tri_rd (K := subBlocks xs) (rd_usesObj hp (by decide))
        (fun _ h => List.mem_append_right _ h) ?_
      exact tri_pure ⟨rfl, h⟩ (.refl _)
    · rw [if_pos rfl]
      refine tri_bind (K := x.blocks .lstm) (tri_eachObj (fun y hy => tri_objGrow hy) hp) (by perm)
        fun ys ⟨h1, h2⟩ => ?_
      have hsplit : subBlocks ys = subBlocks (ys.take 4) ++ subBlocks (ys.drop 4) := by
        rw [← subBlocks_append, List.take_append_drop]
      refine tri_bind (K := subBlocks (ys.take 4) ++ x.blocks .lstm)
        (tri_eachObj (fun y hy => tri_objResize hy) fun y hy => h1 y (List.mem_of_mem_drop hy))
        (by rw [hsplit]; perm) fun ws ⟨h3, h4⟩ => ?_
      have hok : ∀ y ∈ ys.take 4 ++ ws, y.ok .connected := by
        intro y hy
        rcases List.mem_append.1 hy with hy | hy
        · exact h1 y (List.mem_of_mem_take hy)
        · exact h3 y hy
      have hlen : (ys.take 4 ++ ws).length = 8 := by
        rw [List.length_append, h4, List.length_take, List.length_drop, h2, hn]
        rfl
      have := tri_renew (E := E) (K := [x.self] ++ subBlocks (ys.take 4 ++ ws))
        (fs := freeFlds .lstm) (gs := lstmFlds) (ks := [.mu]) (q := x.ptr)
        (k := fun q => do
          usesObj mutReads (ys.take 4 ++ ws)
          pure ({ kind := .lstm, obj := ⟨x.self, q⟩, subs := ys.take 4 ++ ws } : Lay))
        (ok := fun l' => l'.kind = .lstm ∧ l'.ok E) (C := Lay.blocks) (by decide)
        (freeFlds_nodup _) hl ?_
      · exact tri_conseq (K := []) this
          (by rw [subBlocks_append]; simp only [Obj.blocks]; perm) fun a h => ⟨h, by simp⟩
      · intro q h5 _
        refine tri_rd (K := subBlocks (ys.take 4 ++ ws)) (rd_usesObj hok (by decide))
          (fun p hp => by simp [hp]) ?_
        exact tri_pure ⟨rfl, h5, hok, hlen, (fun h => nomatch h)⟩
          (by simp only [Lay.blocks, Obj.blocks]; perm)
  all_goals
    exact tri_self (List.mem_append_left _ Obj.self_mem) (tri_pure ⟨rfl, h⟩ (.refl _))

/-! ### Use of layers -/

theorem Lay.output (h : l.ok E) : Val E l.blocks (l.obj.ptr .output) := by
  by_cases e : l.kind = .recurrent
  · obtain ⟨a, b, c, es⟩ := exists_three (by rw [h.number, e]; rfl)
    rcases (h.link e a b c es).1 with h1 | h1
    · exact .inl h1
    · rw [h1]
      refine (Obj.val (h.parts c (by rw [es]; simp)) (by decide)).mono fun p hp => ?_
      exact Lay.sub_mem' (sub_mem (by rw [es]; simp) hp)
  · refine (Obj.val h.arrays ?_).mono fun p hp => Lay.obj_mem hp
    revert e
    cases l.kind <;> decide

theorem Lay.delta (h : l.ok E) : Val E l.blocks (l.obj.ptr .delta) := by
  by_cases e : l.kind = .recurrent
  · obtain ⟨a, b, c, es⟩ := exists_three (by rw [h.number, e]; rfl)
    rcases (h.link e a b c es).2 with h1 | h1
    · exact .inl h1
    · rw [h1]
      refine (Obj.val (h.parts c (by rw [es]; simp)) (by decide)).mono fun p hp => ?_
      exact Lay.sub_mem' (sub_mem (by rw [es]; simp) hp)
  · refine (Obj.val h.arrays ?_).mono fun p hp => Lay.obj_mem hp
    revert e
    cases l.kind <;> decide

theorem Lay.rd_obj {gs : List Fld} (h : l.ok E) (hg : ∀ f ∈ gs, f ∈ freeFlds l.kind) :
    Rd E l.blocks (l.obj.use gs) := (Obj.rd h.arrays hg).mono fun _ hp => Lay.obj_mem hp

theorem Lay.rd_subs {gs : List Fld} (h : l.ok E) (hg : ∀ f ∈ gs, f ∈ freeFlds .connected) :
    Rd E l.blocks (usesObj gs l.subs) := (rd_usesObj h.parts hg).mono fun _ hp => Lay.sub_mem' hp

theorem rd_layRand (h : l.ok E) : Rd E l.blocks (layRand l) := by
  rw [layRand]
  split
  case h_1 e => exact Lay.rd_obj h (by rw [e]; decide)
  case h_2 e => exact Lay.rd_obj h (by rw [e]; decide)
  case h_3 => exact rd_bind (rd_self Lay.self_mem) (Lay.rd_subs h (by decide))
  case h_4 => exact rd_bind (rd_self Lay.self_mem) (Lay.rd_subs h (by decide))
  case h_5 => exact rd_self Lay.self_mem

theorem rd_layUpdate (h : l.ok E) : Rd E l.blocks (layUpdate l) := by
  rw [layUpdate]
  split
  case h_1 e => exact Lay.rd_obj h (by rw [e]; decide)
  case h_2 e => exact Lay.rd_obj h (by rw [e]; decide)
  case h_3 => exact rd_bind (rd_self Lay.self_mem) (Lay.rd_subs h (by decide))
  case h_4 => exact rd_bind (rd_self Lay.self_mem) (Lay.rd_subs h (by decide))
  case h_5 => exact rd_self Lay.self_mem

/-- What is given to a layer is memory of the caller or can be accessed. -/
def GivenOK (E : Fault → Prop) (L : List Nat) (g : Given) : Prop := ∀ o, g = some o → Val E L o

theorem rd_given {g : Given} (h : GivenOK E L g) : Rd E L (touchGiven g) := by
  cases g with
  | none => exact rd_pure
  | some o => exact rd_touch (h o rfl)

theorem rd_layForward {g : Given} (h : l.ok E) (hg : GivenOK E L g) (hL : ∀ p ∈ l.blocks, p ∈ L) :
    Rd E L (layForward g l) :=
  rd_bind (rd_given hg) <| rd_bind
    ((Lay.rd_obj h (by cases l.kind <;> decide)).mono hL)
    ((Lay.rd_subs h (by decide)).mono hL)

theorem rd_layBackward {g g' : Given} (h : l.ok E) (hg : GivenOK E L g) (hg' : GivenOK E L g')
    (hL : ∀ p ∈ l.blocks, p ∈ L) : Rd E L (layBackward g g' l) :=
  rd_bind (rd_given hg) <| rd_bind
    ((Lay.rd_obj h (by cases l.kind <;> decide)).mono hL) <| rd_bind
    ((Lay.rd_subs h (by decide)).mono hL) (rd_given hg')

theorem Lay.blocks_length (h : l.ok E) :
    l.blocks.length = 1 + (freeFlds l.kind).length + 10 * nSubs l.kind := by
  rw [Lay.blocks, List.length_append, Obj.blocks_length h.arrays, ← h.number]
  congr 1
  have hp := h.parts
  generalize l.subs = xs at hp
  induction xs with
  | nil => rfl
  | cons x xs ih =>
    rw [subBlocks_cons, List.length_append, Obj.blocks_length (hp x (by simp)),
      ih fun y hy => hp y (List.mem_cons_of_mem _ hy)]
    simp only [List.length_cons, freeFlds, List.length_nil]
    omega

end

end RepMem

end Xcsf
