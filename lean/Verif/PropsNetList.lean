import Verif.NetList
import Mathlib.Tactic.Common
import Mathlib.Data.List.InsertIdx

/-!
# Property C48: the list of layers of a network

`Linked` says what a well formed doubly linked list is; `NetIs h net infos` says that the network
is the sequence of layers `infos` from the input to the output, whatever the addresses are.
`specStep` is the list-level specification of the operations.
-/

set_option linter.unusedSectionVars false

namespace Xcsf

/-- The address before index `i` in the list, none for the first. -/
def lnxt (cs : List (Nat × Nat)) : Nat → Option Nat
  | 0 => none
  | i + 1 => (cs[i]?).map Prod.fst

/-- The nodes `cs` (address and layer, from the input to the output) form a doubly linked list:
`prev` of each is the following one, `next` of each is the one before; addresses differ. -/
structure Linked (nodes : Nat → Option LNode) (cs : List (Nat × Nat)) : Prop where
  node : ∀ (i : Nat) (c : Nat × Nat), cs[i]? = some c → nodes c.1 = some ⟨c.2, (cs[i + 1]?).map Prod.fst, lnxt cs i⟩
  inj : ∀ (i j : Nat) (c d : Nat × Nat), cs[i]? = some c → cs[j]? = some d → c.1 = d.1 → i = j

/-- The network is the list `cs` of nodes and layers: list, ends, count, sizes, output. -/
structure NetRep (h : LHeap) (net : LNet) (cs : List (Nat × Nat)) : Prop where
  linked : Linked h.nodes cs
  fresh : ∀ (i : Nat) (c : Nat × Nat), cs[i]? = some c → c.1 < h.nextNode
  tail : net.tail = (cs[0]?).map Prod.fst
  head : net.head = (cs[cs.length - 1]?).map Prod.fst
  count : net.nLayers = cs.length
  linj : ∀ (i j : Nat) (c d : Nat × Nat), cs[i]? = some c → cs[j]? = some d → c.2 = d.2 → i = j
  live : ∀ (i : Nat) (c : Nat × Nat), cs[i]? = some c → (∃ info, h.layers c.2 = some info) ∧ c.2 < h.nextLayer
  output : net.output = (cs[cs.length - 1]?).map Prod.snd
  outs : ∀ (c : Nat × Nat) (info : LInfo), cs[cs.length - 1]? = some c → h.layers c.2 = some info →
    net.nOutputs = info.nOutputs

/-- `n_inputs` of the network is that of its input layer. -/
def NetIn (h : LHeap) (net : LNet) (cs : List (Nat × Nat)) : Prop :=
  ∀ (c : Nat × Nat) (info : LInfo), cs[0]? = some c → h.layers c.2 = some info → net.nInputs = info.nInputs

/-- Where an element of a list with an insertion comes from. -/
theorem insertIdx_cases {α : Type} {cs : List α} {p i : Nat} {x c : α}
    (h : (cs.insertIdx p x)[i]? = some c) :
    (i < p ∧ cs[i]? = some c) ∨ (i = p ∧ c = x) ∨ (p < i ∧ cs[i - 1]? = some c) := by
  rw [List.getElem?_insertIdx] at h
  split at h
  · exact Or.inl ⟨‹_›, h⟩
  · split at h
    · split at h
      · exact Or.inr (Or.inl ⟨‹_›, by simpa using h.symm⟩)
      · simp at h
    · exact Or.inr (Or.inr ⟨by omega, h⟩)

/-- Where an element of a list with an element erased comes from. -/
theorem eraseIdx_cases {α : Type} {cs : List α} {p i : Nat} {c : α}
    (h : (cs.eraseIdx p)[i]? = some c) :
    (i < p ∧ cs[i]? = some c) ∨ (p ≤ i ∧ cs[i + 1]? = some c) := by
  rw [List.getElem?_eraseIdx] at h
  split at h
  · exact Or.inl ⟨‹_›, h⟩
  · exact Or.inr ⟨by omega, h⟩

theorem lnxt_insert_le {cs : List (Nat × Nat)} {p i : Nat} {x : Nat × Nat} (h : i ≤ p) :
    lnxt (cs.insertIdx p x) i = lnxt cs i := by
  cases i with
  | zero => rfl
  | succ i => simp only [lnxt]; rw [List.getElem?_insertIdx_of_lt (by omega)]

theorem Linked.insert {nodes nodes' : Nat → Option LNode} {cs : List (Nat × Nat)} {p A l : Nat}
    (hl : Linked nodes cs) (hp1 : 1 ≤ p) (hp : p ≤ cs.length)
    (hA : ∀ (i : Nat) (c : Nat × Nat), cs[i]? = some c → c.1 ≠ A)
    (h1 : nodes' A = some ⟨l, (cs[p]?).map Prod.fst, (cs[p - 1]?).map Prod.fst⟩)
    (h2 : ∀ c : Nat × Nat, cs[p]? = some c → nodes' c.1 = some ⟨c.2, (cs[p + 1]?).map Prod.fst, some A⟩)
    (h3 : ∀ c : Nat × Nat, cs[p - 1]? = some c → nodes' c.1 = some ⟨c.2, some A, lnxt cs (p - 1)⟩)
    (h4 : ∀ (i : Nat) (c : Nat × Nat), cs[i]? = some c → i ≠ p → i ≠ p - 1 → nodes' c.1 = nodes c.1) :
    Linked nodes' (cs.insertIdx p (A, l)) := by
  constructor
  · intro i c hc
    rcases Nat.lt_trichotomy i p with hi | hi | hi
    · rw [List.getElem?_insertIdx_of_lt hi] at hc
      rw [lnxt_insert_le (by omega)]
      by_cases hip : i = p - 1
      · subst hip
        rw [h3 c hc]
        have : p - 1 + 1 = p := by omega
        rw [this, List.getElem?_insertIdx_self, if_pos hp]; rfl
      · rw [List.getElem?_insertIdx_of_lt (by omega), h4 i c hc (by omega) hip]
        exact hl.node i c hc
    · subst hi
      rw [List.getElem?_insertIdx_self, if_pos hp] at hc
      obtain rfl : (A, l) = c := by simpa using hc
      rw [List.getElem?_insertIdx_of_gt (by omega), lnxt_insert_le (Nat.le_refl _), h1]
      obtain ⟨q, rfl⟩ : ∃ q, i = q + 1 := ⟨i - 1, by omega⟩
      rfl
    · rw [List.getElem?_insertIdx_of_gt hi] at hc
      rw [List.getElem?_insertIdx_of_gt (by omega)]
      obtain ⟨q, rfl⟩ : ∃ q, i = q + 1 := ⟨i - 1, by omega⟩
      simp only [Nat.add_sub_cancel] at hc ⊢
      by_cases hq : q = p
      · subst hq
        rw [h2 c hc]
        simp only [lnxt]
        rw [List.getElem?_insertIdx_self, if_pos hp]; rfl
      · rw [h4 q c hc (by omega) (by omega), hl.node q c hc]
        obtain ⟨w, rfl⟩ : ∃ w, q = w + 1 := ⟨q - 1, by omega⟩
        simp only [lnxt]
        rw [List.getElem?_insertIdx_of_gt (by omega)]
        rfl
  · intro i j c d hc hd hcd
    rcases insertIdx_cases hc with ⟨hi, hc⟩ | ⟨hi, rfl⟩ | ⟨hi, hc⟩ <;>
      rcases insertIdx_cases hd with ⟨hj, hd⟩ | ⟨hj, rfl⟩ | ⟨hj, hd⟩
    · exact hl.inj i j c d hc hd hcd
    · exact absurd hcd (hA _ _ hc)
    · have := hl.inj _ _ c d hc hd hcd; omega
    · exact absurd hcd.symm (hA _ _ hd)
    · omega
    · exact absurd hcd.symm (hA _ _ hd)
    · have := hl.inj _ _ c d hc hd hcd; omega
    · exact absurd hcd (hA _ _ hc)
    · have := hl.inj _ _ c d hc hd hcd; omega

theorem Linked.erase {nodes nodes' : Nat → Option LNode} {cs : List (Nat × Nat)} {p : Nat}
    (hl : Linked nodes cs) (_hp : p < cs.length)
    (h2 : ∀ c : Nat × Nat, cs[p + 1]? = some c →
      nodes' c.1 = some ⟨c.2, (cs[p + 2]?).map Prod.fst, lnxt cs p⟩)
    (h3 : ∀ (q : Nat) (c : Nat × Nat), p = q + 1 → cs[q]? = some c →
      nodes' c.1 = some ⟨c.2, (cs[p + 1]?).map Prod.fst, lnxt cs q⟩)
    (h4 : ∀ (i : Nat) (c : Nat × Nat), cs[i]? = some c → i ≠ p → i ≠ p + 1 → i + 1 ≠ p → nodes' c.1 = nodes c.1) :
    Linked nodes' (cs.eraseIdx p) := by
  have hlt : ∀ i, i ≤ p → lnxt (cs.eraseIdx p) i = lnxt cs i := by
    intro i hi
    cases i with
    | zero => rfl
    | succ i => simp only [lnxt]; rw [List.getElem?_eraseIdx_of_lt (by omega)]
  constructor
  · intro i c hc
    rcases Nat.lt_or_ge i p with hi | hi
    · rw [List.getElem?_eraseIdx_of_lt hi] at hc
      rw [hlt i (by omega)]
      by_cases hip : i + 1 = p
      · subst hip
        rw [List.getElem?_eraseIdx_of_ge (Nat.le_refl _)]
        exact h3 i c rfl hc
      · rw [List.getElem?_eraseIdx_of_lt (by omega), h4 i c hc (by omega) (by omega) hip]
        exact hl.node i c hc
    · rw [List.getElem?_eraseIdx_of_ge hi] at hc
      rw [List.getElem?_eraseIdx_of_ge (by omega)]
      by_cases hip : i = p
      · subst hip
        rw [hlt i (Nat.le_refl _)]
        exact h2 c hc
      · rw [h4 (i + 1) c hc (by omega) (by omega) (by omega), hl.node _ _ hc]
        obtain ⟨w, rfl⟩ : ∃ w, i = w + 1 := ⟨i - 1, by omega⟩
        simp only [lnxt]
        rw [List.getElem?_eraseIdx_of_ge (by omega)]
  · intro i j c d hc hd hcd
    rw [List.getElem?_eraseIdx] at hc hd
    split at hc <;> split at hd <;>
      · have := hl.inj _ _ c d hc hd hcd; omega

theorem node_some {h : LHeap} {a : Nat} {n : LNode} (hn : h.nodes a = some n) :
    h.node (some a) = .ok n := by
  simp [LHeap.node, hn]

/-- Walking from the `k`-th node leads to the `k+n`-th. -/
theorem walk_eq {h : LHeap} {cs : List (Nat × Nat)} (hl : Linked h.nodes cs) :
    ∀ n k, lnetWalk h n ((cs[k]?).map Prod.fst) = .ok ((cs[k + n]?).map Prod.fst)
  | 0, k => by simp [lnetWalk]
  | n + 1, k => by
    cases hk : cs[k]? with
    | none =>
      have : cs[k + (n + 1)]? = none := by
        rw [List.getElem?_eq_none_iff] at hk ⊢; omega
      rw [this]; rfl
    | some c =>
      simp only [Option.map_some, lnetWalk]
      rw [node_some (hl.node k c hk)]
      have := walk_eq hl n (k + 1)
      rw [show k + (n + 1) = k + 1 + n by omega]
      exact this

/-- Bookkeeping shared by the cases of an insertion. -/
theorem NetRep.insert_of {h h' : LHeap} {net net' : LNet} {cs : List (Nat × Nat)} {p l : Nat}
    {info : LInfo} (hr : NetRep h net cs) (hne : cs ≠ []) (hp1 : 1 ≤ p) (hp : p ≤ cs.length)
    (hl : h.layers l = some info) (hlt : l < h.nextLayer)
    (hnew : ∀ (i : Nat) (c : Nat × Nat), cs[i]? = some c → c.2 ≠ l)
    (hlink : Linked h'.nodes (cs.insertIdx p (h.nextNode, l)))
    (e1 : h'.layers = h.layers) (e2 : h'.nextLayer = h.nextLayer)
    (e3 : h'.nextNode = h.nextNode + 1)
    (t : net'.tail = net.tail) (cnt : net'.nLayers = net.nLayers + 1)
    (hd : net'.head = if p = cs.length then some h.nextNode else net.head)
    (out : net'.output = if p = cs.length then some l else net.output)
    (no : net'.nOutputs = if p = cs.length then info.nOutputs else net.nOutputs) :
    NetRep h' net' (cs.insertIdx p (h.nextNode, l)) := by
  have hlen : (cs.insertIdx p (h.nextNode, l)).length = cs.length + 1 :=
    List.length_insertIdx_of_le_length hp _
  have hpos : 0 < cs.length := List.length_pos_iff.2 hne
  have hlast : (cs.insertIdx p (h.nextNode, l))[cs.length]? =
      if p = cs.length then some (h.nextNode, l) else cs[cs.length - 1]? := by
    by_cases hpl : p = cs.length
    · rw [if_pos hpl, ← hpl, List.getElem?_insertIdx_self, if_pos hp]
    · rw [if_neg hpl, List.getElem?_insertIdx_of_gt (by omega)]
  refine ⟨hlink, ?_, ?_, ?_, ?_, ?_, ?_, ?_, ?_⟩
  · intro i c hc
    rw [e3]
    rcases insertIdx_cases hc with ⟨_, hc⟩ | ⟨_, rfl⟩ | ⟨_, hc⟩
    · have := hr.fresh _ _ hc; omega
    · simp
    · have := hr.fresh _ _ hc; omega
  · rw [List.getElem?_insertIdx_of_lt (by omega), t, hr.tail]
  · rw [hlen, Nat.add_sub_cancel, hlast, hd]
    split
    · rfl
    · exact hr.head
  · rw [cnt, hr.count, hlen]; rfl
  · intro i j c d hc hd hcd
    rcases insertIdx_cases hc with ⟨hi, hc⟩ | ⟨hi, rfl⟩ | ⟨hi, hc⟩ <;>
      rcases insertIdx_cases hd with ⟨hj, hd⟩ | ⟨hj, rfl⟩ | ⟨hj, hd⟩
    · exact hr.linj i j c d hc hd hcd
    · exact absurd hcd (hnew _ _ hc)
    · have := hr.linj _ _ c d hc hd hcd; omega
    · exact absurd hcd.symm (hnew _ _ hd)
    · omega
    · exact absurd hcd.symm (hnew _ _ hd)
    · have := hr.linj _ _ c d hc hd hcd; omega
    · exact absurd hcd (hnew _ _ hc)
    · have := hr.linj _ _ c d hc hd hcd; omega
  · intro i c hc
    rw [e1, e2]
    rcases insertIdx_cases hc with ⟨_, hc⟩ | ⟨_, rfl⟩ | ⟨_, hc⟩
    · exact hr.live _ _ hc
    · exact ⟨⟨info, hl⟩, hlt⟩
    · exact hr.live _ _ hc
  · rw [hlen, Nat.add_sub_cancel, hlast, out]
    split
    · rfl
    · exact hr.output
  · intro c i hc hi
    rw [hlen, Nat.add_sub_cancel, hlast] at hc
    rw [no]
    rw [e1] at hi
    by_cases hpl : p = cs.length
    · rw [if_pos hpl] at hc ⊢
      obtain rfl : (h.nextNode, l) = c := by simpa using hc
      rw [hl] at hi
      obtain rfl : info = i := by simpa using hi
      rfl
    · rw [if_neg hpl] at hc ⊢
      exact hr.outs c i hc hi

/-- What an insertion does not touch. -/
structure InsFrame (h h' : LHeap) (net net' : LNet) (cs : List (Nat × Nat)) : Prop where
  layers : h'.layers = h.layers
  nextLayer : h'.nextLayer = h.nextLayer
  nextNode : h'.nextNode = h.nextNode + 1
  nodes : ∀ a, a ≠ h.nextNode → (∀ (i : Nat) (c : Nat × Nat), cs[i]? = some c → c.1 ≠ a) →
    h'.nodes a = h.nodes a

theorem insert_rep {h : LHeap} {net : LNet} {cs : List (Nat × Nat)} {l : Nat} {info : LInfo}
    {pos : Int} (hr : NetRep h net cs) (hne : cs ≠ []) (hp1 : 1 ≤ pos)
    (hl : h.layers l = some info) (hlt : l < h.nextLayer)
    (hnew : ∀ (i : Nat) (c : Nat × Nat), cs[i]? = some c → c.2 ≠ l) :
    ∃ h' net', lnetInsert h net l pos = .ok (h', net') ∧
      NetRep h' net' (cs.insertIdx (min pos.toNat cs.length) (h.nextNode, l)) ∧
      InsFrame h h' net net' cs ∧ net'.nInputs = net.nInputs := by
  have hpos : 0 < cs.length := List.length_pos_iff.2 hne
  obtain ⟨q, hq⟩ : ∃ q, pos.toNat = q + 1 := ⟨pos.toNat - 1, by omega⟩
  have h0 : cs[0]? = some cs[0] := List.getElem?_eq_getElem hpos
  have hlast : cs[cs.length - 1]? = some cs[cs.length - 1] :=
    List.getElem?_eq_getElem (by omega)
  have hhead : net.head = some cs[cs.length - 1].1 := by rw [hr.head, hlast]; rfl
  have htail : net.tail = some cs[0].1 := by rw [hr.tail, h0]; rfl
  have hw : lnetWalk h pos.toNat net.tail = .ok ((cs[pos.toNat]?).map Prod.fst) := by
    rw [hr.tail]; simpa using walk_eq hr.linked pos.toNat 0
  have hcond : ¬ (net.head = none ∨ net.tail = none) := by rw [hhead, htail]; simp
  have hA : ∀ (i : Nat) (c : Nat × Nat), cs[i]? = some c → c.1 ≠ h.nextNode := by
    intro i c hc; have := hr.fresh _ _ hc; omega
  have hlay : h.layer l = .ok info := by simp [LHeap.layer, hl]
  unfold lnetInsert
  simp only [hlay, hw, if_neg hcond, bind, Except.bind]
  rcases Nat.lt_or_ge pos.toNat cs.length with hlt' | hge
  · -- middle
    have hmin : min pos.toNat cs.length = pos.toNat := by omega
    rw [hmin]
    set p := pos.toNat with hpdef
    have hcp : cs[p]? = some cs[p] := List.getElem?_eq_getElem hlt'
    have hcq : cs[q]? = some cs[q] := List.getElem?_eq_getElem (by omega)
    have hnp := hr.linked.node _ _ hcp
    have hnq := hr.linked.node _ _ hcq
    have hnx : lnxt cs p = some cs[q].1 := by rw [hq]; simp [lnxt, hcq]
    rw [hnx] at hnp
    have hqp : cs[q].1 ≠ cs[p].1 := by
      intro he
      have := hr.linked.inj _ _ _ _ hcq hcp he
      omega
    have ha1 := hA _ _ hcp
    have ha2 := hA _ _ hcq
    rw [hcp]
    have heq : lnetInsertAt h net l info (some cs[p].1) = .ok
        ({ h with
            nodes := fun b => if b = cs[q].1 then
                some ⟨cs[q].2, some h.nextNode, lnxt cs q⟩
              else if b = cs[p].1 then
                some ⟨cs[p].2, (cs[p + 1]?).map Prod.fst, some h.nextNode⟩
              else if b = h.nextNode then some ⟨l, some cs[p].1, some cs[q].1⟩
              else h.nodes b
            nextNode := h.nextNode + 1 },
         { net with nLayers := net.nLayers + 1 }) := by
      simp [lnetInsertAt, LHeap.node, hnp, LHeap.newNode, LHeap.setNode, bind, Except.bind, pure,
        Except.pure, ha2, ha1.symm, hqp, hnq]
    refine ⟨_, _, heq, ?_, ⟨rfl, rfl, rfl, ?_⟩, rfl⟩
    · refine hr.insert_of hne (by omega) (by omega) hl hlt hnew ?_ rfl rfl rfl rfl rfl ?_ ?_ ?_
      · refine hr.linked.insert (by omega) (by omega) hA ?_ ?_ ?_ ?_
        · have hqq : p - 1 = q := by omega
          rw [hqq, hcp, hcq]
          simp [ha1.symm, ha2.symm]
        · intro c hc
          obtain rfl : cs[p] = c := by rw [hcp] at hc; simpa using hc
          simp [hqp.symm]
        · intro c hc
          have hqq : p - 1 = q := by omega
          rw [hqq] at hc ⊢
          obtain rfl : cs[q] = c := by rw [hcq] at hc; simpa using hc
          simp
        · intro i c hc hi1 hi2
          have h1 : c.1 ≠ cs[q].1 := fun he => by
            have := hr.linked.inj _ _ _ _ hc hcq he; omega
          have h2 : c.1 ≠ cs[p].1 := fun he => by
            have := hr.linked.inj _ _ _ _ hc hcp he; omega
          simp [h1, h2, hA _ _ hc]
      · rw [if_neg (by omega)]
      · rw [if_neg (by omega)]
      · rw [if_neg (by omega)]
    · intro a ha hno
      simp [ha, (hno _ _ hcp).symm, (hno _ _ hcq).symm]
  · -- new head
    have hmin : min pos.toNat cs.length = cs.length := by omega
    have hnone : cs[pos.toNat]? = none := List.getElem?_eq_none hge
    rw [hmin, hnone]
    have hnl := hr.linked.node _ _ hlast
    have hpl : cs.length - 1 + 1 = cs.length := by omega
    have hnl0 : cs[cs.length]? = none := by simp
    rw [hpl, hnl0] at hnl
    have ha := hA _ _ hlast
    have heq : lnetInsertAt h net l info none = .ok
        ({ h with
            nodes := fun b => if b = cs[cs.length - 1].1 then
                some ⟨cs[cs.length - 1].2, some h.nextNode, lnxt cs (cs.length - 1)⟩
              else if b = h.nextNode then some ⟨l, none, some cs[cs.length - 1].1⟩
              else h.nodes b
            nextNode := h.nextNode + 1 },
         { net with head := some h.nextNode, nOutputs := info.nOutputs, output := some l,
                    nLayers := net.nLayers + 1 }) := by
      simp [lnetInsertAt, LHeap.node, hnl, LHeap.newNode, LHeap.setNode, bind, Except.bind, pure,
        Except.pure, ha, hhead]
    refine ⟨_, _, heq, ?_, ⟨rfl, rfl, rfl, ?_⟩, rfl⟩
    · refine hr.insert_of hne (by omega) (by omega) hl hlt hnew ?_ rfl rfl rfl rfl rfl ?_ ?_ ?_
      · refine hr.linked.insert (by omega) (by omega) hA ?_ ?_ ?_ ?_
        · simp [ha.symm, hlast]
        · intro c hc
          simp at hc
        · intro c hc
          obtain rfl : cs[cs.length - 1] = c := by rw [hlast] at hc; simpa using hc
          simp
        · intro i c hc hi1 hi2
          have h1 : c.1 ≠ cs[cs.length - 1].1 := fun he => by
            have := hr.linked.inj _ _ _ _ hc hlast he; omega
          simp [h1, hA _ _ hc]
      · rw [if_pos rfl]
      · rw [if_pos rfl]
      · rw [if_pos rfl]
    · intro a ha' hno
      simp [ha', (hno _ _ hlast).symm]

/-- Inserting into an empty network, at any position. -/
theorem insert_empty {h : LHeap} {net : LNet} {l : Nat} {info : LInfo} (pos : Int)
    (hr : NetRep h net []) (hl : h.layers l = some info) (hlt : l < h.nextLayer) :
    ∃ h' net', lnetInsert h net l pos = .ok (h', net') ∧
      NetRep h' net' [(h.nextNode, l)] ∧ InsFrame h h' net net' [] ∧
      net'.nInputs = info.nInputs := by
  have hcond : net.head = none ∨ net.tail = none := Or.inl (by rw [hr.head]; rfl)
  have hcount := hr.count
  have hlay : h.layer l = .ok info := by simp [LHeap.layer, hl]
  unfold lnetInsert
  simp only [hlay, if_pos hcond, bind, Except.bind]
  refine ⟨_, _, rfl, ?_, ⟨rfl, rfl, rfl, ?_⟩, rfl⟩
  · refine ⟨⟨?_, ?_⟩, ?_, rfl, rfl, ?_, ?_, ?_, rfl, ?_⟩
    · intro i c hc
      rw [List.getElem?_cons] at hc
      split at hc
      · obtain rfl : (h.nextNode, l) = c := by simpa using hc
        subst_vars
        simp [LHeap.newNode, lnxt]
      · simp at hc
    · intro i j c d hc hd _
      rw [List.getElem?_cons] at hc hd
      split at hc <;> split at hd <;> simp_all
    · intro i c hc
      rw [List.getElem?_cons] at hc
      split at hc
      · obtain rfl : (h.nextNode, l) = c := by simpa using hc
        simp [LHeap.newNode]
      · simp at hc
    · simp [hcount]
    · intro i j c d hc hd _
      rw [List.getElem?_cons] at hc hd
      split at hc <;> split at hd <;> simp_all
    · intro i c hc
      rw [List.getElem?_cons] at hc
      split at hc
      · obtain rfl : (h.nextNode, l) = c := by simpa using hc
        exact ⟨⟨info, hl⟩, hlt⟩
      · simp at hc
    · intro c i hc hi
      obtain rfl : (h.nextNode, l) = c := by simpa using hc
      obtain rfl : info = i := by simpa [LHeap.newNode, hl] using hi
      rfl
  · intro a ha _
    simp [LHeap.newNode, ha]

/-- Inserting at position zero (or a negative one) of a network that has layers follows a NULL
pointer. -/
theorem insert_front {h : LHeap} {net : LNet} {cs : List (Nat × Nat)} {l : Nat} {info : LInfo}
    {pos : Int} (hr : NetRep h net cs) (hne : cs ≠ []) (hp : pos ≤ 0)
    (hl : h.layers l = some info) : lnetInsert h net l pos = .error .ub := by
  have hpos : 0 < cs.length := List.length_pos_iff.2 hne
  have h0 : cs[0]? = some cs[0] := List.getElem?_eq_getElem hpos
  have hlast : cs[cs.length - 1]? = some cs[cs.length - 1] :=
    List.getElem?_eq_getElem (by omega)
  have hhead : net.head = some cs[cs.length - 1].1 := by rw [hr.head, hlast]; rfl
  have htail : net.tail = some cs[0].1 := by rw [hr.tail, h0]; rfl
  have hcond : ¬ (net.head = none ∨ net.tail = none) := by rw [hhead, htail]; simp
  have hlay : h.layer l = .ok info := by simp [LHeap.layer, hl]
  have hA : cs[0].1 ≠ h.nextNode := by have := hr.fresh _ _ h0; omega
  have hn0 := hr.linked.node _ _ h0
  have hz : pos.toNat = 0 := by omega
  unfold lnetInsert
  simp only [hlay, if_neg hcond, bind, Except.bind, hz, lnetWalk]
  simp [htail, lnetInsertAt, LHeap.node, hn0, LHeap.newNode, LHeap.setNode, bind, Except.bind, hA.symm, lnxt]

/-- What a removal does to everything else: one node and one layer are freed. -/
structure RemFrame (h h' : LHeap) (net net' : LNet) (cs : List (Nat × Nat)) (p : Nat) :
    Prop where
  layers : ∀ c, cs[p]? = some c → h'.layers = fun b => if b = c.2 then none else h.layers b
  nextLayer : h'.nextLayer = h.nextLayer
  nextNode : h'.nextNode = h.nextNode
  freed : ∀ c, cs[p]? = some c → h'.nodes c.1 = none
  nodes : ∀ a, (∀ (i : Nat) (c : Nat × Nat), cs[i]? = some c → c.1 ≠ a) →
    h'.nodes a = h.nodes a
  ins : net'.nInputs = net.nInputs

/-- Bookkeeping shared by the cases of a removal. -/
theorem NetRep.erase_of {h h' : LHeap} {net net' : LNet} {cs : List (Nat × Nat)} {p : Nat}
    (hr : NetRep h net cs) (hlen2 : 2 ≤ cs.length) (hp : p < cs.length)
    (hlink : Linked h'.nodes (cs.eraseIdx p)) (hf : RemFrame h h' net net' cs p)
    (t : net'.tail = if p = 0 then (cs[1]?).map Prod.fst else net.tail)
    (cnt : net'.nLayers = net.nLayers - 1)
    (hd : net'.head = if p = cs.length - 1 then (cs[cs.length - 2]?).map Prod.fst else net.head)
    (out : net'.output =
      if p = cs.length - 1 then (cs[cs.length - 2]?).map Prod.snd else net.output)
    (no : if p = cs.length - 1 then
        ∀ c info, cs[cs.length - 2]? = some c → h.layers c.2 = some info →
          net'.nOutputs = info.nOutputs
      else net'.nOutputs = net.nOutputs) :
    NetRep h' net' (cs.eraseIdx p) := by
  have hlen : (cs.eraseIdx p).length = cs.length - 1 := List.length_eraseIdx_of_lt hp
  have hcp : cs[p]? = some cs[p] := List.getElem?_eq_getElem hp
  have hlay := hf.layers _ hcp
  have hlast : (cs.eraseIdx p)[cs.length - 2]? =
      if p = cs.length - 1 then cs[cs.length - 2]? else cs[cs.length - 1]? := by
    by_cases hpl : p = cs.length - 1
    · rw [if_pos hpl, List.getElem?_eraseIdx_of_lt (by omega)]
    · rw [if_neg hpl, List.getElem?_eraseIdx_of_ge (by omega)]
      congr 1; omega
  have hl2 : cs.length - 1 - 1 = cs.length - 2 := by omega
  refine ⟨hlink, ?_, ?_, ?_, ?_, ?_, ?_, ?_, ?_⟩
  · intro i c hc
    rw [hf.nextNode]
    rcases eraseIdx_cases hc with ⟨_, hc⟩ | ⟨_, hc⟩ <;> exact hr.fresh _ _ hc
  · rw [t]
    by_cases hp0 : p = 0
    · rw [if_pos hp0, List.getElem?_eraseIdx_of_ge (by omega)]
    · rw [if_neg hp0, List.getElem?_eraseIdx_of_lt (by omega), hr.tail]
  · rw [hlen, hl2, hlast, hd]
    split
    · rfl
    · exact hr.head
  · rw [cnt, hr.count, hlen]; omega
  · intro i j c d hc hd hcd
    rcases eraseIdx_cases hc with ⟨_, hc⟩ | ⟨_, hc⟩ <;>
      rcases eraseIdx_cases hd with ⟨_, hd⟩ | ⟨_, hd⟩ <;>
      · have := hr.linj _ _ c d hc hd hcd; omega
  · intro i c hc
    have key : ∀ k, k ≠ p → cs[k]? = some c →
        (∃ info, h'.layers c.2 = some info) ∧ c.2 < h'.nextLayer := by
      intro k hk hck
      have hne : c.2 ≠ cs[p].2 := fun he => hk (hr.linj _ _ _ _ hck hcp he)
      rw [hlay, hf.nextLayer]
      simpa [hne] using hr.live _ _ hck
    rcases eraseIdx_cases hc with ⟨h1, hc⟩ | ⟨h1, hc⟩
    · exact key _ (by omega) hc
    · exact key _ (by omega) hc
  · rw [hlen, hl2, hlast, out]
    split
    · rfl
    · exact hr.output
  · intro c i hc hi
    rw [hlen, hl2, hlast] at hc
    rw [hlay] at hi
    have hi' : h.layers c.2 = some i := by
      by_cases he : c.2 = cs[p].2
      · simp [he] at hi
      · simpa [he] using hi
    by_cases hpl : p = cs.length - 1
    · rw [if_pos hpl] at hc no
      exact no c i hc hi'
    · rw [if_neg hpl] at hc no
      rw [no]
      exact hr.outs c i hc hi'

theorem NetRep.pack {h h' : LHeap} {net net' : LNet} {cs : List (Nat × Nat)} {pos : Int} {p : Nat}
    (hr : NetRep h net cs) (hlen2 : 2 ≤ cs.length) (hp : p < cs.length)
    (heq : lnetRemove h net pos = .ok (h', net')) (hf : RemFrame h h' net net' cs p)
    (hlink : Linked h'.nodes (cs.eraseIdx p))
    (t : net'.tail = if p = 0 then (cs[1]?).map Prod.fst else net.tail)
    (cnt : net'.nLayers = net.nLayers - 1)
    (hd : net'.head = if p = cs.length - 1 then (cs[cs.length - 2]?).map Prod.fst else net.head)
    (out : net'.output =
      if p = cs.length - 1 then (cs[cs.length - 2]?).map Prod.snd else net.output)
    (no : if p = cs.length - 1 then
        ∀ c info, cs[cs.length - 2]? = some c → h.layers c.2 = some info →
          net'.nOutputs = info.nOutputs
      else net'.nOutputs = net.nOutputs) :
    ∃ h' net', lnetRemove h net pos = .ok (h', net') ∧
      NetRep h' net' (cs.eraseIdx p) ∧ RemFrame h h' net net' cs p :=
  ⟨h', net', heq, hr.erase_of hlen2 hp hlink hf t cnt hd out no, hf⟩

theorem remove_rep {h : LHeap} {net : LNet} {cs : List (Nat × Nat)} {pos : Int}
    (hr : NetRep h net cs) (hlen2 : 2 ≤ cs.length) (hp : pos.toNat < cs.length) :
    ∃ h' net', lnetRemove h net pos = .ok (h', net') ∧
      NetRep h' net' (cs.eraseIdx pos.toNat) ∧ RemFrame h h' net net' cs pos.toNat := by
  set p := pos.toNat with hpdef
  have hcp : cs[p]? = some cs[p] := List.getElem?_eq_getElem hp
  have hnp := hr.linked.node _ _ hcp
  have hw : lnetWalk h p net.tail = .ok (some cs[p].1) := by
    rw [hr.tail]
    have := walk_eq hr.linked p 0
    rw [Nat.zero_add, hcp] at this
    exact this
  obtain ⟨infop, hip⟩ := (hr.live _ _ hcp).1
  have hne : ∀ (i : Nat) (c : Nat × Nat), cs[i]? = some c → i ≠ p → c.1 ≠ cs[p].1 :=
    fun i c hc hi he => hi (hr.linked.inj _ _ _ _ hc hcp he)
  have hnel : ∀ (i : Nat) (c : Nat × Nat), cs[i]? = some c → i ≠ p → c.2 ≠ cs[p].2 :=
    fun i c hc hi he => hi (hr.linj _ _ _ _ hc hcp he)
  rcases Nat.lt_or_ge (p + 1) cs.length with hlt | hge
  · have hcn : cs[p + 1]? = some cs[p + 1] := List.getElem?_eq_getElem hlt
    have hnn := hr.linked.node _ _ hcn
    have hn1 := hne _ _ hcn (by omega)
    rw [hcn] at hnp
    cases hpz : p with
    | zero =>
      -- the input layer
      simp only [hpz] at *
      have heq : lnetRemove h net pos = .ok
          ({ h with
              layers := fun b => if b = cs[0].2 then none else h.layers b
              nodes := fun b => if b = cs[0].1 then none
                else if b = cs[1].1 then some ⟨cs[1].2, (cs[2]?).map Prod.fst, none⟩
                else h.nodes b },
           { net with tail := some cs[1].1, nLayers := net.nLayers - 1 }) := by
        simp [lnetRemove, ← hpdef, hw, LHeap.node, hnp, hnn, bind, Except.bind, pure, Except.pure,
          lnetUnlink, LHeap.setNode, LHeap.freeLayer, LHeap.freeNode, hip, hn1.symm, lnxt]
      refine hr.pack hlen2 (by omega) heq ?_ ?_ ?_ rfl ?_ ?_ ?_
      · refine ⟨?_, rfl, rfl, ?_, ?_, rfl⟩
        · intro c hc
          obtain rfl : cs[0] = c := by rw [hcp] at hc; simpa using hc
          rfl
        · intro c hc
          obtain rfl : cs[0] = c := by rw [hcp] at hc; simpa using hc
          simp
        · intro a ha
          simp [(ha _ _ hcp).symm, (ha _ _ hcn).symm]
      · refine hr.linked.erase (by omega) ?_ ?_ ?_
        · intro c hc
          obtain rfl : cs[1] = c := by simp only [Nat.zero_add] at hc; rw [hcn] at hc; simpa using hc
          simp [hn1, lnxt]
        · intro q c hq
          omega
        · intro i c hc h1 h2 _
          have e1 : c.1 ≠ cs[1].1 := fun he => h2 (hr.linked.inj _ _ _ _ hc hcn he)
          simp [hne _ _ hc h1, e1]
      · simp only [Nat.zero_add] at hcn
        simp [hcn]
      · rw [if_neg (by omega)]
      · rw [if_neg (by omega)]
      · rw [if_neg (by omega)]
    | succ q =>
      -- a layer in the middle
      simp only [hpz] at *
      have hcq : cs[q]? = some cs[q] := List.getElem?_eq_getElem (by omega)
      have hnq := hr.linked.node _ _ hcq
      have hq1 := hne _ _ hcq (by omega)
      have hqn : cs[q].1 ≠ cs[q + 1 + 1].1 := fun he => by
        have := hr.linked.inj _ _ _ _ hcq hcn he; omega
      have hlx : lnxt cs (q + 1) = some cs[q].1 := by simp [lnxt, hcq]
      rw [hlx] at hnp
      have heq : lnetRemove h net pos = .ok
          ({ h with
              layers := fun b => if b = cs[q + 1].2 then none else h.layers b
              nodes := fun b => if b = cs[q + 1].1 then none
                else if b = cs[q + 1 + 1].1 then
                  some ⟨cs[q + 1 + 1].2, (cs[q + 1 + 2]?).map Prod.fst, some cs[q].1⟩
                else if b = cs[q].1 then
                  some ⟨cs[q].2, some cs[q + 1 + 1].1, lnxt cs q⟩
                else h.nodes b },
           { net with nLayers := net.nLayers - 1 }) := by
        simp [lnetRemove, ← hpdef, hw, LHeap.node, hnp, hnn, hnq, bind, Except.bind, pure,
          Except.pure, lnetUnlink, LHeap.setNode, LHeap.freeLayer, LHeap.freeNode, hip,
          hn1.symm, hqn.symm, hq1.symm]
      refine hr.pack hlen2 (by omega) heq ?_ ?_ ?_ rfl ?_ ?_ ?_
      · refine ⟨?_, rfl, rfl, ?_, ?_, rfl⟩
        · intro c hc
          obtain rfl : cs[q + 1] = c := by rw [hcp] at hc; simpa using hc
          rfl
        · intro c hc
          obtain rfl : cs[q + 1] = c := by rw [hcp] at hc; simpa using hc
          simp
        · intro a ha
          simp [(ha _ _ hcp).symm, (ha _ _ hcn).symm, (ha _ _ hcq).symm]
      · refine hr.linked.erase (by omega) ?_ ?_ ?_
        · intro c hc
          obtain rfl : cs[q + 1 + 1] = c := by rw [hcn] at hc; simpa using hc
          simp [hn1, hlx]
        · intro r c hq hc
          obtain rfl : q = r := by omega
          obtain rfl : cs[q] = c := by rw [hcq] at hc; simpa using hc
          simp [hq1, hqn, hcn]
        · intro i c hc h1 h2 h3
          have e1 : c.1 ≠ cs[q + 1 + 1].1 := fun he => h2 (hr.linked.inj _ _ _ _ hc hcn he)
          have e2 : c.1 ≠ cs[q].1 := fun he => by
            have := hr.linked.inj _ _ _ _ hc hcq he; omega
          simp [hne _ _ hc h1, e1, e2]
      · rw [if_neg (by omega)]
      · rw [if_neg (by omega)]
      · rw [if_neg (by omega)]
      · rw [if_neg (by omega)]
  · -- the output layer
    obtain ⟨q, hq⟩ : ∃ q, p = q + 1 := ⟨p - 1, by omega⟩
    have hcn : cs[p + 1]? = none := List.getElem?_eq_none hge
    rw [hcn] at hnp
    simp only [hq] at *
    have hcq : cs[q]? = some cs[q] := List.getElem?_eq_getElem (by omega)
    have hnq := hr.linked.node _ _ hcq
    have hq1 := hne _ _ hcq (by omega)
    have hq2 := hnel _ _ hcq (by omega)
    have hlx : lnxt cs (q + 1) = some cs[q].1 := by simp [lnxt, hcq]
    rw [hlx] at hnp
    have hl2 : cs.length - 2 = q := by omega
    obtain ⟨infoq, hiq⟩ := (hr.live _ _ hcq).1
    have heq : lnetRemove h net pos = .ok
        ({ h with
            layers := fun b => if b = cs[q + 1].2 then none else h.layers b
            nodes := fun b => if b = cs[q + 1].1 then none
              else if b = cs[q].1 then some ⟨cs[q].2, none, lnxt cs q⟩
              else h.nodes b },
         { net with head := some cs[q].1, output := some cs[q].2, nOutputs := infoq.nOutputs,
                    nLayers := net.nLayers - 1 }) := by
      simp [lnetRemove, ← hpdef, hw, LHeap.node, hnp, hnq, bind, Except.bind, pure, Except.pure,
        lnetUnlink, LHeap.setNode, LHeap.freeLayer, LHeap.freeNode, LHeap.layer, hip, hiq,
        hq1.symm]
    refine hr.pack hlen2 (by omega) heq ?_ ?_ ?_ rfl ?_ ?_ ?_
    · refine ⟨?_, rfl, rfl, ?_, ?_, rfl⟩
      · intro c hc
        obtain rfl : cs[q + 1] = c := by rw [hcp] at hc; simpa using hc
        rfl
      · intro c hc
        obtain rfl : cs[q + 1] = c := by rw [hcp] at hc; simpa using hc
        simp
      · intro a ha
        simp [(ha _ _ hcp).symm, (ha _ _ hcq).symm]
    have hl2 : cs.length - 2 = q := by omega
    · refine hr.linked.erase (by omega) ?_ ?_ ?_
      · intro c hc
        rw [hcn] at hc; simp at hc
      · intro r c hq hc
        obtain rfl : q = r := by omega
        obtain rfl : cs[q] = c := by rw [hcq] at hc; simpa using hc
        simp [hq1, hcn]
      · intro i c hc h1 h2 h3
        have e2 : c.1 ≠ cs[q].1 := fun he => by
          have := hr.linked.inj _ _ _ _ hc hcq he; omega
        simp [hne _ _ hc h1, e2]
    · rw [if_neg (by omega)]
    · rw [if_pos (by omega), hl2, hcq]; rfl
    · rw [if_pos (by omega), hl2, hcq]; rfl
    · rw [if_pos (by omega)]
      intro c info hc hi
      rw [hl2, hcq] at hc
      obtain rfl : cs[q] = c := by simpa using hc
      rw [hiq] at hi
      obtain rfl : infoq = info := by simpa using hi
      rfl

/-- Removing where there is no layer, or the only layer, ends the program. -/
theorem remove_exit {h : LHeap} {net : LNet} {cs : List (Nat × Nat)} {pos : Int}
    (hr : NetRep h net cs) (hp : cs.length ≤ pos.toNat ∨ cs.length ≤ 1) :
    lnetRemove h net pos = .error .exit := by
  have hw : lnetWalk h pos.toNat net.tail = .ok ((cs[pos.toNat]?).map Prod.fst) := by
    rw [hr.tail]; simpa using walk_eq hr.linked pos.toNat 0
  rcases Nat.lt_or_ge pos.toNat cs.length with hlt | hge
  · have h0 : pos.toNat = 0 := by omega
    have hcp : cs[0]? = some cs[0] := List.getElem?_eq_getElem (by omega)
    have hc1 : cs[0 + 1]? = none := List.getElem?_eq_none (by omega)
    have hn := hr.linked.node _ _ hcp
    rw [hc1] at hn
    rw [h0, hcp] at hw
    simp [lnetRemove, h0, hw, LHeap.node, hn, lnxt, bind, Except.bind]
  · rw [List.getElem?_eq_none hge] at hw
    simp [lnetRemove, hw, bind, Except.bind]

/-! ## Specification -/

/-- The layers of the nodes `cs` are `infos`. -/
def Shows (h : LHeap) (cs : List (Nat × Nat)) (infos : List LInfo) : Prop :=
  cs.map (fun c => h.layers c.2) = infos.map some

/-- Every live node and every live layer is in the list. -/
def NoLeak (h : LHeap) (cs : List (Nat × Nat)) : Prop :=
  (∀ a n, h.nodes a = some n → ∃ c, c ∈ cs ∧ c.1 = a) ∧
    ∀ l i, h.layers l = some i → ∃ c, c ∈ cs ∧ c.2 = l

/-- The network is a well formed list showing the layers `infos`, from input to output. -/
def NetIs (h : LHeap) (net : LNet) (infos : List LInfo) : Prop :=
  ∃ cs, NetRep h net cs ∧ Shows h cs infos

/-- Insertion into a sequence of layers.  The program has no layer before the input layer to link
to, so inserting there is undefined behaviour. -/
def specInsert (infos : List LInfo) (info : LInfo) (pos : Int) : Res (List LInfo) :=
  if infos = [] then .ok [info]
  else if pos ≤ 0 then .error .ub
  else .ok (infos.insertIdx (min pos.toNat infos.length) info)

/-- Removal from a sequence of layers: the position must exist and a layer must remain. -/
def specRemove (infos : List LInfo) (pos : Int) : Res (List LInfo) :=
  if infos.length ≤ pos.toNat ∨ infos.length ≤ 1 then .error .exit
  else .ok (infos.eraseIdx pos.toNat)

/-- Operations on a sequence of layers. -/
def specStep (infos : List LInfo) : LOp → Res (List LInfo)
  | .insert info pos => specInsert infos info pos
  | .push info => .ok (infos ++ [info])
  | .remove pos => specRemove infos pos
  | .pop => if infos.length ≤ 1 then .error .exit else .ok infos.dropLast

/-- A history of operations on a sequence of layers. -/
def specRun : List LOp → List LInfo → Res (List LInfo)
  | [], infos => .ok infos
  | o :: os, infos =>
    match specStep infos o with
    | .error e => .error e
    | .ok infos => specRun os infos

/-- The operation does not remove the input layer. -/
def LOp.keepsInput : LOp → Prop
  | .remove pos => 1 ≤ pos
  | _ => True

theorem Shows.length {h : LHeap} {cs : List (Nat × Nat)} {infos : List LInfo}
    (hs : Shows h cs infos) : cs.length = infos.length := by
  have := congrArg List.length hs
  simpa using this

theorem NoLeak.not_mem {h : LHeap} {cs : List (Nat × Nat)} (hn : NoLeak h cs) {a : Nat}
    (ha : ∀ (i : Nat) (c : Nat × Nat), cs[i]? = some c → c.1 ≠ a) : h.nodes a = none := by
  cases hx : h.nodes a with
  | none => rfl
  | some n =>
    obtain ⟨c, hc, rfl⟩ := hn.1 a n hx
    obtain ⟨i, hi⟩ := List.getElem?_of_mem hc
    exact absurd rfl (ha i c hi)

/-- Insertion keeps the heap free of leaks. -/
theorem NoLeak.insert {h h' : LHeap} {net net' : LNet} {cs : List (Nat × Nat)} {l p : Nat}
    {info : LInfo} (hp : p ≤ cs.length) (hn : NoLeak h cs)
    (hf : InsFrame (h.newLayer info).2 h' net net' cs) (hl : l = h.nextLayer) :
    NoLeak h' (cs.insertIdx p (h.nextNode, l)) := by
  have hmem : ∀ c, c ∈ cs.insertIdx p (h.nextNode, l) ↔ c = (h.nextNode, l) ∨ c ∈ cs :=
    fun c => List.mem_insertIdx hp
  constructor
  · intro a n ha
    by_cases hx : ∀ (i : Nat) (c : Nat × Nat), cs[i]? = some c → c.1 ≠ a
    · by_cases ha' : a = h.nextNode
      · exact ⟨_, (hmem _).2 (Or.inl rfl), ha'.symm⟩
      · rw [hf.nodes a ha' hx] at ha
        rw [show (h.newLayer info).2.nodes a = h.nodes a from rfl, hn.not_mem hx] at ha
        simp at ha
    · simp only [not_forall, not_not] at hx
      obtain ⟨i, c, hc, rfl⟩ := hx
      exact ⟨c, (hmem _).2 (Or.inr (List.mem_of_getElem? hc)), rfl⟩
  · intro b i hb
    rw [hf.layers] at hb
    by_cases hbl : b = h.nextLayer
    · exact ⟨_, (hmem _).2 (Or.inl rfl), by simp [hbl, hl]⟩
    · simp only [LHeap.newLayer, hbl, if_false] at hb
      obtain ⟨c, hc, rfl⟩ := hn.2 b i hb
      exact ⟨c, (hmem _).2 (Or.inr hc), rfl⟩

/-- Removal keeps the heap free of leaks. -/
theorem NoLeak.remove {h h' : LHeap} {net net' : LNet} {cs : List (Nat × Nat)} {p : Nat}
    (hp : p < cs.length) (hn : NoLeak h cs) (hf : RemFrame h h' net net' cs p) :
    NoLeak h' (cs.eraseIdx p) := by
  have hcp : cs[p]? = some cs[p] := List.getElem?_eq_getElem hp
  have hmem : ∀ (i : Nat) (c : Nat × Nat), cs[i]? = some c → i ≠ p → c ∈ cs.eraseIdx p := by
    intro i c hc hi
    rcases Nat.lt_or_ge i p with h1 | h1
    · exact List.mem_of_getElem? (i := i) (by rw [List.getElem?_eraseIdx_of_lt h1]; exact hc)
    · refine List.mem_of_getElem? (i := i - 1) ?_
      rw [List.getElem?_eraseIdx_of_ge (by omega), show i - 1 + 1 = i by omega]; exact hc
  constructor
  · intro a n ha
    by_cases hx : ∀ (i : Nat) (c : Nat × Nat), cs[i]? = some c → c.1 ≠ a
    · rw [hf.nodes a hx, hn.not_mem hx] at ha
      simp at ha
    · simp only [not_forall, not_not] at hx
      obtain ⟨i, c, hc, rfl⟩ := hx
      by_cases hi : i = p
      · subst hi
        rw [hf.freed c hc] at ha
        simp at ha
      · exact ⟨c, hmem _ _ hc hi, rfl⟩
  · intro b i hb
    rw [hf.layers _ hcp] at hb
    by_cases hbl : b = cs[p].2
    · simp [hbl] at hb
    · simp only [hbl, if_false] at hb
      obtain ⟨c, hc, rfl⟩ := hn.2 b i hb
      obtain ⟨k, hk⟩ := List.getElem?_of_mem hc
      refine ⟨c, hmem k c hk ?_, rfl⟩
      rintro rfl
      rw [hcp] at hk
      exact hbl (by rw [← Option.some.inj hk])

theorem NetRep.newLayer {h : LHeap} {net : LNet} {cs : List (Nat × Nat)} (hr : NetRep h net cs)
    (info : LInfo) : NetRep (h.newLayer info).2 net cs := by
  have hk : ∀ (i : Nat) (c : Nat × Nat), cs[i]? = some c →
      (h.newLayer info).2.layers c.2 = h.layers c.2 := by
    intro i c hc
    have := (hr.live i c hc).2
    simp [LHeap.newLayer, Nat.ne_of_lt this]
  refine ⟨hr.linked, hr.fresh, hr.tail, hr.head, hr.count, hr.linj, ?_, hr.output, ?_⟩
  · intro i c hc
    rw [hk i c hc]
    exact ⟨(hr.live i c hc).1, Nat.lt_succ_of_lt (hr.live i c hc).2⟩
  · intro c i hc hi
    rw [hk _ c hc] at hi
    exact hr.outs c i hc hi

theorem Shows.newLayer {h : LHeap} {net : LNet} {cs : List (Nat × Nat)} {infos : List LInfo}
    (hr : NetRep h net cs) (hs : Shows h cs infos) (info : LInfo) :
    Shows (h.newLayer info).2 cs infos := by
  unfold Shows at *
  rw [← hs]
  apply List.map_congr_left
  intro c hc
  obtain ⟨i, hi⟩ := List.getElem?_of_mem hc
  simp [LHeap.newLayer, Nat.ne_of_lt (hr.live i c hi).2]

theorem Shows.insert {h h' : LHeap} {cs : List (Nat × Nat)} {infos : List LInfo} {l A p : Nat}
    {info : LInfo} (hs : Shows h cs infos) (hl : h.layers l = some info)
    (he : h'.layers = h.layers) : Shows h' (cs.insertIdx p (A, l)) (infos.insertIdx p info) := by
  unfold Shows at *
  rw [List.map_insertIdx, List.map_insertIdx, ← hs, he]
  simp only [hl]

theorem Shows.remove {h h' : LHeap} {net net' : LNet} {cs : List (Nat × Nat)}
    {infos : List LInfo} {p : Nat} (hr : NetRep h net cs) (hp : p < cs.length)
    (hs : Shows h cs infos) (hf : RemFrame h h' net net' cs p) :
    Shows h' (cs.eraseIdx p) (infos.eraseIdx p) := by
  unfold Shows at *
  have hcp : cs[p]? = some cs[p] := List.getElem?_eq_getElem hp
  rw [← List.eraseIdx_map some, ← hs, List.eraseIdx_map]
  apply List.map_congr_left
  intro c hc
  obtain ⟨i, hi⟩ := List.getElem?_of_mem hc
  rw [hf.layers _ hcp]
  have : c.2 ≠ cs[p].2 := by
    intro he
    rcases eraseIdx_cases hi with ⟨h1, hi⟩ | ⟨h1, hi⟩
    · have := hr.linj _ _ _ _ hi hcp he; omega
    · have := hr.linj _ _ _ _ hi hcp he; omega
  simp [this]

/-- The outcome of one operation against its specification. -/
def StepOk (h : LHeap) (net : LNet) (cs : List (Nat × Nat)) (keeps : Prop)
    (r : Res (LHeap × LNet)) : Res (List LInfo) → Prop
  | .error e => r = .error e
  | .ok infos' => ∃ h' net' cs', r = .ok (h', net') ∧ NetRep h' net' cs' ∧ Shows h' cs' infos' ∧
      (NoLeak h cs → NoLeak h' cs') ∧ (keeps → NetIn h net cs → NetIn h' net' cs')

theorem insert_spec {h : LHeap} {net : LNet} {cs : List (Nat × Nat)} {infos : List LInfo}
    (hr : NetRep h net cs) (hs : Shows h cs infos) (info : LInfo) (pos : Int) :
    StepOk h net cs True (lnetInsert (h.newLayer info).2 net (h.newLayer info).1 pos)
      (specInsert infos info pos) := by
  have hr' := hr.newLayer info
  have hs' := Shows.newLayer hr hs info
  have hl : (h.newLayer info).2.layers (h.newLayer info).1 = some info := by
    simp [LHeap.newLayer]
  have hlt : (h.newLayer info).1 < (h.newLayer info).2.nextLayer := Nat.lt_succ_self _
  have hlen := hs.length
  unfold specInsert
  by_cases he : infos = []
  · rw [if_pos he]
    have hc : cs = [] := List.eq_nil_of_length_eq_zero (by rw [hlen, he]; rfl)
    subst hc he
    obtain ⟨h', net', e, hrep, hf, hin⟩ := insert_empty pos hr' hl hlt
    refine ⟨h', net', _, e, hrep, ?_, ?_, ?_⟩
    · have := hs'.insert (p := 0) (A := (h.newLayer info).2.nextNode) hl hf.layers
      simpa using this
    · intro hn
      have := hn.insert (p := 0) (l := h.nextLayer) (Nat.le_refl _) hf rfl
      exact this
    · intro _ _ c i hc hi
      obtain rfl : _ = c := by simpa using hc
      rw [hf.layers, hl] at hi
      rw [hin, Option.some.inj hi]
  · rw [if_neg he]
    have hc : cs ≠ [] := by
      rintro rfl
      exact he (List.eq_nil_of_length_eq_zero (by rw [← hlen]; rfl))
    by_cases hp : pos ≤ 0
    · rw [if_pos hp]
      exact insert_front hr' hc hp hl
    · rw [if_neg hp]
      have hnew : ∀ (i : Nat) (c : Nat × Nat), cs[i]? = some c → c.2 ≠ (h.newLayer info).1 :=
        fun i c hc => Nat.ne_of_lt (hr.live i c hc).2
      obtain ⟨h', net', e, hrep, hf, hin⟩ := insert_rep (pos := pos) hr' hc (by omega) hl hlt hnew
      refine ⟨h', net', _, e, hrep, ?_, ?_, ?_⟩
      · rw [← hlen]
        exact hs'.insert hl hf.layers
      · intro hn
        exact NoLeak.insert (h := h) (Nat.min_le_right _ _) hn hf rfl
      · intro _ hi c i hc' hi'
        have h0 : 0 < min pos.toNat cs.length := by
          have : 0 < cs.length := List.length_pos_iff.2 hc
          omega
        rw [List.getElem?_insertIdx_of_lt h0] at hc'
        rw [hin]
        refine hi c i hc' ?_
        rw [hf.layers] at hi'
        rwa [show (h.newLayer info).2.layers c.2 = h.layers c.2 by
          simp [LHeap.newLayer, Nat.ne_of_lt (hr.live _ _ hc').2]] at hi'

theorem remove_spec {h : LHeap} {net : LNet} {cs : List (Nat × Nat)} {infos : List LInfo}
    (hr : NetRep h net cs) (hs : Shows h cs infos) (pos : Int) :
    StepOk h net cs (1 ≤ pos) (lnetRemove h net pos) (specRemove infos pos) := by
  have hlen := hs.length
  unfold specRemove
  rw [← hlen]
  split
  · exact remove_exit hr ‹_›
  · rename_i hp
    simp only [not_or, Nat.not_le] at hp
    obtain ⟨h', net', e, hrep, hf⟩ := remove_rep hr (by omega) hp.1
    refine ⟨h', net', _, e, hrep, hs.remove hr hp.1 hf, fun hn => hn.remove hp.1 hf, ?_⟩
    intro h1 hi c i hc hci
    rw [List.getElem?_eraseIdx_of_lt (by omega)] at hc
    rw [hf.ins]
    refine hi c i hc ?_
    rw [hf.layers _ (List.getElem?_eq_getElem hp.1)] at hci
    by_cases hb : c.2 = cs[pos.toNat].2
    · simp [hb] at hci
    · simpa [hb] using hci

theorem step_spec {h : LHeap} {net : LNet} {cs : List (Nat × Nat)} {infos : List LInfo}
    (hr : NetRep h net cs) (hs : Shows h cs infos) (o : LOp) :
    StepOk h net cs o.keepsInput (lnetStep h net o) (specStep infos o) := by
  have hlen := hs.length
  cases o with
  | insert info pos => exact insert_spec hr hs info pos
  | push info =>
    have := insert_spec hr hs info net.nLayers
    have e : specInsert infos info net.nLayers = .ok (infos ++ [info]) := by
      unfold specInsert
      rw [hr.count, hlen]
      by_cases he : infos = []
      · simp [he]
      · have : 0 < infos.length := List.length_pos_iff.2 he
        rw [if_neg he, if_neg (by omega)]
        simp
    rw [e] at this
    exact this
  | remove pos => exact remove_spec hr hs pos
  | pop =>
    have := remove_spec hr hs (net.nLayers - 1)
    have hpn : (net.nLayers - 1).toNat = infos.length - 1 := by rw [hr.count, hlen]; omega
    show StepOk h net cs True (lnetRemove h net (net.nLayers - 1)) _
    unfold specRemove at this
    rw [hpn] at this
    simp only [specStep]
    by_cases h1 : infos.length ≤ 1
    · rw [if_pos h1]
      rw [if_pos (Or.inr h1)] at this
      exact this
    · rw [if_neg h1]
      rw [if_neg (by omega), List.eraseIdx_eq_dropLast (by omega)] at this
      obtain ⟨h', net', cs', a, b, c, d, e⟩ := this
      exact ⟨h', net', cs', a, b, c, d, fun _ => e (by rw [hr.count, hlen]; omega)⟩

theorem run_spec : ∀ (os : List LOp) {h : LHeap} {net : LNet} {cs : List (Nat × Nat)}
    {infos : List LInfo}, NetRep h net cs → Shows h cs infos →
    StepOk h net cs (∀ o ∈ os, o.keepsInput) (lnetRun os h net) (specRun os infos)
  | [], h, net, cs, infos, hr, hs => ⟨h, net, cs, rfl, hr, hs, id, fun _ => id⟩
  | o :: os, h, net, cs, infos, hr, hs => by
    have h1 := step_spec hr hs o
    unfold lnetRun specRun
    cases hso : specStep infos o with
    | error e => rw [hso] at h1; rw [h1]; rfl
    | ok infos' =>
      rw [hso] at h1
      obtain ⟨h', net', cs', e, hr', hs', hl', hin'⟩ := h1
      rw [e]
      have h2 := run_spec os hr' hs'
      dsimp only
      cases hs2 : specRun os infos' with
      | error e => rw [hs2] at h2; exact h2
      | ok infos'' =>
        rw [hs2] at h2
        obtain ⟨h'', net'', cs'', e2, a, b, c, d⟩ := h2
        exact ⟨h'', net'', cs'', e2, a, b, fun hn => c (hl' hn),
          fun hk hi => d (fun o ho => hk o (List.mem_cons_of_mem _ ho))
            (hin' (hk o List.mem_cons_self) hi)⟩

/-! ## Copying and freeing -/

/-- The heap below the old allocation frontier is unchanged. -/
structure Grows (h h' : LHeap) : Prop where
  nodes : ∀ a, a < h.nextNode → h'.nodes a = h.nodes a
  layers : ∀ l, l < h.nextLayer → h'.layers l = h.layers l
  nextNode : h.nextNode ≤ h'.nextNode
  nextLayer : h.nextLayer ≤ h'.nextLayer

theorem Grows.refl (h : LHeap) : Grows h h := ⟨fun _ _ => rfl, fun _ _ => rfl, Nat.le_refl _, Nat.le_refl _⟩

/-- Pushing a new layer appends it and leaves the rest of the heap alone. -/
theorem push_rep {h : LHeap} {net : LNet} {cs : List (Nat × Nat)} {infos : List LInfo}
    (hr : NetRep h net cs) (hs : Shows h cs infos) (info : LInfo) (hin : NetIn h net cs) :
    ∃ h' net', lnetPush (h.newLayer info).2 net (h.newLayer info).1 = .ok (h', net') ∧
      NetRep h' net' (cs ++ [(h.nextNode, h.nextLayer)]) ∧
      Shows h' (cs ++ [(h.nextNode, h.nextLayer)]) (infos ++ [info]) ∧
      InsFrame (h.newLayer info).2 h' net net' cs ∧
      NetIn h' net' (cs ++ [(h.nextNode, h.nextLayer)]) := by
  have hr' := hr.newLayer info
  have hs' := Shows.newLayer hr hs info
  have hl : (h.newLayer info).2.layers (h.newLayer info).1 = some info := by
    simp [LHeap.newLayer]
  have hlt : (h.newLayer info).1 < (h.newLayer info).2.nextLayer := Nat.lt_succ_self _
  have hsh : ∀ h' : LHeap, h'.layers = (h.newLayer info).2.layers →
      Shows h' (cs ++ [(h.nextNode, h.nextLayer)]) (infos ++ [info]) := by
    intro h' he
    unfold Shows at *
    rw [List.map_append, List.map_append, ← hs', he]
    simp [LHeap.newLayer]
  by_cases hc : cs = []
  · subst hc
    obtain ⟨h', net', e, hrep, hf, hn⟩ := insert_empty net.nLayers hr' hl hlt
    refine ⟨h', net', e, hrep, hsh h' hf.layers, hf, ?_⟩
    intro c i hc hi
    obtain rfl : _ = c := by simpa using hc
    rw [hf.layers] at hi
    rw [hn]
    have : some info = some i := hl.symm.trans hi
    rw [Option.some.inj this]
  · have hpos : 0 < cs.length := List.length_pos_iff.2 hc
    have hnew : ∀ (i : Nat) (c : Nat × Nat), cs[i]? = some c → c.2 ≠ (h.newLayer info).1 :=
      fun i c hc => Nat.ne_of_lt (hr.live i c hc).2
    obtain ⟨h', net', e, hrep, hf, hn⟩ := insert_rep (pos := net.nLayers) hr' hc
      (by rw [hr.count]; omega) hl hlt hnew
    have hm : min net.nLayers.toNat cs.length = cs.length := by rw [hr.count]; simp
    rw [hm, List.insertIdx_length_self] at hrep
    refine ⟨h', net', e, hrep, hsh h' hf.layers, hf, ?_⟩
    intro c i hc' hi
    rw [List.getElem?_append_left hpos] at hc'
    rw [hn]
    refine hin c i hc' ?_
    rw [hf.layers] at hi
    rwa [show (h.newLayer info).2.layers c.2 = h.layers c.2 by
      simp [LHeap.newLayer, Nat.ne_of_lt (hr.live _ _ hc').2]] at hi

theorem copy_loop {h0 : LHeap} {src : LNet} {cs : List (Nat × Nat)} {infos : List LInfo}
    (hr : NetRep h0 src cs) (hs : Shows h0 cs infos) :
    ∀ (fuel k : Nat) (h : LHeap) (dest : LNet) (ds : List (Nat × Nat)),
      cs.length ≤ k + fuel → Grows h0 h → NetRep h dest ds → Shows h ds (infos.take k) →
      (∀ c ∈ ds, h0.nextNode ≤ c.1 ∧ h0.nextLayer ≤ c.2) → NetIn h dest ds →
      ∃ h' dest' ds', lnetCopyLoop fuel h dest ((cs[k]?).map Prod.fst) = .ok (h', dest') ∧
        Grows h0 h' ∧ NetRep h' dest' ds' ∧ Shows h' ds' infos ∧
        (∀ c ∈ ds', h0.nextNode ≤ c.1 ∧ h0.nextLayer ≤ c.2) ∧ NetIn h' dest' ds' := by
  intro fuel
  induction fuel with
  | zero =>
    intro k h dest ds hk hg hd hsd hf hin
    have : cs[k]? = none := List.getElem?_eq_none (by omega)
    rw [this]
    refine ⟨h, dest, ds, rfl, hg, hd, ?_, hf, hin⟩
    rwa [List.take_of_length_le (by rw [← hs.length]; omega)] at hsd
  | succ fuel ih =>
    intro k h dest ds hk hg hd hsd hf hin
    rcases Nat.lt_or_ge k cs.length with hlt | hge
    · have hck : cs[k]? = some cs[k] := List.getElem?_eq_getElem hlt
      have hn := hr.linked.node _ _ hck
      have hfr := hr.fresh _ _ hck
      obtain ⟨⟨info, hi⟩, hlv⟩ := hr.live _ _ hck
      have hk' : k < infos.length := by rw [← hs.length]; exact hlt
      have hinf : infos[k]? = some info := by
        have := congrArg (fun l => l[k]?) hs
        simp only [List.getElem?_map, hck, Option.map_some, hi] at this
        rw [List.getElem?_eq_getElem hk'] at this ⊢
        simpa using this.symm
      obtain ⟨h', dest', e, hrep, hsh, hfm, hin'⟩ := push_rep hd hsd info hin
      have hg' : Grows h0 h' := by
        refine ⟨?_, ?_, ?_, ?_⟩
        · intro a ha
          rw [hfm.nodes a (Nat.ne_of_lt (Nat.lt_of_lt_of_le ha hg.nextNode)) ?_]
          · exact hg.nodes a ha
          · intro i c hc he
            have := (hf c (List.mem_of_getElem? hc)).1
            omega
        · intro l hl
          rw [hfm.layers]
          have : l ≠ h.nextLayer := Nat.ne_of_lt (Nat.lt_of_lt_of_le hl hg.nextLayer)
          simp only [LHeap.newLayer, this, if_false]
          exact hg.layers l hl
        · have := hg.nextNode
          rw [hfm.nextNode]
          exact Nat.le_succ_of_le this
        · have := hg.nextLayer
          rw [hfm.nextLayer]
          exact Nat.le_succ_of_le this
      have hf' : ∀ c ∈ ds ++ [(h.nextNode, h.nextLayer)],
          h0.nextNode ≤ c.1 ∧ h0.nextLayer ≤ c.2 := by
        intro c hc
        rcases List.mem_append.1 hc with hc | hc
        · exact hf c hc
        · obtain rfl : c = _ := by simpa using hc
          exact ⟨hg.nextNode, hg.nextLayer⟩
      have htk : infos.take k ++ [info] = infos.take (k + 1) := by
        rw [List.take_add_one, hinf]; rfl
      rw [htk] at hsh
      obtain ⟨h'', dest'', ds'', e'', r⟩ :=
        ih (k + 1) h' dest' _ (by omega) hg' hrep hsh hf' hin'
      refine ⟨h'', dest'', ds'', ?_, r⟩
      rw [← e'', hck]
      have hn1 : h.nodes cs[k].1 = some ⟨cs[k].2, (cs[k + 1]?).map Prod.fst, lnxt cs k⟩ := by
        rw [hg.nodes _ hfr]; exact hn
      have hn2 : h'.nodes cs[k].1 = some ⟨cs[k].2, (cs[k + 1]?).map Prod.fst, lnxt cs k⟩ := by
        rw [hg'.nodes _ hfr]; exact hn
      have hl1 : h.layers cs[k].2 = some info := by rw [hg.layers _ hlv]; exact hi
      have e2 : lnetPush (h.newLayer info).2 dest (h.newLayer info).1 = .ok (h', dest') := e
      simp only [Option.map_some, lnetCopyLoop, LHeap.node, LHeap.layer, hn1, hl1, bind,
        Except.bind, e2, hn2]
    · have : cs[k]? = none := List.getElem?_eq_none hge
      rw [this]
      refine ⟨h, dest, ds, by simp [lnetCopyLoop], hg, hd, ?_, hf, hin⟩
      rwa [List.take_of_length_le (by rw [← hs.length]; omega)] at hsd

/-- What `neural_free` needs: the chain of `prev` pointers and live layers. -/
structure Chain (h : LHeap) (cs : List (Nat × Nat)) : Prop where
  node : ∀ (i : Nat) (c : Nat × Nat), cs[i]? = some c →
    ∃ nx, h.nodes c.1 = some ⟨c.2, (cs[i + 1]?).map Prod.fst, nx⟩
  inj : (cs.map Prod.fst).Nodup
  linj : (cs.map Prod.snd).Nodup
  live : ∀ c ∈ cs, ∃ info, h.layers c.2 = some info

theorem nodup_of_inj {cs : List (Nat × Nat)} {f : Nat × Nat → Nat}
    (hj : ∀ (i j : Nat) (c d : Nat × Nat), cs[i]? = some c → cs[j]? = some d → f c = f d → i = j) :
    (cs.map f).Nodup := by
  refine List.pairwise_iff_getElem.2 ?_
  intro i j hi hj' hij he
  simp only [List.length_map] at hi hj'
  have := hj i j _ _ (List.getElem?_eq_getElem hi) (List.getElem?_eq_getElem hj')
    (by simpa using he)
  omega

theorem NetRep.chain {h : LHeap} {net : LNet} {cs : List (Nat × Nat)} (hr : NetRep h net cs) :
    Chain h cs := by
  refine ⟨fun i c hc => ⟨_, hr.linked.node i c hc⟩, nodup_of_inj hr.linked.inj,
    nodup_of_inj hr.linj, ?_⟩
  intro c hc
  obtain ⟨i, hi⟩ := List.getElem?_of_mem hc
  exact (hr.live i c hi).1

theorem free_chain : ∀ (cs : List (Nat × Nat)) (fuel : Nat) (h : LHeap) (net : LNet),
    cs.length ≤ fuel → Chain h cs → net.tail = (cs[0]?).map Prod.fst →
    lnetFree fuel h net = .ok
      ({ h with
          nodes := fun a => if a ∈ cs.map Prod.fst then none else h.nodes a
          layers := fun l => if l ∈ cs.map Prod.snd then none else h.layers l },
       { net with tail := none, nLayers := net.nLayers - cs.length })
  | [], fuel, h, net, _, _, ht => by
    obtain ⟨a, b, c, d, e, f⟩ := net
    simp only [List.getElem?_nil, Option.map_none] at ht
    subst ht
    cases fuel <;> simp [lnetFree]
  | c :: cs, 0, _, _, hf, _, _ => by simp at hf
  | c :: cs, fuel + 1, h, net, hf, hc, ht => by
    obtain ⟨nx, hn⟩ := hc.node 0 c rfl
    obtain ⟨info, hi⟩ := hc.live c List.mem_cons_self
    have hnd := hc.inj
    have hld := hc.linj
    rw [List.map_cons, List.nodup_cons] at hnd hld
    have hc' : Chain { h with
        nodes := fun a => if a = c.1 then none else h.nodes a
        layers := fun l => if l = c.2 then none else h.layers l } cs := by
      refine ⟨?_, hnd.2, hld.2, ?_⟩
      · intro i d hd
        have : d.1 ≠ c.1 := fun he => hnd.1 (he ▸ List.mem_map_of_mem (List.mem_of_getElem? hd))
        simp only [this, if_false]
        exact hc.node (i + 1) d hd
      · intro d hd
        have : d.2 ≠ c.2 := fun he => hld.1 (he ▸ List.mem_map_of_mem hd)
        simp only [this, if_false]
        exact hc.live d (List.mem_cons_of_mem _ hd)
    have ih := free_chain cs fuel _ { net with tail := (cs[0]?).map Prod.fst
                                               nLayers := net.nLayers - 1 }
      (by simpa using hf) hc' rfl
    simp only [List.getElem?_cons_zero, Option.map_some] at ht
    simp only [lnetFree, ht, LHeap.node, hn, LHeap.freeLayer, hi, LHeap.freeNode, bind,
      Except.bind]
    simp only [List.getElem?_cons_succ]
    rw [ih]
    congr 3
    · funext a
      by_cases ha : a = c.1
      · simp [ha]
      · simp only [List.map_cons, List.mem_cons, ha, false_or, if_false]
    · funext a
      by_cases ha : a = c.2
      · simp [ha]
      · simp only [List.map_cons, List.mem_cons, ha, false_or, if_false]
    · simp only [List.length_cons]; omega

/-! ## Property C48 -/

/-- The empty heap. -/
def emptyLHeap : LHeap := ⟨fun _ => none, fun _ => none, 0, 0⟩

theorem NetRep.empty : NetRep emptyLHeap lnetInit [] := by
  refine ⟨⟨?_, ?_⟩, ?_, rfl, rfl, rfl, ?_, ?_, rfl, ?_⟩ <;> simp

theorem netIs_empty : NetIs emptyLHeap lnetInit [] := ⟨[], NetRep.empty, rfl⟩

/-- C48: from any well formed network showing the layers `infos`, any history of insertions,
pushes, removals and pops behaves as on the sequence: it fails in the same way, or ends in a well
formed network (links both ways, ends, count, output size, output array) showing the specified
layers. -/
theorem C48_history (os : List LOp) {h : LHeap} {net : LNet} {infos : List LInfo}
    (hn : NetIs h net infos) :
    (∀ e, specRun os infos = .error e → lnetRun os h net = .error e) ∧
      ∀ infos', specRun os infos = .ok infos' →
        ∃ h' net', lnetRun os h net = .ok (h', net') ∧ NetIs h' net' infos' := by
  obtain ⟨cs, hr, hs⟩ := hn
  have hk := run_spec os hr hs
  constructor
  · intro e he
    rw [he] at hk
    exact hk
  · intro infos' he
    rw [he] at hk
    obtain ⟨h', net', cs', a, b, c, _⟩ := hk
    exact ⟨h', net', a, cs', b, c⟩

/-- C48: in a history from an empty network no list node and no layer is lost, and if the input
layer is never removed the number of inputs of the network is that of its input layer. -/
theorem C48_history_from_empty (os : List LOp) {infos : List LInfo}
    (hs : specRun os [] = .ok infos) :
    ∃ h net cs, lnetRun os emptyLHeap lnetInit = .ok (h, net) ∧ NetRep h net cs ∧
      Shows h cs infos ∧ NoLeak h cs ∧
      ((∀ o ∈ os, o.keepsInput) → ∀ i, infos[0]? = some i → net.nInputs = i.nInputs) := by
  have hk := run_spec os NetRep.empty (infos := []) rfl
  rw [hs] at hk
  obtain ⟨h', net', cs', a, b, c, d, e⟩ := hk
  refine ⟨h', net', cs', a, b, c, d ⟨by simp [emptyLHeap], by simp [emptyLHeap]⟩, ?_⟩
  intro hk i hi
  have hlen := c.length
  have h0 : 0 < infos.length := (List.getElem?_eq_some_iff.1 hi).1
  have hc0 : cs'[0]? = some cs'[0] := List.getElem?_eq_getElem (by omega)
  refine e hk (by intro c i hc; simp at hc) cs'[0] i hc0 ?_
  have := congrArg (fun l => l[0]?) c
  simp only [List.getElem?_map, hc0, hi, Option.map_some] at this
  exact Option.some.inj this

/-- C48: following `prev` from the input layer `k` times arrives at layer `k`, for every `k`;
past the output layer the walk ends. -/
theorem C48_traversal {h : LHeap} {net : LNet} {infos : List LInfo} (hn : NetIs h net infos) :
    ∀ k, (∀ i, infos[k]? = some i → ∃ a nd, lnetWalk h k net.tail = .ok (some a) ∧
        h.nodes a = some nd ∧ h.layers nd.layer = some i) ∧
      (infos.length ≤ k → lnetWalk h k net.tail = .ok none) := by
  obtain ⟨cs, hr, hs⟩ := hn
  intro k
  have hw : lnetWalk h k net.tail = .ok ((cs[k]?).map Prod.fst) := by
    rw [hr.tail]; simpa using walk_eq hr.linked k 0
  rw [hw]
  constructor
  · intro i hi
    have hk : k < cs.length := by
      rw [hs.length]; exact (List.getElem?_eq_some_iff.1 hi).1
    have hck : cs[k]? = some cs[k] := List.getElem?_eq_getElem hk
    refine ⟨cs[k].1, _, by rw [hck]; rfl, hr.linked.node _ _ hck, ?_⟩
    have := congrArg (fun l => l[k]?) hs
    simp only [List.getElem?_map, hck, hi, Option.map_some] at this
    exact Option.some.inj this
  · intro hk
    rw [List.getElem?_eq_none (by rw [hs.length]; exact hk)]
    rfl

/-- C48: sizes and count of a well formed network. -/
theorem C48_sizes {h : LHeap} {net : LNet} {infos : List LInfo} (hn : NetIs h net infos) :
    net.nLayers = infos.length ∧
      ∀ i, infos.getLast? = some i → net.nOutputs = i.nOutputs ∧
        ∃ l, net.output = some l ∧ h.layers l = some i := by
  obtain ⟨cs, hr, hs⟩ := hn
  have hlen := hs.length
  refine ⟨by rw [hr.count, hlen], ?_⟩
  intro i hi
  rw [List.getLast?_eq_getElem?] at hi
  have h0 : infos.length - 1 < infos.length := (List.getElem?_eq_some_iff.1 hi).1
  have hc : cs[cs.length - 1]? = some cs[cs.length - 1] := List.getElem?_eq_getElem (by omega)
  have hl : h.layers cs[cs.length - 1].2 = some i := by
    have := congrArg (fun l => l[cs.length - 1]?) hs
    simp only [List.getElem?_map, hc, Option.map_some] at this
    have hi' : infos[cs.length - 1]? = some i := by rw [hlen]; exact hi
    rw [hi'] at this
    exact Option.some.inj this
  exact ⟨hr.outs _ _ hc hl, _, by rw [hr.output, hc]; rfl, hl⟩

/-- C48: a copy is a network of the same layers in memory of its own; the original and everything
else is as before, so later changes to one do not reach the other. -/
theorem C48_copy {h : LHeap} {src : LNet} {cs : List (Nat × Nat)} {infos : List LInfo}
    (hr : NetRep h src cs) (hs : Shows h cs infos) {fuel : Nat} (hf : infos.length ≤ fuel) :
    ∃ h' net' cs', lnetCopy fuel h src = .ok (h', net') ∧ NetRep h' net' cs' ∧
      Shows h' cs' infos ∧ NetIn h' net' cs' ∧
      (∀ a, a < h.nextNode → h'.nodes a = h.nodes a) ∧
      (∀ l, l < h.nextLayer → h'.layers l = h.layers l) ∧
      ∀ c' ∈ cs', ∀ c ∈ cs, c'.1 ≠ c.1 ∧ c'.2 ≠ c.2 := by
  have hd : NetRep h lnetInit [] := by
    refine ⟨⟨?_, ?_⟩, ?_, rfl, rfl, rfl, ?_, ?_, rfl, ?_⟩ <;> simp
  obtain ⟨h', net', cs', e, hg, a, b, c, d⟩ := copy_loop hr hs fuel 0 h lnetInit []
    (by rw [hs.length]; omega) (Grows.refl h) hd rfl (by simp) (by intro c i hc; simp at hc)
  refine ⟨h', net', cs', ?_, a, b, d, hg.nodes, hg.layers, ?_⟩
  · rw [← e, lnetCopy, hr.tail]
  · intro c' hc' d hd
    obtain ⟨i, hi⟩ := List.getElem?_of_mem hd
    have h1 := c c' hc'
    have h2 := hr.fresh i d hi
    have h3 := (hr.live i d hi).2
    omega

/-- C48: freeing releases every node and every layer of the network exactly once (a second release
would fail) and nothing else. -/
theorem C48_free {h : LHeap} {net : LNet} {cs : List (Nat × Nat)} (hr : NetRep h net cs)
    {fuel : Nat} (hf : cs.length ≤ fuel) :
    ∃ h' net', lnetFree fuel h net = .ok (h', net') ∧ net'.tail = none ∧ net'.nLayers = 0 ∧
      (∀ a, h'.nodes a = if a ∈ cs.map Prod.fst then none else h.nodes a) ∧
      ∀ l, h'.layers l = if l ∈ cs.map Prod.snd then none else h.layers l := by
  refine ⟨_, _, free_chain cs fuel h net hf hr.chain hr.tail, rfl, ?_, fun _ => rfl,
    fun _ => rfl⟩
  rw [hr.count]; exact Int.sub_self _

/-- C48 is false of insertion before the input layer: on every network with a layer,
`neural_insert` at position 0 (or below) follows a NULL pointer. -/
theorem C48_insert_front_refuted {h : LHeap} {net : LNet} {infos : List LInfo}
    (hn : NetIs h net infos) (hne : infos ≠ []) (info : LInfo) {pos : Int} (hp : pos ≤ 0) :
    lnetRun [.insert info pos] h net = .error .ub := by
  refine (C48_history [.insert info pos] hn).1 _ ?_
  simp [specRun, specStep, specInsert, hne, hp]

/-- Consequence: expanding a prediction network that has a single layer is undefined behaviour. -/
theorem C48_expand_single_refuted {h : LHeap} {net : LNet} {i : LInfo}
    (hn : NetIs h net [i]) : lnetExpand h net = .error .ub := by
  obtain ⟨cs, hr, hs⟩ := hn
  have hlen : cs.length = 1 := hs.length
  obtain ⟨c, rfl⟩ := List.length_eq_one_iff.1 hlen
  have hno := hr.linked.node 0 c rfl
  have hhd : net.head = some c.1 := hr.head
  have hcnt : net.nLayers = 1 := hr.count
  have hl : h.layers c.2 = some i := by simpa [Shows] using hs
  have hfr := insert_front (pos := 0) (l := h.nextLayer) (info := ⟨i.nInputs, i.nOutputs⟩)
    (hr.newLayer ⟨i.nInputs, i.nOutputs⟩) (by simp) (Int.le_refl 0) (by simp [LHeap.newLayer])
  unfold lnetExpand
  simp only [LHeap.node, LHeap.layer, hhd, hno, hl, hcnt, bind, Except.bind, pure, Except.pure]
  exact hfr

theorem insertIdx_length_append {α : Type} (l r : List α) (x : α) :
    (l ++ r).insertIdx l.length x = l ++ x :: r := by
  induction l with
  | nil => simp
  | cons y l ih => simpa using ih

/-- Expanding a network with at least two layers puts a layer of the size of the top hidden layer
just before the output layer. -/
theorem C48_expand {h : LHeap} {net : LNet} {cs : List (Nat × Nat)} {infos : List LInfo}
    {top out : LInfo} (hr : NetRep h net cs) (hs : Shows h cs (infos ++ [top, out])) :
    ∃ h' net', lnetExpand h net = .ok (h', net') ∧
      NetIs h' net' (infos ++ [top, ⟨top.nOutputs, top.nOutputs⟩, out]) := by
  have hlen := hs.length
  simp only [List.length_append, List.length_cons, List.length_nil] at hlen
  obtain ⟨q, hq⟩ : ∃ q, cs.length = q + 2 := ⟨infos.length, by omega⟩
  have hc1 : cs[q + 1]? = some cs[q + 1] := List.getElem?_eq_getElem (by omega)
  have hc0 : cs[q]? = some cs[q] := List.getElem?_eq_getElem (by omega)
  have hhd : net.head = some cs[q + 1].1 := by
    rw [hr.head, show cs.length - 1 = q + 1 by omega, hc1]; rfl
  have hn1 := hr.linked.node _ _ hc1
  have hn0 := hr.linked.node _ _ hc0
  have hlx : lnxt cs (q + 1) = some cs[q].1 := by simp [lnxt, hc0]
  rw [hlx] at hn1
  have hl : h.layers cs[q].2 = some top := by
    have := congrArg (fun l => l[q]?) hs
    simp only [List.getElem?_map, hc0, Option.map_some] at this
    rw [List.getElem?_append_right (by omega), show q - infos.length = 0 by omega] at this
    simpa using this
  have hsp := insert_spec hr hs ⟨top.nOutputs, top.nOutputs⟩ (net.nLayers - 1)
  have hspec : specInsert (infos ++ [top, out]) ⟨top.nOutputs, top.nOutputs⟩ (net.nLayers - 1) =
      .ok (infos ++ [top, ⟨top.nOutputs, top.nOutputs⟩, out]) := by
    unfold specInsert
    rw [if_neg (by simp), if_neg (by rw [hr.count]; omega)]
    have : min (net.nLayers - 1).toNat (infos ++ [top, out]).length = infos.length + 1 := by
      rw [hr.count]
      simp only [List.length_append, List.length_cons, List.length_nil]
      omega
    rw [this]
    have := insertIdx_length_append (infos ++ [top]) [out] ⟨top.nOutputs, top.nOutputs⟩
    simpa using this
  rw [hspec] at hsp
  obtain ⟨h', net', cs', e, a, b, _⟩ := hsp
  refine ⟨h', net', ?_, cs', a, b⟩
  unfold lnetExpand
  have hcnt : 1 < net.nLayers := by rw [hr.count]; omega
  simp only [LHeap.node, LHeap.layer, hhd, hn1, hn0, hl, if_pos hcnt, bind, Except.bind, pure,
    Except.pure]
  exact e

/-- C48 is false of the number of inputs: after removing the input layer of any network the number
of inputs of the network is still that of the removed layer. -/
theorem C48_remove_front_stale {h : LHeap} {net : LNet} {cs : List (Nat × Nat)}
    (hr : NetRep h net cs) (h2 : 2 ≤ cs.length) :
    ∃ h' net', lnetRemove h net 0 = .ok (h', net') ∧ NetRep h' net' (cs.eraseIdx 0) ∧
      net'.nInputs = net.nInputs := by
  obtain ⟨h', net', a, b, c⟩ := remove_rep (pos := 0) hr h2 (by show 0 < _; omega)
  exact ⟨h', net', a, b, c.ins⟩

theorem pops_spec : ∀ (n : Nat) {h : LHeap} {net : LNet} {infos : List LInfo},
    NetIs h net infos → infos ≠ [] →
    ∃ h' net', lnetPops n h net = .ok (h', net') ∧
      NetIs h' net' (infos.take (max 1 (infos.length - n)))
  | 0, h, net, infos, hn, hne => by
    refine ⟨h, net, rfl, ?_⟩
    rwa [List.take_of_length_le (by omega)]
  | n + 1, h, net, infos, hn, hne => by
    have hcnt := (C48_sizes hn).1
    have hpos : 0 < infos.length := List.length_pos_iff.2 hne
    unfold lnetPops
    by_cases h1 : infos.length = 1
    · rw [if_neg (by rw [hcnt, h1]; decide)]
      refine ⟨h, net, rfl, ?_⟩
      rwa [List.take_of_length_le (by omega)]
    · rw [if_pos (by rw [hcnt]; omega)]
      obtain ⟨h', net', e, hn'⟩ := (C48_history [.pop] hn).2 infos.dropLast
        (by
          have : ¬ infos.length ≤ 1 := by omega
          simp [specRun, specStep, this])
      have e' : lnetPop h net = .ok (h', net') := by
        simp only [lnetRun, lnetStep] at e
        split at e
        · simp at e
        · rename_i heq
          rw [heq]; exact e
      rw [e']
      obtain ⟨h'', net'', e'', hn''⟩ := pops_spec n hn' (by
        intro hx
        have := congrArg List.length hx
        simp at this; omega)
      refine ⟨h'', net'', e'', ?_⟩
      rw [List.length_dropLast, List.dropLast_eq_take, List.take_take] at hn''
      have : min (max 1 (infos.length - 1 - n)) (infos.length - 1) =
          max 1 (infos.length - (n + 1)) := by omega
      rwa [this] at hn''

/-- C48: turning an autoencoder into a classifier removes the given number of output layers, but
never the input layer, and adds a layer from the new top to the classes and a softmax layer. -/
theorem C48_to_classifier {h : LHeap} {net : LNet} {infos : List LInfo} (hn : NetIs h net infos)
    (hne : infos ≠ []) (nDel yDim : Int) {last : LInfo}
    (hl : (infos.take (max 1 (infos.length - nDel.toNat))).getLast? = some last) :
    ∃ h' net', lnetToClassifier h net nDel yDim = .ok (h', net') ∧
      NetIs h' net' (infos.take (max 1 (infos.length - nDel.toNat)) ++
        [⟨last.nOutputs, yDim⟩, ⟨yDim, yDim⟩]) := by
  obtain ⟨h1, net1, e1, hn1⟩ := pops_spec nDel.toNat hn hne
  have hout := ((C48_sizes hn1).2 last hl).1
  obtain ⟨h2, net2, e2, hn2⟩ := (C48_history [.push ⟨last.nOutputs, yDim⟩, .push ⟨yDim, yDim⟩]
    hn1).2 _ rfl
  refine ⟨h2, net2, ?_, by simpa using hn2⟩
  unfold lnetToClassifier
  rw [e1]
  simp only [bind, Except.bind, hout]
  simp only [lnetRun, lnetStep] at e2
  split at e2
  · simp at e2
  · rename_i h3 net3 heq
    have heq' : lnetPush (h1.newLayer ⟨last.nOutputs, yDim⟩).2 net1
        (h1.newLayer ⟨last.nOutputs, yDim⟩).1 = .ok (h3, net3) := heq
    rw [heq']
    dsimp only
    split at e2
    · simp at e2
    · rename_i h4 net4 heq2
      exact heq2.trans e2

/-! ### Concrete cases -/

/-- A history with pushes, insertions in the middle and past the end, and removals. -/
def demoHist : List LOp :=
  [.push ⟨4, 10⟩, .push ⟨10, 3⟩, .insert ⟨10, 10⟩ 1, .insert ⟨3, 3⟩ 9, .remove 1, .pop,
    .push ⟨3, 2⟩]

example : ∃ h net, lnetRun demoHist emptyLHeap lnetInit = .ok (h, net) ∧
    NetIs h net [⟨4, 10⟩, ⟨10, 3⟩, ⟨3, 2⟩] :=
  (C48_history demoHist netIs_empty).2 _ rfl

example : ∃ h net cs, lnetRun demoHist emptyLHeap lnetInit = .ok (h, net) ∧ NetRep h net cs ∧
    Shows h cs [⟨4, 10⟩, ⟨10, 3⟩, ⟨3, 2⟩] ∧ NoLeak h cs ∧ net.nInputs = 4 := by
  obtain ⟨h, net, cs, a, b, c, d, e⟩ := C48_history_from_empty demoHist (infos := _) rfl
  refine ⟨h, net, cs, a, b, c, d, e ?_ _ rfl⟩
  intro o ho
  simp only [demoHist, List.mem_cons, List.not_mem_nil, or_false] at ho
  rcases ho with rfl | rfl | rfl | rfl | rfl | rfl | rfl <;> simp [LOp.keepsInput]

/-- The stale number of inputs, concretely: the remaining layer has 10 inputs, the network
says 4. -/
theorem C48_inputs_refuted : ∃ h net,
    lnetRun [.push ⟨4, 10⟩, .push ⟨10, 3⟩, .remove 0] emptyLHeap lnetInit = .ok (h, net) ∧
      NetIs h net [⟨10, 3⟩] ∧ net.nInputs = 4 := by
  obtain ⟨h, net, e, hn⟩ := (C48_history [.push ⟨4, 10⟩, .push ⟨10, 3⟩, .remove 0]
    netIs_empty).2 _ rfl
  refine ⟨h, net, e, hn, ?_⟩
  have : (lnetRun [.push ⟨4, 10⟩, .push ⟨10, 3⟩, .remove 0] emptyLHeap lnetInit).map
      (fun x => x.2.nInputs) = .ok 4 := by rfl
  rw [e] at this
  simpa [Except.map] using this

example : lnetRun [.push ⟨4, 10⟩, .insert ⟨4, 4⟩ 0] emptyLHeap lnetInit = .error .ub :=
  (C48_history [.push ⟨4, 10⟩, .insert ⟨4, 4⟩ 0] netIs_empty).1 _ rfl

example : lnetRun [.push ⟨4, 10⟩, .pop] emptyLHeap lnetInit = .error .exit :=
  (C48_history [.push ⟨4, 10⟩, .pop] netIs_empty).1 _ rfl

end Xcsf
