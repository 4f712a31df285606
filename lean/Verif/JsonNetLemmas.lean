import Verif.JsonNetSpec
import Verif.SerialFresh
import Std.Data.String.ToNat

/-!
# Lemmas about the JSON of networks
-/

set_option linter.unusedSectionVars false

namespace Xcsf.JsonNet
open Xcsf
variable {K R : Type} [Field K] [LinearOrder K] [IsStrictOrderedRing K] [FloorRing K]

/-! ## Each layer is shown -/

/-- The names of the activation functions, and the functions of the names. -/
theorem fn_names {fn : Int} (h : 0 ≤ fn ∧ fn < 11) :
    ∃ s, nameOf activationNames fn = .ok s ∧ codeOf activationCodes s = some fn := by
  obtain ⟨h0, h1⟩ := h
  have : fn = 0 ∨ fn = 1 ∨ fn = 2 ∨ fn = 3 ∨ fn = 4 ∨ fn = 5 ∨ fn = 6 ∨ fn = 7 ∨ fn = 8 ∨ fn = 9 ∨
      fn = 10 := by omega
  rcases this with rfl | rfl | rfl | rfl | rfl | rfl | rfl | rfl | rfl | rfl | rfl
  · exact ⟨"logistic".toList, by decide, by decide⟩
  · exact ⟨"relu".toList, by decide, by decide⟩
  · exact ⟨"tanh".toList, by decide, by decide⟩
  · exact ⟨"linear".toList, by decide, by decide⟩
  · exact ⟨"gaussian".toList, by decide, by decide⟩
  · exact ⟨"sin".toList, by decide, by decide⟩
  · exact ⟨"cos".toList, by decide, by decide⟩
  · exact ⟨"softplus".toList, by decide, by decide⟩
  · exact ⟨"leaky".toList, by decide, by decide⟩
  · exact ⟨"selu".toList, by decide, by decide⟩
  · exact ⟨"loggy".toList, by decide, by decide⟩

theorem fn_shown {fn : Int} (h : 0 ≤ fn ∧ fn < 11) : ∃ s : List Char,
    fnName (K := K) fn = .ok (.str (String.ofList s)) ∧ codeOf activationCodes s = some fn := by
  obtain ⟨s, h1, h2⟩ := fn_names h
  exact ⟨s, by unfold fnName; rw [h1], h2⟩

theorem rates_shown {mu : List K} (h : mu.length = 6) : rates mu = .ok (jsonNums mu) := by
  unfold rates
  rw [if_neg (by omega), List.take_of_length_le (by omega)]

theorem matrix_shown (w : Bool) {c : CLay K} (S : c.Sound) : ShowsMatrix w c (weightJson w c) := by
  have h1 := S.wlen
  have h2 := S.nlen
  have h3 : c.nActive = ((c.ws.countP fun v => v.on : Nat) : Int) := by
    rw [S.active, List.countP_eq_length_filter]
  unfold weightJson
  constructor <;> cases w <;>
    simp [Json.item, List.lookup, jsonOfInt, h1, h2, h3]

theorem layer_shown (w : Bool) {k : Lim} {l : GLay K} (L : l.Legal k) :
    ∃ j, layerJson w l = .ok j ∧ ShowsLayer w l j := by
  cases l with
  | conn l =>
    have S := L.1
    obtain ⟨s, h1, h2⟩ := fn_shown (K := K) S.fn
    refine ⟨_, by show connJson w l = _; unfold connJson; rw [h1, rates_shown S.mu.1]; rfl, ?_⟩
    refine ⟨rfl, rfl, rfl, ?_, ?_, ?_⟩
    · intro p hp
      simp only [functions, List.mem_singleton] at hp
      subst hp
      exact ⟨s, rfl, h2⟩
    · intro p hp
      simp only [matrices, List.mem_singleton] at hp
      subst hp
      exact ⟨_, rfl, matrix_shown w S⟩
    · intro e he
      cases he
      exact ⟨rfl, rfl⟩
  | recu l =>
    have S := L.1
    obtain ⟨s, h1, h2⟩ := fn_shown (K := K) S.fn
    refine ⟨_, by show recJson w l = _; unfold recJson; rw [h1, rates_shown S.mu.1]; rfl, ?_⟩
    refine ⟨rfl, rfl, rfl, ?_, ?_, ?_⟩
    · intro p hp
      simp only [functions, List.mem_singleton] at hp
      subst hp
      exact ⟨s, rfl, h2⟩
    · intro p hp
      simp only [matrices, List.mem_cons, List.not_mem_nil, or_false] at hp
      rcases hp with rfl | rfl | rfl
      · exact ⟨_, rfl, matrix_shown w S.inp.sound⟩
      · exact ⟨_, rfl, matrix_shown w S.self.sound⟩
      · exact ⟨_, rfl, matrix_shown w S.out.sound⟩
    · intro e he
      cases he
      exact ⟨rfl, rfl⟩
  | lstm l =>
    have S := L.1
    obtain ⟨s, h1, h2⟩ := fn_shown (K := K) S.fn
    obtain ⟨s', h3, h4⟩ := fn_shown (K := K) S.rfn
    refine ⟨_, by show lstmJson w l = _; unfold lstmJson; rw [h1, h3, rates_shown S.mu.1]; rfl, ?_⟩
    refine ⟨rfl, rfl, rfl, ?_, ?_, ?_⟩
    · intro p hp
      simp only [functions, List.mem_cons, List.not_mem_nil, or_false] at hp
      rcases hp with rfl | rfl
      · exact ⟨s, rfl, h2⟩
      · exact ⟨s', rfl, h4⟩
    · intro p hp
      simp only [matrices, List.mem_cons, List.not_mem_nil, or_false] at hp
      rcases hp with rfl | rfl | rfl | rfl | rfl | rfl | rfl | rfl
      · exact ⟨_, rfl, matrix_shown w S.u.f.sound⟩
      · exact ⟨_, rfl, matrix_shown w S.u.i.sound⟩
      · exact ⟨_, rfl, matrix_shown w S.u.g.sound⟩
      · exact ⟨_, rfl, matrix_shown w S.u.o.sound⟩
      · exact ⟨_, rfl, matrix_shown w S.w.f.sound⟩
      · exact ⟨_, rfl, matrix_shown w S.w.i.sound⟩
      · exact ⟨_, rfl, matrix_shown w S.w.g.sound⟩
      · exact ⟨_, rfl, matrix_shown w S.w.o.sound⟩
    · intro e he
      cases he
      exact ⟨rfl, rfl⟩
  | conv l =>
    have S := L.1.core
    obtain ⟨s, h1, h2⟩ := fn_shown (K := K) S.fn
    refine ⟨_, by show convJson w l = _; unfold convJson; rw [h1, rates_shown S.mu.1]; rfl, ?_⟩
    refine ⟨rfl, rfl, rfl, ?_, ?_, ?_⟩
    · intro p hp
      simp only [functions, List.mem_singleton] at hp
      subst hp
      exact ⟨s, rfl, h2⟩
    · intro p hp
      simp only [matrices, List.mem_singleton] at hp
      subst hp
      exact ⟨_, rfl, matrix_shown w S⟩
    · intro e he
      cases he
      exact ⟨rfl, rfl⟩
  | _ => exact ⟨_, rfl, rfl, rfl, rfl, by simp [functions], by simp [matrices], by simp [learning]⟩

/-! ## The members of the network -/

theorem layerName_inj {i j : Nat} (h : layerName i = layerName j) : i = j := by
  have h1 : ("layer_" ++ toString i).toList = ("layer_" ++ toString j).toList := by
    exact congrArg String.toList h
  rw [String.toList_append, String.toList_append] at h1
  have h2 : (Nat.repr i).toList = (Nat.repr j).toList := List.append_cancel_left h1
  have h3 : Nat.repr i = Nat.repr j := String.toList_inj.1 h2
  have h4 := congrArg String.toNat? h3
  rw [Nat.toNat?_repr, Nat.toNat?_repr] at h4
  exact Option.some.inj h4

theorem members_shown (w : Bool) : ∀ (ls : List (GLay K)) (n : Nat),
    (∀ l ∈ ls, ∃ j, layerJson w l = .ok j ∧ ShowsLayer w l j) →
    ∃ m, netMembers w n ls = .ok m ∧
      m.map Prod.fst = (List.range ls.length).map (fun i => layerName (n + i)) ∧
      ∀ i l, ls[i]? = some l → ∃ o, m.lookup (layerName (n + i)) = some o ∧ ShowsLayer w l o
  | [], n, _ => ⟨[], rfl, rfl, by simp⟩
  | l :: ls, n, h => by
    obtain ⟨j, hj, sj⟩ := h l (by simp)
    obtain ⟨m, hm, h1, h2⟩ := members_shown w ls (n + 1) fun l hl => h l (List.mem_cons_of_mem _ hl)
    refine ⟨(layerName n, j) :: m, by unfold netMembers; rw [hj, hm]; rfl, ?_, ?_⟩
    · rw [List.map_cons, h1, List.length_cons, List.range_succ_eq_map, List.map_cons, List.map_map]
      refine congrArg₂ _ rfl (List.map_congr_left fun i _ => ?_)
      show layerName (n + 1 + i) = layerName (n + (i + 1))
      rw [Nat.add_assoc, Nat.add_comm 1 i]
    · intro i l' hi
      cases i with
      | zero =>
        cases hi
        exact ⟨j, by simp [List.lookup], sj⟩
      | succ i =>
        obtain ⟨o, ho, so⟩ := h2 i l' (by simpa using hi)
        refine ⟨o, ?_, so⟩
        have : (layerName (n + (i + 1)) == layerName n) = false := by
          rw [beq_eq_false_iff_ne]
          intro e
          have := layerName_inj e
          omega
        rw [List.lookup_cons, this]
        dsimp only
        rw [← ho, Nat.add_assoc, Nat.add_comm 1 i]

theorem legal_all {k : Lim} (ls : List (GLay K)) : ∀ (b : Bool) (d : Dim), NetLegal k b d ls →
    ∀ l ∈ ls, l.Legal k := by
  induction ls with
  | nil => intro _ _ _ l hl; cases hl
  | cons c ls ih =>
    intro b d N a ha
    obtain ⟨L, _, _, _, N⟩ := N
    rcases List.mem_cons.1 ha with rfl | ha
    · exact L
    · exact ih _ _ N a ha

theorem legal_chain {k : Lim} (ls : List (GLay K)) : ∀ (b : Bool) (d : Dim), NetLegal k b d ls →
    ∀ (i : Nat) (l a : GLay K), ls[i]? = some l → ls[i + 1]? = some a → a.nIn = l.dim.n := by
  induction ls with
  | nil => intro _ _ _ i l a h; simp at h
  | cons c ls ih =>
    intro b d N i u v hu hv
    obtain ⟨_, _, _, _, N⟩ := N
    cases i with
    | zero =>
      rw [List.getElem?_cons_zero] at hu
      cases hu
      rw [List.getElem?_cons_succ] at hv
      cases ls with
      | nil => simp at hv
      | cons e ls =>
        rw [List.getElem?_cons_zero] at hv
        cases hv
        exact N.2.1.ins
    | succ i =>
      rw [List.getElem?_cons_succ] at hu hv
      exact ih _ _ N i u v hu hv

/-! ## Layers with the same JSON -/

theorem num_inj {a b : Int} (h : (jsonOfInt a : Json K) = jsonOfInt b) : a = b :=
  Int.cast_injective (α := K) (Json.num.inj h)

theorem nums_inj : ∀ {a b : List K}, (jsonNums a : Json K) = jsonNums b → a = b := by
  intro a b h
  have := Json.arr.inj h
  exact List.map_injective_iff.2 (fun _ _ e => Json.num.inj e) this

theorem fn_inj {a b : Int} (ha : 0 ≤ a ∧ a < 11) (hb : 0 ≤ b ∧ b < 11)
    (h : fnName (K := K) a = fnName b) : a = b := by
  obtain ⟨s, h1, h2⟩ := fn_shown (K := K) ha
  obtain ⟨t, h3, h4⟩ := fn_shown (K := K) hb
  rw [h1, h3] at h
  have e : String.ofList s = String.ofList t := Json.str.inj (Except.ok.inj h)
  have : s = t := by
    have := congrArg String.toList e
    simpa using this
  rw [this, h4] at h2
  exact (Option.some.inj h2).symm

/-- What the JSON of an array of weights determines. -/
structure SameMatrix (a b : CLay K) : Prop where
  ws : a.ws.map Wt.w = b.ws.map Wt.w
  bs : a.ns.map Neuron.bias = b.ns.map Neuron.bias

theorem matrix_inj {a b : CLay K} (h : weightJson true a = weightJson true b) : SameMatrix a b := by
  unfold weightJson at h
  have := Json.obj.inj h
  simp only [if_true, List.cons_append, List.nil_append, List.cons.injEq, Prod.mk.injEq, true_and,
    and_true] at this
  exact ⟨nums_inj this.2.1, nums_inj this.2.2.2.1⟩

end Xcsf.JsonNet
