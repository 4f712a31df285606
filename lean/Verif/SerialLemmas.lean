import Verif.SerialFileLemmas
import Verif.SerialSpec

/-! # Loading what was saved: layers -/

set_option linter.unusedSectionVars false

namespace Xcsf

section
variable {K α β γ : Type}

theorem run_newInt (f : Int → Rd K α) (v : Int) (is : List (Item K)) :
    (newInt >>= f).runI (.int v :: is) = (f v).runI is := rfl
theorem run_newDbl (f : K → Rd K α) (v : K) (is : List (Item K)) :
    (newDbl >>= f).runI (.dbl v :: is) = (f v).runI is := rfl
theorem run_newBool (f : Bool → Rd K α) (v : Bool) (is : List (Item K)) :
    (newBool >>= f).runI (.bool v :: is) = (f v).runI is := rfl
theorem run_newU32 (f : Nat → Rd K α) (v : Nat) (is : List (Item K)) :
    (newU32 >>= f).runI (.u32 v :: is) = (f v).runI is := rfl
theorem run_newNat (f : Nat → Rd K α) (v : Nat) (is : List (Item K)) :
    (newNat >>= f).runI (.int (v : Int) :: is) = (f v).runI is := by
  have : ¬ (v : Int) < 0 := by omega
  simp [newNat, bind_eq, Rd.bind, Rd.runI, this]
theorem run_getInt (o : Int) (f : Int → Rd K α) (v : Int) (is : List (Item K)) :
    (getInt o >>= f).runI (.int v :: is) = (f v).runI is := rfl
theorem run_getDbl (o : K) (f : K → Rd K α) (v : K) (is : List (Item K)) :
    (getDbl o >>= f).runI (.dbl v :: is) = (f v).runI is := rfl
theorem run_getBool (o : Bool) (f : Bool → Rd K α) (v : Bool) (is : List (Item K)) :
    (getBool o >>= f).runI (.bool v :: is) = (f v).runI is := rfl
theorem run_getSize (o : Nat) (f : Nat → Rd K α) (v : Nat) (is : List (Item K)) :
    (getSize o >>= f).runI (.size v :: is) = (f v).runI is := rfl
theorem run_ret (a : α) (is : List (Item K)) : (Rd.ret a : Rd K α).runI is = .ok (a, is) := rfl
theorem run_lift (a : β) (f : β → Rd K α) (is : List (Item K)) :
    (Rd.lift (.ok a) >>= f).runI is = (f a).runI is := rfl
theorem run_agree (a : Int) (f : Unit → Rd K α) (is : List (Item K)) :
    (agree a a >>= f).runI is = (f ()).runI is := by simp [agree, bind_eq, Rd.bind]
theorem run_retbind (a : β) (f : β → Rd K α) (is : List (Item K)) :
    (Rd.ret a >>= f).runI is = (f a).runI is := rfl

theorem ReadsBack.bind {p : Rd K β} {is : List (Item K)} {b : β} (h : ReadsBack p is b)
    (f : β → Rd K α) (rest : List (Item K)) : (p >>= f).runI (is ++ rest) = (f b).runI rest := by
  rw [bind_eq, runI_bind, h]

theorem reads_arrMap {one : Rd K α} {w : β → List (Item K)} {q : β → α} : ∀ xs : List β,
    (∀ x ∈ xs, ReadsBack one (w x) (q x)) → ReadsBack (getArr one xs.length) (xs.flatMap w) (xs.map q)
  | [], _ => reads_ret _
  | x :: xs, h => by
    have h2 : ReadsBack (do let ys ← getArr one xs.length; Rd.ret (q x :: ys)) (xs.flatMap w ++ [])
        (q x :: xs.map q) := reads_bind (reads_arrMap xs fun y hy => h y (by simp [hy])) (reads_ret _)
    have h3 : ReadsBack (do let y ← one; let ys ← getArr one xs.length; Rd.ret (y :: ys))
        (w x ++ (xs.flatMap w ++ [])) (q x :: xs.map q) := reads_bind (h x (by simp)) h2
    simpa [getArr] using h3

theorem run_arr {one : Rd K β} {w : γ → Item K} {q : γ → β} (xs : List γ)
    (h : ∀ x, ReadsBack one [w x] (q x)) {n : Nat} (e : xs.length = n) (f : List β → Rd K α)
    (is : List (Item K)) :
    (getArr one n >>= f).runI (xs.map w ++ is) = (f (xs.map q)).runI is := by
  subst e
  have := (reads_arrMap (w := fun x => [w x]) xs fun x _ => h x).bind f is
  have e2 : ∀ ys : List γ, ys.flatMap (fun x => [w x]) = ys.map w := by
    intro ys; induction ys <;> simp_all
  rwa [e2] at this

theorem run_arrDbl (q : γ → K) (xs : List γ) {n : Nat} (e : xs.length = n) (f : List K → Rd K α)
    (is : List (Item K)) :
    (getArr newDbl n >>= f).runI ((xs.map fun x => Item.dbl (q x)) ++ is) =
      (f (xs.map q)).runI is := run_arr xs (fun _ _ => rfl) e f is
theorem run_arrDbl' (xs : List K) {n : Nat} (e : xs.length = n) (f : List K → Rd K α)
    (is : List (Item K)) :
    (getArr newDbl n >>= f).runI (xs.map Item.dbl ++ is) = (f xs).runI is := by
  have := run_arrDbl id xs e f is
  simpa using this
theorem run_arrBool (q : γ → Bool) (xs : List γ) {n : Nat} (e : xs.length = n)
    (f : List Bool → Rd K α) (is : List (Item K)) :
    (getArr newBool n >>= f).runI ((xs.map fun x => Item.bool (q x)) ++ is) =
      (f (xs.map q)).runI is := run_arr xs (fun _ _ => rfl) e f is
theorem run_arrInt' (xs : List Int) {n : Nat} (e : xs.length = n) (f : List Int → Rd K α)
    (is : List (Item K)) :
    (getArr newInt n >>= f).runI (xs.map Item.int ++ is) = (f xs).runI is := by
  have := run_arr (w := Item.int) (q := id) (one := newInt) xs (fun _ _ => rfl) e f is
  simpa using this
theorem run_arrChr' (xs : List Char) {n : Nat} (e : xs.length = n) (f : List Char → Rd K α)
    (is : List (Item K)) :
    (getArr newChr n >>= f).runI (xs.map Item.chr ++ is) = (f xs).runI is := by
  have := run_arr (w := Item.chr) (q := id) (one := newChr) xs (fun _ _ => rfl) e f is
  simpa using this

end

section
variable {K R : Type} [Field K] [LinearOrder K] [IsStrictOrderedRing K] [FloorRing K]

theorem run_zeros {α : Type} {n : Nat} (f : List K → Rd K α) (is : List (Item K)) :
    (getArr newDbl n >>= f).runI (zeros n ++ is) = (f (List.replicate n 0)).runI is := by
  have := run_arrDbl' (n := n) (List.replicate n (0 : K)) (by simp) f is
  simpa [zeros] using this

theorem bitsOpt_optBits (o : LOpt) : bitsOpt (optBits o) = o := by
  obtain ⟨a, b, c, d, e, f⟩ := o
  cases a <;> cases b <;> cases c <;> cases d <;> cases e <;> cases f <;> decide

theorem fileOutputs_ok {n : Nat} (h : 1 ≤ n ∧ n ≤ 2000000) : guardOutputs (n : Int) = .ok () := by
  unfold guardOutputs; rw [if_neg (by omega)]
theorem guardOutputs_ofInt {n : Int} (h : 1 ≤ n ∧ n ≤ 2000000) : guardOutputs n = .ok () := by
  unfold guardOutputs; rw [if_neg (by omega)]
theorem fileWeights_ok {n : Nat} (h : 1 ≤ n ∧ n ≤ 20000000) : guardWeights (n : Int) = .ok () := by
  unfold guardWeights; rw [if_neg (by omega)]

theorem zipWts_map (ws : List (Wt K)) :
    zipWts (ws.map Wt.w) (ws.map Wt.upd) (ws.map Wt.on) = ws := by
  induction ws with
  | nil => rfl
  | cons w ws ih => simpa [zipWts] using ih

theorem zipNs_map (ns : List (Neuron K)) :
    zipNs (ns.map Neuron.bias) (ns.map Neuron.bupd) = ns.map Neuron.fresh := by
  induction ns with
  | nil => rfl
  | cons w ws ih => simp [zipNs, Neuron.fresh] 

theorem conn_reads {l : CLay K} (h : l.Whole) : ReadsBack connLoad (connSave l) l.fresh := by
  intro rest
  unfold connLoad connSave
  simp only [List.cons_append, List.nil_append, List.append_assoc, run_newInt, run_newNat,
    run_newDbl, run_newU32, fileOutputs_ok h.outs, fileWeights_ok h.wts, run_lift, h.ns,
    run_agree, run_arrDbl, run_arrBool, run_arrDbl', h.mu, run_ret, bitsOpt_optBits, zipWts_map,
    zipNs_map]
  rfl

theorem sub_reads {l : CLay K} (h : l.Whole) : ReadsBack connSubLoad (connSub l) l.fresh := by
  intro rest
  unfold connSubLoad connSub
  simp only [List.cons_append, run_newInt, run_agree]
  exact conn_reads h rest

theorem rec_reads {l : RLay K} (h : l.Whole) : ReadsBack recLoad (recSave l) l.reload := by
  intro rest
  unfold recLoad recSave
  simp only [List.cons_append, List.nil_append, List.append_assoc, run_newInt, run_newNat,
    run_newDbl, run_newU32, fileOutputs_ok h.outs, run_lift, run_arrDbl, run_arrDbl', h.mu, h.state,
    h.prev, (sub_reads h.inp).bind, (sub_reads h.self).bind, (sub_reads h.out).bind, run_ret,
    bitsOpt_optBits, List.map_map]
  rfl

theorem lstm_reads {l : TLay K} (h : l.Whole) : ReadsBack lstmLoad (lstmSave l) l.reload := by
  intro rest
  unfold lstmLoad lstmSave
  simp only [List.cons_append, List.nil_append, List.append_assoc, run_newInt, run_newNat,
    run_newDbl, run_newU32, fileOutputs_ok h.outs, run_lift, run_arrDbl', h.mu, h.prev, h.gf, h.gi,
    h.gg, h.go, h.c, h.h, h.dc, run_zeros, (sub_reads h.uf).bind, (sub_reads h.ui).bind,
    (sub_reads h.ug).bind, (sub_reads h.uo).bind, (sub_reads h.wf).bind, (sub_reads h.wi).bind,
    (sub_reads h.wg).bind, (sub_reads h.wo).bind, run_ret, bitsOpt_optBits]
  rfl

theorem fileConv_ok {f nw : Nat} {no : Int} (h1 : 1 ≤ f ∧ f ≤ 2000000) (h2 : 1 ≤ no ∧ no ≤ 2000000)
    (h3 : 1 ≤ nw ∧ nw ≤ 20000000) : convGuard f no nw = .ok () := by
  unfold convGuard
  rw [fileOutputs_ok h1, guardOutputs_ofInt h2, fileWeights_ok h3]

theorem conv_reads {l : VLay K} (h : l.Whole) : ReadsBack convLoad (convSave l) l.fresh := by
  intro rest
  unfold convLoad convSave
  simp only [List.cons_append, List.nil_append, List.append_assoc, run_newInt, run_newNat,
    run_newDbl, run_newU32, h.ns, fileConv_ok h.flt h.outs h.wts, run_lift, run_agree, run_arrDbl,
    run_arrBool, run_arrDbl', h.mu, run_ret, bitsOpt_optBits, zipWts_map, zipNs_map, ← h.ins]
  rfl

theorem pool_new {l : PLay K} (h : 1 ≤ l.nOut ∧ l.nOut ≤ 2000000) (is : List (Item K)) :
    (poolNew l).runI is = .ok (l.fresh, is) := by
  unfold poolNew
  rw [guardOutputs_ofInt h]
  rfl

theorem max_reads {l : PLay K} (h : 1 ≤ l.nOut ∧ l.nOut ≤ 2000000) :
    ReadsBack maxLoad (maxSave l) { l.fresh with probability := 0, scale := 0 } := by
  intro rest
  unfold maxLoad maxSave
  simp only [List.cons_append, List.nil_append, run_newInt]
  exact (pool_new (by exact h) rest).trans rfl

theorem avg_reads {l : PLay K} (h : 1 ≤ l.nOut ∧ l.nOut ≤ 2000000) :
    ReadsBack avgLoad (avgSave l)
      { l.fresh with probability := 0, scale := 0, pad := 0, size := 0, stride := 0 } := by
  intro rest
  unfold avgLoad avgSave
  simp only [List.cons_append, List.nil_append, run_newInt]
  exact (pool_new (by exact h) rest).trans rfl

theorem ups_reads {l : PLay K} (h : 1 ≤ l.nOut ∧ l.nOut ≤ 2000000) :
    ReadsBack upsLoad (upsSave l)
      { l.fresh with probability := 0, scale := 0, pad := 0, size := 0 } := by
  intro rest
  unfold upsLoad upsSave
  simp only [List.cons_append, List.nil_append, run_newInt]
  exact (pool_new (by exact h) rest).trans rfl

theorem mask_reads {l : PLay K} (h : 1 ≤ l.nOut ∧ l.nOut ≤ 2000000) :
    ReadsBack maskLoad (maskSave l)
      { l.fresh with height := 0, width := 0, channels := 0, pad := 0, size := 0, stride := 0 } := by
  intro rest
  unfold maskLoad maskSave
  simp only [List.cons_append, List.nil_append, run_newInt, run_newDbl]
  exact (pool_new (by exact h) rest).trans rfl

theorem soft_reads {l : SLay K} (h : 1 ≤ l.nOut ∧ l.nOut ≤ 2000000) :
    ReadsBack softLoad (softSave l)
      { l with
        outW := l.nOut
        outH := 1
        outC := 1
        output := List.replicate l.nOut.toNat 0
        delta := List.replicate l.nOut.toNat 0 } := by
  intro rest
  unfold softLoad softSave
  simp only [List.cons_append, List.nil_append, run_newInt, run_newDbl, guardOutputs_ofInt h,
    run_lift, run_ret]

theorem ReadsBack.ret {α β : Type} {p : Rd K α} {is : List (Item K)} {a : α} (h : ReadsBack p is a)
    (f : α → β) : ReadsBack (do let l ← p; .ret (f l)) is (f a) := by
  have := reads_bind h (reads_ret (K := K) (f a)) (f := fun l => .ret (f l))
  simpa using this

theorem layer_reads {l : GLay K} (h : l.Whole) : ReadsBack layerLoad (layerSave l) l.reload := by
  intro rest
  unfold layerLoad
  cases l <;> simp only [layerSave, List.cons_append, run_getInt]
  · exact (conn_reads h).ret _ rest
  · exact (rec_reads h).ret _ rest
  · exact (lstm_reads h).ret _ rest
  · exact (conv_reads h).ret _ rest
  · exact (max_reads h).ret _ rest
  · exact (avg_reads h).ret _ rest
  · exact (ups_reads h).ret _ rest
  · exact (mask_reads h).ret _ rest
  · exact (mask_reads h).ret _ rest
  · exact (soft_reads h).ret _ rest

theorem reload_nIn (l : GLay K) : l.reload.lay.nIn = l.nIn := by cases l <;> rfl
theorem reload_n (l : GLay K) : l.reload.lay.dim.n = l.dim.n := by cases l <;> rfl

theorem net_reads {n : FNet K} (h : n.Whole) : ReadsBack netLoad (netSave n) n.reload := by
  intro rest
  unfold netLoad netSave
  simp only [List.cons_append, List.nil_append, run_getInt, Int.toNat_natCast]
  have e := (reads_arrMap (one := layerLoad) (w := fun l : FLay K => layerSave l.lay)
    (q := fun l => l.lay.reload) n.layers fun l hl => layer_reads (h.layers l hl)).bind
    (fun ls => .ret (netOf ls)) rest
  rw [e, run_ret]
  have : netOf (n.layers.map fun l => l.lay.reload) = n.reload := by
    simp only [netOf, FNet.reload, h.ins, h.outs, List.head?_map, List.getLast?_map, Option.map_map]
    have e1 : ((fun l : FLay K => l.lay.nIn) ∘ fun l : FLay K => l.lay.reload) =
      fun l => l.lay.nIn := funext fun l => reload_nIn l.lay
    have e2 : ((fun l : FLay K => l.lay.dim.n) ∘ fun l : FLay K => l.lay.reload) =
      fun l => l.lay.dim.n := funext fun l => reload_n l.lay
    rw [e1, e2]
  rw [this]

/-- Networks without recurrent layers come back unchanged but for their working memory. -/
theorem reload_plain {n : FNet K} (h : n.plain = true) : n.reload = n.fresh := by
  unfold FNet.plain at h
  rw [List.all_eq_true] at h
  unfold FNet.reload FNet.fresh
  congr 1
  apply List.map_congr_left
  intro l hl
  have := h l hl
  obtain ⟨l, w⟩ := l
  cases l <;> simp_all [GLay.remembers, GLay.reload]

end

end Xcsf
