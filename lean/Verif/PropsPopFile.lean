import Verif.PopFile
import Verif.Props8

/-!
# Property C108: a system started from a population file
-/

set_option linter.unusedSectionVars false
set_option linter.unusedVariables false

namespace Xcsf.PopFile
open Xcsf

variable {K R : Type} [Field K] [LinearOrder K] [IsStrictOrderedRing K] [FloorRing K]
variable (Y : System K R)

/-! ## Specification -/

/-- A new random rule. -/
def New (c : Cl K Y.Rule) : Prop := ∃ r, c = clInit Y.par (Y.par.popSize : K) 0 (Y.kit.rand r).1

/-- `s` is a new system whose population ends with the rules `cs`: the numbers it reports are those of
a new system, and if the population is to be full at the start, new random rules come first and fill
it up. -/
structure Seeded (cs : List (Cl K Y.Rule)) (s : St K Y.In Y.Rule R) : Prop where
  error : s.error = Y.par.e0
  time : s.time = 0
  rules : ∃ new, population s = new ++ cs ∧ (∀ c ∈ new, New Y c) ∧
    (Y.par.popInit = false → new = []) ∧
    (Y.par.popInit = true → micro (population s) = Y.par.popSize)

/-! ## Lemmas -/

theorem initSt_between (r : R) : Between Y.Fit Y.par (initSt Y.par r : St K Y.In Y.Rule R)
    (initSt Y.par r) := by
  have g0 : Good Y.Fit (initSt Y.par r : St K Y.In Y.Rule R) [] := by
    unfold initSt
    refine ⟨⟨⟨List.nodup_nil, by simp, rfl, rfl⟩, ⟨List.nodup_nil, by simp, rfl, rfl⟩, by simp, by simp,
      List.nodup_nil, List.nodup_nil, by simp, ?_, fun _ _ => rfl⟩, ?_⟩
    · intro i hi; simp [St.nums] at hi
    · intro i c h; simp at h
  exact ⟨g0, rfl, ⟨Int.le_refl _, Y.hpar.popSize⟩, ⟨Int.le_refl _, Y.hpar.popSize⟩, rfl, fun _ _ => rfl⟩

theorem micro_num {s : St K Y.In Y.Rule R} (b : Between Y.Fit Y.par s s) :
    micro (population s) = s.pset.num := by
  rw [population, filterMap_micro b.good.inv.p.allLive, b.good.inv.p.num]

theorem rds_population {s : St K Y.In Y.Rule R} (b : Between Y.Fit Y.par s s) {k : Int} :
    ({ s with time := k } : St K Y.In Y.Rule R).rds s.pset.list = .ok (population s) := by
  have : ∀ l : List Nat, (∀ i ∈ l, (s.heap i).isSome) →
      ({ s with time := k } : St K Y.In Y.Rule R).rds l = .ok (l.filterMap s.heap) := by
    intro l
    induction l with
    | nil => intro _; rfl
    | cons i l ih =>
      intro h
      obtain ⟨c, hc⟩ := Option.isSome_iff_exists.1 (h i List.mem_cons_self)
      have h2 := ih fun j hj => h j (List.mem_cons_of_mem _ hj)
      unfold St.rds at h2 ⊢
      rw [List.mapM_cons, h2, List.filterMap_cons_some hc]
      have : ({ s with time := k } : St K Y.In Y.Rule R).rd i = .ok c := by
        unfold St.rd
        simp only [hc]
      rw [this]
      rfl
  exact this _ b.good.inv.p.allLive

theorem restored_from {P : Cl K Y.Rule → Cl K Y.Rule → Prop} {l cs : List (Cl K Y.Rule)}
    (h : List.Forall₂ P l cs) : ∀ c ∈ cs, ∃ d ∈ l, P d c := by
  induction h with
  | nil => intro c hc; cases hc
  | cons hp _ ih =>
    intro c hc
    rcases List.mem_cons.1 hc with rfl | hc
    · exact ⟨_, List.mem_cons_self, hp⟩
    · obtain ⟨d, hd, e⟩ := ih c hc
      exact ⟨d, List.mem_cons_of_mem _ hd, e⟩

/-- Filling the population up puts new rules before it. -/
theorem fill : ∀ (n : Nat) {s : St K Y.In Y.Rule R} {pend : List Nat}, Good Y.Fit s pend →
    Y.par.popSize - s.pset.num ≤ n → s.pset.num ≤ Y.par.popSize →
    ∃ s' new, psetInitGo Y.par Y.kit n s = .ok s' ∧ population s' = new ++ population s ∧
      (∀ c ∈ new, New Y c)
  | 0, s, pend, g, hn, hc => by
    refine ⟨s, [], ?_, rfl, by simp⟩
    unfold psetInitGo
    rw [if_neg]
    push_cast at hn
    omega
  | n + 1, s, pend, g, hn, hc => by
    by_cases h : s.pset.num < Y.par.popSize
    · have g1 : Good Y.Fit { s with rng := (Y.kit.rand s.rng).2 } pend := g.congr rfl rfl rfl rfl rfl
      have g2 := g1.insert ((lawsField Y.regular).rand s.rng) (by simp [clInit])
      obtain ⟨s', new, e, p, q⟩ := fill n g2 (by
          show Y.par.popSize - (s.pset.num + 1) ≤ _; push_cast at hn; omega)
        (by show s.pset.num + 1 ≤ _; omega)
      refine ⟨s', new ++ [clInit Y.par (Y.par.popSize : K) 0 (Y.kit.rand s.rng).1], ?_, ?_, ?_⟩
      · rw [psetInitGo, if_pos h]; exact e
      · rw [p, List.append_assoc]
        congr 1
        show (s.next :: s.pset.list).filterMap _ = _
        rw [List.filterMap_cons_some (b := clInit Y.par (Y.par.popSize : K) 0 (Y.kit.rand s.rng).1)
          (by show ({ s with rng := _ } : St K Y.In Y.Rule R).alloc _ |>.2.heap _ = _
              rw [alloc_heap]; simp)]
        show _ = _ :: population s
        congr 1
        apply filterMap_congr'
        intro j hj
        show ({ s with rng := _ } : St K Y.In Y.Rule R).alloc _ |>.2.heap _ = _
        rw [alloc_heap, if_neg]
        intro e
        exact g.inv.notMem_next.1 (e ▸ hj)
      · intro c hc
        rcases List.mem_append.1 hc with h | h
        · exact q c h
        · exact ⟨s.rng, List.mem_singleton.1 h⟩
    · refine ⟨s, [], ?_, rfl, by simp⟩
      rw [psetInitGo, if_neg h]

/-- Reading documents changes no gauge. -/
theorem fr_import (j : Json K) (s : St K Y.In Y.Rule R) : Frames (gauges s) (Y.import j s) := by
  have one : ∀ j (s : St K Y.In Y.Rule R), Frames (gauges s) (Y.insertDoc s j) := by
    intro j s
    unfold System.insertDoc
    cases clImport (c := Y.cond) (q := Y.pred) Y.par Y.pf.rng Y.S s.pset.num s.time j s.rng with
    | error e => trivial
    | ok q =>
      simp only [bind, Except.bind]
      split
      · exact fr_insertCl _ { s with rng := q.2 }
      · trivial
  have all : ∀ (l : List (Json K)) (s : St K Y.In Y.Rule R), Frames (gauges s) (l.foldlM Y.insertDoc s) := by
    intro l
    induction l with
    | nil => intro s; rfl
    | cons c l ih =>
      intro s
      rw [List.foldlM_cons]
      exact post_bind (one c s) fun s1 h1 => h1 ▸ ih s1
  unfold System.import
  split
  · rfl
  · trivial
  · exact all _ s

/-! ## Theorems -/

section
variable {r r0 : R} {ops : List (Op K Y.In Y.Rule)} {s : St K Y.In Y.Rule R}

theorem seeded (hg : Y.cond ≠ .gp) (hf : Y.Fits) (hv : ∀ op ∈ ops, op.ok Y.Fit)
    (h : run Y.par Y.kit r ops = .ok s) (hi : ∀ c ∈ population s, c.Ints) (hne : population s ≠ []) :
    ∃ doc, Y.export s = .ok doc ∧ ∀ (F : Files K) (name text : List Char), name ≠ [] → text ≠ [] →
      F.disk name = some text → F.parse text = some doc →
      ∃ s' cs, start Y F name r0 = .ok s' ∧ Between Y.Fit Y.par s' s' ∧ Seeded Y cs s' ∧
        List.Forall₂ Y.Restored (population s) cs := by
  have b := post_of_ok (run_post (lawsField Y.regular) r ops hv) h
  have hall : ∀ c ∈ population s, c.Ints ∧ Y.Fit c ∧ 1 ≤ c.num :=
    fun c hc => ⟨hi c hc, b.rules c hc⟩
  obtain ⟨js, e, Fj⟩ := Y.export_docs hg hf (population s) hall r
  have hrev : micro (population s).reverse = micro (population s) := by
    simp [micro, List.map_reverse, List.sum_reverse]
  obtain ⟨s1, cs, e', b', p, q⟩ := Y.insertDocs_spec hg hf (population s).reverse js.reverse
    (fun c hc => hall c (List.mem_reverse.1 hc)) (List.rel_reverse Fj) (initSt_between Y r0)
    (by
      have : micro (population (initSt Y.par r0 : St K Y.In Y.Rule R)) = 0 := rfl
      rw [hrev, this, micro_num Y b]
      have := b.cap.2
      omega)
  have q := List.rel_reverse q
  rw [List.reverse_reverse] at q
  have p : population s1 = cs.reverse := by rw [p]; exact List.append_nil _
  have hex : Y.export s = .ok (.obj [("classifiers", .arr js)]) := by
    unfold System.export popExport; rw [e]; rfl
  have him : Y.import (.obj [("classifiers", .arr js)]) (initSt Y.par r0) = .ok s1 := by
    cases js with
    | nil => exact absurd (List.forall₂_nil_right_iff.1 Fj) hne
    | cons j js => exact e'
  refine ⟨_, hex, fun F name text hn ht hd hp => ?_⟩
  have hload : loadNamed Y F name (initSt Y.par r0) = .ok s1 := by
    unfold loadNamed loadPopFile
    rw [if_neg hn, hd]
    cases text with
    | nil => exact absurd rfl ht
    | cons c text => simp only [hp]; exact him
  have hgg : gauges s1 = gauges (initSt Y.par r0 : St K Y.In Y.Rule R) := by
    have := fr_import Y (.obj [("classifiers", .arr js)]) (initSt Y.par r0)
    rw [him] at this
    exact this
  simp only [gauges, Prod.mk.injEq] at hgg
  by_cases hpi : Y.par.popInit = true
  · have hc : s1.pset.num ≤ Y.par.popSize := b'.cap.2
    have h0 : 0 ≤ s1.pset.num := by
      rw [← micro_num Y b']
      apply List.sum_nonneg
      intro n hn
      obtain ⟨d, hd, rfl⟩ := List.mem_map.1 hn
      have := (b'.rules d hd).2; omega
    have hle : Y.par.popSize - s1.pset.num ≤ (Y.par.popSize.toNat : Int) := by omega
    obtain ⟨s2, new, e2, p2, n2⟩ := fill Y _ b'.good hle hc
    obtain ⟨g2, c2, k2, q2⟩ := post_of_ok (psetInitGo_post (lawsField Y.regular) _ b'.good hle hc) e2
    have b2 : Between Y.Fit Y.par s2 s2 :=
      ⟨g2, by rw [k2]; exact b'.kset, ⟨Int.le_refl _, by omega⟩, by rw [q2]; exact b'.qcap, rfl, fun _ _ => rfl⟩
    have ck := post_of_ok (psetInit_clock _ _) e2
    simp only [clock, Prod.mk.injEq] at ck
    refine ⟨s2, cs.reverse, ?_, b2, ⟨?_, ?_, new, by rw [p2, p], n2, ?_, ?_⟩, q⟩
    · unfold start psetInit
      rw [hload]
      show (if Y.par.popInit = true then _ else _) = _
      rw [if_pos hpi]
      exact e2
    · rw [ck.1, hgg.1]; rfl
    · rw [ck.2.1, hgg.2.2.2.2.1]; rfl
    · intro hh; rw [hpi] at hh; cases hh
    · intro _; rw [micro_num Y b2]; exact c2
  · refine ⟨s1, cs.reverse, ?_, b', ⟨?_, ?_, [], by rw [p]; rfl, by simp, fun _ => rfl, ?_⟩, q⟩
    · unfold start psetInit
      rw [hload]
      show (if Y.par.popInit = true then _ else _) = _
      rw [if_neg hpi]
    · rw [hgg.1]; rfl
    · rw [hgg.2.2.2.2.1]; rfl
    · intro hh; exact absurd hh hpi

/-- Property C108: a system that has learned writes its population to a file as JSON. Whatever it has
learned, a system with the same parameters that is started with this file - in a new process, or by
every `fit` that does not continue - holds the same rules in the same order, filled up with random
rules if the population is to be full, and reports the numbers of a new system. What is missing: tree
conditions, empty populations and other documents, see the refutations. -/
theorem C108_seeded_partial (hg : Y.cond ≠ .gp) (hf : Y.Fits) (hv : ∀ op ∈ ops, op.ok Y.Fit)
    (h : run Y.par Y.kit r ops = .ok s) (hi : ∀ c ∈ population s, c.Ints) (hne : population s ≠ []) :
    ∃ doc, Y.export s = .ok doc ∧ ∀ (F : Files K) (name text : List Char), name ≠ [] → text ≠ [] →
      F.disk name = some text → F.parse text = some doc →
      ∃ s' cs, start Y F name r0 = .ok s' ∧ Seeded Y cs s' ∧
        List.Forall₂ Y.Restored (population s) cs := by
  obtain ⟨doc, e, k⟩ := seeded Y (r0 := r0) hg hf hv h hi hne
  refine ⟨doc, e, fun F name text h1 h2 h3 h4 => ?_⟩
  obtain ⟨s', cs, h5, -, h6, h7⟩ := k F name text h1 h2 h3 h4
  exact ⟨s', cs, h5, h6, h7⟩

/-- Property C108, safety: no history of calls of a system started with such a file is undefined or
uses a freed rule. -/
theorem C108_safe_partial (hg : Y.cond ≠ .gp) (hf : Y.Fits) (hv : ∀ op ∈ ops, op.ok Y.Fit)
    (h : run Y.par Y.kit r ops = .ok s) (hi : ∀ c ∈ population s, c.Ints) (hne : population s ≠ [])
    {doc : Json K} (hd : Y.export s = .ok doc) {F : Files K} {name text : List Char} (hn : name ≠ [])
    (ht : text ≠ []) (hf1 : F.disk name = some text) (hf2 : F.parse text = some doc)
    {more : List (Op K Y.In Y.Rule)} (hm : ∀ op ∈ more, op.ok Y.Fit) :
    (start Y F name r0 >>= more.foldlM (step Y.par Y.kit)) ≠ .error .ub ∧
    (start Y F name r0 >>= more.foldlM (step Y.par Y.kit)) ≠ .error .uaf := by
  obtain ⟨doc', e, k⟩ := seeded Y (r0 := r0) hg hf hv h hi hne
  rw [hd] at e
  cases e
  obtain ⟨s', cs, h5, b, -, -⟩ := k F name text hn ht hf1 hf2
  rw [h5]
  have p := foldlM_post (lawsField Y.regular) more hm b
  exact ⟨fun h => post_of_error p h, fun h => post_of_error p h⟩

/-- Without a name nothing is read: the system starts as it does without the parameter. -/
theorem C108_no_file (F : Files K) : start Y F [] r0 = xcsfInit Y.par Y.kit r0 := rfl

/-- A file that cannot be opened, is empty or is not JSON ends the program with a message. -/
theorem C108_unusable (F : Files K) (name : List Char) (hn : name ≠ [])
    (h : F.disk name = none ∨ F.disk name = some [] ∨ ∃ t, F.disk name = some t ∧ F.parse t = none) :
    start Y F name r0 = .error .exit := by
  unfold start psetInit loadNamed loadPopFile
  rw [if_neg hn]
  rcases h with h | h | ⟨t, h, hp⟩
  · rw [h]; rfl
  · rw [h]; rfl
  · rw [h]
    cases t with
    | nil => rfl
    | cons c t => simp only [hp]; rfl

/-- Refuted for empty populations: the file a system without rules writes is read through a null
pointer. -/
theorem C108_empty_refuted (he : population s = []) : ∃ doc, Y.export s = .ok doc ∧
    ∀ (F : Files K) (name text : List Char), name ≠ [] → text ≠ [] → F.disk name = some text →
      F.parse text = some doc → start Y F name r0 = .error .ub := by
  refine ⟨.obj [("classifiers", .arr [])], by unfold System.export popExport; rw [he]; rfl, ?_⟩
  intro F name text hn ht hd hp
  unfold start psetInit loadNamed loadPopFile
  rw [if_neg hn, hd]
  cases text with
  | nil => exact absurd rfl ht
  | cons c text => simp only [hp]; rfl

/-- Refuted for other documents: JSON whose first member is not an array, say a population behind a
version number, is read without a message and without effect. -/
theorem C108_ignored_refuted (v : K) (l : List (Json K)) (F : Files K) (name text : List Char)
    (hn : name ≠ []) (ht : text ≠ []) (hd : F.disk name = some text)
    (hp : F.parse text = some (.obj [("version", .num v), ("classifiers", .arr l)])) :
    start Y F name r0 = xcsfInit Y.par Y.kit r0 := by
  unfold start psetInit loadNamed loadPopFile
  rw [if_neg hn, hd]
  cases text with
  | nil => exact absurd rfl ht
  | cons c text => simp only [hp]; rfl

/-- Refuted for tree conditions: the file of a system with rules ends every program that is started
with it. -/
theorem C108_trees_refuted (hg : Y.cond = .gp) (hf : (Y.par.nActions : Int) ≤ 2147483647)
    (hv : ∀ op ∈ ops, op.ok Y.Fit) (h : run Y.par Y.kit r ops = .ok s)
    (hi : ∀ c ∈ population s, c.Ints) (hne : population s ≠ []) :
    ∃ doc, Y.export s = .ok doc ∧ ∀ (F : Files K) (name text : List Char), name ≠ [] → text ≠ [] →
      F.disk name = some text → F.parse text = some doc → start Y F name r0 = .error .exit := by
  obtain ⟨doc, e1, e2⟩ := C82_trees Y (s0 := initSt Y.par r0) hg hf hv h hi hne
  refine ⟨doc, e1, fun F name text hn ht hd hp => ?_⟩
  unfold start psetInit loadNamed loadPopFile
  rw [if_neg hn, hd]
  cases text with
  | nil => exact absurd rfl ht
  | cons c text => simp only [hp, e2]; rfl
end

/-! ## Evolution after loading -/

theorem totalTime_ge {B : Type} (T : Int) : ∀ (cs : List (Cl K B)), (∀ c ∈ cs, T ≤ c.time ∧ 1 ≤ c.num) →
    ∀ a : K, a + ((T * micro cs : Int) : K) ≤
      cs.foldl (fun a c => a + ((c.time * c.num : Int) : K)) a := by
  intro cs
  induction cs with
  | nil => intro _ a; simp [micro]
  | cons c cs ih =>
    intro h a
    obtain ⟨h1, h2⟩ := h c List.mem_cons_self
    rw [List.foldl_cons]
    refine le_trans ?_ (ih (fun d hd => h d (List.mem_cons_of_mem _ hd)) _)
    have hm : micro (c :: cs) = c.num + micro cs := by simp [micro]
    have h3 : T * c.num ≤ c.time * c.num := Int.mul_le_mul_of_nonneg_right h1 (by omega)
    have h4 : ((T * c.num : Int) : K) ≤ ((c.time * c.num : Int) : K) := Int.cast_le.2 h3
    rw [hm, Int.mul_add]
    push_cast at h4 ⊢
    linarith

/-- As long as the rules of a set have time stamps of at least `T`, the evolutionary algorithm does
nothing before the clock reaches `T + theta`. -/
theorem waits {X B : Type} {par : Params K} {kit : Kit K X B R} {t : CSet} {s : St K X B R} {cs : List (Cl K B)}
    (hr : s.rds t.list = .ok cs) (hn : t.num = micro cs) (T : Int) (hne : cs ≠ [])
    (hc : ∀ c ∈ cs, T ≤ c.time ∧ 1 ≤ c.num) (ht : ((s.time + 1 : Int) : K) < (T : K) + par.eaTheta) :
    ea par kit t s = .ok { s with time := s.time + 1 } := by
  unfold ea
  show (St.rds _ t.list >>= fun cs => _) = _
  have hr' : ({ s with time := s.time + 1 } : St K X B R).rds t.list = .ok cs := hr
  rw [hr']
  show (if eaDue par t cs (s.time + 1) = true then _ else _) = _
  have hm : 0 < micro cs := by
    cases cs with
    | nil => exact absurd rfl hne
    | cons c cs =>
      have h1 := (hc c List.mem_cons_self).2
      have h2 : 0 ≤ (cs.map Cl.num).sum := by
        apply List.sum_nonneg
        intro n hn
        obtain ⟨d, hd, rfl⟩ := List.mem_map.1 hn
        have := (hc d (List.mem_cons_of_mem _ hd)).2; omega
      show 0 < ((c :: cs).map Cl.num).sum
      rw [List.map_cons, List.sum_cons]
      omega
  have hmK : (0 : K) < (micro cs : K) := by exact_mod_cast hm
  have hge : (T : K) ≤ meanTime cs t.num := by
    unfold meanTime
    rw [hn, le_div_iff₀ hmK]
    have := totalTime_ge T cs hc (0 : K)
    rw [zero_add] at this
    rw [← Int.cast_mul]
    exact this
  have hlt : ((s.time + 1 : Int) : K) - meanTime cs t.num < par.eaTheta := by linarith
  have : eaDue par t cs (s.time + 1) = false := by
    unfold eaDue
    rw [decide_eq_true hlt, Bool.or_true]
    rfl
  rw [this]
  rfl

/-- Property C108, evolution: the clock of a seeded system starts at zero, but its rules keep the time
stamps of the file. If those are at least `T`, no rule is bred from them before the clock reaches
`T + theta`; rules of a new system are bred from as soon as it reaches `theta`. -/
theorem C108_evolution_waits {s' s'' : St K Y.In Y.Rule R} {cs : List (Cl K Y.Rule)}
    (hs : Seeded Y cs s') (hi : Y.par.popInit = false) (T : Int)
    (hT : ∀ c ∈ cs, T ≤ c.time) (hpos : ∀ c ∈ cs, 1 ≤ c.num) (hh : s''.heap = s'.heap) (t : CSet)
    (hsub : ∀ i ∈ t.list, i ∈ s'.pset.list) {ds : List (Cl K Y.Rule)} (hr : s''.rds t.list = .ok ds)
    (hne : ds ≠ []) (hnum : t.num = micro ds) (ht : ((s''.time + 1 : Int) : K) < (T : K) + Y.par.eaTheta) :
    ea Y.par Y.kit t s'' = .ok { s'' with time := s''.time + 1 } := by
  obtain ⟨new, p, -, hnew, -⟩ := hs.rules
  rw [hnew hi, List.nil_append] at p
  have key : ∀ (l : List Nat) (ds : List (Cl K Y.Rule)), (∀ i ∈ l, i ∈ s'.pset.list) →
      s''.rds l = .ok ds → ∀ d ∈ ds, d ∈ population s' := by
    intro l
    induction l with
    | nil => intro ds _ h d hd; cases h; cases hd
    | cons i l ih =>
      intro ds hs h d hd
      unfold St.rds at h
      rw [List.mapM_cons] at h
      cases e : s''.rd i with
      | error f => rw [e] at h; cases h
      | ok c =>
        simp only [e, bind, Except.bind] at h
        cases e2 : List.mapM s''.rd l with
        | error f => rw [e2] at h; cases h
        | ok ds' =>
          rw [e2] at h
          cases h
          rcases List.mem_cons.1 hd with rfl | hd
          · refine List.mem_filterMap.2 ⟨i, hs i List.mem_cons_self, ?_⟩
            rw [← hh]
            unfold St.rd at e
            cases hx : s''.heap i with
            | none => rw [hx] at e; cases e
            | some c => rw [hx] at e; cases e; rfl
          · exact ih ds' (fun j hj => hs j (List.mem_cons_of_mem _ hj)) e2 d hd
  refine waits hr hnum T hne (fun d hd => ?_) ht
  have := key t.list ds hsub hr d hd
  rw [p] at this
  exact ⟨hT d this, hpos d this⟩

/-! ## Concrete cases -/

/-- The rectangle system of the demonstrations. -/
abbrev demo : System ℚ Nat := demoSystem .rectangle .nlms

/-- Six samples are learned. -/
def popOps : List (Op ℚ demo.In demo.Rule) :=
  [.fit ⟨[1 / 3, 1 / 3], rfl⟩ [1], .fit ⟨[2 / 3, 1 / 3], rfl⟩ [2], .fit ⟨[1 / 3, 1 / 3], rfl⟩ [1],
   .fit ⟨[2 / 3, 1 / 3], rfl⟩ [2], .fit ⟨[2 / 3, 1 / 3], rfl⟩ [2], .fit ⟨[1 / 3, 1 / 3], rfl⟩ [2]]

theorem popOps_ok : ∀ op ∈ popOps, op.ok demo.Fit := by
  intro op hop
  simp only [popOps, List.mem_cons, List.not_mem_nil, or_false] at hop
  rcases hop with rfl | rfl | rfl | rfl | rfl | rfl <;> trivial

theorem popOps_ready : Demo.Res.test (run Demo.par demo.kit 0 popOps) (fun s =>
    !(population s).isEmpty && decide (∀ c ∈ population s, c.Ints) &&
    decide (∀ c ∈ population s, c.time = 6)) = true := by decide +kernel

/-- Refuted for evolution: a system that evolves its rules at every step (`theta` is one) learns six
samples and writes its rules to a file. A new system that starts with this file never evolves them in
its first six steps, whatever file system and generator it is started with. -/
theorem C108_evolution_refuted : demo.par.eaTheta = 1 ∧ ∃ s doc,
    run demo.par demo.kit 0 popOps = .ok s ∧ demo.export s = .ok doc ∧
    ∀ (F : Files ℚ) (name text : List Char) (r0 : Nat), name ≠ [] → text ≠ [] →
      F.disk name = some text → F.parse text = some doc →
      ∃ s', start demo F name r0 = .ok s' ∧ ∀ k : Int, k < 6 →
        ea demo.par demo.kit s'.pset { s' with time := k } = .ok { s' with time := k + 1 } := by
  refine ⟨rfl, ?_⟩
  obtain ⟨s, h1, h2⟩ := Demo.Res.test_iff popOps_ready
  simp only [Bool.and_eq_true, decide_eq_true_eq, Bool.not_eq_true', List.isEmpty_eq_false_iff] at h2
  obtain ⟨⟨h2, h3⟩, h4⟩ := h2
  obtain ⟨doc, e, k0⟩ := seeded demo (r0 := 0) (by decide) (demo_fits _ _) popOps_ok h1 h3 h2
  refine ⟨s, doc, h1, e, fun F name text r0 f1 f2 f3 f4 => ?_⟩
  obtain ⟨doc', e', k0⟩ := seeded demo (r0 := r0) (by decide) (demo_fits _ _) popOps_ok h1 h3 h2
  rw [e] at e'
  cases e'
  obtain ⟨s', cs, q1, b, q2, q3⟩ := k0 F name text f1 f2 f3 f4
  have hti : ∀ c ∈ cs, (6 : Int) ≤ c.time := by
    intro c hc
    obtain ⟨d, hd, hr⟩ := restored_from demo q3 c hc
    have : c.time = d.time := by rw [hr.attributes]
    rw [this, h4 d hd]
  have hp : population s' = cs := by
    obtain ⟨new, p, -, hnew, -⟩ := q2.rules
    rw [p, hnew rfl, List.nil_append]
  have hpos : ∀ c ∈ cs, 1 ≤ c.num := fun c hc => (b.rules c (hp ▸ hc)).2
  refine ⟨s', q1, fun k hk => ?_⟩
  have hrd : ({ s' with time := k } : St ℚ demo.In demo.Rule Nat).rds s'.pset.list = .ok cs := by
    rw [← hp]
    exact rds_population demo b
  refine C108_evolution_waits demo (s'' := { s' with time := k }) q2 rfl 6 hti hpos rfl s'.pset
    (fun _ h => h) hrd ?_ ?_ ?_
  · rintro rfl
    exact h2 (List.forall₂_nil_right_iff.1 q3)
  · rw [← hp]; exact (micro_num demo b).symm
  · show ((k + 1 : Int) : ℚ) < 6 + 1
    have : k + 1 < 7 := by omega
    have : ((k + 1 : Int) : ℚ) < ((7 : Int) : ℚ) := Int.cast_lt.2 this
    norm_num at this ⊢
    linarith

end Xcsf.PopFile
