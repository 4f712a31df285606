import Verif.Fit
import Verif.Props3

/-!
# Helper lemmas for prediction and training on data sets
-/

set_option linter.unusedSectionVars false

namespace Xcsf
variable {K X B R : Type} [Zero K] [One K] [Add K] [Sub K] [Mul K] [Div K]
  [LT K] [DecidableLT K] [IntCast K] [DecidableEq K]
variable {par : Params K} {kit : Kit K X B R}

/-- `pa_build` in closed form. -/
theorem paBuild_eq {x : X} {s : St K X B R} (hn : s.mset.list.Nodup)
    (hl : ∀ i ∈ s.mset.list, (s.heap i).isSome) :
    ∃ hh r,
      (∀ i, i ∉ s.mset.list → hh i = s.heap i) ∧
      (∀ i ∈ s.mset.list, ∀ c, s.heap i = some c → ∃ r, hh i = some { c with
        prediction := (kit.predict s.explore c.body c.prediction x r).1,
        body := (kit.predict s.explore c.body c.prediction x r).2.1 }) ∧
      paBuild par kit x s = (paRules par.yDim (s.mset.list.filterMap hh)
        (List.replicate (par.nActions * par.yDim) 0)
        (List.replicate (par.nActions * par.yDim) 0) >>= fun p =>
        Except.ok ({ s with heap := hh, rng := r, pa := paNorm p.1 p.2, nr := p.2 } :
          St K X B R)) := by
  obtain ⟨hh, r, e, h1, h2⟩ := forEachCl_spec (fun r c => ({ c with
        prediction := (kit.predict s.explore c.body c.prediction x r).1,
        body := (kit.predict s.explore c.body c.prediction x r).2.1 },
        (kit.predict s.explore c.body c.prediction x r).2.2)) s.mset.list s hn hl
  refine ⟨hh, r, h1, h2, ?_⟩
  have hl' : ∀ i ∈ s.mset.list, (({ s with heap := hh, rng := r } : St K X B R).heap i).isSome := by
    intro i hi
    obtain ⟨c, hc⟩ := Option.isSome_iff_exists.1 (hl i hi)
    obtain ⟨_, e⟩ := h2 i hi c hc
    show (hh i).isSome
    rw [e]; rfl
  unfold paBuild
  rw [predictGo_eq, e]
  show (({ s with heap := hh, rng := r } : St K X B R).rds s.mset.list >>= fun cs =>
    paRules par.yDim cs (List.replicate (par.nActions * par.yDim) 0)
      (List.replicate (par.nActions * par.yDim) 0) >>= fun p =>
    Except.ok ({ s with heap := hh, rng := r, pa := paNorm p.1 p.2, nr := p.2 } : St K X B R)) = _
  rw [rds_eq_filterMap hl']
  rfl

/-- What the prediction array sees of a rule. -/
def paView (c : Cl K B) : Int × List K × K := (c.action, c.prediction, c.fit)

theorem paRule_congr {c c' : Cl K B} (h : paView c = paView c') (yDim : Nat) : ∀ (js : List Nat)
    (pa nr : List K), paRule yDim c js pa nr = paRule yDim c' js pa nr
  | [], _, _ => rfl
  | j :: js, pa, nr => by
    have e1 : c.action = c'.action := congrArg Prod.fst h
    have e2 : c.prediction = c'.prediction := congrArg (fun p => p.2.1) h
    have e3 : c.fit = c'.fit := congrArg (fun p => p.2.2) h
    unfold paRule
    rw [e1, e2, e3]
    split
    · rfl
    · next p _ =>
      cases addAt pa (c'.action * (yDim : Int) + (j : Int)) (p * c'.fit) with
      | error e => rfl
      | ok pa1 =>
        show (addAt nr _ _ >>= _) = (addAt nr _ _ >>= _)
        cases addAt nr (c'.action * (yDim : Int) + (j : Int)) c'.fit with
        | error e => rfl
        | ok nr1 => exact paRule_congr h yDim js pa1 nr1

theorem paRules_congr (yDim : Nat) : ∀ (cs cs' : List (Cl K B)) (pa nr : List K),
    cs.map paView = cs'.map paView → paRules yDim cs pa nr = paRules yDim cs' pa nr
  | [], [], _, _, _ => rfl
  | [], _ :: _, _, _, h => by simp at h
  | _ :: _, [], _, _, h => by simp at h
  | c :: cs, c' :: cs', pa, nr, h => by
    simp only [List.map_cons, List.cons.injEq] at h
    unfold paRules
    rw [paRule_congr h.1]
    cases paRule yDim c' (List.range yDim) pa nr with
    | error e => rfl
    | ok p => exact paRules_congr yDim cs cs' p.1 p.2 h.2

variable {S : Type} {π : B → List K → S}
variable {M : S → X → Bool} {A : S → X → Int} {P : S → X → List K}

/-- A representation whose evaluation (with learning off) depends only on the input and on what
the rule has learned, `π`: `M` is the match relation, `A` the action, which is computed after
matching the same input, and `P` the prediction. -/
structure Stateless (kit : Kit K X B R) (π : B → List K → S) (M : S → X → Bool) (A : S → X → Int)
    (P : S → X → List K) : Prop where
  passive : Passive kit π
  cmatch : ∀ b p x r, (kit.cmatch false b x r).1 = M (π b p) x
  act : ∀ b p x r r', (kit.act false (kit.cmatch false b x r).2.1 x r').1 = A (π b p) x
  predict : ∀ b p x r, (kit.predict false b p x r).1 = P (π b p) x

/-- A rule with the answers it gives on input `x`. -/
def answer (π : B → List K → S) (A : S → X → Int) (P : S → X → List K) (x : X) (c : Cl K B) :
    Cl K B :=
  { c with action := A (π c.body c.prediction) x, prediction := P (π c.body c.prediction) x }

/-- The rules matching `x`, in match-set order, with their answers. -/
def answers (π : B → List K → S) (M : S → X → Bool) (A : S → X → Int) (P : S → X → List K)
    (cs : List (Cl K B)) (x : X) : List (Cl K B) :=
  ((cs.filter (fun c => M (π c.body c.prediction) x)).map (answer π A P x)).reverse

/-- The outcome for one row as a function of the rules. -/
def rowOutcome (par : Params K) (π : B → List K → S) (M : S → X → Bool) (A : S → X → Int)
    (P : S → X → List K) (cv : List K) (x : X) (cs : List (Cl K B)) : Res (List K) :=
  if answers π M A P cs x = [] then .ok cv
  else paRules par.yDim (answers π M A P cs x) (List.replicate (par.nActions * par.yDim) 0)
    (List.replicate (par.nActions * par.yDim) 0) >>= fun p => .ok (paNorm p.1 p.2)

theorem view_answers {x : X} {f g : Nat → Option (Cl K B)} {q : Nat → Bool} : ∀ (l : List Nat),
    (∀ i ∈ l, ∃ c, f i = some c ∧ q i = M (π c.body c.prediction) x ∧
      (M (π c.body c.prediction) x = true → ∃ d, g i = some d ∧ paView d = paView (answer π A P x c))) →
    ((l.filter q).filterMap g).map paView =
      (((l.filterMap f).filter (fun c => M (π c.body c.prediction) x)).map (answer π A P x)).map paView
  | [], _ => rfl
  | i :: l, h => by
    obtain ⟨c, h1, h2, h3⟩ := h i List.mem_cons_self
    have ih := view_answers l (fun j hj => h j (List.mem_cons_of_mem _ hj))
    rw [List.filterMap_cons_some h1]
    cases hm : M (π c.body c.prediction) x with
    | false =>
      rw [hm] at h2
      rw [List.filter_cons_of_neg (by simp [h2]), List.filter_cons_of_neg (by simp [hm]), ih]
    | true =>
      rw [hm] at h2
      obtain ⟨d, h4, h5⟩ := h3 hm
      rw [List.filter_cons_of_pos h2, List.filter_cons_of_pos (by simpa using hm),
        List.filterMap_cons_some h4, List.map_cons, List.map_cons, List.map_cons, ih, h5]

theorem answers_length {x : X} {f : Nat → Option (Cl K B)} {q : Nat → Bool} : ∀ (l : List Nat),
    (∀ i ∈ l, ∃ c, f i = some c ∧ q i = M (π c.body c.prediction) x) →
    (l.filter q).length = ((l.filterMap f).filter (fun c => M (π c.body c.prediction) x)).length
  | [], _ => rfl
  | i :: l, h => by
    obtain ⟨c, h1, h2⟩ := h i List.mem_cons_self
    have ih := answers_length l (fun j hj => h j (List.mem_cons_of_mem _ hj))
    rw [List.filterMap_cons_some h1]
    cases hm : M (π c.body c.prediction) x with
    | false =>
      rw [hm] at h2
      rw [List.filter_cons_of_neg (by simp [h2]), List.filter_cons_of_neg (by simp [hm]), ih]
    | true =>
      rw [hm] at h2
      rw [List.filter_cons_of_pos h2, List.filter_cons_of_pos (by simpa using hm),
        List.length_cons, List.length_cons, ih]

/-- The sensing part of a trial without covering and learning, in closed form. -/
theorem supSense_closed (H : Stateless kit π M A P) {x : X} {cv : List K} {s : St K X B R}
    (inv : Inv s []) (hm : s.mset = {}) (hk : s.kset.list = []) (he : s.explore = false) :
    (∃ o s1, rowOutcome par π M A P cv x (population s) = .ok o ∧
      supSense par kit x (some cv) s = .ok s1 ∧ s1.pa = o ∧ s1.kset.list = [] ∧
      s1.explore = false) ∨
    (∃ e, rowOutcome par π M A P cv x (population s) = .error e ∧
      supSense par kit x (some cv) s = .error e) := by
  obtain ⟨s2, sz, mf, e1, s3, e2, rfl⟩ := clsetMatch_false (par := par) (kit := kit) inv hm x
  obtain ⟨n1, i1, w1, k1, x1⟩ := matchGo_noLearn par H.passive inv hm he e2
  obtain ⟨t, e3, h1, h2, h3, h4, h5, h6, h7, h8, h9, h10, h11, _⟩ := matchGo_good
    (V := fun _ => True) (E := fun _ => True) (par := { par with popSize := 0 })
    (lawsTriv { par with popSize := 0 } kit (Int.le_refl _)) x inv.good hm
  rw [e2] at e3; cases e3
  rw [he] at h8
  have hpt : ∀ i ∈ s.pset.list, ∃ c c', s.heap i = some c ∧ s3.heap i = some c' ∧
      c'.m = M (π c.body c.prediction) x ∧
      π c'.body c'.prediction = π c.body c.prediction ∧ c'.fit = c.fit ∧
      (M (π c.body c.prediction) x = true → c'.action = A (π c.body c.prediction) x) := by
    intro i hi
    obtain ⟨c, hc, _⟩ := inv.p.live hi
    obtain ⟨c', hc', r, hmt⟩ := h8 i hi c hc
    refine ⟨c, c', hc, hc', ?_⟩
    rcases hmt with ⟨q1, q2⟩ | ⟨q1, q2⟩
    · replace q1 := (Bool.or_eq_false_iff.1 q1).1
      rw [H.cmatch c.body c.prediction] at q1
      have q1 : M (π c.body c.prediction) x = false := q1
      subst q2
      exact ⟨H.cmatch _ _ _ _, H.passive.cmatch _ _ _ _, rfl, fun h => by rw [q1] at h; cases h⟩
    · subst q2
      refine ⟨H.cmatch _ _ _ _, (H.passive.act _ _ _ _).trans (H.passive.cmatch _ _ _ _), rfl,
        fun _ => ?_⟩
      exact H.act _ c.prediction _ _ _
  have hq : ∀ i ∈ s.pset.list, ∃ c, s.heap i = some c ∧ (s3.heap i).any Cl.m = M (π c.body c.prediction) x := by
    intro i hi
    obtain ⟨c, c', q1, q2, q3, _⟩ := hpt i hi
    exact ⟨c, q1, by rw [q2]; exact q3⟩
  have hlen : s3.mset.list.length = (answers π M A P (population s) x).length := by
    rw [h9, List.length_reverse, answers_length s.pset.list hq, answers, List.length_reverse,
      List.length_map]
    rfl
  unfold supSense
  have hS : (clsetMatch par kit x false s >>= fun s =>
      if s.mset.size < 1 then Except.ok { s with pa := cv } else paBuild par kit x s) =
      (if s3.mset.size < 1 then
          Except.ok ({ s3 with msetSize := sz, mfrac := mf, pa := cv } : St K X B R)
          else paBuild par kit x { s3 with msetSize := sz, mfrac := mf }) := by rw [e1]; rfl
  show (∃ o s1, _ ∧ (clsetMatch par kit x false s >>= fun s =>
      if s.mset.size < 1 then Except.ok { s with pa := cv } else paBuild par kit x s) = .ok s1 ∧ _) ∨
    (∃ e, _ ∧ (clsetMatch par kit x false s >>= fun s =>
      if s.mset.size < 1 then Except.ok { s with pa := cv } else paBuild par kit x s) = .error e)
  rw [hS]
  have hsz := w1.size
  unfold rowOutcome
  by_cases hz : answers π M A P (population s) x = []
  · left
    rw [if_pos hz]
    rw [hz] at hlen
    refine ⟨cv, { s3 with msetSize := sz, mfrac := mf, pa := cv }, rfl, ?_, rfl, ?_, ?_⟩
    · rw [if_pos]
      rw [hsz, hlen]; simp
    · show s3.kset.list = []
      rw [k1]; exact hk
    · exact x1
  · rw [if_neg hz]
    have hpos : ¬ s3.mset.size < 1 := by
      rw [hsz, hlen]
      have := List.length_pos_iff.2 hz
      omega
    rw [if_neg hpos]
    obtain ⟨hh, r, p1, p2, p3⟩ := paBuild_eq (par := par) (kit := kit) (x := x)
      (s := { s3 with msetSize := sz, mfrac := mf }) w1.nodup
      (fun i hi => i1.p.isSome (w1.sub i hi))
    rw [p3]
    have hview : (s3.mset.list.filterMap hh).map paView =
        (answers π M A P (population s) x).map paView := by
      unfold answers population
      rw [h9, List.filterMap_reverse, List.map_reverse, List.map_reverse]
      congr 1
      apply view_answers (A := A) (P := P) s.pset.list
      intro i hi
      obtain ⟨c, c', q1, q2, q3, q4, q5, q6⟩ := hpt i hi
      refine ⟨c, q1, by rw [q2]; exact q3, fun hM => ?_⟩
      have hin : i ∈ s3.mset.list := by
        rw [h9, List.mem_reverse, List.mem_filter]
        refine ⟨hi, ?_⟩
        rw [q2]; exact q3.trans hM
      obtain ⟨r', q7⟩ := p2 i hin c' q2
      refine ⟨_, q7, ?_⟩
      show (c'.action, (kit.predict s3.explore c'.body c'.prediction x r').1, c'.fit) =
        (A (π c.body c.prediction) x, P (π c.body c.prediction) x, c.fit)
      rw [x1, H.predict, q4, q5, q6 hM]
    have hcong := paRules_congr par.yDim (s3.mset.list.filterMap hh)
      (answers π M A P (population s) x) (List.replicate (par.nActions * par.yDim) 0)
      (List.replicate (par.nActions * par.yDim) 0) hview
    show (∃ o s1, _ ∧ (paRules par.yDim (s3.mset.list.filterMap hh)
        (List.replicate (par.nActions * par.yDim) 0)
        (List.replicate (par.nActions * par.yDim) 0) >>= _) = .ok s1 ∧ _) ∨
      (∃ e, _ ∧ (paRules par.yDim (s3.mset.list.filterMap hh)
        (List.replicate (par.nActions * par.yDim) 0)
        (List.replicate (par.nActions * par.yDim) 0) >>= _) = .error e)
    rw [hcong]
    cases paRules par.yDim (answers π M A P (population s) x)
        (List.replicate (par.nActions * par.yDim) 0)
        (List.replicate (par.nActions * par.yDim) 0) with
    | error e => exact Or.inr ⟨e, rfl, rfl⟩
    | ok p =>
      refine Or.inl ⟨_, _, rfl, rfl, rfl, ?_, x1⟩
      show s3.kset.list = []
      rw [k1]; exact hk

/-- A trial without covering and learning, in closed form (the target does not matter). -/
theorem supTrial_closed (H : Stateless kit π M A P) {x : X} {y : Option (List K)} {cv : List K}
    {s : St K X B R} (inv : Inv s []) (hk : s.kset.list = []) (he : s.explore = false) :
    (∃ o s1, rowOutcome par π M A P cv x (population s) = .ok o ∧ s1.pa = o ∧
      ∀ y, supTrial par kit x y (some cv) s = .ok s1) ∨
    (∃ e, rowOutcome par π M A P cv x (population s) = .error e ∧
      supTrial par kit x y (some cv) s = .error e) := by
  have g0 : Inv ({ s with mset := {}, kset := {} } : St K X B R) [] := (inv.good.emptyK hk).inv
  rcases supSense_closed (par := par) (cv := cv) (x := x) H g0 rfl rfl he with
    ⟨o, s1, h1, h2, h3, h4, h5⟩ | ⟨e, h1, h2⟩
  · left
    refine ⟨o, { s1 with kset := {}, mset := {} }, h1, h3, fun y => ?_⟩
    unfold supTrial
    rw [h2]
    show (supLearn par kit x y s1 >>= _) = _
    have hl : supLearn par kit x y s1 = .ok s1 := by unfold supLearn; rw [h5]; rfl
    rw [hl]
    show (killKset s1 >>= _) = _
    rw [killKset_nil h4]; rfl
  · right
    refine ⟨e, h1, ?_⟩
    unfold supTrial
    rw [h2]; rfl

theorem pointwise_views {cs cs' : List (Cl K B)} (h : Pointwise (Unlearned π) cs cs') :
    cs'.map (fun c => (π c.body c.prediction, c.fit)) = cs.map (fun c => (π c.body c.prediction, c.fit)) := by
  induction cs generalizing cs' with
  | nil => cases cs' with
    | nil => rfl
    | cons _ _ => cases h
  | cons c cs ih => cases cs' with
    | nil => cases h
    | cons c' cs' =>
      obtain ⟨⟨h1, h2⟩, h3⟩ := h
      simp only [List.map_cons, ih h3, h2, h1.fit]

theorem answers_views (x : X) : ∀ {cs cs' : List (Cl K B)},
    cs'.map (fun c => (π c.body c.prediction, c.fit)) = cs.map (fun c => (π c.body c.prediction, c.fit)) →
    ((cs'.filter (fun c => M (π c.body c.prediction) x)).map (answer π A P x)).map paView =
    ((cs.filter (fun c => M (π c.body c.prediction) x)).map (answer π A P x)).map paView
  | [], [], _ => rfl
  | [], _ :: _, h => by simp at h
  | _ :: _, [], h => by simp at h
  | c :: cs, c' :: cs', h => by
    simp only [List.map_cons, List.cons.injEq, Prod.mk.injEq] at h
    obtain ⟨⟨h1, h2⟩, h3⟩ := h
    have ih := answers_views x h3
    cases hm : M (π c.body c.prediction) x with
    | false =>
      rw [List.filter_cons_of_neg (by simp [h1, hm]), List.filter_cons_of_neg (by simp [hm]), ih]
    | true =>
      rw [List.filter_cons_of_pos (by simp [h1, hm]), List.filter_cons_of_pos (by simp [hm])]
      simp only [List.map_cons, ih, List.cons.injEq, and_true]
      simp [paView, answer, h1, h2]

theorem rowOutcome_congr (cv : List K) (x : X) {cs cs' : List (Cl K B)}
    (h : cs'.map (fun c => (π c.body c.prediction, c.fit)) = cs.map (fun c => (π c.body c.prediction, c.fit))) :
    rowOutcome par π M A P cv x cs' = rowOutcome par π M A P cv x cs := by
  have e : (answers π M A P cs' x).map paView = (answers π M A P cs x).map paView := by
    unfold answers; rw [List.map_reverse, List.map_reverse, answers_views x h]
  unfold rowOutcome
  rw [paRules_congr _ _ _ _ _ e]
  have : answers π M A P cs' x = [] ↔ answers π M A P cs x = [] := by
    have := congrArg List.length e
    rw [List.length_map, List.length_map] at this
    constructor <;> intro h' <;> apply List.length_eq_zero_iff.1 <;> rw [h'] at this <;>
      simp at this <;> simp [this]
  by_cases hz : answers π M A P cs x = []
  · rw [if_pos hz, if_pos (this.2 hz)]
  · rw [if_neg hz, if_neg (fun h' => hz (this.1 h'))]

/-- One row of `predict` in closed form. -/
theorem predictRow_closed (H : Stateless kit π M A P) {x : X} {cv p : List K}
    {s : St K X B R} (inv : Inv s []) (hk : s.kset.list = []) :
    (∃ s', predictRow par kit cv x s = .ok (p, s')) ↔
      rowOutcome par π M A P cv x (population s) = .ok p := by
  have inv' : Inv ({ s with explore := false } : St K X B R) [] := inv.congr rfl rfl rfl rfl rfl
  unfold predictRow
  rcases supTrial_closed (par := par) (x := x) (y := none) (cv := cv) H inv' hk rfl with
    ⟨o, s1, h1, h2, h3⟩ | ⟨e, h1, h2⟩
  · rw [h3 none]
    have h1 : rowOutcome par π M A P cv x (population s) = .ok o := h1
    rw [h1]
    constructor
    · rintro ⟨s', h⟩; cases h; rw [h2]
    · intro h; cases h; exact ⟨s1, by subst h2; rfl⟩
  · rw [h2]
    have h1 : rowOutcome par π M A P cv x (population s) = .error e := h1
    rw [h1]
    constructor
    · rintro ⟨s', h⟩; cases h
    · intro h; cases h

end Xcsf
