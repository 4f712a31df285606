import Verif.Callback
import Verif.Props3
import Mathlib.Data.List.Infix
import Mathlib.Tactic.Linarith

/-!
# C58, C59: early stopping and checkpoints
-/

set_option linter.unusedSectionVars false

namespace Xcsf

section
variable {K S : Type} [Field K] [LinearOrder K] [IsStrictOrderedRing K]

/-! ## C58: early stopping -/

/-- The best error on record and the trial it was recorded at, for a sequence of reports
(trials, error, system): a report counts once `start` trials are reached and if its error is
lower than the best one by more than `delta`.  Before any counts it is `(huge, 0)`. -/
def esBest (huge delta : K) (start : Int) (reports : List (Int × K × S)) : K × Int :=
  reports.foldl (fun b r => if start ≤ r.1 ∧ r.2.1 < b.1 - delta then (r.2.1, r.1) else b) (huge, 0)

/-- Stopping is due at the last of some reports: more than `patience` trials have passed since
the best error was recorded. -/
def EsDue (huge : K) (p : EsPar K) (reports : List (Int × K × S)) : Prop :=
  ∃ r, reports.getLast? = some r ∧ p.startFrom ≤ r.1 ∧
    p.patience < r.1 - (esBest huge p.minDelta p.startFrom reports).2

theorem esBest_concat (huge delta : K) (start : Int) (l : List (Int × K × S)) (r : Int × K × S) :
    esBest huge delta start (l ++ [r]) =
      if start ≤ r.1 ∧ r.2.1 < (esBest huge delta start l).1 - delta then (r.2.1, r.1)
      else esBest huge delta start l := by
  unfold esBest
  rw [List.foldl_append]
  rfl

/-- **C58.**  What is on record: no monitored report was better by more than `min_delta`, and
if any report ever counted, the record is one of the monitored reports. -/
theorem C58_best (huge delta : K) (hd : 0 ≤ delta) (start : Int) (reports : List (Int × K × S)) :
    (∀ r ∈ reports, start ≤ r.1 → (esBest huge delta start reports).1 - delta ≤ r.2.1) ∧
    ((∃ r ∈ reports, start ≤ r.1 ∧ r.2.1 < huge - delta) →
      ∃ s, ((esBest huge delta start reports).2, (esBest huge delta start reports).1, s) ∈ reports ∧
        start ≤ (esBest huge delta start reports).2) ∧
    (esBest huge delta start reports).1 ≤ huge := by
  induction reports using List.reverseRecOn with
  | nil => refine ⟨by simp, by simp, by simp [esBest]⟩
  | append_singleton l r ih =>
    obtain ⟨h1, h2, h3⟩ := ih
    rw [esBest_concat]
    by_cases hc : start ≤ r.1 ∧ r.2.1 < (esBest huge delta start l).1 - delta
    · rw [if_pos hc]
      refine ⟨?_, ?_, by dsimp only; linarith [hc.2]⟩
      · intro q hq hs
        rw [List.mem_append, List.mem_singleton] at hq
        rcases hq with hq | rfl
        · have := h1 q hq hs
          dsimp only; linarith [hc.2]
        · dsimp only; linarith
      · intro _
        exact ⟨r.2.2, by simp, hc.1⟩
    · rw [if_neg hc]
      refine ⟨?_, ?_, h3⟩
      · intro q hq hs
        rw [List.mem_append, List.mem_singleton] at hq
        rcases hq with hq | rfl
        · exact h1 q hq hs
        · by_contra hlt
          exact hc ⟨hs, not_le.1 hlt⟩
      · rintro ⟨q, hq, hs, hlt⟩
        rw [List.mem_append, List.mem_singleton] at hq
        rcases hq with hq | rfl
        · obtain ⟨s, m, hs⟩ := h2 ⟨q, hq, hs, hlt⟩
          exact ⟨s, by simp [m], hs⟩
        · by_cases hl : ∃ r ∈ l, start ≤ r.1 ∧ r.2.1 < huge - delta
          · obtain ⟨s, m, hs⟩ := h2 hl
            exact ⟨s, by simp [m], hs⟩
          · exfalso
            have e : esBest huge delta start l = (huge, 0) := by
              clear h1 h2 h3 hc
              induction l using List.reverseRecOn with
              | nil => rfl
              | append_singleton l r ih =>
                rw [esBest_concat, ih (fun ⟨r, hr, h⟩ => hl ⟨r, by simp [hr], h⟩), if_neg]
                intro h
                exact hl ⟨r, by simp, h⟩
            rw [e] at hc
            exact hc ⟨hs, hlt⟩

/-- With `min_delta = 0` the best recorded error is the minimum of the monitored errors. -/
theorem C58_minimum (huge : K) (start : Int) (reports : List (Int × K × S))
    (h : ∃ r ∈ reports, start ≤ r.1 ∧ r.2.1 < huge) :
    (∀ r ∈ reports, start ≤ r.1 → (esBest huge 0 start reports).1 ≤ r.2.1) ∧
    ∃ r ∈ reports, start ≤ r.1 ∧ r.2.1 = (esBest huge 0 start reports).1 := by
  obtain ⟨h1, h2, _⟩ := C58_best huge 0 le_rfl start reports
  obtain ⟨s, m, hs⟩ := h2 (by simpa using h)
  exact ⟨fun r hr hs => by simpa using h1 r hr hs, _, m, hs, rfl⟩

/-- The part of a training run that leads from the report of the best error to now: the
population was stored right after that report and nothing but epochs followed. -/
def EsKept (store : S → Res S) (P : S → Prop) (F : (S → Res S) → Prop) (hist : List (Int × K × S))
    (e : Es K) (s : S) : Prop :=
  ∃ (s1 s2 : S) (fs : List (S → Res S)), (e.bestTrial, e.bestErr, s1) ∈ hist ∧ P s1 ∧ store s1 = .ok s2 ∧ (∀ f ∈ fs, F f) ∧
    fs.foldlM (fun s f => f s) s2 = .ok s

structure EsInv (store : S → Res S) (huge : K) (p : EsPar K) (P : S → Prop)
    (F : (S → Res S) → Prop) (hist : List (Int × K × S)) (e : Es K) (s : S) : Prop where
  best : (e.bestErr, e.bestTrial) = esBest huge p.minDelta p.startFrom hist
  inv : P s
  kept : p.restore = true →
    (e.doRestore = false ∧ ¬ ∃ r ∈ hist, p.startFrom ≤ r.1 ∧ r.2.1 < huge - p.minDelta) ∨
    (e.doRestore = true ∧ EsKept store P F hist e s)

theorem EsKept.mono {store : S → Res S} {P : S → Prop} {F : (S → Res S) → Prop}
    {hist hist' : List (Int × K × S)} {e : Es K} {s s' : S} {f : S → Res S} (hF : F f)
    (h : EsKept store P F hist e s) (hf : f s = .ok s') (hh : ∀ r ∈ hist, r ∈ hist') :
    EsKept store P F hist' e s' := by
  obtain ⟨s1, s2, fs, h1, h2, h3, h4, h5⟩ := h
  refine ⟨s1, s2, fs ++ [f], hh _ h1, h2, h3, ?_, ?_⟩
  · intro g hg
    rw [List.mem_append, List.mem_singleton] at hg
    rcases hg with hg | rfl
    · exact h4 g hg
    · exact hF
  · rw [List.foldlM_append, h5]
    show (f s >>= fun s => pure s) = _
    rw [hf]; rfl

theorem esNote_spec {store : S → Res S} {huge : K} {p : EsPar K} {P : S → Prop}
    {F : (S → Res S) → Prop} (hd : 0 ≤ p.minDelta)
    (hstore : ∀ s t, P s → store s = .ok t → P t)
    {hist : List (Int × K × S)} {e : Es K} {s s1 : S} {f : S → Res S} {t : Int} {err : K}
    (h : EsInv store huge p P F hist e s) (hF : F f) (hf : f s = .ok s1) (hP : P s1)
    (ht : p.startFrom ≤ t) {e' : Es K} {s' : S} (hn : esNote store p e t err s1 = .ok (e', s')) :
    EsInv store huge p P F (hist ++ [(t, err, s1)]) e' s' := by
  have hb := h.best
  have hb1 : (esBest huge p.minDelta p.startFrom hist).1 = e.bestErr := by rw [← hb]
  unfold esNote at hn
  split at hn
  · rename_i hlt
    have hbest : ∀ e'' : Es K, e''.bestErr = err → e''.bestTrial = t →
        (e''.bestErr, e''.bestTrial) = esBest huge p.minDelta p.startFrom (hist ++ [(t, err, s1)]) := by
      intro e'' q1 q2
      rw [esBest_concat, if_pos ⟨ht, by rw [hb1]; exact hlt⟩, q1, q2]
    split at hn
    · rename_i hr
      cases hs : store s1 with
      | error x => rw [hs] at hn; cases hn
      | ok s2 =>
        rw [hs] at hn
        cases hn
        exact ⟨hbest _ rfl rfl, hstore _ _ hP hs, fun _ => .inr ⟨rfl, s1, s', [], by simp, hP, hs,
          by simp, rfl⟩⟩
    · rename_i hr
      cases hn
      exact ⟨hbest _ rfl rfl, hP, fun h => absurd h hr⟩
  · rename_i hlt
    cases hn
    refine ⟨?_, hP, fun hr => ?_⟩
    · rw [esBest_concat, if_neg, hb]
      rintro ⟨_, h2⟩
      rw [hb1] at h2
      exact hlt h2
    · rcases h.kept hr with ⟨k1, k2⟩ | ⟨k1, k2⟩
      · refine .inl ⟨k1, ?_⟩
        rintro ⟨r, hrm, hs, hl⟩
        rw [List.mem_append, List.mem_singleton] at hrm
        rcases hrm with hrm | rfl
        · exact k2 ⟨r, hrm, hs, hl⟩
        · have hle := (C58_best huge p.minDelta hd p.startFrom hist).2.2
          have : e.bestErr = huge := by
            rw [← hb1]
            by_contra hne
            obtain ⟨r, hrm, q⟩ : ∃ r ∈ hist, p.startFrom ≤ r.1 ∧ r.2.1 < huge - p.minDelta := by
              clear h hb hb1 hlt hle k1
              induction hist using List.reverseRecOn with
              | nil => exact absurd rfl hne
              | append_singleton l r ih =>
                by_cases hc : p.startFrom ≤ r.1 ∧ r.2.1 < (esBest huge p.minDelta p.startFrom l).1 - p.minDelta
                · have := (C58_best huge p.minDelta hd p.startFrom l).2.2
                  exact ⟨r, by simp, hc.1, by linarith [hc.2]⟩
                · rw [esBest_concat, if_neg hc] at hne
                  obtain ⟨q, hq, hq2⟩ := ih (fun ⟨r, hr, q⟩ => k2 ⟨r, by simp [hr], q⟩) hne
                  exact ⟨q, by simp [hq], hq2⟩
            exact k2 ⟨r, hrm, q⟩
          rw [this] at hlt
          exact hlt hl
      · exact .inr ⟨k1, k2.mono hF hf (by intro r hr; simp [hr])⟩

/-- The state after the loop. -/
structure EsEnd (store retrieve : S → Res S) (huge : K) (p : EsPar K) (P : S → Prop)
    (F : (S → Res S) → Prop) (stopped : Bool) (hist : List (Int × K × S)) (e : Es K) (s : S) :
    Prop where
  best : (e.bestErr, e.bestTrial) = esBest huge p.minDelta p.startFrom hist
  early : ∀ q, q <+: hist → q ≠ hist → ¬ EsDue huge p q
  due : stopped = true ↔ EsDue huge p hist
  going : stopped = false → EsInv store huge p P F hist e s
  restored : stopped = true → p.restore = true → e.doRestore = false ∧
    ((¬ ∃ r ∈ hist, p.startFrom ≤ r.1 ∧ r.2.1 < huge - p.minDelta) ∨
      ∃ s3, EsKept store P F hist e s3 ∧ retrieve s3 = .ok s)

theorem esLoop_spec {store retrieve : S → Res S} {huge : K} {p : EsPar K} {P : S → Prop}
    {F : (S → Res S) → Prop} (hd : 0 ≤ p.minDelta) (n : Nat)
    (hstore : ∀ s t, P s → store s = .ok t → P t) (hF : ∀ f s t, F f → P s → f s = .ok t → P t) :
    ∀ (epochs : List ((S → Res S) × K)) (counter : Nat) (hist : List (Int × K × S)) (e : Es K) (s : S)
      {stopped : Bool} {hist' : List (Int × K × S)} {e' : Es K} {s' : S},
      (∀ f ∈ epochs, F f.1) → EsInv store huge p P F hist e s →
      (∀ q, q <+: hist → ¬ EsDue huge p q) →
      esLoop store retrieve p n epochs counter hist e s = .ok (stopped, hist', e', s') →
      EsEnd store retrieve huge p P F stopped hist' e' s' ∧
      (stopped = false → hist'.length = hist.length + epochs.length)
  | [], counter, hist, e, s, stopped, hist', e', s', _, h, hq, he => by
    cases he
    exact ⟨⟨h.best, fun q hp _ => hq q hp, ⟨fun h => (by cases h), fun h => absurd h (hq _ (List.prefix_refl _))⟩,
      fun _ => h, fun h => (by cases h)⟩, fun _ => rfl⟩
  | (f, err) :: rest, counter, hist, e, s, stopped, hist', e', s', hf, h, hq, he => by
    have hFf := hf (f, err) (by simp)
    simp only [esLoop] at he
    cases h1 : f s with
    | error x => rw [h1] at he; cases he
    | ok s1 =>
      rw [h1] at he
      dsimp only [bind, Except.bind] at he
      have hP := hF f s s1 hFf h.inv h1
      generalize ht : (((1 + counter) * n : Nat) : Int) = t at he
      have pre : ∀ q, q <+: hist ++ [(t, err, s1)] → q ≠ hist ++ [(t, err, s1)] → ¬ EsDue huge p q := by
        intro q hp hne
        rcases List.prefix_concat_iff.1 hp with rfl | hp
        · exact absurd rfl hne
        · exact hq q hp
      unfold esRun at he
      by_cases hs : t < p.startFrom
      · rw [if_pos hs] at he
        have nd : ¬ EsDue huge p (hist ++ [(t, err, s1)]) := by
          rintro ⟨r, hr, h2, _⟩
          rw [List.getLast?_concat] at hr
          cases hr
          exact absurd h2 (not_le.2 hs)
        have inv : EsInv store huge p P F (hist ++ [(t, err, s1)]) e s1 := by
          refine ⟨?_, hP, fun hr => ?_⟩
          · rw [esBest_concat, if_neg (fun h => absurd h.1 (not_le.2 hs))]; exact h.best
          · rcases h.kept hr with ⟨k1, k2⟩ | ⟨k1, k2⟩
            · refine .inl ⟨k1, ?_⟩
              rintro ⟨r, hrm, q1, q2⟩
              rw [List.mem_append, List.mem_singleton] at hrm
              rcases hrm with hrm | rfl
              · exact k2 ⟨r, hrm, q1, q2⟩
              · exact absurd q1 (not_le.2 hs)
            · exact .inr ⟨k1, k2.mono hFf h1 (by intro r hr; simp [hr])⟩
        obtain ⟨k1, k2⟩ := esLoop_spec hd n hstore hF rest (counter + 1) _ e s1
          (fun g hg => hf g (List.mem_cons_of_mem _ hg)) inv (fun q hp => by
            rcases List.prefix_concat_iff.1 hp with rfl | hp
            · exact nd
            · exact hq q hp) he
        exact ⟨k1, fun hst => by rw [k2 hst]; simp; omega⟩
      · rw [if_neg hs] at he
        have hs' : p.startFrom ≤ t := not_lt.1 hs
        cases hn : esNote store p e t err s1 with
        | error x => rw [hn] at he; cases he
        | ok q =>
          obtain ⟨e2, s2⟩ := q
          rw [hn] at he
          dsimp only [bind, Except.bind] at he
          have inv := esNote_spec hd hstore h hFf h1 hP hs' hn
          have hb2 : (esBest huge p.minDelta p.startFrom (hist ++ [(t, err, s1)])).2 = e2.bestTrial := by
            rw [← inv.best]
          unfold esStop at he
          by_cases hst : e2.bestTrial < t - p.patience
          · rw [if_pos hst] at he
            have due : EsDue huge p (hist ++ [(t, err, s1)]) :=
              ⟨_, List.getLast?_concat, hs', by rw [hb2]; dsimp only; omega⟩
            cases hr : p.restore with
            | false =>
              rw [if_neg (by simp [hr])] at he
              cases he
              exact ⟨⟨inv.best, pre, ⟨fun _ => due, fun _ => rfl⟩, fun h => (by cases h),
                fun _ h => (by rw [hr] at h; cases h)⟩, fun h => (by cases h)⟩
            | true =>
              rw [if_pos hr] at he
              cases hre : retrieve s2 with
              | error x => rw [hre] at he; cases he
              | ok s3 =>
                rw [hre] at he
                cases he
                refine ⟨⟨inv.best, pre, ⟨fun _ => due, fun _ => rfl⟩, fun h => (by cases h), fun _ _ => ⟨rfl, ?_⟩⟩, fun h => (by cases h)⟩
                rcases inv.kept hr with ⟨_, k2⟩ | ⟨_, k2⟩
                · exact .inl k2
                · exact .inr ⟨s2, by obtain ⟨a, b, c, q⟩ := k2; exact ⟨a, b, c, q⟩, hre⟩
          · rw [if_neg hst] at he
            dsimp only at he
            have nd : ¬ EsDue huge p (hist ++ [(t, err, s1)]) := by
              rintro ⟨r, hr, _, h2⟩
              rw [List.getLast?_concat] at hr
              cases hr
              rw [hb2] at h2
              dsimp only at h2
              omega
            obtain ⟨k1, k2⟩ := esLoop_spec hd n hstore hF rest (counter + 1) _ e2 s2
              (fun g hg => hf g (List.mem_cons_of_mem _ hg)) inv (fun q hp => by
                rcases List.prefix_concat_iff.1 hp with rfl | hp
                · exact nd
                · exact hq q hp) (by simpa using he)
            exact ⟨k1, fun hst => by rw [k2 hst]; simp; omega⟩

/-- Everything about a training run with early stopping, for any system. -/
theorem esFit_spec {store retrieve : S → Res S} {huge : K} {p : EsPar K} {P : S → Prop}
    {F : (S → Res S) → Prop} (n : Nat)
    (hstore : ∀ s t, P s → store s = .ok t → P t) (hF : ∀ f s t, F f → P s → f s = .ok t → P t)
    {epochs : List ((S → Res S) × K)} (hep : ∀ f ∈ epochs, F f.1) {counter : Nat} {e0 : Es K} {s : S}
    (hs : P s) (he0 : esNew huge p = some e0)
    {stopped : Bool} {hist : List (Int × K × S)} {e : Es K} {s' : S}
    (h : esFit store retrieve p n epochs counter e0 s = .ok (stopped, hist, e, s')) :
    ((e.bestErr, e.bestTrial) = esBest huge p.minDelta p.startFrom hist) ∧
    (∀ q, q <+: hist → q ≠ hist → ¬ EsDue huge p q) ∧
    (stopped = true ↔ EsDue huge p hist) ∧
    (stopped = false → hist.length = epochs.length) ∧
    (p.restore = true → (∃ r ∈ hist, p.startFrom ≤ r.1 ∧ r.2.1 < huge - p.minDelta) →
      ∃ s3, EsKept store P F hist e s3 ∧ retrieve s3 = .ok s') := by
  unfold esNew at he0
  split at he0
  · cases he0
  split at he0
  · cases he0
  rename_i hd
  have hd : 0 ≤ p.minDelta := not_lt.1 hd
  cases he0
  unfold esFit at h
  cases hl : esLoop store retrieve p n epochs counter [] ⟨huge, 0, false⟩ s with
  | error x => rw [hl] at h; cases h
  | ok q =>
    obtain ⟨st, hist1, e1, s1⟩ := q
    rw [hl] at h
    dsimp only [bind, Except.bind] at h
    have inv0 : EsInv store huge p P F [] ⟨huge, 0, false⟩ s :=
      ⟨rfl, hs, fun _ => .inl ⟨rfl, by simp⟩⟩
    obtain ⟨k, klen⟩ := esLoop_spec hd n hstore hF epochs counter [] _ s hep inv0 (by
      intro q hq
      rw [List.prefix_nil] at hq
      subst hq
      rintro ⟨r, hr, _⟩
      simp at hr) hl
    cases hfin : esFinish retrieve p e1 s1 with
    | error x => rw [hfin] at h; cases h
    | ok w =>
      obtain ⟨e2, s2⟩ := w
      rw [hfin] at h
      dsimp only at h
      cases h
      unfold esFinish at hfin
      split at hfin
      · rename_i hc
        rw [Bool.and_eq_true] at hc
        cases hre : retrieve s1 with
        | error x => rw [hre] at hfin; cases hfin
        | ok s2 =>
          rw [hre] at hfin
          cases hfin
          refine ⟨k.best, k.early, k.due, fun h => by simpa using klen h, fun hr hi => ?_⟩
          cases stopped with
          | true => exact absurd (k.restored rfl hr).1 (by rw [hc.2]; simp)
          | false =>
            rcases (k.going rfl).kept hr with ⟨k1, _⟩ | ⟨_, k2⟩
            · rw [hc.2] at k1; cases k1
            · exact ⟨s1, k2, hre⟩
      · rename_i hc
        cases hfin
        refine ⟨k.best, k.early, k.due, fun h => by simpa using klen h, fun hr hi => ?_⟩
        cases stopped with
        | true =>
          rcases (k.restored rfl hr).2 with q | q
          · exact absurd hi q
          · exact q
        | false =>
          rcases (k.going rfl).kept hr with ⟨_, k1⟩ | ⟨k1, _⟩
          · exact absurd hi k1
          · exact absurd (by rw [hr, k1]; rfl) hc

/-- **C58.**  When training stops.  The reports of a run with a new callback: before the last
one, stopping was never due; the run was stopped exactly if it was due at the last one (more
than `patience` trials since the last improvement by more than `min_delta`, monitoring from
`start_from` on); otherwise all epochs were run. -/
theorem C58_stops_when_due {store retrieve : S → Res S} {huge : K} {p : EsPar K} (n : Nat)
    {epochs : List ((S → Res S) × K)} {counter : Nat} {e0 : Es K} {s : S}
    (he0 : esNew huge p = some e0)
    {stopped : Bool} {hist : List (Int × K × S)} {e : Es K} {s' : S}
    (h : esFit store retrieve p n epochs counter e0 s = .ok (stopped, hist, e, s')) :
    (∀ q, q <+: hist → q ≠ hist → ¬ EsDue huge p q) ∧
    (stopped = true ↔ EsDue huge p hist) ∧
    (stopped = false → hist.length = epochs.length) ∧
    (e.bestErr, e.bestTrial) = esBest huge p.minDelta p.startFrom hist := by
  obtain ⟨h1, h2, h3, h4, _⟩ := esFit_spec (P := fun _ => True) (F := fun _ => True) n
    (fun _ _ _ _ => trivial) (fun _ _ _ _ _ _ => trivial) (fun _ _ => trivial) trivial he0 h
  exact ⟨h2, h3, h4, h1⟩

/-- Settings the constructor rejects. -/
theorem C58_rejects (huge : K) (p : EsPar K) :
    esNew huge p = none ↔ p.patience < 0 ∨ p.minDelta < 0 := by
  unfold esNew
  split
  · simp [*]
  · split <;> simp [*]

end

/-! ### With the populations of the system -/

section
variable {K X B R : Type} [Field K] [LinearOrder K] [IsStrictOrderedRing K]
variable {par : Params K} {kit : Kit K X B R}

/-- An epoch made of calls. -/
def epochOf (par : Params K) (kit : Kit K X B R) (ops : List (Op K X B)) (s : St K X B R) :
    Res (St K X B R) := ops.foldlM (step par kit) s

theorem run_append {r : R} {ops mid : List (Op K X B)} {s t : St K X B R}
    (h : run par kit r ops = .ok s) (h2 : mid.foldlM (step par kit) s = .ok t) :
    run par kit r (ops ++ mid) = .ok t := by
  unfold run at h ⊢
  cases hx : xcsfInit par kit r with
  | error x => rw [hx] at h; cases h
  | ok s0 =>
    rw [hx] at h
    dsimp only [bind, Except.bind] at h ⊢
    rw [List.foldlM_append]
    rw [h]
    exact h2

theorem epochs_flatten {F : List (Op K X B) → Prop} : ∀ (fs : List (St K X B R → Res (St K X B R)))
    (s t : St K X B R), (∀ f ∈ fs, ∃ ops, F ops ∧ f = epochOf par kit ops) →
    fs.foldlM (fun s f => f s) s = .ok t →
    ∃ mid : List (List (Op K X B)), (∀ ops ∈ mid, F ops) ∧ mid.flatten.foldlM (step par kit) s = .ok t
  | [], s, t, _, h => ⟨[], by simp, h⟩
  | f :: fs, s, t, hf, h => by
    obtain ⟨ops, h1, rfl⟩ := hf f (by simp)
    rw [List.foldlM_cons] at h
    cases hx : epochOf par kit ops s with
    | error x => rw [hx] at h; cases h
    | ok s1 =>
      rw [hx] at h
      obtain ⟨mid, m1, m2⟩ := epochs_flatten fs s1 t (fun g hg => hf g (List.mem_cons_of_mem _ hg)) h
      refine ⟨ops :: mid, by simpa [h1] using m1, ?_⟩
      rw [List.flatten_cons, List.foldlM_append]
      unfold epochOf at hx
      rw [hx]
      exact m2

/-- **C58.**  Restoring.  Training a reachable system, with any calls making up the epochs and
any errors reported for them: if restoring is on and some monitored error was recorded, then at
the end, stopped early or not, the population is a copy of the one present right after the
epoch with the best recorded error, and no monitored epoch was better by more than
`min_delta`.  (Copies: see C24.) -/
theorem C58_restores (hp : 0 ≤ par.popSize) {r : R} {ops0 : List (Op K X B)}
    (hv : ∀ op ∈ ops0, op.valid) {s : St K X B R} (h0 : run par kit r ops0 = .ok s)
    {huge : K} {p : EsPar K} {e0 : Es K} (he0 : esNew huge p = some e0) (n counter : Nat)
    {epochs : List (List (Op K X B) × K)}
    (hep : ∀ q ∈ epochs, ∀ op ∈ q.1, op.valid ∧ op ≠ .store ∧ op ≠ .retrieve)
    {stopped : Bool} {hist : List (Int × K × St K X B R)} {e : Es K} {s' : St K X B R}
    (h : esFit (store par kit) retrieve p n (epochs.map fun q => (epochOf par kit q.1, q.2))
      counter e0 s = .ok (stopped, hist, e, s'))
    (hr : p.restore = true) (hi : ∃ q ∈ hist, p.startFrom ≤ q.1 ∧ q.2.1 < huge - p.minDelta) :
    (∀ q ∈ hist, p.startFrom ≤ q.1 → e.bestErr - p.minDelta ≤ q.2.1) ∧
    ∃ s1, (e.bestTrial, e.bestErr, s1) ∈ hist ∧ p.startFrom ≤ e.bestTrial ∧
      (population s1 ≠ [] → population s' = (copies par kit (population s1) s1.rng).1.reverse) := by
  have hd : 0 ≤ p.minDelta := by
    unfold esNew at he0
    split at he0
    · cases he0
    · split at he0
      · cases he0
      · rename_i h; exact not_lt.1 h
  obtain ⟨h1, _, _, _, h5⟩ := esFit_spec
    (P := fun s => ∃ ops : List (Op K X B), (∀ op ∈ ops, op.valid) ∧ run par kit r ops = .ok s)
    (F := fun f => ∃ ops : List (Op K X B),
      (∀ op ∈ ops, op.valid ∧ op ≠ .store ∧ op ≠ .retrieve) ∧ f = epochOf par kit ops) n
    (by
      rintro s t ⟨ops, ho, hs⟩ hst
      refine ⟨ops ++ [.store], ?_, run_append hs (by
        show (store par kit s >>= fun s => pure s) = _
        rw [hst]; rfl)⟩
      intro op hop
      rw [List.mem_append, List.mem_singleton] at hop
      rcases hop with hop | rfl
      · exact ho op hop
      · trivial)
    (by
      rintro f s t ⟨ops, ho, rfl⟩ ⟨ops', ho', hs⟩ hst
      refine ⟨ops' ++ ops, ?_, run_append hs hst⟩
      intro op hop
      rcases List.mem_append.1 hop with hop | hop
      · exact ho' op hop
      · exact (ho op hop).1)
    (by
      intro f hf
      obtain ⟨q, hq, rfl⟩ := List.mem_map.1 hf
      exact ⟨q.1, hep q hq, rfl⟩)
    ⟨ops0, hv, h0⟩ he0 h
  obtain ⟨b1, b2, _⟩ := C58_best huge p.minDelta hd p.startFrom hist
  rw [← h1] at b1 b2
  obtain ⟨_, _, hstart⟩ := b2 hi
  obtain ⟨s3, ⟨s1, s2, fs, k1, ⟨ops, ko, kr⟩, k3, k4, k5⟩, hre⟩ := h5 hr hi
  refine ⟨b1, s1, k1, hstart, fun hne => ?_⟩
  obtain ⟨mid, m1, m2⟩ := epochs_flatten fs s2 s3 k4 k5
  exact (C24_store_retrieve hp ko kr k3 (mid := mid.flatten) (by
    intro op hop
    obtain ⟨l, hl, hop⟩ := List.mem_flatten.1 hop
    exact m1 l hl op hop) m2 hre hne).1

end

/-! ### Using a callback twice -/

/-- A toy system: a number, and the stored one. -/
abbrev Toy := Nat × Option Nat

def toyStore : Toy → Res Toy := fun s => .ok (s.1, some s.1)
def toyRetrieve : Toy → Res Toy := fun s =>
  match s.2 with
  | some a => .ok (a, none)
  | none => .ok s

/-- Epochs that count up and report the given errors. -/
def toyEpochs (errs : List ℚ) : List ((Toy → Res Toy) × ℚ) :=
  errs.map fun e => (fun s => .ok (s.1 + 1, s.2), e)

def toyPar : EsPar ℚ := { patience := 200, restore := true, minDelta := 0, startFrom := 0 }

/-- A run that improves twice, gets worse and is stopped after 500 trials; the system after the
second epoch is restored. -/
example : Demo.Res.test
    (esFit toyStore toyRetrieve toyPar 100 (toyEpochs [5 / 10, 3 / 10, 4 / 10, 6 / 10, 7 / 10, 1 / 10])
      0 ⟨1000, 0, false⟩ (0, none))
    (fun q => decide (q.1 = true ∧ q.2.1.length = 5 ∧ q.2.2.1.bestErr = 3 / 10 ∧
      q.2.2.1.bestTrial = 200 ∧ q.2.2.2 = (2, none))) = true := by
  decide +kernel

example : esNew 1000 toyPar = some ⟨1000, 0, false⟩ := by simp [esNew, toyPar]

/-- A real system meets the conditions of `C58_restores`: two epochs of learning, the first one
the better, restored at the end. -/
example : Demo.Res.test
    (run Demo.par Demo.kit 0 [] >>= fun s =>
      esFit (store Demo.par Demo.kit) retrieve toyPar 100
        [(epochOf Demo.par Demo.kit [.fit 3 [1]], 1 / 10), (epochOf Demo.par Demo.kit [.fit 8 [2]], 2 / 10)]
        0 ⟨1000, 0, false⟩ s)
    (fun q => decide (q.2.1.length = 2 ∧ (population q.2.2.2).length = 4 ∧ q.2.2.1.bestTrial = 100))
      = true := by
  decide +kernel

/-- **C58 refuted for a callback used twice.**  The best error of the first `fit` is kept in the
callback.  A second `fit` that does not beat it records nothing: it is stopped and restores
nothing, although its first epoch was its best one. -/
theorem C58_reuse_refuted :
    Demo.Res.test
      (esFit toyStore toyRetrieve toyPar 100 (toyEpochs [1 / 10]) 0 ⟨1000, 0, false⟩ (0, none))
      (fun q => Demo.Res.test
        (esFit toyStore toyRetrieve toyPar 100 (toyEpochs [2 / 10, 3 / 10, 4 / 10, 5 / 10]) 1 q.2.2.1
          (10, none))
        (fun w => decide (w.1 = true ∧ w.2.1.length = 3 ∧ w.2.2.2 = (13, none)))) = true := by
  decide +kernel

/-! ## C59: checkpoints -/

section
variable {K S : Type} [Field K] [LinearOrder K] [IsStrictOrderedRing K]

/-- Whether a report may be saved at all. -/
theorem ckRun_saved (p : CkPar) (c : Ck K S) (t : Int) (err : K) (s : S) :
    ((ckRun p c t err s).1 = true ↔
      c.saveTrial + p.freq ≤ t ∧ (p.bestOnly = true → err < c.bestErr)) ∧
    ((ckRun p c t err s).1 = true → (ckRun p c t err s).2.saveTrial = t ∧
      (ckRun p c t err s).2.file = some s) ∧
    ((ckRun p c t err s).1 = false → (ckRun p c t err s).2.saveTrial = c.saveTrial ∧
      (ckRun p c t err s).2.file = c.file) ∧
    (ckRun p c t err s).2.bestErr ≤ c.bestErr ∧
    (p.bestOnly = true → (ckRun p c t err s).2.bestErr =
      if (ckRun p c t err s).1 then err else c.bestErr) := by
  unfold ckRun
  by_cases h1 : c.saveTrial + p.freq ≤ t
  · rw [if_pos h1]
    cases hb : p.bestOnly <;> by_cases h2 : err < c.bestErr <;> simp [h1, h2, le_of_lt]
  · rw [if_neg h1]
    simp [h1]

theorem ckLoop_spec (p : CkPar) (hf : 0 ≤ p.freq) : ∀ (reports : List (Int × K × S)) (c : Ck K S),
    (ckLoop p reports c).1.Sublist reports ∧
    (∀ q ∈ (ckLoop p reports c).1, c.saveTrial + p.freq ≤ q.1) ∧
    (ckLoop p reports c).1.Pairwise (fun a b => a.1 + p.freq ≤ b.1) ∧
    (p.bestOnly = true → (∀ q ∈ (ckLoop p reports c).1, q.2.1 < c.bestErr) ∧
      (ckLoop p reports c).1.Pairwise (fun a b => b.2.1 < a.2.1)) ∧
    (ckLoop p reports c).2.file =
      (match (ckLoop p reports c).1.getLast? with
       | some q => some q.2.2
       | none => c.file)
  | [], c => ⟨List.Sublist.refl _, by simp [ckLoop], by simp [ckLoop], fun _ => by simp [ckLoop], rfl⟩
  | (t, err, s) :: rest, c => by
    obtain ⟨k1, k2, k3, k4, k5⟩ := ckRun_saved p c t err s
    obtain ⟨h1, h2, h3, h4, h5⟩ := ckLoop_spec p hf rest (ckRun p c t err s).2
    rw [ckLoop]
    cases hs : (ckRun p c t err s).1 with
    | false =>
      obtain ⟨q1, q2⟩ := k3 hs
      dsimp only
      simp only [Bool.false_eq_true, if_false]
      rw [q1] at h2
      refine ⟨h1.cons _, h2, h3, fun hb => ?_, ?_⟩
      · obtain ⟨w1, w2⟩ := h4 hb
        exact ⟨fun q hq => (w1 q hq).trans_le k4, w2⟩
      · rw [h5, q2]
    | true =>
      obtain ⟨q1, q2⟩ := k2 hs
      obtain ⟨z1, z2⟩ := k1.1 hs
      dsimp only
      simp only [if_true]
      rw [q1] at h2
      refine ⟨h1.cons_cons _, ?_, ?_, fun hb => ?_, ?_⟩
      · intro q hq
        rcases List.mem_cons.1 hq with rfl | hq
        · exact z1
        · have := h2 q hq; omega
      · exact List.pairwise_cons.2 ⟨h2, h3⟩
      · obtain ⟨w1, w2⟩ := h4 hb
        have e := k5 hb
        rw [hs] at e
        simp only [if_true] at e
        rw [e] at w1
        refine ⟨fun q hq => ?_, List.pairwise_cons.2 ⟨w1, w2⟩⟩
        rcases List.mem_cons.1 hq with rfl | hq
        · exact z2 hb
        · exact (w1 q hq).trans (z2 hb)
      · rw [h5, q2]
        cases hl : (ckLoop p rest (ckRun p c t err s).2).1 with
        | nil => rfl
        | cons a l =>
          rw [List.getLast?_cons_cons]
          obtain ⟨b, hb⟩ : ∃ b, (a :: l).getLast? = some b :=
            Option.isSome_iff_exists.1 (by simp)
          rw [hb]

/-- **C59.**  The checkpoints of a new callback are some of the reports, at least `save_freq`
trials apart (the first one not before `save_freq` trials). -/
theorem C59_spacing {huge : K} {p : CkPar} {c : Ck K S} (hc : ckNew huge p = some c)
    (reports : List (Int × K × S)) :
    (ckLoop p reports c).1.Sublist reports ∧
    (∀ q ∈ (ckLoop p reports c).1, p.freq ≤ q.1) ∧
    (ckLoop p reports c).1.Pairwise (fun a b => a.1 + p.freq ≤ b.1) := by
  unfold ckNew at hc
  split at hc
  · cases hc
  · rename_i hf
    cases hc
    obtain ⟨h1, h2, h3, _⟩ := ckLoop_spec p (not_lt.1 hf) reports ({ bestErr := huge } : Ck K S)
    exact ⟨h1, fun q hq => by simpa using h2 q hq, h3⟩

/-- **C59.**  With `save_best_only`, each checkpoint has a lower error than every earlier one,
and at the end the file holds the system with the lowest error among the checkpoints. -/
theorem C59_best_only {huge : K} {p : CkPar} {c : Ck K S} (hc : ckNew huge p = some c)
    (hb : p.bestOnly = true) (reports : List (Int × K × S)) (final : S) :
    (ckLoop p reports c).1.Pairwise (fun a b => b.2.1 < a.2.1) ∧
    ((ckLoop p reports c).1 ≠ [] → ∃ q ∈ (ckLoop p reports c).1,
      (ckFinish p (ckLoop p reports c).2 final).file = some q.2.2 ∧
      ∀ q' ∈ (ckLoop p reports c).1, q.2.1 ≤ q'.2.1) := by
  unfold ckNew at hc
  split at hc
  · cases hc
  · rename_i hf
    cases hc
    obtain ⟨_, _, _, h4, h5⟩ := ckLoop_spec p (not_lt.1 hf) reports ({ bestErr := huge } : Ck K S)
    obtain ⟨_, w⟩ := h4 hb
    refine ⟨w, fun hne => ?_⟩
    have hfin : (ckFinish p (ckLoop p reports ({ bestErr := huge } : Ck K S)).2 final).file =
        (ckLoop p reports ({ bestErr := huge } : Ck K S)).2.file := by
      unfold ckFinish; rw [if_pos hb]
    rw [hfin, h5]
    generalize (ckLoop p reports ({ bestErr := huge } : Ck K S)).1 = L at w hne ⊢
    refine ⟨L.getLast hne, List.getLast_mem hne, by rw [List.getLast?_eq_getLast_of_ne_nil hne], ?_⟩
    intro q' hq'
    rw [← List.dropLast_append_getLast hne, List.pairwise_append] at w
    rw [← List.dropLast_append_getLast hne, List.mem_append, List.mem_singleton] at hq'
    rcases hq' with hq' | rfl
    · exact (w.2.2 q' hq' _ (by simp)).le
    · exact le_rfl

/-- **C59.**  Without `save_best_only` the file holds the final system. -/
theorem C59_final {p : CkPar} (hb : p.bestOnly = false) (c : Ck K S) (final : S) :
    (ckFinish p c final).file = some final := by
  unfold ckFinish
  rw [hb]
  rfl

/-- A report that could be saved and was not is no better than the best error so far. -/
theorem C59_skipped (p : CkPar) (c : Ck K S) (t : Int) (err : K) (s : S)
    (h : c.saveTrial + p.freq ≤ t) (hn : (ckRun p c t err s).1 = false) : c.bestErr ≤ err := by
  by_contra hlt
  have := (ckRun_saved p c t err s).1.2 ⟨h, fun _ => not_le.1 hlt⟩
  rw [hn] at this
  cases this

end

/-- Reports with their systems numbered. -/
def ckReports : List (Int × ℚ × Nat) :=
  [(100, 5 / 10, 1), (200, 4 / 10, 2), (300, 1 / 10, 3), (400, 3 / 10, 4), (500, 3 / 10, 5)]

example : ckNew (K := ℚ) (S := Nat) 1000 { bestOnly := true, freq := 200 } = some { bestErr := 1000 } :=
  rfl

/-- **The best model reported need not be saved.**  Here the report after 300 trials is the
best one but comes too early after the checkpoint at 200 trials; the file ends up with a worse
model. -/
theorem C59_best_report_missed :
    ((ckLoop { bestOnly := true, freq := 200 } ckReports { bestErr := 1000 }).1.map (·.1) =
      [200, 400]) ∧
    (ckLoop { bestOnly := true, freq := 200 } ckReports { bestErr := 1000 }).2.file = some 4 := by
  decide +kernel

end Xcsf
