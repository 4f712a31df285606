import Verif.NLayerSpec
import Verif.PropsUtil
import Verif.PropsDgp
import Verif.PropsBlas
import Verif.PropsActiv

/-!
# Lemmas about connected layers (used by property C53)
-/

set_option linter.unusedSectionVars false

namespace Xcsf
variable {K R : Type} [Field K] [LinearOrder K] [IsStrictOrderedRing K] [FloorRing K]

/-! ## Lists of connections -/

theorem calcActive_eq (ws : List (Wt K)) :
    calcActive ws = ((ws.filter fun w => w.on).length : Nat) := by
  simp [calcActive, List.countP_eq_length_filter]

theorem calcActive_cons (w : Wt K) (ws : List (Wt K)) :
    calcActive (w :: ws) = calcActive ws + if w.on then 1 else 0 := by
  unfold calcActive
  rw [List.countP_cons]
  split <;> simp

theorem normal_small {g : Rng K R} (B : g.Bounded) {s : K} (h0 : 0 ≤ s) (h1 : s ≤ 1) (r : R) :
    -10 ≤ (g.normal 0 s r).1 ∧ (g.normal 0 s r).1 ≤ 10 := by
  obtain ⟨b0, b1⟩ := B r
  unfold Rng.normal
  constructor
  · simp only; nlinarith
  · simp only; nlinarith

theorem normal_tenth {g : Rng K R} (B : g.Bounded) (r : R) :
    -10 ≤ (g.normal 0 (1 / 10) r).1 ∧ (g.normal 0 (1 / 10) r).1 ≤ 10 :=
  normal_small B (by norm_num) (by norm_num) r

theorem wtOk_on {g : Rng K R} (B : g.Bounded) (r : R) (u : K) :
    WtOk ⟨(g.normal 0 (1 / 10) r).1, u, true⟩ :=
  ⟨(normal_tenth B r).1, (normal_tenth B r).2, by simp⟩

theorem newWt_ok {g : Rng K R} (B : g.Bounded) (c : Bool) (r : R) : WtOk (newWt g c r).1 := by
  unfold newWt
  dsimp only
  split
  · split
    · exact ⟨by norm_num, by norm_num, fun _ => rfl⟩
    · exact wtOk_on B _ _
  · exact wtOk_on B _ _

theorem connGo_spec {g : Rng K R} (B : g.Bounded) (muE muD : K) : ∀ (ws : List (Wt K)) (r : R),
    (∀ w ∈ ws, WtOk w) →
    (connGo g muE muD ws r).1.1.length = ws.length ∧
    (∀ w ∈ (connGo g muE muD ws r).1.1, WtOk w) ∧
    calcActive (connGo g muE muD ws r).1.1 = calcActive ws + (connGo g muE muD ws r).1.2.1 ∧
    ((connGo g muE muD ws r).1.2.2 = false → (connGo g muE muD ws r).1.1 = ws)
  | [], r, _ => by simp [connGo]
  | w :: ws, r, h => by
    have hw := h w List.mem_cons_self
    have ht : ∀ w ∈ ws, WtOk w := fun v hv => h v (List.mem_cons_of_mem _ hv)
    unfold connGo
    dsimp only
    by_cases hon : w.on = true
    · rw [if_neg (by simp [hon])]
      split
      · obtain ⟨i1, i2, i3, i4⟩ := connGo_spec B muE muD ws (g.uni 0 1 r).2 ht
        refine ⟨by simp [i1], ?_, ?_, by simp⟩
        · intro v hv
          rcases List.mem_cons.1 hv with rfl | hv
          · exact ⟨by norm_num, by norm_num, fun _ => rfl⟩
          · exact i2 v hv
        · rw [calcActive_cons, calcActive_cons, i3, hon]; simp
      · obtain ⟨i1, i2, i3, i4⟩ := connGo_spec B muE muD ws (g.uni 0 1 r).2 ht
        refine ⟨by simp [i1], ?_, ?_, fun hf => by rw [i4 hf]⟩
        · intro v hv
          rcases List.mem_cons.1 hv with rfl | hv
          · exact hw
          · exact i2 v hv
        · rw [calcActive_cons, calcActive_cons, i3]; ring
    · rw [if_pos (by simpa using hon)]
      split
      · obtain ⟨i1, i2, i3, i4⟩ := connGo_spec B muE muD ws
          (g.normal 0 (1 / 10) (g.uni 0 1 r).2).2 ht
        refine ⟨by rw [List.length_cons, List.length_cons, i1], ?_, ?_, fun hf => by cases hf⟩
        · intro v hv
          rcases List.mem_cons.1 hv with rfl | hv
          · exact wtOk_on B _ _
          · exact i2 v hv
        · rw [calcActive_cons, calcActive_cons, i3]; simp [hon]; ring
      · obtain ⟨i1, i2, i3, i4⟩ := connGo_spec B muE muD ws (g.uni 0 1 r).2 ht
        refine ⟨by simp [i1], ?_, ?_, fun hf => by rw [i4 hf]⟩
        · intro v hv
          rcases List.mem_cons.1 hv with rfl | hv
          · exact hw
          · exact i2 v hv
        · rw [calcActive_cons, calcActive_cons, i3]; ring

theorem enableWt_length (z : K) (k : Nat) (ws : List (Wt K)) :
    (enableWt z k ws).length = ws.length := by simp [enableWt]

theorem enableWt_get (z : K) (k : Nat) (ws : List (Wt K)) (i : Nat) :
    (enableWt z k ws)[i]? =
      if k = i then ws[i]?.map (fun w => { w with w := z, on := true }) else ws[i]? := by
  unfold enableWt
  rw [List.getElem?_modify]
  split
  · cases ws[i]? <;> simp
  · cases ws[i]? <;> simp

theorem enableWt_ok {z : K} (hz : -10 ≤ z ∧ z ≤ 10) (k : Nat) {ws : List (Wt K)}
    (h : ∀ w ∈ ws, WtOk w) : ∀ w ∈ enableWt z k ws, WtOk w := by
  intro w hw
  obtain ⟨i, hi⟩ := List.mem_iff_getElem?.1 hw
  rw [enableWt_get] at hi
  split at hi
  · cases e : ws[i]? with
    | none => simp [e] at hi
    | some v =>
      simp only [e, Option.map_some, Option.some.injEq] at hi
      subst hi
      exact ⟨hz.1, hz.2, by simp⟩
  · exact h w (List.mem_of_getElem? hi)

theorem enableWt_active (z : K) : ∀ (k : Nat) (ws : List (Wt K)) (w : Wt K), ws[k]? = some w →
    w.on = false → calcActive (enableWt z k ws) = calcActive ws + 1
  | 0, [], _, h, _ => by simp at h
  | 0, v :: ws, w, h, ho => by
    simp only [List.getElem?_cons_zero, Option.some.injEq] at h
    subst h
    simp [enableWt, calcActive_cons, ho]
  | k + 1, [], _, h, _ => by simp at h
  | k + 1, v :: ws, w, h, ho => by
    have ih := enableWt_active z k ws w (by simpa using h) ho
    have e : enableWt z (k + 1) (v :: ws) = v :: enableWt z k ws := by simp [enableWt]
    rw [e, calcActive_cons, calcActive_cons, ih]; ring

/-- Connections of `b` include those of `a`. -/
def Keeps (a b : List (Wt K)) : Prop :=
  ∀ (i : Nat) (w : Wt K), a[i]? = some w → w.on = true → ∃ v : Wt K, b[i]? = some v ∧ v.on = true

theorem Keeps.refl (a : List (Wt K)) : Keeps a a := fun _ w h ho => ⟨w, h, ho⟩

theorem Keeps.trans {a b c : List (Wt K)} (h1 : Keeps a b) (h2 : Keeps b c) : Keeps a c := by
  intro i w h ho
  obtain ⟨v, hv, hvo⟩ := h1 i w h ho
  exact h2 i v hv hvo

theorem keeps_enable (z : K) (k : Nat) (ws : List (Wt K)) : Keeps ws (enableWt z k ws) := by
  intro i w h ho
  rw [enableWt_get]
  split
  · exact ⟨{ w with w := z, on := true }, by simp [h], rfl⟩
  · exact ⟨w, h, ho⟩

theorem enable_on (z : K) (k : Nat) (ws : List (Wt K)) (h : k < ws.length) :
    ∃ v : Wt K, (enableWt z k ws)[k]? = some v ∧ v.on = true :=
  ⟨{ ws[k] with w := z, on := true }, by rw [enableWt_get]; simp [h], rfl⟩

/-- What the loops over rows and columns keep. -/
structure EnsInv (ws : List (Wt K)) (na : Int) (ws' : List (Wt K)) (na' : Int) : Prop where
  len : ws'.length = ws.length
  ok : (∀ w ∈ ws, WtOk w) → ∀ w ∈ ws', WtOk w
  act : na = calcActive ws → na' = calcActive ws'
  keeps : Keeps ws ws'

theorem EnsInv.refl (ws : List (Wt K)) (na : Int) : EnsInv ws na ws na :=
  ⟨rfl, id, id, Keeps.refl _⟩

theorem EnsInv.trans {a b c : List (Wt K)} {x y z : Int} (h1 : EnsInv a x b y)
    (h2 : EnsInv b y c z) : EnsInv a x c z :=
  ⟨h2.len.trans h1.len, fun h => h2.ok (h1.ok h), fun h => h2.act (h1.act h),
    h1.keeps.trans h2.keeps⟩

theorem ensInv_enable {g : Rng K R} (B : g.Bounded) (r : R) {ws : List (Wt K)} {k : Nat} {w : Wt K}
    (h : ws[k]? = some w) (ho : w.on = false) (na : Int) :
    EnsInv ws na (enableWt (g.normal 0 (1 / 10) r).1 k ws) (na + 1) :=
  ⟨enableWt_length _ _ _, fun hw => enableWt_ok (normal_tenth B r) k hw,
    fun e => by rw [e, enableWt_active _ k ws w h ho], keeps_enable _ _ _⟩

theorem row_any (ws : List (Wt K)) (o n : Nat) :
    ((ws.drop o).take n).any (fun w => w.on) = true ↔
      ∃ j < n, ∃ w : Wt K, ws[o + j]? = some w ∧ w.on = true := by
  rw [List.any_eq_true]
  constructor
  · rintro ⟨w, hw, ho⟩
    obtain ⟨j, hj⟩ := List.mem_iff_getElem?.1 hw
    have hj' : j < n := by
      by_contra hc
      rw [List.getElem?_take, if_neg hc] at hj
      exact absurd hj (by simp)
    rw [List.getElem?_take_of_lt hj', List.getElem?_drop] at hj
    exact ⟨j, hj', w, hj, ho⟩
  · rintro ⟨j, hj, w, hw, ho⟩
    refine ⟨w, List.mem_iff_getElem?.2 ⟨j, ?_⟩, ho⟩
    rw [List.getElem?_take_of_lt hj, List.getElem?_drop, hw]

/-- The loop over the neurons. -/
theorem ensureRows_spec {g : Rng K R} (O : g.Open) (B : g.Bounded) {nIn : Nat} (hin : 1 ≤ nIn) :
    ∀ (n i : Nat) (ws : List (Wt K)) (na : Int) (r : R), nIn * (i + n) ≤ ws.length →
    ∃ ws' na' r', ensureRows g nIn n i ws na r = .ok ((ws', na'), r') ∧ EnsInv ws na ws' na' ∧
      ∀ k, i ≤ k → k < i + n → ∃ j < nIn, ∃ w : Wt K, ws'[nIn * k + j]? = some w ∧ w.on = true
  | 0, i, ws, na, r, _ => ⟨ws, na, r, rfl, EnsInv.refl _ _, fun k _ _ => by omega⟩
  | n + 1, i, ws, na, r, hlen => by
    have hrow : nIn * i + nIn ≤ ws.length := by
      have : nIn * (i + (n + 1)) = nIn * i + nIn + nIn * n := by ring
      omega
    unfold ensureRows
    rw [if_neg (by omega)]
    by_cases hany : ((ws.drop (nIn * i)).take nIn).any (fun w => w.on) = true
    · rw [if_pos hany]
      obtain ⟨ws', na', r', e, inv, hall⟩ := ensureRows_spec O B hin n (i + 1) ws na r
        (by rw [show i + 1 + n = i + (n + 1) by omega]; exact hlen)
      refine ⟨ws', na', r', e, inv, fun k hk hk' => ?_⟩
      by_cases hki : k = i
      · subst hki
        obtain ⟨j, hj, w, hw, ho⟩ := (row_any ws _ _).1 hany
        obtain ⟨v, hv, hvo⟩ := inv.keeps _ w hw ho
        exact ⟨j, hj, v, hv, hvo⟩
      · exact hall k (by omega) (by omega)
    · rw [if_neg hany]
      dsimp only
      obtain ⟨k0, k1⟩ := C45_random_int (K := K) O (show (0 : Int) < (nIn : Int) by omega) r
      generalize g.uniInt 0 (nIn : Int) r = kr at k0 k1 ⊢
      obtain ⟨c, hce⟩ : ∃ c : Nat, kr.1 = (c : Int) := ⟨kr.1.toNat, by omega⟩
      rw [hce] at k0 k1
      rw [hce]
      simp only [Int.toNat_natCast]
      have hc : c < nIn := by omega
      rw [if_neg (by push_cast; omega)]
      have hlt : nIn * i + c < ws.length := by omega
      obtain ⟨w, hw⟩ : ∃ w, ws[nIn * i + c]? = some w := ⟨_, List.getElem?_eq_getElem hlt⟩
      have ho : w.on = false := by
        by_contra hne
        exact hany ((row_any ws _ _).2 ⟨c, hc, w, hw, by simpa using hne⟩)
      have i1 := ensInv_enable B kr.2 hw ho na
      obtain ⟨ws', na', r', e, inv, hall⟩ := ensureRows_spec O B hin n (i + 1)
        (enableWt (g.normal 0 (1 / 10) kr.2).1 (nIn * i + c) ws) (na + 1)
        (g.normal 0 (1 / 10) kr.2).2
        (by rw [show i + 1 + n = i + (n + 1) by omega, enableWt_length]; exact hlen)
      refine ⟨ws', na', r', e, i1.trans inv, fun k hk hk' => ?_⟩
      by_cases hki : k = i
      · subst hki
        obtain ⟨v, hv, hvo⟩ := enable_on (g.normal 0 (1 / 10) kr.2).1 _ ws hlt
        obtain ⟨u, hu, huo⟩ := inv.keeps _ v hv hvo
        exact ⟨c, hc, u, hu, huo⟩
      · exact hall k (by omega) (by omega)

theorem colOn_iff (ws : List (Wt K)) (nIn nOut i : Nat) :
    colOn ws nIn nOut i = true ↔ ∃ j < nOut, ∃ w : Wt K, ws[nIn * j + i]? = some w ∧ w.on = true := by
  unfold colOn
  rw [List.any_eq_true]
  constructor
  · rintro ⟨j, hj, h⟩
    cases e : ws[nIn * j + i]? with
    | none => simp [e] at h
    | some w => exact ⟨j, List.mem_range.1 hj, w, e, by simpa [e] using h⟩
  · rintro ⟨j, hj, w, hw, ho⟩
    exact ⟨j, List.mem_range.2 hj, by simp [hw, ho]⟩

theorem gridIdx_lt {nIn nOut i j len : Nat} (hi : i < nIn) (hj : j < nOut) (h : nIn * nOut ≤ len) :
    nIn * j + i < len := by
  have : nIn * (j + 1) ≤ nIn * nOut := Nat.mul_le_mul_left _ (by omega)
  have e : nIn * (j + 1) = nIn * j + nIn := by ring
  omega

/-- The loop over the inputs: its `while` loop is left after one round. -/
theorem ensureCols_spec {g : Rng K R} (O : g.Open) (B : g.Bounded) {fuel nIn nOut : Nat}
    (hf : 1 ≤ fuel) (hout : 1 ≤ nOut) :
    ∀ (n i : Nat) (ws : List (Wt K)) (na : Int) (r : R), i + n ≤ nIn → nIn * nOut ≤ ws.length →
    ∃ ws' na' r', ensureCols g fuel nIn nOut n i ws na r = .ok ((ws', na'), r') ∧
      EnsInv ws na ws' na' ∧
      ∀ k, i ≤ k → k < i + n → ∃ j < nOut, ∃ w : Wt K, ws'[nIn * j + k]? = some w ∧ w.on = true
  | 0, i, ws, na, r, _, _ => ⟨ws, na, r, rfl, EnsInv.refl _ _, fun k _ _ => by omega⟩
  | n + 1, i, ws, na, r, hin, hlen => by
    unfold ensureCols
    rw [if_neg (by omega)]
    by_cases hcol : colOn ws nIn nOut i = true
    · rw [if_pos hcol]
      obtain ⟨ws', na', r', e, inv, hall⟩ :=
        ensureCols_spec (nIn := nIn) O B hf hout n (i + 1) ws na r (by omega) hlen
      refine ⟨ws', na', r', e, inv, fun k hk hk' => ?_⟩
      by_cases hki : k = i
      · subst hki
        obtain ⟨j, hj, w, hw, ho⟩ := (colOn_iff ws _ _ _).1 hcol
        obtain ⟨v, hv, hvo⟩ := inv.keeps _ w hw ho
        exact ⟨j, hj, v, hv, hvo⟩
      · exact hall k (by omega) (by omega)
    · rw [if_neg hcol]
      obtain ⟨fuel', rfl⟩ : ∃ f', fuel = f' + 1 := ⟨fuel - 1, by omega⟩
      obtain ⟨k0, k1⟩ := C45_random_int (K := K) O (show (0 : Int) < (nOut : Int) by omega) r
      have hc : (g.uniInt 0 (nOut : Int) r).1.toNat < nOut := by omega
      have hlt := gridIdx_lt (show i < nIn by omega) hc hlen
      obtain ⟨w, hw⟩ : ∃ w, ws[nIn * (g.uniInt 0 (nOut : Int) r).1.toNat + i]? = some w :=
        ⟨_, List.getElem?_eq_getElem hlt⟩
      have ho : w.on = false := by
        by_contra hne
        exact hcol ((colOn_iff ws _ _ _).2 ⟨_, hc, w, hw, by simpa using hne⟩)
      have e1 : ensureCol g nIn nOut i (fuel' + 1) ws na r =
          .ok ((enableWt (g.normal 0 (1 / 10) (g.uniInt 0 (nOut : Int) r).2).1
            (nIn * (g.uniInt 0 (nOut : Int) r).1.toNat + i) ws, na + 1),
            (g.normal 0 (1 / 10) (g.uniInt 0 (nOut : Int) r).2).2) := by
        unfold ensureCol
        dsimp only
        rw [if_neg (by omega), hw]
        simp [ho]
      rw [e1]
      dsimp only
      have i1 := ensInv_enable B (g.uniInt 0 (nOut : Int) r).2 hw ho na
      obtain ⟨ws', na', r', e, inv, hall⟩ := ensureCols_spec (nIn := nIn) O B hf hout n (i + 1)
        (enableWt (g.normal 0 (1 / 10) (g.uniInt 0 (nOut : Int) r).2).1
            (nIn * (g.uniInt 0 (nOut : Int) r).1.toNat + i) ws) (na + 1)
        (g.normal 0 (1 / 10) (g.uniInt 0 (nOut : Int) r).2).2 (by omega)
        (by rw [enableWt_length]; exact hlen)
      refine ⟨ws', na', r', e, i1.trans inv, fun k hk hk' => ?_⟩
      by_cases hki : k = i
      · subst hki
        obtain ⟨v, hv, hvo⟩ := enable_on (g.normal 0 (1 / 10) (g.uniInt 0 (nOut : Int) r).2).1 _
          ws hlt
        obtain ⟨u, hu, huo⟩ := inv.keeps _ v hv hvo
        exact ⟨_, hc, u, hu, huo⟩
      · exact hall k (by omega) (by omega)

theorem conn_iff (l : CLay K) (i j : Nat) :
    l.conn i j = true ↔ ∃ w : Wt K, l.ws[i * l.nInputs + j]? = some w ∧ w.on = true := by
  unfold CLay.conn
  cases e : l.ws[i * l.nInputs + j]? with
  | none => simp
  | some w => simp

/-- `layer_ensure_input_represention` returns, keeps the layer legal and represents every neuron
and input. -/
theorem ensureInput_spec {g : Rng K R} (O : g.Open) (B : g.Bounded) {fuel : Nat} (hf : 1 ≤ fuel)
    {l : CLay K} (S : l.Sound) (r : R) :
    ∃ ws na r', ensureInput g fuel l r = .ok ({ l with ws := ws, nActive := na }, r') ∧
      CLay.Sound { l with ws := ws, nActive := na } ∧
      CLay.Represented { l with ws := ws, nActive := na } := by
  have hlen : l.nInputs * l.nOutputs ≤ l.ws.length := by rw [S.wlen, Nat.mul_comm]
  obtain ⟨w1, n1, r1, e1, inv1, rows⟩ := ensureRows_spec O B S.ins l.nOutputs 0 l.ws l.nActive r
    (by simpa using hlen)
  obtain ⟨w2, n2, r2, e2, inv2, cols⟩ := ensureCols_spec (nIn := l.nInputs) O B hf S.outs l.nInputs 0 w1 n1 r1
    (by omega) (by rw [inv1.len]; exact hlen)
  have inv := inv1.trans inv2
  refine ⟨w2, n2, r2, by simp [ensureInput, e1, e2], ?_, ?_, ?_⟩
  · exact { ins := S.ins, outs := S.outs, wlen := inv.len.trans S.wlen, nlen := S.nlen,
            wt := inv.ok S.wt, bias := S.bias,
            active := by
              rw [← calcActive_eq]
              exact inv.act (by rw [calcActive_eq]; exact S.active)
            mu := S.mu, fn := S.fn }
  · intro i hi
    obtain ⟨j, hj, w, hw, ho⟩ := rows i (by omega) (by simpa using hi)
    obtain ⟨v, hv, hvo⟩ := inv2.keeps _ w hw ho
    exact ⟨j, hj, (conn_iff _ _ _).2 ⟨v, by simpa [Nat.mul_comm] using hv, hvo⟩⟩
  · intro j hj
    obtain ⟨i, hi, w, hw, ho⟩ := cols j (by omega) (by simpa using hj)
    exact ⟨i, hi, (conn_iff _ _ _).2 ⟨w, by simpa [Nat.mul_comm] using hw, ho⟩⟩


/-! ## Steps -/

/-- What a step keeps. -/
structure CStep (B M : Nat) (l l' : CLay K) : Prop where
  sound : l'.Sound
  fits : l'.Fits B M
  opt : l'.opt = l.opt
  rep : l.opt.neurons = false → l.Rep → l'.Rep

theorem CStep.refl {B M : Nat} {l : CLay K} (S : l.Sound) (F : l.Fits B M) : CStep B M l l :=
  ⟨S, F, rfl, fun _ h => h⟩

theorem CStep.trans {B M : Nat} {a b c : CLay K} (h1 : CStep B M a b) (h2 : CStep B M b c) :
    CStep B M a c :=
  ⟨h2.sound, h2.fits, h2.opt.trans h1.opt,
    fun hn h => h2.rep (by rw [h1.opt]; exact hn) (h1.rep hn h)⟩

theorem rep_of_on {l l' : CLay K} (hi : l'.nInputs = l.nInputs) (ho : l'.nOutputs = l.nOutputs)
    (hop : l'.opt = l.opt) (h : l'.ws.map Wt.on = l.ws.map Wt.on) (r : l.Rep) : l'.Rep := by
  have hget : ∀ i : Nat, (l'.ws[i]?).map Wt.on = (l.ws[i]?).map Wt.on := by
    intro i
    rw [← List.getElem?_map, ← List.getElem?_map, h]
  have hc : ∀ i j, l'.conn i j = l.conn i j := by
    intro i j
    have := hget (i * l.nInputs + j)
    unfold CLay.conn
    rw [hi]
    cases e1 : l'.ws[i * l.nInputs + j]? <;> cases e2 : l.ws[i * l.nInputs + j]? <;>
      simp_all
  refine ⟨⟨?_, ?_⟩, ?_⟩
  · intro i hi'
    obtain ⟨j, hj, hc'⟩ := r.rep.1 i (by rw [← ho]; exact hi')
    exact ⟨j, by rw [hi]; exact hj, by rw [hc]; exact hc'⟩
  · intro j hj'
    obtain ⟨i, hi', hc'⟩ := r.rep.2 j (by rw [← hi]; exact hj')
    exact ⟨i, by rw [ho]; exact hi', by rw [hc]; exact hc'⟩
  · intro hf w hw
    rw [hop] at hf
    obtain ⟨i, hi'⟩ := List.mem_iff_getElem?.1 hw
    have := hget i
    rw [hi'] at this
    cases e2 : l.ws[i]? with
    | none => simp [e2] at this
    | some v =>
      have hv := r.full hf v (List.mem_of_getElem? e2)
      simp [e2, hv] at this
      exact this

theorem active_of_on {ws ws' : List (Wt K)} (h : ws'.map Wt.on = ws.map Wt.on) :
    calcActive ws' = calcActive ws := by
  have e : ∀ l : List (Wt K), calcActive l = (((l.map Wt.on).countP id : Nat) : Int) := by
    intro l
    rw [List.countP_map]
    rfl
  rw [e, e, h]

/-- Steps that change neither dimensions nor which connections are active. -/
theorem cstep_same {B M : Nat} {l l' : CLay K} (S : l.Sound) (F : l.Fits B M)
    (hi : l'.nInputs = l.nInputs) (ho : l'.nOutputs = l.nOutputs) (hop : l'.opt = l.opt)
    (hmax : l'.maxOutputs = l.maxOutputs) (hg : l'.maxGrow = l.maxGrow)
    (ha : l'.nActive = l.nActive) (hon : l'.ws.map Wt.on = l.ws.map Wt.on)
    (hn : l'.ns.length = l.ns.length) (hmu : l'.mu = l.mu)
    (hw : ∀ w ∈ l'.ws, WtOk w) (hb : ∀ n ∈ l'.ns, -10 ≤ n.bias ∧ n.bias ≤ 10)
    (hf : 0 ≤ l'.fn ∧ l'.fn < 11) : CStep B M l l' where
  sound := {
    ins := by rw [hi]; exact S.ins
    outs := by rw [ho]; exact S.outs
    wlen := by
      have := congrArg List.length hon
      simp only [List.length_map] at this
      rw [this, hi, ho]; exact S.wlen
    nlen := by rw [hn, ho]; exact S.nlen
    wt := hw
    bias := hb
    active := by rw [ha, ← calcActive_eq, active_of_on hon, calcActive_eq]; exact S.active
    mu := by rw [hmu]; exact S.mu
    fn := hf }
  fits := ⟨by rw [ho]; exact F.cur, by rw [hmax]; exact F.max, by rw [hop, ho, hmax]; exact F.le,
    by rw [hi]; exact F.prod, by rw [hop, hg]; exact F.grow, F.big⟩
  opt := hop
  rep := fun _ r => rep_of_on hi ho hop hon r

theorem mutateEta_step {B M : Nat} (g : Rng K R) {l : CLay K} (S : l.Sound) (F : l.Fits B M)
    (mu : K) (r : R) : CStep B M l (mutateEta g l mu r).1.1 :=
  cstep_same S F rfl rfl rfl rfl rfl rfl rfl rfl rfl S.wt S.bias S.fn

theorem mutWtGo_spec (g : Rng K R) (mu : K) : ∀ (ws : List (Wt K)) (r : R), (∀ w ∈ ws, WtOk w) →
    (mutWtGo g mu ws r).1.1.map Wt.on = ws.map Wt.on ∧ ∀ w ∈ (mutWtGo g mu ws r).1.1, WtOk w
  | [], r, _ => by simp [mutWtGo]
  | w :: ws, r, h => by
    have ht : ∀ w ∈ ws, WtOk w := fun v hv => h v (List.mem_cons_of_mem _ hv)
    unfold mutWtGo
    dsimp only
    split
    · next hon =>
      obtain ⟨i1, i2⟩ := mutWtGo_spec g mu ws (g.normal 0 mu r).2 ht
      refine ⟨by simp only [List.map_cons, i1], fun v hv => ?_⟩
      rcases List.mem_cons.1 hv with rfl | hv
      · have := clampK_mem (w.w + (g.normal 0 mu r).1) (show (-10 : K) ≤ 10 by norm_num)
        exact ⟨this.1, this.2, fun hf => by simp [hon] at hf⟩
      · exact i2 v hv
    · obtain ⟨i1, i2⟩ := mutWtGo_spec g mu ws r ht
      refine ⟨by simp only [List.map_cons, i1], fun v hv => ?_⟩
      rcases List.mem_cons.1 hv with rfl | hv
      · exact h _ List.mem_cons_self
      · exact i2 v hv

theorem mutBiasGo_spec (g : Rng K R) (mu : K) : ∀ (ns : List (Neuron K)) (r : R),
    (mutBiasGo g mu ns r).1.1.length = ns.length ∧
    ∀ n ∈ (mutBiasGo g mu ns r).1.1, -10 ≤ n.bias ∧ n.bias ≤ 10
  | [], r => by simp [mutBiasGo]
  | n :: ns, r => by
    obtain ⟨i1, i2⟩ := mutBiasGo_spec g mu ns (g.normal 0 mu r).2
    unfold mutBiasGo
    dsimp only
    refine ⟨by simp only [List.length_cons, i1], fun v hv => ?_⟩
    rcases List.mem_cons.1 hv with rfl | hv
    · exact clampK_mem _ (by norm_num)
    · exact i2 v hv

theorem mutateWeights_step {B M : Nat} (g : Rng K R) {l : CLay K} (S : l.Sound) (F : l.Fits B M)
    (mu : K) (r : R) : CStep B M l (mutateWeights g l mu r).1.1 := by
  obtain ⟨w1, w2⟩ := mutWtGo_spec g mu l.ws r S.wt
  obtain ⟨b1, b2⟩ := mutBiasGo_spec g mu l.ns (mutWtGo g mu l.ws r).2
  exact cstep_same S F rfl rfl rfl rfl rfl rfl w1 b1 rfl w2 b2 S.fn

theorem mutateFn_step {B M : Nat} {g : Rng K R} (O : g.Open) {l : CLay K} (S : l.Sound)
    (F : l.Fits B M) (mu : K) (r : R) : CStep B M l (mutateFn g l mu r).1.1 := by
  unfold mutateFn
  dsimp only
  split
  · exact cstep_same S F rfl rfl rfl rfl rfl rfl rfl rfl rfl S.wt S.bias
      (C45_random_int O (by decide) _)
  · exact CStep.refl S F

theorem map_zipWith_left {α β γ : Type} (f : α → β → α) (p : α → γ) (h : ∀ a b, p (f a b) = p a) :
    ∀ (as : List α) (bs : List β), as.length ≤ bs.length →
      (List.zipWith f as bs).map p = as.map p
  | [], _, _ => by simp
  | a :: as, [], hl => by simp at hl
  | a :: as, b :: bs, hl => by
    simp [h, map_zipWith_left f p h as bs (by simpa using hl)]

theorem mem_zipWith {α β γ : Type} {f : α → β → γ} {v : γ} :
    ∀ {as : List α} {bs : List β}, v ∈ List.zipWith f as bs → ∃ a ∈ as, ∃ b ∈ bs, v = f a b
  | [], _, h => by simp at h
  | _ :: _, [], h => by simp at h
  | a :: as, b :: bs, h => by
    rw [List.zipWith_cons_cons] at h
    rcases List.mem_cons.1 h with rfl | h
    · exact ⟨a, List.mem_cons_self, b, List.mem_cons_self, rfl⟩
    · obtain ⟨a', ha, b', hb, e⟩ := mem_zipWith h
      exact ⟨a', List.mem_cons_of_mem _ ha, b', List.mem_cons_of_mem _ hb, e⟩

theorem full_rep {l : CLay K} (hi : 1 ≤ l.nInputs) (ho : 1 ≤ l.nOutputs)
    (hl : l.ws.length = l.nOutputs * l.nInputs) (h : ∀ w ∈ l.ws, w.on = true) : l.Rep := by
  have hc : ∀ i < l.nOutputs, ∀ j < l.nInputs, l.conn i j = true := by
    intro i hi' j hj
    have hlt : i * l.nInputs + j < l.ws.length := by
      have := gridIdx_lt hj hi' (show l.nInputs * l.nOutputs ≤ l.ws.length by
        rw [hl, Nat.mul_comm])
      rwa [Nat.mul_comm] at this
    exact (conn_iff _ _ _).2 ⟨_, List.getElem?_eq_getElem hlt, h _ (List.getElem_mem hlt)⟩
  exact ⟨⟨fun i hi' => ⟨0, by omega, hc i hi' 0 (by omega)⟩,
    fun j hj => ⟨0, by omega, hc 0 (by omega) j hj⟩⟩, fun _ => h⟩

theorem active_full {ws : List (Wt K)} (h : ∀ w ∈ ws, w.on = true) :
    (ws.filter fun w => w.on) = ws := List.filter_eq_self.2 h

theorem weightRand_step {B M : Nat} {g : Rng K R} (Bd : g.Bounded) {l : CLay K} (S : l.Sound)
    (F : l.Fits B M) (r : R) : CStep B M l (weightRand g l r).1 := by
  have hz : ∀ r, -10 ≤ (g.normal 0 1 r).1 ∧ (g.normal 0 1 r).1 ≤ 10 :=
    fun r => normal_small Bd (by norm_num) (by norm_num) r
  obtain ⟨l1, p1⟩ := drawN_spec (P := fun v => -10 ≤ v ∧ v ≤ 10) hz l.ws.length r
  obtain ⟨l2, p2⟩ := drawN_spec (P := fun v => -10 ≤ v ∧ v ≤ 10) hz l.ns.length (drawN (g.normal 0 1) l.ws.length r).2
  have hw : ∀ w ∈ (weightRand g l r).1.ws, w.on = true ∧ WtOk w := by
    intro w hw
    obtain ⟨a, _, b, hb, rfl⟩ := mem_zipWith hw
    exact ⟨rfl, (p1 b hb).1, (p1 b hb).2, by simp⟩
  have hl : (weightRand g l r).1.ws.length = l.nOutputs * l.nInputs := by
    rw [← S.wlen]
    show (List.zipWith _ l.ws _).length = _
    rw [List.length_zipWith, l1, Nat.min_self]
  refine ⟨⟨S.ins, S.outs, hl, ?_, fun w h => (hw w h).2, ?_, ?_, S.mu, S.fn⟩,
    ⟨F.cur, F.max, F.le, F.prod, F.grow, F.big⟩, rfl, fun _ _ => ?_⟩
  · show (List.zipWith _ l.ns _).length = _
    rw [List.length_zipWith, l2, Nat.min_self]
    exact S.nlen
  · intro n hn
    obtain ⟨a, _, b, hb, rfl⟩ := mem_zipWith hn
    exact p2 b hb
  · rw [active_full (fun w h => (hw w h).1), hl]
    show ((l.ws.length : Nat) : Int) = _
    rw [S.wlen]
  · exact full_rep S.ins S.outs hl (fun w h => (hw w h).1)

theorem connCopy_step {B M : Nat} {l : CLay K} (S : l.Sound) (F : l.Fits B M) :
    CStep B M l (connCopy l) := by
  refine cstep_same S F rfl rfl rfl rfl rfl rfl ?_ (by simp [connCopy]) rfl ?_ ?_ S.fn
  · simp [connCopy, Function.comp_def]
  · intro w hw
    obtain ⟨v, hv, rfl⟩ := List.mem_map.1 hw
    exact S.wt v hv
  · intro n hn
    obtain ⟨v, hv, rfl⟩ := List.mem_map.1 hn
    exact S.bias v hv

/-- Whatever the weights were, clamping makes them legal. -/
theorem weightClamp_ok (l : CLay K) :
    (∀ w ∈ (weightClamp l).ws, WtOk w) ∧ (∀ n ∈ (weightClamp l).ns, -10 ≤ n.bias ∧ n.bias ≤ 10) ∧
    (weightClamp l).ws.map Wt.on = l.ws.map Wt.on ∧ (weightClamp l).ns.length = l.ns.length := by
  refine ⟨?_, ?_, by simp [weightClamp, Function.comp_def], by simp [weightClamp]⟩
  · intro w hw
    obtain ⟨v, hv, rfl⟩ := List.mem_map.1 hw
    by_cases h : v.on = true
    · have := clampK_mem v.w (show (-10 : K) ≤ 10 by norm_num)
      simp only [h, if_true]
      exact ⟨this.1, this.2, fun hf => by simp at hf⟩
    · simp only [h]
      exact ⟨by norm_num, by norm_num, fun _ => rfl⟩
  · intro n hn
    obtain ⟨v, hv, rfl⟩ := List.mem_map.1 hn
    exact clampK_mem _ (by norm_num)

theorem length_ofArr (n : Nat) (f : Nat → K) : (ofArr n f).length = n := by simp [ofArr]

theorem connUpdate_step {B M : Nat} {l : CLay K} (S : l.Sound) (F : l.Fits B M) :
    CStep B M l (connUpdate l) := by
  unfold connUpdate
  split
  · dsimp only
    obtain ⟨w1, w2, w3, w4⟩ := weightClamp_ok (K := K) { l with
      ns := List.zipWith (fun (x : Neuron K) (p : K × K) => { x with bias := p.1, bupd := p.2 })
        l.ns (List.zip (ofArr l.ns.length (axpy l.ns.length l.eta (arrOf (l.ns.map Neuron.bupd)) 1
          (arrOf (l.ns.map Neuron.bias)) 0 1)) (ofArr l.ns.length (scal l.ns.length l.momentum
            (arrOf (l.ns.map Neuron.bupd)) 1)))
      ws := List.zipWith (fun (x : Wt K) (p : K × K) => { x with w := p.1, upd := p.2 })
        l.ws (List.zip (ofArr l.ws.length (axpy l.ws.length l.eta (if 0 < l.decay then
          axpy l.ws.length (-l.decay) (arrOf (l.ws.map Wt.w)) 1 (arrOf (l.ws.map Wt.upd)) 0 1
          else arrOf (l.ws.map Wt.upd)) 1 (arrOf (l.ws.map Wt.w)) 0 1))
          (ofArr l.ws.length (scal l.ws.length l.momentum (if 0 < l.decay then
          axpy l.ws.length (-l.decay) (arrOf (l.ws.map Wt.w)) 1 (arrOf (l.ws.map Wt.upd)) 0 1
          else arrOf (l.ws.map Wt.upd)) 1))) }
    refine cstep_same S F rfl rfl rfl rfl rfl rfl (w3.trans ?_) (w4.trans ?_) rfl w1 w2 S.fn
    · refine map_zipWith_left _ Wt.on ?_ _ _ ?_
      · exact fun _ _ => rfl
      simp [length_ofArr]
    · simp [length_ofArr]
  · exact CStep.refl S F

theorem activate_ok {a : Int} (h0 : 0 ≤ a) (h1 : a < 11) (m : Libm K) (x : K) :
    ∃ v, activate m a x = .ok v := by
  rcases codes h0 h1 with rfl | rfl | rfl | rfl | rfl | rfl | rfl | rfl | rfl | rfl | rfl <;>
    exact ⟨_, rfl⟩

theorem gradient_ok {a : Int} (h0 : 0 ≤ a) (h1 : a < 11) (m : Libm K) (x : K) :
    ∃ v, gradient m a x = .ok v := by
  rcases codes h0 h1 with rfl | rfl | rfl | rfl | rfl | rfl | rfl | rfl | rfl | rfl | rfl <;>
    exact ⟨_, rfl⟩

theorem activateArray_ok {a : Int} (h0 : 0 ≤ a) (h1 : a < 11) (m : Libm K) : ∀ ss : List K,
    ∃ st os, activateArray m a ss = .ok (st, os) ∧ st.length = ss.length ∧ os.length = ss.length
  | [] => ⟨[], [], rfl, rfl, rfl⟩
  | s :: ss => by
    obtain ⟨v, hv⟩ := activate_ok h0 h1 m (clampK s (-100) 100)
    obtain ⟨st, os, e, l1, l2⟩ := activateArray_ok h0 h1 m ss
    exact ⟨clampK s (-100) 100 :: st, v :: os, by simp only [activateArray, hv, e],
      by simp [l1], by simp [l2]⟩

theorem gradientArray_ok {a : Int} (h0 : 0 ≤ a) (h1 : a < 11) (m : Libm K) : ∀ ss ds : List K,
    ss.length = ds.length → ∃ gs, gradientArray m a ss ds = .ok gs ∧ gs.length = ds.length
  | [], [], _ => ⟨[], rfl, rfl⟩
  | s :: ss, d :: ds, h => by
    obtain ⟨v, hv⟩ := gradient_ok h0 h1 m s
    obtain ⟨gs, e, l1⟩ := gradientArray_ok h0 h1 m ss ds (by simpa using h)
    exact ⟨d * v :: gs, by simp only [gradientArray, hv, e], by simp [l1]⟩
  | [], _ :: _, h => by simp at h
  | _ :: _, [], h => by simp at h

theorem connForward_step {B M : Nat} (m : Libm K) {l : CLay K} (S : l.Sound) (F : l.Fits B M)
    {x : List K} (hx : l.nInputs ≤ x.length) :
    ∃ l', connForward m l x = .ok l' ∧ CStep B M l l' ∧ l'.nInputs = l.nInputs := by
  unfold connForward
  rw [if_neg (by rw [S.wlen, S.nlen]; omega)]
  dsimp only
  obtain ⟨st, os, e, l1, l2⟩ := activateArray_ok S.fn.1 S.fn.2 m (ofArr l.nOutputs
    (gemm false true 1 l.nOutputs l.nInputs 1 (arrOf x) l.nInputs (arrOf (l.ws.map Wt.w))
      l.nInputs 1 (arrOf (l.ns.map Neuron.bias)) l.nOutputs))
  rw [length_ofArr] at l1 l2
  rw [e]
  refine ⟨_, rfl, cstep_same S F rfl rfl rfl rfl rfl rfl rfl ?_ rfl S.wt ?_ S.fn, rfl⟩
  · simp [l1, l2, S.nlen]
  · intro n hn
    obtain ⟨a, ha, b, hb, rfl⟩ := mem_zipWith hn
    exact S.bias a ha

theorem connBackward_step {B M : Nat} (m : Libm K) {l : CLay K} (S : l.Sound) (F : l.Fits B M)
    {x : List K} (hx : l.nInputs ≤ x.length) (d : Option (List K))
    (hd : ∀ v, d = some v → l.nInputs ≤ v.length) :
    ∃ l' d', connBackward m l x d = .ok (l', d') ∧ CStep B M l l' := by
  unfold connBackward
  rw [if_neg (by rw [S.wlen, S.nlen]; omega)]
  obtain ⟨gs, e, lg⟩ := gradientArray_ok S.fn.1 S.fn.2 m (l.ns.map Neuron.state)
    (l.ns.map Neuron.delta) (by simp)
  rw [e]
  dsimp only
  have hns : ∀ n ∈ List.zipWith (fun (x : Neuron K) d => { x with delta := d }) l.ns gs,
      -10 ≤ n.bias ∧ n.bias ≤ 10 := by
    intro n hn
    obtain ⟨a, ha, b, hb, rfl⟩ := mem_zipWith hn
    exact S.bias a ha
  have key : CStep B M l (if l.opt.sgd = true then
      { l with
        ns := List.zipWith (fun (x : Neuron K) u => { x with bupd := u })
          (List.zipWith (fun (x : Neuron K) d => { x with delta := d }) l.ns gs)
          (ofArr l.nOutputs (axpy l.nOutputs 1 (arrOf gs) 1
            (arrOf ((List.zipWith (fun (x : Neuron K) d => { x with delta := d }) l.ns gs).map
              Neuron.bupd)) 0 1))
        ws := List.zipWith (fun (x : Wt K) u => { x with upd := u }) l.ws
          (ofArr l.ws.length (gemm true false l.nOutputs l.nInputs 1 1 (arrOf gs) l.nOutputs
            (arrOf x) l.nInputs 1 (arrOf (l.ws.map Wt.upd)) l.nInputs)) }
      else { l with ns := List.zipWith (fun (x : Neuron K) d => { x with delta := d }) l.ns gs }) := by
    split
    · refine cstep_same S F rfl rfl rfl rfl rfl rfl ?_ ?_ rfl ?_ ?_ S.fn
      · refine map_zipWith_left _ Wt.on ?_ _ _ ?_
        · exact fun _ _ => rfl
        simp [length_ofArr]
      · simp [length_ofArr, lg, S.nlen]
      · intro w hw
        obtain ⟨a, ha, b, hb, rfl⟩ := mem_zipWith hw
        exact S.wt a ha
      · intro n hn
        obtain ⟨a, ha, b, hb, rfl⟩ := mem_zipWith hn
        exact hns a ha
    · refine cstep_same S F rfl rfl rfl rfl rfl rfl rfl ?_ rfl S.wt hns S.fn
      simp [lg]
  cases d with
  | none => exact ⟨_, _, rfl, key⟩
  | some v =>
    dsimp only
    rw [if_neg (not_lt.2 (hd v rfl))]
    exact ⟨_, _, rfl, key⟩

theorem setDelta_step {B M : Nat} {l : CLay K} (S : l.Sound) (F : l.Fits B M) (d : Nat → K) :
    CStep B M l (setDelta l d) := by
  refine cstep_same S F rfl rfl rfl rfl rfl rfl rfl (by simp [setDelta]) rfl S.wt ?_ S.fn
  intro n hn
  obtain ⟨i, hi, rfl⟩ := List.mem_mapIdx.1 hn
  exact S.bias l.ns[i] (List.getElem_mem hi)

theorem connLearn_step {B M : Nat} (m : Libm K) {l : CLay K} (S : l.Sound) (F : l.Fits B M)
    (x d : Nat → K) (p : Bool) : ∃ l', connLearn m l x d p = .ok l' ∧ CStep B M l l' := by
  unfold connLearn
  obtain ⟨l1, e1, c1, hi⟩ := connForward_step m S F (x := ofArr l.nInputs x)
    (by rw [length_ofArr])
  rw [e1]
  dsimp only
  have c2 := setDelta_step c1.sound c1.fits d
  obtain ⟨l3, d3, e3, c3⟩ := connBackward_step m c2.sound c2.fits (x := ofArr l.nInputs x)
    (by rw [length_ofArr]; exact hi.le) (if p then some (List.replicate l.nInputs 0) else none)
    (by
      intro v hv
      split at hv
      · cases hv; rw [List.length_replicate]; exact hi.le
      · cases hv)
  rw [e3]
  exact ⟨_, rfl, ((c1.trans c2).trans c3).trans (connUpdate_step c3.sound c3.fits)⟩


theorem roundC_bound {x : K} {n : Int} (h0 : -(n : K) ≤ x) (h1 : x ≤ (n : K)) :
    -n ≤ roundC x ∧ roundC x ≤ n := by
  have up : ∀ y : K, y ≤ (n : K) → ⌊y + 1 / 2⌋ ≤ n := by
    intro y hy
    have : ⌊y + 1 / 2⌋ < n + 1 := by
      rw [Int.floor_lt]
      push_cast
      linarith
    omega
  have dn : ∀ y : K, 0 ≤ y → 0 ≤ ⌊y + 1 / 2⌋ := by
    intro y hy
    rw [Int.floor_nonneg]
    linarith
  unfold roundC
  split
  · next h =>
    have a := up x h1
    have b := dn x h
    omega
  · next h =>
    have a := up (-x) (by linarith)
    have b := dn (-x) (by linarith)
    omega

theorem growLoop_spec (g : Rng K R) {mg n : Int} (h0 : -n ≤ mg) (h1 : mg ≤ n) :
    ∀ (fuel : Nat) (r : R), Post (growLoop g mg fuel r) (fun p => -n ≤ p.1 ∧ p.1 ≤ n ∧ p.1 ≠ 0)
      (fun e => e = .hang)
  | 0, r => rfl
  | fuel + 1, r => by
    unfold growLoop
    dsimp only
    split
    · exact growLoop_spec g h0 h1 fuel _
    · next hne =>
      obtain ⟨c0, c1⟩ := clampK_mem (g.normal 0 (1 / 2) r).1 (show (-1 : K) ≤ 1 by norm_num)
      generalize clampK (g.normal 0 (1 / 2) r).1 (-1) 1 = c at *
      have hm : |(mg : K)| ≤ (n : K) := by
        rw [abs_le]
        exact ⟨by exact_mod_cast h0, by exact_mod_cast h1⟩
      have hc : |c * (mg : K)| ≤ (n : K) := by
        rw [abs_mul]
        calc |c| * |(mg : K)| ≤ 1 * |(mg : K)| :=
              mul_le_mul_of_nonneg_right (abs_le.2 ⟨c0, c1⟩) (abs_nonneg _)
          _ ≤ n := by rw [one_mul]; exact hm
      rw [abs_le] at hc
      obtain ⟨a, b⟩ := roundC_bound hc.1 hc.2
      exact ⟨a, b, hne⟩

/-- The number of neurons to add keeps the layer between one neuron and its maximum. -/
theorem mutateNeurons_spec {B M : Nat} (g : Rng K R) (fuel : Nat) {l : CLay K} (S : l.Sound)
    (F : l.Fits B M) (hn : l.opt.neurons = true) (mu : K) (r : R) :
    Post (mutateNeurons g fuel l mu r)
      (fun p => 1 ≤ (l.nOutputs : Int) + p.1 ∧ (l.nOutputs : Int) + p.1 ≤ l.maxOutputs)
      (fun e => e = .hang) := by
  have hle := F.le hn
  have ho := S.outs
  have hc := F.cur
  have hb := F.big
  unfold mutateNeurons
  dsimp only
  split
  · have hg := growLoop_spec g (F.grow hn).1 (F.grow hn).2 fuel (g.uni 0 (1 / 10) r).2
    cases e : growLoop g l.maxGrow fuel (g.uni 0 (1 / 10) r).2 with
    | error f => rw [e] at hg; exact hg
    | ok p =>
      rw [e] at hg
      obtain ⟨g0, g1, _⟩ := hg
      obtain ⟨n, r'⟩ := p
      simp only at g0 g1
      dsimp only
      have hov : overflows ((l.nOutputs : Int) + n) = false := by
        unfold overflows
        rw [decide_eq_false_iff_not]
        omega
      rw [hov, if_neg (by simp)]
      split
      · show 1 ≤ (l.nOutputs : Int) + -((l.nOutputs : Int) - 1) ∧ _
        constructor
        · omega
        · show (l.nOutputs : Int) + -((l.nOutputs : Int) - 1) ≤ _
          omega
      · split
        · show 1 ≤ (l.nOutputs : Int) + (l.maxOutputs - (l.nOutputs : Int)) ∧
            (l.nOutputs : Int) + (l.maxOutputs - (l.nOutputs : Int)) ≤ _
          omega
        · show 1 ≤ (l.nOutputs : Int) + n ∧ (l.nOutputs : Int) + n ≤ _
          omega
  · show 1 ≤ (l.nOutputs : Int) + 0 ∧ (l.nOutputs : Int) + 0 ≤ _
    omega

theorem addNeurons_step {B M : Nat} (hM : M < 2147483648) {g : Rng K R} (Bd : g.Bounded)
    {l : CLay K} (S : l.Sound) (F : l.Fits B M) (hn : l.opt.neurons = true) {n : Int}
    (h0 : 1 ≤ (l.nOutputs : Int) + n) (h1 : (l.nOutputs : Int) + n ≤ l.maxOutputs) (r : R) :
    Post (addNeurons g l n r) (fun p => CStep B M l p.1) (CFault M l.opt.neurons) := by
  obtain ⟨no, hno⟩ : ∃ no : Nat, (l.nOutputs : Int) + n = (no : Int) :=
    ⟨((l.nOutputs : Int) + n).toNat, by omega⟩
  have hmax := F.max
  have hbig := F.big
  have hnoB : no ≤ B := by omega
  have hprod : no * l.nInputs ≤ M := le_trans (Nat.mul_le_mul_right _ hnoB) F.prod
  have hin := S.ins
  have hpos : 1 ≤ no * l.nInputs := Nat.mul_pos (by omega) hin
  unfold addNeurons
  simp only [hno]
  have hov : (overflows (no : Int) || overflows ((no : Int) * (l.nInputs : Int))) = false := by
    have : ((no * l.nInputs : Nat) : Int) < 2147483648 := by omega
    push_cast at this
    unfold overflows
    rw [Bool.or_eq_false_iff, decide_eq_false_iff_not, decide_eq_false_iff_not]
    refine ⟨by omega, ?_⟩
    have h2 : (0 : Int) ≤ (no : Int) * (l.nInputs : Int) := by positivity
    omega
  rw [hov, if_neg (by simp)]
  have hgo : guardOutputs (no : Int) = .ok () := by
    unfold guardOutputs
    rw [if_neg (by omega)]
  rw [hgo]
  dsimp only
  unfold guardWeights
  have hcast : (no : Int) * (l.nInputs : Int) = ((no * l.nInputs : Nat) : Int) := by push_cast; rfl
  rw [hcast]
  by_cases hbigw : 20000000 < no * l.nInputs
  · rw [if_pos (by omega)]
    exact Or.inl ⟨rfl, by omega⟩
  · rw [if_neg (by omega)]
    dsimp only
    simp only [Int.toNat_natCast]
    obtain ⟨d1, d2⟩ := drawN_spec (newWt_ok Bd l.opt.connect) (no * l.nInputs - l.ws.length) r
    refine ⟨⟨hin, by show 1 ≤ no; omega, ?_, ?_, ?_, ?_, ?_, S.mu, S.fn⟩,
      ⟨hnoB, hmax, fun _ => by show (no : Int) ≤ l.maxOutputs; omega, F.prod, F.grow, F.big⟩,
      rfl, fun h => by rw [hn] at h; cases h⟩
    · simp only [List.length_append, List.length_take, d1]
      omega
    · simp only [List.length_append, List.length_take, List.length_replicate]
      omega
    · intro w hw
      rcases List.mem_append.1 hw with hw | hw
      · exact S.wt w (List.mem_of_mem_take hw)
      · exact d2 w hw
    · intro v hv
      rcases List.mem_append.1 hv with hv | hv
      · exact S.bias v (List.mem_of_mem_take hv)
      · rw [(List.mem_replicate.1 hv).2]
        exact ⟨by norm_num, by norm_num⟩
    · exact calcActive_eq _

theorem connMutNeurons_step {B M : Nat} (hM : M < 2147483648) {g : Rng K R} (Bd : g.Bounded)
    (fuel : Nat) {l : CLay K} (S : l.Sound) (F : l.Fits B M) (mu : K) (r : R) :
    Post (connMutNeurons g fuel l mu r) (fun p => CStep B M l p.1.1) (CFault M l.opt.neurons) := by
  unfold connMutNeurons
  split
  · next hn =>
    have h := mutateNeurons_spec g fuel S F hn mu r
    cases e : mutateNeurons g fuel l mu r with
    | error f =>
      rw [e] at h
      exact Or.inr ⟨h, hn⟩
    | ok p =>
      rw [e] at h
      obtain ⟨n, r'⟩ := p
      dsimp only
      split
      · exact CStep.refl S F
      · have h2 := addNeurons_step hM Bd S F hn h.1 h.2 r'
        cases e2 : addNeurons g l n r' with
        | error f => rw [e2] at h2; exact h2
        | ok q => rw [e2] at h2; exact h2
  · exact CStep.refl S F

theorem mutateConn_step {B M : Nat} {g : Rng K R} (Bd : g.Bounded) {l : CLay K} (S : l.Sound)
    (F : l.Fits B M) (muE muD : K) (r : R) :
    (mutateConn g l muE muD r).1.1.Sound ∧ (mutateConn g l muE muD r).1.1.Fits B M ∧
    (mutateConn g l muE muD r).1.1.opt = l.opt ∧
    ((mutateConn g l muE muD r).1.2 = false →
      (mutateConn g l muE muD r).1.1.ws = l.ws ∧
      (mutateConn g l muE muD r).1.1.nInputs = l.nInputs ∧
      (mutateConn g l muE muD r).1.1.nOutputs = l.nOutputs) := by
  unfold mutateConn
  split
  · obtain ⟨c1, c2, c3, c4⟩ := connGo_spec Bd muE muD l.ws r S.wt
    dsimp only
    refine ⟨⟨S.ins, S.outs, c1.trans S.wlen, S.nlen, c2, S.bias, ?_, S.mu, S.fn⟩,
      ⟨F.cur, F.max, F.le, F.prod, F.grow, F.big⟩, rfl, fun hf => ⟨c4 hf, rfl, rfl⟩⟩
    rw [← calcActive_eq, c3, calcActive_eq, S.active]
  · exact ⟨S, F, rfl, fun _ => ⟨rfl, rfl, rfl⟩⟩

/-- The connectivity step; if anything changed, everything is represented. -/
theorem connMutConn_step {B M : Nat} {g : Rng K R} (O : g.Open) (Bd : g.Bounded) {fuel : Nat}
    (hf : 1 ≤ fuel) {l : CLay K} (S : l.Sound) (F : l.Fits B M) (muE muD : K) (r : R) :
    ∃ l' b r', connMutConn g fuel l muE muD r = .ok ((l', b), r') ∧ CStep B M l l' ∧
      (b = true → l'.Represented) := by
  unfold connMutConn
  split
  · next hc =>
    obtain ⟨m1, m2, m3, m4⟩ := mutateConn_step Bd S F muE muD r
    dsimp only
    generalize mutateConn g l muE muD r = q at *
    obtain ⟨⟨l1, b⟩, r1⟩ := q
    simp only at m1 m2 m3 m4
    dsimp only
    cases b with
    | true =>
      obtain ⟨ws, na, r', e, s1, s2⟩ := ensureInput_spec O Bd hf m1 r1
      rw [if_pos rfl, e]
      refine ⟨_, true, r', rfl, ⟨s1, ⟨m2.cur, m2.max, m2.le, m2.prod, m2.grow, m2.big⟩, m3,
        fun _ _ => ⟨s2, fun hf => ?_⟩⟩, fun _ => s2⟩
      have : l1.opt.connect = false := hf
      rw [m3, hc] at this
      cases this
    | false =>
      rw [if_neg (by simp)]
      obtain ⟨k1, k2, k3⟩ := m4 rfl
      exact ⟨l1, false, r1, rfl, ⟨m1, m2, m3, fun _ h => rep_of_on k2 k3 m3 (by rw [k1]) h⟩,
        by simp⟩
  · exact ⟨l, false, r, rfl, CStep.refl S F, by simp⟩

theorem connMutate_step {B M : Nat} (hM : M < 2147483648) {g : Rng K R} (O : g.Open)
    (Bd : g.Bounded) {fuel : Nat} (hf : 1 ≤ fuel) {l : CLay K} (S : l.Sound) (F : l.Fits B M)
    (r : R) :
    Post (connMutate g fuel l r) (fun p => CStep B M l p.1.1) (CFault M l.opt.neurons) := by
  unfold connMutate
  obtain ⟨vs, r1, e, hl, hv⟩ := C44_adapt O (List.zip connMu l.mu) r
    (fun m hm => Or.inr (S.mu.2 m.2 (List.of_mem_zip hm).2))
  rw [List.length_zip, S.mu.1] at hl
  have hl : vs.length = 6 := hl
  rw [e]
  match vs, hl, hv with
  | [m0, m1, m2, m3, m4, m5], _, hv =>
    dsimp only
    have c0 : CStep B M l { l with mu := [m0, m1, m2, m3, m4, m5] } :=
      ⟨⟨S.ins, S.outs, S.wlen, S.nlen, S.wt, S.bias, S.active, ⟨rfl, hv⟩, S.fn⟩,
        ⟨F.cur, F.max, F.le, F.prod, F.grow, F.big⟩, rfl,
        fun _ h => rep_of_on (l := l) rfl rfl rfl rfl h⟩
    generalize ({ l with mu := [m0, m1, m2, m3, m4, m5] } : CLay K) = l0 at c0 ⊢
    have c1 : CStep B M l0 (connMutEta g l0 m0 r1).1.1 := by
      unfold connMutEta
      split
      · exact mutateEta_step g c0.sound c0.fits m0 r1
      · exact CStep.refl c0.sound c0.fits
    generalize connMutEta g l0 m0 r1 = a at c1 ⊢
    have c01 := c0.trans c1
    have h2 := connMutNeurons_step hM Bd fuel c1.sound c1.fits m1 a.2
    cases e2 : connMutNeurons g fuel a.1.1 m1 a.2 with
    | error f =>
      rw [e2, c01.opt] at h2
      exact h2
    | ok q =>
      rw [e2] at h2
      obtain ⟨⟨l2, b1⟩, r2⟩ := q
      have h2 : CStep B M a.1.1 l2 := h2
      obtain ⟨l3, b2, r3, e3, c3, _⟩ := connMutConn_step O Bd hf h2.sound h2.fits m2 m3 r2
      dsimp only
      rw [e3]
      dsimp only
      have c4 : CStep B M l3 (connMutWeights g l3 m4 r3).1.1 := by
        unfold connMutWeights
        split
        · exact mutateWeights_step g c3.sound c3.fits m4 r3
        · exact CStep.refl c3.sound c3.fits
      generalize connMutWeights g l3 m4 r3 = c at c4 ⊢
      have c5 : CStep B M c.1.1 (connMutFn g c.1.1 m5 c.2).1.1 := by
        unfold connMutFn
        split
        · exact mutateFn_step O c4.sound c4.fits m5 c.2
        · exact CStep.refl c4.sound c4.fits
      exact (((c01.trans h2).trans c3).trans c4).trans c5

theorem resizeRows_spec {g : Rng K R} (Bd : g.Bounded) (nIn prev : Nat) :
    ∀ (n : Nat) (ws : List (Wt K)) (r : R), n * nIn ≤ ws.length → (∀ w ∈ ws, WtOk w) →
    (resizeRows g nIn prev n ws r).1.length = n * prev ∧
    (∀ w ∈ (resizeRows g nIn prev n ws r).1, WtOk w) ∧
    ((∀ w ∈ ws, w.on = true) → ∀ w ∈ (resizeRows g nIn prev n ws r).1, w.on = true)
  | 0, ws, r, _, _ => by simp [resizeRows]
  | n + 1, ws, r, hl, hw => by
    have hrow : nIn + n * nIn ≤ ws.length := by
      have : (n + 1) * nIn = nIn + n * nIn := by ring
      omega
    have hfr : ∀ r, WtOk (freshWt g r).1 ∧ (freshWt g r).1.on = true := fun r =>
      ⟨wtOk_on Bd r 0, rfl⟩
    obtain ⟨d1, d2⟩ := drawN_spec (P := fun w : Wt K => WtOk w ∧ w.on = true) hfr (prev - nIn) r
    obtain ⟨i1, i2, i3⟩ := resizeRows_spec Bd nIn prev n (ws.drop nIn)
      (drawN (freshWt g) (prev - nIn) r).2 (by rw [List.length_drop]; omega)
      (fun w h => hw w (List.mem_of_mem_drop h))
    unfold resizeRows
    dsimp only
    refine ⟨?_, ?_, ?_⟩
    · simp only [List.length_append, List.length_take, d1, i1]
      have : (n + 1) * prev = prev + n * prev := by ring
      omega
    · intro w h
      rcases List.mem_append.1 h with h | h
      · rcases List.mem_append.1 h with h | h
        · exact hw w (List.mem_of_mem_take h)
        · exact (d2 w h).1
      · exact i2 w h
    · intro hon w h
      rcases List.mem_append.1 h with h | h
      · rcases List.mem_append.1 h with h | h
        · exact hon w (List.mem_of_mem_take h)
        · exact (d2 w h).2
      · exact i3 (fun v hv => hon v (List.mem_of_mem_drop hv)) w h

theorem connResize_step {B M : Nat} (hM : M < 2147483648) {g : Rng K R} (O : g.Open)
    (Bd : g.Bounded) {fuel : Nat} (hf : 1 ≤ fuel) {l : CLay K} (S : l.Sound) (F : l.Fits B M)
    {prev : Nat} (hp : 1 ≤ prev) (hpM : B * prev ≤ M) (r : R) :
    Post (connResize g fuel l prev r) (fun p => CStep B M l p.1 ∧ p.1.nInputs = prev)
      (CFault M l.opt.neurons) := by
  have hprod : prev * l.nOutputs ≤ M := by
    rw [Nat.mul_comm]; exact le_trans (Nat.mul_le_mul_right _ F.cur) hpM
  have hpos : 1 ≤ prev * l.nOutputs := Nat.mul_pos hp S.outs
  unfold connResize
  have hcast : (prev : Int) * (l.nOutputs : Int) = ((prev * l.nOutputs : Nat) : Int) := by
    push_cast; rfl
  rw [hcast]
  have hov : overflows ((prev * l.nOutputs : Nat) : Int) = false := by
    unfold overflows
    rw [decide_eq_false_iff_not]
    omega
  rw [hov, if_neg (by simp)]
  unfold guardWeights
  by_cases hbigw : 20000000 < prev * l.nOutputs
  · rw [if_pos (by omega)]
    exact Or.inl ⟨rfl, by omega⟩
  · rw [if_neg (by omega)]
    dsimp only
    rw [if_neg (by rw [S.wlen]; omega)]
    obtain ⟨q1, q2, q3⟩ := resizeRows_spec Bd l.nInputs prev l.nOutputs l.ws r
      (by rw [S.wlen]) S.wt
    have hs : CLay.Sound { l with
        ws := (resizeRows g l.nInputs prev l.nOutputs l.ws r).1, nInputs := prev,
        nActive := calcActive (resizeRows g l.nInputs prev l.nOutputs l.ws r).1 } :=
      ⟨hp, S.outs, q1, S.nlen, q2, S.bias, calcActive_eq _, S.mu, S.fn⟩
    have hfit : CLay.Fits B M { l with
        ws := (resizeRows g l.nInputs prev l.nOutputs l.ws r).1, nInputs := prev,
        nActive := calcActive (resizeRows g l.nInputs prev l.nOutputs l.ws r).1 } :=
      ⟨F.cur, F.max, F.le, hpM, F.grow, F.big⟩
    split
    · next hc =>
      obtain ⟨ws, na, r', e, s1, s2⟩ := ensureInput_spec O Bd hf hs
        (resizeRows g l.nInputs prev l.nOutputs l.ws r).2
      rw [e]
      refine ⟨⟨s1, ⟨F.cur, F.max, F.le, hpM, F.grow, F.big⟩, rfl, fun _ _ => ⟨s2, fun h => ?_⟩⟩,
        rfl⟩
      have h : l.opt.connect = false := h
      rw [hc] at h
      cases h
    · next hc =>
      refine ⟨⟨hs, hfit, rfl, fun _ h => ?_⟩, rfl⟩
      exact full_rep hp S.outs q1 (q3 (h.full (by simpa using hc)))

theorem cstep_step {B M : Nat} (hM : M < 2147483648) {g : Rng K R} (O : g.Open)
    (Bd : g.Bounded) (m : Libm K) {fuel : Nat} (hf : 1 ≤ fuel) {l : CLay K} (S : l.Sound)
    (F : l.Fits B M) (r : R) (o : COp K) (ho : o.fits B M) :
    Post (cstep g m fuel l r o) (fun p => CStep B M l p.1) (CFault M l.opt.neurons) := by
  cases o with
  | mutate =>
    have h := connMutate_step hM O Bd hf S F r
    unfold cstep
    cases e : connMutate g fuel l r with
    | error f => rw [e] at h; exact h
    | ok p => rw [e] at h; exact h
  | resize prev => exact post_mono (connResize_step hM O Bd hf S F ho.1 ho.2 r) fun _ h => h.1
  | learn x d p =>
    obtain ⟨l', e, c⟩ := connLearn_step m S F x d p
    simp only [cstep, e]
    exact c
  | forward x =>
    obtain ⟨l', e, c, _⟩ := connForward_step m S F (x := ofArr l.nInputs x) (by rw [length_ofArr])
    simp only [cstep, e]
    exact c
  | rand => exact weightRand_step Bd S F r
  | copy => exact connCopy_step S F

theorem crun_step {B M : Nat} (hM : M < 2147483648) {g : Rng K R} (O : g.Open)
    (Bd : g.Bounded) (m : Libm K) {fuel : Nat} (hf : 1 ≤ fuel) : ∀ (os : List (COp K)) {l : CLay K},
    l.Sound → l.Fits B M → ∀ r : R, (∀ o ∈ os, o.fits B M) →
    Post (crun g m fuel os l r) (fun p => CStep B M l p.1) (CFault M l.opt.neurons)
  | [], l, S, F, r, _ => CStep.refl S F
  | o :: os, l, S, F, r, ho => by
    have h := cstep_step hM O Bd m hf S F r o (ho o List.mem_cons_self)
    unfold crun
    cases e : cstep g m fuel l r o with
    | error f => rw [e] at h; exact h
    | ok p =>
      rw [e] at h
      have h : CStep B M l p.1 := h
      have h2 := crun_step hM O Bd m hf os h.sound h.fits p.2
        (fun o' h' => ho o' (List.mem_cons_of_mem _ h'))
      rw [h.opt] at h2
      exact post_mono h2 fun _ q => h.trans q

theorem connInit_step {B M : Nat} (hM : M < 2147483648) {g : Rng K R} (O : g.Open)
    (Bd : g.Bounded) {a : CArgs K} (A : a.Fits B M) (r : R) :
    Post (connInit g a r) (fun p => p.1.Sound ∧ p.1.Fits B M ∧ p.1.opt = a.opt ∧ p.1.Rep)
      (CFault M a.opt.neurons) := by
  have hprod : a.nInputs * a.nInit ≤ M := by
    rw [Nat.mul_comm]; exact le_trans (Nat.mul_le_mul_right _ A.cur) A.prod
  have hpos : 1 ≤ a.nInputs * a.nInit := Nat.mul_pos A.ins A.init
  have h1 := A.init
  have h2 := A.cur
  have h3 := A.big
  unfold connInit
  dsimp only
  have hcast : (a.nInputs : Int) * (a.nInit : Int) = ((a.nInputs * a.nInit : Nat) : Int) := by
    push_cast; rfl
  rw [hcast]
  have hov : overflows ((a.nInputs * a.nInit : Nat) : Int) = false := by
    unfold overflows
    rw [decide_eq_false_iff_not]
    omega
  rw [hov, if_neg (by simp)]
  unfold guardOutputs
  rw [if_neg (by omega)]
  dsimp only
  unfold guardWeights
  by_cases hbigw : 20000000 < a.nInputs * a.nInit
  · rw [if_pos (by omega)]
    exact Or.inl ⟨rfl, by omega⟩
  · rw [if_neg (by omega)]
    dsimp only
    obtain ⟨d1, d2⟩ := drawN_spec (P := fun v => -10 ≤ v ∧ v ≤ 10) (normal_tenth Bd)
      (a.nInputs * a.nInit) (initEta g a.opt a.etaMin a.eta r).2
    obtain ⟨mu, r', e, hl, hv⟩ := C44_init O connMu (drawN (g.normal 0 (1 / 10))
      (a.nInputs * a.nInit) (initEta g a.opt a.etaMin a.eta r).2).2
    rw [e]
    dsimp only
    have hon : ∀ w ∈ (drawN (g.normal 0 (1 / 10)) (a.nInputs * a.nInit)
        (initEta g a.opt a.etaMin a.eta r).2).1.map (fun v => (⟨v, 0, true⟩ : Wt K)),
        w.on = true ∧ WtOk w := by
      intro w hw
      obtain ⟨v, hv, rfl⟩ := List.mem_map.1 hw
      exact ⟨rfl, (d2 v hv).1, (d2 v hv).2, by simp⟩
    have hlen : ((drawN (g.normal 0 (1 / 10)) (a.nInputs * a.nInit)
        (initEta g a.opt a.etaMin a.eta r).2).1.map (fun v => (⟨v, 0, true⟩ : Wt K))).length =
        a.nInit * a.nInputs := by
      rw [List.length_map, d1, Nat.mul_comm]
    refine ⟨⟨A.ins, A.init, hlen, by simp, fun w h => (hon w h).2, ?_, ?_, ⟨hl, hv⟩, A.fn⟩,
      ⟨A.cur, A.max, fun _ => A.le, A.prod, A.grow, A.big⟩, rfl,
      full_rep A.ins A.init hlen fun w h => (hon w h).1⟩
    · intro n hn
      rw [(List.mem_replicate.1 hn).2]
      exact ⟨by norm_num, by norm_num⟩
    · rw [active_full (fun w h => (hon w h).1), hlen, Nat.mul_comm]

end Xcsf
