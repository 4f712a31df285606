import Verif.NRecLemmas

/-!
# Helper lemmas: histories of recurrent and LSTM layers
-/

set_option linter.unusedSectionVars false

namespace Xcsf
variable {K R : Type} [Field K] [LinearOrder K] [IsStrictOrderedRing K] [FloorRing K]

theorem readAll_ok : ∀ {xs : List (Option K)}, (∀ v ∈ xs, v ≠ none) →
    ∃ vs, readAll xs = .ok vs ∧ vs.length = xs.length
  | [], _ => ⟨[], rfl, rfl⟩
  | none :: xs, h => absurd rfl (h none List.mem_cons_self)
  | some v :: xs, h => by
    obtain ⟨vs, e, hl⟩ := readAll_ok (xs := xs) fun w hw => h w (List.mem_cons_of_mem _ hw)
    refine ⟨v :: vs, ?_, by simp [hl]⟩
    unfold readAll at e ⊢
    rw [List.mapM_cons, e]
    rfl

theorem readAll_some (xs : List K) : readAll (xs.map some) = .ok xs := by
  induction xs with
  | nil => rfl
  | cons x xs ih =>
    unfold readAll at ih ⊢
    rw [List.map_cons, List.mapM_cons, ih]
    rfl

/-- One step of a recurrent layer: it stays legal, keeps its options and (`c`) reports the right
number of active connections if it did before. -/
structure RStep (B M : Nat) (c : Bool) (l l' : RLay K) : Prop where
  legal : l'.Legal B M
  opt : l'.opt = l.opt
  count : c = true → l.Counted → l'.Counted

theorem RStep.refl {B M : Nat} (c : Bool) {l : RLay K} (L : l.Legal B M) : RStep B M c l l :=
  ⟨L, rfl, fun _ h => h⟩

theorem RStep.trans {B M : Nat} {c : Bool} {l l' l'' : RLay K} (h1 : RStep B M c l l')
    (h2 : RStep B M c l' l'') : RStep B M c l l'' :=
  ⟨h2.legal, h2.opt.trans h1.opt, fun hc h => h2.count hc (h1.count hc h)⟩

theorem recActive_counted {B M n1 n2 n3 k1 k2 k3 : Nat} {x1 x2 x3 : Int} {o1 o2 o3 : LOpt}
    {l : RLay K} (P1 : Part B M n1 k1 x1 o1 l.inp) (P2 : Part B M n2 k2 x2 o2 l.self)
    (P3 : Part B M n3 k3 x3 o3 l.out) : (recActive l).Counted := by
  show l.inp.nActive + l.self.nActive + l.out.nActive = _
  rw [P1.count, P2.count, P3.count]
  push_cast
  rfl

theorem counted_same {l l' : RLay K} (h0 : l'.nActive = l.nActive)
    (h1 : l'.inp.active = l.inp.active) (h2 : l'.self.active = l.self.active)
    (h3 : l'.out.active = l.out.active) (h : l.Counted) : l'.Counted := by
  unfold RLay.Counted at h ⊢
  rw [h0, h1, h2, h3, h]

theorem active_ws {c c' : CLay K} (h : c'.ws = c.ws) : c'.active = c.active := by
  unfold CLay.active
  rw [h]

theorem addArr_length (n : Nat) (x y : List K) : (addArr n x y).length = n := by
  simp [addArr, length_ofArr]

theorem mulArr_length (n : Nat) (x y : List K) : (mulArr n x y).length = n := by
  simp [mulArr, length_ofArr]

theorem recForward_step {B M : Nat} (m : Libm K) {l : RLay K} (L : l.Legal B M) {x : List K}
    (hx : l.nInputs ≤ x.length) :
    ∃ l', recForward m l x = .ok l' ∧ RStep B M true l l' ∧ l'.nInputs = l.nInputs ∧
      ∃ vs : List K, l'.state = vs.map some := by
  obtain ⟨i, e1, P1, w1, a1⟩ := L.inp.forward m hx
  obtain ⟨s, e2, P2, w2, a2⟩ := L.self.forward m (x := l.out.outs) (by rw [L.out.outs_len])
  obtain ⟨o, e3, P3, w3, a3⟩ := L.out.forward m (x := addArr l.nOutputs s.outs i.outs)
    (by rw [addArr_length])
  have hst : l.state.drop l.nOutputs = [] := List.drop_eq_nil_of_le L.state.le
  have hpv : l.prev.drop l.nOutputs = [] := List.drop_eq_nil_of_le L.prev.le
  have hpt : l.state.take l.nOutputs = l.state := List.take_of_length_le L.state.le
  refine ⟨{ l with
    prev := l.state,
    state := (addArr l.nOutputs s.outs i.outs).map some, inp := i, self := s, out := o },
    ?_, ⟨⟨P1, P2, P3, ?_, L.state, ?_, L.mu, L.fn, L.wide⟩, rfl, ?_⟩, rfl, _, rfl⟩
  · unfold recForward
    rw [if_neg (by rw [L.state, L.prev]; omega)]
    simp only [bind, Except.bind, e1, e2]
    rw [if_neg (by rw [P1.ns_len, P2.ns_len]; omega)]
    simp only [e3, hst, hpv, hpt, List.append_nil]
  · simp [addArr_length]
  · intro hn
    exact ⟨fun v hv => by obtain ⟨w, _, rfl⟩ := List.mem_map.1 hv; simp, (L.known hn).1⟩
  · exact fun _ h => counted_same (l := l) rfl (active_ws w1) (active_ws w2) (active_ws w3) h

theorem zeroDelta_part {B M nIn nOut : Nat} {mx : Int} {o : LOpt} {c : CLay K}
    (P : Part B M nIn nOut mx o c) (n : Nat) : Part B M nIn nOut mx o (zeroDelta n c) :=
  P.withDelta (by
    have := P.deltas_len
    rw [List.length_append, List.length_replicate, List.length_drop, this]
    omega)

theorem recBackward_step {B M : Nat} (m : Libm K) {l : RLay K} (L : l.Legal B M)
    (hk : l.opt.sgd = false ∨ (∀ v ∈ l.state, v ≠ none) ∧ ∀ v ∈ l.prev, v ≠ none) {x : List K}
    (hx : l.nInputs ≤ x.length) (d : Option (List K)) (hd : ∀ v, d = some v → l.nInputs ≤ v.length) :
    ∃ l' d', recBackward m l x d = .ok (l', d') ∧ RStep B M true l l' ∧
      (l'.nInputs = l.nInputs ∧ l'.state = l.state ∧ l'.prev = l.prev ∧
        l'.nOutputs = l.nOutputs ∧ l'.outW = l.outW) ∧
      d'.map List.length = d.map List.length := by
  have hread : ∀ (xs : List (Option K)) (b : Bool), xs.length = l.nOutputs →
      (l.opt.sgd = false ∨ ∀ v ∈ xs, v ≠ none) → b = l.opt.sgd →
      ∃ vs, readIf b xs = .ok vs ∧
        vs.length = l.nOutputs := by
    intro xs b hl hw hb
    rcases hw with h | h
    · rw [hb, h]
      exact ⟨_, rfl, by simp [hl]⟩
    · obtain ⟨vs, e, hl'⟩ := readAll_ok h
      unfold readIf
      split
      · exact ⟨vs, e, hl'.trans hl⟩
      · exact ⟨_, rfl, by simp [hl]⟩
  have Pi := zeroDelta_part L.inp l.nOutputs
  have Ps := zeroDelta_part L.self l.nOutputs
  obtain ⟨st, e1, l1⟩ := hread l.state l.out.opt.sgd L.state
    (hk.imp id (·.1)) (by rw [L.out.opt])
  obtain ⟨o, e, e2, Po, wo, ao, ho⟩ := L.out.backward m (x := st) (by rw [l1])
    (some (zeroDelta l.nOutputs l.self).deltas)
    (by intro v hv; cases hv; rw [Ps.deltas_len])
  obtain ⟨ev, rfl⟩ : ∃ ev, e = some ev := by
    cases e with
    | none => simp at ho
    | some ev => exact ⟨ev, rfl⟩
  have hev : ev.length = l.nOutputs := by
    simp only [Option.map_some, Option.some.injEq] at ho
    rw [ho, Ps.deltas_len]
  have Ps' := Ps.withDelta (d := ev) (by rw [hev])
  have Pi' := Pi.withDelta (d := ((zeroDelta l.nOutputs l.self).withDelta ev).deltas.take l.nOutputs ++
    (zeroDelta l.nOutputs l.inp).deltas.drop l.nOutputs) (by
      rw [List.length_append, List.length_take, Ps'.deltas_len]; omega)
  obtain ⟨pv, e3, l3⟩ := hread l.prev ((zeroDelta l.nOutputs l.self).withDelta ev).opt.sgd L.prev
    (hk.imp id (·.2)) (by rw [Ps'.opt])
  obtain ⟨s, ds, e4, P4, w4, a4, h4⟩ := Ps'.backward m (x := pv) (by rw [l3]) none
    (by intro v hv; cases hv)
  obtain ⟨i, d', e5, P5, w5, a5, h5⟩ := Pi'.backward m hx d hd
  refine ⟨{ l with inp := i, self := s, out := o }, d', ?_,
    ⟨⟨P5, P4, Po, L.state, L.prev, L.known, L.mu, L.fn, L.wide⟩, rfl, fun _ h => ?_⟩,
    ⟨rfl, rfl, rfl, rfl, rfl⟩, h5⟩
  · unfold recBackward
    rw [if_neg (by rw [L.inp.ns_len, L.self.ns_len]; omega)]
    simp only [bind, Except.bind]
    rw [e1]
    dsimp only
    rw [e2]
    dsimp only
    rw [e3]
    dsimp only
    rw [e4]
    dsimp only
    rw [e5]
  · exact counted_same (l := l) rfl w5 w4 wo h

theorem recDelta_step {B M : Nat} {l : RLay K} (L : l.Legal B M) (d : Nat → K) :
    RStep B M true l (recDelta l d) :=
  ⟨⟨L.inp, L.self, L.out.setDelta d, L.state, L.prev, L.known, L.mu, L.fn, L.wide⟩, rfl,
    fun _ h => h⟩

theorem recUpdate_step {B M : Nat} {l : RLay K} (L : l.Legal B M) :
    RStep B M true l (recUpdate l) := by
  unfold recUpdate
  split
  · obtain ⟨p1, w1, _⟩ := L.inp.update
    obtain ⟨p2, w2, _⟩ := L.self.update
    obtain ⟨p3, w3, _⟩ := L.out.update
    exact ⟨⟨p1, p2, p3, L.state, L.prev, L.known, L.mu, L.fn, L.wide⟩, rfl,
      fun _ h => counted_same (l := l) rfl w1 w2 w3 h⟩
  · exact RStep.refl _ L

theorem recLearn_step {B M : Nat} (m : Libm K) {l : RLay K} (L : l.Legal B M)
    (hk : l.opt.sgd = false ∨ l.opt.neurons = false) (x d : Nat → K) (p : Bool) :
    ∃ l', recLearn m l x d p = .ok l' ∧ RStep B M true l l' := by
  obtain ⟨l1, e1, c1, n1, _⟩ := recForward_step m L (x := ofArr l.nInputs x) (by rw [length_ofArr])
  have c2 := recDelta_step c1.legal d
  have hk2 : (recDelta l1 d).opt.sgd = false ∨ (∀ v ∈ (recDelta l1 d).state, v ≠ none) ∧
      ∀ v ∈ (recDelta l1 d).prev, v ≠ none := by
    rcases hk with h | h
    · exact .inl (by rw [c2.opt, c1.opt]; exact h)
    · exact .inr (c2.legal.known (by rw [c2.opt, c1.opt]; exact h))
  obtain ⟨l3, d3, e3, c3, _, _⟩ := recBackward_step m c2.legal hk2 (x := ofArr l.nInputs x)
    (by rw [length_ofArr]; exact n1.le)
    (if p then some (List.replicate l.nInputs 0) else none) (by
      intro v hv
      split at hv
      · cases hv; rw [List.length_replicate]; exact n1.le
      · cases hv)
  have c4 := recUpdate_step c3.legal
  refine ⟨_, ?_, ((c1.trans c2).trans c3).trans c4⟩
  unfold recLearn
  rw [e1]
  show (recBackward m (recDelta l1 d) _ _ >>= _) = _
  rw [e3]
  rfl

theorem guardOutputs_in {n : Nat} (h0 : 1 ≤ n) (h1 : n ≤ 2000000) :
    guardOutputs (n : Int) = .ok () := by
  unfold guardOutputs
  rw [if_neg (by omega)]

theorem Part.outs_pos {B M nIn nOut : Nat} {mx : Int} {o : LOpt} {c : CLay K}
    (P : Part B M nIn nOut mx o c) : 1 ≤ nOut ∧ nOut ≤ 2000000 ∧ nOut ≤ B := by
  have h1 := P.sound.outs
  have h2 := P.fits.cur
  have h3 := P.fits.big
  rw [P.outs] at h1 h2
  exact ⟨h1, by omega, h2⟩

theorem recCopy_step {B M : Nat} {l : RLay K} (L : l.Legal B M) :
    ∃ l', recCopy l = .ok l' ∧ RStep B M true l l' := by
  obtain ⟨h1, h2, _⟩ := L.out.outs_pos
  obtain ⟨p1, w1, _⟩ := L.inp.copy
  obtain ⟨p2, w2, _⟩ := L.self.copy
  obtain ⟨p3, w3, _⟩ := L.out.copy
  refine ⟨{ l with
      etaMax := 0, etaMin := 0,
      state := List.replicate l.nOutputs (some 0), prev := l.prev.take l.nOutputs,
      inp := connCopy l.inp, self := connCopy l.self, out := connCopy l.out },
    ?_, ⟨⟨p1, p2, p3, by simp, ?_, ?_, L.mu, L.fn, L.wide⟩, rfl,
      fun _ h => counted_same (l := l) rfl w1 w2 w3 h⟩⟩
  · unfold recCopy
    rw [if_neg (by rw [L.prev]; omega), guardOutputs_in h1 h2]
  · show (l.prev.take l.nOutputs).length = l.nOutputs
    rw [List.length_take, L.prev, min_self]
  · intro hn
    refine ⟨fun v hv => ?_, fun v hv => (L.known hn).2 v (List.mem_of_mem_take hv)⟩
    rw [(List.mem_replicate.1 hv).2]
    simp

theorem recRand_step {B M : Nat} {g : Rng K R} (Bd : g.Bounded) {l : RLay K} (L : l.Legal B M)
    (r : R) : RStep B M false l (recRand g l r).1 :=
  ⟨⟨L.inp.rand Bd _, L.self.rand Bd _, L.out.rand Bd _, L.state, L.prev, L.known, L.mu, L.fn,
    L.wide⟩, rfl, fun h => by cases h⟩

theorem recResize_step {B M : Nat} (hM : M < 2147483648) {g : Rng K R} (O : g.Open)
    (Bd : g.Bounded) {fuel : Nat} (hf : 1 ≤ fuel) {l : RLay K} (L : l.Legal B M) {prev : Nat}
    (hp : 1 ≤ prev) (hpM : B * prev ≤ M) (r : R) :
    Post (recResize g fuel l prev r) (fun p => RStep B M true l p.1 ∧ p.1.nInputs = prev ∧
      p.1.nOutputs = l.nOutputs) (CFault M l.opt.neurons) := by
  unfold recResize
  refine post_bind (L.inp.resize hM O Bd hf hp hpM r) ?_
  rintro ⟨i, r'⟩ P
  have P : Part B M prev l.nOutputs l.maxOutputs l.opt i := P
  refine ⟨⟨⟨?_, L.self, L.out, L.state, L.prev, L.known, L.mu, L.fn, L.wide⟩, rfl, fun _ _ => ?_⟩,
    P.ins, rfl⟩
  · show Part B M i.nInputs l.nOutputs l.maxOutputs l.opt i
    rw [P.ins]; exact P
  · exact recActive_counted (l := { l with inp := i, nInputs := i.nInputs }) P L.self L.out

theorem recMutEta_step {B M : Nat} (g : Rng K R) {l : RLay K} (L : l.Legal B M) (mu : K) (r : R) :
    RStep B M true l (recMutEta g l mu r).1.1 ∧
      (recMutEta g l mu r).1.1.nInputs = l.nInputs ∧
      (recMutEta g l mu r).1.1.nOutputs = l.nOutputs := by
  unfold recMutEta
  dsimp only
  split
  · split
    · exact ⟨⟨⟨L.inp.setEta _, L.self.setEta _, L.out.setEta _, L.state, L.prev, L.known, L.mu, L.fn,
        L.wide⟩, rfl, fun _ h => h⟩, rfl, rfl⟩
    · exact ⟨⟨⟨L.inp, L.self, L.out, L.state, L.prev, L.known, L.mu, L.fn, L.wide⟩, rfl,
        fun _ h => h⟩, rfl, rfl⟩
  · exact ⟨RStep.refl _ L, rfl, rfl⟩

theorem reallocArr_length {α : Type} (xs : List (Option α)) (n : Nat) :
    (reallocArr xs n).length = n := by
  simp only [reallocArr, List.length_append, List.length_take, List.length_replicate]
  omega

theorem recMutNeurons_step {B M : Nat} (hM : M < 2147483648) (hB : B * B ≤ M) {g : Rng K R}
    (O : g.Open) (Bd : g.Bounded) {fuel : Nat} (hf : 1 ≤ fuel) {l : RLay K} (L : l.Legal B M)
    (mu : K) (r : R) :
    Post (recMutNeurons g fuel l mu r) (fun p => RStep B M true l p.1.1 ∧
      p.1.1.nInputs = l.nInputs ∧ (l.opt.neurons = false → p.1.1.nOutputs = l.nOutputs))
      (CFault M l.opt.neurons) := by
  unfold recMutNeurons
  split
  · next hn =>
    refine post_bind (mutateNeurons_part L.self g fuel hn mu r) ?_
    rintro ⟨n, r1⟩ ⟨h0, h1⟩
    dsimp only at h0 h1 ⊢
    split
    · exact ⟨RStep.refl _ L, rfl, fun _ => rfl⟩
    · obtain ⟨k, hk⟩ : ∃ k : Nat, (l.nOutputs : Int) + n = (k : Int) :=
        ⟨((l.nOutputs : Int) + n).toNat, by omega⟩
      have k0 : 1 ≤ k := by omega
      have k1 : (k : Int) ≤ l.maxOutputs := by omega
      refine post_bind (L.inp.add hM Bd hn hk k0 k1 r1) ?_
      rintro ⟨i, r2⟩ Pi
      refine post_bind (L.self.add hM Bd hn hk k0 k1 r2) ?_
      rintro ⟨s, r3⟩ Ps
      refine post_bind (L.out.add hM Bd hn hk k0 k1 r3) ?_
      rintro ⟨o, r4⟩ Po
      have Pi : Part B M l.nInputs k l.maxOutputs l.opt i := Pi
      have Ps : Part B M l.nOutputs k l.maxOutputs l.opt s := Ps
      have Po : Part B M l.nOutputs k l.maxOutputs l.opt o := Po
      have hkM : B * k ≤ M := le_trans (Nat.mul_le_mul_left _ Pi.outs_pos.2.2) hB
      refine post_bind (Ps.resize hM O Bd hf (prev := i.nOutputs) (by rw [Pi.outs]; exact k0)
        (by rw [Pi.outs]; exact hkM) r4) ?_
      rintro ⟨s', r5⟩ Ps'
      refine post_bind (Po.resize hM O Bd hf (prev := i.nOutputs) (by rw [Pi.outs]; exact k0)
        (by rw [Pi.outs]; exact hkM) r5) ?_
      rintro ⟨o', r6⟩ Po'
      rw [Pi.outs] at Ps' Po'
      have Ps' : Part B M k k l.maxOutputs l.opt s' := Ps'
      have Po' : Part B M k k l.maxOutputs l.opt o' := Po'
      dsimp only
      rw [Po'.outs, guardOutputs_in k0 Po'.outs_pos.2.1]
      refine ⟨⟨⟨Pi, Ps', Po', reallocArr_length _ _, reallocArr_length _ _, ?_, L.mu, L.fn, rfl⟩,
        rfl, fun _ _ => ?_⟩, rfl, fun h => ?_⟩
      · intro h
        have h : l.opt.neurons = false := h
        rw [hn] at h; cases h
      · exact recActive_counted (l := { l with
          nOutputs := k, outW := k, inp := i, self := s', out := o',
          state := reallocArr l.state k, prev := reallocArr l.prev k }) Pi Ps' Po'
      · rw [hn] at h; cases h
  · exact ⟨RStep.refl _ L, rfl, fun _ => rfl⟩

theorem recMutConn_step {B M : Nat} {g : Rng K R} (Bd : g.Bounded) {l : RLay K} (L : l.Legal B M)
    (muE muD : K) (r : R) : RStep B M true l (recMutConn g l muE muD r).1.1 ∧
      (recMutConn g l muE muD r).1.1.nInputs = l.nInputs ∧
      (recMutConn g l muE muD r).1.1.nOutputs = l.nOutputs := by
  unfold recMutConn
  dsimp only
  split
  · have p1 := L.inp.mutConn Bd muE muD r
    have p2 := L.self.mutConn Bd muE muD (mutateConn g l.inp muE muD r).2
    have p3 := L.out.mutConn Bd muE muD
      (mutateConn g l.self muE muD (mutateConn g l.inp muE muD r).2).2
    exact ⟨⟨⟨p1, p2, p3, L.state, L.prev, L.known, L.mu, L.fn, L.wide⟩, rfl,
      fun _ _ => recActive_counted (l := { l with inp := _, self := _, out := _ }) p1 p2 p3⟩,
      rfl, rfl⟩
  · exact ⟨RStep.refl _ L, rfl, rfl⟩

theorem recMutWeights_step {B M : Nat} (g : Rng K R) {l : RLay K} (L : l.Legal B M) (mu : K)
    (r : R) : RStep B M true l (recMutWeights g l mu r).1.1 ∧
      (recMutWeights g l mu r).1.1.nInputs = l.nInputs ∧
      (recMutWeights g l mu r).1.1.nOutputs = l.nOutputs := by
  unfold recMutWeights
  dsimp only
  split
  · obtain ⟨p1, w1, _⟩ := L.inp.mutWeights g mu r
    obtain ⟨p2, w2, _⟩ := L.self.mutWeights g mu (mutateWeights g l.inp mu r).2
    obtain ⟨p3, w3, _⟩ := L.out.mutWeights g mu
      (mutateWeights g l.self mu (mutateWeights g l.inp mu r).2).2
    exact ⟨⟨⟨p1, p2, p3, L.state, L.prev, L.known, L.mu, L.fn, L.wide⟩, rfl,
      fun _ h => counted_same (l := l) rfl w1 w2 w3 h⟩, rfl, rfl⟩
  · exact ⟨RStep.refl _ L, rfl, rfl⟩

theorem recMutFn_step {B M : Nat} {g : Rng K R} (O : g.Open) {l : RLay K} (L : l.Legal B M)
    (mu : K) (r : R) : RStep B M true l (recMutFn g l mu r).1.1 ∧
      (recMutFn g l mu r).1.1.nInputs = l.nInputs ∧
      (recMutFn g l mu r).1.1.nOutputs = l.nOutputs := by
  have hf : ∀ r, 0 ≤ (g.uniInt 0 11 r).1 ∧ (g.uniInt 0 11 r).1 < 11 :=
    fun r => C45_random_int O (by decide) r
  unfold recMutFn
  dsimp only
  split
  · split
    · split
      · exact ⟨⟨⟨L.inp, L.self, L.out.setFn (hf _), L.state, L.prev, L.known, L.mu, hf _, L.wide⟩,
          rfl, fun _ h => h⟩, rfl, rfl⟩
      · exact ⟨RStep.refl _ L, rfl, rfl⟩
    · exact ⟨RStep.refl _ L, rfl, rfl⟩
  · exact ⟨RStep.refl _ L, rfl, rfl⟩

theorem recMutate_step {B M : Nat} (hM : M < 2147483648) (hB : B * B ≤ M) {g : Rng K R}
    (O : g.Open) (Bd : g.Bounded) {fuel : Nat} (hf : 1 ≤ fuel) {l : RLay K} (L : l.Legal B M)
    (r : R) :
    Post (recMutate g fuel l r) (fun p => RStep B M true l p.1.1 ∧ p.1.1.nInputs = l.nInputs ∧
      (l.opt.neurons = false → p.1.1.nOutputs = l.nOutputs)) (CFault M l.opt.neurons) := by
  unfold recMutate
  obtain ⟨vs, r1, e, hl, hv⟩ := C44_adapt O (List.zip recMu l.mu) r
    (fun m hm => Or.inr (L.mu.2 m.2 (List.of_mem_zip hm).2))
  rw [List.length_zip, L.mu.1] at hl
  have hl : vs.length = 6 := hl
  rw [e]
  match vs, hl, hv with
  | [m0, m1, m2, m3, m4, m5], _, hv =>
    show Post (recMutNeurons g fuel (recMutEta g { l with mu := [m0, m1, m2, m3, m4, m5] }
      m0 r1).1.1 m1 (recMutEta g { l with mu := [m0, m1, m2, m3, m4, m5] } m0 r1).2 >>= _) _ _
    have c0 : RStep B M true l { l with mu := [m0, m1, m2, m3, m4, m5] } :=
      ⟨⟨L.inp, L.self, L.out, L.state, L.prev, L.known, ⟨rfl, hv⟩, L.fn, L.wide⟩, rfl,
        fun _ h => h⟩
    obtain ⟨c1, i1, o1⟩ := recMutEta_step g c0.legal m0 r1
    generalize recMutEta g { l with mu := [m0, m1, m2, m3, m4, m5] } m0 r1 = a at c1 i1 o1 ⊢
    have h := recMutNeurons_step hM hB O Bd hf c1.legal m1 a.2
    rw [c1.opt] at h
    refine post_bind h ?_
    rintro ⟨⟨l2, b⟩, r2⟩ ⟨c2, i2, o2⟩
    obtain ⟨c3, i3, o3⟩ := recMutConn_step Bd c2.legal m2 m3 r2
    obtain ⟨c4, i4, o4⟩ := recMutWeights_step g c3.legal m4 (recMutConn g l2 m2 m3 r2).2
    obtain ⟨c5, i5, o5⟩ := recMutFn_step O c4.legal m5
      (recMutWeights g (recMutConn g l2 m2 m3 r2).1.1 m4 (recMutConn g l2 m2 m3 r2).2).2
    exact ⟨((((c0.trans c1).trans c2).trans c3).trans c4).trans c5,
      i5.trans (i4.trans (i3.trans (i2.trans i1))),
      fun hn => o5.trans (o4.trans (o3.trans ((o2 hn).trans o1)))⟩

theorem rstep_step {B M : Nat} (hM : M < 2147483648) (hB : B * B ≤ M) {g : Rng K R} (O : g.Open)
    (Bd : g.Bounded) (m : Libm K) {fuel : Nat} (hf : 1 ≤ fuel) {l : RLay K} (L : l.Legal B M)
    (hk : l.opt.sgd = false ∨ l.opt.neurons = false) (r : R) (o : COp K) (ho : o.fits B M) :
    Post (rstep g m fuel l r o) (fun p => RStep B M (!o.isRand) l p.1)
      (CFault M l.opt.neurons) := by
  cases o with
  | mutate =>
    unfold rstep
    refine post_bind (recMutate_step hM hB O Bd hf L r) ?_
    rintro ⟨a, r'⟩ ⟨c, _⟩
    exact c
  | resize prev => exact post_mono (recResize_step hM O Bd hf L ho.1 ho.2 r) fun _ h => h.1
  | learn x d p =>
    obtain ⟨l', e, c⟩ := recLearn_step m L hk x d p
    unfold rstep
    dsimp only
    rw [e]
    exact c
  | forward x =>
    obtain ⟨l', e, c, _⟩ := recForward_step m L (x := ofArr l.nInputs x) (by rw [length_ofArr])
    unfold rstep
    dsimp only
    rw [e]
    exact c
  | rand => exact recRand_step Bd L r
  | copy =>
    obtain ⟨l', e, c⟩ := recCopy_step L
    unfold rstep
    dsimp only
    rw [e]
    exact c

theorem RStep.weak {B M : Nat} {a b : Bool} {l l' : RLay K} (h : RStep B M a l l')
    (hab : b = true → a = true) : RStep B M b l l' :=
  ⟨h.legal, h.opt, fun hb => h.count (hab hb)⟩

theorem rrun_step {B M : Nat} (hM : M < 2147483648) (hB : B * B ≤ M) {g : Rng K R} (O : g.Open)
    (Bd : g.Bounded) (m : Libm K) {fuel : Nat} (hf : 1 ≤ fuel) : ∀ (os : List (COp K))
    {l : RLay K}, l.Legal B M → (l.opt.sgd = false ∨ l.opt.neurons = false) → ∀ r : R,
    (∀ o ∈ os, o.fits B M) →
    Post (rrun g m fuel os l r) (fun p => RStep B M (os.all fun o => !o.isRand) l p.1)
      (CFault M l.opt.neurons)
  | [], l, L, _, r, _ => RStep.refl _ L
  | o :: os, l, L, hk, r, ho => by
    unfold rrun
    refine post_bind (rstep_step hM hB O Bd m hf L hk r o (ho o List.mem_cons_self)) ?_
    rintro ⟨l1, r1⟩ c
    have h := rrun_step hM hB O Bd m hf os c.legal (by rw [c.opt]; exact hk) r1
      (fun o h => ho o (List.mem_cons_of_mem _ h))
    rw [c.opt] at h
    refine post_mono h fun p c2 => ?_
    refine (c.weak ?_).trans (c2.weak ?_)
    · intro h; simp only [List.all_cons, Bool.and_eq_true] at h; exact h.1
    · intro h; simp only [List.all_cons, Bool.and_eq_true] at h; exact h.2

theorem CArgs.Fits.setFn {B M : Nat} {a : CArgs K} (A : a.Fits B M) {f : Int}
    (h : 0 ≤ f ∧ f < 11) : CArgs.Fits B M { a with fn := f } :=
  ⟨A.ins, A.init, A.cur, A.max, A.prod, A.big, A.le, A.grow, h⟩

theorem CArgs.Fits.own {B M : Nat} (hB : B * B ≤ M) {a : CArgs K} (A : a.Fits B M) {f : Int}
    (h : 0 ≤ f ∧ f < 11) : CArgs.Fits B M { a with fn := f, nInputs := a.nInit } :=
  ⟨A.init, A.init, A.cur, A.max, le_trans (Nat.mul_le_mul_left _ A.cur) hB, A.big, A.le, A.grow, h⟩

theorem recInit_step {B M : Nat} (hM : M < 2147483648) (hB : B * B ≤ M) {g : Rng K R}
    (O : g.Open) (Bd : g.Bounded) {a : CArgs K} (A : a.Fits B M) (r : R) :
    Post (recInit g a r) (fun p => p.1.Legal B M ∧ p.1.opt = a.opt ∧ p.1.Counted ∧
      p.1.nInputs = a.nInputs ∧ p.1.nOutputs = a.nInit) (CFault M a.opt.neurons) := by
  unfold recInit
  refine post_bind (part_init hM O Bd (A.setFn (f := 3) (by decide)) r) ?_
  rintro ⟨i, r1⟩ Pi
  refine post_bind (part_init hM O Bd (A.own hB (f := 3) (by decide)) r1) ?_
  rintro ⟨s, r2⟩ Ps
  refine post_bind (part_init hM O Bd (A.own hB A.fn) r2) ?_
  rintro ⟨o, r3⟩ Po
  have Pi : Part B M a.nInputs a.nInit a.nMax a.opt i := Pi
  have Ps : Part B M a.nInit a.nInit a.nMax a.opt s := Ps
  have Po : Part B M a.nInit a.nInit a.nMax a.opt o := Po
  dsimp only
  rw [guardOutputs_in A.init (Pi.outs_pos).2.1]
  obtain ⟨vs, r4, e4, hl, hv⟩ := C44_init O recMu r3
  simp only [bind, Except.bind, e4]
  refine ⟨⟨Pi, Ps.setEta _, Po.setEta _, by simp [recActive], by simp [recActive], ?_, ⟨hl, hv⟩, A.fn, rfl⟩, rfl, ?_,
    rfl, rfl⟩
  · intro _
    exact ⟨fun v h => by rw [(List.mem_replicate.1 h).2]; simp,
      fun v h => by rw [(List.mem_replicate.1 h).2]; simp⟩
  · refine recActive_counted (l := { inp := i, self := { s with eta := i.eta }, .. }) Pi
      (Ps.setEta _) (Po.setEta _)

end Xcsf
