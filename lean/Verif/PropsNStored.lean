import Verif.PropsNExpand

/-!
# Converting a system that holds a stored population (C91)

`ae_to_classifier` converts the networks of the population, but not those of a population that has
been stored before.  When it is retrieved, its rules still have the outputs of the autoencoder.
-/

set_option linter.unusedSectionVars false

namespace Xcsf

variable {K R : Type} [Field K] [LinearOrder K] [IsStrictOrderedRing K] [FloorRing K]

theorem netReadGo_exit {b : NetBody K} {n : Nat} (hn : b.nOut = n) {vs : List K}
    (h : netReadGo b n = .ok vs) : ∀ m, n < m → netReadGo b m = .error .exit
  | 0, hm => absurd hm (Nat.not_lt_zero _)
  | m + 1, hm => by
    unfold netReadGo
    rcases Nat.lt_or_ge n m with hl | hl
    · rw [netReadGo_exit hn h m hl]
    · have e : m = n := by omega
      subst e
      rw [h]
      dsimp only
      unfold genOutput
      rw [if_pos (Or.inr (by omega))]

theorem withDelta_dim (l : GLay K) (d : List K) : (l.withDelta d).dim = l.dim := by cases l <;> rfl

theorem resetAll_dims : ∀ {ls ls' : List (GLay K)}, resetAll ls = .ok ls' →
    ls'.map GLay.dim = ls.map GLay.dim
  | [], _, h => by cases h; rfl
  | l :: ls, _, h => by
    unfold resetAll at h
    cases e : l.reset with
    | error f => rw [e] at h; cases h
    | ok l1 =>
      rw [e] at h
      dsimp only at h
      cases e' : resetAll ls with
      | error f => rw [e'] at h; cases h
      | ok ls1 =>
        rw [e'] at h
        cases h
        rw [List.map_cons, List.map_cons, resetAll_dims e']
        unfold GLay.reset at e
        split at e
        · cases e
        · cases e
          rw [withDelta_dim]

/-- Training with fewer targets than outputs reads beyond the targets. -/
theorem genLearn_short {m : Libm K} {ls : List (GLay K)} {n : Nat} (hn : headOuts ls = n)
    {t x : List K} {ls' : List (GLay K)} (h : genLearn m ls t x = .ok ls') {t' : List K}
    (ht : t'.length < n) (x' : List K) : genLearn m ls t' x' = .error .ub := by
  unfold genLearn genBackward at h ⊢
  cases e : resetAll ls with
  | error f => rw [e] at h; cases h
  | ok l1 =>
    rw [e] at h
    dsimp only at h ⊢
    cases e1 : l1.reverse with
    | nil => rfl
    | cons q rest =>
      rw [e1] at h
      dsimp only at h ⊢
      have hd : q.dim.n = n := by
        have e2 : l1.getLast? = some q := by rw [← List.head?_reverse, e1]; rfl
        have e3 := congrArg List.getLast? (resetAll_dims e)
        rw [List.getLast?_map, List.getLast?_map, e2] at e3
        unfold headOuts at hn
        cases e4 : ls.getLast? with
        | none => rw [e4] at e3; cases e3
        | some l =>
          rw [e4] at e3 hn
          rw [show q.dim = l.dim from Option.some.inj e3]
          exact hn
      unfold GLay.headDelta at h ⊢
      cases e5 : q.outs with
      | error f => rw [e5] at h; cases h
      | ok o =>
        dsimp only
        rw [if_pos (Or.inl (by rw [hd]; exact_mod_cast ht))]

variable {Y : DeepSystem K R} (C : Classes Y)

/-- The functions of the rules after the conversion. -/
abbrev Classes.rep : Rep K Y.In (NetParts K Y.rule none) R :=
  netSystemRep C.system.pf.rng C.system.S C.system.par.nActions C.system.rule none

/-- A rule that has not been converted ends the program when it predicts, if there are more classes
than outputs. -/
theorem unconverted_more (hc : Y.par.yDim < C.classes) (b : Y.Rule) (e : Bool) (p : List K) (x : Y.In)
    (r : R) : C.rep.predict e b.1 p x r = .error .exit := by
  obtain ⟨q, h, -⟩ := Y.sound.predict e b.1 p x r b.2
  have hb : b.1.pred.nOut = Y.par.yDim := b.2.pred.outs.1
  replace h : (netPredict Y.pf.rng Y.S.libm Y.S.lo Y.S.pred.yDim e b.1.pred x.1 r >>= fun q =>
    Except.ok (q.2.1, { b.1 with pred := q.1 }, q.2.2)) = .ok q := h
  show (netPredict Y.pf.rng Y.S.libm Y.S.lo C.classes e b.1.pred x.1 r >>= fun q =>
    Except.ok (q.2.1, { b.1 with pred := q.1 }, q.2.2)) = _
  unfold netPredict netPropagate at h ⊢
  cases e1 : genForward Y.pf.rng Y.S.libm Y.S.lo e b.1.pred.lays x.1 r with
  | error f => rw [e1] at h; cases h
  | ok z =>
    rw [e1] at h
    dsimp only at h ⊢
    rw [Y.hyDim] at h
    cases e2 : netReadGo { b.1.pred with lays := z.1 } Y.par.yDim with
    | error f => rw [e2] at h; cases h
    | ok vs =>
      rw [netReadGo_exit (b := { b.1.pred with lays := z.1 }) hb e2 _ hc]
      rfl

/-- A rule that has not been converted reads beyond the targets when it learns, if there are fewer
classes than outputs. -/
theorem unconverted_fewer (hc : C.classes < Y.par.yDim) (b : Y.Rule) (n : Int) (p : List K) (x : Y.In)
    (y : List K) (r : R) : C.rep.update n b.1 p x y r = .error .ub := by
  obtain ⟨q, h, -⟩ := Y.sound.update n b.1 p x y r b.2
  have hb : headOuts b.1.pred.lays = Y.par.yDim := b.2.pred.outs.2
  replace h : ((match netTrain Y.S.libm Y.S.pred.yDim b.1.pred x.1 y with
      | .error e => Except.error e
      | .ok b => .ok (b, p)) >>= fun q => Except.ok
      (({ b.1 with cond := (Y.rule.cond Y.pf.rng Y.S Y.par.nActions).update b.1.cond x.1, pred := q.1 } :
        NetParts K Y.rule none), q.2, r)) = .ok q := h
  show ((match netTrain Y.S.libm C.classes b.1.pred x.1 y with
      | .error e => Except.error e
      | .ok b => .ok (b, p)) >>= fun q => Except.ok
      (({ b.1 with cond := (Y.rule.cond Y.pf.rng _ Y.par.nActions).update b.1.cond x.1, pred := q.1 } :
        NetParts K Y.rule none), q.2, r)) = _
  unfold netTrain at h ⊢
  cases e1 : genLearn Y.S.libm b.1.pred.lays (ofArr Y.S.pred.yDim (arrOf y)) x.1 with
  | error f => rw [e1] at h; cases h
  | ok z =>
    rw [genLearn_short hb e1 (t' := ofArr C.classes (arrOf y)) (by rw [ofArr_length]; exact hc) x.1]
    rfl

/-- **C91 fails for a stored population**, for every system with a stored population after any
history and whatever layers new networks have: its rules are not converted.  With more classes than
outputs the first prediction of each of them ends the program when the population has been
retrieved; with fewer, learning reads beyond the desired output. -/
theorem C91_stored_refuted (r : R) {evs : List (GrowEv K Y.In Y.Rule)} {s : St K Y.In Y.Rule R}
    (_hs : Y.run r evs = .ok s) (c : Cl K Y.Rule) (_hc : c ∈ storedPopulation s) :
    (Y.par.yDim < C.classes → ∀ e p x r, C.rep.predict e c.body.1 p x r = .error .exit) ∧
    (C.classes < Y.par.yDim → ∀ n p x y r, C.rep.update n c.body.1 p x y r = .error .ub) :=
  ⟨fun h => unconverted_more C h c.body, fun h => unconverted_fewer C h c.body⟩

/-- Learning and storing leaves stored rules of one output; they are to become rules of three. -/
example : deepSystem.par.yDim < deepClasses.classes ∧
    Demo.Res.test (deepSystem.run 0 (deepEvs ++ [.call .store])) (fun s =>
      !(storedPopulation s).isEmpty) = true := by
  refine ⟨by decide, by decide +kernel⟩

end Xcsf
