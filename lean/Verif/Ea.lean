import Verif.Core

/-!
# The evolutionary algorithm (`ea.c`)
-/

namespace Xcsf
variable {K X B R : Type} [Zero K] [One K] [Add K] [Sub K] [Mul K] [Div K]
  [LT K] [DecidableLT K] [IntCast K] [DecidableEq K]

/-- The literal `0.5`, ea.c:44,48. -/
def half : K := 1 / (1 + 1)

/-- `ea_init_offspring`, ea.c:38-56: returns the two offspring with error and fitness
set from the parents. -/
def initOffspring (par : Params K) (p1 p2 c1 c2 : Cl K B) (cmod : Bool) :
    Cl K B × Cl K B :=
  if cmod then
    let e := par.eaErrReduc * ((p1.err + p2.err) * half)
    let f1 := p1.fit / (p1.num : K)
    let f2 := p2.fit / (p2.num : K)
    let f := par.eaFitReduc * ((f1 + f2) * half)
    ({ c1 with err := e, fit := f }, { c2 with err := e, fit := f })
  else
    ({ c1 with err := par.eaErrReduc * p1.err,
               fit := par.eaFitReduc * (p1.fit / (p1.num : K)) },
     { c2 with err := par.eaErrReduc * p2.err,
               fit := par.eaFitReduc * (p2.fit / (p2.num : K)) })

/-- `++(c->num); ++(xcsf->pset.num);`, ea.c:72-73, 76-77, 91-92, 117-118. -/
def incNum (s : St K X B R) (i : Nat) : Res (St K X B R) := do
  let c ← s.rd i
  let s := s.put i { c with num := c.num + 1 }
  .ok { s with pset := { s.pset with num := s.pset.num + 1 } }

/-- The candidates loop of `ea_subsume`, ea.c:82-89 (in list order). -/
def candidates (par : Params K) (kit : Kit K X B R) (s : St K X B R) (b : B) :
    List Nat → Res (List Nat)
  | [] => .ok []
  | i :: l => do
    let c ← s.rd i
    let rest ← candidates par kit s b l
    .ok (if subsumer par c && kit.general c.body b then i :: rest else rest)

/-- `clset_add(&xcsf->pset, c)`. -/
def addPset (s : St K X B R) (i : Nat) : Res (St K X B R) := do
  let c ← s.rd i
  .ok { s with pset := s.pset.add i c.num }

/-- `ea_subsume`, ea.c:66-100.  `i` is the offspring, `p1`, `p2` its parents.
Every branch that raises a numerosity frees the offspring. -/
def eaSubsume (par : Params K) (kit : Kit K X B R) (t : List Nat) (i p1 p2 : Nat)
    (s : St K X B R) : Res (St K X B R) := do
  let c ← s.rd i
  let c1 ← s.rd p1
  if subsumer par c1 && kit.general c1.body c.body then
    let s ← incNum s p1
    s.freeCl i
  else
    let c2 ← s.rd p2
    if subsumer par c2 && kit.general c2.body c.body then
      let s ← incNum s p2
      s.freeCl i
    else
      let cand ← candidates par kit s c.body t
      if 0 < cand.length then
        let k := uniformInt kit 0 (cand.length : Int) s.rng
        let s := { s with rng := k.2 }
        if 0 ≤ k.1 then
          match cand[k.1.toNat]? with
          | none => .error .ub
          | some j => do
            let s ← incNum s j
            s.freeCl i
        else .error .ub
      else addPset s i

/-- `ea_add`, ea.c:112-125. -/
def eaAdd (par : Params K) (kit : Kit K X B R) (t : List Nat) (p1 p2 i : Nat)
    (cmod mmod : Bool) (s : St K X B R) : Res (St K X B R) :=
  if !cmod && !mmod then do
    let s ← incNum s p1
    s.freeCl i
  else if par.eaSubsumption then eaSubsume par kit t i p1 p2 s
  else addPset s i

/-- `ea_select_rw`, ea.c:134-147. -/
def selectRw (kit : Kit K X B R) (t : List Nat) (fits : List K) (total : K) (r : R) :
    Res (Nat × R) :=
  let (p, r) := uniform kit 0 total r
  match spin p fits with
  | none => .error .ub
  | some k =>
    match t[k]? with
    | none => .error .ub
    | some i => .ok (i, r)

/-- One pass of `ea_select_tournament` over the set, ea.c:160-167: one draw per
rule; the winner is the fittest drawn rule so far. -/
def tournamentPass (par : Params K) (kit : Kit K X B R) :
    List (Nat × K) → Option (Nat × K) → R → Option (Nat × K) × R
  | [], w, r => (w, r)
  | (i, f) :: l, w, r =>
    let u := uniform kit 0 1 r
    let better := w.all (fun v => decide (v.2 < f))
    tournamentPass par kit l
      (if decide (u.1 < par.eaSelectSize) && better then some (i, f) else w) u.2

/-- `ea_select_tournament`, ea.c:155-170, with a bound on the number of passes. -/
def selectTournament (par : Params K) (kit : Kit K X B R) (t : List (Nat × K)) :
    Nat → R → Res (Nat × R)
  | 0, _ => .error .hang
  | n + 1, r =>
    match tournamentPass par kit t none r with
    | (some (i, _), r) => .ok (i, r)
    | (none, r) => selectTournament par kit t n r

/-- `ea_select`, ea.c:179-191: the two parents. -/
def eaSelect (par : Params K) (kit : Kit K X B R) (t : List Nat) (s : St K X B R) :
    Res (Nat × Nat × R) := do
  let cs ← s.rds t
  if par.eaTournament then
    let tf := t.zip (cs.map Cl.fit)
    let (p1, r) ← selectTournament par kit tf par.loopBound s.rng
    let (p2, r) ← selectTournament par kit tf par.loopBound r
    .ok (p1, p2, r)
  else
    let total := totalFit cs
    let (p1, r) ← selectRw kit t (cs.map Cl.fit) total s.rng
    let (p2, r) ← selectRw kit t (cs.map Cl.fit) total r
    .ok (p1, p2, r)

/-- One iteration of the offspring loop, ea.c:212-227. -/
def eaPair (par : Params K) (kit : Kit K X B R) (t : List Nat) (p1 p2 : Nat)
    (s : St K X B R) : Res (St K X B R) := do
  let c1p ← s.rd p1
  let c2p ← s.rd p2
  let b1 := kit.copy par.eaPredReset c1p.body s.rng
  let b2 := kit.copy par.eaPredReset c2p.body b1.2
  let x := kit.crossover b1.1 b2.1 b2.2
  let m1 ← kit.mutate x.2.1 x.2.2.2
  let m2 ← kit.mutate x.2.2.1 m1.2.2
  let o := initOffspring par c1p c2p (clInit par c1p.size c1p.time m1.2.1)
    (clInit par c2p.size c2p.time m2.2.1) x.1
  let a1 := { s with rng := m2.2.2 }.alloc o.1
  let a2 := a1.2.alloc o.2
  let s ← eaAdd par kit t p1 p2 a1.1 x.1 m1.1 a2.2
  eaAdd par kit t p2 p1 a2.1 x.1 m2.1 s

/-- The offspring loop `for (i = 0; i * 2 < lambda; ++i)`, ea.c:211-228. -/
def eaLoop (par : Params K) (kit : Kit K X B R) (t : List Nat) (p1 p2 : Nat) :
    Nat → Int → St K X B R → Res (St K X B R)
  | 0, i, s => if i * 2 < par.eaLambda then .error .hang else .ok s
  | n + 1, i, s =>
    if i * 2 < par.eaLambda then do
      let s ← eaPair par kit t p1 p2 s
      eaLoop par kit t p1 p2 n (i + 1) s
    else .ok s

/-- The part of `ea` behind the time gate and before the population limit,
ea.c:205-228. -/
def eaBreed (par : Params K) (kit : Kit K X B R) (t : CSet) (s : St K X B R) :
    Res (St K X B R) := do
  let s ← setTimes s.time t.list s
  let (p1, p2, r) ← eaSelect par kit t.list s
  eaLoop par kit t.list p1 p2 par.eaLambda.toNat 0 { s with rng := r }

/-- The time gate, ea.c:202. -/
def eaDue (par : Params K) (t : CSet) (cs : List (Cl K B)) (time : Int) : Bool :=
  !(decide (t.size = 0) || decide ((time : K) - meanTime cs t.num < par.eaTheta))

/-- `ea`, ea.c:198-230. -/
def ea (par : Params K) (kit : Kit K X B R) (t : CSet) (s : St K X B R) :
    Res (St K X B R) := do
  let s := { s with time := s.time + 1 }
  let cs ← s.rds t.list
  if eaDue par t cs s.time then
    let s ← eaBreed par kit t s
    enforce par kit s
  else .ok s

end Xcsf
