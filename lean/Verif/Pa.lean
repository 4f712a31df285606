import Verif.Core

/-!
# The prediction array (`pa.c`)
-/

namespace Xcsf
variable {K X B R : Type} [Zero K] [One K] [Add K] [Sub K] [Mul K] [Div K]
  [LT K] [DecidableLT K] [IntCast K] [DecidableEq K]

/-- `pa[k] += v` on an array; `k` may be outside (undefined). -/
def addAt (l : List K) (k : Int) (v : K) : Res (List K) :=
  if 0 ≤ k then
    match l[k.toNat]? with
    | some a => .ok (l.set k.toNat (a + v))
    | none => .error .ub
  else .error .ub

/-- The loop over outputs for one rule, pa.c:98-101. -/
def paRule (yDim : Nat) (c : Cl K B) : List Nat → List K → List K → Res (List K × List K)
  | [], pa, nr => .ok (pa, nr)
  | j :: js, pa, nr => do
    match c.prediction[j]? with
    | none => .error .ub
    | some p =>
      let pa ← addAt pa (c.action * (yDim : Int) + (j : Int)) (p * c.fit)
      let nr ← addAt nr (c.action * (yDim : Int) + (j : Int)) c.fit
      paRule yDim c js pa nr

/-- The loop over the rules of the match set, pa.c:94-103. -/
def paRules (yDim : Nat) : List (Cl K B) → List K → List K → Res (List K × List K)
  | [], pa, nr => .ok (pa, nr)
  | c :: cs, pa, nr => do
    let (pa, nr) ← paRule yDim c (List.range yDim) pa nr
    paRules yDim cs pa nr

/-- The normalising loops, pa.c:104-113 (`k` runs over the whole array). -/
def paNorm (pa nr : List K) : List K :=
  List.zipWith (fun p n => if n ≠ 0 then p / n else 0) pa nr

/-- The serial prediction loop of `pa_build`, pa.c:87-91. -/
def predictGo (kit : Kit K X B R) (x : X) : List Nat → St K X B R → Res (St K X B R)
  | [], s => .ok s
  | i :: l, s => do
    let c ← s.rd i
    let (p, b, r) := kit.predict s.explore c.body c.prediction x s.rng
    predictGo kit x l { s.put i { c with prediction := p, body := b } with rng := r }

/-- `pa_build`, pa.c:61-114. -/
def paBuild (par : Params K) (kit : Kit K X B R) (x : X) (s : St K X B R) :
    Res (St K X B R) := do
  let s ← predictGo kit x s.mset.list s
  let cs ← s.rds s.mset.list
  let n := par.nActions * par.yDim
  let (pa, nr) ← paRules par.yDim cs (List.replicate n 0) (List.replicate n 0)
  .ok { s with pa := paNorm pa nr, nr := nr }

/-- The loop of `pa_best_action`, pa.c:128-138: `best` are the indices of the maximum
so far. -/
def bestGo : List K → Nat → K → List Nat → List Nat
  | [], _, _, best => best
  | v :: vs, i, mx, best =>
    if mx < v then bestGo vs (i + 1) v [i]
    else if v = mx then bestGo vs (i + 1) mx (best ++ [i])
    else bestGo vs (i + 1) mx best

/-- The candidate list of `pa_best_action` after its loop. -/
def bestActions (n : Nat) (pa : List K) : Res (List Nat) :=
  match pa.take n with
  | [] => .error .ub
  | v :: vs => .ok (bestGo vs 1 v [0])

/-- `pa_best_action`, pa.c:122-142. -/
def paBestAction (par : Params K) (kit : Kit K X B R) (pa : List K) (r : R) :
    Res (Int × R) := do
  let best ← bestActions par.nActions pa
  let k := uniformInt kit 0 (best.length : Int) r
  if 0 ≤ k.1 then
    match best[k.1.toNat]? with
    | none => .error .ub
    | some a => .ok ((a : Int), k.2)
  else .error .ub

/-- `pa_rand_action`, pa.c:149-157, with a bound on the number of draws. -/
def paRandAction (par : Params K) (kit : Kit K X B R) (nr : List K) :
    Nat → R → Res (Int × R)
  | 0, _ => .error .hang
  | n + 1, r =>
    let k := uniformInt kit 0 (par.nActions : Int) r
    if 0 ≤ k.1 then
      match nr[k.1.toNat]? with
      | none => .error .ub
      | some v => if v = 0 then paRandAction par kit nr n k.2 else .ok (k.1, k.2)
    else .error .ub

/-- The loop of `argmax`, utils.h:93-98. -/
def argmaxGo : List K → Nat → Nat → K → Nat
  | [], _, mi, _ => mi
  | v :: vs, i, mi, mx => if mx < v then argmaxGo vs (i + 1) i v else argmaxGo vs (i + 1) mi mx

/-- `argmax`, utils.h:85-101. -/
def argmax : List K → Res Nat
  | [] => .error .exit
  | v :: vs => .ok (argmaxGo vs 1 0 v)

/-- `pa_best_val`, pa.c:164-169. -/
def paBestVal (pa : List K) : Res K := do
  let i ← argmax pa
  match pa[i]? with
  | none => .error .ub
  | some v => .ok v

/-- `pa_val`, pa.c:177-185. -/
def paVal (par : Params K) (pa : List K) (a : Int) : Res K :=
  if a < 0 ∨ (par.nActions : Int) ≤ a then .error .exit
  else match pa[a.toNat]? with
    | none => .error .ub
    | some v => .ok v

end Xcsf
