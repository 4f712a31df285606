import Verif.RepMem

/-!
Histories of rules: what a system may do with the rules it has, in any order and any number of times.
-/

namespace Xcsf

namespace RepMem

/-- What can be done with rules. Rules are named by their place in the list of rules that exist. The
choices of chance are part of the operation. -/
inductive Op
  /-- A random rule (`clset_pset_init`, clset.c:308-322). -/
  | create (T : Types)
  /-- A rule that covers an input; `n` and `m` more trees are drawn (`clset_cover`, clset.c:159-197). -/
  | cover (T : Types) (n m : Nat)
  /-- An offspring of a rule (`ea`, ea.c:199-230). -/
  | child (T : Types) (i : Nat) (reset : Bool)
  /-- A copy of a rule for the stored population (`xcsf_store_pset`, `xcsf_retrieve_pset`). -/
  | copy (i : Nat)
  /-- A rule read from a file (`clset_pset_load`, clset.c:649-664). -/
  | load (T : Types)
  /-- A rule imported from JSON (`clset_json_insert_cl`). -/
  | «import» (T : Types) (hasAct hasPred hasCond : Bool)
  /-- Matching, choosing an action, predicting. -/
  | ask (i : Nat)
  /-- Learning. -/
  | update (i : Nat)
  /-- Mutation. -/
  | mutate (i : Nat) (a b d : List Luck)
  /-- Crossover of two different rules. -/
  | cross (i j : Nat)
  /-- Comparison of two different rules (subsumption). -/
  | general (i j : Nat)
  /-- A new layer for the network of the prediction (`xcsf_pred_expand`). -/
  | expand (i : Nat) (bs : List Bool)
  /-- A classifier instead of an autoencoder (`xcsf_ae_to_classifier`). -/
  | classify (i : Nat) (k : Nat)
  /-- Deletion of a rule (`clset_kill`, clset.c:590-601; offspring that are subsumed, ea.c:67-125). -/
  | free (i : Nat)

/-- What an operation does with the rules that exist. Operations on rules that do not exist do
nothing. -/
def step (op : Op) (pool : List Cl) : M (List Cl) :=
  match op with
  | .create T => do
    let c ← clInit T
    pure (pool ++ [c])
  | .cover T n m => do
    let c ← clCover T n m
    pure (pool ++ [c])
  | .child T i reset =>
    match pool[i]? with
    | none => pure pool
    | some c => do
      let d ← clChild T reset c
      pure (pool ++ [d])
  | .copy i =>
    match pool[i]? with
    | none => pure pool
    | some c => do
      let d ← clCopy c
      pure (pool ++ [d])
  | .load T => do
    let c ← clLoad T
    pure (pool ++ [c])
  | .import T a p c => do
    let c ← clImport T a p c
    pure (pool ++ [c])
  | .ask i =>
    match pool[i]? with
    | none => pure pool
    | some c => do
      clAsk c
      pure pool
  | .update i =>
    match pool[i]? with
    | none => pure pool
    | some c => do
      clUpdate c
      pure pool
  | .mutate i a b d =>
    match pool[i]? with
    | none => pure pool
    | some c => do
      let c' ← clMutate a b d c
      pure (pool.set i c')
  | .cross i j =>
    if i = j then pure pool
    else match pool[i]?, pool[j]? with
      | some c, some d => do
        let r ← clCross c d
        pure ((pool.set i r.1).set j r.2)
      | _, _ => pure pool
  | .general i j =>
    if i = j then pure pool
    else match pool[i]?, pool[j]? with
      | some c, some d => do
        clGeneral c d
        pure pool
      | _, _ => pure pool
  | .expand i bs =>
    match pool[i]? with
    | none => pure pool
    | some c => do
      let c' ← clExpand bs c
      pure (pool.set i c')
  | .classify i k =>
    match pool[i]? with
    | none => pure pool
    | some c => do
      let c' ← clClassify k c
      pure (pool.set i c')
  | .free i =>
    match pool[i]? with
    | none => pure pool
    | some c => do
      clFree c
      pure (pool.eraseIdx i)

/-- A history of operations. -/
def run : List Op → List Cl → M (List Cl)
  | [], pool => pure pool
  | op :: ops, pool => do
    let pool ← step op pool
    run ops pool

/-- Deletion of all rules (`clset_kill`, clset.c:590-601). -/
def killAll : List Cl → M Unit
  | [] => pure ()
  | c :: cs => do
    clFree c
    killAll cs

/-- A heap: no block is allocated twice, and the next one is new. -/
def Heap.Sane (h : Heap) : Prop :=
  h.live.Nodup ∧ ∀ p ∈ h.live, p < h.next

instance (h : Heap) : Decidable h.Sane := inferInstanceAs (Decidable (_ ∧ _))

/-- The number of layers of a type, 0 if it is not a network. -/
def RKind.layers : RKind → Nat
  | .net ks => ks.length
  | _ => 0

/-- Networks have layers. -/
def RKind.ok : RKind → Prop
  | .net ks => ks ≠ []
  | _ => True

instance : (k : RKind) → Decidable k.ok
  | .none => inferInstanceAs (Decidable True)
  | .flat _ => inferInstanceAs (Decidable True)
  | .net _ => inferInstanceAs (Decidable (_ ≠ _))

/-- Whether a type has a recurrent layer. -/
def RKind.recurrent : RKind → Bool
  | .net ks => ks.contains .recurrent
  | _ => false

/-- Types of rules whose predictions, if they are networks at all, have at least `d` layers. -/
def Types.ok (d : Nat) (T : Types) : Prop :=
  T.cond.ok ∧ T.act.ok ∧ T.pred.ok ∧ d ≤ T.pred.layers

instance (d : Nat) (T : Types) : Decidable (T.ok d) := inferInstanceAs (Decidable (_ ∧ _ ∧ _ ∧ _))

/-- Operations that make sense for rules whose predictions are networks with at least `d` layers
(`d = 0`: any predictions): networks have layers; only networks of at least two layers are expanded,
only networks are turned into classifiers. -/
def Op.ok (d : Nat) : Op → Prop
  | .create T => T.ok d
  | .cover T _ _ => T.ok d
  | .child T _ _ => T.ok d
  | .load T => T.ok d
  | .import T _ _ _ => T.ok d
  | .expand _ _ => 2 ≤ d
  | .classify _ _ => 1 ≤ d
  | _ => True

instance (d : Nat) : (op : Op) → Decidable (op.ok d)
  | .create _ => inferInstanceAs (Decidable (Types.ok _ _))
  | .cover _ _ _ => inferInstanceAs (Decidable (Types.ok _ _))
  | .child _ _ _ => inferInstanceAs (Decidable (Types.ok _ _))
  | .load _ => inferInstanceAs (Decidable (Types.ok _ _))
  | .import _ _ _ _ => inferInstanceAs (Decidable (Types.ok _ _))
  | .expand _ _ => inferInstanceAs (Decidable (_ ≤ _))
  | .classify _ _ => inferInstanceAs (Decidable (_ ≤ _))
  | .copy _ => inferInstanceAs (Decidable True)
  | .ask _ => inferInstanceAs (Decidable True)
  | .update _ => inferInstanceAs (Decidable True)
  | .mutate _ _ _ _ => inferInstanceAs (Decidable True)
  | .cross _ _ => inferInstanceAs (Decidable True)
  | .general _ _ => inferInstanceAs (Decidable True)
  | .free _ => inferInstanceAs (Decidable True)

/-- Imports from JSON, which may end the program. -/
def Op.imports : Op → Bool
  | .import _ _ _ _ => true
  | _ => false

/-- Rules with recurrent layers that are read from a file. -/
def Op.loadsRecurrent : Op → Bool
  | .load T => T.cond.recurrent || T.act.recurrent || T.pred.recurrent
  | _ => false

/-- Operations that neither create nor delete rules and do not change the layers of networks. -/
def Op.inPlace : Op → Bool
  | .ask _ => true
  | .update _ => true
  | .mutate _ _ _ _ => true
  | .cross _ _ => true
  | .general _ _ => true
  | _ => false

end RepMem

end Xcsf
