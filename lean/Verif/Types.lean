import Verif.Basic

/-!
# Type names (`condition.c`, `prediction.c`, `action.c`, `loss.c`, `ea.c`, `neural_layer.c`,
`neural_activations.c`, `gp.c`, `dgp.c`)

A C string is the list of its characters before the terminator.  Every `*_as_string` function is a
`switch` over codes and every `*_as_int` function a chain of `strncmp` tests; both are given as
tables, in the order of the source.
-/

namespace Xcsf

/-- `strncmp(a, b, n) == 0`: equal up to `n` characters, the terminator included. -/
def strncmpEq : Nat → List Char → List Char → Bool
  | 0, _, _ => true
  | _ + 1, [], [] => true
  | n + 1, x :: xs, y :: ys => decide (x = y) && strncmpEq n xs ys
  | _ + 1, _, _ => false

/-- A `switch` that returns names and exits for other codes. -/
def nameOf (t : List (Int × List Char)) (c : Int) : Res (List Char) :=
  match t with
  | [] => .error .exit
  | (d, s) :: t => if d = c then .ok s else nameOf t c

/-- A chain of `if (strncmp(type, name, n) == 0) return code;`.  `none`: the invalid code, or the
program exits. -/
def codeOf (t : List (List Char × Nat × Int)) (s : List Char) : Option Int :=
  match t with
  | [] => none
  | (name, n, c) :: t => if strncmpEq n s name then some c else codeOf t s

/-- `condition_type_as_string`, condition.c:85-115. -/
def condNames : List (Int × List Char) :=
  [(0, "dummy".toList), (1, "hyperrectangle_csr".toList), (2, "hyperrectangle_ubr".toList),
   (3, "hyperellipsoid".toList), (4, "neural".toList), (5, "tree_gp".toList), (6, "dgp".toList),
   (7, "ternary".toList), (11, "rule_dgp".toList), (12, "rule_neural".toList),
   (13, "rule_network".toList)]

/-- `condition_type_as_int`, condition.c:122-159. -/
def condCodes : List (List Char × Nat × Int) :=
  [("dummy".toList, 6, 0), ("hyperrectangle_csr".toList, 19, 1),
   ("hyperrectangle_ubr".toList, 19, 2), ("hyperellipsoid".toList, 15, 3), ("neural".toList, 7, 4),
   ("tree_gp".toList, 8, 5), ("dgp".toList, 4, 6), ("ternary".toList, 8, 7),
   ("rule_dgp".toList, 9, 11), ("rule_neural".toList, 12, 12), ("rule_network".toList, 13, 13)]

/-- `prediction_type_as_string`, prediction.c:64-84. -/
def predNames : List (Int × List Char) :=
  [(0, "constant".toList), (1, "nlms_linear".toList), (2, "nlms_quadratic".toList),
   (3, "rls_linear".toList), (4, "rls_quadratic".toList), (5, "neural".toList)]

/-- `prediction_type_as_int`, prediction.c:91-113. -/
def predCodes : List (List Char × Nat × Int) :=
  [("constant".toList, 9, 0), ("nlms_linear".toList, 12, 1), ("nlms_quadratic".toList, 15, 2),
   ("rls_linear".toList, 11, 3), ("rls_quadratic".toList, 14, 4), ("neural".toList, 7, 5)]

/-- `action_type_as_string`, action.c:55-67. -/
def actNames : List (Int × List Char) := [(0, "integer".toList), (1, "neural".toList)]

/-- `action_type_as_int`, action.c:74-84. -/
def actCodes : List (List Char × Nat × Int) :=
  [("integer".toList, 8, 0), ("neural".toList, 7, 1)]

/-- `loss_type_as_string`, loss.c:193-215. -/
def lossNames : List (Int × List Char) :=
  [(0, "mae".toList), (1, "mse".toList), (2, "rmse".toList), (3, "log".toList),
   (4, "binary_log".toList), (5, "onehot".toList), (6, "huber".toList)]

/-- `loss_type_as_int`, loss.c:222-247. -/
def lossCodes : List (List Char × Nat × Int) :=
  [("mae".toList, 4, 0), ("mse".toList, 4, 1), ("rmse".toList, 5, 2), ("log".toList, 4, 3),
   ("binary_log".toList, 11, 4), ("onehot".toList, 7, 5), ("huber".toList, 6, 6)]

/-- `LOSS_OPTIONS`, loss.h:46: the names offered to the user when a name is rejected. -/
def lossOptions : List (List Char) :=
  ["mae".toList, "mse".toList, "rmse".toList, "log".toList, "binary_log".toList,
   "one_hot".toList, "huber".toList]

/-- `ea_type_as_string`, ea.c:375-386. -/
def eaNames : List (Int × List Char) := [(0, "roulette".toList), (1, "tournament".toList)]

/-- `ea_type_as_int`, ea.c:393-403. -/
def eaCodes : List (List Char × Nat × Int) :=
  [("roulette".toList, 9, 0), ("tournament".toList, 11, 1)]

/-- `layer_type_as_string`, neural_layer.c:485-513. -/
def layerNames : List (Int × List Char) :=
  [(0, "connected".toList), (1, "dropout".toList), (2, "noise".toList), (3, "softmax".toList),
   (4, "recurrent".toList), (5, "lstm".toList), (6, "maxpool".toList),
   (7, "convolutional".toList), (8, "avgpool".toList), (9, "upsample".toList)]

/-- `layer_type_as_int`, neural_layer.c:539-574: "recurrent" is compared without its
terminator. -/
def layerCodes : List (List Char × Nat × Int) :=
  [("connected".toList, 10, 0), ("dropout".toList, 8, 1), ("softmax".toList, 8, 3),
   ("noise".toList, 6, 2), ("recurrent".toList, 9, 4), ("lstm".toList, 5, 5),
   ("maxpool".toList, 8, 6), ("convolutional".toList, 14, 7), ("avgpool".toList, 8, 8),
   ("upsample".toList, 9, 9)]

/-- `neural_activation_string`, neural_activations.c:108-141. -/
def activationNames : List (Int × List Char) :=
  [(0, "logistic".toList), (1, "relu".toList), (4, "gaussian".toList), (2, "tanh".toList),
   (5, "sin".toList), (6, "cos".toList), (7, "softplus".toList), (3, "linear".toList),
   (8, "leaky".toList), (9, "selu".toList), (10, "loggy".toList), (100, "softmax".toList)]

/-- `neural_activation_as_int`, neural_activations.c:148-189. -/
def activationCodes : List (List Char × Nat × Int) :=
  [("logistic".toList, 9, 0), ("relu".toList, 5, 1), ("gaussian".toList, 9, 4),
   ("tanh".toList, 5, 2), ("sin".toList, 4, 5), ("cos".toList, 4, 6), ("softplus".toList, 10, 7),
   ("linear".toList, 7, 3), ("leaky".toList, 6, 8), ("selu".toList, 5, 9), ("loggy".toList, 6, 10),
   ("softmax".toList, 9, 100)]

/-- `tree_function_string`, gp.c:164-181. -/
def gpNames : List (Int × List Char) :=
  [(0, "+".toList), (1, "-".toList), (2, "*".toList), (3, "/".toList)]

/-- `tree_function_int`, gp.c:188-205. -/
def gpCodes : List (List Char × Nat × Int) :=
  [("+".toList, 2, 0), ("-".toList, 2, 1), ("*".toList, 2, 2), ("/".toList, 2, 3)]

/-- `function_string`, dgp.c:161-176. -/
def dgpNames : List (Int × List Char) :=
  [(0, "Fuzzy NOT".toList), (1, "Fuzzy AND".toList), (2, "Fuzzy OR".toList)]

/-- `function_int`, dgp.c:183-195. -/
def dgpCodes : List (List Char × Nat × Int) :=
  [("Fuzzy NOT".toList, 10, 0), ("Fuzzy AND".toList, 10, 1), ("Fuzzy OR".toList, 9, 2)]

end Xcsf
