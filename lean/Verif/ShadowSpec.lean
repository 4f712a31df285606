import Verif.Shadow
import Verif.ParamSpec

/-!
# Specification: what a dictionary of parameters should show
-/

namespace Xcsf
namespace Shadow

section
variable {K R : Type} [Field K] [LinearOrder K] [IsStrictOrderedRing K] [FloorRing K]

/-- The parameters that are a single value, and when a value shown for them is the value in use.
Negative seeds may be shown as `None`. -/
def scalars : List (String × (SysPar K → Json K → Prop)) :=
  [("x_dim", fun p j => j = jsonOfInt p.xDim), ("y_dim", fun p j => j = jsonOfInt p.yDim),
   ("n_actions", fun p j => j = jsonOfInt p.nActions),
   ("omp_num_threads", fun p j => j = jsonOfInt p.ompNumThreads),
   ("random_state", fun p j => j = jsonOfInt p.randomState ∨ (j = .null ∧ p.randomState < 0)),
   ("population_file", fun p j =>
      j = .str (String.ofList (p.popFile.takeWhile (· ≠ Char.ofNat 0)))),
   ("pop_size", fun p j => j = jsonOfInt p.popSize),
   ("max_trials", fun p j => j = jsonOfInt p.maxTrials),
   ("pop_init", fun p j => j = .bool p.popInit),
   ("perf_trials", fun p j => j = jsonOfInt p.perfTrials),
   ("loss_func", fun p j => ∃ t, nameOf lossNames p.lossFunc = .ok t ∧ j = .str (String.ofList t)),
   ("huber_delta", fun p j => j = .num p.huberDelta),
   ("teletransportation", fun p j => j = jsonOfInt p.teletransportation),
   ("gamma", fun p j => j = .num p.gamma), ("p_explore", fun p j => j = .num p.pExplore),
   ("set_subsumption", fun p j => j = .bool p.setSubsumption),
   ("theta_sub", fun p j => j = jsonOfInt p.thetaSub), ("alpha", fun p j => j = .num p.alpha),
   ("beta", fun p j => j = .num p.beta), ("delta", fun p j => j = .num p.delta),
   ("nu", fun p j => j = .num p.nu), ("theta_del", fun p j => j = jsonOfInt p.thetaDel),
   ("init_fitness", fun p j => j = .num p.initFitness),
   ("init_error", fun p j => j = .num p.initError), ("e0", fun p j => j = .num p.e0),
   ("m_probation", fun p j => j = jsonOfInt p.mProbation),
   ("stateful", fun p j => j = .bool p.stateful),
   ("compaction", fun p j => j = .bool p.compaction)]

/-- Those of them that concern every problem: `huber_delta` is for one loss function only, and
`gamma`, `teletransportation` and `p_explore` for more than one action. -/
def common : List String :=
  ["x_dim", "y_dim", "n_actions", "omp_num_threads", "random_state", "population_file", "pop_size",
   "max_trials", "pop_init", "perf_trials", "loss_func", "set_subsumption", "theta_sub", "alpha",
   "beta", "delta", "nu", "theta_del", "init_fitness", "init_error", "e0", "m_probation", "stateful",
   "compaction"]

/-- The value `j` for the parameter named `k` is what is in use. -/
def InUse (p : SysPar K) (k : String) (j : Json K) : Prop :=
  ∀ e ∈ scalars, e.1 = k → e.2 p j

/-- The parameters that are whole numbers. -/
def wholes : List String :=
  ["x_dim", "y_dim", "n_actions", "omp_num_threads", "random_state", "pop_size", "max_trials",
   "perf_trials", "teletransportation", "theta_sub", "theta_del", "m_probation"]

/-- An argument that can be taken as it is: a whole number (of type `int`) where one is expected, and
a name of a file that is not too long. -/
def Exact (m : String × Json K) : Prop :=
  (m.1 ∈ wholes → ∀ v, m.2 = .num v → ∃ i, IsInt i ∧ v = i) ∧
  (m.1 = "population_file" → ∀ t, m.2 = .str t → Char.ofNat 0 ∉ t.toList ∧ t.toList.length ≤ 512)

/-- Calls whose arguments can be taken as they are, and files with the parameters of a system (whole
numbers are of type `int`, the name of the population file ends); no change of the kind of
problem. -/
def Op.Exact : Op K → Prop
  | .set kw => ∀ m ∈ kw, Shadow.Exact m
  | .load p => p.Ints ∧ FileOk p.popFile
  | .report => True
  | .classify _ => False

end

end Shadow
end Xcsf
