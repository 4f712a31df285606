# Formal model of XCSF in Lean 4 — design

Code under study: `/repo/xcsf` (C, version 1.4.7) and the Python wrapper
(`pybind_*.h`, `pybind_wrapper.cpp`).  All paths below are relative to `/repo`.

## 1. Approach

The model consists of total, computable Lean functions, one per C function
(or per group of functions when the grouping is stated in a comment).  Each
definition cites the file and lines it models.

* **Outcomes.** Operations that can stop the process or misbehave return
  `Except Fault α` with `Fault = exit | ub | uaf | hang`:
  `exit` is a call of `exit(EXIT_FAILURE)`, `ub` is a memory error (NULL
  dereference, index outside a buffer, read of memory that was never written, division of ints by
  zero …), `uaf` a use of freed memory, `hang` a loop that did not finish within the fuel of the
  model.  Theorems that say "no undefined behaviour" quantify over every fuel.
* **Numbers.** `double` is modelled by a type `K`.  The rule life-cycle code is
  written against bare operations (`Add K`, `Mul K`, `LT K`, …) without any
  law, so that structural theorems (counters, aliasing, population limit) hold for
  *any* arithmetic, IEEE doubles included.  Theorems that speak about values take `K`
  to be a linearly ordered field (exact arithmetic), `ℝ` where exp/log/sqrt/pow and derivatives
  occur.  Where NaN or infinities matter (parameter setters, early stopping) an explicit type
  with those values is used.  Safety of the life cycle is also proved over doubles with rounding,
  infinities and NaN (C109–C116, `Double.lean`); in the other value theorems rounding error is *not*
  modelled: this is the main gap between them and the running program.
* **Integers.** `int` is `Int`/`Nat`; overflow is modelled where a property is about it
  (`float_to_binary`, sizes of layers, environments), otherwise integers are unbounded.
* **Randomness.** The generator (dSFMT) is an arbitrary source: theorems quantify over
  all generators, where needed with draws in the open interval (0,1) (`Rng.Open`); nothing else
  about the generator is used.  `rand_normal` is an arbitrary function of the generator's state;
  C53 additionally uses that its absolute value is at most 10 (`Rng.Bounded`), which Box–Muller on
  doubles guarantees.
* **Aliasing.** Rules live in a heap `id ↦ Option Cl`; sets hold ids, as the C sets hold
  pointers.  `free` empties the cell; any later access is a fault.  Layer lists (C48) are modelled
  with their pointers in the same way, Python arrays (C69, C70) by owner and address.
* **Representations.** The life-cycle model is parametric in the representation of
  conditions/actions/predictions (`Kit`: cover, match, general, crossover, mutate, …),
  as the C code is parametric through its function tables.  The concrete
  representations are modelled separately.
* **Files.** Binary files (C25, C26, C72, C73) are modelled down to bytes: 4-byte `int`, 8-byte
  `double` and `size_t`, 1-byte `bool` and `char`, little-endian, through an arbitrary codec of
  doubles that decodes what it encodes.  `fread` of a short file returns a short count and leaves
  the target as it was, as in C.
* **Specifications** are separate from the model: the files `*Spec.lean` and `Spec.lean` contain
  the vocabulary of the statements, `Props*.lean` the property theorems with examples that meet their
  hypotheses, all other files are the model or lemmas.
* **Disagreements.** Where the code violates a property the negation is proved, if possible for all
  systems and otherwise with a concrete reachable witness (`…_refuted`), together with a theorem on
  what does hold (`…_partial`).

## 2. Trusted base

* Lean 4.33.0's kernel; axioms `propext`, `Classical.choice`, `Quot.sound` at most
  (section 6, and checked by the gate for all theorems).
* The faithfulness of the reading of the C code: model functions are hand written from the cited lines.
* External functions are parameters: the generator (`Rng`), `exp`, `log`, `tanh`, `sin` … (`Libm`;
  for C50–C52 and C71 the real functions are taken), `strtod` and `strtol` in the configuration reader,
  the codec of doubles, `fgets`/`strtok` as specified by C, pybind11's argument conversion as the
  decision logic cited.
* Not modelled: floating point rounding except in C109–C116; malloc failure; the OpenMP
  runtime below the interleaving of steps (C88);
  the cJSON and dSFMT libraries (absent from the checkout); the file system; the pybind11 glue
  beyond the decision logic cited; printing; performance.
* Simplifications in the neural model: index arithmetic inside images is in unbounded integers while
  the sizes are computed in `int` with overflow as undefined behaviour (C54); a softmax that is not a
  finite number leaves the model as a fault (C49), its cases are C51; scratch arrays of LSTM
  layers have no content of their own and are saved as zeros (C25).
* Simplifications in the model of files: `clset_add` adds numerosities in unbounded integers; a file
  whose counts contradict each other (not written by the program) is reported as undefined behaviour.

## 3. Plan per property

| id | what is modelled | how it is proved |
|----|------------------|------------------|
| C01 | heap + sets + cover/EA/del/enforce as `Except` programs | invariant over every operation, induction over histories |
| C02 | same | same invariant (`size = length`, `num = Σ num`, `num ≥ 1`, `Nodup`) |
| C03 | `psetDel` | Hoare-style theorem on one deletion |
| C04 | `neverMatch`, `psetDel` | case analysis of the scan |
| C05 | heap with freed cells, kill list | invariant: live cells = pset ∪ prev_pset ∪ kset, no `ub` outcome, induction over histories |
| C06 | roulette loops over weights | induction over the list, generic arithmetic laws, ordered-field instance |
| C07 | `clset_match` without covering | equality with `filter` |
| C08 | `clset_cover` loop with attempts | loop invariant |
| C09 | match set counter after covering | **refuted** by a concrete witness; partial theorem for the no-deletion case |
| C10 | `clset_action` | equality with `filter` |
| C11 | `clset_subsumption` | sum conservation, characterisation of absorbed rules |
| C12 | `ea` before enforcement | sum over offspring loop |
| C13 | `ea` gate | case analysis |
| C14 | supervised trial with explore=false and a cover array | frame theorem, induction over the batch |
| C15 | validation trial of fit | **refuted** by a witness (covering runs); partial theorem when every sample is covered by all actions |
| C16–C18 | `cl_update`, `cl_update_fit`, `cl_acc` over an ordered field / ℝ | convexity, induction |
| C19 | `pa_build` over flattened arrays | fold invariants |
| C20 | `pa_best_action`, `pa_rand_action`, `argmax` | loop invariants |
| C21 | `xcs_supervised_sample`, epoch loop | modular arithmetic |
| C22 | predict/score loops | induction over rows with frame theorem |
| C23 | RL step protocol | symbolic execution of the step functions |
| C24 | store/retrieve | heap copy lemma |
| C25 | binary save/load byte by byte for every record type | round trip of typed items, then of bytes for every codec; simulation for the working memory |
| C26 | version check | case analysis |
| C27 | JSON insert order | list induction |
| C28–C31 | rectangle / ellipsoid operators | ordered field algebra; C30 **refuted** by a witness |
| C32 | ternary operators, float_to_binary | list induction |
| C33 | GP prefix trees in arrays | well-formedness by induction on derivations |
| C34 | DGP graphs | invariants |
| C35 | rule cover loops | **refuted** by witness; partial theorem on what the loop guarantees |
| C36 | action computation | case analysis |
| C37, C38 | NLMS | exact contraction identity; C38 **refuted** for quadratic |
| C39 | RLS | Sherman–Morrison over `Matrix` |
| C40 | feature expansion | list length, index bound |
| C41 | constant prediction | induction over payoffs |
| C42 | losses | sums over lists in ℝ |
| C43 | blas loops | loop = sum |
| C44 | sam | clamp bounds |
| C45 | helpers | case analysis, floor arithmetic |
| C46 | setters with a NaN-aware number type | invariant for non-NaN, **refuted** for NaN |
| C47 | type tables with a `strncmp` model | table lemma over all codes, uniqueness for all strings |
| C48 | layer list with pointers | refinement to lists; position 0 **refuted** (NULL dereference) |
| C49 | layer dimensions under mutate/resize | invariant; stale `out_w` **refuted** for connected→pool stacks |
| C50 | activations over ℝ | Mathlib calculus |
| C51 | softmax over ℝ | sums |
| C52 | connected layer backward | `HasDerivAt` |
| C53 | weight clamp / masks | invariants |
| C54 | pooling, im2col | index lemmas; 1×1 convolution with stride/pad **refuted** |
| C55–C57 | environments, config reader | executable models |
| C58–C61 | Python-level control logic | state machines |
| C62 | multi-step trial with the previous action set | **refuted** by a witness; partial theorem when the action is decided |
| C63 | ellipsoid cover | ordered field algebra; degenerate case shown |
| C64 | mutation of learning rates | clamp bounds |
| C65 | deletion votes | case analysis over an ordered field |
| C66 | system error, trial clock | closed form, induction over histories |
| C67 | EA offspring initialisation | symbolic execution of `ea` |
| C68 | CSV reader with its line buffer | list induction; **refuted** for long and ragged rows |
| C69, C70 | Python arrays as owned memory with addresses | state machine; **refuted** for reuse and release |
| C71 | recurrent and LSTM layers over ℝ | fold of the recurrence; learning **refuted** |
| C72 | prediction array after load | **refuted** by a pair of systems; partial for equal dimensions |
| C73 | prefixes of save files | **refuted** for all systems; partial: the element count tells |
| C74, C75 | vtables of conditions, actions, predictions put together as representations with invariants | instance of C05, C08 and C22 |
| C76 | subsumption in complete systems | from C11, C29, C32; **refuted** for ellipsoids |
| C77 | store and retrieve in complete systems | from C24 and C75; **refuted** for constant predictions |
| C78 | neural_learn over all layer types in Res, histories of networks | invariants of C49 plus "written since the last change"; **refuted** for growing recurrent layers |
| C79 | vtables of neural conditions, actions, predictions and of rule_dgp/rule_neural put together as representations with invariants | instance of C05 with the invariants of C49 and C78; **refuted** for evolving output layers |
| C80 | initial, evolved, copied and trained learning rates of all kinds of layers | description of a layer kept by every operation; **refuted** for recurrent layers with evolving rates |
| C81 | mutation, propagation and training of all kinds of layers against the layer's switches, and the flag mutation returns | relation between the layers before and after; simulation of networks without mutation rates |
| C82 | JSON documents as trees; export and import functions of rules, conditions, actions and predictions, insertion into the population | member by member round trip of every part, then the insertion lemma of C27 and the prediction theorem C75; **refuted** for trees and empty populations |
| C83 | all parameters of a system, their JSON report and import (param.c and the parameter parts of the representations, layer arguments included) as functions on JSON trees; xcsf_init and the Python constructor | member-by-member round trip; **refuted** for image inputs behind dropout, for default networks after `x_dim` is set, and for long file names |
| C84 | same, with the creation of networks from layer arguments and the matching of trees and graphs | what the importers set and what they do not; **refuted** for every tree and graph made from Python, for image layers, default layers and layers given before `x_dim` |
| C85 | same, with the clock and the seeding function as parameters | simulation of two constructions with different clocks; **refuted** for trees with default arguments |
| C86 | same | invariant of every setter; every member of an accepted document is in the table of parameters; **refuted** for layers |
| C87 | same | report as a function of parameters and random state; **refuted** for neural networks |
| C88 | `Par.lean`: loop bodies as programs of steps on one rule or on the generator, threads with queues of iterations, interleavings, races as undefined behaviour; the three parallel loops inside all calls | commuting steps: the final state of a rule is an invariant of every step; the calls by a relation closed under composition; **refuted** for noise and dropout layers |
| C89 | `Tune.lean`: histories of calls and of changes of parameters; the length of the prediction array is fixed at construction | invariant between calls with a limit that is any bound of all limits in force; new parameters keep the sizes of rules; **refuted** for a lowered limit, for more actions and for quadratic features |
| C90 | `NExpand.lean`: expanding a network (list of layers; the linked list is C48) and the loop over the population; histories of calls and expansions | the class of networks legal for some parameters is closed under all functions of a rule and under expansion; invariant between calls; **refuted** for one layer and for wide layers |
| C91 | same: removing layers, adding a linear and a softmax layer, the loop over the population with new predictions | simulation of the population by one of a system with another number of outputs; **refuted** for rules created with the old layers |
| C92 | networks of all layers (`NGen.lean`, `NGenLearn.lean`) over the reals; the network function as composition of layer functions with fixed random draws | chain rule along the stack; each layer: forward is differentiable, backward its adjoint, updates the derivative by its parameters; **refuted** for squared error with softmax |
| C93 | networks of all layers over the reals and systems whose rules are made of networks (`NGen.lean`, `NRep.lean`); specification: each layer as a function of inputs and parameters, a network as their composition | each layer computes its function and keeps it; networks by induction; rules and systems by instantiating the closed form of a prediction (C22); **refuted** for recurrent layers |
| C94 | the life cycle model with its bounded retry loops (`Core.lean`, `Ea.lean`, `Pa.lean`), running out of the bound being the fault `hang`; systems with direct conditions (`Rep.lean`) | instantiating the laws of the life cycle with smaller sets of tolerated faults: exploration succeeds at once because every action is advocated with positive fitness, tournaments by fairness of the generator, covering by room in the population; **refuted** for tournaments of size 0, tree conditions with zero constants, populations smaller than the number of actions |
| C95 | the life cycle model with all calls and their answers; saving and loading (`SerialSys.lean`); specification: what a system keeps between calls, answers of a session | a relation between states with the same rules at corresponding addresses (one to one, new addresses in order) kept by every function; reachable states with equal rules are related; **refuted** for the generator and the stored population, which are not in the file, and for storing and retrieving |
| C96 | a heap of blocks with `malloc`, `free`, `realloc` (moving or not), all constructors, copies, destructors, resizing and mutation of layers, networks, conditions, actions, predictions and rules as pointer programs (`RepMem.lean`); specification: histories of operations on rules (`RepMemSpec.lean`) | ownership triples with frames for every function (`RepMemLemmas.lean` … `RepMemPool.lean`), induction over histories; **refuted** for recurrent layers read from a file and for expanding predictions that are no networks |
| C97 | rules with networks (`NRep.lean`), covering of conditions and actions by drawing random networks | a network that does not work by chance answers while learning what it answers while predicting, so the value of a covering network is the one tried last; with C08, C79 and C93 for histories; **refuted** for dropout, recurrent layers; rules that are one network are refuted in C35 |
| C98 | the loops of experiments and `perf_print` with the printed lines (`Report.lean`) | induction over the trials with the windowed totals as sums over an interval of trials; **refuted** for the first line and for the last trials |
| C99 | the match, action and previous action set as linked lists of nodes and the remembered state as an array, with a heap (`Steps.lean`), the step-by-step calls of the Python class; specification: the documented order of calls (`StepsSpec.lean`) | representation relation between lists of nodes and sets as values (`StepsMem.lean`), simulation of each function by its counterpart of `Trial.lean` (`StepsSim.lean`, `StepsSim2.lean`), invariants per phase (`StepsPhase.lean`); **refuted** for calls out of order |
| C100 | `serialize` and `deserialize` of the Python class as four steps on a disk with names and inodes (`Pickle.lean`), with the byte-level `save` and `load` of C25 | invariant of a process that is alone in its directory, for all schedules; block-wise schedules by induction; **refuted** for two processes in one directory and for the prediction array of the new system |
| C101 | the dictionary of parameters of the Python class with `set_params`, `get_params`, `internal_params`, `load` and copies (`Shadow.lean`), over the import and report of parameters of C83; specification: when a value shown is the value in use (`ShadowSpec.lean`) | each setter leaves its parameter at the value given and the others alone (`ShadowTable.lean`), the report shows the values in use (`ShadowReport.lean`), induction over histories; **refuted** for nested parameters, limits, fractions, parameters of multi-step problems and `ae_to_classifier` |
| C102 | the lists behind `get_metrics()`, `fit` with epochs, validation, callbacks and warm start, and sequences of calls (`Metrics.lean`), over the training and scoring of C21, C22, C66; the loading of validation data in the memory model of C61; specification: epochs (`MetricsSpec.lean`) | induction over epochs and calls, with the clock lemmas of C66; **refuted** for epochs of changing size, for cold starts, for the size of match sets with validation data, and for validation data that is not an array of doubles |
| C103 | the two drawing classes of `utils/viz.py`: the mutually recursive reader of the exported token list with a call-depth limit, labels, the loop over the nodes and connections of a graph (`Viz.lean`); specification: reading a picture from its root, and the rounds of a drawn network (`VizSpec.lean`) | induction over the expression with an arbitrary context before and after it; folding over nodes and connections, then induction over rounds; **refuted** for deep trees and for constants that differ in the sixth decimal |
| C104 | the statistics `pset_mean_*`: the walks of `clset_neural.c` and `clset_mean_cond_size`, `clset_mean_pred_size`, with sums of type `int`, the walk to a layer, `neural_size`; systems of rules of every kind (C79) (`Stats.lean`); specification: the mean over the rules of counted quantities - neurons, weights in use, layers, intervals, symbols, nodes (`StatsSpec.lean`) | well-formed rules give the counted quantities, induction over the list of rules; **refuted** for a new system without rules (0/0) and for sums larger than `int` |
| C105 | the forward and backward pass of an LSTM layer (`NRec.lean`); specification: one step of the documented recurrence as a function of the output gate's parameters, and its half squared error (`NSeqSpec.lean`, `NLstmGradSpec.lean`, `NLstmCellSpec.lean` for the gates that write the memory) | the backward pass unfolded gate by gate; chain rule through the gate; **refuted** for the default activation functions |
| C106 | the JSON export of networks and of conditions, actions and predictions that are networks, for all ten kinds of layers (`JsonNet.lean`); specification: what a document shows of a layer, read by its member names, and what a network computes (`JsonNetSpec.lean`, settings of layers in `PropsJsonNet2.lean`) | legal layers are shown (C78 keeps them legal), layers with equal documents are related and compute the same, induction over the layers; **refuted** without weights, for memory and for the image sizes of convolutions |
| C107 | the stand-alone program: `main`, `env_init`, `env_csv_init` with the names of the files, `config_read`, and the loop of `xcs_supervised_fit` on arrays (`Main.lean`); specification: tables on a disk, their rows as samples, learning from samples (`MainSpec.lean`) | reading of C68, rows of an array, the loop on arrays is the loop on samples; **refuted** for configurations that set the sizes, test files of other sizes, long names and sizes that are not numbers |
| C108 | starting from a population file: `clset_load_pop_file`, `clset_pset_init`, `xcsf_init` (`PopFile.lean`) for systems of every condition and prediction (C74), with the import of C82; specification: a new system whose population ends with given rules (`PropsPopFile.lean`) | the documents of C82 inserted into a new system, induction over the random rules that fill it up; **refuted** for empty populations, trees, documents with another first member and for evolution, which waits for the clock to catch up |
| C109 | doubles with monotone rounding, overflow to infinities and a not-a-number (`Double.lean`), binary64 as an instance (`Binary64.lean`); the life cycle of C01-C29 runs over them unchanged, because it is generic in its arithmetic; specification: parameters and random numbers in range (`PropsDouble.lean`) | rounding lemmas: sums and learning steps do not become negative, a fraction of a total does not exceed it, products with random numbers stay below integers; then the laws of the life cycle (`Laws`) as for exact numbers |
| C110 | losses, constant and linear predictions and recursive least squares over doubles (`BadSample.lean`, `BadLinear.lean`, `BadRls.lean`), a neuron that learns (`BadNeural.lean`), with the life cycle over doubles of C109; specification: bad targets, losses that notice them, recovery (`PropsBadSample.lean`) | not-a-number is absorbed by the running average (C66), by the statistics of rules and by the prediction array; **refuted** with a system that never recovers; evaluation is shown to be harmless |
| C111 | hyperrectangles, hyperellipsoids and ternary conditions (`BadInput.lean`) and conditions and actions that are networks of connected and softmax layers (`BadNet.lean`) over doubles; specification: covering and matching of inputs with missing or infinite values (`PropsBadInput.lean`, `PropsBadNet.lean`) | rounding is monotone, so intervals around a value contain it; not-a-number compares false; **refuted** for hyperellipsoids (match nothing), moving centres (lost for ever) ternary conditions (undefined conversion), neural conditions (covering does not return) and neural actions, alone or with their condition (covering any but the first does not return) |
| C112 | the setters for doubles over doubles (`BadParam.lean`), used with the life cycle over doubles of C109; specification: documented ranges (`PropsBadParam.lean`) | comparisons with not-a-number are false; **refuted** by following each stored not-a-number through the comparison it meets; the sanity of parameters asked by C109 is kept by every setter |
| C113 | trees and graphs over doubles (`BadTree.lean`), on the trees and graphs of `Gp.lean` and `Dgp.lean`; specification: completions of inputs and of series of inputs (`PropsBadTree.lean`) | every operation is monotone for the order in which not-a-number is below all doubles, so evaluation is, by induction over the tree and the cycles of the graph; comparison with one half is true only of numbers; **refuted** for hyperrectangles, and for memory of graphs (a missing value kept for ever) |
| C114 | trees and graphs over doubles (`BadTree.lean`); specification: complete inputs, the unit interval (`PropsBadTree2.lean`) | limits make operands of tree nodes finite, and finite operands never give not-a-number (division by zero is excluded); products stay in the unit interval and sums do not cancel, by monotony of rounding; **refuted** for graphs with large or infinite inputs; networks (`BadNet.lean`, `PropsBadNet2.lean`, `PropsBadNet4.lean`): bounds on sums, products and activations by monotony of rounding, by induction over weights and layers; **refuted** for large inputs |
| C115 | neurons that learn and gradients, over doubles (`BadNeural.lean`, `BadGrad.lean`); specification: good samples, moderate settings, sound neurons (`PropsBadNet3.lean`) | invariant over samples: bounds on states, errors and updates by monotony of rounding, momentum takes back what a sample adds; **refuted** for large finite samples by an invariant of an infinite update |
| C116 | constant predictions, losses and updates of rules over doubles (`BadSample.lean`, `Core.lean`); specification: rates, bounds (`PropsBadAvg.lean`) | one step keeps four times the bound by monotony of rounding alone: beyond the bound the step goes back, below it there is room; induction over samples and histories |


## 4. Findings: where the code violates a property

Each entry is a theorem of the model; the text is its comment.

* `C02_refuted_for_zero_numerosity_import` — **C02 fails without the validity condition**: the JSON import accepts a rule with numerosity zero, which then stays in the population.
* `C09_refuted` — **C09 is false.** A rule of numerosity 2 fills the population and matches the input with action 0; covering action 1 deletes one of its two micro-classifiers, but the match set still records three although its rules represent two.
* `C100_array_refuted` — **C100 (prediction array) refuted.** Whatever system was pickled: if a rule of a later match set advocates an action other than the first, or if there is more than one output, the next prediction of the unpickled system writes outside of its prediction array.
* `C100_same_directory_refuted` — **C100 (processes) refuted.** For all systems: of two processes that pickle at the same time in one directory, one can get the system of the other, while the other gets an empty string without an error, which ends the program that loads it.
* `C101_classifier_refuted` — **C101 (other tasks) refuted.** After every history: when an autoencoder is turned into a classifier with another number of outputs, `get_params()` goes on showing the old number.
* `C101_limit_refuted` — **C101 (limits) refuted.** A learning rate of conditions above its limit is shown as it was given, while the limit is in use.
* `C101_missing_refuted` — **C101 (more actions) refuted.** Whatever the number of actions given to the constructor is: `get_params()` does not show `gamma`, although it is in use and `internal_params()` shows it.
* `C101_nested_refuted` — **C101 (nested parameters) refuted.** Two parameters of the evolutionary algorithm that are set one after another are both in use, but `get_params()` shows the second only, and a copy does not have the first.
* `C101_rounded_refuted` — **C101 (whole numbers) refuted.** For every number that is not whole: given as `x_dim` it is shown by `get_params()`, while the next smaller whole number is in use.
* `C102_cold_refuted` — **C102 (warm start) refuted.** When `fit` is called without a warm start, the system and its clock start again, but the recorded numbers of trials go on: if anything was recorded before, every number recorded for the new system is greater than the number of trials it has been trained for.
* `C102_list_refuted` — **C102 (validation data) refuted.** Validation inputs that are not an array of doubles (a list, or an array of integers or of single precision): `fit` accepts them, and the first validation reads memory that has been released.
* `C102_msize_refuted` — **C102 (match sets) refuted.** With and without validation data the same training, on the same random numbers, gives the same population and the same training error, but another size of match sets is recorded.
* `C102_trials_refuted` — **C102 (number of trials) refuted.** Whatever is recorded already (`c` epochs): when an epoch has `n` trials, `(c + 1) n` is recorded, whatever the size of the earlier epochs was. So after `fit` with epochs of `m` trials and a call with epochs of less than `m / 2` the numbers recorded go down, while the clock of the system goes up.
* `C102_validation_moves_msize` — **C102 (measuring changes what is measured).** The recorded size of match sets is the estimate of the training, moved on once for each row of the validation data.
* `C103_deep_refuted` — A tree that is nested too deeply is not drawn, whatever limit Python has been given: the constructor raises `RecursionError`.
* `C103_rounded_refuted` — Constants are drawn with five decimals, so two trees can have the same picture although one of them matches every input and the other none.
* `C104_empty` — The statistics of an empty population: those of networks are zero, but the mean sizes are no numbers.
* `C104_new_system_refuted` — **C104 is false of a new system** that starts without rules: the mean sizes it reports are 0/0, not a number, although the mean numbers of its layers, neurons and connections are zero.
* `C104_overflow_refuted` — **C104 is false of large populations**: if the layers of the networks in the predictions are altogether more than the largest `int`, the sum overflows and the mean, however small, is undefined.
* `C105_forget_gate_never_learns` — **The forget gate never learns**: for every legal LSTM layer with any memory and activation functions, a learning step on any input and target leaves all updates of the forget gate's part that reads the input as they were. (The part that reads the last output: `C71_lstm_memory_never_learned` for its weights.)
* `C105_forget_gate_refuted` — **C105 fails for the forget gate of a layer that remembers something**, even with linear functions: the update of its bias is not raised by the derivative of the error.
* `C105_last_error_refuted` — **C105 fails after a learning step**: with linear functions and a target that equals the output, so that the error is zero and so are its derivatives, a layer in which the last learning step left something raises the update of its candidate's bias.
* `C105_lstm_gradient_refuted` — **C105 fails for the default functions**, hyperbolic tangent and logistic gates: an LSTM layer of one neuron with empty memory, on the input zero and a target one above its output, does not raise the update of its output gate's bias by the derivative of the error.
* `C105_second_example_refuted` — **C105 fails for the second example of a fresh layer** with linear functions, for which the mathematical library is not asked: an example whose target is exactly the output, so that there is nothing to learn, raises the update of the candidate's bias.
* `C106_image_refuted` — **C106 fails for convolutional layers**: the document does not show the height and width of the image, even with weights, and a filter of images of three by two pixels computes something else than one of images of two by three pixels.
* `C106_import_refuted` — **C106 fails in the other direction**: reading the description of any network back ends the program.
* `C106_memory_refuted` — **C106 fails for networks with memory**: the document does not show the memory, even with weights, and the outputs differ.
* `C106_weights_refuted` — **C106 fails for what the program shows**: `json()` never shows the weights, and two networks with the same description give the outputs 1 and 2 for the input 1.
* `C107_long_name_refuted` — Refuted for long names: the name of a file is cut after 199 characters, so that a data set whose name has 188 or more characters is not found although its four files are there.
* `C107_size_refuted` — Refuted for problem sizes that are not numbers: `strtoimax` gives zero, and the program begins the experiment with a single bit instead of ending with a message.
* `C107_test_columns_refuted` — Refuted for test files of another size: they are not compared with the training files. With two training columns and a single test value no run of the program ends well, although all files can be read.
* `C107_x_dim_refuted` — Refuted for configurations that set the number of inputs: with `"x_dim": 2` and a training file with one column the rows are read across their ends. The input of the first sample is made of the first two rows.
* `C107_x_dim_ub_refuted` — Refuted for configurations that set the number of inputs: with one column and one row, any configuration that asks for two inputs makes the program read past the end of the data.
* `C108_empty_refuted` — Refuted for empty populations: the file a system without rules writes is read through a null pointer.
* `C108_evolution_refuted` — Refuted for evolution: a system that evolves its rules at every step (`theta` is one) learns six samples and writes its rules to a file. A new system that starts with this file never evolves them in its first six steps, whatever file system and generator it is started with.
* `C108_evolution_waits` — Property C108, evolution: the clock of a seeded system starts at zero, but its rules keep the time stamps of the file. If those are at least `T`, no rule is bred from them before the clock reaches `T + theta`; rules of a new system are bred from as soon as it reaches `theta`.
* `C108_ignored_refuted` — Refuted for other documents: JSON whose first member is not an array, say a population behind a version number, is read without a message and without effect.
* `C108_trees_refuted` — Refuted for tree conditions: the file of a system with rules ends every program that is started with it.
* `C109_nan_error_is_accurate` — **C109**, a finding: an error that is not a number stays so at every update (cl.c:188-195), and the rule counts as fully accurate (cl.c:161-169: the comparison with `E0` is false), however wrong it is.
* `C109_nan_wheel_stops_at_first` — **C109**, a finding: one section that is not a number makes the wheel stop at its first section at every turn (clset.c:81-88, ea.c:139-146), whatever the other sections and the random number are.
* `C109_tree_leaf_refuted` — **C109 fails** for trees with one constant and one input: for the largest random number the leaf is none of them, and evaluating the tree reads past the end of the input.
* `C110_error_lost` — **C110** (refuted): after a bad training sample, whatever calls preceded and whatever calls follow - any number of good samples included - the training error is not a number.
* `C110_first_action_stuck` — If the prediction for the first action is lost, this action counts as the only best one, however good others are.
* `C110_network_zero_refuted` — **C110** (refuted), networks and the input zero: an infinite error loses the weight of an input that was zero, with or without momentum.
* `C110_overflow_refuted` — **C110** (refuted, binary64): a target of `2 ^ 600` that was predicted as zero, then any further samples: the training error is not a number.
* `C110_refuted` — **C110** (refuted): a system learns to predict 1 where every sample says 1; a single sample that is not a number, for another input, makes it predict not-a-number from then on, also after further good samples; and nothing brings its training error back.
* `C110_rls_windup_refuted` — **C110** (refuted without any bad sample): with a forgetting factor of one half, bias one and a first gain of one half, an input that is zero for 1026 samples loses all weights of the rule, whatever the targets were and whatever comes later.
* `C110_rule_accurate` — A rule that learns from a bad sample has an error that is not a number, counts as perfectly accurate, and stays so whatever it learns later (C109).
* `C110_zero_input_refuted` — **C110** (refuted, for good numbers): with a bias of zero, which the parameters allow, learning from the input zero loses all weights, whatever target, prediction and rate - also if the prediction was right.
* `C111_action_cover_refuted` — **C111** (refuted), neural actions: covering such an input with any other action does not return, whatever weights are drawn.
* `C111_centre_lost` — Rules that move their centres towards inputs (`eta` positive) lose a centre to the first missing value they meet, for all time; from then on they match whatever the value is.
* `C111_ellipsoid_cover_refuted` — **C111** (refuted): so a hyperellipsoid that was made to cover an input with a missing value matches neither this nor any other input.
* `C111_neural_cover_refuted` — **C111** (refuted), neural conditions: covering an input with a missing value does not return, whatever the generator, the network and the number of tries.
* `C111_refuted` — **C111** (refuted): training again and again on a sample fills the population with a useless rule for each time, if its input is missing; a system is content with one rule otherwise.
* `C111_rule_cover_refuted` — **C111** (refuted), networks that are both condition and action: covering such an input does not return for any action but the first, whatever is drawn; for the first it returns at once, with a rule that does not match.
* `C111_ternary_refuted` — **C111** (refuted): with ternary conditions a missing value is undefined behaviour.
* `C112_beta_refuted` — **C112** (refuted), `beta`: after the first training sample the training error is lost for ever.
* `C112_e0_refuted` — **C112** (refuted), `e0`: every rule counts as fully accurate, whatever its error, and still none may subsume others.
* `C112_endless_refuted` — **C112** (refuted), size of tournaments: nobody ever takes part, whatever the number of passes, and the evolutionary algorithm does not return once it is due.
* `C112_explore_refuted` — **C112** (refuted), `p_explore`: actions are never explored, as if the probability were zero: the best action is chosen in every case, with one random number less left.
* `C112_gamma_refuted` — **C112** (refuted), `gamma`: the rules of every earlier action learn a payoff that is not a number, whatever its reward and what follows.
* `C112_history_refuted` — **C112** (refuted): a system that accepts a size of tournaments and then does not come back from training.
* `C112_nan_refuted` — **C112** (refuted): not-a-number is in no documented range, and every setter stores it.
* `C112_theta_refuted` — **C112** (refuted), `theta`: the evolutionary algorithm runs on every set that is not empty, in every trial, however recently it ran there.
* `C113_graph_forgets_refuted` — **C113** (refuted) for graphs with memory: one missing value can be remembered for ever. This graph matched; after an input with a missing value it matches nothing, whatever comes.
* `C113_rectangle_refuted` — **C113** (refuted), hyperrectangles: whatever the other intervals, one that has a value outside it matches as long as that value is missing.
* `C114_graph_infinite_refuted` — **C114** (refuted), graphs, infinite inputs: one infinite input and a zero suffice.
* `C114_graph_overflow_refuted` — **C114** (refuted), graphs, finite inputs: two large inputs and a zero overflow to infinity times zero, which is not a number; with memory the graph then matches nothing, whatever comes.
* `C114_network_overflow_refuted` — **C114** (refuted), networks, large finite inputs: weights of opposite sign make of two large inputs infinities that cancel to not-a-number, whatever the activation function; a condition of such a neuron does not match.
* `C114_softmax_unset_refuted` — **C114** (refuted), softmax layers whose scale is not configured: it is zero (neural_layer_args.c:62) and nothing objects, and all outputs are not-a-number for all inputs; conditions that end with such a layer match nothing.
* `C115_large_refuted` — **C115** (refuted), large finite samples and momentum: one sample whose input and target are finite but large pins the weight to its limit for ever, whatever good samples follow.
* `C116_range_refuted` — **C116** (refuted), the range of what is averaged: with a rate of one, after which the prediction should be the target, a prediction and a target below zero give zero.
* `C15_refuted` — **C15 is false**: from an empty system, processing a validation sample creates rules.
* `C15_refuted_displaces` — **C15 is false**, with displacement: in a full system processing one validation sample removes rules that were there.
* `C25_constants_refuted` — **C25 refuted for GP constants.** Loading a system with more constants than the array of the loading system holds writes behind the end of the array, for all systems.
* `C25_lstm_function_refuted` — **C25 refuted for LSTM layers.** The activation functions of an LSTM layer are not saved: a network of linear LSTM layers computes zero for the input zero, the network that is loaded computes something else.
* `C25_recurrent_output_refuted` — **C25 refuted for recurrent layers.** For all systems: if the prediction of a rule is a network with a recurrent layer, the network that is loaded for it has no outputs. Whatever the input, the pass through it or the reading of an output goes through a null pointer (or fails before).
* `C27_refuted_for_empty_import` — **C27**, an empty import dereferences NULL.
* `C30_refuted` — **C30 is false of the code**: the test only looks at the end points of the axes of the second ellipsoid. The unit disc is declared more general than the ellipse with centre (1/2, 0) and spreads (1/2, 4/5), which contains (4/5, 31/50).
* `C31_crossover_refuted` — The converse fails: exchanging equal genes is reported as a change.
* `C33_crossover_exceeds_max_len` — **C33**, no length limit in crossover: trees of at most `max_len` nodes can have a child with more.
* `C33_small_max_len_hangs` — **C33**, a legal setting that hangs: the setters accept any `max_len` from 1 and any `init_depth` from 1, but the root of a tree is always a function, so with `max_len` 1 or 2 no tree fits and the loop of `tree_rand` never ends.
* `C34_import_refuted` — **C34**, refuted for imported graphs: a connection equal to the number of inputs and nodes is accepted, and updating the graph then reads outside of the state array.
* `C34_import_then_copy_refuted` — A graph read with more nodes than the arguments say cannot be copied: the copy writes past its arrays (C34 for imported graphs).
* `C34_mutate_overreports` — Mutation reports a change although nothing but the mutation rates is different: moving the number of cycles by zero counts as a change (dgp.c:113-118).
* `C35_dgp_nomatch_refuted` — **C35**, refuted the other way round: covering returns a rule with the requested action that does not match the input it was made for.
* `C35_dgp_refuted` — **C35**, refuted: covering returns a rule that matches the input but advocates another action than the requested one (rule_dgp.c:222-225 loops while neither holds).
* `C35_neural_refuted` — **C35**, refuted for neural rules: it matches but advocates the wrong action.
* `C36_import_refuted` — **C36**, refuted for imported rules: any integer is accepted as an action.
* `C36_small_graph_ub` — **C36**, refuted for small graphs: with no more nodes than action bits the action is read outside of the state array.
* `C38_refuted` — **C38 is false of the code**: the normaliser leaves out the quadratic features. With one input of value 10, bias 1 and the default rate 1/10 the error of a fresh rule grows ninefold.
* `C39_copy_forgets` — **C39**, copies: a copy (every offspring is one) keeps the weights but starts with a fresh gain matrix, so its next update is not the one the original would make.
* `C42_huber_zero_delta` — With `delta = 0`, which the setter accepts, the Huber loss is zero for every prediction.
* `C45_binary_overflow` — With 32 bits or more the conversion to `int` overflows for some values: the encoding is undefined.
* `C46_nan_refuted` — **C46** is false for not-a-number: it passes every comparison, so the setter accepts it.
* `C46_pairs_unordered` — The setters do not relate parameters to each other: the smallest evolved learning rate can be set above the largest, and the lower end of the inputs above the upper.
* `C47_layers_refuted` — **C47** is false of layer types: an unknown name is accepted as a recurrent layer.
* `C47_loss_option_rejected` — The error message for an unknown loss offers a name that is itself rejected.
* `C48_expand_single_refuted` — Consequence: expanding a prediction network that has a single layer is undefined behaviour.
* `C48_inputs_refuted` — The stale number of inputs, concretely: the remaining layer has 10 inputs, the network says 4.
* `C48_insert_front_refuted` — C48 is false of insertion before the input layer: on every network with a layer, `neural_insert` at position 0 (or below) follows a NULL pointer.
* `C48_remove_front_stale` — C48 is false of the number of inputs: after removing the input layer of any network the number of inputs of the network is still that of the removed layer.
* `C49_growth_refuted` — **C49 fails if an image layer follows a connected layer that evolves its size**: growth leaves the layer's reported width as it was, so an average-pooling layer behind it is resized to the old width and has fewer inputs than the layer before has outputs.
* `C49_head_shrinks_refuted` — **C49 fails for the outputs of a network whose output layer evolves its size**: the number of outputs of the network is that of its creation, so an output that no longer exists is read.
* `C49_shape_refuted` — **C49 fails for the shapes of images** although recurrent layers keep their width up to date: a recurrent layer shrinks from six neurons to three while the convolution behind it grows from one filter to two. The convolution still has six outputs, so the next layer is not resized: it pools over six columns of one channel although it is given three columns of two channels.
* `C49_shrink_reads_out_of_bounds_refuted` — **C49 fails for forward propagation** in the same case if the layer shrinks: the pooling layer reads behind the end of the outputs of the layer before.
* `C51_zero_temperature_refuted` — C51 is false of temperature zero, the default of the layer parameters (neural_layer_args.c:62): no output is a number.
* `C52_saturated_refuted` — A state at its limit of 100 is cut off in the forward pass, but the backward pass takes the derivative as if it were not: with weight 10 and input 11 the output is 100 whatever small change the weight undergoes, yet the update of the weight is 11 times the error.
* `C53_growth_refuted` — The literal reading of C53 is false when the number of neurons evolves: a neuron added by mutation may have no active input, because the new connections are drawn inactive with probability one half and nothing ensures representation afterwards (neural_layer_connected.c:298-309).
* `C53_recurrent_growth_refuted` — **C53 fails for a recurrent layer whose number of neurons evolves and whose weights are learned**: `realloc_layer_arrays` (neural_layer_recurrent.c:63-69) does not initialise the memory of the new neurons, and the first learning step after the growth uses it.
* `C53_recurrent_rand_refuted` — **C53 fails for a recurrent layer whose weights are randomised after connections were disconnected**: all connections become active again, the reported number does not change.
* `C53_recurrent_representation_refuted` — **C53 fails for connectivity mutation of a recurrent layer**: nothing ensures that neurons and inputs stay connected, one mutation may disconnect all of them.
* `C53_size_overflow_refuted` — Without the limits of the theorems the size of a layer overflows before it is checked: 65536 inputs and 32768 neurons are undefined behaviour instead of a refusal.
* `C54_conv_frozen_gradient_refuted` — Without gradient descent in this layer the error handed on lacks the derivative of the activation: a rectifier that is off (state -2/5, derivative zero) still passes its error on.
* `C54_conv_small_image_refuted` — An image smaller than the kernel in both directions gives two negative dimensions whose product passes all checks; the columns are then never written, but read.
* `C54_conv_unit_pad_refuted` — Kernels of size one ignore the padding: the output of a padded image is larger than the image, and the matrix product reads past its end.
* `C54_conv_unit_stride_refuted` — Kernels of size one ignore the stride: with stride two over nine pixels the second output should be the third pixel times the weight 1/5, but is the second.
* `C54_maxpool_padding_refuted` — **Refuted: pooling is defined for every image.** With padding 2 on each border of an image of one pixel and windows of one pixel, the accepted arguments give a layer whose first window lies entirely in the padding: the forward pass ends the program.
* `C55_xdim_overflow` — **C55 does not survive a configuration file.** The environment is created first and a configuration file is read afterwards (main.c:45-50). If it raises `x_dim`, the next problem instance writes past the end of the array of inputs.
* `C56_last_row_lost` — **C56 refuted for unterminated files.** A last row without a line end is not part of the maze: here the food cannot be found.
* `C56_ragged_refuted` — **C56 refuted for ragged files.** The width is that of the last row, so that cells of shorter rows are read although they were never written.
* `C56_reset_hangs` — A maze without an empty cell makes every reset loop for ever.
* `C56_wide_refuted` — **C56 refuted for wide mazes.** The size check comes after the write: a row of 51 cells is written past the end of its row of the array (and a 51st row past the array) before the program gives up.
* `C57_long_comment_refuted` — **C57 refuted for long lines.** Lines are read in pieces of 124 characters, and each piece is taken for a line of its own: the end of a long comment becomes a setting.
* `C57_overflow_refuted` — **C57 refuted for minimal files.** The buffer has the length of the file and no room for the terminating NUL: a file without line end, blank or comment overflows it.
* `C57_strings_changed` — Blanks are removed inside quoted strings too, and `#` starts a comment there.
* `C58_reuse_refuted` — **C58 refuted for a callback used twice.** The best error of the first `fit` is kept in the callback. A second `fit` that does not beat it records nothing: it is stopped and restores nothing, although its first epoch was its best one.
* `C59_best_report_missed` — **The best model reported need not be saved.** Here the report after 300 trials is the best one but comes too early after the checkpoint at 200 trials; the file ends up with a worse model.
* `C60_refuted` — **C60 is false**: with `max_trials = 1500` and `perf_trials = 1000`, 2000 trials are run.
* `C61_layout_refuted` — **C61 refuted for other memory layouts.** The strides of an array are ignored: a transposed matrix is accepted and its samples are wrong without any error.
* `C61_no_axis_refuted` — **C61 refuted for `decision` and `fit` with one state.** A zero-dimensional array has no `shape[0]`.
* `C61_one_axis_refuted` — **C61 refuted for one-dimensional data.** `predict` accepts an array with one axis whatever `x_dim` is. With two or more features per sample it then reads behind the end of the array.
* `C62_refuted` — **C62 is false.** A rule of the demonstration system predicts its action plus the input. In the second, terminal step of this trial a rule of the current action set, about to be trained on the current input with the immediate reward, holds a prediction that is not its prediction for that input (but the one for the previous input: the rule belongs to the previous action set as well, which has just been trained).
* `C63_degenerate` — The exception is real: with a zero minimum spread and `min = max` the spread is zero, the distance is 0/0 and the covered condition does not match.
* `C68_long_row_refuted` — **C68 refuted for long rows.** A row of 101 one-digit numbers takes more than one buffer: its end is taken for another sample with too few fields, and a NULL pointer is parsed.
* `C68_mismatch_refuted` — **C68 refuted for files of different lengths.** The number of samples is that of the last file read: with more outcomes than inputs the inputs are read past their end.
* `C68_ragged_refuted` — **C68 refuted for ragged files.**
* `C69_cover_overwritten` — **C69 refuted: the caller's array is overwritten.** `predict(X, cover=c)` followed by `predict(X)` sets the elements of `c` to zero.
* `C69_dangling_refuted` — **C69 refuted: use after free.** `predict(X, cover=c)`, then `c` goes out of scope, then `predict(X)` writes to the released memory.
* `C69_invalid_free` — **C69 refuted: invalid free.** `predict(X, cover=c)` followed by `fit(…)` passes the address of a NumPy buffer to `free`.
* `C69_list_refuted` — **C69 refuted: lists.** A cover given as a Python list is converted to an array that is released before it is used: the first sample without a matching rule reads freed memory.
* `C69_short_refuted` — **C69 refuted: several actions.** The cover array must have `y_dim` elements, but `n_actions * y_dim` are read.
* `C70_released_refuted` — **C70 refuted: the array is gone.** `decision` keeps the address only; when the array has been released (a converted argument always is) `update` reads freed memory.
* `C70_reused_refuted` — **C70 refuted: the array is reused.** An environment that writes the next observation into the same array makes `update` learn from the next state instead of the one acted upon.
* `C71_lstm_memory_never_learned` — The same for any legal layer with nothing pending, whatever its weights.
* `C71_lstm_memory_never_learned_refuted` — **C71 fails for LSTM layers**: the layer never remembers its last output and memory for the backward pass (`prev_state` and `prev_cell` stay zero), so that without weight decay no training, however long, changes any weight or bias of the forget gate or any weight from the layer's own output: the recurrent connections are never learned.
* `C71_recurrent_eta_refuted` — **C71 fails for recurrent layers whose learning rate evolves**: after the first mutation the layer's learning rate is zero (its limits are never set), and from then on no training changes any weight or bias of the layer, whatever happened before.
* `C71_recurrent_self_gradient_refuted` — **C71 fails for the recurrent weights of a recurrent layer**: in the forward pass they are fed with the last output, in the backward pass with the last state, so that the update is not the derivative of the output. Here the output after two inputs is `2 + 4 v` for each recurrent weight `v` in `[0, 2]`, and with an error of one the update at `v = 1` is 2, not 4.
* `C72_array_not_resized_refuted` — **C72 refuted.** A system with three actions is loaded by one that was set up with one action: the prediction array keeps its one element, and the prediction for the rules that were loaded is written behind it. The system that was saved has no such problem.
* `C73_cut_file_refuted` — **C73 refuted.** For all systems, a file that has been cut after the number of actions loads without an error: there are no rules, and all later parameters are those the loading system had before.
* `C76_ellipsoid_refuted` — **C76** is false for ellipsoids: two rules are inserted, set subsumption is applied to the population, and an input that a rule contained is contained in none any more.
* `C77_constant_refuted` — **C77** is false for constant predictions: a rule that has learned 5 predicts 0 after the population is stored and retrieved.
* `C78_recurrent_growth_refuted` — **C78 fails for a recurrent layer trained by gradient descent whose number of neurons evolves**: the layer grows, an input is propagated, and training uses memory that was never written.
* `C79_action_refuted` — **C79 fails for an action whose output layer evolves its number of neurons**: a rule is created and mutated without complaint, its network then has one output for two actions, and the computation of the action reads beyond the outputs.
* `C79_prediction_refuted` — **C79 fails for a prediction whose output layer evolves its number of neurons**: a rule is created, mutated and asked for its prediction without complaint, its network then has two outputs for one predicted value, and learning reads beyond the desired output.
* `C80_recurrent_refuted` — **C80 fails for recurrent layers with evolving learning rates**: the limits of the rate of such a layer are never set, so the first mutation sets its rate to zero, below the minimum.
* `C82_empty_refuted` — **C82** is false for empty populations: the document of a new system cannot be imported.
* `C82_other_type_accepted` — The type a document states is not read: a rectangle written with centres and spreads is accepted by a system whose rectangles have two bounds, and the rule keeps the random rectangle it was created with.
* `C82_trees_refuted` — **C82** is false for trees: a system that has learned two samples exports its rules, and no system, not even a new one, can import them.
* `C83_default_refuted` — **C83** fails for default networks: after `x_dim` is set the default layers still have one input, the report says so, and its import changes that to `x_dim`.
* `C83_file_refuted` — **C83** fails for long names: a population file whose name has more than 512 characters is accepted, and the report then reads beyond the end of the memory for the name.
* `C83_image_refuted` — **C83** fails for images: after a first layer of dropout (or noise) an import restores the number of inputs but not height, width and channels, so that the layers behind it are built for another shape.
* `C84_blind_refuted` — **C84** fails for trees and graphs in Python. Whatever the arguments of the constructor and of `set_params` are, `x_dim` among them, tree and graph conditions look at the first input only: no rule that a population can contain distinguishes two inputs with the same first component.
* `C84_defaults_refuted` — **C84** fails for default networks in Python: whatever numbers of inputs, outputs and actions are asked for, the default networks of conditions, actions and predictions have one input, and those of actions and predictions one output.
* `C84_image_refuted` — **C84** fails for images: height, width and channels of a first layer for images are not compared with `x_dim`. Here a network that reads nine inputs is accepted for a problem with four.
* `C84_order_refuted` — **C84** fails for layers given before `x_dim`: the order of the members of a document matters. The same two members give networks with four inputs or with one.
* `C85_constants_refuted` — **C85** fails for trees with default arguments: their constants are drawn when the system is made, from numbers that depend on the clock, before `random_state` has an effect.
* `C86_layers_refuted` — **C86** fails for layers: any learning rate of a layer is accepted, negative ones included.
* `C87_draws_refuted` — **C87** fails for neural networks: a report builds a network, and so draws random numbers.
* `C88_noise_refuted` — **C88 refuted** for networks with noise layers: the second of two calls of `fit` races for the generator, whatever steps the loop bodies consist of, although the loops in series succeed.
* `C89_features_refuted` — **C89 refuted**, features: linear predictions whose type is changed to quadratic. Rules keep their arrays, but the features are computed for the new type: for every rule that is well-formed for linear features, the transformed input has more elements than the rule has room for (prediction.c: 265-286 writes behind `tmp_input`).
* `C89_lowered_limit_refuted` — **C89 refuted**, the limit: setting a lower population limit does not remove rules, and neither does predicting: the population stays above the limit in force until a call adds rules. The new parameters are legal and keep the sizes.
* `C89_more_actions_refuted` — **C89 refuted**, the sizes: the number of actions is raised from two to three (and the population limit to eight), which is accepted; the prediction array keeps its two elements and the next `fit` writes behind it. The last part says where: the rules the call would make include one for the new action, and adding up their predictions leaves the array.
* `C90_single_layer_refuted` — **C90 fails for networks of one layer**, which a user may set: expanding reads through a null pointer.
* `C90_wide_refuted` — **C90 fails for wide networks**: with more than 4472 outputs of the top hidden layer the new layer has more weights than a layer may have, and the program ends; with more than 46340 the number of weights overflows. A layer may have up to 2000000 outputs.
* `C91_fewer_classes_refuted` — **C91 fails if rules are created with the layers of the autoencoder** and there are fewer classes than outputs: the rule predicts, and learning reads beyond the desired output.
* `C91_more_classes_refuted` — **C91 fails if rules are created with the layers of the autoencoder** and there are more classes than outputs: the first prediction of such a rule ends the program.
* `C91_stored_refuted` — **C91 fails for a stored population**, for every system with a stored population after any history and whatever layers new networks have: its rules are not converted. With more classes than outputs the first prediction of each of them ends the program when the population has been retrieved; with fewer, learning reads beyond the desired output.
* `C92_softmax_squared_refuted` — C92 refuted for softmax output layers: their errors are passed on as they are, so the updates are not the gradient of the squared error that the program reports.
* `C93_recurrent_refuted` — **C93 fails for rules with recurrent layers**: the same row twice in a batch is predicted differently, because predicting a row changes the memory of the layer.
* `C94_empty_tournament_refuted` — **C94**, refuted for tournaments of size 0 (which the parameter allows): whatever the number of passes, nobody ever takes part, and the evolutionary algorithm does not return once it is due.
* `C94_history_refuted` — **C94**, refuted by a history: with legal parameters and tournaments of size 0 fitting two rows does not return.
* `C94_neural_cover_refuted` — **C94**, refuted for neural conditions: a condition may be a network without weights, here a layer of average pooling. Drawing its weights changes nothing, so if it does not match an input, covering that input never returns, whatever the generator and the number of tries.
* `C94_small_population_refuted` — **C94**, fitting refuted when the population is smaller than the number of actions: covering gives up and the program ends.
* `C94_tree_cover_refuted` — **C94**, refuted for trees: if the constants are zero (both limits of the constants may be set to zero), no tree contains the input zero, and covering it never returns: whatever the number of trees tried.
* `C95_generator_refuted` — **C95, the generator is not in the file.** A file loaded in a process whose generator is not in the state of the first one does not make it go on in the same way, although the file is complete, nothing was stored and no rule has a network.
* `C95_store_retrieve_refuted` — **C95, storing and retrieving** is not without consequences: with no call in between, the rules are the same afterwards but in reverse order, and the system answers differently later on.
* `C95_stored_refuted` — **C95, a stored population is not in the file.** With the generator in the same state, a system that has stored a population and one loaded from its file answer differently after the population has been retrieved.
* `C96_expand_refuted` — **C96 is refuted for expanding rules whose predictions have no second layer:** the functions that expand the networks of predictions check neither the number of layers nor whether the predictions are networks at all.
* `C96_loaded_recurrent_refuted` — **C96 is refuted for recurrent layers read from a file:** the outputs of such a layer are a null pointer, and the first prediction follows it.
* `C97_dropout_refuted` — **C97, refuted for networks with dropout**: a network with a dropout layer is made for an input and covers it while some outputs are dropped and the other ones scaled up; asked for a prediction at the same input right after, the rule does not contain it.
* `C97_recurrent_refuted` — **C97, refuted for networks with memory**: a recurrent network made for an input covers it, and does not contain it any more when the same input comes again.
* `C98_first_line_refuted` — **C98 refuted, first line**: all three training errors are 16, and a line is printed after every trial; the first one shows 32.
* `C98_first_line_too_large` — The first line always shows too much: with errors that are all the same `c`, it shows `c + c / perf`.
* `C98_last_trials_refuted` — **C98 refuted, last trials**: an experiment of a multiple of `perf` trials, as the defaults are, does not report the last of them: no line names one of the last `perf` trials, and no line is printed at all if there are no more than `perf` trials.
* `C99_abandoned_trial_leaks_refuted` — A trial that is abandoned when the next one begins: although the next trial is ended, a list node, an array and a rule that is in no population stay in memory.
* `C99_decide_twice_refuted` — Deciding twice in a step: the rules that match are twice in the match set, so that they count twice.
* `C99_end_step_twice_refuted` — Ending a step twice and then the trial frees nodes twice: the previous action set and the action set are the same nodes.
* `C99_end_trial_first_refuted` — Ending a trial that has not begun frees a pointer that nobody has set.
* `C99_end_trial_twice_refuted` — Ending a trial twice frees the array of the remembered state twice.
* `C99_fit_in_trial_refuted` — Calling `fit` in the middle of a trial: the next step writes to an array that `fit` has freed.
* `C99_predict_in_trial_refuted` — Asking for predictions in the middle of a trial: they may delete rules of the previous action set, which the next step uses.
* `C99_step_outside_trial_refuted` — A step outside a trial, after an earlier trial.

### Observed while reading, not (yet) theorems

* `predict()` and `score()` change the reported averages of the match set size and matching fraction, and
  increment the age of matching rules.
* GP: a division at the root of a tree can overflow to infinity in doubles.
* JSON import accepts any numerosity, any action and any characters in ternary conditions; the
  graph parameter `t` is not checked and `mu` stays uninitialised.
* Rectangle and ellipsoid mutation bound the spread from below by DBL_EPSILON, not by `spread_min`.
* Ternary mutation does not keep the condition matching the current input.
* `graph_rand` never draws the largest number of cycles.
* `pa_rand_action` loops if no action is represented; `pa_best_action` indexes by action, which is wrong for `y_dim > 1`.
* Setters accept NaN (C46) and type setters accept any code ≥ 0.
* `param_init` reads `E0` before it is set.
* The Python `predict` does not release its output buffer on an exception.
* `RULE_TYPE_NETWORK` is a legal name but ends the program when used.
* Neural: randomising an LSTM layer leaves the active count stale; connectivity mutation of convolutional and
  LSTM layers does not ensure representation; the LSTM gradient is taken at activated values;
  `recurrent_copy` omits `n_weights` and `n_biases`; a convolution resized to another image keeps its flat
  weights; `mutate_neurons` loops for ever when `max_neuron_grow` is 0; dropout with probability 1 divides by
  zero; `neural_create` writes into the argument list it is given; `cond_neural` has by default an output layer of
  10 neurons where one is used; `act_neural` reads as many outputs as there are actions without a check.
* Saving: the learning-rate limits, momentum, decay, growth limit and output memory of a recurrent layer are not saved;
  `n_inputs` and `n_outputs` of the saved network are read and ignored.
* In the multi-threaded build `clset_match` declares a variable-length array of `pset.size` elements, which is undefined
  for an empty population (clset.c:360).
* `pred_expand` and `ae_to_classifier` do not check that predictions are neural networks: with any other kind of
  predictions the rule's prediction is read as a network (pred_neural.c:308 and 352).
* `ae_to_classifier` does not convert the rules of a stored population; `retrieve` brings back rules with the old number
  of outputs.

## 5. Status per property

`proved` and `partial` are about the full English statement; MANIFEST.json lists all theorems.

| id | status | what is proved and what is missing |
|----|----|----|
| C01 Population never exceeds POP_SIZE | proved (2 theorems) | All histories of valid calls, arbitrary arithmetic and representation; initial size too. |
| C02 Population counters always agree with the rules | proved (2 theorems) | For valid calls (inserted or imported rules of numerosity >= 1). The refutation theorem shows that JSON import of a rule with numerosity 0 breaks it. |
| C03 A deletion removes exactly one micro-classifier | proved (3 theorems) | Single deletion, limit enforcement, and insertion at the interface. |
| C04 Rules that never match are deleted first | proved (2 theorems) | All of the statement. |
| C05 Rule memory is never used after free, freed twice or leaked | proved (3 theorems) | No use of freed rules for any arithmetic; no leak; no undefined behaviour for regular systems over an ordered field. |
| C06 Roulette wheels always land on an existing rule | proved (3 theorems) | Exact arithmetic (linear ordered field). |
| C07 The match set is exactly the set of matching rules | proved (1 theorems) | All of the statement. |
| C08 Covering leaves every action represented | proved (1 theorems) | All of the statement. |
| C09 Match-set numerosity is exact | partial (2 theorems) | The full statement is false of the code: C09_refuted is a reachable counterexample (covering in a full population lowers the numerosity of a match-set rule without updating the recorded total). The partial theorem proves exactness when matching does not cover (all actions present) or covers without exceeding the limit. |
| C10 The action set is exactly the matching rules advocating the chosen action | proved (1 theorems) | All of the statement. |
| C11 Set subsumption conserves numerosity and only absorbs covered rules | proved (1 theorems) | All of the statement. |
| C12 Every EA offspring adds exactly one micro-classifier | proved (2 theorems) | All of the statement. |
| C13 The EA is gated by time and never runs on an empty set | proved (1 theorems) | All of the statement. |
| C14 Prediction and scoring do not learn | proved (2 theorems) | For representations whose parameters are not changed by matching, acting or predicting with learning off (Passive). |
| C15 Evaluating on test data during fit does not change the population | partial (3 theorems) | The full statement is false of the code: C15_refuted and C15_refuted_displaces are reachable counterexamples (a validation sample triggers covering, and in a full system deletes rules). The partial theorem proves it for samples for which every action is represented. |
| C16 Error, fitness and set-size estimates stay in range | proved (4 theorems) | Exact arithmetic (linear ordered field). Fitness positivity needs numerosity >= 1 and experience; the ranges are stated exactly in the theorems. |
| C17 The first updates average exactly | proved (2 theorems) | Exact arithmetic. |
| C18 Fitness shares in a set sum to one | proved (2 theorems) | Exact arithmetic. |
| C19 The prediction array is the fitness-weighted mean | proved (3 theorems) | Exact arithmetic. |
| C20 Greedy and exploratory action choice | proved (4 theorems) | Exact arithmetic; single-output systems as in reinforcement learning (the code indexes the array by action, which is only right for one output). |
| C21 Training samples are in range and cover the data | proved (5 theorems) | Index validity uses that the uniform generator returns values in [0,1) (Regular). |
| C22 Batch prediction is row-wise and score is the mean loss | proved (3 theorems) | For representations whose answers do not depend on hidden state (Stateless: not recurrent networks). |
| C23 Reinforcement credit assignment | proved (3 theorems) | Every step of every trial, single-step trials and rl fit; the effect on every rule is stated exactly (Credited), subsumption and EA follow as usual. |
| C24 Storing and retrieving the population restores it | proved (2 theorems) | The list order is reversed and current predictions are reset by the copy; the theorem states this exactly. |
| C25 Save then load restores the system | partial (8 theorems) | Byte-level model of xcsf_save/xcsf_load for all condition, action, prediction and layer types. Proved for every codec of doubles, every generator and every whole system: loading what was saved consumes the file exactly, reports the same count, restores all parameters and all rules in order (networks of all layer types come back as FNet.reload says; exactly, up to working memory, if no layer is recurrent or LSTM; exactly equal if no rule has a network). C25_same_outputs_partial: the working memory does not matter, a loaded network of non-recurrent layers computes the outputs of the saved one for every input, mode and random state, and its layer sizes still agree. Refuted: recurrent layers come back without outputs, LSTM layers without activation functions, more GP constants than the loading system has memory for overflow the heap. |
| C26 Incompatible save files are refused | proved (3 theorems) | For all files: other major/minor versions exit; whatever loads has the program's version; the build number does not influence the result. |
| C27 JSON population import keeps order and limits | proved (2 theorems) | That imports never exceed pop_size is C01_population_capped (import is one of the calls of a history). An empty list is undefined behaviour, see C27_refuted_for_empty_import. |
| C28 A covered hyperrectangle matches its input | proved (2 theorems) | Exact arithmetic; the minimum spread must not be negative. |
| C29 Hyperrectangle generality implies coverage | proved (2 theorems) | Soundness for all pairs, and exactness when the second rectangle is not empty. |
| C30 Hyperellipsoid generality implies coverage | partial (3 theorems) | The full statement is false of the code: C30_refuted (two-dimensional counterexample). Proved for one dimension and for ellipsoids with the same centre. |
| C31 Interval and ellipsoid operators keep parameters legal and report change truthfully | proved (5 theorems) | Exact arithmetic. Crossover may report a change when equal genes were exchanged (C31_crossover_refuted). |
| C32 Ternary conditions | proved (8 theorems) | At most 31 bits per element: with more the encoding overflows int (C45_binary_overflow). |
| C33 GP trees stay well formed | proved (11 theorems) | Exact arithmetic; growth, crossover, mutation, evaluation and printing against an inductive type of expressions. C33_small_max_len_hangs: max_len of 1 or 2 (accepted by the setter) makes tree creation loop forever. C33_crossover_exceeds_max_len: crossover is not limited by max_len. In doubles a root division can overflow to infinity; exact arithmetic does not show this. |
| C34 Dynamic graph states stay in [0,1] and wiring stays in range | partial (15 theorems) | Proved for graphs that are created, randomised, mutated, copied, updated and round-tripped through JSON. False for imported JSON (C34_import_refuted: a connection equal to n + n_inputs is accepted and read out of bounds; C34_import_then_copy_refuted: more nodes than configured); C34_import_partial gives the missing checks. Mutation also reports a change when the number of cycles moves by zero (C34_mutate_overreports). |
| C35 Covering a DGP/neural rule yields a matching rule with the requested action | partial (6 theorems) | False in the code: the loop condition uses && where \|\| is needed. C35_dgp_refuted, C35_dgp_nomatch_refuted and C35_neural_refuted give concrete rules that match with another action, or have the action but do not match. Proved: one of the two holds (_partial), and the full property for neural actions, whose loop only tests the action. |
| C36 Computed actions are always valid action indices | partial (8 theorems) | Proved for graph rules, neural rules, integer actions and neural actions with enough outputs; every action is representable. False for JSON import of integer actions (C36_import_refuted); graphs with no more nodes than action bits read out of bounds (C36_small_graph_ub). |
| C37 NLMS reduces its error on the presented sample | proved (3 theorems) | Exact arithmetic; learning rate in [0, 2] and beta > 0 as stated. |
| C38 Quadratic NLMS reduces its error too | partial (3 theorems) | The full statement is false of the code: C38_refuted (the normaliser omits the quadratic terms, so the error can grow). Proved: the exact factor, and the contraction for inputs of small norm. |
| C39 RLS maintains the inverse correlation matrix | proved (3 theorems) | Exact arithmetic, lambda > 0 and scale > 0. A copy (offspring) keeps the weights but forgets the gain matrix (C39_copy_forgets). |
| C40 The feature expansion has exactly the allocated length | proved (2 theorems) | All of the statement. |
| C41 Constant prediction tracks the payoff | proved (3 theorems) | Exact arithmetic. |
| C42 Losses are non-negative and zero on perfect predictions | proved (10 theorems) | Exact arithmetic with log and sqrt as parameters with their contracts. The Huber theorems need delta > 0; the setter accepts 0, for which C42_huber_zero_delta shows the loss is always 0. |
| C43 gemm computes the matrix product | proved (6 theorems) | All sizes, strides and leading dimensions under which rows do not overlap. |
| C44 Self-adaptive mutation rates stay legal | proved (3 theorems) | For every generator whose draws lie in the open unit interval, every initial and every self-adapted mutation rate, after any number of adaptations, is legal for its kind. The exponential and the Gaussian are arbitrary parameters; exp only has to be positive where that is used. |
| C45 Small numeric helpers | proved (6 theorems) | Clamps, random integers, binary encoding (bits <= 31) and argmax; the encoding with 32 bits is shown to overflow int (C45_binary_overflow). |
| C46 Parameter setters enforce their documented ranges | partial (5 theorems) | For argument values that are numbers or infinities every range holds after every sequence of setter calls; C46_nan_refuted shows the full statement is false of the code (NaN passes the comparisons). C46_pairs_unordered shows that related pairs such as min/max are never compared. |
| C47 Type names round-trip | partial (4 theorems) | Exact for eight of the nine tables (C47_names). The layer table is refuted (recurrent is compared with too short a length, so recurrent_lstm is accepted) and exact up to that; the advertised one_hot loss is refused by the parser. |
| C48 Network layer list operations | partial (12 theorems) | Proved on a pointer model: every history of insert, push, remove and pop refines the operations on a sequence with the same failures, keeps links in both directions, ends, count, output size and output array, and loses no memory; copy and free are exact. Missing because false of the code: inserting before the input layer follows NULL (C48_insert_front_refuted, so expanding a one-layer network does, C48_expand_single_refuted), and removing the input layer leaves the network's number of inputs stale (C48_inputs_refuted). |
| C49 Network dimensions stay consistent under mutation | partial (7 theorems) | Model: all ten layer types and networks of them (creation, mutation with resizing of followers, resize, forward pass, randomise, copy). For every network created from parameters within the limits and every history of these steps, each layer reads what the one before writes (numbers of inputs, width, height, channels), a forward pass has no undefined behaviour and writes all outputs; a fixed-size output layer keeps all its reported outputs readable. Missing: image layers behind a layer of neurons of evolving size are excluded; learning steps are not part of these histories. Refuted for the excluded cases: width left stale by growth or shrinking (wrong input count, read out of bounds), resizing decided by the number of outputs alone (shapes disagree), and the network's number of outputs left stale when the output layer shrinks. |
| C50 Activation functions stay in range and gradients are derivatives | proved (7 theorems) | Over the real numbers with libm's functions taken as the real functions: value, documented range, set of differentiable points and derivative of all eleven functions; other codes exit; arrays are clamped to [-100,100] and mapped. Rounding is not modelled. |
| C51 Softmax output is a probability vector | proved (8 theorems) | For every non-empty real vector and non-zero temperature (order: positive): value, positivity, sum one, order, shift invariance, absence of overflow; the error passed back is the temperature times the gradient of the log-likelihood. At temperature zero, the default of the layer parameters, no output is a number (C51_zero_temperature_refuted). |
| C52 Back-propagation computes the gradient | partial (5 theorems) | Proved for every network of fully connected layers whose states are not at their limit and whose activation functions are differentiable at the states: forward computes the network function, backward adds the partial derivatives of the negative half squared error to every weight and bias update, the delta passed back is the gradient with respect to the inputs, the update step has the exact documented effect. Missing because false of the code: a state cut off at +-100 is treated as if it were not (C52_saturated_refuted). Real arithmetic, libm taken as the real functions. |
| C53 Weights stay within limits and masked weights stay zero | partial (16 theorems) | Proved for fully connected, convolutional, recurrent and LSTM layers: every history of creation, random reset, forward, learning, mutation, resizing and copying keeps weights and biases within +-10, masked weights zero, the active count exact and the array sizes right; the only faults are the documented size exit and the growth loop. Representation of every input and neuron holds in connected layers whenever the number of neurons does not evolve, and after every connectivity mutation. False of the code: neurons added after the connectivity mutation may have no active input (C53_growth_refuted); the int product overflows before the size guard (C53_size_overflow_refuted); a recurrent layer that grows and learns reads memory that was never written (C53_recurrent_growth_refuted); randomising a recurrent layer leaves its active count stale (C53_recurrent_rand_refuted); connectivity mutation of recurrent layers may disconnect all inputs (C53_recurrent_representation_refuted). Trusted: \|normal draw\| <= 10 standard deviations (Box-Muller on 64-bit uniforms). |
| C54 Pooling, up-sampling, dropout and convolution index correctly | partial (26 theorems) | Max pooling, average pooling, up-sampling, dropout, noise and convolution: forward values, backward passes as adjoints, construction, copy and resize, for all shapes; convolution: outputs are bias plus the sliding-window sum over the padded image for all kernel sizes, strides, paddings and channel counts, updates and handed-on errors are those of the adjoint, no access leaves its buffer and no unwritten element is read. Max pooling needs windows wider than the padding of one side (refuted otherwise: the program ends). Refuted for convolution: kernels of size one ignore stride (wrong outputs) and padding (read past the image); an image smaller than the kernel in both directions passes the checks and reads unwritten memory; a layer without gradient descent hands on errors without the derivative of its activation. Index arithmetic on images is in unbounded integers, sizes in int with overflow as undefined behaviour. |
| C55 Multiplexer environment | proved (4 theorems) | The multiplexer is modelled completely. C55_xdim_overflow shows that a configuration file which raises x_dim after the environment was created makes the environment hand out a buffer that is too short. |
| C56 Maze environment | partial (13 theorems) | Proved for every legal maze. Missing because false of the code: wide files overflow the fixed buffer, a last row without newline is lost, ragged mazes are read outside the row, and a maze without an empty cell makes reset loop for ever; each has a witness theorem. |
| C57 Configuration comments are ignored | partial (5 theorems) | Proved for files whose lines are shorter than the read buffer and contain no string with blanks. Missing because false of the code: long comment lines are parsed as data, a file with no removable character overflows the buffer by one byte, and blanks inside strings are removed; each has a witness theorem. |
| C58 Early stopping | partial (6 theorems) | Proved for one fit call with a fresh callback. Missing because false of the code: a callback object that is used for a second fit keeps the record of the first (C58_reuse_refuted). |
| C59 Checkpointing | proved (5 theorems) | C59_best_report_missed records that with save_best_only a best result between two checks may be skipped. |
| C60 fit() runs the requested number of trials | partial (3 theorems) | The full statement is false of the code: C60_refuted (1500/1000 runs 2000 trials). The partial theorem characterises exactly when the count is right. |
| C61 Array arguments are shape-checked before use | partial (5 theorems) | Proved for row-major data with two axes, or one axis and x_dim = 1. Missing because false of the code: one axis with x_dim > 1 is accepted and read out of bounds (for every system and data set), arrays without axes, and arrays with other strides (transposed or sliced views), which are read in the wrong order; each has a witness theorem. |
| C62 Errors are measured on fresh predictions | partial (2 theorems) | The full statement is false of the code: C62_refuted (a rule in the previous and the current action set is scored in the terminal step with its prediction for the previous input). The partial theorem: predictions are fresh when the action is decided. |
| C63 A covered hyperellipsoid matches its input | proved (2 theorems) | The excluded degenerate case really fails (C63_degenerate). |
| C64 Evolved learning rates stay within bounds | proved (2 theorems) | Exact arithmetic. |
| C65 Deletion votes | proved (6 theorems) | Exact arithmetic. Added after a wrong program (vote without the experience test) survived the earlier theorems. |
| C66 The reported system error is the moving average of training losses | proved (8 theorems) | Closed form, bounds, single calls, whole histories, training runs and multi-step trials. Clock of exploring multi-step trials depends on the environment and is only stated for exploitation. Added after the seeded bug fitStep survived. |
| C67 New rules inherit reduced estimates from their parents | proved (1 theorems) | C67_offspring_values, for the whole run before the limit is enforced (later deletions only lower numerosities, C03). |
| C68 CSV data are read as written | partial (5 theorems) | Proved for rectangular files with rows shorter than the line buffer. Missing because false of the code: long rows and ragged rows are read out of bounds or left uninitialised, and input and output files of different length are not rejected; each has a witness theorem. |
| C69 The cover array belongs to its owner | partial (6 theorems) | Proved for all histories in which no cover array is passed. Missing because false of the code: after a call with a cover array the caller's array is zeroed by the next call, used after it was released, passed to free by the next fit, read too far with several actions, and a list is released before it is used; each is a theorem for every system and data set. |
| C70 A learning step refers to the state that was acted upon | partial (3 theorems) | Proved if the array is neither released nor modified between the calls. Missing because false of the code otherwise: the address is kept, not the values (C70_released_refuted, C70_reused_refuted). |
| C71 Recurrent layers compute and learn their recurrence | partial (6 theorems) | Proved over the reals for all sizes, parameters and sequences: the output of a recurrent layer is the fold of its documented recurrence over the inputs, memory and output of an LSTM layer likewise. The learning half is false of the code, with proved reasons: once the learning rate of a recurrent layer has been mutated it is zero for ever and training changes nothing, after every history (C71_recurrent_eta_refuted); the recurrent weights of a recurrent layer are fed with the last output forward and with the last state backward, so the update is not the derivative (C71_recurrent_self_gradient_refuted); prev_state and prev_cell of an LSTM layer are never set, so no training of any length changes the forget gate or the weights of the recurrent connections (C71_lstm_memory_never_learned). libm taken as the real functions. |
| C72 Loading resizes the prediction array | partial (2 theorems) | Refuted by a concrete pair of systems: the array keeps the loading system's size and the loaded rules' predictions are written behind it. Partial: right if the dimensions agree. |
| C73 Truncated save files are detected | partial (2 theorems) | Refuted for all systems: a file cut after the number of actions loads without an error. Partial, for all cuts: the reported element count is then smaller than the saved one. |
| C74 Complete systems never run into undefined behaviour | proved (2 theorems) | Every condition type but neural, integer actions, constant, NLMS and RLS predictions. Rejection loops (covering with GP trees and graphs, growing trees) carry a bound whose exhaustion is the outcome hang, which the theorem allows. |
| C75 Covering and prediction of complete systems | proved (2 theorems) | Graphs restart at each input (STATEFUL false); spreads are not negative, for ellipsoids not all zero. |
| C76 Subsumption never uncovers an input | partial (2 theorems) | Proved for all condition types but hyperellipsoids (C76_subsumption_keeps_coverage_partial). False of the code for hyperellipsoids: C76_ellipsoid_refuted. |
| C77 Restoring a stored population restores what the system predicts | partial (4 theorems) | Proved for NLMS and RLS predictions (C77_predictions_restored_partial). False of the code for constant predictions: the learned value lives in the current prediction, which cl_init_copy sets to zero, so after retrieving every rule predicts zero (C77_constant_refuted, C77_constant_forgotten); restoring the best population in early stopping is affected. RLS outputs are kept but gain matrices are reset (C77_gain_forgotten). |
| C78 Networks of all kinds of layers can be trained after every history | partial (3 theorems) | Proved for every network created from legal parameters and every history (C78_training_partial) and for repeated training of any network of legal shape (C78_training_step). False of the code for a recurrent layer trained by gradient descent whose number of neurons evolves: the memory added by growing is read before it is written (C78_recurrent_growth_refuted). The restriction on image layers behind layers that grow is that of C49. |
| C79 Systems made of neural networks never run into undefined behaviour | partial (4 theorems) | Proved for all histories of systems whose networks satisfy NetPlan.Legal; hidden layers may evolve, and a softmax output behind neurons of fixed number is covered. Refuted for output layers whose number of neurons evolves, which nothing forbids: neural actions then read beyond the outputs, neural predictions beyond the target. The restrictions of C49 and C78 remain (image layers behind layers of fixed size, recurrent layers trained by gradient descent of fixed size; no maxpool layers, since they may end the program; only layers with weights or softmax in predictions whose sizes evolve). |
| C80 Learning rates of network layers stay within the configured limits | partial (2 theorems) | C80_rates_partial: for every network created from its parameters and every history not ending in a fault the rates are within eta_min and eta and equal eta unless they evolve. Excluded: recurrent layers with evolving rates, for which C80_recurrent_refuted shows that the first mutation sets the rate to 0, below eta_min, because neural_layer_recurrent_init never sets the limits. |
| C81 Operations on a network change only what its switches allow, and mutation reports its changes | proved (4 theorems) | C81_mutation_switches (any network), C81_propagation, C81_training_switches (legal networks, the invariant of C49/C78), C81_unreported_mutation (any network, any later history of propagation and training, same outputs or same fault). |
| C82 Exporting the population as JSON and importing it restores the rules | partial (9 theorems) | Proved for all condition types but trees and for non-empty populations: the round trip restores every attribute, condition, action and weight (C82_roundtrip_partial), the predictions (C82_predictions_partial) and the safety of later calls (C82_safe_after_import). The code violates the rest: tree conditions are exported (C82_tree_export) but importing them always ends the program (C82_trees, C82_trees_refuted), the document of an empty population makes the importer dereference NULL (C82_empty, C82_empty_refuted), and the gain matrix of RLS is not exported, so it is that of a new rule afterwards (field gain of Restored). C82_other_type_accepted: the type written in a document is never read, so a document of another rectangle type is accepted and leaves a random condition. The text form of numbers and the cJSON library are trusted. |
| C83 The reported parameters can be set again and restore the configuration | partial (5 theorems) | Proved for every configuration that can be made whose layers are reportable (FileOk, Reportable): the report is accepted by any system, restores all parameters (SameParams) and the later report is the same; without neural networks the report always exists. Refuted: a first dropout/noise layer for images loses height, width and channels; the default networks after x_dim is set; a population file name longer than 512 characters makes the report read out of bounds. |
| C84 The representations that parameters describe fit the problem | partial (6 theorems) | Proved: trees and graphs have the inputs of the problem the C structure was initialised for; layers given after x_dim make networks with x_dim inputs unless the first is an image layer. Refuted in general: in Python every tree and graph condition looks at the first input only (for all documents and all rules); default networks have one input and one output whatever is asked for; image shapes are not compared with x_dim; layers before x_dim get one input. |
| C85 With a given random_state the construction of a system does not depend on the clock | partial (2 theorems) | Proved for any generator and any two clocks: same refusal, or same parameters up to the constants of trees and the same random state; the constants agree too if tree conditions are given with arguments after random_state. Refuted for trees with default arguments, whose constants are drawn before the seed. |
| C86 Setting parameters keeps every parameter in its range or refuses | partial (3 theorems) | Proved for all parameters that are not parameters of layers, for every sequence of documents of any content, and that documents with unknown names or values of a wrong kind are refused. Refuted for layers: a negative learning rate is accepted. |
| C87 Reporting the parameters has no effect | partial (3 theorems) | Proved without neural networks: nothing changes. With them a second report is the same and the parameters stay as the first left them. Refuted with neural networks: a report draws random numbers, because it builds a network to check the arguments. |
| C88 Multi-threaded execution gives the serial result | partial (9 theorems) | Every call and history in which loop bodies use no random numbers has, under every schedule, exactly the outcome of the serial loops (C88_any_schedule_partial), loops can always be finished (C88_loops_finish), a single thread is the serial loop even with random numbers (C88_one_thread), the serial outcome is always possible (C88_serial_possible). All systems without networks (C88_systems) and all with networks without noise and dropout layers (C88_networks_partial) qualify. False otherwise: threads that both use the generator race in every schedule (C88_races_in_every_schedule, C88_matching_races), with a concrete system with noise layers (C88_noise_refuted). Steps that overlap in time without a race, the creation of threads and the memory model below data-race freedom are not modelled. |
| C89 Parameters may be changed between calls | partial (10 theorems) | Proved for all histories of calls, parameter changes and reseedings, over any representation and for the complete systems of C74 and C79: no undefined behaviour, legal rule values, exact counters, population within every bound of the limits that were in force, and inserting a rule applies the limit in force. Missing because false in the code: changes of sizes (C89_more_actions_refuted: raising n_actions leaves the prediction array as it is and the next fit writes behind it; C89_features_refuted: switching linear predictions to quadratic writes behind each rule's feature array) and the limit itself (C89_lowered_limit_refuted: lowering pop_size is not applied until a call adds rules). For networks the arguments of layers must be kept. |
| C90 Expanding the networks of a population is safe and exact | partial (5 theorems) | Proved for all histories of calls and expansions over the networks of C79 that have a hidden layer not wider than a layer of neurons may be and an output layer that is not convolutional. Missing because false in the code: a network of one layer, which a user may set, is dereferenced through a null pointer (C90_single_layer_refuted), and with a hidden layer of more than 4472 outputs the program ends, of more than 46340 the number of weights overflows (C90_wide_refuted). |
| C91 An autoencoder can be turned into a classifier | partial (6 theorems) | Proved for all histories before and after the conversion if no population is stored at that moment and the layers of new networks are set to have one output for each class. Missing because false in the code: the conversion leaves the layer parameters as they are, so that rules created afterwards end the program (C91_more_classes_refuted) or read beyond the desired output when they learn (C91_fewer_classes_refuted). Rules of a stored population are not converted, so that after retrieving they end the program or read beyond the desired output (C91_stored_refuted, for every history). |
| C92 Learning in mixed networks follows the gradient | partial (3 theorems) | For every stack of connected, convolutional, recurrent, pooling, upsampling, dropout and noise layers at which the network function is differentiable and whose layers learn: forward and backward succeed and every accumulated update grows by the partial derivative of minus half the squared error of the network function (with the random draws of the forward pass and the memories of recurrent layers fixed). With a softmax output layer the updates are the derivatives of the scaled logarithmic likelihood of the targets (targets summing to one); that they are those of the squared error is refuted. Missing: the weights with which recurrent layers read their last outputs (refuted: C71_recurrent_self_gradient_refuted), LSTM layers (refuted: C105_lstm_gradient_refuted), states at their limit (refuted in C52), layers without gradient descent (refuted in C54). |
| C93 Systems of neural networks answer with what their networks compute | partial (8 theorems) | Proved for all legal networks (restrictions of C49 and C79) without recurrent and LSTM layers; refuted for recurrent layers: the same row twice in a batch is predicted differently (C93_recurrent_refuted). For a network by itself maxpool layers are included provided what reaches them exceeds -DBL_MAX, and recurrent and LSTM layers with the memory they have (C93_network_partial). |
| C94 Calls come back | partial (10 theorems) | Proved for every history: in systems whose rules have an interval, ellipsoid, ternary or no condition, any prediction of C74 and integer actions, and in any regular system in which creating and mutating a rule return, no call hangs (history_ends, system_ends); calls that do not learn always return (no_learning_returns); fit, test and single reinforcement steps return if the total numerosity plus the number of actions is at most the population size (learning_returns). The full claim is false, refuted by: tournaments of size 0, which the parameter allows (empty_tournament_refuted for every number of passes, history_refuted by two calls of fit with legal parameters); neural conditions without weights that do not match (C94_neural_cover_refuted); tree conditions with all constants zero, covering the zero input (tree_cover_refuted, for every number of trees); a population smaller than the number of actions, for which fit ends the program (small_population_refuted). Missing: systems with tree, graph or neural parts, whose covering is a search. |
| C95 There is no hidden state: a saved system continues where it stopped | partial (5 theorems) | No hidden state is proved in full (C95_no_hidden_state). Resuming from a file is proved for rules without networks (the buffers of networks come back cleared), with nothing stored and the generator in the same state (C95_resume_partial). The rest is refuted: the file holds neither the generator (C95_generator_refuted) nor the stored population (C95_stored_refuted), and storing and retrieving reverses the rules, which changes later answers (C95_store_retrieve_refuted). |
| C96 Conditions, actions, predictions and networks give back all memory and never use released memory | partial (7 theorems) | Full for all histories: all memory is returned when a history ends, nothing is used after release or released twice, and the number of arrays is constant under matching, learning, mutation, crossover and comparison. That no null pointer is followed is partial: it holds without recurrent layers read from files and JSON imports do not end the program; refuted for recurrent layers read from a file (their outputs are missing) and for expanding or converting predictions that are not networks of enough layers, which the code does not check. The sizes of the arrays are not part of this model (C34, C35, C48 and others cover index ranges), nor is memory of the system itself (parameters, sets, prediction array), which C05 covers for rules and sets. |
| C97 A rule made of networks contains the input and advocates the action it was made for | partial (4 theorems) | Proved for systems whose condition and action are separate and whose networks have no layers that work by chance (dropout, noise) and none with memory (recurrent, LSTM), over the reals, spreads of regions not negative. Refuted for dropout (C97_dropout_refuted) and recurrent layers (C97_recurrent_refuted); for rules that are one single network or graph the action is refuted in C35. |
| C98 The progress report shows the averages since the previous line and does not disturb learning | partial (8 theorems) | Proved: trial numbers of the lines, the values of all lines but the first, the returned average, and that reporting is passive (C98_report_is_passive, C98_experiment_is_its_trials). Refuted: the first line sums PERF_TRIALS + 1 trials but divides by PERF_TRIALS (C98_first_line_too_large, C98_first_line_refuted); the last trials are not reported (C98_last_trials_refuted). The numbers of reinforcement learning trials are those of the exploiting part (C98_reported_trials). Rounding to five digits in print is not modelled. |
| C99 Driving trials step by step from Python is safe, leaves nothing behind and equals a built-in trial | partial (13 theorems) | Proved for calls in the documented order, for any arithmetic, parameters, representation and history: no use of released memory (C99_order_is_safe_partial), nothing left allocated and the rules are those of the populations (C99_nothing_left_partial), no undefined behaviour for regular systems over exact arithmetic (C99_no_undefined_behaviour_partial); the calls return and do what the functions of a trial on sets as values do (C99_sets_are_values_partial); the documented program is a built-in trial (C99_program_is_trial, no hypothesis but that no trial is under way). For other orders the statement is refuted: end_trial twice, end_step twice, fit or predict in the middle of a trial, a step outside a trial use released memory; end_trial first frees an uninitialised pointer; an abandoned trial leaks a node, an array and a rule; deciding twice counts rules twice. Lists of the population, the stored population and the kill list are values here; that the array given to decision is alive is assumed (C70 shows when it is not). |
| C100 Pickling gives back the system that was pickled | partial (7 theorems) | In one process pickling and unpickling give back parameters, rules and counts as `save` and `load` do (C25). Under every schedule a process whose directory no other process uses gets its own bytes, and so do processes that pickle one after another. Refuted: two processes in one directory (one gets the system of the other, the other an empty string that ends the program that loads it), and the prediction array: the unpickled system has the array of a system with one output and one action, so that for all other systems the next prediction writes outside of it. The generator, the stored population and the table of metrics are not part of the pickle and not modelled here; a process writes its bytes in one piece. |
| C101 get_params() shows the parameters in use, and copies made from it have them | partial (7 theorems) | Proved for parameters that are a single value, for all histories whose whole-number arguments are whole numbers. The full statement is refuted: nested parameters (ea, condition, prediction) set one after another replace each other in get_params() only; values above a limit are shown as given; a fraction given for a whole number is shown as given while its integer part is in use; with more than one action gamma, teletransportation and p_explore are in use but not shown; after ae_to_classifier the old y_dim is shown. |
| C102 The training record tells what happened | partial (8 theorems) | The entries are proved to be those of the epochs for all sequences of calls; the number of trials is proved for warm starts with epochs of one size. The full statement is refuted: with epochs of another size the recorded numbers of trials are wrong and may go down, without a warm start they go on from the system thrown away, each row of the validation data changes the recorded size of match sets, and validation data that is not an array of doubles is read after it has been released. |
| C103 The picture of a condition shows the condition | partial (8 theorems) | Proved: trees of any shape are drawn exactly (one node per node, operands in order, names of inputs) as long as Python's limit of nested calls suffices, which it does for depth up to (limit-1)/3, and otherwise RecursionError is raised; a picture shows one expression only if labels differ; graphs are always drawn, and the states one computes from the picture are those of the graph. Refuted: trees nested too deeply are not drawn; constants are drawn with five decimals, so that a tree matching everything and one matching nothing have the same picture. |
| C104 The statistics of the population are means over its rules | partial (5 theorems) | C104_means_partial: after every history every statistic is the mean of the counted quantities (neurons are the elements of the arrays, connections the weights switched on, sizes the intervals, symbols, nodes or weights), if sums stay below the largest int and recurrent and LSTM layers have noted their weights in use (C53). C104_reads_live_rules: no freed rule is used, only a sum can overflow. C104_empty: statistics of networks are 0 for no rules. Refuted: C104_new_system_refuted (mean sizes of a system without rules are 0/0), C104_overflow_refuted (more than 2147483647 layers altogether). |
| C105 LSTM layers learn the gradient of their outputs | partial (9 theorems) | For every legal LSTM layer with any memory, input and target, the exact updates of all four gates' weights and biases for the input are given beside the true derivatives: output gate (C105_output_gate), forget gate, input gate and candidate (C105_memory_gates). Where the code's derivatives at values equal those at states (linear functions), nothing is left in dc by an earlier step, and the forget gate is not asked to use a memory, the updates are the partial derivatives (C105_output_gate_partial, C105_memory_gates_partial). Refuted with concrete layers otherwise: default functions, because neural_layer_lstm_backward passes activated values to neural_gradient_array (C105_lstm_gradient_refuted); the forget gate, which never learns at all because prev_cell is never written (C105_forget_gate_never_learns for every layer, C105_forget_gate_refuted); and any example after the first, because dc carries the last example's error (C105_last_error_refuted, C105_second_example_refuted: an example with zero error still changes the updates). The parts that read the last output never learn (C71). |
| C106 The JSON shown for a network describes the network | partial (8 theorems) | Proved: after every history the document can be made, with and without weights, and shows the layers in order with all that the statement lists (C106_shown), and the settings of each kind of layer (C106_settings); no document is made for a layer with an unknown activation function (C106_unknown); networks without recurrent and LSTM layers for inputs of the same sizes whose documents with weights are equal compute the same outputs of every layer for every input (C106_complete_partial). The code violates the rest: the program only ever shows documents without weights (C106_weights_refuted), the memory of recurrent layers is not shown (C106_memory_refuted), the image sizes of convolutional layers are not shown (C106_image_refuted), and reading a network back always ends the program (C106_import_refuted). Printing and parsing of JSON text is trusted. |
| C107 The stand-alone program learns from the files it is given | partial (13 theorems) | For every data set of well-formed files, every configuration that does not set the numbers of inputs and outputs, and every rule representation: the program's run is the initialisation with the configured parameters followed by learning from exactly the rows of the files (C107_learns_the_data_partial), also from a stored system (C107_continues_partial); wrong command lines, unknown problems, missing files and malformed configurations end it (C107_usage, C107_unknown_problem, C107_missing_data, C107_missing_maze, C107_bad_config). Refuted: a configuration with x_dim makes the program read inputs across rows or past the end of the data; test files are not compared with the training files; names of 188 or more characters are cut and the files not found; a size that is not a number runs the one-bit multiplexer. |
| C108 A population file seeds a new system | partial (9 theorems) | For all condition types but trees, every prediction type, every history that left rules, every generator: C108_seeded_partial (the rules, their order and attributes, the random rules before them, the numbers of a new system), C108_safe_partial (no later history is undefined), C108_no_file, C108_unusable (missing, empty and malformed files end the program). Refuted: the file of an empty population is read through a null pointer (C108_empty_refuted), a document with another first member is ignored without a message (C108_ignored_refuted), files with trees end the program (C108_trees_refuted), and the loaded rules are not evolved until the clock of the new system has caught up with their time stamps (C108_evolution_refuted, C108_evolution_waits). Both systems have the same parameters. |
| C109 Rounding, overflow, infinities and not-a-numbers never lead to undefined behaviour | partial (14 theorems) | Proved for the life cycle of C01-C29 over an abstract type of doubles with rounding, infinities and one not-a-number: no undefined behaviour (C109_no_undefined_behaviour), fitness and sizes not negative (C109_not_negative), wheels and indices for themselves (C109_wheel_stops, C109_random_index). binary64, rounded to nearest and even, is shown to be such a format (Binary64.lean). Refuted for random trees with one constant and one input: for the largest random number the leaf is rounded up to the excluded bound and evaluating the tree reads past the input (C109_tree_leaf_refuted, C109_random_leaf); leaves are in range if no power of two is between the number of leaves and the bound (C109_leaf_partial). Findings proved beside it: an error that is not a number stays so and counts as full accuracy (C109_nan_error_is_accurate), and one fitness that is not a number makes roulette selection return the first rule always (C109_nan_wheel_stops_at_first). The same with parameters changed between calls (C109_settings_partial) and trials made step by step (C109_steps_partial). Also proved: losses, the training error and the errors of rules are never negative (C109_losses_not_negative, C109_training_error_not_negative, C109_rule_errors_not_negative). Of parameters only what the setters check is asked, so they may be not a number (C112). Simplified: signed zeros are identified; the arithmetic inside representations is a parameter. |
| C110 A bad sample does no lasting harm | partial (35 theorems) | Refuted: C110_error_lost shows for every system and every history that after one bad sample the training error is never a number again; C110_infinite the same for infinite ones; C110_rule_accurate that rules which met it count as perfectly accurate; C110_constant_lost and C110_prediction_lost that constant predictions and the predictions of the system are lost; C110_refuted is a concrete system that predicts correctly, meets one bad sample for another input and predicts not-a-number from then on. C110_evaluation_partial: evaluating samples leaves the training error alone. Every loss but the one-hot error notices such targets (C110_losses, C110_other_losses); the one-hot error is a number always (C110_onehot_partial); the logarithmic loss counts a prediction that is not a number like zero (C110_log_hides). Linear predictions (normalised least mean squares): one missing input or target makes all weights not-a-number, for ever (C110_weights_lost, C110_weights_stay_lost, C110_linear_prediction_lost); with a bias of zero, which the parameters allow, the input zero does the same although all its numbers are good (C110_zero_input_refuted). Rewards: a reward that is not a number has the same effect on the training error (C110_reward_error_lost); if the prediction of the first action is lost it is the only best action for ever, any other lost action is never chosen as best again (C110_first_action_stuck, C110_action_dropped), and the payoff of what leads to the first case is lost too (C110_payoff_lost). Large numbers: the squared error of a finite target can overflow, after which the training error is infinite and with the next sample not a number (C110_square_overflows, C110_overflow, C110_overflow_refuted for binary64 and the target 2^600, C110_overflow_run). Networks: a target that is not a number passes the limits of weights (C110_limits) and loses the output for ever (C110_network_lost); with momentum an infinite error leaves the bias at its limit for ever (C110_network_stuck); an infinite error loses the weights of inputs that are zero (C110_network_zero_refuted); without momentum and decay and with inputs other than zero infinite errors are survived (C110_network_survives_partial). Recursive least squares: a missing input loses all weights and the gain matrix, a missing target the weights of its output, for ever and in all copies (C110_rls_lost, C110_rls_stays_lost, C110_rls_target_lost, C110_rls_output_stays_lost); the other outputs are not touched (C110_rls_target_partial). With a forgetting factor of one half an input that is zero for 1026 samples loses everything without any bad sample (C110_rls_windup_refuted). |
| C111 Inputs with missing or infinite values are covered and leave rules intact | partial (17 theorems) | Proved for hyperrectangles: covering matches for every double, rounded, infinite or missing (C111_rectangle_covers); a missing value matches every interval (C111_missing_matches). Refuted otherwise: rules that move their centres lose them to the first missing value for all time and then match everything there (C111_centre_lost, C111_lost_interval); hyperellipsoids match no input with a missing value, a rule made to cover one matches nothing at all (C111_ellipsoid_never, C111_ellipsoid_cover_refuted), and the population fills with such rules (C111_refuted); ternary conditions convert not-a-number to int, which is undefined (C111_ternary_refuted). For finite inputs hyperellipsoids cover (C111_ellipsoid_covers_partial), and all other values have their bits for up to 30 bits (C111_ternary_partial). Not treated: conditions of trees and graphs, and layers other than connected and softmax ones. Neural conditions of connected and softmax layers: with a missing value no network matches, since no activation function hides it (C111_activation_nan, C111_neural_never), and covering does not return, whatever is drawn (C111_neural_cover_refuted). Neural actions: with a missing value every network chooses the first action (C111_neural_action), and covering any other action does not return (C111_action_cover_refuted). Networks that are both condition and action compute the first action (C111_rule_action); covering does not return for any other, and for the first it returns a rule that does not match (C111_rule_cover_refuted). |
| C112 A parameter is refused or works | partial (12 theorems) | Refuted: exactly numbers and infinities outside the ranges are refused, not-a-number is stored by every setter (C112_refused, C112_nan_refuted). Then training does not return once a tournament is due (C112_endless_refuted, C112_history_refuted), the training error is lost (C112_beta_refuted), evolution runs in every trial (C112_theta_refuted; with infinity, which is in range, never: C112_theta_infinite), all rules count as accurate and none subsumes (C112_e0_refuted), nothing is explored (C112_explore_refuted), and payoffs are lost (C112_gamma_refuted). What is left: for all doubles given to all these setters there is no undefined behaviour (C112_safe_partial), because C109 now asks of parameters only what the setters check. Parameters of representations, crossover and losses are not among these setters (C46 has them). |
| C113 A rule that matches an incomplete input matches every completion of it | partial (8 theorems) | Proved for trees (C113_tree; what matches an input of which nothing is known matches everything, C113_tree_unknown), for graphs over whole series of inputs with and without memory (C113_graph), and for hyperellipsoids and networks, which match no incomplete input (C113_ellipsoid, C113_neural). Refuted for hyperrectangles, which ignore missing values: filling one in can end the match (C113_rectangle_refuted). Graphs without memory forget missing values with the next input (C113_graph_forgets_partial); with memory this is refuted: a graph can remember one for ever and match nothing from then on (C113_graph_forgets_refuted). Ternary conditions: undefined for missing values, see C111. |
| C114 Conditions compute numbers from numbers | partial (11 theorems) | Proved for trees, for all doubles that are not missing, infinite ones included (C114_tree). Graphs: proved for inputs between zero and one, for which all states remain there (C114_graph_unit_partial); refuted beyond: two large finite inputs and a zero give infinity times zero, after which a graph with memory matches nothing, whatever comes (C114_graph_overflow_refuted), and one infinite input and a zero suffice (C114_graph_infinite_refuted). Networks of connected and softmax layers: for inputs between -200 and 200, weights and biases between -10 and 10, at most 2^30 inputs to a neuron, softmax scales not below a twentieth and library functions bounded as in mathematics, all outputs are numbers between -200 and 200, for every activation function and depth, and those of softmax layers between zero and one (C114_activation, C114_softmax, C114_network_partial); over binary64 networks that begin with a connected layer do so for all inputs up to 2^970 in size (C114_neuron_wide, C114_network_wide_partial); refuted for large finite inputs, which weights of opposite sign cancel to not-a-number (C114_network_overflow_refuted), and for softmax layers whose scale is not configured: it is zero, nothing objects, and all outputs are not-a-number for all inputs (C114_softmax_unset_refuted). Not covered: recurrent, convolutional and other layers, graphs with inputs outside the unit interval that are not large, softmax scales between zero and a twentieth. |
| C115 Networks that learn from finite samples keep predicting numbers and keep learning | partial (5 theorems) | Proved for samples with inputs between -200 and 200 and targets between minus and plus a million: after any number of them weights and bias are numbers between -10 and 10, accumulated updates are bounded numbers (C115_learning), and predictions for such inputs are numbers between -200 and 200 (C115_prediction). All activation functions of the program and their gradients meet the hypotheses, given library functions bounded as in mathematics (C115_gradient, C115_settings). Refuted for large finite samples: with a momentum, one sample whose input and target are finite but large makes an update infinite, and the weight is at its limit for ever, whatever good samples follow (C115_large_refuted, binary64). Missing: networks of several layers, rates of zero (updates then accumulate without limit), samples between good and large ones. |
| C116 Running averages stay numbers of the size of what they average | partial (12 theorems) | Proved with the rounding of every operation: an average of values of at most M stays a number of at most 4 M (C116_step, C116_ema), the training error of systems whose losses are bounded for all predictions and targets, such as the one-hot error (C116_training_error), constant predictions (C116_constant), errors and set sizes of rules in one update (C116_rule), all of predictions, errors and set sizes of rules with constant predictions and the mean absolute error, however often they are updated (C116_constant_rule), the mean absolute, mean squared and Huber loss of such predictions and targets (C116_mae, C116_mse, C116_huber), accuracies (C116_accuracy) and fitness in sets of any number of rules (C116_fitness). Bounds are such that 5 M, and 4 M over the smallest rate, are below 2^53. Missing: other losses, multi-step trials; a bound closer than 4 M. Refuted: averages do not stay within the range of what they average; with a rate of one the prediction -1 and the target -2^-60 give zero (C116_range_refuted, binary64). |

### Modules

| module | contents | definitions | theorems |
|---|---|---|---|
| Activ.lean | Activation functions and the softmax layer (`neural_activations.h`, `neural_activations.c`, `neural_layer_softmax.c`) | 29 | 0 |
| BadGrad.lean | Gradients of activation functions over doubles | 1 | 0 |
| BadInput.lean | Conditions over doubles | 14 | 11 |
| BadLinear.lean | Linear predictions over doubles | 6 | 5 |
| BadNet.lean | Neural conditions and actions over doubles | 18 | 0 |
| BadNeural.lean | A neuron over doubles | 13 | 0 |
| BadParam.lean | Setting parameters to any double | 6 | 0 |
| BadRls.lean | Recursive least squares over doubles | 10 | 0 |
| BadSample.lean | Losses and constant predictions over doubles | 10 | 16 |
| BadTree.lean | Tree and graph conditions over doubles | 9 | 0 |
| Basic.lean | Outcomes of modelled operations | 5 | 7 |
| Binary64.lean | The format of `double` | 4 | 12 |
| Blas.lean | Linear algebra on flat arrays (`blas.c`) | 14 | 0 |
| Callback.lean | Training callbacks (`pybind_callback_earlystop.h`, `pybind_callback_checkpoint.h`) | 15 | 0 |
| Cond.lean | Conditions over vectors and strings (`cond_rectangle.c`, `cond_ellipsoid.c`, `cond_ternary.c`) | 50 | 0 |
| Config.lean | Configuration files and CSV data (`config.c`, `env_csv.c`) | 21 | 0 |
| Core.lean | Rules, sets and the system state (`xcsf.h`, `cl.c`, `clset.c`) | 61 | 0 |
| CoreInv.lean | Invariants of the rule life-cycle: definitions and helper lemmas | 8 | 27 |
| CoreLaws.lean | Two instances of `Laws` | 2 | 25 |
| CoreOps.lean | Invariant preservation by the operations of `clset.c` and `ea.c` | 3 | 10 |
| CoreOps2.lean | Validation, covering and matching: invariant preservation | 7 | 27 |
| CoreOps3.lean | Loops over rules, matching, updates, subsumption and freeing: invariant preservation | 6 | 28 |
| CoreOps4.lean | The evolutionary algorithm: invariant preservation and exact counts | 4 | 20 |
| CoreOps5.lean | Prediction array, trials and histories: invariant preservation | 7 | 61 |
| Demo.lean | A small concrete system | 4 | 2 |
| Dgp.lean | Dynamical genetic programming graphs and computed actions (`dgp.c`, `cond_dgp.c`, `rule_dgp.c`, `rule_neural.c`, `act_integer.c`, `act_neural.c`) | 55 | 0 |
| Double.lean | Arithmetic of doubles | 12 | 2 |
| DoubleLemmas.lean | Lemmas about the arithmetic of doubles | 3 | 22 |
| Ea.lean | The evolutionary algorithm (`ea.c`) | 16 | 0 |
| Env.lean | The built-in environments (`env_mux.c`, `env_maze.c`) | 26 | 0 |
| Fit.lean | Supervised training and scoring on data sets (`xcs_supervised.c`, `pybind_wrapper.cpp`) | 11 | 0 |
| FitLemmas.lean | Helper lemmas for prediction and training on data sets | 5 | 11 |
| Frame.lean | Which operations write the counters and estimates of the system | 5 | 57 |
| Gp.lean | Tree genetic programming (`gp.c`, `cond_gp.c`) | 20 | 0 |
| Json.lean | Rules as JSON (`cl.c`, `clset.c` and the JSON functions of conditions, actions and predictions) | 53 | 0 |
| JsonLemmas.lean | Lemmas about the JSON functions of rules | 3 | 23 |
| JsonNet.lean | The JSON shown for neural networks | 18 | 0 |
| JsonNetLemmas.lean | Lemmas about the JSON of networks | 1 | 13 |
| JsonNetSame.lean | Networks with the same JSON compute the same | 2 | 20 |
| JsonNetSpec.lean | What the JSON of a network should show | 9 | 0 |
| Loss.lean | Loss functions (`loss.c`) | 8 | 0 |
| Main.lean | The stand-alone program (`main.c`, `env.c`, `env_csv.c`) | 18 | 0 |
| MainLemmas.lean | Lemmas for property C107: the stand-alone program | 1 | 13 |
| MainSpec.lean | Specification for property C107: the data sets of the stand-alone program | 5 | 0 |
| Metrics.lean | The record of training kept by the Python class | 16 | 0 |
| MetricsLemmas.lean | Helpers for C102 | 1 | 12 |
| MetricsSpec.lean | Specification: what a record of training should say | 5 | 0 |
| NConv.lean | Convolutional layers (`neural_layer_convolutional.c`, `image.c`) | 28 | 0 |
| NConvHist.lean | Lemmas on histories of convolutional layers | 1 | 34 |
| NConvLemmas.lean | Lemmas on convolution | 2 | 21 |
| NConvSpec.lean | Specification for property C54, convolution | 18 | 0 |
| NExpand.lean | Changing the networks of a population | 14 | 0 |
| NExpandLemmas.lean | Lemmas about networks that grow | 5 | 24 |
| NExpandSpec.lean | Specification for properties C90 and C91: networks that can grow | 3 | 0 |
| NExpandSys.lean | Lemmas about populations whose networks grow | 0 | 7 |
| NGen.lean | Networks of all kinds of layers (`neural.c`, `neural_layer.c`, `neural_layer_softmax.c`) | 30 | 0 |
| NGenDims.lean | What operations do with the sizes of layers | 2 | 26 |
| NGenLearn.lean | Gradient descent in networks of all kinds of layers (`neural.c`, `neural_layer.h`) | 13 | 0 |
| NGenLearnLemmas.lean | Gradient descent in networks of all kinds of layers: lemmas | 4 | 39 |
| NGenLearnSpec.lean | Specification for property C78: training networks of all kinds of layers | 6 | 0 |
| NGenLemmas.lean | Layers of all types within limits | 7 | 23 |
| NGenNet.lean | Networks of layers of all types within limits | 3 | 28 |
| NGenPool.lean | Layers without weights, within limits | 1 | 21 |
| NGenSpec.lean | Specification for property C49: the sizes of the layers of a network agree | 24 | 0 |
| NGradGenLay.lean | Lemmas for property C92: layers with weights | 1 | 21 |
| NGradGenNet.lean | Lemmas for property C92: from layers to networks | 4 | 11 |
| NGradGenPool.lean | Lemmas for property C92: layers without weights | 0 | 17 |
| NGradGenRec.lean | Lemmas for property C92: recurrent layers | 2 | 18 |
| NGradGenSpec.lean | Specification for property C92: gradients in networks of several kinds of layers | 13 | 0 |
| NGradLemmas.lean | Lemmas for property C52 | 2 | 28 |
| NGradSpec.lean | Specification for property C52: the function computed by a network and its error | 8 | 0 |
| NLayer.lean | Weighted layers: shared operations and the connected layer (`neural_layer.c`, `neural_layer_connected.c`) | 47 | 0 |
| NLayerLemmas.lean | Lemmas about connected layers (used by property C53) | 3 | 65 |
| NLayerSpec.lean | Specification for property C53: legal connected layers and their histories | 15 | 0 |
| NLstmCell.lean | Lemmas for property C105: the gates that write an LSTM layer's memory | 3 | 9 |
| NLstmCellSpec.lean | Specification for property C105: the gates that write an LSTM layer's memory | 5 | 0 |
| NLstmGrad.lean | Lemmas for property C105: the learning step of an LSTM layer | 0 | 5 |
| NLstmGradSpec.lean | Specification for property C105: the gradient of an LSTM layer's outputs | 1 | 0 |
| NLstmHist.lean | Helper lemmas: histories of LSTM layers | 2 | 34 |
| NNet.lean | Networks of connected layers (`neural.c`) | 15 | 0 |
| NPool.lean | Image layers without weights: pooling, up-sampling, dropout and noise | 53 | 0 |
| NPoolLemmas.lean | Lemmas on loops over arrays | 0 | 18 |
| NPoolSpec.lean | Specification for property C54: what the image layers without weights compute | 7 | 0 |
| NRec.lean | Recurrent and long short-term memory layers (`neural_layer_recurrent.c`, `neural_layer_lstm.c`) | 46 | 0 |
| NRecHist.lean | Helper lemmas: histories of recurrent and LSTM layers | 1 | 33 |
| NRecLemmas.lean | Helper lemmas: connected layers as parts of recurrent and LSTM layers | 0 | 28 |
| NRecSpec.lean | Specification for property C53: legal recurrent and LSTM layers and their histories | 16 | 0 |
| NRep.lean | Rules made of neural networks | 42 | 0 |
| NRepLemmas.lean | Rules made of networks: lemmas | 4 | 43 |
| NRepNet.lean | Networks inside rules: creating, copying, randomising and mutating them | 2 | 51 |
| NRepSpec.lean | Specification for property C79: legal networks of rules | 9 | 0 |
| NSeqLearn.lean | Lemmas for property C71: what learning does not change | 1 | 32 |
| NSeqLemmas.lean | Lemmas for property C71 | 0 | 13 |
| NSeqSpec.lean | Specification for property C71: what recurrent and LSTM layers compute on a sequence of inputs | 12 | 0 |
| NSwitchLemmas.lean | Lemmas for properties C80 and C81: mutation | 8 | 54 |
| NSwitchNet.lean | Lemmas for properties C80 and C81: whole layers and networks | 5 | 72 |
| NSwitchRates.lean | The learning rates of the layers of a network | 5 | 33 |
| NSwitchSame.lean | Mutation rates and counts of active connections do not matter for what a network computes and learns | 3 | 36 |
| NSwitchSpec.lean | Specification for properties C80 and C81: learning rates and switches of the layers of a network | 23 | 0 |
| NValLemmas.lean | What a network computes: lemmas | 1 | 17 |
| NValRuleLemmas.lean | What rules made of networks answer: lemmas | 2 | 24 |
| NValRuleSpec.lean | Specification for property C93: what rules made of networks answer | 9 | 0 |
| NValSpec.lean | Specification for property C93: what a network computes | 3 | 0 |
| NetList.lean | The list of layers of a neural network (`neural.c`), with its pointers | 28 | 0 |
| Pa.lean | The prediction array (`pa.c`) | 14 | 0 |
| Par.lean | The multi-threaded program (`PARALLEL_MATCH`, `PARALLEL_PRED`, `PARALLEL_UPDATE`) | 42 | 0 |
| ParHist.lean | Histories of the multi-threaded program | 3 | 31 |
| ParLemmas.lean | The outcome of a parallel loop | 4 | 12 |
| ParRace.lean | Loops whose bodies use the shared generator | 9 | 26 |
| ParRep.lean | Rules of complete systems that do not use the generator | 5 | 16 |
| Param.lean | Parameters and their setters (`param.c`, `ea.c`, `condition.c`, `prediction.c`, `action.c`) | 13 | 0 |
| ParamFit.lean | Helpers for C84 and C85 | 14 | 42 |
| ParamJson.lean | Parameters as JSON (`param.c`, `ea.c`, `condition.c`, `prediction.c`, `action.c`, `neural_layer_args.c`, the JSON functions of GP, DGP, ternary, NLMS and RLS arguments) | 82 | 0 |
| ParamLayers.lean | Importing reported layers (helper file) | 16 | 56 |
| ParamShape.lean | The sizes of new layers do not depend on random numbers | 9 | 15 |
| ParamSpec.lean | Specification of valid parameters | 19 | 0 |
| ParamSystem.lean | Importing a whole report (helper file) | 0 | 15 |
| ParamTrip.lean | Importing what was reported (helper file) | 6 | 18 |
| ParamValid.lean | What imports preserve (helper file) | 14 | 65 |
| Pickle.lean | Pickling through a temporary file | 9 | 0 |
| PickleLemmas.lean | Helper lemmas | 4 | 19 |
| PopFile.lean | Starting from a population file (`population_file`, `clset_load_pop_file`) | 1 | 0 |
| Pred.lean | Predictions (`pred_constant.c`, `pred_nlms.c`, `pred_rls.c`, `prediction.c`) | 16 | 0 |
| Props1.lean | C01–C06: population limit, counters, deletion, rule memory, roulette | 0 | 21 |
| Props2.lean | C07–C13: match set, covering, action set, subsumption, evolutionary algorithm | 6 | 19 |
| Props3.lean | C14, C15, C24, C27: prediction does not learn, validation, store/retrieve, import | 2 | 28 |
| Props4.lean | Properties C16–C20: estimates, fitness shares, prediction array, action choice | 7 | 22 |
| Props5.lean | Properties C21, C22, C60: training on data sets, batch prediction, scoring | 5 | 22 |
| Props6.lean | Properties C23, C62: credit assignment in reinforcement learning | 10 | 14 |
| Props7.lean | C65: deletion votes | 4 | 7 |
| Props8.lean | C66: the reported system error and the trial clock | 5 | 13 |
| Props9.lean | C67: what newly bred rules start with | 3 | 7 |
| PropsActiv.lean | Properties C50 and C51: activation functions and softmax over the real numbers | 1 | 32 |
| PropsBadAvg.lean | C116: Running averages stay numbers | 6 | 25 |
| PropsBadInput.lean | C111: inputs that are not numbers | 3 | 16 |
| PropsBadLinear.lean | C110, continued: linear predictions | 1 | 9 |
| PropsBadNet.lean | C111, continued: neural conditions, neural actions and missing values | 5 | 24 |
| PropsBadNet2.lean | C114, continued: networks compute numbers from numbers | 6 | 33 |
| PropsBadNet3.lean | C115: Networks that learn from good samples keep predicting numbers | 5 | 21 |
| PropsBadNet4.lean | C114, continued: networks over binary64 and almost all finite inputs | 1 | 9 |
| PropsBadNeural.lean | C110, continued: networks | 5 | 17 |
| PropsBadOverflow.lean | C110, continued: large numbers | 1 | 6 |
| PropsBadParam.lean | C112: parameters that are not a number | 5 | 15 |
| PropsBadReward.lean | C110, continued: rewards | 0 | 7 |
| PropsBadRls.lean | C110, continued: predictions of recursive least squares | 3 | 38 |
| PropsBadSample.lean | C110: samples that are not numbers | 8 | 14 |
| PropsBadTree.lean | C113: what matches an incomplete input matches every completion of it | 4 | 31 |
| PropsBadTree2.lean | C114: conditions compute numbers from numbers | 4 | 25 |
| PropsBlas.lean | Property C43: the linear algebra routines | 1 | 13 |
| PropsCallback.lean | C58, C59: early stopping and checkpoints | 12 | 20 |
| PropsCond.lean | Properties C28-C32: interval, ellipsoid and ternary conditions | 11 | 52 |
| PropsConfig.lean | C57, C68: configuration files and CSV data | 8 | 30 |
| PropsDgp.lean | C34: dynamical GP graphs | 8 | 36 |
| PropsDgp2.lean | C34 (JSON, conditions), C35 and C36: rules that compute their action | 7 | 33 |
| PropsDouble.lean | C109: rounding, overflow, infinities and not-a-numbers do no harm | 4 | 21 |
| PropsDoubleError.lean | C109, continued: losses and errors | 1 | 12 |
| PropsDoubleMore.lean | C109, continued: changes of parameters and single steps | 2 | 4 |
| PropsDoubleTree.lean | C109, continued: indices that are not counted from zero | 1 | 6 |
| PropsEnv.lean | C55, C56: the multiplexer and the mazes | 10 | 29 |
| PropsGp.lean | C33: GP trees stay well formed | 14 | 30 |
| PropsJson.lean | Property C82: exporting the population as JSON and importing it | 9 | 34 |
| PropsJsonNet.lean | Property C106: the JSON of a network describes the network | 5 | 11 |
| PropsJsonNet2.lean | Property C106: the settings of layers, and layers that cannot be shown | 1 | 5 |
| PropsLemmas.lean | Helper lemmas relating the invariant to what an observer sees | 0 | 13 |
| PropsLoss.lean | Property C42: loss functions | 2 | 13 |
| PropsMain.lean | Property C107: the stand-alone program learns from the files it is given | 7 | 19 |
| PropsMetrics.lean | C102: the record of training tells what happened | 3 | 9 |
| PropsNConv.lean | Property C54, convolution: outputs are sliding-window sums, backward passes their adjoints | 0 | 2 |
| PropsNConvHist.lean | Properties C53 and C54: histories of convolutional layers, and where the properties fail | 2 | 10 |
| PropsNCover.lean | C97: covering with rules made of networks | 10 | 17 |
| PropsNExpand.lean | Properties C90 and C91: networks that are expanded and converted | 20 | 28 |
| PropsNGen.lean | Property C49: the sizes of the layers of a network agree after every history | 10 | 12 |
| PropsNGenLearn.lean | Property C78: networks of all kinds of layers can be trained after every history | 3 | 5 |
| PropsNGrad.lean | Property C52: back-propagation computes the gradient | 0 | 5 |
| PropsNGradGen.lean | C92: gradients in networks of several kinds of layers | 0 | 24 |
| PropsNLayer.lean | Property C53: weights stay within limits and masked weights stay zero | 5 | 9 |
| PropsNLstm.lean | Property C105: what an LSTM layer learns | 0 | 9 |
| PropsNLstmCell.lean | Property C105: what the gates that write an LSTM layer's memory learn | 4 | 14 |
| PropsNPool.lean | Property C54, image layers without weights: pooling, up-sampling, dropout, noise | 4 | 35 |
| PropsNRec.lean | Property C53: histories of recurrent and LSTM layers, and where the property fails | 3 | 12 |
| PropsNRep.lean | Property C79: systems whose rules are made of neural networks | 17 | 14 |
| PropsNSeq.lean | Property C71: recurrent and LSTM layers compute their recurrence, and which of their parameters are learned | 5 | 10 |
| PropsNStored.lean | Converting a system that holds a stored population (C91) | 1 | 7 |
| PropsNSwitch.lean | Properties C80 and C81: learning rates and switches of the layers of a network | 3 | 7 |
| PropsNVal.lean | Property C93: what systems of neural networks answer | 3 | 21 |
| PropsNetList.lean | Property C48: the list of layers of a network | 19 | 49 |
| PropsPar.lean | C88: histories on several threads | 7 | 9 |
| PropsParam.lean | Property C46: setters enforce the documented ranges | 4 | 15 |
| PropsParamFit.lean | Parameters and the problem they are for | 8 | 8 |
| PropsParamJson.lean | Parameters as documents: reports, imports, limits | 8 | 13 |
| PropsPickle.lean | C100: pickling | 1 | 8 |
| PropsPopFile.lean | Property C108: a system started from a population file | 4 | 20 |
| PropsPred.lean | Properties C37, C38, C40, C41, C64: features, constant and NLMS predictions | 9 | 29 |
| PropsRep.lean | Properties C74 and C75: complete systems | 25 | 25 |
| PropsRep2.lean | Properties C76 and C77: what subsumption and storing do to a complete system | 5 | 17 |
| PropsRepMem.lean | C96: the memory of conditions, actions, predictions and networks | 10 | 9 |
| PropsReport.lean | C98: the progress report of experiments | 10 | 20 |
| PropsReportRl.lean | C98, continued: what a reinforcement learning experiment reports | 5 | 3 |
| PropsResume.lean | C95: there is no hidden state; a saved system continues where it stopped | 12 | 15 |
| PropsReturn.lean | Calls end (C94) | 11 | 25 |
| PropsReturnNet.lean | Covering with networks that cannot match (C94) | 0 | 2 |
| PropsRls.lean | Property C39: recursive least squares | 7 | 13 |
| PropsSerial.lean | Properties of saving and loading (C25, C26, C72, C73) | 12 | 30 |
| PropsSerialNet.lean | A loaded network computes what the saved one computed (C25) | 3 | 5 |
| PropsShadow.lean | C101: `get_params()` shows the parameters in use, and copies made from it have them | 1 | 7 |
| PropsStats.lean | Property C104: the statistics of the population are means over its rules | 3 | 21 |
| PropsSteps.lean | C99: driving trials step by step | 5 | 15 |
| PropsTune.lean | Parameters may change between calls (C89) | 14 | 20 |
| PropsTypes.lean | Property C47: type names round-trip | 1 | 9 |
| PropsUtil.lean | Properties C44, C45: self-adaptive mutation rates and helpers | 4 | 19 |
| PropsViz.lean | Property C103: the picture of a condition shows the condition | 3 | 15 |
| PropsWrapper.lean | Properties of the Python wrapper (C61, C69, C70) | 14 | 28 |
| Rand.lean | Random numbers, small helpers and self-adaptive mutation (`utils.h`, `utils.c`, `sam.c`) | 17 | 0 |
| Rep.lean | Complete rule representations | 30 | 1 |
| RepLemmas.lean | The functions of the concrete representations return | 14 | 35 |
| RepMem.lean | Helper lemmas | 114 | 0 |
| RepMemLay.lean | Helper lemmas | 8 | 50 |
| RepMemLemmas.lean | Helper lemmas | 6 | 35 |
| RepMemPool.lean | Helper lemmas | 3 | 21 |
| RepMemRule.lean | Helper lemmas | 13 | 81 |
| RepMemSpec.lean | Helper lemmas | 13 | 0 |
| Report.lean | Experiments and their progress report (`perf.c`, `xcs_supervised.c`, `xcs_rl.c`, `main.c`) | 10 | 0 |
| Resume.lean | Systems with the same rules: helper lemmas for C95 | 10 | 101 |
| Serial.lean | Saving and loading a system (`xcsf_save`, `xcsf_load`) | 55 | 0 |
| SerialCut.lean | Files that fail to load, and files that have been cut | 3 | 19 |
| SerialFile.lean | Files of numbers (`fwrite`, `fread`) | 27 | 0 |
| SerialFileLemmas.lean | Helper lemmas | 1 | 14 |
| SerialFresh.lean | New working memory changes nothing | 6 | 40 |
| SerialLemmas.lean | Helper lemmas | 0 | 46 |
| SerialNet.lean | Using a network that may have been loaded | 3 | 0 |
| SerialSpec.lean | What saving and loading promise | 33 | 0 |
| SerialSys.lean | Saving and loading rules, parameters and the whole system | 53 | 0 |
| SerialSysLemmas.lean | Helper lemmas | 1 | 26 |
| Shadow.lean | The dictionary of parameters of the Python class | 13 | 0 |
| ShadowCopy.lean | Helpers for C101: values that are shown can be given as arguments | 0 | 7 |
| ShadowLemmas.lean | Helper lemmas | 2 | 21 |
| ShadowReport.lean | Helper lemmas | 1 | 13 |
| ShadowSpec.lean | Specification: what a dictionary of parameters should show | 6 | 0 |
| ShadowTable.lean | Helper lemmas | 1 | 12 |
| Spec.lean | What an observer sees: vocabulary of the property statements | 14 | 0 |
| Stats.lean | Statistics of the population | 27 | 0 |
| StatsLemmas.lean | Lemmas for property C104 | 2 | 23 |
| StatsSpec.lean | Specification for property C104: what the statistics should be | 17 | 0 |
| Steps.lean | Sets in memory and the step-by-step interface of reinforcement learning | 47 | 0 |
| StepsFrame.lean | Which operations write the match set, the action sets and the remembered state | 3 | 25 |
| StepsMem.lean | Linked lists in memory | 4 | 23 |
| StepsPhase.lean | Invariants of the phases | 3 | 27 |
| StepsSim.lean | The functions on memory mirror the functions on lists | 6 | 24 |
| StepsSim2.lean | Phases of a trial | 4 | 17 |
| StepsSpec.lean | The protocol of the step-by-step interface | 9 | 0 |
| Trial.lean | Learning steps and histories (`xcs_supervised.c`, `xcs_rl.c`, `xcsf.c`) | 34 | 0 |
| Tune.lean | Changing parameters between calls | 5 | 0 |
| TuneLemmas.lean | Lemmas about changes of parameters | 1 | 8 |
| Types.lean | Type names (`condition.c`, `prediction.c`, `action.c`, `loss.c`, `ea.c`, `neural_layer.c`, `neural_activations.c`, `gp.c`, `dgp.c`) | 22 | 0 |
| Values.lean | Helper lemmas on values: prediction array, best actions, estimates | 0 | 15 |
| Viz.lean | Drawing tree and graph conditions (`xcsf/utils/viz.py`) | 25 | 0 |
| VizLemmas.lean | Lemmas about pictures of conditions (C103) | 14 | 44 |
| VizSpec.lean | What a picture of a condition shows (C103) | 11 | 0 |
| Wrapper.lean | The Python wrapper: array arguments (`pybind_wrapper.cpp`) | 26 | 0 |

## 6. Axioms

Every theorem listed in MANIFEST.json depends on a subset of `propext`, `Classical.choice` and
`Quot.sound` (`#print axioms`, and the gate).  There is no `axiom`, `sorry`, `admit`, `native_decide`,
`bv_decide`, `implemented_by` or `unsafe` in the project.  `decide +kernel` is used for closed
examples and for finite tables only; it is evaluated by the kernel.

## 7. Wrong programs

`seeded/LOG.jsonl` records, for each edit of the model in a scratch copy, the definition, the edit, the claim
it breaks, the theorems that stopped to prove, and the theorems that were tightened because the edit
survived.
