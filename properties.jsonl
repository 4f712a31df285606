{"id": "C01", "title": "Population never exceeds POP_SIZE", "statement": "After initialising a system, after every learning step (supervised or reinforcement), after every prediction or scoring call and after every JSON insertion, the total number of micro-classifiers in the population (sum of numerosities) is at most the configured pop_size, provided it was so before the call.", "quantifier": "all parameter settings, all rule representations, all random draws, all inputs and all finite histories of calls", "why_tests_cant": "tests run a few seeds on a few environments; the bound has to survive every interleaving of covering, EA insertion, subsumption and deletion", "anchors": ["xcsf/clset.c: clset_pset_enforce_limit, clset_cover, clset_json_insert_cl, clset_pset_init", "xcsf/ea.c: ea", "xcsf/xcs_supervised.c: xcs_supervised_trial", "xcsf/xcs_rl.c: xcs_rl_fit, xcs_rl_trial"]}
{"id": "C02", "title": "Population counters always agree with the rules", "statement": "After any history of calls the reported macro-classifier count equals the number of distinct rules in the population, the reported micro-classifier count equals the sum of their numerosities, every rule has numerosity at least one and no rule is listed twice.", "quantifier": "all finite histories of fit / predict / score / insert / store / retrieve calls from an initialised system", "why_tests_cant": "counters are updated by hand in nine places; a missed update only shows after particular sequences of deletion, subsumption and reproduction", "anchors": ["xcsf/clset.c: clset_add, clset_pset_del, clset_subsumption, clset_validate", "xcsf/ea.c: ea_add, ea_subsume", "xcsf/xcsf.c: xcsf_store_pset, xcsf_retrieve_pset"]}
{"id": "C03", "title": "A deletion removes exactly one micro-classifier", "statement": "Each deletion performed to respect pop_size lowers the numerosity of exactly one rule by exactly one and changes no other rule; the rule leaves the population exactly when its numerosity reaches zero, and the order of the survivors is kept.", "quantifier": "all well-formed populations, all parameters and random draws", "why_tests_cant": "the victim is random and unlinked from a singly linked list; head, middle and tail cases need all lists", "anchors": ["xcsf/clset.c: clset_pset_del, clset_pset_never_match, clset_pset_roulette"]}
{"id": "C04", "title": "Rules that never match are deleted first", "statement": "Whenever a deletion is needed and the population holds a rule that has never matched although it has seen more than m_probation inputs, the deleted rule is such a rule; only otherwise is the deletion roulette used.", "quantifier": "all well-formed populations and random draws", "why_tests_cant": "depends on the joint state of every rule in the population at the moment of deletion", "anchors": ["xcsf/clset.c: clset_pset_never_match, clset_pset_del"]}
{"id": "C05", "title": "Rule memory is never used after free, freed twice or leaked", "statement": "No history of calls makes the library access a rule after it was destroyed or destroy a rule twice, and between calls every rule that still exists is in the population or in the stored population.", "quantifier": "all finite histories of supervised trials, reinforcement steps, JSON insertions, store and retrieve", "why_tests_cant": "rules are shared by pointer between population, match set, action set, previous action set and kill list; a stale pointer needs a particular schedule of subsumption and deletion", "anchors": ["xcsf/clset.c: clset_kill, clset_free, clset_subsumption, clset_pset_del, clset_cover", "xcsf/xcs_rl.c: xcs_rl_update, xcs_rl_end_step, xcs_rl_end_trial", "xcsf/ea.c: ea_subsume, ea_add"]}
{"id": "C06", "title": "Roulette wheels always land on an existing rule", "statement": "For every list of non-negative weights, deletion roulette and parent roulette stop on a rule of the list whose weight interval contains the drawn point; they never run off the end of the list.", "quantifier": "all non-empty lists of non-negative weights and all draws strictly between 0 and 1", "why_tests_cant": "running off the list dereferences NULL and happens only for extreme draws or weights", "anchors": ["xcsf/clset.c: clset_pset_roulette, cl_del_vote", "xcsf/ea.c: ea_select_rw", "xcsf/utils.c: rand_uniform"]}
{"id": "C07", "title": "The match set is exactly the set of matching rules", "statement": "Matching an input without covering selects exactly the rules of the population whose condition matches the input, each once, and updates each rule's age and match count by exactly one step.", "quantifier": "all populations and inputs", "why_tests_cant": "a missed or duplicated rule shifts predictions by amounts tests cannot distinguish from learning noise", "anchors": ["xcsf/clset.c: clset_match", "xcsf/cl.c: cl_match"]}
{"id": "C08", "title": "Covering leaves every action represented", "statement": "If matching with covering returns, then for every available action the match set holds a rule that matches the input and advocates that action, and every rule in the match set is still in the population.", "quantifier": "all populations, inputs, parameters and random draws", "why_tests_cant": "covering and deletion alternate: a new rule can be deleted again by the population limit in the same call", "anchors": ["xcsf/clset.c: clset_cover, clset_action_coverage"]}
{"id": "C09", "title": "Match-set numerosity is exact", "statement": "After matching, the match set's recorded micro-classifier total equals the sum of the numerosities of its rules.", "quantifier": "all populations, inputs and draws", "why_tests_cant": "needs a deletion that lowers a numerosity without removing the rule while covering is under way", "anchors": ["xcsf/clset.c: clset_cover, clset_validate, clset_update"]}
{"id": "C10", "title": "The action set is exactly the matching rules advocating the chosen action", "statement": "The action set built for an action contains exactly the match-set rules advocating it, each once, with correct counters.", "quantifier": "all match sets and actions", "why_tests_cant": "as for the match set", "anchors": ["xcsf/clset.c: clset_action", "xcsf/xcs_rl.c: xcs_rl_update"]}
{"id": "C11", "title": "Set subsumption conserves numerosity and only absorbs covered rules", "statement": "Set subsumption never changes the total numerosity of the population; a rule disappears only if some surviving rule of the same set that is experienced (exp > theta_sub) and accurate (error < e0) is more general than it and advocates the same action, and the survivor's numerosity grows by exactly the absorbed amount.", "quantifier": "all sets, generality relations and parameters", "why_tests_cant": "requires every arrangement of generality within a set", "anchors": ["xcsf/clset.c: clset_subsumption", "xcsf/cl.c: cl_subsumer, cl_general"]}
{"id": "C12", "title": "Every EA offspring adds exactly one micro-classifier", "statement": "When the EA runs, before the population limit is enforced the total numerosity grows by exactly 2*ceil(lambda/2): each offspring either becomes one new rule of numerosity one, or raises by one the numerosity of a parent (identical offspring) or of an experienced, accurate, more general rule.", "quantifier": "all sets, parents, outcomes of crossover and mutation, draws", "why_tests_cant": "four alternative insertion paths with hand-maintained counters", "anchors": ["xcsf/ea.c: ea, ea_add, ea_subsume"]}
{"id": "C13", "title": "The EA is gated by time and never runs on an empty set", "statement": "A learning step runs the EA only if the set is non-empty and at least theta_ea steps have passed on average (numerosity weighted) since its rules last took part; the clock advances by exactly one per call, and after a run every rule of the set carries the current time.", "quantifier": "all sets, clocks and parameters", "why_tests_cant": "boundary of a weighted mean", "anchors": ["xcsf/ea.c: ea", "xcsf/clset.c: clset_mean_time, clset_set_times"]}
{"id": "C14", "title": "Prediction and scoring do not learn", "statement": "predict() and score() (which disable covering) leave the population's rules, their order, numerosity, error, fitness, experience, set-size estimate, time stamp and condition/action/prediction parameters unchanged; only match statistics (age, match count, flags) and current outputs change.", "quantifier": "all populations and batches of inputs (stateless representations)", "why_tests_cant": "every field of every rule, for every batch", "anchors": ["xcsf/xcs_supervised.c: xcs_supervised_predict, xcs_supervised_score, xcs_supervised_trial", "xcsf/clset.c: clset_match", "xcsf/pa.c: pa_build"]}
{"id": "C15", "title": "Evaluating on test data during fit does not change the population", "statement": "During fit with a validation set, processing a validation sample does not change which rules are in the population.", "quantifier": "all systems and validation samples", "why_tests_cant": "covering is triggered only by validation inputs no rule matches", "anchors": ["xcsf/xcs_supervised.c: xcs_supervised_fit, xcs_supervised_trial", "xcsf/clset.c: clset_match"]}
{"id": "C16", "title": "Error, fitness and set-size estimates stay in range", "statement": "Under valid parameters (beta in [0,1]) rule error stays non-negative and never exceeds the largest of its previous value and the observed loss; rule fitness stays in [0,1] when it starts there; the set-size estimate stays non-negative; accuracy is in (0,1] and is 1 exactly for rules with error at most e0 (alpha<=1).", "quantifier": "all rules, sets, losses and parameters, over all histories of updates", "why_tests_cant": "invariants over unbounded histories of real-valued updates", "anchors": ["xcsf/cl.c: cl_update, cl_update_fit, cl_acc", "xcsf/clset.c: clset_update_fit"]}
{"id": "C17", "title": "The first updates average exactly", "statement": "While a rule's experience times beta is below one, its error equals the arithmetic mean of all losses it has seen (independent of init_error) and its set-size estimate the mean of all set sizes; afterwards each new value is the beta-weighted average of old and new.", "quantifier": "all loss sequences and beta", "why_tests_cant": "induction over the length of the history", "anchors": ["xcsf/cl.c: cl_update"]}
{"id": "C18", "title": "Fitness shares in a set sum to one", "statement": "The targets toward which fitness moves in one update are the rules' numerosity-weighted relative accuracies; they are non-negative and sum to one over the set, so the set's total fitness moves toward one by the factor beta.", "quantifier": "all non-empty sets and accuracies", "why_tests_cant": "real-valued identity for all sets", "anchors": ["xcsf/clset.c: clset_update_fit", "xcsf/cl.c: cl_update_fit"]}
{"id": "C19", "title": "The prediction array is the fitness-weighted mean", "statement": "For each action and output, the system prediction is the fitness-weighted mean of the predictions of the matching rules advocating that action; hence it lies between their minimum and maximum, and it is zero when no rule (or only zero fitness) supports the action.", "quantifier": "all match sets, predictions, fitnesses, numbers of actions and outputs", "why_tests_cant": "flattened array indexing over action and output for every dimension", "anchors": ["xcsf/pa.c: pa_build, pa_init"]}
{"id": "C20", "title": "Greedy and exploratory action choice", "statement": "For single-output systems the exploit action always has maximal predicted payoff, any maximiser can be chosen and no other action ever is; the explore action is always one advocated with non-zero fitness; both are valid action indices.", "quantifier": "all prediction arrays and draws", "why_tests_cant": "all ties and draw boundaries", "anchors": ["xcsf/pa.c: pa_best_action, pa_rand_action, pa_best_val, pa_val", "xcsf/utils.h: argmax"]}
{"id": "C21", "title": "Training samples are in range and cover the data", "statement": "Every training sample index is a valid row; without shuffling, any n_samples consecutive trials visit every row exactly once, continuing across epochs.", "quantifier": "all dataset sizes, start offsets, trial counts and draws", "why_tests_cant": "integer arithmetic for every offset", "anchors": ["xcsf/xcs_supervised.c: xcs_supervised_sample, xcs_supervised_fit", "xcsf/pybind_wrapper.cpp: fit"]}
{"id": "C22", "title": "Batch prediction is row-wise and score is the mean loss", "statement": "predict() on a batch returns for row i exactly what predicting row i alone would return, the fallback vector is used exactly for rows no rule matches; score() is the mean of the per-row losses of those predictions.", "quantifier": "all batches and populations of stateless representations", "why_tests_cant": "all batch sizes and orders", "anchors": ["xcsf/xcs_supervised.c: xcs_supervised_predict, xcs_supervised_score, xcs_supervised_score_n"]}
{"id": "C23", "title": "Reinforcement credit assignment", "statement": "In a multi-step trial the rules of the previous action set are updated with previous reward plus gamma times the best current prediction, using the previous input; the current action set is updated with the immediate reward exactly in terminal states; a single-step trial reduces to the latter.", "quantifier": "all states, rewards and trial lengths", "why_tests_cant": "stateful protocol across steps", "anchors": ["xcsf/xcs_rl.c: xcs_rl_update, xcs_rl_end_step, xcs_rl_init_trial, xcs_rl_fit, xcs_rl_trial"]}
{"id": "C24", "title": "Storing and retrieving the population restores it", "statement": "Retrieving a stored population yields rules with the same numerosity, error, fitness, experience, size, time, action and parameters as when stored, whatever happened in between, leaving no stored copy behind; retrieving when nothing is stored changes nothing.", "quantifier": "all populations and all histories in between", "why_tests_cant": "deep-copy aliasing errors depend on what ran between", "anchors": ["xcsf/xcsf.c: xcsf_store_pset, xcsf_retrieve_pset", "xcsf/cl.c: cl_init_copy"]}
{"id": "C25", "title": "Save then load restores the system", "statement": "Loading a file produced by saving restores all saved parameters and every rule of the population in order, consumes the file exactly and reports the same element count as the save.", "quantifier": "all systems with hyperrectangle/hyperellipsoid/ternary/dummy/GP/DGP/neural conditions and integer/neural actions and all predictions", "why_tests_cant": "variable-length records: one misplaced field desynchronises only for particular sizes", "anchors": ["xcsf/xcsf.c: xcsf_save, xcsf_load", "xcsf/clset.c: clset_pset_save, clset_pset_load", "xcsf/cl.c: cl_save, cl_load", "xcsf/param.c: param_save, param_load"]}
{"id": "C26", "title": "Incompatible save files are refused", "statement": "Loading a file whose major or minor version differs from the running version never yields a loaded system; the build number alone does not prevent loading.", "quantifier": "all version triples and file contents", "why_tests_cant": "all version combinations", "anchors": ["xcsf/xcsf.c: xcsf_load"]}
{"id": "C27", "title": "JSON population import keeps order and limits", "statement": "Inserting an exported population into an empty system with enough room reproduces the rules in the same order; inserting never exceeds pop_size.", "quantifier": "all populations with positive numerosities", "why_tests_cant": "list reversal and repeated enforcement", "anchors": ["xcsf/clset.c: clset_json_insert, clset_json_insert_cl, clset_json_export", "xcsf/cl.c: cl_json_import, cl_json_export"]}
{"id": "C28", "title": "A covered hyperrectangle matches its input", "statement": "A hyperrectangle condition created or reset by covering (either centre-spread or unordered-bound form) matches the covering input whenever the spread bounds are valid.", "quantifier": "all dimensions, inputs, bounds and draws", "why_tests_cant": "all real inputs", "anchors": ["xcsf/cond_rectangle.c: cond_rectangle_cover, cond_rectangle_match"]}
{"id": "C29", "title": "Hyperrectangle generality implies coverage", "statement": "If a hyperrectangle is declared more general than another, it matches every input the other matches.", "quantifier": "all pairs of rectangles and inputs", "why_tests_cant": "quantifies over all inputs", "anchors": ["xcsf/cond_rectangle.c: cond_rectangle_general, cond_rectangle_match"]}
{"id": "C30", "title": "Hyperellipsoid generality implies coverage", "statement": "If a hyperellipsoid is declared more general than another, it matches every input the other matches.", "quantifier": "all pairs of ellipsoids and inputs", "why_tests_cant": "needs a geometric counterexample", "anchors": ["xcsf/cond_ellipsoid.c: cond_ellipsoid_general, cond_ellipsoid_match"]}
{"id": "C31", "title": "Interval and ellipsoid operators keep parameters legal and report change truthfully", "statement": "Mutation of hyperrectangles and hyperellipsoids keeps centres (and bounds) in [min,max] and spreads at least machine epsilon, and reports a modification exactly when a parameter changed; crossover only exchanges parameters between the same positions and reports a modification whenever something changed; updates move the centre toward the input by the factor eta and, with eta at most one, never make a matching condition stop matching.", "quantifier": "all conditions, draws and parameters", "why_tests_cant": "all real parameter values", "anchors": ["xcsf/cond_rectangle.c: cond_rectangle_mutate, cond_rectangle_crossover, cond_rectangle_update", "xcsf/cond_ellipsoid.c: cond_ellipsoid_mutate, cond_ellipsoid_crossover, cond_ellipsoid_update"]}
{"id": "C32", "title": "Ternary conditions", "statement": "A ternary condition matches iff every non-# symbol equals the corresponding bit of the binary encoded input; covering yields a matching condition; being more general means agreeing on all specified symbols while differing somewhere, so it implies matching a superset and is irreflexive; initialisation, covering, mutation and crossover keep the alphabet {0,1,#} and the length, mutation only turns a bit into # or # into a bit, and modification is reported whenever the string changed.", "quantifier": "all strings, inputs, bit widths and draws", "why_tests_cant": "all lengths and bit patterns", "anchors": ["xcsf/cond_ternary.c: cond_ternary_match, cond_ternary_cover, cond_ternary_general, cond_ternary_mutate, cond_ternary_crossover", "xcsf/utils.h: float_to_binary"]}
{"id": "C33", "title": "GP trees stay well formed", "statement": "Every GP tree produced by random growth, crossover or mutation is a complete prefix expression whose nodes are functions, constants or inputs in range; evaluating or printing it never leaves the node array and its value is finite and depends only on the tree, constants and input.", "quantifier": "all trees, crossover points, draws and inputs", "why_tests_cant": "all tree shapes", "anchors": ["xcsf/gp.c: tree_grow, tree_rand, tree_traverse, tree_eval, tree_crossover, tree_mutate"]}
{"id": "C34", "title": "Dynamic graph states stay in [0,1] and wiring stays in range", "statement": "Every DGP graph produced by random creation, mutation, copying or importing JSON has connections that index an input or a node, functions in range and update cycles in [1,max_t]; node states stay in [0,1] after any number of updates, whatever the inputs are; a graph that is updated with reset is a function of the input alone; a condition matches iff node 0 ends above 0.5; covering returns a graph that matches; JSON export and import give the same graph.", "quantifier": "all graphs, inputs and numbers of updates", "why_tests_cant": "unbounded update sequences", "anchors": ["xcsf/dgp.c: graph_rand, graph_mutate, graph_update, graph_copy, node_activate, graph_json_import", "xcsf/cond_dgp.c"]}
{"id": "C35", "title": "Covering a DGP/neural rule yields a matching rule with the requested action", "statement": "After covering, a rule whose condition and action are computed by one graph or network matches the input and advocates the requested action.", "quantifier": "all graphs/networks, inputs, actions, draws", "why_tests_cant": "a wrong connective only fails for some random graphs", "anchors": ["xcsf/rule_dgp.c: rule_dgp_act_cover, rule_dgp_act_compute", "xcsf/rule_neural.c: rule_neural_act_cover, rule_neural_act_compute"]}
{"id": "C36", "title": "Computed actions are always valid action indices", "statement": "Actions computed by integer, neural, DGP-rule and neural-rule representations are always in [0,n_actions).", "quantifier": "all rule states and inputs", "why_tests_cant": "all output vectors", "anchors": ["xcsf/act_integer.c", "xcsf/act_neural.c: act_neural_compute", "xcsf/rule_dgp.c: rule_dgp_act_compute", "xcsf/rule_neural.c: rule_neural_act_compute"]}
{"id": "C37", "title": "NLMS reduces its error on the presented sample", "statement": "For linear predictions, one NLMS update with rate eta multiplies the prediction error on the presented input by exactly (1-eta) for every output; with eta in (0,2) the error strictly shrinks.", "quantifier": "all weights, inputs, targets, dimensions", "why_tests_cant": "all real vectors", "anchors": ["xcsf/pred_nlms.c: pred_nlms_update, pred_nlms_compute"]}
{"id": "C38", "title": "Quadratic NLMS reduces its error too", "statement": "The same contraction holds for the quadratic feature expansion.", "quantifier": "all weights, inputs, targets", "why_tests_cant": "depends on inputs large enough to expose the missing terms", "anchors": ["xcsf/pred_nlms.c: pred_nlms_update", "xcsf/prediction.c: prediction_transform_input"]}
{"id": "C39", "title": "RLS maintains the inverse correlation matrix", "statement": "After any sequence of updates the RLS gain matrix is the inverse of the forgetting-weighted sum of input outer products plus the scaled initial matrix, and the weights minimise the corresponding regularised weighted squared error (for the modelled update).", "quantifier": "all input sequences and dimensions", "why_tests_cant": "linear algebra over all histories", "anchors": ["xcsf/pred_rls.c: pred_rls_update, pred_rls_init"]}
{"id": "C40", "title": "The feature expansion has exactly the allocated length", "statement": "Transforming an input of dimension d writes exactly 1+d (linear) or 1+2d+d(d-1)/2 (quadratic) features, the number of weights allocated per output.", "quantifier": "all dimensions", "why_tests_cant": "buffer overflow for one dimension only", "anchors": ["xcsf/prediction.c: prediction_transform_input", "xcsf/pred_nlms.c: pred_nlms_init", "xcsf/pred_rls.c: pred_rls_init"]}
{"id": "C41", "title": "Constant prediction tracks the payoff", "statement": "The constant prediction is the exact mean of the payoffs seen while experience*beta<1 and a beta-weighted running average afterwards, staying between the smallest and largest payoff seen.", "quantifier": "all payoff sequences", "why_tests_cant": "unbounded history", "anchors": ["xcsf/pred_constant.c: pred_constant_update"]}
{"id": "C42", "title": "Losses are non-negative and zero on perfect predictions", "statement": "MAE, MSE, RMSE and Huber losses are non-negative, zero exactly for equal vectors; one-hot loss is 0 or 1 and 0 exactly when the predicted class is the true class; Huber loss is at most half the squared error and continuous at delta.", "quantifier": "all vectors and dimensions", "why_tests_cant": "all real vectors", "anchors": ["xcsf/loss.c"]}
{"id": "C43", "title": "gemm computes the matrix product", "statement": "The library's gemm computes C := beta*C + alpha*op(A)*op(B) for all four transposition modes and all shapes and touches only the C block; axpy, scal, fill, dot, mul, sum compute their textbook definitions with strides.", "quantifier": "all shapes, leading dimensions and contents", "why_tests_cant": "index arithmetic over all shapes", "anchors": ["xcsf/blas.c"]}
{"id": "C44", "title": "Self-adaptive mutation rates stay legal", "statement": "Every self-adaptive mutation rate is in [0.0005,1] after initialisation and any number of adaptations of log-normal or rate-selection type and in [0,1] for the uniform type.", "quantifier": "all draws and numbers of adaptations", "why_tests_cant": "unbounded history", "anchors": ["xcsf/sam.c: sam_init, sam_adapt"]}
{"id": "C45", "title": "Small numeric helpers", "statement": "clamp returns the nearest value of the interval; argmax returns the first index of a maximum; random integers lie in [min,max); the binary encoding of a float in (0,1) is the first bits of its binary expansion, msb first, and saturates outside.", "quantifier": "all arguments for which no integer overflow occurs", "why_tests_cant": "all real arguments and boundaries", "anchors": ["xcsf/utils.h: clamp, argmax, float_to_binary", "xcsf/utils.c: rand_uniform_int"]}
{"id": "C46", "title": "Parameter setters enforce their documented ranges", "statement": "After any sequence of setter calls every general, EA, condition, action and prediction parameter is within its documented range; a rejected value leaves the parameter unchanged.", "quantifier": "all sequences of setter calls with arbitrary values including NaN", "why_tests_cant": "NaN and boundary values in any order", "anchors": ["xcsf/param.c: param_set_*", "xcsf/ea.c: ea_param_set_*", "xcsf/condition.c: cond_param_set_*", "xcsf/prediction.c: pred_param_set_*"]}
{"id": "C47", "title": "Type names round-trip", "statement": "For every representation, loss, EA selection, activation, layer and node-function type, converting the code to its name and back gives the same code, and unknown names are rejected.", "quantifier": "all type codes and all strings", "why_tests_cant": "prefix comparisons with strncmp accept or confuse strings nobody tried", "anchors": ["xcsf/condition.c: condition_type_as_int", "xcsf/prediction.c: prediction_type_as_int", "xcsf/action.c: action_type_as_int", "xcsf/loss.c: loss_type_as_int", "xcsf/ea.c: ea_type_as_int", "xcsf/neural_activations.c", "xcsf/neural_layer.c: layer_type_as_int"]}
{"id": "C48", "title": "Network layer list operations", "statement": "Inserting a layer at any position and removing the layer at any position behave as on a sequence, keeping the network's input/output sizes, output pointer and layer count consistent.", "quantifier": "all networks and positions", "why_tests_cant": "pointer cases at both ends", "anchors": ["xcsf/neural.c: neural_insert, neural_remove, neural_push, neural_pop, neural_copy"]}
{"id": "C49", "title": "Network dimensions stay consistent under mutation", "statement": "After mutation grows or shrinks layers, every layer's number of inputs equals the number of outputs of the layer before it and all spatial dimensions agree, so forward propagation reads only initialised storage.", "quantifier": "all networks of the supported layer types and all mutation outcomes", "why_tests_cant": "needs particular layer stacks", "anchors": ["xcsf/neural.c: neural_mutate, neural_resize", "xcsf/neural_layer.c: layer_add_neurons", "xcsf/neural_layer_*.c: *_resize"]}
{"id": "C50", "title": "Activation functions stay in range and gradients are derivatives", "statement": "Each activation function maps into its documented range and the gradient function is its derivative (where differentiable).", "quantifier": "all real inputs and all activation types", "why_tests_cant": "calculus over all reals", "anchors": ["xcsf/neural_activations.h", "xcsf/neural_activations.c: neural_activate, neural_gradient"]}
{"id": "C51", "title": "Softmax output is a probability vector", "statement": "Softmax outputs are positive, sum to one, preserve order and are unchanged when a constant is added to all inputs.", "quantifier": "all input vectors and positive temperatures", "why_tests_cant": "all real vectors", "anchors": ["xcsf/neural_layer_softmax.c: neural_layer_softmax_forward"]}
{"id": "C52", "title": "Back-propagation computes the gradient", "statement": "For fully connected layers the delta passed back and the accumulated weight and bias updates are the partial derivatives of the (negative half squared) error.", "quantifier": "all weights, inputs, shapes, activation functions", "why_tests_cant": "calculus over all reals", "anchors": ["xcsf/neural_layer_connected.c: forward, backward, update", "xcsf/neural.c: neural_learn"]}
{"id": "C53", "title": "Weights stay within limits and masked weights stay zero", "statement": "After any mutation or learning step all weights and biases lie in [-10,10], disconnected weights are exactly zero, every input and every output keeps at least one active connection after connectivity mutation, and the reported number of active weights is the number of active connections.", "quantifier": "all layers, draws and histories", "why_tests_cant": "all histories of mutate/learn", "anchors": ["xcsf/neural_layer.c: layer_weight_clamp, layer_mutate_weights, layer_mutate_connectivity, layer_ensure_input_represention, layer_calc_n_active", "xcsf/neural_layer_connected.c: update"]}
{"id": "C54", "title": "Pooling, up-sampling, dropout and convolution index correctly", "statement": "Max-pool returns the maximum of each window, avg-pool the channel mean, up-sampling copies each cell to its block, convolution equals the sliding-window sum for all kernel sizes, strides and paddings; backward passes are the adjoints; no access leaves its buffer.", "quantifier": "all shapes, strides, pads, channel counts", "why_tests_cant": "index arithmetic over all shapes", "anchors": ["xcsf/neural_layer_maxpool.c", "xcsf/neural_layer_avgpool.c", "xcsf/neural_layer_upsample.c", "xcsf/neural_layer_dropout.c", "xcsf/neural_layer_convolutional.c", "xcsf/image.c"]}
{"id": "C55", "title": "Multiplexer environment", "statement": "The real multiplexer environment pays the maximum reward exactly for the action equal to the data bit addressed by the address bits, and every array access is in range.", "quantifier": "all problem sizes and states", "why_tests_cant": "all sizes and bit patterns", "anchors": ["xcsf/env_mux.c: env_mux_init, env_mux_execute"]}
{"id": "C56", "title": "Maze environment", "statement": "The agent only ever stands on empty or goal cells inside the maze, each move changes position by at most one cell with wrap-around, reward is paid exactly at the goal and the observed state encodes the eight neighbours.", "quantifier": "all mazes, positions and action sequences", "why_tests_cant": "all mazes and action histories", "anchors": ["xcsf/env_maze.c: env_maze_init, env_maze_reset, env_maze_execute, env_maze_get_state"]}
{"id": "C57", "title": "Configuration comments are ignored", "statement": "Text after # in a configuration file never influences the settings and everything before it is kept, whatever the line length.", "quantifier": "all files", "why_tests_cant": "long lines", "anchors": ["xcsf/config.c: config_read, config_trim"]}
{"id": "C58", "title": "Early stopping", "statement": "Training stops exactly when more than patience trials passed since the last improvement of at least min_delta; with restoring enabled the population at the end is the one of the best recorded error.", "quantifier": "all error sequences and settings", "why_tests_cant": "all sequences of errors", "anchors": ["xcsf/pybind_callback_earlystop.h"]}
{"id": "C59", "title": "Checkpointing", "statement": "Checkpoints are written no more often than save_freq trials and, with save_best_only, only for errors lower than at every earlier checkpoint, so the file always holds the best saved model.", "quantifier": "all error sequences and settings", "why_tests_cant": "all sequences of errors", "anchors": ["xcsf/pybind_callback_checkpoint.h"]}
{"id": "C60", "title": "fit() runs the requested number of trials", "statement": "The supervised fit runs exactly max_trials learning trials, reporting metrics every perf_trials.", "quantifier": "all positive max_trials and perf_trials", "why_tests_cant": "only non-divisible combinations expose it", "anchors": ["xcsf/pybind_wrapper.cpp: fit, update_metrics"]}
{"id": "C61", "title": "Array arguments are shape-checked before use", "statement": "predict/score/fit reject arrays whose shape does not fit the configured x_dim and y_dim, so no element outside the array is read.", "quantifier": "all array shapes", "why_tests_cant": "one-dimensional arrays with x_dim > 1", "anchors": ["xcsf/pybind_wrapper.cpp: load_input, predict, get_cover"]}
{"id": "C62", "title": "Errors are measured on fresh predictions", "statement": "Whenever a rule's error estimate is updated with a target for an input, the error used is the loss between the rule's own prediction for that input and the target; in particular in the terminal step of a multi-step trial.", "quantifier": "all trials, rules and environments", "why_tests_cant": "depends on which rules belong to two successive action sets", "anchors": ["xcsf/xcs_rl.c: xcs_rl_update", "xcsf/cl.c: cl_update", "xcsf/clset.c: clset_update"]}
{"id": "C63", "title": "A covered hyperellipsoid matches its input", "statement": "A hyperellipsoid condition created or reset by covering matches the covering input whenever its spreads cannot be drawn as zero (minimum spread positive, or min different from max).", "quantifier": "all dimensions, inputs, bounds and draws", "why_tests_cant": "all real inputs, bounds and random draws, including degenerate ones", "anchors": ["xcsf/cond_ellipsoid.c: cond_ellipsoid_cover, cond_ellipsoid_match"]}
{"id": "C64", "title": "Evolved learning rates stay within bounds", "statement": "The learning rate of a normalised-least-mean-squares rule, when evolved, starts within [eta_min, eta] and stays there after any number of mutations; when not evolved it is exactly eta. A copied rule gives the same prediction for every input as its original.", "quantifier": "all parameters with eta_min <= eta, all random draws, all numbers of mutations, all inputs", "why_tests_cant": "all real parameters, draws and histories of mutations", "anchors": ["xcsf/pred_nlms.c: pred_nlms_init, pred_nlms_mutate, pred_nlms_copy"]}
{"id": "C65", "title": "Deletion votes", "statement": "When the population is over its limit and no rule is overdue, the rule that loses a copy is drawn with a weight equal to its set-size estimate times its number of copies; the weight is multiplied by the ratio of the mean fitness to its own fitness exactly if the rule has more than theta_del updates and its fitness is below the fraction delta of the mean. With compaction enabled and the system error below the target, two rules are drawn this way and the more complex of the two loses the copy.", "quantifier": "all populations, parameters and random draws", "why_tests_cant": "every population and every random number", "anchors": ["xcsf/cl.c: cl_del_vote", "xcsf/clset.c: clset_pset_roulette, clset_pset_del, clset_total_fit"]}
{"id": "C66", "title": "The reported system error is the moving average of training losses", "statement": "The running error of the system starts at the configured initial value and after each training call moves towards the loss of the prediction made on that call by the fraction beta, and by nothing else: validation trials, predictions, scoring, storing, retrieving and importing rules leave it alone. A training run returns the mean of the same losses. The clock counts training calls. With beta in [0,1] the error never leaves the range of the initial value and the losses seen.", "quantifier": "All parameter settings, representations, random sequences, data sets and call histories", "why_tests_cant": "A moving average over an unbounded history of stochastic trials; a test sees one history.", "anchors": ["xcsf/xcs_supervised.c: xcs_supervised_fit, xcs_supervised_score, xcs_supervised_predict", "xcsf/xcs_rl.c: xcs_rl_error, xcs_rl_fit, xcs_rl_trial", "xcsf/ea.c: ea", "xcsf/xcsf.c: xcsf_init"]}
{"id": "C67", "title": "New rules inherit reduced estimates from their parents", "statement": "After a run of the EA every rule that is new in the population has no experience, carries the current time, has the set-size estimate of one of its two parents (rules of the set) and a fraction of the parental error and of the parental fitness per micro-classifier, averaged over both parents when crossover changed something.", "quantifier": "all sets, parents, lambda, parameters and draws", "why_tests_cant": "values of new rules depend on the order of absorbing, crossover and mutation over a whole run", "anchors": ["xcsf/ea.c: ea, ea_init_offspring, ea_add, ea_subsume", "xcsf/cl.c: cl_init"]}
{"id": "C68", "title": "CSV data are read as written", "statement": "Loading the training or test data from comma separated files yields exactly the numbers in the files, row by row, with the number of rows and columns the files have; input and output files that do not fit together are rejected.", "quantifier": "every file content: any rows, any row lengths, any number of columns", "why_tests_cant": "Tests load one small well-formed file; long rows, ragged rows and files of different lengths are the cases that matter and there are unboundedly many of them.", "anchors": ["xcsf/env_csv.c: env_csv_read, env_csv_read_data, env_csv_dim, env_csv_samples, env_csv_input_read"]}
{"id": "C69", "title": "The cover array belongs to its owner", "statement": "Passing an array of default values to predict or score never makes the library use, overwrite or free memory it does not own, in that call or any later one; without such an array samples that no rule matches are predicted as zeros.", "quantifier": "all histories of predict and fit calls interleaved with creation, modification and release of arrays", "why_tests_cant": "Misuse of memory depends on the history of calls and on when Python releases an array; a test sees the memory still intact.", "anchors": ["xcsf/pybind_wrapper.cpp: get_cover, set_cover, predict, score, fit", "xcsf/pa.c: pa_init, pa_free", "xcsf/xcs_supervised.c: xcs_supervised_trial"]}
{"id": "C70", "title": "A learning step refers to the state that was acted upon", "statement": "The update that follows a decision uses the state given to that decision, whatever the caller does with the array meanwhile.", "quantifier": "all arrays and all modifications between decision and update", "why_tests_cant": "Tests keep the array alive and unchanged between the two calls.", "anchors": ["xcsf/pybind_wrapper.cpp: decision, update, end_step", "xcsf/xcs_rl.c: xcs_rl_end_step"]}
{"id": "C71", "title": "Recurrent layers compute and learn their recurrence", "statement": "The output of a recurrent or LSTM layer after any sequence of inputs is that of the documented recurrence, and training changes all of its parameters in the direction of the gradient, including those of the recurrent connections, at an evolvable learning rate.", "quantifier": "all layer sizes, parameters, activation functions, sequences of inputs and of training examples, and histories of the layer", "why_tests_cant": "Tests check single steps of small layers; the property is about sequences of any length and every parameter.", "anchors": ["xcsf/neural_layer_recurrent.c: neural_layer_recurrent_forward, neural_layer_recurrent_backward, neural_layer_recurrent_update, mutate_eta", "xcsf/neural_layer_lstm.c: neural_layer_lstm_forward, neural_layer_lstm_backward, neural_layer_lstm_update"]}
{"id": "C72", "title": "Loading resizes the prediction array", "statement": "After loading a saved system, computing the system prediction for the loaded rules stays inside the memory of the loading system, whatever dimensions the loading system was created with.", "quantifier": "all saved systems and all loading systems", "why_tests_cant": "needs a saved system and a loading system with different numbers of actions or outputs; the failure is a silent heap overflow", "anchors": ["xcsf/xcsf.c: xcsf_load, xcsf_init", "xcsf/pa.c: pa_init, pa_build"]}
{"id": "C73", "title": "Truncated save files are detected", "statement": "Loading a file that has been cut short never yields a system without an error being reported.", "quantifier": "all saved systems and all cut positions", "why_tests_cant": "every cut position and every system; a test cuts at a few positions", "anchors": ["xcsf/xcsf.c: xcsf_load", "xcsf/param.c: param_load", "xcsf/clset.c: clset_pset_load"]}
{"id": "C74", "title": "Complete systems never run into undefined behaviour", "statement": "For every combination of condition type (always-matching, hyperrectangle, hyperellipsoid, ternary, GP tree, DGP graph), integer actions and prediction type (constant, NLMS, RLS) with legal parameters, no sequence of calls reads or writes outside an array, reads uninitialised memory or uses a freed rule; each function of a rule returns and keeps the rule well-formed.", "quantifier": "all legal parameters, all combinations of types, all random streams and all histories of calls", "why_tests_cant": "combines arbitrary histories with every shape a rule can evolve into; a test follows a few", "anchors": ["xcsf/condition.c: condition_set", "xcsf/action.c: action_set", "xcsf/prediction.c: prediction_set", "xcsf/cl.c", "xcsf/clset.c"]}
{"id": "C75", "title": "Covering and prediction of complete systems", "statement": "In a system with legal parameters, after any history of calls: building a match set with covering for an input gives for every action a rule whose region contains the input; and the prediction returned for an input is the given covering value if no rule contains it, else for each action the fitness-weighted mean of the outputs of the rules containing the input and advocating the action, where region and output are given by the mathematical definition of the representation.", "quantifier": "all combinations of types, parameters, random streams, histories and inputs", "why_tests_cant": "the statement relates internal state after any history to a closed formula", "anchors": ["xcsf/clset.c: clset_match", "xcsf/xcs_supervised.c: xcs_supervised_predict", "xcsf/pa.c: pa_build", "xcsf/cond_rectangle.c", "xcsf/cond_ellipsoid.c", "xcsf/cond_ternary.c", "xcsf/cond_gp.c", "xcsf/cond_dgp.c", "xcsf/pred_nlms.c", "xcsf/pred_rls.c", "xcsf/pred_constant.c"]}
{"id": "C76", "title": "Subsumption never uncovers an input", "statement": "Set subsumption never leaves an input without rules: if before it some rule contains an input and advocates an action, then some rule does so afterwards.", "quantifier": "all systems, histories, sets and inputs", "why_tests_cant": "needs every geometric arrangement of rules and every input", "anchors": ["xcsf/clset.c: clset_subsumption", "xcsf/cl.c: cl_general", "xcsf/cond_ellipsoid.c: cond_ellipsoid_general"]}
{"id": "C77", "title": "Restoring a stored population restores what the system predicts", "statement": "After storing the population, any calls, and retrieving it, the system predicts for every input what it predicted when the population was stored.", "quantifier": "all systems, histories before and in between, and inputs", "why_tests_cant": "depends on what each representation copies; all inputs and histories", "anchors": ["xcsf/xcsf.c: xcsf_store_pset, xcsf_retrieve_pset", "xcsf/cl.c: cl_init_copy", "xcsf/pred_constant.c: pred_constant_copy", "xcsf/pred_rls.c: pred_rls_copy", "xcsf/pred_nlms.c: pred_nlms_copy"]}
{"id": "C78", "title": "Networks of all kinds of layers can be trained after every history", "statement": "After an input has been propagated through a network, training it with any desired outputs uses only memory that belongs to the layers and has been written, cannot fail, and keeps all sizes, whatever mutations, resizings, randomisations, copies and training steps went before.", "quantifier": "all networks built from legal layer parameters, all histories, draws, inputs and desired outputs", "why_tests_cant": "the sizes of the layers depend on the whole history of growing and shrinking; reading unwritten memory is usually invisible", "anchors": ["xcsf/neural.c: neural_learn, neural_propagate, neural_mutate, neural_resize, neural_copy", "xcsf/neural_layer.h: layer_backward, layer_update", "xcsf/neural_layer_recurrent.c: realloc_layer_arrays, neural_layer_recurrent_backward", "xcsf/neural_layer_softmax.c: neural_layer_softmax_backward"]}
{"id": "C79", "title": "Systems made of neural networks never run into undefined behaviour", "statement": "A system whose conditions, actions or predictions are neural networks of any kinds of layers, or whose rules consist of one graph or network for condition and action, never reads or writes outside an array, never reads uninitialised memory and never uses a freed rule, whatever sequence of calls is made; each function of a rule returns and keeps the rule well-formed, actions exist and predictions have the right length.", "quantifier": "all legal layer parameters and parameters of the system, all combinations with the other condition, action and prediction types, all random streams and all histories of calls", "why_tests_cant": "networks grow and shrink inside a population over arbitrarily long histories; an access beyond the outputs after a rare mutation is usually invisible to a test", "anchors": ["xcsf/cond_neural.c", "xcsf/act_neural.c: act_neural_compute", "xcsf/pred_neural.c: pred_neural_compute, pred_neural_update", "xcsf/rule_dgp.c", "xcsf/rule_neural.c", "xcsf/neural.c: neural_mutate, neural_output, neural_learn", "xcsf/neural_layer_args.c: layer_args_validate"]}
{"id": "C80", "title": "Learning rates of network layers stay within the configured limits", "statement": "The learning rate of every layer of a network (and of every part of a recurrent or LSTM layer) always lies between the configured eta_min and eta, after any history of mutation, resizing, propagation, randomisation, copying and training; if the rate is not configured to evolve it is exactly eta.", "quantifier": "every network of connected, recurrent, LSTM, convolutional, pooling, upsampling, dropout, noise and softmax layers, all parameters with eta_min <= eta, every history of operations, every sequence of random numbers", "why_tests_cant": "A rate that leaves its limits after a rare mutation makes learning diverge or stop only after many generations; tests check a few mutations of single layers.", "anchors": ["xcsf/neural_layer.c: layer_mutate_eta", "xcsf/neural_layer.c: layer_init_eta", "xcsf/neural_layer_recurrent.c: neural_layer_recurrent_mutate", "xcsf/neural_layer_lstm.c: neural_layer_lstm_mutate", "xcsf/neural_layer_args.c"]}
{"id": "C81", "title": "Operations on a network change only what its switches allow, and mutation reports its changes", "statement": "Mutating a network changes of each layer only what is switched on for evolution (weights, neurons, functions, learning rate, connections); a layer whose number of neurons does not evolve changes its size only if an earlier layer evolves its own. Propagating an input changes no parameter; training changes the weights and biases of the layers with gradient descent switched on only, and never a connection, rate, function or size. If mutation reports that nothing changed, no later propagation or training can tell the network from what it was.", "quantifier": "every network of all kinds of layers, every switch setting, every random sequence, every later history of propagation and training", "why_tests_cant": "The reported flag decides whether an offspring is treated as new or merged with its parent; a missed change is visible only in rare combinations of layers and random numbers.", "anchors": ["xcsf/neural.c: neural_mutate", "xcsf/neural_layer_connected.c: neural_layer_connected_mutate", "xcsf/neural_layer_convolutional.c: neural_layer_convolutional_mutate", "xcsf/neural_layer_recurrent.c: neural_layer_recurrent_mutate", "xcsf/neural_layer_lstm.c: neural_layer_lstm_mutate", "xcsf/neural_layer_connected.c: neural_layer_connected_update", "xcsf/ea.c: ea_add"]}
{"id": "C82", "title": "Exporting the population as JSON and importing it restores the rules", "statement": "The JSON document that a system exports (with conditions, actions and predictions) can be imported by any system with the same parameters and enough room. The imported rules come before the rules already there, in the order of the exported population, with the same error, fitness, set size, numerosity, experience, time stamp, counters, current match, action and prediction, the same condition, the same action and the same learned weights; a system without rules that imports the document makes the same predictions as the exporting one for every input; and no later history of calls on the importing system has undefined behaviour.", "quantifier": "every system with dummy, hyperrectangle, hyperellipsoid, ternary, tree-GP or DGP conditions, integer actions and constant, NLMS or RLS predictions, every history of calls on the exporting and on the importing system, every input, every sequence of random numbers", "why_tests_cant": "A round trip in a test compares a few rules of one type. Whether every attribute of every rule is written and read under the same name, every value is accepted by the checks of the importer, and no random initial value of the new rule shows through, has to hold for all types, parameters and populations.", "anchors": ["xcsf/clset.c: clset_json_export, clset_json_insert, clset_json_insert_cl", "xcsf/cl.c: cl_json_export, cl_json_import", "xcsf/sam.c: sam_json_import", "xcsf/cond_rectangle.c: cond_rectangle_json_export, cond_rectangle_json_import", "xcsf/cond_ellipsoid.c: cond_ellipsoid_json_export, cond_ellipsoid_json_import", "xcsf/cond_ternary.c: cond_ternary_json_export, cond_ternary_json_import", "xcsf/cond_gp.c: cond_gp_json_export, cond_gp_json_import", "xcsf/gp.c: tree_json_export, tree_json_import", "xcsf/cond_dgp.c: cond_dgp_json_export, cond_dgp_json_import", "xcsf/act_integer.c: act_integer_json_export, act_integer_json_import", "xcsf/pred_nlms.c: pred_nlms_json_export, pred_nlms_json_import", "xcsf/pred_rls.c: pred_rls_json_export, pred_rls_json_import", "xcsf/pred_constant.c: pred_constant_json_export, pred_constant_json_import"]}
{"id": "C83", "title": "The reported parameters can be set again and restore the configuration", "statement": "The JSON report of a system's parameters is accepted by every other system, gives it the same parameters, and its own report is then the same document.", "quantifier": "every combination of arguments of the constructor and of later calls that set parameters, every type of condition, action and prediction with all their arguments, every system that receives the report", "why_tests_cant": "There are some two hundred parameters in nested documents, of which only those of the selected types are reported; a name or unit that differs between the writer and the reader, or a value that the reader refuses, shows only for some combination.", "anchors": ["xcsf/param.c: param_json_export, param_json_import, param_init", "xcsf/pybind_wrapper.cpp: XCS, set_params, internal_params", "xcsf/ea.c: ea_param_json_export, ea_param_json_import", "xcsf/condition.c: cond_param_json_export, cond_param_json_import", "xcsf/action.c: action_param_json_export, action_param_json_import", "xcsf/prediction.c: pred_param_json_export, pred_param_json_import", "xcsf/neural_layer_args.c: layer_args_json_export, layer_args_json_import", "xcsf/gp.c: tree_args_json_export, tree_args_json_import", "xcsf/dgp.c: graph_args_json_export, graph_args_json_import"]}
{"id": "C84", "title": "The representations that parameters describe fit the problem", "statement": "For every accepted combination of parameters, trees and graphs read all inputs of the problem, and networks have as many inputs as the problem and as many outputs as it has actions or outputs.", "quantifier": "every sequence of documents that set parameters, every problem size, every pair of inputs, every rule", "why_tests_cant": "A tree that looks at the first input only still trains and predicts; nothing fails, and the loss shows only as poor accuracy on problems where other inputs matter.", "anchors": ["xcsf/param.c: param_json_export, param_json_import, param_init", "xcsf/pybind_wrapper.cpp: XCS, set_params, internal_params", "xcsf/condition.c: cond_param_defaults, cond_param_json_import", "xcsf/gp.c: tree_args_init, tree_args_json_import", "xcsf/dgp.c: graph_args_init, graph_args_json_import", "xcsf/neural_layer_args.c: layer_args_json_import, layer_args_validate", "xcsf/cond_gp.c: cond_gp_param_defaults", "xcsf/pred_neural.c: pred_neural_param_defaults", "xcsf/act_neural.c: act_neural_param_defaults"]}
{"id": "C85", "title": "With a given random_state the construction of a system does not depend on the clock", "statement": "Two systems made at different times from the same arguments, with a random_state, have the same parameters and draw the same random numbers from then on.", "quantifier": "every document of arguments with a random_state, every two clocks, every generator", "why_tests_cant": "A test that makes two systems within the same second cannot tell a seed from the clock, and a parameter drawn before the seed takes effect differs only between runs.", "anchors": ["xcsf/param.c: param_json_export, param_json_import, param_init", "xcsf/pybind_wrapper.cpp: XCS, set_params, internal_params", "xcsf/param.c: param_set_random_state", "xcsf/utils.c: rand_init, rand_init_seed", "xcsf/gp.c: tree_args_init_constants"]}
{"id": "C86", "title": "Setting parameters keeps every parameter in its range or refuses", "statement": "Whatever documents are used to make a system and to set its parameters, if they are accepted every parameter is within its documented range; a document with an unknown name or a value of the wrong kind is refused.", "quantifier": "every sequence of documents of any content, every initial problem size", "why_tests_cant": "The ranges are enforced by separate setters in many files, some of which clamp, some refuse and some do nothing; only a proof over all of them covers every parameter and order.", "anchors": ["xcsf/param.c: param_json_export, param_json_import, param_init", "xcsf/pybind_wrapper.cpp: XCS, set_params, internal_params", "xcsf/param.h: param_set_*", "xcsf/ea.c: ea_param_json_import", "xcsf/condition.c: cond_param_json_import", "xcsf/pred_nlms.c: pred_nlms_param_json_import", "xcsf/pred_rls.c: pred_rls_param_json_import"]}
{"id": "C87", "title": "Reporting the parameters has no effect", "statement": "Asking for the parameters leaves the parameters and the sequence of random numbers as they are, and asking twice gives the same report.", "quantifier": "every configuration, every random state", "why_tests_cant": "An observer that draws random numbers makes experiments irreproducible only when it is called, which a comparison of reports does not show.", "anchors": ["xcsf/param.c: param_json_export, param_json_import, param_init", "xcsf/pybind_wrapper.cpp: XCS, set_params, internal_params", "xcsf/neural_layer_args.c: layer_args_json_export", "xcsf/neural.c: neural_create"]}
{"id": "C88", "title": "Multi-threaded execution gives the serial result", "statement": "In the default multi-threaded build, fitting, scoring, predicting and reinforcement learning give the same population, predictions, random state and error messages whatever the number of threads, the assignment of rules to threads and the interleaving of their steps, and the same as with one thread; there are no data races and no thread is ever stuck.", "quantifier": "all histories of calls, all populations, all distributions of iterations over threads, all interleavings of the steps of loop bodies, all decompositions of bodies into steps", "why_tests_cant": "A test runs one schedule on one machine; a race or an order dependence may need a rare interleaving, and the number of interleavings is unbounded.", "anchors": ["xcsf/clset.c: clset_match", "xcsf/clset.c: clset_update", "xcsf/pa.c: pa_build", "xcsf/neural_layer_noise.c: neural_layer_noise_forward", "xcsf/neural_layer_dropout.c: neural_layer_dropout_forward", "xcsf/utils.c: rand_normal"]}
{"id": "C89", "title": "Parameters may be changed between calls", "statement": "After any sequence of calls and parameter changes with legal values, no call has undefined behaviour, rules keep legal values, the reported counters are exact and the population is within the limit in force.", "quantifier": "all systems, all interleavings of calls and set_params with legal parameters, all reseedings", "why_tests_cant": "A test changes one parameter at one moment; the effect of a change shows only in combination with the rules that were made under earlier parameters, and writes outside of arrays may go unnoticed.", "anchors": ["xcsf/pybind_wrapper.cpp: set_params", "xcsf/param.c: param_json_import, param_set_pop_size, param_set_n_actions, param_set_random_state", "xcsf/pa.c: pa_init, pa_build", "xcsf/clset.c: clset_pset_enforce_limit", "xcsf/prediction.c: pred_transform_input", "xcsf/pred_nlms.c: pred_nlms_init"]}
{"id": "C90", "title": "Expanding the networks of a population is safe and exact", "statement": "pred_expand adds one layer to the network of every rule, just before the output layer and of the size of the hidden layer below, keeps all other layers, all conditions, actions and numerosities and the stored population, and restarts error, fitness and experience; calls and expansions can be mixed freely without undefined behaviour.", "quantifier": "all systems with neural predictions, all histories of calls and expansions, all generators", "why_tests_cant": "Tests expand one network once; here networks of different depths meet in one population, are copied, mutated, trained, deleted and expanded again in any order.", "anchors": ["xcsf/xcsf.c: xcsf_pred_expand", "xcsf/pred_neural.c: pred_neural_expand", "xcsf/neural.c: neural_insert, neural_resize", "xcsf/neural_layer_connected.c: neural_layer_connected_init", "xcsf/pybind_wrapper.cpp: pred_expand"]}
{"id": "C91", "title": "An autoencoder can be turned into a classifier", "statement": "ae_to_classifier removes up to the given number of layers from the output end of the network of every rule, never the last, keeps the remaining ones, and adds a linear and a softmax layer with one output for each class; the system can then be used in any way without undefined behaviour.", "quantifier": "all systems with neural predictions, all histories before and after the conversion, all numbers of layers to remove, all numbers of classes", "why_tests_cant": "A test converts one network; rules are created, copied and trained afterwards by code that reads the new number of outputs, next to layer parameters that still describe the autoencoder.", "anchors": ["xcsf/xcsf.c: xcsf_ae_to_classifier", "xcsf/pred_neural.c: pred_neural_ae_to_classifier", "xcsf/neural.c: neural_pop, neural_push", "xcsf/pa.c: pa_init", "xcsf/pybind_wrapper.cpp: ae_to_classifier"]}
{"id": "C92", "title": "Learning in mixed networks follows the gradient", "statement": "For one training example, the parameter updates accumulated by a network of several kinds of layers are the partial derivatives of minus half the squared error of the outputs with respect to every weight and bias, and with a softmax output layer those of the error it is trained on.", "quantifier": "all networks of connected, convolutional, recurrent, pooling, upsampling, dropout and noise layers with or without a softmax output layer, all weights, memories, inputs, targets and random states", "why_tests_cant": "calculus over all reals and all stacks of layers", "anchors": ["xcsf/neural.c: neural_learn", "xcsf/neural_layer_connected.c: neural_layer_connected_backward", "xcsf/neural_layer_convolutional.c: neural_layer_convolutional_backward", "xcsf/neural_layer_recurrent.c: neural_layer_recurrent_forward, neural_layer_recurrent_backward", "xcsf/neural_layer_maxpool.c: neural_layer_maxpool_backward", "xcsf/neural_layer_avgpool.c: neural_layer_avgpool_backward", "xcsf/neural_layer_upsample.c: neural_layer_upsample_backward", "xcsf/neural_layer_dropout.c: neural_layer_dropout_backward", "xcsf/neural_layer_noise.c: neural_layer_noise_backward", "xcsf/neural_layer_softmax.c: neural_layer_softmax_backward"]}
{"id": "C93", "title": "Systems of neural networks answer with what their networks compute", "statement": "After any history of calls, a system whose conditions, actions or predictions are neural networks predicts for an input the fitness-weighted mean of the outputs that the networks of the rules matching it compute: a condition matches if its first output exceeds one half, the action is the first of the greatest outputs, a network computes the composition of the functions of its layers (weighted sums with activation, convolution, maxima and means of windows, up-sampling, softmax, dropout and noise being inactive), and neither other rows of the batch nor former predictions matter.", "quantifier": "all networks of all kinds of layers, all histories of mutation, resizing, learning and prediction, all inputs", "why_tests_cant": "real-valued function over all stacks of layers and all histories; dependence on former predictions shows only for particular sequences of calls", "anchors": ["xcsf/neural.c: neural_propagate", "xcsf/neural.c: neural_output", "xcsf/cond_neural.c: cond_neural_match", "xcsf/act_neural.c: act_neural_compute", "xcsf/pred_neural.c: pred_neural_compute", "xcsf/rule_neural.c: rule_neural_cond_match", "xcsf/rule_neural.c: rule_neural_act_compute", "xcsf/pa.c: pa_build"]}
{"id": "C94", "title": "Calls come back", "statement": "Every call of the library returns: choosing an action to explore, holding a tournament for parents and creating rules for an input never loop forever; the program ends with a message only for a failed covering or a value that is out of range, and not at all while predicting, scoring, inserting, importing, storing or retrieving, nor while learning as long as the population has room for one rule per action.", "quantifier": "all histories of calls, all inputs, all generators of random numbers that eventually draw a number below the tournament size", "why_tests_cant": "whether a loop that waits for a random event ends depends on the reachable populations and on every sequence of random numbers", "anchors": ["xcsf/clset.c: clset_cover", "xcsf/ea.c: ea_select_tournament", "xcsf/pa.c: pa_rand_action", "xcsf/cond_gp.c: cond_gp_cover", "xcsf/xcs_supervised.c: xcs_supervised_fit", "xcsf/xcs_rl.c: xcs_rl_fit"]}
{"id": "C95", "title": "There is no hidden state: a saved system continues where it stopped", "statement": "What a system answers to all further calls depends only on its rules in their order, its stored population, its running numbers (time, error, set sizes, fraction matched, mode) and the state of the random number generator. Two systems that agree on these give the same answers to every further history of calls, fail in the same way and hold the same rules afterwards, wherever the rules are in memory and whatever earlier calls left behind. In particular a system that is saved and loaded in another process with the generator in the same state continues exactly like the original. Storing and retrieving the population with no call in between changes nothing.", "quantifier": "all pairs of systems after any histories, all parameters and representations, all further histories of calls; all files the systems are saved to", "why_tests_cant": "A leftover of an earlier call, an uninitialised field or a pointer comparison shows up only after particular histories, and memory layout cannot be varied systematically in a test.", "anchors": ["xcsf/xcsf.c: xcsf_save", "xcsf/xcsf.c: xcsf_load", "xcsf/xcsf.c: xcsf_store_pset", "xcsf/xcsf.c: xcsf_retrieve_pset", "xcsf/clset.c: clset_pset_load", "xcsf/xcs_supervised.c: xcs_supervised_trial", "xcsf/xcs_rl.c: xcs_rl_trial", "xcsf/ea.c: ea"]}
{"id": "C96", "title": "Conditions, actions, predictions and networks give back all memory and never use released memory", "statement": "Every rule owns the arrays, trees, graphs, layers and connected sublayers it is made of. Whatever is done with rules (creation, covering, reproduction, copying, loading, import, matching, prediction, learning, mutation that adds and removes neurons, crossover, comparison, expansion of networks, conversion to classifiers, deletion), in any order and any number of times and whether or not reallocation moves arrays: no array is read, written or released after it was released, no null pointer is followed, and once all rules are deleted exactly the memory is allocated that was allocated before. Operations that neither create nor delete rules or layers do not change the number of allocated arrays.", "quantifier": "all histories of operations on rules, all combinations of condition, action and prediction types, networks of any number of layers of any kind, all outcomes of chance, all behaviours of the allocator", "why_tests_cant": "A pointer kept after an array moved, a forgotten array of one kind of layer or a double release needs a particular sequence of mutation, copying and deletion and a particular behaviour of the allocator; tests see a leak only with tools and only on the sequences they run.", "anchors": ["xcsf/neural.c: neural_copy", "xcsf/neural.c: neural_free", "xcsf/neural.c: neural_mutate", "xcsf/neural_layer_recurrent.c: neural_layer_recurrent_mutate", "xcsf/neural_layer_recurrent.c: neural_layer_recurrent_load", "xcsf/neural_layer_lstm.c: neural_layer_lstm_copy", "xcsf/neural_layer_connected.c: neural_layer_connected_resize", "xcsf/cond_gp.c: cond_gp_cover", "xcsf/gp.c: tree_crossover", "xcsf/pred_neural.c: pred_neural_expand", "xcsf/pred_neural.c: pred_neural_ae_to_classifier", "xcsf/cl.c: cl_free", "xcsf/cl.c: cl_copy"]}
{"id": "C97", "title": "A rule made of networks contains the input and advocates the action it was made for", "statement": "When no rule of the population contains an input with some action, a rule is made for it whose condition and action may be networks. As soon as such a rule exists, it contains the input and advocates the action, in learning and in prediction alike; so after every history of calls the match set built for an input has a rule for every action.", "quantifier": "all systems of neural conditions and actions (also mixed with the other condition types), all networks, all inputs and actions, all histories of calls, all draws of the generator", "why_tests_cant": "Random networks are drawn until one fits; whether the network that is kept is the one that was tried, and whether it answers the same later, depends on the kinds of its layers and on what they keep between calls. Tests cover few inputs with fixed seeds and ask only once.", "anchors": ["xcsf/cond_neural.c: cond_neural_cover", "xcsf/cond_neural.c: cond_neural_match", "xcsf/act_neural.c: act_neural_cover", "xcsf/act_neural.c: act_neural_compute", "xcsf/clset.c: clset_match", "xcsf/cl.c: cl_cover", "xcsf/neural_layer_dropout.c: neural_layer_dropout_forward"]}
{"id": "C98", "title": "The progress report shows the averages since the previous line and does not disturb learning", "statement": "Experiments (training on a data set, reinforcement learning with a built-in environment) print a line every PERF_TRIALS trials. Each line shows the averages of the training and test errors (of the performance and the error) over the last PERF_TRIALS trials and the current number of rules; every trial is reported; the returned value is the average over all trials; reporting changes nothing in what is learned.", "quantifier": "all systems, data sets, environments, numbers of trials, report intervals and starting states", "why_tests_cant": "The windows are running totals that are reset at certain trials: whether each window has the right trials in it depends on the number of the trial and the interval; tests ignore what is printed.", "anchors": ["xcsf/perf.c: perf_print", "xcsf/xcs_supervised.c: xcs_supervised_fit", "xcsf/xcs_rl.c: xcs_rl_exp", "xcsf/xcs_rl.c: xcs_rl_trial", "xcsf/main.c: main"]}
{"id": "C99", "title": "Driving trials step by step from Python is safe, leaves nothing behind and equals a built-in trial", "statement": "Python offers the functions of a reinforcement learning trial one by one (init_trial, init_step, decision, update, error, end_step, end_trial), together with fit, predict and score. Whatever the order of the calls, no memory that has been given back is read, written or freed, and when all trials have been ended no list node, array or rule outside the populations stays allocated. The documented program (python/example_maze.py) has the same effect, number of steps and error as a built-in trial with the same environment.", "quantifier": "all systems, parameters, representations, random numbers, environments, earlier histories and sequences of calls", "why_tests_cant": "The sets of a trial are linked lists that different calls allocate, share (end_step makes two sets share their nodes), prune and free; whether a sequence is safe depends on which rules were deleted in between, on the random numbers and on the whole history; tests run one episode in one order.", "anchors": ["xcsf/pybind_wrapper.cpp: XCS", "xcsf/xcs_rl.c: xcs_rl_init_trial", "xcsf/xcs_rl.c: xcs_rl_end_trial", "xcsf/xcs_rl.c: xcs_rl_init_step", "xcsf/xcs_rl.c: xcs_rl_end_step", "xcsf/xcs_rl.c: xcs_rl_update", "xcsf/xcs_rl.c: xcs_rl_decision", "xcsf/xcs_rl.c: xcs_rl_error", "xcsf/xcs_rl.c: xcs_rl_trial", "xcsf/clset.c: clset_validate", "xcsf/clset.c: clset_free", "xcsf/clset.c: clset_add", "xcsf/clset.c: clset_action", "python/example_maze.py"]}
{"id": "C100", "title": "Pickling gives back the system that was pickled", "statement": "A system that is pickled with Python's pickle and unpickled is the same system: it has the same parameters, rules and counts, its next prediction does no harm, and this also holds while other processes pickle or unpickle.", "quantifier": "all whole systems, all byte encodings of numbers, all schedules of any number of processes in any directories, all match sets", "why_tests_cant": "A test pickles in one process with one system of a fixed shape; processes that pickle at the same time collide only under particular schedules, and a write behind an array is often not noticed.", "anchors": ["xcsf/pybind_wrapper.cpp: serialize", "xcsf/pybind_wrapper.cpp: deserialize", "xcsf/xcsf.c: xcsf_load", "xcsf/pa.c: pa_init"]}
{"id": "C101", "title": "get_params() shows the parameters in use, and copies made from it have them", "statement": "After every sequence of XCS(...), set_params(...), load(...), internal_params() and ae_to_classifier(...), get_params() shows every parameter with the value that is in use, and a new object constructed with these values (as scikit-learn's clone does) uses the same values.", "quantifier": "all histories of calls with all arguments, all parameters, all random number generators and seeds", "why_tests_cant": "The dictionary that get_params() returns is kept beside the parameters in use and the two are changed by different code; whether they agree depends on the whole history of calls, and tests look at single calls.", "anchors": ["xcsf/pybind_wrapper.cpp: set_params", "xcsf/pybind_wrapper.cpp: get_params", "xcsf/pybind_wrapper.cpp: update_params", "xcsf/pybind_wrapper.cpp: load", "xcsf/param.c: param_json_import", "xcsf/param.c: param_json_export", "xcsf/xcsf.c: xcsf_ae_to_classifier"]}
{"id": "C102", "title": "The training record tells what happened", "statement": "After every sequence of calls, get_metrics() has one entry per epoch of fit(), in order: the mean loss of its trials, the error on the validation data, the sizes of population and match sets that the training led to, and the number of trials the system had been trained for; validation does not change what is recorded about training.", "quantifier": "all sequences of calls with all data sets, parameters, callbacks and systems", "why_tests_cant": "The record is kept across calls while data, parameters and the system itself may be replaced in between; tests look at a single call of fit().", "anchors": ["xcsf/pybind_wrapper.cpp: update_metrics", "xcsf/pybind_wrapper.cpp: get_metrics", "xcsf/pybind_wrapper.cpp: fit", "xcsf/pybind_wrapper.cpp: load_validation_data", "xcsf/pybind_wrapper.cpp: callbacks_run", "xcsf/xcs_supervised.c: xcs_supervised_fit", "xcsf/xcs_supervised.c: xcs_supervised_score", "xcsf/clset.c: clset_match"]}
{"id": "C103", "title": "The picture of a condition shows the condition", "statement": "TreeViz and DGPViz draw an exported tree or graph condition. For every condition a system can produce the drawing succeeds, has exactly the nodes and connections of the condition, with the names given to the inputs, and lets one read off what decides the match: the expression of a tree, or the rounds of a graph.", "quantifier": "all expressions of every shape and size, all wirings and functions of graphs, all lists of names, all inputs and starting states", "why_tests_cant": "Tests draw one or two trees and look at them; that the reader of the exported list never loses, swaps or repeats an operand must hold for every nesting.", "anchors": ["xcsf/utils/viz.py: TreeViz", "xcsf/utils/viz.py: DGPViz", "xcsf/gp.c: tree_string", "xcsf/dgp.c: graph_json_export"]}
{"id": "C104", "title": "The statistics of the population are means over its rules", "statement": "pset_mean_cond_size, pset_mean_pred_size, pset_mean_cond_layers, _neurons, _connections and pset_mean_pred_layers, _neurons, _connections, _eta report the mean over the rules of the population of what they are named after: the size of condition or prediction, the number of layers of its network, and the number of neurons, of weights in use and the learning rate of the layer asked for; zero if there is no network, no such layer or no rule. Reading them uses no freed rule and has no undefined behaviour.", "quantifier": "all histories of calls on systems with any kind of conditions, actions and predictions, all layers asked for, also negative ones", "why_tests_cant": "Tests read the statistics of one small population; that the counters kept in the layers still equal the number of weights in use after any history of mutation, growth and training, and that no sum overflows, cannot be tested.", "anchors": ["xcsf/clset_neural.c: clset_mean_pred_connections", "xcsf/clset.c: clset_mean_cond_size", "xcsf/neural.c: neural_size", "xcsf/pred_neural.c: pred_neural_neurons", "xcsf/cond_neural.c: cond_neural_connections"]}
{"id": "C105", "title": "LSTM layers learn the gradient of their outputs", "statement": "For one training example, what a step of learning adds to the accumulated updates of an LSTM layer's weights and biases is the partial derivative of minus half the squared error of the layer's output with respect to them.", "quantifier": "all legal LSTM layers, any memory, weights, activation functions, inputs and targets at which the output is differentiable", "why_tests_cant": "calculus over all reals and all sizes; tests compare outputs, not derivatives", "anchors": ["xcsf/neural_layer_lstm.c: neural_layer_lstm_forward, neural_layer_lstm_backward", "xcsf/neural_activations.c: neural_gradient_array, neural_activate_array"]}
{"id": "C106", "title": "The JSON shown for a network describes the network", "statement": "The JSON document of a network has one member for each layer, in the order of the layers, with the layer's type, its numbers of inputs and outputs, its activation functions, learning and mutation rates, the settings of its kind (shape of filters and images, probability, deviation, temperature) and its numbers of weights, biases and active connections, and where weights are requested all of them; making it succeeds for every network. Two networks with the same document give the same outputs for every input, and a document can be read back.", "quantifier": "All networks of the ten kinds of layers made from legal parameters, after every history of mutation, resizing, propagation, randomisation, copying and training; all pairs of networks with equal documents and all inputs.", "why_tests_cant": "A test prints a network and looks at it; it cannot compare all pairs of networks with the same document, nor the networks all histories lead to.", "anchors": ["xcsf/neural.c: neural_json_export", "xcsf/neural.c: neural_json_import", "xcsf/neural_layer.c: layer_weight_json", "xcsf/neural_layer_connected.c: neural_layer_connected_json_export", "xcsf/neural_layer_convolutional.c: neural_layer_convolutional_json_export", "xcsf/neural_layer_recurrent.c: neural_layer_recurrent_json_export", "xcsf/neural_layer_lstm.c: neural_layer_lstm_json_export", "xcsf/cond_neural.c: cond_neural_json_export", "xcsf/pred_neural.c: pred_neural_json_export", "xcsf/act_neural.c: act_neural_json_export", "xcsf/rule_neural.c: rule_neural_cond_json_export"]}
{"id": "C107", "title": "The stand-alone program learns from the files it is given", "statement": "Run on the name of a data set and a configuration file, the program builds a system with the configured parameters and the sizes of the data files, learns from exactly the rows of the training files for the configured number of trials, and tests on exactly the rows of the test files. A wrong number of arguments, an unknown kind of problem, a missing or unusable data file, a malformed configuration and a problem size that is not a number end it with an error message.", "quantifier": "every command line, every content of the disk, every configuration, every sequence of random numbers, every rule representation", "why_tests_cant": "A test runs the program on one data set with one configuration; files of different shapes, configurations that contradict the files, long names and mistyped arguments are unbounded in number, and reading past the end of the data may go unnoticed in any single run.", "anchors": ["xcsf/main.c: main", "xcsf/env.c: env_init", "xcsf/env_csv.c: env_csv_init, env_csv_input_read, env_csv_read", "xcsf/config.c: config_read", "xcsf/xcs_supervised.c: xcs_supervised_fit", "xcsf/env_mux.c: env_mux_init"]}
{"id": "C108", "title": "A population file seeds a new system", "statement": "A system that is started with the name of a file to which another system has written its population as JSON holds the same rules in the same order with all their attributes, filled up with random rules if the population is to start full, and reports the numbers of a new system; every later call is safe, and the rules evolve as those of a new system do. This happens again whenever the system is re-initialised. A file that cannot be read, is empty, is not JSON or holds no population ends the program with a message.", "quantifier": "every history of the system that wrote the file, every representation of conditions and predictions, every file system, every sequence of random numbers, every later history", "why_tests_cant": "A test loads one small file; populations have unboundedly many shapes, and what the loaded time stamps do to later evolution is only seen after long runs.", "anchors": ["xcsf/clset.c: clset_load_pop_file, clset_pset_init, clset_json_insert, clset_json_insert_cl", "xcsf/xcsf.c: xcsf_init", "xcsf/ea.c: ea", "xcsf/param.c: param_set_population_file", "xcsf/pybind_wrapper.cpp: fit"]}
{"id": "C109", "title": "Rounding, overflow, infinities and not-a-numbers never lead to undefined behaviour", "statement": "Also when it calculates with doubles - rounded results, infinities, values that are not a number in data, rewards, losses, predictions and statistics - no history of calls reads outside an array, dereferences a missing rule or uses freed memory: every roulette wheel stops at one of its rules, every random index is within its array, and the fitness and set size of no rule become negative.", "quantifier": "every format of floating point numbers that rounds monotonically and is exact on numbers of 53 bits (binary64 rounded to nearest in particular), all parameters in their documented ranges, all representations, inputs, losses (infinite and not-a-number included), random numbers of 52 bits, and all histories", "why_tests_cant": "Whether a sum of rounded numbers can be exceeded by a rounded fraction of it, or whether an index can be rounded up to the length of an array, depends on single bits; tests meet such values with negligible probability, and values that are not numbers only in rare combinations.", "anchors": ["xcsf/utils.c: rand_uniform", "xcsf/utils.c: rand_uniform_int", "xcsf/clset.c: clset_pset_roulette", "xcsf/ea.c: ea_select_rw", "xcsf/cl.c: cl_update", "xcsf/cl.c: cl_acc", "xcsf/cl.c: cl_del_vote"]}
{"id": "C110", "title": "A bad sample does no lasting harm", "statement": "If a training sample whose target or reward is not a number (a missing value read as NaN) or infinite reaches the system, it is refused, or its effect fades as good samples follow: the reported training error, the errors of rules and the predictions become numbers again; and evaluating such samples (prediction, scoring, validation) leaves the training error alone.", "quantifier": "every system over doubles, every loss that is not a number for such a target (mean absolute and squared error in particular), every position of the bad sample in the history and all calls that follow, of any number", "why_tests_cant": "Tests use clean data; that a single value poisons running averages for ever, while the rules that met it count as perfectly accurate, shows only in what happens after arbitrarily many later samples.", "anchors": ["xcsf/loss.c: loss_mae", "xcsf/loss.c: loss_mse", "xcsf/xcs_supervised.c: xcs_supervised_fit", "xcsf/cl.c: cl_update", "xcsf/cl.c: cl_acc", "xcsf/pred_constant.c: pred_constant_update", "xcsf/pa.c: pa_build", "xcsf/xcs_rl.c: xcs_rl_fit", "xcsf/pa.c: pa_best_action", "xcsf/pa.c: pa_best_val", "xcsf/pred_nlms.c: pred_nlms_update", "xcsf/pred_rls.c: pred_rls_update", "xcsf/blas.c: blas_gemm"]}
{"id": "C111", "title": "Inputs with missing or infinite values are covered and leave rules intact", "statement": "If an input contains values that are not a number or infinite, a rule made to cover it matches it, as for any other input, and advocates the action it was made for; presenting it again needs no further rule; and learning from it does not change which other inputs a rule matches.", "quantifier": "every double as input value, every number of inputs, all spreads that can be drawn, both kinds of hyperrectangles, hyperellipsoids, ternary conditions and conditions and actions that are networks of connected and softmax layers", "why_tests_cant": "Tests use numbers; whether comparisons with not-a-number turn out as matching or not differs between the conditions, and rounding could exclude a value from the interval drawn around it only for single bit patterns.", "anchors": ["xcsf/cond_rectangle.c: cond_rectangle_match", "xcsf/cond_rectangle.c: cond_rectangle_cover", "xcsf/cond_rectangle.c: cond_rectangle_update", "xcsf/cond_ellipsoid.c: cond_ellipsoid_match", "xcsf/cond_ellipsoid.c: cond_ellipsoid_cover", "xcsf/cond_ternary.c: cond_ternary_match", "xcsf/utils.h: float_to_binary", "xcsf/cond_neural.c: cond_neural_match", "xcsf/cond_neural.c: cond_neural_cover", "xcsf/neural_activations.h", "xcsf/act_neural.c: act_neural_cover", "xcsf/act_neural.c: act_neural_compute", "xcsf/neural_layer_softmax.c: neural_layer_softmax_forward", "xcsf/rule_neural.c: rule_neural_act_cover", "xcsf/rule_neural.c: rule_neural_act_compute"]}
{"id": "C112", "title": "A parameter is refused or works", "statement": "Setting a parameter to a double outside its documented range, not-a-number included, is refused and changes nothing; with whatever is accepted, training and prediction keep working: calls return, training errors are numbers, actions are explored and rules are told apart by their errors.", "quantifier": "every double, every parameter of learning and evolution that is a double, every sequence of settings and every history of calls that follows", "why_tests_cant": "Tests of setters try a value below and one above the range; what a stored not-a-number does afterwards depends on which comparison it meets, and only shows in histories of training.", "anchors": ["xcsf/param.c: param_set_beta", "xcsf/param.c: param_set_e0", "xcsf/param.c: param_set_gamma", "xcsf/param.c: param_set_p_explore", "xcsf/ea.c: ea_param_set_select_size", "xcsf/ea.c: ea_param_set_theta", "xcsf/ea.c: ea_select_tournament", "xcsf/cl.c: cl_acc"]}
{"id": "C113", "title": "A rule that matches an incomplete input matches every completion of it", "statement": "If a rule matches an input in which some values are missing (not a number), it also matches that input with any values in their place. With conditions that keep a memory this holds for whole series of inputs, and an input with missing values does not change for ever what a rule matches.", "quantifier": "every tree and every graph, all constants, all doubles, all series of inputs and all ways of filling in their missing values, with and without memory; hyperrectangles, hyperellipsoids and networks of connected and softmax layers", "why_tests_cant": "Whether a missing value leaks through limits, comparisons and protected division depends on the expression; tests try single expressions and do not compare runs over incomplete and complete series.", "anchors": ["xcsf/gp.c: tree_eval", "xcsf/cond_gp.c: cond_gp_match", "xcsf/dgp.c: node_activate", "xcsf/dgp.c: graph_update", "xcsf/cond_dgp.c: cond_dgp_match", "xcsf/rule_dgp.c: rule_dgp_cond_match", "xcsf/cond_rectangle.c: cond_rectangle_match", "xcsf/cond_ellipsoid.c: cond_ellipsoid_match", "xcsf/cond_neural.c: cond_neural_match"]}
{"id": "C114", "title": "Conditions compute numbers from numbers", "statement": "If nothing in an input is missing, conditions that are trees, graphs or networks compute numbers from it, never not-a-number: they decide about the input, and what they remember of it does not disable them.", "quantifier": "every tree with all its constants, every graph, every network of connected and softmax layers with weights within their limits, any scales and any activation functions, all numbers of nodes, connections, layers and cycles, all doubles including infinite ones, all series of inputs with and without memory", "why_tests_cant": "Overflow followed by a multiplication with zero needs inputs and graphs that tests do not contain; division by numbers so small that the quotient overflows likewise.", "anchors": ["xcsf/gp.c: tree_eval", "xcsf/utils.h: clamp", "xcsf/dgp.c: node_activate", "xcsf/dgp.c: graph_update", "xcsf/cond_gp.c: cond_gp_match", "xcsf/cond_dgp.c: cond_dgp_match", "xcsf/neural_layer_connected.c: neural_layer_connected_forward", "xcsf/neural_activations.c: neural_activate", "xcsf/neural_layer_softmax.c: neural_layer_softmax_forward", "xcsf/neural_layer_args.c: layer_args_init", "xcsf/cond_neural.c: cond_neural_match"]}
{"id": "C115", "title": "Networks that learn from finite samples keep predicting numbers and keep learning", "statement": "A network prediction trained by gradient descent with samples that are finite numbers keeps weights that are numbers within their limits and predicts numbers, and no finite sample stops a weight from learning for ever.", "quantifier": "every network of one connected layer, all numbers of inputs, all weights within the limits, all rates up to one, momenta up to 0.99 and decays up to one, all activation functions, all series of finite samples of any length, with rounding of every operation", "why_tests_cant": "Accumulated updates depend on the whole history of samples; an overflow needs sizes of inputs and targets that tests do not contain, and its effect has to be followed through all later samples.", "anchors": ["xcsf/neural_layer_connected.c: neural_layer_connected_forward", "xcsf/neural_layer_connected.c: neural_layer_connected_backward", "xcsf/neural_layer_connected.c: neural_layer_connected_update", "xcsf/neural_layer.c: layer_weight_clamp", "xcsf/neural_activations.c: neural_gradient", "xcsf/neural.c: neural_learn", "xcsf/blas.c: blas_scal"]}
{"id": "C116", "title": "Running averages stay numbers of the size of what they average", "statement": "If targets, losses and set sizes are numbers of bounded size, the training error, the errors, set sizes, accuracies and fitnesses of rules and constant predictions are numbers of bounded size for ever: rounding does not accumulate to an overflow or drift, and averages stay within the range of what they average.", "quantifier": "every rate between zero and one (for rules not below a chosen fraction), every bound, every double format with monotone rounding, all series of samples of any length, every history of calls without multi-step trials", "why_tests_cant": "Rounding errors of single steps are invisible to tests; whether they accumulate over arbitrarily many steps cannot be settled by running some.", "anchors": ["xcsf/cl.c: cl_update", "xcsf/cl.c: cl_acc", "xcsf/cl.c: cl_update_fit", "xcsf/clset.c: clset_update_fit", "xcsf/loss.c: loss_mse", "xcsf/pred_constant.c: pred_constant_update", "xcsf/xcs_supervised.c: xcs_supervised_fit", "xcsf/loss.c: loss_mae"]}
