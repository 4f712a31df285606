{
 "claims": [
  {
   "property": "C01",
   "status": "proved",
   "theorems": [
    "Xcsf.C01_population_capped",
    "Xcsf.C01_initial_size"
   ],
   "note": "All histories of valid calls, arbitrary arithmetic and representation; initial size too."
  },
  {
   "property": "C02",
   "status": "proved",
   "theorems": [
    "Xcsf.C02_counters_exact",
    "Xcsf.C02_refuted_for_zero_numerosity_import"
   ],
   "note": "For valid calls (inserted or imported rules of numerosity >= 1). The refutation theorem shows that JSON import of a rule with numerosity 0 breaks it."
  },
  {
   "property": "C03",
   "status": "proved",
   "theorems": [
    "Xcsf.C03_deletion_removes_one",
    "Xcsf.C03_enforce_deletes_excess",
    "Xcsf.C03_insert_deletes_excess"
   ],
   "note": "Single deletion, limit enforcement, and insertion at the interface."
  },
  {
   "property": "C04",
   "status": "proved",
   "theorems": [
    "Xcsf.C04_never_matching_first",
    "Xcsf.C04_otherwise_roulette"
   ],
   "note": ""
  },
  {
   "property": "C05",
   "status": "proved",
   "theorems": [
    "Xcsf.C05_no_use_after_free",
    "Xcsf.C05_no_leak",
    "Xcsf.C05_no_undefined_behaviour"
   ],
   "note": "No use of freed rules for any arithmetic; no leak; no undefined behaviour for regular systems over an ordered field."
  },
  {
   "property": "C06",
   "status": "proved",
   "theorems": [
    "Xcsf.C06_wheel",
    "Xcsf.C06_parent_roulette",
    "Xcsf.C06_deletion_roulette"
   ],
   "note": "Exact arithmetic (linear ordered field)."
  },
  {
   "property": "C07",
   "status": "proved",
   "theorems": [
    "Xcsf.C07_match_set_exact"
   ],
   "note": ""
  },
  {
   "property": "C08",
   "status": "proved",
   "theorems": [
    "Xcsf.C08_every_action_covered"
   ],
   "note": ""
  },
  {
   "property": "C09",
   "status": "partial",
   "theorems": [
    "Xcsf.C09_match_set_numerosity_partial",
    "Xcsf.C09_refuted"
   ],
   "note": "The full statement is false of the code: C09_refuted is a reachable counterexample (covering in a full population lowers the numerosity of a match-set rule without updating the recorded total). The partial theorem proves exactness when matching does not cover (all actions present) or covers without exceeding the limit."
  },
  {
   "property": "C10",
   "status": "proved",
   "theorems": [
    "Xcsf.C10_action_set_exact"
   ],
   "note": ""
  },
  {
   "property": "C11",
   "status": "proved",
   "theorems": [
    "Xcsf.C11_subsumption_conserves"
   ],
   "note": ""
  },
  {
   "property": "C12",
   "status": "proved",
   "theorems": [
    "Xcsf.C12_offspring_adds_one",
    "Xcsf.C12_run_adds_lambda"
   ],
   "note": ""
  },
  {
   "property": "C13",
   "status": "proved",
   "theorems": [
    "Xcsf.C13_ea_gate"
   ],
   "note": ""
  },
  {
   "property": "C14",
   "status": "proved",
   "theorems": [
    "Xcsf.C14_predict_does_not_learn",
    "Xcsf.C14_score_does_not_learn"
   ],
   "note": "For representations whose parameters are not changed by matching, acting or predicting with learning off (Passive)."
  },
  {
   "property": "C15",
   "status": "partial",
   "theorems": [
    "Xcsf.C15_validation_partial",
    "Xcsf.C15_refuted",
    "Xcsf.C15_refuted_displaces"
   ],
   "note": "The full statement is false of the code: C15_refuted and C15_refuted_displaces are reachable counterexamples (a validation sample triggers covering, and in a full system deletes rules). The partial theorem proves it for samples for which every action is represented."
  },
  {
   "property": "C16",
   "status": "proved",
   "theorems": [
    "Xcsf.C16_estimates_in_range",
    "Xcsf.C16_error_between",
    "Xcsf.C16_error_bounded",
    "Xcsf.C16_accuracy"
   ],
   "note": "Exact arithmetic (linear ordered field). Fitness positivity needs numerosity >= 1 and experience; the ranges are stated exactly in the theorems."
  },
  {
   "property": "C17",
   "status": "proved",
   "theorems": [
    "Xcsf.C17_moyenne",
    "Xcsf.C17_then_weighted"
   ],
   "note": "Exact arithmetic."
  },
  {
   "property": "C18",
   "status": "proved",
   "theorems": [
    "Xcsf.C18_shares_sum_to_one",
    "Xcsf.C18_fitness_update"
   ],
   "note": "Exact arithmetic."
  },
  {
   "property": "C19",
   "status": "proved",
   "theorems": [
    "Xcsf.C19_weighted_mean",
    "Xcsf.C19_between",
    "Xcsf.C19_zero_without_support"
   ],
   "note": "Exact arithmetic."
  },
  {
   "property": "C20",
   "status": "proved",
   "theorems": [
    "Xcsf.C20_greedy_is_maximal",
    "Xcsf.C20_every_maximiser_possible",
    "Xcsf.C20_explore_is_advocated",
    "Xcsf.C20_best_value"
   ],
   "note": "Exact arithmetic; single-output systems as in reinforcement learning (the code indexes the array by action, which is only right for one output)."
  },
  {
   "property": "C21",
   "status": "proved",
   "theorems": [
    "Xcsf.C21_in_order",
    "Xcsf.C21_every_row_once",
    "Xcsf.C21_across_epochs",
    "Xcsf.C21_index_valid",
    "Xcsf.C21_fit_is_safe"
   ],
   "note": "Index validity uses that the uniform generator returns values in [0,1) (Regular)."
  },
  {
   "property": "C22",
   "status": "proved",
   "theorems": [
    "Xcsf.C22_row_by_row",
    "Xcsf.C22_row_values",
    "Xcsf.C22_score_is_mean_loss"
   ],
   "note": "For representations whose answers do not depend on hidden state (Stateless: not recurrent networks)."
  },
  {
   "property": "C23",
   "status": "proved",
   "theorems": [
    "Xcsf.C23_one_step",
    "Xcsf.C23_single_step",
    "Xcsf.C23_rl_fit"
   ],
   "note": "Every step of every trial, single-step trials and rl fit; the effect on every rule is stated exactly (Credited), subsumption and EA follow as usual."
  },
  {
   "property": "C24",
   "status": "proved",
   "theorems": [
    "Xcsf.C24_store_retrieve",
    "Xcsf.C24_retrieve_nothing"
   ],
   "note": "The list order is reversed and current predictions are reset by the copy; the theorem states this exactly."
  },
  {
   "property": "C25",
   "status": "partial",
   "theorems": [
    "Xcsf.C25_all_layers_partial",
    "Xcsf.C25_round_trip_partial",
    "Xcsf.C25_exact_partial",
    "Xcsf.C25_constants_refuted",
    "Xcsf.C25_recurrent_output_refuted",
    "Xcsf.C25_lstm_function_refuted",
    "Xcsf.C25_same_outputs_partial",
    "Xcsf.C25_output_refused"
   ],
   "note": "Byte-level model of xcsf_save/xcsf_load for all condition, action, prediction and layer types. Proved for every codec of doubles, every generator and every whole system: loading what was saved consumes the file exactly, reports the same count, restores all parameters and all rules in order (networks of all layer types come back as FNet.reload says; exactly, up to working memory, if no layer is recurrent or LSTM; exactly equal if no rule has a network). C25_same_outputs_partial: the working memory does not matter, a loaded network of non-recurrent layers computes the outputs of the saved one for every input, mode and random state, and its layer sizes still agree. Refuted: recurrent layers come back without outputs, LSTM layers without activation functions, more GP constants than the loading system has memory for overflow the heap."
  },
  {
   "property": "C26",
   "status": "proved",
   "theorems": [
    "Xcsf.C26_other_versions_refused",
    "Xcsf.C26_loaded_has_version",
    "Xcsf.C26_build_ignored"
   ],
   "note": "For all files: other major/minor versions exit; whatever loads has the program's version; the build number does not influence the result."
  },
  {
   "property": "C27",
   "status": "proved",
   "theorems": [
    "Xcsf.C27_import_keeps_order",
    "Xcsf.C27_refuted_for_empty_import"
   ],
   "note": "That imports never exceed pop_size is C01_population_capped (import is one of the calls of a history). An empty list is undefined behaviour, see C27_refuted_for_empty_import."
  },
  {
   "property": "C28",
   "status": "proved",
   "theorems": [
    "Xcsf.C28_match_meaning",
    "Xcsf.C28_cover_matches"
   ],
   "note": "Exact arithmetic; the minimum spread must not be negative."
  },
  {
   "property": "C29",
   "status": "proved",
   "theorems": [
    "Xcsf.C29_general_covers",
    "Xcsf.C29_general_exact"
   ],
   "note": "Soundness for all pairs, and exactness when the second rectangle is not empty."
  },
  {
   "property": "C30",
   "status": "partial",
   "theorems": [
    "Xcsf.C30_refuted",
    "Xcsf.C30_concentric_partial",
    "Xcsf.C30_one_dim_partial"
   ],
   "note": "The full statement is false of the code: C30_refuted (two-dimensional counterexample). Proved for one dimension and for ellipsoids with the same centre."
  },
  {
   "property": "C31",
   "status": "proved",
   "theorems": [
    "Xcsf.C31_mutate",
    "Xcsf.C31_crossover",
    "Xcsf.C31_crossover_refuted",
    "Xcsf.C31_update",
    "Xcsf.C31_update_keeps_match"
   ],
   "note": "Exact arithmetic. Crossover may report a change when equal genes were exchanged (C31_crossover_refuted)."
  },
  {
   "property": "C32",
   "status": "proved",
   "theorems": [
    "Xcsf.C32_match",
    "Xcsf.C32_cover",
    "Xcsf.C32_general_meaning",
    "Xcsf.C32_general_covers",
    "Xcsf.C32_general_irreflexive",
    "Xcsf.C32_mutate",
    "Xcsf.C32_crossover",
    "Xcsf.C32_init"
   ],
   "note": "At most 31 bits per element: with more the encoding overflows int (C45_binary_overflow)."
  },
  {
   "property": "C33",
   "status": "proved",
   "theorems": [
    "Xcsf.C33_match",
    "Xcsf.C33_print",
    "Xcsf.C33_print_unambiguous",
    "Xcsf.C33_value_bounds",
    "Xcsf.C33_rand",
    "Xcsf.C33_rand_terminates",
    "Xcsf.C33_small_max_len_hangs",
    "Xcsf.C33_cover",
    "Xcsf.C33_crossover",
    "Xcsf.C33_mutate",
    "Xcsf.C33_crossover_exceeds_max_len"
   ],
   "note": "Exact arithmetic; growth, crossover, mutation, evaluation and printing against an inductive type of expressions. C33_small_max_len_hangs: max_len of 1 or 2 (accepted by the setter) makes tree creation loop forever. C33_crossover_exceeds_max_len: crossover is not limited by max_len. In doubles a root division can overflow to infinity; exact arithmetic does not show this."
  },
  {
   "property": "C34",
   "status": "partial",
   "theorems": [
    "Xcsf.C34_update",
    "Xcsf.C34_reset_stateless",
    "Xcsf.C34_states_unit",
    "Xcsf.C34_create",
    "Xcsf.C34_randomise",
    "Xcsf.C34_rand_below_max",
    "Xcsf.C34_mutate",
    "Xcsf.C34_copy",
    "Xcsf.C34_json_roundtrip",
    "Xcsf.C34_import_partial",
    "Xcsf.C34_match",
    "Xcsf.C34_cover",
    "Xcsf.C34_mutate_overreports",
    "Xcsf.C34_import_refuted",
    "Xcsf.C34_import_then_copy_refuted"
   ],
   "note": "Proved for graphs that are created, randomised, mutated, copied, updated and round-tripped through JSON. False for imported JSON (C34_import_refuted: a connection equal to n + n_inputs is accepted and read out of bounds; C34_import_then_copy_refuted: more nodes than configured); C34_import_partial gives the missing checks. Mutation also reports a change when the number of cycles moves by zero (C34_mutate_overreports)."
  },
  {
   "property": "C35",
   "status": "partial",
   "theorems": [
    "Xcsf.C35_rule_dgp_partial",
    "Xcsf.C35_rule_neural_partial",
    "Xcsf.C35_act_neural",
    "Xcsf.C35_dgp_refuted",
    "Xcsf.C35_dgp_nomatch_refuted",
    "Xcsf.C35_neural_refuted"
   ],
   "note": "False in the code: the loop condition uses && where || is needed. C35_dgp_refuted, C35_dgp_nomatch_refuted and C35_neural_refuted give concrete rules that match with another action, or have the action but do not match. Proved: one of the two holds (_partial), and the full property for neural actions, whose loop only tests the action."
  },
  {
   "property": "C36",
   "status": "partial",
   "theorems": [
    "Xcsf.C36_rule_dgp",
    "Xcsf.C36_rule_neural",
    "Xcsf.C36_act_neural",
    "Xcsf.C36_act_integer",
    "Xcsf.C36_import_refuted",
    "Xcsf.C36_small_graph_ub",
    "Xcsf.C36_bits",
    "Xcsf.C36_every_action"
   ],
   "note": "Proved for graph rules, neural rules, integer actions and neural actions with enough outputs; every action is representable. False for JSON import of integer actions (C36_import_refuted); graphs with no more nodes than action bits read out of bounds (C36_small_graph_ub)."
  },
  {
   "property": "C37",
   "status": "proved",
   "theorems": [
    "Xcsf.C37_contraction",
    "Xcsf.C37_error_shrinks",
    "Xcsf.C37_only_weights"
   ],
   "note": "Exact arithmetic; learning rate in [0, 2] and beta > 0 as stated."
  },
  {
   "property": "C38",
   "status": "partial",
   "theorems": [
    "Xcsf.C38_exact_factor_partial",
    "Xcsf.C38_small_inputs_partial",
    "Xcsf.C38_refuted"
   ],
   "note": "The full statement is false of the code: C38_refuted (the normaliser omits the quadratic terms, so the error can grow). Proved: the exact factor, and the contraction for inputs of small norm."
  },
  {
   "property": "C39",
   "status": "proved",
   "theorems": [
    "Xcsf.C39_inverse_correlation",
    "Xcsf.C39_least_squares",
    "Xcsf.C39_copy_forgets"
   ],
   "note": "Exact arithmetic, lambda > 0 and scale > 0. A copy (offspring) keeps the weights but forgets the gain matrix (C39_copy_forgets)."
  },
  {
   "property": "C40",
   "status": "proved",
   "theorems": [
    "Xcsf.C40_features",
    "Xcsf.C40_counts"
   ],
   "note": ""
  },
  {
   "property": "C41",
   "status": "proved",
   "theorems": [
    "Xcsf.C41_mean",
    "Xcsf.C41_average",
    "Xcsf.C41_between"
   ],
   "note": "Exact arithmetic."
  },
  {
   "property": "C42",
   "status": "proved",
   "theorems": [
    "Xcsf.C42_mae",
    "Xcsf.C42_mse",
    "Xcsf.C42_rmse",
    "Xcsf.C42_log_nonneg",
    "Xcsf.C42_log_class",
    "Xcsf.C42_binary_log",
    "Xcsf.C42_onehot",
    "Xcsf.C42_huber",
    "Xcsf.C42_huber_shape",
    "Xcsf.C42_huber_zero_delta"
   ],
   "note": "Exact arithmetic with log and sqrt as parameters with their contracts. The Huber theorems need delta > 0; the setter accepts 0, for which C42_huber_zero_delta shows the loss is always 0."
  },
  {
   "property": "C43",
   "status": "proved",
   "theorems": [
    "Xcsf.C43_gemm",
    "Xcsf.C43_axpy",
    "Xcsf.C43_scal",
    "Xcsf.C43_fill",
    "Xcsf.C43_mul",
    "Xcsf.C43_dot_sum"
   ],
   "note": "All sizes, strides and leading dimensions under which rows do not overlap."
  },
  {
   "property": "C44",
   "status": "proved",
   "theorems": [
    "Xcsf.C44_init",
    "Xcsf.C44_adapt",
    "Xcsf.C44_rates_always_legal"
   ],
   "note": "For every generator whose draws lie in the open unit interval, every initial and every self-adapted mutation rate, after any number of adaptations, is legal for its kind. The exponential and the Gaussian are arbitrary parameters; exp only has to be positive where that is used."
  },
  {
   "property": "C45",
   "status": "proved",
   "theorems": [
    "Xcsf.C45_clamp",
    "Xcsf.C45_clamp_int",
    "Xcsf.C45_argmax",
    "Xcsf.C45_random_int",
    "Xcsf.C45_binary",
    "Xcsf.C45_binary_overflow"
   ],
   "note": "Clamps, random integers, binary encoding (bits <= 31) and argmax; the encoding with 32 bits is shown to overflow int (C45_binary_overflow)."
  },
  {
   "property": "C46",
   "status": "partial",
   "theorems": [
    "Xcsf.C46_ranges_partial",
    "Xcsf.C46_rejected_unchanged",
    "Xcsf.C46_accepted_stored",
    "Xcsf.C46_nan_refuted",
    "Xcsf.C46_pairs_unordered"
   ],
   "note": "For argument values that are numbers or infinities every range holds after every sequence of setter calls; C46_nan_refuted shows the full statement is false of the code (NaN passes the comparisons). C46_pairs_unordered shows that related pairs such as min/max are never compared."
  },
  {
   "property": "C47",
   "status": "partial",
   "theorems": [
    "Xcsf.C47_names",
    "Xcsf.C47_layers_partial",
    "Xcsf.C47_layers_refuted",
    "Xcsf.C47_loss_option_rejected"
   ],
   "note": "Exact for eight of the nine tables (C47_names). The layer table is refuted (recurrent is compared with too short a length, so recurrent_lstm is accepted) and exact up to that; the advertised one_hot loss is refused by the parser."
  },
  {
   "property": "C48",
   "status": "partial",
   "theorems": [
    "Xcsf.C48_history",
    "Xcsf.C48_history_from_empty",
    "Xcsf.C48_traversal",
    "Xcsf.C48_sizes",
    "Xcsf.C48_copy",
    "Xcsf.C48_free",
    "Xcsf.C48_insert_front_refuted",
    "Xcsf.C48_expand_single_refuted",
    "Xcsf.C48_expand",
    "Xcsf.C48_remove_front_stale",
    "Xcsf.C48_to_classifier",
    "Xcsf.C48_inputs_refuted"
   ],
   "note": "Proved on a pointer model: every history of insert, push, remove and pop refines the operations on a sequence with the same failures, keeps links in both directions, ends, count, output size and output array, and loses no memory; copy and free are exact. Missing because false of the code: inserting before the input layer follows NULL (C48_insert_front_refuted, so expanding a one-layer network does, C48_expand_single_refuted), and removing the input layer leaves the network's number of inputs stale (C48_inputs_refuted)."
  },
  {
   "property": "C49",
   "status": "partial",
   "theorems": [
    "Xcsf.C49_sizes_agree_partial",
    "Xcsf.C49_mutation_partial",
    "Xcsf.C49_outputs_readable",
    "Xcsf.C49_growth_refuted",
    "Xcsf.C49_shrink_reads_out_of_bounds_refuted",
    "Xcsf.C49_shape_refuted",
    "Xcsf.C49_head_shrinks_refuted"
   ],
   "note": "Model: all ten layer types and networks of them (creation, mutation with resizing of followers, resize, forward pass, randomise, copy). For every network created from parameters within the limits and every history of these steps, each layer reads what the one before writes (numbers of inputs, width, height, channels), a forward pass has no undefined behaviour and writes all outputs; a fixed-size output layer keeps all its reported outputs readable. Missing: image layers behind a layer of neurons of evolving size are excluded; learning steps are not part of these histories. Refuted for the excluded cases: width left stale by growth or shrinking (wrong input count, read out of bounds), resizing decided by the number of outputs alone (shapes disagree), and the network's number of outputs left stale when the output layer shrinks."
  },
  {
   "property": "C50",
   "status": "proved",
   "theorems": [
    "Xcsf.C50_activation_function",
    "Xcsf.C50_activation_range",
    "Xcsf.C50_differentiable",
    "Xcsf.C50_gradient_is_derivative",
    "Xcsf.C50_unknown_activation_exits",
    "Xcsf.C50_activate_array",
    "Xcsf.C50_gradient_array"
   ],
   "note": "Over the real numbers with libm's functions taken as the real functions: value, documented range, set of differentiable points and derivative of all eleven functions; other codes exit; arrays are clamped to [-100,100] and mapped. Rounding is not modelled."
  },
  {
   "property": "C51",
   "status": "proved",
   "theorems": [
    "Xcsf.C51_softmax_function",
    "Xcsf.C51_probability_vector",
    "Xcsf.C51_order",
    "Xcsf.C51_shift",
    "Xcsf.C51_no_overflow",
    "Xcsf.C51_zero_temperature_refuted",
    "Xcsf.C51_backward_gradient",
    "Xcsf.C51_backward_passes"
   ],
   "note": "For every non-empty real vector and non-zero temperature (order: positive): value, positivity, sum one, order, shift invariance, absence of overflow; the error passed back is the temperature times the gradient of the log-likelihood. At temperature zero, the default of the layer parameters, no output is a number (C51_zero_temperature_refuted)."
  },
  {
   "property": "C52",
   "status": "partial",
   "theorems": [
    "Xcsf.C52_backprop_partial",
    "Xcsf.C52_delta",
    "Xcsf.C52_update",
    "Xcsf.C52_update_off",
    "Xcsf.C52_saturated_refuted"
   ],
   "note": "Proved for every network of fully connected layers whose states are not at their limit and whose activation functions are differentiable at the states: forward computes the network function, backward adds the partial derivatives of the negative half squared error to every weight and bias update, the delta passed back is the gradient with respect to the inputs, the update step has the exact documented effect. Missing because false of the code: a state cut off at +-100 is treated as if it were not (C52_saturated_refuted). Real arithmetic, libm taken as the real functions."
  },
  {
   "property": "C53",
   "status": "partial",
   "theorems": [
    "Xcsf.C53_conv_history",
    "Xcsf.C53_conv_history_total",
    "Xcsf.C53_history_partial",
    "Xcsf.C53_history_total",
    "Xcsf.C53_represented_history",
    "Xcsf.C53_represented_after_connectivity",
    "Xcsf.C53_resize",
    "Xcsf.C53_growth_refuted",
    "Xcsf.C53_size_overflow_refuted",
    "Xcsf.C53_recurrent_history",
    "Xcsf.C53_lstm_history",
    "Xcsf.C53_recurrent_history_total",
    "Xcsf.C53_lstm_history_total",
    "Xcsf.C53_recurrent_growth_refuted",
    "Xcsf.C53_recurrent_rand_refuted",
    "Xcsf.C53_recurrent_representation_refuted"
   ],
   "note": "Proved for fully connected, convolutional, recurrent and LSTM layers: every history of creation, random reset, forward, learning, mutation, resizing and copying keeps weights and biases within +-10, masked weights zero, the active count exact and the array sizes right; the only faults are the documented size exit and the growth loop. Representation of every input and neuron holds in connected layers whenever the number of neurons does not evolve, and after every connectivity mutation. False of the code: neurons added after the connectivity mutation may have no active input (C53_growth_refuted); the int product overflows before the size guard (C53_size_overflow_refuted); a recurrent layer that grows and learns reads memory that was never written (C53_recurrent_growth_refuted); randomising a recurrent layer leaves its active count stale (C53_recurrent_rand_refuted); connectivity mutation of recurrent layers may disconnect all inputs (C53_recurrent_representation_refuted). Trusted: |normal draw| <= 10 standard deviations (Box-Muller on 64-bit uniforms)."
  },
  {
   "property": "C54",
   "status": "partial",
   "theorems": [
    "Xcsf.C54_conv",
    "Xcsf.C54_conv_backward",
    "Xcsf.C54_conv_resize",
    "Xcsf.C54_conv_first",
    "Xcsf.C54_conv_backward_frozen",
    "Xcsf.C54_conv_unit_stride_refuted",
    "Xcsf.C54_conv_unit_pad_refuted",
    "Xcsf.C54_conv_small_image_refuted",
    "Xcsf.C54_conv_frozen_gradient_refuted",
    "Xcsf.C54_maxpool",
    "Xcsf.C54_maxpool_backward",
    "Xcsf.C54_avgpool",
    "Xcsf.C54_avgpool_backward",
    "Xcsf.C54_upsample",
    "Xcsf.C54_upsample_backward",
    "Xcsf.C54_maxpool_adjoint",
    "Xcsf.C54_mask_off",
    "Xcsf.C54_dropout",
    "Xcsf.C54_noise",
    "Xcsf.C54_maxpool_init",
    "Xcsf.C54_maxpool_resize",
    "Xcsf.C54_pool_copy",
    "Xcsf.C54_avgpool_dims",
    "Xcsf.C54_upsample_dims",
    "Xcsf.C54_mask_dims",
    "Xcsf.C54_maxpool_padding_refuted"
   ],
   "note": "Max pooling, average pooling, up-sampling, dropout, noise and convolution: forward values, backward passes as adjoints, construction, copy and resize, for all shapes; convolution: outputs are bias plus the sliding-window sum over the padded image for all kernel sizes, strides, paddings and channel counts, updates and handed-on errors are those of the adjoint, no access leaves its buffer and no unwritten element is read. Max pooling needs windows wider than the padding of one side (refuted otherwise: the program ends). Refuted for convolution: kernels of size one ignore stride (wrong outputs) and padding (read past the image); an image smaller than the kernel in both directions passes the checks and reads unwritten memory; a layer without gradient descent hands on errors without the derivative of its activation. Index arithmetic on images is in unbounded integers, sizes in int with overflow as undefined behaviour."
  },
  {
   "property": "C55",
   "status": "proved",
   "theorems": [
    "Xcsf.C55_reward",
    "Xcsf.C55_largest",
    "Xcsf.C55_state",
    "Xcsf.C55_xdim_overflow"
   ],
   "note": "The multiplexer is modelled completely. C55_xdim_overflow shows that a configuration file which raises x_dim after the environment was created makes the environment hand out a buffer that is too short."
  },
  {
   "property": "C56",
   "status": "partial",
   "theorems": [
    "Xcsf.C56_directions",
    "Xcsf.C56_move",
    "Xcsf.C56_bad_action",
    "Xcsf.C56_walk",
    "Xcsf.C56_observe",
    "Xcsf.C56_codes_differ",
    "Xcsf.C56_reset",
    "Xcsf.C56_reset_safe",
    "Xcsf.C56_reset_hangs",
    "Xcsf.C56_load",
    "Xcsf.C56_wide_refuted",
    "Xcsf.C56_last_row_lost",
    "Xcsf.C56_ragged_refuted"
   ],
   "note": "Proved for every legal maze. Missing because false of the code: wide files overflow the fixed buffer, a last row without newline is lost, ragged mazes are read outside the row, and a maze without an empty cell makes reset loop for ever; each has a witness theorem."
  },
  {
   "property": "C57",
   "status": "partial",
   "theorems": [
    "Xcsf.C57_config_partial",
    "Xcsf.C57_comments_ignored",
    "Xcsf.C57_long_comment_refuted",
    "Xcsf.C57_overflow_refuted",
    "Xcsf.C57_strings_changed"
   ],
   "note": "Proved for files whose lines are shorter than the read buffer and contain no string with blanks. Missing because false of the code: long comment lines are parsed as data, a file with no removable character overflows the buffer by one byte, and blanks inside strings are removed; each has a witness theorem."
  },
  {
   "property": "C58",
   "status": "partial",
   "theorems": [
    "Xcsf.C58_best",
    "Xcsf.C58_minimum",
    "Xcsf.C58_stops_when_due",
    "Xcsf.C58_rejects",
    "Xcsf.C58_restores",
    "Xcsf.C58_reuse_refuted"
   ],
   "note": "Proved for one fit call with a fresh callback. Missing because false of the code: a callback object that is used for a second fit keeps the record of the first (C58_reuse_refuted)."
  },
  {
   "property": "C59",
   "status": "proved",
   "theorems": [
    "Xcsf.C59_spacing",
    "Xcsf.C59_best_only",
    "Xcsf.C59_final",
    "Xcsf.C59_skipped",
    "Xcsf.C59_best_report_missed"
   ],
   "note": "C59_best_report_missed records that with save_best_only a best result between two checks may be skipped."
  },
  {
   "property": "C60",
   "status": "partial",
   "theorems": [
    "Xcsf.C60_learning_trials",
    "Xcsf.C60_trial_count_partial",
    "Xcsf.C60_refuted"
   ],
   "note": "The full statement is false of the code: C60_refuted (1500/1000 runs 2000 trials). The partial theorem characterises exactly when the count is right."
  },
  {
   "property": "C61",
   "status": "partial",
   "theorems": [
    "Xcsf.C61_accepts",
    "Xcsf.C61_rows_partial",
    "Xcsf.C61_one_axis_refuted",
    "Xcsf.C61_no_axis_refuted",
    "Xcsf.C61_layout_refuted"
   ],
   "note": "Proved for row-major data with two axes, or one axis and x_dim = 1. Missing because false of the code: one axis with x_dim > 1 is accepted and read out of bounds (for every system and data set), arrays without axes, and arrays with other strides (transposed or sliced views), which are read in the wrong order; each has a witness theorem."
  },
  {
   "property": "C62",
   "status": "partial",
   "theorems": [
    "Xcsf.C62_fresh_partial",
    "Xcsf.C62_refuted"
   ],
   "note": "The full statement is false of the code: C62_refuted (a rule in the previous and the current action set is scored in the terminal step with its prediction for the previous input). The partial theorem: predictions are fresh when the action is decided."
  },
  {
   "property": "C63",
   "status": "proved",
   "theorems": [
    "Xcsf.C63_ellipsoid_cover_matches",
    "Xcsf.C63_degenerate"
   ],
   "note": "The excluded degenerate case really fails (C63_degenerate)."
  },
  {
   "property": "C64",
   "status": "proved",
   "theorems": [
    "Xcsf.C64_rate_range",
    "Xcsf.C64_copy"
   ],
   "note": "Exact arithmetic."
  },
  {
   "property": "C65",
   "status": "proved",
   "theorems": [
    "Xcsf.C65_votes",
    "Xcsf.C65_raised",
    "Xcsf.C65_positive",
    "Xcsf.C65_protects_inexperienced",
    "Xcsf.C65_deletion_by_votes",
    "Xcsf.C65_compaction"
   ],
   "note": "Exact arithmetic. Added after a wrong program (vote without the experience test) survived the earlier theorems."
  },
  {
   "property": "C66",
   "status": "proved",
   "theorems": [
    "Xcsf.C66_fit",
    "Xcsf.C66_rl_fit",
    "Xcsf.C66_others",
    "Xcsf.C66_history",
    "Xcsf.C66_training_run",
    "Xcsf.C66_rl_trial",
    "Xcsf.C66_weights",
    "Xcsf.C66_bounded"
   ],
   "note": "Closed form, bounds, single calls, whole histories, training runs and multi-step trials. Clock of exploring multi-step trials depends on the environment and is only stated for exploitation. Added after the seeded bug fitStep survived."
  },
  {
   "property": "C67",
   "status": "proved",
   "theorems": [
    "Xcsf.C67_offspring_values"
   ],
   "note": "C67_offspring_values, for the whole run before the limit is enforced (later deletions only lower numerosities, C03)."
  },
  {
   "property": "C68",
   "status": "partial",
   "theorems": [
    "Xcsf.C68_csv_partial",
    "Xcsf.C68_sizes_partial",
    "Xcsf.C68_long_row_refuted",
    "Xcsf.C68_ragged_refuted",
    "Xcsf.C68_mismatch_refuted"
   ],
   "note": "Proved for rectangular files with rows shorter than the line buffer. Missing because false of the code: long rows and ragged rows are read out of bounds or left uninitialised, and input and output files of different length are not rejected; each has a witness theorem."
  },
  {
   "property": "C69",
   "status": "partial",
   "theorems": [
    "Xcsf.C69_default_partial",
    "Xcsf.C69_cover_overwritten",
    "Xcsf.C69_dangling_refuted",
    "Xcsf.C69_invalid_free",
    "Xcsf.C69_list_refuted",
    "Xcsf.C69_short_refuted"
   ],
   "note": "Proved for all histories in which no cover array is passed. Missing because false of the code: after a call with a cover array the caller's array is zeroed by the next call, used after it was released, passed to free by the next fit, read too far with several actions, and a list is released before it is used; each is a theorem for every system and data set."
  },
  {
   "property": "C70",
   "status": "partial",
   "theorems": [
    "Xcsf.C70_state_partial",
    "Xcsf.C70_released_refuted",
    "Xcsf.C70_reused_refuted"
   ],
   "note": "Proved if the array is neither released nor modified between the calls. Missing because false of the code otherwise: the address is kept, not the values (C70_released_refuted, C70_reused_refuted)."
  },
  {
   "property": "C71",
   "status": "partial",
   "theorems": [
    "Xcsf.C71_recurrent_sequence",
    "Xcsf.C71_lstm_sequence",
    "Xcsf.C71_recurrent_eta_refuted",
    "Xcsf.C71_lstm_memory_never_learned_refuted",
    "Xcsf.C71_lstm_memory_never_learned",
    "Xcsf.C71_recurrent_self_gradient_refuted"
   ],
   "note": "Proved over the reals for all sizes, parameters and sequences: the output of a recurrent layer is the fold of its documented recurrence over the inputs, memory and output of an LSTM layer likewise. The learning half is false of the code, with proved reasons: once the learning rate of a recurrent layer has been mutated it is zero for ever and training changes nothing, after every history (C71_recurrent_eta_refuted); the recurrent weights of a recurrent layer are fed with the last output forward and with the last state backward, so the update is not the derivative (C71_recurrent_self_gradient_refuted); prev_state and prev_cell of an LSTM layer are never set, so no training of any length changes the forget gate or the weights of the recurrent connections (C71_lstm_memory_never_learned). libm taken as the real functions."
  },
  {
   "property": "C72",
   "status": "partial",
   "theorems": [
    "Xcsf.C72_same_dimensions_partial",
    "Xcsf.C72_array_not_resized_refuted"
   ],
   "note": "Refuted by a concrete pair of systems: the array keeps the loading system's size and the loaded rules' predictions are written behind it. Partial: right if the dimensions agree."
  },
  {
   "property": "C73",
   "status": "partial",
   "theorems": [
    "Xcsf.C73_cut_file_refuted",
    "Xcsf.C73_count_tells_partial"
   ],
   "note": "Refuted for all systems: a file cut after the number of actions loads without an error. Partial, for all cuts: the reported element count is then smaller than the saved one."
  },
  {
   "property": "C74",
   "status": "proved",
   "theorems": [
    "Xcsf.C74_rules_sound",
    "Xcsf.C74_no_undefined_behaviour"
   ],
   "note": "Every condition type but neural, integer actions, constant, NLMS and RLS predictions. Rejection loops (covering with GP trees and graphs, growing trees) carry a bound whose exhaustion is the outcome hang, which the theorem allows."
  },
  {
   "property": "C75",
   "status": "proved",
   "theorems": [
    "Xcsf.C75_every_action_covered",
    "Xcsf.C75_prediction"
   ],
   "note": "Graphs restart at each input (STATEFUL false); spreads are not negative, for ellipsoids not all zero."
  },
  {
   "property": "C76",
   "status": "partial",
   "theorems": [
    "Xcsf.C76_subsumption_keeps_coverage_partial",
    "Xcsf.C76_ellipsoid_refuted"
   ],
   "note": "Proved for all condition types but hyperellipsoids (C76_subsumption_keeps_coverage_partial). False of the code for hyperellipsoids: C76_ellipsoid_refuted."
  },
  {
   "property": "C77",
   "status": "partial",
   "theorems": [
    "Xcsf.C77_predictions_restored_partial",
    "Xcsf.C77_constant_forgotten",
    "Xcsf.C77_gain_forgotten",
    "Xcsf.C77_constant_refuted"
   ],
   "note": "Proved for NLMS and RLS predictions (C77_predictions_restored_partial). False of the code for constant predictions: the learned value lives in the current prediction, which cl_init_copy sets to zero, so after retrieving every rule predicts zero (C77_constant_refuted, C77_constant_forgotten); restoring the best population in early stopping is affected. RLS outputs are kept but gain matrices are reset (C77_gain_forgotten)."
  },
  {
   "property": "C78",
   "status": "partial",
   "theorems": [
    "Xcsf.C78_training_partial",
    "Xcsf.C78_training_step",
    "Xcsf.C78_recurrent_growth_refuted"
   ],
   "note": "Proved for every network created from legal parameters and every history (C78_training_partial) and for repeated training of any network of legal shape (C78_training_step). False of the code for a recurrent layer trained by gradient descent whose number of neurons evolves: the memory added by growing is read before it is written (C78_recurrent_growth_refuted). The restriction on image layers behind layers that grow is that of C49."
  },
  {
   "property": "C79",
   "status": "partial",
   "theorems": [
    "Xcsf.C79_rules_sound",
    "Xcsf.C79_no_undefined_behaviour_partial",
    "Xcsf.C79_action_refuted",
    "Xcsf.C79_prediction_refuted"
   ],
   "note": "Proved for all histories of systems whose networks satisfy NetPlan.Legal; hidden layers may evolve, and a softmax output behind neurons of fixed number is covered. Refuted for output layers whose number of neurons evolves, which nothing forbids: neural actions then read beyond the outputs, neural predictions beyond the target. The restrictions of C49 and C78 remain (image layers behind layers of fixed size, recurrent layers trained by gradient descent of fixed size; no maxpool layers, since they may end the program; only layers with weights or softmax in predictions whose sizes evolve)."
  },
  {
   "property": "C80",
   "status": "partial",
   "theorems": [
    "Xcsf.C80_rates_partial",
    "Xcsf.C80_recurrent_refuted"
   ],
   "note": "C80_rates_partial: for every network created from its parameters and every history not ending in a fault the rates are within eta_min and eta and equal eta unless they evolve. Excluded: recurrent layers with evolving rates, for which C80_recurrent_refuted shows that the first mutation sets the rate to 0, below eta_min, because neural_layer_recurrent_init never sets the limits."
  },
  {
   "property": "C81",
   "status": "proved",
   "theorems": [
    "Xcsf.C81_mutation_switches",
    "Xcsf.C81_propagation",
    "Xcsf.C81_training_switches",
    "Xcsf.C81_unreported_mutation"
   ],
   "note": "C81_mutation_switches (any network), C81_propagation, C81_training_switches (legal networks, the invariant of C49/C78), C81_unreported_mutation (any network, any later history of propagation and training, same outputs or same fault)."
  },
  {
   "property": "C82",
   "status": "partial",
   "theorems": [
    "Xcsf.C82_roundtrip_partial",
    "Xcsf.C82_predictions_partial",
    "Xcsf.C82_safe_after_import",
    "Xcsf.C82_empty",
    "Xcsf.C82_tree_export",
    "Xcsf.C82_trees",
    "Xcsf.C82_other_type_accepted",
    "Xcsf.C82_trees_refuted",
    "Xcsf.C82_empty_refuted"
   ],
   "note": "Proved for all condition types but trees and for non-empty populations: the round trip restores every attribute, condition, action and weight (C82_roundtrip_partial), the predictions (C82_predictions_partial) and the safety of later calls (C82_safe_after_import). The code violates the rest: tree conditions are exported (C82_tree_export) but importing them always ends the program (C82_trees, C82_trees_refuted), the document of an empty population makes the importer dereference NULL (C82_empty, C82_empty_refuted), and the gain matrix of RLS is not exported, so it is that of a new rule afterwards (field gain of Restored). C82_other_type_accepted: the type written in a document is never read, so a document of another rectangle type is accepted and leaves a random condition. The text form of numbers and the cJSON library are trusted."
  },
  {
   "property": "C83",
   "status": "partial",
   "theorems": [
    "Xcsf.C83_report_partial",
    "Xcsf.C83_plain_partial",
    "Xcsf.C83_image_refuted",
    "Xcsf.C83_default_refuted",
    "Xcsf.C83_file_refuted"
   ],
   "note": "Proved for every configuration that can be made whose layers are reportable (FileOk, Reportable): the report is accepted by any system, restores all parameters (SameParams) and the later report is the same; without neural networks the report always exists. Refuted: a first dropout/noise layer for images loses height, width and channels; the default networks after x_dim is set; a population file name longer than 512 characters makes the report read out of bounds."
  },
  {
   "property": "C84",
   "status": "partial",
   "theorems": [
    "Xcsf.C84_trees_partial",
    "Xcsf.C84_blind_refuted",
    "Xcsf.C84_networks_partial",
    "Xcsf.C84_defaults_refuted",
    "Xcsf.C84_image_refuted",
    "Xcsf.C84_order_refuted"
   ],
   "note": "Proved: trees and graphs have the inputs of the problem the C structure was initialised for; layers given after x_dim make networks with x_dim inputs unless the first is an image layer. Refuted in general: in Python every tree and graph condition looks at the first input only (for all documents and all rules); default networks have one input and one output whatever is asked for; image shapes are not compared with x_dim; layers before x_dim get one input."
  },
  {
   "property": "C85",
   "status": "partial",
   "theorems": [
    "Xcsf.C85_seeded_partial",
    "Xcsf.C85_constants_refuted"
   ],
   "note": "Proved for any generator and any two clocks: same refusal, or same parameters up to the constants of trees and the same random state; the constants agree too if tree conditions are given with arguments after random_state. Refuted for trees with default arguments, whose constants are drawn before the seed."
  },
  {
   "property": "C86",
   "status": "partial",
   "theorems": [
    "Xcsf.C86_ranges_partial",
    "Xcsf.C86_refuses",
    "Xcsf.C86_layers_refuted"
   ],
   "note": "Proved for all parameters that are not parameters of layers, for every sequence of documents of any content, and that documents with unknown names or values of a wrong kind are refused. Refuted for layers: a negative learning rate is accepted."
  },
  {
   "property": "C87",
   "status": "partial",
   "theorems": [
    "Xcsf.C87_nothing_partial",
    "Xcsf.C87_again_partial",
    "Xcsf.C87_draws_refuted"
   ],
   "note": "Proved without neural networks: nothing changes. With them a second report is the same and the parameters stay as the first left them. Refuted with neural networks: a report draws random numbers, because it builds a network to check the arguments."
  },
  {
   "property": "C88",
   "status": "partial",
   "theorems": [
    "Xcsf.C88_any_schedule_partial",
    "Xcsf.C88_loops_finish",
    "Xcsf.C88_serial_possible",
    "Xcsf.C88_one_thread",
    "Xcsf.C88_races_in_every_schedule",
    "Xcsf.C88_matching_races",
    "Xcsf.C88_systems",
    "Xcsf.C88_networks_partial",
    "Xcsf.C88_noise_refuted"
   ],
   "note": "Every call and history in which loop bodies use no random numbers has, under every schedule, exactly the outcome of the serial loops (C88_any_schedule_partial), loops can always be finished (C88_loops_finish), a single thread is the serial loop even with random numbers (C88_one_thread), the serial outcome is always possible (C88_serial_possible). All systems without networks (C88_systems) and all with networks without noise and dropout layers (C88_networks_partial) qualify. False otherwise: threads that both use the generator race in every schedule (C88_races_in_every_schedule, C88_matching_races), with a concrete system with noise layers (C88_noise_refuted). Steps that overlap in time without a race, the creation of threads and the memory model below data-race freedom are not modelled."
  },
  {
   "property": "C89",
   "status": "partial",
   "theorems": [
    "Xcsf.C89_calls_only",
    "Xcsf.C89_population_capped",
    "Xcsf.C89_no_undefined_behaviour_partial",
    "Xcsf.C89_rules_stay_legal_partial",
    "Xcsf.C89_insert_applies_limit",
    "Xcsf.C89_systems_partial",
    "Xcsf.C89_networks_partial",
    "Xcsf.C89_features_refuted",
    "Xcsf.C89_lowered_limit_refuted",
    "Xcsf.C89_more_actions_refuted"
   ],
   "note": "Proved for all histories of calls, parameter changes and reseedings, over any representation and for the complete systems of C74 and C79: no undefined behaviour, legal rule values, exact counters, population within every bound of the limits that were in force, and inserting a rule applies the limit in force. Missing because false in the code: changes of sizes (C89_more_actions_refuted: raising n_actions leaves the prediction array as it is and the next fit writes behind it; C89_features_refuted: switching linear predictions to quadratic writes behind each rule's feature array) and the limit itself (C89_lowered_limit_refuted: lowering pop_size is not applied until a call adds rules). For networks the arguments of layers must be kept."
  },
  {
   "property": "C90",
   "status": "partial",
   "theorems": [
    "Xcsf.C90_network_partial",
    "Xcsf.C90_no_undefined_behaviour_partial",
    "Xcsf.C90_population_partial",
    "Xcsf.C90_single_layer_refuted",
    "Xcsf.C90_wide_refuted"
   ],
   "note": "Proved for all histories of calls and expansions over the networks of C79 that have a hidden layer not wider than a layer of neurons may be and an output layer that is not convolutional. Missing because false in the code: a network of one layer, which a user may set, is dereferenced through a null pointer (C90_single_layer_refuted), and with a hidden layer of more than 4472 outputs the program ends, of more than 46340 the number of weights overflows (C90_wide_refuted)."
  },
  {
   "property": "C91",
   "status": "partial",
   "theorems": [
    "Xcsf.C91_network_partial",
    "Xcsf.C91_population_partial",
    "Xcsf.C91_no_undefined_behaviour_partial",
    "Xcsf.C91_more_classes_refuted",
    "Xcsf.C91_fewer_classes_refuted",
    "Xcsf.C91_stored_refuted"
   ],
   "note": "Proved for all histories before and after the conversion if no population is stored at that moment and the layers of new networks are set to have one output for each class. Missing because false in the code: the conversion leaves the layer parameters as they are, so that rules created afterwards end the program (C91_more_classes_refuted) or read beyond the desired output when they learn (C91_fewer_classes_refuted). Rules of a stored population are not converted, so that after retrieving they end the program or read beyond the desired output (C91_stored_refuted, for every history)."
  },
  {
   "property": "C92",
   "status": "partial",
   "theorems": [
    "Xcsf.C92_backprop_partial",
    "Xcsf.C92_softmax_likelihood_partial",
    "Xcsf.C92_softmax_squared_refuted"
   ],
   "note": "For every stack of connected, convolutional, recurrent, pooling, upsampling, dropout and noise layers at which the network function is differentiable and whose layers learn: forward and backward succeed and every accumulated update grows by the partial derivative of minus half the squared error of the network function (with the random draws of the forward pass and the memories of recurrent layers fixed). With a softmax output layer the updates are the derivatives of the scaled logarithmic likelihood of the targets (targets summing to one); that they are those of the squared error is refuted. Missing: the weights with which recurrent layers read their last outputs (refuted: C71_recurrent_self_gradient_refuted), LSTM layers (refuted: C105_lstm_gradient_refuted), states at their limit (refuted in C52), layers without gradient descent (refuted in C54)."
  },
  {
   "property": "C93",
   "status": "partial",
   "theorems": [
    "Xcsf.C93_network_partial",
    "Xcsf.C93_rule_answers_partial",
    "Xcsf.C93_rule_predicts_partial",
    "Xcsf.C93_prediction_partial",
    "Xcsf.C93_predict_returns_partial",
    "Xcsf.C93_row_by_row_partial",
    "Xcsf.C93_score_partial",
    "Xcsf.C93_recurrent_refuted"
   ],
   "note": "Proved for all legal networks (restrictions of C49 and C79) without recurrent and LSTM layers; refuted for recurrent layers: the same row twice in a batch is predicted differently (C93_recurrent_refuted). For a network by itself maxpool layers are included provided what reaches them exceeds -DBL_MAX, and recurrent and LSTM layers with the memory they have (C93_network_partial)."
  },
  {
   "property": "C94",
   "status": "partial",
   "theorems": [
    "Xcsf.C94_history_ends_partial",
    "Xcsf.C94_no_learning_returns_partial",
    "Xcsf.C94_learning_returns_partial",
    "Xcsf.C94_empty_tournament_refuted",
    "Xcsf.C94_system_ends_partial",
    "Xcsf.C94_system_returns_partial",
    "Xcsf.C94_tree_cover_refuted",
    "Xcsf.C94_history_refuted",
    "Xcsf.C94_small_population_refuted",
    "Xcsf.C94_neural_cover_refuted"
   ],
   "note": "Proved for every history: in systems whose rules have an interval, ellipsoid, ternary or no condition, any prediction of C74 and integer actions, and in any regular system in which creating and mutating a rule return, no call hangs (history_ends, system_ends); calls that do not learn always return (no_learning_returns); fit, test and single reinforcement steps return if the total numerosity plus the number of actions is at most the population size (learning_returns). The full claim is false, refuted by: tournaments of size 0, which the parameter allows (empty_tournament_refuted for every number of passes, history_refuted by two calls of fit with legal parameters); neural conditions without weights that do not match (C94_neural_cover_refuted); tree conditions with all constants zero, covering the zero input (tree_cover_refuted, for every number of trees); a population smaller than the number of actions, for which fit ends the program (small_population_refuted). Missing: systems with tree, graph or neural parts, whose covering is a search."
  },
  {
   "property": "C95",
   "status": "partial",
   "theorems": [
    "Xcsf.C95_no_hidden_state",
    "Xcsf.C95_resume_partial",
    "Xcsf.C95_store_retrieve_refuted",
    "Xcsf.C95_generator_refuted",
    "Xcsf.C95_stored_refuted"
   ],
   "note": "No hidden state is proved in full (C95_no_hidden_state). Resuming from a file is proved for rules without networks (the buffers of networks come back cleared), with nothing stored and the generator in the same state (C95_resume_partial). The rest is refuted: the file holds neither the generator (C95_generator_refuted) nor the stored population (C95_stored_refuted), and storing and retrieving reverses the rules, which changes later answers (C95_store_retrieve_refuted)."
  },
  {
   "property": "C96",
   "status": "partial",
   "theorems": [
    "Xcsf.C96_all_memory_returned",
    "Xcsf.C96_only_expected_faults",
    "Xcsf.C96_no_use_after_release",
    "Xcsf.C96_no_fault_partial",
    "Xcsf.C96_memory_does_not_grow",
    "Xcsf.C96_loaded_recurrent_refuted",
    "Xcsf.C96_expand_refuted"
   ],
   "note": "Full for all histories: all memory is returned when a history ends, nothing is used after release or released twice, and the number of arrays is constant under matching, learning, mutation, crossover and comparison. That no null pointer is followed is partial: it holds without recurrent layers read from files and JSON imports do not end the program; refuted for recurrent layers read from a file (their outputs are missing) and for expanding or converting predictions that are not networks of enough layers, which the code does not check. The sizes of the arrays are not part of this model (C34, C35, C48 and others cover index ranges), nor is memory of the system itself (parameters, sets, prediction array), which C05 covers for rules and sets."
  },
  {
   "property": "C97",
   "status": "partial",
   "theorems": [
    "Xcsf.C97_covering_rule_partial",
    "Xcsf.C97_every_action_covered_partial",
    "Xcsf.C97_dropout_refuted",
    "Xcsf.C97_recurrent_refuted"
   ],
   "note": "Proved for systems whose condition and action are separate and whose networks have no layers that work by chance (dropout, noise) and none with memory (recurrent, LSTM), over the reals, spreads of regions not negative. Refuted for dropout (C97_dropout_refuted) and recurrent layers (C97_recurrent_refuted); for rules that are one single network or graph the action is refuted in C35."
  },
  {
   "property": "C98",
   "status": "partial",
   "theorems": [
    "Xcsf.C98_supervised_report_partial",
    "Xcsf.C98_reinforcement_report_partial",
    "Xcsf.C98_report_is_passive",
    "Xcsf.C98_experiment_is_its_trials",
    "Xcsf.C98_first_line_too_large",
    "Xcsf.C98_first_line_refuted",
    "Xcsf.C98_last_trials_refuted",
    "Xcsf.RlReport.C98_reported_trials"
   ],
   "note": "Proved: trial numbers of the lines, the values of all lines but the first, the returned average, and that reporting is passive (C98_report_is_passive, C98_experiment_is_its_trials). Refuted: the first line sums PERF_TRIALS + 1 trials but divides by PERF_TRIALS (C98_first_line_too_large, C98_first_line_refuted); the last trials are not reported (C98_last_trials_refuted). The numbers of reinforcement learning trials are those of the exploiting part (C98_reported_trials). Rounding to five digits in print is not modelled."
  },
  {
   "property": "C99",
   "status": "partial",
   "theorems": [
    "Xcsf.Steps.C99_order_is_safe_partial",
    "Xcsf.Steps.C99_nothing_left_partial",
    "Xcsf.Steps.C99_sets_are_values_partial",
    "Xcsf.Steps.C99_program_is_trial",
    "Xcsf.Steps.C99_no_undefined_behaviour_partial",
    "Xcsf.Steps.C99_end_trial_twice_refuted",
    "Xcsf.Steps.C99_end_step_twice_refuted",
    "Xcsf.Steps.C99_fit_in_trial_refuted",
    "Xcsf.Steps.C99_predict_in_trial_refuted",
    "Xcsf.Steps.C99_step_outside_trial_refuted",
    "Xcsf.Steps.C99_end_trial_first_refuted",
    "Xcsf.Steps.C99_abandoned_trial_leaks_refuted",
    "Xcsf.Steps.C99_decide_twice_refuted"
   ],
   "note": "Proved for calls in the documented order, for any arithmetic, parameters, representation and history: no use of released memory (C99_order_is_safe_partial), nothing left allocated and the rules are those of the populations (C99_nothing_left_partial), no undefined behaviour for regular systems over exact arithmetic (C99_no_undefined_behaviour_partial); the calls return and do what the functions of a trial on sets as values do (C99_sets_are_values_partial); the documented program is a built-in trial (C99_program_is_trial, no hypothesis but that no trial is under way). For other orders the statement is refuted: end_trial twice, end_step twice, fit or predict in the middle of a trial, a step outside a trial use released memory; end_trial first frees an uninitialised pointer; an abandoned trial leaks a node, an array and a rule; deciding twice counts rules twice. Lists of the population, the stored population and the kill list are values here; that the array given to decision is alive is assumed (C70 shows when it is not)."
  },
  {
   "property": "C100",
   "status": "partial",
   "theorems": [
    "Xcsf.Pickle.C100_round_trip_partial",
    "Xcsf.Pickle.C100_array_fits_partial",
    "Xcsf.Pickle.C100_array_refuted",
    "Xcsf.Pickle.C100_empty_exits",
    "Xcsf.Pickle.C100_own_directory_partial",
    "Xcsf.Pickle.C100_one_after_another_partial",
    "Xcsf.Pickle.C100_same_directory_refuted"
   ],
   "note": "In one process pickling and unpickling give back parameters, rules and counts as `save` and `load` do (C25). Under every schedule a process whose directory no other process uses gets its own bytes, and so do processes that pickle one after another. Refuted: two processes in one directory (one gets the system of the other, the other an empty string that ends the program that loads it), and the prediction array: the unpickled system has the array of a system with one output and one action, so that for all other systems the next prediction writes outside of it. The generator, the stored population and the table of metrics are not part of the pickle and not modelled here; a process writes its bytes in one piece."
  },
  {
   "property": "C101",
   "status": "partial",
   "theorems": [
    "Xcsf.Shadow.C101_shown_partial",
    "Xcsf.Shadow.C101_copy_partial",
    "Xcsf.Shadow.C101_classifier_refuted",
    "Xcsf.Shadow.C101_missing_refuted",
    "Xcsf.Shadow.C101_rounded_refuted",
    "Xcsf.Shadow.C101_nested_refuted",
    "Xcsf.Shadow.C101_limit_refuted"
   ],
   "note": "Proved for parameters that are a single value, for all histories whose whole-number arguments are whole numbers. The full statement is refuted: nested parameters (ea, condition, prediction) set one after another replace each other in get_params() only; values above a limit are shown as given; a fraction given for a whole number is shown as given while its integer part is in use; with more than one action gamma, teletransportation and p_explore are in use but not shown; after ae_to_classifier the old y_dim is shown."
  },
  {
   "property": "C102",
   "status": "partial",
   "theorems": [
    "Xcsf.Metrics.C102_entries",
    "Xcsf.Metrics.C102_trials_partial",
    "Xcsf.Metrics.C102_trials_refuted",
    "Xcsf.Metrics.C102_cold_refuted",
    "Xcsf.Metrics.C102_validation_moves_msize",
    "Xcsf.Metrics.C102_arrays_partial",
    "Xcsf.Metrics.C102_list_refuted",
    "Xcsf.Metrics.C102_msize_refuted"
   ],
   "note": "The entries are proved to be those of the epochs for all sequences of calls; the number of trials is proved for warm starts with epochs of one size. The full statement is refuted: with epochs of another size the recorded numbers of trials are wrong and may go down, without a warm start they go on from the system thrown away, each row of the validation data changes the recorded size of match sets, and validation data that is not an array of doubles is read after it has been released."
  },
  {
   "property": "C103",
   "status": "partial",
   "theorems": [
    "Xcsf.Viz.C103_tree_partial",
    "Xcsf.Viz.C103_tree_limit",
    "Xcsf.Viz.C103_tree_readable",
    "Xcsf.Viz.C103_graph",
    "Xcsf.Viz.C103_tree_rules_partial",
    "Xcsf.Viz.C103_graph_rules",
    "Xcsf.Viz.C103_deep_refuted",
    "Xcsf.Viz.C103_rounded_refuted"
   ],
   "note": "Proved: trees of any shape are drawn exactly (one node per node, operands in order, names of inputs) as long as Python's limit of nested calls suffices, which it does for depth up to (limit-1)/3, and otherwise RecursionError is raised; a picture shows one expression only if labels differ; graphs are always drawn, and the states one computes from the picture are those of the graph. Refuted: trees nested too deeply are not drawn; constants are drawn with five decimals, so that a tree matching everything and one matching nothing have the same picture."
  },
  {
   "property": "C104",
   "status": "partial",
   "theorems": [
    "Xcsf.Stats.C104_means_partial",
    "Xcsf.Stats.C104_reads_live_rules",
    "Xcsf.Stats.C104_empty",
    "Xcsf.Stats.C104_new_system_refuted",
    "Xcsf.Stats.C104_overflow_refuted"
   ],
   "note": "C104_means_partial: after every history every statistic is the mean of the counted quantities (neurons are the elements of the arrays, connections the weights switched on, sizes the intervals, symbols, nodes or weights), if sums stay below the largest int and recurrent and LSTM layers have noted their weights in use (C53). C104_reads_live_rules: no freed rule is used, only a sum can overflow. C104_empty: statistics of networks are 0 for no rules. Refuted: C104_new_system_refuted (mean sizes of a system without rules are 0/0), C104_overflow_refuted (more than 2147483647 layers altogether)."
  },
  {
   "property": "C105",
   "status": "partial",
   "theorems": [
    "Xcsf.LstmGrad.C105_output_gate",
    "Xcsf.LstmGrad.C105_output_gate_partial",
    "Xcsf.LstmGrad.C105_lstm_gradient_refuted",
    "Xcsf.LstmGrad.C105_memory_gates",
    "Xcsf.LstmGrad.C105_memory_gates_partial",
    "Xcsf.LstmGrad.C105_forget_gate_never_learns",
    "Xcsf.LstmGrad.C105_forget_gate_refuted",
    "Xcsf.LstmGrad.C105_last_error_refuted",
    "Xcsf.LstmGrad.C105_second_example_refuted"
   ],
   "note": "For every legal LSTM layer with any memory, input and target, the exact updates of all four gates' weights and biases for the input are given beside the true derivatives: output gate (C105_output_gate), forget gate, input gate and candidate (C105_memory_gates). Where the code's derivatives at values equal those at states (linear functions), nothing is left in dc by an earlier step, and the forget gate is not asked to use a memory, the updates are the partial derivatives (C105_output_gate_partial, C105_memory_gates_partial). Refuted with concrete layers otherwise: default functions, because neural_layer_lstm_backward passes activated values to neural_gradient_array (C105_lstm_gradient_refuted); the forget gate, which never learns at all because prev_cell is never written (C105_forget_gate_never_learns for every layer, C105_forget_gate_refuted); and any example after the first, because dc carries the last example's error (C105_last_error_refuted, C105_second_example_refuted: an example with zero error still changes the updates). The parts that read the last output never learn (C71)."
  },
  {
   "property": "C106",
   "status": "partial",
   "theorems": [
    "Xcsf.C106_shown",
    "Xcsf.C106_complete_partial",
    "Xcsf.C106_weights_refuted",
    "Xcsf.C106_memory_refuted",
    "Xcsf.C106_image_refuted",
    "Xcsf.C106_import_refuted",
    "Xcsf.C106_settings",
    "Xcsf.C106_unknown"
   ],
   "note": "Proved: after every history the document can be made, with and without weights, and shows the layers in order with all that the statement lists (C106_shown), and the settings of each kind of layer (C106_settings); no document is made for a layer with an unknown activation function (C106_unknown); networks without recurrent and LSTM layers for inputs of the same sizes whose documents with weights are equal compute the same outputs of every layer for every input (C106_complete_partial). The code violates the rest: the program only ever shows documents without weights (C106_weights_refuted), the memory of recurrent layers is not shown (C106_memory_refuted), the image sizes of convolutional layers are not shown (C106_image_refuted), and reading a network back always ends the program (C106_import_refuted). Printing and parsing of JSON text is trusted."
  },
  {
   "property": "C107",
   "status": "partial",
   "theorems": [
    "Xcsf.Program.C107_usage",
    "Xcsf.Program.C107_default",
    "Xcsf.Program.C107_unknown_problem",
    "Xcsf.Program.C107_missing_maze",
    "Xcsf.Program.C107_missing_data",
    "Xcsf.Program.C107_bad_config",
    "Xcsf.Program.C107_learns_the_data_partial",
    "Xcsf.Program.C107_continues_partial",
    "Xcsf.Program.C107_x_dim_refuted",
    "Xcsf.Program.C107_x_dim_ub_refuted",
    "Xcsf.Program.C107_test_columns_refuted",
    "Xcsf.Program.C107_long_name_refuted",
    "Xcsf.Program.C107_size_refuted"
   ],
   "note": "For every data set of well-formed files, every configuration that does not set the numbers of inputs and outputs, and every rule representation: the program's run is the initialisation with the configured parameters followed by learning from exactly the rows of the files (C107_learns_the_data_partial), also from a stored system (C107_continues_partial); wrong command lines, unknown problems, missing files and malformed configurations end it (C107_usage, C107_unknown_problem, C107_missing_data, C107_missing_maze, C107_bad_config). Refuted: a configuration with x_dim makes the program read inputs across rows or past the end of the data; test files are not compared with the training files; names of 188 or more characters are cut and the files not found; a size that is not a number runs the one-bit multiplexer."
  },
  {
   "property": "C108",
   "status": "partial",
   "theorems": [
    "Xcsf.PopFile.C108_seeded_partial",
    "Xcsf.PopFile.C108_safe_partial",
    "Xcsf.PopFile.C108_no_file",
    "Xcsf.PopFile.C108_unusable",
    "Xcsf.PopFile.C108_empty_refuted",
    "Xcsf.PopFile.C108_ignored_refuted",
    "Xcsf.PopFile.C108_trees_refuted",
    "Xcsf.PopFile.C108_evolution_waits",
    "Xcsf.PopFile.C108_evolution_refuted"
   ],
   "note": "For all condition types but trees, every prediction type, every history that left rules, every generator: C108_seeded_partial (the rules, their order and attributes, the random rules before them, the numbers of a new system), C108_safe_partial (no later history is undefined), C108_no_file, C108_unusable (missing, empty and malformed files end the program). Refuted: the file of an empty population is read through a null pointer (C108_empty_refuted), a document with another first member is ignored without a message (C108_ignored_refuted), files with trees end the program (C108_trees_refuted), and the loaded rules are not evolved until the clock of the new system has caught up with their time stamps (C108_evolution_refuted, C108_evolution_waits). Both systems have the same parameters."
  },
  {
   "property": "C109",
   "status": "partial",
   "theorems": [
    "Xcsf.Double.C109_wheel_stops",
    "Xcsf.Double.C109_random_index",
    "Xcsf.Double.C109_no_undefined_behaviour",
    "Xcsf.Double.C109_not_negative",
    "Xcsf.Double.C109_nan_error_is_accurate",
    "Xcsf.Double.C109_nan_wheel_stops_at_first",
    "Xcsf.Double.C109_losses_not_negative",
    "Xcsf.Double.C109_training_error_not_negative",
    "Xcsf.Double.C109_rule_errors_not_negative",
    "Xcsf.Double.C109_settings_partial",
    "Xcsf.Double.C109_steps_partial",
    "Xcsf.Double.C109_leaf_partial",
    "Xcsf.Double.C109_random_leaf",
    "Xcsf.Double.C109_tree_leaf_refuted"
   ],
   "note": "Proved for the life cycle of C01-C29 over an abstract type of doubles with rounding, infinities and one not-a-number: no undefined behaviour (C109_no_undefined_behaviour), fitness and sizes not negative (C109_not_negative), wheels and indices for themselves (C109_wheel_stops, C109_random_index). binary64, rounded to nearest and even, is shown to be such a format (Binary64.lean). Refuted for random trees with one constant and one input: for the largest random number the leaf is rounded up to the excluded bound and evaluating the tree reads past the input (C109_tree_leaf_refuted, C109_random_leaf); leaves are in range if no power of two is between the number of leaves and the bound (C109_leaf_partial). Findings proved beside it: an error that is not a number stays so and counts as full accuracy (C109_nan_error_is_accurate), and one fitness that is not a number makes roulette selection return the first rule always (C109_nan_wheel_stops_at_first). The same with parameters changed between calls (C109_settings_partial) and trials made step by step (C109_steps_partial). Also proved: losses, the training error and the errors of rules are never negative (C109_losses_not_negative, C109_training_error_not_negative, C109_rule_errors_not_negative). Of parameters only what the setters check is asked, so they may be not a number (C112). Simplified: signed zeros are identified; the arithmetic inside representations is a parameter."
  },
  {
   "property": "C110",
   "status": "partial",
   "theorems": [
    "Xcsf.Double.C110_weights_lost",
    "Xcsf.Double.C110_linear_prediction_lost",
    "Xcsf.Double.C110_weights_stay_lost",
    "Xcsf.Double.C110_zero_input_refuted",
    "Xcsf.Double.C110_limits",
    "Xcsf.Double.C110_network_lost",
    "Xcsf.Double.C110_network_stuck",
    "Xcsf.Double.C110_network_zero_refuted",
    "Xcsf.Double.C110_network_survives_partial",
    "Xcsf.Double.C110_square_overflows",
    "Xcsf.Double.C110_overflow",
    "Xcsf.Double.C110_overflow_refuted",
    "Xcsf.Double.C110_overflow_run",
    "Xcsf.Double.C110_reward_error_lost",
    "Xcsf.Double.C110_first_action_stuck",
    "Xcsf.Double.C110_action_dropped",
    "Xcsf.Double.C110_payoff_lost",
    "Xcsf.Double.C110_rls_lost",
    "Xcsf.Double.C110_rls_stays_lost",
    "Xcsf.Double.C110_rls_target_lost",
    "Xcsf.Double.C110_rls_output_stays_lost",
    "Xcsf.Double.C110_rls_target_partial",
    "Xcsf.Double.C110_rls_windup_refuted",
    "Xcsf.Double.C110_losses",
    "Xcsf.Double.C110_other_losses",
    "Xcsf.Double.C110_onehot_partial",
    "Xcsf.Double.C110_log_hides",
    "Xcsf.Double.C110_fit",
    "Xcsf.Double.C110_error_lost",
    "Xcsf.Double.C110_infinite",
    "Xcsf.Double.C110_rule_accurate",
    "Xcsf.Double.C110_constant_lost",
    "Xcsf.Double.C110_prediction_lost",
    "Xcsf.Double.C110_evaluation_partial",
    "Xcsf.Double.C110_refuted"
   ],
   "note": "Refuted: C110_error_lost shows for every system and every history that after one bad sample the training error is never a number again; C110_infinite the same for infinite ones; C110_rule_accurate that rules which met it count as perfectly accurate; C110_constant_lost and C110_prediction_lost that constant predictions and the predictions of the system are lost; C110_refuted is a concrete system that predicts correctly, meets one bad sample for another input and predicts not-a-number from then on. C110_evaluation_partial: evaluating samples leaves the training error alone. Every loss but the one-hot error notices such targets (C110_losses, C110_other_losses); the one-hot error is a number always (C110_onehot_partial); the logarithmic loss counts a prediction that is not a number like zero (C110_log_hides). Linear predictions (normalised least mean squares): one missing input or target makes all weights not-a-number, for ever (C110_weights_lost, C110_weights_stay_lost, C110_linear_prediction_lost); with a bias of zero, which the parameters allow, the input zero does the same although all its numbers are good (C110_zero_input_refuted). Rewards: a reward that is not a number has the same effect on the training error (C110_reward_error_lost); if the prediction of the first action is lost it is the only best action for ever, any other lost action is never chosen as best again (C110_first_action_stuck, C110_action_dropped), and the payoff of what leads to the first case is lost too (C110_payoff_lost). Large numbers: the squared error of a finite target can overflow, after which the training error is infinite and with the next sample not a number (C110_square_overflows, C110_overflow, C110_overflow_refuted for binary64 and the target 2^600, C110_overflow_run). Networks: a target that is not a number passes the limits of weights (C110_limits) and loses the output for ever (C110_network_lost); with momentum an infinite error leaves the bias at its limit for ever (C110_network_stuck); an infinite error loses the weights of inputs that are zero (C110_network_zero_refuted); without momentum and decay and with inputs other than zero infinite errors are survived (C110_network_survives_partial). Recursive least squares: a missing input loses all weights and the gain matrix, a missing target the weights of its output, for ever and in all copies (C110_rls_lost, C110_rls_stays_lost, C110_rls_target_lost, C110_rls_output_stays_lost); the other outputs are not touched (C110_rls_target_partial). With a forgetting factor of one half an input that is zero for 1026 samples loses everything without any bad sample (C110_rls_windup_refuted)."
  },
  {
   "property": "C111",
   "status": "partial",
   "theorems": [
    "Xcsf.Double.C111_rectangle_covers",
    "Xcsf.Double.C111_missing_matches",
    "Xcsf.Double.C111_lost_interval",
    "Xcsf.Double.C111_centre_lost",
    "Xcsf.Double.C111_ellipsoid_never",
    "Xcsf.Double.C111_ellipsoid_cover_refuted",
    "Xcsf.Double.C111_ellipsoid_covers_partial",
    "Xcsf.Double.C111_ternary_refuted",
    "Xcsf.Double.C111_ternary_partial",
    "Xcsf.Double.C111_refuted",
    "Xcsf.Double.C111_activation_nan",
    "Xcsf.Double.C111_neural_never",
    "Xcsf.Double.C111_neural_cover_refuted",
    "Xcsf.Double.C111_neural_action",
    "Xcsf.Double.C111_action_cover_refuted",
    "Xcsf.Double.C111_rule_action",
    "Xcsf.Double.C111_rule_cover_refuted"
   ],
   "note": "Proved for hyperrectangles: covering matches for every double, rounded, infinite or missing (C111_rectangle_covers); a missing value matches every interval (C111_missing_matches). Refuted otherwise: rules that move their centres lose them to the first missing value for all time and then match everything there (C111_centre_lost, C111_lost_interval); hyperellipsoids match no input with a missing value, a rule made to cover one matches nothing at all (C111_ellipsoid_never, C111_ellipsoid_cover_refuted), and the population fills with such rules (C111_refuted); ternary conditions convert not-a-number to int, which is undefined (C111_ternary_refuted). For finite inputs hyperellipsoids cover (C111_ellipsoid_covers_partial), and all other values have their bits for up to 30 bits (C111_ternary_partial). Not treated: conditions of trees and graphs, and layers other than connected and softmax ones. Neural conditions of connected and softmax layers: with a missing value no network matches, since no activation function hides it (C111_activation_nan, C111_neural_never), and covering does not return, whatever is drawn (C111_neural_cover_refuted). Neural actions: with a missing value every network chooses the first action (C111_neural_action), and covering any other action does not return (C111_action_cover_refuted). Networks that are both condition and action compute the first action (C111_rule_action); covering does not return for any other, and for the first it returns a rule that does not match (C111_rule_cover_refuted)."
  },
  {
   "property": "C112",
   "status": "partial",
   "theorems": [
    "Xcsf.Double.C112_stored",
    "Xcsf.Double.C112_refused",
    "Xcsf.Double.C112_nan_refuted",
    "Xcsf.Double.C112_safe_partial",
    "Xcsf.Double.C112_beta_refuted",
    "Xcsf.Double.C112_endless_refuted",
    "Xcsf.Double.C112_theta_refuted",
    "Xcsf.Double.C112_theta_infinite",
    "Xcsf.Double.C112_e0_refuted",
    "Xcsf.Double.C112_explore_refuted",
    "Xcsf.Double.C112_gamma_refuted",
    "Xcsf.Double.C112_history_refuted"
   ],
   "note": "Refuted: exactly numbers and infinities outside the ranges are refused, not-a-number is stored by every setter (C112_refused, C112_nan_refuted). Then training does not return once a tournament is due (C112_endless_refuted, C112_history_refuted), the training error is lost (C112_beta_refuted), evolution runs in every trial (C112_theta_refuted; with infinity, which is in range, never: C112_theta_infinite), all rules count as accurate and none subsumes (C112_e0_refuted), nothing is explored (C112_explore_refuted), and payoffs are lost (C112_gamma_refuted). What is left: for all doubles given to all these setters there is no undefined behaviour (C112_safe_partial), because C109 now asks of parameters only what the setters check. Parameters of representations, crossover and losses are not among these setters (C46 has them)."
  },
  {
   "property": "C113",
   "status": "partial",
   "theorems": [
    "Xcsf.Double.C113_tree",
    "Xcsf.Double.C113_tree_unknown",
    "Xcsf.Double.C113_graph",
    "Xcsf.Double.C113_graph_forgets_partial",
    "Xcsf.Double.C113_ellipsoid",
    "Xcsf.Double.C113_neural",
    "Xcsf.Double.C113_rectangle_refuted",
    "Xcsf.Double.C113_graph_forgets_refuted"
   ],
   "note": "Proved for trees (C113_tree; what matches an input of which nothing is known matches everything, C113_tree_unknown), for graphs over whole series of inputs with and without memory (C113_graph), and for hyperellipsoids and networks, which match no incomplete input (C113_ellipsoid, C113_neural). Refuted for hyperrectangles, which ignore missing values: filling one in can end the match (C113_rectangle_refuted). Graphs without memory forget missing values with the next input (C113_graph_forgets_partial); with memory this is refuted: a graph can remember one for ever and match nothing from then on (C113_graph_forgets_refuted). Ternary conditions: undefined for missing values, see C111."
  },
  {
   "property": "C114",
   "status": "partial",
   "theorems": [
    "Xcsf.Double.C114_activation",
    "Xcsf.Double.C114_softmax",
    "Xcsf.Double.C114_network_partial",
    "Xcsf.Double.C114_network_overflow_refuted",
    "Xcsf.Double.C114_softmax_unset_refuted",
    "Xcsf.Double.C114_neuron_wide",
    "Xcsf.Double.C114_network_wide_partial",
    "Xcsf.Double.C114_tree",
    "Xcsf.Double.C114_graph_unit_partial",
    "Xcsf.Double.C114_graph_overflow_refuted",
    "Xcsf.Double.C114_graph_infinite_refuted"
   ],
   "note": "Proved for trees, for all doubles that are not missing, infinite ones included (C114_tree). Graphs: proved for inputs between zero and one, for which all states remain there (C114_graph_unit_partial); refuted beyond: two large finite inputs and a zero give infinity times zero, after which a graph with memory matches nothing, whatever comes (C114_graph_overflow_refuted), and one infinite input and a zero suffice (C114_graph_infinite_refuted). Networks of connected and softmax layers: for inputs between -200 and 200, weights and biases between -10 and 10, at most 2^30 inputs to a neuron, softmax scales not below a twentieth and library functions bounded as in mathematics, all outputs are numbers between -200 and 200, for every activation function and depth, and those of softmax layers between zero and one (C114_activation, C114_softmax, C114_network_partial); over binary64 networks that begin with a connected layer do so for all inputs up to 2^970 in size (C114_neuron_wide, C114_network_wide_partial); refuted for large finite inputs, which weights of opposite sign cancel to not-a-number (C114_network_overflow_refuted), and for softmax layers whose scale is not configured: it is zero, nothing objects, and all outputs are not-a-number for all inputs (C114_softmax_unset_refuted). Not covered: recurrent, convolutional and other layers, graphs with inputs outside the unit interval that are not large, softmax scales between zero and a twentieth."
  },
  {
   "property": "C115",
   "status": "partial",
   "theorems": [
    "Xcsf.Double.C115_gradient",
    "Xcsf.Double.C115_settings",
    "Xcsf.Double.C115_learning",
    "Xcsf.Double.C115_prediction",
    "Xcsf.Double.C115_large_refuted"
   ],
   "note": "Proved for samples with inputs between -200 and 200 and targets between minus and plus a million: after any number of them weights and bias are numbers between -10 and 10, accumulated updates are bounded numbers (C115_learning), and predictions for such inputs are numbers between -200 and 200 (C115_prediction). All activation functions of the program and their gradients meet the hypotheses, given library functions bounded as in mathematics (C115_gradient, C115_settings). Refuted for large finite samples: with a momentum, one sample whose input and target are finite but large makes an update infinite, and the weight is at its limit for ever, whatever good samples follow (C115_large_refuted, binary64). Missing: networks of several layers, rates of zero (updates then accumulate without limit), samples between good and large ones."
  },
  {
   "property": "C116",
   "status": "partial",
   "theorems": [
    "Xcsf.Double.C116_step",
    "Xcsf.Double.C116_ema",
    "Xcsf.Double.C116_constant",
    "Xcsf.Double.C116_rule",
    "Xcsf.Double.C116_training_error",
    "Xcsf.Double.C116_mae",
    "Xcsf.Double.C116_mse",
    "Xcsf.Double.C116_huber",
    "Xcsf.Double.C116_fitness",
    "Xcsf.Double.C116_accuracy",
    "Xcsf.Double.C116_constant_rule",
    "Xcsf.Double.C116_range_refuted"
   ],
   "note": "Proved with the rounding of every operation: an average of values of at most M stays a number of at most 4 M (C116_step, C116_ema), the training error of systems whose losses are bounded for all predictions and targets, such as the one-hot error (C116_training_error), constant predictions (C116_constant), errors and set sizes of rules in one update (C116_rule), all of predictions, errors and set sizes of rules with constant predictions and the mean absolute error, however often they are updated (C116_constant_rule), the mean absolute, mean squared and Huber loss of such predictions and targets (C116_mae, C116_mse, C116_huber), accuracies (C116_accuracy) and fitness in sets of any number of rules (C116_fitness). Bounds are such that 5 M, and 4 M over the smallest rate, are below 2^53. Missing: other losses, multi-step trials; a bound closer than 4 M. Refuted: averages do not stay within the range of what they average; with a rate of one the prediction -1 and the target -2^-60 give zero (C116_range_refuted, binary64)."
  }
 ]
}