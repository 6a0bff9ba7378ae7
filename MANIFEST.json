{
 "claims": [
  {
   "property": "C01",
   "status": "proved",
   "theorems": [
    "GT.C01_int_blocks",
    "GT.C01_int_errors",
    "GT.C01_list_blocks",
    "GT.C01_trainer_default"
   ],
   "note": "Integer and list argument, all error branches, and the trainer's default split."
  },
  {
   "property": "C02",
   "status": "partial",
   "theorems": [
    "GT.C02_blocks_partial",
    "GT.C02_no_budget",
    "GT.C02_budget_list_is_ignored",
    "GT.C02_budget_list_type_error",
    "GT.C02_flags_never_settable"
   ],
   "note": "s values and trainable flags are dealt cyclically; a list of literal budgets is ignored by the code (its first element applies to all / a type error), proved as C02_budget_list_is_ignored and C02_budget_list_type_error."
  },
  {
   "property": "C03",
   "status": "partial",
   "theorems": [
    "GT.C03_constructor_partial",
    "GT.C03_budget_not_checked",
    "GT.C03_empty_s_accepted"
   ],
   "note": "Exact acceptance condition of the constructor; the literal budget given to the constructor is not validated (C03_budget_not_checked) and an empty s list is accepted (C03_empty_s_accepted)."
  },
  {
   "property": "C04",
   "status": "proved",
   "theorems": [
    "GT.C04_states_stay_in_range",
    "GT.C04_fresh_block",
    "GT.C04_every_history_in_range"
   ],
   "note": "Every call history from every in-range state, and from every fresh initialisation."
  },
  {
   "property": "C05",
   "status": "proved",
   "theorems": [
    "GT.C05_eval_output",
    "GT.C05_block_eval_output"
   ],
   "note": "Single clause and whole block."
  },
  {
   "property": "C06",
   "status": "proved",
   "theorems": [
    "GT.C06_train_output",
    "GT.C06_empty_clause_fires"
   ],
   "note": ""
  },
  {
   "property": "C07",
   "status": "proved",
   "theorems": [
    "GT.C07_train_output",
    "GT.C07_eval_output",
    "GT.C07_block_outputs_and_votes",
    "GT.C07_padding_is_invisible"
   ],
   "note": "Single clause, whole block including votes, and invisibility of padding over whole histories. Zero literals is excluded (the C++ code reads out of bounds there)."
  },
  {
   "property": "C08",
   "status": "proved",
   "theorems": [
    "GT.C08_avx2_same_as_portable",
    "GT.C08_type2_exact",
    "GT.C08_type2_monotone",
    "GT.C08_type2_eventually_rejects",
    "GT.C08_bound_is_tight",
    "GT.C08_neon_same_as_portable"
   ],
   "note": "127 repetitions suffice; the bound is shown tight."
  },
  {
   "property": "C09",
   "status": "proved",
   "theorems": [
    "GT.C09_avx2_exact",
    "GT.C09_avx2_bounds",
    "GT.C09_avx2_boosts_negated_literals",
    "GT.C09_type1a",
    "GT.C09_type1a_exact",
    "GT.C09_neon_exact"
   ],
   "note": "Portable and AVX2; the AVX2 backend also boosts negated literals (C09_avx2_boosts_negated_literals)."
  },
  {
   "property": "C10",
   "status": "proved",
   "theorems": [
    "GT.C10_avx2_exact",
    "GT.C10_avx2_floor_is_lower",
    "GT.C10_type1b",
    "GT.C10_type1b_exact",
    "GT.C10_neon_exact"
   ],
   "note": "Portable and AVX2; the AVX2 floor is -128 instead of -127 (C10_avx2_floor_is_lower)."
  },
  {
   "property": "C100",
   "status": "partial",
   "theorems": [
    "GT.C100_order",
    "GT.C100_complement_partial",
    "GT.C100_predictions",
    "GT.C100_start",
    "GT.C100_boost_breaks_complement",
    "GT.C100_avx2",
    "GT.C100_avx2_start",
    "GT.C100_neon_order",
    "GT.C100_neon_complement_partial",
    "GT.C100_neon_start",
    "GT.C100_neon_boost_breaks_complement"
   ],
   "note": "Portable dense backend: for every order of the columns, boosted or not (C100_order), for opposites without boosting (C100_complement_partial), predictions for every recoding (C100_predictions), and the start (C100_start). AVX2 backend: for every order and all opposites, boosted or not (C100_avx2), and the start (C100_avx2_start). NEON backend: for every order (C100_neon_order), opposites without boosting (C100_neon_complement_partial), and the start (C100_neon_start). The random numbers of the literals are the same ones in another order; on AVX2 and NEON which order does not even depend on the history. Missing because the code does not do it: with boosting, the portable and NEON backends boost positive literals and not negated ones, so opposites matter (C100_boost_breaks_complement, C100_neon_boost_breaks_complement)."
  },
  {
   "property": "C101",
   "status": "partial",
   "theorems": [
    "GT.C101_numbers",
    "GT.C101_dense",
    "GT.C101_avx2",
    "GT.C101_neon",
    "GT.C101_conv",
    "GT.C101_sparse",
    "GT.C101_predictions_partial",
    "GT.C101_start",
    "GT.C101_ties_depend_on_numbers"
   ],
   "note": "Clauses, votes and active literals agree class for class at all times, in five backends (C101_dense, C101_avx2, C101_neon, C101_conv, C101_sparse). The second machine draws, for each negative class, the number of the first moved into the interval of the same class; C101_numbers shows that this keeps all chances. C101_start: the renumbered block is as likely a start. Predictions agree whenever one class has most votes (C101_predictions_partial). Missing because the code does not do it: ties go to the lowest number, so there the prediction depends on the numbering (C101_ties_depend_on_numbers)."
  },
  {
   "property": "C102",
   "status": "proved",
   "theorems": [
    "GT.C102_shuffles",
    "GT.C102_accuracy",
    "GT.C102_dense",
    "GT.C102_avx2",
    "GT.C102_sparse",
    "GT.C102_conv",
    "GT.C102_avx2_conv",
    "GT.C102_neon",
    "GT.C102_predictions",
    "GT.C102_same_shuffle_differs"
   ],
   "note": "C102_dense, C102_avx2, C102_sparse, C102_conv, C102_avx2_conv, C102_neon (with a budget, without one it crashes, C42): results and states of a whole training run are equal. C102_shuffles: the shuffles correspond one to one. C102_accuracy: the default score qualifies. C102_predictions: predictions follow the rows. C102_same_shuffle_differs: with the same seed, and so the same shuffle, the results do differ, which is why the statement goes by visiting order. How StratifiedKFold splits rearranged rows is outside the model."
  },
  {
   "property": "C103",
   "status": "proved",
   "theorems": [
    "GT.C103_turned",
    "GT.C103_turned_away",
    "GT.C103_only_true_literals",
    "GT.C103_unmentioned",
    "GT.C103_support_kept",
    "GT.C103_cancelled_support",
    "GT.C103_turned_needs_negative",
    "GT.C103_two_at_once"
   ],
   "note": "C103_turned: exact difference of votes for one feature turned round, in the code's 32 bit arithmetic. C103_turned_away: if no rule asks for the other value, the explanation alone tells the new votes. C103_only_true_literals, C103_unmentioned. C103_support_kept: with negative clauses excluded (weights of a class adding up within 32 bits). C103_cancelled_support, C103_turned_needs_negative, C103_two_at_once: why exclusion is needed for the one and harmful for the other, and why two features at once are not covered. Class names are not set (C46)."
  },
  {
   "property": "C104",
   "status": "partial",
   "theorems": [
    "GT.C104_portable",
    "GT.C104_avx2",
    "GT.C104_conv_partial",
    "GT.C104_avx2_conv_partial",
    "GT.C104_conv_large_budget_partial",
    "GT.C104_avx2_conv_large_budget_partial",
    "GT.C104_sparse_order_matters",
    "GT.C104_conv_budget_order_matters",
    "GT.C104_neon_order_matters",
    "GT.C104_start"
   ],
   "note": "C104_portable, C104_avx2: proved for the dense blocks. C104_start: the reordered block is as likely a start (portable). C104_conv_large_budget_partial, C104_avx2_conv_large_budget_partial: convolutional blocks with a literal budget that nothing exceeds (C104_conv_partial, C104_avx2_conv_partial: built without one). Missing because the code violates it: C104_conv_budget_order_matters (literal counts shared by the clauses), C104_sparse_order_matters (active literals shared by the clauses), C104_neon_order_matters (empty clauses fire depending on the clauses before them). NEON training by itself is not stated."
  },
  {
   "property": "C105",
   "status": "partial",
   "theorems": [
    "GT.C105_portable",
    "GT.C105_resumed",
    "GT.C105_avx2",
    "GT.C105_neon",
    "GT.C105_sparse_partial",
    "GT.C105_conv_partial",
    "GT.C105_avx2_conv_partial",
    "GT.C105_uninterrupted_differs",
    "GT.C105_sparse_index_matters",
    "GT.C105_conv_scratch_matters"
   ],
   "note": "C105_portable, C105_resumed, C105_avx2 and C105_neon: proved for the dense blocks. C105_sparse_partial: sparse blocks with the same replace indices. C105_conv_partial: portable convolutional blocks with one patch or with a budget nothing exceeds. Missing because the code violates it: C105_sparse_index_matters (the index of the active literal to be replaced next is not saved), C105_conv_scratch_matters (counts left in the scratch memory). C105_uninterrupted_differs: the generators are not part of the state, so saving and going on with the same seed is not uninterrupted training. C105_avx2_conv_partial: AVX2 convolutional blocks with one patch or without a budget."
  },
  {
   "property": "C106",
   "status": "partial",
   "theorems": [
    "GT.C106_portable",
    "GT.C106_avx2",
    "GT.C106_neon",
    "GT.C106_sparse",
    "GT.C106_conv",
    "GT.C106_avx2_conv",
    "GT.C106_bound_grows",
    "GT.C106_fresh_portable",
    "GT.C106_fresh_avx2",
    "GT.C106_fresh_sparse",
    "GT.C106_fresh_neon",
    "GT.C106_literals",
    "GT.C106_avx2_literals",
    "GT.C106_neon_literals",
    "GT.C106_conv_literals",
    "GT.C106_avx2_conv_literals",
    "GT.C106_sparse_literals",
    "GT.C106_sparse_new_literal",
    "GT.C106_same_conjunction",
    "GT.C106_votes_partial",
    "GT.C106_avx2_votes_partial",
    "GT.C106_overflow",
    "GT.C106_same_prediction",
    "GT.C106_avx2_same_prediction",
    "GT.C106_conv_same_prediction",
    "GT.C106_avx2_conv_same_prediction",
    "GT.C106_neon_same_prediction",
    "GT.C106_conv_votes_partial",
    "GT.C106_avx2_conv_votes_partial",
    "GT.C106_sparse_votes_partial"
   ],
   "note": "C106_portable, C106_avx2, C106_neon, C106_sparse, C106_conv, C106_avx2_conv: no weight moves by more than the number of examples, all six kinds of blocks. C106_fresh_*: fresh weights are 1 and -1. C106_literals, C106_avx2_literals, C106_neon_literals, C106_conv_literals, C106_avx2_conv_literals: states of literals move by at most two per example; C106_sparse_literals, C106_sparse_new_literal: the same for sparse blocks, which drop and take up literals, on examples without repeated literals; C106_same_conjunction: settled clauses say the same afterwards; C106_same_prediction, C106_avx2_same_prediction, C106_conv_same_prediction, C106_avx2_conv_same_prediction, C106_neon_same_prediction: a settled machine keeps a clear prediction through short training. C106_votes_partial, C106_avx2_votes_partial, C106_conv_votes_partial, C106_avx2_conv_votes_partial, C106_sparse_votes_partial: predictions by the true sums within the horizon. Missing because the code violates it: C106_overflow (a fresh machine shown only label 0 predicts class 1 after 32767 examples, the weight having wrapped)."
  },
  {
   "property": "C11",
   "status": "proved",
   "theorems": [
    "GT.C11_avx2_over_budget_only_forgets",
    "GT.C11_over_budget_only_forgets",
    "GT.C11_history_only_drops",
    "GT.C11_neon_over_budget_only_forgets",
    "GT.C11_sparse_over_budget_only_forgets"
   ],
   "note": "Step and history version."
  },
  {
   "property": "C12",
   "status": "proved",
   "theorems": [
    "GT.C12_avx2_same_weights",
    "GT.C12_training_step",
    "GT.C12_weight_wraps_at_boundary",
    "GT.C12_neon_same_weights",
    "GT.C12_sparse_training_step"
   ],
   "note": "Exact weight change per step, including which draws cause it; the wrap at the 16-bit boundary is shown by a witness."
  },
  {
   "property": "C13",
   "status": "proved",
   "theorems": [
    "GT.C13_votes_mod",
    "GT.C13_votes_exact",
    "GT.C13_votes_length",
    "GT.C13_sparse_votes"
   ],
   "note": ""
  },
  {
   "property": "C14",
   "status": "partial",
   "theorems": [
    "GT.C14_conv_block_split_invariance",
    "GT.C14_conv_backend_invariance",
    "GT.C14_neon_block_split_invariance_partial",
    "GT.C14_neon_split_matters",
    "GT.C14_block_split_invariance",
    "GT.C14_backend_invariance",
    "GT.C14_sparse_block_split_invariance"
   ],
   "note": "Any permutation of the clauses over any blocks, whole batches: portable, AVX2, sparse and convolutional executors, AVX2 against portable ones (dense and convolutional). NEON: false when a clause is empty (C14_neon_split_matters), proved otherwise (C14_neon_block_split_invariance_partial)."
  },
  {
   "property": "C15",
   "status": "proved",
   "theorems": [
    "GT.C15_conv_schedule_independent",
    "GT.C15_neon_schedule_independent",
    "GT.C15_neon_evaluation_schedule_independent",
    "GT.C15_training_schedule_independent",
    "GT.C15_evaluation_schedule_independent",
    "GT.C15_backends_qualify",
    "GT.C15_no_deadlock",
    "GT.C15_mutual_exclusion",
    "GT.C15_sparse_schedule_independent"
   ],
   "note": "All interleavings of block tasks with the vote lock, training and evaluation, plus no deadlock, bounded length, mutual exclusion; portable, AVX2, sparse, convolutional and (with a literal budget; without one training crashes, C42) NEON backends qualify."
  },
  {
   "property": "C16",
   "status": "proved",
   "theorems": [
    "GT.C16_conv_every_block_learns",
    "GT.C16_avx2_conv_every_block_learns",
    "GT.C16_neon_every_block_learns",
    "GT.C16_epoch",
    "GT.C16_training_votes",
    "GT.C16_avx2_training_votes",
    "GT.C16_every_block_learns",
    "GT.C16_avx2_every_block_learns",
    "GT.C16_slices_compose",
    "GT.C16_sparse_every_block_learns"
   ],
   "note": "Any index permutation; accuracy equals the fraction of pre-update lowest-max hits; slices compose."
  },
  {
   "property": "C17",
   "status": "proved",
   "theorems": [
    "GT.C17_conv_batch_predictions",
    "GT.C17_conv_after_training",
    "GT.C17_avx2_conv_batch_predictions",
    "GT.C17_neon_history_independent",
    "GT.C17_neon_votes_without_empty_clauses",
    "GT.C17_batch_predictions",
    "GT.C17_avx2_batch_predictions",
    "GT.C17_sparse_batch_predictions"
   ],
   "note": "Portable, AVX2, sparse, convolutional and NEON executors, batches of any length, any history. For all but NEON the prediction is also characterised by the clauses that hold; on NEON this needs that no clause is empty (C17_neon_votes_without_empty_clauses, compare C42)."
  },
  {
   "property": "C18",
   "status": "proved",
   "theorems": [
    "GT.C18_conv_eval_invisible",
    "GT.C18_avx2_conv_eval_invisible",
    "GT.C18_neon_eval_invisible",
    "GT.C18_eval_changes_nothing",
    "GT.C18_eval_invisible_to_training",
    "GT.C18_avx2_eval_invisible_to_training",
    "GT.C18_sparse_eval_invisible"
   ],
   "note": "Learned state, streams, counters unchanged; evaluation is invisible to later training; wrong output length refused; portable, AVX2, sparse, convolutional and (with a literal budget) NEON executors."
  },
  {
   "property": "C19",
   "status": "proved",
   "theorems": [
    "GT.C19_positive_probability",
    "GT.C19_positive_antitone",
    "GT.C19_negative_probability",
    "GT.C19_negative_monotone",
    "GT.C19_uniform"
   ],
   "note": "Exact probabilities for the multi-class and uniform feedback, with monotonicity; C83_positive to C83_uniform are the counterparts in doubles."
  },
  {
   "property": "C20",
   "status": "proved",
   "theorems": [
    "GT.C20_negative_class_valid",
    "GT.C20_every_other_class_reachable",
    "GT.C20_library_sampler",
    "GT.C20_uniform",
    "GT.C20_uniform_one_class_diverges",
    "GT.C20_one_class_degenerates"
   ],
   "note": "Under the stated contract of the library sampler (proved for the libstdc++ algorithm, and in doubles with the libstdc++ engine in C83_negative_class_valid); one-class degenerate cases shown."
  },
  {
   "property": "C21",
   "status": "proved",
   "theorems": [
    "GT.C21_predict_lowest_max",
    "GT.C21_process_uses_predict",
    "GT.C21_uniform_counts"
   ],
   "note": ""
  },
  {
   "property": "C22",
   "status": "proved",
   "theorems": [
    "GT.C22_votes_mod",
    "GT.C22_votes_exact",
    "GT.C22_merge_overflow"
   ],
   "note": "Exact when the merged weights fit in 16 bits, always modulo 2^16; the condition is shown necessary."
  },
  {
   "property": "C23",
   "status": "proved",
   "theorems": [
    "GT.C23_compiles",
    "GT.C23_missing_weights",
    "GT.C23_well_formed",
    "GT.C23_rules_are_clauses"
   ],
   "note": "Also: rules are exactly the literal sets of the non-empty clauses with non-zero weights."
  },
  {
   "property": "C24",
   "status": "proved",
   "theorems": [
    "GT.C24_predict",
    "GT.C24_agrees_with_executor",
    "GT.C24_agrees_with_avx2_executor",
    "GT.C24_disagree_on_overflow"
   ],
   "note": "Portable and AVX2 executors, any call history; disagreement outside 16 bits is exhibited."
  },
  {
   "property": "C25",
   "status": "proved",
   "theorems": [
    "GT.C25_compiled_rules_exportable",
    "GT.C25_simple_c",
    "GT.C25_disagree_on_overflow",
    "GT.C25_empty_rule_does_not_compile"
   ],
   "note": "Outside 16 bits the program and the predictor disagree (C25_disagree_on_overflow)."
  },
  {
   "property": "C26",
   "status": "proved",
   "theorems": [
    "GT.C26_tree_c",
    "GT.C26_tree_c_predicts",
    "GT.C26_second_export_loses_rules",
    "GT.C26_equal_rules_lose_votes"
   ],
   "note": "For one export per writer object; a second export by the same object loses rules (C26_second_export_loses_rules)."
  },
  {
   "property": "C27",
   "status": "proved",
   "theorems": [
    "GT.C27_literal_importance",
    "GT.C27_explain_all",
    "GT.C27_unused_literal",
    "GT.C27_features_unavailable"
   ],
   "note": "Explanation modes 'features' and 'both' cannot be constructed (C27_features_unavailable)."
  },
  {
   "property": "C28",
   "status": "proved",
   "theorems": [
    "GT.C28_allocations_fit",
    "GT.C28_snapshot",
    "GT.C28_snapshot_in_place",
    "GT.C28_restore",
    "GT.C28_round_trip",
    "GT.C28_state_predicts",
    "GT.C28_nothing_to_move",
    "GT.C28_shape_not_checked"
   ],
   "note": "Portable and padded layouts, snapshot, in-place snapshot, restore, round trip. The shape of a loaded state is not checked by the code (C28_shape_not_checked)."
  },
  {
   "property": "C29",
   "status": "proved",
   "theorems": [
    "GT.C29_get",
    "GT.C29_set_then_get",
    "GT.C29_get_then_set"
   ],
   "note": ""
  },
  {
   "property": "C30",
   "status": "partial",
   "theorems": [
    "GT.C30_logs",
    "GT.C30_best_partial",
    "GT.C30_low_scores_not_reported",
    "GT.C30_no_epochs"
   ],
   "note": "Logs, number of epochs and early exit proved in full; the best score and epoch for runs with a score above -1, false otherwise (C30_low_scores_not_reported)."
  },
  {
   "property": "C31",
   "status": "partial",
   "theorems": [
    "GT.C31_neon_read_only",
    "GT.C31_sparse_read_only",
    "GT.C31_sparse_state_partial",
    "GT.C31_best_state_partial",
    "GT.C31_last_state",
    "GT.C31_low_scores_no_state",
    "GT.C31_portable_read_only"
   ],
   "note": "Proved for runs with a score above -1 and without load_best_state; otherwise the machine gets no state or a stale one (C31_low_scores_no_state). Also stated for the sparse machine and its SparseState (C31_sparse_state_partial). Evaluation leaves the kept state alone on NEON too (C31_neon_read_only)."
  },
  {
   "property": "C32",
   "status": "partial",
   "theorems": [
    "GT.C32_fresh_state_partial",
    "GT.C32_old_state_returns"
   ],
   "note": "Proved for runs with a score above -1 or without load_best_state; false otherwise (C32_old_state_returns)."
  },
  {
   "property": "C33",
   "status": "partial",
   "theorems": [
    "GT.C33_folds_cover",
    "GT.C33_fold_samples",
    "GT.C33_fold_logs_partial",
    "GT.C33_best_of_all_folds",
    "GT.C33_folds_leak",
    "GT.C33_independent_if_cold"
   ],
   "note": "Disjointness and coverage proved from the contract of StratifiedKFold; the folds are not independent (C33_folds_leak)."
  },
  {
   "property": "C34",
   "status": "proved",
   "theorems": [
    "GT.C34_train_accepts_iff",
    "GT.C34_eval_accepts_iff",
    "GT.C34_rejected_unchanged",
    "GT.C34_accepted_is_held",
    "GT.C34_copied_data_is_private",
    "GT.C34_other_errors",
    "GT.C34_values_not_checked"
   ],
   "note": "Exact acceptance condition, atomicity, and privacy of copies. Rejections are not always ValueError and values are not checked (C34_other_errors, C34_values_not_checked)."
  },
  {
   "property": "C35",
   "status": "partial",
   "theorems": [
    "GT.C35_allocation_partial",
    "GT.C35_exception_trace",
    "GT.C35_no_cleanup_on_exception",
    "GT.C35_trainer_seeds"
   ],
   "note": "Seeds and normal exit proved; on an exception in the body no block is cleaned up (C35_no_cleanup_on_exception)."
  },
  {
   "property": "C36",
   "status": "partial",
   "theorems": [
    "GT.C36_every_history_partial",
    "GT.C36_total_can_exceed_clause_size",
    "GT.C36_update_keeps_order"
   ],
   "note": "False as stated: the bound clause_size holds for each half separately, so a clause can hold twice as many (C36_total_can_exceed_clause_size). Proved for every history: both halves strictly increasing, without duplicates, within clause_size each, literals in range, states paired with literals."
  },
  {
   "property": "C37",
   "status": "partial",
   "theorems": [
    "GT.C37_train_exact",
    "GT.C37_literal_count",
    "GT.C37_train_same_as_dense_partial",
    "GT.C37_train_fires_when_dense_fires",
    "GT.C37_eval_exact",
    "GT.C37_eval_same_as_dense_partial",
    "GT.C37_missing_literal_not_noticed",
    "GT.C37_one_sided_clause_never_fires",
    "GT.C37_clause_without_included_literals_fires",
    "GT.C37_unsorted_row_misread",
    "GT.C37_block_train_partial",
    "GT.C37_machine_same_as_dense_partial"
   ],
   "note": "False in general: evaluation misses an included literal larger than every literal of the example, a clause with literals on one side only never fires, a clause without included literals fires, an unsorted example row is misread (counterexample theorems). Proved: exactly what training and evaluation outputs are for all sorted inputs, and when they agree with the dense clause."
  },
  {
   "property": "C38",
   "status": "partial",
   "theorems": [
    "GT.C38_every_history_partial",
    "GT.C38_literals_of_other_classes",
    "GT.C38_replace_position_in_range",
    "GT.C38_static_list_only_grows",
    "GT.C38_offered_literal_enters"
   ],
   "note": "False as stated: the list of a class also takes literals from examples of other classes (C38_literals_of_other_classes). Proved for every history: bound, no duplicates, every literal was in a trained example in which the class was the trained or the opposed one."
  },
  {
   "property": "C39",
   "status": "partial",
   "theorems": [
    "GT.C39_patch_partial",
    "GT.C39_sizes",
    "GT.C39_position_code_injective",
    "GT.C39_every_pixel_partial",
    "GT.C39_not_square"
   ],
   "note": "Proved for square images of any size, any window that fits and any channel count; for other images the code reads the wrong pixels (C39_not_square)."
  },
  {
   "property": "C40",
   "status": "partial",
   "theorems": [
    "GT.C40_new_is_empty",
    "GT.C40_dense_partial",
    "GT.C40_padding_stays_zero",
    "GT.C40_copies_are_contiguous",
    "GT.C40_strides_ignored",
    "GT.C40_refused_data_changes_count",
    "GT.C40_refusal",
    "GT.C40_refused_labels_mix_data_sets",
    "GT.C40_sparse_dense_partial",
    "GT.C40_csr_refusal",
    "GT.C40_sparse_partial",
    "GT.C40_csr_width_unchecked",
    "GT.C40_stored_zero_is_one",
    "GT.C40_wide_indices_misread",
    "GT.C40_wide_indices_shown"
   ],
   "note": "Proved for C-contiguous dense arrays and canonical 0/1 CSR matrices with 32-bit indices; false for strided arrays (C40_strides_ignored), stored zeros (C40_stored_zero_is_one) and 64-bit indices (C40_wide_indices_misread)."
  },
  {
   "property": "C41",
   "status": "partial",
   "theorems": [
    "GT.C41_eval_output",
    "GT.C41_train_output",
    "GT.C41_every_patch_possible",
    "GT.C41_count_partial",
    "GT.C41_count_is_stale",
    "GT.C41_budget_not_enforced",
    "GT.C41_feedback_is_dense",
    "GT.C41_states_in_range",
    "GT.C41_needs_patches",
    "GT.C41_avx2_train",
    "GT.C41_avx2_eval"
   ],
   "note": "Outputs, choice of the patch and feedback proved for all blocks, patch counts, examples and draws, and the AVX2 block shown equal. The literal count is proved only for clauses that hold in every patch; in general it is stale (C41_count_is_stale) and the budget is not kept (C41_budget_not_enforced)."
  },
  {
   "property": "C42",
   "status": "partial",
   "theorems": [
    "GT.C42_train_clause",
    "GT.C42_train_with_budget_partial",
    "GT.C42_train_without_budget_crashes",
    "GT.C42_eval_partial",
    "GT.C42_eval_block_partial",
    "GT.C42_empty_clause_fires",
    "GT.C42_votes_differ"
   ],
   "note": "False for the code: an empty clause after a firing one fires (C42_empty_clause_fires, C42_votes_differ) and training without a budget crashes (C42_train_without_budget_crashes). Proved: training with a budget, and evaluation of every clause that includes a literal or follows only empty clauses. The NEON feedback is covered by C08_neon_*, C09_neon_*, C10_neon_*, C11_neon_*, C12_neon_*."
  },
  {
   "property": "C43",
   "status": "partial",
   "theorems": [
    "GT.C43_on_votes_partial",
    "GT.C43_off_votes_lost",
    "GT.C43_tally_wrong"
   ],
   "note": "False for the code: OFF outputs get no votes (C43_off_votes_lost, C43_tally_wrong). Proved for ON outputs."
  },
  {
   "property": "C44",
   "status": "proved",
   "theorems": [
    "GT.C44_wait_returns_after_all_tasks",
    "GT.C44_no_task_twice",
    "GT.C44_queue_never_popped_empty",
    "GT.C44_no_lost_wakeup",
    "GT.C44_schedules_end",
    "GT.C44_owner_finishes"
   ],
   "note": "For every number of threads, call sequence without pool destruction, and interleaving with spurious wake-ups. The counter is an integer instead of a 64-bit word."
  },
  {
   "property": "C45",
   "status": "partial",
   "theorems": [
    "GT.C45_dense_class",
    "GT.C45_sparse_class",
    "GT.C45_dense_machine_data",
    "GT.C45_data_types_must_match",
    "GT.C45_single_sparse_partial",
    "GT.C45_fallback_sparse_partial",
    "GT.C45_two_sparse_machines_fail",
    "GT.C45_conv_class_partial",
    "GT.C45_pure_python_constructs_nothing",
    "GT.C45_inference_class"
   ],
   "note": "Proved for all histories of a process: the classes dense and sparse machines construct, the input blocks of dense machines, the inference flags. False: a second sparse machine is not recognised as sparse after another one was trained (TypeError); convolutional machines cannot be constructed without AVX2; without the C++ module no machine can be constructed."
  },
  {
   "property": "C46",
   "status": "proved",
   "theorems": [
    "GT.C46_predict_name",
    "GT.C46_explain_name",
    "GT.C46_unknown_name",
    "GT.C46_explain_last",
    "GT.C46_explain_before_predict",
    "GT.C46_explain_all_with_names_raises"
   ],
   "note": "explain('all') with names raises (C46_explain_all_with_names_raises); explain() before predict raises."
  },
  {
   "property": "C47",
   "status": "partial",
   "theorems": [
    "GT.C47_train_output",
    "GT.C47_eval_output_partial",
    "GT.C47_eval_is_strict",
    "GT.C47_zero_state_differs",
    "GT.C47_feedback",
    "GT.C47_update_partial",
    "GT.C47_weight_wraps",
    "GT.C47_states_in_range",
    "GT.C47_votes",
    "GT.C47_predict",
    "GT.C47_one_block_prediction_partial",
    "GT.C47_last_block_only",
    "GT.C47_process_partial",
    "GT.C47_budget",
    "GT.C47_two_blocks_differ",
    "GT.C47_accuracy_differs",
    "GT.C47_threads_do_not_train",
    "GT.C47_prepare_partial",
    "GT.C47_prepare_multi"
   ],
   "note": "Training outputs, feedback, votes and (single block, no zero state) predictions equal the C++ ones. Evaluation leaves out states equal to 0, only the last block's votes count, weights wrap at 8 bits, low votes are scored as class 0, several threads do not train, multi-label rows are mis-subscripted: each shown by a theorem. The pure-Python sparse state is C86; it has no convolution."
  },
  {
   "property": "C48",
   "status": "proved",
   "theorems": [
    "GT.C48_xor_dataset",
    "GT.C48_too_few_literals",
    "GT.C48_accepted"
   ],
   "note": "For every generator that meets numpy's documentation, every size, seed and noise."
  },
  {
   "property": "C49",
   "status": "proved",
   "theorems": [
    "GT.C49_threshold_in_range",
    "GT.C49_threshold_antitone",
    "GT.C49_updating_bytes",
    "GT.C49_large_s_saturates"
   ],
   "note": "Exact rational arithmetic; C83_threshold_byte and C83_s_probabilities are the counterparts in doubles."
  },
  {
   "property": "C50",
   "status": "partial",
   "theorems": [
    "GT.C50_loads_iff",
    "GT.C50_round_trip",
    "GT.C50_machines",
    "GT.C50_wrong_name",
    "GT.C50_clause_counts_differ",
    "GT.C50_failed_load_changes_nothing",
    "GT.C50_wrong_dtype_partial",
    "GT.C50_wrong_dtype_is_type_error",
    "GT.C50_collected_state",
    "GT.C50_sparse_equal_blocks_file_unusable",
    "GT.C50_sparse_file_partial"
   ],
   "note": "Dense state files. Wrong dtypes are rejected, but with TypeError (C50_wrong_dtype_is_type_error). Sparse files: a state whose blocks all have the same number of clauses (always so with one job) cannot be used after loading (C50_sparse_equal_blocks_file_unusable); otherwise the loaded state behaves as the saved one."
  },
  {
   "property": "C51",
   "status": "partial",
   "theorems": [
    "GT.C51_trial_partial",
    "GT.C51_folds_partial",
    "GT.C51_not_the_best",
    "GT.C51_int_s_fails",
    "GT.C51_s_step_default",
    "GT.C51_unset_data",
    "GT.C51_classes_partial",
    "GT.C51_label_gap",
    "GT.C51_optimize"
   ],
   "note": "Parameters lie in the ranges given and the sampled budget is returned. The score is the last epoch's (of the last fold), not the best one as documented (C51_not_the_best); fixed int s fails, s is searched in steps of 0.1 not 1, unset data give AttributeError, label gaps give too few classes."
  },
  {
   "property": "C52",
   "status": "partial",
   "theorems": [
    "GT.C52_rules",
    "GT.C52_votes",
    "GT.C52_predictor_agrees_partial",
    "GT.C52_state_zero_disagrees",
    "GT.C52_one_sided_disagrees",
    "GT.C52_all_excluded_disagrees",
    "GT.C52_copy_changes_rules"
   ],
   "note": "False in general: a state of exactly 0 is included by the backend but not by the rule, one-sided clauses have rules but never fire, clauses with only excluded literals fire but have no rule, and a copied state compiles with another number of literals (counterexample theorems, reached by training). Proved: exactly which rules are compiled and how they vote, for all states; agreement with the executor under the stated conditions."
  },
  {
   "property": "C53",
   "status": "partial",
   "theorems": [
    "GT.C53_jobs_partial",
    "GT.C53_too_negative_is_not_rejected"
   ],
   "note": "False for n_jobs < -n_cpus: C53_too_negative_is_not_rejected."
  },
  {
   "property": "C54",
   "status": "partial",
   "theorems": [
    "GT.C54_rejected_unchanged_partial",
    "GT.C54_rejected_calls_are_kept"
   ],
   "note": "False when the check comes after the assignment: C54_rejected_calls_are_kept."
  },
  {
   "property": "C55",
   "status": "partial",
   "theorems": [
    "GT.C55_start_partial",
    "GT.C55_default_seed_fails",
    "GT.C55_default_seed_crashes_on_retrain",
    "GT.C55_negative_seed",
    "GT.C55_multi_label",
    "GT.C55_sparse_multi_label_unchecked"
   ],
   "note": "For every ready trainer: starts with the promised seeds exactly when 1 <= seed and the seeds fit the backend's types (C55_start_partial); the default seed 0 raises RuntimeError, or writes unallocated memory when the machine already has a state; negative seeds raise TypeError. Multi-label: label count checked for dense data, not checked for csr data on the sparse backend."
  },
  {
   "property": "C56",
   "status": "partial",
   "theorems": [
    "GT.C56_destructor_can_hang",
    "GT.C56_destructor_partial"
   ],
   "note": "False for the code: the flag is cleared and the notification sent without the mutex, so a worker about to block misses it (C56_destructor_can_hang). Proved when no worker is in that window (C56_destructor_partial)."
  },
  {
   "property": "C57",
   "status": "partial",
   "theorems": [
    "GT.C57_targets",
    "GT.C57_every_pair",
    "GT.C57_terminates_iff",
    "GT.C57_one_label_diverges",
    "GT.C57_probabilities",
    "GT.C57_off_probability_constant",
    "GT.C57_accuracy_partial"
   ],
   "note": "Targets, reachability, termination and probability formulas proved for the recorded votes. False for the blocks' votes: OFF outputs are pushed with probability 1/2 always (C57_off_probability_constant), accuracy ignores OFF votes, and with one label the choice never ends."
  },
  {
   "property": "C58",
   "status": "partial",
   "theorems": [
    "GT.C58_training_ends_process",
    "GT.C58_single_label_returns_partial",
    "GT.C58_predict_multi_writes_nothing",
    "GT.C58_prediction_exists",
    "GT.C58_predictor_cannot_tell"
   ],
   "note": "False for the code: the first evaluation ends the process (C58_training_ends_process), the feedback block's prediction is dropped, and the predictor answers with a single output number."
  },
  {
   "property": "C59",
   "status": "proved",
   "theorems": [
    "GT.C59_reward",
    "GT.C59_forget",
    "GT.C59_reject",
    "GT.C59_reject_tracks_active",
    "GT.C59_no_feedback",
    "GT.C59_states_in_range"
   ],
   "note": ""
  },
  {
   "property": "C60",
   "status": "partial",
   "theorems": [
    "GT.C60_prune_partial",
    "GT.C60_literal_below_threshold_kept"
   ],
   "note": "False as stated: the literal directly after a removed one is skipped (C60_literal_below_threshold_kept)."
  },
  {
   "property": "C61",
   "status": "partial",
   "theorems": [
    "GT.C61_new_literal_excluded_partial",
    "GT.C61_threshold_near_zero",
    "GT.C61_very_low_threshold"
   ],
   "note": "Holds for thresholds between -133 and -6 (default -40); false for accepted thresholds outside (C61_threshold_near_zero, C61_very_low_threshold)."
  },
  {
   "property": "C62",
   "status": "partial",
   "theorems": [
    "GT.C62_transfer_partial",
    "GT.C62_uneven_active_literals_fail",
    "GT.C62_uneven_reached",
    "GT.C62_more_blocks_fail",
    "GT.C62_other_split_mixes_rows",
    "GT.C62_too_few_rows_undefined",
    "GT.C62_too_few_weights_fail",
    "GT.C62_replace_index_lost"
   ],
   "note": "False in general: active-literal lists of different lengths give a TypeError half way (C62_uneven_active_literals_fail, reached by one training step), another number of blocks fails or reads out of bounds, the replace index is lost. Proved: with the same split and even lists everything is restored."
  },
  {
   "property": "C63",
   "status": "partial",
   "theorems": [
    "GT.C63_not_compiled_partial",
    "GT.C63_vendor_string_decides",
    "GT.C63_wrong_both_ways"
   ],
   "note": "False: the vendor string is tested instead of the feature bit (C63_vendor_string_decides, C63_wrong_both_ways). Proved: never selected when not compiled in."
  },
  {
   "property": "C64",
   "status": "partial",
   "theorems": [
    "GT.C64_single_label_partial",
    "GT.C64_multi_label_lost"
   ],
   "note": "False: multi_label is passed as boost_true_positives (C64_multi_label_lost). Proved for multi_label=False."
  },
  {
   "property": "C65",
   "status": "partial",
   "theorems": [
    "GT.C65_refused_partial",
    "GT.C65_no_clause_ever_fires",
    "GT.C65_no_clause_ever_fires_avx2"
   ],
   "note": "False: nothing sets the number of patches, initialize refuses it and the refusal is ignored; no clause ever fires (C65_no_clause_ever_fires). For blocks whose number of patches is set see C41."
  },
  {
   "property": "C66",
   "status": "partial",
   "theorems": [
    "GT.C66_range_partial",
    "GT.C66_stream_is_calls",
    "GT.C66_full_period",
    "GT.C66_seeds_distinct",
    "GT.C66_one_iff",
    "GT.C66_one_is_drawn",
    "GT.C66_certain_update_skipped"
   ],
   "note": "Every draw is in [0,1] and the generator visits all 2^64 states; exactly 1 is drawn from every seed, and then an update with probability 1 is skipped (negation proved)."
  },
  {
   "property": "C67",
   "status": "partial",
   "theorems": [
    "GT.C67_neon_period_partial",
    "GT.C67_neon_whole_seed_partial",
    "GT.C67_neon_reaches",
    "GT.C67_streams",
    "GT.C67_avx2_short_period",
    "GT.C67_avx2_half_of_seed_ignored",
    "GT.C67_avx2_stuck",
    "GT.C67_avx2_stuck_iff",
    "GT.C67_neon_never_stuck_partial",
    "GT.C67_neon_injective"
   ],
   "note": "AVX2: the first half of the seed is ignored, the stream repeats after 51166430 calls and some seeds give only zeros (negations proved, with the exact set of stuck states). NEON: proved in full: never zero, one-to-one, period exactly 2^128 - 1 for every seed, and every state other than zero is reached (C67_neon_period_partial, C67_neon_reaches), and different seeds give different draws (C67_neon_whole_seed_partial)."
  },
  {
   "property": "C68",
   "status": "partial",
   "theorems": [
    "GT.C68_neon_bytes_repeat",
    "GT.C68_neon_twins_never_part",
    "GT.C68_avx2_bytes_differ_partial"
   ],
   "note": "NEON: bytes 8-15 repeat bytes 0-7 in every draw, so equal features eight apart never part (negation proved for all histories). AVX2: a seed with 32 different bytes in one draw is exhibited."
  },
  {
   "property": "C69",
   "status": "partial",
   "theorems": [
    "GT.C69_best_score_partial",
    "GT.C69_last_score",
    "GT.C69_avx2_best_score_partial",
    "GT.C69_avx2_last_score",
    "GT.C69_tree_program",
    "GT.C69_start",
    "GT.C69_overflow_not_reproduced",
    "GT.C69_neon_best_score_partial",
    "GT.C69_neon_last_score_partial",
    "GT.C69_neon_start",
    "GT.C69_neon_not_reproduced",
    "GT.C69_sparse_best_score_partial",
    "GT.C69_sparse_last_score_partial",
    "GT.C69_sparse_start",
    "GT.C69_sparse_not_reproduced"
   ],
   "note": "Proved for the portable and the AVX2 backend, for both programs, when some score exceeds -1 and all weight sums fit 16 bits; without the latter it is false (C69_overflow_not_reproduced), without the former no state is kept (C31). For the sparse machine it is proved for states whose clauses backend and rules agree about (the conditions of C37/C52) and false otherwise (C69_sparse_not_reproduced). On NEON it is proved when no clause of the kept state is empty and false otherwise (C69_neon_not_reproduced)."
  },
  {
   "property": "C70",
   "status": "partial",
   "theorems": [
    "GT.C70_layout_partial",
    "GT.C70_contiguous_int",
    "GT.C70_strided_int_rejected",
    "GT.C70_short_example_reads_beyond"
   ],
   "note": "Proved for uint8 and bool arrays of the right length and any layout, and for contiguous signed arrays. False for strided signed arrays (TypeError, C70_strided_int_rejected) and for contiguous arrays that are too short (memory behind them is read, C70_short_example_reads_beyond). Floating-point and multi-dimensional arrays are the subject of C94."
  },
  {
   "property": "C71",
   "status": "proved",
   "theorems": [
    "GT.C71_simple_text",
    "GT.C71_tree_text",
    "GT.C71_texts_agree",
    "GT.C71_unknown_exporter",
    "GT.C71_empty_rule_is_not_c",
    "GT.C71_overflow_disagrees"
   ],
   "note": "Proved for the text itself, read by a definition of the C subset used (Verif/Spec/CLang.lean), for rules that are not empty and examples whose votes fit in 16 bits. False beyond 16 bits (C71_overflow_disagrees) and for an empty rule, which training never produces (C71_empty_rule_is_not_c)."
  },
  {
   "property": "C72",
   "status": "partial",
   "theorems": [
    "GT.C72_calls_defined_partial",
    "GT.C72_arrays_disjoint",
    "GT.C72_pointers_live",
    "GT.C72_initialize_result",
    "GT.C72_cleanup_releases_partial",
    "GT.C72_run_leaks_partial",
    "GT.C72_runs_leak",
    "GT.C72_cleanup_leaks",
    "GT.C72_use_after_cleanup",
    "GT.C72_use_before_initialize",
    "GT.C72_initialize_twice",
    "GT.C72_refused_convolution"
   ],
   "note": "Safety is proved for every history (C72_calls_defined_partial, C72_arrays_disjoint, C72_pointers_live). Release is false: no clean-up releases the clause outputs, exactly one array per block and run stays (C72_run_leaks_partial, C72_runs_leak, C72_cleanup_leaks). Use after clean-up (reached by save_state when no state was stored) is undefined (C72_use_after_cleanup). Array sizes are the subject of other properties."
  },
  {
   "property": "C73",
   "status": "partial",
   "theorems": [
    "GT.C73_initialize",
    "GT.C73_history_partial",
    "GT.C73_from_initialize_partial",
    "GT.C73_initialize_defined_iff",
    "GT.C73_large_machine_undefined",
    "GT.C73_label_out_of_range",
    "GT.C73_label_hits_next_clause",
    "GT.C73_access"
   ],
   "note": "Proved for arrays of fewer than 2^31 elements and labels that are classes (C73_initialize, C73_history_partial, C73_from_initialize_partial), with the exact bound (C73_initialize_defined_iff). False for larger machines (C73_large_machine_undefined) and for labels that are not classes, which are not refused (C73_label_out_of_range, C73_label_hits_next_clause)."
  },
  {
   "property": "C74",
   "status": "partial",
   "theorems": [
    "GT.C74_initialize",
    "GT.C74_history_partial",
    "GT.C74_from_initialize_partial",
    "GT.C74_strict_allocator",
    "GT.C74_no_literals",
    "GT.C74_safe_alloc",
    "GT.C74_access"
   ],
   "note": "Proved for at least one literal and one clause, arrays of fewer than 2^31 elements, and labels that are classes (C74_initialize, C74_history_partial, C74_from_initialize_partial, C74_safe_alloc). False for a machine without literals, which is not refused (C74_no_literals); an allocator that enforces C11's rule for aligned_alloc refuses most machines (C74_strict_allocator)."
  },
  {
   "property": "C75",
   "status": "partial",
   "theorems": [
    "GT.C75_dense",
    "GT.C75_sparse",
    "GT.C75_avx2",
    "GT.C75_neon",
    "GT.C75_conv_partial",
    "GT.C75_conv_large_budget_partial",
    "GT.C75_conv_depends_on_garbage"
   ],
   "note": "Proved for the portable, AVX2, NEON and sparse backends (C75_dense, C75_avx2, C75_neon, C75_sparse) and for portable convolutional blocks with a single patch or without a budget (C75_conv_partial) or with a budget nothing exceeds, such as 2^32-1 (C75_conv_large_budget_partial). False for a convolutional block with several patches and its default budget of 65535: it reads the literal count at the wrong index and may find uninitialised memory (C75_conv_depends_on_garbage)."
  },
  {
   "property": "C76",
   "status": "partial",
   "theorems": [
    "GT.C76_aligned_patches_partial",
    "GT.C76_training_faults",
    "GT.C76_evaluation_faults"
   ],
   "note": "Proved for a single patch and for patches whose number of literals is a multiple of 32 (C76_aligned_patches_partial). False for all other shapes: a training step always faults (C76_training_faults), an evaluation faults unless every clause holds in the first patch (C76_evaluation_faults)."
  },
  {
   "property": "C77",
   "status": "partial",
   "theorems": [
    "GT.C77_dense_partial",
    "GT.C77_csr_partial",
    "GT.C77_csr_dense_partial",
    "GT.C77_trainer_dense_partial",
    "GT.C77_trainer_csr_dense_partial",
    "GT.C77_trainer_csr_partial",
    "GT.C77_epoch_covers",
    "GT.C77_epoch_refines_partial",
    "GT.C77_large_data_faults",
    "GT.C77_slice_past_end_faults",
    "GT.C77_stale_order_faults",
    "GT.C77_refused_data_faults",
    "GT.C77_no_labels_faults",
    "GT.C77_csr_column_outside_faults",
    "GT.C77_csr_new_buffer",
    "GT.C77_stale_label",
    "GT.C77_csr_column_in_padding"
   ],
   "note": "Proved for every sensible history from construction, for all three input blocks, with refused data sets in between as long as they are not used, and for Trainer's own sequence of calls with any number of epochs. 'Sensible' is needed: data sets of 2^31 bytes or more overflow (C77_large_data_faults), slices past the end (C77_slice_past_end_faults) or continued after smaller data (C77_stale_order_faults), a refused data set followed by training (C77_refused_data_faults), data without labels (C77_no_labels_faults, C77_stale_label) and CSR columns beyond the literals (C77_csr_column_outside_faults, C77_csr_column_in_padding) all go wrong. Arrays are C-contiguous and stay alive; other layouts are in C40."
  },
  {
   "property": "C78",
   "status": "partial",
   "theorems": [
    "GT.C78_dense_partial",
    "GT.C78_csr_dense_partial",
    "GT.C78_csr_partial",
    "GT.C78_trainer_same_partial",
    "GT.C78_trainer_csr_same_partial",
    "GT.C78_same_refusals",
    "GT.C78_csr_refusals",
    "GT.C78_csr_rows_refusals",
    "GT.C78_multi_label_raises",
    "GT.C78_multi_label_wrong_example",
    "GT.C78_no_labels_raise",
    "GT.C78_later_slice_raises",
    "GT.C78_threads_raise"
   ],
   "note": "Proved for one thread, single-label dense data and CSR data with any number of labels, for whole epochs and slices from the start (C78_dense_partial, C78_csr_dense_partial, C78_csr_partial), and that the trainer's calls use the same examples in both implementations (C78_trainer_same_partial, C78_trainer_csr_same_partial). False otherwise: several labels per example (C78_multi_label_raises), data without labels (C78_no_labels_raise), later slices (C78_later_slice_raises) and several threads (C78_threads_raise) raise."
  },
  {
   "property": "C79",
   "status": "proved",
   "theorems": [
    "GT.C79_same_as_one_thread",
    "GT.C79_training_and_prediction",
    "GT.C79_no_deadlock",
    "GT.C79_ends",
    "GT.C79_can_finish",
    "GT.C79_no_data_race",
    "GT.C79_owner_alone",
    "GT.C79_backends_qualify"
   ],
   "note": "For the single-label executor on every backend (NEON with a literal budget). Steps are sequentially consistent; the private part of a task is one step. A spurious wake-up is allowed anywhere; the number of steps is bounded explicitly (C79_ends)."
  },
  {
   "property": "C80",
   "status": "partial",
   "theorems": [
    "GT.C80_restore_partial",
    "GT.C80_collect_copy",
    "GT.C80_collect_in_place_partial",
    "GT.C80_collect_first",
    "GT.C80_round_trip",
    "GT.C80_load_file",
    "GT.C80_saved_state",
    "GT.C80_through_a_file",
    "GT.C80_save_refused",
    "GT.C80_restore_defined_iff",
    "GT.C80_refused",
    "GT.C80_other_type_not_collected",
    "GT.C80_conversion",
    "GT.C80_fortran_order_garbled",
    "GT.C80_other_machine_garbled",
    "GT.C80_smaller_file_reads_outside"
   ],
   "note": "Proved for arrays of the machine's dimensions that are C-contiguous with the expected types, or of another type without transposed strides and with values in range (C80_restore_partial), for collecting (C80_collect_copy, C80_collect_first, C80_collect_in_place_partial), across machines (C80_round_trip), through a file (C80_load_file, C80_saved_state, C80_through_a_file, C80_save_refused), with the exact condition for staying inside the arrays (C80_restore_defined_iff) and the refusals (C80_refused). False otherwise: Fortran order (C80_fortran_order_garbled), the state of another machine (C80_other_machine_garbled), a file with fewer clauses (C80_smaller_file_reads_outside), collecting into other element types (C80_other_type_not_collected)."
  },
  {
   "property": "C81",
   "status": "partial",
   "theorems": [
    "GT.C81_creation",
    "GT.C81_inside_partial",
    "GT.C81_independent_of_memory",
    "GT.C81_predict_defined_iff",
    "GT.C81_explain_defined_iff",
    "GT.C81_surplus_name_outside",
    "GT.C81_compiled_fits",
    "GT.C81_sparse_compiled_fits",
    "GT.C81_copied_state_outside",
    "GT.C81_too_few_feature_lists_outside",
    "GT.C81_rules_replaced_outside",
    "GT.C81_empty_class"
   ],
   "note": "Proved for every history of calls with long enough examples, existing classes and no more names than classes (C81_inside_partial, C81_creation, C81_independent_of_memory), for rule sets of at most 65535 clauses from dense and sparse states (C81_compiled_fits, C81_sparse_compiled_fits), with the exact conditions (C81_predict_defined_iff, C81_explain_defined_iff). The refusals do not exist: short examples, unknown classes (the same iff theorems), surplus names (C81_surplus_name_outside), rules from a copied sparse state (C81_copied_state_outside), and in the C++ object too few feature lists and replaced rules (C81_too_few_feature_lists_outside, C81_rules_replaced_outside)."
  },
  {
   "property": "C82",
   "status": "partial",
   "theorems": [
    "GT.C82_initialize",
    "GT.C82_initialize_defined_iff",
    "GT.C82_history_partial",
    "GT.C82_from_initialize_partial",
    "GT.C82_update_defined_iff",
    "GT.C82_no_room_for_active_literals_throws",
    "GT.C82_reinitialize",
    "GT.C82_second_run_partial",
    "GT.C82_stale_active_literals",
    "GT.C82_get_state",
    "GT.C82_set_state",
    "GT.C82_fewer_rows_outside"
   ],
   "note": "Proved for all sizes whose row numbers and weight positions are ints (C82_initialize_defined_iff), active-literal lists with room if they are replaced dynamically, and labels that are classes: C82_initialize, C82_history_partial, C82_from_initialize_partial, C82_second_run_partial, C82_get_state, C82_set_state. Missing because the code does not do it: labels that are no classes are not refused (C82_update_defined_iff), a block with no room for active literals throws while training (C82_no_room_for_active_literals_throws), a state with too few rows is accepted and read outside (C82_fewer_rows_outside), and active literals survive the cleanup (C82_reinitialize, C82_stale_active_literals)."
  },
  {
   "property": "C83",
   "status": "proved",
   "theorems": [
    "GT.C83_rounding",
    "GT.C83_positive",
    "GT.C83_positive_antitone",
    "GT.C83_positive_strict",
    "GT.C83_negative",
    "GT.C83_negative_monotone",
    "GT.C83_counts",
    "GT.C83_uniform",
    "GT.C83_in_range",
    "GT.C83_engine_draws",
    "GT.C83_negative_class_valid",
    "GT.C83_sampler_alone_selects_target",
    "GT.C83_counters",
    "GT.C83_accuracy_order",
    "GT.C83_counter_limit",
    "GT.C83_s_probabilities",
    "GT.C83_s_antitone",
    "GT.C83_threshold_byte",
    "GT.C83_threshold_byte_differs"
   ],
   "note": "Every operation is rounded to the nearest 53-bit number, ties to even (C83_rounding says that is what the model's function does); that no exponent leaves the normal range is proved. std::discrete_distribution, generate_canonical and minstd_rand0 as in libstdc++. C83_sampler_alone_selects_target, C83_counter_limit and C83_threshold_byte_differs show where rounding does matter."
  },
  {
   "property": "C84",
   "status": "partial",
   "theorems": [
    "GT.C84_complete_run",
    "GT.C84_complete_folds",
    "GT.C84_all_or_nothing",
    "GT.C84_unchanged",
    "GT.C84_retry",
    "GT.C84_state_without_results",
    "GT.C84_save_partial",
    "GT.C84_save_keeps_unfinished",
    "GT.C84_save_undefined",
    "GT.C84_folds_state",
    "GT.C84_folds_arrays",
    "GT.C84_folds_examples_partial",
    "GT.C84_folds_complete",
    "GT.C84_labels_mixed",
    "GT.C84_folds_not_undone"
   ],
   "note": "Proved for a single run: C84_all_or_nothing, C84_unchanged, C84_retry (any number of attempts), C84_save_partial; uninterrupted runs agree with the models of C30 to C33 (C84_complete_run, C84_complete_folds). For cross-validation: C84_folds_state, C84_folds_arrays, C84_folds_examples_partial, C84_folds_complete. Missing because the code does not do it: state and results are assigned apart (C84_state_without_results), save_state of a machine without a state takes the partly trained state of the blocks and keeps it (C84_save_keeps_unfinished) or reads blocks without arrays (C84_save_undefined), cross-validation is not undone (C84_folds_not_undone) and an exception between two assignments mixes labels (C84_labels_mixed)."
  },
  {
   "property": "C85",
   "status": "partial",
   "theorems": [
    "GT.C85_initialize",
    "GT.C85_history_partial",
    "GT.C85_from_initialize_partial",
    "GT.C85_initialize_defined_iff",
    "GT.C85_long_example_undefined",
    "GT.C85_label_out_of_range",
    "GT.C85_feedback_after_eval_outside"
   ],
   "note": "Proved for arrays and examples of fewer than 2^31 elements and labels that are classes (C85_initialize, C85_history_partial, C85_from_initialize_partial), with the exact bound of initialize (C85_initialize_defined_iff). False for larger examples, which initialize accepts (C85_long_example_undefined), and for labels that are not classes (C85_label_out_of_range). Feedback without setting the outputs first reads outside the example (C85_feedback_after_eval_outside); the executor always sets them first."
  },
  {
   "property": "C86",
   "status": "partial",
   "theorems": [
    "GT.C86_history",
    "GT.C86_from_start",
    "GT.C86_start",
    "GT.C86_train_output_partial",
    "GT.C86_train_output_square",
    "GT.C86_train_output_wrong",
    "GT.C86_eval_output_partial",
    "GT.C86_eval_output_wrong",
    "GT.C86_votes",
    "GT.C86_update",
    "GT.C86_budget_ignored",
    "GT.C86_more_classes_than_clauses_fail"
   ],
   "note": "Consistency, success of every history and where literals come from (C86_history, C86_from_start), the effect of an update on every literal, weight and active list (C86_update) and votes are proved. The outputs are as stated with as many clauses as classes (C86_train_output_square) and described exactly otherwise (C86_train_output_partial, C86_eval_output_partial); after proper histories they are wrong (C86_train_output_wrong, C86_eval_output_wrong). The budget has no effect (C86_budget_ignored), and with more classes than clauses every call fails (C86_more_classes_than_clauses_fail). An exception inside an update is not followed further."
  },
  {
   "property": "C87",
   "status": "proved",
   "theorems": [
    "GT.C87_own_copies",
    "GT.C87_objects_never_change",
    "GT.C87_others_untouched",
    "GT.C87_copies_are_apart",
    "GT.C87_writes_show",
    "GT.C87_refresh_shows"
   ],
   "note": "C87_own_copies refines the program on references to one in which states are values (C84's training run); C87_objects_never_change, C87_others_untouched, C87_copies_are_apart. The limits the documentation names are shown: writing into a loaded state shows in every machine that has it (C87_writes_show), and so does the private in-place collection (C87_refresh_shows). Dense machines; array shapes and file formats are C50 and C80."
  },
  {
   "property": "C88",
   "status": "partial",
   "theorems": [
    "GT.C88_flags",
    "GT.C88_each_block_partial",
    "GT.C88_frozen_blocks_vote",
    "GT.C88_frozen_blocks_predict",
    "GT.C88_call_keeps",
    "GT.C88_frozen_keeps",
    "GT.C88_late_enabling_ignored",
    "GT.C88_all_trainable",
    "GT.C88_any_schedule",
    "GT.C88_dense",
    "GT.C88_avx2",
    "GT.C88_sparse",
    "GT.C88_conv",
    "GT.C88_avx2_conv",
    "GT.C88_neon",
    "GT.C88_enabled_block_does_not_learn"
   ],
   "note": "Proved: a frozen block keeps its states, weights and generators through every program (C88_frozen_keeps, C88_dense, C88_avx2, C88_sparse, C88_conv, C88_avx2_conv, C88_neon), votes as before (C88_frozen_blocks_vote, C88_frozen_blocks_predict), exactly the recorded trainable blocks learn (C88_each_block_partial, C88_flags), any schedule (C88_any_schedule), and without frozen blocks the executor is the one of the other properties (C88_all_trainable). False: a block that was frozen when the executor was made does not learn after set_trainable(True) until another executor is made (C88_late_enabling_ignored, C88_enabled_block_does_not_learn)."
  },
  {
   "property": "C89",
   "status": "partial",
   "theorems": [
    "GT.C89_optimize_partial",
    "GT.C89_interrupted",
    "GT.C89_only_the_objective_raises",
    "GT.C89_best_covers",
    "GT.C89_best_is_highest",
    "GT.C89_continue",
    "GT.C89_in_memory",
    "GT.C89_direction_conflict",
    "GT.C89_values",
    "GT.C89_conflict_is_silent",
    "GT.C89_conflict_index_error"
   ],
   "note": "Proved from Optuna's documented contract: C89_optimize_partial, C89_best_covers, C89_best_is_highest, C89_interrupted, C89_only_the_objective_raises, C89_continue, C89_in_memory, C89_values. False when minimize_literal_budget differs from the stored study of that name: the old study is used, every trial fails silently (C89_direction_conflict, C89_conflict_is_silent) or IndexError is raised (C89_conflict_index_error)."
  },
  {
   "property": "C90",
   "status": "proved",
   "theorems": [
    "GT.C90_portable",
    "GT.C90_portable_conv",
    "GT.C90_avx2",
    "GT.C90_neon",
    "GT.C90_sparse",
    "GT.C90_feedback",
    "GT.C90_any_start",
    "GT.C90_avx2_any_start",
    "GT.C90_neon_any_start"
   ],
   "note": "C90_portable, C90_portable_conv, C90_avx2, C90_neon, C90_sparse: which draw makes which value and where the generators stand afterwards. C90_any_start, C90_avx2_any_start, C90_neon_any_start: every start is possible. C90_feedback: a new feedback block. Generators are arbitrary streams."
  },
  {
   "property": "C91",
   "status": "proved",
   "theorems": [
    "GT.C91_defaults",
    "GT.C91_rounding",
    "GT.C91_accepted_iff",
    "GT.C91_every_block",
    "GT.C91_no_trace",
    "GT.C91_every_training",
    "GT.C91_default_machine",
    "GT.C91_limits_hold"
   ],
   "note": "C91_defaults, C91_rounding (the root in double precision, whichever way it is rounded), C91_accepted_iff, C91_every_block, C91_every_training, C91_no_trace, C91_default_machine, C91_limits_hold. A threshold of 0 is accepted although the error message asks for a negative number; what it does to new literals is under C61."
  },
  {
   "property": "C92",
   "status": "partial",
   "theorems": [
    "GT.C92_initialize",
    "GT.C92_history_partial",
    "GT.C92_from_initialize_partial",
    "GT.C92_defined_iff",
    "GT.C92_no_literals",
    "GT.C92_weights_overflow",
    "GT.C92_allocations",
    "GT.C92_access"
   ],
   "note": "Proved with a literal budget, at least one literal, arrays of fewer than 2^31 bytes and labels that are classes (C92_initialize, C92_history_partial, C92_from_initialize_partial, C92_allocations). Without a budget exactly the histories that never train on an example are defined, because the literal counts are then a null pointer (C92_defined_iff). False for a machine without literals (C92_no_literals), and from 2^30 weights on, where the size of the array of weights is negative as an int and 32 bytes are allocated (C92_weights_overflow)."
  },
  {
   "property": "C93",
   "status": "partial",
   "theorems": [
    "GT.C93_dense_partial",
    "GT.C93_avx2_partial",
    "GT.C93_neon_partial",
    "GT.C93_conv_partial",
    "GT.C93_avx2_conv_partial",
    "GT.C93_sparse_partial",
    "GT.C93_threads_partial",
    "GT.C93_zero_is_drawn",
    "GT.C93_still_learns"
   ],
   "note": "Proved for the portable, AVX2, convolutional, AVX2-convolutional, sparse and (with a literal budget) NEON blocks, any shuffles and number of epochs, and for any thread schedule, as long as no draw deciding about an update is below 1e-16. False without that: the code adds 1e-16 to the probability of the negative class, and the generator of every seed draws 0 again and again (C93_zero_is_drawn), which changes a weight of a settled machine (C93_still_learns)."
  },
  {
   "property": "C94",
   "status": "partial",
   "theorems": [
    "GT.C94_contiguous_partial",
    "GT.C94_strided_row_partial",
    "GT.C94_strided_refused",
    "GT.C94_one_dimensional",
    "GT.C94_batch_first_row",
    "GT.C94_fraction_is_zero",
    "GT.C94_column_refused"
   ],
   "note": "Proved for contiguous arrays of any shape and element type (C94_contiguous_partial) and for strided uint8 and bool rows (C94_strided_row_partial); exactly which strided arrays are refused, without effect (C94_strided_refused); agrees with the model of C70 (C94_one_dimensional). Missing because the code does not do it: a matrix of examples is answered for its first row (C94_batch_first_row), fractions are cut off (C94_fraction_is_zero), strided columns and strided signed or floating-point examples are refused (C94_column_refused). Infinities and NaN are not modelled."
  },
  {
   "property": "C95",
   "status": "proved",
   "theorems": [
    "GT.C95_interrupted_export",
    "GT.C95_calls_of_a_left_export",
    "GT.C95_unknown_exporter",
    "GT.C95_interrupted_save",
    "GT.C95_complete_save",
    "GT.C95_old_state_is_lost"
   ],
   "note": "Exported programs at every character (C95_interrupted_export, C95_calls_of_a_left_export, C95_unknown_exporter) and state files at every piece of the archive (C95_interrupted_save, C95_complete_save); that the previous file is not kept is shown in C95_old_state_is_lost. Zip archives are modelled by their pieces, not their bytes; loss of power, which can reorder writes, is not modelled."
  },
  {
   "property": "C96",
   "status": "partial",
   "theorems": [
    "GT.C96_included_again_partial",
    "GT.C96_second_machine_is_left_out",
    "GT.C96_both_exporters_refused"
   ],
   "note": "Including a program again changes nothing (C96_included_again_partial). Missing because the code does not do it: all programs of an exporter share one include guard and one function name, so the second predictor's program is left out without an error (C96_second_machine_is_left_out), and programs of the two exporters together do not compile (C96_both_exporters_refused)."
  },
  {
   "property": "C97",
   "status": "partial",
   "theorems": [
    "GT.C97_dense",
    "GT.C97_history",
    "GT.C97_rewarded_clause_keeps_the_example",
    "GT.C97_rejections_are_bounded",
    "GT.C97_bound_is_tight",
    "GT.C97_avx2",
    "GT.C97_neon",
    "GT.C97_conv_partial",
    "GT.C97_sparse_partial",
    "GT.C97_sparse_rejected_without_matching"
   ],
   "note": "Holds for the portable, AVX2 and NEON backends (C97_dense, C97_history, C97_avx2, C97_neon), with the bound and its tightness (C97_rejections_are_bounded, C97_bound_is_tight). Missing because the code does not do it: sparse clauses fire on examples they do not match (C37) and are narrowed there (C97_sparse_rejected_without_matching), so C97_sparse_partial speaks about firing for one half; convolutional clauses are checked against a literal count of another example (C97_conv_partial has a budget that nothing exceeds, or none, for one half)."
  },
  {
   "property": "C98",
   "status": "partial",
   "theorems": [
    "GT.C98_backends_partial",
    "GT.C98_predictor_and_programs",
    "GT.C98_everywhere_partial",
    "GT.C98_small_weights_suffice"
   ],
   "note": "The whole chain in one theorem (C98_everywhere_partial, from C98_backends_partial and C98_predictor_and_programs) provided weights and votes fit in 16 bits, for which small weights suffice (C98_small_weights_suffice). Missing because the code does not do it: beyond 16 bits executor and predictor disagree (C24_disagree_on_overflow), and on NEON a machine with empty clauses answers differently depending on its blocks (C14_neon_split_matters). That the executor's blocks hold the clauses that are saved is a hypothesis (C70, C73 and C80 model the arrays)."
  },
  {
   "property": "C99",
   "status": "proved",
   "theorems": [
    "GT.C99_one_patch",
    "GT.C99_predictions",
    "GT.C99_avx2",
    "GT.C99_start"
   ],
   "note": "Portable: C99_one_patch (for every history there are number streams for the dense machine, thinned from the convolutional ones, that keep the machines equal after every call), C99_predictions (prediction needs no numbers), C99_start (same seed, same start). AVX2: C99_avx2, where the patch is chosen by a generator the dense block does not have, so no numbers are left out. With more than one patch there is no dense counterpart; see C41."
  }
 ]
}