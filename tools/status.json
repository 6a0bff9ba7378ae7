{
 "C01": [
  "proved",
  "Integer and list argument, all error branches, and the trainer's default split."
 ],
 "C02": [
  "partial",
  "s values and trainable flags are dealt cyclically; a list of literal budgets is ignored by the code (its first element applies to all / a type error), proved as C02_budget_list_is_ignored and C02_budget_list_type_error."
 ],
 "C03": [
  "partial",
  "Exact acceptance condition of the constructor; the literal budget given to the constructor is not validated (C03_budget_not_checked) and an empty s list is accepted (C03_empty_s_accepted)."
 ],
 "C04": [
  "proved",
  "Every call history from every in-range state, and from every fresh initialisation."
 ],
 "C05": [
  "proved",
  "Single clause and whole block."
 ],
 "C06": [
  "proved",
  ""
 ],
 "C08": [
  "proved",
  "127 repetitions suffice; the bound is shown tight."
 ],
 "C09": [
  "proved",
  "Portable and AVX2; the AVX2 backend also boosts negated literals (C09_avx2_boosts_negated_literals)."
 ],
 "C10": [
  "proved",
  "Portable and AVX2; the AVX2 floor is -128 instead of -127 (C10_avx2_floor_is_lower)."
 ],
 "C11": [
  "proved",
  "Step and history version."
 ],
 "C12": [
  "proved",
  "Exact weight change per step, including which draws cause it; the wrap at the 16-bit boundary is shown by a witness."
 ],
 "C13": [
  "proved",
  ""
 ],
 "C35": [
  "partial",
  "Seeds and normal exit proved; on an exception in the body no block is cleaned up (C35_no_cleanup_on_exception)."
 ],
 "C07": [
  "proved",
  "Single clause, whole block including votes, and invisibility of padding over whole histories. Zero literals is excluded (the C++ code reads out of bounds there)."
 ],
 "C49": [
  "proved",
  "Exact rational arithmetic; C83_threshold_byte and C83_s_probabilities are the counterparts in doubles."
 ],
 "C53": [
  "partial",
  "False for n_jobs < -n_cpus: C53_too_negative_is_not_rejected."
 ],
 "C54": [
  "partial",
  "False when the check comes after the assignment: C54_rejected_calls_are_kept."
 ],
 "C14": [
  "partial",
  "Any permutation of the clauses over any blocks, whole batches: portable, AVX2, sparse and convolutional executors, AVX2 against portable ones (dense and convolutional). NEON: false when a clause is empty (C14_neon_split_matters), proved otherwise (C14_neon_block_split_invariance_partial)."
 ],
 "C15": [
  "proved",
  "All interleavings of block tasks with the vote lock, training and evaluation, plus no deadlock, bounded length, mutual exclusion; portable, AVX2, sparse, convolutional and (with a literal budget; without one training crashes, C42) NEON backends qualify."
 ],
 "C16": [
  "proved",
  "Any index permutation; accuracy equals the fraction of pre-update lowest-max hits; slices compose."
 ],
 "C17": [
  "proved",
  "Portable, AVX2, sparse, convolutional and NEON executors, batches of any length, any history. For all but NEON the prediction is also characterised by the clauses that hold; on NEON this needs that no clause is empty (C17_neon_votes_without_empty_clauses, compare C42)."
 ],
 "C18": [
  "proved",
  "Learned state, streams, counters unchanged; evaluation is invisible to later training; wrong output length refused; portable, AVX2, sparse, convolutional and (with a literal budget) NEON executors."
 ],
 "C19": [
  "proved",
  "Exact probabilities for the multi-class and uniform feedback, with monotonicity; C83_positive to C83_uniform are the counterparts in doubles."
 ],
 "C20": [
  "proved",
  "Under the stated contract of the library sampler (proved for the libstdc++ algorithm, and in doubles with the libstdc++ engine in C83_negative_class_valid); one-class degenerate cases shown."
 ],
 "C21": [
  "proved",
  ""
 ],
 "C22": [
  "proved",
  "Exact when the merged weights fit in 16 bits, always modulo 2^16; the condition is shown necessary."
 ],
 "C23": [
  "proved",
  "Also: rules are exactly the literal sets of the non-empty clauses with non-zero weights."
 ],
 "C24": [
  "proved",
  "Portable and AVX2 executors, any call history; disagreement outside 16 bits is exhibited."
 ],
 "C27": [
  "proved",
  "Explanation modes 'features' and 'both' cannot be constructed (C27_features_unavailable)."
 ],
 "C46": [
  "proved",
  "explain('all') with names raises (C46_explain_all_with_names_raises); explain() before predict raises."
 ],
 "C25": [
  "proved",
  "Outside 16 bits the program and the predictor disagree (C25_disagree_on_overflow)."
 ],
 "C26": [
  "proved",
  "For one export per writer object; a second export by the same object loses rules (C26_second_export_loses_rules)."
 ],
 "C28": [
  "proved",
  "Portable and padded layouts, snapshot, in-place snapshot, restore, round trip. The shape of a loaded state is not checked by the code (C28_shape_not_checked)."
 ],
 "C30": [
  "partial",
  "Logs, number of epochs and early exit proved in full; the best score and epoch for runs with a score above -1, false otherwise (C30_low_scores_not_reported)."
 ],
 "C31": [
  "partial",
  "Proved for runs with a score above -1 and without load_best_state; otherwise the machine gets no state or a stale one (C31_low_scores_no_state). Also stated for the sparse machine and its SparseState (C31_sparse_state_partial). Evaluation leaves the kept state alone on NEON too (C31_neon_read_only)."
 ],
 "C32": [
  "partial",
  "Proved for runs with a score above -1 or without load_best_state; false otherwise (C32_old_state_returns)."
 ],
 "C33": [
  "partial",
  "Disjointness and coverage proved from the contract of StratifiedKFold; the folds are not independent (C33_folds_leak)."
 ],
 "C34": [
  "proved",
  "Exact acceptance condition, atomicity, and privacy of copies. Rejections are not always ValueError and values are not checked (C34_other_errors, C34_values_not_checked)."
 ],
 "C50": [
  "partial",
  "Dense state files. Wrong dtypes are rejected, but with TypeError (C50_wrong_dtype_is_type_error). Sparse files: a state whose blocks all have the same number of clauses (always so with one job) cannot be used after loading (C50_sparse_equal_blocks_file_unusable); otherwise the loaded state behaves as the saved one."
 ],
 "C39": [
  "partial",
  "Proved for square images of any size, any window that fits and any channel count; for other images the code reads the wrong pixels (C39_not_square)."
 ],
 "C40": [
  "partial",
  "Proved for C-contiguous dense arrays and canonical 0/1 CSR matrices with 32-bit indices; false for strided arrays (C40_strides_ignored), stored zeros (C40_stored_zero_is_one) and 64-bit indices (C40_wide_indices_misread)."
 ],
 "C41": [
  "partial",
  "Outputs, choice of the patch and feedback proved for all blocks, patch counts, examples and draws, and the AVX2 block shown equal. The literal count is proved only for clauses that hold in every patch; in general it is stale (C41_count_is_stale) and the budget is not kept (C41_budget_not_enforced)."
 ],
 "C44": [
  "proved",
  "For every number of threads, call sequence without pool destruction, and interleaving with spurious wake-ups. The counter is an integer instead of a 64-bit word."
 ],
 "C56": [
  "partial",
  "False for the code: the flag is cleared and the notification sent without the mutex, so a worker about to block misses it (C56_destructor_can_hang). Proved when no worker is in that window (C56_destructor_partial)."
 ],
 "C55": [
  "partial",
  "For every ready trainer: starts with the promised seeds exactly when 1 <= seed and the seeds fit the backend's types (C55_start_partial); the default seed 0 raises RuntimeError, or writes unallocated memory when the machine already has a state; negative seeds raise TypeError. Multi-label: label count checked for dense data, not checked for csr data on the sparse backend."
 ],
 "C43": [
  "partial",
  "False for the code: OFF outputs get no votes (C43_off_votes_lost, C43_tally_wrong). Proved for ON outputs."
 ],
 "C57": [
  "partial",
  "Targets, reachability, termination and probability formulas proved for the recorded votes. False for the blocks' votes: OFF outputs are pushed with probability 1/2 always (C57_off_probability_constant), accuracy ignores OFF votes, and with one label the choice never ends."
 ],
 "C58": [
  "partial",
  "False for the code: the first evaluation ends the process (C58_training_ends_process), the feedback block's prediction is dropped, and the predictor answers with a single output number."
 ],
 "C42": [
  "partial",
  "False for the code: an empty clause after a firing one fires (C42_empty_clause_fires, C42_votes_differ) and training without a budget crashes (C42_train_without_budget_crashes). Proved: training with a budget, and evaluation of every clause that includes a literal or follows only empty clauses. The NEON feedback is covered by C08_neon_*, C09_neon_*, C10_neon_*, C11_neon_*, C12_neon_*."
 ],
 "C36": [
  "partial",
  "False as stated: the bound clause_size holds for each half separately, so a clause can hold twice as many (C36_total_can_exceed_clause_size). Proved for every history: both halves strictly increasing, without duplicates, within clause_size each, literals in range, states paired with literals."
 ],
 "C37": [
  "partial",
  "False in general: evaluation misses an included literal larger than every literal of the example, a clause with literals on one side only never fires, a clause without included literals fires, an unsorted example row is misread (counterexample theorems). Proved: exactly what training and evaluation outputs are for all sorted inputs, and when they agree with the dense clause."
 ],
 "C38": [
  "partial",
  "False as stated: the list of a class also takes literals from examples of other classes (C38_literals_of_other_classes). Proved for every history: bound, no duplicates, every literal was in a trained example in which the class was the trained or the opposed one."
 ],
 "C59": [
  "proved",
  ""
 ],
 "C60": [
  "partial",
  "False as stated: the literal directly after a removed one is skipped (C60_literal_below_threshold_kept)."
 ],
 "C61": [
  "partial",
  "Holds for thresholds between -133 and -6 (default -40); false for accepted thresholds outside (C61_threshold_near_zero, C61_very_low_threshold)."
 ],
 "C29": [
  "proved",
  ""
 ],
 "C52": [
  "partial",
  "False in general: a state of exactly 0 is included by the backend but not by the rule, one-sided clauses have rules but never fire, clauses with only excluded literals fire but have no rule, and a copied state compiles with another number of literals (counterexample theorems, reached by training). Proved: exactly which rules are compiled and how they vote, for all states; agreement with the executor under the stated conditions."
 ],
 "C62": [
  "partial",
  "False in general: active-literal lists of different lengths give a TypeError half way (C62_uneven_active_literals_fail, reached by one training step), another number of blocks fails or reads out of bounds, the replace index is lost. Proved: with the same split and even lists everything is restored."
 ],
 "C45": [
  "partial",
  "Proved for all histories of a process: the classes dense and sparse machines construct, the input blocks of dense machines, the inference flags. False: a second sparse machine is not recognised as sparse after another one was trained (TypeError); convolutional machines cannot be constructed without AVX2; without the C++ module no machine can be constructed."
 ],
 "C63": [
  "partial",
  "False: the vendor string is tested instead of the feature bit (C63_vendor_string_decides, C63_wrong_both_ways). Proved: never selected when not compiled in."
 ],
 "C64": [
  "partial",
  "False: multi_label is passed as boost_true_positives (C64_multi_label_lost). Proved for multi_label=False."
 ],
 "C65": [
  "partial",
  "False: nothing sets the number of patches, initialize refuses it and the refusal is ignored; no clause ever fires (C65_no_clause_ever_fires). For blocks whose number of patches is set see C41."
 ],
 "C66": [
  "partial",
  "Every draw is in [0,1] and the generator visits all 2^64 states; exactly 1 is drawn from every seed, and then an update with probability 1 is skipped (negation proved)."
 ],
 "C67": [
  "partial",
  "AVX2: the first half of the seed is ignored, the stream repeats after 51166430 calls and some seeds give only zeros (negations proved, with the exact set of stuck states). NEON: proved in full: never zero, one-to-one, period exactly 2^128 - 1 for every seed, and every state other than zero is reached (C67_neon_period_partial, C67_neon_reaches), and different seeds give different draws (C67_neon_whole_seed_partial)."
 ],
 "C68": [
  "partial",
  "NEON: bytes 8-15 repeat bytes 0-7 in every draw, so equal features eight apart never part (negation proved for all histories). AVX2: a seed with 32 different bytes in one draw is exhibited."
 ],
 "C48": [
  "proved",
  "For every generator that meets numpy's documentation, every size, seed and noise."
 ],
 "C51": [
  "partial",
  "Parameters lie in the ranges given and the sampled budget is returned. The score is the last epoch's (of the last fold), not the best one as documented (C51_not_the_best); fixed int s fails, s is searched in steps of 0.1 not 1, unset data give AttributeError, label gaps give too few classes."
 ],
 "C47": [
  "partial",
  "Training outputs, feedback, votes and (single block, no zero state) predictions equal the C++ ones. Evaluation leaves out states equal to 0, only the last block's votes count, weights wrap at 8 bits, low votes are scored as class 0, several threads do not train, multi-label rows are mis-subscripted: each shown by a theorem. The pure-Python sparse state is C86; it has no convolution."
 ],
 "C69": [
  "partial",
  "Proved for the portable and the AVX2 backend, for both programs, when some score exceeds -1 and all weight sums fit 16 bits; without the latter it is false (C69_overflow_not_reproduced), without the former no state is kept (C31). For the sparse machine it is proved for states whose clauses backend and rules agree about (the conditions of C37/C52) and false otherwise (C69_sparse_not_reproduced). On NEON it is proved when no clause of the kept state is empty and false otherwise (C69_neon_not_reproduced)."
 ],
 "C70": [
  "partial",
  "Proved for uint8 and bool arrays of the right length and any layout, and for contiguous signed arrays. False for strided signed arrays (TypeError, C70_strided_int_rejected) and for contiguous arrays that are too short (memory behind them is read, C70_short_example_reads_beyond). Floating-point and multi-dimensional arrays are the subject of C94."
 ],
 "C71": [
  "proved",
  "Proved for the text itself, read by a definition of the C subset used (Verif/Spec/CLang.lean), for rules that are not empty and examples whose votes fit in 16 bits. False beyond 16 bits (C71_overflow_disagrees) and for an empty rule, which training never produces (C71_empty_rule_is_not_c)."
 ],
 "C72": [
  "partial",
  "Safety is proved for every history (C72_calls_defined_partial, C72_arrays_disjoint, C72_pointers_live). Release is false: no clean-up releases the clause outputs, exactly one array per block and run stays (C72_run_leaks_partial, C72_runs_leak, C72_cleanup_leaks). Use after clean-up (reached by save_state when no state was stored) is undefined (C72_use_after_cleanup). Array sizes are the subject of other properties."
 ],
 "C73": [
  "partial",
  "Proved for arrays of fewer than 2^31 elements and labels that are classes (C73_initialize, C73_history_partial, C73_from_initialize_partial), with the exact bound (C73_initialize_defined_iff). False for larger machines (C73_large_machine_undefined) and for labels that are not classes, which are not refused (C73_label_out_of_range, C73_label_hits_next_clause)."
 ],
 "C74": [
  "partial",
  "Proved for at least one literal and one clause, arrays of fewer than 2^31 elements, and labels that are classes (C74_initialize, C74_history_partial, C74_from_initialize_partial, C74_safe_alloc). False for a machine without literals, which is not refused (C74_no_literals); an allocator that enforces C11's rule for aligned_alloc refuses most machines (C74_strict_allocator)."
 ],
 "C75": [
  "partial",
  "Proved for the portable, AVX2, NEON and sparse backends (C75_dense, C75_avx2, C75_neon, C75_sparse) and for portable convolutional blocks with a single patch or without a budget (C75_conv_partial) or with a budget nothing exceeds, such as 2^32-1 (C75_conv_large_budget_partial). False for a convolutional block with several patches and its default budget of 65535: it reads the literal count at the wrong index and may find uninitialised memory (C75_conv_depends_on_garbage)."
 ],
 "C76": [
  "partial",
  "Proved for a single patch and for patches whose number of literals is a multiple of 32 (C76_aligned_patches_partial). False for all other shapes: a training step always faults (C76_training_faults), an evaluation faults unless every clause holds in the first patch (C76_evaluation_faults)."
 ],
 "C77": [
  "partial",
  "Proved for every sensible history from construction, for all three input blocks, with refused data sets in between as long as they are not used, and for Trainer's own sequence of calls with any number of epochs. 'Sensible' is needed: data sets of 2^31 bytes or more overflow (C77_large_data_faults), slices past the end (C77_slice_past_end_faults) or continued after smaller data (C77_stale_order_faults), a refused data set followed by training (C77_refused_data_faults), data without labels (C77_no_labels_faults, C77_stale_label) and CSR columns beyond the literals (C77_csr_column_outside_faults, C77_csr_column_in_padding) all go wrong. Arrays are C-contiguous and stay alive; other layouts are in C40."
 ],
 "C78": [
  "partial",
  "Proved for one thread, single-label dense data and CSR data with any number of labels, for whole epochs and slices from the start (C78_dense_partial, C78_csr_dense_partial, C78_csr_partial), and that the trainer's calls use the same examples in both implementations (C78_trainer_same_partial, C78_trainer_csr_same_partial). False otherwise: several labels per example (C78_multi_label_raises), data without labels (C78_no_labels_raise), later slices (C78_later_slice_raises) and several threads (C78_threads_raise) raise."
 ],
 "C79": [
  "proved",
  "For the single-label executor on every backend (NEON with a literal budget). Steps are sequentially consistent; the private part of a task is one step. A spurious wake-up is allowed anywhere; the number of steps is bounded explicitly (C79_ends)."
 ],
 "C80": [
  "partial",
  "Proved for arrays of the machine's dimensions that are C-contiguous with the expected types, or of another type without transposed strides and with values in range (C80_restore_partial), for collecting (C80_collect_copy, C80_collect_first, C80_collect_in_place_partial), across machines (C80_round_trip), through a file (C80_load_file, C80_saved_state, C80_through_a_file, C80_save_refused), with the exact condition for staying inside the arrays (C80_restore_defined_iff) and the refusals (C80_refused). False otherwise: Fortran order (C80_fortran_order_garbled), the state of another machine (C80_other_machine_garbled), a file with fewer clauses (C80_smaller_file_reads_outside), collecting into other element types (C80_other_type_not_collected)."
 ],
 "C81": [
  "partial",
  "Proved for every history of calls with long enough examples, existing classes and no more names than classes (C81_inside_partial, C81_creation, C81_independent_of_memory), for rule sets of at most 65535 clauses from dense and sparse states (C81_compiled_fits, C81_sparse_compiled_fits), with the exact conditions (C81_predict_defined_iff, C81_explain_defined_iff). The refusals do not exist: short examples, unknown classes (the same iff theorems), surplus names (C81_surplus_name_outside), rules from a copied sparse state (C81_copied_state_outside), and in the C++ object too few feature lists and replaced rules (C81_too_few_feature_lists_outside, C81_rules_replaced_outside)."
 ],
 "C82": [
  "partial",
  "Proved for all sizes whose row numbers and weight positions are ints (C82_initialize_defined_iff), active-literal lists with room if they are replaced dynamically, and labels that are classes: C82_initialize, C82_history_partial, C82_from_initialize_partial, C82_second_run_partial, C82_get_state, C82_set_state. Missing because the code does not do it: labels that are no classes are not refused (C82_update_defined_iff), a block with no room for active literals throws while training (C82_no_room_for_active_literals_throws), a state with too few rows is accepted and read outside (C82_fewer_rows_outside), and active literals survive the cleanup (C82_reinitialize, C82_stale_active_literals)."
 ],
 "C83": [
  "proved",
  "Every operation is rounded to the nearest 53-bit number, ties to even (C83_rounding says that is what the model's function does); that no exponent leaves the normal range is proved. std::discrete_distribution, generate_canonical and minstd_rand0 as in libstdc++. C83_sampler_alone_selects_target, C83_counter_limit and C83_threshold_byte_differs show where rounding does matter."
 ],
 "C84": [
  "partial",
  "Proved for a single run: C84_all_or_nothing, C84_unchanged, C84_retry (any number of attempts), C84_save_partial; uninterrupted runs agree with the models of C30 to C33 (C84_complete_run, C84_complete_folds). For cross-validation: C84_folds_state, C84_folds_arrays, C84_folds_examples_partial, C84_folds_complete. Missing because the code does not do it: state and results are assigned apart (C84_state_without_results), save_state of a machine without a state takes the partly trained state of the blocks and keeps it (C84_save_keeps_unfinished) or reads blocks without arrays (C84_save_undefined), cross-validation is not undone (C84_folds_not_undone) and an exception between two assignments mixes labels (C84_labels_mixed)."
 ],
 "C85": [
  "partial",
  "Proved for arrays and examples of fewer than 2^31 elements and labels that are classes (C85_initialize, C85_history_partial, C85_from_initialize_partial), with the exact bound of initialize (C85_initialize_defined_iff). False for larger examples, which initialize accepts (C85_long_example_undefined), and for labels that are not classes (C85_label_out_of_range). Feedback without setting the outputs first reads outside the example (C85_feedback_after_eval_outside); the executor always sets them first."
 ],
 "C86": [
  "partial",
  "Consistency, success of every history and where literals come from (C86_history, C86_from_start), the effect of an update on every literal, weight and active list (C86_update) and votes are proved. The outputs are as stated with as many clauses as classes (C86_train_output_square) and described exactly otherwise (C86_train_output_partial, C86_eval_output_partial); after proper histories they are wrong (C86_train_output_wrong, C86_eval_output_wrong). The budget has no effect (C86_budget_ignored), and with more classes than clauses every call fails (C86_more_classes_than_clauses_fail). An exception inside an update is not followed further."
 ],
 "C87": [
  "proved",
  "C87_own_copies refines the program on references to one in which states are values (C84's training run); C87_objects_never_change, C87_others_untouched, C87_copies_are_apart. The limits the documentation names are shown: writing into a loaded state shows in every machine that has it (C87_writes_show), and so does the private in-place collection (C87_refresh_shows). Dense machines; array shapes and file formats are C50 and C80."
 ],
 "C88": [
  "partial",
  "Proved: a frozen block keeps its states, weights and generators through every program (C88_frozen_keeps, C88_dense, C88_avx2, C88_sparse, C88_conv, C88_avx2_conv, C88_neon), votes as before (C88_frozen_blocks_vote, C88_frozen_blocks_predict), exactly the recorded trainable blocks learn (C88_each_block_partial, C88_flags), any schedule (C88_any_schedule), and without frozen blocks the executor is the one of the other properties (C88_all_trainable). False: a block that was frozen when the executor was made does not learn after set_trainable(True) until another executor is made (C88_late_enabling_ignored, C88_enabled_block_does_not_learn)."
 ],
 "C89": [
  "partial",
  "Proved from Optuna's documented contract: C89_optimize_partial, C89_best_covers, C89_best_is_highest, C89_interrupted, C89_only_the_objective_raises, C89_continue, C89_in_memory, C89_values. False when minimize_literal_budget differs from the stored study of that name: the old study is used, every trial fails silently (C89_direction_conflict, C89_conflict_is_silent) or IndexError is raised (C89_conflict_index_error)."
 ],
 "C90": [
  "proved",
  "C90_portable, C90_portable_conv, C90_avx2, C90_neon, C90_sparse: which draw makes which value and where the generators stand afterwards. C90_any_start, C90_avx2_any_start, C90_neon_any_start: every start is possible. C90_feedback: a new feedback block. Generators are arbitrary streams."
 ],
 "C91": [
  "proved",
  "C91_defaults, C91_rounding (the root in double precision, whichever way it is rounded), C91_accepted_iff, C91_every_block, C91_every_training, C91_no_trace, C91_default_machine, C91_limits_hold. A threshold of 0 is accepted although the error message asks for a negative number; what it does to new literals is under C61."
 ],
 "C92": [
  "partial",
  "Proved with a literal budget, at least one literal, arrays of fewer than 2^31 bytes and labels that are classes (C92_initialize, C92_history_partial, C92_from_initialize_partial, C92_allocations). Without a budget exactly the histories that never train on an example are defined, because the literal counts are then a null pointer (C92_defined_iff). False for a machine without literals (C92_no_literals), and from 2^30 weights on, where the size of the array of weights is negative as an int and 32 bytes are allocated (C92_weights_overflow)."
 ],
 "C93": [
  "partial",
  "Proved for the portable, AVX2, convolutional, AVX2-convolutional, sparse and (with a literal budget) NEON blocks, any shuffles and number of epochs, and for any thread schedule, as long as no draw deciding about an update is below 1e-16. False without that: the code adds 1e-16 to the probability of the negative class, and the generator of every seed draws 0 again and again (C93_zero_is_drawn), which changes a weight of a settled machine (C93_still_learns)."
 ],
 "C94": [
  "partial",
  "Proved for contiguous arrays of any shape and element type (C94_contiguous_partial) and for strided uint8 and bool rows (C94_strided_row_partial); exactly which strided arrays are refused, without effect (C94_strided_refused); agrees with the model of C70 (C94_one_dimensional). Missing because the code does not do it: a matrix of examples is answered for its first row (C94_batch_first_row), fractions are cut off (C94_fraction_is_zero), strided columns and strided signed or floating-point examples are refused (C94_column_refused). Infinities and NaN are not modelled."
 ],
 "C95": [
  "proved",
  "Exported programs at every character (C95_interrupted_export, C95_calls_of_a_left_export, C95_unknown_exporter) and state files at every piece of the archive (C95_interrupted_save, C95_complete_save); that the previous file is not kept is shown in C95_old_state_is_lost. Zip archives are modelled by their pieces, not their bytes; loss of power, which can reorder writes, is not modelled."
 ],
 "C96": [
  "partial",
  "Including a program again changes nothing (C96_included_again_partial). Missing because the code does not do it: all programs of an exporter share one include guard and one function name, so the second predictor's program is left out without an error (C96_second_machine_is_left_out), and programs of the two exporters together do not compile (C96_both_exporters_refused)."
 ],
 "C97": [
  "partial",
  "Holds for the portable, AVX2 and NEON backends (C97_dense, C97_history, C97_avx2, C97_neon), with the bound and its tightness (C97_rejections_are_bounded, C97_bound_is_tight). Missing because the code does not do it: sparse clauses fire on examples they do not match (C37) and are narrowed there (C97_sparse_rejected_without_matching), so C97_sparse_partial speaks about firing for one half; convolutional clauses are checked against a literal count of another example (C97_conv_partial has a budget that nothing exceeds, or none, for one half)."
 ],
 "C98": [
  "partial",
  "The whole chain in one theorem (C98_everywhere_partial, from C98_backends_partial and C98_predictor_and_programs) provided weights and votes fit in 16 bits, for which small weights suffice (C98_small_weights_suffice). Missing because the code does not do it: beyond 16 bits executor and predictor disagree (C24_disagree_on_overflow), and on NEON a machine with empty clauses answers differently depending on its blocks (C14_neon_split_matters). That the executor's blocks hold the clauses that are saved is a hypothesis (C70, C73 and C80 model the arrays)."
 ],
 "C99": [
  "proved",
  "Portable: C99_one_patch (for every history there are number streams for the dense machine, thinned from the convolutional ones, that keep the machines equal after every call), C99_predictions (prediction needs no numbers), C99_start (same seed, same start). AVX2: C99_avx2, where the patch is chosen by a generator the dense block does not have, so no numbers are left out. With more than one patch there is no dense counterpart; see C41."
 ],
 "C100": [
  "partial",
  "Portable dense backend: for every order of the columns, boosted or not (C100_order), for opposites without boosting (C100_complement_partial), predictions for every recoding (C100_predictions), and the start (C100_start). AVX2 backend: for every order and all opposites, boosted or not (C100_avx2), and the start (C100_avx2_start). NEON backend: for every order (C100_neon_order), opposites without boosting (C100_neon_complement_partial), and the start (C100_neon_start). The random numbers of the literals are the same ones in another order; on AVX2 and NEON which order does not even depend on the history. Missing because the code does not do it: with boosting, the portable and NEON backends boost positive literals and not negated ones, so opposites matter (C100_boost_breaks_complement, C100_neon_boost_breaks_complement)."
 ],
 "C101": [
  "partial",
  "Clauses, votes and active literals agree class for class at all times, in five backends (C101_dense, C101_avx2, C101_neon, C101_conv, C101_sparse). The second machine draws, for each negative class, the number of the first moved into the interval of the same class; C101_numbers shows that this keeps all chances. C101_start: the renumbered block is as likely a start. Predictions agree whenever one class has most votes (C101_predictions_partial). Missing because the code does not do it: ties go to the lowest number, so there the prediction depends on the numbering (C101_ties_depend_on_numbers)."
 ],
 "C102": [
  "proved",
  "C102_dense, C102_avx2, C102_sparse, C102_conv, C102_avx2_conv, C102_neon (with a budget, without one it crashes, C42): results and states of a whole training run are equal. C102_shuffles: the shuffles correspond one to one. C102_accuracy: the default score qualifies. C102_predictions: predictions follow the rows. C102_same_shuffle_differs: with the same seed, and so the same shuffle, the results do differ, which is why the statement goes by visiting order. How StratifiedKFold splits rearranged rows is outside the model."
 ],
 "C103": [
  "proved",
  "C103_turned: exact difference of votes for one feature turned round, in the code's 32 bit arithmetic. C103_turned_away: if no rule asks for the other value, the explanation alone tells the new votes. C103_only_true_literals, C103_unmentioned. C103_support_kept: with negative clauses excluded (weights of a class adding up within 32 bits). C103_cancelled_support, C103_turned_needs_negative, C103_two_at_once: why exclusion is needed for the one and harmful for the other, and why two features at once are not covered. Class names are not set (C46)."
 ],
 "C104": [
  "partial",
  "C104_portable, C104_avx2: proved for the dense blocks. C104_start: the reordered block is as likely a start (portable). C104_conv_large_budget_partial, C104_avx2_conv_large_budget_partial: convolutional blocks with a literal budget that nothing exceeds (C104_conv_partial, C104_avx2_conv_partial: built without one). Missing because the code violates it: C104_conv_budget_order_matters (literal counts shared by the clauses), C104_sparse_order_matters (active literals shared by the clauses), C104_neon_order_matters (empty clauses fire depending on the clauses before them). NEON training by itself is not stated."
 ],
 "C105": [
  "partial",
  "C105_portable, C105_resumed, C105_avx2 and C105_neon: proved for the dense blocks. C105_sparse_partial: sparse blocks with the same replace indices. C105_conv_partial: portable convolutional blocks with one patch or with a budget nothing exceeds. Missing because the code violates it: C105_sparse_index_matters (the index of the active literal to be replaced next is not saved), C105_conv_scratch_matters (counts left in the scratch memory). C105_uninterrupted_differs: the generators are not part of the state, so saving and going on with the same seed is not uninterrupted training. C105_avx2_conv_partial: AVX2 convolutional blocks with one patch or without a budget."
 ],
 "C106": [
  "partial",
  "C106_portable, C106_avx2, C106_neon, C106_sparse, C106_conv, C106_avx2_conv: no weight moves by more than the number of examples, all six kinds of blocks. C106_fresh_*: fresh weights are 1 and -1. C106_literals, C106_avx2_literals, C106_neon_literals, C106_conv_literals, C106_avx2_conv_literals: states of literals move by at most two per example; C106_sparse_literals, C106_sparse_new_literal: the same for sparse blocks, which drop and take up literals, on examples without repeated literals; C106_same_conjunction: settled clauses say the same afterwards; C106_same_prediction, C106_avx2_same_prediction, C106_conv_same_prediction, C106_avx2_conv_same_prediction, C106_neon_same_prediction: a settled machine keeps a clear prediction through short training. C106_votes_partial, C106_avx2_votes_partial, C106_conv_votes_partial, C106_avx2_conv_votes_partial, C106_sparse_votes_partial: predictions by the true sums within the horizon. Missing because the code violates it: C106_overflow (a fresh machine shown only label 0 predicts class 1 after 32767 examples, the weight having wrapped)."
 ]
}