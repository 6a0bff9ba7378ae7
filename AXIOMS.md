# Axioms of the theorems in MANIFEST.json

Written by `tools/axioms.py` from Lean's `#print axioms`.

## no axioms (10 theorems)

* `GT.C27_features_unavailable`
* `GT.C35_no_cleanup_on_exception`
* `GT.C39_not_square`
* `GT.C40_strides_ignored`
* `GT.C40_refused_data_changes_count`
* `GT.C40_refused_labels_mix_data_sets`
* `GT.C40_csr_width_unchecked`
* `GT.C40_stored_zero_is_one`
* `GT.C40_wide_indices_misread`
* `GT.C78_threads_raise`

## propext (41 theorems)

* `GT.C02_budget_list_type_error`
* `GT.C02_flags_never_settable`
* `GT.C103_turned_needs_negative`
* `GT.C103_two_at_once`
* `GT.C25_disagree_on_overflow`
* `GT.C25_empty_rule_does_not_compile`
* `GT.C26_equal_rules_lose_votes`
* `GT.C28_nothing_to_move`
* `GT.C34_other_errors`
* `GT.C37_literal_count`
* `GT.C37_one_sided_clause_never_fires`
* `GT.C40_new_is_empty`
* `GT.C40_refusal`
* `GT.C45_data_types_must_match`
* `GT.C45_two_sparse_machines_fail`
* `GT.C46_predict_name`
* `GT.C46_unknown_name`
* `GT.C46_explain_last`
* `GT.C47_budget`
* `GT.C47_prepare_partial`
* `GT.C54_rejected_unchanged_partial`
* `GT.C56_destructor_can_hang`
* `GT.C58_predict_multi_writes_nothing`
* `GT.C58_predictor_cannot_tell`
* `GT.C63_not_compiled_partial`
* `GT.C63_vendor_string_decides`
* `GT.C63_wrong_both_ways`
* `GT.C66_full_period`
* `GT.C70_strided_int_rejected`
* `GT.C71_empty_rule_is_not_c`
* `GT.C71_overflow_disagrees`
* `GT.C77_stale_label`
* `GT.C77_csr_column_in_padding`
* `GT.C78_multi_label_wrong_example`
* `GT.C78_later_slice_raises`
* `GT.C80_refused`
* `GT.C81_too_few_feature_lists_outside`
* `GT.C81_rules_replaced_outside`
* `GT.C86_start`
* `GT.C89_in_memory`
* `GT.C91_no_trace`

## propext, Classical.choice, Quot.sound (590 theorems)

* `GT.C03_constructor_partial`
* `GT.C04_states_stay_in_range`
* `GT.C04_fresh_block`
* `GT.C04_every_history_in_range`
* `GT.C05_eval_output`
* `GT.C05_block_eval_output`
* `GT.C06_train_output`
* `GT.C06_empty_clause_fires`
* `GT.C07_train_output`
* `GT.C07_eval_output`
* `GT.C07_block_outputs_and_votes`
* `GT.C07_padding_is_invisible`
* `GT.C08_avx2_same_as_portable`
* `GT.C08_type2_monotone`
* `GT.C08_type2_eventually_rejects`
* `GT.C08_neon_same_as_portable`
* `GT.C09_avx2_exact`
* `GT.C09_avx2_bounds`
* `GT.C09_avx2_boosts_negated_literals`
* `GT.C09_type1a`
* `GT.C09_type1a_exact`
* `GT.C09_neon_exact`
* `GT.C10_avx2_exact`
* `GT.C10_type1b`
* `GT.C10_type1b_exact`
* `GT.C10_neon_exact`
* `GT.C100_order`
* `GT.C100_complement_partial`
* `GT.C100_predictions`
* `GT.C100_start`
* `GT.C100_boost_breaks_complement`
* `GT.C100_avx2`
* `GT.C100_avx2_start`
* `GT.C100_neon_order`
* `GT.C100_neon_complement_partial`
* `GT.C100_neon_start`
* `GT.C100_neon_boost_breaks_complement`
* `GT.C101_numbers`
* `GT.C101_dense`
* `GT.C101_avx2`
* `GT.C101_neon`
* `GT.C101_conv`
* `GT.C101_sparse`
* `GT.C101_predictions_partial`
* `GT.C101_start`
* `GT.C101_ties_depend_on_numbers`
* `GT.C102_shuffles`
* `GT.C102_accuracy`
* `GT.C102_dense`
* `GT.C102_avx2`
* `GT.C102_sparse`
* `GT.C102_conv`
* `GT.C102_avx2_conv`
* `GT.C102_neon`
* `GT.C102_predictions`
* `GT.C102_same_shuffle_differs`
* `GT.C103_turned`
* `GT.C103_turned_away`
* `GT.C103_only_true_literals`
* `GT.C103_unmentioned`
* `GT.C103_support_kept`
* `GT.C104_portable`
* `GT.C104_avx2`
* `GT.C104_conv_partial`
* `GT.C104_avx2_conv_partial`
* `GT.C104_conv_large_budget_partial`
* `GT.C104_avx2_conv_large_budget_partial`
* `GT.C104_sparse_order_matters`
* `GT.C104_conv_budget_order_matters`
* `GT.C104_neon_order_matters`
* `GT.C104_start`
* `GT.C105_portable`
* `GT.C105_resumed`
* `GT.C105_avx2`
* `GT.C105_neon`
* `GT.C105_sparse_partial`
* `GT.C105_conv_partial`
* `GT.C105_avx2_conv_partial`
* `GT.C105_uninterrupted_differs`
* `GT.C105_sparse_index_matters`
* `GT.C105_conv_scratch_matters`
* `GT.C106_portable`
* `GT.C106_avx2`
* `GT.C106_neon`
* `GT.C106_sparse`
* `GT.C106_conv`
* `GT.C106_avx2_conv`
* `GT.C106_fresh_portable`
* `GT.C106_fresh_avx2`
* `GT.C106_fresh_sparse`
* `GT.C106_fresh_neon`
* `GT.C106_literals`
* `GT.C106_avx2_literals`
* `GT.C106_neon_literals`
* `GT.C106_conv_literals`
* `GT.C106_avx2_conv_literals`
* `GT.C106_sparse_literals`
* `GT.C106_sparse_new_literal`
* `GT.C106_same_conjunction`
* `GT.C106_votes_partial`
* `GT.C106_avx2_votes_partial`
* `GT.C106_overflow`
* `GT.C106_same_prediction`
* `GT.C106_avx2_same_prediction`
* `GT.C106_conv_same_prediction`
* `GT.C106_avx2_conv_same_prediction`
* `GT.C106_neon_same_prediction`
* `GT.C106_conv_votes_partial`
* `GT.C106_avx2_conv_votes_partial`
* `GT.C106_sparse_votes_partial`
* `GT.C11_avx2_over_budget_only_forgets`
* `GT.C11_over_budget_only_forgets`
* `GT.C11_history_only_drops`
* `GT.C11_neon_over_budget_only_forgets`
* `GT.C11_sparse_over_budget_only_forgets`
* `GT.C12_avx2_same_weights`
* `GT.C12_training_step`
* `GT.C12_weight_wraps_at_boundary`
* `GT.C12_neon_same_weights`
* `GT.C12_sparse_training_step`
* `GT.C13_votes_mod`
* `GT.C13_votes_exact`
* `GT.C13_sparse_votes`
* `GT.C14_conv_block_split_invariance`
* `GT.C14_conv_backend_invariance`
* `GT.C14_neon_block_split_invariance_partial`
* `GT.C14_block_split_invariance`
* `GT.C14_backend_invariance`
* `GT.C14_sparse_block_split_invariance`
* `GT.C15_conv_schedule_independent`
* `GT.C15_neon_schedule_independent`
* `GT.C15_neon_evaluation_schedule_independent`
* `GT.C15_training_schedule_independent`
* `GT.C15_evaluation_schedule_independent`
* `GT.C15_backends_qualify`
* `GT.C15_no_deadlock`
* `GT.C15_mutual_exclusion`
* `GT.C15_sparse_schedule_independent`
* `GT.C16_conv_every_block_learns`
* `GT.C16_avx2_conv_every_block_learns`
* `GT.C16_neon_every_block_learns`
* `GT.C16_epoch`
* `GT.C16_training_votes`
* `GT.C16_avx2_training_votes`
* `GT.C16_every_block_learns`
* `GT.C16_avx2_every_block_learns`
* `GT.C16_slices_compose`
* `GT.C16_sparse_every_block_learns`
* `GT.C17_conv_batch_predictions`
* `GT.C17_conv_after_training`
* `GT.C17_avx2_conv_batch_predictions`
* `GT.C17_neon_history_independent`
* `GT.C17_neon_votes_without_empty_clauses`
* `GT.C17_batch_predictions`
* `GT.C17_avx2_batch_predictions`
* `GT.C17_sparse_batch_predictions`
* `GT.C18_conv_eval_invisible`
* `GT.C18_avx2_conv_eval_invisible`
* `GT.C18_neon_eval_invisible`
* `GT.C18_eval_invisible_to_training`
* `GT.C18_avx2_eval_invisible_to_training`
* `GT.C18_sparse_eval_invisible`
* `GT.C19_positive_probability`
* `GT.C19_positive_antitone`
* `GT.C19_negative_probability`
* `GT.C19_negative_monotone`
* `GT.C19_uniform`
* `GT.C20_negative_class_valid`
* `GT.C20_every_other_class_reachable`
* `GT.C20_library_sampler`
* `GT.C20_uniform`
* `GT.C20_uniform_one_class_diverges`
* `GT.C20_one_class_degenerates`
* `GT.C21_process_uses_predict`
* `GT.C21_uniform_counts`
* `GT.C22_votes_mod`
* `GT.C22_votes_exact`
* `GT.C22_merge_overflow`
* `GT.C23_compiles`
* `GT.C23_well_formed`
* `GT.C23_rules_are_clauses`
* `GT.C24_predict`
* `GT.C24_agrees_with_executor`
* `GT.C24_agrees_with_avx2_executor`
* `GT.C24_disagree_on_overflow`
* `GT.C25_compiled_rules_exportable`
* `GT.C25_simple_c`
* `GT.C26_tree_c`
* `GT.C26_tree_c_predicts`
* `GT.C26_second_export_loses_rules`
* `GT.C27_literal_importance`
* `GT.C27_explain_all`
* `GT.C27_unused_literal`
* `GT.C28_snapshot`
* `GT.C28_snapshot_in_place`
* `GT.C28_restore`
* `GT.C28_round_trip`
* `GT.C28_state_predicts`
* `GT.C29_get`
* `GT.C29_set_then_get`
* `GT.C29_get_then_set`
* `GT.C30_logs`
* `GT.C30_best_partial`
* `GT.C31_neon_read_only`
* `GT.C31_sparse_read_only`
* `GT.C31_sparse_state_partial`
* `GT.C31_best_state_partial`
* `GT.C31_last_state`
* `GT.C31_portable_read_only`
* `GT.C32_fresh_state_partial`
* `GT.C32_old_state_returns`
* `GT.C33_folds_cover`
* `GT.C33_fold_logs_partial`
* `GT.C33_best_of_all_folds`
* `GT.C33_folds_leak`
* `GT.C34_train_accepts_iff`
* `GT.C34_eval_accepts_iff`
* `GT.C34_rejected_unchanged`
* `GT.C34_accepted_is_held`
* `GT.C34_copied_data_is_private`
* `GT.C35_allocation_partial`
* `GT.C35_exception_trace`
* `GT.C35_trainer_seeds`
* `GT.C36_every_history_partial`
* `GT.C36_total_can_exceed_clause_size`
* `GT.C37_train_exact`
* `GT.C37_train_same_as_dense_partial`
* `GT.C37_train_fires_when_dense_fires`
* `GT.C37_eval_exact`
* `GT.C37_eval_same_as_dense_partial`
* `GT.C37_missing_literal_not_noticed`
* `GT.C37_clause_without_included_literals_fires`
* `GT.C37_unsorted_row_misread`
* `GT.C37_block_train_partial`
* `GT.C37_machine_same_as_dense_partial`
* `GT.C38_every_history_partial`
* `GT.C38_literals_of_other_classes`
* `GT.C38_replace_position_in_range`
* `GT.C39_patch_partial`
* `GT.C39_position_code_injective`
* `GT.C39_every_pixel_partial`
* `GT.C40_padding_stays_zero`
* `GT.C40_sparse_dense_partial`
* `GT.C40_csr_refusal`
* `GT.C40_sparse_partial`
* `GT.C40_wide_indices_shown`
* `GT.C41_eval_output`
* `GT.C41_train_output`
* `GT.C41_every_patch_possible`
* `GT.C41_count_partial`
* `GT.C41_count_is_stale`
* `GT.C41_budget_not_enforced`
* `GT.C41_feedback_is_dense`
* `GT.C41_states_in_range`
* `GT.C41_needs_patches`
* `GT.C41_avx2_train`
* `GT.C41_avx2_eval`
* `GT.C42_train_clause`
* `GT.C42_train_with_budget_partial`
* `GT.C42_eval_partial`
* `GT.C42_eval_block_partial`
* `GT.C42_empty_clause_fires`
* `GT.C43_on_votes_partial`
* `GT.C43_off_votes_lost`
* `GT.C44_wait_returns_after_all_tasks`
* `GT.C44_no_task_twice`
* `GT.C44_queue_never_popped_empty`
* `GT.C44_no_lost_wakeup`
* `GT.C44_schedules_end`
* `GT.C44_owner_finishes`
* `GT.C45_inference_class`
* `GT.C46_explain_before_predict`
* `GT.C47_train_output`
* `GT.C47_eval_output_partial`
* `GT.C47_eval_is_strict`
* `GT.C47_zero_state_differs`
* `GT.C47_feedback`
* `GT.C47_update_partial`
* `GT.C47_weight_wraps`
* `GT.C47_states_in_range`
* `GT.C47_votes`
* `GT.C47_one_block_prediction_partial`
* `GT.C47_last_block_only`
* `GT.C47_process_partial`
* `GT.C47_two_blocks_differ`
* `GT.C47_accuracy_differs`
* `GT.C47_threads_do_not_train`
* `GT.C48_xor_dataset`
* `GT.C49_threshold_in_range`
* `GT.C49_threshold_antitone`
* `GT.C49_updating_bytes`
* `GT.C49_large_s_saturates`
* `GT.C50_loads_iff`
* `GT.C50_round_trip`
* `GT.C50_machines`
* `GT.C50_wrong_name`
* `GT.C50_clause_counts_differ`
* `GT.C50_failed_load_changes_nothing`
* `GT.C50_wrong_dtype_partial`
* `GT.C50_wrong_dtype_is_type_error`
* `GT.C50_sparse_file_partial`
* `GT.C51_trial_partial`
* `GT.C51_folds_partial`
* `GT.C51_not_the_best`
* `GT.C51_int_s_fails`
* `GT.C51_s_step_default`
* `GT.C51_unset_data`
* `GT.C51_classes_partial`
* `GT.C51_label_gap`
* `GT.C52_rules`
* `GT.C52_votes`
* `GT.C52_predictor_agrees_partial`
* `GT.C52_state_zero_disagrees`
* `GT.C52_one_sided_disagrees`
* `GT.C52_all_excluded_disagrees`
* `GT.C52_copy_changes_rules`
* `GT.C53_jobs_partial`
* `GT.C53_too_negative_is_not_rejected`
* `GT.C55_start_partial`
* `GT.C55_default_seed_fails`
* `GT.C55_default_seed_crashes_on_retrain`
* `GT.C55_negative_seed`
* `GT.C55_multi_label`
* `GT.C55_sparse_multi_label_unchecked`
* `GT.C56_destructor_partial`
* `GT.C57_targets`
* `GT.C57_every_pair`
* `GT.C57_terminates_iff`
* `GT.C57_one_label_diverges`
* `GT.C57_probabilities`
* `GT.C57_off_probability_constant`
* `GT.C57_accuracy_partial`
* `GT.C59_reward`
* `GT.C59_forget`
* `GT.C59_states_in_range`
* `GT.C60_literal_below_threshold_kept`
* `GT.C61_new_literal_excluded_partial`
* `GT.C61_threshold_near_zero`
* `GT.C61_very_low_threshold`
* `GT.C62_transfer_partial`
* `GT.C62_uneven_active_literals_fail`
* `GT.C62_uneven_reached`
* `GT.C62_more_blocks_fail`
* `GT.C62_other_split_mixes_rows`
* `GT.C62_too_few_rows_undefined`
* `GT.C62_too_few_weights_fail`
* `GT.C62_replace_index_lost`
* `GT.C65_refused_partial`
* `GT.C65_no_clause_ever_fires`
* `GT.C65_no_clause_ever_fires_avx2`
* `GT.C66_range_partial`
* `GT.C66_stream_is_calls`
* `GT.C66_seeds_distinct`
* `GT.C66_one_iff`
* `GT.C66_one_is_drawn`
* `GT.C66_certain_update_skipped`
* `GT.C67_neon_period_partial`
* `GT.C67_neon_whole_seed_partial`
* `GT.C67_neon_reaches`
* `GT.C67_avx2_stuck`
* `GT.C67_avx2_stuck_iff`
* `GT.C68_neon_twins_never_part`
* `GT.C68_avx2_bytes_differ_partial`
* `GT.C69_best_score_partial`
* `GT.C69_last_score`
* `GT.C69_avx2_best_score_partial`
* `GT.C69_avx2_last_score`
* `GT.C69_tree_program`
* `GT.C69_start`
* `GT.C69_overflow_not_reproduced`
* `GT.C69_neon_best_score_partial`
* `GT.C69_neon_last_score_partial`
* `GT.C69_neon_start`
* `GT.C69_neon_not_reproduced`
* `GT.C69_sparse_best_score_partial`
* `GT.C69_sparse_last_score_partial`
* `GT.C69_sparse_start`
* `GT.C69_sparse_not_reproduced`
* `GT.C70_layout_partial`
* `GT.C70_contiguous_int`
* `GT.C70_short_example_reads_beyond`
* `GT.C71_simple_text`
* `GT.C71_tree_text`
* `GT.C71_texts_agree`
* `GT.C71_unknown_exporter`
* `GT.C72_calls_defined_partial`
* `GT.C72_arrays_disjoint`
* `GT.C72_pointers_live`
* `GT.C72_cleanup_releases_partial`
* `GT.C72_run_leaks_partial`
* `GT.C72_runs_leak`
* `GT.C73_initialize`
* `GT.C73_from_initialize_partial`
* `GT.C73_initialize_defined_iff`
* `GT.C73_large_machine_undefined`
* `GT.C73_label_hits_next_clause`
* `GT.C73_access`
* `GT.C74_initialize`
* `GT.C74_history_partial`
* `GT.C74_from_initialize_partial`
* `GT.C74_strict_allocator`
* `GT.C74_safe_alloc`
* `GT.C74_access`
* `GT.C75_dense`
* `GT.C75_sparse`
* `GT.C75_avx2`
* `GT.C75_neon`
* `GT.C75_conv_partial`
* `GT.C75_conv_large_budget_partial`
* `GT.C75_conv_depends_on_garbage`
* `GT.C76_aligned_patches_partial`
* `GT.C76_training_faults`
* `GT.C76_evaluation_faults`
* `GT.C77_epoch_refines_partial`
* `GT.C78_same_refusals`
* `GT.C78_multi_label_raises`
* `GT.C79_same_as_one_thread`
* `GT.C79_training_and_prediction`
* `GT.C79_no_deadlock`
* `GT.C79_ends`
* `GT.C79_can_finish`
* `GT.C79_no_data_race`
* `GT.C79_owner_alone`
* `GT.C79_backends_qualify`
* `GT.C80_restore_partial`
* `GT.C80_collect_copy`
* `GT.C80_collect_in_place_partial`
* `GT.C80_collect_first`
* `GT.C80_round_trip`
* `GT.C80_load_file`
* `GT.C80_saved_state`
* `GT.C80_through_a_file`
* `GT.C80_save_refused`
* `GT.C80_restore_defined_iff`
* `GT.C80_smaller_file_reads_outside`
* `GT.C81_inside_partial`
* `GT.C81_independent_of_memory`
* `GT.C81_predict_defined_iff`
* `GT.C81_explain_defined_iff`
* `GT.C81_surplus_name_outside`
* `GT.C81_compiled_fits`
* `GT.C81_sparse_compiled_fits`
* `GT.C81_copied_state_outside`
* `GT.C82_initialize`
* `GT.C82_initialize_defined_iff`
* `GT.C82_history_partial`
* `GT.C82_from_initialize_partial`
* `GT.C82_update_defined_iff`
* `GT.C82_no_room_for_active_literals_throws`
* `GT.C82_reinitialize`
* `GT.C82_second_run_partial`
* `GT.C82_stale_active_literals`
* `GT.C82_set_state`
* `GT.C83_rounding`
* `GT.C83_positive`
* `GT.C83_positive_antitone`
* `GT.C83_positive_strict`
* `GT.C83_negative`
* `GT.C83_negative_monotone`
* `GT.C83_counts`
* `GT.C83_uniform`
* `GT.C83_in_range`
* `GT.C83_engine_draws`
* `GT.C83_negative_class_valid`
* `GT.C83_sampler_alone_selects_target`
* `GT.C83_counters`
* `GT.C83_accuracy_order`
* `GT.C83_counter_limit`
* `GT.C83_s_probabilities`
* `GT.C83_s_antitone`
* `GT.C83_threshold_byte`
* `GT.C83_threshold_byte_differs`
* `GT.C84_complete_folds`
* `GT.C84_all_or_nothing`
* `GT.C84_unchanged`
* `GT.C84_retry`
* `GT.C84_state_without_results`
* `GT.C84_save_partial`
* `GT.C84_save_keeps_unfinished`
* `GT.C84_save_undefined`
* `GT.C84_folds_state`
* `GT.C84_folds_arrays`
* `GT.C84_folds_examples_partial`
* `GT.C84_folds_complete`
* `GT.C84_labels_mixed`
* `GT.C84_folds_not_undone`
* `GT.C85_initialize`
* `GT.C85_history_partial`
* `GT.C85_from_initialize_partial`
* `GT.C85_initialize_defined_iff`
* `GT.C85_long_example_undefined`
* `GT.C85_label_out_of_range`
* `GT.C85_feedback_after_eval_outside`
* `GT.C86_history`
* `GT.C86_from_start`
* `GT.C86_train_output_partial`
* `GT.C86_train_output_square`
* `GT.C86_train_output_wrong`
* `GT.C86_eval_output_partial`
* `GT.C86_eval_output_wrong`
* `GT.C86_votes`
* `GT.C86_update`
* `GT.C86_budget_ignored`
* `GT.C86_more_classes_than_clauses_fail`
* `GT.C88_flags`
* `GT.C88_each_block_partial`
* `GT.C88_frozen_blocks_vote`
* `GT.C88_call_keeps`
* `GT.C88_frozen_keeps`
* `GT.C88_late_enabling_ignored`
* `GT.C88_all_trainable`
* `GT.C88_any_schedule`
* `GT.C88_dense`
* `GT.C88_avx2`
* `GT.C88_sparse`
* `GT.C88_conv`
* `GT.C88_avx2_conv`
* `GT.C88_neon`
* `GT.C88_enabled_block_does_not_learn`
* `GT.C89_optimize_partial`
* `GT.C89_only_the_objective_raises`
* `GT.C89_best_covers`
* `GT.C89_best_is_highest`
* `GT.C89_direction_conflict`
* `GT.C89_values`
* `GT.C89_conflict_is_silent`
* `GT.C90_portable`
* `GT.C90_portable_conv`
* `GT.C90_avx2`
* `GT.C90_neon`
* `GT.C90_sparse`
* `GT.C90_feedback`
* `GT.C90_any_start`
* `GT.C90_avx2_any_start`
* `GT.C90_neon_any_start`
* `GT.C91_defaults`
* `GT.C91_rounding`
* `GT.C91_accepted_iff`
* `GT.C91_every_block`
* `GT.C91_every_training`
* `GT.C91_default_machine`
* `GT.C91_limits_hold`
* `GT.C92_initialize`
* `GT.C92_history_partial`
* `GT.C92_from_initialize_partial`
* `GT.C92_defined_iff`
* `GT.C92_weights_overflow`
* `GT.C92_allocations`
* `GT.C92_access`
* `GT.C93_dense_partial`
* `GT.C93_avx2_partial`
* `GT.C93_neon_partial`
* `GT.C93_conv_partial`
* `GT.C93_avx2_conv_partial`
* `GT.C93_sparse_partial`
* `GT.C93_threads_partial`
* `GT.C93_zero_is_drawn`
* `GT.C93_still_learns`
* `GT.C94_contiguous_partial`
* `GT.C94_strided_row_partial`
* `GT.C94_strided_refused`
* `GT.C94_one_dimensional`
* `GT.C94_fraction_is_zero`
* `GT.C95_interrupted_export`
* `GT.C95_calls_of_a_left_export`
* `GT.C95_unknown_exporter`
* `GT.C95_interrupted_save`
* `GT.C95_complete_save`
* `GT.C95_old_state_is_lost`
* `GT.C96_included_again_partial`
* `GT.C96_second_machine_is_left_out`
* `GT.C96_both_exporters_refused`
* `GT.C97_dense`
* `GT.C97_history`
* `GT.C97_rewarded_clause_keeps_the_example`
* `GT.C97_rejections_are_bounded`
* `GT.C97_bound_is_tight`
* `GT.C97_avx2`
* `GT.C97_neon`
* `GT.C97_conv_partial`
* `GT.C97_sparse_partial`
* `GT.C97_sparse_rejected_without_matching`
* `GT.C98_backends_partial`
* `GT.C98_predictor_and_programs`
* `GT.C98_everywhere_partial`
* `GT.C98_small_weights_suffice`
* `GT.C99_one_patch`
* `GT.C99_predictions`
* `GT.C99_avx2`
* `GT.C99_start`

## propext, Quot.sound (121 theorems)

* `GT.C01_int_blocks`
* `GT.C01_int_errors`
* `GT.C01_list_blocks`
* `GT.C01_trainer_default`
* `GT.C02_blocks_partial`
* `GT.C02_no_budget`
* `GT.C02_budget_list_is_ignored`
* `GT.C03_budget_not_checked`
* `GT.C03_empty_s_accepted`
* `GT.C08_type2_exact`
* `GT.C08_bound_is_tight`
* `GT.C10_avx2_floor_is_lower`
* `GT.C103_cancelled_support`
* `GT.C106_bound_grows`
* `GT.C13_votes_length`
* `GT.C14_neon_split_matters`
* `GT.C18_eval_changes_nothing`
* `GT.C21_predict_lowest_max`
* `GT.C23_missing_weights`
* `GT.C28_allocations_fit`
* `GT.C28_shape_not_checked`
* `GT.C30_low_scores_not_reported`
* `GT.C30_no_epochs`
* `GT.C31_low_scores_no_state`
* `GT.C33_fold_samples`
* `GT.C33_independent_if_cold`
* `GT.C34_values_not_checked`
* `GT.C36_update_keeps_order`
* `GT.C38_static_list_only_grows`
* `GT.C38_offered_literal_enters`
* `GT.C39_sizes`
* `GT.C40_dense_partial`
* `GT.C40_copies_are_contiguous`
* `GT.C42_train_without_budget_crashes`
* `GT.C42_votes_differ`
* `GT.C43_tally_wrong`
* `GT.C45_dense_class`
* `GT.C45_sparse_class`
* `GT.C45_dense_machine_data`
* `GT.C45_single_sparse_partial`
* `GT.C45_fallback_sparse_partial`
* `GT.C45_conv_class_partial`
* `GT.C45_pure_python_constructs_nothing`
* `GT.C46_explain_name`
* `GT.C46_explain_all_with_names_raises`
* `GT.C47_predict`
* `GT.C47_prepare_multi`
* `GT.C48_too_few_literals`
* `GT.C48_accepted`
* `GT.C50_collected_state`
* `GT.C50_sparse_equal_blocks_file_unusable`
* `GT.C51_optimize`
* `GT.C54_rejected_calls_are_kept`
* `GT.C58_training_ends_process`
* `GT.C58_single_label_returns_partial`
* `GT.C58_prediction_exists`
* `GT.C59_reject`
* `GT.C59_reject_tracks_active`
* `GT.C59_no_feedback`
* `GT.C60_prune_partial`
* `GT.C64_single_label_partial`
* `GT.C64_multi_label_lost`
* `GT.C67_streams`
* `GT.C67_avx2_short_period`
* `GT.C67_avx2_half_of_seed_ignored`
* `GT.C67_neon_never_stuck_partial`
* `GT.C67_neon_injective`
* `GT.C68_neon_bytes_repeat`
* `GT.C72_initialize_result`
* `GT.C72_cleanup_leaks`
* `GT.C72_use_after_cleanup`
* `GT.C72_use_before_initialize`
* `GT.C72_initialize_twice`
* `GT.C72_refused_convolution`
* `GT.C73_history_partial`
* `GT.C73_label_out_of_range`
* `GT.C74_no_literals`
* `GT.C77_dense_partial`
* `GT.C77_csr_partial`
* `GT.C77_csr_dense_partial`
* `GT.C77_trainer_dense_partial`
* `GT.C77_trainer_csr_dense_partial`
* `GT.C77_trainer_csr_partial`
* `GT.C77_epoch_covers`
* `GT.C77_large_data_faults`
* `GT.C77_slice_past_end_faults`
* `GT.C77_stale_order_faults`
* `GT.C77_refused_data_faults`
* `GT.C77_no_labels_faults`
* `GT.C77_csr_column_outside_faults`
* `GT.C77_csr_new_buffer`
* `GT.C78_dense_partial`
* `GT.C78_csr_dense_partial`
* `GT.C78_csr_partial`
* `GT.C78_trainer_same_partial`
* `GT.C78_trainer_csr_same_partial`
* `GT.C78_csr_refusals`
* `GT.C78_csr_rows_refusals`
* `GT.C78_no_labels_raise`
* `GT.C80_other_type_not_collected`
* `GT.C80_conversion`
* `GT.C80_fortran_order_garbled`
* `GT.C80_other_machine_garbled`
* `GT.C81_creation`
* `GT.C81_empty_class`
* `GT.C82_get_state`
* `GT.C82_fewer_rows_outside`
* `GT.C84_complete_run`
* `GT.C87_own_copies`
* `GT.C87_objects_never_change`
* `GT.C87_others_untouched`
* `GT.C87_copies_are_apart`
* `GT.C87_writes_show`
* `GT.C87_refresh_shows`
* `GT.C88_frozen_blocks_predict`
* `GT.C89_interrupted`
* `GT.C89_continue`
* `GT.C89_conflict_index_error`
* `GT.C92_no_literals`
* `GT.C94_batch_first_row`
* `GT.C94_column_refused`
