# Axioms of the claimed theorems

Generated by `tools/gen_axioms.py` from `#print axioms`.

## C01

* `C01_set_then_get_partial`: propext, Quot.sound
* `C01_get_reads_member_partial`: propext
* `C01_set_reaches_member_partial`: propext, Quot.sound
* `C01_labels_distinct`: none
* `C01_type_members_unreadable_violated`: propext, Quot.sound
* `C01_counters_unsettable_violated`: propext, Quot.sound

## C02

* `C02_rejected_write_changes_nothing`: propext
* `C02_unknown_label_rejected`: propext
* `C02_too_large_int_rejected`: propext, Quot.sound
* `C02_accepted_write_exact_partial`: propext, Classical.choice, Quot.sound
* `C02_too_small_int_accepted_violated`: propext, Quot.sound
* `C02_enum_truncated_violated`: propext, Classical.choice, Quot.sound

## C03

* `C03_label_to_name_partial`: propext, Quot.sound
* `C03_name_to_label_partial`: propext, Quot.sound
* `C03_names_injective`: propext, Quot.sound
* `C03_unknown_is_error`: propext, Quot.sound
* `C03_unnamed_labels_violated`: propext, Quot.sound
* `C03_null_label_violated`: propext, Quot.sound

## C04

* `C04_set_then_get_partial`: propext, Quot.sound
* `C04_get_reads_member`: none
* `C04_rejected_write_changes_nothing`: propext
* `C04_unknown_label_rejected`: propext
* `C04_embedded_structures_readonly`: propext
* `C04_too_large_int_rejected`: propext, Quot.sound
* `C04_names_and_labels_partial`: propext, Quot.sound
* `C04_counters_unsettable_violated`: propext
* `C04_too_small_int_accepted_violated`: propext, Quot.sound
* `C04_seed_arity_violated`: none
* `C04_null_label_violated`: propext, Quot.sound

## C05

* `C05_eigs_enum_inverse`: propext, Quot.sound
* `C05_svds_enum_inverse`: propext, Quot.sound
* `C05_eigs_enum_sound`: propext, Quot.sound
* `C05_svds_enum_sound`: propext, Quot.sound
* `C05_target_constants`: none
* `C05_untranslated_members_violated`: propext, Classical.choice, Quot.sound

## C06

* `C06_terminates`: propext, Quot.sound
* `C06_defaults_terminates`: propext, Quot.sound
* `C06_return_code`: propext, Classical.choice, Quot.sound
* `C06_problem_untouched`: propext, Quot.sound
* `C06_problem_members`: propext, Quot.sound
* `C06_idempotent`: propext, Classical.choice, Quot.sound
* `C06_defaults_only_unset`: propext, Classical.choice, Quot.sound
* `C06_user_settings_kept`: propext, Classical.choice, Quot.sound
* `C06_unknown_method_writes_violated`: propext, Classical.choice, Quot.sound

## C07

* `C07_defaults_accepted_partial`: propext, Classical.choice, Quot.sound
* `C07_block_violated`: propext, Classical.choice, Quot.sound
* `C07_constraints_violated`: propext, Classical.choice, Quot.sound
* `C07_constraints_room_violated`: propext, Classical.choice, Quot.sound
* `C07_ldevecs_frozen_violated`: propext, Classical.choice, Quot.sound

## C08

* `C08_check_is_first_violated`: propext, Classical.choice, Quot.sound
* `C08_codes_nonzero`: propext, Classical.choice, Quot.sound
* `C08_accepts_iff`: propext, Classical.choice, Quot.sound
* `C08_accepts_iff_manual_partial`: propext, Classical.choice, Quot.sound
* `C08_reported_error_is_real`: propext, Classical.choice, Quot.sound
* `C08_restart_size_n_accepted_violated`: propext, Classical.choice, Quot.sound
* `C08_negative_eps_rejected_violated`: propext, Classical.choice, Quot.sound

## C09

* `C09_check_is_first_violated`: propext, Classical.choice, Quot.sound
* `C09_accepts_iff`: propext, Classical.choice, Quot.sound
* `C09_accepted_inputs`: propext, Classical.choice, Quot.sound

## C10

* `C10_terminates`: propext, Classical.choice, Quot.sound
* `C10_documented_operators`: propext, Classical.choice, Quot.sound
* `C10_supported`: propext, Classical.choice, Quot.sound
* `C10_stage_problems`: propext, Classical.choice, Quot.sound
* `C10_smaller_side`: propext, Quot.sound
* `C10_stage_rows`: propext, Classical.choice, Quot.sound
* `C10_stage_norm`: propext, Quot.sound
* `C10_stage_target`: propext, Classical.choice, Quot.sound
* `C10_order_preserved`: propext, Classical.choice, Quot.sound
* `C10_mirror_not_preferred`: propext, Classical.choice, Quot.sound
* `C10_closest_abs_partial`: propext, Classical.choice, Quot.sound
* `C10_reused_rows_violated`: propext, Quot.sound
* `C10_closest_abs_violated`: propext, Classical.choice, Quot.sound

## C11

* `C11_words_valid`: propext, Classical.choice, Quot.sound
* `C11_user_words_kept`: propext, Quot.sound
* `C11_distinct`: propext, Quot.sound
* `C11_last_word_odd`: propext, Quot.sound
* `C11_even_user_word_violated`: propext, Quot.sound
* `C11_same_user_seed_violated`: propext, Quot.sound

## C12

* `C12_query`: propext, Quot.sound
* `C12_callback_types`: propext, Quot.sound
* `C12_failed_call_reports_none`: propext, Classical.choice, Quot.sound
* `C12_solver_sees_checked_input`: propext, Classical.choice, Quot.sound
* `C12_query_drops_guesses_violated`: propext, Classical.choice, Quot.sound
* `C12_svds_query`: propext, Classical.choice, Quot.sound
* `C12_svds_missing_array`: propext, Classical.choice, Quot.sound

## C13

* `C13_coordinated`: propext, Quot.sound
* `C13_incoherent_all_return`: propext, Classical.choice, Quot.sound
* `C13_all_or_none_partial`: propext, Classical.choice, Quot.sound
* `C13_agreeing_processes_pass_partial`: propext, Classical.choice, Quot.sound
* `C13_difference_detected`: propext, Classical.choice, Quot.sound
* `C13_hash_transport_violated`: propext, Classical.choice, Quot.sound
* `C13_local_check_violated`: propext, Classical.choice, Quot.sound
* `C13_local_array_violated`: propext, Classical.choice, Quot.sound
* `C13_exit_buffer_partial`: propext, Quot.sound
* `C13_exit_buffer_violated`: none

## C14

* `C12_failed_call_reports_none`: propext, Classical.choice, Quot.sound
* `C14_size_partial`: propext, Classical.choice, Quot.sound
* `C14_success_partial`: propext, Classical.choice, Quot.sound
* `C14_entries_partial`: propext, Classical.choice, Quot.sound
* `C14_converted_violated`: propext, Classical.choice, Quot.sound
* `C14_kept_violated`: propext, Classical.choice, Quot.sound
* `C14_stale_violated`: propext, Classical.choice, Quot.sound

## C15

* `C15_outer`: propext, Quot.sound
* `C15_no_new`: propext, Quot.sound
* `C15_overshoot_partial`: propext, Classical.choice, Quot.sound
* `C15_overshoot_violated`: propext, Classical.choice, Quot.sound
* `C15_stops_partial`: propext, Classical.choice, Quot.sound
* `C15_stops_violated`: propext, Classical.choice, Quot.sound

## C16

* `C16_safe_partial`: propext, Classical.choice, Quot.sound
* `C16_sizes_partial`: propext, Classical.choice, Quot.sound
* `C16_safe_violated`: propext, Classical.choice, Quot.sound

## C17

* `C17_locked_pairs_sorted_and_paired`: propext, Classical.choice, Quot.sound
* `C17_lock_phase_completes`: propext, Classical.choice, Quot.sound

## C18

* `C18_permute_vecs_gather`: propext, Classical.choice, Quot.sound
* `C18_permute_vecs_rejects`: propext, Classical.choice, Quot.sound
* `C18_permute_ints_gather`: propext, Classical.choice, Quot.sound

## C19

* `C19_decisions`: propext, Classical.choice, Quot.sound
* `C19_frame`: propext, Classical.choice, Quot.sound
* `C19_safe`: propext, Quot.sound
* `C19_default_test`: propext, Quot.sound

## C20

* `C20_success_leaves_heap_unchanged_partial`: propext, Classical.choice, Quot.sound
* `C20_machinery_never_fails_partial`: propext, Classical.choice, Quot.sound
* `C20_disciplined_calls_terminate_partial`: propext, Classical.choice, Quot.sound
* `C20_failed_call_releases_everything`: propext, Classical.choice, Quot.sound
* `C20_driver_error_leaks_context_violated`: propext, Classical.choice, Quot.sound
* `C20_record_failure_violated`: propext

## C21

* `C21_terminates`: propext, Classical.choice, Quot.sound
* `C21_frame`: propext, Classical.choice, Quot.sound
* `C21_code`: propext, Quot.sound
* `C21_orthonormal`: propext, Classical.choice, Quot.sound
* `C21_factorisation`: propext, Classical.choice, Quot.sound
* `C21_replaced_iff`: propext, Classical.choice, Quot.sound
* `C21_kern_exact`: propext, Classical.choice, Quot.sound

## C22

* `C22_order_without_locking`: propext, Classical.choice, Quot.sound
* `C22_numbering_without_locking`: propext, Classical.choice, Quot.sound
* `C22_block_without_locking`: propext, Classical.choice, Quot.sound
* `C22_order_with_locking`: propext, Classical.choice, Quot.sound
* `C22_retained_without_locking`: propext, Classical.choice, Quot.sound
* `C22_before_without_locking`: propext, Classical.choice, Quot.sound
* `C22_retained_with_locking_partial`: propext, Classical.choice, Quot.sound
* `C22_retained_with_locking_violated`: propext, Classical.choice, Quot.sound

## C23

* `C23_ritz_values_in_target_order`: propext, Classical.choice, Quot.sound
* `C23_interior_needs_shift`: propext, Quot.sound

## C24

* `C24_modes`: propext, Classical.choice, Quot.sound
* `C24_switches`: propext, Quot.sound
* `C24_saturated`: propext, Classical.choice, Quot.sound
* `C24_off`: propext, Quot.sound
* `C24_slowdown`: propext, Classical.choice, Quot.sound
* `C24_recommendation_partial`: propext, Classical.choice, Quot.sound
* `C24_rightX_partial`: propext, Quot.sound
* `C24_collective_partial`: propext, Classical.choice, Quot.sound
* `C24_rightX_violated`: propext, Classical.choice, Quot.sound
* `C24_exit_violated`: propext, Classical.choice, Quot.sound
* `C24_collective_violated`: propext, Classical.choice, Quot.sound

## C25

* `C25_columns_partial`: propext, Classical.choice, Quot.sound
* `C25_single`: propext, Classical.choice, Quot.sound
* `C25_clean`: propext, Quot.sound
* `C25_own`: propext, Classical.choice, Quot.sound
* `C25_stopped`: propext, Classical.choice, Quot.sound
* `C25_limit_partial`: propext, Quot.sound
* `C25_budget_partial`: propext, Classical.choice, Quot.sound
* `C25_memory_violated`: propext, Classical.choice, Quot.sound
* `C25_projector_violated`: propext, Classical.choice, Quot.sound
* `C25_stride_violated`: propext
* `C25_position_violated`: propext, Classical.choice, Quot.sound
* `C25_budget_violated`: propext, Classical.choice, Quot.sound
* `C25_wrap_violated`: propext, Classical.choice, Quot.sound

## C26

* `C26_products`: propext, Classical.choice, Quot.sound
* `C26_each_column_once`: propext, Classical.choice, Quot.sound
* `C26_failure_reported`: propext, Classical.choice, Quot.sound
* `C26_preconditioner`: none

## C27

* `C27_AtA`: propext, Classical.choice, Quot.sound
* `C27_AAt_partial`: propext, Classical.choice, Quot.sound
* `C27_AAt_constraints_violated`: propext, Classical.choice, Quot.sound
* `C27_augmented_in`: propext, Classical.choice, Quot.sound
* `C27_augmented_out`: propext, Classical.choice, Quot.sound
* `C27_augmented_unit`: propext, Classical.choice, Quot.sound

## C28

* `C28_sequence_and_codes`: propext, Classical.choice, Quot.sound
* `C28_call`: propext, Classical.choice, Quot.sound
* `C28_reported_range`: propext, Classical.choice, Quot.sound
* `C28_reported_values`: propext, Classical.choice, Quot.sound
* `C28_kept_triplets`: propext, Classical.choice, Quot.sound
* `C28_kept_norms_violated`: propext, Classical.choice, Quot.sound
* `C28_budget_partial`: propext, Classical.choice, Quot.sound
* `C28_budget_violated`: propext, Classical.choice, Quot.sound
* `C28_products_counted`: propext, Classical.choice, Quot.sound

## C29

* `C29_counters_agree_partial`: propext, Classical.choice, Quot.sound
* `C29_counters_monotone`: propext, Quot.sound
* `C29_emulated_broadcast_violated`: propext
* `C29_mass_products_counted_violated`: propext
* `C29_exit_reduction_violated`: propext
* `C29_svds_broadcasts_not_reset_violated`: propext, Classical.choice, Quot.sound

## C30

* `C30_matrix_product`: propext, Classical.choice, Quot.sound
* `C30_preconditioner`: propext, Classical.choice, Quot.sound
* `C30_mass_product_partial`: propext, Classical.choice, Quot.sound
* `C30_mass_product_fails_violated`: propext, Classical.choice, Quot.sound
* `C30_mass_product_misread_violated`: propext
* `C30_convergence_test_partial`: propext, Quot.sound
* `C30_convergence_test_violated`: propext, Classical.choice, Quot.sound
* `C30_embedded_reduction_type_partial`: none
* `C30_embedded_reduction_type_violated`: none

## C31

* `C31_pack`: propext, Classical.choice, Quot.sound
* `C31_unpack`: propext, Classical.choice, Quot.sound
* `C31_round_trip`: propext, Classical.choice, Quot.sound
* `C31_update_symmetric`: propext, Classical.choice, Quot.sound
* `C31_update_full`: propext, Classical.choice, Quot.sound
* `C31_built_blockwise`: propext, Classical.choice, Quot.sound

## C32

* `C32_broadcast_value`: propext, Classical.choice, Quot.sound
* `C32_delivers_root`: propext, Classical.choice, Quot.sound
* `C32_frame`: propext, Quot.sound
* `C32_processes_agree`: propext, Classical.choice, Quot.sound
* `C32_small_integers_exact`: propext
* `C32_stored_code`: propext
* `C32_projected_solution`: propext, Classical.choice, Quot.sound
* `C32_projected_frame`: propext, Quot.sound
* `C32_nothing_uninitialised`: propext, Classical.choice, Quot.sound
* `C32_lossy_type_violated`: propext, Classical.choice, Quot.sound
* `C32_uninitialised_code_violated`: propext

## C33

* `C33_sizes`: propext, Classical.choice, Quot.sound
* `C33_used`: propext, Classical.choice, Quot.sound
* `C33_room`: propext, Classical.choice, Quot.sound
* `C33_safe_partial`: propext, Classical.choice, Quot.sound
* `C33_guesses_in_order`: propext, Classical.choice, Quot.sound
* `C33_guesses_kept_partial`: propext, Classical.choice, Quot.sound
* `C33_size`: propext, Classical.choice, Quot.sound
* `C33_products`: propext, Classical.choice, Quot.sound
* `C33_each_column_once`: propext, Classical.choice, Quot.sound
* `C33_kernels_ok`: propext, Classical.choice, Quot.sound
* `C33_guesses_kept_violated`: propext, Classical.choice, Quot.sound
* `C33_safe_violated`: propext, Classical.choice, Quot.sound

## C34

* `C34_extreme_shift_between_partial`: propext, Classical.choice, Quot.sound
* `C34_interior_shift_between_partial`: propext, Classical.choice, Quot.sound
* `C34_robust_shift_bounds`: propext, Classical.choice, Quot.sound
* `C34_single_ritz_value_violated`: propext, Classical.choice, Quot.sound
* `C34_interior_shift_nan_violated`: propext, Classical.choice, Quot.sound

## C35

* `C35_merge_is_sorted_and_indices_match`: propext, Classical.choice, Quot.sound
* `C35_short_flags_leave_ilev_unset`: propext, Classical.choice, Quot.sound

## C36

* `C36_eigs_partial`: propext, Classical.choice, Quot.sound
* `C36_single_partial`: propext, Classical.choice, Quot.sound
* `C36_stage1_partial`: propext, Classical.choice, Quot.sound
* `C36_stage1_quiet`: propext, Quot.sound
* `C36_stage2_partial`: propext, Classical.choice, Quot.sound
* `C36_no_memory`: propext, Quot.sound
* `C36_stage1_norms_violated`: propext, Classical.choice, Quot.sound
* `C36_stage1_locked_violated`: propext, Classical.choice, Quot.sound
* `C36_augmented_values_violated`: propext, Classical.choice, Quot.sound
* `C36_augmented_norms_violated`: propext, Classical.choice, Quot.sound
* `C36_stage2_norms_violated`: propext, Classical.choice, Quot.sound
* `C36_stage2_sign_violated`: propext, Classical.choice, Quot.sound
* `C36_adaptive_violated`: propext, Classical.choice, Quot.sound
* `C36_inner_given_violated`: propext, Classical.choice, Quot.sound

## C37

* `C37_columns`: propext, Classical.choice, Quot.sound
* `C37_columns_in_place`: propext, Classical.choice, Quot.sound
* `C37_rows`: propext, Classical.choice, Quot.sound
* `C37_scan`: none
* `C37_compact`: propext, Classical.choice, Quot.sound

## C38

* `C38_harmonic`: propext
* `C38_harmonic_inner`: propext
* `C38_harmonic_code`: propext, Quot.sound
* `C38_normal_test_partial`: propext, Classical.choice, Quot.sound
* `C38_augmented_test_partial`: propext, Quot.sound
* `C38_monitor_partial`: propext, Classical.choice, Quot.sound
* `C38_test_violated`: propext, Classical.choice, Quot.sound
* `C38_monitor_violated`: propext, Classical.choice, Quot.sound

## C39

* `C39_documented_settings_partial`: propext, Classical.choice, Quot.sound
* `C39_relTolBase`: propext, Classical.choice, Quot.sound
* `C39_plusK_retained`: propext, Quot.sound
* `C39_window_sizes`: propext, Classical.choice, Quot.sound
* `C39_locking_zero_violated`: propext, Classical.choice, Quot.sound
* `C39_locking_zero_fresh_violated`: propext, Classical.choice, Quot.sound
* `C39_jdqr_inner_violated`: propext, Classical.choice, Quot.sound
* `C39_jdqmr_retain_violated`: propext, Classical.choice, Quot.sound
* `C39_jdqmr_etol_skewX_violated`: propext, Classical.choice, Quot.sound
* `C39_plusK_retain_violated`: propext, Classical.choice, Quot.sound
* `C39_window_sizes_violated`: propext, Classical.choice, Quot.sound

## C40

* `C40_copy_matrix_partial`: propext, Classical.choice, Quot.sound
* `C40_shift_one_column_violated`: none
* `C40_shift_rows_violated`: none
* `C40_triangle_partial`: propext, Classical.choice, Quot.sound
* `C40_triangle_zero_violated`: none
* `C40_triangle_rows_violated`: none
* `C40_conj`: propext, Quot.sound
* `C40_scale_partial`: propext, Classical.choice, Quot.sound
* `C40_scale_violated`: none

## C41

* `C41_first_stage`: propext, Classical.choice, Quot.sound
* `C41_second_stage`: propext, Classical.choice, Quot.sound
* `C41_second_stage_closest`: propext, Classical.choice, Quot.sound
* `C41_more_shifts_than_values_violated`: propext, Classical.choice, Quot.sound
* `C41_reused_structure_violated`: propext, Classical.choice, Quot.sound
* `C41_compare`: propext, Classical.choice, Quot.sound
* `C41_compare_order`: propext, Classical.choice, Quot.sound
* `C41_unsorted`: propext, Quot.sound
* `C41_compare_violated`: propext, Classical.choice, Quot.sound

## C42

* `C42_terminates`: propext, Classical.choice, Quot.sound
* `C42_block`: propext, Classical.choice, Quot.sound
* `C42_first`: propext, Classical.choice, Quot.sound
* `C42_counted`: propext, Classical.choice, Quot.sound
* `C42_frame`: propext, Classical.choice, Quot.sound
* `C42_floor_partial`: propext, Quot.sound
* `C42_floor_violated`: propext, Classical.choice, Quot.sound

## C43

* `C43_permutation`: propext, Classical.choice, Quot.sound
* `C43_closest`: propext, Classical.choice, Quot.sound
* `C43_inherit`: propext, Classical.choice, Quot.sound
* `C43_zero_violated`: propext, Classical.choice, Quot.sound

## C44

* `C44_delivery_partial`: propext, Classical.choice, Quot.sound
* `C44_converted_violated`: propext

## C45

* `C45_normal`: propext, Classical.choice, Quot.sound
* `C45_augmented`: propext, Classical.choice, Quot.sound
* `C45_residual`: propext, Classical.choice, Quot.sound
* `C45_default`: propext, Classical.choice, Quot.sound
* `C45_default_normal`: propext, Classical.choice, Quot.sound

## C46

* `C46_dot`: propext, Classical.choice, Quot.sound
* `C46_axpy`: propext, Classical.choice, Quot.sound
* `C46_scal`: propext, Classical.choice, Quot.sound
* `C46_gemv`: propext, Classical.choice, Quot.sound
* `C46_gemm`: propext, Classical.choice, Quot.sound
* `C46_too_large`: propext, Classical.choice, Quot.sound
* `C46_gemm_dhd`: propext, Classical.choice, Quot.sound
* `C46_gemm_ddh_partial`: propext, Classical.choice, Quot.sound
* `C46_overlaps_partial`: propext, Classical.choice, Quot.sound
* `C46_deflate_partial`: propext, Classical.choice, Quot.sound
* `C46_dot_violated`: propext, Classical.choice, Quot.sound
* `C46_gemm_violated`: propext, Classical.choice, Quot.sound
* `C46_gemm_ddh_violated`: propext, Classical.choice, Quot.sound
* `C46_overlaps_violated`: propext, Classical.choice, Quot.sound
* `C46_deflate_violated`: propext, Classical.choice, Quot.sound
* `C46_deflate_row_violated`: propext, Classical.choice, Quot.sound

## C47

* `C47_offered_partial`: propext, Classical.choice, Quot.sound
* `C47_locked_partial`: propext, Classical.choice, Quot.sound
* `C47_basis_partial`: propext, Classical.choice, Quot.sound
* `C47_plan_without_locking`: propext, Classical.choice, Quot.sound
* `C47_plan_with_locking`: propext, Classical.choice, Quot.sound
* `C47_locking_violated`: propext, Classical.choice, Quot.sound

## C48

* `C48_count_partial`: propext, Classical.choice, Quot.sound
* `C48_near_partial`: propext, Classical.choice, Quot.sound
* `C48_minmax_partial`: propext, Classical.choice, Quot.sound
* `C48_massCount_partial`: propext, Classical.choice, Quot.sound
* `C48_massNear_partial`: propext, Classical.choice, Quot.sound
* `C48_massMinmax_partial`: propext, Classical.choice, Quot.sound

## C49

* `C49_tested`: propext, Classical.choice, Quot.sound
* `C49_conditioned`: propext, Classical.choice, Quot.sound
* `C49_succeeds`: propext, Classical.choice, Quot.sound
* `C49_span`: propext, Classical.choice, Quot.sound
* `C49_orthogonal`: propext, Classical.choice, Quot.sound
* `C49_stored`: propext, Classical.choice, Quot.sound
* `C49_factor_partial`: propext, Classical.choice, Quot.sound
* `C49_factor_violated`: propext, Classical.choice, Quot.sound
* `C49_overflow_violated`: propext, Classical.choice, Quot.sound

## C50

* `C50_f90_partial`: propext
* `C50_f77_partial`: propext, Quot.sound
* `C50_names_violated`: propext, Quot.sound
* `C50_session`: propext, Quot.sound
* `C50_sessionSvds`: propext, Quot.sound
* `C50_callback`: propext
* `C50_shift`: propext, Quot.sound
* `C50_signatures_partial`: propext
* `C50_signaturesSvds_partial`: propext
* `C50_signatures_violated`: propext
* `C50_memory_violated`: propext
* `C50_roundtrip_partial`: propext, Quot.sound

## C51

* `C51_normal_partial`: propext, Classical.choice, Quot.sound
* `C51_left_partial`: propext, Classical.choice, Quot.sound
* `C51_normalCount_partial`: propext, Classical.choice, Quot.sound
* `C51_normalNear_partial`: propext, Classical.choice, Quot.sound
* `C51_leftNear_partial`: propext, Classical.choice, Quot.sound
* `C51_normalMinmax_partial`: propext, Classical.choice, Quot.sound
* `C51_augmented_partial`: propext, Classical.choice, Quot.sound
* `C51_augmentedCount_partial`: propext, Classical.choice, Quot.sound
* `C51_augmentedNear_partial`: propext, Classical.choice, Quot.sound
* `C51_normal_violated`: propext, Classical.choice, Quot.sound
* `C51_augmented_violated`: propext, Classical.choice, Quot.sound

## C52

* `C52_offered_partial`: propext, Classical.choice, Quot.sound
* `C52_factors_partial`: propext, Classical.choice, Quot.sound
* `C52_bounds_partial`: propext, Classical.choice, Quot.sound
* `C52_refined_partial`: propext, Classical.choice, Quot.sound
* `C52_first_partial`: propext, Classical.choice, Quot.sound
* `C52_harmonic_partial`: propext, Classical.choice, Quot.sound
* `C52_count_partial`: propext, Classical.choice, Quot.sound
* `C52_tail_without_locking`: propext, Classical.choice, Quot.sound
* `C52_tail_with_locking`: propext, Classical.choice, Quot.sound
* `C52_retained_violated`: propext, Classical.choice, Quot.sound
* `C52_order_violated`: propext, Classical.choice, Quot.sound
* `C52_harmonic_violated`: propext, Classical.choice, Quot.sound
* `C52_target_violated`: propext, Classical.choice, Quot.sound

## C53

* `C53_problem`: propext, Classical.choice, Quot.sound
* `C53_which`: propext, Classical.choice, Quot.sound
* `C53_tuning`: propext, Classical.choice, Quot.sound
* `C53_method`: propext, Quot.sound
* `C53_callbacks`: propext, Classical.choice, Quot.sound
* `C53_nothing_else`: propext, Classical.choice, Quot.sound
* `C53_extra`: propext, Classical.choice, Quot.sound
* `C53_defined`: propext, Classical.choice, Quot.sound
* `C53_rejects`: propext, Classical.choice, Quot.sound
* `C53_accepts`: propext, Classical.choice, Quot.sound
* `C53_vectors`: propext, Classical.choice, Quot.sound
* `C53_arrays_partial`: propext, Classical.choice, Quot.sound
* `C53_result`: propext, Classical.choice, Quot.sound
* `C53_unconverged`: propext, Quot.sound
* `C53_errors_partial`: propext, Quot.sound
* `C53_get_partial`: propext, Quot.sound
* `C53_callback`: propext, Quot.sound
* `C53_errors_violated`: propext, Classical.choice, Quot.sound
* `C53_tol_violated`: propext, Classical.choice, Quot.sound
* `C53_arrays_violated`: propext, Classical.choice, Quot.sound
* `C53_get_names_violated`: propext, Quot.sound
* `C53_get_null_violated`: propext, Quot.sound
* `C53_method_violated`: propext, Classical.choice, Quot.sound
* `C53_guess_violated`: propext, Classical.choice, Quot.sound

## C54

* `C54_problem`: propext, Classical.choice, Quot.sound
* `C54_which`: propext, Classical.choice, Quot.sound
* `C54_limit_partial`: propext, Classical.choice, Quot.sound
* `C54_pairs`: propext, Classical.choice, Quot.sound
* `C54_callbacks`: propext, Classical.choice, Quot.sound
* `C54_nothing_else`: propext, Classical.choice, Quot.sound
* `C54_extra`: propext, Classical.choice, Quot.sound
* `C54_method`: propext, Classical.choice, Quot.sound
* `C54_defined_partial`: propext, Classical.choice, Quot.sound
* `C54_rejects`: propext, Classical.choice, Quot.sound
* `C54_prevec`: propext, Classical.choice, Quot.sound
* `C54_accepts_partial`: propext, Classical.choice, Quot.sound
* `C54_vectors_partial`: propext, Classical.choice, Quot.sound
* `C54_arrays_partial`: propext, Classical.choice, Quot.sound
* `C54_result`: propext, Quot.sound
* `C54_errors_partial`: propext, Quot.sound
* `C54_code`: propext, Classical.choice, Quot.sound
* `C54_callback`: propext, Quot.sound
* `C54_precond_partial`: propext, Quot.sound
* `C54_one_violated`: propext, Classical.choice, Quot.sound
* `C54_constraints_violated`: propext, Classical.choice, Quot.sound
* `C54_vectors_violated`: propext, Quot.sound
* `C54_rnorms_violated`: propext, Classical.choice, Quot.sound
* `C54_precond_violated`: none
* `C54_limit_violated`: propext, Classical.choice, Quot.sound
* `C54_defined_violated`: propext, Classical.choice, Quot.sound
* `C54_arrays_violated`: propext, Classical.choice, Quot.sound
* `C54_errors_violated`: propext, Classical.choice, Quot.sound
* `C54_unconverged_violated`: propext, Classical.choice, Quot.sound
* `C54_method_violated`: propext, Classical.choice, Quot.sound

## C55

* `C55_reports_partial`: propext, Classical.choice, Quot.sound
* `C55_reports_fixed_partial`: propext, Classical.choice, Quot.sound
* `C55_reports_precond_partial`: propext, Classical.choice, Quot.sound
* `C55_stops_partial`: propext, Classical.choice, Quot.sound
* `C55_improves_partial`: propext, Classical.choice, Quot.sound
* `C55_precond_violated`: propext, Classical.choice, Quot.sound
* `C55_skew_violated`: propext, Classical.choice, Quot.sound

## C56

* `C56_problem`: propext, Classical.choice, Quot.sound
* `C56_which`: propext, Classical.choice, Quot.sound
* `C56_options`: propext, Classical.choice, Quot.sound
* `C56_method`: propext, Classical.choice, Quot.sound
* `C56_nothing_else`: propext, Classical.choice, Quot.sound
* `C56_defined`: propext, Classical.choice, Quot.sound
* `C56_rejects`: propext, Classical.choice, Quot.sound
* `C56_vectors`: propext, Classical.choice, Quot.sound
* `C56_arithmetic`: propext, Classical.choice, Quot.sound
* `C56_accepts`: propext, Classical.choice, Quot.sound
* `C56_result`: propext, Quot.sound
* `C56_errors`: propext, Quot.sound
* `C56_stats_partial`: propext, Classical.choice, Quot.sound
* `C56_function`: propext, Quot.sound
* `C56_products`: propext, Classical.choice, Quot.sound
* `C56_matching`: propext, Classical.choice, Quot.sound
* `C56_matching_B_partial`: propext, Classical.choice, Quot.sound
* `C56_methods_violated`: propext, Classical.choice, Quot.sound
* `C56_options_violated`: propext, Classical.choice, Quot.sound
* `C56_LM_violated`: propext, Classical.choice, Quot.sound
* `C56_prec_violated`: propext, Classical.choice, Quot.sound
* `C56_massType_violated`: propext, Classical.choice, Quot.sound
* `C56_massParts_violated`: propext, Classical.choice, Quot.sound
* `C56_convTest_violated`: none
* `C56_count_violated`: propext, Classical.choice, Quot.sound
* `C56_limit_violated`: propext, Classical.choice, Quot.sound
* `C56_stats_violated`: propext, Classical.choice, Quot.sound
* `C56_dimension_violated`: propext, Classical.choice, Quot.sound

## C57

* `C57_problem`: propext, Classical.choice, Quot.sound
* `C57_which`: propext, Classical.choice, Quot.sound
* `C57_options`: propext, Classical.choice, Quot.sound
* `C57_nothing_else`: propext, Classical.choice, Quot.sound
* `C57_method`: propext, Classical.choice, Quot.sound
* `C57_defined`: propext, Classical.choice, Quot.sound
* `C57_rejects`: propext, Classical.choice, Quot.sound
* `C57_accepts`: propext, Classical.choice, Quot.sound
* `C57_vectors`: propext, Classical.choice, Quot.sound
* `C57_arithmetic`: propext, Classical.choice, Quot.sound
* `C57_result`: propext, Classical.choice, Quot.sound
* `C57_errors`: propext, Classical.choice, Quot.sound
* `C57_stats_partial`: propext, Classical.choice, Quot.sound
* `C57_function`: propext, Quot.sound
* `C57_modes`: propext
* `C57_products`: propext, Quot.sound
* `C57_partner_partial`: propext, Quot.sound
* `C57_methods_violated`: propext, Classical.choice, Quot.sound
* `C57_options_violated`: propext, Classical.choice, Quot.sound
* `C57_stageName_violated`: propext, Classical.choice, Quot.sound
* `C57_partner_violated`: propext, Classical.choice, Quot.sound
* `C57_matrixClass_violated`: propext, Classical.choice, Quot.sound
* `C57_count_violated`: propext, Classical.choice, Quot.sound
* `C57_limit_violated`: propext, Classical.choice, Quot.sound
* `C57_stats_violated`: propext, Classical.choice, Quot.sound
* `C57_dimension_violated`: propext, Classical.choice, Quot.sound

## C58

* `C58_unique`: propext, Classical.choice, Quot.sound
* `C58_update_partial`: propext, Classical.choice, Quot.sound
* `C58_preset`: propext, Classical.choice, Quot.sound
* `C58_single_partial`: propext, Classical.choice, Quot.sound
* `C58_constraints_violated`: propext, Classical.choice, Quot.sound
* `C58_pointer_violated`: propext, Classical.choice, Quot.sound
* `C58_second_violated`: propext, Classical.choice, Quot.sound
* `C58_mixed_violated`: propext, Classical.choice, Quot.sound

## C59

* `C59_computed`: propext, Classical.choice, Quot.sound
* `C59_removed`: propext, Classical.choice, Quot.sound
* `C59_unique`: propext, Classical.choice, Quot.sound
* `C59_total`: propext, Classical.choice, Quot.sound
* `C59_sound`: propext, Classical.choice, Quot.sound
* `C59_norms`: propext, Classical.choice, Quot.sound
* `C59_decision`: propext, Classical.choice, Quot.sound
* `C59_shortcut`: propext, Classical.choice, Quot.sound
* `C59_overlap_partial`: propext, Classical.choice, Quot.sound
* `C59_overlap_violated`: propext, Classical.choice, Quot.sound
* `C59_gram_violated`: propext, Classical.choice, Quot.sound

## C60

* `C60_update`: propext, Classical.choice, Quot.sound
* `C60_placed_soft`: propext, Classical.choice, Quot.sound
* `C60_placed_lock`: propext, Classical.choice, Quot.sound
* `C60_placed_cand`: propext, Classical.choice, Quot.sound
* `C60_placed_copy`: propext, Classical.choice, Quot.sound
* `C60_restart_locking`: propext, Classical.choice, Quot.sound
* `C60_restart_soft`: propext, Classical.choice, Quot.sound
* `C60_candidates`: propext, Classical.choice, Quot.sound
* `C60_last`: propext, Classical.choice, Quot.sound
* `C60_explicit`: propext, Classical.choice, Quot.sound
* `C60_recorded_partial`: propext, Classical.choice, Quot.sound
* `C60_recorded_violated`: propext, Classical.choice, Quot.sound
* `C60_estimates_partial`: propext, Classical.choice, Quot.sound
* `C60_estimates_violated`: propext, Classical.choice, Quot.sound

## C61

* `C61_davidson_partial`: propext, Classical.choice, Quot.sound
* `C61_cheap`: propext, Classical.choice, Quot.sound
* `C61_cheap_violated`: propext, Classical.choice, Quot.sound
* `C61_error_violated`: propext, Classical.choice, Quot.sound
* `C61_unique`: propext, Classical.choice, Quot.sound
* `C61_block_violated`: propext, Classical.choice, Quot.sound
* `C61_failure_partial`: propext, Classical.choice, Quot.sound
* `C61_failure_violated`: propext, Classical.choice, Quot.sound
* `C61_left_partial`: propext, Classical.choice, Quot.sound
* `C61_left_violated`: propext, Classical.choice, Quot.sound
* `C61_right_partial`: propext, Classical.choice, Quot.sound
* `C61_right_violated`: propext, Classical.choice, Quot.sound
* `C61_evecs`: propext, Classical.choice, Quot.sound
* `C61_shifts_partial`: propext, Classical.choice, Quot.sound
* `C61_shifts_violated`: propext, Classical.choice, Quot.sound
* `C61_preset_violated`: propext, Classical.choice, Quot.sound

## C62

* `C62_once`: propext, Classical.choice, Quot.sound
* `C62_pace`: propext, Classical.choice, Quot.sound
* `C62_taken_partial`: propext, Classical.choice, Quot.sound
* `C62_taken_violated`: propext, Classical.choice, Quot.sound

## C63

* `C63_ritz_partial`: propext, Classical.choice, Quot.sound
* `C63_factors_partial`: propext, Classical.choice, Quot.sound
* `C63_batch_violated`: propext, Classical.choice, Quot.sound
* `C63_refined_violated`: propext, Classical.choice, Quot.sound
* `C63_norm_violated`: propext, Classical.choice, Quot.sound
* `C63_reset_violated`: propext, Classical.choice, Quot.sound

## C64

* `C64_seen_partial`: propext, Classical.choice, Quot.sound
* `C64_inside_partial`: propext, Classical.choice, Quot.sound
* `C64_tolerance_partial`: propext, Classical.choice, Quot.sound
* `C64_aNorm_violated`: propext, Classical.choice, Quot.sound
* `C64_of_C47`: propext, Classical.choice, Quot.sound

## C65

* `C65_problem`: propext, Classical.choice, Quot.sound
* `C65_options`: propext, Classical.choice, Quot.sound
* `C65_parameters`: propext, Classical.choice, Quot.sound
* `C65_nothing_else`: propext, Classical.choice, Quot.sound
* `C65_method`: propext, Classical.choice, Quot.sound
* `C65_methods`: propext, Classical.choice, Quot.sound
* `C65_default`: propext, Classical.choice, Quot.sound
* `C65_tolerance`: propext, Classical.choice, Quot.sound
* `C65_which`: propext, Classical.choice, Quot.sound
* `C65_functions`: propext, Classical.choice, Quot.sound
* `C65_arrays`: propext, Classical.choice, Quot.sound
* `C65_result`: propext, Classical.choice, Quot.sound
* `C65_order`: propext, Classical.choice, Quot.sound
* `C65_errors`: propext, Quot.sound
* `C65_rejects`: propext, Classical.choice, Quot.sound
* `C65_unknown`: propext, Classical.choice, Quot.sound
* `C65_norms_violated`: propext, Classical.choice, Quot.sound
* `C65_guesses_violated`: propext, Classical.choice, Quot.sound
* `C65_normal_violated`: propext, Classical.choice, Quot.sound
* `C65_switchedOff_violated`: propext, Classical.choice, Quot.sound
* `C65_values_violated`: propext, Classical.choice, Quot.sound
* `C65_noPrec_violated`: propext, Classical.choice, Quot.sound
* `C65_profiler_violated`: propext, Classical.choice, Quot.sound
* `C65_limit_violated`: propext, Classical.choice, Quot.sound
* `C65_massSize_violated`: propext, Classical.choice, Quot.sound
* `C65_square_violated`: propext, Classical.choice, Quot.sound

## C66

* `C66_problem`: propext, Classical.choice, Quot.sound
* `C66_options`: propext, Classical.choice, Quot.sound
* `C66_parameters`: propext, Classical.choice, Quot.sound
* `C66_nothing_else`: propext, Classical.choice, Quot.sound
* `C66_tolerance_partial`: propext, Classical.choice, Quot.sound
* `C66_which`: propext, Classical.choice, Quot.sound
* `C66_method`: propext, Classical.choice, Quot.sound
* `C66_methods`: propext, Quot.sound
* `C66_functions`: propext, Classical.choice, Quot.sound
* `C66_constraints`: propext, Classical.choice, Quot.sound
* `C66_guesses_partial`: propext, Classical.choice, Quot.sound
* `C66_arrays`: propext, Classical.choice, Quot.sound
* `C66_result`: propext, Classical.choice, Quot.sound
* `C66_order`: propext, Classical.choice, Quot.sound
* `C66_errors`: propext, Quot.sound
* `C66_preconditioner_partial`: propext, Classical.choice, Quot.sound
* `C66_factor`: propext
* `C66_struct`: propext
* `C66_modes`: propext, Classical.choice, Quot.sound
* `C66_rejects`: propext, Classical.choice, Quot.sound
* `C66_unknown`: propext, Classical.choice, Quot.sound
* `C66_unknownStage`: propext, Classical.choice, Quot.sound
* `C66_guesses_violated`: propext, Classical.choice, Quot.sound
* `C66_rectangular_violated`: propext, Classical.choice, Quot.sound
* `C66_stageOptions_violated`: propext, Classical.choice, Quot.sound
* `C66_profiler_violated`: propext, Classical.choice, Quot.sound
* `C66_tolerance_violated`: propext, Classical.choice, Quot.sound
* `C66_norms_violated`: propext, Classical.choice, Quot.sound
* `C66_precondition_violated`: propext, Classical.choice, Quot.sound
* `C66_limit_violated`: propext, Classical.choice, Quot.sound

## C67

* `C67_block`: propext, Classical.choice, Quot.sound
* `C67_basis`: propext, Classical.choice, Quot.sound
* `C67_products`: propext, Classical.choice, Quot.sound
* `C67_order`: propext, Classical.choice, Quot.sound

## C68

* `C68_silent`: propext, Quot.sound
* `C68_errors_partial`: propext, Quot.sound
* `C68_errors_violated`: propext, Quot.sound
* `C68_outer`: propext, Classical.choice, Quot.sound
* `C68_inner`: propext, Quot.sound
* `C68_converged`: propext, Classical.choice, Quot.sound
* `C68_locked_partial`: propext, Classical.choice, Quot.sound
* `C68_lock_line_violated`: propext, Classical.choice, Quot.sound
* `C68_process`: propext, Quot.sound
* `C68_process_violated`: propext, Quot.sound
* `C68_history_partial`: propext, Classical.choice, Quot.sound
* `C68_history_out_violated`: propext, Classical.choice, Quot.sound
* `C68_history_inn_violated`: propext, Quot.sound
* `C68_svds_outer`: propext, Classical.choice, Quot.sound
* `C68_svds_converged`: propext, Classical.choice, Quot.sound
* `C68_svds_locked_partial`: propext, Classical.choice, Quot.sound
* `C68_svds_inner`: propext, Classical.choice, Quot.sound
* `C68_augmented_violated`: propext, Classical.choice, Quot.sound

## C69

* `C69_eigs_honest`: propext, Quot.sound
* `C69_eigs_safe`: propext, Quot.sound
* `C69_eigs_all_partial`: propext, Quot.sound
* `C69_eigs_determines_partial`: propext, Quot.sound
* `C69_defaults_violated`: propext, Quot.sound
* `C69_svds_honest`: propext, Quot.sound
* `C69_svds_all_partial`: propext, Quot.sound
* `C69_svds_safe_partial`: propext, Quot.sound
* `C69_svds_null_violated`: propext

## C70

* `C70_clusters`: propext, Classical.choice, Quot.sound
* `C70_bounds`: propext, Classical.choice, Quot.sound
* `C70_apart`: propext, Classical.choice, Quot.sound
* `C70_angles`: propext, Classical.choice, Quot.sound
* `C70_newest`: propext, Classical.choice, Quot.sound
* `C70_tolerance`: propext, Classical.choice, Quot.sound
* `C70_resume`: propext, Classical.choice, Quot.sound
* `C70_other`: propext, Quot.sound
* `C70_reach`: propext, Classical.choice, Quot.sound
* `C70_call_reach`: propext, Classical.choice, Quot.sound
* `C70_candidates_violated`: propext, Classical.choice, Quot.sound
* `C70_example`: propext, Classical.choice, Quot.sound
* `C70_example_one`: propext, Classical.choice, Quot.sound

## C71

* `C71_types`: propext, Quot.sound
* `C71_types_partial`: propext, Quot.sound
* `C71_reuse_violated`: propext, Quot.sound
* `C71_matrix`: propext
* `C71_orth`: propext
* `C71_available`: propext, Classical.choice, Quot.sound
* `C71_working`: propext, Quot.sound
* `C71_driver`: propext, Classical.choice, Quot.sound

## C72

* `C72_reported_partial`: propext, Quot.sound
* `C72_hegv_violated`: propext, Quot.sound
* `C72_potrf`: propext, Classical.choice, Quot.sound
* `C72_sizes_partial`: propext, Quot.sound
* `C72_sizes_violated`: propext, Classical.choice, Quot.sound
* `C72_empty`: propext
* `C72_workspace`: propext, Quot.sound

## C73

* `C73_solves_partial`: propext, Classical.choice, Quot.sound
* `C73_mirror`: propext, Classical.choice, Quot.sound
* `C73_first`: propext, Classical.choice, Quot.sound
* `C73_one`: propext, Classical.choice, Quot.sound
* `C73_again_violated`: propext, Classical.choice, Quot.sound
