{"claims": [
 {"property": "C01", "status": "partial", "theorems": ["C01_set_then_get_partial", "C01_get_reads_member_partial", "C01_set_reaches_member_partial", "C01_labels_distinct", "C01_type_members_unreadable_violated", "C01_counters_unsettable_violated"], "note": "Holds for all labels but four; the four are refuted (two members without getter, two without setter)."},
 {"property": "C02", "status": "partial", "theorems": ["C02_rejected_write_changes_nothing", "C02_unknown_label_rejected", "C02_too_large_int_rejected", "C02_accepted_write_exact_partial", "C02_too_small_int_accepted_violated", "C02_enum_truncated_violated"], "note": "Rejection without effect is proved in full; values below INT_MIN and out of range enum values are accepted and truncated (refuted for every such member and value)."},
 {"property": "C03", "status": "partial", "theorems": ["C03_label_to_name_partial", "C03_name_to_label_partial", "C03_names_injective", "C03_unknown_is_error", "C03_unnamed_labels_violated", "C03_null_label_violated"], "note": "Two published labels have no name; a NULL label pointer with a recognised name is dereferenced."},
 {"property": "C04", "status": "partial", "theorems": ["C04_set_then_get_partial", "C04_get_reads_member", "C04_rejected_write_changes_nothing", "C04_unknown_label_rejected", "C04_embedded_structures_readonly", "C04_too_large_int_rejected", "C04_names_and_labels_partial", "C04_counters_unsettable_violated", "C04_too_small_int_accepted_violated", "C04_seed_arity_violated", "C04_null_label_violated"], "note": "Holds except for three counters without setter, values below INT_MIN and the announced arity of the seed."},
 {"property": "C05", "status": "partial", "theorems": ["C05_eigs_enum_inverse", "C05_svds_enum_inverse", "C05_eigs_enum_sound", "C05_svds_enum_sound", "C05_target_constants", "C05_untranslated_members_violated"], "note": "Proved for every member that has an enumeration table; three enumeration members have none (last theorem)."},
 {"property": "C06", "status": "proved", "theorems": ["C06_terminates", "C06_defaults_terminates", "C06_return_code", "C06_problem_untouched", "C06_problem_members", "C06_idempotent", "C06_defaults_only_unset", "C06_user_settings_kept", "C06_unknown_method_writes_violated"], "note": "The mutual recursion of set_method and set_defaults is modelled with a depth bound that is proved irrelevant."},
 {"property": "C07", "status": "partial", "theorems": ["C07_defaults_accepted_partial", "C07_block_violated", "C07_constraints_violated", "C07_constraints_room_violated", "C07_ldevecs_frozen_violated"], "note": "True for one-vector blocks without constraints or with seven free directions, and for larger blocks when the free directions hold 35 vectors and six blocks; the witnesses refute the claim for small problems with constraints or large blocks."},
 {"property": "C08", "status": "partial", "theorems": ["C08_check_is_first_violated", "C08_codes_nonzero", "C08_accepts_iff", "C08_accepts_iff_manual_partial", "C08_reported_error_is_real", "C08_restart_size_n_accepted_violated", "C08_negative_eps_rejected_violated"], "note": "check_input returns the first violated constraint of a written-out priority list; the list departs from the manual in the cases of the two refutations."},
 {"property": "C09", "status": "proved", "theorems": ["C09_check_is_first_violated", "C09_accepts_iff", "C09_accepted_inputs"], "note": "The check returns the code of the first violated rule of the manual's list, and accepts exactly the inputs violating none."},
 {"property": "C10", "status": "partial", "theorems": ["C10_terminates", "C10_documented_operators", "C10_supported", "C10_stage_problems", "C10_smaller_side", "C10_stage_rows", "C10_stage_norm", "C10_stage_target", "C10_order_preserved", "C10_mirror_not_preferred", "C10_closest_abs_partial", "C10_reused_rows_violated", "C10_closest_abs_violated"], "note": "Presets choose the documented operators and each stage's eigenproblem has the right size, target and order. Refuted: with closest_abs the normal equations order by |\u03c3\u00b2-\u03c4\u00b2|; a structure reused for another shape keeps stale local row counts."},
 {"property": "C11", "status": "proved", "theorems": ["C11_words_valid", "C11_user_words_kept", "C11_distinct", "C11_last_word_odd", "C11_even_user_word_violated", "C11_same_user_seed_violated"], "note": "The property as stated is proved for every process number; the two refutations record what it does not promise (even last word or equal words supplied by the user are kept)."},
 {"property": "C12", "status": "proved", "theorems": ["C12_query", "C12_callback_types", "C12_failed_call_reports_none", "C12_solver_sees_checked_input", "C12_query_drops_guesses_violated", "C12_svds_query", "C12_svds_missing_array"], "note": "Both solvers. For every solver behaviour (the solver is an arbitrary function). The query also resets initSize, so initial guesses announced before it are forgotten."},
 {"property": "C13", "status": "partial", "theorems": ["C13_coordinated", "C13_incoherent_all_return", "C13_all_or_none_partial", "C13_agreeing_processes_pass_partial", "C13_difference_detected", "C13_hash_transport_violated", "C13_local_check_violated", "C13_local_array_violated", "C13_exit_buffer_partial", "C13_exit_buffer_violated"], "note": "Any number of processes. Holds when the processes' input checks agree; refuted when only one process fails its input check (the others wait for ever), when a parameter's hash is a signalling NaN (agreeing processes fail with -43), and for the buffer of the exit code with mixed precision."},
 {"property": "C14", "status": "partial", "theorems": ["C12_failed_call_reports_none", "C14_size_partial", "C14_success_partial", "C14_entries_partial", "C14_converted_violated", "C14_kept_violated", "C14_stale_violated"], "note": "For every run of the control structure of the main iteration from an accepted input, with arbitrary answers of the kernels (restrictions as in C16). The clause on a failure before iterating and the bounds hold. The leading initSize entries are locked pairs (locking) or accepted pairs of the last projected problem (no locking), except in three cases proved as _violated: converted output arrays with locking and full success are not copied back; a limit reached while recomputing the products after a failed final test reports pairs and writes none; a basis smaller than numEvals makes the final test and the copy read columns never written."},
 {"property": "C15", "status": "partial", "theorems": ["C15_outer", "C15_no_new", "C15_overshoot_partial", "C15_overshoot_violated", "C15_stops_partial", "C15_stops_violated"], "note": "The two clauses on outer iterations hold for any parameters and answers. The bound on the overshoot has extra terms (initial basis, guesses, verification), and without them it is false. Termination, with an explicit bound on the number of loop tests, needs the conditions of C15_Progress; without them it is false, also when maxOuterIterations is set."},
 {"property": "C16", "status": "partial", "theorems": ["C16_safe_partial", "C16_sizes_partial", "C16_safe_violated"], "note": "For every run of the control structure of the main iteration, with arbitrary answers of the numerical kernels, from any accepted input: no array is accessed out of bounds and the sizes stay consistent. Partial: n > 2, at most one target shift when blocks are combined with harmonic or refined projection, and guesses left over after the initial basis only when maxBasisSize + numEvals + numOrthoConst <= n. Without the condition on shifts the claim is false: C16_safe_violated."},
 {"property": "C17", "status": "proved", "theorems": ["C17_locked_pairs_sorted_and_paired", "C17_lock_phase_completes"], "note": "Insertion of locked pairs by insertionSort over any history of lock phases, followed by the final permute_vecs."},
 {"property": "C18", "status": "proved", "theorems": ["C18_permute_vecs_gather", "C18_permute_vecs_rejects", "C18_permute_ints_gather"], "note": "Flat memory model with explicit leading dimension; out of range or aliasing accesses are a separate outcome."},
 {"property": "C19", "status": "proved", "theorems": ["C19_decisions", "C19_frame", "C19_safe", "C19_default_test"], "note": "For every user test (any state, any answer, any error), every range of pairs, every locked part and every mode of checking: which pairs are left alone, refused by their side of the shift, accepted by the test, accepted as practically converged or refused, with what arguments the test is called, which entries change, and that no array is left. The projection kernel is an oracle."},
 {"property": "C20", "status": "partial", "theorems": ["C20_success_leaves_heap_unchanged_partial", "C20_machinery_never_fails_partial", "C20_disciplined_calls_terminate_partial", "C20_failed_call_releases_everything", "C20_driver_error_leaks_context_violated", "C20_record_failure_violated"], "note": "All call trees and all patterns of failing data allocations. Two refutations: on every error return the two context blocks stay allocated; a failing allocation of a tracking record is ignored and makes the later free undefined."},
 {"property": "C21", "status": "proved", "theorems": ["C21_terminates", "C21_frame", "C21_code", "C21_orthonormal", "C21_factorisation", "C21_replaced_iff", "C21_kern_exact"], "note": "Termination, what is touched and the return code hold for any arithmetic. Orthonormality, the factorisation and the exact criterion for replacement by random vectors hold in exact arithmetic with real scalars (the complex case is not modelled). The block variant is not covered by this property."},
 {"property": "C22", "status": "partial", "theorems": ["C22_order_without_locking", "C22_numbering_without_locking", "C22_block_without_locking", "C22_order_with_locking", "C22_retained_without_locking", "C22_before_without_locking", "C22_retained_with_locking_partial", "C22_retained_with_locking_violated"], "note": "The reordering is proved a permutation with accepted pairs first (without locking) or kept pairs in order (with locking), with consistent numbering, block indices and sizes. With locking the pairing of retained previous vectors holds only when the pairs to be locked lie before the columns that receive them; the violation theorem gives the failing case."},
 {"property": "C23", "status": "proved", "theorems": ["C23_ritz_values_in_target_order", "C23_interior_needs_shift"], "note": "Hermitian Rayleigh-Ritz ordering for all six targets; LAPACK eigenvalues enter as an arbitrary ascending list."},
 {"property": "C24", "status": "partial", "theorems": ["C24_modes", "C24_switches", "C24_saturated", "C24_off", "C24_slowdown", "C24_recommendation_partial", "C24_rightX_partial", "C24_collective_partial", "C24_rightX_violated", "C24_exit_violated", "C24_collective_violated"], "note": "Modes, switches, slow-down and the saturated case are proved for every history, clock and arithmetic (NaN and infinity included). The recommendation is proved for the exits that give one (leaving by the test of the outer loop hands back 1 to 4: C24_exit_violated). RightX follows the method only after the first switch (C24_rightX_violated). Processes decide alike if they agree on whether a QMR time was measured; they need not (C24_collective_violated)."},
 {"property": "C25", "status": "partial", "theorems": ["C25_columns_partial", "C25_single", "C25_clean", "C25_own", "C25_stopped", "C25_limit_partial", "C25_budget_partial", "C25_memory_violated", "C25_projector_violated", "C25_stride_violated", "C25_position_violated", "C25_budget_violated", "C25_wrap_violated"], "note": "Exact arithmetic, no mass matrix. A block of one column, or whose columns stop from the last to the first, gets the solutions of the single equations. In any other order the solver reads inner products stored by position at the index of the column, some of them never written (C25_memory_violated), and permutes the array of the left projector twice (C25_projector_violated). Stopped columns are never touched again and the products are at most blockSize times the limit, for every order; the limit itself is exceeded by a block (C25_budget_violated) and wraps if it does not fit an int (C25_wrap_violated)."},
 {"property": "C26", "status": "proved", "theorems": ["C26_products", "C26_each_column_once", "C26_failure_reported", "C26_preconditioner"], "note": "Operator of every stage in terms of the user's products, column by column, for any block size, leading dimensions and buffer size. Exact products assumed of the user only through the callback itself."},
 {"property": "C27", "status": "partial", "theorems": ["C27_AtA", "C27_AAt_partial", "C27_AAt_constraints_violated", "C27_augmented_in", "C27_augmented_out", "C27_augmented_unit"], "note": "Full layout statement for A'A and the augmented matrix. For AA' it is refuted when there are orthogonality constraints and mLocal differs from nLocal (offset of the right block), proved otherwise. BLAS kernels and the user's product as functions on columns."},
 {"property": "C28", "status": "partial", "theorems": ["C28_sequence_and_codes", "C28_call", "C28_reported_range", "C28_reported_values", "C28_kept_triplets", "C28_kept_norms_violated", "C28_budget_partial", "C28_budget_violated", "C28_products_counted"], "note": "For every eigensolver, product, test and monitor. Sequence, codes, kept triplets and counts are proved. Refuted: the residual norms of kept triplets are multiplied by sqrt(2) on return; the products the driver makes itself are outside the budget (the bound is proved for the eigensolver's products)."},
 {"property": "C29", "status": "partial", "theorems": ["C29_counters_agree_partial", "C29_counters_monotone", "C29_emulated_broadcast_violated", "C29_mass_products_counted_violated", "C29_exit_reduction_violated", "C29_svds_broadcasts_not_reset_violated"], "note": "For every history of successful operator, reduction and broadcast calls. The singular value solver does not reset its broadcast counters (refuted). Refuted for three kinds of calls: emulated broadcasts count twice, mass matrix products count as matrix products, the reduction of the exit code is not counted."},
 {"property": "C30", "status": "partial", "theorems": ["C30_matrix_product", "C30_preconditioner", "C30_mass_product_partial", "C30_mass_product_fails_violated", "C30_mass_product_misread_violated", "C30_convergence_test_partial", "C30_convergence_test_violated", "C30_embedded_reduction_type_partial", "C30_embedded_reduction_type_violated"], "note": "Proved for the matrix product and the preconditioner with every pair of types. The mass matrix product is converted back with the type of the matrix product, the convergence test gets the unconverted vector and the singular value interface does not forward the reduction type."},
 {"property": "C31", "status": "proved", "theorems": ["C31_pack", "C31_unpack", "C31_round_trip", "C31_update_symmetric", "C31_update_full", "C31_built_blockwise"], "note": "All processes execute update_projection on a memory model of Z; row distribution and number of processes are arbitrary; gemm is exact arithmetic over a commutative ring."},
 {"property": "C32", "status": "partial", "theorems": ["C32_broadcast_value", "C32_delivers_root", "C32_frame", "C32_processes_agree", "C32_small_integers_exact", "C32_stored_code", "C32_projected_solution", "C32_projected_frame", "C32_nothing_uninitialised", "C32_lossy_type_violated", "C32_uninitialised_code_violated"], "note": "Any number of processes and both kinds of broadcast, including the packing of the projected solution. Refuted when the communication type cannot represent the data (indices through half or float, also changed on the root) and for the uninitialised error flag."},
 {"property": "C33", "status": "partial", "theorems": ["C33_sizes", "C33_used", "C33_room", "C33_safe_partial", "C33_guesses_in_order", "C33_guesses_kept_partial", "C33_size", "C33_products", "C33_each_column_once", "C33_kernels_ok", "C33_guesses_kept_violated", "C33_safe_violated"], "note": "For every accepted input: order and count of the guesses, size, orthonormality, one product per column. Partial because two clauses are false of the code: guesses beyond the restart size are dropped with a Krylov start and no locking, and mode \"user\" writes outside the basis when the block is larger than the basis; both are proved as _violated with witnesses accepted by the input check. The orthogonalisation is an oracle with a contract."},
 {"property": "C34", "status": "partial", "theorems": ["C34_extreme_shift_between_partial", "C34_interior_shift_between_partial", "C34_robust_shift_bounds", "C34_single_ritz_value_violated", "C34_interior_shift_nan_violated"], "note": "Bounds hold except in two corner cases, both refuted: a single Ritz value with nothing locked reads sortedRitzVals[-1]; a zero residual with the Ritz value equal to the target gives 0/0."},
 {"property": "C35", "status": "proved", "theorems": ["C35_merge_is_sorted_and_indices_match", "C35_short_flags_leave_ilev_unset"], "note": "Requires the flags to mark at least blockSize pairs as unconverged; what happens otherwise is the second theorem."},
 {"property": "C36", "status": "partial", "theorems": ["C36_eigs_partial", "C36_single_partial", "C36_stage1_partial", "C36_stage1_quiet", "C36_stage2_partial", "C36_no_memory", "C36_stage1_norms_violated", "C36_stage1_locked_violated", "C36_augmented_values_violated", "C36_augmented_norms_violated", "C36_stage2_norms_violated", "C36_stage2_sign_violated", "C36_adaptive_violated", "C36_inner_given_violated"], "note": "For every run and every place where the solver reports: the arrays have the announced lengths and hold each pair's own value and state, the user sees the running totals, and the statistics are as before after the call. The norms are right for the normal equations in a single stage and in the first stage while nothing is locked. The code violates the rest: first-stage norms are divided by another pair's value, the augmented operator reports uninitialised singular values and norms divided (not multiplied) by sqrt 2, negative values in the second stage, -1 locked pairs in adaptive inner iterations."},
 {"property": "C37", "status": "proved", "theorems": ["C37_columns", "C37_columns_in_place", "C37_rows", "C37_scan", "C37_compact"], "note": "Column and row gathers and the no-copy test of Num_compact_vecs on flat memory."},
 {"property": "C38", "status": "partial", "theorems": ["C38_harmonic", "C38_harmonic_inner", "C38_harmonic_code", "C38_normal_test_partial", "C38_augmented_test_partial", "C38_monitor_partial", "C38_test_violated", "C38_monitor_violated"], "note": "Target and shifts are restored by the harmonic extraction at every failure point. The matrix norm and the statistics are restored after every call of the user's test or monitor that does not fail; when it fails the code leaves them changed (and counts the statistics twice), which is proved as a violation."},
 {"property": "C39", "status": "partial", "theorems": ["C39_documented_settings_partial", "C39_relTolBase", "C39_plusK_retained", "C39_window_sizes", "C39_locking_zero_violated", "C39_locking_zero_fresh_violated", "C39_jdqr_inner_violated", "C39_jdqmr_retain_violated", "C39_jdqmr_etol_skewX_violated", "C39_plusK_retain_violated", "C39_window_sizes_violated"], "note": "Every entry of the manual's table is either proved or refuted by a concrete structure."},
 {"property": "C40", "status": "partial", "theorems": ["C40_copy_matrix_partial", "C40_shift_one_column_violated", "C40_shift_rows_violated", "C40_triangle_partial", "C40_triangle_zero_violated", "C40_triangle_rows_violated", "C40_conj", "C40_scale_partial", "C40_scale_violated"], "note": "Proved for non-overlapping operands, in-place leading-dimension changes and shifts the test recognises; two overlap situations are refuted. Copies of triangles: proved without overlap, for shifts downwards by less than a column and for shifts into unused rows; other shifts upwards, and setting the rest to zero with both operands in one place, are refuted. Conjugate transposes are proved in full. Scaled columns: proved without overlap, in place and towards lower addresses; shifts upwards are refuted."},
 {"property": "C41", "status": "partial", "theorems": ["C41_first_stage", "C41_second_stage", "C41_second_stage_closest", "C41_more_shifts_than_values_violated", "C41_reused_structure_violated", "C41_compare", "C41_compare_order", "C41_unsorted", "C41_compare_violated"], "note": "For every run that does not fail. Refuted: with the normal equations more shifts than singular values overflow the driver's array; a structure used before keeps the previous array of shifts for the second stage; and the comparison given to qsort is not consistent for equal shifts, which there are whenever the first stage leaves two values to be found (undefined in the C standard; the model takes qsort to sort them nevertheless)."},
 {"property": "C42", "status": "partial", "theorems": ["C42_terminates", "C42_block", "C42_first", "C42_counted", "C42_frame", "C42_floor_partial", "C42_floor_violated"], "note": "Order, completeness and consistency of the block, the counting of converged pairs and termination hold for every call that meets the stated requirements. Partial because the last clause is false: residual norms computed after some pair of the block was kept are not raised (loop bound), shown by the violation theorem; it holds for blocks of one pair."},
 {"property": "C43", "status": "proved", "theorems": ["C43_permutation", "C43_closest", "C43_inherit", "C43_zero_violated"], "note": "For all coefficient matrices (real, exact arithmetic) whose previous columns are not zero, which coefficient vectors of a projected problem never are. C43_zero_violated shows that this condition is needed."},
 {"property": "C44", "status": "partial", "theorems": ["C44_delivery_partial", "C44_converted_violated"], "note": "For every size, permutation and contents, when the array has the working precision or its leading dimension is nLocal. Refuted otherwise: the final permutation uses the leading dimension of the structure on the converted copy and leaves it or mixes the vectors. Rounding of the conversion is not modelled."},
 {"property": "C45", "status": "proved", "theorems": ["C45_normal", "C45_augmented", "C45_residual", "C45_default", "C45_default_normal"], "note": "Real scalars in exact arithmetic, one process. The residual norm handed to the test by the normal equations is the triplet's for a singular value that is not zero; for zero it is a division by zero. What happens to the structure when the user's test fails is C38."},
 {"property": "C46", "status": "partial", "theorems": ["C46_dot", "C46_axpy", "C46_scal", "C46_gemv", "C46_gemm", "C46_too_large", "C46_gemm_dhd", "C46_gemm_ddh_partial", "C46_overlaps_partial", "C46_deflate_partial", "C46_dot_violated", "C46_gemm_violated", "C46_gemm_ddh_violated", "C46_overlaps_violated", "C46_deflate_violated", "C46_deflate_row_violated"], "note": "The BLAS routines themselves are taken as specified by the reference BLAS. The code departs from the property for strided vectors longer than the BLAS integer, for complex products of one row and one column (the row is conjugated), for processes without rows in the projector of the inner solver (uninitialised memory is added), and for the vector orthogonalisation in working precision when the columns have padding; each departure has a witness and the partial theorems exclude it."},
 {"property": "C47", "status": "partial", "theorems": ["C47_offered_partial", "C47_locked_partial", "C47_basis_partial", "C47_plan_without_locking", "C47_plan_with_locking", "C47_locking_violated"], "note": "Exact arithmetic; the eigensolver for the projected matrix and the orthogonalisation are taken with their contracts. Rayleigh-Ritz extraction, with or without mass matrix. Restarts without locking are covered when no initial guesses are pending and numEvals <= minRestartSize (which the solver checks); restarts with locking when every pair to be locked lies before the columns of the previous vectors. The code does not guarantee the latter: C47_locking_violated is a run in which a restart then offers a value that is not the Rayleigh quotient of its vector."},
 {"property": "C48", "status": "partial", "theorems": ["C48_count_partial", "C48_near_partial", "C48_minmax_partial", "C48_massCount_partial", "C48_massNear_partial", "C48_massMinmax_partial"], "note": "Same runs as C47, in exact arithmetic; eigenvalues as in Mathlib's spectral theorem, and for a pencil as families of eigenpairs orthonormal in the inner product of the mass matrix."},
 {"property": "C49", "status": "partial", "theorems": ["C49_tested", "C49_conditioned", "C49_succeeds", "C49_span", "C49_orthogonal", "C49_stored", "C49_factor_partial", "C49_factor_violated", "C49_overflow_violated"], "note": "Span, independence, stored inner products, factor and conditioning are proved for every block; the coefficients are right when the loop ends through its test and wrong when it runs out of turns (double precision witness), and the overflow guard looks at the wrong entry. Real scalars, exact arithmetic except in C49_tested."},
 {"property": "C50", "status": "partial", "theorems": ["C50_f90_partial", "C50_f77_partial", "C50_names_violated", "C50_session", "C50_sessionSvds", "C50_callback", "C50_shift", "C50_signatures_partial", "C50_signaturesSvds_partial", "C50_signatures_violated", "C50_memory_violated", "C50_roundtrip_partial"], "note": "The Fortran 90 interface binds the C functions directly, so only its constants are modelled. Departures: one misspelt constant in the Fortran 77 header and none for orth, documented argument lists that the library does not have (primme_set_method_f77 and the member routines; primme_svds_initialize_f77 and primme_svds_free_f77), and an initialisation without memory that reports nothing. The labels of C01 without getter or setter are excluded in the round trip."},
 {"property": "C51", "status": "partial", "theorems": ["C51_normal_partial", "C51_left_partial", "C51_normalCount_partial", "C51_normalNear_partial", "C51_leftNear_partial", "C51_normalMinmax_partial", "C51_augmented_partial", "C51_augmentedCount_partial", "C51_augmentedNear_partial", "C51_normal_violated", "C51_augmented_violated"], "note": "Same runs as C47, in exact arithmetic, with the two normal equations and the augmented problem. Residual norms reported are exact when aNorm bounds the norm of the matrix (normal equations) or the halves of the vector have equal norms (augmented), and can be too small otherwise; the distance to the exact singular values holds in all cases."},
 {"property": "C52", "status": "partial", "theorems": ["C52_offered_partial", "C52_factors_partial", "C52_bounds_partial", "C52_refined_partial", "C52_first_partial", "C52_harmonic_partial", "C52_count_partial", "C52_tail_without_locking", "C52_tail_with_locking", "C52_retained_violated", "C52_order_violated", "C52_harmonic_violated", "C52_target_violated"], "note": "For Rayleigh-Ritz the promise is part of C47_offered_partial. Refined and harmonic runs in exact arithmetic, without Gram matrices; restarts compute the factors anew or, with the refined extraction, keep them. Missing for the latter: singular values that are zero among the vectors kept, or equal beyond the arbitrary vectors, and the values of retained vectors. Departures: the value of a retained vector is not its Rayleigh quotient after such a restart, targets other than the closest ones put the worst vector first, the harmonic value is the Rayleigh quotient so its residual is not orthogonal to (A - tau) V, and an extremal target without shifts is accepted but the first shift is read."},
 {"property": "C53", "status": "partial", "theorems": ["C53_problem", "C53_which", "C53_tuning", "C53_method", "C53_callbacks", "C53_nothing_else", "C53_extra", "C53_defined", "C53_rejects", "C53_accepts", "C53_vectors", "C53_arrays_partial", "C53_result", "C53_unconverged", "C53_errors_partial", "C53_get_partial", "C53_callback", "C53_errors_violated", "C53_tol_violated", "C53_arrays_violated", "C53_get_names_violated", "C53_get_null_violated", "C53_method_violated", "C53_guess_violated"], "note": "Python values are integers, floats, strings or objects; arrays are two-dimensional. Departures: a call the library rejects raises nothing and returns no values; tol is not ignored with a convergence test; extra keyword arguments can make the arrays too small; thirteen documented names cannot be read and reading an object that is not set is undefined; the documented names of the methods are not accepted and names of other constants are; a guess of one row is replicated. maxiter, documented as a number of iterations, limits the products."},
 {"property": "C54", "status": "partial", "theorems": ["C54_problem", "C54_which", "C54_limit_partial", "C54_pairs", "C54_callbacks", "C54_nothing_else", "C54_extra", "C54_method", "C54_defined_partial", "C54_rejects", "C54_prevec", "C54_accepts_partial", "C54_vectors_partial", "C54_arrays_partial", "C54_result", "C54_errors_partial", "C54_code", "C54_callback", "C54_precond_partial", "C54_one_violated", "C54_constraints_violated", "C54_vectors_violated", "C54_rnorms_violated", "C54_precond_violated", "C54_limit_violated", "C54_defined_violated", "C54_arrays_violated", "C54_errors_violated", "C54_unconverged_violated", "C54_method_violated"], "note": "Same reading of Python values as C53. Departures: one array of a pair (only left or only right guesses or constraints) always raises; constraints without guesses always raise, and with one guess the first right constraint is repeated; residual norms are returned for all the triplets asked for, converged or not; the preconditioner callback reads its input with the leading dimension of the output and takes results stored by rows for columns; maxiter is multiplied by the block size and halved; iseed as an integer is undefined behaviour; numSvals as an extra argument makes the arrays too small; rejected calls raise nothing; raise_for_unconverged never raises because the library never returns -3 (C54_code)."},
 {"property": "C55", "status": "partial", "theorems": ["C55_reports_partial", "C55_reports_fixed_partial", "C55_reports_precond_partial", "C55_stops_partial", "C55_improves_partial", "C55_precond_violated", "C55_skew_violated"], "note": "No mass matrix; blocks as in C25 (columns stopping from the last to the first, in particular single columns). With a preconditioner the residual norms are bounds, with factors growing with the iterations, and only for the two configurations of right projectors named in C55_reports_precond_partial. Departures: the default projectors of JDQMR with a preconditioner give a correction not orthogonal to x and a value that is not the Rayleigh quotient; skew projectors for both the converged vectors and x leave components along the converged vectors. The last iteration of an equation is not reported."},
 {"property": "C56", "status": "partial", "theorems": ["C56_problem", "C56_which", "C56_options", "C56_method", "C56_nothing_else", "C56_defined", "C56_rejects", "C56_vectors", "C56_arithmetic", "C56_accepts", "C56_result", "C56_errors", "C56_stats_partial", "C56_function", "C56_products", "C56_matching", "C56_matching_B_partial", "C56_methods_violated", "C56_options_violated", "C56_LM_violated", "C56_prec_violated", "C56_massType_violated", "C56_massParts_violated", "C56_convTest_violated", "C56_count_violated", "C56_limit_violated", "C56_stats_violated", "C56_dimension_violated"], "note": "R values are NULL, vectors of integers, doubles or strings; NA and NaN given by the user are not modelled, nor the products with sparse matrices. Departures: none of the documented names of method and only eight of the twenty documented options are accepted; \"LM\" without targetShifts is refused by the library; a preconditioner matrix is used as solve(prec, x), not prec %*% x; a real B with a function or complex A is read past its end, a complex B with a real A is misread, unless isreal is given; the convergence test does not get the vector; a number of values just below a whole number is cut; large limits become -2^31 and large statistics wrap; for a function without n, another option whose name begins with n is taken for it."},
 {"property": "C57", "status": "partial", "theorems": ["C57_problem", "C57_which", "C57_options", "C57_nothing_else", "C57_method", "C57_defined", "C57_rejects", "C57_accepts", "C57_vectors", "C57_arithmetic", "C57_result", "C57_errors", "C57_stats_partial", "C57_function", "C57_modes", "C57_products", "C57_partner_partial", "C57_methods_violated", "C57_options_violated", "C57_stageName_violated", "C57_partner_violated", "C57_matrixClass_violated", "C57_count_violated", "C57_limit_violated", "C57_stats_violated", "C57_dimension_violated"], "note": "R values as in C56. Departures: the documented method primme_svds_normalequation, option minRestartSize and list primmeStage1 raise; right vectors made from complex left ones use the transpose, not its conjugate; vectors of one side alone are refused when the product with the matrix is no plain matrix; a number of values just below a whole number is cut; large limits become -2^31 and large statistics wrap; for a function without m, another option whose name begins with m is taken for it. Products with sparse matrices are not modelled."},
 {"property": "C58", "status": "partial", "theorems": ["C58_unique", "C58_update_partial", "C58_preset", "C58_single_partial", "C58_constraints_violated", "C58_pointer_violated", "C58_second_violated", "C58_mixed_violated"], "note": "The building blocks are right for any sizes when the leading dimension of the factors is given (C58_update_partial); the run of the solver is right for at most one vector in all (C58_single_partial). Departures: the solver passes leading dimension zero, so two constraints, or two converged pairs at a restart, end in a LAPACK failure; without mass matrix or without locking the first restart with a converged pair gives the user's preconditioner an address computed from NULL; with one constraint the data of the converged vector takes the place of that of the constraint. LAPACK is taken by its documentation; assertions are compiled out."},
 {"property": "C59", "status": "partial", "theorems": ["C59_computed", "C59_removed", "C59_unique", "C59_total", "C59_sound", "C59_norms", "C59_decision", "C59_shortcut", "C59_overlap_partial", "C59_overlap_violated", "C59_gram_violated"], "note": "The decision is settled in both directions for orthonormal constraints and locked vectors (C59_decision), on top of C19. Departures: with explicit Gram matrices the system with the matrix is solved but its solution is not used, so for vectors that are not orthonormal another vector is measured (never too small without mass matrix); with constraints the correction of the shortcut reads another block of the Gram matrix. The sites that call the test and the order of the processes' messages are those of C19 and C35."},
 {"property": "C60", "status": "partial", "theorems": ["C60_update", "C60_placed_soft", "C60_placed_lock", "C60_placed_cand", "C60_placed_copy", "C60_restart_locking", "C60_restart_soft", "C60_candidates", "C60_last", "C60_explicit", "C60_recorded_partial", "C60_recorded_violated", "C60_estimates_partial", "C60_estimates_violated"], "note": "Everything about the vectors, products, residuals, inner products and norms is proved for the four calls (the refined restart's own call with Q is not modelled). Departures: when candidates were already chosen, the loop that raises norms below the estimate of their error stops too early; the estimates of the norms of the mass matrix and its inverse are the square roots of what the manual says."},
 {"property": "C61", "status": "partial", "theorems": ["C61_davidson_partial", "C61_cheap", "C61_cheap_violated", "C61_error_violated", "C61_unique", "C61_block_violated", "C61_failure_partial", "C61_failure_violated", "C61_left_partial", "C61_left_violated", "C61_right_partial", "C61_right_violated", "C61_evecs", "C61_shifts_partial", "C61_shifts_violated", "C61_preset_violated"], "note": "Proved for every option except the departures, each stated: Robust without preconditioner, mass matrix or implicit correction adds the residual alone; SkewX without RightX is accepted (the preset PRIMME_JDQMR uses it); in a block each correction is orthogonal only to its own vector; a preconditioner failing in Olsen's method goes unnoticed and elsewhere gives another code than documented; with a mass matrix and no locking the left and right projectors are wrong; without target shifts the array of shifts is read out of bounds."},
 {"property": "C62", "status": "partial", "theorems": ["C62_once", "C62_pace", "C62_taken_partial", "C62_taken_violated"], "note": "Order, single use and pace are proved for every run. That the columns read as guesses hold no found pair is proved when at most minRestartSize pairs are locked in a step; when more converge at once, found pairs overwrite guesses that are then read."},
 {"property": "C63", "status": "partial", "theorems": ["C63_ritz_partial", "C63_factors_partial", "C63_batch_violated", "C63_refined_violated", "C63_norm_violated", "C63_reset_violated"], "note": "Proved with locking and without resets: for Rayleigh-Ritz when pairs are accepted one at a time and the norm is below 1/eps, for refined and harmonic extraction with one-sided targets. Departures: several pairs passing one test are all accepted for one shift; the refined extraction with the target closest in absolute value keeps the old shift; a misplaced parenthesis in restart_RR keeps the old order when the norm is 1/eps or more; a reset goes back to the first shift."},
 {"property": "C64", "status": "partial", "theorems": ["C64_seen_partial", "C64_inside_partial", "C64_tolerance_partial", "C64_aNorm_violated", "C64_of_C47"], "note": "Proved for the runs of C47 (Rayleigh-Ritz, exact arithmetic; with locking, pairs to be locked before the retained vectors). Refined and harmonic extraction are missing. Departure: aNorm is documented to be replaced on return and never is."},
 {"property": "C65", "status": "partial", "theorems": ["C65_problem", "C65_options", "C65_parameters", "C65_nothing_else", "C65_method", "C65_methods", "C65_default", "C65_tolerance", "C65_which", "C65_functions", "C65_arrays", "C65_result", "C65_order", "C65_errors", "C65_rejects", "C65_unknown", "C65_norms_violated", "C65_guesses_violated", "C65_normal_violated", "C65_switchedOff_violated", "C65_values_violated", "C65_noPrec_violated", "C65_profiler_violated", "C65_limit_violated", "C65_massSize_violated", "C65_square_violated"], "note": "The library is an arbitrary function of the call; reports, profiles and GPU arrays are missing. Departures: the norms are not sorted with interior values and vectors; more guesses than values return more vectors than values; real normal matrices have no solver; precondition=0 disables a given preconditioner; [] for targetShifts or a preconditioner and logical option values are errors; the documented option profiler is unknown; limits beyond int are undefined; the order of B is not compared with DIM; rectangular A is accepted when ishermitian is false."},
 {"property": "C66", "status": "partial", "theorems": ["C66_problem", "C66_options", "C66_parameters", "C66_nothing_else", "C66_tolerance_partial", "C66_which", "C66_method", "C66_methods", "C66_functions", "C66_constraints", "C66_guesses_partial", "C66_arrays", "C66_result", "C66_order", "C66_errors", "C66_preconditioner_partial", "C66_factor", "C66_struct", "C66_modes", "C66_rejects", "C66_unknown", "C66_unknownStage", "C66_guesses_violated", "C66_rectangular_violated", "C66_stageOptions_violated", "C66_profiler_violated", "C66_tolerance_violated", "C66_norms_violated", "C66_precondition_violated", "C66_limit_violated"], "note": "The library is an arbitrary function of the call; reports, profiles and GPU arrays are missing. Departures: v0 is replaced by A'*u0 when both are given without constraints, and u0 alone is an error with them; preconditioners given as matrices or functions are refused for every matrix that is not square; tol, maxit and p are unknown among the options of a stage; the documented option profiler is unknown; the default tolerance of a sparse matrix in single precision is below what it can reach; the norms are not sorted with the values; precondition=0 has no effect; limits beyond int are undefined."},
 {"property": "C67", "status": "proved", "theorems": ["C67_block", "C67_basis", "C67_products", "C67_order"], "note": "Exact arithmetic. The coefficient vectors are any (what they hold is in C22 and C43). The locking of the pairs that pass is in C19."},
 {"property": "C68", "status": "partial", "theorems": ["C68_silent", "C68_errors_partial", "C68_errors_violated", "C68_outer", "C68_inner", "C68_converged", "C68_locked_partial", "C68_lock_line_violated", "C68_process", "C68_process_violated", "C68_history_partial", "C68_history_out_violated", "C68_history_inn_violated", "C68_svds_outer", "C68_svds_converged", "C68_svds_locked_partial", "C68_svds_inner", "C68_augmented_violated"], "note": "Fails: at level 1 (the default) no error message is printed; the line of a locked pair begins with Lock and not with #Lock and has one less than the number of locked pairs; with profiling every process prints from level 2; for normal problems the fields that the manual plots are the letter i and the norm of the linear system; with the augmented operator alone a number never written is printed. Singular values in two stages: only what the reports say (C36). The digits of the numbers are not modelled."},
 {"property": "C69", "status": "partial", "theorems": ["C69_eigs_honest", "C69_eigs_safe", "C69_eigs_all_partial", "C69_eigs_determines_partial", "C69_defaults_violated", "C69_svds_honest", "C69_svds_all_partial", "C69_svds_safe_partial", "C69_svds_null_violated"], "note": "Fails: orth and internalPrecision have no line while they have the default that primme_initialize sets; the display of the singular value solver reads through a NULL pointer when shifts are announced and not given, which the display of the eigensolver does not. Proved for every other value. The digits of the numbers are not modelled."},
 {"property": "C70", "status": "proved", "theorems": ["C70_clusters", "C70_bounds", "C70_apart", "C70_angles", "C70_newest", "C70_tolerance", "C70_resume", "C70_other", "C70_reach", "C70_call_reach", "C70_candidates_violated", "C70_example", "C70_example_one"], "note": "The decisions hold for any test of two neighbours, hence for any arithmetic; C70_angles is for the test with real numbers. C70_call_reach shows that the clusters are those that the runs of C52 may have. C70_candidates_violated is about a comment in the code on an option that the solver never uses."},
 {"property": "C71", "status": "partial", "theorems": ["C71_types", "C71_types_partial", "C71_reuse_violated", "C71_matrix", "C71_orth", "C71_available", "C71_working", "C71_driver"], "note": "Fails for a structure used in one precision and later in another: the first call replaces the default types for good, and the functions keep getting vectors in the precision of the first call. Which precision they get is proved exactly for every history, and agrees with the manual when the calls since a function was set are in one precision. Rounding levels and errors are proved in full."},
 {"property": "C72", "status": "partial", "theorems": ["C72_reported_partial", "C72_hegv_violated", "C72_potrf", "C72_sizes_partial", "C72_sizes_violated", "C72_empty", "C72_workspace"], "note": "Fails in two cases: with USE_XHEGV, as the R package is compiled, the code of xhegv is not looked at and a failure in a generalized dense problem gives zero; and LU factorizations and triangular systems cast sizes without a test, so that a leading dimension beyond 2^31 reaches BLAS cut. Proved for all the other functions. What LAPACK computes is not modelled."},
 {"property": "C73", "status": "partial", "theorems": ["C73_solves_partial", "C73_mirror", "C73_first", "C73_one", "C73_again_violated"], "note": "Fails with USE_ZGESV, as the R package is compiled: each solve calls xGESV, which replaces the matrix by its factors, and the next solve takes the factors for the matrix. Proved for the default build, and for the first solve with USE_ZGESV. What LAPACK returns is taken from its documentation, in exact arithmetic."}
]}
