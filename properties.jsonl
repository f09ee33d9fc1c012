{"id": "C01", "title": "Parameter set/get round trip (eigenproblem)", "statement": "After a successful primme_set_member(p, label, v), primme_get_member(p, label, &w) succeeds and w equals v for every label and every value that fits the member's C type, and every other member reads back exactly what it read before.", "quantifier": "every label, every representable value, every prior contents of primme_params", "why_tests_cant": "89 labels times the full range of 64-bit and pointer values and of prior struct contents cannot be enumerated; interference between members is a for-all-pairs claim.", "anchors": ["src/eigs/primme_interface.c:primme_get_member", "src/eigs/primme_interface.c:primme_set_member", "include/primme_eigs.h:primme_params_label"]}
{"id": "C02", "title": "Rejected parameter writes have no effect and accepted writes are exact", "statement": "primme_set_member returns non-zero without modifying the structure whenever the label is unknown or the value does not fit the member; it never stores a value different from the one given.", "quantifier": "every label (known or not), every 64-bit value, every prior structure", "why_tests_cant": "The failing values lie at the far ends of a 64-bit range for each of the int members.", "anchors": ["src/eigs/primme_interface.c:primme_set_member"]}
{"id": "C03", "title": "Member names and labels are a bijection and types are coherent", "statement": "primme_member_info(label, name, type, arity) maps every published label to a name that maps back to the same label, with the type and arity under which primme_get_member/primme_set_member access it.", "quantifier": "every label and every name string", "why_tests_cant": "A string table is only checkable for the names a test author thought of; injectivity is a for-all-pairs statement.", "anchors": ["src/eigs/primme_interface.c:primme_member_info", "include/primme_eigs.h:primme_params_label"]}
{"id": "C04", "title": "Parameter set/get round trip and rejection (singular value problem)", "statement": "primme_svds_set_member/primme_svds_get_member satisfy the round trip, independence and rejection laws of C01/C02 for every primme_svds_params member.", "quantifier": "every label, every representable value, every prior structure", "why_tests_cant": "As C01 and C02.", "anchors": ["src/svds/primme_svds_interface.c:primme_svds_get_member", "src/svds/primme_svds_interface.c:primme_svds_set_member", "include/primme_svds.h:primme_svds_params_label"]}
{"id": "C05", "title": "Enum constant names and values are mutually inverse", "statement": "primme_enum_member_info(label, &value, &name) translates each enum constant of a member to its name and back to the same constant, agrees with primme_constant_info, and fails (without writing) for anything else.", "quantifier": "every label, every value, every name string", "why_tests_cant": "Names are arbitrary strings and values are arbitrary ints.", "anchors": ["src/eigs/primme_interface.c:primme_enum_member_info", "src/eigs/primme_interface.c:primme_constant_info", "include/primme_eigs.h:primme_preset_method"]}
{"id": "C06", "title": "Selecting a preset method is total, idempotent and keeps user settings", "statement": "primme_set_method terminates for every structure and method, returns 0 exactly for published methods, never changes the members describing the problem (matrix, numEvals, target, tolerances, arrays), and calling it twice equals calling it once.", "quantifier": "every method value, every prior structure contents", "why_tests_cant": "The set_method/set_defaults pair is mutually recursive and branches on about fifteen members; the space of prior structures is unbounded.", "anchors": ["src/eigs/primme_interface.c:primme_set_method", "src/eigs/primme_interface.c:primme_set_defaults"]}
{"id": "C07", "title": "Defaulted parameters are accepted", "statement": "For every problem with n >= 1, 1 <= numEvals <= n, valid target data and at least n - numOrthoConst >= numEvals free dimensions, the structure produced by primme_initialize + problem description + primme_set_method(any preset) passes the solver's own input check, and defaults are only given to members the user left unset.", "quantifier": "every n, numEvals, numOrthoConst, block size, target, preset method", "why_tests_cant": "An unbounded family of sizes with interacting integer roundings; small n are the corner cases.", "anchors": ["src/eigs/primme_interface.c:primme_set_defaults", "src/eigs/primme_c.c:check_input"]}
{"id": "C08", "title": "Input validation is exact and its error codes are prioritised", "statement": "The driver's input check returns 0 if and only if every documented constraint holds, and otherwise returns the code of the first violated constraint in the documented order; a non-zero code means the solver has not run and the output arrays are untouched.", "quantifier": "every primme_params contents and every combination of NULL arrays", "why_tests_cant": "About forty interacting conditions over unbounded integers.", "anchors": ["src/eigs/primme_c.c:check_input", "src/eigs/primme_c.c:wrapper_Sprimme"]}
{"id": "C09", "title": "Input validation is exact (singular value problem)", "statement": "primme_svds's input check returns 0 iff every documented constraint holds and otherwise the first violated constraint's code; accepted inputs always have a valid method pair.", "quantifier": "every primme_svds_params contents and every combination of NULL arrays", "why_tests_cant": "Unbounded integers and method combinations.", "anchors": ["src/svds/primme_svds_c.c:primme_svds_check_input"]}
{"id": "C10", "title": "SVD method selection and stage configuration", "statement": "primme_svds_set_method followed by the driver's configuration always yields a supported (stage 1, stage 2) operator pair; the eigenproblem handed to each stage has the dimension, target and tolerance implied by the operator (n for A'A, m for AA', m+n for augmented).", "quantifier": "every method value, every m, n and target", "why_tests_cant": "Unbounded dimensions and combinations of method, stage and target.", "anchors": ["src/svds/primme_svds_interface.c:primme_svds_set_method", "src/svds/primme_svds_interface.c:primme_svds_set_defaults", "src/svds/primme_svds_interface.c:copy_params_from_svds"]}
{"id": "C11", "title": "Random seeds are valid and differ between processes", "statement": "The seed used by each process after the driver's normalisation has its four words in [0,4095], keeps user-given words, and when all words are defaulted any two of the first 4096^3 processes get different seeds with an odd last word.", "quantifier": "every process number and every user seed", "why_tests_cant": "Pairwise distinctness over 2^36 processes.", "anchors": ["src/eigs/primme_c.c:wrapper_Sprimme (iseed)"]}
{"id": "C12", "title": "Query-style call", "statement": "Calling the driver with evals, evecs and resNorms all NULL returns 0 (on a coherent structure), performs no matrix product and reports no converged pairs.", "quantifier": "every parameter structure", "why_tests_cant": "Ranges over all parameter structures.", "anchors": ["src/eigs/primme_c.c:wrapper_Sprimme", "src/eigs/primme_c.c:Xprimme_aux", "src/svds/primme_svds_c.c:wrapper_svds_Sprimme"]}
{"id": "C13", "title": "Coordinated exit across processes", "statement": "If any process of a parallel run fails its local check, every process returns a non-zero code (its own code if it has one, PRIMME_PARALLEL_FAILURE otherwise); if none fails every process continues.", "quantifier": "every number of processes and every assignment of local results", "why_tests_cant": "Ranges over process counts and all combinations of local outcomes.", "anchors": ["src/eigs/primme_c.c:coordinated_exit", "src/eigs/primme_c.c:check_params_coherence"]}
{"id": "C14", "title": "Reported number of converged pairs on return", "statement": "On return initSize is 0 whenever the call failed before iterating, and otherwise is the number of leading entries of the outputs that hold computed approximations, never more than the arrays hold; return value 0 means at least numEvals pairs were accepted (or the whole space was spanned).", "quantifier": "every parameter structure, every outcome of the numerical kernels", "why_tests_cant": "Depends on every possible interleaving of convergence, locking, restart and failure events.", "anchors": ["src/eigs/primme_c.c:Xprimme_aux", "src/eigs/main_iter.c:main_iter_Sprimme"]}
{"id": "C15", "title": "Iteration and product limits are respected", "statement": "The solver stops: the number of outer iterations never exceeds maxOuterIterations, no new outer iteration is started once numMatvecs reaches maxMatvecs, and the overshoot beyond maxMatvecs is bounded by the work of one outer iteration.", "quantifier": "every parameter structure, every history of numerical outcomes", "why_tests_cant": "A liveness/bound statement over all histories.", "anchors": ["src/eigs/main_iter.c:main_iter_Sprimme", "src/eigs/inner_solve.c:inner_solve_Sprimme"]}
{"id": "C16", "title": "Search space never outgrows its allocation", "statement": "At every point of the run the basis has at most maxBasisSize vectors, a block has at most maxBlockSize vectors and the block fits in the remaining basis space, so no basis array is written out of range.", "quantifier": "every parameter structure accepted by the input check, every history", "why_tests_cant": "A safety invariant over unbounded histories of blocks, restarts and lockings.", "anchors": ["src/eigs/main_iter.c:main_iter_Sprimme", "src/eigs/restart.c:restart_Sprimme", "src/eigs/init.c:init_basis_Sprimme"]}
{"id": "C17", "title": "Locked pairs are kept in target order with their data attached", "statement": "With locking, whatever the order in which pairs converge, the reported evals are ordered as the target prescribes and evals[i], resNorms[i] and evecs[i] describe the same pair.", "quantifier": "every sequence of locked pairs, every target and list of shifts", "why_tests_cant": "Ranges over all arrival orders and values.", "anchors": ["src/eigs/auxiliary_eigs_normal.c:insertionSort_Sprimme", "src/eigs/main_iter.c:main_iter_Sprimme", "src/linalg/auxiliary.c:permute_vecs_Sprimme"]}
{"id": "C18", "title": "In-place vector permutation is a gather", "statement": "permute_vecs(vecs, perm) leaves vecs[i] = old vecs[perm[i]] for every permutation perm, moves every vector's entries as a unit, does not touch the padding rows, and restores perm.", "quantifier": "every dimension, leading dimension, number of vectors and permutation", "why_tests_cant": "n! permutations for every n.", "anchors": ["src/linalg/auxiliary.c:permute_vecs_Sprimme", "src/linalg/auxiliary.c:permute_vecs_iprimme"]}
{"id": "C19", "title": "Convergence decisions are sound", "statement": "A pair is flagged converged only if its residual norm passed the user's convergence test or is below the accuracy already attained, and, for closest_geq/closest_leq targets, only if the residual interval is not entirely on the wrong side of the shift.", "quantifier": "every set of Ritz values, residual norms, flags, targets and user tests", "why_tests_cant": "Ranges over all real data and an arbitrary user callback.", "anchors": ["src/eigs/convergence.c:check_convergence_Sprimme", "src/eigs/convergence.c:check_practical_convergence", "src/eigs/primme_c.c:convTestFunAbsolute"]}
{"id": "C20", "title": "No leak and no double free on any path", "statement": "Whatever the nesting of internal calls and wherever an error or an allocation failure strikes, every tracked allocation is released exactly once and successful calls leave no tracked allocation behind except those deliberately kept for the caller.", "quantifier": "every call tree, every allocation history, every failure point", "why_tests_cant": "A crash-point/failure-point quantifier over all call trees.", "anchors": ["src/linalg/memman.c", "src/include/common.h:MEM_PUSH_FRAME", "src/include/common.h:MEM_POP_FRAME", "src/include/common.h:CHKERR", "src/eigs/primme_c.c:Xprimme_aux"]}
{"id": "C21", "title": "Orthogonalisation delivers an orthonormal factorisation and terminates", "statement": "In exact arithmetic, when the Gram-Schmidt orthogonalisation succeeds the new vectors are orthonormal, orthogonal to the locked vectors and previous basis, and (where no vector was replaced by a random one) old V = new V * R; it always stops after a bounded number of passes whatever the data.", "quantifier": "every input vectors, every inner product, every random replacement", "why_tests_cant": "Real data of unbounded dimension; termination for every data.", "anchors": ["src/eigs/ortho.c:Bortho_gen_Sprimme", "src/eigs/ortho.c:ortho_Sprimme"]}
{"id": "C22", "title": "Restart reorderings are permutations that put converged pairs first", "statement": "At a restart the reordering applied to the Ritz pairs is a permutation of the basis that places the retained converged pairs first and keeps the relative order otherwise; values, flags and residuals are reordered consistently.", "quantifier": "every flag assignment, basis size, converged count", "why_tests_cant": "2^basisSize flag assignments for every basis size.", "anchors": ["src/eigs/restart.c:restart_soft_locking_Sprimme", "src/eigs/restart.c:restart_locking_Sprimme", "src/eigs/restart.c:restart_Sprimme"]}
{"id": "C23", "title": "Ritz pairs are presented in target order", "statement": "For each target, the ordering given to the Ritz values of the projected problem is a permutation of them, ordered as the target prescribes relative to the current shift.", "quantifier": "every list of Ritz values in ascending order, every target and shift", "why_tests_cant": "Real-valued lists of every length.", "anchors": ["src/eigs/solve_projection.c:solve_H_RR_Sprimme"]}
{"id": "C24", "title": "Dynamic method switching is a well-formed state machine", "statement": "With PRIMME_DYNAMIC the run alternates only between GD+k and JDQMR, the method parameters always agree with the mode, the cost model's slow-down estimate stays within [1.1, 2.5] whatever the clock returns, the processes of a parallel run take the same decisions, and on exit the member dynamicMethodSwitch holds one of the documented recommendations.", "quantifier": "every timing and convergence history", "why_tests_cant": "Driven by wall-clock timings; quantifies over all histories.", "anchors": ["src/eigs/main_iter.c:switch_from_JDQMR", "src/eigs/main_iter.c:switch_from_GDpk", "src/eigs/main_iter.c:update_slowdown", "src/eigs/main_iter.c:main_iter_Sprimme"]}
{"id": "C25", "title": "Inner solver: every column of a block gets its own solution", "statement": "While columns of the block solver of the correction equations converge at different iterations, each column gets the solution it would get alone, no result depends on uninitialised memory, a column that has stopped is not changed any more, and the solver stops after at most the limit of iterations and of products derived from maxInnerIterations and maxMatvecs.", "quantifier": "every block size, every order in which columns converge, every operator, preconditioner and stopping test", "why_tests_cant": "Ranges over all interleavings of column convergence.", "anchors": ["src/eigs/inner_solve.c:inner_solve_Sprimme", "src/eigs/inner_solve.c:perm_set_value_on_pos", "src/eigs/correction.c:setup_JD_projectors"]}
{"id": "C26", "title": "SVD operator products cover every column exactly once", "statement": "The normal-equations (A'A, AA') and augmented products handed to the eigensolver are computed for every column of the block exactly once with the user's products, whatever the block limit, and their result is A'Ax, AA'x or [A'u; Av].", "quantifier": "every block size and block limit, every user operator", "why_tests_cant": "Ranges over all block sizes/limits and operators.", "anchors": ["src/svds/primme_svds_c.c:matrixMatvec_eigs", "src/svds/primme_svds_c.c:applyPreconditioner_eigs"]}
{"id": "C27", "title": "Singular vector layout conversions lose nothing", "statement": "The in-place conversions between the user's [Uc U Vc V] layout and the eigensolver's layouts (V only, U only, stacked [V;U]) deliver to each stage the vectors the user gave and return to the user every computed vector in its documented place.", "quantifier": "every m, n, number of constraints and vectors", "why_tests_cant": "In-place overlapping moves for all sizes.", "anchors": ["src/svds/primme_svds_c.c:copy_last_params_from_svds", "src/svds/primme_svds_c.c:copy_last_params_to_svds"]}
{"id": "C28", "title": "SVD stages: sequencing, error codes and budget", "statement": "The second stage runs only if configured and the first returned 0; a failure of stage 1 or 2 is returned as code-100 or code-200; triplets already converged are kept and the total of kept plus requested triplets is numSvals; products of both stages together stay within maxMatvecs plus one outer iteration per stage.", "quantifier": "every outcome of both stages, every budget", "why_tests_cant": "Ranges over all stage outcomes and counts.", "anchors": ["src/svds/primme_svds_c.c:wrapper_svds_Sprimme", "src/svds/primme_svds_c.c:copy_last_params_from_svds", "src/svds/primme_svds_c.c:copy_last_params_to_svds"]}
{"id": "C29", "title": "Statistics agree with the calls made", "statement": "Between two calls of the driver, stats.numMatvecs / numPreconds / numGlobalSum / numBroadcast and their volumes equal the number of columns or scalars passed to the corresponding user callbacks, they never decrease during a run and start from zero in every run.", "quantifier": "every history of callback invocations and failures", "why_tests_cant": "Every history.", "anchors": ["src/eigs/auxiliary_eigs.c:matrixMatvec_Sprimme", "src/eigs/auxiliary_eigs.c:massMatrixMatvec_Sprimme", "src/eigs/auxiliary_eigs.c:applyPreconditioner_Sprimme", "src/eigs/auxiliary_eigs.c:globalSum_RHprimme", "src/eigs/auxiliary_eigs.c:broadcast_RHprimme", "src/svds/primme_svds_c.c:wrapper_svds_Sprimme"]}
{"id": "C30", "title": "Precision conversion around callbacks", "statement": "When the user's operators or the caller's arrays are in a different precision than the computation, every callback sees its inputs converted to its declared type and its outputs are converted back; without conversion no copy is made.", "quantifier": "every pair of precisions, every operator", "why_tests_cant": "Combinations of declared types, internal precision and callback.", "anchors": ["src/linalg/auxiliary.c:Num_matrix_astype_Sprimme", "src/eigs/auxiliary_eigs.c:massMatrixMatvec_Sprimme", "src/eigs/auxiliary_eigs_normal.c:convTestFun_Sprimme", "src/svds/primme_svds_c.c:convTestFunSVDS_Sprimme", "src/eigs/primme_c.c:wrapper_Sprimme"]}
{"id": "C31", "title": "Packed symmetric matrix exchange is lossless", "statement": "Packing the upper triangle of the projected matrix for a global sum and unpacking it returns the element-wise sum in the upper triangle and touches nothing else, for every size and leading dimension; the packed length is n(n+1)/2-like.", "quantifier": "every matrix, size, offset and leading dimension", "why_tests_cant": "All sizes and offsets.", "anchors": ["src/linalg/auxiliary.c:Num_copy_trimatrix_compact_Sprimme", "src/linalg/auxiliary.c:Num_copy_compact_trimatrix_Sprimme", "src/eigs/update_projection.c:update_projection_Sprimme"]}
{"id": "C32", "title": "Broadcast delivers the root's data", "statement": "After a broadcast every process holds process 0's data, both when the user provides broadcastReal and when it is emulated with globalSumReal; small dense problems are therefore solved identically everywhere.", "quantifier": "every number of processes and every data", "why_tests_cant": "All process counts and data.", "anchors": ["src/eigs/auxiliary_eigs.c:broadcast_RHprimme", "src/eigs/solve_projection.c:solve_H_brcast_Sprimme"]}
{"id": "C33", "title": "Initial basis construction", "statement": "The initial search space consumes the user's initial guesses in order, its size never exceeds maxBasisSize or the free dimension, and block-Krylov filling writes each column of the requested range exactly once.", "quantifier": "every combination of sizes and init mode", "why_tests_cant": "All size combinations.", "anchors": ["src/eigs/init.c:init_basis_Sprimme", "src/eigs/init.c:init_block_krylov"]}
{"id": "C34", "title": "Preconditioner and correction shifts are safe", "statement": "The shift used for preconditioning a Ritz pair lies between the robust bound and the Ritz value (extreme targets) or between the target shift and the Ritz value (interior targets), and its computation never reads outside the arrays of Ritz values.", "quantifier": "every sorted list of Ritz values, residual norms and positions", "why_tests_cant": "Real data of all lengths.", "anchors": ["src/eigs/correction.c:solve_correction_Sprimme", "src/eigs/correction.c:computeRobustShift", "src/eigs/correction.c:mergeSort"]}
{"id": "C35", "title": "Merging locked and basis Ritz values", "statement": "The list used for robust shifts is the sorted merge of locked values and basis Ritz values, and the index reported for each block vector points to its own Ritz value in that list.", "quantifier": "every pair of lists in target order and every flag assignment", "why_tests_cant": "All lists.", "anchors": ["src/eigs/correction.c:mergeSort"]}
{"id": "C36", "title": "Monitor reports describe the run", "statement": "The arrays passed to the user's monitor have the announced lengths, the singular-value monitor receives for every value in the basis its own singular value and residual norm, and calling the monitor leaves the statistics as they were.", "quantifier": "every basis/locked configuration and event", "why_tests_cant": "All configurations.", "anchors": ["src/svds/primme_svds_c.c:monitor_stage1", "src/svds/primme_svds_c.c:monitor_single_stage", "src/svds/primme_svds_c.c:monitor_stage2"]}
{"id": "C37", "title": "Sub-matrix gather utilities", "statement": "Column/row compaction and gathering with index lists copy exactly the selected entries, also in place when the indices are increasing.", "quantifier": "every matrix, index list and leading dimension", "why_tests_cant": "All sizes and index lists.", "anchors": ["src/linalg/auxiliary.c:Num_copy_matrix_columns_Sprimme", "src/linalg/auxiliary.c:Num_compact_vecs_Sprimme", "src/linalg/auxiliary.c:Num_copy_trimatrix_Sprimme"]}
{"id": "C38", "title": "Temporary changes of user parameters are undone", "statement": "Whenever the solver temporarily overwrites a user-visible parameter (target and shifts in harmonic extraction, aNorm around SVD convergence tests, statistics around monitor calls) the original value is back when control returns to the user, on success and on error.", "quantifier": "every parameter structure and every failure point", "why_tests_cant": "Every failure point.", "anchors": ["src/eigs/solve_projection.c:solve_H_Harm_Sprimme", "src/svds/primme_svds_c.c:convTestFunATA", "src/svds/primme_svds_c.c:monitor_single_stage"]}
{"id": "C39", "title": "Preset methods set what the manual says", "statement": "After primme_set_method with a published method every parameter listed for that method in the manual has the documented value.", "quantifier": "every published method, every prior structure contents", "why_tests_cant": "Sixteen methods and an unbounded space of prior structures; several documented values depend on other members.", "anchors": ["src/eigs/primme_interface.c:primme_set_method", "readme.txt:Preset Methods"]}
{"id": "C40", "title": "Matrix copies honour overlapping operands", "statement": "Copying an m x n matrix between two column-major locations of the same allocation leaves the destination equal to the old source and everything else unchanged, in each of the overlap situations the routine claims to support. The same holds for copying its upper or lower triangle, with the rest of the destination kept or set to zero, for conjugate transposes, and for copies with scaled columns.", "quantifier": "all sizes, leading dimensions and pairs of positions of source and destination, including overlapping ones", "why_tests_cant": "Overlap corner cases depend on the exact distance between operands relative to the leading dimension; tests exercise a handful of layouts.", "anchors": ["src/linalg/blaslapack.c: Num_copy_matrix_Sprimme", "src/linalg/auxiliary.c:Num_copy_trimatrix_Sprimme", "src/linalg/auxiliary.c:Num_copy_matrix_conj_Sprimme", "src/linalg/auxiliary.c:Num_scale_matrix_Sprimme"]}
{"id": "C41", "title": "Shifts handed to the stages of a singular value computation", "statement": "The eigensolver of the first stage gets the user's shifts (their squares for the normal equations, as they are for the augmented matrix), however many they are; that of the second stage gets the user's shifts, or, when the smallest values are sought, one shift per value in increasing order that never exceeds the corresponding exact singular value by more than the rounding level, so that no wanted value is skipped.", "quantifier": "every configuration, every outcome of the first stage satisfying its own error bound", "why_tests_cant": "Ranges over all values, norms and numbers of shifts.", "anchors": ["src/svds/primme_svds_c.c:copy_last_params_from_svds", "src/svds/primme_svds_c.c:copy_last_params_to_svds"]}
{"id": "C42", "title": "The next block holds the first unconverged pairs", "statement": "At each iteration the pairs that are corrected are the first ones that have not converged, in order, each once, with its own vector, residual and residual norm; as many as the block, the free part of the basis and the number of missing pairs allow. A pair is counted as converged only if the convergence test of that iteration accepted it and it is among the pairs asked for. Residual norms below the level of their own error are raised to it before they are tested.", "quantifier": "every basis, every block handed over from the previous step, every answer of the convergence test and every reordering of the pairs", "why_tests_cant": "Ranges over all histories of converged and unconverged pairs and all answers of a user supplied test.", "anchors": ["src/eigs/main_iter.c:prepare_candidates"]}
{"id": "C43", "title": "State of a pair is carried to exactly one pair of the next projected problem", "statement": "Between outer iterations every new candidate pair inherits the acceptance state of the closest still unassigned candidate of the previous iteration; the assignment is a permutation, so no accepted pair is lost or counted twice, and pairs without predecessor keep their place.", "quantifier": "every pair of coefficient matrices without zero columns, every size", "why_tests_cant": "Duplicated or lost assignments depend on angle ties and on all combinations of coefficient vectors.", "anchors": ["src/eigs/solve_projection.c:map_vecs_Sprimme", "src/eigs/main_iter.c:prepare_candidates"]}
{"id": "C44", "title": "Eigenvectors arrive in their columns of the caller's array", "statement": "After a call the vector of the j-th returned value is column numOrthoConst+j of evecs for every reported pair, whatever the precision of the array, its leading dimension and the order in which the pairs were found; the constraint vectors, the padding rows and the columns after the wanted ones are unchanged.", "quantifier": "every size, leading dimension, permutation and contents of the arrays", "why_tests_cant": "Requires combinations of mixed precision, padded arrays and out-of-order convergence.", "anchors": ["src/eigs/primme_c.c:wrapper_Sprimme", "src/eigs/main_iter.c:main_iter_Sprimme", "src/linalg/auxiliary.c:Num_matrix_astype_Sprimme"]}
{"id": "C45", "title": "The convergence test for triplets is asked about the triplet", "statement": "A user's convergence test for singular triplets is asked about the singular value, the residual norm of the triplet, the vectors of the side(s) the operator computes and the norm of the matrix, and its answer and its failures are handed on unchanged; pairs of the normal equations whose residual is at the limit of the arithmetic are accepted without asking. The default test accepts a triplet of the augmented problem only if the vectors, once normalised, have a singular value that is not negative and an actual residual norm below the tolerance.", "quantifier": "every eigenpair, every user test, every matrix, vectors of any length", "why_tests_cant": "Ranges over all values, vectors, matrices and all answers of a user supplied routine.", "anchors": ["src/svds/primme_svds_c.c:convTestFunATA", "src/svds/primme_svds_c.c:convTestFunAug", "src/svds/primme_svds_c.c:compute_resNorm", "src/svds/primme_svds_c.c:default_convTestFun"]}
{"id": "C46", "title": "Vectors and matrices may have any layout", "statement": "The products the library forms with the caller's and its own vectors use exactly the described elements: for every number of rows, columns, leading dimension and stride the result is that of the formula, elements outside the described matrix (padding) are neither used nor changed, a process without rows adds nothing, and a dimension that BLAS cannot represent is reported instead of used.", "quantifier": "every size, layout, contents and number of processes; real and complex; with and without conversion of precision", "why_tests_cant": "Wrong offsets show only for particular leading dimensions, sizes beyond the integer of BLAS or processes without rows.", "anchors": ["src/linalg/blaslapack.c:Num_gemm_Sprimme", "src/linalg/blaslapack.c:Num_gemv_Sprimme", "src/linalg/blaslapack.c:Num_gemm_ddh_Sprimme", "src/linalg/blaslapack.c:Num_gemv_ddh_Sprimme", "src/eigs/ortho.c:Bortho_gen_Sprimme", "src/eigs/inner_solve.c:apply_skew_projector"]}
{"id": "C47", "title": "Every pair offered or locked is a Ritz pair", "statement": "With the default extraction, in exact arithmetic, every pair the solver offers to the convergence test or locks, at any time and after any number of restarts, is a Ritz pair of the search space: the vector has norm one in the inner product of the mass matrix B, the value is its Rayleigh quotient, the residual whose norm is reported is A x - value B x; the vectors are orthogonal to each other, to the constraints and to the locked vectors; the basis is orthonormal and the projected matrix is the operator seen in it.", "quantifier": "every operator, inner product, start, sequence of expansions and restarts, convergence pattern and number of retained vectors", "why_tests_cant": "The reorderings at a restart depend on which pairs converged and in which order; tests see few of these patterns.", "anchors": ["src/eigs/main_iter.c:main_iter_Sprimme", "src/eigs/restart.c:restart_Sprimme", "src/eigs/restart.c:restart_locking_Sprimme", "src/eigs/restart.c:restart_soft_locking_Sprimme", "src/eigs/restart.c:restart_RR", "src/eigs/update_projection.c:update_projection_Sprimme"]}
{"id": "C48", "title": "Values are as accurate as their residual norms say", "statement": "In exact arithmetic, every value offered or locked is within its residual norm of an eigenvalue; several pairs, locked or offered, with values in an interval account for at least as many eigenvalues, with multiplicity, in the interval widened by the root of the sum of their squared residual norms (no ghost copies); and the values offered are never ahead of the spectrum: the k-th smallest is not below the k-th smallest eigenvalue, the k-th largest not above the k-th largest. With a mass matrix that is bounded below by beta the same holds of the pencil, with the residual norms divided by the root of beta.", "quantifier": "every self-adjoint operator on a real or complex space of any finite dimension, and every run", "why_tests_cant": "A test compares with known spectra of a few matrices; the bound must hold for all.", "anchors": ["src/eigs/main_iter.c:main_iter_Sprimme", "src/eigs/restart.c:restart_locking_Sprimme", "src/eigs/convergence.c:check_convergence_Sprimme"]}
{"id": "C49", "title": "Adding a block of directions keeps the search space, its inner products and its conditioning", "statement": "With orth = primme_orth_explicit_I, the default for maxBlockSize > 1, new directions enter the basis in blocks. In exact arithmetic the locked vectors and the basis then span exactly what they and the given directions span, directions that depend on others are dropped and the rest is kept, the columns kept are orthogonal to each other and to everything before, the stored matrix V'BV and its Cholesky factor are those of the new basis, and the coefficients that are given back recover the given directions. Whatever the rounding, a basis whose stored inner products passed the test has condition number at most three.", "quantifier": "every block of any size, every locked set and basis, dependent and zero directions, every mass matrix, every way the decompositions resolve ties", "why_tests_cant": "Dependent, tiny or repeated directions take other branches (eigendecomposition instead of Cholesky, several sweeps); tests see few of them.", "anchors": ["src/eigs/ortho.c:Bortho_block_gen_Sprimme", "src/eigs/ortho.c:Num_ortho_kernel", "src/eigs/ortho.c:decomposition", "src/eigs/ortho.c:rank_estimation", "src/eigs/ortho.c:update_cholesky_Sprimme"]}
{"id": "C50", "title": "A Fortran program gets what the same C program gets", "statement": "The constants of the Fortran headers are the enumerators of the C headers with the same values; a Fortran program that initialises a structure, sets and reads members, sets a preset, solves and frees the structure gets the codes and values the same calls in C give, whatever the library does in them, and after the call that frees the handle is null and no other handle or structure has changed; calls written with the arguments of the manual are well defined; positions of the shifts start at 1.", "quantifier": "every sequence of calls, label, value, handle and state of the other structures; all constants", "why_tests_cant": "A wrong constant or a swapped argument affects single labels or routines; the headers are maintained by hand in four copies.", "anchors": ["src/eigs/primme_f77.c", "src/svds/primme_svds_f77.c", "include/primme_eigs_f77.h", "include/primme_eigs_f90.inc", "include/primme_svds_f77.h", "include/primme_svds_f90.inc"]}
{"id": "C51", "title": "How far singular values are from the exact ones", "statement": "In exact arithmetic, a returned triplet has vectors of norm one, with the normal equations A v = s u (or A' u = s v) and the reported norm is that of the residual sqrt(|A v - s u|^2 + |A' u - s v|^2); the singular value is within the residual norm of an exact one, a group of triplets has as many exact singular triplets near it (with multiplicity), and the largest values offered never exceed the exact ones.", "quantifier": "every matrix, real or complex, every run of the eigensolver on the normal equations or the augmented problem, every triplet locked or offered", "why_tests_cant": "Needs a proof about spectra; tests compare with known matrices only, and multiplicities and unbalanced vectors are rare.", "anchors": ["src/svds/primme_svds_c.c:copy_last_params_to_svds", "src/svds/primme_svds_c.c:matrixMatvecSVDS", "src/svds/primme_svds_c.c:Num_scalInv_Smatrix", "src/eigs/main_iter.c"]}
{"id": "C52", "title": "Each extraction picks the vectors the manual describes", "statement": "With the refined extraction the vector offered first is a unit vector of the search space for which |(A - tau) x| is smallest, and each further one is smallest among those orthogonal to the ones before, up to rotations inside clusters; with the harmonic extraction the first vector x satisfies x - mu (A - tau) x orthogonal to (A - tau) V; with both, the value is the Rayleigh quotient, the vectors offered are orthonormal and orthogonal to the locked ones and the constraints, and a group of pairs has as many exact eigenvalues within its residual norm.", "quantifier": "every Hermitian operator, real or complex, every shift, every sequence of expansions, cluster rotations and restarts with changing shifts, every size of the basis", "why_tests_cant": "A test sees one converged answer, which is the same for all extractions; what is promised is about every intermediate search space.", "anchors": ["src/eigs/solve_projection.c:solve_H_Ref_Sprimme", "src/eigs/solve_projection.c:solve_H_Harm_Sprimme", "src/eigs/solve_projection.c:prepare_vecs_Sprimme", "src/eigs/update_W.c:update_Q_Sprimme", "src/eigs/restart.c:restart_refined", "src/eigs/restart.c:restart_harmonic", "src/eigs/main_iter.c", "readme.txt:projectionParams.projection"]}
{"id": "C53", "title": "The Python function eigsh solves the problem its arguments describe", "statement": "When eigsh calls the library, the parameters are those its documentation string describes for the arguments: operator, dimension, number and kind of eigenvalues, point, tolerance, limit, constraints, guesses, preconditioner, sizes, preset method and extra keyword arguments, and every other parameter has its default; the arrays have the sizes the library writes to and the callbacks their element type; bad arguments raise before the library is called and good ones reach it; the pairs returned are those the library found, in its order, and failures raise PrimmeError; get_eigsh_param returns the value of any documented name.", "quantifier": "every combination of arguments, extra keyword arguments and answers of the library", "why_tests_cant": "The combinations of some twenty optional arguments cannot be enumerated, and mistakes show only in the parameters the library receives.", "anchors": ["Python/primme.pyx:eigsh", "Python/primme.pyx:__primme_params_set", "Python/primme.pyx:__primme_params_get", "Python/primme.pyx:get_eigsh_param", "Python/primme.pyx:c_matvec_gen_numpy", "Python/primme.pyx:PrimmeError"]}
{"id": "C54", "title": "The Python function svds solves the problem its arguments describe", "statement": "When svds calls the library, the parameters are those its documentation string describes for the arguments: matrix, dimensions, number and kind of singular values, tolerance, limit, constraints, guesses, preconditioners of the three operators, preset methods and extra keyword arguments, and every other parameter has its default; left and right vectors lie where the library expects them in an array of the size it needs; bad arguments raise before the library is called and good ones reach it, without undefined behaviour; the triplets returned are those the library found, with their residual norms; failures and, on request, missing triplets raise PrimmeSvdsError; the operator and preconditioner callbacks apply what the library asks for to the block it passes.", "quantifier": "every combination of arguments, extra keyword arguments, answers of the library and calls back", "why_tests_cant": "The combinations of some twenty optional arguments cannot be enumerated, and mistakes show only in the parameters and arrays the library receives.", "anchors": ["Python/primme.pyx:svds", "Python/primme.pyx:c_svds_matvec_numpy", "Python/primme.pyx:c_svds_precond_numpy", "Python/primme.pyx:PrimmeSvdsError", "src/svds/primme_svds_c.c:wrapper_svds_Sprimme"]}
{"id": "C55", "title": "What the inner solver tells the monitor is true", "statement": "At every inner iteration the monitor is told about, with an adaptive convergence test the approximate eigenvalue is the Rayleigh quotient of the vector being improved with the correction computed so far, the residual norm is that of this pair, and the residual norm of the linear system is that of the correction equation; with another test the first two are those the correction started with; the correction is orthogonal to the vector and the converged ones; when the inner solver stops an equation without breakdown, the tolerance bounds the residual norm of the equation.", "quantifier": "every symmetric matrix, preconditioner, shift, approximate eigenvector, number of converged vectors, block size, number of inner iterations, in exact arithmetic", "why_tests_cant": "The numbers come from short recurrences; whether they are the quantities they stand for needs induction over the iterations.", "anchors": ["src/eigs/inner_solve.c:inner_solve_Sprimme", "src/eigs/inner_solve.c:apply_projected_matrix", "src/eigs/inner_solve.c:apply_projected_preconditioner", "src/eigs/inner_solve.c:apply_skew_projector", "src/eigs/correction.c:setup_JD_projectors", "readme.txt:monitorFun"]}
{"id": "C56", "title": "The R function eigs_sym solves the problem its arguments describe", "statement": "When eigs_sym calls the library, the parameters are those its documentation describes for the arguments: matrix or function, dimension, number and kind of eigenvalues, points, tolerance or convergence test, guesses, constraints, preconditioner, mass matrix, arithmetic, preset method and further options, and every other parameter has its default; the products are those with the given matrix or the results of the given function; bad arguments raise an error before the library is called and good ones reach it, without undefined behaviour; the pairs and statistics returned are those the library left, and failures raise an error.", "quantifier": "every combination of arguments, options and answers of the library, every Hermitian matrix and every block the library passes", "why_tests_cant": "The combinations of the arguments and of some eighty options cannot be enumerated, and mistakes show only in the parameters and arrays the library receives.", "anchors": ["R/R/eigs.R:eigs_sym", "R/src/primmeR.cpp:primme_set_member_rcpp", "R/src/primmeR.cpp:primme_get_member_rcpp", "R/src/primmeR.cpp:xprimme", "R/src/primmeR.cpp:matrixMatvecEigs", "R/src/primmeR.cpp:convTestFunEigs"]}
{"id": "C57", "title": "The R function svds solves the problem its arguments describe", "statement": "When svds calls the library, the parameters are those its documentation describes for the arguments: matrix or function, dimensions, number and kind of singular values, points, tolerance, left and right guesses and constraints (given, or made from those of the other side), preconditioners of the three operators, arithmetic, preset methods, options of the solver and of each stage, and every other parameter has its default; left and right vectors lie where the library expects them; the products are those with the given matrix and its conjugate transpose, or the results of the given function; bad arguments raise an error before the library is called and good ones reach it, without undefined behaviour; the triplets and statistics returned are those the library left, and failures raise an error.", "quantifier": "every combination of arguments, options, nested options and answers of the library, every matrix and every block the library passes", "why_tests_cant": "The combinations of the arguments and options cannot be enumerated, and mistakes show only in the parameters and arrays the library receives.", "anchors": ["R/R/svds.R:svds", "R/src/primmeR.cpp:primme_svds_set_member_rcpp", "R/src/primmeR.cpp:primme_svds_get_member_rcpp", "R/src/primmeR.cpp:xprimme_svds", "R/src/primmeR.cpp:matrixMatvecSvds"]}
{"id": "C58", "title": "The skew projector is the documented one for all the constraints and converged vectors", "statement": "With a preconditioner K and the projectors RightQ and SkewQ (as in the preset PRIMME_JDQR), at every correction equation of a run the right projector is I - KBQ (Q'KBQ)^-1 Q' for the matrix Q of all the constraints and all the vectors converged so far, so that its results are orthogonal to Q; keeping it up to date never makes the solver fail when Q'KBQ can be factorised, and the user's preconditioner is only called with vectors of the solver.", "quantifier": "every number of constraints, every history of restarts with any number of newly converged pairs, with and without mass matrix and locking, every preconditioner and vector, in exact arithmetic", "why_tests_cant": "The projector is built incrementally over the restarts; what a run returns hardly depends on it, so a wrong projector only shows in the inner iterations.", "anchors": ["src/eigs/factorize.c:update_XKinvBX_Sprimme", "src/eigs/factorize.c:MSolve_Sprimme", "src/eigs/init.c:init_basis_Sprimme", "src/eigs/restart.c:restart_projection", "src/eigs/inner_solve.c:apply_skew_projector", "src/eigs/correction.c:setup_JD_projectors", "src/eigs/main_iter.c", "readme.txt:correctionParams.projectors.SkewQ"]}
{"id": "C59", "title": "A pair is accepted as practically converged only when removing the locked directions brings its residual below the tolerance", "statement": "With locking, a pair whose residual norm stays above the tolerance, and that the user's convergence test refuses, is accepted as practically converged exactly when its residual norm is below the attainable bound and the residual without the directions of the constraints and locked vectors has norm at most the tolerance; that vector is the one obtained by subtracting a combination of these vectors and orthogonal to them; the number computed without mass matrix is never below its norm, and the shortcut of the main iteration computes the same number.", "quantifier": "every number of processes and of rows on each, block length, set of constraints and locked vectors, residuals, tolerances, answers of the user's test, real and complex arithmetic, in exact arithmetic", "why_tests_cant": "Practical convergence happens only on runs that stagnate near attainable accuracy; which pairs it accepts on all matrices and distributions cannot be sampled.", "anchors": ["src/eigs/ortho.c:ortho_single_iteration_Sprimme", "src/eigs/convergence.c:check_convergence_Sprimme", "src/eigs/convergence.c:check_practical_convergence", "src/eigs/main_iter.c"]}
{"id": "C60", "title": "Vectors rebuilt at a restart, and the residuals and norms that go with them, are exact for the rebuilt vectors", "statement": "Whenever the solver replaces its vectors by combinations of them (at a restart, with or without locking, when it looks at the next candidates, and when it copies candidates to the user's array at the end), although the work is done in place and by blocks of rows on each process: the new vectors are the combinations asked for; the products with the matrix and the mass matrix kept beside them are those of the new vectors; the residual vectors are A x - value B x of the new vectors; the norms recorded (and returned for locked and copied vectors) are the norms of these residuals, or the estimate of their error when that is larger; the matrices of inner products kept are those of the new vectors; vectors returned before are left alone; and the estimates of the norms of the mass matrix and its inverse are those the manual describes.", "quantifier": "every number of processes and of rows on each, block length, basis and restart sizes, coefficients, constraints and locked vectors, with and without mass matrix, real and complex arithmetic, in exact arithmetic", "why_tests_cant": "The blocks of rows overwrite their own input, and which columns overlap depends on all the sizes; an error shows only for some combination of sizes, number of processes and options, as a result slightly wrong after some restart.", "anchors": ["src/eigs/auxiliary_eigs_normal.c:Num_update_VWXR_Sprimme", "src/eigs/restart.c:Num_aux_update_VWXR_Sprimme", "src/eigs/restart.c:restart_soft_locking_Sprimme", "src/eigs/restart.c:restart_locking_Sprimme", "src/eigs/main_iter.c:prepare_candidates_Sprimme", "src/eigs/main_iter.c"]}
{"id": "C61", "title": "The corrections and the projectors are those the documentation gives for the options chosen", "statement": "Without inner iterations, the vectors added to the search space are what the manual gives for the options RightX and SkewX: the preconditioned residual, the preconditioned residual shifted by the estimate of the error (Robust), or Olsen's correction, the only vector of its form orthogonal to the current vector. With inner iterations, the matrix and the preconditioner used are the matrix minus the shift and the user's preconditioner with exactly the left, right and skew projectors selected in front, over the converged vectors and the current vector. Combinations documented as errors are refused, a failing preconditioner stops the call with the documented code, the converged vectors are left alone and the shifts used for them at a restart are those of their target.", "quantifier": "every space, matrix, mass matrix, preconditioner, block size, number of converged vectors, shifts and options of projectors, real and complex arithmetic, in exact arithmetic", "why_tests_cant": "Wrong corrections or projectors only slow convergence for some matrices; no output of a test shows which direction was added.", "anchors": ["src/eigs/correction.c:solve_correction_Sprimme", "src/eigs/correction.c:Olsen_preconditioner_block", "src/eigs/correction.c:setup_JD_projectors", "src/eigs/inner_solve.c:apply_projected_preconditioner", "src/eigs/inner_solve.c:apply_projected_matrix", "src/eigs/restart.c:restart_locking_Sprimme", "src/eigs/init.c"]}
{"id": "C62", "title": "Each initial guess is used once, and no found pair is mistaken for a guess", "statement": "The initial guesses the user gives are taken in the order given and each at most once; while some are left, every restart tops the basis up with them as documented; and the columns of the user's array that are read as guesses still hold what the user put there, not pairs found meanwhile and stored in the same array.", "quantifier": "every history of restarts, convergences, lockings and resets, every number of guesses, basis sizes and wanted pairs", "why_tests_cant": "The guesses lie in the array where found pairs are stored; whether one overwrites the other depends on how many pairs converge in which iteration, which no test controls.", "anchors": ["src/eigs/main_iter.c", "src/eigs/init.c", "readme.txt:initSize"]}
{"id": "C63", "title": "Each wanted pair is looked for around its own target shift", "statement": "With interior targets, pair i is taken from a projected problem built for the i-th shift of the user's list, or for the last shift when the list is shorter.", "quantifier": "every list of shifts, number of wanted pairs and sequence of convergences, restarts, resets and additions of guesses", "why_tests_cant": "Which shift is in use when a pair is accepted depends on how many pairs pass the test together and on when restarts fall between them.", "anchors": ["src/eigs/main_iter.c", "src/eigs/restart.c:restart_RR", "src/eigs/restart.c:restart_refined", "src/eigs/restart.c:restart_harmonic", "src/eigs/solve_projection.c:solve_H_RR_Sprimme", "readme.txt:targetShifts"]}
{"id": "C64", "title": "The estimates of the spectrum stay inside it, and so does the tolerance built on them", "statement": "The estimates of the smallest and largest eigenvalue and of the largest absolute eigenvalue, readable during and after the call, are the extremes of all Ritz values seen; every value returned lies between the first two; none goes beyond the spectrum; hence, when the user gives no norm of the matrix, a residual that passes the test is below eps times the absolute value of an eigenvalue; and on return the norm the user left unset holds the estimate.", "quantifier": "every run: any number of expansions, restarts, resets and lockings, any matrix and positive definite mass matrix, in exact arithmetic with the Rayleigh-Ritz extraction", "why_tests_cant": "The estimate changes with every projected problem of the run, and pairs accepted early were tested with an estimate that no test observes.", "anchors": ["src/eigs/solve_projection.c:solve_H_Sprimme", "src/eigs/main_iter.c", "src/eigs/auxiliary_eigs.c:problemNorm_Sprimme", "src/eigs/primme_c.c:convTestFunAbsolute", "readme.txt:aNorm"]}
{"id": "C65", "title": "The MATLAB function primme_eigs asks the library for what its arguments say", "statement": "When primme_eigs calls the library, the structure holds the dimension, number of values, operators, constraints, guesses and preconditioner of the arguments; TARGET and the shifts of the help text; the documented tolerance; each option under its short name or its name in the manual; the preset of METHOD applied after the options; and nothing else. The compiled functions and the solver are those for the class of the problem. Each value comes back with its own vector, in descending order for interior targets and in the order of the library otherwise; failures raise; wrong arguments and unknown options are errors before the library runs.", "quantifier": "all arguments, options, methods and answers of the library", "why_tests_cant": "Each option passes through a renaming, a struct, a table of labels and a preset; tests run a few combinations of a space of dozens of options and twenty argument forms.", "anchors": ["Matlab/primme_eigs.m:primme_eigs", "Matlab/primme_mex.cpp:mexFunction_primme_set_member", "Matlab/primme_mex.cpp:mexFunction_xprimme"]}
{"id": "C66", "title": "The MATLAB function primme_svds asks the library for what its arguments say", "statement": "When primme_svds calls the library, the structure holds the dimensions, number of values, operator and preconditioner of the arguments; the target of SIGMA; the documented tolerance; each option under its short name or its name in the manual; the options and methods of both stages; and nothing else. Constraints and guesses are where the library looks for them, with the side that is not given made with the matrix. The preconditioner solves systems with the operator the library asks for. Each value comes back with its own left and right vectors, sorted unless the largest are asked for; failures raise; wrong arguments and unknown options are errors before the library runs.", "quantifier": "all arguments, options, methods and answers of the library", "why_tests_cant": "Each option passes through a renaming, a struct, a table of labels and a preset, for the solver and for each stage, and the preconditioner through three forms and three modes; tests run a few combinations.", "anchors": ["Matlab/primme_svds.m:primme_svds", "Matlab/primme_mex.cpp:mexFunction_primme_svds_set_member", "Matlab/primme_mex.cpp:mexFunction_xprimme_svds"]}
{"id": "C67", "title": "After a restart with locking, the basis, the next block and its norms belong to the pairs they are said to", "statement": "A restart with locking tests the chosen pairs again. The pairs that fail are back in the basis with their values, and the products of the basis with the matrices are those of its vectors. The next block has, in the order of the targets, the first of the pairs that stay, tested or not, each with its residual vector, its product with the mass matrix and the norm of its residual (at least the error estimate for pairs that failed). The matrices of inner products kept for the orthogonalization are those of the new vectors, the vectors locked now included.", "quantifier": "all sizes, flags, answers of the test, numbers of retained vectors, distributions of rows and block lengths", "why_tests_cant": "The columns are moved in place in blocks of rows, from two sources and into overlapping ranges, in an order that depends on which pairs failed; tests hardly ever see a pair fail the second test.", "anchors": ["src/eigs/restart.c:restart_locking_Sprimme", "src/eigs/restart.c:compute_residual_columns"]}
{"id": "C68", "title": "What is printed at each level is what the manual says, with the values of the run", "statement": "Without a monitor of the user's own, the library prints its progress in the output file. At level 0, or without a file, nothing is printed. From level 1 the message of every error is printed. From level 2 a line is printed for every pair or triplet that converges or is locked, from level 3 a line for every member of the block at every outer iteration, and from level 4 a line for every inner iteration; each line has the fields of the manual, with the value and the residual norm of its own pair or triplet and the counters of that moment. The two commands of the manual applied to the file give the convergence history. In parallel programs only process 0 prints up to level 4.", "quantifier": "all reports of all runs, levels, blocks, numbers of locked pairs and sequences of reports", "why_tests_cant": "What is printed is hardly ever compared; the fields read from the report depend on the event, the block and the stage, and the history on every report of the run.", "anchors": ["src/eigs/primme_c.c:default_monitor", "src/svds/primme_svds_c.c:default_monitor_svds", "src/include/common.h:PRINTFALLCTX", "src/eigs/auxiliary_eigs.c:monitor_report", "doc/source/appendix.rst", "doc/source/appendixsvds.rst"]}
{"id": "C69", "title": "The display of the parameters shows every printable setting, under its own name and with what it has", "statement": "Displaying the parameters of either solver prints, for every setting that is an integer, a real number, a choice or the seed, a line with the published name of that setting and the value it has at that moment, choices being printed as the constants of the manual; the target shifts are printed as the array announced. No line says anything that is not the case, so that two sets of parameters with the same display have the same settings. The display of the singular value solver adds the parameters of the stages that are used, each under its own prefix. Displaying never reads outside the arrays given.", "quantifier": "all values of all parameters, all arrays of shifts and both stages", "why_tests_cant": "The display is read by people; a setting printed under the name of another, or a choice without a line, shows only for the values a test does not try.", "anchors": ["src/eigs/primme_interface.c:primme_display_params", "src/eigs/primme_interface.c:primme_display_params_prefix", "src/svds/primme_svds_interface.c:primme_svds_display_params", "doc/source/primmec.rst"]}
{"id": "C70", "title": "With the refined extraction, vectors that cannot be told apart are replaced together by Ritz vectors of their span", "statement": "With the refined extraction, two neighbouring approximations are offered as they are only when the rounding bound on the angle of their singular vectors is at most the bound on the angle of the eigenvectors that the tolerance asks for. All those between two such cuts are replaced together by Rayleigh-Ritz in their span, everything else is left unchanged, approximations replaced before are not touched again, and no more is replaced than needed to have the number of candidates asked for. Several requests in one iteration decide as one: no pair of neighbours is skipped between them. Other extractions are not affected.", "quantifier": "all projected problems, singular values, Ritz values, tolerances, convergence flags, block sizes and sequences of requests", "why_tests_cant": "The clusters depend on gaps of singular values at rounding level; a wrong cut only slows or stalls convergence for some matrices.", "anchors": ["src/eigs/solve_projection.c:prepare_vecs_Sprimme", "src/eigs/main_iter.c:prepare_candidates"]}
{"id": "C71", "title": "Every user function gets vectors in the precision asked for, and the rounding level is that of the least precise operation", "statement": "In every call each function the user gave gets vectors in the precision of its type member, or in that of the calling function if the type was left as the default, whatever the program did with the structure before. The rounding level that the solver assumes for products with the matrices is the greatest of the machine precisions of the solver itself and of the products, and the one for orthogonality the greatest of those of the solver itself and, in parallel, of the reductions and broadcasts. A precision that the library was not compiled with gives error -44.", "quantifier": "all histories of settings and calls in all precisions, all builds of the library and all values of the machine precisions", "why_tests_cant": "Structures are rarely used again in another precision, and which level is assumed is not visible except in when the solver stops.", "anchors": ["src/eigs/primme_c.c:Xprimme_aux_Sprimme", "src/linalg/auxiliary.c:Num_machine_epsilon_Sprimme", "src/eigs/auxiliary_eigs.c:machineEpsMatrix_Sprimme", "src/eigs/auxiliary_eigs.c:machineEpsOrth_Sprimme", "doc/source/appendix.rst"]}
{"id": "C72", "title": "Failures of the dense factorizations are reported, and never taken for results", "statement": "Whenever a LAPACK function called for a dense eigenvalue problem, singular value decomposition, factorization or solve returns an error code, the operation gives error -40, as the manual says, or stores the code for its caller; when memory cannot be allocated it gives -2, and when a size does not fit the integers of BLAS -1, without calling LAPACK. It gives zero only if nothing of this happened. LAPACK is called with the sizes of the matrices, never for empty ones, and with workspaces of the length it is told, no shorter than it asked for.", "quantifier": "all sizes and leading dimensions, all widths of the integers of BLAS, all error codes of every call of LAPACK, all outcomes of allocations and all suggested workspaces, real and complex, in all builds", "why_tests_cant": "LAPACK hardly ever fails on the matrices of a test, allocations neither, and matrices with more than 2^31 rows are not tested.", "anchors": ["src/linalg/blaslapack.c:Num_heev_Sprimme", "src/linalg/blaslapack.c:Num_hegv_Sprimme", "src/linalg/blaslapack.c:Num_gees_Sprimme", "src/linalg/blaslapack.c:Num_gesvd_Sprimme", "src/linalg/blaslapack.c:Num_hetrf_Sprimme", "src/linalg/blaslapack.c:Num_hetrs_Sprimme", "src/linalg/blaslapack.c:Num_potrf_Sprimme", "src/linalg/blaslapack.c:Num_trsm_Sprimme", "src/linalg/blaslapack.c:Num_getrf_Sprimme", "src/linalg/blaslapack.c:Num_getrs_Sprimme", "doc/source/appendix.rst", "R/src/Makevars"]}
{"id": "C73", "title": "A factorized projector matrix serves any number of solves", "statement": "The small Hermitian matrices of the projectors and of the orthogonalization are factorized once and solved with many times, once per inner iteration. Every solve, however many there were before, gives the solution of the system with the Hermitian matrix whose upper triangle was factorized, in every build of the library, including the one without the LAPACK functions for Hermitian matrices that the R package is compiled as.", "quantifier": "all matrices, sizes, leading dimensions and sequences of right-hand sides, all outcomes that the documentation of LAPACK allows, both builds", "why_tests_cant": "The second solve is only wrong in one build, and a wrong projector shows as slower convergence and not as a wrong result.", "anchors": ["src/linalg/blaslapack.c:Num_hetrf_Sprimme", "src/linalg/blaslapack.c:Num_hetrs_Sprimme", "src/eigs/factorize.c:UDUSolve_Sprimme", "src/eigs/factorize.c:MSolve_Sprimme", "src/eigs/inner_solve.c:apply_skew_projector", "R/src/Makevars"]}
