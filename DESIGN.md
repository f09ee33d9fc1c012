# Formal model of primme/primme in Lean 4 — design

## 1. Approach

The model lives in `/verif/lean/Verif`. For each piece of the C code there are up to three files:

* `Verif/Model/*.lean` — executable definitions that follow the C functions line by line. Each
  definition cites the file and lines it models and states every simplification.
* `Verif/Spec/*.lean` — small specifications written without looking at the model's helpers
  (what "sorted as target t prescribes", "is a permutation", "leak free" mean).
* `Verif/Proofs/*.lean` — helper lemmas.
* `Verif/Props/C??_*.lean` — the property theorems, one file per property, each followed by
  `example`s showing that a concrete non-trivial case meets the hypotheses. When the code violates
  a property, the file contains a concrete refutation (`..._violated`) and the strongest part that
  does hold (`..._partial`).

### Conventions

* C `int`/`PRIMME_INT` values are `Int`/`Nat`, unbounded, unless the property is about narrowing
  (C01, C02, C04: `PRIMME_INT -> int`), in which case narrowing is modelled explicitly.
* Floating point numbers are elements of an arbitrary linearly ordered type or field (exact
  arithmetic), or completely opaque where only data movement matters. Rounding, NaN and overflow are
  not modelled except where stated: theorems that are about data movement are generic in the scalar
  type and in the comparison function, so they hold for NaNs too.
* Numerical kernels (matrix products, LAPACK, user callbacks, timers, random numbers) are oracles:
  arguments of the model that theorems quantify over without restriction.
* Undefined behaviour of C (out of range access, NULL dereference, overflowing a buffer, a failed
  `assert`) is a separate outcome (`none`, or a constructor `ub`), never a default value.

## 2. Plan per property

| id | modelled code | statement | method |
|----|---------------|-----------|--------|
| C01 | get/set member of `primme_params` as total functions on a record, labels as integers | get∘set = id on every supported label and fitting value; frame; refutation for the labels the getter/setter lack | case analysis over the label table |
| C02 | same, with explicit `PRIMME_INT→int` narrowing | failing writes change nothing; refutation: values below INT_MIN are silently truncated; `_partial` for values ≥ INT_MIN | case analysis |
| C03 | `primme_member_info` table | bijection; type/arity coherence; refutation for missing names and for NULL label | table, injectivity by decision over the whole finite table, lifted to all strings |
| C04 | svds get/set member | as C01/C02 | as C01 |
| C05 | constant/enum tables | inverse laws for all values and strings | as C03 |
| C06 | `primme_set_method`/`primme_set_defaults` | totality (fuel-free), return code, frame, idempotence | case analysis |
| C07 | same + `check_input` | defaulted structure passes `check_input` | arithmetic (omega) |
| C08 | `check_input` | 0 iff spec; first violated constraint | case analysis |
| C09 | `primme_svds_check_input` | same | case analysis |
| C10 | svds set_method, copy_params_from_svds | tables, dimension, target | case analysis |
| C11 | iseed normalisation | range, parity, injectivity | base-4096 arithmetic |
| C12,C14 | drivers | output contract over all kernel outcomes | case analysis over outcome |
| C13 | coordinated_exit over a list of processes | all-or-nothing | induction over processes |
| C15,C16 | `main_iter` control skeleton, numerics as oracle | invariants for all histories | invariant by induction over steps |
| C17 | insertionSort, final permute | sortedness, pairing | induction over locked pairs |
| C18 | permute_vecs (cycle following, in place) | gather | loop invariant on cycles |
| C19 | check_convergence | soundness of flags | case analysis/induction over block |
| C20 | memory frames, call trees with failures | exactly-once release | induction over call trees |
| C21 | Bortho_gen | termination bound for any oracle; orthonormality in a real inner product space | induction |
| C22 | restart permutations | permutation, order | induction over flags |
| C23 | solve_H_RR ordering | permutation + order | induction |
| C24 | switch_from_*, update_slowdown | state machine invariants | case analysis, real arithmetic |
| C25 | perm_set_value_on_pos and block shrink | permutation invariants | induction over iterations |
| C26 | matrixMatvec_eigs | column coverage; algebraic result | induction over block loop |
| C27 | layout moves | index arithmetic round trip | array/memory model |
| C28 | wrapper_svds | sequencing, codes, conservation | case analysis |
| C29 | operator wrappers | counters = trace totals | induction over traces |
| C30 | matrix_astype and wrappers | converted-in/converted-out; refutations | case analysis |
| C31 | trimatrix packing | round trip | induction |
| C32 | broadcast | all = root | induction |
| C33 | init_basis | size bounds, coverage | arithmetic, induction |
| C34,C35 | correction shifts, mergeSort | bounds, indices | real arithmetic, induction |
| C36,C38 | monitor wrappers, harmonic | indices, restore | case analysis |
| C37 | gather utilities | memory model | induction |
| C39 | preset tables | every preset member equals the manual's value; refutations for the departures | decision over the finite tables, lifted to all structures |
| C40 | matrix copies, row/column gathers in place, copies of triangles and conjugate transposes | result equals the gather of the original operand for every overlap; refutations | memory model, induction |
| C41 | shifts handed to the eigensolver stages of a singular value computation | bounds, values | case analysis |
| C42 | prepare_candidates | the next block is the first unconverged pairs, in order | loop invariants |
| C43 | map_vecs | the matching is a permutation; greedy closest | loop invariants |
| C44 | return of the vectors (copy back, permutation, conversion) | column i of the caller's array holds pair i | memory model |
| C45 | convergence test wrappers of the singular value solver | the user's test is asked about the triplet with its residual | exact arithmetic |
| C46 | BLAS wrappers, projectors, vector orthogonalisation in working precision | formula for every size, leading dimension, stride | matrices as functions of buffer offsets, sums over ranges |
| C47 | expansion, restart (Rayleigh-Ritz, any mass matrix) with vectors of any module | invariant: orthonormal basis, H = V'AV, eigenpairs, locked pairs | invariant by induction over runs; the bookkeeping part comes from C22 |
| C48 | same runs over a finite dimensional inner product space | residual bound, counting bound, min-max bound, for an operator and for a pencil | spectral theorem of Mathlib, dimension arguments; the pencil through the operator B^-1 A in the inner product of B |
| C49 | `Model/BlockOrtho`: the iterated block orthogonalisation with the kernel, the decomposition, the rank estimate and the update of the Cholesky factor | span, orthogonality, stored Gram matrix and factor for the next call, coefficients; condition number of any accepted basis | invariant over the five turns, triangular systems, diagonal dominance; witness over the reals |
| C50 | `Model/Fortran`: the routines of the two Fortran 77 files on handles and structures in a heap, the C functions as arguments; `Model/FortranTables`, `Spec/Enumerators`: all constants of the headers, transcribed by tools/gen_fortran.py; `Spec/Fortran`: argument lists of the manual and C sessions | values of all constants; a Fortran session against the C session; the documented argument lists | constants by comparing the lists; sessions by induction over the calls (simulation of the C session) |
| C51 | `Model/SvdsTriplet`: the operators handed to the eigensolver and the conversion of its pairs into triplets, on any inner product spaces | residual norms, distance to the exact singular values, counting, min-max | the pairs are Ritz pairs (C47) of the normal or augmented operator; spectral theorem for abstract inner products (`Proofs/SpectrumMass`), then conversion of eigenvectors of `A'A` and of the augmented operator into singular triplets |
| C52 | `Model/Extraction`: the factors Q, R, the refined and harmonic solves of the projected problem, cluster rotations, reordering, and restarts that compute the factors anew or keep them, for any operator on an inner product space | what the vectors offered minimise or are orthogonal to | invariant over the reachable states (orthonormal basis, factorisation, solved projected problem), singular value decomposition as a contract |
| C53 | `Model/PyBase`, `Model/PyEigsh`: `eigsh` as the list of its statements on the parameter structure, with the lookup of names, conversions and exceptions; what it makes of the answer; `get_eigsh_param`; the operator callback | parameters, arrays and callbacks at the call, exceptions, the pairs returned | each name reaches one member (finite tables checked by the kernel), every group of statements writes only its names, so the last writer decides; the library is an arbitrary function of the call |
| C54 | `Model/PySvds`: `svds` as the list of its statements, the array of left and right vectors, what it makes of the answer, the operator and preconditioner callbacks | as C53 for the singular value solver, with the layout of the vectors and the codes of the driver | same method as C53; positions are compared with the layout of the manual; `C54_code` combines with the driver of C28 |
| C55 | `Model/InnerTest`: projected matrix and preconditioner, recurrences of the estimates and stopping tests of the inner solver in exact arithmetic, on top of `Model/InnerSolve` | the numbers told to the monitor are Rayleigh quotient, residual norm of the pair and residual norm of the equation | induction over the iterations: conjugate directions and Krylov spaces, smoothing, the scalars as inner products; real inner product spaces of any dimension (complex ones by their real part) |
| C56 | `Model/RBase`, `Model/REigs`: `eigs_sym` of the R package, the functions of `primmeR.cpp` that set and read parameters, the call, the products with dense matrices and functions | documentation comments of `eigs_sym` and the manual, transcribed in `Spec/R` | the list of options as a list of assignments, of which the last to a member wins; frame lemmas for the setters; finite tables by evaluation in the kernel |
| C57 | `Model/RSvds`: `svds` of the R package with `check_uv`, the nested options, the preset methods, the call of `primmeR.cpp` and the products | documentation comments of `svds` and the manual, transcribed in `Spec/RSvds` | as C56: the list of options is followed through the arguments (`MadeS`), the setter and the presets (`Called`); examples run the driver model of C28 |
| C58 | `Model/SkewRight`: `update_XKinvBX`, `MSolve`, the calls in `init_basis`, `restart_projection` and `apply_skew_projector` | `Spec/SkewRight`: `I - KQ(Q'KQ)^-1Q'` by its two defining properties | invariant over the list of restarts; the factors are known only through the documentation of LAPACK, so a solve with wrong dimensions may return anything |
| C59 | `Model/PractProj`: `ortho_single_iteration` by blocks of rows on every process, `check_practical_convergence`, the shortcut of the main iteration | `Spec/Practical`: the residual without the locked directions, by its two defining properties | the loops over blocks are shown to be sums over all rows; Pythagoras; the decision through C19 |
| C60 | `Model/Combine`: `Num_update_VWXR` by blocks of rows on every process, with every output array, the additions of `Num_aux_update_VWXR`, the arguments of the four calls, the two loops after the call for the candidates | `Spec/Combine`: combination of vectors; agreement on the rows owned | invariant of the loop over blocks of rows (rows done hold the result, rows not done hold the input), given that no two outputs share a column, shown for each call; linearity of the operators |
| C61 | `Model/Direction`: the corrections of `solve_correction` without inner iterations, `Olsen_preconditioner_block`, `setup_JD_projectors` and the two projected operators, the shifts of the skew projector at initialisation and restart | `Spec/Direction`: projector along given vectors, skew projection (of the given form and orthogonal to the given vectors), the formula of the manual for each option | case analysis on the options; orthonormality of the converged vectors merges the projectors for vector and converged vectors |
| C62 | `Model/MainIter`: the counters of guesses and of locked pairs in the main iteration and its restarts | in the statements: guesses taken, and the columns of the user's array written by locked pairs | invariants over runs; a concrete run for the departure |
| C63 | `Model/Targets`: limits on accepted pairs, conditions to leave the inner loop, choice of the shift at restarts, resets and new projected problems | `Spec/Targets`: the documented shift of pair i | invariant over runs: the shift in use is that of the next pair; concrete runs for the departures |
| C64 | `Model/Estimates`: the loop that updates the three estimates after each projected problem, on the runs of C47 with `Model/Rayleigh`; the test of `Model/Convergence` | in the statements: extremes of a list of values, eigenvalues of the pencil | induction over runs with the list of values seen; min-max theorem of C48 |
| C65 | `Model/MatBase`, `Model/MatEigs`: primme_eigs.m and the eigensolver's part of primme_mex.cpp, function by function, with the tables of labels of C01 | `Spec/Mat`: names and meanings of the help text, dimension, handles | the struct of options as a finite map with `get`/`set` lemmas; last write to each member; presets of C08 |
| C66 | `Model/MatSvds`: primme_svds.m and the singular value solver's part of primme_mex.cpp, function by function, with the preconditioner functions | `Spec/MatSvds`: names and meanings of the help text, dimensions, pairs of vectors | as C65, with the layout of C54 for the vectors and `callSvdsMethod` of C10 for the methods; preconditioners by composition of solves |
| C67 | `Model/LockBlock`: compute_residual_columns and the second half of restart_locking_Sprimme with the vectors, on top of `Model/Restart` and `Model/Combine` | products and residual vectors of C60, chosen, other and rejected pairs of C22 | the plan of the moves is a merge; induction over its turns and over the blocks of rows gives the final store; then C60 for the columns before and C22 for the order |
| C68 | `Model/PrintMonitor`: default_monitor, default_monitor_svds and the printing macros; a line is the list of its fields; on top of the reports of `Model/Monitor` | the lines of the manual as functions of its keys $1 to $10, and `about` of C36 | the reads of the monitor are entries of the lists that C36 shows the report to give; induction over the reports for the history |
| C69 | `Model/Display`: both display functions as tables of printing statements in order, over the same parameter stores as C15 and C16; a statement gives zero, one or more rows | a row is honest when its name is the published name of a member and its value is what the store has there; the settings are the labels of the public header that are not pointers, callbacks or statistics | each table is checked against the published names once; the rest by induction over the table for every store |
| C70 | `Model/Clusters`: the loop of prepare_vecs with any test of two neighbours, and the test with real numbers; Rayleigh-Ritz on a cluster is the one of `Model/Extraction` | `Spec/Clusters`: a segmentation of the columns, inductively; eligible pairs counted | invariant of the loop (well-founded recursion); the bound on the angles from the test; the clusters meet the requirements of the runs of C52 by induction over them |
| C71 | `Model/Precision`: the types set by a call, the machine precision of a type and the two rounding levels; machine precisions are elements of any linear order | `Spec/Precision`: the type last asked for in a history; the levels as sets, of which the result is the greatest element | induction over the history; cases on the types; the types set are those of the driver of C12 (`C71_driver`) |
| C72 | `Model/Lapack`: the functions that call LAPACK as lists of the statements that can fail, call LAPACK or return, with an interpreter; LAPACK, allocations and suggested workspaces do anything | `Spec/Lapack`: which code goes with what happened; sizes and workspaces of the calls | induction over the statements, with what has to hold between a call and the test of its code |
| C73 | `Model/Factor`: the array of a factorization over a sequence of solves, with the documented effect of `xHETRF`, `xHETRS` and `xGESV` on it; the copy of the upper triangle as a loop on memory | the Hermitian matrix given by an upper triangle and the solutions of a system, over any field | induction over the solves; the loop by induction; the refutation for every outcome of `xGESV` with partial pivoting |

Properties that cannot be expressed: quality of the computed approximations in floating point
(backward stability, accuracy of LAPACK), convergence speed and wall-clock performance. They are not
in the list because no executable model without IEEE arithmetic and the BLAS can express them.

## 3. What is modelled

| model file | code |
|------------|------|
| Basic, EigsTables, SvdsTables, Members, EigsParams, SvdsParams | constants, labels, get/set, presets, defaults, `check_input` (primme_interface.c, primme_svds_interface.c, primme_c.c, primme_svds_c.c) |
| Driver, SvdsDriver, TempParams, MemFrames, Mem | `Xprimme`, `wrapper_Sprimme`, `wrapper_svds_Sprimme`, stages, memory frames, coordinated exit |
| MainIter, Prepare, Restart, Locking, RitzOrder, MapVecs, Dynamic, InitBasis | control of the main iteration: sizes, flags, permutations, block, limits, restarts, locking, dynamic method, initial basis (main_iter.c, restart.c, init.c, solve_projection.c) |
| Convergence, SvdsTest, Monitor | convergence decisions, tests for triplets, monitor reports |
| Correction, InnerSolve, InnerTest | shifts of the correction equation, block bookkeeping and numbers of the inner solver |
| RBase, REigs | the R function `eigs_sym` and its compiled part |
| RSvds | the R function `svds` and its compiled part |
| SkewRight | data of the right projector of constraints and converged vectors: `factorize.c`, `init.c` and `restart.c` |
| PractProj | projection of residuals behind practical convergence: `ortho.c`, `convergence.c`, `main_iter.c` |
| Combine | combinations, residuals and norms: `auxiliary_eigs_normal.c`, callers in `restart.c` and `main_iter.c` |
| Direction | corrections and projectors: `correction.c`, `inner_solve.c`, shifts in `init.c` and `restart.c` |
| Targets | target shifts: `main_iter.c`, `restart.c`, `solve_projection.c` |
| Estimates | estimates of the spectrum: `solve_projection.c`, `main_iter.c` |
| MatBase, MatEigs | MATLAB `primme_eigs`: `Matlab/primme_eigs.m` (not: reports, profiles, GPU), `Matlab/primme_mex.cpp` (setter, eigensolver) |
| MatSvds | MATLAB `primme_svds`: `Matlab/primme_svds.m` (not: reports, profiles, GPU), `Matlab/primme_mex.cpp` (setter, singular value solver) |
| LockBlock | `src/eigs/restart.c`: `compute_residual_columns`, `restart_locking_Sprimme` 997-1123 (vectors, values, norms, H and VtBV); `QtV`, `QtQ` and allocation are not modelled |
| PrintMonitor | `src/eigs/primme_c.c`: `default_monitor`; `src/svds/primme_svds_c.c`: `default_monitor_svds`; `src/include/common.h`: `PRINTFALLCTX`, `PRINTF`, the message of `CHKERR`; digits of numbers and assertions are not modelled |
| Display | `src/eigs/primme_interface.c`: `primme_display_params`, `primme_display_params_prefix`; `src/svds/primme_svds_interface.c`: `primme_svds_display_params`; lines of comment and digits of numbers are not modelled |
| Clusters | `src/eigs/solve_projection.c`: `prepare_vecs_Sprimme` (841-986), the arithmetic of Rayleigh-Ritz in `Extraction`; exact arithmetic in `separated` only |
| Precision | `src/eigs/primme_c.c`: `Xprimme_aux_Sprimme` (168-225); `src/linalg/auxiliary.c`: `Num_machine_epsilon_Sprimme`; `src/eigs/auxiliary_eigs.c`: `machineEpsMatrix_Sprimme`, `machineEpsOrth_Sprimme`; `deltaEig_Sprimme` is never called and not modelled |
| Triangle | `src/linalg/auxiliary.c`: `Num_copy_trimatrix_Sprimme` (446-498), `Num_copy_matrix_conj_Sprimme` (376-392), `Num_scale_matrix_Sprimme` (932-948) |
| Lapack | `src/linalg/blaslapack.c` (1017-1710): `Num_heev_Sprimme`, `Num_hegv_Sprimme`, `Num_gees_Sprimme`, `Num_gesvd_Sprimme`, `Num_hetrf_Sprimme`, `Num_hetrs_Sprimme`, `Num_potrf_Sprimme`, `Num_trsm_Sprimme`, `Num_getrf_Sprimme`, `Num_getrs_Sprimme`: codes, allocations and sizes, not values; `Num_hetrf_Sprimme` with `USE_ZGESV` is in `Factor` |
| Factor | `src/linalg/blaslapack.c`: `Num_hetrf_Sprimme` (1410-1487), `Num_hetrs_Sprimme` (1494-1538), what they do to the array; `src/eigs/factorize.c`: `UDUSolve_Sprimme`, `MSolve_Sprimme` without a mass matrix |
| Compare | `src/svds/primme_svds_c.c`: `comp_double` (542-545) and the array it is used for (728-740) |
| Ortho, BlockOrtho, Blas, MatrixOps, Permute | vector and block orthogonalisation, BLAS wrappers, copies, packings, permutations |
| Operators, SvdsOperator, SvdsLayout, Broadcast, ReturnVecs | user callbacks with conversions and counters, products of the singular value solver, layout of singular vectors, reductions and broadcasts, return of the vectors |
| Rayleigh | the numbers of the Rayleigh-Ritz procedure in exact arithmetic |
| Extraction | the refined and harmonic extractions in exact arithmetic |
| SvdsTriplet | singular triplets from eigenpairs, in exact arithmetic |
| PyBase, PyEigsh, PySvds | the Python functions `eigsh`, `get_eigsh_param` and `svds` |
| Fortran, FortranTables | the Fortran 77 routines and the constants of the Fortran headers |

Not modelled: floating point rounding; LAPACK and the BLAS (taken as specified); explicit Gram
matrices in the numerics of the extractions; the factors inside `UDUDecompose` and `UDUSolve` of `factorize.c`; the inner solver with a mass matrix; GPU back ends; the MATLAB interface, CHOLMOD and the rest of the Python one; timing; printing of parameters.

## 4. Findings

Each `..._violated` theorem exhibits a reachable case in which the code departs from the property. The note of the claim in
`MANIFEST.json` says in words what happens; the partial theorem beside it states what remains true.

## 5. Trusted base

* Lean 4.33.0 kernel; axioms at most `propext`, `Quot.sound`, `Classical.choice`. `AXIOMS.md` lists them for every
  claimed theorem.
* The reading of the C code: the model is hand written; the only link is the citation on each
  definition. The C code was not compiled or run.
* The specification files, and Mathlib's definitions where they are used in a statement (sums, fields, inner product spaces,
  eigenvalues of a symmetric operator in C48).
