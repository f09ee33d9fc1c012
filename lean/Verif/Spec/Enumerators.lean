/-!
# The enumerators of the public C headers

Transcribed by tools/gen_fortran.py; every enumerator of every `typedef enum`, with its value.
-/

namespace Verif.Spec

/-- include/primme_eigs.h. -/
def eigsEnumerators : List (String × Int) := [
   ("primme_smallest", 0),
   ("primme_largest", 1),
   ("primme_closest_geq", 2),
   ("primme_closest_leq", 3),
   ("primme_closest_abs", 4),
   ("primme_largest_abs", 5),
   ("primme_proj_default", 0),
   ("primme_proj_RR", 1),
   ("primme_proj_harmonic", 2),
   ("primme_proj_refined", 3),
   ("primme_init_default", 0),
   ("primme_init_krylov", 1),
   ("primme_init_random", 2),
   ("primme_init_user", 3),
   ("primme_full_LTolerance", 0),
   ("primme_decreasing_LTolerance", 1),
   ("primme_adaptive_ETolerance", 2),
   ("primme_adaptive", 3),
   ("primme_event_outer_iteration", 0),
   ("primme_event_inner_iteration", 1),
   ("primme_event_restart", 2),
   ("primme_event_reset", 3),
   ("primme_event_converged", 4),
   ("primme_event_locked", 5),
   ("primme_event_message", 6),
   ("primme_event_profile", 7),
   ("primme_orth_default", 0),
   ("primme_orth_implicit_I", 1),
   ("primme_orth_explicit_I", 2),
   ("primme_op_default", 0),
   ("primme_op_half", 1),
   ("primme_op_float", 2),
   ("primme_op_double", 3),
   ("primme_op_quad", 4),
   ("primme_op_int", 5),
   ("PRIMME_DEFAULT_METHOD", 0),
   ("PRIMME_DYNAMIC", 1),
   ("PRIMME_DEFAULT_MIN_TIME", 2),
   ("PRIMME_DEFAULT_MIN_MATVECS", 3),
   ("PRIMME_Arnoldi", 4),
   ("PRIMME_GD", 5),
   ("PRIMME_GD_plusK", 6),
   ("PRIMME_GD_Olsen_plusK", 7),
   ("PRIMME_JD_Olsen_plusK", 8),
   ("PRIMME_RQI", 9),
   ("PRIMME_JDQR", 10),
   ("PRIMME_JDQMR", 11),
   ("PRIMME_JDQMR_ETol", 12),
   ("PRIMME_STEEPEST_DESCENT", 13),
   ("PRIMME_LOBPCG_OrthoBasis", 14),
   ("PRIMME_LOBPCG_OrthoBasis_Window", 15),
   ("primme_int", 0),
   ("primme_double", 1),
   ("primme_pointer", 2),
   ("primme_string", 3),
   ("PRIMME_invalid_label", 0),
   ("PRIMME_n", 1),
   ("PRIMME_matrixMatvec", 2),
   ("PRIMME_matrixMatvec_type", 3),
   ("PRIMME_applyPreconditioner", 4),
   ("PRIMME_applyPreconditioner_type", 5),
   ("PRIMME_massMatrixMatvec", 6),
   ("PRIMME_massMatrixMatvec_type", 7),
   ("PRIMME_numProcs", 8),
   ("PRIMME_procID", 9),
   ("PRIMME_commInfo", 10),
   ("PRIMME_nLocal", 11),
   ("PRIMME_globalSumReal", 12),
   ("PRIMME_globalSumReal_type", 13),
   ("PRIMME_broadcastReal", 14),
   ("PRIMME_broadcastReal_type", 15),
   ("PRIMME_numEvals", 16),
   ("PRIMME_target", 17),
   ("PRIMME_numTargetShifts", 18),
   ("PRIMME_targetShifts", 19),
   ("PRIMME_locking", 20),
   ("PRIMME_initSize", 21),
   ("PRIMME_numOrthoConst", 22),
   ("PRIMME_maxBasisSize", 23),
   ("PRIMME_minRestartSize", 24),
   ("PRIMME_maxBlockSize", 25),
   ("PRIMME_maxMatvecs", 26),
   ("PRIMME_maxOuterIterations", 27),
   ("PRIMME_iseed", 28),
   ("PRIMME_aNorm", 29),
   ("PRIMME_BNorm", 30),
   ("PRIMME_invBNorm", 31),
   ("PRIMME_eps", 32),
   ("PRIMME_orth", 33),
   ("PRIMME_internalPrecision", 34),
   ("PRIMME_printLevel", 35),
   ("PRIMME_outputFile", 36),
   ("PRIMME_matrix", 37),
   ("PRIMME_massMatrix", 38),
   ("PRIMME_preconditioner", 39),
   ("PRIMME_ShiftsForPreconditioner", 40),
   ("PRIMME_initBasisMode", 41),
   ("PRIMME_projectionParams_projection", 42),
   ("PRIMME_restartingParams_maxPrevRetain", 43),
   ("PRIMME_correctionParams_precondition", 44),
   ("PRIMME_correctionParams_robustShifts", 45),
   ("PRIMME_correctionParams_maxInnerIterations", 46),
   ("PRIMME_correctionParams_projectors_LeftQ", 47),
   ("PRIMME_correctionParams_projectors_LeftX", 48),
   ("PRIMME_correctionParams_projectors_RightQ", 49),
   ("PRIMME_correctionParams_projectors_RightX", 50),
   ("PRIMME_correctionParams_projectors_SkewQ", 51),
   ("PRIMME_correctionParams_projectors_SkewX", 52),
   ("PRIMME_correctionParams_convTest", 53),
   ("PRIMME_correctionParams_relTolBase", 54),
   ("PRIMME_stats_numOuterIterations", 55),
   ("PRIMME_stats_numRestarts", 56),
   ("PRIMME_stats_numMatvecs", 57),
   ("PRIMME_stats_numPreconds", 58),
   ("PRIMME_stats_numGlobalSum", 59),
   ("PRIMME_stats_volumeGlobalSum", 60),
   ("PRIMME_stats_numBroadcast", 61),
   ("PRIMME_stats_volumeBroadcast", 62),
   ("PRIMME_stats_flopsDense", 63),
   ("PRIMME_stats_numOrthoInnerProds", 64),
   ("PRIMME_stats_elapsedTime", 65),
   ("PRIMME_stats_timeMatvec", 66),
   ("PRIMME_stats_timePrecond", 67),
   ("PRIMME_stats_timeOrtho", 68),
   ("PRIMME_stats_timeGlobalSum", 69),
   ("PRIMME_stats_timeBroadcast", 70),
   ("PRIMME_stats_timeDense", 71),
   ("PRIMME_stats_estimateMinEVal", 72),
   ("PRIMME_stats_estimateMaxEVal", 73),
   ("PRIMME_stats_estimateLargestSVal", 74),
   ("PRIMME_stats_estimateBNorm", 75),
   ("PRIMME_stats_estimateInvBNorm", 76),
   ("PRIMME_stats_maxConvTol", 77),
   ("PRIMME_stats_lockingIssue", 78),
   ("PRIMME_dynamicMethodSwitch", 79),
   ("PRIMME_convTestFun", 80),
   ("PRIMME_convTestFun_type", 81),
   ("PRIMME_convtest", 82),
   ("PRIMME_ldevecs", 83),
   ("PRIMME_ldOPs", 84),
   ("PRIMME_monitorFun", 85),
   ("PRIMME_monitorFun_type", 86),
   ("PRIMME_monitor", 87),
   ("PRIMME_queue", 88),
   ("PRIMME_profile", 89)]

/-- include/primme_svds.h. -/
def svdsEnumerators : List (String × Int) := [
   ("primme_svds_largest", 0),
   ("primme_svds_smallest", 1),
   ("primme_svds_closest_abs", 2),
   ("primme_svds_default", 0),
   ("primme_svds_hybrid", 1),
   ("primme_svds_normalequations", 2),
   ("primme_svds_augmented", 3),
   ("primme_svds_op_none", 0),
   ("primme_svds_op_AtA", 1),
   ("primme_svds_op_AAt", 2),
   ("primme_svds_op_augmented", 3),
   ("PRIMME_SVDS_invalid_label", 0),
   ("PRIMME_SVDS_primme", 1),
   ("PRIMME_SVDS_primmeStage2", 2),
   ("PRIMME_SVDS_m", 3),
   ("PRIMME_SVDS_n", 4),
   ("PRIMME_SVDS_matrixMatvec", 5),
   ("PRIMME_SVDS_matrixMatvec_type", 6),
   ("PRIMME_SVDS_applyPreconditioner", 7),
   ("PRIMME_SVDS_applyPreconditioner_type", 8),
   ("PRIMME_SVDS_numProcs", 9),
   ("PRIMME_SVDS_procID", 10),
   ("PRIMME_SVDS_mLocal", 11),
   ("PRIMME_SVDS_nLocal", 12),
   ("PRIMME_SVDS_commInfo", 13),
   ("PRIMME_SVDS_globalSumReal", 14),
   ("PRIMME_SVDS_globalSumReal_type", 15),
   ("PRIMME_SVDS_broadcastReal", 16),
   ("PRIMME_SVDS_broadcastReal_type", 17),
   ("PRIMME_SVDS_numSvals", 18),
   ("PRIMME_SVDS_target", 19),
   ("PRIMME_SVDS_numTargetShifts", 20),
   ("PRIMME_SVDS_targetShifts", 21),
   ("PRIMME_SVDS_method", 22),
   ("PRIMME_SVDS_methodStage2", 23),
   ("PRIMME_SVDS_matrix", 24),
   ("PRIMME_SVDS_preconditioner", 25),
   ("PRIMME_SVDS_locking", 26),
   ("PRIMME_SVDS_numOrthoConst", 27),
   ("PRIMME_SVDS_aNorm", 28),
   ("PRIMME_SVDS_eps", 29),
   ("PRIMME_SVDS_precondition", 30),
   ("PRIMME_SVDS_initSize", 31),
   ("PRIMME_SVDS_maxBasisSize", 32),
   ("PRIMME_SVDS_maxBlockSize", 33),
   ("PRIMME_SVDS_maxMatvecs", 34),
   ("PRIMME_SVDS_iseed", 35),
   ("PRIMME_SVDS_printLevel", 36),
   ("PRIMME_SVDS_internalPrecision", 37),
   ("PRIMME_SVDS_outputFile", 38),
   ("PRIMME_SVDS_stats_numOuterIterations", 39),
   ("PRIMME_SVDS_stats_numRestarts", 40),
   ("PRIMME_SVDS_stats_numMatvecs", 41),
   ("PRIMME_SVDS_stats_numPreconds", 42),
   ("PRIMME_SVDS_stats_numGlobalSum", 43),
   ("PRIMME_SVDS_stats_volumeGlobalSum", 44),
   ("PRIMME_SVDS_stats_numBroadcast", 45),
   ("PRIMME_SVDS_stats_volumeBroadcast", 46),
   ("PRIMME_SVDS_stats_numOrthoInnerProds", 47),
   ("PRIMME_SVDS_stats_elapsedTime", 48),
   ("PRIMME_SVDS_stats_timeMatvec", 49),
   ("PRIMME_SVDS_stats_timePrecond", 50),
   ("PRIMME_SVDS_stats_timeOrtho", 51),
   ("PRIMME_SVDS_stats_timeGlobalSum", 52),
   ("PRIMME_SVDS_stats_timeBroadcast", 53),
   ("PRIMME_SVDS_stats_lockingIssue", 54),
   ("PRIMME_SVDS_convTestFun", 55),
   ("PRIMME_SVDS_convTestFun_type", 56),
   ("PRIMME_SVDS_convtest", 57),
   ("PRIMME_SVDS_monitorFun", 58),
   ("PRIMME_SVDS_monitorFun_type", 59),
   ("PRIMME_SVDS_monitor", 60),
   ("PRIMME_SVDS_queue", 61),
   ("PRIMME_SVDS_profile", 62)]

end Verif.Spec
