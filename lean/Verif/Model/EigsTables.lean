import Verif.Model.Members
import Verif.Spec.EigsLabels

/-!
# primme_params: the label tables of the implementation

Transcribed by tools/gen_tables.py from src/eigs/primme_interface.c; one entry per `case` (or `IF_IS`) of the C code, in order.
-/

namespace Verif.Eigs
open Verif.Members

/-- The cases of `primme_get_member`, src/eigs/primme_interface.c:776-1050. -/
def getTable : List (Int × GetEntry IF DF PF) := [
   (1, .int .n),
   (2, .ptr .matrixMatvec),
   (3, .int .matrixMatvec_type),
   (6, .ptr .massMatrixMatvec),
   (7, .int .massMatrixMatvec_type),
   (4, .ptr .applyPreconditioner),
   (5, .int .applyPreconditioner_type),
   (8, .int .numProcs),
   (9, .int .procID),
   (10, .ptr .commInfo),
   (11, .int .nLocal),
   (12, .ptr .globalSumReal),
   (14, .ptr .broadcastReal),
   (16, .int .numEvals),
   (17, .int .target),
   (18, .int .numTargetShifts),
   (19, .ptr .targetShifts),
   (40, .ptr .ShiftsForPreconditioner),
   (20, .int .locking),
   (21, .int .initSize),
   (22, .int .numOrthoConst),
   (79, .int .dynamicMethodSwitch),
   (23, .int .maxBasisSize),
   (24, .int .minRestartSize),
   (25, .int .maxBlockSize),
   (26, .int .maxMatvecs),
   (27, .int .maxOuterIterations),
   (28, .seed),
   (29, .dbl .aNorm),
   (30, .dbl .BNorm),
   (31, .dbl .invBNorm),
   (32, .dbl .eps),
   (33, .int .orth),
   (34, .int .internalPrecision),
   (35, .int .printLevel),
   (36, .ptr .outputFile),
   (37, .ptr .matrix),
   (38, .ptr .massMatrix),
   (39, .ptr .preconditioner),
   (41, .int .initBasisMode),
   (42, .int .projectionParams_projection),
   (43, .int .restartingParams_maxPrevRetain),
   (44, .int .correctionParams_precondition),
   (45, .int .correctionParams_robustShifts),
   (46, .int .correctionParams_maxInnerIterations),
   (47, .int .correctionParams_projectors_LeftQ),
   (48, .int .correctionParams_projectors_LeftX),
   (49, .int .correctionParams_projectors_RightQ),
   (50, .int .correctionParams_projectors_RightX),
   (51, .int .correctionParams_projectors_SkewQ),
   (52, .int .correctionParams_projectors_SkewX),
   (53, .int .correctionParams_convTest),
   (54, .dbl .correctionParams_relTolBase),
   (55, .int .stats_numOuterIterations),
   (56, .int .stats_numRestarts),
   (57, .int .stats_numMatvecs),
   (58, .int .stats_numPreconds),
   (59, .int .stats_numGlobalSum),
   (61, .int .stats_numBroadcast),
   (60, .int .stats_volumeGlobalSum),
   (62, .int .stats_volumeBroadcast),
   (63, .dbl .stats_flopsDense),
   (64, .dbl .stats_numOrthoInnerProds),
   (65, .dbl .stats_elapsedTime),
   (66, .dbl .stats_timeMatvec),
   (67, .dbl .stats_timePrecond),
   (68, .dbl .stats_timeOrtho),
   (69, .dbl .stats_timeGlobalSum),
   (70, .dbl .stats_timeBroadcast),
   (71, .dbl .stats_timeDense),
   (72, .dbl .stats_estimateMinEVal),
   (73, .dbl .stats_estimateMaxEVal),
   (74, .dbl .stats_estimateLargestSVal),
   (75, .dbl .stats_estimateBNorm),
   (76, .dbl .stats_estimateInvBNorm),
   (77, .dbl .stats_maxConvTol),
   (78, .int .stats_lockingIssue),
   (83, .int .ldevecs),
   (84, .int .ldOPs),
   (80, .ptr .convTestFun),
   (81, .int .convTestFun_type),
   (82, .ptr .convtest),
   (85, .ptr .monitorFun),
   (86, .int .monitorFun_type),
   (87, .ptr .monitor),
   (88, .ptr .queue),
   (89, .ptr .profile)]

/-- The cases of `primme_set_member`, src/eigs/primme_interface.c:1070-1366. -/
def setTable : List (Int × SetEntry IF DF PF) := [
   (1, .long .n),
   (2, .ptr .matrixMatvec),
   (3, .enum .matrixMatvec_type),
   (6, .ptr .massMatrixMatvec),
   (7, .enum .massMatrixMatvec_type),
   (4, .ptr .applyPreconditioner),
   (5, .enum .applyPreconditioner_type),
   (8, .intChecked .numProcs),
   (9, .intChecked .procID),
   (10, .ptr .commInfo),
   (11, .long .nLocal),
   (12, .ptr .globalSumReal),
   (13, .enum .globalSumReal_type),
   (14, .ptr .broadcastReal),
   (15, .enum .broadcastReal_type),
   (16, .intChecked .numEvals),
   (17, .enum .target),
   (18, .intChecked .numTargetShifts),
   (19, .ptr .targetShifts),
   (40, .ptr .ShiftsForPreconditioner),
   (20, .intChecked .locking),
   (21, .intChecked .initSize),
   (22, .intChecked .numOrthoConst),
   (79, .intChecked .dynamicMethodSwitch),
   (23, .intChecked .maxBasisSize),
   (24, .intChecked .minRestartSize),
   (25, .intChecked .maxBlockSize),
   (26, .long .maxMatvecs),
   (27, .long .maxOuterIterations),
   (28, .seed),
   (29, .dbl .aNorm),
   (30, .dbl .BNorm),
   (31, .dbl .invBNorm),
   (32, .dbl .eps),
   (33, .enum .orth),
   (34, .enum .internalPrecision),
   (35, .intChecked .printLevel),
   (36, .ptr .outputFile),
   (37, .ptr .matrix),
   (38, .ptr .massMatrix),
   (39, .ptr .preconditioner),
   (41, .enum .initBasisMode),
   (42, .enum .projectionParams_projection),
   (43, .intChecked .restartingParams_maxPrevRetain),
   (44, .intChecked .correctionParams_precondition),
   (45, .intChecked .correctionParams_robustShifts),
   (46, .intChecked .correctionParams_maxInnerIterations),
   (47, .intChecked .correctionParams_projectors_LeftQ),
   (48, .intChecked .correctionParams_projectors_LeftX),
   (49, .intChecked .correctionParams_projectors_RightQ),
   (50, .intChecked .correctionParams_projectors_RightX),
   (51, .intChecked .correctionParams_projectors_SkewQ),
   (52, .intChecked .correctionParams_projectors_SkewX),
   (53, .enum .correctionParams_convTest),
   (54, .dbl .correctionParams_relTolBase),
   (55, .long .stats_numOuterIterations),
   (56, .long .stats_numRestarts),
   (57, .long .stats_numMatvecs),
   (58, .long .stats_numPreconds),
   (60, .long .stats_volumeGlobalSum),
   (62, .long .stats_volumeBroadcast),
   (63, .dbl .stats_flopsDense),
   (64, .dbl .stats_numOrthoInnerProds),
   (65, .dbl .stats_elapsedTime),
   (66, .dbl .stats_timeMatvec),
   (67, .dbl .stats_timePrecond),
   (68, .dbl .stats_timeOrtho),
   (69, .dbl .stats_timeGlobalSum),
   (70, .dbl .stats_timeBroadcast),
   (71, .dbl .stats_timeDense),
   (72, .dbl .stats_estimateMinEVal),
   (73, .dbl .stats_estimateMaxEVal),
   (74, .dbl .stats_estimateLargestSVal),
   (75, .dbl .stats_estimateBNorm),
   (76, .dbl .stats_estimateInvBNorm),
   (77, .dbl .stats_maxConvTol),
   (78, .long .stats_lockingIssue),
   (80, .ptr .convTestFun),
   (81, .enum .convTestFun_type),
   (82, .ptr .convtest),
   (83, .long .ldevecs),
   (84, .long .ldOPs),
   (85, .ptr .monitorFun),
   (86, .enum .monitorFun_type),
   (87, .ptr .monitor),
   (88, .ptr .queue),
   (89, .ptr .profile)]

/-- The `IF_IS` lines of `primme_member_info`, src/eigs/primme_interface.c:1388-1628. -/
def infoNames : List (String × Int) := [
   ("n", 1),
   ("matrixMatvec", 2),
   ("matrixMatvec_type", 3),
   ("massMatrixMatvec", 6),
   ("massMatrixMatvec_type", 7),
   ("applyPreconditioner", 4),
   ("applyPreconditioner_type", 5),
   ("numProcs", 8),
   ("procID", 9),
   ("commInfo", 10),
   ("nLocal", 11),
   ("globalSumReal", 12),
   ("broadcastReal", 14),
   ("numEvals", 16),
   ("target", 17),
   ("numTargetShifts", 18),
   ("targetShifts", 19),
   ("locking", 20),
   ("initSize", 21),
   ("numOrthoConst", 22),
   ("dynamicMethodSwitch", 79),
   ("maxBasisSize", 23),
   ("minRestartSize", 24),
   ("maxBlockSize", 25),
   ("maxMatvecs", 26),
   ("maxOuterIterations", 27),
   ("iseed", 28),
   ("aNorm", 29),
   ("BNorm", 30),
   ("invBNorm", 31),
   ("eps", 32),
   ("orth", 33),
   ("internalPrecision", 34),
   ("printLevel", 35),
   ("outputFile", 36),
   ("matrix", 37),
   ("massMatrix", 38),
   ("preconditioner", 39),
   ("ShiftsForPreconditioner", 40),
   ("initBasisMode", 41),
   ("projection_projection", 42),
   ("restarting_maxPrevRetain", 43),
   ("correction_precondition", 44),
   ("correction_robustShifts", 45),
   ("correction_maxInnerIterations", 46),
   ("correction_projectors_LeftQ", 47),
   ("correction_projectors_LeftX", 48),
   ("correction_projectors_RightQ", 49),
   ("correction_projectors_RightX", 50),
   ("correction_projectors_SkewQ", 51),
   ("correction_projectors_SkewX", 52),
   ("correction_convTest", 53),
   ("correction_relTolBase", 54),
   ("stats_numOuterIterations", 55),
   ("stats_numRestarts", 56),
   ("stats_numMatvecs", 57),
   ("stats_numPreconds", 58),
   ("stats_numGlobalSum", 59),
   ("stats_volumeGlobalSum", 60),
   ("stats_numBroadcast", 61),
   ("stats_volumeBroadcast", 62),
   ("stats_flopsDense", 63),
   ("stats_numOrthoInnerProds", 64),
   ("stats_elapsedTime", 65),
   ("stats_timeMatvec", 66),
   ("stats_timePrecond", 67),
   ("stats_timeOrtho", 68),
   ("stats_timeGlobalSum", 69),
   ("stats_timeBroadcast", 70),
   ("stats_timeDense", 71),
   ("stats_estimateMinEVal", 72),
   ("stats_estimateMaxEVal", 73),
   ("stats_estimateLargestSVal", 74),
   ("stats_estimateBNorm", 75),
   ("stats_estimateInvBNorm", 76),
   ("stats_maxConvTol", 77),
   ("stats_lockingIssue", 78),
   ("convTestFun", 80),
   ("convTestFun_type", 81),
   ("convtest", 82),
   ("ldevecs", 83),
   ("ldOPs", 84),
   ("monitorFun", 85),
   ("monitorFun_type", 86),
   ("monitor", 87),
   ("queue", 88),
   ("profile", 89)]

/-- The `switch` of `primme_member_info`, src/eigs/primme_interface.c:1388-1628: type and arity. -/
def infoTypes : List (Int × PType × Nat) := [
   (3, (.int, 1)),
   (5, (.int, 1)),
   (13, (.int, 1)),
   (15, (.int, 1)),
   (7, (.int, 1)),
   (1, (.int, 1)),
   (16, (.int, 1)),
   (17, (.int, 1)),
   (20, (.int, 1)),
   (21, (.int, 1)),
   (22, (.int, 1)),
   (79, (.int, 1)),
   (23, (.int, 1)),
   (24, (.int, 1)),
   (25, (.int, 1)),
   (26, (.int, 1)),
   (27, (.int, 1)),
   (41, (.int, 1)),
   (33, (.int, 1)),
   (34, (.int, 1)),
   (42, (.int, 1)),
   (43, (.int, 1)),
   (44, (.int, 1)),
   (45, (.int, 1)),
   (46, (.int, 1)),
   (47, (.int, 1)),
   (48, (.int, 1)),
   (49, (.int, 1)),
   (50, (.int, 1)),
   (51, (.int, 1)),
   (52, (.int, 1)),
   (53, (.int, 1)),
   (55, (.int, 1)),
   (56, (.int, 1)),
   (57, (.int, 1)),
   (58, (.int, 1)),
   (59, (.int, 1)),
   (60, (.int, 1)),
   (61, (.int, 1)),
   (62, (.int, 1)),
   (78, (.int, 1)),
   (8, (.int, 1)),
   (9, (.int, 1)),
   (11, (.int, 1)),
   (18, (.int, 1)),
   (35, (.int, 1)),
   (83, (.int, 1)),
   (84, (.int, 1)),
   (86, (.int, 1)),
   (81, (.int, 1)),
   (28, (.int, 4)),
   (29, (.double, 1)),
   (30, (.double, 1)),
   (31, (.double, 1)),
   (32, (.double, 1)),
   (54, (.double, 1)),
   (64, (.double, 1)),
   (66, (.double, 1)),
   (67, (.double, 1)),
   (68, (.double, 1)),
   (69, (.double, 1)),
   (70, (.double, 1)),
   (63, (.double, 1)),
   (71, (.double, 1)),
   (65, (.double, 1)),
   (72, (.double, 1)),
   (73, (.double, 1)),
   (74, (.double, 1)),
   (75, (.double, 1)),
   (76, (.double, 1)),
   (77, (.double, 1)),
   (19, (.double, 0)),
   (40, (.double, 0)),
   (2, (.pointer, 1)),
   (4, (.pointer, 1)),
   (10, (.pointer, 1)),
   (12, (.pointer, 1)),
   (14, (.pointer, 1)),
   (6, (.pointer, 1)),
   (36, (.pointer, 1)),
   (37, (.pointer, 1)),
   (38, (.pointer, 1)),
   (39, (.pointer, 1)),
   (80, (.pointer, 1)),
   (82, (.pointer, 1)),
   (85, (.pointer, 1)),
   (87, (.pointer, 1)),
   (88, (.pointer, 1)),
   (89, (.string, 1))]

/-- The `IF_IS` lines of `primme_constant_info`. -/
def constTable : List (String × Int) := [
   ("PRIMME_DEFAULT_METHOD", 0),
   ("PRIMME_DYNAMIC", 1),
   ("PRIMME_DEFAULT_MIN_TIME", 2),
   ("PRIMME_DEFAULT_MIN_MATVECS", 3),
   ("PRIMME_Arnoldi", 4),
   ("PRIMME_GD", 5),
   ("PRIMME_GD_plusK", 6),
   ("PRIMME_GD_Olsen_plusK", 7),
   ("PRIMME_JD_Olsen_plusK", 8),
   ("PRIMME_RQI", 9),
   ("PRIMME_JDQR", 10),
   ("PRIMME_JDQMR", 11),
   ("PRIMME_JDQMR_ETol", 12),
   ("PRIMME_STEEPEST_DESCENT", 13),
   ("PRIMME_LOBPCG_OrthoBasis", 14),
   ("PRIMME_LOBPCG_OrthoBasis_Window", 15),
   ("primme_smallest", 0),
   ("primme_largest", 1),
   ("primme_closest_geq", 2),
   ("primme_closest_leq", 3),
   ("primme_closest_abs", 4),
   ("primme_largest_abs", 5),
   ("primme_proj_default", 0),
   ("primme_proj_RR", 1),
   ("primme_proj_harmonic", 2),
   ("primme_proj_refined", 3),
   ("primme_init_default", 0),
   ("primme_init_krylov", 1),
   ("primme_init_random", 2),
   ("primme_init_user", 3),
   ("primme_full_LTolerance", 0),
   ("primme_decreasing_LTolerance", 1),
   ("primme_adaptive_ETolerance", 2),
   ("primme_adaptive", 3),
   ("primme_event_outer_iteration", 0),
   ("primme_event_inner_iteration", 1),
   ("primme_event_restart", 2),
   ("primme_event_reset", 3),
   ("primme_event_converged", 4),
   ("primme_event_locked", 5),
   ("primme_event_message", 6),
   ("primme_event_profile", 7),
   ("primme_orth_default", 0),
   ("primme_orth_explicit_I", 2),
   ("primme_orth_implicit_I", 1),
   ("primme_op_default", 0),
   ("primme_op_quad", 4),
   ("primme_op_double", 3),
   ("primme_op_float", 2),
   ("primme_op_half", 1),
   ("primme_op_int", 5)]

/-- The `switch` of `primme_enum_member_info`, src/eigs/primme_interface.c:1743-1835. -/
def enumTable : List (Int × List (String × Int)) := [
   (10, [("PRIMME_DEFAULT_METHOD", 0), ("PRIMME_DYNAMIC", 1), ("PRIMME_DEFAULT_MIN_TIME", 2), ("PRIMME_DEFAULT_MIN_MATVECS", 3), ("PRIMME_Arnoldi", 4), ("PRIMME_GD", 5), ("PRIMME_GD_plusK", 6), ("PRIMME_GD_Olsen_plusK", 7), ("PRIMME_JD_Olsen_plusK", 8), ("PRIMME_RQI", 9), ("PRIMME_JDQR", 10), ("PRIMME_JDQMR", 11), ("PRIMME_JDQMR_ETol", 12), ("PRIMME_STEEPEST_DESCENT", 13), ("PRIMME_LOBPCG_OrthoBasis", 14), ("PRIMME_LOBPCG_OrthoBasis_Window", 15)]),
   (17, [("primme_smallest", 0), ("primme_largest", 1), ("primme_closest_geq", 2), ("primme_closest_leq", 3), ("primme_closest_abs", 4), ("primme_largest_abs", 5)]),
   (42, [("primme_proj_default", 0), ("primme_proj_RR", 1), ("primme_proj_harmonic", 2), ("primme_proj_refined", 3)]),
   (41, [("primme_init_default", 0), ("primme_init_krylov", 1), ("primme_init_random", 2), ("primme_init_user", 3)]),
   (53, [("primme_full_LTolerance", 0), ("primme_decreasing_LTolerance", 1), ("primme_adaptive_ETolerance", 2), ("primme_adaptive", 3)]),
   (33, [("primme_orth_default", 0), ("primme_orth_explicit_I", 2), ("primme_orth_implicit_I", 1)]),
   (3, [("primme_op_default", 0), ("primme_op_quad", 4), ("primme_op_double", 3), ("primme_op_float", 2), ("primme_op_half", 1), ("primme_op_int", 5)]),
   (5, [("primme_op_default", 0), ("primme_op_quad", 4), ("primme_op_double", 3), ("primme_op_float", 2), ("primme_op_half", 1), ("primme_op_int", 5)]),
   (13, [("primme_op_default", 0), ("primme_op_quad", 4), ("primme_op_double", 3), ("primme_op_float", 2), ("primme_op_half", 1), ("primme_op_int", 5)]),
   (15, [("primme_op_default", 0), ("primme_op_quad", 4), ("primme_op_double", 3), ("primme_op_float", 2), ("primme_op_half", 1), ("primme_op_int", 5)]),
   (7, [("primme_op_default", 0), ("primme_op_quad", 4), ("primme_op_double", 3), ("primme_op_float", 2), ("primme_op_half", 1), ("primme_op_int", 5)])]

end Verif.Eigs
