import Verif.Model.Members
import Verif.Spec.SvdsLabels

/-!
# primme_svds_params: the label tables of the implementation

Transcribed by tools/gen_tables.py from src/svds/primme_svds_interface.c; one entry per `case` (or `IF_IS`) of the C code, in order.
-/

namespace Verif.Svds
open Verif.Members

/-- The cases of `primme_svds_get_member`, src/svds/primme_svds_interface.c:575-774. -/
def getTable : List (Int × GetEntry IF DF PF) := [
   (1, .sub 0),
   (2, .sub 1),
   (3, .int .m),
   (4, .int .n),
   (5, .ptr .matrixMatvec),
   (6, .int .matrixMatvec_type),
   (7, .ptr .applyPreconditioner),
   (8, .int .applyPreconditioner_type),
   (9, .int .numProcs),
   (10, .int .procID),
   (11, .int .mLocal),
   (12, .int .nLocal),
   (13, .ptr .commInfo),
   (14, .ptr .globalSumReal),
   (15, .int .globalSumReal_type),
   (16, .ptr .broadcastReal),
   (17, .int .broadcastReal_type),
   (37, .int .internalPrecision),
   (18, .int .numSvals),
   (19, .int .target),
   (20, .int .numTargetShifts),
   (21, .ptr .targetShifts),
   (22, .int .method),
   (23, .int .methodStage2),
   (24, .ptr .matrix),
   (25, .ptr .preconditioner),
   (26, .int .locking),
   (27, .int .numOrthoConst),
   (28, .dbl .aNorm),
   (29, .dbl .eps),
   (30, .int .precondition),
   (31, .int .initSize),
   (32, .int .maxBasisSize),
   (33, .int .maxBlockSize),
   (34, .int .maxMatvecs),
   (35, .seed),
   (36, .int .printLevel),
   (38, .ptr .outputFile),
   (39, .int .stats_numOuterIterations),
   (40, .int .stats_numRestarts),
   (41, .int .stats_numMatvecs),
   (42, .int .stats_numPreconds),
   (43, .int .stats_numGlobalSum),
   (44, .int .stats_volumeGlobalSum),
   (45, .int .stats_numBroadcast),
   (46, .int .stats_volumeBroadcast),
   (47, .dbl .stats_numOrthoInnerProds),
   (48, .dbl .stats_elapsedTime),
   (49, .dbl .stats_timeMatvec),
   (50, .dbl .stats_timePrecond),
   (51, .dbl .stats_timeOrtho),
   (52, .dbl .stats_timeGlobalSum),
   (53, .dbl .stats_timeBroadcast),
   (54, .int .stats_lockingIssue),
   (55, .ptr .convTestFun),
   (56, .int .convTestFun_type),
   (57, .ptr .convtest),
   (58, .ptr .monitorFun),
   (59, .int .monitorFun_type),
   (60, .ptr .monitor),
   (61, .ptr .queue),
   (62, .ptr .profile)]

/-- The cases of `primme_svds_set_member`, src/svds/primme_svds_interface.c:795-995. -/
def setTable : List (Int × SetEntry IF DF PF) := [
   (1, .reject),
   (2, .reject),
   (3, .long .m),
   (4, .long .n),
   (5, .ptr .matrixMatvec),
   (6, .enum .matrixMatvec_type),
   (7, .ptr .applyPreconditioner),
   (8, .enum .applyPreconditioner_type),
   (9, .intChecked .numProcs),
   (10, .intChecked .procID),
   (11, .long .mLocal),
   (12, .long .nLocal),
   (13, .ptr .commInfo),
   (14, .ptr .globalSumReal),
   (15, .enum .globalSumReal_type),
   (16, .ptr .broadcastReal),
   (37, .enum .internalPrecision),
   (17, .enum .broadcastReal_type),
   (18, .intChecked .numSvals),
   (19, .enum .target),
   (20, .intChecked .numTargetShifts),
   (21, .ptr .targetShifts),
   (22, .enum .method),
   (23, .enum .methodStage2),
   (24, .ptr .matrix),
   (25, .ptr .preconditioner),
   (26, .intChecked .locking),
   (27, .intChecked .numOrthoConst),
   (28, .dbl .aNorm),
   (29, .dbl .eps),
   (30, .intChecked .precondition),
   (31, .intChecked .initSize),
   (32, .intChecked .maxBasisSize),
   (33, .intChecked .maxBlockSize),
   (34, .long .maxMatvecs),
   (35, .seed),
   (36, .intChecked .printLevel),
   (38, .ptr .outputFile),
   (39, .long .stats_numOuterIterations),
   (40, .long .stats_numRestarts),
   (41, .long .stats_numMatvecs),
   (42, .long .stats_numPreconds),
   (44, .long .stats_volumeGlobalSum),
   (46, .long .stats_volumeBroadcast),
   (47, .dbl .stats_numOrthoInnerProds),
   (48, .dbl .stats_elapsedTime),
   (49, .dbl .stats_timeMatvec),
   (50, .dbl .stats_timePrecond),
   (51, .dbl .stats_timeOrtho),
   (52, .dbl .stats_timeGlobalSum),
   (53, .dbl .stats_timeBroadcast),
   (55, .ptr .convTestFun),
   (56, .enum .convTestFun_type),
   (57, .ptr .convtest),
   (58, .ptr .monitorFun),
   (59, .enum .monitorFun_type),
   (60, .ptr .monitor),
   (61, .ptr .queue),
   (62, .ptr .profile)]

/-- The `IF_IS` lines of `primme_svds_member_info`, src/svds/primme_svds_interface.c:1017-1199. -/
def infoNames : List (String × Int) := [
   ("primme", 1),
   ("primmeStage2", 2),
   ("m", 3),
   ("n", 4),
   ("matrixMatvec", 5),
   ("matrixMatvec_type", 6),
   ("applyPreconditioner", 7),
   ("applyPreconditioner_type", 8),
   ("numProcs", 9),
   ("procID", 10),
   ("mLocal", 11),
   ("nLocal", 12),
   ("commInfo", 13),
   ("globalSumReal", 14),
   ("globalSumReal_type", 15),
   ("broadcastReal", 16),
   ("broadcastReal_type", 17),
   ("internalPrecision", 37),
   ("numSvals", 18),
   ("target", 19),
   ("numTargetShifts", 20),
   ("targetShifts", 21),
   ("method", 22),
   ("methodStage2", 23),
   ("matrix", 24),
   ("preconditioner", 25),
   ("locking", 26),
   ("numOrthoConst", 27),
   ("aNorm", 28),
   ("eps", 29),
   ("precondition", 30),
   ("initSize", 31),
   ("maxBasisSize", 32),
   ("maxBlockSize", 33),
   ("maxMatvecs", 34),
   ("iseed", 35),
   ("printLevel", 36),
   ("outputFile", 38),
   ("stats_numOuterIterations", 39),
   ("stats_numRestarts", 40),
   ("stats_numMatvecs", 41),
   ("stats_numPreconds", 42),
   ("stats_numGlobalSum", 43),
   ("stats_volumeGlobalSum", 44),
   ("stats_numBroadcast", 45),
   ("stats_volumeBroadcast", 46),
   ("stats_numOrthoInnerProds", 47),
   ("stats_elapsedTime", 48),
   ("stats_timeMatvec", 49),
   ("stats_timePrecond", 50),
   ("stats_timeOrtho", 51),
   ("stats_timeGlobalSum", 52),
   ("stats_timeBroadcast", 53),
   ("stats_lockingIssue", 54),
   ("convTestFun", 55),
   ("convTestFun_type", 56),
   ("convtest", 57),
   ("monitorFun", 58),
   ("monitorFun_type", 59),
   ("monitor", 60),
   ("queue", 61),
   ("profile", 62)]

/-- The `switch` of `primme_svds_member_info`, src/svds/primme_svds_interface.c:1017-1199: type and arity. -/
def infoTypes : List (Int × PType × Nat) := [
   (6, (.int, 1)),
   (8, (.int, 1)),
   (15, (.int, 1)),
   (17, (.int, 1)),
   (37, (.int, 1)),
   (3, (.int, 1)),
   (4, (.int, 1)),
   (18, (.int, 1)),
   (19, (.int, 1)),
   (22, (.int, 1)),
   (23, (.int, 1)),
   (26, (.int, 1)),
   (27, (.int, 1)),
   (30, (.int, 1)),
   (31, (.int, 1)),
   (32, (.int, 1)),
   (33, (.int, 1)),
   (34, (.int, 1)),
   (36, (.int, 1)),
   (39, (.int, 1)),
   (40, (.int, 1)),
   (41, (.int, 1)),
   (42, (.int, 1)),
   (43, (.int, 1)),
   (44, (.int, 1)),
   (45, (.int, 1)),
   (46, (.int, 1)),
   (54, (.int, 1)),
   (35, (.int, 1)),
   (9, (.int, 1)),
   (10, (.int, 1)),
   (11, (.int, 1)),
   (12, (.int, 1)),
   (20, (.int, 1)),
   (56, (.int, 1)),
   (59, (.int, 1)),
   (28, (.double, 1)),
   (29, (.double, 1)),
   (48, (.double, 1)),
   (47, (.double, 1)),
   (49, (.double, 1)),
   (50, (.double, 1)),
   (51, (.double, 1)),
   (52, (.double, 1)),
   (53, (.double, 1)),
   (21, (.double, 0)),
   (1, (.pointer, 1)),
   (2, (.pointer, 1)),
   (5, (.pointer, 1)),
   (7, (.pointer, 1)),
   (13, (.pointer, 1)),
   (14, (.pointer, 1)),
   (16, (.pointer, 1)),
   (24, (.pointer, 1)),
   (25, (.pointer, 1)),
   (38, (.pointer, 1)),
   (55, (.pointer, 1)),
   (57, (.pointer, 1)),
   (58, (.pointer, 1)),
   (60, (.pointer, 1)),
   (61, (.pointer, 1)),
   (62, (.string, 1))]

/-- The `IF_IS` lines of `primme_svds_constant_info` followed by those of `primme_constant_info`. -/
def constTable : List (String × Int) := [
   ("primme_svds_default", 0),
   ("primme_svds_hybrid", 1),
   ("primme_svds_normalequations", 2),
   ("primme_svds_augmented", 3),
   ("primme_svds_largest", 0),
   ("primme_svds_smallest", 1),
   ("primme_svds_closest_abs", 2),
   ("primme_svds_op_none", 0),
   ("primme_svds_op_AtA", 1),
   ("primme_svds_op_AAt", 2),
   ("primme_svds_op_augmented", 3),
   ("PRIMME_DEFAULT_METHOD", 0),
   ("PRIMME_DYNAMIC", 1),
   ("PRIMME_DEFAULT_MIN_TIME", 2),
   ("PRIMME_DEFAULT_MIN_MATVECS", 3),
   ("PRIMME_Arnoldi", 4),
   ("PRIMME_GD", 5),
   ("PRIMME_GD_plusK", 6),
   ("PRIMME_GD_Olsen_plusK", 7),
   ("PRIMME_JD_Olsen_plusK", 8),
   ("PRIMME_RQI", 9),
   ("PRIMME_JDQR", 10),
   ("PRIMME_JDQMR", 11),
   ("PRIMME_JDQMR_ETol", 12),
   ("PRIMME_STEEPEST_DESCENT", 13),
   ("PRIMME_LOBPCG_OrthoBasis", 14),
   ("PRIMME_LOBPCG_OrthoBasis_Window", 15),
   ("primme_smallest", 0),
   ("primme_largest", 1),
   ("primme_closest_geq", 2),
   ("primme_closest_leq", 3),
   ("primme_closest_abs", 4),
   ("primme_largest_abs", 5),
   ("primme_proj_default", 0),
   ("primme_proj_RR", 1),
   ("primme_proj_harmonic", 2),
   ("primme_proj_refined", 3),
   ("primme_init_default", 0),
   ("primme_init_krylov", 1),
   ("primme_init_random", 2),
   ("primme_init_user", 3),
   ("primme_full_LTolerance", 0),
   ("primme_decreasing_LTolerance", 1),
   ("primme_adaptive_ETolerance", 2),
   ("primme_adaptive", 3),
   ("primme_event_outer_iteration", 0),
   ("primme_event_inner_iteration", 1),
   ("primme_event_restart", 2),
   ("primme_event_reset", 3),
   ("primme_event_converged", 4),
   ("primme_event_locked", 5),
   ("primme_event_message", 6),
   ("primme_event_profile", 7),
   ("primme_orth_default", 0),
   ("primme_orth_explicit_I", 2),
   ("primme_orth_implicit_I", 1),
   ("primme_op_default", 0),
   ("primme_op_quad", 4),
   ("primme_op_double", 3),
   ("primme_op_float", 2),
   ("primme_op_half", 1),
   ("primme_op_int", 5)]

/-- The `switch` of `primme_svds_enum_member_info`, src/svds/primme_svds_interface.c:1267-1312. -/
def enumTable : List (Int × List (String × Int)) := [
   (13, [("primme_svds_default", 0), ("primme_svds_hybrid", 1), ("primme_svds_normalequations", 2), ("primme_svds_augmented", 3)]),
   (19, [("primme_svds_largest", 0), ("primme_svds_smallest", 1), ("primme_svds_closest_abs", 2)]),
   (22, [("primme_svds_op_none", 0), ("primme_svds_op_AtA", 1), ("primme_svds_op_AAt", 2), ("primme_svds_op_augmented", 3)]),
   (23, [("primme_svds_op_none", 0), ("primme_svds_op_AtA", 1), ("primme_svds_op_AAt", 2), ("primme_svds_op_augmented", 3)])]

end Verif.Svds
