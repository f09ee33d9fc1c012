import Verif.Spec.Members

/-!
# primme_params: members and labels, from the public header

Transcribed by tools/gen_tables.py from include/primme_eigs.h (structure at line 166, labels at lines
288-377).  The label `PRIMME_a_b` names the member `a.b` of the structure.
-/

namespace Verif.Eigs
open Verif.Members

/-- Members with an integral C type. -/
inductive IF where
  | n | matrixMatvec_type | applyPreconditioner_type | massMatrixMatvec_type | numProcs | procID | nLocal | globalSumReal_type | broadcastReal_type | numEvals | target | numTargetShifts | dynamicMethodSwitch | locking | initSize | numOrthoConst | maxBasisSize | minRestartSize | maxBlockSize | maxMatvecs | maxOuterIterations | orth | internalPrecision | printLevel | initBasisMode | ldevecs | ldOPs | projectionParams_projection | restartingParams_maxPrevRetain | correctionParams_precondition | correctionParams_robustShifts | correctionParams_maxInnerIterations | correctionParams_projectors_LeftQ | correctionParams_projectors_LeftX | correctionParams_projectors_RightQ | correctionParams_projectors_RightX | correctionParams_projectors_SkewQ | correctionParams_projectors_SkewX | correctionParams_convTest | stats_numOuterIterations | stats_numRestarts | stats_numMatvecs | stats_numPreconds | stats_numGlobalSum | stats_numBroadcast | stats_volumeGlobalSum | stats_volumeBroadcast | stats_lockingIssue | convTestFun_type | monitorFun_type
  deriving DecidableEq, Repr

/-- Members of type `double`. -/
inductive DF where
  | aNorm | BNorm | invBNorm | eps | correctionParams_relTolBase | stats_flopsDense | stats_numOrthoInnerProds | stats_elapsedTime | stats_timeMatvec | stats_timePrecond | stats_timeOrtho | stats_timeGlobalSum | stats_timeBroadcast | stats_timeDense | stats_estimateMinEVal | stats_estimateMaxEVal | stats_estimateLargestSVal | stats_estimateBNorm | stats_estimateInvBNorm | stats_maxConvTol | stats_estimateResidualError
  deriving DecidableEq, Repr

/-- Members that are pointers. -/
inductive PF where
  | matrixMatvec | applyPreconditioner | massMatrixMatvec | commInfo | globalSumReal | broadcastReal | targetShifts | outputFile | matrix | preconditioner | massMatrix | ShiftsForPreconditioner | convTestFun | convtest | monitorFun | monitor | queue | profile
  deriving DecidableEq, Repr

/-- C type of the integral members. -/
def ctype : IF → CType
  | .n => .clong
  | .matrixMatvec_type => .cenum
  | .applyPreconditioner_type => .cenum
  | .massMatrixMatvec_type => .cenum
  | .numProcs => .cint
  | .procID => .cint
  | .nLocal => .clong
  | .globalSumReal_type => .cenum
  | .broadcastReal_type => .cenum
  | .numEvals => .cint
  | .target => .cenum
  | .numTargetShifts => .cint
  | .dynamicMethodSwitch => .cint
  | .locking => .cint
  | .initSize => .cint
  | .numOrthoConst => .cint
  | .maxBasisSize => .cint
  | .minRestartSize => .cint
  | .maxBlockSize => .cint
  | .maxMatvecs => .clong
  | .maxOuterIterations => .clong
  | .orth => .cenum
  | .internalPrecision => .cenum
  | .printLevel => .cint
  | .initBasisMode => .cenum
  | .ldevecs => .clong
  | .ldOPs => .clong
  | .projectionParams_projection => .cenum
  | .restartingParams_maxPrevRetain => .cint
  | .correctionParams_precondition => .cint
  | .correctionParams_robustShifts => .cint
  | .correctionParams_maxInnerIterations => .cint
  | .correctionParams_projectors_LeftQ => .cint
  | .correctionParams_projectors_LeftX => .cint
  | .correctionParams_projectors_RightQ => .cint
  | .correctionParams_projectors_RightX => .cint
  | .correctionParams_projectors_SkewQ => .cint
  | .correctionParams_projectors_SkewX => .cint
  | .correctionParams_convTest => .cenum
  | .stats_numOuterIterations => .clong
  | .stats_numRestarts => .clong
  | .stats_numMatvecs => .clong
  | .stats_numPreconds => .clong
  | .stats_numGlobalSum => .clong
  | .stats_numBroadcast => .clong
  | .stats_volumeGlobalSum => .clong
  | .stats_volumeBroadcast => .clong
  | .stats_lockingIssue => .clong
  | .convTestFun_type => .cenum
  | .monitorFun_type => .cenum

/-- The published labels (except the invalid label 0) with the member they name. -/
def labels : List (Int × String × Member IF DF PF) := [
   (1, "n", .i .n),
   (2, "matrixMatvec", .p .matrixMatvec),
   (3, "matrixMatvec_type", .i .matrixMatvec_type),
   (4, "applyPreconditioner", .p .applyPreconditioner),
   (5, "applyPreconditioner_type", .i .applyPreconditioner_type),
   (6, "massMatrixMatvec", .p .massMatrixMatvec),
   (7, "massMatrixMatvec_type", .i .massMatrixMatvec_type),
   (8, "numProcs", .i .numProcs),
   (9, "procID", .i .procID),
   (10, "commInfo", .p .commInfo),
   (11, "nLocal", .i .nLocal),
   (12, "globalSumReal", .p .globalSumReal),
   (13, "globalSumReal_type", .i .globalSumReal_type),
   (14, "broadcastReal", .p .broadcastReal),
   (15, "broadcastReal_type", .i .broadcastReal_type),
   (16, "numEvals", .i .numEvals),
   (17, "target", .i .target),
   (18, "numTargetShifts", .i .numTargetShifts),
   (19, "targetShifts", .p .targetShifts),
   (20, "locking", .i .locking),
   (21, "initSize", .i .initSize),
   (22, "numOrthoConst", .i .numOrthoConst),
   (23, "maxBasisSize", .i .maxBasisSize),
   (24, "minRestartSize", .i .minRestartSize),
   (25, "maxBlockSize", .i .maxBlockSize),
   (26, "maxMatvecs", .i .maxMatvecs),
   (27, "maxOuterIterations", .i .maxOuterIterations),
   (28, "iseed", .seed),
   (29, "aNorm", .d .aNorm),
   (30, "BNorm", .d .BNorm),
   (31, "invBNorm", .d .invBNorm),
   (32, "eps", .d .eps),
   (33, "orth", .i .orth),
   (34, "internalPrecision", .i .internalPrecision),
   (35, "printLevel", .i .printLevel),
   (36, "outputFile", .p .outputFile),
   (37, "matrix", .p .matrix),
   (38, "massMatrix", .p .massMatrix),
   (39, "preconditioner", .p .preconditioner),
   (40, "ShiftsForPreconditioner", .p .ShiftsForPreconditioner),
   (41, "initBasisMode", .i .initBasisMode),
   (42, "projectionParams_projection", .i .projectionParams_projection),
   (43, "restartingParams_maxPrevRetain", .i .restartingParams_maxPrevRetain),
   (44, "correctionParams_precondition", .i .correctionParams_precondition),
   (45, "correctionParams_robustShifts", .i .correctionParams_robustShifts),
   (46, "correctionParams_maxInnerIterations", .i .correctionParams_maxInnerIterations),
   (47, "correctionParams_projectors_LeftQ", .i .correctionParams_projectors_LeftQ),
   (48, "correctionParams_projectors_LeftX", .i .correctionParams_projectors_LeftX),
   (49, "correctionParams_projectors_RightQ", .i .correctionParams_projectors_RightQ),
   (50, "correctionParams_projectors_RightX", .i .correctionParams_projectors_RightX),
   (51, "correctionParams_projectors_SkewQ", .i .correctionParams_projectors_SkewQ),
   (52, "correctionParams_projectors_SkewX", .i .correctionParams_projectors_SkewX),
   (53, "correctionParams_convTest", .i .correctionParams_convTest),
   (54, "correctionParams_relTolBase", .d .correctionParams_relTolBase),
   (55, "stats_numOuterIterations", .i .stats_numOuterIterations),
   (56, "stats_numRestarts", .i .stats_numRestarts),
   (57, "stats_numMatvecs", .i .stats_numMatvecs),
   (58, "stats_numPreconds", .i .stats_numPreconds),
   (59, "stats_numGlobalSum", .i .stats_numGlobalSum),
   (60, "stats_volumeGlobalSum", .i .stats_volumeGlobalSum),
   (61, "stats_numBroadcast", .i .stats_numBroadcast),
   (62, "stats_volumeBroadcast", .i .stats_volumeBroadcast),
   (63, "stats_flopsDense", .d .stats_flopsDense),
   (64, "stats_numOrthoInnerProds", .d .stats_numOrthoInnerProds),
   (65, "stats_elapsedTime", .d .stats_elapsedTime),
   (66, "stats_timeMatvec", .d .stats_timeMatvec),
   (67, "stats_timePrecond", .d .stats_timePrecond),
   (68, "stats_timeOrtho", .d .stats_timeOrtho),
   (69, "stats_timeGlobalSum", .d .stats_timeGlobalSum),
   (70, "stats_timeBroadcast", .d .stats_timeBroadcast),
   (71, "stats_timeDense", .d .stats_timeDense),
   (72, "stats_estimateMinEVal", .d .stats_estimateMinEVal),
   (73, "stats_estimateMaxEVal", .d .stats_estimateMaxEVal),
   (74, "stats_estimateLargestSVal", .d .stats_estimateLargestSVal),
   (75, "stats_estimateBNorm", .d .stats_estimateBNorm),
   (76, "stats_estimateInvBNorm", .d .stats_estimateInvBNorm),
   (77, "stats_maxConvTol", .d .stats_maxConvTol),
   (78, "stats_lockingIssue", .i .stats_lockingIssue),
   (79, "dynamicMethodSwitch", .i .dynamicMethodSwitch),
   (80, "convTestFun", .p .convTestFun),
   (81, "convTestFun_type", .i .convTestFun_type),
   (82, "convtest", .p .convtest),
   (83, "ldevecs", .i .ldevecs),
   (84, "ldOPs", .i .ldOPs),
   (85, "monitorFun", .p .monitorFun),
   (86, "monitorFun_type", .i .monitorFun_type),
   (87, "monitor", .p .monitor),
   (88, "queue", .p .queue),
   (89, "profile", .p .profile)]

/-- The public name of each label: the label's text without the word `Params` (this is the spelling
used by the Matlab and Python interfaces). -/
def apiNames : List (Int × String) := [
   (1, "n"),
   (2, "matrixMatvec"),
   (3, "matrixMatvec_type"),
   (4, "applyPreconditioner"),
   (5, "applyPreconditioner_type"),
   (6, "massMatrixMatvec"),
   (7, "massMatrixMatvec_type"),
   (8, "numProcs"),
   (9, "procID"),
   (10, "commInfo"),
   (11, "nLocal"),
   (12, "globalSumReal"),
   (13, "globalSumReal_type"),
   (14, "broadcastReal"),
   (15, "broadcastReal_type"),
   (16, "numEvals"),
   (17, "target"),
   (18, "numTargetShifts"),
   (19, "targetShifts"),
   (20, "locking"),
   (21, "initSize"),
   (22, "numOrthoConst"),
   (23, "maxBasisSize"),
   (24, "minRestartSize"),
   (25, "maxBlockSize"),
   (26, "maxMatvecs"),
   (27, "maxOuterIterations"),
   (28, "iseed"),
   (29, "aNorm"),
   (30, "BNorm"),
   (31, "invBNorm"),
   (32, "eps"),
   (33, "orth"),
   (34, "internalPrecision"),
   (35, "printLevel"),
   (36, "outputFile"),
   (37, "matrix"),
   (38, "massMatrix"),
   (39, "preconditioner"),
   (40, "ShiftsForPreconditioner"),
   (41, "initBasisMode"),
   (42, "projection_projection"),
   (43, "restarting_maxPrevRetain"),
   (44, "correction_precondition"),
   (45, "correction_robustShifts"),
   (46, "correction_maxInnerIterations"),
   (47, "correction_projectors_LeftQ"),
   (48, "correction_projectors_LeftX"),
   (49, "correction_projectors_RightQ"),
   (50, "correction_projectors_RightX"),
   (51, "correction_projectors_SkewQ"),
   (52, "correction_projectors_SkewX"),
   (53, "correction_convTest"),
   (54, "correction_relTolBase"),
   (55, "stats_numOuterIterations"),
   (56, "stats_numRestarts"),
   (57, "stats_numMatvecs"),
   (58, "stats_numPreconds"),
   (59, "stats_numGlobalSum"),
   (60, "stats_volumeGlobalSum"),
   (61, "stats_numBroadcast"),
   (62, "stats_volumeBroadcast"),
   (63, "stats_flopsDense"),
   (64, "stats_numOrthoInnerProds"),
   (65, "stats_elapsedTime"),
   (66, "stats_timeMatvec"),
   (67, "stats_timePrecond"),
   (68, "stats_timeOrtho"),
   (69, "stats_timeGlobalSum"),
   (70, "stats_timeBroadcast"),
   (71, "stats_timeDense"),
   (72, "stats_estimateMinEVal"),
   (73, "stats_estimateMaxEVal"),
   (74, "stats_estimateLargestSVal"),
   (75, "stats_estimateBNorm"),
   (76, "stats_estimateInvBNorm"),
   (77, "stats_maxConvTol"),
   (78, "stats_lockingIssue"),
   (79, "dynamicMethodSwitch"),
   (80, "convTestFun"),
   (81, "convTestFun_type"),
   (82, "convtest"),
   (83, "ldevecs"),
   (84, "ldOPs"),
   (85, "monitorFun"),
   (86, "monitorFun_type"),
   (87, "monitor"),
   (88, "queue"),
   (89, "profile")]

end Verif.Eigs
