import Verif.Spec.Members

/-!
# primme_svds_params: members and labels, from the public header

Transcribed by tools/gen_tables.py from include/primme_svds.h (structure at line 85, labels at lines
167-229).  The label `PRIMME_SVDS_a_b` names the member `a.b` of the structure.
-/

namespace Verif.Svds
open Verif.Members

/-- Members with an integral C type. -/
inductive IF where
  | m | n | matrixMatvec_type | applyPreconditioner_type | numProcs | procID | mLocal | nLocal | globalSumReal_type | broadcastReal_type | numSvals | target | numTargetShifts | method | methodStage2 | locking | numOrthoConst | precondition | initSize | maxBasisSize | maxBlockSize | maxMatvecs | printLevel | internalPrecision | stats_numOuterIterations | stats_numRestarts | stats_numMatvecs | stats_numPreconds | stats_numGlobalSum | stats_numBroadcast | stats_volumeGlobalSum | stats_volumeBroadcast | stats_lockingIssue | convTestFun_type | monitorFun_type
  deriving DecidableEq, Repr

/-- Members of type `double`. -/
inductive DF where
  | aNorm | eps | stats_numOrthoInnerProds | stats_elapsedTime | stats_timeMatvec | stats_timePrecond | stats_timeOrtho | stats_timeGlobalSum | stats_timeBroadcast
  deriving DecidableEq, Repr

/-- Members that are pointers. -/
inductive PF where
  | matrixMatvec | applyPreconditioner | commInfo | globalSumReal | broadcastReal | targetShifts | matrix | preconditioner | outputFile | convTestFun | convtest | monitorFun | monitor | queue | profile
  deriving DecidableEq, Repr

/-- C type of the integral members. -/
def ctype : IF → CType
  | .m => .clong
  | .n => .clong
  | .matrixMatvec_type => .cenum
  | .applyPreconditioner_type => .cenum
  | .numProcs => .cint
  | .procID => .cint
  | .mLocal => .clong
  | .nLocal => .clong
  | .globalSumReal_type => .cenum
  | .broadcastReal_type => .cenum
  | .numSvals => .cint
  | .target => .cenum
  | .numTargetShifts => .cint
  | .method => .cenum
  | .methodStage2 => .cenum
  | .locking => .cint
  | .numOrthoConst => .cint
  | .precondition => .cint
  | .initSize => .cint
  | .maxBasisSize => .cint
  | .maxBlockSize => .cint
  | .maxMatvecs => .clong
  | .printLevel => .cint
  | .internalPrecision => .cenum
  | .stats_numOuterIterations => .clong
  | .stats_numRestarts => .clong
  | .stats_numMatvecs => .clong
  | .stats_numPreconds => .clong
  | .stats_numGlobalSum => .clong
  | .stats_numBroadcast => .clong
  | .stats_volumeGlobalSum => .clong
  | .stats_volumeBroadcast => .clong
  | .stats_lockingIssue => .clong
  | .convTestFun_type => .cenum
  | .monitorFun_type => .cenum

/-- The published labels (except the invalid label 0) with the member they name. -/
def labels : List (Int × String × Member IF DF PF) := [
   (1, "primme", .sub 0),
   (2, "primmeStage2", .sub 1),
   (3, "m", .i .m),
   (4, "n", .i .n),
   (5, "matrixMatvec", .p .matrixMatvec),
   (6, "matrixMatvec_type", .i .matrixMatvec_type),
   (7, "applyPreconditioner", .p .applyPreconditioner),
   (8, "applyPreconditioner_type", .i .applyPreconditioner_type),
   (9, "numProcs", .i .numProcs),
   (10, "procID", .i .procID),
   (11, "mLocal", .i .mLocal),
   (12, "nLocal", .i .nLocal),
   (13, "commInfo", .p .commInfo),
   (14, "globalSumReal", .p .globalSumReal),
   (15, "globalSumReal_type", .i .globalSumReal_type),
   (16, "broadcastReal", .p .broadcastReal),
   (17, "broadcastReal_type", .i .broadcastReal_type),
   (18, "numSvals", .i .numSvals),
   (19, "target", .i .target),
   (20, "numTargetShifts", .i .numTargetShifts),
   (21, "targetShifts", .p .targetShifts),
   (22, "method", .i .method),
   (23, "methodStage2", .i .methodStage2),
   (24, "matrix", .p .matrix),
   (25, "preconditioner", .p .preconditioner),
   (26, "locking", .i .locking),
   (27, "numOrthoConst", .i .numOrthoConst),
   (28, "aNorm", .d .aNorm),
   (29, "eps", .d .eps),
   (30, "precondition", .i .precondition),
   (31, "initSize", .i .initSize),
   (32, "maxBasisSize", .i .maxBasisSize),
   (33, "maxBlockSize", .i .maxBlockSize),
   (34, "maxMatvecs", .i .maxMatvecs),
   (35, "iseed", .seed),
   (36, "printLevel", .i .printLevel),
   (37, "internalPrecision", .i .internalPrecision),
   (38, "outputFile", .p .outputFile),
   (39, "stats_numOuterIterations", .i .stats_numOuterIterations),
   (40, "stats_numRestarts", .i .stats_numRestarts),
   (41, "stats_numMatvecs", .i .stats_numMatvecs),
   (42, "stats_numPreconds", .i .stats_numPreconds),
   (43, "stats_numGlobalSum", .i .stats_numGlobalSum),
   (44, "stats_volumeGlobalSum", .i .stats_volumeGlobalSum),
   (45, "stats_numBroadcast", .i .stats_numBroadcast),
   (46, "stats_volumeBroadcast", .i .stats_volumeBroadcast),
   (47, "stats_numOrthoInnerProds", .d .stats_numOrthoInnerProds),
   (48, "stats_elapsedTime", .d .stats_elapsedTime),
   (49, "stats_timeMatvec", .d .stats_timeMatvec),
   (50, "stats_timePrecond", .d .stats_timePrecond),
   (51, "stats_timeOrtho", .d .stats_timeOrtho),
   (52, "stats_timeGlobalSum", .d .stats_timeGlobalSum),
   (53, "stats_timeBroadcast", .d .stats_timeBroadcast),
   (54, "stats_lockingIssue", .i .stats_lockingIssue),
   (55, "convTestFun", .p .convTestFun),
   (56, "convTestFun_type", .i .convTestFun_type),
   (57, "convtest", .p .convtest),
   (58, "monitorFun", .p .monitorFun),
   (59, "monitorFun_type", .i .monitorFun_type),
   (60, "monitor", .p .monitor),
   (61, "queue", .p .queue),
   (62, "profile", .p .profile)]

/-- The public name of each label: the label's text without the word `Params` (this is the spelling
used by the Matlab and Python interfaces). -/
def apiNames : List (Int × String) := [
   (1, "primme"),
   (2, "primmeStage2"),
   (3, "m"),
   (4, "n"),
   (5, "matrixMatvec"),
   (6, "matrixMatvec_type"),
   (7, "applyPreconditioner"),
   (8, "applyPreconditioner_type"),
   (9, "numProcs"),
   (10, "procID"),
   (11, "mLocal"),
   (12, "nLocal"),
   (13, "commInfo"),
   (14, "globalSumReal"),
   (15, "globalSumReal_type"),
   (16, "broadcastReal"),
   (17, "broadcastReal_type"),
   (18, "numSvals"),
   (19, "target"),
   (20, "numTargetShifts"),
   (21, "targetShifts"),
   (22, "method"),
   (23, "methodStage2"),
   (24, "matrix"),
   (25, "preconditioner"),
   (26, "locking"),
   (27, "numOrthoConst"),
   (28, "aNorm"),
   (29, "eps"),
   (30, "precondition"),
   (31, "initSize"),
   (32, "maxBasisSize"),
   (33, "maxBlockSize"),
   (34, "maxMatvecs"),
   (35, "iseed"),
   (36, "printLevel"),
   (37, "internalPrecision"),
   (38, "outputFile"),
   (39, "stats_numOuterIterations"),
   (40, "stats_numRestarts"),
   (41, "stats_numMatvecs"),
   (42, "stats_numPreconds"),
   (43, "stats_numGlobalSum"),
   (44, "stats_volumeGlobalSum"),
   (45, "stats_numBroadcast"),
   (46, "stats_volumeBroadcast"),
   (47, "stats_numOrthoInnerProds"),
   (48, "stats_elapsedTime"),
   (49, "stats_timeMatvec"),
   (50, "stats_timePrecond"),
   (51, "stats_timeOrtho"),
   (52, "stats_timeGlobalSum"),
   (53, "stats_timeBroadcast"),
   (54, "stats_lockingIssue"),
   (55, "convTestFun"),
   (56, "convTestFun_type"),
   (57, "convtest"),
   (58, "monitorFun"),
   (59, "monitorFun_type"),
   (60, "monitor"),
   (61, "queue"),
   (62, "profile")]

end Verif.Svds
