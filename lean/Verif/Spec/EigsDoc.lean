import Verif.Spec.EigsLabels
import Mathlib.Algebra.Order.Field.Basic

/-!
# The documented input errors and preset methods of the eigensolver

Transcribed from readme.txt ("Error Codes", lines 4526-4625, and "Preset Methods", lines
4261-4523), in the reader's terms.
-/

namespace Verif.Eigs.Doc
open Verif.Members

variable {K : Type} [Field K] [LinearOrder K]

/-- Which of the output arrays are unusable: `evals` is `NULL`; `evecs` is `NULL` or not a device
pointer; `resNorms` is `NULL`. -/
structure BadArrays where
  evals : Prop
  evecs : Prop
  resNorms : Prop

/-- The targets that need shifts. -/
def needsShift (t : Int) : Prop := t = 2 ∨ t = 3 ∨ t = 4 ∨ t = 5

/-- The documented list "code: condition", in the order of the documentation (readme.txt
4545-4625). `meps` is the machine precision. -/
def errors (meps : K) (a : BadArrays) (s : Store IF DF PF K) : List (Int × Prop) := [
  (-5, s.i .n < 0 ∨ s.i .nLocal < 0 ∨ s.i .nLocal > s.i .n),
  (-6, s.i .numProcs < 1),
  (-7, s.p .matrixMatvec = 0),
  (-8, s.p .applyPreconditioner = 0 ∧ s.i .correctionParams_precondition > 0),
  (-10, s.i .numEvals > s.i .n),
  (-11, s.i .numEvals < 0),
  (-12, s.p .convTestFun ≠ 0 ∧ s.d .eps > 0 ∧ s.d .eps < meps),
  (-13, ¬ (0 ≤ s.i .target ∧ s.i .target ≤ 5)),
  (-14, needsShift (s.i .target) ∧ s.i .numTargetShifts ≤ 0),
  (-15, needsShift (s.i .target) ∧ s.p .targetShifts = 0),
  (-16, s.i .numOrthoConst < 0 ∨ s.i .numOrthoConst > s.i .n),
  (-17, s.i .maxBasisSize < 2 ∧ s.i .n > 2),
  (-18, s.i .minRestartSize < 0 ∨ (s.i .minRestartSize = 0 ∧ s.i .n > 2 ∧ s.i .numEvals > 0)),
  (-19, s.i .maxBlockSize < 0 ∨ (s.i .maxBlockSize = 0 ∧ s.i .numEvals > 0)),
  (-20, s.i .restartingParams_maxPrevRetain < 0),
  (-22, s.i .initSize < 0),
  (-23, s.i .locking = 0 ∧ s.i .initSize > s.i .maxBasisSize),
  (-24, s.i .locking ≠ 0 ∧ s.i .initSize > s.i .numEvals),
  (-25, s.i .restartingParams_maxPrevRetain + s.i .minRestartSize ≥ s.i .maxBasisSize ∧
    s.i .n > s.i .maxBasisSize),
  (-26, s.i .minRestartSize ≥ s.i .n ∧ s.i .n > 2),
  (-27, s.i .printLevel < 0 ∨ s.i .printLevel > 5),
  (-28, ¬ (0 ≤ s.i .correctionParams_convTest ∧ s.i .correctionParams_convTest ≤ 3)),
  (-29, s.i .correctionParams_convTest = 1 ∧ s.d .correctionParams_relTolBase ≤ 1),
  (-30, a.evals),
  (-31, a.evecs),
  (-32, a.resNorms),
  (-33, s.i .locking = 0 ∧ s.i .minRestartSize < s.i .numEvals ∧ s.i .n > 2),
  (-34, s.i .ldevecs < s.i .nLocal),
  (-35, s.i .ldOPs ≠ 0 ∧ s.i .ldOPs < s.i .nLocal),
  (-38, s.i .locking = 0 ∧ (s.i .target = 2 ∨ s.i .target = 3))]

/-- Condition of the code that the documentation omits: a mass matrix with a projection other than
Rayleigh-Ritz. -/
def massProjection (s : Store IF DF PF K) : Prop :=
  s.p .massMatrixMatvec ≠ 0 ∧ s.i .projectionParams_projection ≠ 1

/-- `rc` is 0 and no listed condition holds, or `rc` is the code of the first condition that holds. -/
def FirstViolated (l : List (Int × Prop)) (rc : Int) : Prop :=
  (rc = 0 ∧ ∀ e ∈ l, ¬ e.2) ∨
  ∃ pre c P post, l = pre ++ (c, P) :: post ∧ (∀ e ∈ pre, ¬ e.2) ∧ P ∧ rc = c

/-- The constraints in order of priority.  Same list as `errors` except: the two shift errors come
last; -12 includes negative tolerances; -24 concerns positive `locking` only; -26 is strict; -39 is
added. -/
def checks (meps : K) (a : BadArrays) (s : Store IF DF PF K) : List (Int × Prop) := [
  (-5, s.i .n < 0 ∨ s.i .nLocal < 0 ∨ s.i .nLocal > s.i .n),
  (-6, s.i .numProcs < 1),
  (-7, s.p .matrixMatvec = 0),
  (-8, s.p .applyPreconditioner = 0 ∧ s.i .correctionParams_precondition > 0),
  (-10, s.i .numEvals > s.i .n),
  (-11, s.i .numEvals < 0),
  (-12, s.p .convTestFun ≠ 0 ∧ s.d .eps ≠ 0 ∧ s.d .eps < meps),
  (-13, ¬ (0 ≤ s.i .target ∧ s.i .target ≤ 5)),
  (-16, s.i .numOrthoConst < 0 ∨ s.i .numOrthoConst > s.i .n),
  (-17, s.i .maxBasisSize < 2 ∧ s.i .n > 2),
  (-18, s.i .minRestartSize < 0 ∨ (s.i .minRestartSize = 0 ∧ s.i .n > 2 ∧ s.i .numEvals > 0)),
  (-19, s.i .maxBlockSize < 0 ∨ (s.i .maxBlockSize = 0 ∧ s.i .numEvals > 0)),
  (-20, s.i .restartingParams_maxPrevRetain < 0),
  (-22, s.i .initSize < 0),
  (-23, s.i .locking = 0 ∧ s.i .initSize > s.i .maxBasisSize),
  (-24, s.i .locking > 0 ∧ s.i .initSize > s.i .numEvals),
  (-25, s.i .restartingParams_maxPrevRetain + s.i .minRestartSize ≥ s.i .maxBasisSize ∧
    s.i .n > s.i .maxBasisSize),
  (-26, s.i .minRestartSize > s.i .n ∧ s.i .n > 2),
  (-27, s.i .printLevel < 0 ∨ s.i .printLevel > 5),
  (-28, ¬ (0 ≤ s.i .correctionParams_convTest ∧ s.i .correctionParams_convTest ≤ 3)),
  (-29, s.i .correctionParams_convTest = 1 ∧ s.d .correctionParams_relTolBase ≤ 1),
  (-30, a.evals),
  (-31, a.evecs),
  (-32, a.resNorms),
  (-33, s.i .locking = 0 ∧ s.i .minRestartSize < s.i .numEvals ∧ s.i .n > 2),
  (-34, s.i .ldevecs < s.i .nLocal),
  (-35, s.i .ldOPs ≠ 0 ∧ s.i .ldOPs < s.i .nLocal),
  (-38, s.i .locking = 0 ∧ (s.i .target = 2 ∨ s.i .target = 3)),
  (-39, massProjection s),
  (-14, needsShift (s.i .target) ∧ s.i .numTargetShifts ≤ 0),
  (-15, needsShift (s.i .target) ∧ s.p .targetShifts = 0)]

end Verif.Eigs.Doc
