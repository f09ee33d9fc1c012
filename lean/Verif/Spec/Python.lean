import Verif.Spec.EigsLabels
import Verif.Spec.SvdsLabels

/-!
# What the Python functions promise

Transcribed from the documentation strings of Python/primme.pyx (`eigsh` 290-482, `get_eigsh_param` 737-832, `svds`
1081-1243) and from the list of parameters of the manual; nothing here refers to the implementation.
-/

namespace Verif.Py.Doc
open Verif.Members

/-- The parameters that can be named, with the member each one stands for: the labels of include/primme_eigs.h under
their documented names.  The types of the two reductions have no name (13 and 15). -/
def eigsMembers : List (String × Member Eigs.IF Eigs.DF Eigs.PF) :=
  Eigs.labels.filterMap fun e =>
    if e.1 = 13 ∨ e.1 = 15 then none else (Eigs.apiNames.find? (fun p => p.1 = e.1)).map fun p => (p.2, e.2.2)

/-- How a parameter is handed over: one integer, one double, one pointer, or (the others) an array or a string. -/
def eigsType : Member Eigs.IF Eigs.DF Eigs.PF → PType × Nat
  | .i _ => (.int, 1)
  | .d _ => (.double, 1)
  | .p .targetShifts => (.double, 0)
  | .p .ShiftsForPreconditioner => (.double, 0)
  | .p .profile => (.string, 1)
  | .p _ => (.pointer, 1)
  | .seed => (.int, 4)
  | .sub _ => (.pointer, 1)

/-- The values of `which` and the eigenvalues each one asks for (primme.pyx:320-337): the constant of the manual and
whether it is relative to a point. -/
def which : List (String × Int × Bool) :=
  [("LM", 5, true), ("SM", 4, true), ("LA", 1, false), ("SA", 0, false), ("CLT", 3, true), ("CGT", 2, true)]

/-- The names `get_eigsh_param` promises, primme.pyx:743-804, and `ShiftsForPreconditioner` of the example. -/
def getNames : List String :=
  ["n", "numEvals", "target", "locking", "initSize", "numOrthoConst", "maxBasisSize", "minRestartSize", "maxBlockSize",
   "maxMatvecs", "maxOuterIterations", "aNorm", "BNorm", "invBNorm", "eps", "orth", "internalPrecision", "printLevel",
   "matrix", "massMatrix", "preconditioner", "initBasisMode", "projectionParams_projection",
   "restartingParams_maxPrevRetain", "correctionParams_precondition", "correctionParams_robustShifts",
   "correctionParams_maxInnerIterations", "correctionParams_projectors_LeftQ", "correctionParams_projectors_LeftX",
   "correctionParams_projectors_RightQ", "correctionParams_projectors_RightX", "correctionParams_projectors_SkewQ",
   "correctionParams_projectors_SkewX", "correctionParams_convTest", "correctionParams_relTolBase",
   "stats_numOuterIterations", "stats_numRestarts", "stats_numMatvecs", "stats_numPreconds", "stats_numGlobalSum",
   "stats_volumeGlobalSum", "stats_numBroadcast", "stats_volumeBroadcast", "stats_flopsDense",
   "stats_numOrthoInnerProds", "stats_elapsedTime", "stats_timeMatvec", "stats_timePrecond", "stats_timeOrtho",
   "stats_timeGlobalSum", "stats_timeBroadcast", "stats_timeDense", "stats_estimateMinEVal", "stats_estimateMaxEVal",
   "stats_estimateLargestSVal", "stats_estimateBNorm", "stats_estimateInvBNorm", "stats_maxConvTol",
   "stats_lockingIssue", "dynamicMethodSwitch", "convtest", "ldevecs", "ldOPs", "monitor"]

/-- The names of preset methods `eigsh` promises, primme.pyx:376-381. -/
def methodNames : List String := ["DEFAULT_MIN_TIME", "DEFAULT_MIN_MATVECS", "DYNAMIC"]

/-- The parameters of the singular value solver that can be named: the labels of include/primme_svds.h under their
documented names. -/
def svdsMembers : List (String × Member Svds.IF Svds.DF Svds.PF) :=
  Svds.labels.filterMap fun e => (Svds.apiNames.find? (fun p => p.1 = e.1)).map fun p => (p.2, e.2.2)

/-- How a parameter is handed over (the seed is announced as one integer, see `C04_seed_arity_violated`). -/
def svdsType : Member Svds.IF Svds.DF Svds.PF → PType × Nat
  | .i _ => (.int, 1)
  | .d _ => (.double, 1)
  | .p .targetShifts => (.double, 0)
  | .p .profile => (.string, 1)
  | .p _ => (.pointer, 1)
  | .seed => (.int, 1)
  | .sub _ => (.pointer, 1)

/-- The values of `which` of `svds` and the constant of the manual for each one (primme.pyx:1110-1115). -/
def svdsWhich : List (String × Int) := [("LM", 0), ("SM", 1)]

/-! Where the manual wants the vectors in `svecs` (readme.txt:5414-5422): the left constraints, the left vectors, the right
constraints and the right vectors, one column after the other.  `c` is the number of constraints, `g` that of the vectors
(`initSize`), `i` the row and `j` the column. -/

def leftConstraint (m i j : Nat) : Nat := m * j + i
def leftVector (m c i j : Nat) : Nat := (c + j) * m + i
def rightConstraint (m n c g i j : Nat) : Nat := (c + g) * m + j * n + i
def rightVector (m n c g i j : Nat) : Nat := (c + g) * m + (c + j) * n + i

end Verif.Py.Doc
