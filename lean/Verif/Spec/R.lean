import Verif.Spec.Python
import Verif.Model.REigs

/-!
# What the R functions promise

Transcribed from the documentation comments of R/R/eigs.R (36-202); the parameters that can be named and what they stand
for are those of the manual (`Py.Doc.eigsMembers`).
-/

namespace Verif.R.Doc
open Verif.Members

variable {K V : Type} [Field K] [LinearOrder K] [FloorRing K]

/-- What the value of an option means for a member: a number, or the name of a constant of the library.  Numbers in R are
doubles by default, so a whole double in the range of R integers means that integer. -/
inductive Means : Member Eigs.IF Eigs.DF Eigs.PF → RVal K → Val K → Prop where
  | int (f : Eigs.IF) (v : Int) : Means (.i f) (.int [v]) (.int v)
  | whole (f : Eigs.IF) (v : Int) (h : -2 ^ 31 < v ∧ v < 2 ^ 31) : Means (.i f) (.real [(v : K)]) (.int v)
  | name (f : Eigs.IF) (s : String) (v : Int) (h : constantInfo Eigs.constTable s = .ok v) :
      Means (.i f) (.str [s]) (.int v)
  | real (f : Eigs.DF) (x : K) : Means (.d f) (.real [x]) (.dbl x)
  | fromInt (f : Eigs.DF) (v : Int) : Means (.d f) (.int [v]) (.dbl (v : K))
  | seed (w : List Int) (h : w.length = 4) : Means .seed (.int w) (.seed fun k => w[k])

/-- The dimension of the problem: the rows of the matrix, or the option `n` when the operator is a function. -/
def Dim (a : EigsArgs K V) (N : Nat) : Prop :=
  (∃ x, a.A = .mat x ∧ x.rows = N) ∨
  (a.A = .fn ∧ (a.opts.exact "n" = .int [(N : Int)] ∨ a.opts.exact "n" = .real [(N : K)]))

/-- The values of `which` of `eigs_sym`, eigs.R:52-60: the constant of the manual, and whether it is relative to
`targetShifts`. -/
def which : List (String × Int × Bool) :=
  [("LA", 1, false), ("SA", 0, false), ("LM", 5, true), ("SM", 4, true), ("CLT", 3, true), ("CGT", 2, true)]

/-- The options of `eigs_sym` other than `method`, eigs.R:127-154, with the member of the manual each one names. -/
def options : List (String × Member Eigs.IF Eigs.DF Eigs.PF) :=
  [("aNorm", .d .aNorm), ("maxBlockSize", .i .maxBlockSize), ("printLevel", .i .printLevel), ("locking", .i .locking),
   ("maxBasisSize", .i .maxBasisSize), ("minRestartSize", .i .minRestartSize), ("maxMatvecs", .i .maxMatvecs),
   ("maxit", .i .maxOuterIterations), ("maxPrevRetain", .i .restartingParams_maxPrevRetain),
   ("robustShifts", .i .correctionParams_robustShifts),
   ("maxInnerIterations", .i .correctionParams_maxInnerIterations),
   ("LeftQ", .i .correctionParams_projectors_LeftQ), ("LeftX", .i .correctionParams_projectors_LeftX),
   ("RightQ", .i .correctionParams_projectors_RightQ), ("RightX", .i .correctionParams_projectors_RightX),
   ("SkewQ", .i .correctionParams_projectors_SkewQ), ("SkewX", .i .correctionParams_projectors_SkewX),
   ("relTolBase", .d .correctionParams_relTolBase), ("iseed", .seed)]

/-- The names of `method`, eigs.R:106-123. -/
def methods : List String :=
  ["DYNAMIC", "DEFAULT_MIN_TIME", "DEFAULT_MIN_MATVECS", "Arnoldi", "GD", "GD_plusK", "GD_Olsen_plusK",
   "JD_Olsen_plusK", "RQI", "JDQR", "JDQMR", "JDQMR_ETol", "STEEPEST_DESCENT", "LOBPCG_OrthoBasis",
   "LOBPCG_OrthoBasis_Window"]

/-- The elements of `stats`, eigs.R:90-99, with the member each one reports. -/
def stats : List (String × Member Eigs.IF Eigs.DF Eigs.PF) :=
  [("numMatvecs", .i .stats_numMatvecs), ("numPreconds", .i .stats_numPreconds), ("elapsedTime", .d .stats_elapsedTime),
   ("timeMatvec", .d .stats_timeMatvec), ("timePrecond", .d .stats_timePrecond), ("timeOrtho", .d .stats_timeOrtho),
   ("estimateMinEval", .d .stats_estimateMinEVal), ("estimateMaxEval", .d .stats_estimateMaxEVal),
   ("estimateANorm", .d .stats_estimateLargestSVal)]

end Verif.R.Doc
