import Verif.Spec.Python
import Verif.Model.MatEigs

/-!
# What the MATLAB functions promise

Transcribed from the help texts of Matlab/primme_eigs.m (1-204); the parameters that can be named and what they stand for
are those of the manual (`Py.Doc.eigsMembers`).
-/

namespace Verif.Mat.Doc
open Verif.Members

variable {K V : Type} [Field K] [LinearOrder K] [FloorRing K]

/-- What the value of an option means for a member: a number, or the name of a constant of the library; the seed is a
vector of four whole numbers. -/
inductive Means {IF DF PF : Type} (consts : List (String × Int)) : Member IF DF PF → MVal K → Val K → Prop where
  | whole (f : IF) (v : Int) : Means consts (.i f) (.num 1 1 [(v : K)]) (.int v)
  | name (f : IF) (s : String) (v : Int) (h : constantInfo consts s = .ok v) : Means consts (.i f) (.str s) (.int v)
  | real (f : DF) (x : K) : Means consts (.d f) (.num 1 1 [x]) (.dbl x)
  | seed (r c : Nat) (w : List Int) (h : w.length = 4) (hv : (r = 1 ∧ c = 4) ∨ (r = 4 ∧ c = 1)) :
      Means consts .seed (.num r c (w.map (Int.cast : Int → K))) (.seed fun k => w[k])

/-- The options of the user are fields of a struct, and none of them is a struct itself. -/
structure Ordinary (a : EigsArgs K V) : Prop where
  nodup : (a.opts.rest.map Prod.fst).Nodup
  flat : ∀ e ∈ a.opts.rest, ∀ l, e.2 ≠ .struct l

/-- The names of the manual that the arguments decide. -/
def problem : List String :=
  ["n", "numEvals", "target", "targetShifts", "matrixMatvec", "massMatrixMatvec", "applyPreconditioner",
   "matrixMatvec_type", "massMatrixMatvec_type", "applyPreconditioner_type", "numOrthoConst", "initSize", "convTestFun",
   "monitorFun", "correction_precondition", "precondition", "correction"]

/-- The members the functions and the shifts of the user are kept in. -/
def kept : List String := ["matrix", "preconditioner", "massMatrix", "convtest", "monitor", "commInfo", "numTargetShifts"]

/-- An operator is a function. -/
def Function : MOp → Prop
  | .fn _ => True
  | _ => False

/-- The dimension of the problem, primme_eigs.m:4-15: the columns of the matrix, or the argument DIM when an operator is a
function. -/
def Dim (a : EigsArgs K V) (N : Nat) : Prop :=
  ((∃ m x, a.A = .mat m x ∧ m.cols = N) ∧ ∀ b, a.B = some b → ¬ Function b) ∨
  ((Function a.A ∨ ∃ b, a.B = some b ∧ Function b) ∧ a.dim = some (.num 1 1 [(N : K)]))

/-- The handle of the function of an operator: itself, or the product with the matrix. -/
inductive Handle : MOp → Nat → Prop where
  | mat (m : MMatrix) (x : Nat) : Handle (.mat m x) x
  | fn (x : Nat) : Handle (.fn x) x

/-- The names of TARGET, primme_eigs.m:17-34: the constant of the manual, and whether it is relative to the shifts. -/
def targets : List (String × Int × Bool) :=
  [("LA", 1, false), ("SA", 0, false), ("LM", 5, true), ("SM", 4, true), ("CGT", 2, true), ("CLT", 3, true)]

/-- The options of OPTS with a number or a name, primme_eigs.m:39-73, with the member of the manual each one names. -/
def options : List (String × Member Eigs.IF Eigs.DF Eigs.PF) :=
  [("aNorm", .d .aNorm), ("tol", .d .eps), ("maxBlockSize", .i .maxBlockSize), ("locking", .i .locking),
   ("p", .i .maxBasisSize), ("minRestartSize", .i .minRestartSize), ("maxMatvecs", .i .maxMatvecs),
   ("maxit", .i .maxOuterIterations), ("maxPrevRetain", .i .restartingParams_maxPrevRetain), ("robustShifts", .i .correctionParams_robustShifts),
   ("maxInnerIterations", .i .correctionParams_maxInnerIterations),
   ("LeftQ", .i .correctionParams_projectors_LeftQ), ("LeftX", .i .correctionParams_projectors_LeftX),
   ("RightQ", .i .correctionParams_projectors_RightQ), ("RightX", .i .correctionParams_projectors_RightX),
   ("SkewQ", .i .correctionParams_projectors_SkewQ), ("SkewX", .i .correctionParams_projectors_SkewX),
   ("relTolBase", .d .correctionParams_relTolBase), ("convTest", .i .correctionParams_convTest), ("iseed", .seed)]

/-- Two more short names the function takes. -/
def moreOptions : List (String × Member Eigs.IF Eigs.DF Eigs.PF) :=
  [("projection", .i .projectionParams_projection), ("precondition", .i .correctionParams_precondition)]

/-- The names of METHOD, primme_eigs.m:88-104. -/
def methods : List String :=
  ["DYNAMIC", "DEFAULT_MIN_TIME", "DEFAULT_MIN_MATVECS", "Arnoldi", "GD", "GD_plusK",
   "GD_Olsen_plusK", "JD_Olsen_plusK", "RQI", "JDQR", "JDQMR", "JDQMR_ETol", "STEEPEST_DESCENT", "LOBPCG_OrthoBasis",
   "LOBPCG_OrthoBasis_Window"]

end Verif.Mat.Doc
