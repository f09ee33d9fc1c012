import Verif.Spec.Mat
import Verif.Model.MatSvds

/-!
# What `primme_svds` of the MATLAB interface promises

Transcribed from the help text of Matlab/primme_svds.m (1-165); the parameters that can be named and what they stand for
are those of the manual (`Py.Doc.svdsMembers`, and `Py.Doc.eigsMembers` for the solver of each stage).
-/

namespace Verif.Mat.Doc
open Verif.Members

variable {K V : Type} [Field K] [LinearOrder K] [FloorRing K]

/-- The options of the user, and those of each stage, are fields of a struct, and none of them is a struct itself. -/
structure OrdinaryS (a : SvdsArgs K V) : Prop where
  nodup : (a.opts.rest.map Prod.fst).Nodup
  flat : ∀ e ∈ a.opts.rest, ∀ l, e.2 ≠ .struct l
  nodup1 : ∀ st, a.opts.primme = some st → (st.rest.map Prod.fst).Nodup
  flat1 : ∀ st, a.opts.primme = some st → ∀ e ∈ st.rest, ∀ l, e.2 ≠ .struct l
  nodup2 : ∀ st, a.opts.primmeStage2 = some st → (st.rest.map Prod.fst).Nodup
  flat2 : ∀ st, a.opts.primmeStage2 = some st → ∀ e ∈ st.rest, ∀ l, e.2 ≠ .struct l

/-- The dimensions of the problem, primme_svds.m:4-10: those of the matrix, or the arguments M and N when it is given by a
function. -/
def DimsS (a : SvdsArgs K V) (M N : Nat) : Prop :=
  (∃ x h, a.A = .mat x h ∧ x.rows = M ∧ x.cols = N) ∨
  ((∃ h, a.A = .fn h) ∧ a.rows = some (.num 1 1 [(M : K)]) ∧ a.cols = some (.num 1 1 [(N : K)]))

/-- The names of the manual that the arguments decide. -/
def problemS : List String :=
  ["m", "n", "numSvals", "target", "targetShifts", "matrixMatvec", "applyPreconditioner", "matrixMatvec_type",
   "applyPreconditioner_type", "numOrthoConst", "initSize", "convTestFun", "monitorFun", "precondition", "method",
   "methodStage2"]

/-- The members the functions and the shifts of the user are kept in. -/
def keptS : List String := ["matrix", "preconditioner", "convtest", "monitor", "commInfo", "numTargetShifts"]

/-- The options with a number or a name, primme_svds.m:20-46, with the member of the manual each one names. -/
def optionsS : List (String × Member Svds.IF Svds.DF Svds.PF) :=
  [("aNorm", .d .aNorm), ("tol", .d .eps), ("maxit", .i .maxMatvecs), ("p", .i .maxBasisSize), ("locking", .i .locking),
   ("maxBlockSize", .i .maxBlockSize), ("iseed", .seed)]

/-- The options of a stage, primme_svds.m:63-64 (those of `primme_eigs` with a number or a name, other than the dimension,
`maxit`, `tol` and `p`, which `primme_svds` does not rename for a stage) with the member each one names. -/
def stageOptions : List (String × Member Eigs.IF Eigs.DF Eigs.PF) :=
  [("aNorm", .d .aNorm), ("maxBlockSize", .i .maxBlockSize), ("locking", .i .locking),
   ("minRestartSize", .i .minRestartSize), ("maxMatvecs", .i .maxMatvecs),
   ("maxPrevRetain", .i .restartingParams_maxPrevRetain), ("robustShifts", .i .correctionParams_robustShifts),
   ("maxInnerIterations", .i .correctionParams_maxInnerIterations),
   ("LeftQ", .i .correctionParams_projectors_LeftQ), ("LeftX", .i .correctionParams_projectors_LeftX),
   ("RightQ", .i .correctionParams_projectors_RightQ), ("RightX", .i .correctionParams_projectors_RightX),
   ("SkewQ", .i .correctionParams_projectors_SkewQ), ("SkewX", .i .correctionParams_projectors_SkewX),
   ("relTolBase", .d .correctionParams_relTolBase), ("convTest", .i .correctionParams_convTest), ("iseed", .seed)]

/-- The names of `method`, primme_svds.m:34-38. -/
def methodsS : List String := ["primme_svds_normalequations", "primme_svds_augmented", "primme_svds_hybrid"]

/-- The vectors on both sides, as given or, when one side is not given, the products with the operator
(`A*V` for the left ones and `A'*U` for the right ones). -/
inductive Pairs (mul adj : MVecs V → Option (MVecs V)) : Option (MVecs V) → Option (MVecs V) → MVecs V → MVecs V → Prop where
  | both (u v : MVecs V) : Pairs mul adj (some u) (some v) u v
  | left (u v : MVecs V) (h : adj u = some v) : Pairs mul adj (some u) none u v
  | right (u v : MVecs V) (h : mul v = some u) : Pairs mul adj none (some v) u v

end Verif.Mat.Doc
