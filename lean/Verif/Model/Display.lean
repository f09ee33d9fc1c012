import Verif.Model.EigsTables
import Verif.Model.SvdsTables

/-!
# Printing the parameters

`primme_display_params` and `primme_display_params_prefix` of src/eigs/primme_interface.c:629-748 and
`primme_svds_display_params` of src/svds/primme_svds_interface.c:420-513.

Simplifications: the lines of comment (`// ...`) are not modelled; a line is the prefix, the name of the member with
underscores for dots, and what is printed; the digits of a number are not modelled.
-/

namespace Verif.Display
open Verif.Members

/-- What is printed after the equals sign. -/
inductive Shown (D : Type) where
  | int (z : Int)
  | dbl (x : D)
  /-- The name of a constant. -/
  | const (c : String)
  | ints (l : List Int)
  | dbls (l : List D)
  deriving DecidableEq, Repr

/-- A statement of the display, primme_interface.c:655-661: `PRINT` or `PRINT_PRIMME_INT` of an integral member, `PRINT` of a
`double`, a sequence of `PRINTIF` for the same member, the loop over the shifts, or the loop over `iseed`. -/
inductive Entry (IF DF PF : Type) where
  | int (f : IF)
  | dbl (f : DF)
  | enum (f : IF) (cs : List (String × Int))
  /-- The number of shifts, the shifts, and whether the pointer is tested. -/
  | shifts (n : IF) (a : PF) (tested : Bool)
  | seed

structure Row (D : Type) where
  pre : String
  name : String
  value : Shown D
  deriving DecidableEq, Repr

variable {IF DF PF D : Type}

/-- What one statement prints.  `mem a` is the array at the address `a`. -/
def showEntry (mem : Nat → List D) (s : Store IF DF PF D) : Entry IF DF PF → Outcome (List (Shown D))
  | .int f => .ok [.int (s.i f)]
  | .dbl f => .ok [.dbl (s.d f)]
  | .enum f cs => .ok ((cs.filter (fun c => s.i f = c.2)).map (fun c => .const c.1))
  | .shifts n a tested =>
    if 0 < s.i n ∧ (tested = true → s.p a ≠ 0) then
      if s.p a = 0 ∨ ((mem (s.p a)).length : Int) < s.i n then .ub
      else .ok [.dbls ((mem (s.p a)).take (s.i n).toNat)]
    else .ok []
  | .seed => .ok [.ints [s.seed 0, s.seed 1, s.seed 2, s.seed 3]]

/-- The statements one after the other. -/
def rows (pre : String) (mem : Nat → List D) (s : Store IF DF PF D) :
    List (String × Entry IF DF PF) → Outcome (List (Row D))
  | [] => .ok []
  | (name, e) :: t => do
    let a ← showEntry mem s e
    let b ← rows pre mem s t
    .ok (a.map (fun v => ⟨pre, name, v⟩) ++ b)

/-- The constants of `internalPrecision` in the display, primme_interface.c:721-724. -/
def precisions : List (String × Int) :=
  [("primme_op_half", 1), ("primme_op_float", 2), ("primme_op_double", 3), ("primme_op_quad", 4)]

/-- The statements of `primme_display_params_prefix`, src/eigs/primme_interface.c:663-741. -/
def eigsTable : List (String × Entry Eigs.IF Eigs.DF Eigs.PF) := [
  ("n", .int .n), ("nLocal", .int .nLocal), ("numProcs", .int .numProcs), ("procID", .int .procID),
  ("printLevel", .int .printLevel), ("numEvals", .int .numEvals), ("aNorm", .dbl .aNorm), ("BNorm", .dbl .BNorm),
  ("invBNorm", .dbl .invBNorm), ("eps", .dbl .eps), ("maxBasisSize", .int .maxBasisSize),
  ("minRestartSize", .int .minRestartSize), ("maxBlockSize", .int .maxBlockSize),
  ("maxOuterIterations", .int .maxOuterIterations), ("maxMatvecs", .int .maxMatvecs),
  ("target", .enum .target [("primme_smallest", 0), ("primme_largest", 1), ("primme_closest_geq", 2),
    ("primme_closest_leq", 3), ("primme_closest_abs", 4), ("primme_largest_abs", 5)]),
  ("projection_projection", .enum .projectionParams_projection [("primme_proj_default", 0), ("primme_proj_RR", 1),
    ("primme_proj_harmonic", 2), ("primme_proj_refined", 3)]),
  ("initBasisMode", .enum .initBasisMode [("primme_init_default", 0), ("primme_init_krylov", 1),
    ("primme_init_random", 2), ("primme_init_user", 3)]),
  ("numTargetShifts", .int .numTargetShifts), ("targetShifts", .shifts .numTargetShifts .targetShifts true),
  ("dynamicMethodSwitch", .int .dynamicMethodSwitch), ("locking", .int .locking), ("initSize", .int .initSize),
  ("numOrthoConst", .int .numOrthoConst), ("ldevecs", .int .ldevecs), ("ldOPs", .int .ldOPs), ("iseed", .seed),
  ("orth", .enum .orth [("primme_orth_implicit_I", 1), ("primme_orth_explicit_I", 2)]),
  ("internalPrecision", .enum .internalPrecision precisions),
  ("restarting_maxPrevRetain", .int .restartingParams_maxPrevRetain),
  ("correction_precondition", .int .correctionParams_precondition),
  ("correction_robustShifts", .int .correctionParams_robustShifts),
  ("correction_maxInnerIterations", .int .correctionParams_maxInnerIterations),
  ("correction_relTolBase", .dbl .correctionParams_relTolBase),
  ("correction_convTest", .enum .correctionParams_convTest [("primme_full_LTolerance", 0),
    ("primme_decreasing_LTolerance", 1), ("primme_adaptive_ETolerance", 2), ("primme_adaptive", 3)]),
  ("correction_projectors_LeftQ", .int .correctionParams_projectors_LeftQ),
  ("correction_projectors_LeftX", .int .correctionParams_projectors_LeftX),
  ("correction_projectors_RightQ", .int .correctionParams_projectors_RightQ),
  ("correction_projectors_SkewQ", .int .correctionParams_projectors_SkewQ),
  ("correction_projectors_RightX", .int .correctionParams_projectors_RightX),
  ("correction_projectors_SkewX", .int .correctionParams_projectors_SkewX)]

/-- The constants of an operator in the display, primme_svds_interface.c:481-489. -/
def operators : List (String × Int) :=
  [("primme_svds_op_none", 0), ("primme_svds_op_AtA", 1), ("primme_svds_op_AAt", 2), ("primme_svds_op_augmented", 3)]

/-- The statements of `primme_svds_display_params`, src/svds/primme_svds_interface.c:437-494. -/
def svdsTable : List (String × Entry Svds.IF Svds.DF Svds.PF) := [
  ("m", .int .m), ("n", .int .n), ("mLocal", .int .mLocal), ("nLocal", .int .nLocal), ("numProcs", .int .numProcs),
  ("procID", .int .procID), ("printLevel", .int .printLevel), ("numSvals", .int .numSvals), ("aNorm", .dbl .aNorm),
  ("eps", .dbl .eps), ("maxBasisSize", .int .maxBasisSize), ("maxBlockSize", .int .maxBlockSize),
  ("maxMatvecs", .int .maxMatvecs),
  ("target", .enum .target [("primme_svds_smallest", 1), ("primme_svds_largest", 0), ("primme_svds_closest_abs", 2)]),
  ("numTargetShifts", .int .numTargetShifts), ("targetShifts", .shifts .numTargetShifts .targetShifts false),
  ("locking", .int .locking), ("initSize", .int .initSize), ("numOrthoConst", .int .numOrthoConst), ("iseed", .seed),
  ("precondition", .int .precondition), ("method", .enum .method operators),
  ("methodStage2", .enum .methodStage2 operators), ("internalPrecision", .enum .internalPrecision precisions)]

/-- `primme_display_params`, src/eigs/primme_interface.c:629-638. -/
def eigs (mem : Nat → List D) (s : Store Eigs.IF Eigs.DF Eigs.PF D) : Outcome (List (Row D)) :=
  rows "primme" mem s eigsTable

/-- The parameters of a stage, primme_svds_interface.c:497-511: nothing if its operator is `primme_svds_op_none`. -/
def stage (pre : String) (mem : Nat → List D) (op : Int) (p : Store Eigs.IF Eigs.DF Eigs.PF D) : Outcome (List (Row D)) :=
  if op ≠ 0 then rows pre mem p eigsTable else .ok []

/-- `primme_svds_display_params`, src/svds/primme_svds_interface.c:420-513: `p1` and `p2` are `primme` and `primmeStage2`. -/
def svds (mem : Nat → List D) (s : Store Svds.IF Svds.DF Svds.PF D) (p1 p2 : Store Eigs.IF Eigs.DF Eigs.PF D) :
    Outcome (List (Row D)) := do
  let a ← rows "primme_svds" mem s svdsTable
  let b ← stage "primme" mem (s.i .method) p1
  let c ← stage "primmeStage2" mem (s.i .methodStage2) p2
  .ok (a ++ b ++ c)

end Verif.Display
