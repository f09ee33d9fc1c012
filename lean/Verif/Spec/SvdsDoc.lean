import Verif.Spec.SvdsLabels
import Verif.Spec.EigsDoc
import Mathlib.Algebra.Order.Field.Basic
import Mathlib.Algebra.Order.Group.Abs

/-!
# The documented input errors, methods and operators of the singular value solver

Transcribed from readme.txt: "Error Codes" (lines 8007-8060), "Preset Methods" (lines 7950-8003),
`method` and `methodStage2` (7420-7456), `target` (7137-7152).
-/

namespace Verif.Svds.Doc
open Verif.Members

variable {K : Type}

/-- The documented operators: 0 none, 1 `A'A`, 2 `AA'`, 3 the augmented matrix. -/
def Supported (op op2 : Int) : Prop :=
  ((op = 1 ∨ op = 2) ∧ (op2 = 0 ∨ op2 = 3)) ∨ (op = 3 ∧ op2 = 0)

/-- The documented list "code: condition", in the order of the documentation.  `svals`, `svecs`,
`resNorms` say that the array is not set. -/
def errors (svals svecs resNorms : Prop) (v : Store IF DF PF K) : List (Int × Prop) := [
  (-5, ¬ (0 ≤ v.i .m ∧ 0 ≤ v.i .n ∧ 0 ≤ v.i .mLocal ∧ v.i .mLocal ≤ v.i .m ∧ 0 ≤ v.i .nLocal ∧
    v.i .nLocal ≤ v.i .n)),
  (-6, v.i .numProcs < 1),
  (-7, v.p .matrixMatvec = 0),
  (-8, v.p .applyPreconditioner = 0 ∧ v.i .precondition = 1),
  (-9, v.i .numProcs > 1 ∧ v.p .globalSumReal = 0),
  (-10, v.i .numSvals > v.i .m ∨ v.i .numSvals > v.i .n),
  (-11, v.i .numSvals < 1),
  (-13, ¬ (0 ≤ v.i .target ∧ v.i .target ≤ 2)),
  (-14, ¬ (1 ≤ v.i .method ∧ v.i .method ≤ 3)),
  (-15, ¬ Supported (v.i .method) (v.i .methodStage2)),
  (-16, ¬ (0 ≤ v.i .printLevel ∧ v.i .printLevel ≤ 5)),
  (-17, svals),
  (-18, svecs),
  (-19, resNorms)]

/-- The operators a documented preset method sets for an `m`×`n` matrix: 0 default, 1 hybrid,
2 normal equations, 3 augmented. -/
def presetOps (method m n : Int) : Int × Int :=
  if method = 3 then (3, 0)
  else (if m ≥ n then 1 else 2, if method = 2 then 0 else 3)

/-- Rows of the operator of the eigenproblem for an `m`×`n` matrix. -/
inductive IsOrder (m n : Int) : Int → Int → Prop
  | AtA : IsOrder m n 1 n
  | AAt : IsOrder m n 2 m
  | augmented : IsOrder m n 3 (m + n)

/-- The documented meaning of the targets of the singular value problem around shift `τ`:
0 largest, 1 smallest, 2 closest in absolute value to the shift. -/
def Before [Field K] [LinearOrder K] (target : Int) (τ x y : K) : Prop :=
  (target = 0 ∧ y ≤ x) ∨ (target = 1 ∧ x ≤ y) ∨ (target = 2 ∧ |x - τ| ≤ |y - τ|)

end Verif.Svds.Doc
