import Verif.Model.Precision
import Mathlib.Order.Bounds.Defs

/-!
# The precisions that the manual gives

"If it is `primme_op_default`, the vectors' type matches the calling `dprimme` (or a variant). Otherwise, the user can force the
precision" (doc/source/appendix.rst).
-/

namespace Verif.Spec
open Verif.Precision

/-- What is asked for the function `f` after an event. -/
def note (f : Fn) (a : Op) : Ev → Op
  | .set g _ t => if g = f then t else a
  | .call _ => a

/-- What the program asked for last for the function `f`: its type, or the default. -/
def asked (f : Fn) (l : List Ev) : Op := l.foldl (note f) .default

/-- The type of the vectors that `f` should get in a call for the precision `c`. -/
def promised (f : Fn) (l : List Ev) (c : Ty) : Op := if asked f l = .default then .ty c else asked f l

/-- The precisions of the calls. -/
def calls (l : List Ev) : List Ty := l.filterMap (fun e => match e with
  | .call c => some c
  | .set .. => none)

/-- The precision of an operation with type `t` in a solver that works with `w`. -/
def precisionOf (w : Ty) : Op → Ty
  | .ty t => t
  | _ => w

/-- The rounding levels of the solver itself and of the products with the matrices. -/
def productLevels {K : Type} (eps : Ty → K) (w : Ty) (p : P) : Set K :=
  {x | x = eps w ∨ x = eps (precisionOf w (p.ty .matrixMatvec)) ∨
    (p.has .massMatrixMatvec = true ∧ x = eps (precisionOf w (p.ty .massMatrixMatvec)))}

/-- The rounding levels of the solver itself and of what the processes exchange. -/
def exchangeLevels {K : Type} (eps : Ty → K) (w : Ty) (p : P) : Set K :=
  {x | x = eps w ∨ (1 < p.numProcs ∧ x = eps (precisionOf w (p.ty .globalSumReal))) ∨
    (1 < p.numProcs ∧ p.has .broadcastReal = true ∧ x = eps (precisionOf w (p.ty .broadcastReal)))}

/-- The library was compiled with the precision asked for. -/
def Compiled (B : Build) (w : Ty) : Op → Prop
  | .default => True
  | .ty t => t = w ∨ B.has t = true
  | .int => False

end Verif.Spec
