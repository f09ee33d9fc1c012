import Verif.Model.Basic
import Mathlib.Order.Defs.LinearOrder

/-!
# The precisions of the user's functions and the rounding level

The types set by `Xprimme_aux_Sprimme` (src/eigs/primme_c.c:168-184), the choice of the working precision (190-225),
`Num_machine_epsilon_Sprimme` (src/linalg/auxiliary.c:330-358), and `machineEpsMatrix_Sprimme` and `machineEpsOrth_Sprimme`
(src/eigs/auxiliary_eigs.c:502-553).

Simplifications: the machine precisions are arbitrary elements of a linear order; real and complex versions are the same.
-/

namespace Verif.Precision

/-- The precisions of the library. -/
inductive Ty where
  | half | float | double | quad
  deriving DecidableEq, Repr

/-- `primme_op_datatype`, include/primme_eigs.h. -/
inductive Op where
  | default
  | ty (t : Ty)
  | int
  deriving DecidableEq, Repr

/-- The user's functions that have a type. -/
inductive Fn where
  | matrixMatvec | massMatrixMatvec | applyPreconditioner | globalSumReal | broadcastReal | convTestFun | monitorFun
  deriving DecidableEq, Repr

/-- How the library was compiled: `SUPPORTED_HALF_TYPE`, not `PRIMME_WITHOUT_FLOAT`, `PRIMME_WITH_NATIVE_QUAD`. -/
structure Build where
  half : Bool
  float : Bool
  quad : Bool

def Build.has (B : Build) : Ty → Bool
  | .half => B.half
  | .float => B.float
  | .double => true
  | .quad => B.quad

/-- The members of `primme_params` that matter here. -/
structure P where
  has : Fn → Bool
  ty : Fn → Op
  internalPrecision : Op
  numProcs : Int

/-- `Xprimme_aux_Sprimme` called for the precision `c`, src/eigs/primme_c.c:168-184.  `Xprimme_svds_aux` does the same for the singular
value solver, which has no mass matrix (src/svds/primme_svds_c.c:280-293). -/
def setTypes (c : Ty) (p : P) : P :=
  { p with ty := fun f => if p.has f = true ∧ p.ty f = .default then .ty c else p.ty f }

/-- The precision in which the solver works, src/eigs/primme_c.c:190-225 and src/svds/primme_svds_c.c:299-332. -/
def working (B : Build) (c : Ty) (p : P) : Outcome Ty :=
  match (if p.internalPrecision = .default then .ty c else p.internalPrecision) with
  | .ty t => if B.has t then .ok t else .err (-44)
  | _ => .err (-44)

variable {K : Type} [LinearOrder K]

/-- `Num_machine_epsilon_Sprimme` for the working precision `w`, src/linalg/auxiliary.c:330-358. -/
def machEps (B : Build) (eps : Ty → K) (w : Ty) (t : Op) : Outcome K :=
  match t with
  | .default => .ok (eps w)
  | .int => .err (-44)
  | .ty t => if t = w then .ok (eps w) else if B.has t then .ok (eps t) else .err (-44)

/-- `machineEpsMatrix_Sprimme`, src/eigs/auxiliary_eigs.c:502-517. -/
def epsMatrix (B : Build) (eps : Ty → K) (w : Ty) (p : P) : Outcome K := do
  let a ← machEps B eps w (p.ty .matrixMatvec)
  let b ← (if p.has .massMatrixMatvec then machEps B eps w (p.ty .massMatrixMatvec) else .ok (eps w))
  .ok (max (max (eps w) a) b)

/-- `machineEpsOrth_Sprimme`, src/eigs/auxiliary_eigs.c:534-553. -/
def epsOrth (B : Build) (eps : Ty → K) (w : Ty) (p : P) : Outcome K := do
  let a ← (if 1 < p.numProcs then machEps B eps w (p.ty .globalSumReal) else .ok (eps w))
  let b ← (if 1 < p.numProcs ∧ p.has .broadcastReal = true then machEps B eps w (p.ty .broadcastReal) else .ok (eps w))
  .ok (max (max (eps w) a) b)

/-! ## Histories -/

/-- What a program does with a structure: it sets one of the functions and its type, or calls the solver. -/
inductive Ev where
  | set (f : Fn) (has : Bool) (t : Op)
  | call (c : Ty)
  deriving DecidableEq, Repr

/-- The structure after an event.  A call changes nothing else of `P`. -/
def step (p : P) : Ev → P
  | .set f h t => { p with has := fun g => if g = f then h else p.has g, ty := fun g => if g = f then t else p.ty g }
  | .call c => setTypes c p

def after (p : P) (l : List Ev) : P := l.foldl step p

/-- `primme_initialize`, src/eigs/primme_interface.c:101-217: no functions and default types. -/
def fresh : P := ⟨fun _ => false, fun _ => .default, .default, 1⟩

end Verif.Precision
