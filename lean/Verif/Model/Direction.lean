import Verif.Model.Basic
import Mathlib.Analysis.InnerProductSpace.Basic

/-!
# The corrections appended to the basis

Model of the end of `solve_correction_Sprimme` (src/eigs/correction.c:326-474), `Olsen_preconditioner_block` (718-786),
`setup_JD_projectors` (862-1000), of the operators of the inner solver that use them (src/eigs/inner_solve.c:711-743, 773-808,
838-890) and of the shifts given to the preconditioner outside of the corrections (src/eigs/init.c:160,
src/eigs/restart.c:1494-1509), in exact arithmetic.

Simplifications: vectors are those of an inner product space, so the distribution over processes and the reductions are not
visible (for these see `Model/Broadcast` and `Model/Combine`); arrays of columns are functions of the index; the shifts and the
estimates of the errors of the values (`blockOfShifts`, `approxOlsenEps`) are given, see `Model/Correction`.
-/

namespace Verif.Dir

variable {F V : Type} [RCLike F] [NormedAddCommGroup V] [InnerProductSpace F V]

/-- The parameters read: `correctionParams.projectors` and `.precondition`, `locking`, whether `orth` is
`primme_orth_implicit_I`, whether there is a `massMatrixMatvec`. -/
structure Cfg where
  LeftQ : Bool
  LeftX : Bool
  RightQ : Bool
  RightX : Bool
  SkewQ : Bool
  SkewX : Bool
  precondition : Bool
  locking : Bool
  implicitI : Bool
  mass : Bool

/-- The user's `applyPreconditioner` on a block of `n` columns with the shifts of `ShiftsForPreconditioner`; `none` when it
returns an error code. -/
abbrev Prec (V : Type) := (n : ℕ) → (ℕ → ℝ) → (ℕ → V) → Option (ℕ → V)

/-- `applyPreconditioner_Sprimme`, src/eigs/auxiliary_eigs.c:317-364, without the conversions of `Model/Operators`. -/
def applyPrec (c : Cfg) (K : Prec V) (n : ℕ) (s : ℕ → ℝ) (v : ℕ → V) : Outcome (ℕ → V) :=
  if c.precondition then
    match K n s v with
    | some w => .ok w
    | none => .err PRIMME_UNEXPECTED_FAILURE
  else .ok v

/-- `Olsen_preconditioner_block`, correction.c:718-786: what it returns, and what is in the array `x` then. -/
noncomputable def olsen (c : Cfg) (K : Prec V) (n : ℕ) (s : ℕ → ℝ) (x Bx r : ℕ → V) : Outcome Unit × (ℕ → V) :=
  match applyPrec c K n s Bx with
  | .err e => (.err e, x)
  | .ub => (.ub, x)
  | .ok KinvBx =>
    match applyPrec c K n s r with
    | .err e => (.err e, x)
    | .ub => (.ub, x)
    | .ok Kinvr => (.ok (), fun i =>
        if i < n then
          open Classical in
          if 0 < ‖inner F (x i) (KinvBx i)‖ then
            Kinvr i + (-(inner F (x i) (Kinvr i)) / inner F (x i) (KinvBx i)) • KinvBx i
          else Kinvr i
        else x i)

/-- The branch without inner iterations, correction.c:335-381: the new contents of the columns `basisSize...` of `V`.  The value
returned by `Olsen_preconditioner_block` is not looked at. -/
noncomputable def davidson (c : Cfg) (K : Prec V) (n : ℕ) (s : ℕ → ℝ) (eps : ℕ → ℝ) (x Bx r : ℕ → V) : Outcome (ℕ → V) :=
  if c.RightX && c.SkewX then .ok (olsen (F := F) c K n s x Bx r).2
  else
    let r' := if c.RightX && (c.precondition || c.mass || (c.locking && c.implicitI)) then
        fun i => r i - (eps i : F) • Bx i else r
    applyPrec c K n s r'

/-- What `setup_JD_projectors` leaves: the left projectors (`LprojectorQ` with `sizeLprojectorQ` columns and `LprojectorBQ`;
`LprojectorX` and `LprojectorBX`, always the arrays `x` and `Bx`, if any), the right ones (`RprojectorQ` with
`sizeRprojectorQ` columns, `RprojectorX`) with `xKinvBx`, and the array `evecs`. -/
structure Setup (F V : Type) where
  nLQ : ℕ
  LQ : ℕ → V
  LBQ : ℕ → V
  LX : Bool
  nRQ : ℕ
  RQ : ℕ → V
  RX : Option (ℕ → V)
  xk : ℕ → F
  evecs : ℕ → V

/-- Whether `x` is made adjacent to `Q`, correction.c:906-909. -/
def append (c : Cfg) (n : ℕ) : Bool := c.LeftQ && c.LeftX && decide (n ≤ 1)

/-- Columns `k...` of an array after the copy of `n` columns. -/
def copyTo (n k : ℕ) (x a : ℕ → V) : ℕ → V := fun j => if k ≤ j ∧ j < k + n then x (j - k) else a j

/-- The arrays `evecs` and `Bevecs` after correction.c:906-916.  `Bevecs` exists with mass matrix and locking
(main_iter.c:334-336); otherwise `evecs` is passed in its place (main_iter.c:660), so that what is copied to it is copied to
`evecs`. -/
def arrays (c : Cfg) (n k : ℕ) (x Bx evecs Bevecs : ℕ → V) : (ℕ → V) × (ℕ → V) :=
  if c.mass && c.locking then
    if append c n then (copyTo n k x evecs, copyTo n k Bx Bevecs) else (evecs, Bevecs)
  else
    let e := if append c n then copyTo n k x evecs else evecs
    let e := if append c n && c.mass then copyTo n k Bx e else e
    (e, e)

/-- `setup_JD_projectors`, correction.c:862-1000; `k` is `sizeEvecs`, `n` is `blockSize`. -/
noncomputable def setup (c : Cfg) (K : Prec V) (n k : ℕ) (s : ℕ → ℝ) (x Bx evecs Bevecs hat : ℕ → V) : Outcome (Setup F V) :=
  let e := arrays c n k x Bx evecs Bevecs
  let S : Setup F V :=
    { nLQ := if c.LeftQ then if append c n then k + n else k else 0
      LQ := e.1
      LBQ := e.2
      LX := c.LeftX && !append c n
      nRQ := if c.RightQ then k else 0
      RQ := if c.precondition && c.SkewQ then hat else e.2
      RX := none
      xk := fun _ => 1
      evecs := e.1 }
  if c.RightX then
    if c.precondition && c.SkewX then
      match applyPrec c K n s Bx with
      | .ok w => .ok { S with RX := some w, xk := fun i => inner F (x i) (w i) }
      | .err e => .err e
      | .ub => .ub
    else .ok { S with RX := some Bx }
  else .ok S

/-- `apply_skew_projector`, inner_solve.c:773-808, on a column; `solve` is `MSolve` with the factors, or the identity. -/
noncomputable def skew (k : ℕ) (Q Qhat : ℕ → V) (solve : (ℕ → F) → ℕ → F) (v : V) : V :=
  v - ∑ j ∈ Finset.range k, solve (fun i => inner F (Q i) v) j • Qhat j

/-- `apply_projected_matrix`, inner_solve.c:838-890, on the column `i` of the block, with its shift. -/
noncomputable def projectedMatrix (A B : V → V) (S : Setup F V) (x Bx : ℕ → V) (i : ℕ) (shift : ℝ) (v : V) : V :=
  let w := skew (F := F) S.nLQ S.LQ S.LBQ id (A v - (shift : F) • B v)
  if S.LX then skew (F := F) 1 (fun _ => x i) (fun _ => Bx i) id w else w

/-- `apply_projected_preconditioner`, inner_solve.c:711-743, on the column `i` of the block; `w` is its column of the
preconditioned block, `solve` is `MSolve` with `Mfact` when this exists (the identity otherwise). -/
noncomputable def projectedPrec (S : Setup F V) (solve : (ℕ → F) → ℕ → F) (x : ℕ → V) (i : ℕ) (w : V) : V :=
  let u := skew (F := F) S.nRQ S.evecs S.RQ solve w
  match S.RX with
  | none => u
  | some rx => skew (F := F) 1 (fun _ => x i) (fun _ => rx i) (fun b j => b j / S.xk i) u

/-- `ShiftsForPreconditioner` when the preconditioner is applied to the constraints, init.c:160. -/
def initShifts : Option (List ℝ) := none

/-- `ShiftsForPreconditioner` when the preconditioner is applied to the newly converged vectors, restart.c:1494-1509: the array,
from the entry pointed to on.  `size` is `*evecsSize`. -/
def restartShifts (targetShifts : List ℝ) (numConverged size : ℕ) : Option (List ℝ) :=
  if numConverged ≤ targetShifts.length then some (targetShifts.drop size)
  else if 0 < targetShifts.length then
    some ((List.range (numConverged - size)).map fun i => targetShifts.getD (min (i + size) (targetShifts.length - 1)) 0)
  else none

end Verif.Dir
