import Mathlib.Data.Nat.Notation
import Mathlib.Data.List.Range

/-!
# The operators of the equivalent eigenvalue problems

`matrixMatvec_eigs_Sprimme`, the product with `A'A`, `AA'` or `[0 A'; A 0]` which the eigensolver uses when
it solves a singular value problem.  The arrays `x` (read only), `y` and `aux` are separate memories
(functions of an element index); the sizes are the local sizes of one process.  The user's product is an
arbitrary pair of functions on columns, one for `A` and one for `A'`, and an arbitrary sequence of error
codes, one for each call.
-/

namespace Verif.SvdsOp

variable {α : Type}

/-- One call of the user's `matrixMatvec`: with `A'` (`trans`) or `A`, first column of the block of the
eigensolver it works on, and number of columns. -/
structure Call where
  trans : Bool
  first : ℕ
  cols : ℕ
  deriving DecidableEq, Repr

/-- The user's product on local columns and its error codes: the value of `*ierr` after the `k`-th call. -/
structure User (α : Type) (mLocal nLocal : ℕ) where
  A : (Fin nLocal → α) → Fin mLocal → α
  At : (Fin mLocal → α) → Fin nLocal → α
  code : ℕ → Int

/-- Column `j` of a matrix with `m` rows stored at `off` with leading dimension `ld`. -/
def col (m : ℕ) (mem : ℕ → α) (off ld j : ℕ) : Fin m → α := fun r => mem (off + j * ld + r)

/-- What the user's product does with its output: column `j` of the output is the image of column `j` of
the input, `j < bs`; nothing else is written (manual, `matrixMatvec` of `primme_svds_params`). -/
def applyCols {mV mW : ℕ} (f : (Fin mV → α) → Fin mW → α) (x : ℕ → α) (offx ldx : ℕ)
    (y : ℕ → α) (offy ldy bs : ℕ) : ℕ → α := fun a =>
  if h : offy ≤ a ∧ (a - offy) / ldy < bs ∧ (a - offy) % ldy < mW then
    f (col mV x offx ldx ((a - offy) / ldy)) ⟨(a - offy) % ldy, h.2.2⟩
  else y a

/-- State of the function: output array, work array, calls made and `*ierr`.  `oob` records an access of the
work array out of its bounds. -/
structure State (α : Type) where
  y : ℕ → α
  aux : ℕ → α
  calls : List Call
  ierr : Int
  oob : Bool

/-- The loop over the columns of the cases `AtA` and `AAt`, src/svds/primme_svds_c.c:1340-1350 and
1359-1369: `f` is applied to a block of `bs` columns of `x`, giving `aux`, and then `g` to `aux`.  `mid` is
the number of rows and the leading dimension of `aux`, and `auxSize` its allocated size.  A failing call
leaves the loop and the function. -/
def loop {m0 mid : ℕ} (f : (Fin m0 → α) → Fin mid → α) (g : (Fin mid → α) → Fin m0 → α) (t : Bool)
    (code : ℕ → Int) (x : ℕ → α) (ldx ldy blockSize maxBlockSize auxSize : ℕ) :
    ℕ → ℕ → State α → State α
  | 0, _, s => s
  | fuel + 1, i, s =>
    let bs := min (blockSize - i) maxBlockSize
    if bs > 0 then
      let e1 := code s.calls.length
      let s := { s with aux := applyCols f x (ldx * i) ldx s.aux 0 mid bs, ierr := e1,
                        oob := s.oob || decide (auxSize < mid * bs),
                        calls := s.calls ++ [⟨t, i, bs⟩] }
      if e1 ≠ 0 then s
      else
        let e2 := code s.calls.length
        let s := { s with y := applyCols g s.aux 0 mid s.y (ldy * i) ldy bs, ierr := e2,
                          calls := s.calls ++ [⟨!t, i, bs⟩] }
        if e2 ≠ 0 then s
        else loop f g t code x ldx ldy blockSize maxBlockSize auxSize fuel (i + bs) s
    else s

/-- `matrixMatvec_eigs_Sprimme`, src/svds/primme_svds_c.c:1322-1382.  `op` is the operator of the stage
(1 `AtA`, 2 `AAt`, 3 `augmented`, otherwise nothing is done).  Failing allocations (`*ierr = 1`) are the
subject of C20. -/
def matrixMatvecEigs {mLocal nLocal : ℕ} (u : User α mLocal nLocal) (op : Int) (x : ℕ → α) (ldx : ℕ)
    (y : ℕ → α) (ldy blockSize maxBlockSize : ℕ) (garbage : ℕ → α) : State α :=
  let s : State α := ⟨y, garbage, [], 0, false⟩
  if op = 1 then
    loop u.A u.At false u.code x ldx ldy blockSize maxBlockSize (mLocal * min maxBlockSize blockSize)
      (blockSize + 1) 0 s
  else if op = 2 then
    loop u.At u.A true u.code x ldx ldy blockSize maxBlockSize (nLocal * min maxBlockSize blockSize)
      (blockSize + 1) 0 s
  else if op = 3 then
    let e1 := u.code 0
    let s := { s with y := applyCols u.At x nLocal ldx s.y 0 ldy blockSize, ierr := e1,
                      calls := [⟨true, 0, blockSize⟩] }
    if e1 ≠ 0 then s
    else { s with y := applyCols u.A x 0 ldx s.y nLocal ldy blockSize, ierr := u.code 1,
                  calls := s.calls ++ [⟨false, 0, blockSize⟩] }
  else s

/-- `applyPreconditioner_eigs_Sprimme`, src/svds/primme_svds_c.c:1402-1416: the user's preconditioner gets
the arguments unchanged and the operator of the stage (the second stage is the one whose structure is not
`primme_svds.primme`). -/
def applyPreconditionerEigs {β : Type} (user : β → Int → β) (isStage1 : Bool) (method methodStage2 : Int)
    (x : β) : β :=
  user x (if isStage1 then method else methodStage2)

end Verif.SvdsOp
