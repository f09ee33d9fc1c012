import Verif.Model.Basic
import Verif.Model.InnerTest
import Verif.Model.EigsParams

/-!
# The right projector of the constraints and the converged vectors, with a preconditioner

`evecsHat` holds `inv(K) B q` for the columns `q` of `evecs`, `M` the products `evecs' evecsHat` and `Mfact` (with `ipivot`) a
factorisation of `M`.  They are kept by `init_basis` and by `restart_projection` and used by `apply_skew_projector`.
Simplifications: real exact arithmetic; vectors are elements of an inner product space, so the distribution over processes and the
leading dimensions of `evecs`, `Bevecs`, `evecsHat` and `M` do not appear (see `MatrixOps.updateProjection` for them); LAPACK is
modelled by its documentation; the assertions of the code are compiled out (`NDEBUG`), otherwise `ldy >= m` in
blaslapack.c stops the program where LAPACK reports an error here; the variant `USE_ZGESV` is not modelled.
-/

namespace Verif.Skew

variable {V : Type} [NormedAddCommGroup V] [InnerProductSpace ℝ V]

/-- What a call ends in: values, an error code, or the call of the user's preconditioner with an address computed from `NULL`. -/
inductive Res (α : Type) where
  | ok (a : α)
  | err (code : Int)
  | wild

/-- Contents of `Mfact` and `ipivot`: nothing of use, a number in the first place, or the factors of the `n x n` matrix `G` stored
with leading dimension `ld`. -/
inductive Held where
  | junk
  | one (a : ℝ)
  | factors (n ld : ℕ) (G : ℕ → ℕ → ℝ)

/-- `evecsHat`, `M`, `Mfact` and `*evecsSize` (`numConvergedStored`). -/
structure State (V : Type) where
  hat : ℕ → V
  M : ℕ → ℕ → ℝ
  fact : Held
  size : ℕ

/-- What is fixed during a run: whether there is a mass matrix, its function, the preconditioner, `locking`, `numOrthoConst` and
the answer of LAPACK on whether a factorisation breaks down. -/
structure Cfg (V : Type) where
  mass : Bool
  B : V → V
  prec : V → V
  locking : Bool
  c : ℕ
  singular : ℕ → (ℕ → ℕ → ℝ) → Bool

/-- The condition of main_iter.c:325-328 for `evecsHat`, `M` and `Mfact` to exist. -/
def hasHat {K : Type} (s : Verif.Eigs.EP K) : Bool :=
  decide (s.i .correctionParams_precondition ≠ 0) && decide (s.i .correctionParams_maxInnerIterations ≠ 0) &&
    decide (s.i .correctionParams_projectors_RightQ ≠ 0) && decide (s.i .correctionParams_projectors_SkewQ ≠ 0)

/-- Whether `Bevecs` exists, main_iter.c:334-336. -/
def Cfg.hasBevecs (o : Cfg V) : Bool := o.mass && o.locking

/-- The vectors given to the preconditioner: `B q` with a mass matrix, `q` without. -/
def Cfg.b (o : Cfg V) (q : V) : V := if o.mass then o.B q else q

/-- `update_projection_Sprimme` on `M`, update_projection.c:80-170: columns `numCols ...` are new; without the symmetric form so are
the rows.  In the symmetric form only the upper triangle counts. -/
noncomputable def updateM (sym : Bool) (Q hat : ℕ → V) (numCols blockSize : ℕ) (M : ℕ → ℕ → ℝ) : ℕ → ℕ → ℝ := fun i j =>
  if sym then
    if numCols ≤ j ∧ j < numCols + blockSize ∧ i ≤ j then inner ℝ (Q i) (hat j) else M i j
  else if i < numCols + blockSize ∧ j < numCols + blockSize ∧ (numCols ≤ i ∨ numCols ≤ j) then inner ℝ (Q i) (hat j) else M i j

/-- What the factorisation is told: `xHETRF` with `"U"` reads the upper triangle, factorize.c:213-221; `xGETRF` reads all, 223-229. -/
def told (sym : Bool) (M : ℕ → ℕ → ℝ) : ℕ → ℕ → ℝ := fun i j => if sym && decide (j < i) then M j i else M i j

/-- `xHETRF` and `xGETRF` by their documentation, blaslapack.c:1411-1456: the leading dimension is rejected when it is less than the
dimension, a singular factor is reported. -/
def factorise (singular : ℕ → (ℕ → ℕ → ℝ) → Bool) (n ld : ℕ) (G : ℕ → ℕ → ℝ) : Res Held :=
  if ld < max 1 n then .err PRIMME_LAPACK_FAILURE
  else if singular n G then .err PRIMME_LAPACK_FAILURE
  else .ok (.factors n ld G)

/-- `update_XKinvBX_Sprimme`, factorize.c:182-233. -/
noncomputable def updateXKinvBX (o : Cfg V) (Q : ℕ → V) (numCols blockSize ldMfact : ℕ) (s : State V) : Res (State V) :=
  let M := updateM (!o.mass) Q s.hat numCols blockSize s.M
  let nM := numCols + blockSize
  if nM = 0 then .ok { s with M := M }
  else if nM = 1 then .ok { s with M := M, fact := .one (M 0 0) }
  else
    match factorise o.singular nM ldMfact (told (!o.mass) M) with
    | .ok f => .ok { s with M := M, fact := f }
    | .err e => .err e
    | .wild => .wild

/-- `init_basis_Sprimme`, init.c:141-169, with `evecs` after the constraints were made orthonormal; `ldMfact` is 0, main_iter.c:417. -/
noncomputable def initSkew (o : Cfg V) (Q : ℕ → V) (s : State V) : Res (State V) :=
  if o.c = 0 then .ok s
  else
    let hat := fun j => if j < o.c then o.prec (o.b (Q j)) else s.hat j
    updateXKinvBX o Q 0 o.c 0 { s with hat := hat }

/-- `restart_projection`, restart.c:1471-1531, with `evecs` holding the constraints and then `numConverged` converged vectors;
`ldMfact` is 0, main_iter.c:1089.  `applyPreconditioner_Sprimme` does nothing for no columns. -/
noncomputable def restartSkew (o : Cfg V) (Q : ℕ → V) (numConverged : ℕ) (s : State V) : Res (State V) :=
  let size := if o.locking then s.size else 0
  let recent := numConverged - size
  if 0 < recent ∧ o.hasBevecs = false then .wild
  else
    let hat := fun j => if size + o.c ≤ j ∧ j < size + o.c + recent then o.prec (o.b (Q j)) else s.hat j
    match updateXKinvBX o Q size recent 0 { s with hat := hat } with
    | .ok s => .ok { s with size := numConverged }
    | .err e => .err e
    | .wild => .wild

/-- The number of columns of the right projector at a correction equation, correction.c:895-899, 960; with locking
`numLocked` is `numConverged` of the last restart. -/
def projSize (o : Cfg V) (s : State V) : ℕ := o.c + s.size

/-- `MSolve_Sprimme`, factorize.c:269-305: the possible results for `dim` unknowns.  Nothing is known of a solve with factors of
another dimension or leading dimension. -/
def Solved (f : Held) (dim : ℕ) (rhs sol : ℕ → ℝ) : Prop :=
  if dim = 0 then sol = rhs
  else if dim = 1 then
    match f with
    | .one a => sol 0 = rhs 0 / a
    | _ => True
  else
    match f with
    | .factors n ld G => n = dim → ld = dim → ∀ i < dim, ∑ j ∈ Finset.range dim, G i j * sol j = rhs i
    | _ => True

/-- `apply_skew_projector`, inner_solve.c:769-812, on a column: the possible results. -/
def Projected (o : Cfg V) (Q : ℕ → V) (s : State V) (v w : V) : Prop :=
  ∃ sol : ℕ → ℝ, Solved s.fact (projSize o s) (fun i => inner ℝ (Q i) v) sol ∧
    w = Verif.Inner.skewProject Q s.hat (projSize o s) (fun _ => sol) v

/-- A run as this data sees it: the start, then restarts, each with the contents of `evecs` and the number of converged pairs; the
list of the states in which correction equations are solved, with the `evecs` of then. -/
noncomputable def run (o : Cfg V) : List ((ℕ → V) × ℕ) → State V → Res (List ((ℕ → V) × State V))
  | [], _ => .ok []
  | (Q, k) :: l, s =>
    match restartSkew o Q k s with
    | .ok s' =>
      match run o l s' with
      | .ok r => .ok ((Q, s') :: r)
      | .err e => .err e
      | .wild => .wild
    | .err e => .err e
    | .wild => .wild

/-- The whole run: `init_basis` and the restarts. -/
noncomputable def whole (o : Cfg V) (Q0 : ℕ → V) (l : List ((ℕ → V) × ℕ)) (s : State V) : Res (List ((ℕ → V) × State V)) :=
  match initSkew o Q0 s with
  | .ok s' =>
    match run o l s' with
    | .ok r => .ok ((Q0, s') :: r)
    | .err e => .err e
    | .wild => .wild
  | .err e => .err e
  | .wild => .wild

end Verif.Skew
