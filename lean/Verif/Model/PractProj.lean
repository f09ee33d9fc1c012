import Mathlib.Analysis.RCLike.Basic
import Mathlib.Algebra.BigOperators.Group.Finset.Basic
import Mathlib.Analysis.SpecialFunctions.Sqrt

/-!
# Removing the converged directions from residuals

`ortho_single_iteration_Sprimme` (src/eigs/ortho.c:826-926), which `check_practical_convergence`
(src/eigs/convergence.c:242-283) calls, and the shortcut of the main iteration (src/eigs/main_iter.c:729-783).

Scalars are exact.  The rows of the vectors are distributed over processes: an array is indexed by process, column and row
of that process.  Leading dimensions are not modelled (arrays do not overlap).  `M` is `PRIMME_BLOCK_SIZE`.
-/

open scoped ComplexConjugate

namespace Verif.Pract

variable {F : Type} [RCLike F]

/-- Columns of a process: column, row. -/
abbrev Local (F : Type) := ℕ → ℕ → F

/-- Columns of all the processes: process, column, row. -/
abbrev Cols (F : Type) := ℕ → ℕ → ℕ → F

/-- First row and number of rows of the turns of `for (i=0, m=min(M,mQ); i < mQ; i+=m, m=min(m,mQ-i))`, ortho.c:866 and
905, from row `i` with size `m`; at most `fuel` turns. -/
def blocks (mQ : ℕ) : ℕ → ℕ → ℕ → List (ℕ × ℕ)
  | 0, _, _ => []
  | fuel + 1, i, m => if i < mQ then (i, m) :: blocks mQ fuel (i + m) (min m (mQ - (i + m))) else []

/-- The turns for `mQ` rows (as many as rows are enough). -/
def turns (M mQ : ℕ) : List (ℕ × ℕ) := blocks mQ mQ 0 (min M mQ)

/-- `for (i=0, j=inX[0]; i<nX && j==inX[i]; i++, j++); if (i >= nX)`, ortho.c:841-842. -/
def contiguous : ℕ → List ℕ → Bool
  | _, [] => true
  | j, c :: r => decide (j = c) && contiguous (j + 1) r

/-- The columns are consecutive: `Num_gemm_ddh("C", "N", nQ, nX, mQ, …)`, ortho.c:855-856. -/
def product (mQ : ℕ) (Q X : Local F) (x0 : ℕ) : ℕ → ℕ → F :=
  fun k c => ∑ i ∈ Finset.range mQ, conj (Q k i) * X (x0 + c) i

/-- Otherwise, ortho.c:858-871: the rows are taken by blocks; the columns are copied to `X0` and the products added. -/
def productIndexed (M mQ : ℕ) (Q X : Local F) (inX : List ℕ) : ℕ → ℕ → F :=
  (turns M mQ).foldl (fun y b k c =>
    let X0 : Local F := fun c i => X (inX.getD c 0) (b.1 + i)
    y k c + ∑ i ∈ Finset.range b.2, conj (Q k (b.1 + i)) * X0 c i) fun _ _ => 0

/-- `y = Q'*X` of one process. -/
def coefficients (M mQ : ℕ) (Q X : Local F) (inX : List ℕ) : ℕ → ℕ → F :=
  if inX ≠ [] ∧ contiguous (inX.headD 0) inX then product mQ Q X (inX.headD 0) else productIndexed M mQ Q X inX

/-- `Num_copy_matrix_columns(X0, m, NULL, nX, m, &X[i], inX, ldX)`, ortho.c:912-913, from column `c` of `X0` on. -/
def putColumns (b : ℕ × ℕ) (X0 : Local F) : List ℕ → ℕ → Local F → Local F
  | [], _, X => X
  | j :: r, c, X => putColumns b X0 r (c + 1) fun q s =>
      if q = j ∧ b.1 ≤ s ∧ s < b.1 + b.2 then X0 c (s - b.1) else X q s

/-- One turn of ortho.c:905-921: the vectors and the squares of their norms so far. -/
def turn (nQ : ℕ) (BQ : Local F) (y : ℕ → ℕ → F) (inX : List ℕ) (s : Local F × (ℕ → ℝ)) (b : ℕ × ℕ) :
    Local F × (ℕ → ℝ) :=
  if inX ≠ [] ∧ contiguous (inX.headD 0) inX then
    let x0 := inX.headD 0
    let X : Local F := fun q r => if x0 ≤ q ∧ q < x0 + inX.length ∧ b.1 ≤ r ∧ r < b.1 + b.2
      then s.1 q r - ∑ k ∈ Finset.range nQ, BQ k r * y k (q - x0) else s.1 q r
    (X, fun c => s.2 c + ∑ i ∈ Finset.range b.2, RCLike.re (conj (X (x0 + c) (b.1 + i)) * X (x0 + c) (b.1 + i)))
  else
    let X0 : Local F := fun c i =>
      s.1 (inX.getD c 0) (b.1 + i) - ∑ k ∈ Finset.range nQ, BQ k (b.1 + i) * y k c
    (putColumns b X0 inX 0 s.1, fun c => s.2 c + ∑ i ∈ Finset.range b.2, RCLike.re (conj (X0 c i) * X0 c i))

/-- `ortho_single_iteration_Sprimme`, ortho.c:826-926, on `P` processes with `rows p` rows: the vectors and their norms.
`solve` is the solution of the systems with the matrix `QtBQ`, when that matrix is given; it may fail.  Its result is
freed at ortho.c:892 and what is subtracted is `y`. -/
noncomputable def orthoSingle (M P : ℕ) (rows : ℕ → ℕ) (nQ : ℕ) (Q BQ : Cols F)
    (solve : Option ((ℕ → ℕ → F) → Option (ℕ → ℕ → F))) (X : Cols F) (inX : List ℕ) : Option (Cols F × (ℕ → ℝ)) :=
  let y : ℕ → ℕ → F := fun k c => ∑ p ∈ Finset.range P, coefficients M (rows p) (Q p) (X p) inX k c
  let z : Option (ℕ → ℕ → F) := match solve with
    | some f => f y
    | none => some y
  match z with
  | none => none
  | some _ =>
    let loc := fun p => (turns M (rows p)).foldl (turn nQ (BQ p) y inX) (X p, fun _ => 0)
    some (fun p => (loc p).1, fun c => Real.sqrt (∑ p ∈ Finset.range P, (loc p).2 c))

/-- The norms `check_practical_convergence` compares with the tolerance, convergence.c:249-253, of the residuals `inX`. -/
noncomputable def practNorms (M P : ℕ) (rows : ℕ → ℕ) (nQ : ℕ) (Q BQ : Cols F)
    (solve : Option ((ℕ → ℕ → F) → Option (ℕ → ℕ → F))) (R : Cols F) (inX : List ℕ) : Option (List ℝ) :=
  (orthoSingle M P rows nQ Q BQ solve R inX).map fun o => (List.range inX.length).map o.2

/-! ## The shortcut of the main iteration -/

/-- `Num_gemv("N", numLocked, basisSize, 1.0, &VtBV[ldVtBV * numLocked], ldVtBV, &hVecs[iev[i] * basisSize], …)`,
main_iter.c:754-756: entry `r` of `Xx`; `VtBV r c` is the entry of row `r` and column `c`. -/
def overlap (numLocked basisSize : ℕ) (VtBV : ℕ → ℕ → F) (h : ℕ → F) (r : ℕ) : F :=
  ∑ c ∈ Finset.range basisSize, VtBV r (numLocked + c) * h c

/-- `normXx`, main_iter.c:747-760; `VtBV` is there when `orth` is `primme_orth_explicit_I`. -/
noncomputable def overlapNorm (numLocked basisSize : ℕ) (VtBV : Option (ℕ → ℕ → F)) (h : ℕ → F) : ℝ :=
  match VtBV with
  | none => 0
  | some G => ‖∑ r ∈ Finset.range numLocked, conj (overlap numLocked basisSize G h r) * overlap numLocked basisSize G h r‖

/-- `newBlockNorm`, main_iter.c:761-767; `Rlocked` are the products of the locked vectors and the constraints (`ldRlocked`
of them) with the residual. -/
noncomputable def newBlockNorm (blockNorm : ℝ) (ldRlocked : ℕ) (Rlocked : ℕ → F) (normXx : ℝ) : ℝ :=
  Real.sqrt (max (blockNorm * blockNorm -
    ‖∑ k ∈ Finset.range ldRlocked, conj (Rlocked k) * Rlocked k‖ * (1 + normXx)) 0)

end Verif.Pract
