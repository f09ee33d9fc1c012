import Mathlib.Algebra.Order.Field.Basic

/-!
# `map_vecs_Sprimme`

Model of src/eigs/solve_projection.c:1009-1064.  `ip i j` is `ABS(V(:,j)'*W(:,i))` and `nrm j` the norm of `V(:,j)`, both computed by
kernels before the loop.  `p` is the array of the result; `p[0:n0-1]` is given.
-/

namespace Verif.MapVecs

variable {K : Type} [Field K] [LinearOrder K]

/-- Whether `j` is in `p(0:i-1)`, solve_projection.c:1043-1046. -/
def used (p : ℕ → ℕ) (i j : ℕ) : Bool := (List.range i).any (fun k => p k == j)

/-- The loop over `j`, solve_projection.c:1039-1052: `m` columns are left, `j` is the next one, `ipmax` and `jmax` the best so far. -/
def scan (ip nrm : ℕ → K) (p : ℕ → ℕ) (i : ℕ) : ℕ → ℕ → K → Option ℕ → Option ℕ
  | 0, _, _, jmax => jmax
  | m + 1, j, ipmax, jmax =>
    if ip j > ipmax * nrm j ∧ used p i j = false then scan ip nrm p i m (j + 1) |ip j / nrm j| (some j)
    else scan ip nrm p i m (j + 1) ipmax jmax

/-- One assignment `p[i] = jmax`, solve_projection.c:1034-1058. -/
def assign (ip : ℕ → ℕ → K) (nrm : ℕ → K) (nV : ℕ) (p : ℕ → ℕ) (i : ℕ) : ℕ → ℕ :=
  fun t => if t = i then (scan (ip i) nrm p i nV 0 (-1) none).getD i else p t

/-- The loop over `i`, solve_projection.c:1033-1059: `m` columns are left and `i` is the next one. -/
def loop (ip : ℕ → ℕ → K) (nrm : ℕ → K) (nV : ℕ) : ℕ → ℕ → (ℕ → ℕ) → (ℕ → ℕ)
  | 0, _, p => p
  | m + 1, i, p => loop ip nrm nV m (i + 1) (assign ip nrm nV p i)

/-- `map_vecs_Sprimme(V, m, nV, ldV, W, n0, n, ldW, p, ctx)`. -/
def mapVecs (ip : ℕ → ℕ → K) (nrm : ℕ → K) (nV n0 n : ℕ) (p : ℕ → ℕ) : ℕ → ℕ :=
  loop ip nrm nV (n - n0) n0 p

end Verif.MapVecs
