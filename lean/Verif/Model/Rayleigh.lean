import Verif.Model.Restart
import Mathlib.Algebra.BigOperators.Ring.Finset
import Mathlib.Algebra.Module.Basic
import Mathlib.Algebra.Star.Basic

/-!
# The numbers behind the search space, in exact arithmetic

What the main iteration keeps of the projected problem with the Rayleigh-Ritz extraction (`primme_proj_RR`,
`orth = primme_orth_implicit_I`): the basis `V`, its products `W` with the operator and `BV` with the mass matrix, the projected
matrix `H` (upper triangle only), its eigenpairs `hVecs`, `hVals` and the locked pairs.  Vectors are elements of any module
`E`, `ip` is the inner product summed over all processes, `A` the operator and `B` the mass matrix.  Without a mass matrix the code
has no array `BV` and uses `V` in its place (`BV ? BV : V`): here `B` is then the identity.  Arithmetic is exact; `LAPACK`'s eigensolver and the orthogonalisation are
arguments, with the contracts stated where they are used.
-/

namespace Verif.Rayleigh
open Finset Verif

variable {K E : Type} [Field K] [StarRing K] [AddCommGroup E] [Module K E]

/-- `V*h` for a coefficient vector of `n` entries: `Num_gemm_dhd_Sprimme` in `Num_update_VWXR_Sprimme`
(src/eigs/auxiliary_eigs_normal.c:155-388). -/
def comb (n : ℕ) (V : ℕ → E) (h : ℕ → K) : E := ∑ k ∈ range n, h k • V k

/-- The element of the matrix of which only the upper triangle is stored. -/
def sym (H : ℕ → ℕ → K) (i j : ℕ) : K := if i ≤ j then H i j else star (H j i)

/-- `x'*H*y` for an `n x n` matrix: one element of `compute_submatrix` (src/linalg/auxiliary.c). -/
def quad (n : ℕ) (H : ℕ → ℕ → K) (x y : ℕ → K) : K := ∑ i ∈ range n, ∑ j ∈ range n, star (x i) * sym H i j * y j

/-- A locked pair: vector, value and residual vector (of which the norm is stored). -/
structure Locked (K E : Type) where
  x : E
  value : K
  res : E

/-- State of the projected problem. -/
structure St (K E : Type) where
  b : ℕ
  V : ℕ → E
  W : ℕ → E
  BV : ℕ → E
  H : ℕ → ℕ → K
  /-- Row, column. -/
  hVecs : ℕ → ℕ → K
  hVals : ℕ → K
  /-- Constraint vectors given by the user. -/
  cons : List E
  locked : List (Locked K E)

/-- What `solve_H_RR_Sprimme` (src/eigs/solve_projection.c) hands back. -/
structure Eig (K : Type) where
  vecs : ℕ → ℕ → K
  vals : ℕ → K

/-- Ritz vector of pair `j` (auxiliary_eigs_normal.c:155-388). -/
def ritz (s : St K E) (j : ℕ) : E := comb s.b s.V (fun k => s.hVecs k j)

/-- The product with the operator, as computed. -/
def ritzW (s : St K E) (j : ℕ) : E := comb s.b s.W (fun k => s.hVecs k j)

/-- The product with the mass matrix, as computed. -/
def ritzBV (s : St K E) (j : ℕ) : E := comb s.b s.BV (fun k => s.hVecs k j)

/-- The residual vector, as computed: `W*h - BV*h*value`, with `V` for `BV` without mass matrix. -/
def resid (s : St K E) (j : ℕ) : E := ritzW s j - s.hVals j • ritzBV s j

/-- Adding `m` vectors to the basis: `Bortho_block_Sprimme`, `matrixMatvec_Sprimme`, `update_projection_Sprimme` and
`solve_H_SHprimme` (src/eigs/main_iter.c:695, 801, 822, 843, and 1130, 1138, 1155, 1162 for initial guesses). -/
def expand (ip : E → E → K) (A B : E → E) (s : St K E) (m : ℕ) (q : ℕ → E) (e : Eig K) : St K E :=
  let V := fun i => if s.b ≤ i ∧ i < s.b + m then q (i - s.b) else s.V i
  let W := fun i => if s.b ≤ i ∧ i < s.b + m then A (V i) else s.W i
  let BV := fun i => if s.b ≤ i ∧ i < s.b + m then B (V i) else s.BV i
  { s with b := s.b + m, V := V, W := W, BV := BV,
           H := fun i j => if s.b ≤ j ∧ j < s.b + m ∧ i ≤ j then ip (V i) (W j) else s.H i j,
           hVecs := e.vecs, hVals := e.vals }

/-- The coefficient vectors used for the new basis: column `c` comes from a Ritz vector or from a retained previous one. -/
def coef (s : St K E) (prev : ℕ → ℕ → K) : Restart.Source → ℕ → K
  | .ritz v => fun k => s.hVecs k v
  | .prev m => prev m

/-- The coefficient vector in column `c` after the permutation (`none`: never written, any value; here zero). -/
def newCoef (s : St K E) (prev : ℕ → ℕ → K) (r : Restart.Result) (c : ℕ) : ℕ → K :=
  match Restart.column r c with
  | some src => coef s prev src
  | none => fun _ => 0

/-- `hVals` after the permutation by `restartPerm` (restart.c:678, 914). -/
def newVal (s : St K E) (r : Restart.Result) (c : ℕ) : K :=
  match r.restartPerm c with
  | some v => s.hVals v
  | none => 0

/-- `restart_RR`, restart.c:1625-1660: the new `H`, upper triangle. -/
def newH (s : St K E) (prev : ℕ → ℕ → K) (r : Restart.Result) : ℕ → ℕ → K := fun i j =>
  let ix := r.indexPrev.toNat
  let ret := r.retained.toNat
  if ix ≤ j ∧ j < ix + ret then
    if i < ix then 0 else quad s.b s.H (newCoef s prev r i) (newCoef s prev r j)
  else if i = j then newVal s r j else 0

/-- restart.c:1688-1694: the first column in target order that holds a retained vector. -/
def firstPrev (r : Restart.Result) (n : ℕ) : ℕ :=
  ((List.range n).find? (fun i => r.hVecsPerm i == some r.indexPrev.toNat)).getD n

/-- restart.c:1707-1728: coefficient vectors of the new problem: unit vectors in target order, and the eigenvectors of the block of the retained ones. -/
def newVecs (r : Restart.Result) (e : Eig K) (n : ℕ) : ℕ → ℕ → K := fun i j =>
  let ix := r.indexPrev.toNat
  let ret := r.retained.toNat
  let o := firstPrev r n
  if o ≤ j ∧ j < o + ret ∧ ix ≤ i ∧ i < ix + ret then e.vecs (i - ix) (j - o)
  else if r.hVecsPerm j = some i then 1 else 0

/-- restart.c:1715-1728: values of the new problem. -/
def newVals (s : St K E) (r : Restart.Result) (e : Eig K) (n : ℕ) : ℕ → K := fun j =>
  let o := firstPrev r n
  if o ≤ j ∧ j < o + r.retained.toNat then e.vals (j - o)
  else match r.hVecsPerm j with
    | some c => newVal s r c
    | none => 0

/-- The pairs locked by a restart (restart.c:926-975, 1133-1170): columns `basisSize` on of the permuted basis, as many as
`numLocked` grows; `restartPerm` is here the one in which the pairs that passed follow those that failed. -/
def newLocked (s : St K E) (prev : ℕ → ℕ → K) (r : Restart.Result) (nl : ℕ) : List (Locked K E) :=
  (List.range (r.numLocked - nl)).map fun t =>
    let c := r.basisSize.toNat + t
    let x := comb s.b s.V (newCoef s prev r c)
    { x := x, value := newVal s r c,
      res := comb s.b s.W (newCoef s prev r c) - newVal s r c • comb s.b s.BV (newCoef s prev r c) }

/-- `restart_Sprimme` with the Rayleigh-Ritz extraction: `r` is what the bookkeeping decides, `prev` the retained
coefficient vectors, `e` the eigenpairs of their block. -/
def restart (s : St K E) (prev : ℕ → ℕ → K) (r : Restart.Result) (e : Eig K) (nl : ℕ) : St K E :=
  let n := r.basisSize.toNat
  { b := n
    V := fun c => comb s.b s.V (newCoef s prev r c)
    W := fun c => comb s.b s.W (newCoef s prev r c)
    BV := fun c => comb s.b s.BV (newCoef s prev r c)
    H := newH s prev r
    hVecs := newVecs r e n
    hVals := newVals s r e n
    cons := s.cons
    locked := s.locked ++ newLocked s prev r nl }

/-- The whole projected problem is solved again: restart.c:1669-1685, after the basis is rebuilt, when the target shift changes; and
main_iter.c:455-487 when the basis is reset, where `H` is computed again from `V` and `W` (with the same result in exact
arithmetic). -/
def resolve (s : St K E) (e : Eig K) : St K E := { s with hVecs := e.vecs, hVals := e.vals }

end Verif.Rayleigh
