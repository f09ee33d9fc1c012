import Mathlib.Algebra.BigOperators.Ring.Finset
import Mathlib.Algebra.Star.Basic
import Verif.Model.Basic

/-!
# The wrappers of the dense kernels

Model of parts of src/linalg/blaslapack.c.  An array is what follows a pointer: a function from the position
to the element.  The routines of the BLAS library (`xDot`, `xAxpy`, `xScal`, `xGemv`, `xGemm`) follow their
reference definition in exact arithmetic.  `cap` is `PRIMME_BLASINT_MAX`.  Strides are positive.  The conversion of
the precision is the identity on the elements; what it does to the layout of a matrix is modelled.
-/

namespace Verif.Blas
open Finset Verif

/-- Elements from a position on: `&x[k]`. -/
def after {K : Type} (x : ℕ → K) (k : ℕ) : ℕ → K := fun i => x (k + i)

/-- `to_blas_int`, blaslapack.c:57-63, for a list of arguments. -/
def tooLarge (cap : ℕ) (l : List ℕ) : Bool := l.any (fun i => decide (cap < i))

variable {K : Type} [CommRing K] [StarRing K] [DecidableEq K]

/-! ## Reference definitions of the library -/

/-- `x'*y`. -/
def xDot (n : ℕ) (x : ℕ → K) (incx : ℕ) (y : ℕ → K) (incy : ℕ) : K :=
  ∑ i ∈ range n, star (x (i * incx)) * y (i * incy)

/-- `y += alpha*x`; `y` starts at position `off` of the array. -/
def xAxpy (n : ℕ) (alpha : K) (x : ℕ → K) (incx : ℕ) (off : ℕ) (y : ℕ → K) (incy : ℕ) : ℕ → K := fun t =>
  if off ≤ t ∧ (t - off) % incy = 0 ∧ (t - off) / incy < n then y t + alpha * x ((t - off) / incy * incx) else y t

/-- `x *= alpha`, from position `off`. -/
def xScal (n : ℕ) (alpha : K) (off : ℕ) (x : ℕ → K) (incx : ℕ) : ℕ → K := fun t =>
  if off ≤ t ∧ (t - off) % incx = 0 ∧ (t - off) / incx < n then alpha * x t else x t

/-- Element of `op(A)`: the matrix itself or its conjugate transpose. -/
def opOf (tr : Bool) (a : ℕ → K) (lda i l : ℕ) : K := if tr then star (a (i * lda + l)) else a (l * lda + i)

/-- `y = alpha*op(A)*x + beta*y` with `A` of size `m x n`; `y` starts at position `off`. -/
def xGemv (tr : Bool) (m n : ℕ) (alpha : K) (a : ℕ → K) (lda : ℕ) (x : ℕ → K) (incx : ℕ) (beta : K) (off : ℕ)
    (y : ℕ → K) (incy : ℕ) : ℕ → K := fun t =>
  if off ≤ t ∧ (t - off) % incy = 0 ∧ (t - off) / incy < (if tr then n else m) then
    beta * y t + alpha * ∑ l ∈ range (if tr then m else n), opOf tr a lda ((t - off) / incy) l * x (l * incx)
  else y t

/-- `C = alpha*op(A)*op(B) + beta*C` with `C` of size `m x n` and `k` terms in each product. -/
def xGemm (ta tb : Bool) (m n k : ℕ) (alpha : K) (a : ℕ → K) (lda : ℕ) (b : ℕ → K) (ldb : ℕ) (beta : K)
    (c : ℕ → K) (ldc : ℕ) : ℕ → K := fun t =>
  if t % ldc < m ∧ t / ldc < n then
    beta * c t + alpha * ∑ l ∈ range k, opOf ta a lda (t % ldc) l * opOf tb b ldb l (t / ldc)
  else c t

/-! ## Wrappers -/

/-- The loop of `Num_dot_Sprimme`, blaslapack.c:921-927 (real types); `off` is how far both pointers have been moved. -/
def dotLoop (cap : ℕ) (x : ℕ → K) (incx : ℕ) (y : ℕ → K) (incy : ℕ) : ℕ → ℕ → ℕ → K → K
  | 0, _, _, r => r
  | f + 1, n, off, r =>
    if n = 0 then r
    else dotLoop cap x incx y incy f (n - min n (cap - 1)) (off + min n (cap - 1))
      (r + xDot (min n (cap - 1)) (after x off) incx (after y off) incy)

/-- `Num_dot_Sprimme`, blaslapack.c:889-931: for complex types a plain loop (lines 897-911). -/
def dot (cap : ℕ) (cplx : Bool) (n : ℕ) (x : ℕ → K) (incx : ℕ) (y : ℕ → K) (incy : ℕ) : K :=
  if cplx then xDot n x incx y incy else dotLoop cap x incx y incy n n 0 0

/-- The loop of `Num_axpy_Sprimme`, blaslapack.c:872-879. -/
def axpyLoop (cap : ℕ) (alpha : K) (x : ℕ → K) (incx incy : ℕ) : ℕ → ℕ → ℕ → (ℕ → K) → ℕ → K
  | 0, _, _, y => y
  | f + 1, n, off, y =>
    if n = 0 then y
    else axpyLoop cap alpha x incx incy f (n - min n (cap - 1)) (off + min n (cap - 1))
      (xAxpy (min n (cap - 1)) alpha (after x off) incx off y incy)

/-- `Num_axpy_Sprimme`, blaslapack.c:862-887; `none`: an argument is too large for the library. -/
def axpy (cap n : ℕ) (alpha : K) (x : ℕ → K) (incx : ℕ) (y : ℕ → K) (incy : ℕ) : Outcome (ℕ → K) :=
  if tooLarge cap [incx, incy] then .err PRIMME_UNEXPECTED_FAILURE else .ok (axpyLoop cap alpha x incx incy n n 0 y)

/-- The loop of `Num_scal_Sprimme`, blaslapack.c:1003-1008. -/
def scalLoop (cap : ℕ) (alpha : K) (incx : ℕ) : ℕ → ℕ → ℕ → (ℕ → K) → ℕ → K
  | 0, _, _, x => x
  | f + 1, n, off, x =>
    if n = 0 then x
    else scalLoop cap alpha incx f (n - min n (cap - 1)) (off + min n (cap - 1)) (xScal (min n (cap - 1)) alpha off x incx)

/-- `Num_scal_Sprimme`, blaslapack.c:993-1016. -/
def scal (cap n : ℕ) (alpha : K) (x : ℕ → K) (incx : ℕ) : Outcome (ℕ → K) :=
  if tooLarge cap [incx] then .err PRIMME_UNEXPECTED_FAILURE else .ok (scalLoop cap alpha incx n n 0 x)

/-- `Num_zero_matrix_Sprimme`, blaslapack.c:498-510. -/
def zeroMatrix (m n ldx : ℕ) (x : ℕ → K) : ℕ → K := fun t => if t % ldx < m ∧ t / ldx < n then 0 else x t

/-- The loop of `Num_gemv_Sprimme`, blaslapack.c:768-783: `off` rows are done. -/
def gemvLoop (cap : ℕ) (tr : Bool) (n : ℕ) (alpha : K) (a : ℕ → K) (lda : ℕ) (x : ℕ → K) (incx incy : ℕ) :
    ℕ → ℕ → ℕ → K → (ℕ → K) → ℕ → K
  | 0, _, _, _, y => y
  | f + 1, m, off, beta, y =>
    if m = 0 then y
    else gemvLoop cap tr n alpha a lda x incx incy f (m - min m (cap - 1)) (off + min m (cap - 1))
      (if tr then 1 else beta)
      (xGemv tr (min m (cap - 1)) n alpha (after a off) lda (if tr then after x off else x) incx beta
        (if tr then 0 else off) y incy)

/-- `Num_gemv_Sprimme`, blaslapack.c:727-786. -/
def gemv (cap : ℕ) (cplx tr : Bool) (m n : ℕ) (alpha : K) (a : ℕ → K) (lda : ℕ) (x : ℕ → K) (incx : ℕ) (beta : K)
    (y : ℕ → K) (incy : ℕ) : Outcome (ℕ → K) :=
  if tooLarge cap [n, lda, incx, incy] then .err PRIMME_UNEXPECTED_FAILURE
  else
    let mA := if tr then n else m
    let nA := if tr then m else n
    if mA = 0 then .ok y
    else if nA = 0 ∨ alpha = 0 then
      if beta = 0 then .ok (zeroMatrix 1 mA incy y) else scal cap mA beta y incy
    else if mA = 1 then
      .ok (fun t => if t = 0 then
        (if beta ≠ 0 then beta * y 0 else 0) + dot cap cplx nA a (if tr then 1 else lda) x incx * alpha else y t)
    else .ok (gemvLoop cap tr n alpha a lda x incx incy m m 0 beta y)

/-- The loop over the columns of `Num_gemm_Sprimme`, blaslapack.c:541-544: `m x n` entries are multiplied by `beta`
(each column by `Num_scal_Sprimme` with stride 1). -/
def scalColumns (cap m ldc : ℕ) (beta : K) : ℕ → (ℕ → K) → ℕ → K
  | 0, c => c
  | j + 1, c => scalAt (scalColumns cap m ldc beta j c) (ldc * j)
where
  /-- `Num_scal_Sprimme(m, beta, &c[off], 1)`. -/
  scalAt (c : ℕ → K) (off : ℕ) : ℕ → K :=
    fun t => if off ≤ t then scalLoop cap beta 1 m m 0 (after c off) (t - off) else c t

/-- `Num_gemm_Sprimme`, blaslapack.c:517-565. -/
def gemm (cap : ℕ) (cplx ta tb : Bool) (m n k : ℕ) (alpha : K) (a : ℕ → K) (lda : ℕ) (b : ℕ → K) (ldb : ℕ)
    (beta : K) (c : ℕ → K) (ldc : ℕ) : Outcome (ℕ → K) :=
  if tooLarge cap [m, n, k, lda, ldb, ldc] then .err PRIMME_UNEXPECTED_FAILURE
  else if m = 0 ∨ n = 0 then .ok c
  else if k = 0 ∨ alpha = 0 then
    if beta = 0 then .ok (zeroMatrix m n ldc c)
    else if beta ≠ 1 then .ok (scalColumns cap m ldc beta n c)
    else .ok c
  else if n = 1 ∧ (cplx = false ∨ tb = false) then
    gemv cap cplx ta (if ta then k else m) (if ta then m else k) alpha a lda b (if tb then ldb else 1) beta c 1
  else .ok (xGemm ta tb m n k alpha a lda b ldb beta c ldc)

/-- `Num_matrix_astype_Sprimme(x, m, n, ldx, …)` with allocation (src/linalg/auxiliary.c:79-142): the array itself and
its leading dimension if the types agree (`same`), otherwise a new array with `m` rows per column. -/
def astype (same : Bool) (m ldx : ℕ) (x : ℕ → K) : (ℕ → K) × ℕ :=
  if same then (x, ldx) else (fun t => x (t / m * ldx + t % m), m)

/-- The loop of `Num_gemm_ddh_Sprimme`, blaslapack.c:636-654, for `C = alpha*A'*B + beta*C`: from row `i` on, in strips of
`w` rows.  `K` is the height of the strips; the converted strips keep the leading dimension of the first. -/
def stripLoop (cap : ℕ) (cplx same : Bool) (m n k w : ℕ) (alpha : K) (a : ℕ → K) (lda : ℕ) (b : ℕ → K) (ldb : ℕ)
    (ldc : ℕ) : ℕ → ℕ → ℕ → K → (ℕ → K) → Outcome (ℕ → K)
  | 0, _, _, _, c => .ok c
  | f + 1, i, h, beta, c =>
    if i < k then
      gemm cap cplx true false m n h alpha
        (if same then after a i else fun t => a (i + (t / w * lda + t % w))) (if same then lda else w)
        (if same then after b i else fun t => b (i + (t / w * ldb + t % w))) (if same then ldb else w) beta c ldc >>= fun c =>
      stripLoop cap cplx same m n k w alpha a lda b ldb ldc f (i + h) (min h (k - (i + h))) 1 c
    else .ok c

/-- `Num_gemm_ddh_Sprimme("C", "N", m, n, k, alpha, a, lda, b, ldb, beta, c, ldc)`, blaslapack.c:607-661; `block` is
`PRIMME_BLOCK_SIZE`.  All the calls in the library have these first two arguments. -/
def gemmDdh (cap block : ℕ) (cplx same : Bool) (m n k : ℕ) (alpha : K) (a : ℕ → K) (lda : ℕ) (b : ℕ → K) (ldb : ℕ)
    (beta : K) (c : ℕ → K) (ldc : ℕ) : Outcome (ℕ → K) :=
  if m = 0 ∨ n = 0 ∨ ((k = 0 ∨ alpha = 0) ∧ beta = 1) then .ok c
  else
    let w := if same = false ∧ block < k then block else k
    stripLoop cap cplx same m n k w alpha a lda b ldb ldc k 0 w beta c

/-- `Num_gemm_dhd_Sprimme("N", "N", …)`, blaslapack.c:568-605: `A` and `C` are converted, and `C` is converted back. -/
def gemmDhd (cap : ℕ) (cplx same : Bool) (m n k : ℕ) (alpha : K) (a : ℕ → K) (lda : ℕ) (b : ℕ → K) (ldb : ℕ)
    (beta : K) (c : ℕ → K) (ldc : ℕ) : Outcome (ℕ → K) :=
  if m = 0 ∨ n = 0 ∨ ((k = 0 ∨ alpha = 0) ∧ beta = 1) then .ok c
  else
    let af := astype same m lda a
    let cf := astype same m ldc c
    gemm cap cplx false false m n k alpha af.1 af.2 b ldb beta cf.1 cf.2 >>= fun r =>
    .ok (if same then r else fun t => if t % ldc < m ∧ t / ldc < n then r (t / ldc * m + t % ldc) else c t)

/-- `Num_gemv_ddh_Sprimme`, blaslapack.c:793-821: the call of the kernel has `m` and 1 where the leading dimension and the stride
of the converted arrays belong. -/
def gemvDdh (cap : ℕ) (cplx same tr : Bool) (m n : ℕ) (alpha : K) (a : ℕ → K) (lda : ℕ) (x : ℕ → K) (incx : ℕ)
    (beta : K) (y : ℕ → K) (incy : ℕ) : Outcome (ℕ → K) :=
  gemv cap cplx tr m n alpha (astype same m lda a).1 m (astype same 1 incx x).1 1 beta y incy

/-- `Num_gemv_dhd_Sprimme`, blaslapack.c:828-856: likewise for the matrix. -/
def gemvDhd (cap : ℕ) (cplx same tr : Bool) (m n : ℕ) (alpha : K) (a : ℕ → K) (lda : ℕ) (x : ℕ → K) (incx : ℕ)
    (beta : K) (y : ℕ → K) (incy : ℕ) : Outcome (ℕ → K) :=
  let yf := astype same 1 incy y
  gemv cap cplx tr m n alpha (astype same m lda a).1 m x incx beta yf.1 yf.2 >>= fun r =>
  .ok (if same then r else fun t => if t % incy < 1 ∧ t / incy < (if tr then n else m) then r (t / incy) else y t)

/-! ## Users of the kernels -/

/-- One orthogonalisation of a vector against `n` columns with leading dimension `ld`, src/eigs/ortho.c:236-272 (without mass
matrix, one process): overlaps and update. -/
def deflate (cap : ℕ) (cplx same : Bool) (rows n : ℕ) (cols : ℕ → K) (ld : ℕ) (v : ℕ → K) : Outcome (ℕ → K) :=
  gemvDdh cap cplx same true rows n 1 cols ld v 1 0 (fun _ => 0) 1 >>= fun o =>
  gemvDhd cap cplx same false rows n (-1) cols ld o 1 1 v 1

/-- What a process has of the operands of a projection: number of rows, `Q` and its leading dimension, and `v`. -/
structure Part (K : Type) where
  rows : ℕ
  q : ℕ → K
  ldq : ℕ
  v : ℕ → K
  ldv : ℕ
  /-- Contents of the new array for the overlaps. -/
  junk : ℕ → K

/-- Overlaps of one process, src/eigs/inner_solve.c:779-784. -/
def overlaps (cap block : ℕ) (cplx same : Bool) (cols bs : ℕ) (p : Part K) : Outcome (ℕ → K) :=
  gemmDdh cap block cplx same cols bs p.rows 1 p.q p.ldq p.v p.ldv 0 p.junk cols

/-- `Q'*v` after the global sum, src/eigs/inner_solve.c:779-788. -/
def allOverlaps (cap block : ℕ) (cplx same : Bool) (cols bs : ℕ) : List (Part K) → Outcome (ℕ → K)
  | [] => .ok (fun _ => 0)
  | p :: ps => overlaps cap block cplx same cols bs p >>= fun o =>
    allOverlaps cap block cplx same cols bs ps >>= fun s => .ok (fun t => o t + s t)

end Verif.Blas
