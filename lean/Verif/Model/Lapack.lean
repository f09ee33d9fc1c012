import Verif.Model.Basic
import Mathlib.Data.List.Basic
import Mathlib.Data.Nat.Notation
import Mathlib.Data.Int.Notation

/-!
# Calls of LAPACK

The functions of src/linalg/blaslapack.c that call LAPACK, as lists of the statements that can fail, call LAPACK or return, and an
interpreter.  What LAPACK computes is not modelled: each call gives any error code, and each query any length of the workspace.
Releasing host memory does not fail and is left out, as are copies of matrices and of pivots.
-/

namespace Verif.Lapack

/-- What the library and the system do: the width of the integers of BLAS (`b + 1` bits), the `info` of the `k`-th call of LAPACK, the
length of the workspace that queries give, and whether the `k`-th allocation succeeds. -/
structure Env where
  b : ℕ
  info : ℕ → ℤ
  work : ℤ
  malloc : ℕ → Bool

/-- `PRIMME_BLASINT_MAX`, src/linalg/blaslapack_private.h:41-62. -/
def Env.max (e : Env) : ℤ := 2 ^ e.b - 1

/-- `(PRIMME_BLASINT)i`. -/
def Env.cast (e : Env) (i : ℤ) : ℤ := Int.bmod i (2 ^ (e.b + 1))

/-- What happened. -/
inductive Ev where
  | tooBig (x : ℤ)
  | alloc (len : ℤ)
  | noMem
  /-- A call of LAPACK or BLAS: sizes, length of the workspace if there is one, and `info`. -/
  | call (name : String) (sizes : List ℤ) (lwork : Option ℤ) (info : ℤ)
  deriving DecidableEq

/-- Statements; `g` tells if the statement is inside of `if (linfo == 0)`. -/
inductive Step where
  /-- `CHKERR(to_blas_int(x, &l))`, blaslapack.c:57-63. -/
  | fit (x : ℤ)
  /-- `if (c) return 0;`. -/
  | quick (c : Bool)
  /-- `CHKERR(Num_malloc_…(len, …))`; the length may be the `lldwork` given by the query. -/
  | malloc (g : Bool) (len : ℤ → ℤ)
  /-- A call with `&linfo`, or of a BLAS function, which has none. -/
  | lapack (g : Bool) (name : String) (sizes : List ℤ) (lwork : Option (ℤ → ℤ))
  /-- `CHKERRM(linfo != 0, PRIMME_LAPACK_FAILURE, …)`. -/
  | report

/-- Returned code, last `linfo` and what happened. -/
structure Res where
  ret : ℤ
  info : ℤ
  trace : List Ev

/-- An event before what follows. -/
def Res.after (v : Ev) (r : Res) : Res := { r with trace := v :: r.trace }

/-- The statements in order; `k` calls of LAPACK and `a` allocations have been made. -/
def run (e : Env) : List Step → ℕ → ℕ → ℤ → Res
  | [], _, _, linfo => ⟨0, linfo, []⟩
  | .fit x :: l, k, a, linfo =>
    if x > e.max then ⟨PRIMME_UNEXPECTED_FAILURE, linfo, [.tooBig x]⟩ else run e l k a linfo
  | .quick c :: l, k, a, linfo => if c then ⟨0, linfo, []⟩ else run e l k a linfo
  | .malloc g len :: l, k, a, linfo =>
    if g ∧ linfo ≠ 0 then run e l k a linfo
    else if e.malloc a then (run e l k (a + 1) linfo).after (.alloc (len e.work))
    else ⟨PRIMME_MALLOC_FAILURE, linfo, [.noMem]⟩
  | .lapack g name sizes lwork :: l, k, a, linfo =>
    if g ∧ linfo ≠ 0 then run e l k a linfo
    else (run e l (k + 1) a (e.info k)).after
      (.call name (sizes.map e.cast) (lwork.map (fun f => f e.work)) (e.info k))
  | .report :: l, k, a, linfo => if linfo ≠ 0 then ⟨PRIMME_LAPACK_FAILURE, linfo, []⟩ else run e l k a linfo

/-- A function from its beginning, where `linfo` is zero. -/
def exec (e : Env) (l : List Step) : Res := run e l 0 0 0

/-- Allocation outside of `if (linfo == 0)`. -/
def getMem (n : ℤ) : Step := .malloc false (fun _ => n)

/-- `Num_heev_Sprimme` without `USE_XHEEV`, blaslapack.c:1024-1092. -/
def heevx (complex : Bool) (n lda : ℤ) : List Step :=
  [.fit n, .fit lda, .quick (n = 0), getMem (n * n)] ++ (if complex then [getMem (7 * n)] else []) ++ [getMem (5 * n), getMem n,
    .lapack false "heevx" [n, lda, n] (some (fun _ => -1)),
    .malloc true (fun w => if w < 2 * n then 2 * n else w),
    .lapack true "heevx" [n, lda, n] (some (fun w => if w < 2 * n then 2 * n else w)), .report]

/-- `Num_heev_Sprimme` with `USE_XHEEV`, blaslapack.c:1094-1140. -/
def heev (complex : Bool) (n lda : ℤ) : List Step :=
  [.fit n, .fit lda, .quick (n = 0)] ++ (if complex then [getMem (3 * n)] else []) ++
    [.lapack false "heev" [n, lda] (some (fun _ => -1)), .malloc true id, .lapack true "heev" [n, lda] (some id), .report]

/-- `Num_hegv_Sprimme` with a matrix `b0`, without `USE_XHEGV`, blaslapack.c:1163-1234. -/
def hegvx (complex : Bool) (n lda : ℤ) : List Step :=
  [.fit n, .fit lda, .quick (n = 0), getMem (n * n), getMem (n * n)] ++ (if complex then [getMem (7 * n)] else []) ++ [getMem (5 * n), getMem n,
    .lapack false "hegvx" [n, lda, n, n] (some (fun _ => -1)), .malloc true id,
    .lapack true "hegvx" [n, lda, n, n] (some id), .report]

/-- `Num_hegv_Sprimme` with a matrix `b0` and `USE_XHEGV`, blaslapack.c:1237-1287: `linfo` is not tested. -/
def hegv (complex : Bool) (n lda : ℤ) : List Step :=
  [.fit n, .fit lda, .quick (n = 0), getMem (n * n)] ++ (if complex then [getMem (3 * n)] else []) ++
    [.lapack false "hegv" [n, lda, n] (some (fun _ => -1)), .malloc true id, .lapack true "hegv" [n, lda, n] (some id)]

/-- `Num_gees_Sprimme`, blaslapack.c:1299-1341. -/
def gees (n lda ldvs : ℤ) : List Step :=
  [.fit n, .fit lda, .fit ldvs, .quick (n = 0), getMem n,
    .lapack false "gees" [n, lda, ldvs] (some (fun _ => -1)), .malloc true id,
    .lapack true "gees" [n, lda, ldvs] (some id), .report]

/-- `Num_gesvd_Sprimme`, blaslapack.c:1350-1403. -/
def gesvd (complex : Bool) (m n lda ldu ldvt : ℤ) : List Step :=
  [.fit m, .fit n, .fit lda, .fit ldu, .fit ldvt, .quick (m = 0 ∨ n = 0),
    .lapack false "gesvd" [m, n, lda, ldu, ldvt] (some (fun _ => -1)), .malloc true id] ++
    (if complex then [.malloc true (fun _ => 5 * n)] else []) ++
    [.lapack true "gesvd" [m, n, lda, ldu, ldvt] (some id), .report]

/-- `Num_hetrf_Sprimme` without `USE_ZGESV`, blaslapack.c:1410-1457; `same`: `sizeof(int) == sizeof(PRIMME_BLASINT)`. -/
def hetrf (same : Bool) (n lda : ℤ) : List Step :=
  [.fit n, .fit lda, .quick (n = 0)] ++ (if same then [] else [getMem n]) ++
    [.lapack false "hetrf" [n, lda] (some (fun _ => -1)), .malloc true id, .lapack true "hetrf" [n, lda] (some id), .report]

/-- `Num_hetrs_Sprimme`, blaslapack.c:1494-1538; with `USE_ZGESV` the function called is another. -/
def hetrs (zgesv same : Bool) (n nrhs lda ldb : ℤ) : List Step :=
  [.fit n, .fit nrhs, .fit lda, .fit ldb, .quick (n = 0 ∨ nrhs = 0)] ++ (if same then [] else [getMem n]) ++
    [.lapack false (if zgesv then "gesv" else "hetrs") [n, nrhs, lda, ldb] none, .report]

/-- `Num_potrf_Sprimme`, blaslapack.c:1547-1570; with a pointer `info` the code is stored and not reported. -/
def potrf (pointer : Bool) (n lda : ℤ) : List Step :=
  [.fit n, .fit lda, .quick (n = 0), .lapack false "potrf" [n, lda] none] ++ (if pointer then [] else [.report])

/-- `Num_getrf_Sprimme`, blaslapack.c:1633-1666: the sizes are cast without a test. -/
def getrf (same : Bool) (m n lda : ℤ) : List Step :=
  [.quick (m = 0 ∨ n = 0)] ++ (if same then [] else [getMem n]) ++ [.lapack false "getrf" [m, n, lda] none, .report]

/-- `Num_getrs_Sprimme`, blaslapack.c:1675-1710: likewise. -/
def getrs (same : Bool) (n nrhs lda ldb : ℤ) : List Step :=
  [.quick (n = 0 ∨ nrhs = 0)] ++ (if same then [] else [getMem n]) ++ [.lapack false "getrs" [n, nrhs, lda, ldb] none, .report]

/-- `Num_trsm_Sprimme`, blaslapack.c:1578-1597: likewise; there is no `info`.  (The interpreter gives it one, which is not looked at.) -/
def trsm (m n lda ldb : ℤ) : List Step := [.quick (m = 0 ∨ n = 0), .lapack false "trsm" [m, n, lda, ldb] none]

end Verif.Lapack
