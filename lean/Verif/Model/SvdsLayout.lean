import Verif.Model.MatrixOps
import Mathlib.Algebra.Order.Field.Basic
import Mathlib.Algebra.BigOperators.Group.Finset.Basic

/-!
# Placement of the singular vectors before and after each stage

The parts of `copy_last_params_from_svds` and `copy_last_params_to_svds`, src/svds/primme_svds_c.c:547-1030,
that move singular vectors.  The array `svecs` starts at address 0 of a memory which also holds the temporary
array `aux`.  Numbers are elements of a field; complex conjugation is not modelled (real case).  The sizes
are the local sizes of one process.
-/

namespace Verif.Layout
open Verif.Mat

variable {K : Type} [Field K] [LinearOrder K]

/-- `Num_scal_Sprimme(len, c, &mem[off], 1)`. -/
def scal (len : ℕ) (c : K) (off : ℕ) (mem : ℕ → K) : ℕ → K := fun a =>
  if off ≤ a ∧ a < off + len then c * mem a else mem a

/-- `matrixMatvecSVDS_Sprimme`, src/svds/primme_svds_c.c:1112-1167, without conversions (C30): `f` is the
user's product on a local column; `cnt` columns with leading dimensions `mV` and `mW`, read and written at
disjoint places of one memory. -/
def mulCols (mV mW : ℕ) (f : (ℕ → K) → ℕ → K) (x y cnt : ℕ) (mem : ℕ → K) : ℕ → K := fun a =>
  if y ≤ a ∧ a < y + mW * cnt then
    f (fun r => if r < mV then mem (x + (a - y) / mW * mV + r) else 0) ((a - y) % mW)
  else mem a

/-- The numerical environment: square root, the sum over the processes, `HOST_MACHINE_MAX`. -/
structure Num (K : Type) where
  sqrt : K → K
  gsum : (ℕ → K) → ℕ → K
  big : K

/-- Local part of the squared norm of `m` numbers at `x`. -/
def norm2 (m x : ℕ) (mem : ℕ → K) : K := ∑ r ∈ Finset.range m, mem (x + r) * mem (x + r)

/-- The factor of column `i` in `Num_scalInv_Smatrix`, src/svds/primme_svds_c.c:1425-1433. -/
def invFactor (e : Num K) (m x : ℕ) (sval : ℕ → K) (mem : ℕ → K) (i : ℕ) : K :=
  if sval i > 0 ∧ 1 / sval i < e.big then sval i
  else e.sqrt (e.gsum (fun _ => norm2 m (x + i * m) mem) 0)

/-- `Num_scalInv_Smatrix`, src/svds/primme_svds_c.c:1418-1438, with leading dimension `m` (the columns are
disjoint, so that the order of the loop does not matter). -/
def scalInv (e : Num K) (m cnt x : ℕ) (sval : ℕ → K) (mem : ℕ → K) : ℕ → K := fun a =>
  if x ≤ a ∧ a < x + m * cnt then 1 / invFactor e m x sval mem ((a - x) / m) * mem a else mem a

/-- `copy_last_params_from_svds`, src/svds/primme_svds_c.c:622-665: position of the vectors handed to the
eigensolver and memory.  `op` is the operator of the stage, `m`, `n` the local numbers of rows and columns,
`nc` the number of constraints, `init` `primme_svds.initSize`, `nsv` `numSvals`, `isq2` the value of
`1./sqrt(2.)`. -/
def fromSvds (op : Int) (m n nc init nsv aux : ℕ) (isq2 : K) (mem : ℕ → K) : ℕ × (ℕ → K) :=
  let k := init + nc
  let kMax := max init nsv + nc
  if op = 1 then (kMax * m, copyMatrix n k n n (m * k) (kMax * m) mem)
  else if op = 2 then (0, copyMatrix n nc n n (m * k) (kMax * m) mem)
  else if op = 3 then
    let mem := copyCol ((m + n) * k) aux 0 mem
    let mem := copyMatrix n k n (m + n) (aux + m * k) 0 mem
    let mem := copyMatrix m k m (m + n) aux n mem
    (0, scal ((m + n) * nc) isq2 0 mem)
  else (0, mem)

/-- The columns of `U` and `V` are scaled by the inverses of their norms, src/svds/primme_svds_c.c:968-993:
`k` columns of `m` numbers at 0 followed by `k` columns of `n` numbers. -/
def normalize (e : Num K) (m n k : ℕ) (mem : ℕ → K) : ℕ → K :=
  let local2 : ℕ → K := fun i => if i < k then norm2 m (m * i) mem else norm2 n (m * k + n * (i - k)) mem
  let norms2 := e.gsum local2
  fun a =>
    if a < m * k then 1 / e.sqrt (norms2 (a / m)) * mem a
    else if a < m * k + n * k then 1 / e.sqrt (norms2 (k + (a - m * k) / n)) * mem a
    else mem a

/-- `copy_last_params_to_svds`, src/svds/primme_svds_c.c:903-997.  `init0` is `primme_svds.initSize` before,
`ret` the number of vectors returned by the eigensolver, `rows` is `primme->nLocal` of the stage, `A` and `At`
the user's products, `sval` the singular values, `sq2` the value of `sqrt(2.)`. -/
def toSvds (e : Num K) (op : Int) (m n nc init0 nsv ret rows aux : ℕ) (A At : (ℕ → K) → ℕ → K)
    (sval : ℕ → K) (sq2 : K) (mem : ℕ → K) : ℕ → K :=
  let kMax := max init0 nsv + nc
  let k := ret + nc
  if op = 1 then
    let mem := mulCols n m A (m * kMax + rows * nc) (m * nc) ret mem
    let mem := scalInv e m ret (m * nc) sval mem
    copyMatrix n k n n (m * kMax) (m * k) mem
  else if op = 2 then
    let mem := copyMatrix n nc n n (m * kMax) (m * k) mem
    let mem := mulCols m n At (m * nc) (m * k + rows * nc) ret mem
    scalInv e n ret (m * k + rows * nc) sval mem
  else if op = 3 then
    let mem := scal ((m + n) * nc) sq2 0 mem
    let mem := copyCol ((m + n) * k) aux 0 mem
    let mem := copyMatrix n k (m + n) n aux (m * k) mem
    let mem := copyMatrix m k (m + n) m (aux + n) 0 mem
    normalize e m n k mem
  else mem

end Verif.Layout
