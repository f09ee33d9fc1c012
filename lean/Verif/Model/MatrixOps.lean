import Mathlib.Data.Nat.Notation
import Mathlib.Algebra.BigOperators.Group.Finset.Basic
import Mathlib.Data.List.Basic
import Mathlib.Algebra.Ring.Defs

/-!
# Matrix copies, gathers and the packed triangular exchange

Memory is a function from addresses to values; matrices are column-major blocks given by the address of
their first element and a leading dimension.  That no address outside of the blocks is written is part
of the theorems about these routines (Props C31, C37, C40); that none is read is visible from the values
they deliver.  `int` overflow of index expressions is not modelled.
-/

namespace Verif.Mat

variable {α : Type*}

/-- `mem[dst] = mem[src]`. -/
def assign (mem : ℕ → α) (dst src : ℕ) : ℕ → α := fun a => if a = dst then mem src else mem a

/-- `memmove(&mem[dst], &mem[src], len)`: all the elements are read before any is written. -/
def memmove (dst src len : ℕ) (mem : ℕ → α) : ℕ → α := fun a =>
  if dst ≤ a ∧ a < dst + len then mem (src + (a - dst)) else mem a

/-- `for (j = 0; j < m; j++) y[j] = x[j]`, src/linalg/blaslapack.c:466-467. -/
def copyCol (m y x : ℕ) (mem : ℕ → α) : ℕ → α :=
  (List.range m).foldl (fun mem j => assign mem (y + j) (x + j)) mem

/-- `Num_copy_matrix_Sprimme`, src/linalg/blaslapack.c:434-482; `x`, `y` are addresses in one memory. -/
def copyMatrix (m n ldx ldy x y : ℕ) (mem : ℕ → α) : ℕ → α :=
  if x = y ∧ ldx = ldy then mem
  else if m = 0 ∨ n = 0 then mem
  else if ldx = ldy ∧ ldx = m then memmove y x (m * n) mem
  else if ldx = ldy ∧ (if y > x then y - x else x - y) < ldx then
    (List.range n).foldl (fun mem i => memmove (y + i * ldy) (x + i * ldx) m mem) mem
  else if ldx = ldy ∧ y > x ∧ y - x > ldx then
    (List.range n).reverse.foldl (fun mem i => copyCol m (y + i * ldy) (x + i * ldx) mem) mem
  else (List.range n).foldl (fun mem i => copyCol m (y + i * ldy) (x + i * ldx) mem) mem

/-- `xin ? xin[i] : i`. -/
def idx (xin : Option (ℕ → ℕ)) (i : ℕ) : ℕ := match xin with
  | some f => f i
  | none => i

/-- `Num_copy_matrix_columns_Sprimme`, src/linalg/auxiliary.c:649-662; the BLAS copy of one column is
taken in ascending order. -/
def copyColumns (m n ldx ldy x y : ℕ) (xin yin : Option (ℕ → ℕ)) (mem : ℕ → α) : ℕ → α :=
  (List.range n).foldl (fun mem i => copyCol m (y + idx yin i * ldy) (x + idx xin i * ldx) mem) mem

/-- `Num_copy_Sprimme(n, x, ldx, y, ldy)`: strided copy of one row. -/
def copyRow (n ldx ldy y x : ℕ) (mem : ℕ → α) : ℕ → α :=
  (List.range n).foldl (fun mem j => assign mem (y + j * ldy) (x + j * ldx)) mem

/-- `Num_copy_matrix_rows_Sprimme`, src/linalg/auxiliary.c:683-696. -/
def copyRows (m n ldx ldy x y : ℕ) (xim yim : Option (ℕ → ℕ)) (mem : ℕ → α) : ℕ → α :=
  (List.range m).foldl (fun mem i => copyRow n ldx ldy (y + idx yim i) (x + idx xim i) mem) mem

/-- The scan `for (i=0; i<n-1 && perm[i]+1 == perm[i+1]; i++)`, src/linalg/auxiliary.c:903. -/
def contiguousUpTo (perm : ℕ → ℕ) (n : ℕ) : ℕ → ℕ → ℕ
  | 0, i => i
  | k + 1, i => if i < n - 1 ∧ perm i + 1 = perm (i + 1) then contiguousUpTo perm n k (i + 1) else i

/-- `Num_compact_vecs_Sprimme`, src/linalg/auxiliary.c:897-913: address and leading dimension of the
result, and memory.  (The copies of single columns pass `ld` instead of `ldwork` as leading dimension,
which is immaterial for one column; `Num_copy_matrix` of one column is taken as an ascending copy.) -/
def compactVecs (m n ld vecs : ℕ) (perm : ℕ → ℕ) (work ldwork : ℕ) (avoidCopy : Bool)
    (mem : ℕ → α) : ℕ × (ℕ → α) :=
  if avoidCopy ∧ contiguousUpTo perm n n 0 ≥ n - 1 then (vecs + ld * perm 0, mem)
  else (work, (List.range n).foldl
    (fun mem i => copyCol m (work + i * ldwork) (vecs + perm i * ld) mem) mem)

/-! ## Packed upper triangles -/

/-- Inner loop of `Num_copy_trimatrix_compact_Sprimme`: `for (j...) y[k++] = x[base+j]`. -/
def packCol (x : ℕ → α) (base : ℕ) : ℕ → ℕ → ℕ → (ℕ → α) → ℕ × (ℕ → α)
  | 0, _, k, y => (k, y)
  | c + 1, j, k, y => packCol x base c (j + 1) (k + 1) (fun a => if a = k then x (base + j) else y a)

/-- Outer loop of `Num_copy_trimatrix_compact_Sprimme`. -/
def packLoop (x : ℕ → α) (ldx i0 : ℕ) : ℕ → ℕ → ℕ → (ℕ → α) → ℕ × (ℕ → α)
  | 0, _, k, y => (k, y)
  | c + 1, i, k, y =>
    let r := packCol x (i * ldx) (i + i0 + 1) 0 k y
    packLoop x ldx i0 c (i + 1) r.1 r.2

/-- `Num_copy_trimatrix_compact_Sprimme`, src/linalg/auxiliary.c:520-534: return code, `*ly` and `y`.
`x` is seen from the pointer passed (offset 0). -/
def packTri (m n ldx i0 : ℕ) (x y : ℕ → α) : ℤ × ℕ × (ℕ → α) :=
  if m < n then (-1, 0, y) else let r := packLoop x ldx i0 n 0 0 y; (0, r.1, r.2)

/-- Inner loop of `Num_copy_compact_trimatrix_Sprimme` (`j` and `k` run downwards; the arguments are
`j + 1` and `k + 1`, so that 0 means the loop is over). -/
def unpackCol (x : ℕ → α) (base : ℕ) : ℕ → ℕ → (ℕ → α) → ℕ × (ℕ → α)
  | 0, k1, y => (k1, y)
  | j + 1, k1, y => unpackCol x base j (k1 - 1) (fun a => if a = base + j then x (k1 - 1) else y a)

/-- Outer loop of `Num_copy_compact_trimatrix_Sprimme` (first argument: `i + 1`). -/
def unpackLoop (x : ℕ → α) (ldy i0 : ℕ) : ℕ → ℕ → (ℕ → α) → ℕ → α
  | 0, _, y => y
  | i + 1, k1, y =>
    let r := unpackCol x (i * ldy) (i + i0 + 1) k1 y
    unpackLoop x ldy i0 i r.1 r.2

/-- `Num_copy_compact_trimatrix_Sprimme`, src/linalg/auxiliary.c:554-567. -/
def unpackTri (m n i0 ldy : ℕ) (x y : ℕ → α) : ℤ × (ℕ → α) :=
  if m < n then (-1, y) else (0, unpackLoop x ldy i0 n ((n + 1) * n / 2 + i0 * n) y)

/-! ## The projected matrix -/

/-- One process: its rows of the bases `X` and `Y` (row, column) and its copy of the small matrix. -/
structure Proc (α : Type*) where
  rows : ℕ
  X : ℕ → ℕ → α
  Y : ℕ → ℕ → α
  Z : ℕ → α

variable [CommRing α]

/-- The local part of `X(:,i)' * Y(:,j)` on one process; `conj` is complex conjugation. -/
def localDot (conj : α → α) (p : Proc α) (i j : ℕ) : α :=
  ∑ r ∈ Finset.range p.rows, conj (p.X r i) * p.Y r j

/-- `Num_gemm("C", "N", m, n, nLocal, 1.0, &X[xc], ldX, &Y[yc], ldY, 0.0, &Z[off], ldZ)`: the entry
(i,j), `i < m`, `j < n`, stored at `off + j*ldZ + i`, becomes the local product of column `xc+i` of `X` and
column `yc+j` of `Y` (specification of BLAS). -/
def gemmCN (conj : α → α) (p : Proc α) (m n xc yc off ldZ : ℕ) : Proc α :=
  { p with Z := fun a =>
      if off ≤ a ∧ (a - off) / ldZ < n ∧ (a - off) % ldZ < m then
        localDot conj p (xc + (a - off) % ldZ) (yc + (a - off) / ldZ)
      else p.Z a }

/-- Element-wise sum over the processes of their buffers: the user's `globalSumReal`. -/
def sumBufs (bs : List (ℕ → α)) : ℕ → α := fun a => (bs.map (fun b => b a)).sum

/-- Filling of the work buffer in the non-symmetric case, src/eigs/update_projection.c:153-156: the new
columns (`m x blockSize`) followed by the new rows (`blockSize x numCols`), both packed.  The two
`Num_copy_matrix` between different arrays are written as what they deliver (C40). -/
def gatherRect (numCols blockSize ldZ : ℕ) (z : ℕ → α) : ℕ → α := fun a =>
  if a < (numCols + blockSize) * blockSize then
    z (ldZ * numCols + a / (numCols + blockSize) * ldZ + a % (numCols + blockSize))
  else z (numCols + (a - (numCols + blockSize) * blockSize) / blockSize * ldZ +
    (a - (numCols + blockSize) * blockSize) % blockSize)

/-- Copying the work buffer back, src/eigs/update_projection.c:160-163. -/
def scatterRect (numCols blockSize ldZ : ℕ) (w z : ℕ → α) : ℕ → α := fun a =>
  if numCols ≤ a ∧ (a - numCols) / ldZ < numCols ∧ (a - numCols) % ldZ < blockSize then
    w ((numCols + blockSize) * blockSize + (a - numCols) / ldZ * blockSize + (a - numCols) % ldZ)
  else if ldZ * numCols ≤ a ∧ (a - ldZ * numCols) / ldZ < blockSize ∧
      (a - ldZ * numCols) % ldZ < numCols + blockSize then
    w ((a - ldZ * numCols) / ldZ * (numCols + blockSize) + (a - ldZ * numCols) % ldZ)
  else z a

/-- The local products, src/eigs/update_projection.c:96-127. -/
def projectLocal (conj : α → α) (numCols blockSize ldZ : ℕ) (isSymmetric : Bool) (p : Proc α) :
    Proc α :=
  let p := gemmCN conj p (numCols + blockSize) blockSize 0 numCols (ldZ * numCols) ldZ
  if isSymmetric then p else gemmCN conj p blockSize numCols numCols 0 numCols ldZ

/-- The exchange, src/eigs/update_projection.c:129-165. -/
def projectExchange (numCols blockSize ldZ : ℕ) (isSymmetric : Bool) (ps : List (Proc α)) :
    List (Proc α) :=
  if isSymmetric then
    let sum := sumBufs (ps.map fun p => (packTri (numCols + blockSize) blockSize ldZ numCols
      (fun a => p.Z (ldZ * numCols + a)) (fun _ => 0)).2.2)
    ps.map fun p =>
      let z := (unpackTri (numCols + blockSize) blockSize numCols ldZ sum
        (fun a => p.Z (ldZ * numCols + a))).2
      { p with Z := fun a => if ldZ * numCols ≤ a then z (a - ldZ * numCols) else p.Z a }
  else
    let sum := sumBufs (ps.map fun p => gatherRect numCols blockSize ldZ p.Z)
    ps.map fun p => { p with Z := scatterRect numCols blockSize ldZ sum p.Z }

/-- `update_projection_Sprimme`, src/eigs/update_projection.c:80-170, executed by all processes: local
products, then (with more than one process) the exchange of the packed triangle, or of the two new
rectangles when the matrix is not symmetric. -/
def updateProjection (conj : α → α) (numCols blockSize ldZ : ℕ) (isSymmetric : Bool)
    (ps : List (Proc α)) : List (Proc α) :=
  if blockSize = 0 then ps
  else
    let ps := ps.map (projectLocal conj numCols blockSize ldZ isSymmetric)
    if ps.length > 1 then projectExchange numCols blockSize ldZ isSymmetric ps else ps

end Verif.Mat
