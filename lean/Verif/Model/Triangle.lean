import Verif.Model.MatrixOps

/-!
# Copies of triangles, conjugate transposes and scaled columns

Memory and addresses as in `Verif.Model.MatrixOps`.  `int` overflow of index expressions is not modelled.
-/

namespace Verif.Mat

variable {α : Type*}

/-- `mem[dst] = v`. -/
def put (mem : ℕ → α) (dst : ℕ) (v : α) : ℕ → α := fun a => if a = dst then v else mem a

/-- `for (j = lo; j < hi; j++) SET_ZERO(y[j])`, src/linalg/auxiliary.c:463, 472, 485 and 493. -/
def zeroRows (z : α) (y lo hi : ℕ) (mem : ℕ → α) : ℕ → α :=
  (List.range (hi - lo)).foldl (fun mem k => put mem (y + lo + k) z) mem

/-- One column of `Num_copy_trimatrix_Sprimme`, upper part, src/linalg/auxiliary.c:461-463 and 469-472; `x` and `y` are the addresses
of the column `i` in source and target. -/
def upperCol (z : α) (overlap : Bool) (m i0 i x y : ℕ) (zero : Bool) (mem : ℕ → α) : ℕ → α :=
  let len := min (i0 + i + 1) m
  let mem := if overlap then memmove y x len mem else copyCol len y x mem
  if zero then zeroRows z y len m mem else mem

/-- One column of `Num_copy_trimatrix_Sprimme`, lower part, src/linalg/auxiliary.c:483-485 and 490-493. -/
def lowerCol (z : α) (overlap : Bool) (m i0 i x y : ℕ) (zero : Bool) (mem : ℕ → α) : ℕ → α :=
  let mem := if overlap then memmove (y + i0 + i) (x + i0 + i) (m - min (i0 + i) m) mem
    else copyCol (m - (i + i0)) (y + (i + i0)) (x + (i + i0)) mem
  if zero then zeroRows z y 0 (min (i0 + i) m) mem else mem

/-- `Num_copy_trimatrix_Sprimme`, src/linalg/auxiliary.c:446-498; `x` and `y` are addresses in one memory, `z` is zero.  `i0` is not
negative. -/
def copyTri (z : α) (m n ldx : ℕ) (ul : ℤ) (i0 ldy x y : ℕ) (zero : Bool) (mem : ℕ → α) : ℕ → α :=
  if x = y then mem
  else
    let overlap : Bool := decide (ldx = ldy ∧ (if y > x then y - x else x - y) < ldx)
    if ul = 0 then
      (List.range n).foldl (fun mem i => upperCol z overlap m i0 i (x + i * ldx) (y + i * ldy) zero mem) mem
    else
      (List.range n).foldl (fun mem i => lowerCol z overlap m i0 i (x + i * ldx) (y + i * ldy) zero mem) mem

/-- `Num_copy_matrix_conj_Sprimme`, src/linalg/auxiliary.c:376-392. -/
def copyConj (conj : α → α) (m n ldx ldy x y : ℕ) (mem : ℕ → α) : ℕ → α :=
  (List.range n).foldl (fun mem i =>
    (List.range m).foldl (fun mem j => put mem (y + (j * ldy + i)) (conj (mem (x + (i * ldx + j))))) mem) mem

/-- One column of `Num_scale_matrix_Sprimme`, src/linalg/auxiliary.c:943-944: `Num_copy_Sprimme`, in ascending order, and
`Num_scal_Sprimme`. -/
def scaleCol (mul : α → α) (m x y : ℕ) (mem : ℕ → α) : ℕ → α :=
  (List.range m).foldl (fun mem j => put mem (y + j) (mul (mem (y + j)))) (copyCol m y x mem)

/-- `Num_scale_matrix_Sprimme`, src/linalg/auxiliary.c:932-948; `mul t v` is `t*v`. -/
def scaleMatrix {σ : Type*} (mul : σ → α → α) (m n ldx : ℕ) (s : ℕ → σ) (ldy x y : ℕ) (mem : ℕ → α) : ℕ → α :=
  (List.range n).foldl (fun mem i => scaleCol (mul (s i)) m (x + ldx * i) (y + ldy * i) mem) mem

end Verif.Mat
