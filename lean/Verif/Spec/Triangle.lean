import Mathlib.Data.Nat.Notation
import Mathlib.Data.Int.Notation

/-!
# Specification of copies of triangles
-/

namespace Verif.Mat

/-- Is the entry in row `j` and column `i` in the triangle: the upper one if `ul` is zero, otherwise the lower one.  Both hold the
diagonal, which is in row `i0` of the first column. -/
def InTri (ul : ℤ) (i0 i j : ℕ) : Prop := if ul = 0 then j ≤ i0 + i else i0 + i ≤ j

/-- No entry of the `m x n` matrix at `y` is in the same place as one of the `m x n` matrix at `x`. -/
def Apart (m n ldx ldy x y : ℕ) : Prop :=
  ∀ i < n, ∀ j < m, ∀ i' < n, ∀ j' < m, y + i * ldy + j ≠ x + i' * ldx + j'

end Verif.Mat
