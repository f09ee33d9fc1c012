import Mathlib.Analysis.RCLike.Basic
import Mathlib.Algebra.BigOperators.Group.Finset.Basic
import Mathlib.Analysis.SpecialFunctions.Sqrt

/-!
# Residuals without the components along given vectors

A vector is distributed over processes: `v p i` is row `i` of process `p`, which has `rows p` rows.
-/

open scoped ComplexConjugate

namespace Verif.Spec.Pract

variable {F : Type} [RCLike F]

/-- Inner product over all the rows of all the processes. -/
def ip (P : ℕ) (rows : ℕ → ℕ) (u v : ℕ → ℕ → F) : F :=
  ∑ p ∈ Finset.range P, ∑ i ∈ Finset.range (rows p), conj (u p i) * v p i

/-- Norm. -/
noncomputable def norm (P : ℕ) (rows : ℕ → ℕ) (v : ℕ → ℕ → F) : ℝ :=
  Real.sqrt (∑ p ∈ Finset.range P, ∑ i ∈ Finset.range (rows p), ‖v p i‖ ^ 2)

/-- The vectors `q` (`k` of them) and `bq`, their products with the mass matrix, are orthonormal. -/
def Orthonormal (P : ℕ) (rows : ℕ → ℕ) (k : ℕ) (q bq : ℕ → ℕ → ℕ → F) : Prop :=
  ∀ i < k, ∀ j < k, ip P rows (q i) (bq j) = if i = j then 1 else 0

/-- `r'` is `r` without its components along the vectors: it differs from `r` in a combination of the `bq`, and is
orthogonal to every `q`. -/
structure Removed (P : ℕ) (rows : ℕ → ℕ) (k : ℕ) (q bq : ℕ → ℕ → ℕ → F) (r r' : ℕ → ℕ → F) : Prop where
  combination : ∃ c : ℕ → F, ∀ p < P, ∀ i < rows p, r' p i = r p i - ∑ j ∈ Finset.range k, bq j p i * c j
  orthogonal : ∀ j < k, ip P rows (q j) r' = 0

end Verif.Spec.Pract
