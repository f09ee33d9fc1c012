import Verif.Spec.Practical

/-!
# Combinations of vectors and residuals

A vector is distributed over processes: `v p i` is row `i` of process `p` (`Spec/Practical` has inner product and norm).
-/

namespace Verif.Spec.Comb

variable {F : Type} [RCLike F]

/-- The combination of the first `n` vectors `v` with the coefficients `h`. -/
def comb (n : ℕ) (v : ℕ → ℕ → ℕ → F) (h : ℕ → F) : ℕ → ℕ → F := fun p i => ∑ k ∈ Finset.range n, v k p i * h k

/-- Two vectors agree on the rows the processes have. -/
def Same (rows : ℕ → ℕ) (u v : ℕ → ℕ → F) : Prop := ∀ p, ∀ i < rows p, u p i = v p i

end Verif.Spec.Comb
