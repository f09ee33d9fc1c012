import Mathlib.Analysis.InnerProductSpace.Basic

/-!
# Specification: the skew projector of the manual

readme.txt:3719-3731: with `RightQ` and `SkewQ` the right projector is `I - KQ (Q'KQ)^-1 Q'`, where `Q` has the constraints and
the converged vectors in its columns and `K` is the preconditioner (times the mass matrix).  Written without the solver: the result
differs from `v` by a combination of the columns of `KQ` and is orthogonal to `Q`.
-/

namespace Verif.Spec.Skew

variable {V : Type} [NormedAddCommGroup V] [InnerProductSpace ℝ V]

/-- `w = (I - KQ (Q'KQ)^-1 Q') v` for the first `n` columns of `Q`. -/
def Right (K : V → V) (Q : ℕ → V) (n : ℕ) (v w : V) : Prop :=
  (∃ a : ℕ → ℝ, w = v - ∑ j ∈ Finset.range n, a j • K (Q j)) ∧ ∀ i < n, inner ℝ (Q i) w = 0

/-- The matrix `Q'KQ` of the first `n` columns is nonsingular. -/
def Regular (K : V → V) (Q : ℕ → V) (n : ℕ) : Prop :=
  ∀ a : ℕ → ℝ, (∀ i < n, ∑ j ∈ Finset.range n, inner ℝ (Q i) (K (Q j)) * a j = 0) → ∀ j < n, a j = 0

/-- Successive contents of the array of vectors when what was locked stays: first the `c` constraints, then the converged vectors,
`k` of them so far. -/
def History (c : ℕ) : (ℕ → V) → ℕ → List ((ℕ → V) × ℕ) → Prop
  | _, _, [] => True
  | Q, k, (Q', k') :: l => k ≤ k' ∧ (∀ j < c + k, Q' j = Q j) ∧ History c Q' k' l

end Verif.Spec.Skew
