import Mathlib.Analysis.InnerProductSpace.Basic

/-!
# Specification: approximate eigenpairs and correction equations

Written without the solver.
-/

namespace Verif.Spec.Pair

variable {V : Type} [NormedAddCommGroup V] [InnerProductSpace ℝ V]

/-- The Rayleigh quotient of a vector: the best approximate eigenvalue for it. -/
noncomputable def value (A : V → V) (v : V) : ℝ := inner ℝ v (A v) / inner ℝ v v

/-- The residual norm of the pair of a vector, normalised, and its Rayleigh quotient. -/
noncomputable def resid (A : V → V) (v : V) : ℝ := ‖A v - value A v • v‖ / ‖v‖

/-- What is left of `w` after removing its components along `x` and the first `n` vectors of `Q`. -/
noncomputable def part (x : V) (Q : ℕ → V) (n : ℕ) (w : V) : V :=
  w - ∑ j ∈ Finset.range n, inner ℝ (Q j) w • Q j - inner ℝ x w • x

/-- Residual norm of the correction equation `(I - xx' - QQ')(A - s) d = r` at `d`. -/
noncomputable def linres (A : V → V) (s : ℝ) (x : V) (Q : ℕ → V) (n : ℕ) (r d : V) : ℝ := ‖r - part x Q n (A d - s • d)‖

end Verif.Spec.Pair
