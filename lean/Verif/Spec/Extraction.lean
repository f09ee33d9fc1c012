import Mathlib.Analysis.RCLike.Basic
import Mathlib.Algebra.BigOperators.Ring.Finset
import Mathlib.Algebra.Module.Basic

/-!
# Contracts of the small dense kernels

Matrices are functions of row and column, of which the leading `n x n` part is meant.
-/

namespace Verif.Spec
open Finset

variable {𝕜 : Type} [RCLike 𝕜]

/-- The columns of the matrix are orthonormal. -/
def Columns (n : ℕ) (M : ℕ → ℕ → 𝕜) : Prop :=
  ∀ i < n, ∀ j < n, ∑ k ∈ range n, star (M k i) * M k j = if i = j then 1 else 0

/-- A singular value decomposition `R v = u diag(s)`, in no particular order. -/
structure IsSvd (n : ℕ) (R u : ℕ → ℕ → 𝕜) (s : ℕ → ℝ) (v : ℕ → ℕ → 𝕜) : Prop where
  left : Columns n u
  right : Columns n v
  nonneg : ∀ j < n, 0 ≤ s j
  mul : ∀ i < n, ∀ j < n, ∑ k ∈ range n, R i k * v k j = (s j : 𝕜) * u i j

/-- Orthogonalisation of `m` columns `z` against the orthonormal columns `Q 0 .. Q (b-1)`, with coefficients: the new columns `q` are
orthonormal and orthogonal to the old ones, and `z = [Q q] r`. -/
structure IsQr {E : Type} [AddCommGroup E] [Module 𝕜 E] (ip : E → E → 𝕜) (b m : ℕ) (Q z q : ℕ → E) (r : ℕ → ℕ → 𝕜) : Prop where
  orth : ∀ i < m, ∀ j < m, ip (q i) (q j) = if i = j then 1 else 0
  old : ∀ i < b, ∀ j < m, ip (Q i) (q j) = 0
  mul : ∀ j < m, z j = ∑ k ∈ range b, r k j • Q k + ∑ k ∈ range m, r (b + k) j • q k

/-- Squared norm. -/
def sq {E : Type} (ip : E → E → 𝕜) (x : E) : ℝ := RCLike.re (ip x x)

/-- `(A - tau) x` -/
def off {E : Type} [AddCommGroup E] [Module 𝕜 E] (A : E → E) (tau : ℝ) (x : E) : E := A x - (tau : 𝕜) • x

/-- The search space of `n` basis vectors. -/
def InSpace {E : Type} [AddCommGroup E] [Module 𝕜 E] (n : ℕ) (V : ℕ → E) (x : E) : Prop := ∃ h : ℕ → 𝕜, x = ∑ k ∈ range n, h k • V k

/-- From the largest value to the smallest. -/
def Descending (n : ℕ) (s : ℕ → ℝ) : Prop := ∀ i < n, ∀ j < n, i ≤ j → s j ≤ s i

/-- From the smallest value to the largest. -/
def Ascending (n : ℕ) (s : ℕ → ℝ) : Prop := ∀ i < n, ∀ j < n, i ≤ j → s i ≤ s j

end Verif.Spec
