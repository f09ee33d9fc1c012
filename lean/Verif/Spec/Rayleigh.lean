import Mathlib.Algebra.BigOperators.Ring.Finset
import Mathlib.Algebra.Module.Basic
import Mathlib.Algebra.Star.Basic

/-!
# What a Ritz pair is

`ip` is an inner product on the vectors, linear in the second argument, and `A` and `B` are self-adjoint operators; `B` is the mass
matrix, the identity in a standard problem.
-/

namespace Verif.Spec
open Finset

variable {K E : Type} [Field K] [StarRing K] [AddCommGroup E] [Module K E]

/-- Inner product (positivity is not needed). -/
structure IsInner (ip : E → E → K) : Prop where
  add : ∀ x y z, ip x (y + z) = ip x y + ip x z
  smul : ∀ c x y, ip x (c • y) = c * ip x y
  conj : ∀ x y, star (ip x y) = ip y x

/-- Self-adjoint linear operator. -/
structure IsHermitian (ip : E → E → K) (A : E → E) : Prop where
  add : ∀ x y, A (x + y) = A x + A y
  smul : ∀ (c : K) x, A (c • x) = c • A x
  self : ∀ x y, ip (A x) y = ip x (A y)

/-- Vectors of norm one, orthogonal to each other, in the inner product of `B`. -/
def Orthonormal (ip : E → E → K) (B : E → E) (l : List E) : Prop :=
  (∀ x ∈ l, ip x (B x) = 1) ∧ l.Pairwise (fun x y => ip x (B y) = 0)

/-- `x` has norm one in the inner product of `B`, `value` is its Rayleigh quotient, and `res` is its residual vector. -/
structure IsRitz (ip : E → E → K) (A B : E → E) (x : E) (value : K) (res : E) : Prop where
  unit : ip x (B x) = 1
  quotient : ip x (A x) = value
  residual : res = A x - value • B x

/-- Eigenpairs of the pencil `A - value B`, with vectors that are orthonormal in the inner product of `B` (so that a value occurs at
most as often as its multiplicity allows). -/
structure IsEigenFamily (ip : E → E → K) (A B : E → E) (m : ℕ) (f : Fin m → E) (values : Fin m → K) : Prop where
  orth : ∀ i j, ip (f i) (B (f j)) = if i = j then 1 else 0
  eigen : ∀ i, A (f i) = values i • B (f i)

/-- `vecs` and `vals` are an orthonormal set of eigenpairs of the `n x n` matrix `M`, with real values. -/
structure IsEigenbasis (n : ℕ) (M : ℕ → ℕ → K) (vecs : ℕ → ℕ → K) (vals : ℕ → K) : Prop where
  orth : ∀ i < n, ∀ j < n, ∑ k ∈ range n, star (vecs k i) * vecs k j = if i = j then 1 else 0
  eigen : ∀ i < n, ∀ j < n, ∑ k ∈ range n, M i k * vecs k j = vals j * vecs i j
  real : ∀ j < n, star (vals j) = vals j

end Verif.Spec
