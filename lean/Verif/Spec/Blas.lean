import Mathlib.Algebra.BigOperators.Ring.Finset
import Mathlib.Algebra.Star.Basic

/-!
# What the dense kernels should compute

Matrices are stored by columns: element `(i, j)` of a matrix with leading dimension `ld` is at position `j*ld + i`.
-/

namespace Verif.Spec
open Finset

variable {K : Type} [CommRing K] [StarRing K]

/-- Element `(i, l)` of the matrix, or of its conjugate transpose. -/
def Elem (tr : Bool) (a : ℕ → K) (lda i l : ℕ) : K :=
  match tr with
  | false => a (l * lda + i)
  | true => star (a (i * lda + l))

/-- `y' = alpha*op(A)*x + beta*y` for `A` of size `m x n`, and nothing else changes. -/
def IsGemv (tr : Bool) (m n : ℕ) (alpha : K) (a : ℕ → K) (lda : ℕ) (x : ℕ → K) (incx : ℕ) (beta : K) (y : ℕ → K)
    (incy : ℕ) (y' : ℕ → K) : Prop :=
  (∀ i < (if tr then n else m), y' (i * incy) =
    beta * y (i * incy) + alpha * ∑ l ∈ range (if tr then m else n), Elem tr a lda i l * x (l * incx)) ∧
  ∀ t, (∀ i < (if tr then n else m), t ≠ i * incy) → y' t = y t

/-- `C' = alpha*op(A)*op(B) + beta*C` for `C` of size `m x n`, and nothing else changes. -/
def IsGemm (ta tb : Bool) (m n k : ℕ) (alpha : K) (a : ℕ → K) (lda : ℕ) (b : ℕ → K) (ldb : ℕ) (beta : K)
    (c : ℕ → K) (ldc : ℕ) (c' : ℕ → K) : Prop :=
  (∀ i < m, ∀ j < n, c' (j * ldc + i) =
    beta * c (j * ldc + i) + alpha * ∑ l ∈ range k, Elem ta a lda i l * Elem tb b ldb l j) ∧
  ∀ t, (∀ i < m, ∀ j < n, t ≠ j * ldc + i) → c' t = c t

/-- Inner product of two columns. -/
def Inner (rows : ℕ) (a b : ℕ → K) : K := ∑ l ∈ range rows, star (a l) * b l

/-- Column `j`. -/
def Col (a : ℕ → K) (ld j : ℕ) : ℕ → K := fun i => a (j * ld + i)

end Verif.Spec
