import Verif.Model.BlockOrtho
import Mathlib.Algebra.Module.Basic
import Mathlib.LinearAlgebra.Span.Basic

/-! # What block orthogonalisation relies on and what it promises -/

namespace Verif.BlockOrtho
open Verif Finset

variable {K X : Type} [Field K] [LinearOrder K] [AddCommGroup X] [Module K X]

/-- Upper triangle of a matrix. -/
def up (F : ℕ → ℕ → K) (i j : ℕ) : K := if i ≤ j then F i j else 0

/-- Symmetric matrix given by an upper triangle. -/
def sym (H : ℕ → ℕ → K) (i j : ℕ) : K := if i ≤ j then H i j else H j i

/-- The upper triangle of `F` is a Cholesky factor of the symmetric matrix of size `n` whose upper triangle is
that of `G`: `F' * F = G`. -/
def IsChol (n : ℕ) (F G : ℕ → ℕ → K) : Prop :=
  (∀ i < n, F i i ≠ 0) ∧ ∀ i j, i ≤ j → j < n → ∑ l ∈ range n, up F l i * up F l j = G i j

/-- `Y` is orthogonal, its columns are eigenvectors of `H`, and the eigenvalues do not increase. -/
structure IsEig (n : ℕ) (H Y : ℕ → ℕ → K) (d : ℕ → K) : Prop where
  cols : ∀ i < n, ∀ j < n, ∑ l ∈ range n, Y l i * Y l j = if i = j then 1 else 0
  rows : ∀ i < n, ∀ j < n, ∑ l ∈ range n, Y i l * Y j l = if i = j then 1 else 0
  vec : ∀ i < n, ∀ j < n, ∑ l ∈ range n, sym H i l * Y l j = d j * Y i j
  anti : ∀ i j, i ≤ j → j < n → d j ≤ d i

/-- Kernels in exact arithmetic with an inner product that may be any positive form. -/
structure Contract (o : Kern K X) : Prop where
  add : ∀ v x y, o.ip v (x + y) = o.ip v x + o.ip v y
  smul : ∀ v (a : K) x, o.ip v (a • x) = a * o.ip v x
  symm : ∀ x y, o.ip x y = o.ip y x
  pos : ∀ x, x ≠ 0 → 0 < o.ip x x
  sqrt : ∀ a, 0 ≤ a → 0 ≤ o.sqrt a ∧ o.sqrt a * o.sqrt a = a
  chol : ∀ n H U, o.chol n H = some U → IsChol n U H
  eig : ∀ n H, IsEig n H (o.eig n H).1 (o.eig n H).2

/-- `potrf` succeeds on a diagonal matrix with positive diagonal. -/
def CholDiag (o : Kern K X) : Prop :=
  ∀ n H, (∀ i < n, 0 < H i i) → (∀ i j, i < j → j < n → H i j = 0) → ∃ U, o.chol n H = some U

/-- What the arguments have to be: the upper triangle of `G` has the inner products of
`[locked V(0:b1-1)]` and `f` is its Cholesky factor. -/
structure Entry (o : Kern K X) (p : Par K) (locked V : ℕ → X) (G f : ℕ → ℕ → K) : Prop where
  range : p.b1 < p.b2
  eps : 0 < p.eps
  small : p.eps * (p.k : K) ≤ 1
  gram : ∀ i j, i ≤ j → j < p.nVL → G i j = o.ip (basis p locked V i) (basis p locked V j)
  chol : IsChol p.nVL f G

/-- Nothing overflows: the entries that ortho.c:671 looks at. -/
structure NoOverflow (o : Kern K X) (p : Par K) (locked V : ℕ → X) : Prop where
  one : 1 < p.top
  input : ∀ i < p.k, o.ip (basis p locked V i) (V (p.b1 + i)) < p.top

/-- `input_V = [locked output_V] * [RLocked; R]` (ortho.c:463-465) for column `b1 + c`. -/
def Factors (p : Par K) (locked Vin Vout : ℕ → X) (RL R r : ℕ → ℕ → K) (c : ℕ) : Prop :=
  Vin (p.b1 + c) = ∑ j ∈ range p.numLocked, RL j c • locked j + ∑ j ∈ range p.b1, R j c • Vout j +
    ∑ i ∈ range p.k, r i c • Vout (p.b1 + i)

/-- Everything that can be written with `[locked V(0:n-1)]`. -/
def spanned (p : Par K) (locked V : ℕ → X) (n : ℕ) : Submodule K X :=
  Submodule.span K {x | (∃ j < p.numLocked, x = locked j) ∨ ∃ j < n, x = V j}

end Verif.BlockOrtho
