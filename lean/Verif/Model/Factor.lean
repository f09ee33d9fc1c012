import Mathlib.Algebra.BigOperators.Group.Finset.Basic
import Mathlib.Algebra.Field.Defs
import Mathlib.Data.List.Basic

/-!
# Solves with a factorized Hermitian matrix

`Num_hetrf_Sprimme` and `Num_hetrs_Sprimme` as `UDUSolve_Sprimme` and `MSolve_Sprimme` use them, in exact arithmetic.  What LAPACK does is
given by its documentation: `xHETRF` replaces the matrix given by one triangle by its factors, `xHETRS` solves with them and leaves them as
they are, and `xGESV` solves with a general matrix and replaces it by its factors.  All the calls succeed.  Right-hand sides are taken one by
one.
-/

namespace Verif.Factor
open Finset

variable {K : Type}

/-- `a[ld*j + i]`: the entry in row `i` and column `j`. -/
def entry (ld : ℕ) (a : ℕ → K) (i j : ℕ) : K := a (ld * j + i)

/-- `mem[dst] = v`. -/
def store (a : ℕ → K) (dst : ℕ) (v : K) : ℕ → K := fun k => if k = dst then v else a k

/-- `for (j=0; j<i; j++) a[lda*j+i] = CONJ(a[lda*i+j])`, src/linalg/blaslapack.c:1477-1479. -/
def mirrorRow (conj : K → K) (ld i : ℕ) (a : ℕ → K) : ℕ → K :=
  (List.range i).foldl (fun a j => store a (ld * j + i) (conj (a (ld * i + j)))) a

/-- `Num_hetrf_Sprimme("U", …)` with `USE_ZGESV`, src/linalg/blaslapack.c:1458-1484: `for (i=1; i<n; i++)`. -/
def mirror (conj : K → K) (n ld : ℕ) (a : ℕ → K) : ℕ → K :=
  (List.range' 1 (n - 1)).foldl (fun a i => mirrorRow conj ld i a) a

variable [Field K]

/-- `x` solves the system of `n` equations with the matrix `m` and the right-hand side `b`. -/
def Solves (n : ℕ) (m : ℕ → ℕ → K) (b x : ℕ → K) : Prop := ∀ i < n, ∑ j ∈ range n, m i j * x j = b i

/-- `f` has the factors of `m` as `xGESV` returns them: `P*m = L*U`, with the unit diagonal of `L` not stored, and the multipliers are not
larger than one in modulus (`small`), as rows are interchanged for that. -/
def LUof (small : K → Prop) (n : ℕ) (m f : ℕ → ℕ → K) : Prop :=
  (∀ i < n, ∀ k < i, small (f i k)) ∧
  ∃ p : ℕ → ℕ, (∀ i < n, p i < n) ∧ (∀ i < n, ∀ j < n, p i = p j → i = j) ∧
    ∀ i < n, ∀ j < n, m (p i) j = ∑ k ∈ range n, (if k < i then f i k else if k = i then 1 else 0) * (if k ≤ j then f k j else 0)

/-- What the array `Mfact` has. -/
inductive Arr (K : Type) where
  /-- A matrix. -/
  | full (a : ℕ → K)
  /-- The factors that `xHETRF` gives for the matrix with the upper triangle of `a`. -/
  | ldl (a : ℕ → K)

/-- `Num_hetrf_Sprimme("U", n, a, ld)`, src/linalg/blaslapack.c:1410-1487. -/
def factorize (zgesv : Bool) (conj : K → K) (n ld : ℕ) (a : ℕ → K) : Arr K :=
  if zgesv then .full (mirror conj n ld a) else .ldl a

/-- The Hermitian matrix with the upper triangle of `a`. -/
def herm (conj : K → K) (ld : ℕ) (a : ℕ → K) (i j : ℕ) : K := if i ≤ j then entry ld a i j else conj (entry ld a j i)

/-- `Num_hetrs_Sprimme("U", n, 1, a, ld, ipivot, b)`, src/linalg/blaslapack.c:1494-1538: the possible solutions `x` and contents of the array
afterwards.  `xHETRS` is only called with factors, and `xGESV` only with a matrix. -/
def Solve (small : K → Prop) (conj : K → K) (n ld : ℕ) : Arr K → (b x : ℕ → K) → Arr K → Prop
  | .ldl a, b, x, a' => a' = .ldl a ∧ Solves n (herm conj ld a) b x
  | .full a, b, x, a' => Solves n (entry ld a) b x ∧ ∃ f, a' = .full f ∧ LUof small n (entry ld a) (entry ld f)

/-- Solves one after another with one array: `UDUSolve_Sprimme` (src/eigs/factorize.c:133-150) and `MSolve_Sprimme` without a mass matrix
(src/eigs/factorize.c:267-300); with one unknown there is no call, and the array is left as it is. -/
def Session (small : K → Prop) (conj : K → K) (n ld : ℕ) : Arr K → List ((ℕ → K) × (ℕ → K)) → Prop
  | _, [] => True
  | .full a, (b, x) :: l => if n = 1 then x 0 = b 0 / a 0 ∧ Session small conj n ld (.full a) l
    else ∃ a', Solve small conj n ld (.full a) b x a' ∧ Session small conj n ld a' l
  | .ldl a, (b, x) :: l => if n = 1 then x 0 = b 0 / a 0 ∧ Session small conj n ld (.ldl a) l
    else ∃ a', Solve small conj n ld (.ldl a) b x a' ∧ Session small conj n ld a' l

end Verif.Factor
