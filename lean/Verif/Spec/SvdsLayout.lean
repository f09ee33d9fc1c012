import Mathlib.Data.Nat.Notation

/-!
# Where singular vectors are

The layout of `svecs` in the manual (/repo/readme.txt, `dprimme_svds`: "the left singular vectors … followed by
the right singular vectors", constraints before vectors): `k` left vectors of `m` local rows, then `k` right
vectors of `n` local rows.
-/

namespace Verif.Spec

/-- Row `r` of left vector `j`. -/
def leftVec {K : Type} (m : ℕ) (svecs : ℕ → K) (j r : ℕ) : K := svecs (j * m + r)

/-- Row `r` of right vector `j` when the array holds `k` vectors of each kind. -/
def rightVec {K : Type} (m n k : ℕ) (svecs : ℕ → K) (j r : ℕ) : K := svecs (k * m + j * n + r)

/-- Row `r` of vector `j` of an eigensolver's array with `rows` rows starting at `base`. -/
def eigVec {K : Type} (rows base : ℕ) (mem : ℕ → K) (j r : ℕ) : K := mem (base + j * rows + r)

end Verif.Spec
