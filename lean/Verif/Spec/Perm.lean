/-!
# Specification vocabulary: permutations given as index arrays
-/

namespace Verif.Spec

/-- The first `n` entries of the array `p` are a permutation of `0, …, n-1`: they are in range and
pairwise different. -/
def IsPermOn (n : Nat) (p : Nat → Nat) : Prop :=
  (∀ i, i < n → p i < n) ∧ (∀ i j, i < n → j < n → p i = p j → i = j)

/-- Address `a` belongs to the `m × n` matrix with leading dimension `ld` stored at the beginning of
an array (column major). -/
def InMatrix (m n ld a : Nat) : Prop := ∃ i r, i < n ∧ r < m ∧ a = i * ld + r

end Verif.Spec
