/-
# What communication functions promise

The contracts of `broadcastReal` and `globalSumReal` in the manual, /repo/readme.txt ("Broadcast function
from process with ID zero. It is optional"; "Global sum reduction function").
-/
import Mathlib.Algebra.BigOperators.Group.Finset.Basic
import Mathlib.Data.Fintype.Basic

namespace Verif.Spec

/-- Every process ends with the first `count` elements of process 0. -/
def IsBroadcast {p : ℕ} {T : Type} (f : ℕ → (Fin (p + 1) → ℕ → T) → Fin (p + 1) → ℕ → T) : Prop :=
  ∀ count bufs i k, k < count → f count bufs i k = bufs 0 k

/-- Every process ends with the sums of the elements of all the processes. -/
def IsGlobalSum {p : ℕ} {T : Type} [AddCommMonoid T]
    (f : ℕ → (Fin (p + 1) → ℕ → T) → Fin (p + 1) → ℕ → T) : Prop :=
  ∀ count bufs i k, k < count → f count bufs i k = ∑ q, bufs q k

end Verif.Spec
