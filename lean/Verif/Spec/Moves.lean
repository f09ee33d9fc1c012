import Mathlib.Data.Nat.Notation

/-!
# Specification of copy routines
-/

namespace Verif.Mat

variable {α : Type*}

/-- What a copy routine is meant to do: every selected target address receives the *old* content of its
source address and no other address changes. -/
def Moves {κ : Type*} (op : (ℕ → α) → ℕ → α) (dom : κ → Prop) (d s : κ → ℕ) : Prop :=
  ∀ mem, (∀ k, dom k → op mem (d k) = mem (s k)) ∧
    ∀ a, (∀ k, dom k → a ≠ d k) → op mem a = mem a

end Verif.Mat
