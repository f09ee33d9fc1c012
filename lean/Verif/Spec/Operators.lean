import Verif.Model.Operators

/-!
# What a call of a user operator should look like
-/

namespace Verif.Ops

variable {V : Type}

/-- The matrix at `p` lies inside an allocated array of type `ty`. -/
def Holds (h : Heap V) (p : Ptr) (ty : Prec) (m n ld : ℕ) (b : Block V) : Prop :=
  h.blocks p.blk = some b ∧ b.ty = ty ∧ m ≤ ld ∧ (0 < m → 0 < n → p.off + (n - 1) * ld + m ≤ b.size)

/-- Conversion that is omitted when the types agree. -/
def convIf (env : Env V) (a b : Prec) (x : V) : V := if a = b then x else env.conv a b x

/-- Result of writing a matrix into an array, as seen from outside: selected entries get the new values,
the rest keeps the old ones. -/
def Wrote (old new : Block V) (off m n ld : ℕ) (a : ℕ → ℕ → V) : Prop :=
  new.ty = old.ty ∧ new.size = old.size ∧
  (∀ i < m, ∀ j < n, new.data (off + j * ld + i) = a i j) ∧
  (∀ k, (∀ i < m, ∀ j < n, k ≠ off + j * ld + i) → new.data k = old.data k)

end Verif.Ops
