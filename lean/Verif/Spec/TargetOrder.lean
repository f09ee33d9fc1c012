import Verif.Model.Basic
import Mathlib.Algebra.Order.Field.Basic
import Mathlib.Algebra.Order.Group.Abs

/-!
# Specification: the order in which eigenvalues are reported

From the user guide (`evals`): the values are returned in the order the target prescribes; for the
targets with shifts, the `i`-th value is sought around the `i`-th shift (the last shift is repeated
when there are fewer shifts than values), and values sought around the same shift are ordered by
their distance to it.
-/

namespace Verif.Spec
open Verif

variable {K : Type u} [Field K] [LinearOrder K]

/-- The shift that the value at position `i` is sought around. -/
def shiftOf (shifts : List K) (i : Nat) : Option K :=
  if i < shifts.length then shifts[i]? else shifts.getLast?

/-- `x` may be reported before `y` when both are sought around shift `s`. -/
def Precedes (t : Target) (s : K) (x y : K) : Prop :=
  match t with
  | .smallest => x ≤ y
  | .largest => y ≤ x
  | .closest_geq => x - s ≤ y - s
  | .closest_leq => s - x ≤ s - y
  | .closest_abs => |x - s| ≤ |y - s|
  | .largest_abs => |y - s| ≤ |x - s|

/-- Targets `smallest` and `largest` do not use shifts. -/
def Extreme (t : Target) : Prop := t = .smallest ∨ t = .largest

/-- The first `n` entries of `v` are in the order prescribed by target `t` and shifts. -/
def Ordered (t : Target) (shifts : List K) (n : Nat) (v : Nat → K) : Prop :=
  ∀ i j, i < j → j < n →
    (Extreme t ∧ Precedes t 0 (v i) (v j)) ∨
    (¬ Extreme t ∧ ∀ s, (∀ k, i ≤ k → k ≤ j → shiftOf shifts k = some s) → Precedes t s (v i) (v j))

end Verif.Spec
