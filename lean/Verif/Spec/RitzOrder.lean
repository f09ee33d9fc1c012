import Verif.Model.Basic
import Mathlib.Algebra.Order.Field.Basic
import Mathlib.Algebra.Order.Group.Abs

/-! # Specification: order of the Ritz values for each target -/

namespace Verif.Spec
open Verif
variable {K : Type u} [Field K] [LinearOrder K]

/-- The first `n` values of `v` are in the order the target prescribes around shift `s`:
ascending (`smallest`), descending (`largest`), by increasing distance (`closest_abs`), by decreasing
distance (`largest_abs`); for `closest_geq` (`closest_leq`) the values `≥ s` (`≤ s`) come first, nearest
to `s` first. -/
def RitzOrdered (t : Target) (s : K) (n : Nat) (v : Nat → K) : Prop :=
  ∀ i j, i < j → j < n →
    match t with
    | .smallest => v i ≤ v j
    | .largest => v j ≤ v i
    | .closest_abs => |v i - s| ≤ |v j - s|
    | .largest_abs => |v j - s| ≤ |v i - s|
    | .closest_geq => s ≤ v j → s ≤ v i ∧ v i ≤ v j
    | .closest_leq => v j ≤ s → v i ≤ s ∧ v j ≤ v i

end Verif.Spec
