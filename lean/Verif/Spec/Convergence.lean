import Verif.Model.Convergence
import Mathlib.Algebra.Order.Group.Abs

/-!
# What a convergence decision may rest on
-/

namespace Verif.Spec
open Verif.Conv

variable {K : Type} [Field K] [LinearOrder K]

/-- The shift in force when `done` pairs are already accepted: the next one of the user's list, the last
one again when the list is exhausted, zero without shifts. -/
def activeShift (shifts : List K) (done : ℕ) : K :=
  match shifts with
  | [] => 0
  | s :: ss => (s :: ss).getD (min done ss.length) 0

/-- Every number within `norm` of `val` is on the side of `shift` the user does not want. -/
def Excluded (t : Target) (shift val norm : K) : Prop :=
  (t = .closest_leq ∧ ∀ x, |x - val| ≤ norm → shift < x) ∨
    (t = .closest_geq ∧ ∀ x, |x - val| ≤ norm → x < shift)

/-- The user's test was asked about pair `i`, with value `val` and norm `norm`, and answered `ans`. -/
def Asked (calls : List (Call K)) (i : ℕ) (val norm : K) (ans : Bool) : Prop :=
  ∃ c ∈ calls, c.idx = i ∧ c.val = val ∧ c.norm = norm ∧ c.ans = ans

end Verif.Spec
