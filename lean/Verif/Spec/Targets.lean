import Mathlib.Data.Real.Basic

/-!
# Which shift each pair is searched for

readme.txt:3098-3101: "Eigenvalues are computed in order so that the i-th eigenvalue is the closest (...) to the i-th shift.  If
numTargetShifts < numEvals, the last shift given is used for all the remaining i's."
-/

namespace Verif.Spec.Targets

/-- The documented shift of pair `i`, counting from zero. -/
def shiftOf (shifts : List ℝ) (i : ℕ) : Option ℝ := if i < shifts.length then shifts[i]? else shifts.getLast?

end Verif.Spec.Targets
