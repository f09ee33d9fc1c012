import Verif.Model.SvdsDriver

/-!
# The comparison that the shifts of the second stage are sorted with
-/

namespace Verif.SvdsRun

/-- `comp_double`, src/svds/primme_svds_c.c:542-545. -/
def compDouble {K : Type} [LinearOrder K] (a b : K) : ℤ := if a ≤ b then -1 else 1

variable {K : Type} [Field K] [LinearOrder K]

/-- The array given to `qsort`, src/svds/primme_svds_c.c:728-735. -/
def unsorted (o : Sys K) (aNorm : K) (initSize : ℕ) (svals rnorms : ℕ → K) (i : ℕ) : K :=
  if i < initSize then max (o.sqrt |max (svals i - rnorms i) 0 * svals i|) (aNorm * o.meps) else aNorm * o.meps

end Verif.SvdsRun
