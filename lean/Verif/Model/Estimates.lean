import Mathlib.Analysis.RCLike.Basic

/-!
# Estimates of the spectrum

`stats.estimateMinEVal`, `stats.estimateMaxEVal` and `stats.estimateLargestSVal`: src/eigs/main_iter.c:384-386,
src/eigs/solve_projection.c:141-151.  `none` stands for the infinity of either sign they start with.  Exact arithmetic.
-/

namespace Verif.Estimates

variable {𝕜 : Type} [RCLike 𝕜]

/-- The three members of `stats`. -/
structure Est where
  minEVal : Option ℝ
  maxEVal : Option ℝ
  largestSVal : Option ℝ

/-- main_iter.c:384-386. -/
def Est.start : Est := ⟨none, none, none⟩

/-- `min(a, x)`, where `a` may be `HUGE_VAL`. -/
noncomputable def lower : Option ℝ → ℝ → Option ℝ
  | none, x => some x
  | some a, x => some (min a x)

/-- `max(a, x)`, where `a` may be `-HUGE_VAL`. -/
noncomputable def raise : Option ℝ → ℝ → Option ℝ
  | none, x => some x
  | some a, x => some (max a x)

/-- The loop at the end of `solve_H_Sprimme`, solve_projection.c:144-151. -/
noncomputable def note (n : ℕ) (vals : ℕ → 𝕜) (e : Est) : Est :=
  (List.range n).foldl
    (fun e i => ⟨lower e.minEVal (RCLike.re (vals i)), raise e.maxEVal (RCLike.re (vals i)), raise e.largestSVal ‖vals i‖⟩) e

/-- `primme.aNorm` when `dprimme` returns: no line of src/eigs assigns it (outside primme_interface.c, which serves the
user's own calls). -/
def aNormOnReturn (aNorm : ℝ) (_e : Est) : ℝ := aNorm

end Verif.Estimates
