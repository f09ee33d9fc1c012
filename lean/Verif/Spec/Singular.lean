import Mathlib.Analysis.InnerProductSpace.Orthonormal

/-!
# Singular triplets

`A` is a linear map and `At` its adjoint.
-/

namespace Verif.Spec
variable {𝕜 E F : Type} [RCLike 𝕜] [NormedAddCommGroup E] [InnerProductSpace 𝕜 E] [NormedAddCommGroup F] [InnerProductSpace 𝕜 F]

/-- `At` is the adjoint of `A`. -/
def Adjoint (A : E →ₗ[𝕜] F) (At : F →ₗ[𝕜] E) : Prop := ∀ x y, (inner 𝕜 (A x) y : 𝕜) = inner 𝕜 x (At y)

/-- The norm of the residual of a triplet, `sqrt(|A v - s u|^2 + |A' u - s v|^2)`. -/
noncomputable def tripletResidual (A : E →ₗ[𝕜] F) (At : F →ₗ[𝕜] E) (u : F) (s : ℝ) (v : E) : ℝ :=
  Real.sqrt (‖A v - (s : 𝕜) • u‖ ^ 2 + ‖At u - (s : 𝕜) • v‖ ^ 2)

/-- `m` exact singular triplets, with orthonormal left vectors and orthonormal right vectors (so that a value occurs at most as
often as its multiplicity allows). -/
structure IsSingular (A : E →ₗ[𝕜] F) (At : F →ₗ[𝕜] E) (m : ℕ) (u : Fin m → F) (s : Fin m → ℝ) (v : Fin m → E) : Prop where
  left : _root_.Orthonormal 𝕜 u
  right : _root_.Orthonormal 𝕜 v
  pos : ∀ i, 0 < s i
  mul : ∀ i, A (v i) = (s i : 𝕜) • u i
  mulT : ∀ i, At (u i) = (s i : 𝕜) • v i

end Verif.Spec
