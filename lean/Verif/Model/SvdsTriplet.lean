import Verif.Model.Rayleigh
import Mathlib.Analysis.InnerProductSpace.Basic

/-!
# From eigenpairs to singular triplets, in exact arithmetic

What the singular value solver does with the vectors: the operator it hands to the eigensolver, and the triplets it makes of
the pairs it gets back.  `E` holds the right vectors, `F` the left ones; `A` is the user's `matrixMatvec` without transpose and `At` with it.
The movements of the columns in memory are in `Verif.Model.SvdsLayout`, the splitting in blocks in `Verif.Model.SvdsOperator`.
Simplifications: exact real arithmetic; the test for a reciprocal beyond the largest number is left out.
-/

namespace Verif.SvdTriplet
open Verif Verif.Rayleigh

variable {𝕜 E F : Type} [RCLike 𝕜] [NormedAddCommGroup E] [InnerProductSpace 𝕜 E] [NormedAddCommGroup F] [InnerProductSpace 𝕜 F]

/-- A singular triplet as returned: left vector, singular value, right vector, residual norm. -/
structure Triplet (E F : Type) where
  u : F
  sval : ℝ
  v : E
  rnorm : ℝ

/-- `primme_svds_op_AtA` for one column, src/svds/primme_svds_c.c:1336-1352 (and `AAt`, 1353-1369, with the products exchanged). -/
def normalOp (A : E →ₗ[𝕜] F) (At : F →ₗ[𝕜] E) : E →ₗ[𝕜] E := At ∘ₗ A

/-- `primme_svds_op_augmented` for one column, src/svds/primme_svds_c.c:1370-1377; the right vector comes first. -/
def augOp (A : E →ₗ[𝕜] F) (At : F →ₗ[𝕜] E) : E × F →ₗ[𝕜] E × F :=
  (At ∘ₗ LinearMap.snd 𝕜 E F).prod (A ∘ₗ LinearMap.fst 𝕜 E F)

/-- Inner product of columns of the augmented problem. -/
noncomputable def ip2 (w z : E × F) : 𝕜 := inner 𝕜 w.1 z.1 + inner 𝕜 w.2 z.2

/-- `Num_scalInv_Smatrix` for one column, src/svds/primme_svds_c.c:1418-1439. -/
noncomputable def scalInv (factor : ℝ) (y : F) : F := ((1 / (if 0 < factor then factor else ‖y‖) : ℝ) : 𝕜) • y

/-- The singular value, src/svds/primme_svds_c.c:899-903. -/
noncomputable def toSval (value : 𝕜) : ℝ := Real.sqrt (max 0 (RCLike.re value))

/-- `min(rnorms[i] / svals[i], primme_svds->aNorm)`, src/svds/primme_svds_c.c:1012-1017; in C a division by zero gives an
infinity or a NaN, and `min` then `aNorm`. -/
noncomputable def toRnorm (aNorm rnorm sval : ℝ) : ℝ := if sval = 0 then aNorm else min (rnorm / sval) aNorm

/-- `copy_last_params_to_svds` for `primme_svds_op_AtA`, src/svds/primme_svds_c.c:899-929, 1012-1017. -/
noncomputable def fromAtA (A : E →ₗ[𝕜] F) (aNorm : ℝ) (p : Locked 𝕜 E) : Triplet E F :=
  { u := scalInv (𝕜 := 𝕜) (toSval p.value) (A p.x), sval := toSval p.value, v := p.x,
    rnorm := toRnorm aNorm ‖p.res‖ (toSval p.value) }

/-- `copy_last_params_to_svds` for `primme_svds_op_AAt`, src/svds/primme_svds_c.c:899-903, 930-947, 1012-1017. -/
noncomputable def fromAAt (At : F →ₗ[𝕜] E) (aNorm : ℝ) (p : Locked 𝕜 F) : Triplet E F :=
  { u := p.x, sval := toSval p.value, v := scalInv (𝕜 := 𝕜) (toSval p.value) (At p.x),
    rnorm := toRnorm aNorm ‖p.res‖ (toSval p.value) }

/-- `copy_last_params_to_svds` for `primme_svds_op_augmented`, src/svds/primme_svds_c.c:948-989, 1018-1022. -/
noncomputable def fromAug (p : Locked 𝕜 (E × F)) : Triplet E F :=
  { u := ((1 / ‖p.x.2‖ : ℝ) : 𝕜) • p.x.2, sval := RCLike.re p.value, v := ((1 / ‖p.x.1‖ : ℝ) : 𝕜) • p.x.1,
    rnorm := Real.sqrt (RCLike.re (ip2 p.res p.res : 𝕜)) * Real.sqrt 2 }

end Verif.SvdTriplet
