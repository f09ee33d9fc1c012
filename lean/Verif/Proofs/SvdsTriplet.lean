import Verif.Model.SvdsTriplet
import Verif.Spec.Singular
import Verif.Proofs.SpectrumMass

set_option linter.unusedSectionVars false
set_option linter.unusedVariables false

namespace Verif.SvdTriplet
open Verif Verif.Rayleigh Verif.Spec Finset

variable {𝕜 E F : Type} [RCLike 𝕜] [NormedAddCommGroup E] [InnerProductSpace 𝕜 E] [NormedAddCommGroup F] [InnerProductSpace 𝕜 F]

theorem adjoint_swap (A : E →ₗ[𝕜] F) (At : F →ₗ[𝕜] E) (h : Adjoint A At) : Adjoint At A := by
  intro y x
  have := h x y
  rw [← inner_conj_symm, ← this, inner_conj_symm]

theorem singular_swap (A : E →ₗ[𝕜] F) (At : F →ₗ[𝕜] E) (m : ℕ) (u : Fin m → F) (s : Fin m → ℝ) (v : Fin m → E)
    (h : IsSingular At A m v s u) : IsSingular A At m u s v :=
  ⟨h.right, h.left, h.pos, h.mulT, h.mul⟩

theorem residual_swap (A : E →ₗ[𝕜] F) (At : F →ₗ[𝕜] E) (u : F) (s : ℝ) (v : E) :
    tripletResidual A At u s v = tripletResidual At A v s u := by
  unfold tripletResidual; rw [add_comm]

theorem normal_symm (A : E →ₗ[𝕜] F) (At : F →ₗ[𝕜] E) (h : Adjoint A At) : (normalOp A At).IsSymmetric := by
  intro x y
  show inner 𝕜 (At (A x)) y = inner 𝕜 x (At (A y))
  rw [← h x (A y), adjoint_swap A At h]

theorem normal_inner (A : E →ₗ[𝕜] F) (At : F →ₗ[𝕜] E) (h : Adjoint A At) (x : E) :
    (inner 𝕜 x (normalOp A At x) : 𝕜) = ((‖A x‖ ^ 2 : ℝ) : 𝕜) := by
  show inner 𝕜 x (At (A x)) = _
  rw [← h, inner_self_eq_norm_sq_to_K]
  norm_cast

/-- Eigenpairs of the normal equations with positive values are singular triplets. -/
theorem singular_of_normal (A : E →ₗ[𝕜] F) (At : F →ₗ[𝕜] E) (h : Adjoint A At) (m : ℕ) (f : Fin m → E) (μ : Fin m → ℝ)
    (ho : ∀ i j, (inner 𝕜 (f i) (f j) : 𝕜) = if i = j then 1 else 0) (he : ∀ i, normalOp A At (f i) = (μ i : 𝕜) • f i)
    (hp : ∀ i, 0 < μ i) :
    IsSingular A At m (fun i => ((1 / Real.sqrt (μ i) : ℝ) : 𝕜) • A (f i)) (fun i => Real.sqrt (μ i)) f := by
  have hs : ∀ i, 0 < Real.sqrt (μ i) := fun i => Real.sqrt_pos.2 (hp i)
  have hsq : ∀ i, Real.sqrt (μ i) * Real.sqrt (μ i) = μ i := fun i => Real.mul_self_sqrt (le_of_lt (hp i))
  refine ⟨?_, orthonormal_iff_ite.2 ho, hs, ?_, ?_⟩
  · rw [orthonormal_iff_ite]
    intro i j
    rw [inner_smul_left, inner_smul_right, h]
    change _ * (_ * inner 𝕜 (f i) (normalOp A At (f j))) = _
    rw [he j, inner_smul_right, ho, RCLike.conj_ofReal]
    by_cases hij : i = j
    · subst hij
      rw [if_pos rfl, mul_one, ← RCLike.ofReal_mul, ← RCLike.ofReal_mul]
      rw [show (1 / Real.sqrt (μ i) * (1 / Real.sqrt (μ i) * μ i)) = 1 by
        have := hs i
        rw [one_div, ← mul_assoc, ← mul_inv, hsq i, inv_mul_cancel₀ (ne_of_gt (hp i))]]
      simp
    · rw [if_neg hij, mul_zero, mul_zero, mul_zero]
  · intro i
    rw [smul_smul, ← RCLike.ofReal_mul, mul_one_div_cancel (ne_of_gt (hs i))]
    simp
  · intro i
    rw [map_smul]
    change _ • normalOp A At (f i) = _
    rw [he i, smul_smul, ← RCLike.ofReal_mul]
    congr 2
    rw [one_div, inv_mul_eq_div, div_eq_iff (ne_of_gt (hs i)), hsq]

/-! ## The augmented problem -/

theorem ip2_inner : IsInner (ip2 : E × F → E × F → 𝕜) := by
  refine ⟨?_, ?_, ?_⟩
  · intro x y z; simp only [ip2, Prod.fst_add, Prod.snd_add, inner_add_right]; ring
  · intro c x y; simp only [ip2, Prod.smul_fst, Prod.smul_snd, inner_smul_right]; ring
  · intro x y
    have e : ∀ z : 𝕜, star z = (starRingEnd 𝕜) z := fun _ => rfl
    simp only [ip2, e, map_add, inner_conj_symm]

theorem ip2_self (x : E × F) : (ip2 x x : 𝕜) = ((‖x.1‖ ^ 2 + ‖x.2‖ ^ 2 : ℝ) : 𝕜) := by
  unfold ip2
  rw [inner_self_eq_norm_sq_to_K, inner_self_eq_norm_sq_to_K]
  norm_cast

theorem ip2_pos (x : E × F) (hx : x ≠ 0) : 0 < RCLike.re (ip2 x x : 𝕜) := by
  rw [ip2_self, RCLike.ofReal_re]
  by_cases h1 : x.1 = 0
  · have h2 : x.2 ≠ 0 := fun h2 => hx (Prod.ext h1 h2)
    have := norm_pos_iff.2 h2
    positivity
  · have := norm_pos_iff.2 h1
    positivity

theorem aug_hermitian (A : E →ₗ[𝕜] F) (At : F →ₗ[𝕜] E) (h : Adjoint A At) :
    IsHermitian (ip2 : E × F → E × F → 𝕜) (augOp A At) := by
  refine ⟨map_add _, map_smul _, ?_⟩
  intro x y
  show (inner 𝕜 (At x.2) y.1 : 𝕜) + inner 𝕜 (A x.1) y.2 = inner 𝕜 x.1 (At y.2) + inner 𝕜 x.2 (A y.1)
  rw [h x.1 y.2, adjoint_swap A At h, add_comm]

/-- Eigenpairs of the augmented operator with positive values are singular triplets. -/
theorem singular_of_aug (A : E →ₗ[𝕜] F) (At : F →ₗ[𝕜] E) (h : Adjoint A At) (m : ℕ) (f : Fin m → E × F) (μ : Fin m → ℝ)
    (ho : ∀ i j, (ip2 (f i) (f j) : 𝕜) = if i = j then 1 else 0) (he : ∀ i, augOp A At (f i) = (μ i : 𝕜) • f i)
    (hp : ∀ i, 0 < μ i) :
    IsSingular A At m (fun i => ((Real.sqrt 2 : ℝ) : 𝕜) • (f i).2) μ (fun i => ((Real.sqrt 2 : ℝ) : 𝕜) • (f i).1) := by
  have h1 : ∀ i, At (f i).2 = (μ i : 𝕜) • (f i).1 := fun i => congrArg Prod.fst (he i)
  have h2 : ∀ i, A (f i).1 = (μ i : 𝕜) • (f i).2 := fun i => congrArg Prod.snd (he i)
  have hpq : ∀ i j, (inner 𝕜 (f i).1 (f j).1 : 𝕜) = inner 𝕜 (f i).2 (f j).2 := by
    intro i j
    have a1 : (μ j : 𝕜) * inner 𝕜 (f i).1 (f j).1 = (μ i : 𝕜) * inner 𝕜 (f i).2 (f j).2 := by
      rw [← inner_smul_right, ← h1, ← h, h2, inner_smul_left, RCLike.conj_ofReal]
    have a2 : (μ i : 𝕜) * inner 𝕜 (f i).1 (f j).1 = (μ j : 𝕜) * inner 𝕜 (f i).2 (f j).2 := by
      rw [← inner_smul_right (f i).2, ← h2, ← RCLike.conj_ofReal (μ i), ← inner_smul_left, ← h1, adjoint_swap A At h]
    have hne : ((μ i : 𝕜) + (μ j : 𝕜)) ≠ 0 := by
      rw [← RCLike.ofReal_add]
      have := hp i; have := hp j
      exact RCLike.ofReal_ne_zero.2 (by linarith)
    apply mul_left_cancel₀ hne
    rw [add_mul, add_mul, a1, a2, add_comm]
  have hhalf : ∀ i j, (2 : 𝕜) * inner 𝕜 (f i).1 (f j).1 = if i = j then 1 else 0 := by
    intro i j
    rw [← ho i j]
    unfold ip2
    rw [← hpq i j]; ring
  have h22 : ((Real.sqrt 2 : ℝ) : 𝕜) * ((Real.sqrt 2 : ℝ) : 𝕜) = 2 := by
    rw [← RCLike.ofReal_mul, Real.mul_self_sqrt (by norm_num)]; norm_cast
  refine ⟨?_, ?_, hp, ?_, ?_⟩
  · rw [orthonormal_iff_ite]
    intro i j
    rw [inner_smul_left, inner_smul_right, RCLike.conj_ofReal, ← mul_assoc, h22, ← hpq, hhalf]
  · rw [orthonormal_iff_ite]
    intro i j
    rw [inner_smul_left, inner_smul_right, RCLike.conj_ofReal, ← mul_assoc, h22, hhalf]
  · intro i; rw [map_smul, h2, smul_comm]
  · intro i; rw [map_smul, h1, smul_comm]

end Verif.SvdTriplet
