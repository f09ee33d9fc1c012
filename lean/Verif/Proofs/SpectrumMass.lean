import Verif.Proofs.Spectrum
import Verif.Spec.Rayleigh
import Mathlib.LinearAlgebra.FiniteDimensional.Basic

set_option linter.unusedSectionVars false

namespace Verif.Spectrum
open Finset Module Verif.Spec

section Core
variable {𝕜 F : Type} [RCLike 𝕜] [AddCommGroup F] [Module 𝕜 F] [FiniteDimensional 𝕜 F]

/-- The inner product as Mathlib has it. -/
@[reducible] noncomputable def core (ip : F → F → 𝕜) (hip : IsInner ip) (hpos : ∀ x, x ≠ 0 → 0 < RCLike.re (ip x x)) :
    InnerProductSpace.Core 𝕜 F where
  inner := ip
  conj_inner_symm x y := hip.conj y x
  re_inner_nonneg x := by
    by_cases h : x = 0
    · have := hip.smul 0 x x
      rw [zero_smul, zero_mul] at this
      rw [h] at this ⊢
      rw [this]; simp
    · exact le_of_lt (hpos x h)
  add_left x y z := by
    rw [← hip.conj, hip.add, star_add, hip.conj, hip.conj]
  smul_left x y r := by
    rw [← hip.conj, hip.smul, star_mul', hip.conj]; rfl
  definite x h := by
    by_contra hx
    have := hpos x hx
    rw [h] at this
    simp at this

theorem count_core (ip : F → F → 𝕜) (hip : IsInner ip) (hpos : ∀ x, x ≠ 0 → 0 < RCLike.re (ip x x)) (S : F →ₗ[𝕜] F)
    (hS : ∀ x y, ip (S x) y = ip x (S y)) (m : ℕ) (x : Fin m → F) (hx : ∀ i j, ip (x i) (x j) = if i = j then 1 else 0)
    (θ : Fin m → ℝ) (a b δ : ℝ) (hθ : ∀ j, a ≤ θ j ∧ θ j ≤ b) (h0 : 0 ≤ δ)
    (hδ : ∑ j, RCLike.re (ip (S (x j) - (θ j : 𝕜) • x j) (S (x j) - (θ j : 𝕜) • x j)) ≤ δ ^ 2) :
    ∃ (f : Fin m → F) (μ : Fin m → ℝ), (∀ i j, ip (f i) (f j) = if i = j then 1 else 0) ∧
      (∀ i, S (f i) = (μ i : 𝕜) • f i) ∧ ∀ i, a - δ ≤ μ i ∧ μ i ≤ b + δ := by
  letI c := core ip hip hpos
  letI : NormedAddCommGroup F := c.toNormedAddCommGroup
  letI : InnerProductSpace 𝕜 F := InnerProductSpace.ofCore c.toCore
  have hT : S.IsSymmetric := hS
  have h := count S hT _ rfl m x (orthonormal_iff_ite.2 hx) θ a b δ hθ h0
    (by
      refine le_trans (le_of_eq (sum_congr rfl fun j _ => ?_)) hδ
      exact norm_sq_eq_re_inner (𝕜 := 𝕜) _)
  obtain ⟨t, ht, hc⟩ := exists_subset_card_eq h
  let g : Fin m → Fin (finrank 𝕜 F) := fun i => (t.equivFin.symm (Fin.cast hc.symm i)).1
  have hg : ∀ i, g i ∈ t := fun i => (t.equivFin.symm _).2
  have hginj : Function.Injective g := by
    intro i j hij
    have := t.equivFin.symm.injective (Subtype.ext hij)
    exact Fin.cast_injective _ this
  refine ⟨fun i => hT.eigenvectorBasis rfl (g i), fun i => hT.eigenvalues rfl (g i), ?_, ?_, ?_⟩
  · intro i j
    have := orthonormal_iff_ite.1 (hT.eigenvectorBasis rfl).orthonormal (g i) (g j)
    have e : (if g i = g j then (1 : 𝕜) else 0) = if i = j then 1 else 0 := by
      by_cases h : i = j
      · rw [if_pos h, if_pos (by rw [h])]
      · rw [if_neg h, if_neg (fun h' => h (hginj h'))]
    rw [← e]
    exact this
  · intro i
    exact hT.apply_eigenvectorBasis rfl (g i)
  · intro i
    exact (mem_filter.1 (ht (hg i))).2

theorem minmax_core (ip : F → F → 𝕜) (hip : IsInner ip) (hpos : ∀ x, x ≠ 0 → 0 < RCLike.re (ip x x)) (S : F →ₗ[𝕜] F)
    (hS : ∀ x y, ip (S x) y = ip x (S y)) (m : ℕ) (x : Fin m → F) (hx : ∀ i j, ip (x i) (x j) = if i = j then 1 else 0)
    (θ : Fin m → ℝ) (hd : ∀ i j, ip (x i) (S (x j)) = if i = j then (θ j : 𝕜) else 0)
    (sign b : ℝ) (hθ : ∀ j, sign * θ j ≤ b) :
    ∃ (f : Fin m → F) (μ : Fin m → ℝ), (∀ i j, ip (f i) (f j) = if i = j then 1 else 0) ∧
      (∀ i, S (f i) = (μ i : 𝕜) • f i) ∧ ∀ i, sign * μ i ≤ b := by
  letI c := core ip hip hpos
  letI : NormedAddCommGroup F := c.toNormedAddCommGroup
  letI : InnerProductSpace 𝕜 F := InnerProductSpace.ofCore c.toCore
  have hT : S.IsSymmetric := hS
  have h := minmax S hT _ rfl m x (orthonormal_iff_ite.2 hx) θ hd sign b hθ
  obtain ⟨t, ht, hc⟩ := exists_subset_card_eq h
  let g : Fin m → Fin (finrank 𝕜 F) := fun i => (t.equivFin.symm (Fin.cast hc.symm i)).1
  have hg : ∀ i, g i ∈ t := fun i => (t.equivFin.symm _).2
  have hginj : Function.Injective g := by
    intro i j hij
    have := t.equivFin.symm.injective (Subtype.ext hij)
    exact Fin.cast_injective _ this
  refine ⟨fun i => hT.eigenvectorBasis rfl (g i), fun i => hT.eigenvalues rfl (g i), ?_, ?_, ?_⟩
  · intro i j
    have := orthonormal_iff_ite.1 (hT.eigenvectorBasis rfl).orthonormal (g i) (g j)
    have e : (if g i = g j then (1 : 𝕜) else 0) = if i = j then 1 else 0 := by
      by_cases h : i = j
      · rw [if_pos h, if_pos (by rw [h])]
      · rw [if_neg h, if_neg (fun h' => h (hginj h'))]
    rw [← e]
    exact this
  · intro i
    exact hT.apply_eigenvectorBasis rfl (g i)
  · intro i
    exact (mem_filter.1 (ht (hg i))).2

end Core

/-! ## With a mass matrix -/

section Mass
variable {𝕜 E : Type} [RCLike 𝕜] [NormedAddCommGroup E] [InnerProductSpace 𝕜 E] [FiniteDimensional 𝕜 E]

theorem mass_inner (B : E →ₗ[𝕜] E) (hB : B.IsSymmetric) : IsInner (fun x y => (inner 𝕜 x (B y) : 𝕜)) :=
  ⟨fun x y z => by rw [map_add, inner_add_right], fun c x y => by rw [map_smul, inner_smul_right],
    fun x y => by rw [← hB y x]; exact inner_conj_symm (B y) x⟩

variable (A B : E →ₗ[𝕜] E) (hA : A.IsSymmetric) (hB : B.IsSymmetric) (β : ℝ) (hβ : 0 < β)
  (hlow : ∀ x : E, β * ‖x‖ ^ 2 ≤ RCLike.re (inner 𝕜 x (B x) : 𝕜))
include hβ hlow

theorem mass_pos (x : E) (hx : x ≠ 0) : 0 < RCLike.re (inner 𝕜 x (B x) : 𝕜) :=
  lt_of_lt_of_le (mul_pos hβ (by have := norm_pos_iff.2 hx; positivity)) (hlow x)

theorem mass_inj : Function.Injective B := by
  rw [injective_iff_map_eq_zero]
  intro x hx
  by_contra h
  have := mass_pos B β hβ hlow x h
  rw [hx] at this
  simp at this

/-- The residual seen through the mass matrix. -/
theorem mass_residual (y r : E) (hy : B y = r) : RCLike.re (inner 𝕜 y (B y) : 𝕜) ≤ ‖r‖ ^ 2 / β := by
  have h1 := hlow y
  have h2 : RCLike.re (inner 𝕜 y (B y) : 𝕜) ≤ ‖y‖ * ‖r‖ := by
    rw [hy]
    exact re_inner_le_norm y r
  rw [le_div_iff₀ hβ]
  generalize RCLike.re (inner 𝕜 y (B y) : 𝕜) = q at *
  have hy0 := norm_nonneg y
  have hr0 := norm_nonneg r
  -- β‖y‖² ≤ q ≤ ‖y‖‖r‖, so β‖y‖ ≤ ‖r‖
  by_cases h0 : ‖y‖ = 0
  · rw [h0] at h1 h2
    have : q = 0 := le_antisymm (by simpa using h2) (by simpa using h1)
    rw [this, zero_mul]
    positivity
  · have hyp : 0 < ‖y‖ := lt_of_le_of_ne hy0 (Ne.symm h0)
    have h3 : β * ‖y‖ ≤ ‖r‖ := by
      have : β * ‖y‖ * ‖y‖ ≤ ‖r‖ * ‖y‖ := by nlinarith
      exact le_of_mul_le_mul_right this hyp
    have h4 : q * β ≤ ‖y‖ * ‖r‖ * β := mul_le_mul_of_nonneg_right h2 (le_of_lt hβ)
    nlinarith

include hA hB

theorem mass_operator : ∃ S : E →ₗ[𝕜] E, (∀ x, B (S x) = A x) ∧ ∀ x y, (inner 𝕜 (S x) (B y) : 𝕜) = inner 𝕜 x (B (S y)) := by
  let e := LinearEquiv.ofInjectiveEndo B (mass_inj B β hβ hlow)
  have he : ∀ x, B (e.symm x) = x := fun x => e.apply_symm_apply x
  refine ⟨e.symm.toLinearMap ∘ₗ A, fun x => he _, ?_⟩
  intro x y
  show (inner 𝕜 (e.symm (A x)) (B y) : 𝕜) = inner 𝕜 x (B (e.symm (A y)))
  rw [he, ← hB, he, hA]

/-- `count` for a pencil. -/
theorem count_mass (m : ℕ) (x : Fin m → E) (hx : ∀ i j, (inner 𝕜 (x i) (B (x j)) : 𝕜) = if i = j then 1 else 0)
    (θ : Fin m → ℝ) (a b δ : ℝ) (hθ : ∀ j, a ≤ θ j ∧ θ j ≤ b) (h0 : 0 ≤ δ)
    (hδ : (∑ j, ‖A (x j) - (θ j : 𝕜) • B (x j)‖ ^ 2) / β ≤ δ ^ 2) :
    ∃ (f : Fin m → E) (μ : Fin m → ℝ), (∀ i j, (inner 𝕜 (f i) (B (f j)) : 𝕜) = if i = j then 1 else 0) ∧
      (∀ i, A (f i) = (μ i : 𝕜) • B (f i)) ∧ ∀ i, a - δ ≤ μ i ∧ μ i ≤ b + δ := by
  obtain ⟨S, h1, h2⟩ := mass_operator A B hA hB β hβ hlow
  obtain ⟨f, μ, k1, k2, k3⟩ := count_core (fun x y => (inner 𝕜 x (B y) : 𝕜)) (mass_inner B hB) (mass_pos B β hβ hlow) S h2 m x hx θ a b δ
    hθ h0 (by
      refine le_trans (sum_le_sum fun j _ => mass_residual B β hβ hlow _ (A (x j) - (θ j : 𝕜) • B (x j)) ?_) ?_
      · rw [map_sub, map_smul, h1]
      · rw [← sum_div]; exact hδ)
  exact ⟨f, μ, k1, fun i => by rw [← h1, k2, map_smul], k3⟩

/-- `minmax` for a pencil. -/
theorem minmax_mass (m : ℕ) (x : Fin m → E) (hx : ∀ i j, (inner 𝕜 (x i) (B (x j)) : 𝕜) = if i = j then 1 else 0)
    (θ : Fin m → ℝ) (hd : ∀ i j, (inner 𝕜 (x i) (A (x j)) : 𝕜) = if i = j then (θ j : 𝕜) else 0) (sign b : ℝ)
    (hθ : ∀ j, sign * θ j ≤ b) :
    ∃ (f : Fin m → E) (μ : Fin m → ℝ), (∀ i j, (inner 𝕜 (f i) (B (f j)) : 𝕜) = if i = j then 1 else 0) ∧
      (∀ i, A (f i) = (μ i : 𝕜) • B (f i)) ∧ ∀ i, sign * μ i ≤ b := by
  obtain ⟨S, h1, h2⟩ := mass_operator A B hA hB β hβ hlow
  obtain ⟨f, μ, k1, k2, k3⟩ := minmax_core (fun x y => (inner 𝕜 x (B y) : 𝕜)) (mass_inner B hB) (mass_pos B β hβ hlow) S h2 m x hx θ
    (fun i j => by show (inner 𝕜 (x i) (B (S (x j))) : 𝕜) = _; rw [h1]; exact hd i j) sign b hθ
  exact ⟨f, μ, k1, fun i => by rw [← h1, k2, map_smul], k3⟩

end Mass

end Verif.Spectrum
