import Mathlib.Analysis.InnerProductSpace.Spectrum
import Mathlib.LinearAlgebra.Dimension.LinearMap

set_option linter.unusedSectionVars false

namespace Verif.Spectrum
open Finset Module

variable {𝕜 E : Type} [RCLike 𝕜] [NormedAddCommGroup E] [InnerProductSpace 𝕜 E] [FiniteDimensional 𝕜 E]

local notation "⟪" x ", " y "⟫" => inner 𝕜 x y

/-- Orthonormal approximate eigenvectors with values in an interval: at least as many eigenvalues lie in the interval
widened by the size of all the residuals together. -/
theorem count (T : E →ₗ[𝕜] E) (hT : T.IsSymmetric) (n : ℕ) (hn : finrank 𝕜 E = n) (m : ℕ) (x : Fin m → E)
    (hx : Orthonormal 𝕜 x) (θ : Fin m → ℝ) (a b δ : ℝ) (hθ : ∀ j, a ≤ θ j ∧ θ j ≤ b) (h0 : 0 ≤ δ)
    (hδ : ∑ j, ‖T (x j) - (θ j : 𝕜) • x j‖ ^ 2 ≤ δ ^ 2) :
    m ≤ (univ.filter fun i : Fin n => a - δ ≤ hT.eigenvalues hn i ∧ hT.eigenvalues hn i ≤ b + δ).card := by
  by_contra hcon
  rw [not_le] at hcon
  set S := univ.filter fun i : Fin n => a - δ ≤ hT.eigenvalues hn i ∧ hT.eigenvalues hn i ≤ b + δ with hS
  let u := hT.eigenvectorBasis hn
  let f : (Fin m → 𝕜) →ₗ[𝕜] (S → 𝕜) :=
    { toFun := fun y i => ⟪u i, ∑ j, y j • x j⟫
      map_add' := by
        intro y z; funext i
        simp only [Pi.add_apply, add_smul, sum_add_distrib, inner_add_right]
      map_smul' := by
        intro c y; funext i
        simp only [Pi.smul_apply, smul_eq_mul, RingHom.id_apply, mul_smul, ← smul_sum, inner_smul_right] }
  have hker : LinearMap.ker f ≠ ⊥ := by
    apply LinearMap.ker_ne_bot_of_finrank_lt
    simpa using hcon
  obtain ⟨y, hy, hy0⟩ := Submodule.exists_mem_ne_zero_of_ne_bot hker
  have hm : 0 < m := by omega
  have hab : a ≤ b := le_trans (hθ ⟨0, hm⟩).1 (hθ ⟨0, hm⟩).2
  set v := ∑ j, y j • x j with hv
  set Y := ∑ j, ‖y j‖ ^ 2 with hY
  have hnorm : ∀ z : Fin m → 𝕜, ‖∑ j, z j • x j‖ ^ 2 = ∑ j, ‖z j‖ ^ 2 := by
    intro z
    have h1 := hx.inner_sum z z univ
    rw [inner_self_eq_norm_sq_to_K] at h1
    have h2 : ((∑ j, ‖z j‖ ^ 2 : ℝ) : 𝕜) = ∑ j, (starRingEnd 𝕜) (z j) * z j := by
      push_cast
      refine sum_congr rfl fun j _ => ?_
      rw [RCLike.conj_mul]
    rw [← h2] at h1
    exact_mod_cast h1
  have hYpos : 0 < Y := by
    obtain ⟨j, hj⟩ : ∃ j, y j ≠ 0 := by
      by_contra h
      push Not at h
      exact hy0 (funext h)
    have : 0 < ‖y j‖ ^ 2 := by positivity
    exact lt_of_lt_of_le this (single_le_sum (f := fun j => ‖y j‖ ^ 2) (fun i _ => by positivity) (mem_univ j))
  have hvn : ‖v‖ ^ 2 = Y := hnorm y
  set c : ℝ := (a + b) / 2 with hc
  set h : ℝ := (b - a) / 2 with hh
  have hh0 : 0 ≤ h := by rw [hh]; linarith
  -- from above
  have hup : ‖T v - (c : 𝕜) • v‖ ≤ (h + δ) * Real.sqrt Y := by
    have e : T v - (c : 𝕜) • v = ∑ j, (y j * ((θ j - c : ℝ) : 𝕜)) • x j + ∑ j, y j • (T (x j) - (θ j : 𝕜) • x j) := by
      rw [hv, map_sum, smul_sum, ← sum_sub_distrib, ← sum_add_distrib]
      refine sum_congr rfl fun j _ => ?_
      rw [map_smul]
      push_cast
      module
    have h1 : ‖∑ j, (y j * ((θ j - c : ℝ) : 𝕜)) • x j‖ ≤ h * Real.sqrt Y := by
      apply le_of_sq_le_sq _ (by positivity)
      rw [hnorm, mul_pow, Real.sq_sqrt hYpos.le, hY, mul_sum]
      refine sum_le_sum fun j _ => ?_
      rw [norm_mul, mul_pow, mul_comm]
      refine mul_le_mul_of_nonneg_right ?_ (by positivity)
      rw [RCLike.norm_ofReal, sq_abs]
      have := hθ j
      apply sq_le_sq'
      · rw [hh, hc]; linarith
      · rw [hh, hc]; linarith
    have h2 : ‖∑ j, y j • (T (x j) - (θ j : 𝕜) • x j)‖ ≤ δ * Real.sqrt Y := by
      refine (norm_sum_le _ _).trans ?_
      simp only [norm_smul]
      apply le_of_sq_le_sq _ (by positivity)
      refine (sum_mul_sq_le_sq_mul_sq _ _ _).trans ?_
      rw [mul_pow, Real.sq_sqrt hYpos.le, ← hY, mul_comm]
      exact mul_le_mul_of_nonneg_right hδ hYpos.le
    rw [e, add_mul]
    exact (norm_add_le _ _).trans (add_le_add h1 h2)
  -- from below
  have hrepr : ∀ i, u.repr (T v - (c : 𝕜) • v) i = ((hT.eigenvalues hn i - c : ℝ) : 𝕜) * u.repr v i := by
    intro i
    rw [map_sub, map_smul]
    simp only [PiLp.sub_apply, PiLp.smul_apply, smul_eq_mul]
    rw [hT.eigenvectorBasis_apply_self_apply hn]
    push_cast
    ring
  have hsq : ∀ z : E, ‖z‖ ^ 2 = ∑ i, ‖u.repr z i‖ ^ 2 := by
    intro z
    rw [← u.repr.norm_map z, EuclideanSpace.norm_sq_eq]
  have hlow : (h + δ) ^ 2 * Y < ‖T v - (c : 𝕜) • v‖ ^ 2 := by
    rw [hsq, ← hvn, hsq v, mul_sum]
    have hterm : ∀ i : Fin n, (h + δ) ^ 2 * ‖u.repr v i‖ ^ 2 ≤ ‖u.repr (T v - (c : 𝕜) • v) i‖ ^ 2 ∧
        (u.repr v i ≠ 0 → (h + δ) ^ 2 * ‖u.repr v i‖ ^ 2 < ‖u.repr (T v - (c : 𝕜) • v) i‖ ^ 2) := by
      intro i
      by_cases hi : i ∈ S
      · have hz : u.repr v i = 0 := by
          have := congrFun hy ⟨i, hi⟩
          rw [u.repr_apply_apply]
          exact this
        rw [hrepr, hz]
        simp
      · rw [hrepr, norm_mul, mul_pow, RCLike.norm_ofReal, sq_abs]
        have hlt : (h + δ) ^ 2 < (hT.eigenvalues hn i - c) ^ 2 := by
          rw [hS, mem_filter] at hi
          simp only [mem_univ, true_and, not_and_or, not_le] at hi
          apply sq_lt_sq.2
          rw [abs_of_nonneg (by linarith), lt_abs]
          rcases hi with hi | hi
          · right; rw [hh, hc]; linarith
          · left; rw [hh, hc]; linarith
        refine ⟨mul_le_mul_of_nonneg_right hlt.le (by positivity), fun hne => ?_⟩
        exact mul_lt_mul_of_pos_right hlt (by positivity)
    obtain ⟨i, hi⟩ : ∃ i, u.repr v i ≠ 0 := by
      by_contra hall
      push Not at hall
      have : ‖v‖ ^ 2 = 0 := by rw [hsq]; simp [hall]
      rw [hvn] at this
      exact hYpos.ne' this
    exact sum_lt_sum (fun i _ => (hterm i).1) ⟨i, mem_univ i, (hterm i).2 hi⟩
  have : ‖T v - (c : 𝕜) • v‖ ^ 2 ≤ (h + δ) ^ 2 * Y := by
    calc ‖T v - (c : 𝕜) • v‖ ^ 2 ≤ ((h + δ) * Real.sqrt Y) ^ 2 := pow_le_pow_left₀ (norm_nonneg _) hup 2
      _ = (h + δ) ^ 2 * Y := by rw [mul_pow, Real.sq_sqrt hYpos.le]
  exact absurd hlow (not_lt.2 this)

/-- Ritz values of orthonormal vectors in which the operator is diagonal: at least as many eigenvalues lie below a bound
as Ritz values (`sign = 1`), and at least as many above a bound (`sign = -1`). -/
theorem minmax (T : E →ₗ[𝕜] E) (hT : T.IsSymmetric) (n : ℕ) (hn : finrank 𝕜 E = n) (m : ℕ) (x : Fin m → E)
    (hx : Orthonormal 𝕜 x) (θ : Fin m → ℝ) (hd : ∀ i j, ⟪x i, T (x j)⟫ = if i = j then (θ j : 𝕜) else 0)
    (sign b : ℝ) (hθ : ∀ j, sign * θ j ≤ b) :
    m ≤ (univ.filter fun i : Fin n => sign * hT.eigenvalues hn i ≤ b).card := by
  by_contra hcon
  rw [not_le] at hcon
  set S := univ.filter fun i : Fin n => sign * hT.eigenvalues hn i ≤ b with hS
  let u := hT.eigenvectorBasis hn
  let f : (Fin m → 𝕜) →ₗ[𝕜] (S → 𝕜) :=
    { toFun := fun y i => ⟪u i, ∑ j, y j • x j⟫
      map_add' := by
        intro y z; funext i
        simp only [Pi.add_apply, add_smul, sum_add_distrib, inner_add_right]
      map_smul' := by
        intro c y; funext i
        simp only [Pi.smul_apply, smul_eq_mul, RingHom.id_apply, mul_smul, ← smul_sum, inner_smul_right] }
  have hker : LinearMap.ker f ≠ ⊥ := by
    apply LinearMap.ker_ne_bot_of_finrank_lt
    simpa using hcon
  obtain ⟨y, hy, hy0⟩ := Submodule.exists_mem_ne_zero_of_ne_bot hker
  set v := ∑ j, y j • x j with hv
  have hvn : ‖v‖ ^ 2 = ∑ j, ‖y j‖ ^ 2 := by
    have h1 := hx.inner_sum y y univ
    rw [inner_self_eq_norm_sq_to_K] at h1
    have h2 : ((∑ j, ‖y j‖ ^ 2 : ℝ) : 𝕜) = ∑ j, (starRingEnd 𝕜) (y j) * y j := by
      push_cast
      refine sum_congr rfl fun j _ => ?_
      rw [RCLike.conj_mul]
    rw [← h2] at h1
    exact_mod_cast h1
  have hYpos : 0 < ∑ j, ‖y j‖ ^ 2 := by
    obtain ⟨j, hj⟩ : ∃ j, y j ≠ 0 := by
      by_contra h
      push Not at h
      exact hy0 (funext h)
    have : 0 < ‖y j‖ ^ 2 := by positivity
    exact lt_of_lt_of_le this (single_le_sum (f := fun j => ‖y j‖ ^ 2) (fun i _ => by positivity) (mem_univ j))
  have hsq : ∀ z : E, ‖z‖ ^ 2 = ∑ i, ‖u.repr z i‖ ^ 2 := by
    intro z
    rw [← u.repr.norm_map z, EuclideanSpace.norm_sq_eq]
  -- the quadratic form, twice
  have hq1 : ⟪v, T v⟫ = ((∑ j, ‖y j‖ ^ 2 * θ j : ℝ) : 𝕜) := by
    rw [hv, map_sum, sum_inner]
    push_cast
    refine sum_congr rfl fun i _ => ?_
    rw [inner_sum, sum_eq_single i]
    · rw [map_smul, inner_smul_left, inner_smul_right, hd, if_pos rfl, ← RCLike.conj_mul]; ring
    · intro j _ hne
      rw [map_smul, inner_smul_left, inner_smul_right, hd, if_neg (Ne.symm hne)]; ring
    · intro h; exact absurd (mem_univ i) h
  have hq2 : ⟪v, T v⟫ = ((∑ i, ‖u.repr v i‖ ^ 2 * hT.eigenvalues hn i : ℝ) : 𝕜) := by
    rw [← u.repr.inner_map_map, PiLp.inner_apply]
    push_cast
    refine sum_congr rfl fun i _ => ?_
    rw [hT.eigenvectorBasis_apply_self_apply hn, RCLike.inner_apply, ← RCLike.conj_mul]
    ring
  have heq : ∑ j, ‖y j‖ ^ 2 * θ j = ∑ i, ‖u.repr v i‖ ^ 2 * hT.eigenvalues hn i := by
    rw [hq1] at hq2
    exact_mod_cast hq2
  have hle : sign * ∑ j, ‖y j‖ ^ 2 * θ j ≤ b * ∑ j, ‖y j‖ ^ 2 := by
    rw [mul_sum, mul_sum]
    refine sum_le_sum fun j _ => ?_
    have := mul_le_mul_of_nonneg_right (hθ j) (sq_nonneg ‖y j‖)
    linarith
  have hlt : b * ∑ j, ‖y j‖ ^ 2 < sign * ∑ i, ‖u.repr v i‖ ^ 2 * hT.eigenvalues hn i := by
    rw [← hvn, hsq v, mul_sum, mul_sum]
    have hterm : ∀ i : Fin n, b * ‖u.repr v i‖ ^ 2 ≤ sign * (‖u.repr v i‖ ^ 2 * hT.eigenvalues hn i) ∧
        (u.repr v i ≠ 0 → b * ‖u.repr v i‖ ^ 2 < sign * (‖u.repr v i‖ ^ 2 * hT.eigenvalues hn i)) := by
      intro i
      by_cases hi : i ∈ S
      · have hz : u.repr v i = 0 := by
          have := congrFun hy ⟨i, hi⟩
          rw [u.repr_apply_apply]
          exact this
        rw [hz]
        simp
      · have hi' : b < sign * hT.eigenvalues hn i := by
          rw [hS, mem_filter] at hi
          simpa using hi
        refine ⟨?_, fun hne => ?_⟩
        · have := mul_le_mul_of_nonneg_right hi'.le (sq_nonneg ‖u.repr v i‖)
          linarith
        · have hp : 0 < ‖u.repr v i‖ ^ 2 := by positivity
          have := mul_lt_mul_of_pos_right hi' hp
          linarith
    obtain ⟨i, hi⟩ : ∃ i, u.repr v i ≠ 0 := by
      by_contra hall
      push Not at hall
      have : ‖v‖ ^ 2 = 0 := by rw [hsq]; simp [hall]
      rw [hvn] at this
      exact hYpos.ne' this
    exact sum_lt_sum (fun i _ => (hterm i).1) ⟨i, mem_univ i, (hterm i).2 hi⟩
  rw [heq] at hle
  exact absurd hlt (not_lt.2 hle)

end Verif.Spectrum
