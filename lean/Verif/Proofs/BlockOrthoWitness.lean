import Verif.Spec.BlockOrtho
import Mathlib.Analysis.Matrix.Spectrum
import Mathlib.Data.Fin.Tuple.Sort
import Mathlib.Analysis.Real.Sqrt

set_option linter.unusedSectionVars false
set_option linter.unusedSimpArgs false

/-! # Block orthogonalisation: kernels over the reals that meet the contract -/

namespace Verif.BlockOrtho
open Verif Finset

/-- Every symmetric matrix has the decomposition asked for. -/
theorem exists_eig (n : ℕ) (H : ℕ → ℕ → ℝ) : ∃ Y d, IsEig n H Y d := by
  let M : Matrix (Fin n) (Fin n) ℝ := fun i j => sym H i j
  have hM : M.IsHermitian := by
    ext i j
    show star (sym H j i) = sym H i j
    rw [star_trivial]
    unfold sym
    rcases Nat.lt_trichotomy (i : ℕ) j with c | c | c
    · rw [if_neg (by omega), if_pos c.le]
    · have : i = j := Fin.ext c
      rw [this]
    · rw [if_pos c.le, if_neg (by omega)]
  let σ := Tuple.sort fun i => - hM.eigenvalues i
  have hσ : Monotone ((fun i => - hM.eigenvalues i) ∘ σ) := Tuple.monotone_sort _
  let B : Matrix (Fin n) (Fin n) ℝ := (hM.eigenvectorUnitary : Matrix (Fin n) (Fin n) ℝ)
  have hB1 : star B * B = 1 := Unitary.coe_star_mul_self hM.eigenvectorUnitary
  have hB2 : B * star B = 1 := Unitary.coe_mul_star_self hM.eigenvectorUnitary
  refine ⟨fun l i => if h : l < n ∧ i < n then B ⟨l, h.1⟩ (σ ⟨i, h.2⟩) else 0,
    fun i => if h : i < n then hM.eigenvalues (σ ⟨i, h⟩) else 0, ?_, ?_, ?_, ?_⟩
  · intro i hi j hj
    have e := congrFun (congrFun hB1 (σ ⟨i, hi⟩)) (σ ⟨j, hj⟩)
    rw [Matrix.mul_apply] at e
    simp only [Matrix.star_apply, star_trivial, Matrix.one_apply, EmbeddingLike.apply_eq_iff_eq, Fin.mk.injEq] at e
    rw [Finset.sum_range, ← e]
    exact sum_congr rfl fun l _ => by rw [dif_pos ⟨l.2, hi⟩, dif_pos ⟨l.2, hj⟩]
  · intro i hi j hj
    have e := congrFun (congrFun hB2 ⟨i, hi⟩) ⟨j, hj⟩
    rw [Matrix.mul_apply] at e
    simp only [Matrix.star_apply, star_trivial, Matrix.one_apply, Fin.mk.injEq] at e
    rw [← Equiv.sum_comp σ] at e
    rw [Finset.sum_range, ← e]
    exact sum_congr rfl fun l _ => by rw [dif_pos ⟨hi, l.2⟩, dif_pos ⟨hj, l.2⟩]
  · intro i hi j hj
    have e := congrFun (hM.mulVec_eigenvectorBasis (σ ⟨j, hj⟩)) ⟨i, hi⟩
    rw [Matrix.mulVec, dotProduct] at e
    rw [Finset.sum_range, dif_pos hj, dif_pos ⟨hi, hj⟩]
    refine Eq.trans (sum_congr rfl fun l _ => ?_) e
    rw [dif_pos ⟨l.2, hj⟩]
    rfl
  · intro i j hij hj
    rw [dif_pos hj, dif_pos (lt_of_le_of_lt hij hj)]
    have := hσ (show (⟨i, lt_of_le_of_lt hij hj⟩ : Fin n) ≤ ⟨j, hj⟩ from hij)
    simpa using this

/-- The upper triangle is that of a diagonal matrix whose entries do not increase. -/
def DiagDesc (n : ℕ) (H : ℕ → ℕ → ℝ) : Prop :=
  (∀ i j, i < j → j < n → H i j = 0) ∧ ∀ i j, i ≤ j → j < n → H j j ≤ H i i

theorem diag_eig {n : ℕ} {H : ℕ → ℕ → ℝ} (h : DiagDesc n H) :
    IsEig n H (fun i j => if i = j then 1 else 0) (fun i => H i i) := by
  refine ⟨fun i hi j hj => ?_, fun i hi j hj => ?_, fun i hi j hj => ?_, h.2⟩
  · simp only [ite_mul, one_mul, zero_mul]
    rw [sum_ite_eq' (range n) i, if_pos (mem_range.2 hi)]
  · simp only [ite_mul, one_mul, zero_mul]
    rw [sum_ite_eq (range n) i, if_pos (mem_range.2 hi)]
    exact if_congr eq_comm rfl rfl
  · simp only [mul_ite, mul_one, mul_zero]
    rw [sum_ite_eq' (range n) j, if_pos (mem_range.2 hj)]
    unfold sym
    by_cases c : i = j
    · rw [c, if_pos rfl, if_pos (Nat.le_refl _)]
    · rw [if_neg c]
      split_ifs with c2
      · exact h.1 i j (by omega) hj
      · exact h.1 j i (by omega) hi

open Classical in
/-- Exact kernels over the reals: any Cholesky factor, and an eigendecomposition which is the obvious one for a
diagonal matrix. -/
noncomputable def realKern (X : Type) (ip : X → X → ℝ) : Kern ℝ X where
  ip := ip
  sqrt := Real.sqrt
  chol := fun n H => if h : ∃ U, IsChol n U H then some h.choose else none
  eig := fun n H => if DiagDesc n H then (fun i j => if i = j then 1 else 0, fun i => H i i)
    else ((exists_eig n H).choose, (exists_eig n H).choose_spec.choose)

theorem realKern_contract (X : Type) [AddCommGroup X] [Module ℝ X] (ip : X → X → ℝ)
    (add : ∀ v x y, ip v (x + y) = ip v x + ip v y) (smul : ∀ v (a : ℝ) x, ip v (a • x) = a * ip v x)
    (symm : ∀ x y, ip x y = ip y x) (pos : ∀ x, x ≠ 0 → 0 < ip x x) : Contract (realKern X ip) := by
  refine ⟨add, smul, symm, pos, fun a ha => ⟨Real.sqrt_nonneg a, Real.mul_self_sqrt ha⟩, ?_, ?_⟩
  · intro n H U h
    simp only [realKern] at h
    split_ifs at h with c
    cases h
    exact c.choose_spec
  · intro n H
    simp only [realKern]
    split_ifs with c
    · exact diag_eig c
    · exact (exists_eig n H).choose_spec.choose_spec

theorem realKern_diag (X : Type) [AddCommGroup X] [Module ℝ X] (ip : X → X → ℝ) : CholDiag (realKern X ip) := by
  intro n H h1 h2
  have h : ∃ U, IsChol n U H := by
    refine ⟨fun i j => if i = j then Real.sqrt (H i i) else 0, fun i hi => ?_, fun i j hij hj => ?_⟩
    · dsimp only
      rw [if_pos rfl]; exact (Real.sqrt_pos.2 (h1 i hi)).ne'
    · have e : ∀ l ∈ range n, up (fun i j => if i = j then Real.sqrt (H i i) else 0) l i *
          up (fun i j => if i = j then Real.sqrt (H i i) else 0) l j =
          if l = i then (if i = j then H i i else 0) else 0 := by
        intro l _
        unfold up
        by_cases c : l = i
        · subst c
          by_cases c2 : l = j
          · subst c2
            simp [Real.mul_self_sqrt (h1 l hj).le]
          · simp [c2]
        · simp [c]
      rw [sum_congr rfl e, sum_ite_eq' (range n) i, if_pos (mem_range.2 (by omega))]
      by_cases c : i = j
      · rw [if_pos c, c]
      · rw [if_neg c, h2 i j (by omega) hj]
  exact ⟨h.choose, dif_pos h⟩

end Verif.BlockOrtho
