import Verif.Model.Correction
import Mathlib.Tactic.Linarith
import Mathlib.Tactic.Positivity
import Mathlib.Algebra.Order.Ring.Rat
import Mathlib.Algebra.Order.Field.Rat

/-!
# C34 — preconditioner and correction shifts are safe
-/

set_option linter.unusedSectionVars false

namespace Verif.Props
open Verif Verif.Correction

variable {K : Type u} [Field K] [LinearOrder K] [IsStrictOrderedRing K]

theorem C34_rd {a : List K} {i : Nat} (h : i < a.length) : rd a i = .ok a[i] := by
  unfold rd; rw [List.getElem?_eq_getElem h]

theorem C34_rdPrev {a : List K} {i : Nat} (h0 : 0 < i) (h : i < a.length) :
    rdPrev a i = .ok (a[i - 1]'(by omega)) := by
  cases i with
  | zero => omega
  | succ j => simp only [rdPrev]; rw [C34_rd (by omega)]; rfl

/-- The robust shift is always non-negative, stays within the distance to the previous value of the
list (when there is one and it is not the first iteration), and never exceeds the a-posteriori error
bound `‖r‖ √‖B⁻¹‖`, or `‖r‖² ‖B⁻¹‖ / gap` with a gap larger than the residual norm. -/
theorem C34_robust_shift_bounds (outer : Nat) (rootB invB machMax resNorm : K)
    (prev sorted : List K) (idx : Nat) (hidx : idx < sorted.length)
    (hr : 0 ≤ resNorm) (hB : 0 ≤ rootB) (hi : 0 ≤ invB) (hm : 0 ≤ machMax)
    (hlen : outer ≤ 1 ∨ 2 ≤ sorted.length) :
    ∃ eps ol, computeRobustShift outer rootB invB machMax resNorm prev sorted idx = .ok (eps, ol) ∧
      0 ≤ eps ∧ (eps ≤ resNorm * rootB ∨ ∃ gap, resNorm < gap ∧ eps ≤ resNorm * resNorm * invB / gap) ∧
      (1 < outer → (h0 : 0 < idx) → eps ≤ |sorted[idx] - sorted[idx - 1]|) ∧ ol ≤ eps := by
  unfold computeRobustShift
  by_cases ho : outer ≤ 1
  · rw [if_pos ho]
    exact ⟨_, _, rfl, mul_nonneg hr hB, Or.inl le_rfl, fun h => by omega, le_rfl⟩
  · rw [if_neg ho]
    have h2 : 2 ≤ sorted.length := by omega
    -- the two gaps
    have hgaps : ∃ lg g, (if idx = 0 ∧ sorted.length ≥ 2 then do
          let a ← rd sorted 1
          let b ← rd sorted 0
          .ok (machMax, |a - b|)
        else if idx > 0 ∧ sorted.length ≥ 2 ∧ idx + 1 < sorted.length then do
          let x ← rd sorted idx
          let l ← rdPrev sorted idx
          let u ← rd sorted (idx + 1)
          .ok (|x - l|, min |x - l| |u - x|)
        else do
          let x ← rd sorted idx
          let l ← rdPrev sorted idx
          .ok (|x - l|, |x - l|) : Outcome (K × K)) = .ok (lg, g) ∧ 0 ≤ lg ∧
          ((h0 : 0 < idx) → lg ≤ |sorted[idx] - sorted[idx - 1]|) := by
      by_cases h0 : idx = 0
      · rw [if_pos ⟨h0, h2⟩, C34_rd (show 1 < sorted.length by omega),
          C34_rd (show 0 < sorted.length by omega)]
        exact ⟨_, _, rfl, hm, fun h => by omega⟩
      · rw [if_neg (fun h => h0 h.1)]
        have hp : 0 < idx := by omega
        by_cases h3 : idx + 1 < sorted.length
        · rw [if_pos ⟨hp, h2, h3⟩, C34_rd hidx, C34_rdPrev hp hidx, C34_rd h3]
          exact ⟨_, _, rfl, abs_nonneg _, fun _ => le_rfl⟩
        · rw [if_neg (fun h => h3 h.2.2), C34_rd hidx, C34_rdPrev hp hidx]
          exact ⟨_, _, rfl, abs_nonneg _, fun _ => le_rfl⟩
    obtain ⟨lg, g, hg, hlg, hlg2⟩ := hgaps
    have hdelta : ∃ d, (if idx < prev.length then do
        let p ← rd prev idx
        let x ← rd sorted idx
        .ok |p - x|
      else .ok machMax : Outcome K) = .ok d ∧ 0 ≤ d := by
      by_cases hpv : idx < prev.length
      · rw [if_pos hpv, C34_rd hpv, C34_rd hidx]
        exact ⟨_, rfl, abs_nonneg _⟩
      · rw [if_neg hpv]
        exact ⟨_, rfl, hm⟩
    obtain ⟨d, hd, hd0⟩ := hdelta
    rw [hg, hd]
    refine ⟨_, _, rfl, ?_, ?_, ?_, min_le_right _ _⟩
    · split
      · rename_i hgr
        have : 0 < g := lt_of_le_of_lt hr hgr
        exact le_min hd0 (le_min (by positivity) hlg)
      · exact le_min (mul_nonneg hr hB) hlg
    · split
      · rename_i hgr
        exact Or.inr ⟨g, hgr, le_trans (min_le_right _ _) (min_le_left _ _)⟩
      · exact Or.inl (min_le_left _ _)
    · intro _ h0
      split
      · exact le_trans (le_trans (min_le_right _ _) (min_le_right _ _)) (hlg2 h0)
      · exact le_trans (min_le_right _ _) (hlg2 h0)

/-- Extreme targets: with values in target order, the shift lies between the previous value of the
list (if any) and the Ritz value itself, on the safe side of the Ritz value. -/
theorem C34_extreme_shift_between_partial (t : Target) (ht : t = .smallest ∨ t = .largest) (outer : Nat)
    (rootB invB machMax resNorm : K) (prev sorted : List K) (idx : Nat) (hidx : idx < sorted.length)
    (hsort : sorted.Pairwise (fun a b => match t with | .smallest => a ≤ b | _ => b ≤ a))
    (hr : 0 ≤ resNorm) (hB : 0 ≤ rootB) (hi : 0 ≤ invB) (hm : 0 ≤ machMax)
    (hlen : outer ≤ 1 ∨ 2 ≤ sorted.length) :
    ∃ σ, robustBlockShift t outer rootB invB machMax resNorm prev sorted idx = .ok σ ∧
      (t = .smallest → σ ≤ sorted[idx] ∧ ((h0 : 0 < idx) → sorted[idx - 1] ≤ σ)) ∧
      (t = .largest → sorted[idx] ≤ σ ∧ ((h0 : 0 < idx) → σ ≤ sorted[idx - 1])) := by
  obtain ⟨eps, ol, he, h0, _, _, _⟩ := C34_robust_shift_bounds outer rootB invB machMax resNorm prev
    sorted idx hidx hr hB hi hm hlen
  have hord : (hp : 0 < idx) → (t = .smallest → sorted[idx - 1] ≤ sorted[idx]) ∧
      (t = .largest → sorted[idx] ≤ sorted[idx - 1]) := by
    intro hp
    have := List.pairwise_iff_getElem.1 hsort (idx - 1) idx (by omega) hidx (by omega)
    constructor
    · intro h; subst h; exact this
    · intro h; subst h; exact this
  unfold robustBlockShift
  rw [C34_rd hidx, he]
  simp only [Outcome.bind_ok]
  rcases ht with rfl | rfl
  · dsimp only
    by_cases hp : idx > 0
    · rw [if_pos hp, C34_rdPrev hp hidx]
      exact ⟨_, rfl, fun _ => ⟨max_le (by linarith) ((hord hp).1 rfl), fun _ => le_max_right _ _⟩,
        fun h => absurd h (by simp)⟩
    · rw [if_neg hp]
      exact ⟨_, rfl, fun _ => ⟨by linarith, fun h => absurd h hp⟩, fun h => absurd h (by simp)⟩
  · dsimp only
    by_cases hp : idx > 0
    · rw [if_pos hp, C34_rdPrev hp hidx]
      exact ⟨_, rfl, fun h => absurd h (by simp),
        fun _ => ⟨le_min (by linarith) ((hord hp).2 rfl), fun _ => min_le_right _ _⟩⟩
    · rw [if_neg hp]
      exact ⟨_, rfl, fun h => absurd h (by simp), fun _ => ⟨by linarith, fun h => absurd h hp⟩⟩

/-- The restriction `2 ≤ sorted.length` above cannot be dropped: from the second outer iteration on,
with a single Ritz value in the basis and nothing locked, the code reads one element before the array
(correction.c:569-570). -/
theorem C34_single_ritz_value_violated (outer : Nat) (ho : 1 < outer) (rootB invB machMax resNorm x : K)
    (prev : List K) (t : Target) :
    robustBlockShift t outer rootB invB machMax resNorm prev [x] 0 = .ub := by
  unfold robustBlockShift computeRobustShift
  rw [if_neg (by omega)]
  simp [rd, rdPrev]

/-- Interior targets: the shift lies in the closed interval between the user's target shift and the
Ritz value (unless the Ritz value hits the target exactly with a zero residual). -/
theorem C34_interior_shift_between_partial (refined : Bool) (rootB resNorm target ritz : K)
    (hr : 0 ≤ resNorm) (hB : 0 ≤ rootB) (hne : ritz ≠ target ∨ 0 < resNorm * rootB) :
    ∃ σ, interiorShift refined rootB resNorm target ritz = .ok σ ∧
      min target ritz ≤ σ ∧ σ ≤ max target ritz := by
  unfold interiorShift
  split
  · exact ⟨_, rfl, min_le_left _ _, le_max_left _ _⟩
  · rename_i hlt
    split
    · exact ⟨_, rfl, min_le_right _ _, le_max_right _ _⟩
    · have hrt : ritz ≠ target := by
        rcases hne with h | h
        · exact h
        · intro he
          rw [he] at hlt
          simp only [sub_self, abs_zero] at hlt
          exact hlt h
      have hd : target - ritz ≠ 0 := fun h => hrt (by linarith)
      rw [if_neg (by simpa using hd)]
      refine ⟨_, rfl, ?_⟩
      have hρ : 0 ≤ resNorm * rootB := mul_nonneg hr hB
      have hle : resNorm * rootB ≤ |ritz - target| := not_lt.1 hlt
      rcases lt_or_gt_of_ne hrt with h | h
      · have h1 : |target - ritz| = target - ritz := abs_of_pos (by linarith)
        have h2 : |ritz - target| = target - ritz := by rw [abs_sub_comm]; exact h1
        rw [h1, mul_div_assoc, div_self hd, mul_one, min_eq_right (le_of_lt h), max_eq_left (le_of_lt h)]
        rw [h2] at hle
        constructor <;> linarith
      · have h1 : |target - ritz| = -(target - ritz) := abs_of_neg (by linarith)
        have h2 : |ritz - target| = ritz - target := abs_of_pos (by linarith)
        rw [h1, mul_div_assoc, div_neg, div_self hd, min_eq_left (le_of_lt h), max_eq_right (le_of_lt h)]
        rw [h2] at hle
        constructor <;> linarith

/-- … and in that excluded case the shift is not a number (0/0). -/
theorem C34_interior_shift_nan_violated (rootB target : K) :
    interiorShift false rootB 0 target target = .ub := by
  unfold interiorShift
  simp

/-! Non-vacuity: a list of three values, second outer iteration, middle value; and an interior case. -/
example : robustBlockShift .smallest 2 1 1 1000 (1/2) [1, 2, 4] [1, (2 : Rat), 4] 1 = .ok 2 := by
  decide +kernel
example : robustBlockShift .smallest 2 1 1 1000 (1/2) [1, 3, 4] [1, (2 : Rat), 4] 1 = .ok (7/4) := by
  decide +kernel
example : robustBlockShift .largest 3 1 1 1000 (1/2) [] [4, (3 : Rat)] 0 = .ok (17/4) := by
  decide +kernel
example : interiorShift false 1 (1/2) 3 (5 : Rat) = .ok (9/2) := by decide +kernel
example : interiorShift false 1 (1/2) 3 ((13/4) : Rat) = .ok 3 := by decide +kernel

end Verif.Props
