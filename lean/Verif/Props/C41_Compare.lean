import Verif.Model.Compare

/-!
# C41: sorting the shifts of the second stage

The C standard (7.22.5) asks of the comparison given to `qsort` that its results for the elements of the array are consistent with one
another: they define a total order.
-/

namespace Verif.Props
open Verif.SvdsRun

/-- No two elements of the array are each said to be before the other, and if one is said to be after the other then the other is before it. -/
def C41_Consistent {K : Type} (cmp : K → K → ℤ) (n : ℕ) (a : ℕ → K) : Prop :=
  ∀ i < n, ∀ j < n, i ≠ j → (cmp (a i) (a j) < 0 ↔ 0 < cmp (a j) (a i))

section
variable {K : Type} [LinearOrder K]

private theorem comp_lt (a b : K) : compDouble a b < 0 ↔ a ≤ b := by
  unfold compDouble
  split_ifs with h <;> simp [h]

private theorem comp_gt (a b : K) : 0 < compDouble a b ↔ b < a := by
  unfold compDouble
  split_ifs with h
  · simp [h]
  · simp [lt_of_not_ge h]

/-- The comparison is consistent exactly for arrays without repeated values. -/
theorem C41_compare (n : ℕ) (a : ℕ → K) :
    C41_Consistent compDouble n a ↔ ∀ i < n, ∀ j < n, i ≠ j → a i ≠ a j := by
  unfold C41_Consistent
  refine forall₂_congr (fun i _ => forall₂_congr (fun j _ => forall_congr' (fun _ => ?_)))
  rw [comp_lt, comp_gt]
  constructor
  · rintro h he
    exact absurd (h.1 (le_of_eq he)) (by rw [he]; exact lt_irrefl _)
  · exact fun h => ⟨fun hle => lt_of_le_of_ne hle h, le_of_lt⟩

/-- For such arrays the order is the ascending one. -/
theorem C41_compare_order (a b : K) (h : a ≠ b) : compDouble a b < 0 ↔ a < b := by
  rw [comp_lt]
  exact ⟨fun hle => lt_of_le_of_ne hle h, le_of_lt⟩

end

variable {K : Type} [Field K] [LinearOrder K]

/-- What the driver sorts is this array. -/
theorem C41_unsorted (o : Sys K) (aNorm : K) (numSvals initSize : ℕ) (svals rnorms : ℕ → K) :
    (bounds o aNorm numSvals initSize svals rnorms).Perm ((List.range numSvals).map (unsorted o aNorm initSize svals rnorms)) :=
  List.mergeSort_perm _ _

/-- Whenever the first stage leaves two values or more to be found, the array has repeated values, and `qsort` is given a comparison that is
not consistent: two elements are each said to be before the other. -/
theorem C41_compare_violated (o : Sys K) (aNorm : K) (numSvals initSize : ℕ) (svals rnorms : ℕ → K) (h : initSize + 2 ≤ numSvals) :
    ¬ C41_Consistent compDouble numSvals (unsorted o aNorm initSize svals rnorms) := by
  rw [C41_compare]
  intro hc
  refine hc initSize (by omega) (initSize + 1) (by omega) (by omega) ?_
  unfold unsorted
  rw [if_neg (by omega), if_neg (by omega)]

/-- Three different shifts. -/
example : C41_Consistent (K := ℕ) compDouble 3 (fun i => 5 - i) := by
  rw [C41_compare]
  intro i hi j hj hij
  omega

end Verif.Props
