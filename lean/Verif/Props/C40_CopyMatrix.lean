import Verif.Proofs.Moves
import Mathlib.Data.Fin.VecNotation

/-!
# C40: copying a matrix onto an overlapping place

`Num_copy_matrix_Sprimme` announces that its operands may overlap.
-/

namespace Verif.Props
open Verif.Mat

variable {α : Type*}

/-- The placements of an `m x n` target (address `y`, leading dimension `ldy`) relative to its source for
which the copy is correct. -/
def C40_Safe (m n ldx ldy x y : ℕ) : Prop :=
  (x + (n - 1) * ldx + m ≤ y ∨ y + (n - 1) * ldy + m ≤ x) ∨
  (y ≤ x ∧ ldy ≤ ldx) ∨
  (ldx = ldy ∧ (ldx = m ∨ n ≤ 1 ∨ y - x > ldx ∨ y - x + m ≤ ldx))

/-- Full claim: whatever the overlap, every entry of the target receives the old value of the
corresponding entry of the source, and nothing else is written.

Proved for every size and every placement in `C40_Safe`: disjoint operands, a target that starts no later
than the source with columns no further apart (in particular any shift towards lower addresses), whole
contiguous matrices, and shifts upwards by less than the gap between columns or by more than one column.
The remaining placements are refuted below. -/
theorem C40_copy_matrix_partial (m n ldx ldy x y : ℕ) (hx : m ≤ ldx) (hy : m ≤ ldy)
    (hs : C40_Safe m n ldx ldy x y) :
    Moves (copyMatrix (α := α) m n ldx ldy x y) (fun q : ℕ × ℕ => q.1 < n ∧ q.2 < m)
      (fun q => y + q.1 * ldy + q.2) (fun q => x + q.1 * ldx + q.2) := by
  unfold copyMatrix
  by_cases h1 : x = y ∧ ldx = ldy
  · obtain ⟨rfl, rfl⟩ := h1
    simp only [and_self, if_true]
    exact fun mem => ⟨fun q _ => rfl, fun a _ => rfl⟩
  simp only [if_neg h1]
  by_cases h2 : m = 0 ∨ n = 0
  · simp only [if_pos h2]
    exact fun mem => ⟨fun q hq => by omega, fun a _ => rfl⟩
  simp only [if_neg h2]
  have fin : ∀ {op : (ℕ → α) → ℕ → α} {is : List ℕ}, (∀ i, i ∈ is ↔ i < n) →
      Moves op (fun q : ℕ × ℕ => q.1 ∈ is ∧ q.2 < m) (fun q => y + q.1 * ldy + q.2)
        (fun q => x + q.1 * ldx + q.2) →
      Moves op (fun q : ℕ × ℕ => q.1 < n ∧ q.2 < m)
        (fun q => y + q.1 * ldy + q.2) (fun q => x + q.1 * ldx + q.2) := by
    intro op is hm h
    refine h.congr id id ?_ ?_
    · rintro q ⟨hq1, hq2⟩; exact ⟨⟨(hm _).2 hq1, hq2⟩, rfl, rfl⟩
    · rintro q ⟨hq1, hq2⟩; exact ⟨⟨(hm _).1 hq1, hq2⟩, rfl⟩
  have dist : ∀ i i', i < i' → ∀ j j', j < m → j' < m →
      y + i * ldy + j ≠ y + i' * ldy + j' := by
    intro i i' h j j' hj hj'
    have := col_step hy h
    omega
  -- disjointness of a target column from a source column
  have apart : ∀ i i', i < n → i' < n →
      (x + (n - 1) * ldx + m ≤ y ∨ y + (n - 1) * ldy + m ≤ x) → ∀ j j', j < m → j' < m →
      y + i * ldy + j ≠ x + i' * ldx + j' := by
    intro i i' hi hi' h j j' hj hj'
    have a1 : i * ldy ≤ (n - 1) * ldy := Nat.mul_le_mul_right _ (by omega)
    have a2 : i' * ldx ≤ (n - 1) * ldx := Nat.mul_le_mul_right _ (by omega)
    omega
  by_cases h3 : ldx = ldy ∧ ldx = m
  · simp only [if_pos h3]
    obtain ⟨rfl, rfl⟩ := h3
    refine (memmove_moves (α := α) (ldx * n) y x).congr (fun q => q.1 * ldx + q.2)
      (fun k => (k / ldx, k % ldx)) ?_ ?_
    · rintro ⟨i, j⟩ ⟨hi, hj⟩
      refine ⟨?_, by dsimp only; omega, by dsimp only; omega⟩
      dsimp only at hi hj ⊢
      have : (i + 1) * ldx ≤ n * ldx := Nat.mul_le_mul_right _ hi
      rw [Nat.add_mul] at this
      rw [Nat.mul_comm ldx n]
      omega
    · intro k hk
      have hpos : 0 < ldx := by omega
      refine ⟨⟨?_, Nat.mod_lt _ hpos⟩, ?_⟩
      · exact Nat.div_lt_of_lt_mul hk
      · dsimp only
        have := Nat.div_add_mod k ldx
        rw [Nat.mul_comm] at this
        omega
  simp only [if_neg h3]
  by_cases h4 : ldx = ldy ∧ (if y > x then y - x else x - y) < ldx
  · simp only [if_pos h4]
    obtain ⟨rfl, h4⟩ := h4
    refine fin (fun i => List.mem_range) ?_
    refine cols_moves _ m (fun i => y + i * ldx) (fun i => x + i * ldx) (List.range n)
      (fun i _ => memmove_moves m _ _) ?_
    refine (List.Pairwise.and_mem.1 (range_pairwise_lt n)).imp ?_
    rintro i i' ⟨hi, hi', hlt⟩ j j' hj hj'
    rw [List.mem_range] at hi hi'
    refine ⟨dist i i' hlt j j' hj hj', ?_⟩
    rcases hs with hs | ⟨hs, -⟩ | ⟨-, hs | hs | hs | hs⟩
    · exact apart i i' hi hi' hs j j' hj hj'
    · have := col_step hx hlt
      omega
    · exact absurd ⟨rfl, hs⟩ h3
    · omega
    · split_ifs at h4 <;> omega
    · have h5 : (i + 1) * ldx ≤ i' * ldx := Nat.mul_le_mul_right _ hlt
      rw [Nat.add_mul] at h5
      by_cases hyx : y ≤ x
      · omega
      · omega
  simp only [if_neg h4]
  by_cases h5 : ldx = ldy ∧ y > x ∧ y - x > ldx
  · simp only [if_pos h5]
    obtain ⟨rfl, h5, h6⟩ := h5
    refine fin (is := (List.range n).reverse) (fun i => by simp) ?_
    refine cols_moves _ m (fun i => y + i * ldx) (fun i => x + i * ldx) (List.range n).reverse
      (fun i _ => copyCol_moves m _ _ (by right; omega)) ?_
    rw [List.pairwise_reverse]
    refine (List.Pairwise.and_mem.1 (range_pairwise_lt n)).imp ?_
    rintro i i' ⟨hi, hi', hlt⟩ j j' hj hj'
    refine ⟨(dist i i' hlt j' j hj' hj).symm, ?_⟩
    have := col_step hx hlt
    omega
  simp only [if_neg h5]
  refine fin (fun i => List.mem_range) ?_
  have hself : ∀ i < n, y + i * ldy ≤ x + i * ldx ∨ x + i * ldx + m ≤ y + i * ldy := by
    intro i hi
    rcases hs with hs | ⟨hs, hs2⟩ | ⟨rfl, hs⟩
    · have a1 : i * ldy ≤ (n - 1) * ldy := Nat.mul_le_mul_right _ (by omega)
      have a2 : i * ldx ≤ (n - 1) * ldx := Nat.mul_le_mul_right _ (by omega)
      rcases hs with hs | hs
      · right
        omega
      · left
        omega
    · have : i * ldy ≤ i * ldx := Nat.mul_le_mul_left _ hs2
      left; omega
    · by_cases hyx : y ≤ x
      · left; omega
      · right
        have : ¬ (y - x < ldx) := fun c => h4 ⟨rfl, by rw [if_pos (by omega)]; exact c⟩
        omega
  refine cols_moves _ m (fun i => y + i * ldy) (fun i => x + i * ldx) (List.range n)
    (fun i hi => copyCol_moves m _ _ (hself i (List.mem_range.1 hi))) ?_
  refine (List.Pairwise.and_mem.1 (range_pairwise_lt n)).imp ?_
  rintro i i' ⟨hi, hi', hlt⟩ j j' hj hj'
  rw [List.mem_range] at hi hi'
  refine ⟨dist i i' hlt j j' hj hj', ?_⟩
  rcases hs with hs | ⟨hs, hs2⟩ | ⟨rfl, hs⟩
  · exact apart i i' hi hi' hs j j' hj hj'
  · have a1 : i * ldy ≤ i * ldx := Nat.mul_le_mul_left _ hs2
    have := col_step hx hlt
    omega
  · by_cases hyx : y ≤ x
    · have := col_step hx hlt
      omega
    · exfalso
      rcases hs with hs | hs | hs | hs
      · exact h3 ⟨rfl, hs⟩
      · omega
      · exact h5 ⟨rfl, by omega, hs⟩
      · exact h4 ⟨rfl, by rw [if_pos (by omega)]; omega⟩

/-- A shift by one row upwards in a 4-row array of which 3 rows are used, and a compaction. -/
example : C40_Safe 3 5 4 4 0 1 ∧ C40_Safe 3 5 7 3 0 0 := by unfold C40_Safe; omega

/-- A shift by exactly one column upwards is done in ascending order (the test reads `y - x > ldx` where
`>=` is needed): the second column of the target receives the first column of the source. -/
theorem C40_shift_one_column_violated : ∃ (m n ld x : ℕ) (mem : ℕ → ℕ), m ≤ ld ∧
    copyMatrix m n ld ld x (x + ld) mem (x + ld + 1 * ld) = mem x ∧
    mem x ≠ mem (x + 1 * ld) :=
  ⟨1, 2, 2, 0, id, by decide, by decide, by decide⟩

/-- A shift upwards by less than a column but by more than the unused rows overwrites the beginning of
the next source column before it is read. -/
theorem C40_shift_rows_violated : ∃ (m n ld x d : ℕ) (mem : ℕ → ℕ), m ≤ ld ∧ d < ld ∧
    copyMatrix m n ld ld x (x + d) mem (x + d + 1 * ld) ≠ mem (x + 1 * ld) :=
  ⟨3, 2, 4, 0, 2, id, by decide, by decide, by decide⟩

end Verif.Props
