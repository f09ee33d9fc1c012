import Verif.Model.Triangle
import Verif.Spec.Triangle
import Verif.Proofs.Moves

/-!
# C40: copying a triangle, the conjugate transpose, and scaled columns

`Num_copy_trimatrix_Sprimme` announces that its operands may be less than a column apart.
-/

namespace Verif.Props
open Verif.Mat

variable {α : Type*}

private theorem cols_spec (n m : ℕ) (op : ℕ → (ℕ → α) → ℕ → α) (T : ℕ → ℕ → ℕ) (val : ℕ → ℕ → (ℕ → α) → α)
    (hop : ∀ i < n, ∀ mem, (∀ j < m, op i mem (T i j) = val i j mem) ∧ ∀ a, (∀ j < m, a ≠ T i j) → op i mem a = mem a)
    (hval : ∀ i < n, ∀ j < m, ∀ mem mem' : ℕ → α, (∀ a, (∀ i' < i, ∀ j' < m, a ≠ T i' j') → mem' a = mem a) →
      val i j mem' = val i j mem)
    (hT : ∀ i i', i < i' → i' < n → ∀ j < m, ∀ j' < m, T i j ≠ T i' j') (mem : ℕ → α) :
    (∀ i < n, ∀ j < m, (List.range n).foldl (fun mem i => op i mem) mem (T i j) = val i j mem) ∧
    ∀ a, (∀ i < n, ∀ j < m, a ≠ T i j) → (List.range n).foldl (fun mem i => op i mem) mem a = mem a := by
  induction n with
  | zero => exact ⟨fun i hi => absurd hi (by omega), fun a _ => rfl⟩
  | succ n ih =>
    obtain ⟨h1, h2⟩ := ih (fun i hi => hop i (by omega)) (fun i hi => hval i (by omega))
      (fun i i' h hi' => hT i i' h (by omega))
    rw [List.range_succ, List.foldl_append, List.foldl_cons, List.foldl_nil]
    obtain ⟨h3, h4⟩ := hop n (by omega) ((List.range n).foldl (fun mem i => op i mem) mem)
    refine ⟨fun i hi j hj => ?_, fun a ha => ?_⟩
    · by_cases hin : i = n
      · subst hin
        rw [h3 j hj]
        exact hval i (by omega) j hj _ _ h2
      · rw [h4 _ (fun j' hj' => hT i n (by omega) (by omega) j hj j' hj')]
        exact h1 i (by omega) j hj
    · rw [h4 a (fun j hj => ha n (by omega) j hj)]
      exact h2 a (fun i hi => ha i (by omega))

private theorem zeroRows_spec (z : α) (y lo hi : ℕ) (mem : ℕ → α) (a : ℕ) :
    zeroRows z y lo hi mem a = if y + lo ≤ a ∧ a < y + hi then z else mem a := by
  unfold zeroRows
  have key : ∀ k, (List.range k).foldl (fun mem k => put mem (y + lo + k) z) mem a =
      if y + lo ≤ a ∧ a < y + lo + k then z else mem a := by
    intro k
    induction k with
    | zero => exact (if_neg (by omega)).symm
    | succ k ih =>
      rw [List.range_succ, List.foldl_append, List.foldl_cons, List.foldl_nil, put]
      by_cases h : a = y + lo + k
      · rw [if_pos h, if_pos (by omega)]
      · rw [if_neg h, ih]
        by_cases h' : y + lo ≤ a ∧ a < y + lo + k
        · rw [if_pos h', if_pos (by omega)]
        · rw [if_neg h', if_neg (by omega)]
  rw [key]
  by_cases h : y + lo ≤ a ∧ a < y + hi
  · rw [if_pos h, if_pos (by omega)]
  · rw [if_neg h, if_neg (by omega)]

private theorem part_spec (overlap : Bool) (len y x : ℕ) (h : overlap = false → y ≤ x ∨ x + len ≤ y) (mem : ℕ → α) (a : ℕ) :
    (if overlap then memmove y x len mem else copyCol len y x mem) a =
      if y ≤ a ∧ a < y + len then mem (x + (a - y)) else mem a := by
  have key : ∀ {op : (ℕ → α) → ℕ → α}, Moves op (fun j => j < len) (fun j => y + j) (fun j => x + j) →
      op mem a = if y ≤ a ∧ a < y + len then mem (x + (a - y)) else mem a := by
    intro op hop
    obtain ⟨h1, h2⟩ := hop mem
    by_cases ha : y ≤ a ∧ a < y + len
    · rw [if_pos ha]
      have := h1 (a - y) (by omega)
      dsimp only at this
      rwa [show y + (a - y) = a by omega] at this
    · rw [if_neg ha]
      exact h2 a (fun j hj hc => ha (by dsimp only at hc; omega))
  cases overlap with
  | true => exact key (memmove_moves len y x)
  | false => exact key (copyCol_moves len y x (h rfl))

/-- What an entry of the target has after the copy. -/
def C40_Entry (z : α) (ul : ℤ) (i0 : ℕ) (zero : Bool) (mem : ℕ → α) (src dst i j : ℕ) (v : α) : Prop :=
  (InTri ul i0 i j → v = mem src) ∧ (¬ InTri ul i0 i j → v = if zero then z else mem dst)

open Classical in
private theorem upper_spec (z : α) (overlap : Bool) (m i0 i x y : ℕ) (zero : Bool) (mem : ℕ → α)
    (h : overlap = false → y ≤ x ∨ x + min (i0 + i + 1) m ≤ y) :
    (∀ j < m, upperCol z overlap m i0 i x y zero mem (y + j) =
      if InTri 0 i0 i j then mem (x + j) else if zero then z else mem (y + j)) ∧
    ∀ a, (∀ j < m, a ≠ y + j) → upperCol z overlap m i0 i x y zero mem a = mem a := by
  have hp := part_spec overlap (min (i0 + i + 1) m) y x h mem
  have key : ∀ a, upperCol z overlap m i0 i x y zero mem a =
      if zero = true ∧ y + min (i0 + i + 1) m ≤ a ∧ a < y + m then z
      else if y ≤ a ∧ a < y + min (i0 + i + 1) m then mem (x + (a - y)) else mem a := by
    intro a
    unfold upperCol
    cases zero with
    | false => simp [hp]
    | true =>
      simp only [if_true, zeroRows_spec, hp, true_and]
  refine ⟨fun j hj => ?_, fun a ha => ?_⟩
  · rw [key]
    unfold InTri
    by_cases hj' : j ≤ i0 + i
    · rw [if_neg (by omega), if_pos (by omega), if_pos (by simpa using hj')]
      congr 1
      omega
    · cases zero with
      | true => rw [if_pos (by simp; omega), if_neg (by simpa using hj'), if_pos rfl]
      | false => rw [if_neg (by simp), if_neg (by omega), if_neg (by simpa using hj')]; rfl
  · have hr : ¬ (y ≤ a ∧ a < y + m) := fun hc => ha (a - y) (by omega) (by omega)
    rw [key, if_neg (by omega), if_neg (by omega)]

open Classical in
private theorem lower_spec (z : α) (overlap : Bool) (m i0 i x y : ℕ) (zero : Bool) (mem : ℕ → α) (ul : ℤ) (hul : ul ≠ 0)
    (h : overlap = false → y ≤ x ∨ x + m ≤ y ∨ m ≤ i0 + i) :
    (∀ j < m, lowerCol z overlap m i0 i x y zero mem (y + j) =
      if InTri ul i0 i j then mem (x + j) else if zero then z else mem (y + j)) ∧
    ∀ a, (∀ j < m, a ≠ y + j) → lowerCol z overlap m i0 i x y zero mem a = mem a := by
  have hp : ∀ a, (if overlap then memmove (y + i0 + i) (x + i0 + i) (m - min (i0 + i) m) mem
      else copyCol (m - (i + i0)) (y + (i + i0)) (x + (i + i0)) mem) a =
      if y + (i0 + i) ≤ a ∧ a < y + m then mem (x + (a - y)) else mem a := by
    intro a
    have := part_spec overlap (m - (i + i0)) (y + (i + i0)) (x + (i + i0)) (fun ho => by have := h ho; omega) mem a
    rw [show y + i0 + i = y + (i + i0) by omega, show x + i0 + i = x + (i + i0) by omega,
      show m - min (i0 + i) m = m - (i + i0) by omega, this]
    by_cases ha : y + (i0 + i) ≤ a ∧ a < y + m
    · rw [if_pos ha, if_pos (by omega)]
      congr 1
      omega
    · rw [if_neg ha, if_neg (by omega)]
  have key : ∀ a, lowerCol z overlap m i0 i x y zero mem a =
      if zero = true ∧ y ≤ a ∧ a < y + min (i0 + i) m then z
      else if y + (i0 + i) ≤ a ∧ a < y + m then mem (x + (a - y)) else mem a := by
    intro a
    unfold lowerCol
    cases zero with
    | false => exact (hp a).trans (if_neg (fun h => Bool.false_ne_true h.1)).symm
    | true => simp only [if_true, zeroRows_spec, hp, true_and, Nat.add_zero]
  refine ⟨fun j hj => ?_, fun a ha => ?_⟩
  · rw [key]
    unfold InTri
    rw [if_neg hul]
    by_cases hj' : i0 + i ≤ j
    · rw [if_neg (by omega), if_pos (by omega), if_pos hj']
      congr 1
      omega
    · cases zero with
      | true => rw [if_pos ⟨rfl, by omega, by omega⟩, if_neg hj', if_pos rfl]
      | false => rw [if_neg (by simp), if_neg (by omega), if_neg hj']; rfl
  · have hr : ¬ (y ≤ a ∧ a < y + m) := fun hc => ha (a - y) (by omega) (by omega)
    rw [key, if_neg (by omega), if_neg (by omega)]

/-- The placements for which the copy of a triangle is correct. -/
def C40_TriSafe (m n ldx ldy x y : ℕ) : Prop :=
  x ≠ y ∧ (Apart m n ldx ldy x y ∨
    ldx = ldy ∧ (y < x ∧ x - y < ldx ∨ x < y ∧ y - x < ldx ∧ (n ≤ 1 ∨ y - x + m ≤ ldx)))

/-- Full claim: when the operands do not overlap or are less than a column apart, the triangle of the target receives the old values of
the triangle of the source, the rest of the target is zero if that is asked for and otherwise keeps its values, and nothing else is
written.

Proved for every size, both triangles and every diagonal, and every placement in `C40_TriSafe`: no overlap, any shift towards lower
addresses by less than a column, and any shift upwards into unused rows.  Missing: other shifts upwards and operands in the same place,
which are refuted below. -/
theorem C40_triangle_partial (z : α) (m n ldx : ℕ) (ul : ℤ) (i0 ldy x y : ℕ) (zero : Bool) (hx : m ≤ ldx) (hy : m ≤ ldy)
    (hs : C40_TriSafe m n ldx ldy x y) (mem : ℕ → α) :
    (∀ i < n, ∀ j < m, C40_Entry z ul i0 zero mem (x + i * ldx + j) (y + i * ldy + j) i j
      (copyTri z m n ldx ul i0 ldy x y zero mem (y + i * ldy + j))) ∧
    ∀ a, (∀ i < n, ∀ j < m, a ≠ y + i * ldy + j) → copyTri z m n ldx ul i0 ldy x y zero mem a = mem a := by
  classical
  obtain ⟨hxy, hs⟩ := hs
  have hT : ∀ i i', i < i' → i' < n → ∀ j < m, ∀ j' < m, y + i * ldy + j ≠ y + i' * ldy + j' := by
    intro i i' h _ j hj j' hj'
    have := col_step hy h
    omega
  have hS : ∀ i < n, ∀ j < m, ∀ i' < i, ∀ j' < m, x + i * ldx + j ≠ y + i' * ldy + j' := by
    intro i hi j hj i' hi' j' hj' he
    rcases hs with hs | ⟨rfl, hs⟩
    · exact hs i' (by omega) j' hj' i hi j hj he.symm
    · have h5 : (i' + 1) * ldx ≤ i * ldx := Nat.mul_le_mul_right _ hi'
      rw [Nat.add_mul] at h5
      rcases hs with hs | ⟨hs, hs', hs2⟩
      · omega
      · rcases hs2 with hs2 | hs2 <;> omega
  have hcol : ∀ i < n, decide (ldx = ldy ∧ (if y > x then y - x else x - y) < ldx) = false → ∀ len ≤ m,
      y + i * ldy ≤ x + i * ldx ∨ x + i * ldx + len ≤ y + i * ldy := by
    intro i hi ho len hlen
    rw [decide_eq_false_iff_not] at ho
    rcases hs with hs | ⟨rfl, hs⟩
    · by_contra hc
      push Not at hc
      exact hs i hi 0 (by omega) i hi (y + i * ldy - (x + i * ldx)) (by omega) (by omega)
    · exfalso
      apply ho
      refine ⟨rfl, ?_⟩
      split_ifs <;> omega
  have fin : ∀ op : ℕ → (ℕ → α) → ℕ → α, copyTri z m n ldx ul i0 ldy x y zero mem =
        (List.range n).foldl (fun mem i => op i mem) mem →
      (∀ i < n, ∀ mem, (∀ j < m, op i mem (y + i * ldy + j) =
        if InTri ul i0 i j then mem (x + i * ldx + j) else if zero then z else mem (y + i * ldy + j)) ∧
        ∀ a, (∀ j < m, a ≠ y + i * ldy + j) → op i mem a = mem a) →
      (∀ i < n, ∀ j < m, C40_Entry z ul i0 zero mem (x + i * ldx + j) (y + i * ldy + j) i j
        (copyTri z m n ldx ul i0 ldy x y zero mem (y + i * ldy + j))) ∧
      ∀ a, (∀ i < n, ∀ j < m, a ≠ y + i * ldy + j) → copyTri z m n ldx ul i0 ldy x y zero mem a = mem a := by
    intro op he hop
    obtain ⟨h1, h2⟩ := cols_spec n m op (fun i j => y + i * ldy + j)
      (fun i j mem => if InTri ul i0 i j then mem (x + i * ldx + j) else if zero then z else mem (y + i * ldy + j)) hop
      (fun i hi j hj mem mem' hm => by
        rw [hm _ (hS i hi j hj), hm _ (fun i' hi' j' hj' => (hT i' i hi' hi j' hj' j hj).symm)]) hT mem
    rw [he]
    refine ⟨fun i hi j hj => ?_, h2⟩
    have := h1 i hi j hj
    rw [this]
    exact ⟨fun h => if_pos h, fun h => if_neg h⟩
  by_cases hul : ul = 0
  · subst hul
    refine fin (fun i mem => upperCol z (decide (ldx = ldy ∧ (if y > x then y - x else x - y) < ldx)) m i0 i (x + i * ldx)
      (y + i * ldy) zero mem) ?_ (fun i hi mem => upper_spec z _ m i0 i _ _ zero mem ?_)
    · unfold copyTri
      rw [if_neg hxy]
      rfl
    · exact fun ho => hcol i hi ho _ (by omega)
  · refine fin (fun i mem => lowerCol z (decide (ldx = ldy ∧ (if y > x then y - x else x - y) < ldx)) m i0 i (x + i * ldx)
      (y + i * ldy) zero mem) ?_ (fun i hi mem => lower_spec z _ m i0 i _ _ zero mem ul hul ?_)
    · unfold copyTri
      rw [if_neg hxy]
      exact if_neg hul
    · intro ho
      have := hcol i hi ho m le_rfl
      omega

/-- A triangle copied one row up and two rows down in an array of five rows of which three are used, and to another array. -/
example : C40_TriSafe 3 4 5 5 7 6 ∧ C40_TriSafe 3 4 5 5 7 9 ∧ C40_TriSafe 2 2 2 3 0 10 := by
  refine ⟨⟨by decide, Or.inr (by omega)⟩, ⟨by decide, Or.inr (by omega)⟩, ⟨by decide, Or.inl ?_⟩⟩
  intro i hi j hj i' hi' j' hj'
  omega

/-- With the operands in the same place, at distance zero, the part that is not copied is not set to zero. -/
theorem C40_triangle_zero_violated : ∃ (m n ld x i j : ℕ) (mem : ℕ → ℕ), m ≤ ld ∧ i < n ∧ j < m ∧ ¬ InTri 0 0 i j ∧
    copyTri 0 m n ld 0 0 ld x x true mem (x + i * ld + j) ≠ 0 :=
  ⟨2, 2, 2, 0, 0, 1, id, by decide, by decide, by decide, by unfold InTri; decide, by decide⟩

/-- A shift upwards by less than a column but by more than the unused rows overwrites the beginning of the next source column before it
is read, if the rest is set to zero. -/
theorem C40_triangle_rows_violated : ∃ (m n ld x d : ℕ) (mem : ℕ → ℕ), m ≤ ld ∧ 0 < d ∧ d < ld ∧
    copyTri 0 m n ld 0 0 ld x (x + d) true mem (x + d + 1 * ld) ≠ mem (x + 1 * ld) :=
  ⟨3, 2, 4, 1, 2, id, by decide, by decide, by decide, by decide⟩

/-- **C40**, conjugate transposes: the entry in row `i` and column `j` of the target is the conjugate of the one in row `j` and column
`i` of the source, and nothing else is written. -/
theorem C40_conj (conj : α → α) (m n ldx ldy x y : ℕ) (hy : n ≤ ldy)
    (ha : ∀ i < n, ∀ j < m, ∀ i' < n, ∀ j' < m, y + j * ldy + i ≠ x + i' * ldx + j') (mem : ℕ → α) :
    (∀ i < n, ∀ j < m, copyConj conj m n ldx ldy x y mem (y + j * ldy + i) = conj (mem (x + i * ldx + j))) ∧
    ∀ a, (∀ i < n, ∀ j < m, a ≠ y + j * ldy + i) → copyConj conj m n ldx ldy x y mem a = mem a := by
  have hT : ∀ i < n, ∀ i' < n, ∀ j < m, ∀ j' < m, (i ≠ i' ∨ j ≠ j') → y + j * ldy + i ≠ y + j' * ldy + i' := by
    intro i hi i' hi' j _ j' _ hne he
    rcases Nat.lt_trichotomy j j' with h | h | h
    · have := col_step hy h
      omega
    · subst h
      omega
    · have := col_step hy h
      omega
  refine cols_spec n m (fun i mem => (List.range m).foldl
      (fun mem j => put mem (y + (j * ldy + i)) (conj (mem (x + (i * ldx + j))))) mem)
    (fun i j => y + j * ldy + i) (fun i j mem => conj (mem (x + i * ldx + j))) ?_ ?_ ?_ mem
  · intro i hi mem
    obtain ⟨h1, h2⟩ := cols_spec m 1 (fun j mem => put mem (y + (j * ldy + i)) (conj (mem (x + (i * ldx + j)))))
      (fun j _ => y + j * ldy + i) (fun j _ mem => conj (mem (x + i * ldx + j)))
      (fun j hj mem => ⟨fun _ _ => by simp [put, Nat.add_assoc], fun a ha => by
        have := ha 0 (by omega)
        rw [Nat.add_assoc] at this
        simp [put, this]⟩)
      (fun j hj _ _ mem mem' hm => by
        rw [hm _ (fun j' hj' _ _ => (ha i hi j' (by omega) i hi j hj).symm)])
      (fun j j' hjj hj' _ _ _ _ => hT i hi i hi j (by omega) j' hj' (Or.inr (by omega))) mem
    exact ⟨fun j hj => h1 j hj 0 (by omega), fun a ha => h2 a (fun j hj _ _ => ha j hj)⟩
  · intro i hi j hj mem mem' hm
    rw [hm _ (fun i' hi' j' hj' => (ha i' (by omega) j' hj' i hi j hj).symm)]
  · intro i i' h hi' j hj j' hj'
    exact hT i (by omega) i' hi' j hj j' hj' (Or.inl (by omega))

/-- A 2 x 3 matrix and a 3 x 2 one after it. -/
example : ∀ i < 3, ∀ j < 2, ∀ i' < 3, ∀ j' < 2, 6 + j * 3 + i ≠ 0 + i' * 2 + j' := by
  intro i hi j hj i' hi' j' hj'
  omega

/-- **C40**, scaled columns: `Num_scale_matrix_Sprimme` announces that its operands may overlap.  Full claim: whatever the overlap, every entry
of the target receives the old value of the corresponding entry of the source times the factor of its column, and nothing else is written.

Proved without overlap, in place, and for targets that start no later than the source with columns no further apart.  Missing: shifts upwards,
refuted below. -/
theorem C40_scale_partial {σ : Type*} (mul : σ → α → α) (m n ldx : ℕ) (s : ℕ → σ) (ldy x y : ℕ) (hx : m ≤ ldx) (hy : m ≤ ldy)
    (hs : Apart m n ldx ldy x y ∨ y ≤ x ∧ ldy ≤ ldx) (mem : ℕ → α) :
    (∀ i < n, ∀ j < m, scaleMatrix mul m n ldx s ldy x y mem (y + i * ldy + j) = mul (s i) (mem (x + i * ldx + j))) ∧
    ∀ a, (∀ i < n, ∀ j < m, a ≠ y + i * ldy + j) → scaleMatrix mul m n ldx s ldy x y mem a = mem a := by
  have hcol : ∀ (f : α → α) (x y : ℕ), (y ≤ x ∨ x + m ≤ y) → ∀ mem : ℕ → α,
      (∀ j < m, scaleCol f m x y mem (y + j) = f (mem (x + j))) ∧ ∀ a, (∀ j < m, a ≠ y + j) → scaleCol f m x y mem a = mem a := by
    intro f x y hxy mem
    obtain ⟨c1, c2⟩ := copyCol_moves (α := α) m y x hxy mem
    obtain ⟨h1, h2⟩ := cols_spec m 1 (fun j mem => put mem (y + j) (f (mem (y + j)))) (fun j _ => y + j)
      (fun j _ mem => f (mem (y + j)))
      (fun j _ mem => ⟨fun _ _ => by simp [put], fun a ha => by simp [put, ha 0 (by omega)]⟩)
      (fun j _ _ _ mem mem' hm => by rw [hm _ (fun j' hj' _ _ => by omega)])
      (fun j j' hjj _ _ _ _ _ => by omega) (copyCol m y x mem)
    refine ⟨fun j hj => ?_, fun a ha => ?_⟩
    · have h3 := h1 j hj 0 (by omega)
      have h4 := c1 j hj
      dsimp only at h4
      unfold scaleCol
      rw [h3, h4]
    · unfold scaleCol
      rw [h2 a (fun j hj _ _ => ha j hj)]
      exact c2 a ha
  refine cols_spec n m (fun i mem => scaleCol (mul (s i)) m (x + ldx * i) (y + ldy * i) mem) (fun i j => y + i * ldy + j)
    (fun i j mem => mul (s i) (mem (x + i * ldx + j))) ?_ ?_ ?_ mem
  · intro i hi mem
    have := hcol (mul (s i)) (x + i * ldx) (y + i * ldy) ?_ mem
    · rw [Nat.mul_comm ldx i, Nat.mul_comm ldy i]
      exact this
    · rcases hs with hs | ⟨h1, h2⟩
      · by_contra hc
        push Not at hc
        exact hs i hi 0 (by omega) i hi (y + i * ldy - (x + i * ldx)) (by omega) (by omega)
      · have : i * ldy ≤ i * ldx := Nat.mul_le_mul_left _ h2
        left
        omega
  · intro i hi j hj mem mem' hm
    rw [hm]
    intro i' hi' j' hj' he
    rcases hs with hs | ⟨h1, h2⟩
    · exact hs i' (by omega) j' hj' i hi j hj he.symm
    · have a1 : i' * ldy ≤ i' * ldx := Nat.mul_le_mul_left _ h2
      have := col_step hx hi'
      omega
  · intro i i' h _ j hj j' hj'
    have := col_step hy h
    omega

/-- Scaling in place. -/
example (x : ℕ) : Apart 3 4 5 5 x x ∨ x ≤ x ∧ 5 ≤ 5 := Or.inr ⟨le_rfl, le_rfl⟩

/-- Shifted upwards by one column, the second column is the first one scaled twice. -/
theorem C40_scale_violated : ∃ (m n ld x : ℕ) (s mem : ℕ → ℕ), m ≤ ld ∧ 1 < n ∧
    scaleMatrix (fun t v : ℕ => t * v) m n ld s ld x (x + ld) mem (x + ld + 1 * ld) ≠ s 1 * mem (x + 1 * ld) :=
  ⟨1, 2, 2, 0, fun _ => 3, fun k => k + 2, by decide, by decide, by decide⟩

end Verif.Props
