import Verif.Model.RitzOrder
import Verif.Spec.RitzOrder
import Verif.Props.C18_Permute
import Mathlib.Tactic.Linarith
import Mathlib.Data.List.Nodup
import Mathlib.Data.List.Range

/-! Helper lemmas for `Verif.Props.C23_RitzOrder`. -/

set_option linter.unusedSectionVars false

namespace Verif.RitzOrder
open Verif Verif.Spec

variable {K : Type u} [Field K] [LinearOrder K] [IsStrictOrderedRing K]

theorem firstGeq_spec (s : K) (h : Nat → K) : ∀ (k j : Nat),
    j ≤ firstGeq s h k j ∧ firstGeq s h k j ≤ j + k ∧
    (∀ i, j ≤ i → i < firstGeq s h k j → h i < s) ∧
    (firstGeq s h k j < j + k → s ≤ h (firstGeq s h k j)) := by
  intro k
  induction k with
  | zero => intro j; simp only [firstGeq]; exact ⟨by omega, by omega, by intro i; omega, by omega⟩
  | succ k ih =>
    intro j
    simp only [firstGeq]
    split
    · rename_i hh
      exact ⟨by omega, by omega, by intro i; omega, fun _ => hh⟩
    · rename_i hh
      obtain ⟨h1, h2, h3, h4⟩ := ih (j + 1)
      refine ⟨by omega, by omega, ?_, ?_⟩
      · intro i hi hlt
        by_cases hij : i = j
        · subst hij; exact not_le.1 hh
        · exact h3 i (by omega) hlt
      · intro hlt
        exact h4 (by omega)

theorem lastLeq_spec (s : K) (h : Nat → K) : ∀ (n : Nat),
    lastLeq s h n ≤ n ∧ (∀ i, lastLeq s h n ≤ i → i < n → s < h i) ∧
    (0 < lastLeq s h n → h (lastLeq s h n - 1) ≤ s) := by
  intro n
  induction n with
  | zero => simp [lastLeq]
  | succ n ih =>
    simp only [lastLeq]
    split
    · rename_i hh
      exact ⟨by omega, by intro i; omega, fun _ => by simpa using hh⟩
    · rename_i hh
      obtain ⟨h1, h2, h3⟩ := ih
      refine ⟨by omega, ?_, h3⟩
      intro i hi hlt
      by_cases hin : i = n
      · subst hin; exact not_le.1 hh
      · exact h2 i hi (by omega)

theorem mem_down : ∀ (n i : Nat), i ∈ down n ↔ i < n := by
  intro n
  induction n with
  | zero => simp [down]
  | succ n ih => intro i; simp only [down, List.mem_cons, ih]; omega

theorem down_pairwise : ∀ n, (down n).Pairwise (fun a b => b < a) := by
  intro n
  induction n with
  | zero => simp [down]
  | succ n ih =>
    simp only [down, List.pairwise_cons]
    exact ⟨fun a ha => (mem_down n a).1 ha, ih⟩

theorem mem_downTo (lo : Nat) : ∀ (n i : Nat), i ∈ downTo lo n ↔ lo ≤ i ∧ i < n := by
  intro n
  induction n with
  | zero => simp [downTo]
  | succ n ih =>
    intro i
    simp only [downTo]
    split
    · simp; omega
    · simp only [List.mem_cons, ih]; omega

theorem downTo_pairwise (lo : Nat) : ∀ n, (downTo lo n).Pairwise (fun a b => b < a) := by
  intro n
  induction n with
  | zero => simp [downTo]
  | succ n ih =>
    simp only [downTo]
    split
    · simp
    · simp only [List.pairwise_cons]
      exact ⟨fun a ha => ((mem_downTo lo n a).1 ha).2, ih⟩

/-- What makes a list of indices usable: it enumerates `0..n-1` without repetition. -/
structure Enum (n : Nat) (l : List Nat) : Prop where
  nodup : l.Nodup
  mem : ∀ i, i ∈ l ↔ i < n

theorem Enum.length {n : Nat} {l : List Nat} (h : Enum n l) : l.length = n := by
  have : l.Perm (List.range n) := by
    rw [List.perm_ext_iff_of_nodup h.nodup List.nodup_range]
    intro a; rw [h.mem]; simp
  simpa using this.length_eq

theorem Enum.isPermOn {n : Nat} {l : List Nat} (h : Enum n l) : IsPermOn n (asArray l n) := by
  have hl := h.length
  constructor
  · intro i hi
    unfold asArray
    rw [dif_pos (by omega)]
    exact (h.mem _).1 (List.getElem_mem _)
  · intro i j hi hj hij
    unfold asArray at hij
    rw [dif_pos (by omega), dif_pos (by omega)] at hij
    exact (List.Nodup.getElem_inj_iff h.nodup).1 hij

/-- The index set and order of the `closest_abs` merge. -/
theorem mergeAbs_spec (s : K) (h : Nat → K) (n : Nat)
    (hasc : ∀ i j, i ≤ j → j < n → h i ≤ h j) : ∀ (k i' j : Nat),
    i' ≤ j → j ≤ n → i' + (n - j) ≤ k →
    (∀ i, i < i' → h i < s) → (∀ i, j ≤ i → i < n → s ≤ h i) →
    (∀ x, x ∈ mergeAbs s h n k i' j ↔ (x < i' ∨ (j ≤ x ∧ x < n))) ∧
    (mergeAbs s h n k i' j).Pairwise (fun a b => a ≠ b ∧ |h a - s| ≤ |h b - s|) := by
  have hL : ∀ a b, a ≤ b → h b < s → b < n → |h b - s| ≤ |h a - s| := by
    intro a b hab hb hbn
    have := hasc a b hab hbn
    rw [abs_of_nonpos (by linarith), abs_of_nonpos (by linarith)]
    linarith
  have hR : ∀ a b, a ≤ b → s ≤ h a → b < n → |h a - s| ≤ |h b - s| := by
    intro a b hab ha hbn
    have := hasc a b hab hbn
    rw [abs_of_nonneg (by linarith), abs_of_nonneg (by linarith)]
    linarith
  intro k
  induction k with
  | zero =>
    intro i' j h1 h2 h3 _ _
    simp only [mergeAbs]
    refine ⟨?_, List.Pairwise.nil⟩
    intro x; simp; omega
  | succ k ih =>
    intro i' j h1 h2 h3 hl hr
    simp only [mergeAbs]
    split
    · rename_i hc
      split
      · rename_i hlt
        obtain ⟨g1, g2⟩ := ih (i' - 1) j (by omega) h2 (by omega)
          (fun i hi => hl i (by omega)) hr
        refine ⟨?_, ?_⟩
        · intro x
          simp only [List.mem_cons, g1]; omega
        · rw [List.pairwise_cons]
          refine ⟨?_, g2⟩
          intro x hx
          rw [g1] at hx
          refine ⟨by omega, ?_⟩
          rcases hx with hx | ⟨hx1, hx2⟩
          · exact hL x (i' - 1) (by omega) (hl _ (by omega)) (by omega)
          · exact le_of_lt (lt_of_lt_of_le hlt (hR j x hx1 (hr j (by omega) (by omega)) hx2))
      · rename_i hnlt
        obtain ⟨g1, g2⟩ := ih i' (j + 1) (by omega) (by omega) (by omega) hl
          (fun i hi hin => hr i (by omega) hin)
        refine ⟨?_, ?_⟩
        · intro x
          simp only [List.mem_cons, g1]; omega
        · rw [List.pairwise_cons]
          refine ⟨?_, g2⟩
          intro x hx
          rw [g1] at hx
          refine ⟨by omega, ?_⟩
          rcases hx with hx | ⟨hx1, hx2⟩
          · exact le_trans (not_lt.1 hnlt) (hL x (i' - 1) (by omega) (hl _ (by omega)) (by omega))
          · exact hR j x (by omega) (hr j (by omega) (by omega)) hx2
    · rename_i hc
      split
      · rename_i hi0
        refine ⟨?_, ?_⟩
        · intro x; simp only [List.mem_range'_1]; omega
        · refine List.Pairwise.imp_of_mem ?_ (List.pairwise_lt_range' (s := j) (n := n - j) )
          intro a b ha hb hab
          simp only [List.mem_range'_1] at ha hb
          exact ⟨by omega, hR a b (by omega) (hr a (by omega) (by omega)) (by omega)⟩
      · rename_i hi0
        refine ⟨?_, ?_⟩
        · intro x; rw [mem_down]; omega
        · refine List.Pairwise.imp_of_mem ?_ (down_pairwise i')
          intro a b ha hb hab
          rw [mem_down] at ha hb
          exact ⟨by omega, hL b a (by omega) (hl a (by omega)) (by omega)⟩

/-- For ascending values, the distance to a point is maximal at one of the two ends. -/
theorem dist_ends (s : K) (h : Nat → K) (n : Nat) (hasc : ∀ i j, i ≤ j → j < n → h i ≤ h j)
    (j i x : Nat) (hjx : j ≤ x) (hxi : x ≤ i) (hin : i < n) :
    |h x - s| ≤ |h i - s| ∨ |h x - s| ≤ |h j - s| := by
  have h1 := hasc j x hjx (by omega)
  have h2 := hasc x i hxi hin
  rcases le_total s (h x) with hs | hs
  · left
    rw [abs_of_nonneg (by linarith), abs_of_nonneg (by linarith)]; linarith
  · right
    rw [abs_of_nonpos (by linarith), abs_of_nonpos (by linarith)]; linarith

theorem scanAbs_spec (s : K) (h : Nat → K) (n : Nat)
    (hasc : ∀ i j, i ≤ j → j < n → h i ≤ h j) : ∀ (k i' j : Nat),
    i' ≤ n → i' - j ≤ k →
    (∀ x, x ∈ scanAbs s h k i' j ↔ (j ≤ x ∧ x < i')) ∧
    (scanAbs s h k i' j).Pairwise (fun a b => a ≠ b ∧ |h b - s| ≤ |h a - s|) := by
  intro k
  induction k with
  | zero =>
    intro i' j h1 h2
    simp only [scanAbs]
    exact ⟨by intro x; simp; omega, List.Pairwise.nil⟩
  | succ k ih =>
    intro i' j h1 h2
    simp only [scanAbs]
    split
    · rename_i hc
      split
      · rename_i hgt
        obtain ⟨g1, g2⟩ := ih (i' - 1) j (by omega) (by omega)
        refine ⟨?_, ?_⟩
        · intro x; simp only [List.mem_cons, g1]; omega
        · rw [List.pairwise_cons]
          refine ⟨?_, g2⟩
          intro x hx
          rw [g1] at hx
          refine ⟨by omega, ?_⟩
          rcases dist_ends s h n hasc j (i' - 1) x (by omega) (by omega) (by omega) with hd | hd
          · exact hd
          · exact le_trans hd (le_of_lt hgt)
      · rename_i hgt
        obtain ⟨g1, g2⟩ := ih i' (j + 1) (by omega) (by omega)
        refine ⟨?_, ?_⟩
        · intro x; simp only [List.mem_cons, g1]; omega
        · rw [List.pairwise_cons]
          refine ⟨?_, g2⟩
          intro x hx
          rw [g1] at hx
          refine ⟨by omega, ?_⟩
          rcases dist_ends s h n hasc j (i' - 1) x (by omega) (by omega) (by omega) with hd | hd
          · exact le_trans hd (not_lt.1 hgt)
          · exact hd
    · exact ⟨by intro x; simp; omega, List.Pairwise.nil⟩

/-- The relation that consecutive emitted indices satisfy for each interior target. -/
def emitRel (t : Target) (s : K) (h : Nat → K) (a b : Nat) : Prop :=
  match t with
  | .closest_abs => |h a - s| ≤ |h b - s|
  | .largest_abs => |h b - s| ≤ |h a - s|
  | .closest_geq => s ≤ h b → s ≤ h a ∧ h a ≤ h b
  | .closest_leq => h b ≤ s → h a ≤ s ∧ h b ≤ h a
  | _ => True

theorem permu_spec (t : Target) (s : K) (n : Nat) (h : Nat → K)
    (hasc : ∀ i j, i ≤ j → j < n → h i ≤ h j) (ht : t ≠ .smallest ∧ t ≠ .largest) :
    Enum n (permu t s n h) ∧ (permu t s n h).Pairwise (emitRel t s h) := by
  obtain ⟨f1, f2, f3, f4⟩ := firstGeq_spec s h n 0
  have hjs : ∀ i, firstGeq s h n 0 ≤ i → i < n → s ≤ h i := by
    intro i hi hin
    exact le_trans (f4 (by omega)) (hasc _ _ hi hin)
  obtain ⟨l1, l2, l3⟩ := lastLeq_spec s h n
  have hls : ∀ i, i < lastLeq s h n → h i ≤ s := by
    intro i hi
    exact le_trans (hasc _ _ (by omega) (by omega)) (l3 (by omega))
  cases t with
  | smallest => exact absurd rfl ht.1
  | largest => exact absurd rfl ht.2
  | closest_geq =>
    simp only [permu]
    generalize firstGeq s h n 0 = j at *
    refine ⟨⟨?_, ?_⟩, ?_⟩
    · rw [List.nodup_append]
      refine ⟨List.nodup_range', List.nodup_range, ?_⟩
      intro a ha b hb
      simp only [List.mem_range'_1] at ha
      simp only [List.mem_range] at hb
      omega
    · intro i
      simp only [List.mem_append, List.mem_range'_1, List.mem_range]; omega
    · rw [List.pairwise_append]
      refine ⟨?_, ?_, ?_⟩
      · refine List.Pairwise.imp_of_mem ?_ (List.pairwise_lt_range' (s := j) (n := n - j))
        intro a b ha hb hab _
        simp only [List.mem_range'_1] at ha hb
        exact ⟨hjs a (by omega) (by omega), hasc a b (by omega) (by omega)⟩
      · refine List.Pairwise.imp_of_mem ?_ (List.pairwise_lt_range (n := j))
        intro a b ha hb hab hsb
        simp only [List.mem_range] at ha hb
        exact absurd hsb (not_le.2 (f3 b (by omega) hb))
      · intro a ha b hb hsb
        simp only [List.mem_range] at hb
        exact absurd hsb (not_le.2 (f3 b (by omega) hb))
  | closest_leq =>
    simp only [permu]
    generalize lastLeq s h n = j at *
    refine ⟨⟨?_, ?_⟩, ?_⟩
    · rw [List.nodup_append]
      refine ⟨(down_pairwise j).imp (by intro a b hh; omega),
        (downTo_pairwise j n).imp (by intro a b hh; omega), ?_⟩
      intro a ha b hb
      rw [mem_down] at ha
      rw [mem_downTo] at hb
      omega
    · intro i
      simp only [List.mem_append, mem_down, mem_downTo]; omega
    · rw [List.pairwise_append]
      refine ⟨?_, ?_, ?_⟩
      · refine List.Pairwise.imp_of_mem ?_ (down_pairwise j)
        intro a b ha hb hab _
        rw [mem_down] at ha hb
        exact ⟨hls a ha, hasc b a (by omega) (by omega)⟩
      · refine List.Pairwise.imp_of_mem ?_ (downTo_pairwise j n)
        intro a b ha hb hab hsb
        rw [mem_downTo] at ha hb
        exact absurd hsb (not_le.2 (l2 b hb.1 hb.2))
      · intro a ha b hb hsb
        rw [mem_downTo] at hb
        exact absurd hsb (not_le.2 (l2 b hb.1 hb.2))
  | closest_abs =>
    simp only [permu]
    obtain ⟨g1, g2⟩ := mergeAbs_spec s h n hasc n (firstGeq s h n 0) (firstGeq s h n 0)
      (by omega) (by omega) (by omega) (fun i hi => f3 i (by omega) hi) hjs
    refine ⟨⟨g2.imp (fun hh => hh.1), ?_⟩, g2.imp (fun hh => hh.2)⟩
    intro i; rw [g1]; omega
  | largest_abs =>
    simp only [permu]
    obtain ⟨g1, g2⟩ := scanAbs_spec s h n hasc n n 0 (by omega) (by omega)
    refine ⟨⟨g2.imp (fun hh => hh.1), ?_⟩, g2.imp (fun hh => hh.2)⟩
    intro i; rw [g1]; omega

end Verif.RitzOrder
