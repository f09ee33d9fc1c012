import Verif.Proofs.RitzOrder
import Mathlib.Algebra.Order.Ring.Rat
import Mathlib.Algebra.Order.Field.Rat

/-!
# C23 — Ritz pairs are presented in target order
-/

namespace Verif.Props
open Verif Verif.Spec Verif.RitzOrder

/-- The eigenvalues the dense solver stands for: those of `H`; for `largest` the solver is applied to
`-H`, so an eigenvalue `w` of `-H` stands for the eigenvalue `-w` of `H`. -/
def C23_eigs {K : Type u} [Field K] (t : Target) (w : Nat → K) : Nat → K :=
  match t with
  | .largest => fun i => - w i
  | _ => w

/-- For every ascending list of values returned by the dense eigensolver, every target and every
(non-empty, for interior targets) list of shifts: the routine succeeds, value `i` and vector `i` of the
result are value and vector `σ i` of the input for one permutation `σ`, and the values are ordered as
the target prescribes around the shift in use. -/
theorem C23_ritz_values_in_target_order {K V : Type u} [Field K] [LinearOrder K]
    [IsStrictOrderedRing K] (t : Target) (shifts : List K) (numConverged n : Nat) (w : Nat → K)
    (z : Nat → V) (hasc : ∀ i j, i ≤ j → j < n → w i ≤ w j)
    (hshift : t = .smallest ∨ t = .largest ∨ shifts ≠ []) :
    ∃ v y σ, solveOrder t shifts numConverged n w z = .ok (v, y) ∧ IsPermOn n σ ∧
      (∀ i, i < n → v i = C23_eigs t w (σ i) ∧ y i = z (σ i)) ∧
      (∀ s, shifts[min (shifts.length - 1) numConverged]? = some s ∨ t = .smallest ∨ t = .largest →
        RitzOrdered t s n v) := by
  have hid : IsPermOn n (fun i => i) := ⟨fun _ h => h, fun _ _ _ _ h => h⟩
  by_cases ht : t ≠ .smallest ∧ t ≠ .largest
  · have hne : shifts ≠ [] := by
      rcases hshift with h | h | h
      · exact absurd h ht.1
      · exact absurd h ht.2
      · exact h
    have hpos : 0 < shifts.length := List.length_pos_iff.2 hne
    obtain ⟨s, hs⟩ : ∃ s, shifts[min (shifts.length - 1) numConverged]? = some s :=
      ⟨_, List.getElem?_eq_getElem (by omega)⟩
    obtain ⟨he, hp⟩ := permu_spec t s n w hasc ht
    have hperm := he.isPermOn
    obtain ⟨a, ha1, _, ha3, _⟩ := C18_permute_ints_gather n ⟨n, w⟩ _ hperm (Nat.le_refl n)
    obtain ⟨b, hb1, _, hb3, _⟩ := C18_permute_ints_gather n ⟨n, z⟩ _ hperm (Nat.le_refl n)
    unfold Permute.permuteInts at ha1 hb1
    refine ⟨a.data, b.data, asArray (permu t s n w) n, ?_, hperm, ?_, ?_⟩
    · unfold solveOrder
      cases t <;> first | exact absurd rfl ht.1 | exact absurd rfl ht.2 | simp only [hs, ha1, hb1]
    · intro i hi
      refine ⟨?_, hb3 i hi⟩
      have : C23_eigs t w = w := by
        cases t <;> first | exact absurd rfl ht.2 | rfl
      rw [this]
      exact ha3 i hi
    · intro s' hs' i j hij hj
      have hss : s' = s := by
        rcases hs' with h | h | h
        · rw [hs] at h; exact (Option.some.inj h).symm
        · exact absurd h ht.1
        · exact absurd h ht.2
      subst hss
      rw [ha3 i (by omega), ha3 j hj]
      have hl := he.length
      have := List.pairwise_iff_getElem.1 hp i j (by omega) (by omega) hij
      unfold asArray
      rw [dif_pos (by omega), dif_pos (by omega)]
      cases t <;> first | exact absurd rfl ht.1 | exact absurd rfl ht.2 | exact this
  · have ht' : t = .smallest ∨ t = .largest := by
      by_cases h : t = .smallest
      · exact Or.inl h
      · right; by_contra h2; exact ht ⟨h, h2⟩
    rcases ht' with rfl | rfl
    · exact ⟨w, z, fun i => i, rfl, hid, fun i _ => ⟨rfl, rfl⟩,
        fun s _ i j hij hj => hasc i j (by omega) hj⟩
    · exact ⟨fun i => - w i, z, fun i => i, rfl, hid, fun i _ => ⟨rfl, rfl⟩,
        fun s _ i j hij hj => neg_le_neg (hasc i j (by omega) hj)⟩

/-- An interior target without shifts is not handled by this routine (it reads `targetShifts[-1]`);
the solver's input check must exclude it (see C08). -/
theorem C23_interior_needs_shift {K V : Type u} [Field K] [LinearOrder K] (t : Target)
    (numConverged n : Nat) (w : Nat → K) (z : Nat → V) (ht : t ≠ .smallest ∧ t ≠ .largest) :
    solveOrder t [] numConverged n w z = .ub := by
  unfold solveOrder
  cases t <;> first | exact absurd rfl ht.1 | exact absurd rfl ht.2 | rfl

/-! Non-vacuity: five ascending values, every interior target around 3. -/

/-- Example values 1, 2, 2, 4, 8. -/
def C23_exW : Nat → Rat := fun i => match i with | 0 => 1 | 1 => 2 | 2 => 2 | 3 => 4 | _ => 8

/-- Readable view of the result. -/
def C23_view (o : Outcome ((Nat → Rat) × (Nat → Nat))) : Option (List (Rat × Nat)) :=
  match o with
  | .ok (v, y) => some ((List.range 5).map fun i => (v i, y i))
  | _ => none

example : ∀ j : Fin 5, ∀ i : Fin 5, i ≤ j → C23_exW i ≤ C23_exW j := by decide +kernel
example : C23_view (solveOrder .closest_geq [0, 3] 1 5 C23_exW id) =
    some [(4, 3), (8, 4), (1, 0), (2, 1), (2, 2)] := by decide +kernel
example : C23_view (solveOrder .closest_leq [3] 1 5 C23_exW id) =
    some [(2, 2), (2, 1), (1, 0), (8, 4), (4, 3)] := by decide +kernel
example : C23_view (solveOrder .closest_abs [3] 0 5 C23_exW id) =
    some [(4, 3), (2, 2), (2, 1), (1, 0), (8, 4)] := by decide +kernel
example : C23_view (solveOrder .largest_abs [3] 0 5 C23_exW id) =
    some [(8, 4), (1, 0), (2, 1), (2, 2), (4, 3)] := by decide +kernel

end Verif.Props
