import Verif.Proofs.Permute

/-!
# C18 — in-place vector permutation is a gather

`permute_vecs` (src/linalg/auxiliary.c:716-793) reorders the columns of a matrix in place.
-/

namespace Verif.Props
open Verif.Mem Verif.Spec Verif.Permute

/-- For every matrix (`m` rows, `n` columns, leading dimension `ld ≥ m`, stored in an array large
enough) and every permutation `π`, the routine succeeds, column `i` of the result is column `π i` of
the input, and every address that is not an entry of the matrix (padding rows, rest of the array) is
unchanged. -/
theorem C18_permute_vecs_gather {α : Type u} (m n ld : Nat) (vecs : Buf α) (π : Nat → Nat)
    (hπ : IsPermOn n π) (hld : m ≤ ld) (hfit : ∀ i, i < n → i * ld + m ≤ vecs.size) :
    ∃ out, permuteVecs m n ld vecs π = some out ∧ out.size = vecs.size ∧
      (∀ i r, i < n → r < m → out.data (i * ld + r) = vecs.data (π i * ld + r)) ∧
      (∀ a, ¬ InMatrix m n ld a → out.data a = vecs.data a) := by
  have hI : Inv m n ld vecs π ∅ vecs π :=
    ⟨rfl, by simp, by simp, by simp, fun _ _ _ => rfl, fun _ _ _ _ _ => rfl, fun _ _ => rfl⟩
  obtain ⟨b', p', D', h1, h2, h3⟩ :=
    outer_spec hπ hld hfit n 0 ∅ vecs π (by omega) hI (by simp) (by intro i hi; omega)
  have hp' : ∀ i, i < n → p' i = i := by
    intro i hi
    by_cases hD : i ∈ D'
    · exact h2.doneP i hD
    · rw [h2.todoP i hi hD]
      rcases h3 i hi with h | h
      · exact absurd h hD
      · exact h
  refine ⟨b', ?_, h2.size, ?_, h2.frame⟩
  · unfold permuteVecs
    simpa [permCheck_iff.2 hπ, h1] using hp'
  · intro i r hi hr
    by_cases hD : i ∈ D'
    · exact h2.doneV i hD r hr
    · rw [h2.todoV i hi hD r hr]
      rcases h3 i hi with h | h
      · exact absurd h hD
      · rw [h]

/-- The debug-mode check at the head of the routine accepts exactly the permutations, so anything
else is caught before a vector moves (in builds with assertions). -/
theorem C18_permute_vecs_rejects {α : Type u} (m n ld : Nat) (vecs : Buf α) (π : Nat → Nat)
    (hπ : ¬ IsPermOn n π) : permuteVecs m n ld vecs π = none := by
  unfold permuteVecs
  rw [if_neg (by rw [permCheck_iff]; exact hπ)]

/-- The integer version: `vecs[i] = old vecs[π i]` for `i < n`, everything else unchanged. -/
theorem C18_permute_ints_gather {α : Type u} (n : Nat) (vecs : Buf α) (π : Nat → Nat)
    (hπ : IsPermOn n π) (hfit : n ≤ vecs.size) :
    ∃ out, permuteInts n vecs π = some out ∧ out.size = vecs.size ∧
      (∀ i, i < n → out.data i = vecs.data (π i)) ∧ (∀ a, n ≤ a → out.data a = vecs.data a) := by
  obtain ⟨out, h1, h2, h3, h4⟩ :=
    C18_permute_vecs_gather 1 n 1 vecs π hπ (Nat.le_refl 1) (by intro i hi; omega)
  refine ⟨out, h1, h2, ?_, ?_⟩
  · intro i hi
    simpa using h3 i 0 hi (by omega)
  · intro a ha
    apply h4
    rintro ⟨i, r, hi, hr, rfl⟩
    omega

/-! Non-vacuity: a 3-cycle plus a fixed point on 4 columns of 2 rows stored with `ld = 3`. -/

/-- The permutation 0→2→1→0, 3 fixed. -/
def C18_exPerm : Nat → Nat := fun i => match i with | 0 => 2 | 1 => 0 | 2 => 1 | i => i

example : IsPermOn 4 C18_exPerm := by rw [← permCheck_iff]; decide
example : ∀ i, i < 4 → i * 3 + 2 ≤ (12 : Nat) := by omega
example : (permuteVecs 2 4 3 ⟨12, fun a => a⟩ C18_exPerm).map
    (fun b => (List.range 12).map b.data) = some [6, 7, 2, 0, 1, 5, 3, 4, 8, 9, 10, 11] := by decide
/-- A repeated index is not a permutation, so the second theorem is not vacuous either. -/
example : ¬ IsPermOn 2 (fun _ => 0) := by rw [← permCheck_iff]; decide

end Verif.Props
