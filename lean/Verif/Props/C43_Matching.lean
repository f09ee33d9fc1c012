import Verif.Proofs.MapVecs
import Verif.Props.C18_Permute
import Verif.Model.Prepare
import Mathlib.Algebra.Order.BigOperators.Group.Finset
import Mathlib.Algebra.BigOperators.Ring.Finset
import Mathlib.Algebra.Order.Ring.Rat
import Mathlib.Algebra.Field.Rat
import Mathlib.Algebra.Order.Field.Rat
import Mathlib.Tactic.Positivity

/-! # C43: what was found about a pair is handed to the closest pair of the next projected problem

`V j` are the coefficients of the `nV` pairs of the previous projected problem, and `W i` those of the `n` pairs of the new one, both
with `m` rows.  `C43_map` is what `map_vecs` computes from them: entry `i` is the previous pair from which the new pair `i` inherits.
Exact arithmetic, real scalars. -/

namespace Verif.Props
open Verif Verif.Spec Verif.MapVecs

variable {K : Type} [Field K] [LinearOrder K] [IsStrictOrderedRing K]

/-- Inner product of two columns with `m` rows. -/
def C43_dot (m : ℕ) (x y : ℕ → K) : K := ∑ r ∈ Finset.range m, x r * y r

/-- `nrm j` is the norm of column `j`. -/
def C43_Norms (m nV : ℕ) (V : ℕ → ℕ → K) (nrm : ℕ → K) : Prop :=
  ∀ j, j < nV → 0 ≤ nrm j ∧ nrm j * nrm j = C43_dot m (V j) (V j)

/-- How close the directions of previous column `j` and new column `i` are (the cosine of the angle times the norm of `W i`). -/
def C43_close (m : ℕ) (V W : ℕ → ℕ → K) (nrm : ℕ → K) (i j : ℕ) : K := |C43_dot m (V j) (W i)| / nrm j

/-- The call of main_iter.c:1524: `n0 = 0`; `p` is what the array held before. -/
def C43_map (m : ℕ) (V W : ℕ → ℕ → K) (nrm : ℕ → K) (nV n : ℕ) (p : ℕ → ℕ) : ℕ → ℕ :=
  mapVecs (fun i j => |C43_dot m (V j) (W i)|) nrm nV 0 n p

theorem C43_norm_pos {m nV : ℕ} {V : ℕ → ℕ → K} {nrm : ℕ → K} (hn : C43_Norms m nV V nrm)
    (hne : ∀ j, j < nV → ∃ r, r < m ∧ V j r ≠ 0) : ∀ j, j < nV → 0 < nrm j := by
  intro j hj
  obtain ⟨h1, h2⟩ := hn j hj
  obtain ⟨r, hr, hv⟩ := hne j hj
  have hpos : 0 < C43_dot m (V j) (V j) := by
    unfold C43_dot
    refine Finset.sum_pos' (fun t _ => mul_self_nonneg _) ⟨r, Finset.mem_range.2 hr, ?_⟩
    exact mul_self_pos.2 hv
  rcases h1.lt_or_eq with h | h
  · exact h
  · rw [← h2, ← h] at hpos
    simp at hpos

/-- No previous pair is handed on twice and none is lost: the map is a permutation of the `n` positions, it permutes the first `nV` of
them, and the pairs that come after them keep their position. -/
theorem C43_permutation (m nV n : ℕ) (V W : ℕ → ℕ → K) (nrm : ℕ → K) (p : ℕ → ℕ) (hn : C43_Norms m nV V nrm)
    (hne : ∀ j, j < nV → ∃ r, r < m ∧ V j r ≠ 0) (hle : nV ≤ n) :
    IsPermOn n (C43_map m V W nrm nV n p) ∧ IsPermOn nV (C43_map m V W nrm nV n p) ∧
    ∀ i, nV ≤ i → i < n → C43_map m V W nrm nV n p i = i := by
  have hpos := C43_norm_pos hn hne
  have hip : ∀ i j, 0 ≤ (fun i j => |C43_dot m (V j) (W i)|) i j := fun i j => abs_nonneg _
  obtain ⟨a1, a2⟩ := map_prefix (p := p) (n := n) hip hpos hle nV (Nat.le_refl _)
  have a3 : ∀ i, nV ≤ i → i < n → C43_map m V W nrm nV n p i = i := fun i h1 h2 => map_rest (p := p) hip hpos hle h1 h2
  refine ⟨⟨fun i hi => ?_, fun i j hi hj e => ?_⟩, ⟨a1, fun i j hi hj => a2 i j hi hj⟩, a3⟩
  · by_cases h : i < nV
    · have := a1 i h
      unfold C43_map
      omega
    · rw [a3 i (by omega) hi]; exact hi
  · by_cases h1 : i < nV <;> by_cases h2 : j < nV
    · exact a2 i j h1 h2 e
    · rw [a3 j (by omega) hj] at e
      have := a1 i h1
      unfold C43_map at e
      omega
    · rw [a3 i (by omega) hi] at e
      have := a1 j h2
      unfold C43_map at e
      omega
    · rw [a3 i (by omega) hi, a3 j (by omega) hj] at e
      exact e

/-- Each new pair, in order, inherits from the closest of the previous pairs that are still free, the first of them when there are
several. -/
theorem C43_closest (m nV n : ℕ) (V W : ℕ → ℕ → K) (nrm : ℕ → K) (p : ℕ → ℕ) (hn : C43_Norms m nV V nrm)
    (hne : ∀ j, j < nV → ∃ r, r < m ∧ V j r ≠ 0) (hle : nV ≤ n) (i : ℕ) (hi : i < nV) (j : ℕ) (hj : j < nV)
    (hfree : ∀ k, k < i → C43_map m V W nrm nV n p k ≠ j) :
    C43_close m V W nrm i j ≤ C43_close m V W nrm i (C43_map m V W nrm nV n p i) ∧
    (j < C43_map m V W nrm nV n p i → C43_close m V W nrm i j < C43_close m V W nrm i (C43_map m V W nrm nV n p i)) := by
  have hpos := C43_norm_pos hn hne
  have hip : ∀ i j, 0 ≤ (fun i j => |C43_dot m (V j) (W i)|) i j := fun i j => abs_nonneg _
  rcases map_entry (p := p) hip hpos (show i < n by omega) with ⟨_, h⟩ | ⟨_, _, h⟩
  · obtain ⟨k, hk, he⟩ := h j hj
    exact absurd he (hfree k hk)
  · exact h j hj hfree

/-- The reordering of the flags that follows succeeds, for any flags, and gives each new pair the flag of the pair that it inherits from. -/
theorem C43_inherit (m nV n : ℕ) (V W : ℕ → ℕ → K) (nrm : ℕ → K) (p : ℕ → ℕ) (hn : C43_Norms m nV V nrm)
    (hne : ∀ j, j < nV → ∃ r, r < m ∧ V j r ≠ 0) (hle : nV ≤ n) {α : Type} (flags : Mem.Buf α) (hfit : n ≤ flags.size) :
    ∃ out, Permute.permuteInts n flags (C43_map m V W nrm nV n p) = some out ∧ out.size = flags.size ∧
      (∀ i, i < n → out.data i = flags.data (C43_map m V W nrm nV n p i)) ∧ ∀ a, n ≤ a → out.data a = flags.data a :=
  C18_permute_ints_gather n flags _ (C43_permutation m nV n V W nrm p hn hne hle).1 hfit

/-- Two previous pairs and three new ones with three rows: the previous pairs changed places. -/
def C43_V : ℕ → ℕ → ℚ := fun j r => match j, r with | 0, 0 => 1 | 1, 1 => 1 | _, _ => 0
def C43_W : ℕ → ℕ → ℚ := fun i r => match i, r with | 0, 0 => 3 / 5 | 0, 1 => 4 / 5 | 1, 0 => 4 / 5 | 1, 1 => -3 / 5 | 2, 2 => 1 | _, _ => 0

theorem C43_V_norms : C43_Norms 3 2 C43_V (fun _ => 1) ∧ ∀ j, j < 2 → ∃ r, r < 3 ∧ C43_V j r ≠ 0 := by
  constructor
  · intro j hj
    have : j = 0 ∨ j = 1 := by omega
    rcases this with rfl | rfl <;> exact ⟨by decide +kernel, by decide +kernel⟩
  · intro j hj
    have : j = 0 ∨ j = 1 := by omega
    rcases this with rfl | rfl
    · exact ⟨0, by omega, by decide +kernel⟩
    · exact ⟨1, by omega, by decide +kernel⟩

example : (List.range 3).map (C43_map 3 C43_V C43_W (fun _ => 1) 2 3 (fun _ => 0)) = [1, 0, 2] := by decide +kernel

/-- With a previous pair whose coefficients are all zero the same previous pair is handed on twice, which the reordering that
follows does not survive. -/
theorem C43_zero_violated : ∃ (V W : ℕ → ℕ → ℚ) (nrm : ℕ → ℚ), C43_Norms 2 2 V nrm ∧
    C43_map 2 V W nrm 2 2 (fun _ => 0) 0 = 1 ∧ C43_map 2 V W nrm 2 2 (fun _ => 0) 1 = 1 ∧
    ∀ flags : Mem.Buf ℕ, Permute.permuteInts 2 flags (C43_map 2 V W nrm 2 2 (fun _ => 0)) = none := by
  refine ⟨fun j r => if j = 1 ∧ r = 0 then 1 else 0, fun i r => if i = r then 1 else 0, fun j => if j = 1 then 1 else 0, ?_, by decide +kernel,
    by decide +kernel, fun flags => ?_⟩
  · intro j hj
    have : j = 0 ∨ j = 1 := by omega
    rcases this with rfl | rfl <;> exact ⟨by decide +kernel, by decide +kernel⟩
  · unfold Permute.permuteInts
    refine C18_permute_vecs_rejects 1 2 1 flags _ (fun h => ?_)
    have := h.2 0 1 (by omega) (by omega) (by decide +kernel)
    omega

end Verif.Props
