import Verif.Proofs.Locking
import Mathlib.Algebra.Order.Ring.Rat
import Mathlib.Algebra.Order.Field.Rat

/-!
# C17 — locked pairs are kept in target order with their data attached

A run with locking is a sequence of restarts; every restart packs some Ritz pairs, decides by the
convergence test which of them are accepted and inserts those into the user's arrays.  At the end the
vectors are permuted.  The theorems quantify over every number of restarts, every packed pair and
every outcome of the convergence test.
-/

namespace Verif.Props
open Verif Verif.Spec Verif.Locking

variable {K V : Type u} [Field K] [LinearOrder K]

/-- The pairs accepted during the run, in order of acceptance: those whose flag is not
`UNCONVERGED` (= 0). -/
def C17_accepted (phases : List (List (Cand K V))) : List (Cand K V) :=
  phases.flatten.filter (fun c => c.flag ≠ 0)

/-- Whatever the order in which pairs are accepted, at the end of the run the first `numLocked`
entries of `evals`, `resNorms`, the flags and `evecs` list every accepted pair exactly once, with the
four pieces of data of one pair at the same position (`σ` is the permutation from positions to
acceptance order), the values are ordered as the target prescribes, and for targets with shifts a
value accepted while searching around a shift stays at a position of that shift. -/
theorem C17_locked_pairs_sorted_and_paired (t : Target) (shifts : List K) (numEvals : Nat)
    (phases : List (List (Cand K V))) (evals norms : Nat → K) (flags : Nat → Int) (vecs : Nat → V)
    (hshift : ¬ Extreme t → shifts ≠ []) (s : LState K V)
    (hrun : lockRun t shifts numEvals phases (initState evals norms flags vecs) = .ok s) :
    ∃ f σ, finish numEvals s = .ok f ∧ f.numLocked = (C17_accepted phases).length ∧
      f.numLocked ≤ numEvals ∧ IsPermOn f.numLocked σ ∧
      (∀ i, i < f.numLocked → ∃ h : σ i < (C17_accepted phases).length,
        f.evals i = (C17_accepted phases)[σ i].val ∧
        f.norms i = (C17_accepted phases)[σ i].norm ∧
        f.flags i = (C17_accepted phases)[σ i].flag ∧
        f.vecs i = (C17_accepted phases)[σ i].vec) ∧
      Ordered t shifts f.numLocked f.evals ∧
      (¬ Extreme t → ∀ i, i < f.numLocked → shiftOf shifts (σ i) = shiftOf shifts i) := by
  have hs : Extreme t ∨ shifts ≠ [] := by
    by_cases h : Extreme t
    · exact Or.inl h
    · exact Or.inr (hshift h)
  obtain ⟨hg, hle⟩ := lockRun_good t shifts hs numEvals phases [] _ s
    (good_init t shifts evals norms flags vecs) (by simp) hrun
  have hacc : [] ++ accepted phases.flatten = C17_accepted phases := by
    rfl
  rw [hacc] at hg hle
  have hp : IsPermOn s.numLocked s.perm := by rw [hg.len]; exact hg.perm
  obtain ⟨out, h1, _, h3, _⟩ := C18_permute_ints_gather s.numLocked ⟨numEvals, s.vecs⟩ s.perm hp
    (by rw [hg.len]; exact hle)
  refine ⟨{ s with vecs := out.data }, s.perm, ?_, hg.len, by rw [hg.len]; exact hle, hp, ?_, ?_, ?_⟩
  · unfold finish
    unfold Permute.permuteInts at h1
    rw [h1]
  · intro i hi
    simp only at hi ⊢
    rw [hg.len] at hi
    obtain ⟨hh, e1, e2, e3⟩ := hg.data i hi
    refine ⟨hh, e1, e2, e3, ?_⟩
    rw [h3 i (by rw [hg.len]; exact hi)]
    exact hg.vec _ hh
  · simp only
    rw [hg.len]
    exact runOrdered_iff t shifts _ _ hg.ord
  · intro hx i hi
    simp only at hi
    rw [hg.len] at hi
    have := hg.run i hi
    unfold effShift at this
    cases t <;> simp_all [Extreme]

/-- Progress: as long as no restart packs more pairs than there are free slots, every locking phase
completes (no out of range access), so the hypothesis of the theorem above is met by every run. -/
theorem C17_lock_phase_completes (t : Target) (shifts : List K) (numEvals : Nat)
    (done : List (List (Cand K V))) (next : List (Cand K V)) (evals norms : Nat → K)
    (flags : Nat → Int) (vecs : Nat → V) (hshift : ¬ Extreme t → shifts ≠ []) (s : LState K V)
    (hrun : lockRun t shifts numEvals done (initState evals norms flags vecs) = .ok s)
    (hfit : next.length ≤ numEvals - s.numLocked) :
    ∃ s', lockPhase t shifts numEvals next s = .ok s' := by
  have hs : Extreme t ∨ shifts ≠ [] := by
    by_cases h : Extreme t
    · exact Or.inl h
    · exact Or.inr (hshift h)
  obtain ⟨hg, hle⟩ := lockRun_good t shifts hs numEvals done [] _ s
    (good_init t shifts evals norms flags vecs) (by simp) hrun
  obtain ⟨s', h, _⟩ := lockPhase_good t shifts hs numEvals next _ s hg (by rw [← hg.len]; exact hfit)
  exact ⟨s', h⟩

/-! Non-vacuity: two restarts, three accepted pairs (one rejected), arriving out of order, target
`smallest`; and a `closest_abs` run with shifts 1, 5, 5. -/

/-- Example run data. -/
def C17_exPhases : List (List (Cand Rat String)) :=
  [[⟨7, 1, "seven", 1⟩, ⟨9, 5, "nine", 0⟩, ⟨2, 3, "two", 1⟩], [⟨4, 2, "four", 2⟩]]

/-- Readable view of the final arrays. -/
def C17_view (o : Outcome (LState Rat String)) : Option (List (Rat × Rat × Int × String)) :=
  match o with
  | .ok s => some ((List.range s.numLocked).map fun i => (s.evals i, s.norms i, s.flags i, s.vecs i))
  | _ => none

/-- Run and finish. -/
def C17_exRun (t : Target) (shifts : List Rat) : Option (List (Rat × Rat × Int × String)) :=
  match lockRun t shifts 5 C17_exPhases (initState (fun _ => 0) (fun _ => 0) (fun _ => 0) (fun _ => "")) with
  | .ok s => C17_view (finish 5 s)
  | _ => none

example : C17_exRun .smallest [] = some [(2, 3, 1, "two"), (4, 2, 2, "four"), (7, 1, 1, "seven")] := by
  decide +kernel
example : C17_exRun .closest_abs [1, 5] =
    some [(7, 1, 1, "seven"), (4, 2, 2, "four"), (2, 3, 1, "two")] := by
  decide +kernel

end Verif.Props
