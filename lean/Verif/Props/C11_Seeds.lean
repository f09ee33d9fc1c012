import Verif.Model.EigsParams
import Mathlib.Data.Fin.VecNotation
import Mathlib.Data.Fintype.Pi
import Mathlib.Algebra.Field.Rat
import Mathlib.Algebra.Order.Field.Rat

/-!
# C11: random seeds
-/

namespace Verif.Props
open Verif.Eigs

theorem C11_closed (proc : Int) (hp : 0 ≤ proc) (w : Fin 4 → Int) (k : Fin 4) :
    fillSeed proc w k = if w k < 0 ∨ w k > 4095 then
      (if k = 0 then proc % 4096 else if k = 1 then (proc / 4096 + 1) % 4096
      else if k = 2 then (proc / 4096 / 4096 + 2) % 4096
      else (2 * (proc / 4096 / 4096 / 4096) + 1) % 4096) else w k := by
  unfold fillSeed
  have h1 : 0 ≤ proc / 4096 := by omega
  have h2 : 0 ≤ proc / 4096 / 4096 := by omega
  have h3 : 0 ≤ proc / 4096 / 4096 / 4096 := by omega
  rw [Int.tdiv_eq_ediv_of_nonneg hp, Int.tdiv_eq_ediv_of_nonneg h1, Int.tdiv_eq_ediv_of_nonneg h2,
    Int.tmod_eq_emod_of_nonneg hp, Int.tmod_eq_emod_of_nonneg (by omega),
    Int.tmod_eq_emod_of_nonneg (by omega), Int.tmod_eq_emod_of_nonneg (by omega)]

/-- After the driver's normalisation every seed word lies in [0, 4095], whatever the user left in the
structure and whatever the (non-negative) process number. -/
theorem C11_words_valid (proc : Int) (hp : 0 ≤ proc) (w : Fin 4 → Int) (k : Fin 4) :
    0 ≤ fillSeed proc w k ∧ fillSeed proc w k ≤ 4095 := by
  rw [C11_closed proc hp]
  split_ifs with h h0 h1 h2
  · omega
  · omega
  · omega
  · omega
  · omega

/-- A valid word given by the user is kept. -/
theorem C11_user_words_kept (proc : Int) (w : Fin 4 → Int) (k : Fin 4)
    (h : 0 ≤ w k ∧ w k ≤ 4095) : fillSeed proc w k = w k := by
  unfold fillSeed
  rw [if_neg (by omega)]

/-- With every word defaulted, two of the first 4096³ processes never get the same seed and the last
word is odd, as the random number generator of LAPACK requires. -/
theorem C11_distinct (p q : Int) (hp : 0 ≤ p ∧ p < 4096 ^ 3) (hq : 0 ≤ q ∧ q < 4096 ^ 3)
    (w v : Fin 4 → Int) (hw : ∀ k, w k < 0 ∨ w k > 4095) (hv : ∀ k, v k < 0 ∨ v k > 4095)
    (h : fillSeed p w = fillSeed q v) : p = q := by
  have e0 := congrFun h 0
  have e1 := congrFun h 1
  have e2 := congrFun h 2
  simp only [C11_closed p hp.1, C11_closed q hq.1, if_pos (hw _), if_pos (hv _), if_true, if_false,
    Fin.reduceEq] at e0 e1 e2
  omega

theorem C11_last_word_odd (p : Int) (hp : 0 ≤ p) (w : Fin 4 → Int)
    (hw : w 3 < 0 ∨ w 3 > 4095) : fillSeed p w 3 % 2 = 1 := by
  simp only [C11_closed p hp, if_pos hw, Fin.reduceEq, if_false]
  omega

/-- `primme_initialize` leaves every word to be defaulted. -/
example : ∀ k, (initParams (0 : Rat) 0 id).seed k < 0 := by decide +kernel

/-- Process 5000 of a run with fresh structures. -/
example : fillSeed 5000 (fun _ => -1) = ![904, 2, 2, 1] := by decide +kernel

/-- The bound 4096³ is sharp for the first three words; beyond it the last word takes over. -/
example : fillSeed 0 (fun _ => -1) ≠ fillSeed (4096 ^ 3) (fun _ => -1) := by decide +kernel

/-- What the normalisation does not do: an even last word given by the user, which LAPACK's generator
does not accept, is not corrected. -/
theorem C11_even_user_word_violated : ∃ w : Fin 4 → Int, (∀ k, 0 ≤ w k ∧ w k ≤ 4095) ∧
    ∀ p, fillSeed p w 3 % 2 = 0 :=
  ⟨![1, 2, 3, 4], by decide +kernel, fun p => by
    rw [C11_user_words_kept p _ 3 (by decide)]; decide⟩

/-- Nor does it make the seeds of processes different when the user gives the same first three words
everywhere. -/
theorem C11_same_user_seed_violated : ∃ w : Fin 4 → Int, (∀ k, 0 ≤ w k ∧ w k ≤ 4095) ∧
    ∀ p q, fillSeed p w = fillSeed q w :=
  ⟨![1, 2, 3, 5], by decide +kernel, fun p q => by
    funext k
    have : ∀ k, 0 ≤ (![1, 2, 3, 5] : Fin 4 → Int) k ∧ (![1, 2, 3, 5] : Fin 4 → Int) k ≤ 4095 := by
      decide +kernel
    rw [C11_user_words_kept p _ k (this k), C11_user_words_kept q _ k (this k)]⟩

end Verif.Props
