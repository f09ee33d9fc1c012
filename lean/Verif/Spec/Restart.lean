import Verif.Model.Convergence

/-!
# Specification vocabulary for restarts

A pair is described by its position in the basis before the restart.
-/

namespace Verif.Spec
open Verif

/-- The pair at position `i` is flagged as accepted, in any way. -/
def Accepted (flags : List Conv.Flag) (i : ℕ) : Prop := ∃ f, flags[i]? = some f ∧ f ≠ .unconverged

instance (flags : List Conv.Flag) (i : ℕ) : Decidable (Accepted flags i) :=
  match h : flags[i]? with
  | some f => if hf : f ≠ .unconverged then .isTrue ⟨f, h, hf⟩ else
      .isFalse fun ⟨g, hg, hn⟩ => hf (by rw [h] at hg; rw [Option.some.inj hg]; exact hn)
  | none => .isFalse fun ⟨g, hg, _⟩ => by rw [h] at hg; cases hg

/-- Positions of the accepted pairs of a basis of `b` pairs, in order, restricted to `ok` positions, at most
`cap` of them. -/
def accepted (flags : List Conv.Flag) (b cap : ℕ) (ok : ℕ → Bool) : List ℕ :=
  ((List.range b).filter fun i => decide (Accepted flags i) && ok i).take cap

/-- The other positions, in order. -/
def others (b : ℕ) (l : List ℕ) : List ℕ := (List.range b).filter fun i => decide (i ∉ l)

/-- The members of `l` whose check, by position in `l`, says "not converged". -/
def rejected (l : List ℕ) (check : ℕ → Conv.Flag) : List ℕ :=
  ((List.range l.length).filter fun t => decide (check t = .unconverged)).map (fun t => l.getD t 0)

/-- The members of `l` whose check, by position in `l`, says anything else. -/
def passed (l : List ℕ) (check : ℕ → Conv.Flag) : List ℕ :=
  ((List.range l.length).filter fun t => decide (check t ≠ .unconverged)).map (fun t => l.getD t 0)

/-- The mark "leave it until the next restart" is taken away. -/
def unmark : Conv.Flag → Conv.Flag
  | .skip_until_restart => .unconverged
  | f => f

end Verif.Spec
