import Mathlib.Data.List.Basic
import Mathlib.Data.Nat.Notation

/-!
# What the clusters of the refined extraction should be

Nothing here depends on the model: columns are numbered, `far q w` says that the last column of `w` is far enough from the one
before it, `w` being the columns from `q` on.
-/

namespace Verif.Spec

variable {C : Type}

/-- The columns from `p` up to, but not including, `e` are cut in segments: within a segment no column is far from the one before
it, and a segment ends at a column that is far or at the end of the basis.  The list has the segments of two or more columns. -/
inductive Segmented (far : ℕ → List C → Bool) (col : ℕ → C) (b p : ℕ) : ℕ → List (ℕ × ℕ) → Prop
  | start : Segmented far col b p p []
  | single (q : ℕ) (cl : List (ℕ × ℕ)) (h : Segmented far col b p q cl) (hb : q + 1 ≤ b)
      (hend : q + 1 < b → far q ((List.range' q 2).map col) = true) : Segmented far col b p (q + 1) cl
  | several (q e : ℕ) (cl : List (ℕ × ℕ)) (h : Segmented far col b p q cl) (hq : q + 1 < e) (hb : e ≤ b)
      (hin : ∀ k, q < k → k < e → far q ((List.range' q (k + 1 - q)).map col) = false)
      (hend : e < b → far q ((List.range' q (e + 1 - q)).map col) = true) :
      Segmented far col b p e (cl ++ [(q, e)])

/-- How many of the columns from `p` up to, but not including, `e` are eligible. -/
def eligible (unc : ℕ → Bool) (p e : ℕ) : ℕ := ((List.range e).filter (fun k => p ≤ k ∧ unc k)).length

/-- Where the last cluster ends. -/
def lastEnd (arb : ℕ) (cl : List (ℕ × ℕ)) : ℕ := (cl.getLast?.map (·.2)).getD arb

end Verif.Spec
