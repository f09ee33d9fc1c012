import Verif.Model.Lapack

/-!
# Specification of how failures are reported

doc/source/appendix.rst, section on error codes: -1 for unexpected failures, -2 when memory cannot be allocated, and -40 when "some LAPACK
function performing a factorization returned an error code".
-/

namespace Verif.Lapack

/-- A LAPACK function returned an error code. -/
def Failed (t : List Ev) : Prop := ∃ name s w info, Ev.call name s w info ∈ t ∧ info ≠ 0

/-- The code returned tells what went wrong, and zero is returned only if nothing did. -/
def Honest (r : Res) : Prop :=
  (r.ret = 0 ∧ ¬ Failed r.trace ∧ Ev.noMem ∉ r.trace ∧ ∀ x, Ev.tooBig x ∉ r.trace) ∨
  (r.ret = -40 ∧ Failed r.trace) ∨
  (r.ret = -2 ∧ Ev.noMem ∈ r.trace ∧ ¬ Failed r.trace) ∨
  (r.ret = -1 ∧ (∃ x, Ev.tooBig x ∈ r.trace) ∧ ¬ Failed r.trace)

/-- Every call is made with these sizes. -/
def CalledWith (t : List Ev) (sizes : List ℤ) : Prop := ∀ name s w info, Ev.call name s w info ∈ t → s = sizes

/-- The length of every workspace is that of a workspace allocated before, and no less than LAPACK asked for; the others are queries. -/
def Workspace (work : ℤ) (t : List Ev) : Prop := ∀ t1 t2 name s w info, t = t1 ++ Ev.call name s (some w) info :: t2 →
  w = -1 ∨ (Ev.alloc w ∈ t1 ∧ work ≤ w)

end Verif.Lapack
