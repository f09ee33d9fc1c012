import Verif.Model.SvdsDriver

/-!
# What a user sees of a singular value computation, read off the list of events
-/

namespace Verif.Spec
open Verif.SvdsRun

variable {K : Type} [Field K] [LinearOrder K]

/-- Calls of the eigensolver in order: stage (`false` first, `true` second) and return value. -/
def solverCalls (l : List (Ev K)) : List (Bool × Int) :=
  l.filterMap fun e => match e with
    | .solve b _ _ _ r => some (b, r)
    | _ => none

/-- Triplets that passed the test between the stages. -/
def acceptedTriplets (l : List (Ev K)) : List ℕ :=
  l.filterMap fun e => match e with
    | .test i _ _ _ err ok => if err = 0 ∧ ok = true then some i else none
    | _ => none

/-- Triplets reported as locked. -/
def lockedTriplets (l : List (Ev K)) : List ℕ :=
  l.filterMap fun e => match e with
    | .locked i => some i
    | _ => none

/-- Triplets submitted to the test. -/
def testedTriplets (l : List (Ev K)) : List ℕ :=
  l.filterMap fun e => match e with
    | .test i _ _ _ _ _ => some i
    | _ => none

/-- Codes of failures that do not come from the eigensolver: unexpected failure (also of the user's
convergence test or monitor), failure of the user's product, type not available. -/
def driverFailure (c : Int) : Prop := c = -1 ∨ c = -41 ∨ c = -44

/-- What the driver assumes of the eigensolver: it changes neither the number of requested values nor of
constraints, returns between no and all the requested pairs, and its error codes are negative. -/
def SolverContract (o : Sys K) : Prop :=
  ∀ b p x y z, (o.solve b p x y z).p.i .numEvals = p.i .numEvals
    ∧ (o.solve b p x y z).p.i .numOrthoConst = p.i .numOrthoConst
    ∧ 0 ≤ (o.solve b p x y z).p.i .initSize
    ∧ (o.solve b p x y z).p.i .initSize ≤ max 0 (p.i .numEvals)
    ∧ 0 ≤ (o.solve b p x y z).p.i .stats_numMatvecs
    ∧ (o.solve b p x y z).ret ≤ 0

end Verif.Spec
