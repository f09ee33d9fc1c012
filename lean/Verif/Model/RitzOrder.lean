import Verif.Model.Basic
import Verif.Model.Permute
import Mathlib.Algebra.Order.Field.Basic
import Mathlib.Algebra.Order.Group.Abs

/-!
# Ordering of the Ritz pairs

Model of the ordering part of `solve_H_RR_Sprimme`, src/eigs/solve_projection.c:187-332 (Hermitian
case).  The dense eigensolver (`Num_hegv`) is an oracle that returns values in ascending order.
-/

namespace Verif.RitzOrder
open Verif

variable {K : Type u} [Field K] [LinearOrder K]

/-- `for (j=0; j<basisSize; j++) if (hVals[j] >= targetShift) break;` started at `j`, with `k`
indices left (`j + k = basisSize`): lines 253-254 and 288-289. -/
def firstGeq (s : K) (h : Nat → K) : Nat → Nat → Nat
  | 0, j => j
  | k + 1, j => if h j ≥ s then j else firstGeq s h k (j + 1)

/-- `for (j=basisSize-1; j>=0; j--) if (hVals[j] <= targetShift) break;` lines 270-271.  The result
is `j + 1` (a natural number), so 0 stands for `j = -1`. -/
def lastLeq (s : K) (h : Nat → K) : Nat → Nat
  | 0 => 0
  | j + 1 => if h j ≤ s then j + 1 else lastLeq s h j

/-- `i, i-1, …, 0` for `i' = i + 1` (lines 276-278, 304-305). -/
def down : Nat → List Nat
  | 0 => []
  | i + 1 => i :: down i

/-- `basisSize-1, …, j+1` (lines 279-281), `lo = j + 1`. -/
def downTo (lo : Nat) : Nat → List Nat
  | 0 => []
  | i + 1 => if i < lo then [] else i :: downTo lo i

/-- The two-pointer merge for `closest_abs`, lines 291-307; `i'` is `i + 1`; `k` is the number of
indices not yet emitted. -/
def mergeAbs (s : K) (h : Nat → K) (n : Nat) : Nat → Nat → Nat → List Nat
  | 0, _, _ => []
  | k + 1, i', j =>
    if 0 < i' ∧ j < n then
      if |h (i' - 1) - s| < |h j - s| then (i' - 1) :: mergeAbs s h n k (i' - 1) j
      else j :: mergeAbs s h n k i' (j + 1)
    else if i' = 0 then List.range' j (n - j)
    else down i'

/-- The two-pointer scan for `largest_abs`, lines 310-318; `i'` is `i + 1`. -/
def scanAbs (s : K) (h : Nat → K) : Nat → Nat → Nat → List Nat
  | 0, _, _ => []
  | k + 1, i', j =>
    if i' ≥ j + 1 then
      if |h (i' - 1) - s| > |h j - s| then (i' - 1) :: scanAbs s h k (i' - 1) j
      else j :: scanAbs s h k i' (j + 1)
    else []

/-- The array `permu` (as the list of the values written to `permu[0], permu[1], …`). -/
def permu (t : Target) (s : K) (n : Nat) (h : Nat → K) : List Nat :=
  match t with
  | .closest_geq =>
    let j := firstGeq s h n 0
    List.range' j (n - j) ++ List.range j
  | .closest_leq =>
    let j' := lastLeq s h n
    down j' ++ downTo j' n
  | .closest_abs =>
    let j := firstGeq s h n 0
    mergeAbs s h n n j j
  | .largest_abs => scanAbs s h n n 0
  | _ => List.range n

/-- Reading an `int` array that was filled by consecutive writes; reading past the written part is
undefined and reported as an index that no permutation can contain. -/
def asArray (l : List Nat) (n : Nat) : Nat → Nat := fun i => if h : i < l.length then l[i] else n

/-- `solve_H_RR_Sprimme`, Hermitian case, seen from its outputs.  `w`, `z` are the values (ascending)
and vectors returned by the dense eigensolver applied to `H` (to `-H` if the target is `largest`,
lines 207-214 and 227-231).  Returns `hVals`, `hVecs`.  Interior targets read
`targetShifts[min(numTargetShifts-1, numConverged)]`: undefined without shifts. -/
def solveOrder {V : Type u} (t : Target) (shifts : List K) (numConverged n : Nat) (w : Nat → K)
    (z : Nat → V) : Outcome ((Nat → K) × (Nat → V)) :=
  match t with
  | .smallest => .ok (w, z)
  | .largest => .ok (fun i => - w i, z)
  | t =>
    match shifts[min (shifts.length - 1) numConverged]? with
    | none => .ub
    | some s =>
      let p := asArray (permu t s n w) n
      match Permute.permuteVecs 1 n 1 ⟨n, w⟩ p, Permute.permuteVecs 1 n 1 ⟨n, z⟩ p with
      | some a, some b => .ok (a.data, b.data)
      | _, _ => .ub

end Verif.RitzOrder
