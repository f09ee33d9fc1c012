import Verif.Model.Basic
import Mathlib.Algebra.Order.Field.Basic
import Mathlib.Algebra.Order.Group.Abs

/-!
# Shifts for the preconditioner / correction equation

Model of `mergeSort` (src/eigs/correction.c:639-691), `computeRobustShift`
(src/eigs/correction.c:525-602) and of the choice of the shifts in `solve_correction_Sprimme`
(src/eigs/correction.c:213-289).  Numbers are an ordered field; `machMax` is `HOST_MACHINE_MAX`,
`rootB` is `sqrt(primme->stats.estimateInvBNorm)` and `invB` is `estimateInvBNorm`.
-/

namespace Verif.Correction
open Verif

variable {K : Type u} [Field K] [LinearOrder K]

/-- `a` is to be merged before `b`: the tests of correction.c:662-667 and 681-684. -/
def takeFirst (t : Target) (a b : K) : Bool :=
  (decide (t = .largest) && decide (a ≥ b)) || (decide (t = .smallest) && decide (a ≤ b))

/-- The loop of `mergeSort` (correction.c:653-690).  `locked` are the locked values still to merge,
`ritz` the Ritz values still to merge together with "`flags == UNCONVERGED`", `count` the next index
of `sortedRitzVals`, `room` is `blockSize - blockIndex`; `k` is the number of iterations left,
`numLocked + basisSize - count`.  The result lists what is written to `sortedRitzVals[count..]` and to
`ilev[blockIndex..]`.  Reading past the end of `ritzVals`, or leaving an entry of `sortedRitzVals`
unwritten (neither branch taken), is `ub`. -/
def merge (t : Target) : Nat → Nat → Nat → List K → List (K × Bool) → Outcome (List K × List Nat)
  | 0, _, _, _, _ => .ok ([], [])
  | k + 1, count, room, locked, ritz =>
    let ritzStep (r : K × Bool) (rs : List (K × Bool)) : Outcome (List K × List Nat) :=
      if room > 0 ∧ r.2 = true then
        match merge t k (count + 1) (room - 1) locked rs with
        | .ok (vs, il) => .ok (r.1 :: vs, count :: il)
        | .err c => .err c
        | .ub => .ub
      else
        match merge t k (count + 1) room locked rs with
        | .ok (vs, il) => .ok (r.1 :: vs, il)
        | .err c => .err c
        | .ub => .ub
    match locked, ritz with
    | [], [] => .ub
    | [], r :: rs => ritzStep r rs
    | l :: ls, [] =>
      match merge t k (count + 1) room ls [] with
      | .ok (vs, il) => .ok (l :: vs, il)
      | .err c => .err c
      | .ub => .ub
    | l :: ls, r :: rs =>
      if takeFirst t r.1 l then ritzStep r rs
      else if takeFirst t l r.1 then
        match merge t k (count + 1) room ls (r :: rs) with
        | .ok (vs, il) => .ok (l :: vs, il)
        | .err c => .err c
        | .ub => .ub
      else .ub

/-- `mergeSort(lockedEvals, numLocked, ritzVals, flags, basisSize, sortedRitzVals, ilev, blockSize)`. -/
def mergeSort (t : Target) (locked : List K) (ritz : List (K × Bool)) (blockSize : Nat) :
    Outcome (List K × List Nat) :=
  merge t (locked.length + ritz.length) 0 blockSize locked ritz

/-- `a[i]`, undefined outside of the array. -/
def rd (a : List K) (i : Nat) : Outcome K :=
  match a[i]? with
  | some x => .ok x
  | none => .ub

/-- `a[i-1]`; for `i = 0` this is `a[-1]`. -/
def rdPrev (a : List K) (i : Nat) : Outcome K :=
  match i with
  | 0 => .ub
  | j + 1 => rd a j

/-- `computeRobustShift`, correction.c:525-602.  `outer` is `stats.numOuterIterations`, `prev` are the
`numPrevRitzVals` values of the previous iteration, `idx = ilev[blockIndex]`.  Returns the shift and
`*approxOlsenShift`. -/
def computeRobustShift (outer : Nat) (rootB invB machMax resNorm : K) (prev sorted : List K)
    (idx : Nat) : Outcome (K × K) :=
  if outer ≤ 1 then .ok (resNorm * rootB, resNorm * rootB)
  else do
    let (lowerGap, gap) ←
      (if idx = 0 ∧ sorted.length ≥ 2 then do
        let a ← rd sorted 1
        let b ← rd sorted 0
        .ok (machMax, |a - b|)
      else if idx > 0 ∧ sorted.length ≥ 2 ∧ idx + 1 < sorted.length then do
        let x ← rd sorted idx
        let l ← rdPrev sorted idx
        let u ← rd sorted (idx + 1)
        .ok (|x - l|, min |x - l| |u - x|)
      else do
        let x ← rd sorted idx
        let l ← rdPrev sorted idx
        .ok (|x - l|, |x - l|) : Outcome (K × K))
    let delta ← (if idx < prev.length then do
        let p ← rd prev idx
        let x ← rd sorted idx
        .ok |p - x|
      else .ok machMax : Outcome K)
    let epsilon := if gap > resNorm then min delta (min (resNorm * resNorm * invB / gap) lowerGap)
      else min (resNorm * rootB) lowerGap
    .ok (epsilon, min delta epsilon)

/-- The preconditioning shift with `robustShifts` for the extreme targets,
correction.c:262-289: Ritz value ∓ robust shift, not beyond the previous value of the sorted list. -/
def robustBlockShift (t : Target) (outer : Nat) (rootB invB machMax resNorm : K)
    (prev sorted : List K) (idx : Nat) : Outcome K := do
  let eval ← rd sorted idx
  let (eps, _) ← computeRobustShift outer rootB invB machMax resNorm prev sorted idx
  match t with
  | .smallest =>
    if idx > 0 then do
      let l ← rdPrev sorted idx
      .ok (max (eval - eps) l)
    else .ok (eval - eps)
  | _ =>
    if idx > 0 then do
      let l ← rdPrev sorted idx
      .ok (min (eval + eps) l)
    else .ok (eval + eps)

/-- The preconditioning shift for the interior targets, correction.c:215-237.  `refined` says whether
the projection is `primme_proj_refined`.  The quotient `(target-ritz)/|target-ritz|` with
`target = ritz` is 0/0, a NaN, which is represented by `ub`. -/
def interiorShift (refined : Bool) (rootB resNorm target ritz : K) : Outcome K :=
  if |ritz - target| < resNorm * rootB then .ok target
  else if refined then .ok ritz
  else if |target - ritz| = 0 then .ub
  else .ok (ritz + resNorm * rootB * (target - ritz) / |target - ritz|)

end Verif.Correction
