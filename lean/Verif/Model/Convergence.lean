import Verif.Model.Basic
import Mathlib.Algebra.Order.Field.Basic

/-!
# Convergence decisions

Model of `check_convergence_Sprimme` and `check_practical_convergence` (src/eigs/convergence.c),
of `problemNorm_Sprimme` (src/eigs/auxiliary_eigs.c:567-591) and of the default convergence test
`convTestFunAbsolute` (src/eigs/primme_c.c:555-570).

Real numbers are an ordered field (exact comparisons, no NaN).  The user's convergence test is an
arbitrary function of a state of its own and of the value and norm it receives: it may answer
differently to the same question.  It may also fail.  Memory allocation is not modelled here (see
`MemFrames`).
-/

namespace Verif.Conv
open Verif

/-- `enum conv_flags`, src/eigs/common_eigs.h:41-46. -/
inductive Flag where
  | unconverged | skip_until_restart | converged | practically_converged
  deriving DecidableEq, Repr

variable {K : Type} [Field K] [LinearOrder K]

/-- The members of `primme_params` read by the routines of this file.  `hasB` stands for
`massMatrixMatvec != NULL`; `shifts` for the first `numTargetShifts` entries of `targetShifts`. -/
structure P (K : Type) where
  target : Target
  shifts : List K
  initSize : ℕ
  locking : Bool
  numOrthoConst : ℕ
  hasB : Bool
  aNorm : K
  invBNorm : K
  eps : K
  maxConvTol : K
  estimateResidualError : K
  estimateLargestSVal : K

/-- `problemNorm_Sprimme(overrideUserEstimations, primme)`, auxiliary_eigs.c:567-591. -/
def problemNorm (override : Bool) (p : P K) : K :=
  if ¬ override then
    if ¬ p.hasB then
      if p.aNorm > 0 then p.aNorm else p.estimateLargestSVal
    else
      if p.aNorm > 0 ∧ p.invBNorm > 0 then p.aNorm * p.invBNorm else p.estimateLargestSVal
  else
    if ¬ p.hasB then
      max (if p.aNorm > 0 then p.aNorm else 0) p.estimateLargestSVal
    else
      max (if p.aNorm > 0 ∧ p.invBNorm > 0 then p.aNorm * p.invBNorm else 0) p.estimateLargestSVal

/-- `convTestFunAbsolute`, primme_c.c:555-570; `u` is `MACHINE_EPSILON`. -/
def convTestFunAbsolute (u : K) (p : P K) (rNorm : K) : Bool :=
  if ¬ p.hasB then decide (rNorm < max p.eps (u * 2) * problemNorm false p)
  else decide (rNorm < max p.eps u * problemNorm false p)

/-- What the user's test answers: `some b` for `*isconv = b, *ierr = 0`, `none` for a non-zero `ierr`.
Its first argument is its own state, the others the value and the residual norm.  The vector is not
modelled (see C30 for what is passed). -/
abbrev Test (K W : Type) := W → K → K → W × Option Bool

/-- One call of the user's test: index of the pair, value, norm and answer. -/
structure Call (K : Type) where
  idx : ℕ
  val : K
  norm : K
  ans : Bool

/-- `convergence.c:127-134`: the whole interval of radius the residual norm around the value is on the
side of the shift that is not wanted.  `none` models `targetShifts[min(initSize, numTargetShifts-1)]`
(line 129), read only if there are shifts. -/
def wrongSide (p : P K) (val norm : K) : Bool :=
  let s := if p.shifts.length > 0 then p.shifts.getD (min p.initSize (p.shifts.length - 1)) 0 else 0
  (decide (p.target = .closest_leq) && decide (val - norm > s)) ||
    (decide (p.target = .closest_geq) && decide (val + norm < s))

/-- Variables of the loop: `flags`, `*reset`, `toProject`, state of the user and calls made so far. -/
structure LS (K W : Type) where
  flags : List Flag
  reset : Option Bool
  toProject : List ℕ
  w : W
  calls : List (Call K)

/-- One turn of the loop, convergence.c:120-186.  `reset = none` models a null pointer. -/
def turn {W : Type} (test : Test K W) (p : P K) (attainable : K) (numLocked : ℕ) (givenR : Bool)
    (pract : Int) (left i : ℕ) (val norm : K) (old : Flag) (s : LS K W) : Outcome (LS K W) :=
  if wrongSide p val norm then .ok { s with flags := s.flags.set i .unconverged }
  else if norm ≤ p.maxConvTol then .ok { s with flags := s.flags.set i .converged }
  else
    match test s.w val norm with
    | (_, none) => .err PRIMME_UNEXPECTED_FAILURE
    | (w', some ans) =>
      let s := { s with w := w', calls := s.calls ++ [⟨i, val, norm, ans⟩] }
      if ans then .ok { s with flags := s.flags.set i .converged }
      else if norm ≤ p.estimateResidualError ∧ s.reset.isSome then
        .ok { s with flags := s.flags.set i .skip_until_restart, reset := some true }
      else if p.locking ∧ numLocked > 0 ∧ 0 ≤ pract then
        if givenR ∧ norm < attainable then .ok { s with toProject := s.toProject ++ [i - left] }
        else if old ≠ .practically_converged then .ok { s with flags := s.flags.set i .unconverged }
        else .ok s
      else .ok { s with flags := s.flags.set i .unconverged }

/-- `for (i = left; i < right; i++)`, convergence.c:119-187; `n` turns remain.  Reading outside of
`hVals`, `blockNorms` or `flags` is undefined behaviour. -/
def loop {W : Type} (test : Test K W) (p : P K) (attainable : K) (numLocked : ℕ) (givenR : Bool)
    (pract : Int) (left : ℕ) (vals norms : List K) : ℕ → ℕ → LS K W → Outcome (LS K W)
  | 0, _, s => .ok s
  | n + 1, i, s =>
    match vals[i]?, norms[i - left]?, s.flags[i]? with
    | some v, some r, some f =>
      turn test p attainable numLocked givenR pract left i v r f s >>=
        loop test p attainable numLocked givenR pract left vals norms n (i + 1)
    | _, _, _ => .ub

/-- The loop of `check_practical_convergence`, convergence.c:250-276: `k`-th projected norm is `q`. -/
def practLoop (left : ℕ) (tol : K) : List ℕ → List K → List Flag → List K → List Flag × List K
  | k :: iev, q :: norms, flags, blockNorms =>
    practLoop left tol iev norms
      (flags.set (left + k) (if q ≤ tol then .practically_converged else .unconverged))
      (blockNorms.set k q)
  | _, _, flags, blockNorms => (flags, blockNorms)

/-- What `check_convergence` leaves: flags, residual norms, `*reset`, state of the user and, for the
statements only, the calls of the user's test. -/
structure Res (K W : Type) where
  flags : List Flag
  norms : List K
  reset : Option Bool
  w : W
  calls : List (Call K)

/-- `check_convergence_Sprimme`, convergence.c:86-204.  `epsMatrix` is the result of
`machineEpsMatrix`, `rt k` the square root of `k`; `proj iev` the norms of the residuals `iev` after
`ortho_single_iteration` removed the locked directions (`none`: it failed), where `iev` counts from
`left`. -/
def checkConvergence {W : Type} (test : Test K W) (rt : ℕ → K) (epsMatrix : K)
    (proj : List ℕ → Option (List K)) (p : P K) (numLocked : ℕ) (givenR : Bool) (pract : Int)
    (left right : ℕ) (flags : List Flag) (norms vals : List K) (reset : Option Bool) (w : W) :
    Outcome (Res K W) :=
  let tol := max (epsMatrix * problemNorm true p) p.maxConvTol
  let attainable := if p.locking then rt (p.numOrthoConst + numLocked) * tol else 0
  loop test p attainable numLocked givenR pract left vals norms (right - left) left
      ⟨flags, reset, [], w, []⟩ >>= fun s =>
    if s.toProject = [] then .ok ⟨s.flags, norms, s.reset, s.w, s.calls⟩
    else match proj s.toProject with
      | none => .err PRIMME_UNEXPECTED_FAILURE
      | some q =>
        let (f, b) := practLoop left tol s.toProject q s.flags norms
        .ok ⟨f, b, s.reset, s.w, s.calls⟩

end Verif.Conv
