import Verif.Model.Members
import Verif.Spec.EigsLabels
import Mathlib.Algebra.Order.Field.Basic

/-!
# `primme_initialize`, `primme_set_method`, `primme_set_defaults` and `check_input`

The structure `primme_params` is a `Store` over the members of the header (Spec/EigsLabels).
Simplifications: C `int` arithmetic is on unbounded integers (no overflow); `double` values are
elements of an ordered field `K`.  The floating point expressions `(int)(0.5 + 0.4*b)` and
`(int)(x/(double)y)` on `int` operands are truncated exact divisions: with operands below 2^31 the
exact quotient is never within rounding distance of an integer it does not equal.
-/

namespace Verif.Eigs
open Verif.Members

variable {K : Type} [Field K] [LinearOrder K]

/-- `primme_params`. -/
abbrev EP (K : Type) := Store IF DF PF K

/-- Assignment to a `double` member. -/
def setD (s : EP K) (f : DF) (v : K) : EP K := { s with d := fun g => if g = f then v else s.d g }

/-- Assignment to a pointer member. -/
def setP (s : EP K) (f : PF) (v : Nat) : EP K := { s with p := fun g => if g = f then v else s.p g }

/-- `primme_initialize`, src/eigs/primme_interface.c:101-217; `inf` stands for `HUGE_VAL`, `out` for
`stdout`. -/
def initParams (inf : K) (out : Nat) (addr : Nat → Nat) : EP K where
  i
    | .numEvals => 1
    | .numProcs => 1
    | .nLocal => -1
    | .locking => -1
    | .dynamicMethodSwitch => -1
    | .maxMatvecs => INT_MAX
    | .maxOuterIterations => INT_MAX
    | .restartingParams_maxPrevRetain => -1
    | .correctionParams_precondition => -1
    | .correctionParams_maxInnerIterations => -INT_MAX
    | .correctionParams_convTest => 2
    | .printLevel => 1
    | .ldevecs => -1
    | .ldOPs => -1
    | _ => 0
  d
    | .stats_estimateMinEVal => -inf
    | .stats_estimateMaxEVal => inf
    | .stats_estimateLargestSVal => -inf
    | .stats_estimateBNorm => -inf
    | .stats_estimateInvBNorm => -inf
    | _ => 0
  p
    | .outputFile => out
    | _ => 0
  seed := fun _ => -1
  addr := addr

/-- `target == primme_smallest || target == primme_largest`. -/
def extremal (s : EP K) : Prop := s.i .target = 0 ∨ s.i .target = 1

instance (s : EP K) : Decidable (extremal s) := by unfold extremal; infer_instance

/-- The renaming of aliases at the top of `primme_set_method`,
src/eigs/primme_interface.c:295-312. -/
def resolveMethod (m : Int) (s : EP K) : Int :=
  let m := if m = 0 then 1 else m
  if m = 3 then 7
  else if m = 2 then (if extremal s then 12 else 11)
  else m

/-- The block that chooses `maxPrevRetain` for GD+k methods and DYNAMIC,
src/eigs/primme_interface.c:340-348 (repeated at 354, 368, 496). -/
def plusK (s : EP K) : EP K :=
  if s.i .restartingParams_maxPrevRetain ≤ 0 then
    if (s.i .maxBlockSize = 1 ∧ s.i .numEvals > 1) ∨ s.p .massMatrixMatvec ≠ 0 then
      s.setI .restartingParams_maxPrevRetain 2
    else s.setI .restartingParams_maxPrevRetain (s.i .maxBlockSize)
  else s

/-- `if (precondition) LeftQ = 1; else LeftQ = 0;`, src/eigs/primme_interface.c:420-425 (repeated at
438 and 506). -/
def leftQ (s : EP K) : EP K :=
  s.setI .correctionParams_projectors_LeftQ
    (if s.i .correctionParams_precondition ≠ 0 then 1 else 0)

/-- The common part of `primme_set_method` before the method cases,
src/eigs/primme_interface.c:313-325. -/
def methodPrelude (m : Int) (s : EP K) : EP K :=
  let s := s.setI .dynamicMethodSwitch (if m = 1 then 1 else 0)
  let s := if s.i .maxBlockSize = 0 then s.setI .maxBlockSize 1 else s
  if s.i .correctionParams_precondition = -1 then
    s.setI .correctionParams_precondition (if s.p .applyPreconditioner ≠ 0 then 1 else 0)
  else s

/-- `PRIMME_Arnoldi`, src/eigs/primme_interface.c:327-331. -/
def arnoldi (s : EP K) : EP K :=
  ((s.setI .restartingParams_maxPrevRetain 0).setI .correctionParams_precondition 0).setI
    .correctionParams_maxInnerIterations 0

/-- `PRIMME_GD`, src/eigs/primme_interface.c:332-338. -/
def gd (s : EP K) : EP K :=
  ((((s.setI .restartingParams_maxPrevRetain 0).setI
    .correctionParams_robustShifts 1).setI .correctionParams_maxInnerIterations 0).setI
    .correctionParams_projectors_RightX 0).setI .correctionParams_projectors_SkewX 0

/-- `PRIMME_GD_plusK`, src/eigs/primme_interface.c:339-352. -/
def gdPlusK (s : EP K) : EP K :=
  (((plusK s).setI .correctionParams_maxInnerIterations 0).setI
    .correctionParams_projectors_RightX 0).setI .correctionParams_projectors_SkewX 0

/-- `PRIMME_GD_Olsen_plusK`, src/eigs/primme_interface.c:353-366. -/
def gdOlsenPlusK (s : EP K) : EP K :=
  (((plusK s).setI .correctionParams_maxInnerIterations 0).setI
    .correctionParams_projectors_RightX 1).setI .correctionParams_projectors_SkewX 0

/-- `PRIMME_JD_Olsen_plusK`, src/eigs/primme_interface.c:367-381. -/
def jdOlsenPlusK (s : EP K) : EP K :=
  ((((plusK s).setI .correctionParams_robustShifts 1).setI
    .correctionParams_maxInnerIterations 0).setI .correctionParams_projectors_RightX 1).setI
    .correctionParams_projectors_SkewX 1

/-- `PRIMME_RQI`, src/eigs/primme_interface.c:382-398. -/
def rqi (s : EP K) : EP K :=
  ((((((((((s.setI .locking 1).setI .restartingParams_maxPrevRetain 0).setI
    .correctionParams_robustShifts 1).setI .correctionParams_maxInnerIterations (-1)).setI
    .correctionParams_projectors_LeftQ 1).setI .correctionParams_projectors_LeftX 1).setI
    .correctionParams_projectors_RightQ 0).setI .correctionParams_projectors_RightX 1).setI
    .correctionParams_projectors_SkewQ 0).setI .correctionParams_projectors_SkewX 0).setI
    .correctionParams_convTest 0

/-- `PRIMME_JDQR`, src/eigs/primme_interface.c:399-414. -/
def jdqr (s : EP K) : EP K :=
  let s := ((s.setI .locking 1).setI .restartingParams_maxPrevRetain 1).setI
    .correctionParams_robustShifts 0
  let s := if s.i .correctionParams_maxInnerIterations = -INT_MAX then
    s.setI .correctionParams_maxInnerIterations 10 else s
  let s := (((((s.setI .correctionParams_projectors_LeftQ 0).setI
    .correctionParams_projectors_LeftX 1).setI .correctionParams_projectors_RightQ 1).setI
    .correctionParams_projectors_RightX 1).setI .correctionParams_projectors_SkewQ 1).setI
    .correctionParams_projectors_SkewX 1
  (setD s .correctionParams_relTolBase (3 / 2)).setI .correctionParams_convTest 0

/-- `PRIMME_JDQMR`, src/eigs/primme_interface.c:415-432. -/
def jdqmr (s : EP K) : EP K :=
  let s := if s.i .restartingParams_maxPrevRetain < 0 then
    s.setI .restartingParams_maxPrevRetain 1 else s
  ((((((leftQ (s.setI .correctionParams_maxInnerIterations (-1))).setI
    .correctionParams_projectors_LeftX 1).setI .correctionParams_projectors_RightQ 0).setI
    .correctionParams_projectors_RightX 0).setI .correctionParams_projectors_SkewQ 0).setI
    .correctionParams_projectors_SkewX 1).setI .correctionParams_convTest 3

/-- `PRIMME_JDQMR_ETol`, src/eigs/primme_interface.c:433-450. -/
def jdqmrETol (s : EP K) : EP K :=
  let s := if s.i .restartingParams_maxPrevRetain < 0 then
    s.setI .restartingParams_maxPrevRetain 1 else s
  ((((((leftQ (s.setI .correctionParams_maxInnerIterations (-1))).setI
    .correctionParams_projectors_LeftX 1).setI .correctionParams_projectors_RightQ 0).setI
    .correctionParams_projectors_RightX 0).setI .correctionParams_projectors_SkewQ 0).setI
    .correctionParams_projectors_SkewX 0).setI .correctionParams_convTest 2

/-- `PRIMME_STEEPEST_DESCENT`, src/eigs/primme_interface.c:451-461. -/
def steepest (s : EP K) : EP K :=
  ((((((((s.setI .locking 1).setI .maxBasisSize (s.i .numEvals * 2)).setI
    .minRestartSize (s.i .numEvals)).setI .maxBlockSize (s.i .numEvals)).setI
    .restartingParams_maxPrevRetain 0).setI .correctionParams_robustShifts 0).setI
    .correctionParams_maxInnerIterations 0).setI .correctionParams_projectors_RightX 1).setI
    .correctionParams_projectors_SkewX 0

/-- `PRIMME_LOBPCG_OrthoBasis`, src/eigs/primme_interface.c:462-472. -/
def lobpcg (s : EP K) : EP K :=
  ((((((((s.setI .maxBasisSize (s.i .numEvals * 3)).setI
    .minRestartSize (s.i .numEvals)).setI .maxBlockSize (s.i .numEvals)).setI
    .restartingParams_maxPrevRetain (s.i .numEvals)).setI .correctionParams_robustShifts 0).setI
    .correctionParams_maxInnerIterations 0).setI .correctionParams_projectors_RightX 1).setI
    .correctionParams_projectors_SkewX 0).setI .initBasisMode 2

/-- `PRIMME_LOBPCG_OrthoBasis_Window`, src/eigs/primme_interface.c:473-494. -/
def lobpcgWindow (s : EP K) : EP K :=
  let s := if s.i .maxBlockSize = 1 ∧ (s.i .target = 3 ∨ s.i .target = 2) then
      ((s.setI .maxBasisSize 4).setI .minRestartSize 2).setI .restartingParams_maxPrevRetain 1
    else ((s.setI .maxBasisSize (s.i .maxBlockSize * 3)).setI
      .minRestartSize (s.i .maxBlockSize)).setI
      .restartingParams_maxPrevRetain (s.i .maxBlockSize)
  ((((s.setI .correctionParams_robustShifts 0).setI
    .correctionParams_maxInnerIterations 0).setI .correctionParams_projectors_RightX 1).setI
    .correctionParams_projectors_SkewX 0).setI .initBasisMode 2

/-- `PRIMME_DYNAMIC`, src/eigs/primme_interface.c:495-523. -/
def dynamic (s : EP K) : EP K :=
  let s := ((((((leftQ ((plusK s).setI .correctionParams_maxInnerIterations (-1))).setI
    .correctionParams_projectors_LeftX 1).setI .correctionParams_projectors_RightQ 0).setI
    .correctionParams_projectors_RightX 0).setI .correctionParams_projectors_SkewQ 0).setI
    .correctionParams_projectors_SkewX 0)
  s.setI .correctionParams_convTest (if extremal s then 2 else 3)

/-- The method cases of `primme_set_method`, src/eigs/primme_interface.c:327-525; `none`: the final
`else` (no such method). -/
def methodCase (m : Int) (s : EP K) : Option (EP K) :=
  if m = 4 then some (arnoldi s)
  else if m = 5 then some (gd s)
  else if m = 6 then some (gdPlusK s)
  else if m = 7 then some (gdOlsenPlusK s)
  else if m = 8 then some (jdOlsenPlusK s)
  else if m = 9 then some (rqi s)
  else if m = 10 then some (jdqr s)
  else if m = 11 then some (jdqmr s)
  else if m = 12 then some (jdqmrETol s)
  else if m = 13 then some (steepest s)
  else if m = 14 then some (lobpcg s)
  else if m = 15 then some (lobpcgWindow s)
  else if m = 1 then some (dynamic s)
  else none

/-- The default of `maxBasisSize`, src/eigs/primme_interface.c:560-575.  `(int)2.5 * r` is `2 * r`
and `(int)1.7 * r` is `r`: the cast applies to the constant. -/
def defMaxBasis (s : EP K) : Int :=
  let prev := s.i .restartingParams_maxPrevRetain
  min (s.i .n - s.i .numOrthoConst)
    (if extremal s then
      max (max 15 (4 * s.i .maxBlockSize + prev)) (2 * s.i .minRestartSize + prev)
    else
      max (max 35 (5 * s.i .maxBlockSize + prev)) (1 * s.i .minRestartSize + prev))

/-- The default of `minRestartSize`, src/eigs/primme_interface.c:577-599. -/
def defMinRestart (s : EP K) : Int :=
  let basis := s.i .maxBasisSize
  let block := s.i .maxBlockSize
  let prev := s.i .restartingParams_maxPrevRetain
  let r :=
    if s.i .n ≤ 3 then s.i .n - s.i .numOrthoConst
    else if extremal s then Int.tdiv (4 * basis + 5) 10
    else Int.tdiv (6 * basis + 5) 10
  if block > 1 then
    if prev > 0 then basis - block * (1 + Int.tdiv (basis - r - 1 - prev) block) - prev
    else basis - block * (1 + Int.tdiv (basis - r - 1) block)
  else r

/-- `primme_set_defaults` after its first statement, src/eigs/primme_interface.c:548-616. -/
def defaultsBody (s : EP K) : EP K :=
  let s := if s.i .ldevecs = -1 ∧ s.i .nLocal ≠ -1 then s.setI .ldevecs (s.i .nLocal) else s
  let s := if s.i .projectionParams_projection = 0 then
    s.setI .projectionParams_projection 1 else s
  let s := if s.i .initBasisMode = 0 then s.setI .initBasisMode 1 else s
  let s := if s.i .maxBasisSize = 0 then s.setI .maxBasisSize (defMaxBasis s) else s
  let s := if s.i .minRestartSize = 0 then s.setI .minRestartSize (defMinRestart s) else s
  if s.i .locking ≥ 0 then s
  else if ¬ extremal s then s.setI .locking 1
  else if s.i .numEvals > s.i .minRestartSize then s.setI .locking 1
  else s.setI .locking 0

mutual
/-- `primme_set_method`, src/eigs/primme_interface.c:293-531, with a bound on the call depth (`none`:
the bound was reached); result: return code and structure. -/
def callMethod : Nat → Int → EP K → Option (Int × EP K)
  | 0, _, _ => none
  | k + 1, m, s =>
    let m := resolveMethod m s
    let s := methodPrelude m s
    match methodCase m s with
    | none => some (-1, s)
    | some s => match callDefaults k s with
      | none => none
      | some s => some (0, s)
/-- `primme_set_defaults`, src/eigs/primme_interface.c:543-617: it calls `primme_set_method` back when
no method has been chosen yet. -/
def callDefaults : Nat → EP K → Option (EP K)
  | 0, _ => none
  | k + 1, s =>
    if s.i .dynamicMethodSwitch < 0 then
      match callMethod k 1 s with
      | none => none
      | some (_, s) => some (defaultsBody s)
    else some (defaultsBody s)
end

/-- The three array arguments of `dprimme`, reduced to what `check_input` asks of them:
`evals == NULL`, `evecs == NULL || Num_check_pointer(evecs)`, `resNorms == NULL`. -/
structure Arrays where
  evalsNull : Bool
  evecsBad : Bool
  resNormsNull : Bool
  deriving DecidableEq, Repr

/-- `check_input`, src/eigs/primme_c.c:438-535, for a non-`NULL` structure; `meps` is
`MACHINE_EPSILON`. -/
def checkInput (meps : K) (a : Arrays) (s : EP K) : Int :=
  if s.i .n < 0 ∨ s.i .nLocal < 0 ∨ s.i .nLocal > s.i .n then -5
  else if s.i .numProcs < 1 then -6
  else if s.p .matrixMatvec = 0 then -7
  else if s.p .applyPreconditioner = 0 ∧ s.i .correctionParams_precondition > 0 then -8
  else if s.i .numEvals > s.i .n then -10
  else if s.i .numEvals < 0 then -11
  else if s.p .convTestFun ≠ 0 ∧ s.d .eps ≠ 0 ∧ s.d .eps < meps then -12
  else if s.i .target ≠ 0 ∧ s.i .target ≠ 1 ∧ s.i .target ≠ 5 ∧ s.i .target ≠ 2 ∧
      s.i .target ≠ 3 ∧ s.i .target ≠ 4 then -13
  else if s.i .numOrthoConst < 0 ∨ s.i .numOrthoConst > s.i .n then -16
  else if s.i .maxBasisSize < 2 ∧ s.i .n > 2 then -17
  else if s.i .minRestartSize < 0 ∨
      (s.i .minRestartSize = 0 ∧ s.i .n > 2 ∧ s.i .numEvals > 0) then -18
  else if s.i .maxBlockSize < 0 ∨ (s.i .maxBlockSize = 0 ∧ s.i .numEvals > 0) then -19
  else if s.i .restartingParams_maxPrevRetain < 0 then -20
  else if s.i .initSize < 0 then -22
  else if s.i .locking = 0 ∧ s.i .initSize > s.i .maxBasisSize then -23
  else if s.i .locking > 0 ∧ s.i .initSize > s.i .numEvals then -24
  else if s.i .minRestartSize + s.i .restartingParams_maxPrevRetain ≥ s.i .maxBasisSize ∧
      s.i .n > s.i .maxBasisSize then -25
  else if s.i .minRestartSize > s.i .n ∧ s.i .n > 2 then -26
  else if s.i .printLevel < 0 ∨ s.i .printLevel > 5 then -27
  else if s.i .correctionParams_convTest ≠ 0 ∧ s.i .correctionParams_convTest ≠ 1 ∧
      s.i .correctionParams_convTest ≠ 2 ∧ s.i .correctionParams_convTest ≠ 3 then -28
  else if s.i .correctionParams_convTest = 1 ∧ s.d .correctionParams_relTolBase ≤ 1 then -29
  else if a.evalsNull then -30
  else if a.evecsBad then -31
  else if a.resNormsNull then -32
  else if s.i .locking = 0 ∧ s.i .minRestartSize < s.i .numEvals ∧ s.i .n > 2 then -33
  else if s.i .ldevecs < s.i .nLocal then -34
  else if s.i .ldOPs ≠ 0 ∧ s.i .ldOPs < s.i .nLocal then -35
  else if s.i .locking = 0 ∧ (s.i .target = 3 ∨ s.i .target = 2) then -38
  else if s.p .massMatrixMatvec ≠ 0 ∧ s.i .projectionParams_projection ≠ 1 then -39
  else if s.i .target = 5 ∨ s.i .target = 2 ∨ s.i .target = 3 ∨ s.i .target = 4 then
    (if s.i .numTargetShifts ≤ 0 then -14
    else if s.p .targetShifts = 0 then -15
    else 0)
  else 0

/-- What `wrapper_Sprimme` does to the structure before `check_input`,
src/eigs/primme_c.c:279-372.  `op` is the type of the working precision (`PRIMME_OP_SCALAR`), `bs`
is `PRIMME_BLOCK_SIZE` (`none`: `INT_MAX`), `convFn`, `monFn` the addresses of the default callbacks
and `defEps` the default tolerance.  The result is `none` exactly when all three arrays are `NULL`
(the call returns 0 there, see `preludeQuery`); the `evecs` pointer test uses `evecsNull`. -/
structure Env (K : Type) where
  op : Int
  bs : Option Int
  convFn : Nat
  monFn : Nat
  meps : K
  defEps : K

/-- `wrapper_Sprimme` up to the all-`NULL` test, src/eigs/primme_c.c:291-336. -/
def preludeDefaults (e : Env K) (anyNull : Bool) (s : EP K) : Option (EP K) :=
  let s := if s.i .numProcs ≤ 1 ∧ anyNull = false then
    (s.setI .nLocal (s.i .n)).setI .procID 0 else s
  match callDefaults 3 s with
  | none => none
  | some s =>
    let s := if s.i .orth = 0 then
      (if e.op ≤ 2 ∨ s.i .maxBlockSize > 1 then s.setI .orth 2 else s.setI .orth 1) else s
    let s := if s.i .ldOPs = -1 then
      (match e.bs with
      | some b => s.setI .ldOPs (min (Int.tdiv (s.i .nLocal + b - 1) b * b) (s.i .nLocal))
      | none => s.setI .ldOPs (s.i .nLocal)) else s
    some s

/-- The seed normalisation, src/eigs/primme_c.c:342-349. -/
def fillSeed (proc : Int) (w : Fin 4 → Int) : Fin 4 → Int := fun k =>
  if w k < 0 ∨ w k > 4095 then
    (if k = 0 then Int.tmod proc 4096
    else if k = 1 then Int.tmod (Int.tdiv proc 4096 + 1) 4096
    else if k = 2 then Int.tmod (Int.tdiv (Int.tdiv proc 4096) 4096 + 2) 4096
    else Int.tmod (2 * Int.tdiv (Int.tdiv (Int.tdiv proc 4096) 4096) 4096 + 1) 4096)
  else w k

/-- Default convergence test and monitor, src/eigs/primme_c.c:353-368. -/
def preludeCallbacks (e : Env K) (s : EP K) : EP K :=
  let s : EP K := { s with seed := fillSeed (s.i .procID) s.seed }
  let s := if s.p .convTestFun = 0 then
      let s := setP s .convTestFun e.convFn
      let s := s.setI .convTestFun_type e.op
      if s.d .eps = 0 then setD s .eps (if e.defEps ≥ 1 then 1 / 10 else e.defEps) else s
    else s
  if s.p .monitorFun = 0 then
    (setP s .monitorFun e.monFn).setI .monitorFun_type e.op
  else s

end Verif.Eigs
