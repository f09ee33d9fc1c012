import Verif.Model.Basic
import Mathlib.Algebra.Order.Field.Basic
import Mathlib.Algebra.Order.Group.Abs

/-!
# Reports to the user's monitor and other callbacks of the singular value solver

`monitor_single_stage`, `monitor_stage1`, `monitor_stage2`, `monitorFunSVDS`, `convTestFunATA`,
`convTestFunAug` and `convTestFunSVDS` of src/svds/primme_svds_c.c, the reports issued by the
eigensolver (`monitorFun_Sprimme`, `monitor_report`) and the temporary change of target and shifts in
`solve_H_Harm` of src/eigs/solve_projection.c.

Simplifications: the numbers are elements of an ordered field, `sqrt` and the conversion to the type
asked for the monitor are parameters; a division by zero gives the field's value, not an infinity.
-/

namespace Verif.Mon

/-- `primme_event`, include/primme_eigs.h:80-89. -/
inductive Event where
  | outer | inner | restart | reset | converged | locked | message | profile
  deriving DecidableEq, Repr

/-- `primme_svds_operator`, include/primme_svds.h:59-64. -/
inductive Op where
  | none | AtA | AAt | augmented
  deriving DecidableEq, Repr

/-- A pointer into an array of the caller. -/
structure Ptr (α : Type) where
  arr : List α
  off : Int
  deriving DecidableEq, Repr

/-- `p[i]`; `none` outside of the array. -/
def Ptr.read {α : Type} (p : Ptr α) (i : Int) : Option α :=
  if 0 ≤ p.off + i then p.arr[(p.off + i).toNat]? else Option.none

/-- `p -= k`. -/
def Ptr.back {α : Type} (p : Ptr α) (k : Int) : Ptr α := ⟨p.arr, p.off - k⟩

/-- Dereference a pointer that may be NULL. -/
def deref {α : Type} (p : Option (Ptr α)) (i : Int) : Outcome α :=
  match p with
  | Option.none => .ub
  | some p => match p.read i with
    | Option.none => .ub
    | some a => .ok a

/-- `for (i=0; i<n; i++) x[i] = f(i)`: the values written, in order. -/
def collect {α : Type} : Nat → (Nat → Outcome α) → Outcome (List α)
  | 0, _ => .ok []
  | n + 1, f => do
    let l ← collect n f
    let a ← f n
    .ok (l ++ [a])

/-- `primme_stats` and `primme_svds_stats` (the fields they share), include/primme_eigs.h:109-134 and
include/primme_svds.h:66-83. -/
structure Stats (K : Type) where
  numOuterIterations : Int
  numRestarts : Int
  numMatvecs : Int
  numPreconds : Int
  numGlobalSum : Int
  numBroadcast : Int
  volumeGlobalSum : Int
  volumeBroadcast : Int
  numOrthoInnerProds : K
  elapsedTime : K
  timeMatvec : K
  timePrecond : K
  timeOrtho : K
  timeGlobalSum : K
  timeBroadcast : K
  lockingIssue : Int
  deriving DecidableEq, Repr

/-- `UPDATE_STATS(a, +=, b)`, src/svds/primme_svds_c.c:53-71. -/
def Stats.add {K : Type} [Add K] (a b : Stats K) : Stats K where
  numOuterIterations := a.numOuterIterations + b.numOuterIterations
  numRestarts := a.numRestarts + b.numRestarts
  numMatvecs := a.numMatvecs + b.numMatvecs * 2
  numPreconds := a.numPreconds + b.numPreconds
  numGlobalSum := a.numGlobalSum + b.numGlobalSum
  numBroadcast := a.numBroadcast + b.numBroadcast
  volumeGlobalSum := a.volumeGlobalSum + b.volumeGlobalSum
  volumeBroadcast := a.volumeBroadcast + b.volumeBroadcast
  numOrthoInnerProds := a.numOrthoInnerProds + b.numOrthoInnerProds
  elapsedTime := a.elapsedTime + b.elapsedTime
  timeMatvec := a.timeMatvec + b.timeMatvec
  timePrecond := a.timePrecond + b.timePrecond
  timeOrtho := a.timeOrtho + b.timeOrtho
  timeGlobalSum := a.timeGlobalSum + b.timeGlobalSum
  timeBroadcast := a.timeBroadcast + b.timeBroadcast
  lockingIssue := a.lockingIssue + b.lockingIssue

/-- The arguments of `primme_params.monitorFun`; `none` is a NULL pointer. -/
structure EigReport (K : Type) where
  basisEvals : Option (Ptr K)
  basisSize : Option Int
  basisFlags : Option (Ptr Int)
  iblock : Option (Ptr Int)
  blockSize : Option Int
  basisNorms : Option (Ptr K)
  numConverged : Option Int
  lockedEvals : Option (Ptr K)
  numLocked : Option Int
  lockedFlags : Option (Ptr Int)
  lockedNorms : Option (Ptr K)
  innerIts : Option Int
  lsRes : Option K
  msg : Option String
  time : Option K
  event : Event

/-- What the eigensolver has at hand where it reports. -/
structure Run (K : Type) where
  hVals : List K
  basisNorms : List K
  flags : List Int
  iev : List Int
  basisSize : Nat
  blockSize : Nat
  numConverged : Int
  evals : Ptr K
  resNorms : Ptr K
  lockedFlags : List Int
  numLocked : Nat
  /-- the pair improved by the inner solver: value, norm, iterations and linear system residual -/
  evalr : K
  resr : K
  numIts : Nat
  tau : K

/-- The places where the eigensolver reports. -/
inductive Site where
  /-- src/eigs/main_iter.c:592 and 779 -/
  | outer
  /-- src/eigs/main_iter.c:1601, for the block member `blki` -/
  | converged (blki : Nat)
  /-- src/eigs/restart.c:1160 -/
  | locked
  /-- src/eigs/inner_solve.c:585 -/
  | inner
  /-- src/eigs/inner_solve.c:555 -/
  | innerAdaptive
  /-- src/eigs/auxiliary_eigs.c:64-80, message -/
  | message (text : String)
  /-- src/eigs/auxiliary_eigs.c:64-80, profile -/
  | profile (text : String)
  deriving DecidableEq, Repr

/-- `monitorFun_Sprimme` of src/eigs/auxiliary_eigs_normal.c:446-502 (the monitor installed by the
singular value solver has the type of the solver, so nothing is converted): all counts by address,
`inner_its` and `LSRes` only when not negative. -/
def passOn {K : Type} [LE K] [DecidableLE K] [Zero K] (basisEvals : Option (Ptr K)) (basisSize : Int)
    (basisFlags iblock : Option (Ptr Int)) (blockSize : Int) (basisNorms : Option (Ptr K))
    (numConverged : Int) (lockedEvals : Option (Ptr K)) (numLocked : Int)
    (lockedFlags : Option (Ptr Int)) (lockedNorms : Option (Ptr K)) (innerIts : Int) (lsRes : K)
    (event : Event) : EigReport K :=
  { basisEvals, basisSize := some basisSize, basisFlags, iblock, blockSize := some blockSize,
    basisNorms, numConverged := some numConverged, lockedEvals, numLocked := some numLocked,
    lockedFlags, lockedNorms, innerIts := if 0 ≤ innerIts then some innerIts else none,
    lsRes := if 0 ≤ lsRes then some lsRes else none, msg := none, time := some 0, event }

/-- `monitor_report`, src/eigs/auxiliary_eigs.c:64-80: everything NULL but the text. -/
def textOnly {K : Type} [Zero K] (text : String) (event : Event) : EigReport K :=
  { basisEvals := none, basisSize := none, basisFlags := none, iblock := none, blockSize := none,
    basisNorms := none, numConverged := none, lockedEvals := none, numLocked := none,
    lockedFlags := none, lockedNorms := none, innerIts := none, lsRes := none, msg := some text,
    time := some 0, event }

/-- The report issued at each place; lines in the comments of `Site`. -/
def Run.report {K : Type} [LE K] [DecidableLE K] [Zero K] [Neg K] [One K] (r : Run K) :
    Site → EigReport K
  | .outer => passOn (some ⟨r.hVals, 0⟩) r.basisSize (some ⟨r.flags, 0⟩) (some ⟨r.iev, 0⟩) r.blockSize
      (some ⟨r.basisNorms, 0⟩) r.numConverged (some r.evals) r.numLocked (some ⟨r.lockedFlags, 0⟩)
      (some r.resNorms) (-1) (-1) .outer
  | .converged b => passOn (some ⟨r.hVals, 0⟩) r.basisSize (some ⟨r.flags, 0⟩) (some ⟨r.iev, b⟩) 1
      (some ⟨r.basisNorms, 0⟩) r.numConverged none 0 none none (-1) (-1) .converged
  | .locked => passOn none 0 none none 0 none 0 (some r.evals) r.numLocked (some ⟨r.lockedFlags, 0⟩)
      (some r.resNorms) (-1) 0 .locked
  | .inner => passOn (some ⟨[r.evalr], 0⟩) 1 (some ⟨[0], 0⟩) (some ⟨[0], 0⟩) 1 (some ⟨[r.resr], 0⟩) 0
      none 0 none none r.numIts r.tau .inner
  | .innerAdaptive => passOn (some ⟨[r.evalr], 0⟩) 1 (some ⟨[0], 0⟩) (some ⟨[0], 0⟩) 1
      (some ⟨[r.resr], 0⟩) (-1) none (-1) none none r.numIts r.tau .inner
  | .message t => textOnly t .message
  | .profile t => textOnly t .profile

/-- The arguments of `primme_svds_params.monitorFun`.  An array allocated for the report is the list
of its cells, `none` for a cell never written. -/
structure SvReport (K : Type) where
  basisSvals : List (Option K)
  basisSize : Int
  basisFlags : Option (Ptr Int)
  iblock : Option (Ptr Int)
  blockSize : Int
  basisNorms : List (Option K)
  numConverged : Int
  lockedSvals : List (Option K)
  numLocked : Int
  lockedFlags : Option (Ptr Int)
  lockedNorms : List (Option K)
  innerIts : Option Int
  lsRes : Option K
  msg : Option String
  time : K
  event : Event
  stage : Int

/-- The fields of `primme_svds_params` that these routines read or write. -/
structure Sv (K : Type) where
  aNorm : K
  stats : Stats K
  numSvals : Int
  method : Op
  deriving DecidableEq, Repr

/-- The fields of the eigensolver's `primme_params` that these routines read. -/
structure Eig (K : Type) where
  stats : Stats K
  numEvals : Int
  locking : Bool
  printLevel : Int
  aNorm : K
  estimateLargestSVal : K

/-- The user's monitor: it may write to the structure it receives and returns its error code. -/
abbrev Monitor (K : Type) := SvReport K → Sv K → Sv K × Int

/-- Arithmetic, conversion to the type asked for the monitor and success of the k-th allocation. -/
structure Env (K : Type) where
  sqrt : K → K
  root2 : K
  cast : K → K
  alloc : Nat → Bool

section
variable {K : Type} [Field K] [LinearOrder K] [IsStrictOrderedRing K]

/-- `monitorFunSVDS_Sprimme`, src/svds/primme_svds_c.c:1240-1300: nothing without a monitor; otherwise
values and norms are converted, `inner_its` and `LSRes` are given when not negative, and any error
code of the user gives -1.  `startTime` is negative in every call modelled here. -/
def callMonitor (env : Env K) (user : Option (Monitor K)) (r : SvReport K) (innerIts : Int) (lsRes : K)
    (v : Sv K) : Sv K × Int :=
  match user with
  | none => (v, 0)
  | some f =>
    let q := f { r with
      basisSvals := r.basisSvals.map (Option.map env.cast)
      basisNorms := r.basisNorms.map (Option.map env.cast)
      lockedSvals := r.lockedSvals.map (Option.map env.cast)
      lockedNorms := r.lockedNorms.map (Option.map env.cast)
      innerIts := if 0 ≤ innerIts then some innerIts else none
      lsRes := if 0 ≤ lsRes then some (env.cast lsRes) else none } v
    (q.1, if q.2 ≠ 0 then -1 else 0)

/-- The text given with a profile event gets a prefix, src/svds/primme_svds_c.c:1969-1976. -/
def prefixed (pre : String) (e : Event) (msg : Option String) : Option String :=
  if e = .profile then msg.map (fun m => pre ++ m) else msg

/-- The tail of the three monitors, src/svds/primme_svds_c.c:1978-1994, 2111-2125 and 2235-2248: add the
statistics of the running eigensolver, call the user, put the statistics back.  After a failure the
routine leaves at once with code 1. -/
def deliver (env : Env K) (user : Option (Monitor K)) (r : SvReport K) (innerIts : Int) (lsRes : K)
    (e : Eig K) (v : Sv K) : Sv K × Int :=
  let saved := v.stats
  let q := callMonitor env user r innerIts lsRes { v with stats := v.stats.add e.stats }
  if q.2 ≠ 0 then (q.1, 1) else ({ q.1 with stats := saved }, 0)

/-- `sqrt(fabs(eval))`. -/
def svalOf (env : Env K) (x : K) : K := env.sqrt |x|

/-- `sval > 0 ? norm/sval : norm`. -/
def normOver (sval norm : K) : K := if 0 < sval then norm / sval else norm

/-- Length of an array allocated for `count` values when the values are given,
src/svds/primme_svds_c.c:1916-1929; nothing is allocated for a count that is not positive. -/
def given {α : Type} (p : Option α) (count : Option Int) : Nat :=
  match p, count with
  | some _, some n => n.toNat
  | _, _ => 0

/-- The two arrays for one set of pairs in `monitor_single_stage`, src/svds/primme_svds_c.c:1931-1965.
For the augmented operator no singular value is written, and (for the basis) the norms only if they
are given. -/
def singleArrays (env : Env K) (op : Op) (needNorms : Bool) (evals norms : Option (Ptr K))
    (count : Option Int) : Outcome (List (Option K) × List (Option K)) :=
  let n := given evals count
  match op with
  | .AtA | .AAt => do
    let s ← collect n (fun i => do let x ← deref evals i; .ok (some (svalOf env x)))
    let w ← collect n (fun i => do
      let x ← deref evals i
      let y ← deref norms i
      .ok (some (normOver (svalOf env x) y)))
    .ok (s, w)
  | .augmented => do
    let w ← if needNorms && norms.isNone then .ok (List.replicate n none)
      else collect n (fun i => do let y ← deref norms i; .ok (some (y / env.root2)))
    .ok (List.replicate n none, w)
  | .none => .ok (List.replicate n none, List.replicate n none)

/-- The arguments of the call in `monitor_single_stage`, src/svds/primme_svds_c.c:1984-1992. -/
def singleReport (a : EigReport K) (b l : List (Option K) × List (Option K)) : SvReport K where
  basisSvals := b.1
  basisSize := a.basisSize.getD 0
  basisFlags := a.basisFlags
  iblock := a.iblock
  blockSize := a.blockSize.getD 0
  basisNorms := b.2
  numConverged := a.numConverged.getD 0
  lockedSvals := l.1
  numLocked := a.numLocked.getD 0
  lockedFlags := a.lockedFlags
  lockedNorms := l.2
  innerIts := none
  lsRes := none
  msg := prefixed "~Sprimme0" a.event a.msg
  time := a.time.getD 0
  event := a.event
  stage := 0

/-- `monitor_single_stage`, src/svds/primme_svds_c.c:1897-2001. -/
def single (env : Env K) (user : Option (Monitor K)) (a : EigReport K) (e : Eig K) (v : Sv K) :
    Outcome (Sv K × Int) :=
  if ¬ (env.alloc 0 ∧ env.alloc 1 ∧ env.alloc 2 ∧ env.alloc 3) then .ok (v, 1) else do
  let b ← singleArrays env v.method true a.basisEvals a.basisNorms a.basisSize
  let l ← singleArrays env v.method false a.lockedEvals a.lockedNorms a.numLocked
  .ok (deliver env user (singleReport a b l) (a.innerIts.getD 0) (a.lsRes.getD 0) e v)

/-- The loops of `monitor_stage1`, src/svds/primme_svds_c.c:2079-2097: the locked pairs first, then the
basis; the norm of a pair is divided by `basisSvals[i]`, `i` counting from zero in both loops. -/
def stage1Svals (env : Env K) (a : EigReport K) : Outcome (List K) := do
  let s ← collect (given a.lockedEvals a.numLocked) (fun i => do
    let x ← deref a.lockedEvals i; .ok (svalOf env x))
  let t ← collect (given a.basisEvals a.basisSize) (fun i => do
    let x ← deref a.basisEvals i; .ok (svalOf env x))
  .ok (s ++ t)

/-- The norms in the same loops. -/
def stage1Norms (svals : List K) (a : EigReport K) : Outcome (List K) := do
  let s ← collect (given a.lockedEvals a.numLocked) (fun i => do
    let y ← deref a.lockedNorms i
    let x ← deref (some ⟨svals, 0⟩) i
    .ok (normOver x y))
  let t ← collect (given a.basisEvals a.basisSize) (fun i => do
    let y ← deref a.basisNorms i
    let x ← deref (some ⟨svals, 0⟩) i
    .ok (normOver x y))
  .ok (s ++ t)

/-- `basisFlags ? basisFlags[i] : UNCONVERGED`; `UNCONVERGED` is 0. -/
def flagAt (p : Option (Ptr Int)) (i : Int) : Outcome Int :=
  match p with
  | none => .ok 0
  | some p => deref (some p) i

/-- The flags in the same loops. -/
def stage1Flags (a : EigReport K) : Outcome (List Int) := do
  let s ← collect (given a.lockedEvals a.numLocked) (fun i => deref a.lockedFlags i)
  let t ← collect (given a.basisEvals a.basisSize) (fun i => flagAt a.basisFlags i)
  .ok (s ++ t)

/-- `iblockSV[i] = iblock[i] + numLocked0`. -/
def shifted (iblock : Option (Ptr Int)) (blockSize : Option Int) (k : Int) : Outcome (List Int) :=
  match iblock, blockSize with
  | some p, some n => collect n.toNat (fun i => do let x ← deref (some p) i; .ok (x + k))
  | _, _ => .ok []

/-- `iblockSV`, src/svds/primme_svds_c.c:2099-2107: the block shifted by the locked pairs; for a locked
event the last locked pair is written over the first member. -/
def stage1Block (a : EigReport K) (numLocked0 : Nat) : Outcome (List Int) := do
  let size := max 1 ((a.blockSize.getD 0).toNat)
  let l ← shifted a.iblock a.blockSize numLocked0
  let l := l ++ List.replicate (size - l.length) 0
  if a.event = .locked then
    match a.numLocked with
    | none => .ub
    | some n => .ok (l.set 0 (n - 1))
  else .ok l

/-- The arguments of the call in `monitor_stage1`, src/svds/primme_svds_c.c:2116-2123. -/
def stage1Report (a : EigReport K) (svals norms : List K) (flags block : List Int) : SvReport K where
  basisSvals := svals.map some
  basisSize := (given a.basisEvals a.basisSize : Int) + (given a.lockedEvals a.numLocked : Int)
  basisFlags := some ⟨flags, 0⟩
  iblock := some ⟨block, 0⟩
  blockSize := a.blockSize.getD 0
  basisNorms := norms.map some
  numConverged := a.numConverged.getD (given a.lockedEvals a.numLocked)
  lockedSvals := []
  numLocked := 0
  lockedFlags := none
  lockedNorms := []
  innerIts := none
  lsRes := none
  msg := prefixed "~Sprimme0" a.event a.msg
  time := a.time.getD 0
  event := if a.event = .locked then .converged else a.event
  stage := 0

/-- `monitor_stage1`, src/svds/primme_svds_c.c:2035-2139. -/
def stage1 (env : Env K) (user : Option (Monitor K)) (a : EigReport K) (e : Eig K) (v : Sv K) :
    Outcome (Sv K × Int) :=
  if a.event = .converged ∧ e.locking = true ∧ e.printLevel ≤ 4 then .ok (v, 0)
  else if ¬ (env.alloc 0 ∧ env.alloc 1 ∧ env.alloc 2 ∧ env.alloc 3) then .ok (v, 1)
  else if ¬ (v.method = .AtA ∨ v.method = .AAt) then .ub
  else do
  let svals ← stage1Svals env a
  let norms ← stage1Norms svals a
  let flags ← stage1Flags a
  let block ← stage1Block a (given a.lockedEvals a.numLocked)
  .ok (deliver env user (stage1Report a svals norms flags block) (a.innerIts.getD 0) (a.lsRes.getD 0) e v)

/-- `numLockedExtra`, src/svds/primme_svds_c.c:2187-2188. -/
def extraOf (a : EigReport K) (e : Eig K) (v : Sv K) : Int :=
  if a.lockedEvals.isSome ∧ a.numLocked.isSome then v.numSvals - e.numEvals else 0

/-- `numLockedSV`, src/svds/primme_svds_c.c:2189. -/
def lockedOf (a : EigReport K) (e : Eig K) (v : Sv K) : Int :=
  (if a.lockedEvals.isSome then a.numLocked.getD 0 else 0) + extraOf a e v

/-- The loops of `monitor_stage2`, src/svds/primme_svds_c.c:2201-2224: the values as they are and the norms
divided by the square root of two; the values and norms found before the second stage are read from
the entries in front of the pointer. -/
def stage2Arrays (env : Env K) (a : EigReport K) (e : Eig K) (v : Sv K) :
    Outcome ((List K × List K) × (List K × List K) × List Int) := do
  let s ← collect (given a.basisEvals a.basisSize) (fun i => deref a.basisEvals i)
  let w ← collect (given a.basisEvals a.basisSize) (fun i => do
    let y ← deref a.basisNorms i; .ok (y / env.root2))
  let ls ← collect (lockedOf a e v).toNat (fun i => deref (a.lockedEvals.map (·.back (extraOf a e v))) i)
  let lw ← collect (lockedOf a e v).toNat (fun i => do
    let y ← deref (a.lockedNorms.map (·.back (extraOf a e v))) i
    .ok (if (i : Int) < extraOf a e v then y else y / env.root2))
  let lf ← collect (lockedOf a e v).toNat (fun i =>
    if (i : Int) < extraOf a e v then .ok 2 else deref a.lockedFlags (i - extraOf a e v))
  .ok ((s, w), (ls, lw), lf)

/-- The arguments of the call in `monitor_stage2`, src/svds/primme_svds_c.c:2240-2247. -/
def stage2Report (a : EigReport K) (e : Eig K) (v : Sv K)
    (x : (List K × List K) × (List K × List K) × List Int) : SvReport K where
  basisSvals := x.1.1.map some
  basisSize := given a.basisEvals a.basisSize
  basisFlags := a.basisFlags
  iblock := a.iblock
  blockSize := a.blockSize.getD 0
  basisNorms := x.1.2.map some
  numConverged := a.numConverged.getD 0
  lockedSvals := x.2.1.1.map some
  numLocked := lockedOf a e v
  lockedFlags := some ⟨x.2.2, 0⟩
  lockedNorms := x.2.1.2.map some
  innerIts := none
  lsRes := none
  msg := prefixed "~Sprimme1" a.event a.msg
  time := a.time.getD 0
  event := a.event
  stage := 1

/-- `monitor_stage2`, src/svds/primme_svds_c.c:2171-2258. -/
def stage2 (env : Env K) (user : Option (Monitor K)) (a : EigReport K) (e : Eig K) (v : Sv K) :
    Outcome (Sv K × Int) :=
  if ¬ (env.alloc 0 ∧ env.alloc 1 ∧ env.alloc 2 ∧ env.alloc 3 ∧ env.alloc 4) then .ok (v, 1) else do
  let x ← stage2Arrays env a e v
  .ok (deliver env user (stage2Report a e v x) (a.innerIts.getD 0) (a.lsRes.getD 0) e v)

end

end Verif.Mon
