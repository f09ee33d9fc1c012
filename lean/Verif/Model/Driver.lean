import Verif.Model.EigsParams

/-!
# The driver `dprimme` (one process) and its parallel execution

One process: `Xprimme_aux_Sprimme` and `wrapper_Sprimme`.  The solver proper (`main_iter` with the
precision conversions of the arrays around it) is an arbitrary function `solve`; the parallel
coherence check is an arbitrary function `coh` here and is modelled for several processes below.
-/

namespace Verif.Eigs
open Verif.Members

variable {K : Type} [Field K] [LinearOrder K]

/-- The three array arguments of `dprimme`. -/
structure Args where
  evalsNull : Bool
  evecsNull : Bool
  resNormsNull : Bool
  /-- `Num_check_pointer(evecs)` fails (always false on CPU), src/linalg/wtime etc. -/
  evecsUnusable : Bool
  deriving DecidableEq, Repr

/-- What `check_input` sees of the arguments. -/
def Args.arrays (a : Args) : Arrays := ⟨a.evalsNull, a.evecsNull || a.evecsUnusable, a.resNormsNull⟩

/-- What the solver returns: a non-zero `err` is the failure of a `CHKERR`; otherwise `ret` is the code
stored through `ret` by `main_iter` and `params` the structure it leaves. -/
structure SolveResult (K : Type) where
  err : Int
  ret : Int
  params : EP K

/-- Result of a call: return value, structure afterwards, and whether the solver was entered (no user
operator is called before that point). -/
structure CallResult (K : Type) where
  code : Int
  params : EP K
  solved : Bool

/-- Types of the user's operators defaulted to the caller's precision,
src/eigs/primme_c.c:168-181. -/
def defaultTypes (op : Int) (s : EP K) : EP K :=
  let f (s : EP K) (p : PF) (t : IF) : EP K :=
    if s.p p ≠ 0 ∧ s.i t = 0 then s.setI t op else s
  f (f (f (f (f (f (f s .matrixMatvec .matrixMatvec_type) .massMatrixMatvec .massMatrixMatvec_type)
    .applyPreconditioner .applyPreconditioner_type) .globalSumReal .globalSumReal_type)
    .broadcastReal .broadcastReal_type) .convTestFun .convTestFun_type) .monitorFun .monitorFun_type

/-- `wrapper_Sprimme`, src/eigs/primme_c.c:278-422; the result carries `*outInitSize`. -/
def wrapper (e : Env K) (coh : EP K → Int) (solve : EP K → SolveResult K) (a : Args) (s : EP K) :
    Option (CallResult K × Int) :=
  match preludeDefaults e (a.evalsNull || a.evecsNull || a.resNormsNull) s with
  | none => none
  | some s =>
    if a.evalsNull ∧ a.evecsNull ∧ a.resNormsNull then some (⟨0, s, false⟩, 0)
    else
      let s := preludeCallbacks e s
      let c := coh s
      if c ≠ 0 then some (⟨c, s, false⟩, 0)
      else
        let c := checkInput e.meps a.arrays s
        if c ≠ 0 then some (⟨c, s, false⟩, 0)
        else
          let r := solve s
          if r.err ≠ 0 then some (⟨r.err, r.params, true⟩, 0)
          else some (⟨r.ret, r.params, true⟩, r.params.i .initSize)

/-- `Xprimme_aux_Sprimme`, src/eigs/primme_c.c:157-243.  `op` is the precision of the called function,
`env t` describes the build for working precision `t` (`none`: not compiled in, code -44). -/
def driver (op : Int) (env : Int → Option (Env K)) (coh : EP K → Int)
    (solve : EP K → SolveResult K) (a : Args) (s : EP K) : Option (CallResult K) :=
  let s := defaultTypes op s
  let t := if s.i .internalPrecision = 0 then op else s.i .internalPrecision
  match env t with
  | none => some ⟨-44, s.setI .initSize 0, false⟩
  | some e => match wrapper e coh solve a s with
    | none => none
    | some (r, out) => some { r with params := r.params.setI .initSize out }

/-! ## Several processes -/

/-- `hash_call`, src/include/common.h:403-414; `lo`, `hi` are the two 32-bit words of the `double`. -/
def hashPrefix (str : List Nat) : Nat := str.foldl (fun h c => (h * 33 + c) % 2 ^ 32) 5381

/-- The last two steps of `hash_call`. -/
def hashCall (str : List Nat) (lo hi : Nat) : Nat :=
  ((hashPrefix str * 33 + lo) % 2 ^ 32 * 33 + hi) % 2 ^ 32

/-- A 32-bit pattern read as `float`, converted to another floating type and back: every number comes
back, a signalling NaN comes back quiet (IEEE 754 conversions set the top mantissa bit). This happens to
the broadcast hash of `PARALLEL_CHECK` (src/include/common.h:431-454) whenever the type of the user's
broadcast (or sum) callback is not `float`, src/eigs/auxiliary_eigs.c:391-473. -/
def quiet (h : Nat) : Nat :=
  let e := h / 2 ^ 23 % 2 ^ 8
  let m := h % 2 ^ 23
  if e = 255 ∧ m ≠ 0 ∧ m < 2 ^ 22 then h + 2 ^ 22 else h

/-- The members compared by `check_params_coherence`, src/eigs/primme_c.c:760-791. -/
def coherentI : List IF := [.n, .numEvals, .target, .numTargetShifts, .dynamicMethodSwitch, .locking,
  .initSize, .numOrthoConst, .maxBasisSize, .minRestartSize, .maxBlockSize, .maxMatvecs,
  .maxOuterIterations, .orth, .initBasisMode, .projectionParams_projection,
  .restartingParams_maxPrevRetain, .correctionParams_precondition, .correctionParams_robustShifts,
  .correctionParams_maxInnerIterations, .correctionParams_projectors_LeftQ,
  .correctionParams_projectors_LeftX, .correctionParams_projectors_RightQ,
  .correctionParams_projectors_RightX, .correctionParams_projectors_SkewQ,
  .correctionParams_projectors_SkewX, .correctionParams_convTest]

/-- The `double` members compared by `check_params_coherence`. -/
def coherentD : List DF := [.aNorm, .BNorm, .invBNorm, .eps, .correctionParams_relTolBase]

/-- The machine under `PARALLEL_CHECK`: hash of a member's value (label string, value converted to
`double`) and what the broadcast makes of a 32-bit pattern. -/
structure Hashing (K : Type) where
  hashI : IF → Int → Nat
  hashD : DF → K → Nat
  xfer : Nat → Nat

/-- All `PARALLEL_CHECK`s of one process against the root's hashes pass,
src/include/common.h:431-454. -/
def agrees (H : Hashing K) (root s : EP K) : Bool :=
  coherentI.all (fun f => H.hashI f (s.i f) == H.xfer (H.hashI f (root.i f))) &&
  coherentD.all (fun f => H.hashD f (s.d f) == H.xfer (H.hashD f (root.d f)))

/-- `check_params_coherence` on all processes at once, src/eigs/primme_c.c:735-789, for a run whose
processes all provide `globalSumReal` and the right `numProcs`: every comparison is followed by a global
sum of the disagreements, so that all processes get the same code.  The root of the broadcast is the
process with `procID = 0`; without one the emulated broadcast delivers zeros (code -1) and a user
broadcast is taken to deliver the data of the first process. -/
def coherence (H : Hashing K) (ps : List (EP K)) : Int :=
  if (ps.filter (fun s => s.i .procID = 0)).length > 1 then -1
  else
    match ps.find? (fun s => s.i .procID = 0), ps.head? with
    | some root, _ => if ps.all (agrees H root) then 0 else -43
    | none, none => 0
    | none, some first =>
      if first.p .broadcastReal = 0 then -1 else if ps.all (agrees H first) then 0 else -43

/-- Outcome of one process in a parallel step: it returns a code, or waits for ever for the others. -/
inductive Fate where
  | returns (code : Int)
  | blocked
  deriving DecidableEq, Repr

/-- `coordinated_exit` on all processes at once, src/eigs/primme_c.c:802-816: a process with code -43
leaves without taking part in the sum, which then never completes for the others. `none`: all the
processes go on. -/
def coordinatedExit (rets : List Int) : Option (List Fate) :=
  if rets.any (· == -43) then
    some (rets.map fun r => if r = -43 then .returns r else .blocked)
  else if rets.any (· ≠ 0) then
    some (rets.map fun r => .returns (if r ≠ 0 then r else -43))
  else none

/-- The part of `wrapper_Sprimme` after the defaults on all processes, src/eigs/primme_c.c:372-401:
coherence check, local input check (each process on its own), solver.  `main` gives the codes with which
`main_iter` ends on the processes, and `final` the codes returned when none failed.  A process that
enters the solver while another has left waits for ever in the first collective operation. -/
def parallelRun (H : Hashing K) (meps : K) (main final : List Int) (ps : List (EP K × Args)) :
    List Fate :=
  match coordinatedExit (ps.map fun _ => coherence H (ps.map (·.1))) with
  | some fates => fates
  | none =>
    let checks := ps.map fun p => checkInput meps p.2.arrays p.1
    if checks.any (· ≠ 0) then
      checks.map fun c => if c ≠ 0 then .returns c else .blocked
    else match coordinatedExit main with
      | some fates => fates
      | none => final.map .returns

/-- Size in bytes of a real number of a `primme_op_datatype` (half 1, float 2, double 3, quad 4) -/
def realBytes (t : Int) : Nat := if t = 1 then 2 else if t = 2 then 4 else if t = 3 then 8 else 16

/-- Bytes of the buffer `pret` (`HREAL` of the working precision: at least `float`) and bytes the user's
`globalSumReal` reads and writes through the pointers it gets (`count = 1` number of type
`globalSumReal_type`), src/eigs/primme_c.c:807-811. -/
def exitBuffer (work sumType : Int) : Nat × Nat := (realBytes (max work 2), realBytes sumType)

end Verif.Eigs
