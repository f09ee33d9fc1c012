import Verif.Model.PyBase
import Verif.Model.Driver
import Verif.Model.EigsTables

/-!
# `primme.eigsh` of the Python module, Python/primme.pyx:284-734

The library (`sprimme`, `cprimme`, `dprimme`, `zprimme`) is an arbitrary function of the call; the theorems that
need it take the model of the driver.  Arguments are two-dimensional arrays and linear operators of the right kind
(`aslinearoperator` and the indexing of shapes do not fail), callables are true in a Boolean context, and
`np.copyto` between different element types is the identity.
-/

namespace Verif.Py
open Verif.Members Verif.Eigs

/-- The tables of the eigensolver. -/
def eigsTables : Tables Eigs.IF Eigs.DF Eigs.PF :=
  ⟨Eigs.infoNames, Eigs.infoTypes, Eigs.setTable, Eigs.getTable, Eigs.constTable⟩

/-- Element types of `A`: the kinds of `A.dtype` the code distinguishes (primme.pyx:595-598); `integral` stands for
the kinds `b`, `i`, `u` and `other` for the rest (`float16`, `longdouble`, `object`, …). -/
inductive DType where
  | integral | float32 | float64 | complex64 | complex128 | other
  deriving DecidableEq, Repr

/-- A linear operator or a two-dimensional array argument. -/
structure Operator where
  rows : Nat
  cols : Nat
  addr : Nat
  deriving DecidableEq, Repr

/-- A two-dimensional array. -/
structure Arr (V : Type) where
  rows : Nat
  cols : Nat
  at' : Nat → Nat → V

/-- The argument `which`: a string or a number. -/
inductive Which (K : Type) where
  | name (s : String) | num (x : K)
  deriving DecidableEq, Repr

/-- Arguments of `eigsh`, primme.pyx:284-289. -/
structure EigshArgs (K V : Type) where
  A : Operator
  dtype : DType
  k : Int
  M : Option Operator
  sigma : Option K
  which : Which K
  v0 : Option (Arr V)
  ncv : Option Int
  maxiter : Option Int
  tol : K
  OPinv : Option Operator
  lock : Option (Arr V)
  return_eigenvectors : Bool
  return_stats : Bool
  maxBlockSize : Int
  minRestartSize : Int
  maxPrevRetain : Int
  method : Option String
  return_unconverged : Bool
  return_history : Bool
  convtest : Option Nat
  raise_for_unconverged : Bool
  kargs : List (String × PVal K)

/-- The functions of the module whose addresses are stored. -/
inductive Role where
  | matvec | massmatvec | precond | convtest | monitor
  deriving DecidableEq, Repr

/-- Addresses: of the compiled callbacks for each element type, of the variable `sigma_c`, and of the local function
`mon`. -/
structure Addrs where
  fn : Role → DType → Nat
  sigma : Nat
  mon : Nat

variable {K V : Type} [Field K]

/-- The setters on an eigensolver structure. -/
def eigsSetters (E : Env K) : Setters K (EP K) := ⟨paramsSet eigsTables E, paramsRaw eigsTables⟩

/-- The chosen target and the tests on `which`, primme.pyx:507-539.  `float(which)` of a string that is not one of the
names is taken to fail (a string holding a number would be accepted as the number). -/
def whichSteps (a : EigshArgs K V) : List (Step K (EP K)) :=
  match a.which with
  | .name s =>
    if s = "LM" then [.set "target" (.str "primme_largest_abs")]
    else if s = "LA" then [.set "target" (.str "primme_largest")]
    else if s = "SA" then [.set "target" (.str "primme_smallest")]
    else if s = "SM" then [.set "target" (.str "primme_closest_abs")]
    else if s = "CLT" then [.set "target" (.str "primme_closest_leq")]
    else if s = "CGT" then [.set "target" (.str "primme_closest_geq")]
    else [.need false .value]
  | .num _ => [.need a.sigma.isNone .value, .set "target" (.str "primme_closest_abs")]

/-- `sigma` after primme.pyx:507-539. -/
def shift (a : EigshArgs K V) : Option K :=
  match a.which with
  | .name s => if s = "LA" ∨ s = "SA" then none else some (a.sigma.getD 0)
  | .num x => some x

/-- The shift, primme.pyx:541-545. -/
def shiftSteps (B : Addrs) (a : EigshArgs K V) : List (Step K (EP K)) :=
  match shift a with
  | none => []
  | some _ => [.set "numTargetShifts" (.int 1), .raw "targetShifts" B.sigma]

/-- `numOrthoConst`, primme.pyx:564-569. -/
def orthoCount (a : EigshArgs K V) : Nat :=
  match a.lock with
  | none => 0
  | some l => min l.cols a.A.rows

/-- Element type the computation uses, primme.pyx:595-598. -/
def workType (t : DType) : DType := if t = .integral then .float64 else t

/-- The compiled variant of the callbacks: `c_matvec_numpy[…]` etc., primme.pyx:600-634. -/
def variant (t : DType) : DType :=
  match workType t with
  | .complex64 => .complex64
  | .float32 => .float32
  | .float64 => .float64
  | _ => .complex128

/-- The real type of `c_monitor[…]`. -/
def realVariant (t : DType) : DType :=
  match variant t with
  | .complex64 => .float32
  | .float32 => .float32
  | _ => .float64

/-- The stored callbacks, primme.pyx:600-634. -/
def callbackSteps (B : Addrs) (a : EigshArgs K V) : List (Step K (EP K)) :=
  [.raw "matrixMatvec" (B.fn .matvec (variant a.dtype))] ++
  (if a.M.isSome then [.raw "massMatrixMatvec" (B.fn .massmatvec (variant a.dtype))] else []) ++
  [.raw "applyPreconditioner" (B.fn .precond (variant a.dtype))] ++
  (if a.convtest.isSome then [.raw "convTestFun" (B.fn .convtest (variant a.dtype))] else []) ++
  (if a.return_history then [.raw "monitorFun" (B.fn .monitor (realVariant a.dtype))] else [])

/-- `initSize`, primme.pyx:664-668. -/
def guessCount (a : EigshArgs K V) : Nat :=
  match a.v0 with
  | none => 0
  | some v => min v.cols a.k.toNat

/-- `primme_set_method(m, pp)`, whose return code is ignored. -/
def presetAct [LinearOrder K] (m : Int) (s : EP K) : EP K :=
  match callMethod 2 m s with
  | some (_, t) => t
  | none => s

/-- The preset method, primme.pyx:679-685. -/
def methodSteps [LinearOrder K] (m : Option String) : List (Step K (EP K)) :=
  match m with
  | none => []
  | some name => match constantInfo Eigs.constTable name with
    | .ok v => [.need (decide (0 ≤ v)) .value, .act (presetAct v)]
    | _ => [.need false .value]

/-- The statements of `eigsh` before the preset method, in order and in groups, primme.pyx:484-677.  Messages such as
`'… (shape=%s)' % A.shape` have one conversion for a pair, so those statements raise `TypeError`. -/
def eigshGroups (B : Addrs) (a : EigshArgs K V) : List (List (Step K (EP K))) :=
  [[.need (a.A.rows = a.A.cols) .type, .set "matrix" (.obj a.A.addr)],
   [.set "n" (.int a.A.rows)],
   match a.M with
    | none => []
    | some M => [.need (a.A.rows = M.rows) .type, .set "massMatrix" (.obj M.addr)],
   [.need (¬ (a.k ≤ 0 ∨ a.k > a.A.rows)) .value, .set "numEvals" (.int a.k)],
   whichSteps a,
   shiftSteps B a,
   [.set "eps" (.flt a.tol)],
   match a.ncv with | none => [] | some x => [.set "maxBasisSize" (.int x)],
   match a.maxiter with | none => [] | some x => [.set "maxMatvecs" (.int x)],
   match a.OPinv with
    | none => [.set "correction_precondition" (.int 0)]
    | some P => [.need (P.rows = P.cols ∧ P.rows = a.A.rows) .type, .set "correction_precondition" (.int 1),
        .set "preconditioner" (.obj P.addr)],
   match a.lock with
    | none => []
    | some l => [.need (l.rows = a.A.rows) .type, .set "numOrthoConst" (.int (orthoCount a))],
   match a.convtest with | none => [] | some f => [.set "convtest" (.obj f)],
   a.kargs.map (fun e => .extra e.1 e.2),
   if a.return_history then [.set "monitor" (.obj B.mon)] else [],
   callbackSteps B a,
   match a.v0 with
    | none => []
    | some v => [.set "initSize" (.int (guessCount a)), .need (v.rows = a.A.rows ∨ v.rows = 1) .value],
   if a.maxBlockSize ≠ 0 then [.set "maxBlockSize" (.int a.maxBlockSize)] else [],
   if a.minRestartSize ≠ 0 then [.set "minRestartSize" (.int a.minRestartSize)] else [],
   if a.maxPrevRetain ≠ 0 then [.set "restarting_maxPrevRetain" (.int a.maxPrevRetain)] else []]

/-- All statements before the call of the library, primme.pyx:484-693. -/
def eigshSteps [LinearOrder K] (B : Addrs) (a : EigshArgs K V) : List (Step K (EP K)) :=
  (eigshGroups B a).flatten ++ methodSteps a.method ++ [.need (workType a.dtype ≠ .other) .unbound]

/-- The array `evecs` given to the library, primme.pyx:650-668: zeros, then `lock`, then `v0` (whose single row is
repeated when it has one row only).  First the column. -/
def firstVecs (zero : V) (a : EigshArgs K V) (j i : Nat) : V :=
  let c := orthoCount a
  match (if j < c then a.lock else none) with
  | some l => l.at' i j
  | none => match a.v0 with
    | some v => if c ≤ j ∧ j < c + guessCount a then v.at' (if v.rows = 1 then 0 else i) (j - c) else zero
    | none => zero

/-- A call of `sprimme` (`op = 2`) or `dprimme`, … (`op = 3`): precision, element type, parameters, the value
`targetShifts` points to, and the arrays: `evals` and `resNorms` have `values` elements, `evecs` has `height` rows and
`width` columns. -/
structure Call (K V : Type) where
  op : Int
  elem : DType
  params : EP K
  sigma : Option K
  values : Nat
  height : Nat
  width : Nat
  evecs : Nat → Nat → V

/-- What the library leaves: return value, structure and arrays, and whether a callback stored an exception. -/
structure CallOut (K V : Type) where
  code : Int
  params : EP K
  evals : Nat → K
  evecs : Nat → Nat → V
  norms : Nat → K
  exc : Bool

/-- Everything before the call, primme.pyx:484-693.  `start` is the structure made by `primme_params_create`. -/
def prepare [LinearOrder K] (E : Env K) (B : Addrs) (zero : V) (start : EP K) (a : EigshArgs K V) : Res (Call K V) :=
  (run (eigsSetters E) (eigshSteps B a) start).bind fun s => .ok
    { op := if workType a.dtype = .complex64 ∨ workType a.dtype = .float32 then 2 else 3
      elem := workType a.dtype
      params := s
      sigma := shift a
      values := a.k.toNat
      height := a.A.rows
      width := orthoCount a + a.k.toNat
      evecs := firstVecs zero a }

/-- What `eigsh` returns. -/
structure EigshOut (K V : Type) where
  w : List K
  v : Option (List (Nat → V))
  rnorms : Option (List K)

/-- The codes with a message, `_PRIMMEErrors`, primme.pyx:1493-1537. -/
def messageCodes : List Int :=
  [0, -1, -2, -3, -4, -5, -6, -7, -8, -9, -10, -11, -12, -13, -14, -15, -16, -17, -18, -19, -20, -21, -22, -23, -24, -25,
   -26, -27, -28, -29, -30, -31, -32, -33, -34, -35, -38, -40, -41, -42, -43, -44]

/-- `raise PrimmeError(err)`, primme.pyx:1570-1576: the message is looked up in the dictionary. -/
def raisePrimme {α : Type} (c : Int) : Res α := if c ∈ messageCodes then .raise (.primme c) else .raise .key

/-- The values handed out, primme.pyx:703-734. -/
def give (a : EigshArgs K V) (o : CallOut K V) : EigshOut K V :=
  let init : Int := if a.return_unconverged then a.k else o.params.i .initSize
  let c := orthoCount a
  { w := (List.range (sliceLen a.k.toNat init)).map o.evals
    v := if a.return_eigenvectors then
      some ((List.range (sliceLen (c + a.k.toNat) (c + init) - c)).map (fun j => o.evecs (c + j))) else none
    rnorms := if a.return_stats then some ((List.range (sliceLen a.k.toNat init)).map o.norms) else none }

/-- After the call, primme.pyx:697-734. -/
def finish (a : EigshArgs K V) (o : CallOut K V) : Res (EigshOut K V) :=
  if o.code ≠ 0 then
    if o.exc then raisePrimme o.code
    else if o.code = -3 ∧ a.return_unconverged = false ∧ a.raise_for_unconverged = true then raisePrimme o.code
    else .ok (give a o)
  else .ok (give a o)

/-- `eigsh`. -/
def eigsh [LinearOrder K] (E : Env K) (B : Addrs) (zero : V) (start : EP K) (lib : Call K V → CallOut K V)
    (a : EigshArgs K V) : Res (EigshOut K V) :=
  (prepare E B zero start a).bind fun c => finish a (lib c)

/-- `get_eigsh_param`, primme.pyx:736-837; `current` is `__current_primme_params`. -/
def getEigshParam (isObj : Nat → Bool) (block : Int) (current : Option (EP K)) (field : String) : Res (Got K) :=
  match current with
  | none => .raise .generic
  | some s => paramsGet eigsTables isObj block s field

/-- Memory seen by a callback. -/
abbrev PMem (V : Type) := Nat → V

/-- `c_matvec_gen_numpy`, primme.pyx:213-234, without exception of the user's operator `f`: the first `n = nLocal` rows
of the `bs` columns of `x` are given to the operator and its result is stored in the first `n` rows of `y`.  The result
is `ierr` and the memory. -/
def matvecCallback (f : (Nat → Nat → V) → Option (Nat → Nat → V)) (n : Nat) (bs : Int) (x ldx y ldy : Nat) (m : PMem V) :
    Int × PMem V :=
  if bs ≤ 0 then (0, m)
  else match f (fun i j => m (x + i + j * ldx)) with
    | none => (1, m)
    | some r => (0, fun p =>
        if y ≤ p ∧ (p - y) / ldy < bs.toNat ∧ (p - y) % ldy < n then r ((p - y) % ldy) ((p - y) / ldy) else m p)

end Verif.Py
