import Verif.Model.REigs
import Verif.Model.PySvds

/-!
# `svds` of the R package, R/R/svds.R:194-383, and the code it calls in R/src/primmeR.cpp

As for `eigs_sym` (`Verif.Model.REigs`) the library is an arbitrary function of the call, and conversions between real and
complex of guesses and constraints are the identity.  Options whose value is a list (`primme = list(…)`) are kept apart and
set after the others; they reach other structures, so the order does not matter.
-/

namespace Verif.R
open Verif.Members Verif.Py Verif.Eigs

variable {K V : Type} [Field K] [LinearOrder K] [FloorRing K]

/-- The argument `prec`: nothing, a function of the vectors and the operator, a list with (some of) the names `AHA`, `AAH`
and `aug`, or something else. -/
inductive SPrec where
  | null | fn | list (aha aah aug : RPrec) | other
  deriving DecidableEq, Repr

/-- What is handed over for the preconditioner: nothing, the user's function, or
`function(x, mode) tofunc(prec[[mode]])(x)`. -/
inductive HeldSPrec where
  | nothing | user | modes (aha aah aug : RPrec)
  deriving DecidableEq, Repr

/-- Arguments of `svds`, svds.R:194-195.  `apply false x` and `apply true x` are the values of `Af(x, "n")` and
`Af(x, "c")`, `none` when they are not of class `matrix` (products with matrices of the package Matrix are not). -/
structure RSvdsArgs (K V : Type) where
  A : ROp
  apply : Bool → Arr V → Option (Arr V)
  NSvals : RVal K
  which : RWhich K
  tol : RTol K
  u0 : RVecs V
  v0 : RVecs V
  orthou : RVecs V
  orthov : RVecs V
  prec : SPrec
  isreal : RReal
  opts : Opts K
  stages : List (String × Opts K)

/-- The dimensions, svds.R:201-212: the options with `m` and `n` set. -/
def setDims (a : RSvdsArgs K V) : Res (Opts K) :=
  match a.A with
  | .fn => if whole (a.opts.dollar "n") ∧ whole (a.opts.dollar "m") then .ok a.opts else .raise .value
  | .mat x => .ok ((a.opts.put "m" (.int [x.rows])).put "n" (.int [x.cols]))
  | .bad => .raise .value

/-- `Aarg`, svds.R:204-242.  `product` is `Af` when the entries are real and `Afc` otherwise (for `ddiMatrix`, a diagonal
matrix, `function(x, trans) A %*% x`, which is the same). -/
def heldSvds (r : RReal) : ROp → Held
  | .fn => .user
  | .mat x =>
    if agrees r (suggests x.cls) ∧ asStored x.cls ∈ [.double, .complex, .dge, .dgC, .dsC] then .direct (asStored x.cls)
    else .product
  | .bad => .nothing

/-- `NSvals`, svds.R:245-247. -/
def setSvals (a : RSvdsArgs K V) (o : Opts K) : Res (Opts K) :=
  match number a.NSvals, number (o.dollar "m"), number (o.dollar "n") with
  | some k, some m, some n => if whole a.NSvals = false ∨ k > min m n then .raise .value else .ok (o.put "numSvals" a.NSvals)
  | _, _, _ => .raise .value

/-- `which`, svds.R:250-262. -/
def setSvdsWhich (a : RSvdsArgs K V) (o : Opts K) : Res (Opts K) :=
  match a.which with
  | .name s =>
    if s = "L" then .ok (o.put "target" (.str ["primme_svds_largest"]))
    else if s = "S" then .ok (o.put "target" (.str ["primme_svds_smallest"]))
    else .raise .value
  | .nums l => .ok ((o.put "targetShifts" (.real l)).put "target" (.str ["primme_svds_closest_abs"]))
  | .other => .raise .value

/-- `tol`, svds.R:265-270. -/
def setSvdsTol (a : RSvdsArgs K V) (o : Opts K) : Res (Opts K) :=
  match a.tol with
  | .num x => if x < 0 ∨ x ≥ 1 then .raise .value else .ok (o.put "eps" (.real [x]))
  | _ => .raise .value

/-- The number of rows is the option `nm`. -/
def rowsMatch (o : Opts K) (nm : String) (n : Nat) : Bool := number (o.dollar nm) = some (n : K)

/-- The product with a given array, `other` when it is no matrix. -/
def derived (r : Option (Arr V)) : RVecs V :=
  match r with
  | some x => .mat x
  | none => .other

/-- A matrix whose number of rows is the option `nm`, or `NULL`. -/
def fitsRows (o : Opts K) (nm : String) (v : RVecs V) : Bool :=
  match v with
  | .null => true
  | .mat x => rowsMatch o nm x.rows
  | .other => false

/-- `check_uv`, svds.R:273-292; a product `u` that is no matrix is refused by the compiled code. -/
def checkUV (a : RSvdsArgs K V) (o : Opts K) (u v : RVecs V) : Res (RVecs V × RVecs V) :=
  if fitsRows o "m" u = false then .raise .value
  else
    let v' := match u, v with
      | .mat x, .null => derived (a.apply true x)
      | _, _ => v
    if fitsRows o "n" v' = false then .raise .value
    else
      let u' := match u, v' with
        | .null, .mat y => derived (a.apply false y)
        | _, _ => u
      match u' with
      | .other => .raise .value
      | _ => .ok (u', v')

/-- The test of one of the preconditioners, svds.R:305-319, whose order is `size`. -/
def testMode (size : Option K) : RPrec → Bool
  | .null => true
  | .fn => true
  | .mat r c => decide (size = some (c : K)) && decide (size = some (r : K))
  | .other => false

/-- The sum of two numbers. -/
def addSize (x y : Option K) : Option K :=
  match x, y with
  | some x, some y => some (x + y)
  | _, _ => none

/-- The test of `prec`, svds.R:299-319. -/
def testSvdsPrec (o : Opts K) : SPrec → Bool
  | .null => true
  | .fn => true
  | .list aha aah aug => testMode (number (o.dollar "n")) aha && testMode (number (o.dollar "m")) aah &&
      testMode (addSize (number (o.dollar "m")) (number (o.dollar "n"))) aug
  | .other => false

/-- `precf`, svds.R:299-326. -/
def heldSvdsPrec : SPrec → HeldSPrec
  | .fn => .user
  | .list aha aah aug => .modes aha aah aug
  | _ => .nothing

/-- `isreal` after svds.R:337-343. -/
def svdsReal (a : RSvdsArgs K V) : Bool :=
  match a.isreal with
  | .null => suggestion a.A
  | .val b => b
  | .other => false

/-- The guesses and constraints after `check_uv`. -/
structure Vectors (V : Type) where
  orthou : RVecs V
  orthov : RVecs V
  u0 : RVecs V
  v0 : RVecs V

/-- The options, the vectors and the three methods when they are given to the library, svds.R:198-343. -/
def svdsOptions (a : RSvdsArgs K V) : Res (Opts K × Vectors V × RVal K × RVal K × RVal K) :=
  (setDims a).bind fun o1 =>
  (setSvals a o1).bind fun o2 =>
  (setSvdsWhich a o2).bind fun o3 =>
  (setSvdsTol a o3).bind fun o4 =>
  (checkUV a o4 a.orthou a.orthov).bind fun c =>
  (checkUV a o4 a.u0 a.v0).bind fun g =>
  if testSvdsPrec o4 a.prec = false then .raise .value
  else if a.isreal = .other then .raise .value
  else
    let o5 := o4.drop "methodStage1"
    let o6 := o5.drop "methodStage2"
    .ok (o6.drop "method", ⟨c.1, c.2, g.1, g.2⟩, o6.exact "method", o4.exact "methodStage1", o5.exact "methodStage2")

/-- The setter of the singular value solver, primmeR.cpp:885-983. -/
def svdsKind (heap : Nat) : Kind Svds.IF Svds.DF Svds.PF where
  T := svdsTables
  seed := 35
  shifts := 21
  forbidden := [1, 2, 9, 10, 11, 12, 13, 14, 20, 24, 25, 38, 5, 7]
  count := .numTargetShifts
  array := .targetShifts
  heap := heap

/-- State of the parameters: the structure proper and the two embedded ones, each with the contents of its array of
shifts. -/
structure SState (K : Type) where
  sv : RState Svds.IF Svds.DF Svds.PF K
  st1 : ES K
  st2 : ES K

/-- The structure of the library. -/
def SState.params (s : SState K) : Svds.SP K := ⟨s.sv.params, s.st1.params, s.st2.params⟩

/-- Addresses: of the arrays of the shifts, of the compiled callbacks and of the objects. -/
structure RSvdsAddrs where
  heap : Nat
  heap1 : Nat
  heap2 : Nat
  matvec : Nat
  prec : Nat
  objA : Nat
  objPrec : Nat

/-- The options with a list, svds.R:350-354: the structure is found by `.primme_svds_get_member(x, primme_svds)`.  Other
names are refused (an empty list under the name of a number is not modelled). -/
def setStages (D : RSvdsAddrs) : List (String × Opts K) → SState K → Res (SState K)
  | [], s => .ok s
  | e :: r, s =>
    if e.1 = "primme" then
      (setAll (eigsKind D.heap1) e.2 (e.2.map Prod.fst) s.st1).bind fun t => setStages D r { s with st1 := t }
    else if e.1 = "primmeStage2" then
      (setAll (eigsKind D.heap2) e.2 (e.2.map Prod.fst) s.st2).bind fun t => setStages D r { s with st2 := t }
    else .raise .value

/-- The name of a method, or the default. -/
def methodName (m : RVal K) (default : String) : RVal K :=
  match m with
  | .null => .str [default]
  | x => x

/-- `primme_svds_set_method_rcpp`, primmeR.cpp:784-798: the constant a string names. -/
def constOf (consts : List (String × Int)) : RVal K → Option Int
  | .str [s] => match constantInfo consts s with
    | .ok v => some v
    | _ => none
  | _ => none

/-- The preset methods, svds.R:361-366. -/
def setMethods (S : Svds.SEnv K) (m m1 m2 : RVal K) (s : SState K) : Res (SState K) :=
  if m = .null ∧ m1 = .null ∧ m2 = .null then .ok s
  else match constOf Svds.constTable (methodName m "primme_svds_default"),
      constOf Eigs.constTable (methodName m1 "PRIMME_DEFAULT_METHOD"),
      constOf Eigs.constTable (methodName m2 "PRIMME_DEFAULT_METHOD") with
    | some c, some c1, some c2 =>
      let p := svdsPreset S c c1 c2 s.params
      .ok ⟨⟨p.sv, s.sv.shifts⟩, ⟨p.st1, s.st1.shifts⟩, ⟨p.st2, s.st2.shifts⟩⟩
    | _, _, _ => .raise .value

/-- A call of `dprimme_svds` (`real`) or `zprimme_svds`: the parameters, the target shifts, the objects behind the callbacks,
and the arrays: `values` elements in `svals` and `resNorms`, `size` in `svecs`. -/
structure RSvdsCall (K V : Type) where
  real : Bool
  params : Svds.SP K
  shifts : List K
  A : Held
  prec : HeldSPrec
  values : Nat
  size : Nat
  svecs : Nat → V

/-- `mLocal` and `nLocal`, primmeR.cpp:1160-1161. -/
def localDims (v : Svds.SV K) : Svds.SV K :=
  let v := if v.i .mLocal = -1 then v.setI .mLocal (v.i .m) else v
  if v.i .nLocal = -1 then v.setI .nLocal (v.i .n) else v

/-- The array `svecs`, primmeR.cpp:1181-1195, with `mL` and `nL` rows; what is not copied is `junk`. -/
def firstSvecs (junk : Nat → V) (x : Vectors V) (mL nL : Nat) (p : Nat) : V :=
  let c := colsOf x.orthou
  let g := colsOf x.u0
  if p < mL * c then entry (junk p) x.orthou (p % mL) (p / mL)
  else if p < mL * (c + g) then entry (junk p) x.u0 ((p - mL * c) % mL) ((p - mL * c) / mL)
  else if p < mL * (c + g) + nL * c then
    entry (junk p) x.orthov ((p - mL * (c + g)) % nL) ((p - mL * (c + g)) / nL)
  else if p < mL * (c + g) + nL * (c + g) then
    entry (junk p) x.v0 ((p - mL * (c + g) - nL * c) % nL) ((p - mL * (c + g) - nL * c) / nL)
  else junk p

/-- `xprimme_svds` up to the call of the library, primmeR.cpp:1157-1231.  Negative lengths are an exception. -/
def enterSvds (D : RSvdsAddrs) (junk : Nat → V) (a : RSvdsArgs K V) (x : Vectors V) (s : SState K) : Res (RSvdsCall K V) :=
  let v0 := localDims s.sv.params
  let mL := v0.i .mLocal
  let nL := v0.i .nLocal
  let k := v0.i .numSvals
  if rowsOf x.orthou ≠ 0 ∧ (rowsOf x.orthou : Int) ≠ mL then .raise .value
  else if rowsOf x.orthov ≠ 0 ∧ (rowsOf x.orthov : Int) ≠ nL then .raise .value
  else if colsOf x.orthou ≠ colsOf x.orthov then .raise .value
  else if rowsOf x.u0 ≠ 0 ∧ (rowsOf x.u0 : Int) ≠ mL then .raise .value
  else if rowsOf x.v0 ≠ 0 ∧ (rowsOf x.v0 : Int) ≠ nL then .raise .value
  else if colsOf x.u0 ≠ colsOf x.v0 then .raise .value
  else if k < 0 ∨ mL < 0 ∨ nL < 0 then .raise .value
  else
    let v1 := (v0.setI .numOrthoConst (colsOf x.orthou)).setI .initSize (colsOf x.u0)
    let v2 := put (put v1 (.p .matrix) (.ptr D.objA)) (.p .matrixMatvec) (.ptr D.matvec)
    let given := heldSvdsPrec a.prec ≠ .nothing
    let v3 := if given then put (put v2 (.p .preconditioner) (.ptr D.objPrec)) (.p .applyPreconditioner) (.ptr D.prec)
      else v2
    let st (p : EP K) : EP K := if given then p.setI .correctionParams_precondition 1 else p
    .ok
      { real := svdsReal a
        params := ⟨v3, st s.st1.params, st s.st2.params⟩
        shifts := s.sv.shifts
        A := heldSvds a.isreal a.A
        prec := heldSvdsPrec a.prec
        values := k.toNat
        size := (mL.toNat + nL.toNat) * (colsOf x.orthou + max (colsOf x.u0) k.toNat)
        svecs := firstSvecs junk x mL.toNat nL.toNat }

/-- Everything before the call of the library, svds.R:198-373.  `start` is the structure `.primme_svds_initialize`
makes. -/
def prepareSvdsR (S : Svds.SEnv K) (D : RSvdsAddrs) (junk : Nat → V) (start : Svds.SP K) (a : RSvdsArgs K V) :
    Res (RSvdsCall K V) :=
  (svdsOptions a).bind fun (o, x, m, m1, m2) =>
  (setAll (svdsKind D.heap) o (o.map Prod.fst) ⟨start.sv, []⟩).bind fun v =>
  (setStages D a.stages ⟨v, ⟨start.st1, []⟩, ⟨start.st2, []⟩⟩).bind fun s =>
  (setMethods S m m1 m2 s).bind fun t =>
  enterSvds D junk a x t

/-- What the library leaves. -/
structure RSvdsCallOut (K V : Type) where
  code : Int
  params : Svds.SP K
  svals : Nat → K
  svecs : Nat → V
  norms : Nat → K

/-- The list `svds` returns: `d`, the columns of `u` and `v`, `rnorms` and the elements of `stats`. -/
structure RSvdsOut (K V : Type) where
  d : List K
  u : List (Nat → V)
  v : List (Nat → V)
  rnorms : List K
  stats : List (String × Got K)

/-- The statistics, svds.R:376-382. -/
def svdsStatNames : List (String × String) :=
  [("numMatvecs", "stats_numMatvecs"), ("numPreconds", "stats_numPreconds"), ("elapsedTime", "stats_elapsedTime"),
   ("estimateANorm", "aNorm"), ("timeMatvec", "stats_timeMatvec"), ("timePrecond", "stats_timePrecond"),
   ("timeOrtho", "stats_timeOrtho")]

/-- The reads of the statistics in order. -/
def readSvdsStats (P : Kind Svds.IF Svds.DF Svds.PF) (s : Svds.SV K) : List (String × String) → Res (List (String × Got K))
  | [] => .ok []
  | e :: r => (getNumber P s e.2).bind fun x => (readSvdsStats P s r).bind fun l => .ok ((e.1, x) :: l)

/-- After the call, primmeR.cpp:1246-1257 and svds.R:375-393.  The number of columns is `initSize` as the library leaves it
(a negative one is an exception). -/
def finishSvdsR (x : Vectors V) (c : RSvdsCall K V) (o : RSvdsCallOut K V) : Res (RSvdsOut K V) :=
  let mL := (o.params.sv.i .mLocal).toNat
  let nL := (o.params.sv.i .nLocal).toNat
  let g := (o.params.sv.i .initSize).toNat
  if o.params.sv.i .initSize < 0 then .raise .value
  else (readSvdsStats (svdsKind 0) o.params.sv svdsStatNames).bind fun st =>
    if o.code ≠ 0 then .raise (.primme o.code)
    else .ok
      { d := (List.range c.values).map o.svals
        u := (List.range g).map fun j => fun i => o.svecs (mL * colsOf x.orthou + (i + mL * j))
        v := (List.range g).map fun j => fun i => o.svecs (mL * (colsOf x.orthou + g) + nL * colsOf x.orthov + (i + nL * j))
        rnorms := (List.range c.values).map o.norms
        stats := st }

/-- `svds`. -/
def svdsR (S : Svds.SEnv K) (D : RSvdsAddrs) (junk : Nat → V) (start : Svds.SP K) (lib : RSvdsCall K V → RSvdsCallOut K V)
    (a : RSvdsArgs K V) : Res (RSvdsOut K V) :=
  (svdsOptions a).bind fun (_, x, _, _, _) => (prepareSvdsR S D junk start a).bind fun c => finishSvdsR x c (lib c)

/-! ## The callbacks -/

/-- `matrixMatvecSvds_Matrix`, primmeR.cpp:1069-1086, and `matrixMatvecSvds_CHM_DN`, 1088-1108, for a dense `m` by `n`
matrix of class `c` whose doubles are `mem`: element `i` of `A x`, or of `A' x` (`adj`).  Sparse matrices are multiplied by
CHOLMOD, which is not modelled. -/
def denseRow (real : Bool) (c : MClass) (m n : Nat) (mem : Nat → K) (adj : Bool) (x : Nat → K × K) (i : Nat) : Product K :=
  let len := if isComplexClass c then 2 * (m * n) else m * n
  if c = .dge ∧ real = false then .stop
  else
    let terms := if adj then
        (List.range m).map fun j => (elemAt real len mem (j + i * m)).map fun z => cmul (conj z) (x j)
      else (List.range n).map fun j => (elemAt real len mem (i + j * m)).map fun z => cmul z (x j)
    match allSome terms with
    | some l => .row l.sum
    | none => .ub

/-- `Af(x, trans)`, svds.R:225-226, for the `m` by `n` matrix with the entries `M`: `crossprod(A, x)` is `t(A) %*% x`. -/
def afRow (m n : Nat) (M : Nat → Nat → K × K) (adj : Bool) (x : Nat → K × K) (i : Nat) : K × K :=
  if adj then ((List.range m).map fun j => cmul (M j i) (x j)).sum
  else ((List.range n).map fun j => cmul (M i j) (x j)).sum

/-- `Afc(x, trans)`, svds.R:227-228: `Conj(t(crossprod(Conj(x), A)))`. -/
def afcRow (m n : Nat) (M : Nat → Nat → K × K) (adj : Bool) (x : Nat → K × K) (i : Nat) : K × K :=
  if adj then conj ((List.range m).map fun j => cmul (conj (x j)) (M j i)).sum
  else ((List.range n).map fun j => cmul (M i j) (x j)).sum

/-- `getSvdsForMatrix` and `getSvdsForPreconditioner`, primmeR.cpp:996-1035: rows of the input and of the output, and the
string given to the function (`none`: an error). -/
def matrixMode (transpose : Int) (m n : Nat) : Nat × Nat × String :=
  if transpose = 0 then (n, m, "n") else (m, n, "c")

/-- `getSvdsForPreconditioner`, primmeR.cpp:1013-1035. -/
def precMode (mode : Int) (m n : Nat) : Option (Nat × Nat × String) :=
  if mode = 1 then some (n, n, "AHA")
  else if mode = 2 then some (m, m, "AAH")
  else if mode = 3 then some (m + n, m + n, "aug")
  else none

/-- `matrixMatvecSvds`, primmeR.cpp:1048-1067, with the function `f` of the columns and the string. -/
def svdsCallback (f : (Nat → Nat → V) → String → Nat × Nat × (Nat → Nat → V)) (mode : Nat × Nat × String) (bs : Nat)
    (x ldx y ldy : Nat) (mem : PMem V) : Res (PMem V) :=
  functionCallback (fun z => f z mode.2.2) mode.2.1 bs x ldx y ldy mem

end Verif.R
