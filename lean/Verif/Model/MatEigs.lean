import Verif.Model.MatBase
import Verif.Model.REigs
import Mathlib.Data.List.Sort

/-!
# `primme_eigs` of the MATLAB interface, Matlab/primme_eigs.m:206-654, and the code it calls in Matlab/primme_mex.cpp

The library is an arbitrary function of the call.

Simplifications: the positional arguments are already told apart (primme_eigs.m:235); the options that `primme_eigs` takes
for itself (`isreal`, `isdouble`, `ishermitian`, `v0`, `orthoConst`, `returnUnconverged` and those about reports) are
fields of their own, and the others are `rest`; the functions of the user do not fail on vectors of the dimension;
`profile` is not processed; the eigenvalues the library returns are real.
-/

namespace Verif.Mat
open Verif.Members Verif.Py Verif.Eigs

/-- A matrix argument: dimensions and what `isreal`, `class`, `issparse` and `ishermitian` say. -/
structure MMatrix where
  rows : Nat
  cols : Nat
  complex : Bool
  double : Bool
  sparse : Bool
  hermitian : Bool
  deriving DecidableEq, Repr

/-- An operator: a matrix, of which the handle `@(x)A*x` is made at the given address, a function handle, or something
else. -/
inductive MOp where
  | mat (m : MMatrix) (a : Nat) | fn (a : Nat) | other
  deriving DecidableEq, Repr

/-- A preconditioner argument: a matrix (`[]` has no rows), a function handle, or something else. -/
inductive MPrec where
  | mat (rows cols : Nat) | fn | other
  deriving DecidableEq, Repr

/-- Vectors given as an option, and whether they are complex. -/
structure MVecs (V : Type) where
  arr : Arr V
  complex : Bool

/-- The struct OPTS. -/
structure MOpts (K V : Type) where
  isreal : Option Bool
  isdouble : Option Bool
  ishermitian : Option Bool
  v0 : Option (MVecs V)
  orthoConst : Option (MVecs V)
  returnUnconverged : Bool
  /-- whether the monitor is installed: a report was asked for, or four outputs -/
  report : Bool
  rest : Fields (MVal K)

/-- Arguments of `primme_eigs`; `none` is an argument that is not given (or `[]` for `method`). -/
structure EigsArgs (K V : Type) where
  A : MOp
  B : Option MOp
  dim : Option (MVal K)
  count : Option (MVal K)
  target : Option (MVal K)
  opts : MOpts K V
  method : Option (MVal K)
  P1 : Option MPrec
  P2 : Option MPrec

variable {K V : Type} [Field K] [LinearOrder K] [FloorRing K]

/-- `~isscalar(n) || ~isnumeric(n) || n<0` is false, then `round(n)`, primme_eigs.m:266-271 and 277-281. -/
def roundArg (v : MVal K) : Res (MVal K) :=
  match v with
  | .num 1 1 [x] => if x < 0 then .raise .value else .ok (.one ((round x : Int) : K))
  | .complex 1 1 [x] => if x < 0 then .raise .value else .ok (.complex 1 1 [((round x : Int) : K)])
  | _ => .raise .value

/-- The operator `A`, primme_eigs.m:214-233: the first fields. -/
def startA : MOp → Res (Fields (MVal K))
  | .mat m a => .ok [("n", .one (m.cols : K)), ("matrixMatvec", .fn a)]
  | .fn a => .ok [("matrixMatvec", .fn a)]
  | .other => .raise .value

/-- The operator `B`, primme_eigs.m:235-262. -/
def addB (A : MOp) (B : Option MOp) (o : Fields (MVal K)) : Res (Fields (MVal K)) :=
  match B with
  | none => .ok o
  | some (.fn a) => .ok (o.set "massMatrixMatvec" (.fn a))
  | some .other => .raise .value
  | some (.mat m a) =>
    if m.rows ≠ m.cols ∨ (m.rows < 10000 ∧ m.hermitian = false) then .raise .value
    else match A with
      | .mat mA _ => if m.rows ≠ mA.cols then .raise .value else .ok (o.set "massMatrixMatvec" (.fn a))
      | _ => .ok (o.set "massMatrixMatvec" (.fn a))

/-- `ABfun`: an operator is a function. -/
def hasFn (A : MOp) (B : Option MOp) : Bool :=
  (match A with | .fn _ => true | _ => false) || (match B with | some (.fn _) => true | _ => false)

/-- The dimension, primme_eigs.m:264-272. -/
def addDim (a : EigsArgs K V) (o : Fields (MVal K)) : Res (Fields (MVal K)) :=
  if hasFn a.A a.B then match a.dim with
    | none => .raise .value
    | some v => (roundArg v).bind fun n => .ok (o.set "n" n)
  else .ok o

/-- The number of eigenvalues, primme_eigs.m:274-283. -/
def addCount (a : EigsArgs K V) (o : Fields (MVal K)) : Res (Fields (MVal K)) :=
  match a.count with
  | some v => (roundArg v).bind fun k => .ok (o.set "numEvals" k)
  | none => match (o.get "n").bind scalar with
    | some n => .ok (o.set "numEvals" (.one (min 6 n)))
    | none => .raise .value

/-- The names of `targets`, primme_eigs.m:291-296. -/
def targetNames : List (String × String) :=
  [("LA", "primme_largest"), ("LM", "primme_largest_abs"), ("SA", "primme_smallest"), ("CGT", "primme_closest_geq"),
   ("CLT", "primme_closest_leq"), ("SM", "primme_closest_abs")]

/-- The target, primme_eigs.m:285-310. -/
def addTarget (a : EigsArgs K V) (o : Fields (MVal K)) : Res (Fields (MVal K)) :=
  match a.target with
  | none => .ok ((o.set "target" (.str "primme_largest_abs")).set "targetShifts" (.one 0))
  | some (.str t) => match targetNames.find? (fun e => e.1 = t) with
    | none => .raise .value
    | some e =>
      let o1 := o.set "target" (.str e.2)
      .ok (if t = "SM" ∨ t = "LM" then o1.set "targetShifts" (.one 0) else o1)
  | some (.num r c l) => .ok ((o.set "target" (.str "primme_closest_abs")).set "targetShifts" (.num r c l))
  | some (.complex r c l) => .ok ((o.set "target" (.str "primme_closest_abs")).set "targetShifts" (.complex r c l))
  | some _ => .raise .value

/-- There is a preconditioner, primme_eigs.m:334-355: the one for the second matrix uses the first, so it must be there;
the positions of the arguments make it so. -/
def hasPrec (a : EigsArgs K V) : Bool := a.P1.isSome

/-- `opts.applyPreconditioner = P; opts.correction.precondition = 1`, primme_eigs.m:356-359; `h` is the address of the
handle. -/
def addPrec (h : Nat) (a : EigsArgs K V) (o : Fields (MVal K)) : Res (Fields (MVal K)) :=
  if hasPrec a then
    let o1 := o.set "applyPreconditioner" (.fn h)
    match o1.get "correction" with
    | none => .ok (o1.set "correction" (.struct [("precondition", 1)]))
    | some (.struct l) => .ok (o1.set "correction" (.struct (Fields.set l "precondition" 1)))
    | some _ => .raise .value
  else .ok o

/-- `Acomplex`, primme_eigs.m:217-231, 247 and 362-365. -/
def isComplexProblem (a : EigsArgs K V) : Bool :=
  match a.opts.isreal with
  | some b => !b
  | none =>
    (match a.A with | .mat m _ => m.complex | _ => true) || (match a.B with | some (.mat m _) => m.complex | _ => false)

/-- `Adouble`, primme_eigs.m:218-231, 249-253 and 368-371. -/
def isDoubleProblem (a : EigsArgs K V) : Bool :=
  match a.opts.isdouble with
  | some b => b
  | none =>
    (match a.A with | .mat m _ => m.double | _ => true) || (match a.B with | some (.mat m _) => m.double | _ => false)

/-- `Aherm`, primme_eigs.m:219 and 374-377. -/
def isHermitianProblem (a : EigsArgs K V) : Bool := a.opts.ishermitian.getD true

/-- `isnumeric(A) && m < 1e4 && Aherm && ~ishermitian(A)`, primme_eigs.m:378-380. -/
def badHermitian (a : EigsArgs K V) : Bool :=
  match a.A with
  | .mat m _ => decide (m.rows < 10000) && isHermitianProblem a && !m.hermitian
  | _ => false

/-- A sparse matrix used in single precision, primme_eigs.m:396-399. -/
def sparseSingle (a : EigsArgs K V) : Bool :=
  match a.A with
  | .mat m _ => m.sparse && !isDoubleProblem a
  | _ => false

/-- The field for it. -/
def addType (a : EigsArgs K V) (o : Fields (MVal K)) : Fields (MVal K) :=
  if sparseSingle a then o.set "matrixMatvec_type" (.str "primme_op_double") else o

/-- A natural number. -/
def asNat (x : K) : Option Nat := if 0 ≤ x ∧ ((⌊x⌋ : Int) : K) = x then some ⌊x⌋.toNat else none

/-- `opts.n` as the dimension of the vectors `ones(opts.n, 1)`; other values fail here or in the library. -/
def dimOf (o : Fields (MVal K)) : Option Nat := ((o.get "n").bind scalar).bind asNat

/-- The number of rows of the result of a preconditioner on a vector of `n` rows; `none` is an error of `P\x`. -/
def applyPrec (n : Nat) : MPrec → Option Nat
  | .mat r c => if r = n then some c else none
  | .fn => some n
  | .other => none

/-- The test of the operators, primme_eigs.m:402-417. -/
def testOperators (a : EigsArgs K V) (n : Nat) : Bool :=
  (match a.A with | .mat m _ => decide (m.cols = n) | .fn _ => true | .other => false) &&
  (match a.P1, a.P2 with
    | some p, some q => match applyPrec n p with
      | some k => (applyPrec k q).isSome
      | none => false
    | some p, none => (applyPrec n p).isSome
    | none, _ => true)

/-- `changes`, primme_eigs.m:484-500. -/
def renames : List (String × String) :=
  [("tol", "eps"), ("maxit", "maxOuterIterations"), ("p", "maxBasisSize"), ("projection", "projection_projection"),
   ("scheme", "restarting_scheme"), ("maxPrevRetain", "restarting_maxPrevRetain"),
   ("precondition", "correction_precondition"), ("robustShifts", "correction_robustShifts"),
   ("maxInnerIterations", "correction_maxInnerIterations"), ("LeftQ", "correction_projectors_LeftQ"),
   ("LeftX", "correction_projectors_LeftX"), ("RightQ", "correction_projectors_RightQ"),
   ("RightX", "correction_projectors_RightX"), ("SkewQ", "correction_projectors_SkewQ"),
   ("SkewX", "correction_projectors_SkewX"), ("convTest", "correction_convTest"),
   ("relTolBase", "correction_relTolBase")]

/-- One turn of the loop of primme_eigs.m:502-507. -/
def rename {α : Type} (o : Fields α) (c : String × String) : Fields α :=
  match o.get c.1 with
  | some v => (o.set c.2 v).del c.1
  | none => o

/-- The constraints and the guesses, primme_eigs.m:510-529. -/
def addVecs (n : Nat) (what : String) (v : Option (MVecs V)) (o : Fields (MVal K)) : Res (Fields (MVal K)) :=
  match v with
  | none => .ok o
  | some x => if x.arr.rows ≠ n then .raise .value else .ok (o.set what (.one (x.arr.cols : K)))

/-- `eps(Aclass)*1e4`, primme_eigs.m:532-534; `Aclass` is `'double'` also for a sparse matrix used in single precision. -/
def defaultTol (a : EigsArgs K V) : K :=
  if isDoubleProblem a ∨ sparseSingle a then 10000 / 2 ^ 52 else 10000 / 2 ^ 23

/-- The default tolerance. -/
def addTol (a : EigsArgs K V) (o : Fields (MVal K)) : Fields (MVal K) :=
  match o.get "eps" with
  | some _ => o
  | none => o.set "eps" (.one (defaultTol a))

/-- The struct of options when its fields are given to the library, primme_eigs.m:206-534. -/
def options (h : Nat) (a : EigsArgs K V) : Res (Fields (MVal K)) :=
  (startA a.A).bind fun o0 =>
  (addB a.A a.B o0).bind fun o1 =>
  (addDim a o1).bind fun o2 =>
  (addCount a o2).bind fun o3 =>
  (addTarget a o3).bind fun o4 =>
  (addPrec h a (o4.merge a.opts.rest)).bind fun o5 =>
  if badHermitian a then .raise .value else
  match dimOf o5 with
  | none => .raise .value
  | some n =>
    if testOperators a n = false then .raise .value else
    (addVecs n "numOrthoConst" a.opts.orthoConst (renames.foldl rename (addType a o5))).bind fun o6 =>
    (addVecs n "initSize" a.opts.v0 o6).bind fun o7 => .ok (addTol a o7)

/-- The setter of the eigensolver, primme_mex.cpp:749-905: labels 28 (`iseed`), 19 (`targetShifts`), 10 (`commInfo`), the
five functions with the members their handles are kept in, and the forbidden labels of 837-850. -/
def eigsKind (heap device text : Nat) : MKind Eigs.IF Eigs.DF Eigs.PF where
  T := eigsTables
  seed := 28
  shifts := 19
  comm := 10
  handles := [(2, .matrix), (4, .preconditioner), (6, .massMatrix), (80, .convtest), (85, .monitor)]
  forbidden := [8, 9, 11, 12, 18, 36, 37, 39, 83, 84, 87, 82]
  count := .numTargetShifts
  array := .targetShifts
  commInfo := .commInfo
  heap := heap
  device := device
  text := text

/-- State of the eigensolver's parameters. -/
abbrev ES (K : Type) := R.RState Eigs.IF Eigs.DF Eigs.PF K

/-- The argument of `primme_set_method`, primme_eigs.m:322-331. -/
def methodArg (m : Option (MVal K)) : MVal K :=
  match m with
  | none => .str "PRIMME_DEFAULT_METHOD"
  | some (.str s) => .str ("PRIMME_" ++ s)
  | some v => v

/-- `primme_mex('primme_set_method', method, primme)`, primme_eigs.m:546-550 and primme_mex.cpp:705-717. -/
def setMethodM (m : Option (MVal K)) (s : ES K) : Res (ES K) :=
  (asInt Eigs.constTable (methodArg m)).bind fun v =>
  match callMethod 2 v s.params with
  | some (0, t) => .ok { s with params := t }
  | _ => .raise .value

/-- Addresses: copies of the shifts, of the device and of strings; the handles of the preconditioner and of the monitor; the
compiled callbacks, in the arithmetic of the solver, in double and in single precision. -/
structure MAddrs where
  heap : Nat
  device : Nat
  text : Nat
  objPrec : Nat
  objMonitor : Nat
  matvec : Int → Nat
  mass : Int → Nat
  prec : Int → Nat
  conv : Nat
  monitor : Nat

/-- The name of the solver, primme_eigs.m:574-594. -/
def solverName (a : EigsArgs K V) : String :=
  (if isDoubleProblem a then (if isComplexProblem a then "z" else "d") else (if isComplexProblem a then "c" else "s"))
    ++ "primme" ++ (if isHermitianProblem a then "" else "_normal")

/-- The solvers of `mexFunction` without GPU, primme_mex.cpp:2146-2151, and whether their vectors are complex. -/
def solvers : List (String × Bool) :=
  [("sprimme", false), ("cprimme", true), ("dprimme", false), ("zprimme", true), ("cprimme_normal", true),
   ("zprimme_normal", true)]

/-- `select_fun`, primme_mex.cpp:501-519: the callback for the type of the vectors (0 default, 2 float, 3 double), `NULL`
for the others. -/
def selectFun (f : Int → Nat) (t : Int) : Nat := if t = 0 ∨ t = 2 ∨ t = 3 then f t else 0

/-- A call of the library: the solver, the parameters, the target shifts, the number of elements of `evals` and
`resNorms`, the rows and columns of `evecs` (first the column), whether its entries are complex, and whether
`primme_eigs` will sort what comes back. -/
structure MCall (K V : Type) where
  solver : String
  params : EP K
  shifts : List K
  values : Nat
  height : Nat
  width : Nat
  evecs : Nat → Nat → V
  complex : Bool
  sorted : Bool

/-- Columns of an option of vectors. -/
def colsOf : Option (MVecs V) → Nat
  | some m => m.arr.cols
  | none => 0

/-- An entry of an option of vectors. -/
def entry (zero : V) (v : Option (MVecs V)) (i j : Nat) : V :=
  match v with
  | some m => m.arr.at' i j
  | none => zero

/-- Rows of `[init init0]`, primme_eigs.m:510-529: no rows when there are neither constraints nor guesses. -/
def initRows (a : EigsArgs K V) : Nat :=
  match a.opts.orthoConst, a.opts.v0 with
  | some m, _ => m.arr.rows
  | none, some m => m.arr.rows
  | none, none => 0

/-- `[init init0]` is complex. -/
def initComplex (a : EigsArgs K V) : Bool :=
  (match a.opts.orthoConst with | some m => m.complex | none => false) ||
  (match a.opts.v0 with | some m => m.complex | none => false)

/-- `mexFunction_xprimme` up to the call of the library, primme_mex.cpp:1198-1309.  Arrays of negative length are an
exception.  Entries after the constraints and guesses are `zero` (they are not set by the code when the vectors are
complex or there are constraints). -/
def enter (D : MAddrs) (zero : V) (a : EigsArgs K V) (sorted : Bool) (s : ES K) : Res (MCall K V) :=
  match solvers.lookup (solverName a) with
  | none => .raise .value
  | some complex =>
    let p := s.params
    let c := p.i .numOrthoConst
    let g := p.i .initSize
    if p.i .numEvals < 0 ∨ p.i .n < 0 ∨ c + max (p.i .numEvals) g < 0 then .raise .value
    else if 0 < c + g ∧ ((initRows a : Int) ≠ p.i .n ∨ (colsOf a.opts.orthoConst + colsOf a.opts.v0 : Int) ≠ c + g ∨
        (complex = false ∧ initComplex a = true)) then .raise .value
    else
      let p1 := put p (.p .matrixMatvec) (.ptr (selectFun D.matvec (p.i .matrixMatvec_type)))
      let p2 := if p.p .massMatrix = 0 then p1
        else put p1 (.p .massMatrixMatvec) (.ptr (selectFun D.mass (p.i .massMatrixMatvec_type)))
      let p3 := if p.i .correctionParams_precondition = 0 then p2
        else put p2 (.p .applyPreconditioner) (.ptr (selectFun D.prec (p.i .applyPreconditioner_type)))
      let p4 := if p.p .monitor = 0 then p3 else put p3 (.p .monitorFun) (.ptr D.monitor)
      let p5 := if p.p .convtest = 0 then p4 else put p4 (.p .convTestFun) (.ptr D.conv)
      .ok
        { solver := solverName a
          params := p5
          shifts := s.shifts
          values := (p.i .numEvals).toNat
          height := (p.i .n).toNat
          width := (c + max (p.i .numEvals) g).toNat
          evecs := fun j i => if j < colsOf a.opts.orthoConst then entry zero a.opts.orthoConst i j
            else if j < colsOf a.opts.orthoConst + colsOf a.opts.v0 then
              entry zero a.opts.v0 i (j - colsOf a.opts.orthoConst) else zero
          complex := complex
          sorted := sorted }

/-- `primme_mex('primme_set_member', primme, 'monitorFun', …)`, primme_eigs.m:561-565. -/
def addMonitor (D : MAddrs) (a : EigsArgs K V) (s : ES K) : Res (ES K) :=
  if a.opts.report then setMemberM (eigsKind D.heap D.device D.text) s "monitorFun" (.fn D.objMonitor) else .ok s

/-- The values of `opts.target` for which the result is not sorted, primme_eigs.m:616-618. -/
def unsortedTargets : List String := ["primme_largest", "primme_smallest", "primme_largest_abs"]

/-- The test of primme_eigs.m:616-618. -/
def sortsResult (o : Fields (MVal K)) : Bool :=
  match o.get "target" with
  | some (.str t) => !unsortedTargets.contains t
  | _ => true

/-- Everything before the call of the library, primme_eigs.m:206-597.  `start` is the structure `primme_initialize`
makes. -/
def prepareM (D : MAddrs) (zero : V) (start : EP K) (a : EigsArgs K V) : Res (MCall K V) :=
  (options D.objPrec a).bind fun o =>
  (setAllM (eigsKind D.heap D.device D.text) (settings o) ⟨start, []⟩).bind fun s =>
  (setMethodM a.method s).bind fun t =>
  (addMonitor D a t).bind fun u =>
  enter D zero a (sortsResult o) u

/-- What the library leaves. -/
abbrev MCallOut := R.RCallOut

/-- What `primme_eigs` returns: D, the columns of X, and R. -/
structure EigsOut (K V : Type) where
  values : List K
  vectors : List (Nat → V)
  rnorms : List K

/-- `numRet`, primme_mex.cpp:1329-1330: how many of the first `k` norms come before a negative one. -/
def leading (norms : Nat → K) (k : Nat) : Nat := ((List.range k).takeWhile fun j => decide (0 ≤ norms j)).length

/-- The values, vectors and norms `mexFunction_xprimme` returns, primme_mex.cpp:1329-1383: real vectors without constraints
are returned in the array they were computed in, with all its columns. -/
def mexReturns (c : MCall K V) (o : MCallOut K V) : EigsOut K V :=
  let k := leading o.norms (o.params.i .numEvals).toNat
  { values := (List.range k).map o.evals
    vectors := if c.complex = true ∨ 0 < c.params.i .numOrthoConst ∨ 0 < o.params.i .numOrthoConst then
        (List.range k).map fun j => o.evecs ((o.params.i .numOrthoConst).toNat + j)
      else (List.range c.width).map o.evecs
    rnorms := (List.range k).map o.norms }

/-- `x(1:initSize)`, an error when there are fewer. -/
def firstOf {α : Type} (n : Int) (l : List α) : Res (List α) :=
  if n ≤ l.length then .ok (l.take n.toNat) else .raise .value

/-- `evals(1:initSize)` and so on, primme_eigs.m:600-605. -/
def trimmed (n : Int) (r : EigsOut K V) : Res (EigsOut K V) :=
  (firstOf n r.values).bind fun v => (firstOf n r.rnorms).bind fun q => (firstOf n r.vectors).bind fun x => .ok ⟨v, x, q⟩

/-- `[~,ind] = sort(evals,'descend')`. -/
def descending (l : List K) : List Nat :=
  (List.range l.length).insertionSort fun i j => l.getD j 0 ≤ l.getD i 0

/-- `[evals,ind] = sort(evals,'descend'); evecs = evecs(:,ind)`, primme_eigs.m:619-620. -/
def sortResult (r : EigsOut K V) : EigsOut K V :=
  { r with
    values := (descending r.values).map fun i => r.values.getD i 0
    vectors := (descending r.values).filterMap fun i => r.vectors[i]? }

/-- After the call, primme_eigs.m:599-634. -/
def finishM (a : EigsArgs K V) (c : MCall K V) (o : MCallOut K V) : Res (EigsOut K V) :=
  (if o.code = -3 ∧ a.opts.returnUnconverged = false then trimmed (o.params.i .initSize) (mexReturns c o)
    else .ok (mexReturns c o)).bind fun r =>
  if o.code ≠ -3 ∧ o.code ≠ 0 then .raise (.primme o.code)
  else .ok (if c.sorted then sortResult r else r)

/-- `primme_eigs`. -/
def primmeEigs (D : MAddrs) (zero : V) (start : EP K) (lib : MCall K V → MCallOut K V) (a : EigsArgs K V) :
    Res (EigsOut K V) :=
  (prepareM D zero start a).bind fun c => finishM a c (lib c)

end Verif.Mat
