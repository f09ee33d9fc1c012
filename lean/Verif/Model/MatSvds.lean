import Verif.Model.MatEigs
import Verif.Model.PySvds

/-!
# `primme_svds` of the MATLAB interface, Matlab/primme_svds.m:166-620, and the code it calls in Matlab/primme_mex.cpp

The library is an arbitrary function of the call.

Simplifications: the positional arguments are already told apart; the options that `primme_svds` takes for itself (`isreal`,
`isdouble`, `u0`, `v0`, `orthoConst`, `method`, `primme`, `primmeStage2` and those about reports) are fields of their own,
and the others are `rest`; `orthoConst` is a cell of two arrays; complex arrays have an element that is not real; the
functions of the user do not fail on vectors of the dimensions; arrays on GPUs and `profile` are not modelled.
-/

namespace Verif.Mat
open Verif.Members Verif.Py Verif.Eigs

/-- A preconditioner argument: a matrix with the values of `P\x` and `P'\x` for arguments with the right number of rows, a
function of the vector and whether it is `'transp'`, a struct, or something else. -/
inductive SPrec (V : Type) where
  | mat (rows cols : Nat) (inv adj : List V → List V)
  | fn (f : Bool → List V → Option (List V))
  | struct (f : String → Option (List V → Option (List V)))
  | other

/-- The options of the solver of a stage. -/
structure MStage (K : Type) where
  method : Option (MVal K)
  rest : Fields (MVal K)

/-- The struct OPTIONS; `none` is an option that is not given. -/
structure SOpts (K V : Type) where
  isreal : Option Bool
  isdouble : Option Bool
  u0 : Option (MVecs V)
  v0 : Option (MVecs V)
  orthoConst : Option (Option (MVecs V) × Option (MVecs V))
  method : Option (MVal K)
  primme : Option (MStage K)
  primmeStage2 : Option (MStage K)
  /-- whether the monitor is installed: a report was asked for, or five outputs -/
  report : Bool
  rest : Fields (MVal K)

/-- Arguments of `primme_svds`; `none` is an argument that is not given (or `[]` for P1 and P2).  `apply false x` and
`apply true x` are `AFUN(x,'notransp')` and `AFUN(x,'transp')`, `none` when that is an error; `one` is the number 1. -/
structure SvdsArgs (K V : Type) where
  A : MOp
  apply : Bool → MVecs V → Option (MVecs V)
  one : V
  rows : Option (MVal K)
  cols : Option (MVal K)
  count : Option (MVal K)
  target : Option (MVal K)
  opts : SOpts K V
  P1 : Option (SPrec V)
  P2 : Option (SPrec V)

variable {K V : Type} [Field K] [LinearOrder K] [FloorRing K]

/-- A dimension, primme_svds.m:205-210: `round`, then it must be a real number that is not negative. -/
def dimArg (v : Option (MVal K)) : Res (MVal K) :=
  match v with
  | some (.num 1 1 [x]) => if round x < 0 then .raise .value else .ok (.one ((round x : Int) : K))
  | _ => .raise .value

/-- The operator and the dimensions, primme_svds.m:185-219. -/
def startS (a : SvdsArgs K V) : Res (Fields (MVal K)) :=
  match a.A with
  | .mat m x => .ok [("m", .one (m.rows : K)), ("n", .one (m.cols : K)), ("matrixMatvec", .fn x)]
  | .fn x => (dimArg a.rows).bind fun m => (dimArg a.cols).bind fun n => .ok [("matrixMatvec", .fn x), ("m", m), ("n", n)]
  | .other => .raise .value

/-- `round`, element by element. -/
def roundAll : MVal K → Res (MVal K)
  | .num r c l => .ok (.num r c (l.map fun x => ((round x : Int) : K)))
  | .complex r c l => .ok (.complex r c (l.map fun x => ((round x : Int) : K)))
  | _ => .raise .value

/-- The number of singular values, primme_svds.m:221-226. -/
def addSvals (a : SvdsArgs K V) (o : Fields (MVal K)) : Res (Fields (MVal K)) :=
  match a.count with
  | some v => (roundAll v).bind fun k => .ok (o.set "numSvals" k)
  | none => match (o.get "m").bind scalar, (o.get "n").bind scalar with
    | some m, some n => .ok (o.set "numSvals" (.one (min 6 (min m n))))
    | _, _ => .raise .value

/-- `targets` of primme_svds.m:231-236, by the first letter. -/
def letterTarget (s : String) : Option String :=
  match s.toList with
  | 'L' :: _ => some "primme_svds_largest"
  | 'S' :: _ => some "primme_svds_smallest"
  | _ => none

/-- The target and the shifts, primme_svds.m:228-248: the tests of a matrix that is no vector fail. -/
def sigmaS : Option (MVal K) → Res (String × Option (MVal K))
  | none => .ok ("primme_svds_largest", none)
  | some (.str t) => match letterTarget t with
    | some e => .ok (e, none)
    | none => .raise .value
  | some (.num r c l) =>
    if 1 < r ∧ 1 < c then .raise .value
    else if ∀ x ∈ l, x = 0 then .ok ("primme_svds_smallest", none)
    else if ∀ x ∈ l, 0 ≤ x then .ok ("primme_svds_closest_abs", some (.num r c l))
    else .raise .value
  | some (.complex r c l) =>
    if 1 < r ∧ 1 < c then .raise .value
    else if ∀ x ∈ l, 0 ≤ x then .ok ("primme_svds_closest_abs", some (.complex r c l))
    else .raise .value
  | some _ => .raise .value

/-- `opts.targetShifts` and `opts.target`. -/
def addSigma (a : SvdsArgs K V) (o : Fields (MVal K)) : Res (Fields (MVal K)) :=
  (sigmaS a.target).bind fun r =>
    .ok ((match r.2 with | some v => o.set "targetShifts" v | none => o).set "target" (.str r.1))

/-- An argument that is not `[]`. -/
def present : Option (SPrec V) → Option (SPrec V)
  | some (.mat r c i j) => if r = 0 ∨ c = 0 then none else some (.mat r c i j)
  | p => p

/-- The handle of the preconditioner, primme_svds.m:264-289: of one argument, of two matrices, or of the second. -/
inductive HeldP (V : Type) where
  | one (p : SPrec V)
  | two (r1 c1 : Nat) (inv1 adj1 : List V → List V) (r2 c2 : Nat) (inv2 adj2 : List V → List V)
  | right (r c : Nat) (inv adj : List V → List V)

/-- Which preconditioner is made, primme_svds.m:264-289. -/
def choosePrec (p q : Option (SPrec V)) : Res (Option (HeldP V)) :=
  match present q with
  | none => .ok ((present p).map .one)
  | some (.mat r c i j) => match present p with
    | none => .ok (some (.right r c i j))
    | some (.mat r1 c1 i1 j1) => .ok (some (.two r1 c1 i1 j1 r c i j))
    | some _ => .raise .value
  | some _ => .raise .value

/-- `P\x`: an error unless `x` has as many rows as `P`. -/
def backslash (rows : Nat) (f : List V → List V) (x : List V) : Option (List V) :=
  if x.length = rows then some (f x) else none

/-- The common form of `precondsvds_Pmat`, `precondsvds_Pfun` and the first half of `precondsvds_P1P2`,
primme_svds.m:715-743: `no` is the solution with `P` and `tr` with its transpose; in the last mode the vector is split after
`split` rows. -/
def byMode (split : Nat) (no tr : List V → Option (List V)) (mode : String) (x : List V) : Option (List V) :=
  if mode = "AHA" then (tr x).bind no
  else if mode = "AAH" then (no x).bind tr
  else if x.length < split then none
  else (no (x.drop split)).bind fun y => (tr (x.take split)).bind fun z => some (y ++ z)

/-- The function of the handle, primme_svds.m:715-766; `m` is the number of rows of the matrix. -/
def applyHeld (m : Nat) (h : HeldP V) (mode : String) (x : List V) : Option (List V) :=
  match h with
  | .one (.mat r c i j) => byMode r (backslash r i) (backslash c j) mode x
  | .one (.fn f) => byMode m (f false) (f true) mode x
  | .one (.struct f) => match f mode with
    | some g => g x
    | none => some x
  | .one .other => none
  | .two r1 c1 i1 j1 r2 c2 i2 j2 => byMode r1 (fun y => (backslash r1 i1 y).bind (backslash r2 i2))
      (fun y => (backslash c2 j2 y).bind (backslash c1 j1)) mode x
  | .right r c i j => if mode = "AHA" then (backslash c j x).bind (backslash r i)
      else if mode = "AAH" then (backslash r i x).bind (backslash c j)
      else some x

/-- `opts.applyPreconditioner = P; opts.precondition = 1`, primme_svds.m:276-279 and 286-288; `h` is the address of the
handle. -/
def addPrecS (h : Nat) (p : Option (HeldP V)) (o : Fields (MVal K)) : Fields (MVal K) :=
  match p with
  | some _ => (o.set "applyPreconditioner" (.fn h)).set "precondition" (.one 1)
  | none => o

/-- `Acomplex`, primme_svds.m:201, 216 and 291-295. -/
def isComplexS (a : SvdsArgs K V) : Bool :=
  match a.opts.isreal with
  | some b => !b
  | none => match a.A with | .mat m _ => m.complex | _ => true

/-- `Adouble`, primme_svds.m:195-200, 217 and 297-301. -/
def isDoubleS (a : SvdsArgs K V) : Bool :=
  match a.opts.isdouble with
  | some b => b
  | none => match a.A with | .mat m _ => m.double | _ => true

/-- A sparse matrix used in single precision, primme_svds.m:302-310. -/
def sparseSingleS (a : SvdsArgs K V) : Bool :=
  match a.A with
  | .mat m _ => m.sparse && !isDoubleS a
  | _ => false

/-- The field for it. -/
def addTypeS (a : SvdsArgs K V) (o : Fields (MVal K)) : Fields (MVal K) :=
  if sparseSingleS a then o.set "matrixMatvec_type" (.str "primme_op_double") else o

/-- A dimension of the vectors `ones(opts.m, 1)` and `ones(opts.n, 1)`; other values fail here or in the library. -/
def dimIn (o : Fields (MVal K)) (nm : String) : Option Nat := ((o.get nm).bind scalar).bind asNat

/-- The test of the operators, primme_svds.m:322-339. -/
def testSvds (a : SvdsArgs K V) (p : Option (HeldP V)) (m n : Nat) : Bool :=
  (match a.A with | .mat x _ => decide (x.cols = n ∧ x.rows = m) | .fn _ => true | .other => false) &&
  (match p with
    | none => true
    | some h => (applyHeld m h "AHA" (List.replicate n a.one)).isSome &&
        (applyHeld m h "AAH" (List.replicate m a.one)).isSome &&
        (applyHeld m h "aug" (List.replicate (m + n) a.one)).isSome)

/-- The first `changes`, primme_svds.m:393. -/
def renamesS : List (String × String) := [("tol", "eps"), ("maxit", "maxMatvecs"), ("p", "maxBasisSize")]

/-- The second `changes`, primme_svds.m:411-424. -/
def renamesStage : List (String × String) :=
  [("projection", "projection_projection"), ("scheme", "restarting_scheme"), ("maxPrevRetain", "restarting_maxPrevRetain"),
   ("precondition", "correction_precondition"), ("robustShifts", "correction_robustShifts"),
   ("maxInnerIterations", "correction_maxInnerIterations"), ("LeftQ", "correction_projectors_LeftQ"),
   ("LeftX", "correction_projectors_LeftX"), ("RightQ", "correction_projectors_RightQ"),
   ("RightX", "correction_projectors_RightX"), ("SkewQ", "correction_projectors_SkewQ"),
   ("SkewX", "correction_projectors_SkewX"), ("convTest", "correction_convTest"),
   ("relTolBase", "correction_relTolBase")]

/-- The default tolerance, primme_svds.m:401-408; `Aclass` is `'double'` for a sparse matrix used in single precision. -/
def tolS (a : SvdsArgs K V) : K :=
  if isDoubleS a then 1 / 10 ^ 10 else if sparseSingleS a then 10000 / 2 ^ 52 else 10000 / 2 ^ 23

/-- The default tolerance is set when there is none. -/
def addTolS (a : SvdsArgs K V) (o : Fields (MVal K)) : Fields (MVal K) :=
  match o.get "eps" with
  | some _ => o
  | none => o.set "eps" (.one (tolS a))

/-- `isempty`. -/
def nonEmpty (v : Option (MVecs V)) : Option (MVecs V) :=
  match v with
  | some x => if x.arr.rows = 0 ∨ x.arr.cols = 0 then none else some x
  | none => none

/-- Left and right vectors. -/
abbrev VPair (V : Type) := MVecs V × MVecs V

/-- The test of dimensions, primme_svds.m:476-479 and 495-498. -/
def checkPair (m n : Nat) (p : VPair V) : Res (VPair V) :=
  if p.1.arr.rows ≠ m ∨ p.2.arr.rows ≠ n ∨ p.1.arr.cols ≠ p.2.arr.cols then .raise .value else .ok p

/-- The left vectors, and the right ones, which are `A'*left` when `redo`; when there are no left vectors they are
`A*right`. -/
def pairUp (a : SvdsArgs K V) (m n : Nat) (redo : Bool) (l r : Option (MVecs V)) : Res (VPair V) :=
  match nonEmpty l with
  | none => match nonEmpty r with
    | none => .raise .value
    | some y => match a.apply false y with
      | some x => checkPair m n (x, y)
      | none => .raise .value
  | some x =>
    if redo then match a.apply true x with
      | some y => checkPair m n (x, y)
      | none => .raise .value
    else match nonEmpty r with
      | some y => checkPair m n (x, y)
      | none => .raise .value

/-- The constraints, primme_svds.m:466-485. -/
def constraintsS (a : SvdsArgs K V) (m n : Nat) : Res (Option (VPair V)) :=
  match a.opts.orthoConst with
  | none => .ok none
  | some (l, r) => (pairUp a m n (nonEmpty r).isNone l r).bind fun p => .ok (some p)

/-- The guesses, primme_svds.m:486-503: line 492 tests `init{2}`, the right constraints, instead of `init0{2}`. -/
def guessesS (a : SvdsArgs K V) (m n : Nat) : Res (Option (VPair V)) :=
  match a.opts.u0, a.opts.v0 with
  | none, none => .ok none
  | l, r => (pairUp a m n a.opts.orthoConst.isNone l r).bind fun p => .ok (some p)

/-- `opts.numOrthoConst` and `opts.initSize`. -/
def addWidth (what : String) (p : Option (VPair V)) (o : Fields (MVal K)) : Fields (MVal K) :=
  match p with
  | some x => o.set what (.one (x.1.arr.cols : K))
  | none => o

/-- What is prepared before the library's structure: the fields, the constraints and the guesses. -/
structure Prepared (K V : Type) where
  fields : Fields (MVal K)
  ortho : Option (VPair V)
  init : Option (VPair V)

/-- The struct of options and the vectors, primme_svds.m:183-503. -/
def optionsS (h : Nat) (a : SvdsArgs K V) : Res (Prepared K V) :=
  (startS a).bind fun o0 =>
  (addSvals a o0).bind fun o1 =>
  (addSigma a o1).bind fun o2 =>
  (choosePrec a.P1 a.P2).bind fun p =>
  let o3 := addTypeS a (addPrecS h p (o2.merge a.opts.rest))
  match dimIn o3 "m", dimIn o3 "n" with
  | some m, some n =>
    if testSvds a p m n = false then .raise .value else
    (constraintsS a m n).bind fun c =>
    (guessesS a m n).bind fun g =>
    .ok ⟨addWidth "initSize" g (addWidth "numOrthoConst" c (addTolS a (renamesS.foldl rename o3))), c, g⟩
  | _, _ => .raise .value

/-- The setter of the singular value solver, primme_mex.cpp:1461-1603: labels 35 (`iseed`), 21 (`targetShifts`), 13
(`commInfo`), the four functions with the members their handles are kept in, and the forbidden labels of 1545-1557. -/
def svdsKind (heap device text : Nat) : MKind Svds.IF Svds.DF Svds.PF where
  T := svdsTables
  seed := 35
  shifts := 21
  comm := 13
  handles := [(5, .matrix), (7, .preconditioner), (55, .convtest), (58, .monitor)]
  forbidden := [1, 2, 9, 10, 11, 12, 14, 20, 24, 25, 38, 57, 60]
  count := .numTargetShifts
  array := .targetShifts
  commInfo := .commInfo
  heap := heap
  device := device
  text := text

/-- State of the parameters: the structure proper and the two embedded ones, with the contents of their shifts. -/
structure SState (K : Type) where
  sv : R.RState Svds.IF Svds.DF Svds.PF K
  st1 : ES K
  st2 : ES K

/-- The structure of the library. -/
def SState.params (s : SState K) : Svds.SP K := ⟨s.sv.params, s.st1.params, s.st2.params⟩

/-- Addresses: copies of the shifts (of the solver and of each stage), of the device and of strings; the handles of the
preconditioner and of the monitor; the compiled callbacks. -/
structure SAddrs where
  heap : Nat
  heap1 : Nat
  heap2 : Nat
  device : Nat
  text : Nat
  objPrec : Nat
  objMonitor : Nat
  matvec : Int → Nat
  prec : Int → Nat
  conv : Nat
  monitor : Nat

/-- The options of a stage, primme_svds.m:425-437 and 795-805: the renamed fields are set in the embedded structure. -/
def setStage (P : MKind Eigs.IF Eigs.DF Eigs.PF) (st : Option (MStage K)) (s : ES K) : Res (ES K) :=
  match st with
  | none => .ok s
  | some x => setAllM P (settings (renamesStage.foldl rename x.rest)) s

/-- The method of a stage, primme_svds.m:446-463. -/
def stageMethod (st : Option (MStage K)) : MVal K := methodArg (st.bind MStage.method)

/-- `primme_mex('primme_svds_set_method', …)`, primme_svds.m:439-445 and 513-515, primme_mex.cpp:1410-1426. -/
def setMethodsS (S : Svds.SEnv K) (a : SvdsArgs K V) (s : SState K) : Res (SState K) :=
  (asInt Svds.constTable (a.opts.method.getD (.str "primme_svds_default"))).bind fun m =>
  (asInt Eigs.constTable (stageMethod a.opts.primme)).bind fun m1 =>
  (asInt Eigs.constTable (stageMethod a.opts.primmeStage2)).bind fun m2 =>
  let p := svdsPreset S m m1 m2 s.params
  .ok ⟨⟨p.sv, s.sv.shifts⟩, ⟨p.st1, s.st1.shifts⟩, ⟨p.st2, s.st2.shifts⟩⟩

/-- `primme_mex('primme_svds_set_member', primme_svds, 'monitorFun', …)`, primme_svds.m:525-529. -/
def addMonitorS (D : SAddrs) (a : SvdsArgs K V) (s : SState K) : Res (SState K) :=
  if a.opts.report then
    (setMemberM (svdsKind D.heap D.device D.text) s.sv "monitorFun" (.fn D.objMonitor)).bind fun v => .ok { s with sv := v }
  else .ok s

/-- The solver, primme_svds.m:540-557, and whether its vectors are complex. -/
def solverS (a : SvdsArgs K V) : String :=
  (if isDoubleS a then (if isComplexS a then "z" else "d") else (if isComplexS a then "c" else "s")) ++ "primme_svds"

/-- A call of the library: the solver, the parameters, the target shifts, the number of elements of `svals` and `resNorms`
and of `svecs`, the contents of the latter, whether they are complex, and whether the result will be sorted. -/
structure SCall (K V : Type) where
  solver : String
  params : Svds.SP K
  shifts : List K
  values : Nat
  size : Nat
  svecs : Nat → V
  complex : Bool
  sorted : Bool

/-- Columns of an option of vectors. -/
def widthOf : Option (VPair V) → Nat
  | some p => p.1.arr.cols
  | none => 0

/-- `[init{1} init0{1}]` and `[init{2} init0{2}]`. -/
def joined (zero : V) (f : VPair V → MVecs V) (c g : Option (VPair V)) (i j : Nat) : V :=
  if j < widthOf c then (match c with | some p => (f p).arr.at' i j | none => zero)
  else match g with
    | some p => (f p).arr.at' i (j - widthOf c)
    | none => zero

/-- Rows of the same arrays. -/
def joinedRows (f : VPair V → MVecs V) (c g : Option (VPair V)) : Nat :=
  match c, g with
  | some p, _ => (f p).arr.rows
  | none, some p => (f p).arr.rows
  | none, none => 0

/-- The arrays have complex numbers. -/
def joinedComplex (c g : Option (VPair V)) : Bool :=
  (match c with | some p => p.1.complex || p.2.complex | none => false) ||
  (match g with | some p => p.1.complex || p.2.complex | none => false)

/-- `mexFunction_xprimme_svds` up to the call of the library, primme_mex.cpp:1959-2072.  Arrays of negative length are an
exception; entries that are not copied are `junk`. -/
def enterS (D : SAddrs) (junk : Nat → V) (a : SvdsArgs K V) (x : Prepared K V) (sorted : Bool) (s : SState K) :
    Res (SCall K V) :=
  let v := s.sv.params
  let m := v.i .m
  let n := v.i .n
  let w := v.i .numOrthoConst + v.i .initSize
  if v.i .numSvals < 0 ∨ m < 0 ∨ n < 0 ∨ v.i .numOrthoConst + max (v.i .initSize) (v.i .numSvals) < 0 then .raise .value
  else if 0 < w ∧ ((joinedRows Prod.fst x.ortho x.init : Int) ≠ m ∨ (joinedRows Prod.snd x.ortho x.init : Int) ≠ n ∨
      (widthOf x.ortho + widthOf x.init : Int) ≠ w ∨
      (isComplexS a = false ∧ joinedComplex x.ortho x.init = true)) then .raise .value
  else
    let v1 := put v (.p .matrixMatvec) (.ptr (selectFun D.matvec (v.i .matrixMatvec_type)))
    let v2 := if v.p .preconditioner = 0 then v1
      else put v1 (.p .applyPreconditioner) (.ptr (selectFun D.prec (v.i .applyPreconditioner_type)))
    let v3 := if v.p .monitor = 0 then v2 else put v2 (.p .monitorFun) (.ptr D.monitor)
    let v4 := if v.p .convtest = 0 then v3 else put v3 (.p .convTestFun) (.ptr D.conv)
    .ok
      { solver := solverS a
        params := ⟨v4, s.st1.params, s.st2.params⟩
        shifts := s.sv.shifts
        values := (v.i .numSvals).toNat
        size := (v.i .numOrthoConst + max (v.i .initSize) (v.i .numSvals)).toNat * (m.toNat + n.toNat)
        svecs := fun p =>
          if p < m.toNat * w.toNat then joined (junk p) Prod.fst x.ortho x.init (p % m.toNat) (p / m.toNat)
          else if p < m.toNat * w.toNat + n.toNat * w.toNat then
            joined (junk p) Prod.snd x.ortho x.init ((p - m.toNat * w.toNat) % n.toNat) ((p - m.toNat * w.toNat) / n.toNat)
          else junk p
        complex := isComplexS a
        sorted := sorted }

/-- The test of primme_svds.m:571. -/
def sortsSvds (o : Fields (MVal K)) : Bool :=
  match o.get "target" with
  | some (.str t) => t = "primme_svds_smallest" ∨ t = "primme_svds_closest_abs"
  | _ => false

/-- Everything before the call of the library, primme_svds.m:166-561.  `start` is the structure `primme_svds_initialize`
makes. -/
def prepareSvdsM (S : Svds.SEnv K) (D : SAddrs) (junk : Nat → V) (start : Svds.SP K) (a : SvdsArgs K V) :
    Res (SCall K V) :=
  (optionsS D.objPrec a).bind fun x =>
  (setAllM (svdsKind D.heap D.device D.text) (settings x.fields) ⟨start.sv, []⟩).bind fun v =>
  (setStage (eigsKind D.heap1 D.device D.text) a.opts.primme ⟨start.st1, []⟩).bind fun s1 =>
  (setStage (eigsKind D.heap2 D.device D.text) a.opts.primmeStage2 ⟨start.st2, []⟩).bind fun s2 =>
  (setMethodsS S a ⟨v, s1, s2⟩).bind fun t =>
  (addMonitorS D a t).bind fun u =>
  enterS D junk a x (sortsSvds x.fields) u

/-- What the library leaves. -/
structure SCallOut (K V : Type) where
  code : Int
  params : Svds.SP K
  svals : Nat → K
  svecs : Nat → V
  norms : Nat → K

/-- What `primme_svds` returns: the values, the columns of U and V, and R. -/
structure SvdsOut (K V : Type) where
  values : List K
  left : List (Nat → V)
  right : List (Nat → V)
  rnorms : List K

/-- The values, vectors and norms `mexFunction_xprimme_svds` returns, primme_mex.cpp:2082-2122: as many as `initSize`. -/
def mexReturnsS (o : SCallOut K V) : SvdsOut K V :=
  let m := (o.params.sv.i .m).toNat
  let n := (o.params.sv.i .n).toNat
  let c := (o.params.sv.i .numOrthoConst).toNat
  let g := (o.params.sv.i .initSize).toNat
  { values := (List.range g).map o.svals
    left := (List.range g).map fun j i => o.svecs (m * c + (i + m * j))
    right := (List.range g).map fun j i => o.svecs (m * (c + g) + n * c + (i + n * j))
    rnorms := (List.range g).map o.norms }

/-- `[svals,ind] = sort(svals,'descend')`, primme_svds.m:572-574. -/
def sortSvds (r : SvdsOut K V) : SvdsOut K V :=
  { r with
    values := (descending r.values).map fun i => r.values.getD i 0
    left := (descending r.values).filterMap fun i => r.left[i]?
    right := (descending r.values).filterMap fun i => r.right[i]? }

/-- After the call, primme_svds.m:563-588: `mod(ierr, -100)` has the sign of the divisor. -/
def finishSvdsM (c : SCall K V) (o : SCallOut K V) : Res (SvdsOut K V) :=
  if Int.fmod o.code (-100) = -3 ∨ o.code = 0 then
    .ok (if c.sorted then sortSvds (mexReturnsS o) else mexReturnsS o)
  else .raise (.primme o.code)

/-- `primme_svds`. -/
def primmeSvds (S : Svds.SEnv K) (D : SAddrs) (junk : Nat → V) (start : Svds.SP K) (lib : SCall K V → SCallOut K V)
    (a : SvdsArgs K V) : Res (SvdsOut K V) :=
  (prepareSvdsM S D junk start a).bind fun c => finishSvdsM c (lib c)

/-- `getSvdsForMatrix` and `getSvdsForPreconditioner`, primme_mex.cpp:1750-1790: rows of the input and of the output, and
the string given to the function (`none`: an error). -/
def matrixModeM (transpose : Int) (m n : Nat) : Nat × Nat × String :=
  if transpose = 0 then (n, m, "notransp") else (m, n, "transp")

/-- `getSvdsForPreconditioner`, primme_mex.cpp:1767-1790. -/
def precModeM (mode : Int) (m n : Nat) : Option (Nat × Nat × String) :=
  if mode = 1 then some (n, n, "AHA")
  else if mode = 2 then some (m, m, "AAH")
  else if mode = 3 then some (m + n, m + n, "aug")
  else none

end Verif.Mat
