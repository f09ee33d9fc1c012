import Verif.Model.RBase
import Verif.Model.PyEigsh
import Mathlib.Algebra.BigOperators.Fin

/-!
# `eigs_sym` of the R package, R/R/eigs.R:207-391, and the code it calls in R/src/primmeR.cpp

The library is an arbitrary function of the call.  Conversions of the guesses and constraints between real and complex
are the identity.
-/

namespace Verif.R
open Verif.Members Verif.Py Verif.Eigs

/-- Classes of matrices the code distinguishes: base matrices of doubles, complex numbers, integers or logicals, and
others; classes of the package Matrix (`otherD`: the first letter of the class is `d`; `otherM`: it is not). -/
inductive MClass where
  | double | complex | integral | text | dge | dgC | dsC | dtC | otherD | otherM
  deriving DecidableEq, Repr

/-- A matrix argument. -/
structure RMatrix where
  cls : MClass
  rows : Nat
  cols : Nat
  deriving DecidableEq, Repr

/-- An operator: a function of the user, a matrix, or something with other than two dimensions. -/
inductive ROp where
  | fn | mat (m : RMatrix) | bad
  deriving DecidableEq, Repr

/-- The argument `which`. -/
inductive RWhich (K : Type) where
  | name (s : String) | nums (l : List K) | other
  deriving DecidableEq, Repr

/-- The argument `tol`. -/
inductive RTol (K : Type) where
  | num (x : K) | fn | other
  deriving DecidableEq, Repr

/-- The arguments `x0` and `ortho`. -/
inductive RVecs (V : Type) where
  | null | mat (m : Arr V) | other

/-- The argument `prec`. -/
inductive RPrec where
  | null | fn | mat (rows cols : Nat) | other
  deriving DecidableEq, Repr

/-- The argument `isreal`. -/
inductive RReal where
  | null | val (b : Bool) | other
  deriving DecidableEq, Repr

/-- Arguments of `eigs_sym`, eigs.R:204-205. -/
structure EigsArgs (K V : Type) where
  A : ROp
  NEig : RVal K
  which : RWhich K
  targetShifts : Option (List K)
  tol : RTol K
  x0 : RVecs V
  ortho : RVecs V
  prec : RPrec
  isreal : RReal
  B : Option ROp
  opts : Opts K

/-- What is handed to the compiled code for an operator: nothing, the user's function, the matrix itself, or the function
`function(x) A %*% x`. -/
inductive Held where
  | nothing | user | direct (c : MClass) | product
  deriving DecidableEq, Repr

/-- What is handed over for the preconditioner: nothing, the user's function, or `function(x) solve(prec, x)`. -/
inductive HeldPrec where
  | nothing | user | solve
  deriving DecidableEq, Repr

variable {K V : Type} [Field K] [LinearOrder K] [FloorRing K]

/-- The class after "Convert integer and logical matrices to double", eigs.R:223-227 and 256-260. -/
def asStored (c : MClass) : MClass := if c = .integral then .double else c

/-- `isreal_suggestion`, eigs.R:231-235 and 265-267, of a matrix of the class. -/
def suggests (c : MClass) : Bool :=
  match asStored c with
  | .double => true
  | .dge | .dgC | .dsC | .dtC | .otherD => true
  | _ => false

/-- `isreal_suggestion` of the operator `A`, eigs.R:211-235. -/
def suggestion : ROp → Bool
  | .mat m => suggests m.cls
  | _ => false

/-- `is.null(isreal) || isreal == suggestion`; `isreal` that is not logical is an error later, so it does not matter
here. -/
def agrees (r : RReal) (b : Bool) : Bool :=
  match r with
  | .null => true
  | .val x => x == b
  | .other => false

/-- `Af`, eigs.R:211-244. -/
def heldA (r : RReal) : ROp → Held
  | .fn => .user
  | .mat m =>
    if agrees r (suggests m.cls) ∧ asStored m.cls ∈ [.double, .complex, .dge, .dgC, .dsC, .dtC] then .direct (asStored m.cls)
    else .product
  | .bad => .nothing

/-- `Bf`, eigs.R:247-277. -/
def heldB (r : RReal) : Option ROp → Held
  | none => .nothing
  | some .fn => .user
  | some (.mat m) =>
    if agrees r (suggests m.cls) ∧ asStored m.cls ∈ [.double, .complex, .dge, .dgC, .dsC] then .direct (asStored m.cls)
    else .product
  | some .bad => .nothing

/-- `isreal` after eigs.R:347-353. -/
def computesReal (a : EigsArgs K V) : Bool :=
  match a.isreal with
  | .null => suggestion a.A
  | .val b => b
  | .other => false

/-- The names of `targets`, eigs.R:287-292. -/
def targetNames : List (String × String) :=
  [("LA", "primme_largest"), ("LM", "primme_largest_abs"), ("SA", "primme_smallest"), ("CGT", "primme_closest_geq"),
   ("CLT", "primme_closest_leq"), ("SM", "primme_closest_abs")]

/-- `opts$target` and `opts$targetShifts`, eigs.R:293-305; an assignment of `NULL` removes the element. -/
def setWhich (a : EigsArgs K V) (o : Opts K) : Res (Opts K) :=
  match a.which with
  | .name s => match targetNames.find? (fun e => e.1 = s) with
    | none => .raise .value
    | some e =>
      let ts := if (s = "CGT" ∨ s = "CLT" ∨ s = "SM") ∧ a.targetShifts = none then some [0] else a.targetShifts
      let o1 := o.put "target" (.str [e.2])
      .ok (match ts with
        | none => o1.drop "targetShifts"
        | some l => o1.put "targetShifts" (.real l))
  | .nums l => .ok ((o.put "targetShifts" (.real l)).put "target" (.str ["primme_closest_abs"]))
  | .other => .raise .value

/-- `length(dim(A)) != 2 || ncol(A) != nrow(A)` is false, eigs.R:217. -/
def squareOp : ROp → Bool
  | .mat m => m.rows = m.cols
  | _ => false

/-- The rows of a matrix argument are as many as the number `opts$n`. -/
def rowsAre (o : Opts K) (n : Nat) : Bool := number (o.dollar "n") = some (n : K)

/-- The dimension, eigs.R:211-221: the options with `n` set. -/
def setDim (a : EigsArgs K V) : Res (Opts K) :=
  match a.A with
  | .fn => if whole (a.opts.dollar "n") then .ok a.opts else .raise .value
  | .mat m => if m.rows = m.cols then .ok (a.opts.put "n" (.int [m.rows])) else .raise .value
  | .bad => .raise .value

/-- The test of `B`, eigs.R:247-253. -/
def testB (o : Opts K) : Option ROp → Bool
  | none => true
  | some .fn => true
  | some (.mat m) => decide (m.rows = m.cols) && rowsAre o m.cols
  | some .bad => false

/-- `NEig`, eigs.R:280-284. -/
def setCount (a : EigsArgs K V) (o : Opts K) : Res (Opts K) :=
  match number a.NEig, number (o.dollar "n") with
  | some k, some n => if whole a.NEig = false ∨ k > n then .raise .value else .ok (o.put "numEvals" a.NEig)
  | _, _ => .raise .value

/-- `tol`, eigs.R:308-317. -/
def setTol (a : EigsArgs K V) (o : Opts K) : Res (Opts K) :=
  match a.tol with
  | .fn => .ok o
  | .num x => if x < 0 ∨ x ≥ 1 then .raise .value else .ok (o.put "eps" (.real [x]))
  | .other => .raise .value

/-- The tests of `x0` and `ortho`, eigs.R:320-329. -/
def testVecs (o : Opts K) : RVecs V → Bool
  | .null => true
  | .mat m => rowsAre o m.rows
  | .other => false

/-- The test of `prec`, eigs.R:332-337. -/
def testPrec (o : Opts K) : RPrec → Bool
  | .null => true
  | .fn => true
  | .mat r c => rowsAre o c && rowsAre o r
  | .other => false

/-- `precf`, eigs.R:332-340. -/
def heldPrec : RPrec → HeldPrec
  | .fn => .user
  | .mat _ _ => .solve
  | _ => .nothing

/-- The list of options and the method when they are given to the library, eigs.R:207-353. -/
def options (a : EigsArgs K V) : Res (Opts K × RVal K) :=
  (setDim a).bind fun o1 =>
  if testB o1 a.B = false then .raise .value else
  (setCount a o1).bind fun o2 =>
  (setWhich a o2).bind fun o3 =>
  (setTol a o3).bind fun o4 =>
  if testVecs o4 a.x0 = false ∨ testVecs o4 a.ortho = false ∨ testPrec o4 a.prec = false then .raise .value
  else if a.isreal = .other then .raise .value
  else .ok (o4.drop "method", o4.dollar "method")

/-- The setter of the eigensolver, primmeR.cpp:366-453: the labels 28 (`iseed`) and 19 (`targetShifts`) are special, and
those of the communication, the operators and the leading dimensions are forbidden (primmeR.cpp:399-414). -/
def eigsKind (heap : Nat) : Kind Eigs.IF Eigs.DF Eigs.PF where
  T := eigsTables
  seed := 28
  shifts := 19
  forbidden := [8, 9, 10, 11, 12, 18, 36, 37, 39, 80, 83, 84, 6, 2, 4]
  count := .numTargetShifts
  array := .targetShifts
  heap := heap

/-- State of the eigensolver's parameters. -/
abbrev ES (K : Type) := RState Eigs.IF Eigs.DF Eigs.PF K

/-- `.primme_set_method(method, primme)`, eigs.R:365-366 and primmeR.cpp:284-289. -/
def setMethodR (m : RVal K) (s : ES K) : Res (ES K) :=
  match m with
  | .null => .ok s
  | .str [nm] => match constantInfo Eigs.constTable nm with
    | .ok v => .ok { s with params := presetAct v s.params }
    | _ => .raise .value
  | _ => .raise .value

/-- Addresses of the compiled callbacks and of the objects. -/
structure RAddrs where
  heap : Nat
  matvec : Nat
  mass : Nat
  prec : Nat
  conv : Nat
  objA : Nat
  objB : Nat
  objPrec : Nat
  objConv : Nat

/-- Columns of an argument of vectors. -/
def colsOf : RVecs V → Nat
  | .mat m => m.cols
  | _ => 0

/-- Rows of an argument of vectors (`NULL` becomes a matrix without rows). -/
def rowsOf : RVecs V → Nat
  | .mat m => m.rows
  | _ => 0

/-- An entry of an argument of vectors. -/
def entry (zero : V) (v : RVecs V) (i j : Nat) : V :=
  match v with
  | .mat m => m.at' i j
  | _ => zero

/-- A call of `dprimme` (`real`) or `zprimme`: the parameters, the target shifts, the objects behind the callbacks, and the
arrays: `values` elements in `evals` and `resNorms`, `height` rows and `width` columns in `evecs` (first the column). -/
structure RCall (K V : Type) where
  real : Bool
  params : EP K
  shifts : List K
  A : Held
  B : Held
  prec : HeldPrec
  convTest : Bool
  values : Nat
  height : Nat
  width : Nat
  evecs : Nat → Nat → V

/-- `xprimme` up to the call of the library, primmeR.cpp:627-722.  Vectors of negative length are an exception. -/
def enter (D : RAddrs) (zero : V) (a : EigsArgs K V) (s : ES K) : Res (RCall K V) :=
  let p0 := if s.params.i .nLocal = -1 then s.params.setI .nLocal (s.params.i .n) else s.params
  let c : Nat := colsOf a.ortho
  let g : Nat := colsOf a.x0
  let h := p0.i .nLocal
  let k := p0.i .numEvals
  if rowsOf a.ortho ≠ 0 ∧ (rowsOf a.ortho : Int) ≠ h then .raise .value
  else if rowsOf a.x0 ≠ 0 ∧ (rowsOf a.x0 : Int) ≠ h then .raise .value
  else if k < 0 ∨ h < 0 then .raise .value
  else
    let p1 := (p0.setI .numOrthoConst c).setI .initSize g
    let p2 := put (put p1 (.p .matrix) (.ptr D.objA)) (.p .matrixMatvec) (.ptr D.matvec)
    let p3 := if heldB a.isreal a.B = .nothing then p2
      else put (put p2 (.p .massMatrix) (.ptr D.objB)) (.p .massMatrixMatvec) (.ptr D.mass)
    let p4 := if heldPrec a.prec = .nothing then p3
      else (put (put p3 (.p .preconditioner) (.ptr D.objPrec)) (.p .applyPreconditioner) (.ptr D.prec)).setI
        .correctionParams_precondition 1
    let p5 := if a.tol = .fn then put (put p4 (.p .convtest) (.ptr D.objConv)) (.p .convTestFun) (.ptr D.conv) else p4
    .ok
      { real := computesReal a
        params := p5
        shifts := s.shifts
        A := heldA a.isreal a.A
        B := heldB a.isreal a.B
        prec := heldPrec a.prec
        convTest := decide (a.tol = .fn)
        values := k.toNat
        height := h.toNat
        width := c + max g k.toNat
        evecs := fun j i => if j < c then entry zero a.ortho i j
          else if j < c + g then entry zero a.x0 i (j - c) else zero }

/-- Everything before the call of the library, eigs.R:207-372.  `start` is the structure `.primme_initialize` makes. -/
def prepareR (D : RAddrs) (zero : V) (start : EP K) (a : EigsArgs K V) : Res (RCall K V) :=
  (options a).bind fun (o, m) =>
  (setAll (eigsKind D.heap) o (o.map Prod.fst) ⟨start, []⟩).bind fun s =>
  (setMethodR m s).bind fun t =>
  enter D zero a t

/-- What the library leaves. -/
structure RCallOut (K V : Type) where
  code : Int
  params : EP K
  evals : Nat → K
  evecs : Nat → Nat → V
  norms : Nat → K

/-- The list `eigs_sym` returns: `values`, `vectors`, `rnorms` and the elements of `stats`. -/
structure EigsOut (K V : Type) where
  values : List K
  vectors : List (Nat → V)
  rnorms : List K
  stats : List (String × Got K)

/-- The statistics, eigs.R:375-383: the name in `stats` and the parameter read. -/
def statNames : List (String × String) :=
  [("numMatvecs", "stats_numMatvecs"), ("numPreconds", "stats_numPreconds"), ("elapsedTime", "stats_elapsedTime"),
   ("estimateMinEval", "stats_estimateMinEVal"), ("estimateMaxEval", "stats_estimateMaxEVal"),
   ("estimateANorm", "stats_estimateLargestSVal"), ("timeMatvec", "stats_timeMatvec"), ("timeOrtho", "stats_timeOrtho"),
   ("timePrecond", "stats_timePrecond")]

/-- The reads of the statistics in order. -/
def readStats (P : Kind Eigs.IF Eigs.DF Eigs.PF) (s : EP K) : List (String × String) → Res (List (String × Got K))
  | [] => .ok []
  | e :: r => (getNumber P s e.2).bind fun x => (readStats P s r).bind fun l => .ok ((e.1, x) :: l)

/-- After the call, primmeR.cpp:743-757 and eigs.R:374-391.  `Range(c, c+initSize-1)` throws when it is empty.  The error
of a failed call carries the code here; the table of texts (eigs.R:394-437) is not modelled. -/
def finishR (a : EigsArgs K V) (c : RCall K V) (o : RCallOut K V) : Res (EigsOut K V) :=
  if o.params.i .initSize ≤ 0 then .raise .value
  else (readStats (eigsKind 0) o.params statNames).bind fun st =>
    if o.code ≠ 0 then .raise (.primme o.code)
    else .ok
      { values := (List.range c.values).map o.evals
        vectors := (List.range (o.params.i .initSize).toNat).map (fun j => o.evecs (colsOf a.ortho + j))
        rnorms := (List.range c.values).map o.norms
        stats := st }

/-- `eigs_sym`. -/
def eigsSym (D : RAddrs) (zero : V) (start : EP K) (lib : RCall K V → RCallOut K V) (a : EigsArgs K V) :
    Res (EigsOut K V) :=
  (prepareR D zero start a).bind fun c => finishR a c (lib c)

/-! ## The callbacks -/

/-- Complex numbers as pairs of doubles (`Rcomplex`). -/
def cmul (a b : K × K) : K × K := (a.1 * b.1 - a.2 * b.2, a.1 * b.2 + a.2 * b.1)

/-- Conjugate. -/
def conj (a : K × K) : K × K := (a.1, -a.2)

/-- Reading element `p` of an array of `len` doubles that is taken for an array of `TS` (doubles when `real`, pairs
otherwise); `none` is a read past the end. -/
def elemAt (real : Bool) (len : Nat) (mem : Nat → K) (p : Nat) : Option (K × K) :=
  if real then (if p < len then some (mem p, 0) else none)
  else if 2 * p + 1 < len then some (mem (2 * p), mem (2 * p + 1)) else none

/-- The element of the matrix that `dsymm`, `zhemm` with `uplo = 'L'` use at row `i` and column `j`: the lower triangle
and its conjugate; imaginary parts on the diagonal are taken for zero. -/
def lowerAt (real : Bool) (len lda : Nat) (mem : Nat → K) (i j : Nat) : Option (K × K) :=
  if j < i then elemAt real len mem (i + j * lda)
  else if i < j then (elemAt real len mem (j + i * lda)).map conj
  else (elemAt real len mem (i + j * lda)).map fun z => (z.1, 0)

/-- All of a list, or nothing. -/
def allSome {α : Type} : List (Option α) → Option (List α)
  | [] => some []
  | x :: r => match x, allSome r with
    | some y, some l => some (y :: l)
    | _, _ => none

/-- `xhemm("L", "L", n, …)` for one column, primmeR.cpp:91-113: row `i` of the product with the column `x`; `none` when the
array is read past its end. -/
def hemmRow (real : Bool) (len n : Nat) (mem : Nat → K) (x : Nat → K × K) (i : Nat) : Option (K × K) :=
  (allSome ((List.range n).map fun j => (lowerAt real len n mem i j).map fun z => cmul z (x j))).map List.sum

/-- Outcome of a product: a row of it, an error, or a read past the end of an array. -/
inductive Product (K : Type) where
  | row (z : K × K) | stop | ub
  deriving DecidableEq, Repr

/-- Entries of the class are complex numbers. -/
def isComplexClass (c : MClass) : Bool := c = .complex

/-- `matrixMatvecEigs_Matrix`, primmeR.cpp:519-529, and `matrixMatvecEigs_CHM_DN`, 531-545, for a dense matrix of class `c`
whose doubles are `mem` (`len` of them): row `i` of the product.  Sparse matrices are multiplied by CHOLMOD, which is not
modelled; it and the dense classes of Matrix check the type of the entries. -/
def directRow (real : Bool) (c : MClass) (n : Nat) (mem : Nat → K) (x : Nat → K × K) (i : Nat) : Product K :=
  let len := if isComplexClass c then 2 * (n * n) else n * n
  if c = .dge ∧ real = false then .stop
  else match hemmRow real len n mem x i with
    | some z => .row z
    | none => .ub

/-- The preconditioner made of a diagonal matrix with the entries `d`: row `i` of `solve(prec, x)`, eigs.R:339. -/
def solveDiagonal (d x : Nat → K) (i : Nat) : K := x i / d i

/-- `matrixMatvecEigs`, primmeR.cpp:490-510: the first `n` rows of the `bs` columns of `x` are given to the function as a
matrix; its result, which must have `n` rows and `bs` columns, is stored in the first `n` rows of the columns of `y`. -/
def functionCallback (f : (Nat → Nat → V) → Nat × Nat × (Nat → Nat → V)) (n bs : Nat) (x ldx y ldy : Nat) (m : PMem V) :
    Res (PMem V) :=
  let r := f (fun i j => m (x + i + j * ldx))
  if r.1 ≠ n ∨ r.2.1 ≠ bs then .raise .value
  else .ok fun p =>
    if y ≤ p ∧ (p - y) / ldy < bs ∧ (p - y) % ldy < n then r.2.2 ((p - y) % ldy) ((p - y) / ldy) else m p

/-- The vector that `convTestFunEigs`, primmeR.cpp:593-612, gives to the user's test for the vector at `evec` (`none`:
`NULL`): `Vector<S> sevec(evec?primme->nLocal:0, *(TS*)evec)` is the constructor from a length and a value. -/
def convTestVector (n : Nat) (evec : Option Nat) (m : PMem V) : Res (List V) :=
  match evec with
  | none => .ub
  | some p => .ok (List.replicate n (m p))

end Verif.R
