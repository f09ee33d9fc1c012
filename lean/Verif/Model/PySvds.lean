import Verif.Model.PyEigsh
import Verif.Model.SvdsDriver
import Verif.Model.SvdsTables

/-!
# `primme.svds` of the Python module, Python/primme.pyx:985-1490

As for `eigsh` (`Verif.Model.PyEigsh`) the library is an arbitrary function of the call and the body before the call
is a list of statements.  Arguments are two-dimensional arrays and linear operators of the right kind, callables are
true in a Boolean context, and the conversion of elements when arrays are copied is the identity.
-/

namespace Verif.Py
open Verif.Members Verif.Eigs

/-- The tables of the singular value solver. -/
def svdsTables : Tables Svds.IF Svds.DF Svds.PF :=
  ⟨Svds.infoNames, Svds.infoTypes, Svds.setTable, Svds.getTable, Svds.constTable⟩

/-- Arguments of `svds`, primme.pyx:1074-1080.  `A.rows` and `A.cols` are `m` and `n`. -/
structure SvdsArgs (K V : Type) where
  A : Operator
  dtype : DType
  k : Int
  ncv : Option Int
  tol : K
  which : Which K
  v0 : Option (Arr V)
  maxiter : Option Int
  return_singular_vectors : Bool
  precAHA : Option Operator
  precAAH : Option Operator
  precAug : Option Operator
  u0 : Option (Arr V)
  orthou0 : Option (Arr V)
  orthov0 : Option (Arr V)
  return_stats : Bool
  maxBlockSize : Int
  method : Option String
  methodStage1 : Option String
  methodStage2 : Option String
  return_history : Bool
  convtest : Option Nat
  raise_for_unconverged : Bool
  kargs : List (String × PVal K)

/-- Addresses: of the compiled callbacks for each element type, of `sigma_c`, and of the local functions `mon` and
`prevec`. -/
structure SvdsAddrs where
  fn : Role → DType → Nat
  sigma : Nat
  mon : Nat
  prevec : Nat

variable {K V : Type} [Field K]

/-- The setters on `primme_svds_params`. -/
def svdsSetters (E : Env K) : Setters K (Svds.SP K) where
  set s f v := (paramsSet svdsTables E s.sv f v).bind fun t => .ok { s with sv := t }
  raw s f a := (paramsRaw svdsTables s.sv f a).bind fun t => .ok { s with sv := t }

/-- The tests of one preconditioner, primme.pyx:1254-1267. -/
def precSteps (P : Option Operator) (size : Nat) : List (Step K (Svds.SP K)) :=
  match P with
  | none => []
  | some P => [.need (P.rows = P.cols ∧ P.rows = size) .value]

/-- Whether a preconditioner was given, primme.pyx:1278. -/
def hasPrec (a : SvdsArgs K V) : Bool := a.precAHA.isSome || a.precAAH.isSome || a.precAug.isSome

/-- The function `prevec`, primme.pyx:1269-1276: what is applied to the vectors for the operator `mode` (`none`: the
vectors themselves). -/
def prevec (a : SvdsArgs K V) (mode : Int) : Option Operator :=
  if mode = 1 ∧ a.precAHA.isSome then a.precAHA
  else if mode = 2 ∧ a.precAAH.isSome then a.precAAH
  else if mode = 3 ∧ a.precAug.isSome then a.precAug
  else none

/-- The preconditioners, primme.pyx:1254-1282. -/
def precGroup (B : SvdsAddrs) (a : SvdsArgs K V) : List (Step K (Svds.SP K)) :=
  precSteps a.precAHA a.A.cols ++ precSteps a.precAAH a.A.rows ++ precSteps a.precAug (a.A.rows + a.A.cols) ++
  if hasPrec a then [.set "precondition" (.int 1), .set "preconditioner" (.obj B.prevec)]
  else [.set "precondition" (.int 0)]

/-- The target, primme.pyx:1300-1312.  `float(which)` of a string that is neither name is taken to fail. -/
def svdsWhich (B : SvdsAddrs) (a : SvdsArgs K V) : List (Step K (Svds.SP K)) :=
  match a.which with
  | .name s =>
    if s = "LM" then [.set "target" (.str "primme_svds_largest")]
    else if s = "SM" then [.set "target" (.str "primme_svds_smallest")]
    else [.need false .value]
  | .num _ => [.set "numTargetShifts" (.int 1), .raw "targetShifts" B.sigma,
      .set "target" (.str "primme_svds_closest_abs")]

/-- The value of `sigma_c`. -/
def svdsShift (a : SvdsArgs K V) : Option K :=
  match a.which with
  | .name _ => none
  | .num x => some x

/-- `maxiter*(maxBlockSize if maxBlockSize else 1)/2`, primme.pyx:1321. -/
def limit (a : SvdsArgs K V) (x : Int) : PVal K :=
  .flt (((x * (if a.maxBlockSize ≠ 0 then a.maxBlockSize else 1) : Int) : K) / 2)

/-- The number of rows of an optional array is `n`. -/
def rowsAre (n : Nat) (u : Option (Arr V)) : Bool :=
  match u with
  | none => true
  | some u => u.rows = n

/-- The exchange of the two arrays in `check_pair`, primme.pyx:1326-1329. -/
def swapPair (m n : Nat) (u v : Option (Arr V)) : Option (Arr V) × Option (Arr V) :=
  if rowsAre m u ∧ rowsAre n v then (u, v) else (v, u)

/-- Both or neither have the same number of columns. -/
def sameCols (u v : Option (Arr V)) : Bool :=
  match u, v with
  | some u, some v => u.cols = v.cols
  | _, _ => true

/-- The tests of `check_pair`, primme.pyx:1331-1343.  With one array only, the other is computed by
`A.H.matmult(u)` or `A.matmult(v)`; linear operators have no `matmult`, so that raises `AttributeError`. -/
def pairSteps (m n : Nat) (u v : Option (Arr V)) : List (Step K (Svds.SP K)) :=
  let p := swapPair m n u v
  [.need (rowsAre m p.1 ∧ rowsAre n p.2) .value, .need (sameCols p.1 p.2) .value,
   .need (p.1.isSome = p.2.isSome) .attribute]

/-- The constraints after `check_pair`. -/
def constraints (a : SvdsArgs K V) : Option (Arr V) × Option (Arr V) :=
  swapPair a.A.rows a.A.cols a.orthou0 a.orthov0

/-- The guesses after `check_pair`. -/
def guesses (a : SvdsArgs K V) : Option (Arr V) × Option (Arr V) :=
  swapPair a.A.rows a.A.cols a.u0 a.v0

/-- `numOrthoConst`, primme.pyx:1347-1350. -/
def svdsOrtho (a : SvdsArgs K V) : Nat :=
  match (constraints a).1 with
  | none => 0
  | some u => min u.cols (min a.A.rows a.A.cols)

/-- `initSize`, primme.pyx:1432-1434. -/
def svdsGuess (a : SvdsArgs K V) : Nat :=
  match (guesses a).2 with
  | none => 0
  | some v => min v.cols a.k.toNat

/-- The stored callbacks, primme.pyx:1366-1399. -/
def svdsCallbacks (B : SvdsAddrs) (a : SvdsArgs K V) : List (Step K (Svds.SP K)) :=
  [.raw "matrixMatvec" (B.fn .matvec (variant a.dtype)),
   .raw "applyPreconditioner" (B.fn .precond (variant a.dtype))] ++
  (if a.convtest.isSome then [.raw "convTestFun" (B.fn .convtest (variant a.dtype))] else []) ++
  (if a.return_history then [.raw "monitorFun" (B.fn .monitor (realVariant a.dtype))] else [])

/-- `primme_svds_set_method(m, m1, m2, pp)`, whose return code is ignored. -/
def svdsPreset [LinearOrder K] (S : Svds.SEnv K) (m m1 m2 : Int) (s : Svds.SP K) : Svds.SP K :=
  match Svds.callSvdsMethod S 5 m m1 m2 s with
  | some t => t
  | none => s

/-- `cdef int c = -1; …constant_info(name, &c)`. -/
def constOr (consts : List (String × Int)) (name : String) : Int :=
  match constantInfo consts name with
  | .ok v => v
  | _ => -1

/-- The preset methods, primme.pyx:1419-1430. -/
def svdsMethodSteps [LinearOrder K] (S : Svds.SEnv K) (a : SvdsArgs K V) : List (Step K (Svds.SP K)) :=
  if a.method.isSome || a.methodStage1.isSome || a.methodStage2.isSome then
    let m := constOr Svds.constTable (a.method.getD "primme_svds_default")
    let m1 := constOr Eigs.constTable (a.methodStage1.getD "PRIMME_DEFAULT_METHOD")
    let m2 := constOr Eigs.constTable (a.methodStage2.getD "PRIMME_DEFAULT_METHOD")
    [.need (decide (0 ≤ m)) .value, .need (decide (0 ≤ m1)) .value, .need (decide (0 ≤ m2)) .value,
     .act (svdsPreset S m m1 m2)]
  else []

/-- Copying the constraints, primme.pyx:1438-1440: the right ones are `orthov0[:,:initSize]`, which must have
`numOrthoConst` columns, or one column, which is repeated. -/
def orthoSteps (a : SvdsArgs K V) : List (Step K (Svds.SP K)) :=
  match constraints a with
  | (some _, some v) =>
    let c := min v.cols (svdsGuess a)
    [.need (c = svdsOrtho a ∨ c = 1) .value]
  | _ => []

/-- The statements of `svds` before the call of the library, in order and in groups, primme.pyx:1239-1454. -/
def svdsGroups [LinearOrder K] (S : Svds.SEnv K) (B : SvdsAddrs) (a : SvdsArgs K V) : List (List (Step K (Svds.SP K))) :=
  [[.need ((a.A.rows : Int) < 2 ^ 31 ∧ (a.A.cols : Int) < 2 ^ 31) .overflow, .set "matrix" (.obj a.A.addr)],
   [.set "m" (.int a.A.rows)],
   [.set "n" (.int a.A.cols)],
   [.need (¬ (a.k ≤ 0 ∨ a.k > min (a.A.cols : Int) a.A.rows)) .value, .set "numSvals" (.int a.k)],
   precGroup B a,
   if a.return_history then [.set "monitor" (.obj B.mon)] else [],
   svdsWhich B a,
   [.set "eps" (.flt a.tol)],
   match a.ncv with | none => [] | some x => if x ≠ 0 then [.set "maxBasisSize" (.int x)] else [],
   match a.maxiter with | none => [] | some x => if x ≠ 0 then [.set "maxMatvecs" (limit a x)] else [],
   if a.maxBlockSize ≠ 0 then [.set "maxBlockSize" (.int a.maxBlockSize)] else [],
   pairSteps a.A.rows a.A.cols a.orthou0 a.orthov0 ++
     (match (constraints a).1 with
      | none => []
      | some _ => [.set "numOrthoConst" (.int (svdsOrtho a))]),
   match a.convtest with | none => [] | some f => [.set "convtest" (.obj f)],
   a.kargs.map (fun e => .extra e.1 e.2),
   svdsCallbacks B a,
   pairSteps a.A.rows a.A.cols a.u0 a.v0,
   svdsMethodSteps S a,
   match (guesses a).2 with | none => [] | some _ => [.set "initSize" (.int (svdsGuess a))],
   orthoSteps a,
   [.need (workType a.dtype ≠ .other) .unbound]]

/-- The array `svecs` given to the library, primme.pyx:1407 and 1434-1440; `junk` is what `np.empty` contains. -/
def svdsFirst (junk : Nat → V) (a : SvdsArgs K V) (p : Nat) : V :=
  let m := a.A.rows
  let n := a.A.cols
  let c := svdsOrtho a
  let g := svdsGuess a
  if p < m * c then
    match (constraints a).1 with
    | some u => u.at' (p % m) (p / m)
    | none => junk p
  else if p < m * (c + g) then
    match (guesses a).1 with
    | some u => u.at' ((p - m * c) % m) ((p - m * c) / m)
    | none => junk p
  else if p < m * (c + g) + n * c then
    match (constraints a).2 with
    | some v => let q := p - m * (c + g)
      v.at' (q % n) (if min v.cols g = c then q / n else 0)
    | none => junk p
  else if p < (m + n) * (c + g) then
    match (guesses a).2 with
    | some v => let q := p - (m * (c + g) + n * c)
      v.at' (q % n) (q / n)
    | none => junk p
  else junk p

/-- A call of `sprimme_svds`, …: precision (2: single, 3: double), element type, parameters, the value `targetShifts`
points to; `svals` and `resNorms` have `values` elements and `svecs` has `size`. -/
structure SvdsCall (K V : Type) where
  op : Int
  elem : DType
  params : Svds.SP K
  sigma : Option K
  values : Nat
  size : Nat
  svecs : Nat → V

/-- What the library leaves: return value, structure and arrays, and whether a callback stored an exception. -/
structure SvdsCallOut (K V : Type) where
  code : Int
  params : Svds.SP K
  svals : Nat → K
  svecs : Nat → V
  norms : Nat → K
  exc : Bool

/-- Everything before the call, primme.pyx:1239-1454.  `start` is the structure made by `primme_svds_params_create`. -/
def prepareSvds [LinearOrder K] (E : Env K) (S : Svds.SEnv K) (B : SvdsAddrs) (junk : Nat → V) (start : Svds.SP K)
    (a : SvdsArgs K V) : Res (SvdsCall K V) :=
  (run (svdsSetters E) (svdsGroups S B a).flatten start).bind fun s => .ok
    { op := if workType a.dtype = .complex64 ∨ workType a.dtype = .float32 then 2 else 3
      elem := workType a.dtype
      params := s
      sigma := svdsShift a
      values := a.k.toNat
      size := (a.A.rows + a.A.cols) * (svdsOrtho a + a.k.toNat)
      svecs := svdsFirst junk a }

/-- What `svds` returns: `u` by columns, `vt` by rows, and `stats["rnorms"]`. -/
structure SvdsOut (K V : Type) where
  s : List K
  u : Option (List (Nat → V))
  vt : Option (List (Nat → V))
  rnorms : Option (List K)

/-- The codes with a message, `_PRIMMESvdsErrors`, primme.pyx:1541-1567. -/
def svdsMessageCodes : List Int :=
  [0, -1, -2, -3, -4, -5, -6, -7, -8, -9, -10, -11, -13, -14, -15, -16, -17, -18, -19, -40, -41, -42, -43, -44]

/-- `raise PrimmeSvdsError(err)`, primme.pyx:1578-1591. -/
def raiseSvds {α : Type} (c : Int) : Res α :=
  if c ≥ -100 then (if c ∈ svdsMessageCodes then .raise (.primme c) else .raise .key)
  else if c ≥ -200 then (if c + 100 ∈ messageCodes then .raise (.primme c) else .raise .key)
  else if c ≥ -300 then (if c + 200 ∈ messageCodes then .raise (.primme c) else .raise .key)
  else .raise (.primme c)

/-- The values handed out, primme.pyx:1463-1490; `conj` is the conjugation.  The counts the library leaves are taken to
be not negative.  `reshape` raises when the piece of the array is shorter than asked for. -/
def giveSvds (conj : V → V) (a : SvdsArgs K V) (o : SvdsCallOut K V) : Res (SvdsOut K V) :=
  let init := (o.params.sv.i .initSize).toNat
  let c := (o.params.sv.i .numOrthoConst).toNat
  let m := a.A.rows
  let n := a.A.cols
  let size := (m + n) * (svdsOrtho a + a.k.toNat)
  let s := (List.range (min init a.k.toNat)).map o.svals
  let rn := if a.return_stats then some ((List.range a.k.toNat).map o.norms) else none
  if a.return_singular_vectors then
    if (m + n) * (c + init) ≤ size ∨ (m + n) * init = 0 then
      .ok { s := s
            u := some ((List.range init).map fun j => fun i => o.svecs (m * c + (i + m * j)))
            vt := some ((List.range init).map fun j => fun i => conj (o.svecs (m * (c + init) + n * c + (i + n * j))))
            rnorms := rn }
    else .raise .value
  else .ok { s := s, u := none, vt := none, rnorms := rn }

/-- After the call, primme.pyx:1456-1490. -/
def finishSvds (conj : V → V) (a : SvdsArgs K V) (o : SvdsCallOut K V) : Res (SvdsOut K V) :=
  if o.code ≠ 0 then
    if o.exc then raiseSvds o.code
    else if o.code = -3 ∧ a.raise_for_unconverged = true then raiseSvds o.code
    else giveSvds conj a o
  else giveSvds conj a o

/-- `svds`. -/
def svds [LinearOrder K] (E : Env K) (S : Svds.SEnv K) (B : SvdsAddrs) (junk : Nat → V) (conj : V → V) (start : Svds.SP K)
    (lib : SvdsCall K V → SvdsCallOut K V) (a : SvdsArgs K V) : Res (SvdsOut K V) :=
  (prepareSvds E S B junk start a).bind fun c => finishSvds conj a (lib c)

/-- `c_svds_matvec_numpy`, primme.pyx:985-1006: `f` is `A.matmat`, `fh` is `A.H.matmat`; `m` and `n` are `mLocal` and
`nLocal`. -/
def svdsMatvec (f fh : (Nat → Nat → V) → Option (Nat → Nat → V)) (m n : Nat) (transpose : Int) (bs : Int)
    (x ldx y ldy : Nat) (mem : PMem V) : Int × PMem V :=
  if transpose = 0 then matvecCallback f m bs x ldx y ldy mem else matvecCallback fh n bs x ldx y ldy mem

/-- `c_svds_precond_numpy`, primme.pyx:1009-1034, for the operator `mode` (1: `A'*A`, 2: `A*A'`, 3: augmented); `f` is
the product with the preconditioner of that operator (or the identity).  The view of `x` has the leading dimension of
`y` (line 1022), and the result, whose rows are contiguous (`byRows`) or its columns, is read as if its columns were
contiguous (`np.ndarray(…, buffer=…, order='F')`). -/
def svdsPrecond (f : Int → (Nat → Nat → V) → Option (Nat → Nat → V)) (byRows : Bool) (m n : Nat) (mode bs : Int)
    (x y ldy : Nat) (mem : PMem V) : Int × PMem V :=
  if bs ≤ 0 then (0, mem)
  else
    let b := bs.toNat
    let go (rows : Nat) : Int × PMem V :=
      match f mode (fun i j => mem (x + i + j * ldy)) with
      | none => (1, mem)
      | some r =>
        let flat (q : Nat) : V := if byRows then r (q / b) (q % b) else r (q % rows) (q / rows)
        (0, fun p => if y ≤ p ∧ (p - y) / ldy < b ∧ (p - y) % ldy < rows then
          flat ((p - y) % ldy + rows * ((p - y) / ldy)) else mem p)
    if mode = 1 then go n else if mode = 2 then go m else if mode = 3 then go (m + n) else (1, mem)

end Verif.Py
