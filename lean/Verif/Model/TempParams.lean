import Verif.Model.Monitor

/-!
# Parameters changed for a moment

The convergence tests that the singular value solver installs in the eigensolver, and the harmonic
extraction.
-/

namespace Verif.Mon

section
variable {K : Type} [Field K] [LinearOrder K] [IsStrictOrderedRing K] {V : Type}

/-- The user's convergence test for triplets: value, left and right vector, residual norm, operator and
the structure (which it may write to); result: the structure, the answer and the error code. -/
abbrev ConvTest (K V : Type) := K → Option V → Option V → K → Op → Sv K → Sv K × Int × Int

/-- `convTestFunSVDS_Sprimme`, src/svds/primme_svds_c.c:1189-1238.  The conversion of the vectors is in
`Operators.lean`. -/
def callTest (user : ConvTest K V) (sval : K) (left right : Option V) (norm : K) (op : Op) (v : Sv K) :
    Sv K × Int × Int :=
  let q := user sval left right norm op v
  (q.1, q.2.1, if q.2.2 ≠ 0 then -1 else 0)

/-- What a test leaves: the structure, the answer, the error code (`none`: not written). -/
abbrev Tested (K : Type) := Sv K × Int × Option Int

/-- `aNorm` of the eigensolver, or its estimate, src/svds/primme_svds_c.c:1647-1648. -/
def normOf (e : Eig K) : K := if 0 < e.aNorm then e.aNorm else e.estimateLargestSVal

/-- `convTestFunATA`, src/svds/primme_svds_c.c:1640-1686.  `eps` is the result of
`Num_machine_epsilon`, `none` when it fails.  `f316` is the constant 3.16. -/
def testNormal (env : Env K) (user : ConvTest K V) (eps : Option K) (f316 : K) (eval : Option K)
    (evec : Option V) (rNorm : Option K) (isConv : Int) (e : Eig K) (v : Sv K) : Tested K :=
  match eps with
  | none => (v, isConv, some 1)
  | some eps =>
    let maxaNorm := max e.aNorm e.estimateLargestSVal
    if rNorm.any (fun r => decide (r < eps * maxaNorm * f316)) then (v, 1, some 0)
    else
      let old := v.aNorm
      let v := if v.aNorm ≤ 0 then { v with aNorm := env.sqrt (normOf e) } else v
      let sval := match eval with | some x => env.sqrt |x| | none => 0
      let srNorm := match rNorm, eval with | some r, some _ => r / sval | _, _ => 0
      let q := callTest user sval (if v.method = .AAt then evec else none)
        (if v.method = .AtA then evec else none) srNorm v.method v
      if q.2.2 ≠ 0 then (q.1, q.2.1, some 1) else ({ q.1 with aNorm := old }, q.2.1, none)

/-- `convTestFunAug`, src/svds/primme_svds_c.c:1706-1744.  `halves` gives the right and the left part of
a vector of the augmented problem. -/
def testAugmented (env : Env K) (user : ConvTest K V) (halves : V → V × V) (eval : Option K)
    (evec : Option V) (rNorm : Option K) (e : Eig K) (v : Sv K) : Tested K :=
  let old := v.aNorm
  let v := if v.aNorm ≤ 0 then { v with aNorm := normOf e } else v
  let sval := match eval with | some x => |x| | none => 0
  let srNorm := match rNorm with | some r => r * env.root2 | none => 0
  let q := callTest user sval (evec.map (fun x => (halves x).2)) (evec.map (fun x => (halves x).1))
    srNorm v.method v
  if q.2.2 ≠ 0 then (q.1, q.2.1, some 1) else ({ q.1 with aNorm := old }, q.2.1, none)

end

/-- The fields of `primme_params` that the extraction changes: the target and the address of the
shifts. -/
structure Aim where
  target : Target
  shifts : Nat
  deriving DecidableEq, Repr

/-- The target used for the inverted problem, src/eigs/solve_projection.c:468-480; the other targets
fail an assertion, which does nothing in a release build. -/
def invertedTarget : Target → Target
  | .closest_geq => .largest
  | .closest_leq => .smallest
  | .closest_abs => .largest_abs
  | t => t

/-- Codes returned by the routines called in `solve_H_Harm`; `rr` sees the parameters it runs with. -/
structure HarmCodes where
  mallocWork : Int
  mallocPivots : Int
  factor : Int
  solve : Int
  rr : Aim → Int
  back : Int
  freePivots : Int
  ortho : Int
  product : Int
  freeWork : Int

/-- `CHKERR`: leave with the code when it is not zero. -/
def chk (code : Int) (a : Aim) (rest : Aim × Int) : Aim × Int := if code ≠ 0 then (a, code) else rest

/-- `solve_H_Harm_Sprimme`, src/eigs/solve_projection.c:430-512, as far as the parameters and the returned
code go; `local0` is the address of the local variable holding the shift 0. -/
def harm (k : HarmCodes) (local0 basisSize : Nat) (a : Aim) : Aim × Int :=
  if basisSize = 0 then (a, 0) else
  chk k.mallocWork a <| chk k.mallocPivots a <| chk k.factor a <| chk k.solve a <|
  let old := a
  let a : Aim := { a with shifts := local0 }
  let a : Aim := { a with target := invertedTarget a.target }
  let ret := k.rr a
  let a : Aim := { a with shifts := old.shifts }
  let a : Aim := { a with target := old.target }
  chk ret a <| chk k.back a <| chk k.freePivots a <| chk k.ortho a <| chk k.product a <|
  chk k.freeWork a (a, 0)

end Verif.Mon
