import Verif.Model.EigsParams
import Verif.Spec.SvdsLabels

/-!
# `primme_svds_initialize`, `primme_svds_set_method`, `primme_svds_set_defaults` and the input check

The structure `primme_svds_params` is a `Store` over the members of its header together with the two
embedded `primme_params`.  Same simplifications as `Verif.Model.EigsParams`; `sqrt2` is the value of
`sqrt(2.0)`.
-/

namespace Verif.Svds
open Verif.Members Verif.Eigs

variable {K : Type} [Field K] [LinearOrder K]

/-- The members of `primme_svds_params` proper. -/
abbrev SV (K : Type) := Store Svds.IF Svds.DF Svds.PF K

/-- `primme_svds_params`: its members, `primme` and `primmeStage2`. -/
structure SP (K : Type) where
  sv : SV K
  st1 : EP K
  st2 : EP K

/-- Build and runtime constants: the addresses of the forwarding callbacks and `sqrt(2.0)`. -/
structure SEnv (K : Type) where
  sumFn : Nat
  bcastFn : Nat
  sqrt2 : K

/-- `primme_svds_initialize`, src/svds/primme_svds_interface.c:107-194. -/
def initSvds (inf : K) (out : Nat) (addr : Nat → Nat) : SP K where
  sv :=
    { i := fun f => match f with
        | .numSvals | .numProcs | .printLevel => 1
        | .mLocal | .nLocal | .precondition | .locking => -1
        | .maxMatvecs => INT_MAX
        | _ => 0
      d := fun _ => 0
      p := fun f => match f with
        | .outputFile => out
        | _ => 0
      seed := fun _ => -1
      addr := addr }
  st1 := initParams inf out addr
  st2 := initParams inf out addr

/-- A `case` of the `switch` statements over operators (1 `AtA`, 2 `AAt`, 3 `augmented`); any other
value falls through them. -/
def isOp (op : Int) : Prop := op = 1 ∨ op = 2 ∨ op = 3

instance (op : Int) : Decidable (isOp op) := by unfold isOp; infer_instance

/-- The order of the eigenproblem of an operator, and the rows of a process:
src/svds/primme_svds_interface.c:364-382 (cases of `method`). -/
def opSize (op rows cols : Int) : Int := if op = 1 then cols else if op = 2 then rows else rows + cols

/-- `copy_params_from_svds` for a stage whose operator is not `none`,
src/svds/primme_svds_interface.c:309-413; `op` is the operator, `second` says whether it is the
second stage, `p` the structure of the stage. -/
def copyParams (e : SEnv K) (v : SV K) (op : Int) (second : Bool) (p : EP K) : EP K :=
  let p := p.setI .numEvals (v.i .numSvals)
  let p := if v.d .aNorm > 0 ∧ isOp op then
      setD p .aNorm (if op = 3 then v.d .aNorm * e.sqrt2 else v.d .aNorm * v.d .aNorm)
    else p
  let p := setD p .eps (v.d .eps)
  let p := p.setI .initSize (v.i .initSize)
  let p := if v.i .maxBasisSize > 0 then p.setI .maxBasisSize (v.i .maxBasisSize) else p
  let p := if v.i .maxBlockSize > 0 then p.setI .maxBlockSize (v.i .maxBlockSize) else p
  let p := p.setI .maxMatvecs (v.i .maxMatvecs)
  let p := p.setI .printLevel (v.i .printLevel)
  let p := setP p .outputFile (v.p .outputFile)
  let p := p.setI .numOrthoConst (v.i .numOrthoConst)
  let p := if v.i .numProcs > 1 then
      setP ((p.setI .procID (v.i .procID)).setI .numProcs (v.i .numProcs)) .commInfo (v.p .commInfo)
    else p
  let p := if v.p .globalSumReal ≠ 0 then setP p .globalSumReal e.sumFn else p
  let p := if v.p .broadcastReal ≠ 0 then setP p .broadcastReal e.bcastFn else p
  let p := if isOp op then p.setI .n (opSize op (v.i .m) (v.i .n)) else p
  let p := if isOp op ∧ p.i .nLocal = -1 ∧ (op = 1 ∨ v.i .mLocal ≠ -1) ∧ (op = 2 ∨ v.i .nLocal ≠ -1) then
      p.setI .nLocal (opSize op (v.i .mLocal) (v.i .nLocal)) else p
  let p := if v.i .target = 0 then p.setI .target 1
    else if v.i .target = 1 then p.setI .target (if op = 3 then 2 else 0)
    else if v.i .target = 2 then (p.setI .target 4).setI .numTargetShifts (v.i .numTargetShifts)
    else p
  let p := if second = true ∧ p.i .initBasisMode = 0 then p.setI .initBasisMode 3 else p
  let p := if ((op = 3 ∧ v.i .target ≠ 0) ∨ v.i .target = 2) ∧ p.i .projectionParams_projection = 0
    then p.setI .projectionParams_projection 3 else p
  let p := if v.i .locking ≥ 0 then p.setI .locking (v.i .locking) else p
  if v.i .precondition ≥ 0 then p.setI .correctionParams_precondition (v.i .precondition)
  else if p.i .correctionParams_precondition < 0 then
    p.setI .correctionParams_precondition (if v.p .applyPreconditioner ≠ 0 then 1 else 0)
  else p

/-- `primme_svds_set_defaults` once a method is set, src/svds/primme_svds_interface.c:276-284.  For an
operator `none` in the first stage `copy_params_from_svds` only limits the products (line 305-308). -/
def svdsDefaultsBody (e : SEnv K) (s : SP K) : SP K :=
  let s := if s.sv.i .method = 0 then { s with st1 := s.st1.setI .maxMatvecs 1 }
    else { s with st1 := copyParams e s.sv (s.sv.i .method) false s.st1 }
  if s.sv.i .methodStage2 ≠ 0 then
    { s with st2 := copyParams e s.sv (s.sv.i .methodStage2) true s.st2 }
  else s

/-- The `switch` of `primme_svds_set_method`, src/svds/primme_svds_interface.c:224-241: a value
outside of the enumeration changes nothing. -/
def chooseOps (m : Int) (v : SV K) : SV K :=
  let normal : Int := if v.i .n ≤ v.i .m then 1 else 2
  if m = 0 ∨ m = 1 then (v.setI .method normal).setI .methodStage2 3
  else if m = 2 then (v.setI .method normal).setI .methodStage2 0
  else if m = 3 then (v.setI .method 3).setI .methodStage2 0
  else v

mutual
/-- `primme_svds_set_method`, src/svds/primme_svds_interface.c:219-256, with a bound on the call depth
(`none`: reached).  The return value of the C function is always 0. -/
def callSvdsMethod (e : SEnv K) : Nat → Int → Int → Int → SP K → Option (SP K)
  | 0, _, _, _, _ => none
  | k + 1, m, m1, m2, s =>
    match callSvdsDefaults e k { s with sv := chooseOps m s.sv } with
    | none => none
    | some s =>
      match callMethod k m1 s.st1 with
      | none => none
      | some (_, p) =>
        let s := { s with st1 := p }
        let m2 := if m2 = 0 ∧ s.sv.i .target ≠ 0 then 11 else m2
        if s.sv.i .methodStage2 ≠ 0 then
          match callMethod k m2 s.st2 with
          | none => none
          | some (_, p) => some { s with st2 := p }
        else some s
/-- `primme_svds_set_defaults`, src/svds/primme_svds_interface.c:268-285. -/
def callSvdsDefaults (e : SEnv K) : Nat → SP K → Option (SP K)
  | 0, _ => none
  | k + 1, s =>
    if s.sv.i .method = 0 then
      match callSvdsMethod e k 0 0 0 s with
      | none => none
      | some s => some (svdsDefaultsBody e s)
    else some (svdsDefaultsBody e s)
end

/-- Which of the three array arguments are `NULL`. -/
structure SArrays where
  svalsNull : Bool
  svecsNull : Bool
  resNormsNull : Bool
  deriving DecidableEq, Repr

/-- `wrapper_svds_Sprimme` up to the all-`NULL` test, src/svds/primme_svds_c.c:385-405. -/
def svdsPrelude (e : SEnv K) (k : Nat) (a : SArrays) (s : SP K) : Option (SP K) :=
  let s := if s.sv.i .numProcs ≤ 1 ∧ a.svalsNull = false ∧ a.svecsNull = false ∧
      a.resNormsNull = false then
    { s with sv := (((s.sv.setI .mLocal (s.sv.i .m)).setI .nLocal (s.sv.i .n)).setI
        .procID 0).setI .numProcs 1 }
    else s
  callSvdsDefaults e k s

/-- `primme_svds_check_input`, src/svds/primme_svds_c.c:1046-1100, for a non-`NULL` structure. -/
def svdsCheckInput (a : SArrays) (v : SV K) : Int :=
  if v.i .n < 0 ∨ v.i .m < 0 ∨ v.i .nLocal < 0 ∨ v.i .mLocal < 0 ∨ v.i .nLocal > v.i .n ∨
      v.i .mLocal > v.i .m then -5
  else if v.i .numProcs < 1 then -6
  else if v.p .matrixMatvec = 0 then -7
  else if v.p .applyPreconditioner = 0 ∧ v.i .precondition = 1 then -8
  else if v.i .numProcs > 1 ∧ v.p .globalSumReal = 0 then -9
  else if v.i .numSvals > min (v.i .n) (v.i .m) then -10
  else if v.i .numSvals < 1 then -11
  else if v.i .target ≠ 1 ∧ v.i .target ≠ 0 ∧ v.i .target ≠ 2 then -13
  else if v.i .method ≠ 1 ∧ v.i .method ≠ 2 ∧ v.i .method ≠ 3 then -14
  else if (v.i .method = 3 ∧ v.i .methodStage2 ≠ 0) ∨
      (v.i .method ≠ 3 ∧ v.i .methodStage2 ≠ 3 ∧ v.i .methodStage2 ≠ 0) then -15
  else if v.i .printLevel < 0 ∨ v.i .printLevel > 5 then -16
  else if a.svalsNull then -17
  else if a.svecsNull then -18
  else if a.resNormsNull then -19
  else 0

end Verif.Svds
