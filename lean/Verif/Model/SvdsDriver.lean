import Verif.Model.SvdsParams
import Verif.Model.Driver

/-!
# The driver of the singular value solver: the two stages and what passes between them

`wrapper_svds_Sprimme`, `copy_last_params_from_svds`, `copy_last_params_to_svds` and `Xprimme_svds_aux`.
The movements of the vectors are in `Verif.Model.SvdsLayout`, the operators in `Verif.Model.SvdsOperator`.
Modelled here: parameters, singular values, residual norms, shifts, products, codes.

Simplifications: `double`s are elements of an ordered field; allocation and reductions do not fail (see
`Verif.Model.MemFrames` for the former); times are not modelled; the addresses of the two shift arrays the
driver allocates are constants of the environment; `assert` is compiled out.
-/

namespace Verif.SvdsRun
open Verif.Members Verif.Eigs Verif.Svds

variable {K : Type} [Field K] [LinearOrder K]

/-- What happens in sight of the user: the eigensolver is called, a triplet is submitted to the convergence
test, a triplet is reported as locked. -/
inductive Ev (K : Type) where
  | solve (second : Bool) (p : EP K) (offset : ℕ) (shifts : ℕ → K) (ret : Int)
  | test (i : ℕ) (column : Int) (sval rnorm : K) (err : Int) (passed : Bool)
  | locked (i : ℕ)

/-- State of a call. `heap a` is the content of the array of shifts at address `a`. `products` counts the
columns given to the user's product. -/
structure World (K : Type) where
  s : SP K
  svals : ℕ → K
  rnorms : ℕ → K
  heap : ℕ → ℕ → K
  products : ℕ
  log : List (Ev K)

/-- Outcome of the user's convergence test: error code, answer, and columns multiplied by the test (two for
the default test with the augmented matrix, `compute_resNorm`, src/svds/primme_svds_c.c:1510-1575). -/
structure Tested where
  err : Int
  conv : Bool
  products : ℕ

/-- Outcome of the eigensolver: return value, its structure, the values and norms it stored, columns given to
the user's product by the convergence tests (not counted in its own statistics). -/
structure Solved (K : Type) where
  ret : Int
  p : EP K
  vals : ℕ → K
  norms : ℕ → K
  testProducts : ℕ

/-- Everything the driver calls, and constants of the build. -/
structure Sys (K : Type) extends SEnv K where
  /-- types with compiled operators -/
  supports : Int → Bool
  sqrt : K → K
  meps : K
  hugeNorm : K
  matvecFn : Int → ℕ
  precFn : Int → ℕ
  convFn : Int → ℕ
  monFn : ℕ → ℕ
  shiftsAddr : Bool → ℕ
  testDefault : ℕ
  monDefault : ℕ
  opType : Int
  /-- address of the structure itself -/
  self : ℕ
  /-- error code of a direct product, by the number of columns multiplied before -/
  prod : ℕ → Int
  test : ℕ → K → K → Tested
  mon : ℕ → Int
  solve : Bool → EP K → (ℕ → K) → (ℕ → K) → (ℕ → K) → Solved K

/-- The structure of a stage. -/
def stage (b : Bool) (s : SP K) : EP K := if b then s.st2 else s.st1

/-- Store the structure of a stage. -/
def setStage (b : Bool) (w : World K) (p : EP K) : World K :=
  { w with s := if b then { w.s with st2 := p } else { w.s with st1 := p } }

/-- Operator of a stage. -/
def opOf (b : Bool) (s : SP K) : Int := if b then s.sv.i .methodStage2 else s.sv.i .method

/-- `n` more columns multiplied and counted, src/svds/primme_svds_c.c:1163-1164. -/
def count (n : ℕ) (w : World K) : World K :=
  { w with products := w.products + n,
           s := { w.s with sv := w.s.sv.setI .stats_numMatvecs (w.s.sv.i .stats_numMatvecs + n) } }

/-- `matrixMatvecSVDS_Sprimme` on `n` columns, src/svds/primme_svds_c.c:1116-1167: error code and state. -/
def directProduct (o : Sys K) (n : Int) (w : World K) : Int × World K :=
  if n ≤ 0 then (0, w)
  else if o.prod w.products ≠ 0 then (PRIMME_USER_FAILURE, { w with products := w.products + n.toNat })
  else (0, count n.toNat w)

/-- Callbacks of the stage, src/svds/primme_svds_c.c:567-600: error code and structure. -/
def stageCallbacks (o : Sys K) (v : SV K) (p : EP K) : Int × EP K :=
  let mv : Int × EP K :=
    if p.p .matrixMatvec = 0 then
      if o.supports (v.i .matrixMatvec_type) then
        (0, setP ((setP p .matrixMatvec (o.matvecFn (v.i .matrixMatvec_type))).setI .matrixMatvec_type
          (v.i .matrixMatvec_type)) .matrix o.self)
      else (PRIMME_FUNCTION_UNAVAILABLE, p)
    else (0, p)
  if mv.1 ≠ 0 then mv
  else if v.p .applyPreconditioner ≠ 0 ∧ mv.2.p .applyPreconditioner = 0 then
    if o.supports (v.i .applyPreconditioner_type) then
      (0, setP ((setP mv.2 .applyPreconditioner (o.precFn (v.i .applyPreconditioner_type))).setI
        .applyPreconditioner_type (v.i .applyPreconditioner_type)) .preconditioner o.self)
    else (PRIMME_FUNCTION_UNAVAILABLE, mv.2)
  else mv

/-- Norm, convergence test, sizes, seeds and budget, src/svds/primme_svds_c.c:602-672; `spent` is
`primme_svds->primme.stats.numMatvecs`. -/
def stageParams (o : Sys K) (b : Bool) (op : Int) (v : SV K) (spent : Int) (p : EP K) : EP K :=
  let p := if 0 < v.d .aNorm ∧ isOp op then
    setD p .aNorm (if op = 3 then v.d .aNorm else v.d .aNorm * v.d .aNorm) else p
  let p := if isOp op then setP p .convTestFun (o.convFn op) else p
  let p := p.setI .convTestFun_type o.opType
  let p := p.setI .initSize (v.i .initSize)
  let p := p.setI .numOrthoConst (v.i .numOrthoConst)
  let p := { p with seed := v.seed }
  p.setI .maxMatvecs (if b then (v.i .maxMatvecs).tdiv 2 - spent else (v.i .maxMatvecs).tdiv 2)

/-- The lower bounds used as shifts of the second stage, src/svds/primme_svds_c.c:718-736: for the triplets
found by the first stage, then the smallest bound; sorted (`qsort`). -/
def bounds (o : Sys K) (aNorm : K) (numSvals initSize : ℕ) (svals rnorms : ℕ → K) : List K :=
  let minVal := aNorm * o.meps
  let l := (List.range numSvals).map fun i =>
    if i < initSize then max (o.sqrt |max (svals i - rnorms i) 0 * svals i|) minVal else minVal
  l.mergeSort (fun a b => decide (a ≤ b))

/-- An array holding a list. -/
def arr (l : List K) (i : ℕ) : K := l.getD i 0

/-- Shifts of the stage, src/svds/primme_svds_c.c:674-756: state, structure, whether an array was allocated;
`none`: written past its end. -/
def stageShifts (o : Sys K) (b : Bool) (op : Int) (w : World K) (p : EP K) :
    Option (World K × EP K × Bool) :=
  let v := w.s.sv
  if (b = false ∧ v.i .numTargetShifts > 0) ∨ (b = true ∧ p.p .targetShifts = 0 ∧ v.i .target = 2) then
    let p := p.setI .numTargetShifts (v.i .numTargetShifts)
    if b = false ∧ (op = 1 ∨ op = 2) then
      if v.i .numTargetShifts > v.i .numSvals then none
      else
        let a := o.shiftsAddr b
        let τ := w.heap (v.p .targetShifts)
        some ({ w with heap := fun x => if x = a then fun i => τ i * τ i else w.heap x },
          setP p .targetShifts a, true)
    else some (w, setP p .targetShifts (v.p .targetShifts), false)
  else if b = true ∧ p.p .targetShifts = 0 ∧ v.i .target = 1 then
    if v.i .initSize > v.i .numSvals then none
    else
      let a := o.shiftsAddr b
      let l := bounds o (v.d .aNorm) (v.i .numSvals).toNat (v.i .initSize).toNat w.svals w.rnorms
      some ({ w with heap := fun x => if x = a then arr l else w.heap x },
        (setP p .targetShifts a).setI .numTargetShifts (v.i .numSvals), true)
  else if op = 3 ∧ v.i .target = 1 ∧ p.p .targetShifts = 0 then
    let a := o.shiftsAddr b
    some ({ w with heap := fun x => if x = a then fun _ => 0 else w.heap x },
      (setP p .targetShifts a).setI .numTargetShifts 1, true)
  else some (w, p, false)

/-- Random initial guess for the augmented matrix, src/svds/primme_svds_c.c:758-793. -/
def stageGuess (o : Sys K) (b : Bool) (op : Int) (w : World K) (p : EP K) : Int × World K × EP K :=
  if op = 3 ∧ p.i .initSize ≤ 0 then
    let r := directProduct o 1 w
    if r.1 ≠ 0 then (r.1, r.2, p)
    else
      (0, { r.2 with rnorms := if b then fun i => if i = 0 then o.hugeNorm else r.2.rnorms i else r.2.rnorms },
        (p.setI .initSize 1).setI .initBasisMode 3)
  else (0, w, p)

/-- Triplets of the first stage that pass the test become constraints, src/svds/primme_svds_c.c:802-828. The
bound on the iterations is the initial `initSize`. -/
def keepLoop (o : Sys K) : ℕ → ℕ → World K → EP K → Int × World K × EP K
  | 0, _, w, p => (0, w, p)
  | f + 1, i, w, p =>
    let r := o.test w.products (w.svals i) (w.rnorms i)
    let w := count r.products { w with log := w.log ++
      [.test i (p.i .numOrthoConst) (w.svals i) (w.rnorms i) r.err r.conv] }
    if r.err ≠ 0 then (-1, w, p)
    else if r.conv = false then (0, w, p)
    else
      let w := { w with log := w.log ++ [.locked i] }
      if o.mon i ≠ 0 then (-1, w, p)
      else keepLoop o f (i + 1) w (((p.setI .numOrthoConst (p.i .numOrthoConst + 1)).setI .initSize
        (p.i .initSize - 1)).setI .numEvals (p.i .numEvals - 1))

/-- Locking and monitor, src/svds/primme_svds_c.c:832-852. -/
def stageMonitor (o : Sys K) (b : Bool) (v : SV K) (p : EP K) : EP K :=
  let p := if v.i .locking ≥ 0 then p.setI .locking (v.i .locking) else p
  let p := if p.p .monitorFun = 0 then
      (setP p .monitorFun (o.monFn (if v.i .methodStage2 = 0 then 0 else if b = false then 1 else 2))).setI
        .monitorFun_type o.opType
    else p
  setP (setP p .queue (v.p .queue)) .profile (v.p .profile)

/-- Result of preparing or finishing a stage: error code, state, whether shifts were allocated. -/
structure Step (K : Type) where
  code : Int
  w : World K
  alloc : Bool

/-- `copy_last_params_from_svds`, src/svds/primme_svds_c.c:546-855. -/
def copyFrom (o : Sys K) (b : Bool) (w : World K) : Option (Step K) :=
  let op := opOf b w.s
  let p := stage b w.s
  if op = 0 then some ⟨0, setStage b w (p.setI .maxMatvecs 0), false⟩
  else
    let r := stageCallbacks o w.s.sv p
    if r.1 ≠ 0 then some ⟨r.1, setStage b w r.2, false⟩
    else
      let p := stageParams o b op w.s.sv (w.s.st1.i .stats_numMatvecs) r.2
      match stageShifts o b op w p with
      | none => none
      | some (w, p, al) =>
        let r := stageGuess o b op w p
        if r.1 ≠ 0 then some ⟨r.1, setStage b r.2.1 r.2.2, al⟩
        else
          let r := if b then keepLoop o (r.2.2.i .initSize).toNat 0 r.2.1 r.2.2 else r
          if r.1 ≠ 0 then some ⟨r.1, setStage b r.2.1 r.2.2, al⟩
          else some ⟨0, setStage b r.2.1 (stageMonitor o b r.2.1.s.sv r.2.2), al⟩

/-- The integer counters of `UPDATE_STATS(primme_svds->stats, +=, primme->stats)`,
src/svds/primme_svds_c.c:53-71. -/
def addStats (v : SV K) (p : EP K) : SV K :=
  let v := v.setI .stats_numOuterIterations (v.i .stats_numOuterIterations + p.i .stats_numOuterIterations)
  let v := v.setI .stats_numRestarts (v.i .stats_numRestarts + p.i .stats_numRestarts)
  let v := v.setI .stats_numMatvecs (v.i .stats_numMatvecs + p.i .stats_numMatvecs * 2)
  let v := v.setI .stats_numPreconds (v.i .stats_numPreconds + p.i .stats_numPreconds)
  let v := v.setI .stats_numGlobalSum (v.i .stats_numGlobalSum + p.i .stats_numGlobalSum)
  let v := v.setI .stats_numBroadcast (v.i .stats_numBroadcast + p.i .stats_numBroadcast)
  let v := v.setI .stats_volumeGlobalSum (v.i .stats_volumeGlobalSum + p.i .stats_volumeGlobalSum)
  let v := v.setI .stats_volumeBroadcast (v.i .stats_volumeBroadcast + p.i .stats_volumeBroadcast)
  v.setI .stats_lockingIssue (v.i .stats_lockingIssue + p.i .stats_lockingIssue)

/-- Pass back the kept triplets, src/svds/primme_svds_c.c:876-881. -/
def giveBack (b : Bool) (v : SV K) (p : EP K) : EP K :=
  if b then
    let nconv := v.i .numSvals - p.i .numEvals
    ((p.setI .initSize (p.i .initSize + nconv)).setI .numOrthoConst (p.i .numOrthoConst - nconv)).setI
      .numEvals (p.i .numEvals + nconv)
  else p

/-- Norm handed back, src/svds/primme_svds_c.c:886-898. -/
def normBack (o : Sys K) (op : Int) (v : SV K) (p : EP K) : SV K :=
  if 0 < p.d .aNorm ∧ isOp op then
    { v with d := fun g => if g = .aNorm then (if op = 3 then p.d .aNorm else o.sqrt (p.d .aNorm)) else v.d g }
  else v

/-- Values of the normal equations become singular values, src/svds/primme_svds_c.c:900-904; `k` is the number
of returned pairs. -/
def valuesBack (o : Sys K) (op k : Int) (svals : ℕ → K) : ℕ → K := fun i =>
  if (op = 1 ∨ op = 2) ∧ (i : Int) < k then o.sqrt (max 0 (svals i)) else svals i

/-- `copy_last_params_to_svds` before the vectors are converted, src/svds/primme_svds_c.c:873-909. -/
def takeBack (o : Sys K) (b : Bool) (op : Int) (w : World K) : World K :=
  let p := giveBack b w.s.sv (stage b w.s)
  let v := (normBack o op (addStats w.s.sv p) p).setI .initSize (p.i .initSize)
  setStage b ⟨{ w.s with sv := v }, valuesBack o op (p.i .initSize) w.svals, w.rnorms, w.heap, w.products, w.log⟩ p

/-- Residual norms handed back, src/svds/primme_svds_c.c:1009-1025.  In line 1014 the quotient by a zero singular
value is infinite or not a number, and the macro `min` then gives `aNorm`. -/
def normsBack (o : Sys K) (op k : Int) (aNorm : K) (svals rnorms : ℕ → K) : ℕ → K := fun i =>
  if (i : Int) < k then
    if op = 1 ∨ op = 2 then (if svals i = 0 then aNorm else min (rnorms i / svals i) aNorm)
    else if op = 3 then rnorms i * o.sqrt2 else rnorms i
  else rnorms i

/-- `copy_last_params_to_svds` after the vectors are converted, src/svds/primme_svds_c.c:993-1027. -/
def closing (o : Sys K) (b : Bool) (op : Int) (alloc : Bool) (w : World K) : World K :=
  let p := stage b w.s
  let w : World K := ⟨{ w.s with sv := { w.s.sv with seed := p.seed } }, w.svals,
    normsBack o op (w.s.sv.i .initSize) (w.s.sv.d .aNorm) w.svals w.rnorms, w.heap, w.products, w.log⟩
  if alloc then setStage b w (setP p .targetShifts 0) else w

/-- `copy_last_params_to_svds`, src/svds/primme_svds_c.c:857-1030; the vectors are in
`Verif.Layout.toSvds`, here only the products that takes. -/
def copyTo (o : Sys K) (b : Bool) (alloc : Bool) (w : World K) : Int × World K :=
  let op := opOf b w.s
  if op = 0 then (0, setStage b w ((stage b w.s).setI .maxMatvecs 0))
  else
    let w := takeBack o b op w
    let r := if op = 1 ∨ op = 2 then directProduct o (w.s.sv.i .initSize) w else (0, w)
    if r.1 ≠ 0 then r else (0, closing o b op alloc r.2)

/-- The call of the eigensolver on values and norms from position `off`,
src/svds/primme_svds_c.c:487-488, 506-507; its products are two per product of the eigenproblem. -/
def callSolver (o : Sys K) (b : Bool) (off : ℕ) (w : World K) : Int × World K :=
  let p := stage b w.s
  let sh := w.heap (p.p .targetShifts)
  let r := o.solve b p (fun i => w.svals (off + i)) (fun i => w.rnorms (off + i)) sh
  let w : World K := ⟨w.s, fun i => if i < off then w.svals i else r.vals (i - off),
    fun i => if i < off then w.rnorms i else r.norms (i - off), w.heap,
    w.products + 2 * (r.p.i .stats_numMatvecs).toNat, w.log ++ [.solve b p off sh r.ret]⟩
  (r.ret, setStage b (count r.testProducts w) r.p)

/-- Outcome of a call: code, state, number of triplets reported. -/
structure Ret (K : Type) where
  code : Int
  w : World K
  out : Int

/-- The two stages, src/svds/primme_svds_c.c:475-535. -/
def stages (o : Sys K) (w : World K) : Option (Ret K) :=
  match copyFrom o false w with
  | none => none
  | some st =>
    if st.code ≠ 0 then some ⟨st.code, st.w, 0⟩
    else
      let r := callSolver o false 0 st.w
      let t := copyTo o false st.alloc r.2
      if t.1 ≠ 0 then some ⟨t.1, t.2, 0⟩
      else
        let ret := if r.1 ≠ 0 then r.1 - 100 else r.1
        let w := t.2
        if w.s.sv.i .methodStage2 ≠ 0 ∧ ret = 0 then
          match copyFrom o true w with
          | none => none
          | some st =>
            if st.code ≠ 0 then some ⟨st.code, st.w, 0⟩
            else
              let nconv := st.w.s.sv.i .numSvals - st.w.s.st2.i .numEvals
              let r := callSolver o true nconv.toNat st.w
              let t := copyTo o true st.alloc r.2
              if t.1 ≠ 0 then some ⟨t.1, t.2, 0⟩
              else some ⟨if r.1 ≠ 0 then r.1 - 200 else r.1, t.2, t.2.s.sv.i .initSize⟩
        else some ⟨ret, w, w.s.sv.i .initSize⟩

/-- Counters set to zero before the stages, src/svds/primme_svds_c.c:443-455 (the integer ones). -/
def resetStats (v : SV K) : SV K :=
  (((((((v.setI .stats_numOuterIterations 0).setI .stats_numRestarts 0).setI .stats_numMatvecs 0).setI
    .stats_numPreconds 0).setI .stats_numGlobalSum 0).setI .stats_volumeGlobalSum 0).setI
    .stats_lockingIssue 0)

/-- Default convergence test and monitor, src/svds/primme_svds_c.c:423-438. -/
def runDefaults (o : Sys K) (v : SV K) : SV K :=
  let v := if v.p .convTestFun = 0 then
      let v : SV K := { v with p := fun g => if g = .convTestFun then o.testDefault else v.p g }
      let v := v.setI .convTestFun_type o.opType
      if v.d .eps = 0 then { v with d := fun g => if g = .eps then o.meps * 10000 else v.d g } else v
    else v
  if v.p .monitorFun = 0 then
    let v : SV K := { v with p := fun g => if g = .monitorFun then o.monDefault else v.p g }
    v.setI .monitorFun_type o.opType
  else v

/-- `wrapper_svds_Sprimme`, src/svds/primme_svds_c.c:386-537; outer `none`: undefined behaviour (or the bound on
the recursion of the defaults, never reached, `C10_terminates`). -/
def wrapper (o : Sys K) (k : ℕ) (a : SArrays) (w : World K) : Option (Ret K) :=
  match svdsPrelude o.toSEnv k a w.s with
  | none => none
  | some s =>
    let w := { w with s := s }
    if a.svalsNull ∧ a.svecsNull ∧ a.resNormsNull then some ⟨0, w, 0⟩
    else
      let c := svdsCheckInput a s.sv
      if c ≠ 0 then some ⟨c, w, 0⟩
      else stages o { w with s := { w.s with sv := resetStats (runDefaults o s.sv) } }

/-- Types of the user's operators defaulted to the caller's precision, src/svds/primme_svds_c.c:280-292. -/
def defaultTypes (t : Int) (v : SV K) : SV K :=
  let f (v : SV K) (q : Svds.PF) (g : Svds.IF) : SV K := if v.p q ≠ 0 ∧ v.i g = 0 then v.setI g t else v
  f (f (f (f (f (f v .matrixMatvec .matrixMatvec_type) .applyPreconditioner .applyPreconditioner_type)
    .globalSumReal .globalSumReal_type) .broadcastReal .broadcastReal_type) .convTestFun .convTestFun_type)
    .monitorFun .monitorFun_type

/-- `Xprimme_svds_aux`, src/svds/primme_svds_c.c:271-345; `sys t` describes the build for working precision `t`
(`none`: not compiled in). -/
def driver (t : Int) (sys : Int → Option (Sys K)) (k : ℕ) (a : SArrays) (w : World K) : Option (Ret K) :=
  let w := { w with s := { w.s with sv := defaultTypes t w.s.sv } }
  let q := if w.s.sv.i .internalPrecision = 0 then t else w.s.sv.i .internalPrecision
  match sys q with
  | none => some ⟨PRIMME_FUNCTION_UNAVAILABLE, { w with s := { w.s with sv := w.s.sv.setI .initSize 0 } }, 0⟩
  | some o => match wrapper o k a w with
    | none => none
    | some r => some { r with w := { r.w with s := { r.w.s with sv := r.w.s.sv.setI .initSize r.out } } }

end Verif.SvdsRun
