import Verif.Model.Basic
import Mathlib.Data.Nat.Notation
import Mathlib.Algebra.BigOperators.Group.List.Basic

/-!
# Calls of the user's operators: precision conversion and counters

The heap is a collection of typed blocks.  Reading a block as another type than the one it holds, or
outside of its bounds, is undefined behaviour (`Outcome.ub`).  The user's operators are arbitrary
functions from the matrix they are given to the matrix they return and an error code.  Failing
allocations are not modelled here (they are the subject of C20).  Times are not modelled.
-/

namespace Verif.Ops

/-- `primme_op_datatype` without `primme_op_default`, include/primme.h. -/
inductive Prec where
  | half | float | double | quad | int
  deriving DecidableEq, Repr

/-- An allocated array: element type, number of elements, contents. -/
structure Block (V : Type) where
  ty : Prec
  size : ℕ
  data : ℕ → V

/-- The allocated arrays, and the next unused block number. -/
structure Heap (V : Type) where
  blocks : ℕ → Option (Block V)
  next : ℕ

/-- A pointer: block and offset, in elements. -/
structure Ptr where
  blk : ℕ
  off : ℕ
  deriving DecidableEq, Repr

variable {V : Type}

/-- What a build and its arithmetic provide: which types are supported, and the value conversion between
two types. -/
structure Env (V : Type) where
  avail : Prec → Bool
  conv : Prec → Prec → V → V
  garbage : V

/-- Allocate `size` elements of type `ty`. -/
def alloc (env : Env V) (h : Heap V) (ty : Prec) (size : ℕ) : Heap V × Ptr :=
  ({ blocks := fun b => if b = h.next then some ⟨ty, size, fun _ => env.garbage⟩ else h.blocks b,
     next := h.next + 1 }, ⟨h.next, 0⟩)

/-- `free(p)`. -/
def free (h : Heap V) (p : Ptr) : Outcome (Heap V) :=
  match h.blocks p.blk with
  | none => .ub
  | some _ =>
    if p.off = 0 then
      .ok { h with blocks := fun b => if b = p.blk then none else h.blocks b }
    else .ub

/-- Whether the `m x n` matrix at `p` with leading dimension `ld` lies inside an array of type `ty`. -/
def valid (h : Heap V) (p : Ptr) (ty : Prec) (m n ld : ℕ) : Bool :=
  if m = 0 ∨ n = 0 then true
  else match h.blocks p.blk with
    | none => false
    | some b => decide (b.ty = ty) && decide (m ≤ ld) && decide (p.off + (n - 1) * ld + m ≤ b.size)

/-- Entry `(i,j)` of the matrix at `p`. -/
def entry (env : Env V) (h : Heap V) (p : Ptr) (ld i j : ℕ) : V :=
  match h.blocks p.blk with
  | none => env.garbage
  | some b => b.data (p.off + j * ld + i)

/-- Overwrite the `m x n` matrix at offset `off` of an array. -/
def patch (d : ℕ → V) (off m n ld : ℕ) (a : ℕ → ℕ → V) : ℕ → V := fun k =>
  if off ≤ k ∧ (k - off) / ld < n ∧ (k - off) % ld < m then a ((k - off) % ld) ((k - off) / ld)
  else d k

/-- Overwrite the `m x n` matrix at `p`. -/
def store (h : Heap V) (p : Ptr) (m n ld : ℕ) (a : ℕ → ℕ → V) : Heap V :=
  { h with blocks := fun b =>
      if b = p.blk then (h.blocks b).map (fun k => ⟨k.ty, k.size, patch k.data p.off m n ld a⟩)
      else h.blocks b }

/-- `Num_copy_Tmatrix_Sprimme`, src/linalg/blaslapack.c:343-388, with `Num_copy_matrix_Sprimme` for equal
types.  Operands in one block that are not identical are not modelled here (C40). -/
def copyT (env : Env V) (h : Heap V) (x : Ptr) (xt : Prec) (m n ldx : ℕ) (y : Ptr) (yt : Prec) (ldy : ℕ) :
    Outcome (Heap V) :=
  if xt = yt then
    if x = y ∧ ldx = ldy then .ok h
    else if m = 0 ∨ n = 0 then .ok h
    else if x.blk ≠ y.blk ∧ valid h x xt m n ldx ∧ valid h y yt m n ldy then
      .ok (store h y m n ldy (fun i j => entry env h x ldx i j))
    else .ub
  else if m = 0 ∨ n = 0 then .ok h
  else if x = y then .err PRIMME_FUNCTION_UNAVAILABLE
  else if x.blk ≠ y.blk ∧ valid h x xt m n ldx ∧ valid h y yt m n ldy then
    .ok (store h y m n ldy (fun i j => env.conv xt yt (entry env h x ldx i j)))
  else .ub

/-- `Num_matrix_astype_Sprimme` with `do_alloc = 1`, src/linalg/auxiliary.c:79-142: no copy when the types
agree, otherwise a new array. -/
def castNew (env : Env V) (h : Heap V) (x : Ptr) (m n ldx : ℕ) (xt yt : Prec) (doCopy : Bool) :
    Outcome (Heap V × Ptr × ℕ) :=
  if !env.avail yt then .err PRIMME_FUNCTION_UNAVAILABLE
  else if xt = yt then .ok (h, x, ldx)
  else
    let (h, y) := alloc env h yt (m * n)
    if doCopy then
      match copyT env h x xt m n ldx y yt m with
      | .ok h => .ok (h, y, m)
      | .err c => .err c
      | .ub => .ub
    else .ok (h, y, m)

/-- `Num_matrix_astype_Sprimme` with `do_alloc = 0` and `do_copy = 1`. -/
def castInto (env : Env V) (h : Heap V) (x : Ptr) (m n ldx : ℕ) (xt : Prec) (y : Ptr) (ldy : ℕ)
    (yt : Prec) : Outcome (Heap V) :=
  if !env.avail yt then .err PRIMME_FUNCTION_UNAVAILABLE
  else copyT env h x xt m n ldx y yt ldy

/-- `Num_matrix_astype_Sprimme` with `do_alloc = -1` and `do_copy = 1`: copy and destroy the source; with
equal types nothing is done. -/
def castDestroy (env : Env V) (h : Heap V) (x : Ptr) (m n ldx : ℕ) (xt : Prec) (y : Ptr) (ldy : ℕ)
    (yt : Prec) : Outcome (Heap V) :=
  if !env.avail yt then .err PRIMME_FUNCTION_UNAVAILABLE
  else if xt = yt then .ok h
  else match copyT env h x xt m n ldx y yt ldy with
    | .ok h => if x = y then .ok h else free h x
    | .err c => .err c
    | .ub => .ub

/-- The counters of `primme.stats` the wrappers update. -/
structure Counters where
  numMatvecs : ℕ
  numPreconds : ℕ
  numGlobalSum : ℕ
  volumeGlobalSum : ℕ
  numBroadcast : ℕ
  volumeBroadcast : ℕ
  deriving DecidableEq, Repr

/-- One call of a user's operator: which one, and how many columns (products, preconditioner) or numbers
(reductions) it was given. -/
inductive Event where
  | matrix (cols : ℕ)
  | mass (cols : ℕ)
  | precond (cols : ℕ)
  | sum (count : ℕ)
  | bcast (count : ℕ)
  deriving DecidableEq, Repr

/-- The state of one process: arrays, counters and the calls made so far. -/
structure St (V : Type) where
  heap : Heap V
  stats : Counters
  trace : List Event

/-- What an operator was given: location and leading dimension of input and output, and the input's
values. -/
structure Seen (V : Type) (mV n : ℕ) where
  inp : Ptr
  out : Ptr
  ldIn : ℕ
  ldOut : ℕ
  x : Fin mV → Fin n → V

/-- Extend a matrix to all indices. -/
def total (env : Env V) {m n : ℕ} (a : Fin m → Fin n → V) (i j : ℕ) : V :=
  if h : i < m ∧ j < n then a ⟨i, h.1⟩ ⟨j, h.2⟩ else env.garbage

/-- The user's operator works on arrays of type `ty`: it reads the `mV x n` input and writes the
`mW x n` output. -/
def callUser (env : Env V) {mV mW n : ℕ} (f : (Fin mV → Fin n → V) → (Fin mW → Fin n → V) × Int)
    (ty : Prec) (h : Heap V) (x : Ptr) (ldx : ℕ) (y : Ptr) (ldy : ℕ) :
    Outcome (Heap V × Seen V mV n × Int) :=
  if valid h x ty mV n ldx ∧ valid h y ty mW n ldy ∧ x.blk ≠ y.blk then
    let a : Fin mV → Fin n → V := fun i j => entry env h x ldx i j
    let r := f a
    .ok (store h y mW n ldy (total env r.1), ⟨x, y, ldx, ldy, a⟩, r.2)
  else .ub

/-- The common body of `matrixMatvec_Sprimme`, src/eigs/auxiliary_eigs.c:188-230, and
`massMatrixMatvec_Sprimme`, lines 255-297, and of the singular value products,
src/svds/primme_svds_c.c:1112-1167: `opType` is the declared type of the operator and `backType` the
type with which the output is converted back.  Returns the new heap and what the operator saw. -/
def product (env : Env V) (sc opType backType : Prec) {mV mW n : ℕ}
    (f : (Fin mV → Fin n → V) → (Fin mW → Fin n → V) × Int)
    (h : Heap V) (v : Ptr) (ldV : ℕ) (w : Ptr) (ldW : ℕ) :
    Outcome (Heap V × Seen V mV n) :=
  (castNew env h v mV n ldV sc opType true) >>= fun (h, v0, ldV0) =>
  (castNew env h w mW n ldW sc opType false) >>= fun (h, w0, ldW0) =>
  (callUser env f opType h v0 ldV0 w0 ldW0) >>= fun (h, seen, ierr) =>
  if ierr ≠ 0 then .err PRIMME_USER_FAILURE
  else
    (castInto env h w0 mW n ldW0 backType w ldW sc) >>= fun h =>
    (if v ≠ v0 then free h v0 else .ok h) >>= fun h =>
    (if w ≠ w0 then free h w0 else .ok h) >>= fun h =>
    .ok (h, seen)

/-- The block the wrappers work on: columns `basisSize, basisSize+1, …`. -/
def columnsAt (p : Ptr) (ld basisSize : ℕ) : Ptr := ⟨p.blk, p.off + ld * basisSize⟩

/-- `matrixMatvec_Sprimme`, src/eigs/auxiliary_eigs.c:183-230. -/
def matrixMatvec (env : Env V) (sc matvecType : Prec) {m n : ℕ}
    (f : (Fin m → Fin n → V) → (Fin m → Fin n → V) × Int) (s : St V)
    (v : Ptr) (ldV : ℕ) (w : Ptr) (ldW basisSize : ℕ) : Outcome (St V × Option (Seen V m n)) :=
  if n = 0 then .ok (s, none)
  else if ¬ (m ≤ ldV ∧ m ≤ ldW) then .ub
  else
    (product env sc matvecType matvecType f s.heap (columnsAt v ldV basisSize) ldV
      (columnsAt w ldW basisSize) ldW) >>= fun (h, seen) =>
    .ok ({ heap := h, stats := { s.stats with numMatvecs := s.stats.numMatvecs + n },
           trace := s.trace ++ [.matrix n] }, some seen)

/-- `massMatrixMatvec_Sprimme`, src/eigs/auxiliary_eigs.c:250-297.  The output is converted back from
`matrixMatvec_type` (line 287), and the products are added to `numMatvecs`. -/
def massMatrixMatvec (env : Env V) (sc matvecType massType : Prec) {m n : ℕ}
    (f : (Fin m → Fin n → V) → (Fin m → Fin n → V) × Int) (s : St V)
    (v : Ptr) (ldV : ℕ) (w : Ptr) (ldW basisSize : ℕ) : Outcome (St V × Option (Seen V m n)) :=
  if n = 0 then .ok (s, none)
  else if ¬ (m ≤ ldV ∧ m ≤ ldW) then .ub
  else
    (product env sc massType matvecType f s.heap (columnsAt v ldV basisSize) ldV
      (columnsAt w ldW basisSize) ldW) >>= fun (h, seen) =>
    .ok ({ heap := h, stats := { s.stats with numMatvecs := s.stats.numMatvecs + n },
           trace := s.trace ++ [.mass n] }, some seen)

/-- `applyPreconditioner_Sprimme`, src/eigs/auxiliary_eigs.c:317-364. -/
def applyPreconditioner (env : Env V) (sc precType : Prec) (precondition : Bool) {m n : ℕ}
    (f : (Fin m → Fin n → V) → (Fin m → Fin n → V) × Int) (s : St V)
    (v : Ptr) (ldV : ℕ) (w : Ptr) (ldW : ℕ) : Outcome (St V × Option (Seen V m n)) :=
  if n = 0 then .ok (s, none)
  else if precondition then
    (castNew env s.heap v m n ldV sc precType true) >>= fun (h, v0, ldV0) =>
    (castNew env h w m n ldW sc precType false) >>= fun (h, w0, ldW0) =>
    (callUser env f precType h v0 ldV0 w0 ldW0) >>= fun (h, seen, ierr) =>
    if ierr ≠ 0 then .err PRIMME_UNEXPECTED_FAILURE
    else
      (if v ≠ v0 then free h v0 else .ok h) >>= fun h =>
      (castDestroy env h w0 m n ldW0 precType w ldW sc) >>= fun h =>
      .ok ({ heap := h, stats := { s.stats with numPreconds := s.stats.numPreconds + n },
             trace := s.trace ++ [.precond n] }, some seen)
  else
    (copyT env s.heap v sc m n ldV w sc ldW) >>= fun h => .ok ({ s with heap := h }, none)

/-- What `convTestFun_Sprimme`, src/eigs/auxiliary_eigs_normal.c:408-443, hands to the user's convergence
test: the vector is converted to `convTestFun_type` into `evec0`, but the call passes `evec`
(line 434).  `read` is what the user's function sees when it reads an `m`-vector of its declared type. -/
def convTest (env : Env V) (sc testType : Prec) {m : ℕ} (h : Heap V) (evec : Ptr)
    (givenEvec : Bool) : Outcome (Heap V × Option (Ptr × (Fin m → Fin 1 → V))) :=
  if givenEvec then
    (castNew env h evec m 1 m sc testType true) >>= fun (h, evec0, _) =>
    if valid h evec testType m 1 m then
      let seen : Fin m → Fin 1 → V := fun i j => entry env h evec m i j
      (if 0 < m ∧ evec ≠ evec0 then free h evec0 else .ok h) >>= fun h =>
      .ok (h, some (evec, seen))
    else .ub
  else .ok (h, none)

/-- A reduction over the processes as seen by one of them: the buffer is replaced in place by a function of
its content (the contributions of the other processes are part of `f`). -/
def callReduce (env : Env V) {n : ℕ} (f : (Fin 1 → Fin n → V) → (Fin 1 → Fin n → V)) (ty : Prec)
    (h : Heap V) (x : Ptr) : Outcome (Heap V × Seen V 1 n) :=
  if valid h x ty 1 n 1 then
    let a : Fin 1 → Fin n → V := fun i j => entry env h x 1 i j
    .ok (store h x 1 n 1 (total env (f a)), ⟨x, x, 1, 1, a⟩)
  else .ub

/-- `globalSum_Tprimme`, src/eigs/auxiliary_eigs.c:391-427; `bufType` is the type of the buffer. -/
def globalSum (env : Env V) (bufType sumType : Prec) (numProcs : ℕ) (hasSum : Bool) {n : ℕ}
    (f : (Fin 1 → Fin n → V) → (Fin 1 → Fin n → V)) (ierr : Int) (s : St V) (buf : Ptr) :
    Outcome (St V × Option (Seen V 1 n)) :=
  if numProcs = 1 ∨ !hasSum then .ok (s, none)
  else
    (castNew env s.heap buf 1 n 1 bufType sumType true) >>= fun (h, b0, _) =>
    (callReduce env f sumType h b0) >>= fun (h, seen) =>
    if ierr ≠ 0 then .err PRIMME_USER_FAILURE
    else
      (castDestroy env h b0 1 n 1 sumType buf 1 bufType) >>= fun h =>
      .ok ({ heap := h, stats := { s.stats with numGlobalSum := s.stats.numGlobalSum + 1,
                                                volumeGlobalSum := s.stats.volumeGlobalSum + n },
             trace := s.trace ++ [.sum n] }, some seen)

/-- `broadcast_Tprimme`, src/eigs/auxiliary_eigs.c:430-473.  `sumIerr` is the code of `globalSumReal`;
`ierr` is the value of the variable after `broadcastReal` returned: what the user's function stored, or, if
it stored nothing, the indeterminate initial value (line 435 does not initialise it). -/
def broadcast (env : Env V) (bufType sumType bcastType : Prec) (numProcs procID : ℕ)
    (hasSum hasBcast : Bool) (zero : V) {n : ℕ} (f : (Fin 1 → Fin n → V) → (Fin 1 → Fin n → V))
    (ierr : Int) (s : St V) (buf : Ptr) : Outcome (St V) :=
  if numProcs = 1 then .ok s
  else
    (if hasBcast then
      (castNew env s.heap buf 1 n 1 bufType bcastType true) >>= fun (h, b0, _) =>
      (callReduce env f bcastType h b0) >>= fun (h, _) =>
      if ierr ≠ 0 then .err PRIMME_USER_FAILURE
      else
        (castDestroy env h b0 1 n 1 bcastType buf 1 bufType) >>= fun h =>
        .ok { s with heap := h, trace := s.trace ++ [.bcast n] }
    else
      let s := if procID ≠ 0 then { s with heap := store s.heap buf 1 n 1 (fun _ _ => zero) } else s
      (globalSum env bufType sumType numProcs hasSum f ierr s buf) >>= fun (s, _) => .ok s) >>= fun s =>
    .ok { s with stats := { s.stats with numBroadcast := s.stats.numBroadcast + 1,
                                         volumeBroadcast := s.stats.volumeBroadcast + n } }

/-- The reduction of the error flag in `coordinated_exit`, src/eigs/primme_c.c:807-811: `globalSumReal` is
called directly (also by a single process), for an error code other than `PRIMME_PARALLEL_FAILURE`. -/
def exitSum (hasSum : Bool) (s : St V) : St V :=
  if hasSum then { s with trace := s.trace ++ [.sum 1] } else s

/-- The counters after lines 367-374 of src/eigs/main_iter.c. -/
def zeroCounters : Counters := ⟨0, 0, 0, 0, 0, 0⟩

/-- The types with which the embedded eigensolver of a singular value problem calls `globalSumReal` and
`broadcastReal`.  `copy_params_from_svds`, src/svds/primme_svds_interface.c:344-349, installs wrappers
around the user's functions but not their types, so the embedded members keep `primme_op_default` unless the
user set them (`embedded`), and `Xprimme_aux`, src/eigs/primme_c.c:175-178, replaces the default with the
working type `sc`. -/
def embeddedReduceType (sc : Prec) (embedded : Option Prec) : Prec := embedded.getD sc

end Verif.Ops
