import Verif.Model.Basic
import Verif.Model.EigsParams
import Mathlib.Data.List.Range
import Mathlib.Tactic.SplitIfs

/-!
# Initial basis

Model of `init_basis_Sprimme` (src/eigs/init.c:125-223) and of `init_block_krylov` (init.c:258-323):
how the initial search space is filled from the user's guesses, random vectors and a block Krylov
sequence, and that `W` holds the products with the matrix.

Vectors are elements of an arbitrary type `X`; the matrix is a function `A`.  The block
orthogonalisation is an oracle that rewrites the columns of a range and announces a rank; random vectors
are another oracle.  `V` and `W` are arrays of `maxBasisSize` columns (main_iter.c:262-275): a column
never written is `none`, reading it or leaving the array is `ub`.  The orthogonalisation of the
constraints and the preparation of the preconditioner projector (init.c:137-172) come first and are
left out, apart from their failure.
-/

namespace Verif.Init
open Verif

/-- `primme_init`, include/primme.h. -/
inductive Mode
  | krylov | random | user
  deriving DecidableEq, Repr

structure Par where
  n : ℕ
  numOrthoConst : ℕ
  maxBasisSize : ℕ
  minRestartSize : ℕ
  maxBlockSize : ℕ
  initSize : ℕ
  locking : Bool
  mode : Mode

/-- The sizes read by `init_basis_Sprimme` from the structure.  `primme_set_defaults` has replaced the
default mode by the Krylov one (primme_interface.c:590-592), so 1, 2 and 3 are the possible values. -/
def ofParams {K : Type} (s : Eigs.EP K) : Par where
  n := (s.i .n).toNat
  numOrthoConst := (s.i .numOrthoConst).toNat
  maxBasisSize := (s.i .maxBasisSize).toNat
  minRestartSize := (s.i .minRestartSize).toNat
  maxBlockSize := (s.i .maxBlockSize).toNat
  initSize := (s.i .initSize).toNat
  locking := decide (s.i .locking ≠ 0)
  mode := if s.i .initBasisMode = 3 then .user else if s.i .initBasisMode = 2 then .random else .krylov

variable {X : Type}

/-- Columns of an array of vectors. -/
abbrev Cols (X : Type) := ℕ → Option X

/-- Oracles: the matrix, the random vectors (by number of the call) and the block orthogonalisation.
`ort V b1 e` rewrites the columns `b1 … e-1` of `V`, given the ones before, and returns the rank; `none`
is a failure. -/
structure Kernels (X : Type) where
  A : X → X
  rnd : ℕ → X
  ort : Cols X → ℕ → ℕ → Option (Cols X × ℕ)

/-- Contract of `Bortho_block_Sprimme` for a non-empty range (ortho.c:478-795, and `rank_estimation`,
ortho.c:1165-1181): only the columns of the range change, all of them hold something, the rank lies in the
range, and if the columns before the range are orthonormal so are all the columns before the rank.
`Orthonormal V k` says that about the first `k` columns; it is any property of those columns that a
shorter prefix inherits. -/
structure OrtOk (o : Kernels X) (Orthonormal : Cols X → ℕ → Prop) : Prop where
  congr : ∀ V V' k, (∀ j, j < k → V j = V' j) → Orthonormal V k → Orthonormal V' k
  mono : ∀ V k k', k' ≤ k → Orthonormal V k → Orthonormal V k'
  zero : ∀ V, Orthonormal V 0
  spec : ∀ V b1 e V' r, b1 < e → (∀ j, j < e → (V j).isSome) → o.ort V b1 e = some (V', r) →
    b1 ≤ r ∧ r ≤ e ∧ (∀ j, j < b1 ∨ e ≤ j → V' j = V j) ∧ (∀ j, j < e → (V' j).isSome) ∧
      (Orthonormal V b1 → Orthonormal V' r)

/-- State: `V`, `W`, number of random vectors drawn, columns of `W` written so far (latest last) and number of products. -/
structure St (X : Type) where
  V : Cols X
  W : Cols X
  seed : ℕ
  wlog : List ℕ

/-- `Num_larnv_Sprimme(2, iseed, nLocal, &V[ldV*i], ctx)` for `cnt` columns from `i` on. -/
def larnv (P : Par) (o : Kernels X) : ℕ → ℕ → St X → Outcome (St X)
  | 0, _, s => .ok s
  | cnt + 1, i, s =>
    if i < P.maxBasisSize then
      larnv P o cnt (i + 1) { s with V := fun j => if j = i then some (o.rnd s.seed) else s.V j, seed := s.seed + 1 }
    else .ub

/-- `Bortho_block_Sprimme` on columns `b1 … e-1`; the quick exit is ortho.c:493-496. -/
def ortho (P : Par) (o : Kernels X) (b1 e : ℕ) (s : St X) : Outcome (St X × ℕ) :=
  if e ≤ b1 then .ok (s, e)
  else if P.maxBasisSize < e ∨ ∃ j ∈ List.range e, s.V j = none then .ub
  else match o.ort s.V b1 e with
    | none => .err PRIMME_UNEXPECTED_FAILURE
    | some (V', r) => .ok ({ s with V := V' }, r)

/-- `matrixMatvec_Sprimme(V, nLocal, ldV, W, ldW, lo, cnt, ctx)`: `W[lo+i] = A*V[lo+i]`. -/
def matvec (P : Par) (o : Kernels X) : ℕ → ℕ → St X → Outcome (St X)
  | 0, _, s => .ok s
  | cnt + 1, lo, s =>
    match s.V lo with
    | some x =>
      if lo < P.maxBasisSize then
        matvec P o cnt (lo + 1)
          { s with W := fun j => if j = lo then some (o.A x) else s.W j, wlog := s.wlog ++ [lo] }
      else .ub
    | none => .ub

/-- init.c:299-303: product of `V[src+i]` put in `V[dst+i]` and copied to `W[src+i]`, `i < cnt`. -/
def shiftMatvec (P : Par) (o : Kernels X) : ℕ → ℕ → ℕ → St X → Outcome (St X)
  | 0, _, _, s => .ok s
  | cnt + 1, src, dst, s =>
    match s.V src with
    | some x =>
      if src < P.maxBasisSize ∧ dst < P.maxBasisSize then
        shiftMatvec P o cnt (src + 1) (dst + 1)
          { s with V := fun j => if j = dst then some (o.A x) else s.V j
                   W := fun j => if j = src then some (o.A x) else s.W j
                   wlog := s.wlog ++ [src] }
      else .ub
    | none => .ub

/-- The loop of init.c:297-317, `i` the next column, `m` the size of the last block, `e = dv2 + 1`.
`fuel` bounds the number of turns (`e - i` suffices as `m > 0`). -/
def krylovLoop (P : Par) (o : Kernels X) (blockSize e : ℕ) : ℕ → ℕ → ℕ → St X → Outcome (St X)
  | 0, _, _, s => .ok s
  | fuel + 1, i, m, s =>
    let m := min m (e - i)
    if i < e then do
      let s ← shiftMatvec P o m (i - blockSize) i s
      let (s, nV) ← ortho P o i (i + m) s
      let s ← larnv P o (i + m - nV) nV s
      let (s, nV) ← ortho P o nV (i + m) s
      if nV ≠ i + m then .err PRIMME_UNEXPECTED_FAILURE else
      krylovLoop P o blockSize e fuel (i + m) m s
    else .ok s

/-- `init_block_krylov`, init.c:258-323, for the columns `dv1 … e-1`. -/
def blockKrylov (P : Par) (o : Kernels X) (dv1 e : ℕ) (s : St X) : Outcome (St X) :=
  if e ≤ dv1 then .ok s
  else
    let blockSize := if e - dv1 ≤ P.maxBlockSize then 1 else P.maxBlockSize
    do
    let s ← larnv P o blockSize dv1 s
    let (s, nV) ← ortho P o dv1 (dv1 + blockSize) s
    if nV ≠ dv1 + blockSize then .err PRIMME_UNEXPECTED_FAILURE else
    let s ← krylovLoop P o blockSize e (e - dv1) (dv1 + blockSize) blockSize s
    matvec P o blockSize (e - blockSize) s

/-- init.c:184: copy of the first `cnt` guesses to `V`. -/
def copyGuesses (P : Par) (guess : ℕ → X) : ℕ → St X → Outcome (St X)
  | 0, s => .ok s
  | cnt + 1, s => do
    let s ← copyGuesses P guess cnt s
    if cnt < P.maxBasisSize then
      .ok { s with V := fun j => if j = cnt then some (guess cnt) else s.V j }
    else .ub

/-- init.c:174-180: number of guesses put in the basis at once. -/
def used (P : Par) : ℕ :=
  let initSize := if ¬ P.locking then min P.maxBasisSize P.initSize else min P.minRestartSize P.initSize
  min (P.n - P.numOrthoConst) initSize

/-- init.c:186-197: number of random vectors. -/
def randoms (P : Par) : ℕ :=
  let r := match P.mode with
    | .krylov => 0
    | .random => P.minRestartSize - used P
    | .user => P.maxBlockSize - used P
  min (P.n - P.numOrthoConst - used P) r

/-- What `init_basis_Sprimme` hands back, and, for the statements only, the basis just before the orthogonalisation. -/
structure Res (X : Type) where
  V : Cols X
  W : Cols X
  basisSize : ℕ
  nextGuess : ℕ
  numGuesses : ℕ
  raw : Cols X
  rank : ℕ
  wlog : List ℕ

/-- `init_basis_Sprimme`, init.c:174-222.  `guess i` is column `numOrthoConst + i` of `evecs`.
Differences of sizes are truncated at zero, as the code does with `max(0, …)`; `numOrthoConst ≤ n` by the input
check. -/
def initBasis (P : Par) (o : Kernels X) (guess : ℕ → X) : Outcome (Res X) := do
  let s ← copyGuesses P guess (used P) ⟨fun _ => none, fun _ => none, 0, []⟩
  let s ← larnv P o (randoms P) (used P) s
  let raw := s.V
  let (s, rank) ← ortho P o 0 (used P + randoms P) s
  let s ← matvec P o rank 0 s
  if P.mode = .krylov then
    let m := min P.minRestartSize (P.n - P.numOrthoConst)
    let s ← blockKrylov P o rank m s
    .ok ⟨s.V, s.W, m, P.numOrthoConst + used P, P.initSize - used P, raw, rank, s.wlog⟩
  else
    .ok ⟨s.V, s.W, rank, P.numOrthoConst + used P, P.initSize - used P, raw, rank, s.wlog⟩

end Verif.Init
