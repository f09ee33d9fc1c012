import Verif.Model.Basic
import Verif.Model.Permute
import Mathlib.Algebra.Order.Field.Basic
import Mathlib.Algebra.Order.Group.Abs

/-!
# Insertion of locked pairs

Model of `insertionSort_Sprimme` (src/eigs/auxiliary_eigs_normal.c:543-637) and of the locking phase
of `restart_locking_Sprimme` (src/eigs/restart.c:926-973 and 1135-1173), and of the final
permutation of `main_iter_Sprimme` (src/eigs/main_iter.c:1355-1357).

C arrays are functions from indices; the model writes only the indices the code writes.  Real
numbers are an arbitrary type with a linear order, `-` and `|·|` (exact comparisons, no NaN).
-/

namespace Verif.Locking
open Verif

variable {K : Type u} [Field K] [LinearOrder K]

/-- `targetShifts[min(numTargetShifts-1, k)]` for a non-empty array `s :: ss`. -/
def shiftAt (s : K) (ss : List K) (k : Nat) : K :=
  (s :: ss)[min ss.length k]'(by simp only [List.length_cons]; omega)

/-- The `break` condition of the search loops, auxiliary_eigs_normal.c:555-618, evaluated at loop
index `i` (so it looks at `evals[i-1]`; `j` below is `i-1`).  Reading `targetShifts` with
`numTargetShifts = 0` is out of range: `ub`. -/
def stopTest (t : Target) (shifts : List K) (initialShift n : Nat) (newVal : K) (evals : Nat → K) :
    Outcome (Nat → Bool) :=
  match t, shifts with
  | .smallest, _ => .ok fun j => decide (newVal ≥ evals j)
  | .largest, _ => .ok fun j => decide (newVal ≤ evals j)
  | _, [] => .ub
  | .closest_geq, s :: ss =>
    let cs := shiftAt s ss (initialShift + n)
    .ok fun j => decide (shiftAt s ss (initialShift + j) ≠ cs) || decide (newVal - cs ≥ evals j - cs)
  | .closest_leq, s :: ss =>
    let cs := shiftAt s ss (initialShift + n)
    .ok fun j => decide (shiftAt s ss (initialShift + j) ≠ cs) || decide (cs - newVal ≥ cs - evals j)
  | .closest_abs, s :: ss =>
    let cs := shiftAt s ss (initialShift + n)
    .ok fun j => decide (shiftAt s ss (initialShift + j) ≠ cs) ||
      decide (|newVal - cs| ≥ |evals j - cs|)
  | .largest_abs, s :: ss =>
    let cs := shiftAt s ss (initialShift + n)
    .ok fun j => decide (shiftAt s ss (initialShift + j) ≠ cs) ||
      decide (|newVal - cs| ≤ |evals j - cs|)

/-- `for (i = n; i > 0; i--) if (stop at i-1) break;` and the final value of `i`. -/
def insertPos (stop : Nat → Bool) : Nat → Nat
  | 0 => 0
  | j + 1 => if stop j then j + 1 else insertPos stop j

/-- `a[i] = v`. -/
def set (a : Nat → β) (i : Nat) (v : β) : Nat → β := fun j => if j = i then v else a j

/-- `for (current = n-1; current >= i; current--) a[current+1] = a[current];`
(auxiliary_eigs_normal.c:623-628), as `cnt = n - i` iterations, the first one at `n-1`. -/
def shiftUp (n : Nat) : Nat → (Nat → β) → (Nat → β)
  | 0, a => a
  | cnt + 1, a => shiftUp (n - 1) cnt (set a n (a (n - 1)))

/-- `shiftUp` followed by the insertion `a[i] = v`. -/
def insertArr (n i : Nat) (v : β) (a : Nat → β) : Nat → β := set (shiftUp n (n - i) a) i v

/-- The arrays describing the locked pairs (`evals`, `resNorms`, `lockedFlags`, `evecsperm`), the
columns of `evecs` after the `numOrthoConst` constraints, and `numLocked`. -/
structure LState (K V : Type u) where
  evals : Nat → K
  norms : Nat → K
  flags : Nat → Int
  perm : Nat → Nat
  vecs : Nat → V
  numLocked : Nat

/-- `insertionSort_Sprimme(newVal, evals, newNorm, resNorms, newFlag, flags, perm, n, initialShift)`
with all four arrays present.  (`PRIMME_FUNCTION_UNAVAILABLE` for a `target` outside of the
enumeration, line 617, is unreachable: such targets are refused by `check_input`.) -/
def insertionSort {V : Type u} (t : Target) (shifts : List K) (initialShift : Nat) (newVal newNorm : K)
    (newFlag : Int) (n : Nat) (s : LState K V) : Outcome (LState K V) :=
  match stopTest t shifts initialShift n newVal s.evals with
  | .ok stop =>
    let i := insertPos stop n
    .ok { s with
      evals := insertArr n i newVal s.evals
      norms := insertArr n i newNorm s.norms
      flags := insertArr n i newFlag s.flags
      perm := insertArr n i n s.perm }
  | .err c => .err c
  | .ub => .ub

/-- Flag values of src/eigs/main_iter.c (`convergence.h`): `UNCONVERGED` is 0. -/
def UNCONVERGED : Int := 0

/-- A pair packed to be locked: Ritz value, residual norm, Ritz vector and the flag decided by the
convergence check of restart.c:955-958 (an oracle: any value). -/
structure Cand (K V : Type u) where
  val : K
  norm : K
  vec : V
  flag : Int

/-- `Num_aux_update_VWXR` as seen by the locked arrays (restart.c:926-945): the packed Ritz vectors go
to `evecs[numLocked + c]`, their residual norms to `lockedResNorms[c] = resNorms[numLocked + c]`. -/
def writeCands {V : Type u} (base : Nat) : List (Cand K V) → LState K V → LState K V
  | [], s => s
  | c :: cs, s => writeCands (base + 1) cs
      { s with norms := set s.norms base c.norm, vecs := set s.vecs base c.vec }

/-- restart.c:964-971: the values of the pairs that passed are written consecutively into `evals`;
pairs beyond `numEvals` are unflagged.  Returns the new flags. -/
def writeEvals {V : Type u} (numEvals base : Nat) :
    List (Cand K V) → Nat → (Nat → K) → (Nat → K) × List Int
  | [], _, ev => (ev, [])
  | c :: cs, j, ev =>
    if c.flag ≠ UNCONVERGED ∧ base + j < numEvals then
      let (ev', fl) := writeEvals numEvals base cs (j + 1) (set ev (base + j) c.val)
      (ev', c.flag :: fl)
    else
      let (ev', fl) := writeEvals numEvals base cs j ev
      (ev', UNCONVERGED :: fl)

/-- restart.c:1135-1173, the lock loop.  `base = numLocked0`, `q` is `i - left`. -/
def lockLoop {V : Type u} (t : Target) (shifts : List K) (numEvals base : Nat) :
    List Int → Nat → LState K V → Outcome (LState K V)
  | [], _, s => .ok s
  | f :: fs, q, s =>
    if f ≠ UNCONVERGED ∧ s.numLocked < numEvals then do
      let nl := s.numLocked
      let resNorm := s.norms (base + q)                      -- lockedResNorms[i-left]
      let s := { s with norms := set s.norms nl resNorm }
      let eval := s.evals nl
      let s := { s with vecs := set s.vecs nl (s.vecs (base + q)) }
      let s := { s with numLocked := nl + 1 }
      -- lockedFlags[*numLocked-1] = flags[i] is written only if there is a monitor; the insertion
      -- below overwrites that slot in any case
      let s ← insertionSort t shifts 0 eval resNorm f nl s
      lockLoop t shifts numEvals base fs (q + 1) s
    else lockLoop t shifts numEvals base fs (q + 1) s

/-- The locking part of one call of `restart_locking_Sprimme` for the packed pairs `cands`.
Undefined (`ub`) if more pairs are packed than free slots remain: the packing loop
(restart.c:894-912) guarantees `numPacked ≤ numEvals - numLocked`, see `Verif.Model.Restart`. -/
def lockPhase {V : Type u} (t : Target) (shifts : List K) (numEvals : Nat) (cands : List (Cand K V))
    (s : LState K V) : Outcome (LState K V) :=
  if cands.length ≤ numEvals - s.numLocked then
    let base := s.numLocked
    let s := writeCands base cands s
    let (ev, fl) := writeEvals numEvals base cands 0 s.evals
    lockLoop t shifts numEvals base fl 0 { s with evals := ev }
  else .ub

/-- All the restarts of a run, one list of packed pairs per restart. -/
def lockRun {V : Type u} (t : Target) (shifts : List K) (numEvals : Nat) :
    List (List (Cand K V)) → LState K V → Outcome (LState K V)
  | [], s => .ok s
  | c :: cs, s => do
    let s ← lockPhase t shifts numEvals c s
    lockRun t shifts numEvals cs s

/-- Clean-up of `main_iter_Sprimme` (main_iter.c:1355-1357): the vectors are permuted to follow the
sorted values.  `initSize` is `numLocked` at this point for locking runs.  Columns are moved as
units (see `Verif.Props.C18_Permute` for the element-wise statement). -/
def finish {V : Type u} (capacity : Nat) (s : LState K V) : Outcome (LState K V) :=
  match Permute.permuteVecs 1 s.numLocked 1 ⟨capacity, s.vecs⟩ s.perm with
  | some b => .ok { s with vecs := b.data }
  | none => .ub

/-- Initial state: main_iter.c:399 sets `perm[i] = i`, `numLocked = 0`; the arrays hold whatever the
user's arrays hold. -/
def initState {V : Type u} (evals norms : Nat → K) (flags : Nat → Int) (vecs : Nat → V) :
    LState K V :=
  { evals, norms, flags, perm := fun i => i, vecs, numLocked := 0 }

end Verif.Locking
