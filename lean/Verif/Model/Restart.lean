import Verif.Model.Convergence

/-!
# Restart of the search space

Model of the bookkeeping of `restart_Sprimme` (src/eigs/restart.c:200-494), of
`restart_soft_locking_Sprimme` (restart.c:598-722) and of `restart_locking_Sprimme`
(restart.c:832-1187): which pairs count as converged, how large the restarted basis is, in which
order the Ritz pairs are kept, and which pairs form the next block.

The numerical kernels (updates of `V`, `W`, `H`, orthogonalisation of the coefficient vectors) are
left out; what they decide is an argument: how many previous vectors were retained, which Ritz value
moved away from the accepted one, which pair passes the convergence check again.  Locking itself
(values, norms and vectors of the locked pairs) is in `Verif.Model.Locking`.

Arrays are functions from an index to an optional entry (`none`: never written); a write outside of
the allocated length or a read of an entry never written is `ub`.
-/

namespace Verif.Restart
open Verif

abbrev Flag := Conv.Flag

/-- Parameters read by the restart.  `side` stands for `target == primme_closest_geq ||
target == primme_closest_leq`. -/
structure Par where
  n : ℕ
  numEvals : ℕ
  numOrthoConst : ℕ
  maxBasisSize : ℕ
  minRestartSize : ℕ
  maxBlockSize : ℕ
  maxPrevRetain : ℕ
  locking : Bool
  side : Bool

/-- An array of indices. -/
abbrev Arr := ℕ → Option ℕ

/-- `a[pos] = v` in an array of `len` entries. -/
def wr (len : ℕ) (a : Arr) (pos : Int) (v : ℕ) : Outcome Arr :=
  if 0 ≤ pos ∧ pos < len then .ok (fun i => if (i : Int) = pos then some v else a i) else .ub

/-- `a[pos]` in an array of `len` entries. -/
def rd (len : ℕ) (a : Arr) (pos : Int) : Outcome ℕ :=
  if 0 ≤ pos ∧ pos < len then
    match a pos.toNat with
    | some v => .ok v
    | none => .ub
  else .ub

/-! ## Counting and sizes: restart.c:224-318 -/

/-- The position test shared by restart.c:235-237 and 899-901. -/
def eligible (P : Par) (numLocked i : ℕ) : Bool :=
  decide ((i : Int) < (P.numEvals : Int) - numLocked) || P.side

/-- restart.c:224-240: the loop over the flags of the basis, from position `i` on; `nc` is
`*numConverged`. -/
def recount (P : Par) (numLocked : ℕ) : ℕ → ℕ → List Flag → List Flag × ℕ
  | _, nc, [] => ([], nc)
  | i, nc, f :: fs =>
    if f = .skip_until_restart then
      let r := recount P numLocked (i + 1) nc fs
      (.unconverged :: r.1, r.2)
    else if f ≠ .unconverged ∧ nc < P.numEvals ∧ eligible P numLocked i then
      let r := recount P numLocked (i + 1) (nc + 1) fs
      (f :: r.1, r.2)
    else
      let r := recount P numLocked (i + 1) nc fs
      (f :: r.1, r.2)

/-- restart.c:249-293: size of the restarted basis, before previous vectors are added, and the number
of previous vectors asked for.  Signed arithmetic as in C. -/
def sizes (P : Par) (basisSize numLocked numConverged numGuesses : Int) : Int × Int :=
  let r :=
    if ¬ P.locking ∧ basisSize + numLocked + P.numOrthoConst ≥ P.n then (basisSize, (0 : Int))
    else if basisSize ≤ (P.maxBasisSize : Int) - P.maxBlockSize then (basisSize, 0)
    else (min basisSize P.minRestartSize, (P.maxPrevRetain : Int))
  let restartSize := r.1 - min (min numGuesses (numConverged - numLocked)) r.1
  let restartSize := if P.locking then min restartSize (basisSize - (numConverged - numLocked)) else restartSize
  (restartSize, max 0 (min (min r.2 ((P.maxBasisSize : Int) - restartSize - 1))
    ((P.n : Int) - restartSize - numConverged - P.numOrthoConst)))

/-- restart.c:311-315: first column of `hVecs` that receives a previous coefficient vector. -/
def indexOfPrevious (P : Par) (restartSize numLocked numConverged : Int) : Int :=
  if P.locking then restartSize + numConverged - numLocked else restartSize

/-- What `ortho_coefficient_vectors_Sprimme` (restart.c:2347-2408) can answer: the loop of lines
2363-2367 stops at the number asked for and at the end of the basis. -/
def RetainOk (basisSize indexPrev asked retained : Int) : Prop :=
  0 ≤ retained ∧ retained ≤ asked ∧ (0 < retained → indexPrev + retained ≤ basisSize)

/-! ## Without locking: restart.c:598-722 -/

/-- restart.c:618-632: loop over the first `numEvals` pairs; `moved i` says that the Ritz value went
further from the accepted value than its residual norm.  `fs` are the flags from position `i` on;
reading beyond the array of flags is `ub`. -/
def softRecheck (moved : ℕ → Bool) : ℕ → ℕ → ℕ → List Flag → Outcome (List Flag × ℕ)
  | 0, _, nc, fs => .ok (fs, nc)
  | _ + 1, _, _, [] => .ub
  | m + 1, i, nc, f :: fs =>
    if f ≠ .unconverged ∧ moved i then do
      let r ← softRecheck moved m (i + 1) nc fs
      .ok (.unconverged :: r.1, r.2)
    else if f ≠ .unconverged then do
      let r ← softRecheck moved m (i + 1) (nc + 1) fs
      .ok (f :: r.1, r.2)
    else do
      let r ← softRecheck moved m (i + 1) nc fs
      .ok (f :: r.1, r.2)

/-- restart.c:658-662, size of the next block. -/
def softBlock (P : Par) (ievSize basisSize restartSize numConverged : Int) : Int :=
  max 0 (min (min (min (min (min ievSize P.maxBlockSize) ((P.numEvals : Int) - numConverged + 1))
    ((P.maxBasisSize : Int) - restartSize)) (basisSize - numConverged)) ((P.minRestartSize : Int) - numConverged))

/-- restart.c:666-674, generation of `restartPerm`, an array of `b = basisSize` entries.  Returns also
`j + k` for the assertion of line 675. -/
def softPerm (b nc : ℕ) : List Flag → ℕ → ℕ → ℕ → Arr → Outcome (Arr × ℕ)
  | [], _, j, k, p => .ok (p, j + k)
  | f :: fs, i, j, k, p =>
    if nc ≤ k ∨ f = .unconverged then do
      let p ← wr b p ((nc : Int) + j) i
      softPerm b nc fs (i + 1) (j + 1) k p
    else do
      let p ← wr b p k i
      softPerm b nc fs (i + 1) j (k + 1) p

/-- restart.c:710-711: `hVecsPerm[restartPerm[i]] = i` for `i < m`, in increasing order. -/
def inverse (b : ℕ) (p : Arr) : ℕ → Arr → Outcome Arr
  | 0, q => .ok q
  | m + 1, q => do
    let q ← inverse b p m q
    let v ← rd b p m
    wr b q v m

/-- restart.c:715-718, inner loop: the last `j < m` with `hVecsPerm[j] == target`, or the old value. -/
def findLast (b : ℕ) (q : Arr) (target : Int) (old : Option ℕ) : ℕ → Outcome (Option ℕ)
  | 0 => .ok old
  | m + 1 => do
    let r ← findLast b q target old m
    let v ← rd b q m
    .ok (if (v : Int) = target then some m else r)

/-- restart.c:715-718, outer loop for `i < cnt`. -/
def softIev (b : ℕ) (q : Arr) (nc restartSize : ℕ) (old : Arr) : ℕ → Outcome Arr
  | 0 => .ok old
  | i + 1 => do
    let a ← softIev b q nc restartSize old i
    let v ← findLast b q ((nc : Int) + i) (old i) restartSize
    .ok (fun t => if t = i then v else a t)

/-- What `restart_soft_locking_Sprimme` hands back. -/
structure Soft where
  flags : List Flag
  numConverged : ℕ
  restartSize : Int
  indexPrev : Int
  ievSize : Int
  restartPerm : Arr
  hVecsPerm : Arr
  iev : Arr

/-- `restart_soft_locking_Sprimme`.  `retained` is `numPrevRetained`, `restartSize` the size before
adding the previous vectors.  The update of `V` and `W` (lines 686-701) uses `restartSize` columns of
the permuted coefficient vectors; using more columns than the basis has is `ub`. -/
def softLocking (P : Par) (moved : ℕ → Bool) (basisSize : ℕ) (flags : List Flag) (ievSize : Int) (iev : Arr)
    (restartSize retained : Int) : Outcome Soft := do
  let (flags, nc) ← softRecheck moved P.numEvals 0 0 flags
  let indexPrev := restartSize
  let restartSize := restartSize + retained
  let ievSize := softBlock P ievSize basisSize restartSize nc
  if flags.length < basisSize then .ub else
  let (p, jk) ← softPerm basisSize nc (flags.take basisSize) 0 0 0 (fun _ => none)
  if jk ≠ basisSize then .ub else
  if restartSize < 0 ∨ (basisSize : Int) < restartSize ∨ (P.maxBasisSize : Int) < restartSize + ievSize
      ∨ (basisSize : Int) < nc + ievSize then .ub else
  let q ← inverse basisSize p basisSize (fun _ => none)
  let iev ← softIev basisSize q nc restartSize.toNat iev ievSize.toNat
  .ok ⟨flags, nc, restartSize, indexPrev, ievSize, p, q, iev⟩

/-! ## With locking: restart.c:832-1187 -/

/-- restart.c:880-888: `maxBlockSize` and `sizeBlockNorms`. -/
def lockBlock (P : Par) (restartSize retained numConverged numLocked : Int) : Int × Int :=
  let mb := max 0 (min (min restartSize P.maxBlockSize) ((P.numEvals : Int) - numConverged + 1))
  (mb, max 0 (min mb ((P.maxBasisSize : Int) - restartSize - retained - numConverged + numLocked)))

/-- restart.c:894-912, generation of `restartPerm`.  `np` is `numPacked`, `shift` is
`min(*numConverged, numEvals) - *numLocked`. -/
def packLoop (P : Par) (b numLocked : ℕ) (left shift : Int) : List Flag → ℕ → ℕ → ℕ → Arr → Outcome (Arr × ℕ)
  | [], _, _, np, p => .ok (p, np)
  | f :: fs, i, k, np, p =>
    if f ≠ .unconverged ∧ (np : Int) < (P.numEvals : Int) - numLocked ∧ eligible P numLocked i then do
      let p ← wr b p (left + np) i
      packLoop P b numLocked left shift fs (i + 1) k (np + 1) p
    else if (k : Int) < left then do
      let p ← wr b p k i
      packLoop P b numLocked left shift fs (i + 1) (k + 1) np p
    else do
      let p ← wr b p (shift + k) i
      packLoop P b numLocked left shift fs (i + 1) (k + 1) np p

/-- restart.c:964-971: flags of the packed pairs after the check; `j` counts the accepted ones. -/
def capPassed (P : Par) (numLocked : ℕ) : ℕ → List Flag → List Flag
  | _, [] => []
  | j, f :: fs =>
    if f ≠ .unconverged ∧ numLocked + j < P.numEvals then f :: capPassed P numLocked (j + 1) fs
    else .unconverged :: capPassed P numLocked j fs

/-- restart.c:983-986: `ifailed`, the failed packed pairs first, then the others; `fs` are the flags
of the packed pairs from position `i` on. -/
def failedIdx : ℕ → List Flag → List ℕ
  | _, [] => []
  | i, f :: fs => if f = .unconverged then i :: failedIdx (i + 1) fs else failedIdx (i + 1) fs

/-- Second loop of restart.c:983-986. -/
def passedIdx : ℕ → List Flag → List ℕ
  | _, [] => []
  | i, f :: fs => if f ≠ .unconverged then i :: passedIdx (i + 1) fs else passedIdx (i + 1) fs

/-- restart.c:1012-1013: whether the candidate `i` comes before the failed pair `j`; the second operands
of `&&` and `||` are evaluated only if needed. -/
def mergeTake (b : ℕ) (p : Arr) (left : Int) (ip : ℕ) (failed : List ℕ) (i j : ℕ) : Outcome Bool :=
  if i < ip then
    if failed.length ≤ j then .ok true
    else do
      let a ← rd b p i
      let c ← rd b p (left + (failed.getD j 0 : ℕ))
      .ok (decide (a < c))
  else .ok false

/-- restart.c:1005-1027: the merge of the candidates `i < ip` and of the failed pairs.  `fuel` is the
number of remaining iterations (`ip + failed` in total, since each iteration advances `i` or `j`). -/
def mergeLoop (b : ℕ) (p : Arr) (left : Int) (ip : ℕ) (failed : List ℕ) :
    ℕ → ℕ → ℕ → ℕ → Arr → Outcome (Arr × ℕ)
  | 0, _, _, k, q => .ok (q, k)
  | fuel + 1, i, j, k, q =>
    if i < ip ∨ j < failed.length then do
      let takeCand ← mergeTake b p left ip failed i j
      if takeCand then do
        let q ← wr b q k i
        mergeLoop b p left ip failed fuel (i + 1) j (k + 1) q
      else if 0 ≤ left then do
        let q ← wr b q k (left.toNat + j)
        mergeLoop b p left ip failed fuel i (j + 1) (k + 1) q
      else .ub
    else .ok (q, k)

/-- restart.c:1032: `hVecsPerm[k++] = i + indexOfPreviousVecs` for `i < m`. -/
def mergePrev (b ip k : ℕ) : ℕ → Arr → Outcome Arr
  | 0, q => .ok q
  | m + 1, q => do
    let q ← mergePrev b ip k m q
    wr b q ((k : Int) + m) (m + ip)

/-- restart.c:1135-1150 as far as the number of locked pairs is concerned. -/
def lockCount (P : Par) : ℕ → List Flag → ℕ
  | nl, [] => nl
  | nl, f :: fs => if f ≠ .unconverged ∧ nl < P.numEvals then lockCount P (nl + 1) fs else lockCount P nl fs

/-- What `restart_locking_Sprimme` hands back.  `packed` are the flags of the packed pairs after the
check, `failed` the positions (from `left` on) of those that are not locked. -/
structure Locked where
  numLocked : ℕ
  restartSize : Int
  indexPrev : Int
  ievSize : Int
  left : Int
  numPacked : ℕ
  packed : List Flag
  failed : List ℕ
  restartPerm : Arr
  hVecsPerm : Arr

/-- `restart_locking_Sprimme`.  `check i` is the answer of the convergence check of restart.c:955-958
for the packed pair `i`.  `flags` are the flags of the basis.  `restartPerm` is returned after line
1090, where its part for the packed pairs is permuted by `ifailed`. -/
def lockingRestart (P : Par) (check : ℕ → Flag) (basisSize : ℕ) (flags : List Flag) (numConverged numLocked : ℕ)
    (restartSize retained : Int) : Outcome Locked := do
  let (maxBlock, sizeNorms) := lockBlock P restartSize retained numConverged numLocked
  let indexPrev := restartSize
  let left := restartSize + retained
  if flags.length < basisSize then .ub else
  let (p, np) ← packLoop P basisSize numLocked left ((min numConverged P.numEvals : ℕ) - numLocked)
    (flags.take basisSize) 0 0 0 (fun _ => none)
  let restartSize := left + np
  -- restart.c:925 asserts `restartSize <= maxBasisSize`; `X` needs `sizeNorms` columns after it
  if (P.maxBasisSize : Int) < restartSize + sizeNorms ∨ (basisSize : Int) < restartSize ∨ indexPrev < 0 then .ub else
  let packed := capPassed P numLocked 0 ((List.range np).map check)
  let failed := failedIdx 0 packed
  let maxBlock2 := max 0 (min maxBlock ((P.maxBasisSize : Int) - restartSize - retained - numConverged + numLocked))
  let (q, k) ← mergeLoop basisSize p left indexPrev.toNat failed (indexPrev.toNat + failed.length) 0 0 0 (fun _ => none)
  let q ← mergePrev basisSize indexPrev.toNat k retained.toNat q
  if (k : Int) + retained ≠ indexPrev + retained + failed.length then .ub else
  let order := failed ++ passedIdx 0 packed
  let p' : Arr := fun i => if left ≤ i ∧ (i : Int) < left + np then
    (order[i - left.toNat]?).bind (fun t => p (left.toNat + t)) else p i
  .ok { numLocked := lockCount P numLocked packed
        restartSize := left + failed.length
        indexPrev, left, numPacked := np, packed, failed
        ievSize := min maxBlock2 (sizeNorms + failed.length)
        restartPerm := p', hVecsPerm := q }

/-! ## The whole restart -/

/-- What the solver sees of a restart.  `indexPrev0` is the column of `hVecs` where the previous
coefficient vectors were put before the reordering, `indexPrev` the column where the restarted basis
expects them after it. -/
structure Result where
  flags : List Flag
  numConverged : ℕ
  numLocked : ℕ
  basisSize : Int
  ievSize : Int
  iev : Arr
  restartPerm : Arr
  hVecsPerm : Arr
  indexPrev0 : Int
  indexPrev : Int
  retained : Int

/-- The answers of the numerical kernels during one restart. -/
structure Answers where
  retained : Int
  moved : ℕ → Bool
  check : ℕ → Flag

/-- `restart_Sprimme`, restart.c:200-400, bookkeeping only.  `flags` is the whole array of
`maxBasisSize` flags.  With locking the flags of the old basis are cleared (restart.c:1184) and the
next block is the first `ievSize` pairs (restart.c:1178). -/
def restart (P : Par) (o : Answers) (basisSize numLocked : ℕ) (flags : List Flag) (ievSize : Int) (iev : Arr)
    (numGuesses : Int) : Outcome Result :=
  let fl := recount P numLocked 0 numLocked (flags.take basisSize)
  let flags := fl.1 ++ flags.drop basisSize
  let nc := fl.2
  let sz := sizes P basisSize numLocked nc numGuesses
  let ip := indexOfPrevious P sz.1 numLocked nc
  if ¬ P.locking then do
    let s ← softLocking P o.moved basisSize flags ievSize iev sz.1 o.retained
    .ok ⟨s.flags, s.numConverged, numLocked, s.restartSize, s.ievSize, s.iev, s.restartPerm, s.hVecsPerm, ip,
      s.indexPrev, o.retained⟩
  else do
    let s ← lockingRestart P o.check basisSize flags nc numLocked sz.1 o.retained
    .ok ⟨List.replicate basisSize .unconverged ++ flags.drop basisSize, s.numLocked, s.numLocked, s.restartSize,
      s.ievSize, fun i => if (i : Int) < s.ievSize then some i else iev i, s.restartPerm, s.hVecsPerm, ip,
      s.indexPrev, o.retained⟩

/-- The kernels' answers are possible: `ortho_coefficient_vectors_Sprimme` retains at most what it is
asked for and what fits in the basis. -/
def Possible (P : Par) (o : Answers) (basisSize numLocked : ℕ) (flags : List Flag) (numGuesses : Int) : Prop :=
  let nc := (recount P numLocked 0 numLocked (flags.take basisSize)).2
  let sz := sizes P basisSize numLocked nc numGuesses
  RetainOk basisSize (indexOfPrevious P sz.1 numLocked nc) sz.2 o.retained

/-- What a coefficient vector holds. -/
inductive Source
  | ritz (i : ℕ)
  | prev (m : ℕ)
  deriving DecidableEq, Repr

/-- Column `c` of `hVecs` after `ortho_coefficient_vectors_Sprimme` (restart.c:2382-2385): the previous
coefficient vectors overwrite the columns from `indexPrev0` on. -/
def coefficient (r : Result) (c : ℕ) : Source :=
  if r.indexPrev0 ≤ c ∧ (c : Int) < r.indexPrev0 + r.retained then .prev ((c : Int) - r.indexPrev0).toNat else .ritz c

/-- The coefficient vector behind column `t` of the restarted basis (restart.c:681, 917: `hVecs` is
permuted by `restartPerm`). -/
def column (r : Result) (t : ℕ) : Option Source := (r.restartPerm t).map (coefficient r)

end Verif.Restart
