import Verif.Model.Prepare

/-!
# The main iteration

Model of the control structure of `main_iter_Sprimme` (src/eigs/main_iter.c:176-1414): the three nested
loops, the sizes of basis and block, the counters, the convergence flags, and what is handed back.  The
choice of the block is `Verif.Prepare.prepare`, the restart is `Verif.Restart.restart`.

One step of the machine goes from one loop test to the next (`Pc`).  Everything numerical is an answer
(`Ans`) that the environment gives for the step: results of convergence checks, number of vectors that
survive the orthogonalisation, products spent by the correction, failures of kernels.

Left out: vectors and values themselves, the dynamic choice of the method, the monitor, the statistics
other than the three counters, and the shift index (`targetShiftIndex` is never negative: it is set at
main_iter.c:460 and to `min(numTargetShifts - 1, numConverged)` in restart.c only; it is used with
`numTargetShifts > 0`, i.e. with `numQR`).
-/

namespace Verif.Main
open Verif

abbrev Flag := Conv.Flag
abbrev Arr := Restart.Arr

/-- Parameters.  `numQR` stands for `projection != primme_proj_RR` (main_iter.c:267-272), `interior` for
`target != primme_smallest && target != primme_largest`. -/
structure Par extends Restart.Par where
  maxMatvecs : Int
  maxOuter : Int
  numTargetShifts : ℕ
  numQR : Bool
  interior : Bool

/-- The loop tests: outer loop (main_iter.c:444), restart loop (501), inner loop (517), the code after the
inner loop (890), the code after the restart loop (1206), and the end (`clean`, 1343). -/
inductive Pc
  | outer | restart | inner | post | finish | done
  deriving DecidableEq, Repr

/-- What the first `numEvals` entries of the output arrays hold: what was there before the call, a locked
pair, an approximation computed from the `i`-th Ritz pair of the final basis, or data from columns beyond
the final basis. -/
inductive Entry
  | untouched
  | locked
  | ritz (i : ℕ)
  | stale
  deriving DecidableEq, Repr

/-- Variables of `main_iter`.  `numMatvecs`, `numOuter`, `numRestarts` are the members of `stats`; `xr`
and `nrm` describe the block as in `Verif.Prepare`; `reset` stands for `reset > 0`. -/
structure St where
  pc : Pc
  basisSize : ℕ
  blockSize : ℕ
  numConverged : ℕ
  numLocked : ℕ
  numGuesses : ℕ
  nextGuess : ℕ
  wholeSpace : Bool
  reset : Bool
  prepared : Bool
  sinceReset : ℕ
  flags : List Flag
  iev : Arr
  xr : Arr
  nrm : Prepare.Norms
  numMatvecs : ℕ
  numOuter : ℕ
  numRestarts : ℕ
  initSize : ℕ
  numRet : ℕ
  ret : Int
  out : ℕ → Entry

/-- Answers of the numerical kernels and of the user's functions during one step.
* `fail`: a `CHKERR` of the step fails with this code;
* `prep`, `prep2`: for the two calls of `prepare_candidates`;
* `far`: the shifts differ by more than the norm (main_iter.c:636-641);
* `corr`: products with the matrix spent by `solve_correction`;
* `gd`: `!massMatrixMatvec && !precondition && maxInnerIterations == 0`;
* `orth i`: vectors left by the `i`-th call of the orthogonalisation;
* `pract i`: flag given to the `i`-th block pair by the check of main_iter.c:770-776, `practBad` whether one
  of them sets `reset`;
* `qrOk`: the QR factorisation is not deficient;
* `refErr`: the test of main_iter.c:870-879 holds, given `restartsSinceReset > 1`;
* `wsBad`: `maxConvTol < estimateResidualError` (main_iter.c:894);
* `retain`, `moved`, `check`: for the restart;
* `guess`: how many of the inserted guesses survive the orthogonalisation (main_iter.c:1131-1135);
* `wrong i`: the `i`-th pair is on the wrong side of the shift (main_iter.c:1806-1812);
* `verify i`: flag given to the `i`-th pair by `verify_norms`. -/
structure Ans where
  fail : Option Int
  prep : Prepare.Ans
  prep2 : Prepare.Ans
  far : Bool
  corr : ℕ
  gd : Bool
  orth : ℕ → ℕ
  pract : ℕ → Flag
  practBad : Bool
  qrOk : Bool
  refErr : Bool
  wsBad : Bool
  retain : Int → Int → Int → Int
  moved : ℕ → Bool
  check : ℕ → Flag
  guess : ℕ
  wrong : ℕ → Bool
  verify : ℕ → Flag

/-- The answers respect the contracts of the routines: a failure has a non-zero code, and the number of retained
vectors is possible (`Restart.RetainOk`). -/
structure Ans.Ok (a : Ans) : Prop where
  code : ∀ c, a.fail = some c → c ≠ 0
  retain : ∀ b ip asked : Int, 0 ≤ asked → Restart.RetainOk b ip asked (a.retain b ip asked)

/-- `numMatvecs < maxMatvecs && (maxOuterIterations == 0 || numOuterIterations < maxOuterIterations)`,
main_iter.c:445-447, 502-505, 518-520, 1249-1253. -/
def within (P : Par) (s : St) : Bool :=
  decide ((s.numMatvecs : Int) < P.maxMatvecs) && (decide (P.maxOuter = 0) || decide ((s.numOuter : Int) < P.maxOuter))

/-! ## Inner loop -/

/-- main_iter.c:527-542: `maxRecentlyConverged` and `availableBlockSize`. -/
def limits (P : Par) (s : St) : ℕ × ℕ :=
  let r := if s.numConverged + 1 < P.numTargetShifts ∧ P.numQR then (s.numConverged - s.numLocked + 1, 1)
    else (P.numEvals - s.numConverged, P.maxBlockSize)
  (r.1, min (min r.2 (P.maxBasisSize - s.basisSize)) (r.1 + 1))

/-- main_iter.c:545-577 and 588; `l` are the limits computed before. -/
def choose (P : Par) (a : Ans) (l : ℕ × ℕ) (s : St) : Outcome (St × ℕ) :=
  if 0 < l.2 then do
    let r ← Prepare.prepare P.toPar ⟨s.basisSize, s.numLocked, s.numConverged, l.1, l.2,
      P.maxBasisSize - s.basisSize, true⟩ a.prep s.blockSize s.flags s.iev s.xr s.nrm s.reset
    .ok ({ s with flags := r.flags, iev := r.iev, xr := r.xr, nrm := r.nrm, reset := r.reset, blockSize := r.bs
                  numConverged := s.numConverged + r.recent, prepared := true }, r.recent)
  else .ok ({ s with blockSize := 0 }, 0)

/-- With locking, for an interior or one-sided target, a converged pair is locked at once:
main_iter.c:626-632 and 788-793. -/
def lockNow (P : Par) (s : St) : Bool :=
  decide (s.numLocked < s.numConverged) && P.interior && (!P.numQR || P.side)

/-- main_iter.c:625-645. -/
def leave (P : Par) (a : Ans) (recent : ℕ) (s : St) : Bool :=
  decide (P.numEvals ≤ s.numConverged) || (P.locking && lockNow P s) ||
    (decide (s.blockSize = 0) && decide (0 < recent)) || (P.numQR && a.far) ||
    (decide ((s.nextGuess : Int) - P.numOrthoConst ≤ s.numConverged) && decide (0 < s.numGuesses))

/-- main_iter.c:694-707: attempts to extend the basis; `m` are left, `i` were made, the block has `bs`
vectors.  Answers the number of attempts made without success and the size of the block.  `room` is what
is left of the dimension of the space: no orthonormal basis has more vectors than that (an assumption on
the orthogonalisation; `C21` shows that its result is orthonormal in exact arithmetic). -/
def attempts (orth : ℕ → ℕ) (room avail : ℕ) : ℕ → ℕ → ℕ → ℕ × ℕ
  | 0, i, bs => (i, bs)
  | m + 1, i, bs =>
    let out := min (min (orth i) bs) room
    if 0 < out ∨ avail = 0 then (i, out) else attempts orth room avail m (i + 1) 1

/-- main_iter.c:741-785, for `m` more pairs of the block, from the `i`-th on. -/
def practs (P : Par) (a : Ans) : ℕ → ℕ → St → Outcome St
  | 0, _, s => .ok s
  | m + 1, i, s =>
    if s.numConverged < P.numEvals then do
      let ip ← Restart.rd P.maxBlockSize s.iev i
      if ip < s.flags.length then
        if a.pract i = .converged then
          practs P a m (i + 1) { s with flags := s.flags.set ip .practically_converged, numConverged := s.numConverged + 1 }
        else practs P a m (i + 1) { s with flags := s.flags.set ip (a.pract i) }
      else .ub
    else .ok s

/-- main_iter.c:738-786; `bs0` is the size of the block before the orthogonalisation. -/
def checkPract (P : Par) (a : Ans) (bs0 : ℕ) (s : St) : Outcome St :=
  if P.locking ∧ a.gd ∧ 0 < s.numLocked then
    practs P a bs0 0 { s with reset := s.reset || (a.practBad && decide (0 < bs0)) }
  else .ok s

/-- main_iter.c:788-880: products with the matrix, QR factorisation, and the larger basis. -/
def grow (P : Par) (a : Ans) (s : St) : Outcome St :=
  if P.locking ∧ a.gd ∧ lockNow P s then .ok { s with pc := .post }
  else if P.maxBasisSize < s.basisSize + s.blockSize then .ub
  else if P.numQR ∧ ¬ a.qrOk then
    .ok { s with numMatvecs := s.numMatvecs + s.blockSize, blockSize := 0, reset := true, pc := .post }
  else if 1 < s.sinceReset ∧ a.refErr then
    .ok { s with numMatvecs := s.numMatvecs + s.blockSize, basisSize := s.basisSize + s.blockSize, blockSize := 0
                 prepared := false, reset := true, pc := .post }
  else
    .ok { s with numMatvecs := s.numMatvecs + s.blockSize, basisSize := s.basisSize + s.blockSize, blockSize := 0
                 prepared := false, pc := .inner }

/-- main_iter.c:649-880: correction, orthogonalisation, extension of the basis.  The corrections overwrite
the block columns.  `avail` is `availableBlockSize`, computed before the block was chosen. -/
def expand (P : Par) (a : Ans) (avail : ℕ) (s : St) : Outcome St :=
  let t := attempts a.orth (P.n - P.numOrthoConst - s.numLocked - s.basisSize) avail 10 0 s.blockSize
  let spent := if 0 < s.blockSize then a.corr else 0
  if 10 ≤ t.1 then
    if 0 < avail ∧ s.blockSize = 0 ∧ s.reset = false then
      .ok { s with numMatvecs := s.numMatvecs + spent, xr := fun _ => none, wholeSpace := true, blockSize := 0, pc := .post }
    else .ok { s with numMatvecs := s.numMatvecs + spent, xr := fun _ => none, reset := true, blockSize := 0, pc := .post }
  else
    checkPract P a s.blockSize { s with numMatvecs := s.numMatvecs + spent, xr := fun _ => none, blockSize := t.2 } >>= grow P a

/-- main_iter.c:625-880: leave the inner loop or extend the basis. -/
def proceed (P : Par) (a : Ans) (avail recent : ℕ) (s : St) : Outcome St :=
  if leave P a recent s then .ok { s with pc := .post } else expand P a avail s

/-- One turn of the inner loop, main_iter.c:522-880. -/
def turn (P : Par) (a : Ans) (s : St) : Outcome St :=
  choose P a (limits P s) { s with numOuter := s.numOuter + 1 } >>= fun r => proceed P a (limits P s).2 r.2 r.1

/-! ## After the inner loop -/

/-- main_iter.c:921-962: `maxRecentlyConverged` and `availableBlockSize` before a restart. -/
def limits2 (P : Par) (s : St) : ℕ × ℕ :=
  let r := if 0 < s.blockSize then (0, s.blockSize)
    else if s.numConverged + 1 < P.numTargetShifts then
      let m := (if P.locking then min P.numEvals (s.numLocked + 1) else min P.numEvals (s.numConverged + 1)) - s.numConverged
      (m, m)
    else
      let m := P.numEvals - s.numConverged
      (m, min (min P.maxBlockSize (P.maxBasisSize - (s.numConverged - s.numLocked))) (m + 1))
  (r.1, min r.2 (P.n - s.numLocked - P.numOrthoConst))

/-- main_iter.c:1010-1022, the count of the accepted pairs, from position `i` on. -/
def recount (P : Par) (numLocked : ℕ) : ℕ → ℕ → List Flag → ℕ
  | _, nc, [] => nc
  | i, nc, f :: fs =>
    if f ≠ .unconverged ∧ nc < P.numEvals ∧ Restart.eligible P.toPar numLocked i then recount P numLocked (i + 1) (nc + 1) fs
    else recount P numLocked (i + 1) nc fs

/-- main_iter.c:1028-1041: `iwork`, an array of `b` entries.  `c` is `numConverged - numLocked`, `bs` the
size of the block; `m` counts the accepted pairs met so far. -/
def regroup (b c bs : ℕ) (iev : Arr) : List Flag → ℕ → ℕ → ℕ → ℕ → Arr → Outcome Arr
  | [], _, _, _, _, w => .ok w
  | f :: fs, i, k, l, m, w =>
    let inIev := (List.range bs).any (fun j => iev j == some i)
    let acc := decide (f ≠ .unconverged)
    if (acc && decide (m < c)) || inIev then do
      let w ← Restart.wr b w k i
      regroup b c bs iev fs (i + 1) (k + 1) l (if acc then m + 1 else m) w
    else do
      let w ← Restart.wr b w ((c + bs + l : ℕ) : Int) i
      regroup b c bs iev fs (i + 1) k (l + 1) (if acc then m + 1 else m) w

/-- `permute_vecs_iprimme(flags, basisSize, iwork)`, main_iter.c:1046.  If `iwork` is not a permutation of
the positions (entries not written, out of range or repeated) the routine reads outside of arrays or does
not stop: see `C18`. -/
def permuteFlags (b : ℕ) (w : Arr) (flags : List Flag) : Outcome (List Flag) :=
  if (∀ i ∈ List.range b, ∃ v ∈ List.range b, w i = some v) ∧ ((List.range b).map w).Nodup then
    .ok ((List.range flags.length).map (fun i =>
      flags.getD (if i < b then (w i).getD 0 else i) .unconverged))
  else .ub

/-- main_iter.c:996-1046: what follows the call of `prepare_candidates` before a restart. -/
def settle (P : Par) (s : St) (r : Prepare.St) : Outcome St :=
  let bs := if P.numQR ∧ s.numLocked < s.numConverged + r.recent ∧ s.numLocked + 1 < P.numTargetShifts then 0 else r.bs
  let nc := recount P s.numLocked 0 s.numLocked (r.flags.take s.basisSize)
  regroup s.basisSize (nc - s.numLocked) bs r.iev (r.flags.take s.basisSize) 0 0 0 0 (fun _ => none) >>= fun w =>
  permuteFlags s.basisSize w r.flags >>= fun flags =>
  .ok { s with blockSize := bs, numConverged := nc, flags, iev := r.iev, xr := r.xr, nrm := r.nrm, reset := r.reset }

/-- main_iter.c:907-1072. -/
def before (P : Par) (a : Ans) (s : St) : Outcome St :=
  let l := limits2 P s
  if l.2 = 0 ∨ P.minRestartSize + P.maxPrevRetain + l.2 < P.maxBasisSize ∨
      P.n ≤ P.numOrthoConst + s.numLocked + s.basisSize ∨ P.numQR then
    Prepare.prepare P.toPar ⟨s.basisSize, s.numLocked, s.numConverged, l.1, l.2, 0, false⟩ a.prep2
      s.blockSize s.flags s.iev s.xr s.nrm s.reset >>= settle P s
  else if P.maxBlockSize < l.2 then .ub
  else .ok { s with blockSize := l.2, iev := fun i => if i < l.2 then some i else s.iev i }

/-- main_iter.c:1103-1121: number of guesses to insert after a restart. -/
def numNew (P : Par) (s : St) : ℕ :=
  let k := min ((P.minRestartSize : Int) + s.numConverged - ((s.nextGuess : Int) - P.numOrthoConst)) s.numGuesses
  let k := max 0 k
  let k := max 0 (min (s.basisSize + k) P.maxBasisSize - s.basisSize)
  let k := max 0 (min (s.basisSize + k + P.numOrthoConst + s.numLocked) P.n - P.numOrthoConst - s.numLocked - s.basisSize)
  k.toNat

/-- main_iter.c:1103-1170: remaining guesses are copied behind the basis, where the block columns are, and
orthogonalised; the basis grows by those that survive.  The block is not changed: `iev` and `blockNorms` are
those of the pairs before the basis grew. -/
def insertGuesses (P : Par) (a : Ans) (s : St) : Outcome St :=
  if s.numGuesses = 0 then .ok s
  else
    let m := numNew P s
    let k := min a.guess m
    if P.maxBasisSize < s.basisSize + m then .ub
    else .ok { s with basisSize := s.basisSize + k, nextGuess := s.nextGuess + m, numGuesses := s.numGuesses - m
                      numMatvecs := s.numMatvecs + k, xr := if 0 < m then fun _ => none else s.xr }

/-- The answers for the restart in this state. -/
def answers (P : Par) (a : Ans) (s : St) : Restart.Answers :=
  let nc := (Restart.recount P.toPar s.numLocked 0 s.numLocked (s.flags.take s.basisSize)).2
  let sz := Restart.sizes P.toPar s.basisSize s.numLocked nc s.numGuesses
  ⟨a.retain s.basisSize (Restart.indexOfPrevious P.toPar sz.1 s.numLocked nc) sz.2, a.moved, a.check⟩

/-- The variables after `restart_Sprimme` (main_iter.c:1086-1098): `X` and `R` hold the block. -/
def restarted (s : St) (r : Restart.Result) : St :=
  { s with flags := r.flags, numConverged := r.numConverged, numLocked := r.numLocked
           basisSize := r.basisSize.toNat, blockSize := r.ievSize.toNat, iev := r.iev
           xr := fun k => if k < r.ievSize.toNat then r.iev k else none
           nrm := fun k => if k < r.ievSize.toNat then (r.iev k).map (fun i => (i, false)) else s.nrm k
           sinceReset := s.sinceReset + 1 }

/-- main_iter.c:1086-1198: restart, insertion of guesses, counters. -/
def restartStep (P : Par) (a : Ans) (s : St) : Outcome St :=
  Restart.restart P.toPar (answers P a s) s.basisSize s.numLocked s.flags s.blockSize s.iev s.numGuesses >>= fun r =>
  if r.basisSize < 0 ∨ r.ievSize < 0 then .ub
  else insertGuesses P a (restarted s r) >>= fun s =>
    .ok { s with numRestarts := s.numRestarts + 1, initSize := s.numConverged, pc := .restart }

/-- main_iter.c:890-896: errors accumulated in a basis that spans the space. -/
def spanned (P : Par) (a : Ans) (s : St) : St :=
  if P.n ≤ s.basisSize + P.numOrthoConst + s.numLocked ∧ a.wsBad then { s with reset := true } else s

/-- main_iter.c:890-1198. -/
def after (P : Par) (a : Ans) (s : St) : Outcome St :=
  if (spanned P a s).reset then .ok { spanned P a s with pc := .outer }
  else (if s.prepared then .ok (spanned P a s) else before P a (spanned P a s)) >>= fun s =>
    if s.reset then .ok { s with pc := .outer } else restartStep P a s

/-! ## After the restart loop -/

/-- `copy_back_candidates`, main_iter.c:1743-1831: outputs and number of returned pairs.  The loop over blocks
of pairs is written pair by pair: a block never has more pairs than entries are missing.  `m` pairs are
left, from the `i`-th on, `nc` entries are filled. -/
def copyBack (P : Par) (wrong : ℕ → Bool) : ℕ → ℕ → ℕ → (ℕ → Entry) → ℕ × (ℕ → Entry)
  | 0, _, nc, out => (nc, out)
  | m + 1, i, nc, out =>
    if nc < P.numEvals then
      if P.side ∧ wrong i then copyBack P wrong m (i + 1) nc out
      else copyBack P wrong m (i + 1) (nc + 1) (fun t => if t = nc then .ritz i else out t)
    else (nc, out)

/-- main_iter.c:1206-1242. -/
def finishLocking (P : Par) (a : Ans) (s : St) : St :=
  let out0 : ℕ → Entry := fun t => if t < s.numLocked then .locked else .untouched
  let s := if P.numEvals ≤ s.numConverged ∨ s.basisSize = 0 then { s with out := out0 }
    else
      let r := copyBack P a.wrong s.basisSize 0 s.numConverged out0
      { s with numRet := r.1, out := r.2 }
  { s with ret := if s.numConverged = P.numEvals ∨ s.wholeSpace then 0 else PRIMME_MAIN_ITER_FAILURE, pc := .done }

/-- Number of leading flags that are not `UNCONVERGED` (main_iter.c:1890-1891). -/
def leading : List Flag → ℕ
  | [] => 0
  | f :: fs => if f ≠ .unconverged then leading fs + 1 else 0

/-- main_iter.c:1245-1333.  `verify_norms` tests the first `cnt` columns of the basis, and `numEvals` columns
are copied out, whatever the size of the basis is; arrays have room for `maxBasisSize` columns. -/
def finishPlain (P : Par) (a : Ans) (s : St) : Outcome St :=
  let lim := !within P s
  let cnt := if lim then P.numEvals else s.numConverged
  if P.maxBasisSize < cnt ∨ P.maxBasisSize < P.numEvals ∨ P.numEvals < cnt then .ub
  else
    let fl := (List.range cnt).map a.verify
    let nc := leading fl
    let s := { s with flags := fl ++ s.flags.drop cnt, numConverged := nc }
    if lim ∨ P.numEvals ≤ nc ∨ s.wholeSpace then
      .ok { s with out := fun t => if t < P.numEvals then (if t < s.basisSize then .ritz t else .stale) else .untouched
                   numRet := P.numEvals, initSize := nc
                   ret := if P.numEvals ≤ nc then 0 else PRIMME_MAIN_ITER_FAILURE, pc := .done }
    else
      let b := min (a.orth 0) s.basisSize
      .ok { s with basisSize := b, numMatvecs := s.numMatvecs + b, sinceReset := 0, reset := false, numConverged := 0
                   pc := .outer }

/-- primme_c.c:375-414: what the caller finds in entry `t` of an output array.  An array whose type is the working
precision (`cast = false`) is used directly; otherwise the main iteration fills a copy, and only its first `numRet` entries are
converted back. -/
def handBack (cast : Bool) (s : St) : ℕ → Entry :=
  fun t => if cast ∧ s.numRet ≤ t then .untouched else s.out t

/-! ## The machine -/

/-- main_iter.c:444-496: test of the outer loop and what follows it. -/
def outerStep (P : Par) (a : Ans) (s : St) : Outcome St :=
  if within P s then
    if P.numQR ∧ ¬ a.qrOk then .err PRIMME_UNEXPECTED_FAILURE
    else .ok { s with initSize := s.numLocked, numConverged := s.numLocked, reset := false
                      flags := List.replicate s.flags.length .unconverged, blockSize := 0, sinceReset := 0, pc := .restart }
  else .ok { s with out := fun t => if t < s.numLocked then .locked else .untouched, pc := .done }

/-- One step. -/
def step (P : Par) (a : Ans) (s : St) : Outcome St :=
  match a.fail with
  | some c => if s.pc = .done then .ok s else .err c
  | none =>
    match s.pc with
    | .outer => outerStep P a s
    | .restart =>
      if s.numConverged < P.numEvals ∧ within P s ∧ s.wholeSpace = false then .ok { s with prepared := false, pc := .inner }
      else .ok { s with pc := .finish }
    | .inner => if s.basisSize < P.maxBasisSize ∧ within P s then turn P a s else .ok { s with pc := .post }
    | .post => after P a s
    | .finish => if P.locking then .ok (finishLocking P a s) else finishPlain P a s
    | .done => .ok s

/-- State at the first test of the outer loop, after the initial basis was built with `basisSize` vectors at
the cost of `products` products (main_iter.c:364-418); `*ret` is the default of line 181. -/
def start (P : Par) (basisSize numGuesses nextGuess products : ℕ) : St where
  pc := .outer
  basisSize := basisSize
  blockSize := 0
  numConverged := 0
  numLocked := 0
  numGuesses := numGuesses
  nextGuess := nextGuess
  wholeSpace := false
  reset := false
  prepared := false
  sinceReset := 0
  flags := List.replicate P.maxBasisSize .unconverged
  iev := fun _ => none
  xr := fun _ => none
  nrm := fun _ => none
  numMatvecs := products
  numOuter := 0
  numRestarts := 0
  initSize := 0
  numRet := 0
  ret := PRIMME_MAIN_ITER_FAILURE
  out := fun _ => .untouched

/-- The first `k` steps of a run with the answers `a 0`, `a 1`, … -/
def run (P : Par) (a : ℕ → Ans) : ℕ → St → Outcome St
  | 0, s => .ok s
  | k + 1, s => run P a k s >>= step P (a k)

end Verif.Main
