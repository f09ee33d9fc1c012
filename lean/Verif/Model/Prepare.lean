import Verif.Model.Restart

/-!
# Choice of the next block

Model of `prepare_candidates` (src/eigs/main_iter.c:1470-1709): the Ritz pairs are tested for
convergence, those that converged are counted, and the first ones that did not form the next block.

Arrays of indices are those of `Verif.Model.Restart` (`none`: never written; an access outside of the
allocated length, or a read of an entry never written, is `ub`).  For the vectors only what they hold
is kept: `xr k = some i` says that the `k`-th block columns of `X`, `R` (and `BX`) hold the Ritz vector
and the residual of the `i`-th Ritz pair; `nrm k = some (i, b)` says that `blockNorms[k]` is the residual
norm of the `i`-th pair, raised to the error of the residuals if `b`.

Left out: allocation failures, the call of the monitor, the estimates of the norm of `B`, and the
smallest residual norm (an input of `prepare_vecs` only).
-/

namespace Verif.Prepare
open Verif Verif.Restart

/-- Contents of `blockNorms`. -/
abbrev Norms := ℕ → Option (ℕ × Bool)

/-- What the numerical kernels answer during one call. `map` is the result of `map_vecs`
(solve_projection.c:1009-1064); `check r i` the flag that `check_convergence` gives in round `r` to the
`i`-th pair under test, and `bad r` whether it sets `*reset` in that round; `wrong i` whether the pair
is on the wrong side of the shift (main_iter.c:1571-1580, only for `closest_geq` and `closest_leq`). -/
structure Ans where
  map : ℕ → ℕ
  check : ℕ → ℕ → Flag
  bad : ℕ → Bool
  wrong : ℕ → Bool

/-- Arguments of one call that do not change: `avail` is the argument `maxBlockSize` (the length of the
work arrays `flagsBlock`, `hValsBlock0`, `hVecsBlock0`), `cols` the number of columns of `X` and `R`,
`remained` the argument `remainedEvals`, `xrOn` the argument `computeXR`. -/
structure Job where
  basisSize : ℕ
  numLocked : ℕ
  numConverged : ℕ
  remained : ℕ
  avail : ℕ
  cols : ℕ
  xrOn : Bool

/-- Variables: `*blockSize`, `*recentlyConverged`, the variable `maxBlockSize`, `lasti + 1`, and the
arrays.  `counted` are the pairs counted in `*recentlyConverged`, for the statements only. -/
structure St where
  bs : ℕ
  recent : ℕ
  maxBlock : Int
  next : ℕ
  flags : List Flag
  iev : Arr
  xr : Arr
  nrm : Norms
  reset : Bool
  counted : List ℕ

/-- `a[k]` for the norms, in an array of `len` entries. -/
def rdN (len : ℕ) (a : Norms) (k : ℕ) : Outcome (ℕ × Bool) :=
  if k < len then
    match a k with
    | some v => .ok v
    | none => .ub
  else .ub

/-- main_iter.c:1614-1638: an unconverged pair stays in the block: its norm, index and columns are
moved from position `blki` to position `*blockSize`. -/
def keep (P : Par) (J : Job) (blki ip : ℕ) (v : ℕ × Bool) (s : St) : Outcome St :=
  if s.bs < P.maxBlockSize then
    if J.xrOn then
      if blki < J.cols ∧ s.bs < J.cols then
        .ok { s with nrm := fun t => if t = s.bs then some v else s.nrm t
                     iev := fun t => if t = s.bs then some ip else s.iev t
                     xr := fun t => if t = s.bs then s.xr blki else s.xr t
                     bs := s.bs + 1, next := ip + 1 }
      else .ub
    else .ok { s with nrm := fun t => if t = s.bs then some v else s.nrm t
                      iev := fun t => if t = s.bs then some ip else s.iev t
                      bs := s.bs + 1, next := ip + 1 }
  else .ub

/-- main_iter.c:1589-1613: a converged pair is counted.  Without locking `evals[iev[blki]]` and
`resNorms[iev[blki]]` are written; they have `numEvals` entries. -/
def count (P : Par) (J : Job) (ip : ℕ) (s : St) : Outcome St :=
  if ¬ P.locking ∧ P.numEvals ≤ ip then .ub
  else .ok { s with recent := s.recent + 1, counted := s.counted ++ [ip], next := ip + 1
                    maxBlock := min s.maxBlock ((P.numEvals : Int) + 1 - (s.recent + 1 : ℕ) - J.numConverged) }

/-- One turn of the loop of main_iter.c:1564-1643 for the pair at position `blki` of the block, to which
the convergence check gave the flag `f`.  `basisNorms` has `maxBasisSize` entries, as `flags`. -/
def visit (P : Par) (J : Job) (a : Ans) (f : Flag) (blki : ℕ) (s : St) : Outcome St := do
  let ip ← rd P.maxBlockSize s.iev blki
  let v ← rdN P.maxBlockSize s.nrm blki
  if ip < s.flags.length then
    let s := { s with flags := s.flags.set ip f }
    if P.side ∧ a.wrong ip then .ok { s with next := ip + 1 }
    else if f ≠ .unconverged ∧ s.recent < J.remained ∧ eligible P J.numLocked ip then count P J ip s
    else if f = .unconverged then keep P J blki ip v s
    else .ok { s with next := ip + 1 }
  else .ub

/-- main_iter.c:1564, `for (blki = *blockSize, i = 0; i < blockNormsSize && *blockSize < maxBlockSize;
i++, blki++)` with `m` turns left. -/
def visits (P : Par) (J : Job) (a : Ans) (r : ℕ) : ℕ → ℕ → ℕ → St → Outcome St
  | 0, _, _, s => .ok s
  | m + 1, i, blki, s =>
    if (s.bs : Int) < s.maxBlock then do
      let s ← visit P J a (a.check r i) blki s
      visits P J a r m (i + 1) (blki + 1) s
    else .ok s

/-- main_iter.c:1658-1660, the next candidates; `m` positions of the basis are left. -/
def cands (P : Par) (flags : List Flag) (maxBlock : Int) : ℕ → ℕ → ℕ → Arr → Outcome (Arr × ℕ)
  | 0, _, blki, iev => .ok (iev, blki)
  | m + 1, i, blki, iev =>
    if (blki : Int) < maxBlock then
      match flags[i]? with
      | none => .ub
      | some f =>
        if f = .unconverged then do
          let iev ← wr P.maxBlockSize iev blki i
          cands P flags maxBlock m (i + 1) (blki + 1) iev
        else cands P flags maxBlock m (i + 1) blki iev
    else .ok (iev, blki)

/-- main_iter.c:1667-1690: the hVecs are packed in the work arrays, and the columns `X`, `R` and the norms
of the candidates `bs ≤ k < blki` are computed.  The loop of lines 1687-1689, which raises the norms to
the error of the residuals, runs over `bs ≤ i < blockNormsSize` where `blockNormsSize = blki - bs`. -/
def compute (P : Par) (J : Job) (blki : ℕ) (s : St) : Outcome St :=
  if J.avail < blki - s.bs ∨ P.maxBlockSize < blki ∨ (J.xrOn ∧ J.cols < blki) then .ub
  else .ok { s with
    xr := fun k => if J.xrOn ∧ s.bs ≤ k ∧ k < blki then s.iev k else s.xr k
    nrm := fun k => if s.bs ≤ k ∧ k < blki then (s.iev k).map (fun i => (i, decide (k < blki - s.bs))) else s.nrm k }

/-- The loop `while (1)` of main_iter.c:1545-1702.  `bn` is `blockNormsSize`, `r` the number of the
round.  Without fuel the result is `ub`: `C42_terminates` shows that this never happens. -/
def rounds (P : Par) (J : Job) (a : Ans) : ℕ → ℕ → ℕ → St → Outcome St
  | 0, _, _, _ => .ub
  | fuel + 1, r, bn, s =>
    -- lines 1547-1554: `flagsBlock[i] = flags[iev[bs + i]]`
    if J.avail < bn then .ub
    else do
      let s := { s with reset := s.reset || a.bad r }
      let s ← visits P J a r bn 0 s.bs s
      let (iev, blki) ← cands P s.flags s.maxBlock (J.basisSize - s.next) s.next s.bs s.iev
      let s := { s with iev := iev }
      if blki = s.bs ∨ J.remained ≤ s.recent then .ok s
      else do
        let s ← compute P J blki s
        rounds P J a fuel (r + 1) (blki - s.bs) s

/-- The flags of the basis reordered by the map (main_iter.c:1541). -/
def remap (basisSize : ℕ) (map : ℕ → ℕ) (flags : List Flag) : List Flag :=
  (List.range flags.length).map (fun i => flags.getD (if i < basisSize then map i else i) .unconverged)

/-- `prepare_candidates`.  `bn` is the number of pairs, the first ones in `iev`, whose vectors and norms
are already in the block. -/
def prepare (P : Par) (J : Job) (a : Ans) (bn : ℕ) (flags : List Flag) (iev xr : Arr) (nrm : Norms) (reset : Bool) :
    Outcome St :=
  if flags.length < J.basisSize then .ub
  else rounds P J a (J.basisSize + 2) 0 bn
    { bs := 0, recent := 0, maxBlock := J.avail, next := 0, flags := remap J.basisSize a.map flags, iev, xr, nrm
      reset, counted := [] }

end Verif.Prepare
