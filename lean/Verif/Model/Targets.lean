import Mathlib.Data.Real.Basic

/-!
# Target shifts in the main iteration

Which shift the projected problem is ordered by (`solve_H_RR`) or factorised with (refined and harmonic extraction), and how many
pairs are accepted from it: src/eigs/main_iter.c:460, 527-535, 625-645, 844-850, 921-947, src/eigs/restart.c:1669-1685, 1880-1891,
2294, src/eigs/solve_projection.c:246.

Simplifications: what a test of convergence decides, when the basis is full, resets and the estimates of the norm are given from
outside (`Ev`); exact arithmetic; the targets are those that use shifts and `targetShifts` is not `NULL`; pairs accepted by the check
of `main_iter.c:738-786` are not followed.
-/

namespace Verif.Targets

/-- Parameters: `targetShifts` with its length `numTargetShifts`, `numEvals`, `locking`, whether the target is one of
`primme_closest_geq` and `primme_closest_leq`, whether the extraction keeps a QR factorisation (`numQR`) and is the harmonic one, and
what `machineEpsMatrix_Sprimme` gives. -/
structure Opts where
  shifts : List ℝ
  numEvals : ℕ
  locking : Bool
  side : Bool
  numQR : Bool
  harmonic : Bool
  eps : ℝ

/-- `numConverged`, `numLocked`, the index of the shift the Ritz pairs are ordered by, `targetShiftIndex`, and for each
accepted pair its number and the index of the shift of the problem it was taken from. -/
structure St where
  c : ℕ
  locked : ℕ
  ord : ℕ
  tsi : ℕ
  log : List (ℕ × ℕ)

/-- `targetShifts[k]`. -/
def Opts.shift (o : Opts) (k : ℕ) : ℝ := o.shifts.getD k 0

/-- `min(numTargetShifts-1, numConverged)`, solve_projection.c:246, restart.c:1676, 1885, 2294. -/
def idx (o : Opts) (c : ℕ) : ℕ := min (o.shifts.length - 1) c

/-- The shift of the problem the candidates come from. -/
def used (o : Opts) (s : St) : ℕ := if o.numQR then s.tsi else s.ord

/-- `m` pairs are accepted. -/
def accept (o : Opts) (m : ℕ) (s : St) : St :=
  { s with c := s.c + m, log := s.log ++ (List.range m).map fun k => (s.c + k, used o s) }

/-- `maxRecentlyConverged` in the inner loop, main_iter.c:527-535. -/
def limit (o : Opts) (s : St) : ℕ :=
  if s.c + 1 < o.shifts.length ∧ o.numQR then s.c - s.locked + 1 else o.numEvals - s.c

/-- `maxRecentlyConverged` before a restart without block, main_iter.c:926-940. -/
def limit2 (o : Opts) (s : St) : ℕ :=
  if s.c + 1 < o.shifts.length then
    (if o.locking then min o.numEvals (s.locked + 1) else min o.numEvals (s.c + 1)) - s.c
  else o.numEvals - s.c

/-- The conditions of main_iter.c:625-641 to leave the inner loop that look at shifts and at the number of pairs; `norm` is
`max(aNorm, estimateLargestSVal)`. -/
noncomputable def leave (o : Opts) (norm : ℝ) (s : St) : Bool :=
  decide (o.numEvals ≤ s.c) || (o.locking && decide (s.locked < s.c) && (!o.numQR || o.side)) ||
    (o.numQR && decide (norm ≤ |o.shift s.tsi - o.shift (idx o s.c)|))

/-- `restart_RR`, restart.c:1669-1685: the comparison is with the value of `||`, not with the difference. -/
noncomputable def restartRR (o : Opts) (norm : ℝ) (s : St) : St :=
  let t := idx o s.c
  let differ : ℝ := if |o.shift s.tsi - o.shift t| ≠ 0 then 1 else 0
  if o.eps * norm < differ then { s with tsi := t, ord := t } else s

/-- `restart_refined`, restart.c:1880-1891. -/
noncomputable def restartRefined (o : Opts) (norm : ℝ) (s : St) : St :=
  let t := idx o s.c
  if o.eps * norm < |o.shift s.tsi - o.shift t| then { s with tsi := t } else s

/-- `restart_harmonic`, restart.c:2294. -/
def restartHarmonic (o : Opts) (s : St) : St := { s with tsi := idx o s.c }

/-- A restart: with locking all the accepted pairs are locked. -/
noncomputable def restart (o : Opts) (norm : ℝ) (s : St) : St :=
  let s := if o.locking then { s with locked := s.c } else s
  if o.numQR then if o.harmonic then restartHarmonic o s else restartRefined o norm s else restartRR o norm s

/-- What happens: a turn of the inner loop that accepts `m` pairs, after which the loop may be left for another reason; the basis is
full and `m` pairs are accepted before the restart; guesses are added after a restart and the projected problem is solved again; the
basis is reset. -/
inductive Ev where
  | turn (m : ℕ) (other : Bool) (norm : ℝ)
  | full (m : ℕ) (norm : ℝ)
  | guesses
  | reset

/-- The projected problem is solved. -/
def solve (o : Opts) (s : St) : St := { s with ord := idx o s.c }

/-- One event, if it is possible. -/
noncomputable def step (o : Opts) (e : Ev) (s : St) : Option St :=
  match e with
  | .turn m other norm =>
    if s.c < o.numEvals ∧ m ≤ limit o s ∧ m ≤ o.numEvals - s.c then
      let s := accept o m s
      some (if leave o norm s || other then restart o norm s else solve o s)
    else none
  | .full m norm => if s.c < o.numEvals ∧ m ≤ limit2 o s then some (restart o norm (accept o m s)) else none
  | .guesses => some (solve o s)
  | .reset => some (solve o { s with c := s.locked, tsi := 0 })

/-- The start, main_iter.c:453-490. -/
def start : St := ⟨0, 0, 0, 0, []⟩

/-- A run. -/
noncomputable def run (o : Opts) : List Ev → St → Option St
  | [], s => some s
  | e :: l, s => (step o e s).bind (run o l)

end Verif.Targets
