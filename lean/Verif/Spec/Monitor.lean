import Verif.Model.Monitor

/-!
# What a report of the singular value solver should say

Written from the manual (readme.txt, `primme_svds_params.monitorFun`) and from the definition of a
singular triplet, without reference to the routines that prepare the report.
-/

namespace Verif.Spec

open Verif.Mon

section
variable {K : Type} [Field K] [LinearOrder K] [IsStrictOrderedRing K]

/-- Square root. -/
def IsSqrt (f : K → K) : Prop := ∀ x, 0 ≤ x → 0 ≤ f x ∧ f x * f x = x

/-- `σ` is the singular value that the eigenvalue `x` of the operator stands for: the eigenvalues of
`A'A` and `AA'` are the squares, those of the augmented operator are the values with either sign. -/
def IsSvalOf (op : Op) (σ x : K) : Prop :=
  0 ≤ σ ∧ match op with
    | .AtA | .AAt => σ * σ = |x|
    | .augmented => σ = |x|
    | .none => False

/-- `ρ` is the residual norm of the triplet with singular value `σ`, when `r` is the residual norm of the
eigenpair. -/
def IsNormOf (op : Op) (σ r ρ : K) : Prop :=
  match op with
  | .AtA | .AAt => ρ * σ = r
  | .augmented => 0 ≤ ρ ∧ ρ * ρ = 2 * (r * r)
  | .none => False

/-- The first `n` entries from a pointer. -/
def leading {α : Type} (p : Ptr α) (n : Nat) : List α := (p.arr.drop p.off.toNat).take n

/-- What a report is about: the pairs (eigenvalue, residual norm) in the basis and the locked ones, the
state of each, the positions in the basis of the pairs being treated, the event, and the number of
converged pairs when the manual promises it. -/
structure About (K : Type) where
  basis : List (K × K)
  basisFlags : List Int
  block : List Int
  locked : List (K × K)
  lockedFlags : List Int
  event : Event
  numConverged : Option Int

/-- The subject of the report at each place of a run of the eigensolver. -/
def about (r : Run K) : Site → About K
  | .outer => ⟨(r.hVals.take r.basisSize).zip (r.basisNorms.take r.basisSize), r.flags.take r.basisSize,
      r.iev.take r.blockSize, (leading r.evals r.numLocked).zip (leading r.resNorms r.numLocked),
      r.lockedFlags.take r.numLocked, .outer, some r.numConverged⟩
  | .converged b => ⟨(r.hVals.take r.basisSize).zip (r.basisNorms.take r.basisSize),
      r.flags.take r.basisSize, (r.iev.drop b).take 1, [], [], .converged, some r.numConverged⟩
  | .locked => ⟨[], [], [], (leading r.evals r.numLocked).zip (leading r.resNorms r.numLocked),
      r.lockedFlags.take r.numLocked, .locked, none⟩
  | .inner | .innerAdaptive => ⟨[(r.evalr, r.resr)], [0], [0], [], [], .inner, none⟩
  | .message _ => ⟨[], [], [], [], [], .message, none⟩
  | .profile _ => ⟨[], [], [], [], [], .profile, none⟩

/-- The first of two stages has no locked triplets: what is locked in the eigensolver is shown in front
of the basis, and locking a pair is shown as its convergence. -/
def About.asConverged (a : About K) : About K where
  basis := a.locked ++ a.basis
  basisFlags := a.lockedFlags ++ a.basisFlags
  block := if a.event = .locked then [a.locked.length - 1] else a.block.map (· + a.locked.length)
  locked := []
  lockedFlags := []
  event := if a.event = .locked then .converged else a.event
  numConverged := a.numConverged

/-- In the second stage the triplets already found stand in front of the locked ones, as converged. -/
def About.after (earlier : List (K × K)) (a : About K) : About K :=
  { a with locked := earlier ++ a.locked, lockedFlags := earlier.map (fun _ => 2) ++ a.lockedFlags }

/-- The triplets already found, in front of where the eigensolver of the second stage puts its pairs; they
are shown wherever the locked pairs are. -/
def found (r : Run K) : Site → List (K × K)
  | .outer | .locked => (r.evals.arr.take r.evals.off.toNat).zip (r.resNorms.arr.take r.resNorms.off.toNat)
  | _ => []

/-- The statistics of the singular value solver while the eigensolver runs: each of its products is one
with the matrix and one with the transpose. -/
def running (before now : Stats K) : Stats K where
  numOuterIterations := before.numOuterIterations + now.numOuterIterations
  numRestarts := before.numRestarts + now.numRestarts
  numMatvecs := before.numMatvecs + 2 * now.numMatvecs
  numPreconds := before.numPreconds + now.numPreconds
  numGlobalSum := before.numGlobalSum + now.numGlobalSum
  numBroadcast := before.numBroadcast + now.numBroadcast
  volumeGlobalSum := before.volumeGlobalSum + now.volumeGlobalSum
  volumeBroadcast := before.volumeBroadcast + now.volumeBroadcast
  numOrthoInnerProds := before.numOrthoInnerProds + now.numOrthoInnerProds
  elapsedTime := before.elapsedTime + now.elapsedTime
  timeMatvec := before.timeMatvec + now.timeMatvec
  timePrecond := before.timePrecond + now.timePrecond
  timeOrtho := before.timeOrtho + now.timeOrtho
  timeGlobalSum := before.timeGlobalSum + now.timeGlobalSum
  timeBroadcast := before.timeBroadcast + now.timeBroadcast
  lockingIssue := before.lockingIssue + now.lockingIssue

/-- `n` entries can be read from the pointer. -/
def Readable {α : Type} (p : Ptr α) (n : Nat) : Prop := 0 ≤ p.off ∧ p.off.toNat + n ≤ p.arr.length

/-- The solver's data at the place of the report: its arrays hold what its counters say. -/
structure Valid (r : Run K) (site : Site) : Prop where
  vals : r.basisSize ≤ r.hVals.length
  norms : r.basisSize ≤ r.basisNorms.length
  flags : r.basisSize ≤ r.flags.length
  block : r.blockSize ≤ r.iev.length
  inBasis : ∀ x ∈ r.iev.take r.blockSize, 0 ≤ x ∧ x < r.basisSize
  evals : Readable r.evals r.numLocked
  resNorms : Readable r.resNorms r.numLocked
  lockedFlags : r.numLocked ≤ r.lockedFlags.length
  newest : site = .locked → 0 < r.numLocked
  member : ∀ b, site = .converged b → b < r.blockSize
  tau : 0 ≤ r.tau

/-- `n` is the length of the list and its entries can be read; a NULL pointer gives nothing. -/
def Gives {α : Type} (p : Option (Ptr α)) (n : Int) (l : List α) : Prop :=
  n = l.length ∧ match p with
    | none => l = []
    | some q => Readable q n.toNat ∧ leading q n.toNat = l

/-- Every pair has its own singular value in the list. -/
def Values (op : Op) (cast : K → K) (svals : List (Option K)) (ps : List (K × K)) : Prop :=
  ∀ (i : Nat) (p : K × K), ps[i]? = some p →
    ∃ σ, svals[i]? = some (some (cast σ)) ∧ IsSvalOf op σ p.1

/-- Every pair has its own singular value and residual norm in the lists. -/
def Describes (op : Op) (cast : K → K) (svals norms : List (Option K)) (ps : List (K × K)) : Prop :=
  ∀ (i : Nat) (p : K × K), ps[i]? = some p →
    ∃ σ ρ, svals[i]? = some (some (cast σ)) ∧ norms[i]? = some (some (cast ρ)) ∧
      IsSvalOf op σ p.1 ∧ (σ ≠ 0 → IsNormOf op σ p.2 ρ)

/-- The announced lengths are the lengths of the arrays and the numbers of pairs; values, states, block
and event are those of the subject; the block is part of the basis. -/
structure Tells (op : Op) (cast : K → K) (R : SvReport K) (a : About K) : Prop where
  basisSize : R.basisSize = a.basis.length
  svals : R.basisSvals.length = a.basis.length
  norms : R.basisNorms.length = a.basis.length
  numLocked : R.numLocked = a.locked.length
  lockedSvals : R.lockedSvals.length = a.locked.length
  lockedNorms : R.lockedNorms.length = a.locked.length
  basisFlags : Gives R.basisFlags R.basisSize a.basisFlags
  lockedFlags : Gives R.lockedFlags R.numLocked a.lockedFlags
  block : Gives R.iblock R.blockSize a.block
  inBasis : ∀ x ∈ a.block, 0 ≤ x ∧ x < R.basisSize
  basisValues : Values op cast R.basisSvals a.basis
  lockedValues : Values op cast R.lockedSvals a.locked
  event : R.event = a.event
  numConverged : ∀ n, a.numConverged = some n → R.numConverged = n

/-- The report to the eigensolver's monitor: the announced lengths, with the values, norms and states of
the pairs. -/
structure EigTells (R : EigReport K) (a : About K) : Prop where
  basis : R.basisEvals = none ∧ R.basisNorms = none ∧ a.basis = [] ∨
    ∃ x y, R.basisEvals = some x ∧ R.basisNorms = some y ∧ R.basisSize = some (a.basis.length : Int) ∧
      Readable x a.basis.length ∧ Readable y a.basis.length ∧
      (leading x a.basis.length).zip (leading y a.basis.length) = a.basis
  locked : R.lockedEvals = none ∧ R.lockedNorms = none ∧ a.locked = [] ∨
    ∃ x y, R.lockedEvals = some x ∧ R.lockedNorms = some y ∧ R.numLocked = some (a.locked.length : Int) ∧
      Readable x a.locked.length ∧ Readable y a.locked.length ∧
      (leading x a.locked.length).zip (leading y a.locked.length) = a.locked
  basisFlags : Gives R.basisFlags a.basis.length a.basisFlags
  lockedFlags : Gives R.lockedFlags a.locked.length a.lockedFlags
  block : Gives R.iblock (R.blockSize.getD 0) a.block
  inBasis : ∀ x ∈ a.block, 0 ≤ x ∧ x < a.basis.length
  event : R.event = a.event
  numConverged : ∀ n, a.numConverged = some n → R.numConverged = some n

/-- The announced numbers of pairs, also when no array is given. -/
structure Counts (R : EigReport K) (a : About K) : Prop where
  basisSize : R.basisSize.getD 0 = a.basis.length
  numLocked : R.numLocked.getD 0 = a.locked.length

/-- The routine calls the user's monitor exactly with the report `R` and the structure `seen`, hands on
whether it failed, and after a success leaves the structure as the monitor left it with the statistics
`stats`. -/
def Reports (f : Option (Monitor K) → Outcome (Sv K × Int)) (R : SvReport K) (seen : Sv K)
    (stats : Stats K) : Prop :=
  ∀ user : Monitor K, ∃ v', f (some user) = .ok (v', if (user R seen).2 = 0 then 0 else 1) ∧
    ((user R seen).2 = 0 → v' = { (user R seen).1 with stats := stats })

end

end Verif.Spec
