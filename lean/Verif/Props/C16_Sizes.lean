import Verif.Proofs.MainIter
import Verif.Props.C33_InitBasis

/-!
# C16 — Search space never outgrows its allocation

At every point of the run the basis has at most `maxBasisSize` vectors, a block has at most
`maxBlockSize` vectors and the block fits in the remaining basis space, so no basis array is written
out of range.

The parameters are those of a structure accepted by the input check, the run starts with the basis that
`init_basis` built, and the numerical kernels and the user's functions answer anything allowed by their
contracts (`Main.Ans.Ok`): any pair may converge or lose convergence at any time, corrections may be
linearly dependent, any call may fail.  Reads and writes outside of arrays are the outcome `ub`.

Proved for: more than two rows, not more than one shift together with blocks and the QR factorisation, and,
if guesses are left for later, `maxBasisSize + numEvals + numOrthoConst ≤ n`.
-/

set_option linter.unusedSectionVars false
set_option linter.unusedVariables false

namespace Verif.Props
open Verif Verif.Eigs

variable {K : Type} [Field K] [LinearOrder K] [IsStrictOrderedRing K] {X : Type}

/-- The parameters of the main iteration, from the public structure. -/
def C16_par (s : EP K) : Main.Par where
  n := (s.i .n).toNat
  numEvals := (s.i .numEvals).toNat
  numOrthoConst := (s.i .numOrthoConst).toNat
  maxBasisSize := (s.i .maxBasisSize).toNat
  minRestartSize := (s.i .minRestartSize).toNat
  maxBlockSize := (s.i .maxBlockSize).toNat
  maxPrevRetain := (s.i .restartingParams_maxPrevRetain).toNat
  locking := decide (s.i .locking ≠ 0)
  side := decide (s.i .target = 2 ∨ s.i .target = 3)
  maxMatvecs := s.i .maxMatvecs
  maxOuter := s.i .maxOuterIterations
  numTargetShifts := (s.i .numTargetShifts).toNat
  numQR := decide (s.i .projectionParams_projection ≠ 1)
  interior := decide (s.i .target ≠ 0 ∧ s.i .target ≠ 1)

/-- Restrictions beyond those of the input check. -/
structure C16_Covered (s : EP K) : Prop where
  rows : 2 < s.i .n
  start : C33_fits s
  shifts : s.i .projectionParams_projection = 1 ∨ s.i .numTargetShifts ≤ 1 ∨ s.i .maxBlockSize ≤ 1
  guesses : s.i .initSize = C33_taken s ∨
    (s.i .locking ≠ 0 ∧ s.i .maxBasisSize + s.i .numEvals + s.i .numOrthoConst ≤ s.i .n)

/-- Further consequences of the input check. -/
theorem C16_checked (meps : K) (a : Arrays) (s : EP K) (hs : checkInput meps a s = 0) :
    ¬ (s.i .locking = 0 ∧ (s.i .target = 2 ∨ s.i .target = 3)) ∧
    ¬ (s.i .locking = 0 ∧ s.i .minRestartSize < s.i .numEvals ∧ s.i .n > 2) ∧ ¬ s.i .numEvals > s.i .n := by
  rw [C08_accepts_iff] at hs
  simp only [Doc.checks, List.forall_mem_cons] at hs
  obtain ⟨_, _, _, _, g3, _, _, _, _, _, _, _, _, _, _, _, _, _, _, _, _, _, _, _, g2, _, _, g1, _⟩ := hs
  exact ⟨g1, g2, g3⟩

theorem C16_cfg (meps : K) (a : Arrays) (s : EP K) (hs : checkInput meps a s = 0) (hE : 0 < s.i .numEvals)
    (hc : C16_Covered s) : Main.Cfg (C16_par s) := by
  have hrows := hc.rows
  have hsh := hc.shifts
  obtain ⟨h1, h2, h3, h4, h5, h6, h7, h8⟩ := C33_sizes meps a s hs hE
  obtain ⟨g1, g2, g3⟩ := C16_checked meps a s hs
  clear hs hc
  refine ⟨?_, ?_, ?_, ?_⟩
  · show 1 ≤ (s.i .maxBlockSize).toNat
    omega
  · show decide _ = true → decide _ = true
    rw [decide_eq_true_iff, decide_eq_true_iff]
    exact fun h w => g1 ⟨w, h⟩
  · show decide _ = false → (s.i .numEvals).toNat ≤ (s.i .minRestartSize).toNat ∧ (s.i .numEvals).toNat ≤ (s.i .maxBasisSize).toNat
    rw [decide_eq_false_iff_not]
    clear g1 hsh
    intro h
    have h' : s.i .locking = 0 := by omega
    clear h
    omega
  · show decide _ = true → (s.i .numTargetShifts).toNat ≤ 1 ∨ (s.i .maxBlockSize).toNat ≤ 1
    rw [decide_eq_true_iff]
    clear g1 g2
    omega

/-- The run begins with the basis that was built. -/
theorem C16_start (meps : K) (a : Arrays) (s : EP K) (hs : checkInput meps a s = 0) (hE : 0 < s.i .numEvals)
    (hc : C16_Covered s) (o : Init.Kernels X) (Orthonormal : Init.Cols X → ℕ → Prop) (ho : Init.OrtOk o Orthonormal)
    (guess : ℕ → X) (r : Init.Res X) (hr : Init.initBasis (Init.ofParams s) o guess = .ok r) (products : ℕ) :
    Main.Inv (C16_par s) (Main.start (C16_par s) r.basisSize r.numGuesses r.nextGuess products) := by
  have hsz := C33_size meps a s hs hE o Orthonormal ho guess hc.start r hr
  obtain ⟨_, hn, hg⟩ := C33_guesses_in_order meps a s hs hE o Orthonormal ho guess hc.start r hr
  obtain ⟨h1, h2, h3, h4, h5, h6, h7, h8⟩ := C33_sizes meps a s hs hE
  have hgs := hc.guesses
  refine Main.start_inv ?_ ?_ ?_
  · show r.basisSize ≤ (s.i .maxBasisSize).toNat
    omega
  · show r.basisSize + (s.i .numOrthoConst).toNat ≤ (s.i .n).toNat
    omega
  · show r.numGuesses = 0 ∨ (decide _ = true ∧ (s.i .maxBasisSize).toNat + (s.i .numEvals).toNat + (s.i .numOrthoConst).toNat ≤ (s.i .n).toNat ∧
      r.nextGuess = (s.i .numOrthoConst).toNat + (s.i .minRestartSize).toNat)
    rw [decide_eq_true_iff]
    rcases hgs with h | ⟨h, h'⟩
    · left; omega
    · by_cases hz : r.numGuesses = 0
      · exact Or.inl hz
      · right
        refine ⟨h, by omega, ?_⟩
        unfold C33_taken at hn hg
        rw [if_neg h] at hn hg
        omega

/-- No array is accessed out of range, at any point of any run. -/
theorem C16_safe_partial (meps : K) (a : Arrays) (s : EP K) (hs : checkInput meps a s = 0) (hE : 0 < s.i .numEvals)
    (hc : C16_Covered s) (o : Init.Kernels X) (Orthonormal : Init.Cols X → ℕ → Prop) (ho : Init.OrtOk o Orthonormal)
    (guess : ℕ → X) (r : Init.Res X) (hr : Init.initBasis (Init.ofParams s) o guess = .ok r) (products : ℕ)
    (ans : ℕ → Main.Ans) (hans : ∀ k, (ans k).Ok) (k : ℕ) :
    Main.run (C16_par s) ans k (Main.start (C16_par s) r.basisSize r.numGuesses r.nextGuess products) ≠ .ub := by
  intro hcon
  rcases Main.run_inv (C16_cfg meps a s hs hE hc) hans (C16_start meps a s hs hE hc o Orthonormal ho guess r hr products) k with
    ⟨s', e, _⟩ | ⟨c, e, _⟩
  · rw [hcon] at e; cases e
  · rw [hcon] at e; cases e

/-- The sizes at every point of every run. -/
theorem C16_sizes_partial (meps : K) (a : Arrays) (s : EP K) (hs : checkInput meps a s = 0) (hE : 0 < s.i .numEvals)
    (hc : C16_Covered s) (o : Init.Kernels X) (Orthonormal : Init.Cols X → ℕ → Prop) (ho : Init.OrtOk o Orthonormal)
    (guess : ℕ → X) (r : Init.Res X) (hr : Init.initBasis (Init.ofParams s) o guess = .ok r) (products : ℕ)
    (ans : ℕ → Main.Ans) (hans : ∀ k, (ans k).Ok) (k : ℕ) (st : Main.St)
    (hst : Main.run (C16_par s) ans k (Main.start (C16_par s) r.basisSize r.numGuesses r.nextGuess products) = .ok st) :
    (st.basisSize : Int) ≤ s.i .maxBasisSize ∧
    (st.basisSize : Int) + st.numLocked + s.i .numOrthoConst ≤ s.i .n ∧
    (st.numLocked : Int) ≤ s.i .numEvals ∧
    (st.pc = .restart ∨ st.pc = .inner →
      (st.blockSize : Int) ≤ s.i .maxBlockSize ∧ (st.basisSize : Int) + st.blockSize ≤ s.i .maxBasisSize ∧
      st.blockSize ≤ st.basisSize ∧ (st.numConverged : Int) ≤ s.i .numEvals) := by
  obtain ⟨h1, h2, h3, h4, h5, h6, h7, h8⟩ := C33_sizes meps a s hs hE
  have hM : 0 ≤ s.i .maxBasisSize := by omega
  rcases Main.run_inv (C16_cfg meps a s hs hE hc) hans (C16_start meps a s hs hE hc o Orthonormal ho guess r hr products) k with
    ⟨s', e, hi⟩ | ⟨c, e, _⟩
  · rw [hst] at e
    cases e
    have q1 : st.basisSize ≤ (s.i .maxBasisSize).toNat := hi.fits
    have q2 : st.basisSize + st.numLocked + (s.i .numOrthoConst).toNat ≤ (s.i .n).toNat := hi.dim
    have q3 : st.numLocked ≤ (s.i .numEvals).toNat := hi.locked
    refine ⟨by omega, by omega, by omega, fun hp => ?_⟩
    have hh := hi.here
    unfold Main.AtPc at hh
    have hb : st.numConverged ≤ (C16_par s).numEvals ∧ Main.Block (C16_par s) st := by
      rcases hp with hp | hp <;> rw [hp] at hh <;> exact ⟨hh.2.1, hh.2.2.2⟩
    have w1 : st.blockSize ≤ (s.i .maxBlockSize).toNat := hb.2.le
    have w2 : st.basisSize + st.blockSize ≤ (s.i .maxBasisSize).toNat := hb.2.fits
    have w3 : st.numConverged ≤ (s.i .numEvals).toNat := hb.1
    exact ⟨by omega, by omega, hb.2.small, by omega⟩
  · rw [hst] at e; cases e

/-! ### Concrete cases -/

/-- A structure over the rationals with a hundred rows. -/
def C16_store (numEvals maxBasis minRestart maxBlock initSize locking mode proj target shifts maxMatvecs maxOuter : Int) : EP ℚ where
  i := fun f => match f with
    | .n => 100 | .nLocal => 100 | .numProcs => 1 | .numEvals => numEvals | .maxBasisSize => maxBasis
    | .minRestartSize => minRestart | .maxBlockSize => maxBlock | .initSize => initSize | .locking => locking
    | .initBasisMode => mode | .ldevecs => 100 | .ldOPs => 100 | .projectionParams_projection => proj | .target => target
    | .numTargetShifts => shifts | .maxMatvecs => maxMatvecs | .maxOuterIterations => maxOuter | _ => 0
  d := fun _ => 0
  p := fun f => match f with | .matrixMatvec => 1 | .targetShifts => 1 | _ => 0
  addr := fun _ => 0
  seed := fun _ => 0

/-- Nothing ever converges, all corrections are independent, nothing fails. -/
def C16_calm : Main.Ans where
  fail := none
  prep := ⟨id, fun _ _ => .unconverged, fun _ => false, fun _ => false⟩
  prep2 := ⟨id, fun _ _ => .unconverged, fun _ => false, fun _ => false⟩
  far := false
  corr := 1
  gd := false
  orth := fun _ => 100
  pract := fun _ => .unconverged
  practBad := false
  qrOk := true
  refErr := false
  wsBad := false
  retain := fun _ _ _ => 0
  moved := fun _ => false
  check := fun _ => .converged
  guess := 100
  wrong := fun _ => false
  verify := fun _ => .converged

/-- The first pair of the block converges. -/
def C16_hit : Main.Ans :=
  { C16_calm with prep := ⟨id, fun r i => if r ≤ 1 ∧ i = 0 then .converged else .unconverged, fun _ => false, fun _ => false⟩ }

theorem C16_calm_ok : C16_calm.Ok :=
  ⟨fun c h => by simp [C16_calm] at h, fun b ip asked h => ⟨Int.le_refl _, h, fun h => absurd h (by simp [C16_calm])⟩⟩

theorem C16_hit_ok : C16_hit.Ok := ⟨C16_calm_ok.code, C16_calm_ok.retain⟩

/-- Place and sizes: loop test, basis, block, converged, locked, guesses left, products. -/
def C16_seen (o : Outcome Main.St) : Option (Main.Pc × List ℕ) :=
  match o with
  | .ok s => some (s.pc, [s.basisSize, s.blockSize, s.numConverged, s.numLocked, s.numGuesses, s.numMatvecs])
  | _ => none

/-- Whether an access out of range happened. -/
def C16_bad (o : Outcome Main.St) : Bool :=
  match o with
  | .ub => true
  | _ => false

/-- A case that meets the hypotheses: locking, ten guesses of which six are left for later, restarts at size 4, blocks of three,
at most eight vectors; a pair converges in the first outer iteration and is locked at the restart, where a guess takes its place. -/
def C16_case : EP ℚ := C16_store 10 8 4 3 10 1 2 1 0 0 1000 0

example : checkInput 0 ⟨false, false, false⟩ C16_case = 0 ∧ C16_Covered C16_case ∧
    ∃ r, Init.initBasis (Init.ofParams C16_case) C33_kernels id = .ok r ∧ r.basisSize = 4 ∧ r.numGuesses = 6 ∧ r.nextGuess = 4 ∧
    (List.range 10).map (fun k => C16_seen (Main.run (C16_par C16_case) (fun k => if k = 2 then C16_hit else C16_calm) k
      (Main.start (C16_par C16_case) 4 6 4 4))) =
    [some (.outer, [4, 0, 0, 0, 6, 4]), some (.restart, [4, 0, 0, 0, 6, 4]), some (.inner, [4, 0, 0, 0, 6, 4]),
     some (.inner, [7, 0, 1, 0, 6, 8]), some (.inner, [8, 0, 1, 0, 6, 10]), some (.post, [8, 0, 1, 0, 6, 10]),
     some (.restart, [4, 3, 1, 1, 5, 11]), some (.inner, [4, 3, 1, 1, 5, 11]), some (.inner, [7, 0, 1, 1, 5, 15]),
     some (.inner, [8, 0, 1, 1, 5, 17])] :=
  ⟨by decide +kernel, ⟨by decide, by unfold C33_fits; decide, by decide, by unfold C33_taken; decide⟩, _, rfl, by decide +kernel,
    by decide +kernel, by decide +kernel, by decide +kernel⟩

/-- Several shifts, blocks of two and the harmonic projection, which the input check accepts: a pair converges, the
check at the restart rejects it, and the block of two that the restart chose is larger than the one that the inner loop
has room for.  The work array `flagsBlock` is written out of range. -/
theorem C16_safe_violated : ∃ s : EP ℚ, checkInput 0 ⟨false, false, false⟩ s = 0 ∧ 0 < s.i .numEvals ∧ 2 < s.i .n ∧
    C33_fits s ∧ ∃ r, Init.initBasis (Init.ofParams s) C33_kernels id = .ok r ∧ r.numGuesses = 0 ∧
    ∃ ans : ℕ → Main.Ans, (∀ k, (ans k).Ok) ∧
      Main.run (C16_par s) ans 6 (Main.start (C16_par s) r.basisSize r.numGuesses r.nextGuess r.basisSize) = .ub := by
  refine ⟨C16_store 3 7 3 2 0 1 2 2 4 2 1000 0, by decide +kernel, by decide, by decide, by unfold C33_fits; decide, _, rfl, by decide +kernel,
    fun k => { C16_hit with check := fun _ => .unconverged }, fun k => ⟨C16_calm_ok.code, C16_calm_ok.retain⟩, ?_⟩
  have h : C16_bad (Main.run (C16_par (C16_store 3 7 3 2 0 1 2 2 4 2 1000 0)) (fun k => { C16_hit with check := fun _ => .unconverged }) 6
      (Main.start (C16_par (C16_store 3 7 3 2 0 1 2 2 4 2 1000 0)) 3 0 0 3)) = true := by decide +kernel
  unfold C16_bad at h
  split at h
  · assumption
  · cases h

end Verif.Props
