import Verif.Proofs.MainIterStop
import Verif.Props.C16_Sizes

/-!
# C15 — Iteration and product limits are respected

The solver stops: the number of outer iterations never exceeds `maxOuterIterations`, no new outer
iteration is started once `numMatvecs` reaches `maxMatvecs`, and the overshoot beyond `maxMatvecs` is
bounded by the work of one outer iteration.

The runs are those of `C16`.  The two clauses on outer iterations hold for any parameters and any answers.
The overshoot is bounded for the calls covered by `C16`; initial vectors, guesses and the verification at the end
are products that are spent besides those of the last outer iteration.  That the solver stops is proved
if `maxOuterIterations` is set, the basis never spans the whole space (without locking) or every restart
locks a pair or leaves room (with locking), and errors in the residuals are not found right after they
were recomputed.  Without these conditions it is false: `C15_stops_violated`.
-/

set_option linter.unusedSectionVars false
set_option linter.unusedVariables false

namespace Verif.Props
open Verif Verif.Eigs

variable {K : Type} [Field K] [LinearOrder K] [IsStrictOrderedRing K] {X : Type}

/-- The state of the main iteration after `k` steps, from an initial basis of `b` vectors with `g` guesses left, the next one
being the `next`-th, built at the cost of `products` products. -/
abbrev C15_run (s : EP K) (ans : ℕ → Main.Ans) (b g next products k : ℕ) : Outcome Main.St :=
  Main.run (C16_par s) ans k (Main.start (C16_par s) b g next products)

/-- Never more than `maxOuterIterations` outer iterations, if that is positive. -/
theorem C15_outer (s : EP K) (ans : ℕ → Main.Ans) (b g next products k : ℕ) (st : Main.St) (hO : 0 < s.i .maxOuterIterations)
    (hst : C15_run s ans b g next products k = .ok st) : (st.numOuter : Int) ≤ s.i .maxOuterIterations := by
  induction k generalizing st with
  | zero => cases hst; show ((0 : ℕ) : Int) ≤ _; omega
  | succ k ih =>
    unfold C15_run Main.run at hst
    cases h1 : Main.run (C16_par s) ans k (Main.start (C16_par s) b g next products) with
    | ub => rw [h1] at hst; cases hst
    | err c => rw [h1] at hst; cases hst
    | ok s1 =>
      rw [h1, Outcome.bind_ok] at hst
      have := ih s1 h1
      rcases Main.step_outer hst with h | ⟨h, hw⟩
      · omega
      · have := (Main.within_iff (P := C16_par s) hO s1).1 hw
        have h2 : (s1.numOuter : Int) < s.i .maxOuterIterations := this.2
        omega

/-- Once `maxMatvecs` is reached no outer iteration is started. -/
theorem C15_no_new (s : EP K) (ans : ℕ → Main.Ans) (b g next products k : ℕ) (st st' : Main.St)
    (hst : C15_run s ans b g next products k = .ok st) (hst' : C15_run s ans b g next products (k + 1) = .ok st')
    (hlim : s.i .maxMatvecs ≤ st.numMatvecs) : st'.numOuter = st.numOuter := by
  unfold C15_run at hst hst'
  unfold Main.run at hst'
  rw [hst, Outcome.bind_ok] at hst'
  rcases Main.step_outer hst' with h | ⟨h, hw⟩
  · exact h
  · unfold Main.within at hw
    rw [Bool.and_eq_true, decide_eq_true_iff] at hw
    have h2 : (st.numMatvecs : Int) < s.i .maxMatvecs := hw.1
    omega

/-- A call that the input check accepts, of the kind covered by `C16`, whose initial basis was built. -/
structure C15_Call (meps : K) (a : Arrays) (s : EP K) (o : Init.Kernels X) (guess : ℕ → X) (r : Init.Res X) : Prop where
  accepted : checkInput meps a s = 0
  evals : 0 < s.i .numEvals
  covered : C16_Covered s
  kernels : ∃ Orthonormal, Init.OrtOk o Orthonormal
  built : Init.initBasis (Init.ofParams s) o guess = .ok r

theorem C15_inv {meps : K} {a : Arrays} {s : EP K} {o : Init.Kernels X} {guess : ℕ → X} {r : Init.Res X}
    (hc : C15_Call meps a s o guess r) (products : ℕ) :
    Main.Cfg (C16_par s) ∧ Main.Inv (C16_par s) (Main.start (C16_par s) r.basisSize r.numGuesses r.nextGuess products) := by
  obtain ⟨Q, hQ⟩ := hc.kernels
  exact ⟨C16_cfg meps a s hc.accepted hc.evals hc.covered,
    C16_start meps a s hc.accepted hc.evals hc.covered o Q hQ guess r hc.built products⟩

/-- The total number of products: at most what the initial basis took, or less than `maxMatvecs` plus the products of
one outer iteration (`D` for the correction and one for each vector of the block) or of one verification of the basis, in
either case plus one for each guess left. -/
theorem C15_overshoot_partial (meps : K) (a : Arrays) (s : EP K) (o : Init.Kernels X) (guess : ℕ → X) (r : Init.Res X)
    (hc : C15_Call meps a s o guess r) (products D : ℕ) (ans : ℕ → Main.Ans) (hans : ∀ k, (ans k).Ok) (hD : ∀ k, (ans k).corr ≤ D)
    (k : ℕ) (st : Main.St) (hst : C15_run s ans r.basisSize r.numGuesses r.nextGuess products k = .ok st) :
    (st.numMatvecs : Int) ≤ products + r.numGuesses ∨
    (st.numMatvecs : Int) < s.i .maxMatvecs + max (D + s.i .maxBlockSize) (s.i .maxBasisSize) + r.numGuesses := by
  obtain ⟨hP, h0⟩ := C15_inv hc products
  obtain ⟨h1, h2, h3, h4, h5, h6, h7, h8⟩ := C33_sizes meps a s hc.accepted hc.evals
  have key : st.numGuesses ≤ r.numGuesses ∧ (((st.numMatvecs + st.numGuesses : ℕ) : Int) ≤ products + r.numGuesses ∨
      ((st.numMatvecs + st.numGuesses : ℕ) : Int) < s.i .maxMatvecs + max (D + s.i .maxBlockSize) (s.i .maxBasisSize) + r.numGuesses) := by
    induction k generalizing st with
    | zero => cases hst; exact ⟨Nat.le_refl _, Or.inl (by show ((products + r.numGuesses : ℕ) : Int) ≤ _; omega)⟩
    | succ k ih =>
      unfold C15_run Main.run at hst
      cases e1 : Main.run (C16_par s) ans k (Main.start (C16_par s) r.basisSize r.numGuesses r.nextGuess products) with
      | ub => rw [e1] at hst; cases hst
      | err c => rw [e1] at hst; cases hst
      | ok s1 =>
        rw [e1, Outcome.bind_ok] at hst
        obtain ⟨i1, i2⟩ := ih s1 e1
        have hi : Main.Inv (C16_par s) s1 := by
          rcases Main.run_inv hP hans h0 k with ⟨t, e', hi⟩ | ⟨c, e', _⟩
          · rw [e1] at e'; cases e'; exact hi
          · rw [e1] at e'; cases e'
        have p := Main.step_progress (hans k) hP hi hst
        have pg := p.guesses
        refine ⟨by omega, ?_⟩
        rcases p.cost with hcost | ⟨hw, hcost⟩
        · rcases i2 with i2 | i2
          · left; omega
          · right; omega
        · right
          have := hD k
          have hcost' : st.numMatvecs + st.numGuesses ≤ s1.numMatvecs + s1.numGuesses +
              max ((ans k).corr + (s.i .maxBlockSize).toNat) (s.i .maxBasisSize).toNat := hcost
          unfold Main.within at hw
          rw [Bool.and_eq_true, decide_eq_true_iff] at hw
          have hw' : (s1.numMatvecs : Int) < s.i .maxMatvecs := hw.1
          have hM : 0 ≤ s.i .maxBasisSize := by omega
          clear hc h0 hP hi hst e1 p ih hw hcost h7
          omega
  rcases key with ⟨_, h | h⟩
  · left; omega
  · right; omega

/-- Conditions under which the solver stops. -/
structure C15_Progress (s : EP K) (ans : ℕ → Main.Ans) (b g next products : ℕ) : Prop where
  /-- The number of outer iterations is limited. -/
  limited : 0 < s.i .maxOuterIterations
  /-- Right after residuals were recomputed, no error is found in them. -/
  calm : ∀ k st, C15_run s ans b g next products k = .ok st → st.sinceReset = 0 →
    (ans k).wsBad = false ∧ ∀ r, (ans k).prep2.bad r = false
  /-- Without locking the basis never spans the space.  With locking, there is room for the pairs that fail the second
  check, or no pair fails it. -/
  room : s.i .maxBasisSize + s.i .numOrthoConst < s.i .n ∧ (s.i .locking ≠ 0 →
    s.i .minRestartSize + s.i .restartingParams_maxPrevRetain + s.i .numEvals < s.i .maxBasisSize ∨
    ∀ k i, (ans k).check i ≠ .unconverged)

/-- The solver stops, and the number of passes through its loops is bounded by the limits set. -/
theorem C15_stops_partial (meps : K) (a : Arrays) (s : EP K) (o : Init.Kernels X) (guess : ℕ → X) (r : Init.Res X)
    (hc : C15_Call meps a s o guess r) (products : ℕ) (ans : ℕ → Main.Ans) (hans : ∀ k, (ans k).Ok)
    (hp : C15_Progress s ans r.basisSize r.numGuesses r.nextGuess products) :
    ∃ k : ℕ, (k : Int) ≤ 13 * (s.i .numEvals + s.i .maxOuterIterations + max 0 (s.i .maxMatvecs - products) + 1) ∧
      ((∃ st, C15_run s ans r.basisSize r.numGuesses r.nextGuess products k = .ok st ∧ st.pc = .done) ∨
       ∃ c, C15_run s ans r.basisSize r.numGuesses r.nextGuess products k = .err c) := by
  obtain ⟨hP, h0⟩ := C15_inv hc products
  obtain ⟨h1, h2, h3, h4, h5, h6, h7, h8⟩ := C33_sizes meps a s hc.accepted hc.evals
  have hO := hp.limited
  have hE := hc.evals
  obtain ⟨r1, r2⟩ := hp.room
  have hmr : s.i .minRestartSize + s.i .restartingParams_maxPrevRetain < s.i .maxBasisSize := by omega
  have hroomy : ∀ k, Main.Roomy (C16_par s) (ans k) := by
    intro k
    unfold Main.Roomy
    by_cases hl : s.i .locking ≠ 0
    · right
      rcases r2 hl with h | h
      · left
        refine ⟨decide_eq_true hl, ?_⟩
        show (s.i .minRestartSize).toNat + (s.i .restartingParams_maxPrevRetain).toNat + (s.i .numEvals).toNat < (s.i .maxBasisSize).toNat
        omega
      · right
        refine ⟨decide_eq_true hl, ?_, h k⟩
        show (s.i .minRestartSize).toNat < (s.i .maxBasisSize).toNat
        omega
    · left
      refine ⟨decide_eq_false hl, ?_, ?_⟩
      · show (s.i .maxBasisSize).toNat + (s.i .numOrthoConst).toNat < (s.i .n).toNat
        omega
      · show (s.i .minRestartSize).toNat < (s.i .maxBasisSize).toNat
        omega
  obtain ⟨k, hk, hres⟩ := Main.stops (P := C16_par s) (a := ans)
    (s0 := Main.start (C16_par s) r.basisSize r.numGuesses r.nextGuess products) hP hO (by show 0 < (s.i .numEvals).toNat; omega)
    (by show 0 < (s.i .maxBasisSize).toNat; omega) hans h0 (fun k st e => hp.calm k st e) (by
      intro k st st' e e' hpc hpc'
      have hi : Main.Inv (C16_par s) st := by
        rcases Main.run_inv hP hans h0 k with ⟨t, e', hi⟩ | ⟨c, e', _⟩
        · rw [e] at e'; cases e'; exact hi
        · rw [e] at e'; cases e'
      have est : Main.step (C16_par s) (ans k) st = .ok st' := by
        unfold Main.run at e'
        rwa [e, Outcome.bind_ok] at e'
      refine Main.after_room (hans k) hP hi hpc (hroomy k) ?_ hpc'
      unfold Main.step at est
      cases hf : (ans k).fail with
      | some c => rw [hf] at est; dsimp only at est; rw [if_neg (by rw [hpc]; decide)] at est; cases est
      | none => rw [hf] at est; dsimp only at est; rw [hpc] at est; exact est)
  refine ⟨k, ?_, hres⟩
  have hm := Main.minor_le (C16_par s) (Main.start (C16_par s) r.basisSize r.numGuesses r.nextGuess products)
  unfold Main.rank at hk
  have hb : Main.budget (C16_par s) (Main.start (C16_par s) r.basisSize r.numGuesses r.nextGuess products) =
      ((s.i .numEvals).toNat - 0) + (s.i .maxOuterIterations - (0 : ℕ)).toNat + (s.i .maxMatvecs - products).toNat := rfl
  rw [hb] at hk
  clear hroomy hres hb h0 hP
  omega

/-! ### Concrete cases -/

/-- A structure as in `C16_store`, with `n` rows. -/
def C15_store (n numEvals maxBasis minRestart maxBlock initSize locking mode proj target shifts maxMatvecs maxOuter : Int) : EP ℚ :=
  { C16_store numEvals maxBasis minRestart maxBlock initSize locking mode proj target shifts maxMatvecs maxOuter with
    i := fun f => match f with
      | .n => n | .nLocal => n | .ldevecs => n | .ldOPs => n
      | f => (C16_store numEvals maxBasis minRestart maxBlock initSize locking mode proj target shifts maxMatvecs maxOuter).i f }

/-- A call that meets the hypotheses: six outer iterations are allowed, and the run ends after eleven steps. -/
def C15_case : EP ℚ := C16_store 2 6 3 2 0 0 2 1 0 0 1000 6

theorem C15_case_call : ∃ r, C15_Call 0 ⟨false, false, false⟩ C15_case C33_kernels id r ∧ r.basisSize = 3 ∧ r.numGuesses = 0 ∧ r.nextGuess = 0 :=
  ⟨_, ⟨by decide +kernel, by decide, ⟨by decide, by unfold C33_fits; decide, by decide, by unfold C33_taken; decide⟩,
    ⟨_, C33_kernels_ok⟩, rfl⟩, by decide +kernel, by decide +kernel, by decide +kernel⟩


/-- Loop test, basis, outer iterations, products. -/
def C15_seen (o : Outcome Main.St) : Option (Main.Pc × List ℕ) :=
  match o with
  | .ok s => some (s.pc, [s.basisSize, s.numOuter, s.numMatvecs])
  | _ => none

example : (∀ k : ℕ, ((fun _ => C16_calm) k).Ok) ∧ C15_Progress C15_case (fun _ => C16_calm) 3 0 0 3 ∧
    (List.range 19).map (fun k => C15_seen (C15_run C15_case (fun _ => C16_calm) 3 0 0 3 k)) =
    [some (.outer, [3, 0, 3]), some (.restart, [3, 0, 3]), some (.inner, [3, 0, 3]), some (.inner, [5, 1, 6]), some (.inner, [6, 2, 8]),
     some (.post, [6, 2, 8]), some (.restart, [3, 2, 8]), some (.inner, [3, 2, 8]), some (.inner, [5, 3, 11]), some (.inner, [6, 4, 13]),
     some (.post, [6, 4, 13]), some (.restart, [3, 4, 13]), some (.inner, [3, 4, 13]), some (.inner, [5, 5, 16]), some (.inner, [6, 6, 18]),
     some (.post, [6, 6, 18]), some (.restart, [3, 6, 18]), some (.finish, [3, 6, 18]), some (.done, [3, 6, 18])] :=
  ⟨fun _ => C16_calm_ok, ⟨by decide, fun _ _ _ _ => ⟨rfl, fun _ => rfl⟩, by decide, fun h => absurd rfl h⟩, by decide +kernel⟩

/-- The products of the initial basis are not limited: with `maxMatvecs = 1` three products are spent without any outer iteration. -/
theorem C15_overshoot_violated : ∃ s : EP ℚ, ∃ r, C15_Call 0 ⟨false, false, false⟩ s C33_kernels id r ∧ s.i .maxMatvecs = 1 ∧
    ∃ st, C15_run s (fun _ => C16_calm) r.basisSize r.numGuesses r.nextGuess r.basisSize 1 = .ok st ∧ st.pc = .done ∧
      st.numOuter = 0 ∧ st.numMatvecs = 3 :=
  ⟨C16_store 2 6 3 2 0 0 2 1 0 0 1 6, _, ⟨by decide +kernel, by decide, ⟨by decide, by unfold C33_fits; decide, by decide,
    by unfold C33_taken; decide⟩, ⟨_, C33_kernels_ok⟩, rfl⟩, by decide, _, rfl, by decide +kernel, by decide +kernel, by decide +kernel⟩

/-- Four rows, at most four vectors in the basis, one pair wanted, no locking, at most twenty outer iterations. -/
def C15_full : EP ℚ := C15_store 4 1 4 2 1 0 0 2 1 0 0 1000 20

/-- What holds when the basis spans the space and no pair was accepted. -/
def C15_stuck (o : Outcome Main.St) : Bool :=
  match o with
  | .ok s => decide (s.basisSize = 4 ∧ s.numConverged = 0 ∧ (∀ f ∈ s.flags, f = .unconverged) ∧ s.wholeSpace = false ∧ s.reset = false ∧
      Main.within (C16_par C15_full) s = true ∧ s.pc = .restart ∧ s.numOuter = 2 ∧ s.numMatvecs = 6)
  | _ => false

/-- If the basis spans the space, without locking, and the convergence test does not accept the pairs, the solver
restarts for ever: no outer iteration is started, no product is spent, so neither limit is reached. -/
theorem C15_stops_violated : ∃ s : EP ℚ, ∃ r, C15_Call 0 ⟨false, false, false⟩ s C33_kernels id r ∧
    s.i .maxOuterIterations = 20 ∧ s.i .maxMatvecs = 1000 ∧
    ∃ ans : ℕ → Main.Ans, (∀ k, (ans k).Ok ∧ (ans k).fail = none ∧ (ans k).wsBad = false ∧ (∀ r, (ans k).prep2.bad r = false)) ∧
      ∀ k, ∃ st, C15_run s ans r.basisSize r.numGuesses r.nextGuess r.basisSize (6 + k) = .ok st ∧ st.pc ≠ .done ∧
        st.numOuter = 2 ∧ st.numMatvecs = 6 := by
  have hcall : ∃ r, C15_Call 0 ⟨false, false, false⟩ C15_full C33_kernels id r ∧ r.basisSize = 2 ∧ r.numGuesses = 0 ∧ r.nextGuess = 0 :=
    ⟨_, ⟨by decide +kernel, by decide, ⟨by decide, by unfold C33_fits; decide, by decide, by unfold C33_taken; decide⟩,
      ⟨_, C33_kernels_ok⟩, rfl⟩, by decide +kernel, by decide +kernel, by decide +kernel⟩
  obtain ⟨r, hc, b1, b2, b3⟩ := hcall
  refine ⟨C15_full, r, hc, by decide, by decide, fun _ => C16_calm, fun _ => ⟨C16_calm_ok, rfl, rfl, fun _ => rfl⟩, fun k => ?_⟩
  obtain ⟨hP, h0⟩ := C15_inv hc r.basisSize
  have h6 : C15_stuck (C15_run C15_full (fun _ => C16_calm) r.basisSize r.numGuesses r.nextGuess r.basisSize 6) = true := by
    rw [b1, b2, b3]
    decide +kernel
  rcases Main.run_inv hP (a := fun _ => C16_calm) (fun _ => C16_calm_ok) h0 6 with ⟨s6, e6, hi⟩ | ⟨c, e6, _⟩
  · unfold C15_run at h6
    rw [e6] at h6
    obtain ⟨g1, g2, g3, g4, g5, g6, g7, g8, g9⟩ := of_decide_eq_true h6
    have hst : Main.Stuck (C16_par C15_full) s6 :=
      ⟨hi, by rw [g1]; rfl, fun _ => g2, g3, g4, g5, g6, Or.inl g7, fun w => by rw [g7] at w; cases w⟩
    obtain ⟨st, e, hs, c1, c2⟩ := Main.stuck_run hP rfl (by decide) (by decide)
      (fun _ => ⟨C16_calm_ok, rfl, fun _ _ => rfl, rfl, fun _ => rfl⟩) 6 e6 hst k
    refine ⟨st, e, ?_, by omega, by omega⟩
    rcases hs.pc with h | h | ⟨h, _⟩ <;> rw [h] <;> decide
  · unfold C15_run at h6
    rw [e6] at h6
    cases h6

end Verif.Props
