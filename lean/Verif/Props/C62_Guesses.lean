import Verif.Props.C14_Results

/-! # C62: every initial guess is taken once, in order, and before its column is used for something else

The caller's array holds `numOrthoConst` constraints, then `initSize` guesses.  Results are written over the guesses: the pair locked
as number `i` goes to column `numOrthoConst + i`.  `C15_run` are the steps of the main iteration after the initial basis `r` was
built, `nextGuess` the first column whose guess was not taken, `numGuesses` how many are left (src/eigs/main_iter.c:642, 1103-1135).
A step that restarts locks pairs first and then copies columns `nextGuess ...` into the search space as guesses. -/

namespace Verif.Props
open Verif Verif.Eigs

variable {K : Type} [Field K] [LinearOrder K] [IsStrictOrderedRing K] {X : Type}

private theorem step_guesses {P : Main.Par} {a : Main.Ans} {s s' : Main.St} (ha : a.Ok) (hP : Main.Cfg P) (h : Main.Inv P s)
    (e : Main.step P a s = .ok s') : s'.nextGuess + s'.numGuesses = s.nextGuess + s.numGuesses ∧ s.nextGuess ≤ s'.nextGuess := by
  unfold Main.step at e
  cases hfail : a.fail with
  | some c =>
    rw [hfail] at e
    dsimp only at e
    split at e
    · cases e; exact ⟨rfl, Nat.le_refl _⟩
    · cases e
  | none =>
    rw [hfail] at e
    dsimp only at e
    cases hpc : s.pc with
    | outer =>
      rw [hpc] at e
      dsimp only at e
      unfold Main.outerStep at e
      split_ifs at e <;> cases e <;> exact ⟨rfl, Nat.le_refl _⟩
    | restart =>
      rw [hpc] at e
      dsimp only at e
      split_ifs at e <;> cases e <;> exact ⟨rfl, Nat.le_refl _⟩
    | inner =>
      rw [hpc] at e
      dsimp only at e
      split_ifs at e with hc
      · obtain ⟨k1, k2, k3, _⟩ := (Main.turn_turned hP h hpc hc.1 e).kept
        omega
      · cases e; exact ⟨rfl, Nat.le_refl _⟩
    | post =>
      rw [hpc] at e
      dsimp only at e
      obtain ⟨s'', e', _, s1, q, hcase⟩ := Main.after_cases (a := a) ha hP h hpc
      rw [e] at e'
      cases e'
      have c3 := q.same.guesses
      rcases hcase with ⟨_, rfl⟩ | ⟨_, _, r, k, m, x, _, hR, rfl, u1, u2, u3, _⟩
      · dsimp only; omega
      · dsimp only [Main.restarted]; omega
    | finish =>
      rw [hpc] at e
      dsimp only at e
      split_ifs at e with hl
      · cases e
        unfold Main.finishLocking
        dsimp only
        split <;> exact ⟨rfl, Nat.le_refl _⟩
      · rcases Main.finishPlain_cases e with ⟨_, _, rfl⟩ | ⟨hw, _, _, rfl⟩ <;> exact ⟨rfl, Nat.le_refl _⟩
    | done =>
      rw [hpc] at e
      cases e
      exact ⟨rfl, Nat.le_refl _⟩

private theorem run_succ {s : EP K} {ans : ℕ → Main.Ans} {b g n products k : ℕ} {st' : Main.St}
    (h : C15_run s ans b g n products (k + 1) = .ok st') :
    ∃ st, C15_run s ans b g n products k = .ok st ∧ Main.step (C16_par s) (ans k) st = .ok st' := by
  unfold C15_run Main.run at h
  cases e1 : Main.run (C16_par s) ans k (Main.start (C16_par s) b g n products) with
  | ub => rw [e1] at h; cases h
  | err c => rw [e1] at h; cases h
  | ok st => rw [e1, Outcome.bind_ok] at h; exact ⟨st, e1, h⟩

private theorem reached {meps : K} {a : Arrays} {s : EP K} {o : Init.Kernels X} {guess : ℕ → X} {r : Init.Res X}
    (hc : C15_Call meps a s o guess r) {products : ℕ} {ans : ℕ → Main.Ans} (hans : ∀ k, (ans k).Ok)
    {k : ℕ} {st : Main.St} (hst : C15_run s ans r.basisSize r.numGuesses r.nextGuess products k = .ok st) :
    Main.Inv (C16_par s) st := by
  obtain ⟨hP, h0⟩ := C15_inv hc products
  rcases Main.run_inv hP hans h0 k with ⟨t, e', hi⟩ | ⟨c, e', _⟩
  · have := hst.symm.trans e'; cases this; exact hi
  · have := hst.symm.trans e'; cases this

/-- Guesses are taken in the order given and each one once: those taken and those left are always all the guesses. -/
theorem C62_once (meps : K) (a : Arrays) (s : EP K) (o : Init.Kernels X) (guess : ℕ → X) (r : Init.Res X)
    (hc : C15_Call meps a s o guess r) (products : ℕ) (ans : ℕ → Main.Ans) (hans : ∀ k, (ans k).Ok)
    (k : ℕ) (st : Main.St) (hst : C15_run s ans r.basisSize r.numGuesses r.nextGuess products k = .ok st) :
    (st.nextGuess + st.numGuesses : Int) = s.i .numOrthoConst + s.i .initSize ∧ r.nextGuess ≤ st.nextGuess := by
  obtain ⟨hP, h0⟩ := C15_inv hc products
  induction k generalizing st with
  | zero =>
    cases hst
    obtain ⟨Q, hQ⟩ := hc.kernels
    have hb := C33_guesses_in_order meps a s hc.accepted hc.evals o Q hQ guess hc.covered.start r hc.built
    refine ⟨?_, Nat.le_refl _⟩
    show (r.nextGuess + r.numGuesses : Int) = _
    omega
  | succ k ih =>
    obtain ⟨st0, h1, h2⟩ := run_succ hst
    have := ih st0 h1
    have := step_guesses (hans k) hP (reached hc hans h1) h2
    omega

/-- As long as guesses are left, `minRestartSize` of them and one more for each locked pair were taken. -/
theorem C62_pace (meps : K) (a : Arrays) (s : EP K) (o : Init.Kernels X) (guess : ℕ → X) (r : Init.Res X)
    (hc : C15_Call meps a s o guess r) (products : ℕ) (ans : ℕ → Main.Ans) (hans : ∀ k, (ans k).Ok)
    (k : ℕ) (st : Main.St) (hst : C15_run s ans r.basisSize r.numGuesses r.nextGuess products k = .ok st) :
    st.numGuesses = 0 ∨ (s.i .locking ≠ 0 ∧
      (st.nextGuess : Int) = s.i .numOrthoConst + s.i .minRestartSize + st.numLocked) := by
  have hi := reached hc hans hst
  obtain ⟨h1, h2, h3, h4, h5, h6, h7, h8⟩ := C33_sizes meps a s hc.accepted hc.evals
  rcases hi.guesses with h | ⟨hl, _, h⟩
  · exact Or.inl h
  · refine Or.inr ⟨by simpa [C16_par] using hl, ?_⟩
    have e1 : ((C16_par s).minRestartSize : Int) = s.i .minRestartSize := by
      show ((s.i .minRestartSize).toNat : Int) = _
      omega
    have e2 : ((C16_par s).numOrthoConst : Int) = s.i .numOrthoConst := by
      show ((s.i .numOrthoConst).toNat : Int) = _
      omega
    rw [← e1, ← e2]
    exact_mod_cast h

/-- The columns copied as guesses in a step hold no locked pair, when the step locks at most `minRestartSize` pairs; this is so
in any step of a call with `numEvals <= minRestartSize`.  Missing: other calls, see `C62_taken_violated`. -/
theorem C62_taken_partial (meps : K) (a : Arrays) (s : EP K) (o : Init.Kernels X) (guess : ℕ → X) (r : Init.Res X)
    (hc : C15_Call meps a s o guess r) (products : ℕ) (ans : ℕ → Main.Ans) (hans : ∀ k, (ans k).Ok)
    (k : ℕ) (st st' : Main.St) (hst : C15_run s ans r.basisSize r.numGuesses r.nextGuess products k = .ok st)
    (hst' : C15_run s ans r.basisSize r.numGuesses r.nextGuess products (k + 1) = .ok st')
    (hfew : (st'.numLocked : Int) ≤ st.numLocked + s.i .minRestartSize ∨ s.i .numEvals ≤ s.i .minRestartSize) :
    ∀ j : ℕ, st.nextGuess ≤ j → j < st'.nextGuess → s.i .numOrthoConst + st'.numLocked ≤ j := by
  intro j h1 h2
  obtain ⟨hP, h0⟩ := C15_inv hc products
  obtain ⟨st0, e1, e2⟩ := run_succ hst'
  have := hst.symm.trans e1
  cases this
  have hstep := step_guesses (hans k) hP (reached hc hans hst) e2
  have hev := hc.evals
  have hl := (reached hc hans hst').locked
  have hE : ((C16_par s).numEvals : Int) = s.i .numEvals := by
    show ((s.i .numEvals).toNat : Int) = _
    omega
  rcases C62_pace meps a s o guess r hc products ans hans k st hst with h | ⟨_, h⟩
  · omega
  · rcases hfew with hf | hf <;> omega

/-- The first two candidates of any test are accepted, and everything before a restart. -/
def C62_many : Main.Ans :=
  { C16_calm with prep := ⟨id, fun _ i => if i < 2 then .converged else .unconverged, fun _ => false, fun _ => false⟩
                  check := fun _ => .converged }

theorem C62_many_ok : C62_many.Ok := ⟨C16_calm_ok.code, C16_calm_ok.retain⟩

/-- Basis, locked pairs, guesses left, next guess. -/
def C62_seen (o : Outcome Main.St) : Option (List ℕ) :=
  match o with
  | .ok s => some [s.basisSize, s.numLocked, s.numGuesses, s.nextGuess]
  | _ => none

theorem C62_found {o : Outcome Main.St} {l : List ℕ} (h : C62_seen o = some l) :
    ∃ st, o = .ok st ∧ [st.basisSize, st.numLocked, st.numGuesses, st.nextGuess] = l := by
  unfold C62_seen at h
  split at h
  · rename_i s
    exact ⟨s, rfl, by simpa using h⟩
  · cases h

/-- The call: five pairs, five guesses, `minRestartSize` 1, blocks of two, locking. -/
theorem C62_case : ∃ r, C15_Call 0 ⟨false, false, false⟩ (C16_store 5 8 1 2 5 1 2 1 0 0 1000 0) C33_kernels id r ∧ r.basisSize = 1 ∧
    r.numGuesses = 4 ∧ r.nextGuess = 1 :=
  ⟨_, ⟨by decide +kernel, by decide, ⟨by decide, by unfold C33_fits; decide, by decide, by right; decide⟩,
    ⟨_, C33_kernels_ok⟩, rfl⟩, by decide +kernel, by decide +kernel, by decide +kernel⟩

/-- Guesses are lost: four guesses are left in columns 1 to 4 when four pairs converge at once; they are written to columns 0 to 3,
and then columns 1 to 4 are copied into the search space as the guesses, three of them being locked pairs. -/
theorem C62_taken_violated : ∃ s : EP ℚ, ∃ r, C15_Call 0 ⟨false, false, false⟩ s C33_kernels id r ∧
    ∃ ans : ℕ → Main.Ans, (∀ k, (ans k).Ok) ∧ ∃ k st st',
      C15_run s ans r.basisSize r.numGuesses r.nextGuess r.basisSize k = .ok st ∧
      C15_run s ans r.basisSize r.numGuesses r.nextGuess r.basisSize (k + 1) = .ok st' ∧
      s.i .numOrthoConst = 0 ∧ st.numLocked = 0 ∧ st'.numLocked = 4 ∧ st.nextGuess = 1 ∧ st'.nextGuess = 5 := by
  obtain ⟨r, hc, b1, b2, b3⟩ := C62_case
  refine ⟨_, r, hc, fun k => if k < 4 then C16_calm else C62_many, fun k => by dsimp only; split; exacts [C16_calm_ok, C62_many_ok], 5, ?_⟩
  rw [b1, b2, b3]
  have h : C62_seen (C15_run (C16_store 5 8 1 2 5 1 2 1 0 0 1000 0) (fun k => if k < 4 then C16_calm else C62_many) 1 4 1 1 5) =
      some [4, 0, 4, 1] := by decide +kernel
  have h' : C62_seen (C15_run (C16_store 5 8 1 2 5 1 2 1 0 0 1000 0) (fun k => if k < 4 then C16_calm else C62_many) 1 4 1 1 6) =
      some [4, 4, 0, 5] := by decide +kernel
  obtain ⟨st, e1, e2⟩ := C62_found h
  obtain ⟨st', e3, e4⟩ := C62_found h'
  simp only [List.cons.injEq, and_true] at e2 e4
  exact ⟨st, st', e1, e3, by decide, e2.2.1, e4.2.1, e2.2.2.2, e4.2.2.2⟩

/-- The hypotheses of the theorems are met by the same call when the pairs converge one at a time: a guess is taken for each. -/
example : (List.range 14).map (fun k => C62_seen (C15_run (C16_store 5 8 1 2 5 1 2 1 0 0 1000 0) (fun _ => C62_many) 1 4 1 1 k)) =
    [some [1, 0, 4, 1], some [1, 0, 4, 1], some [1, 0, 4, 1], some [1, 0, 4, 1], some [1, 1, 3, 2], some [1, 1, 3, 2],
     some [1, 1, 3, 2], some [1, 2, 2, 3], some [1, 2, 2, 3], some [1, 2, 2, 3], some [1, 3, 1, 4], some [1, 3, 1, 4],
     some [1, 3, 1, 4], some [1, 4, 0, 5]] := by decide +kernel

end Verif.Props
