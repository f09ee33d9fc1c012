import Verif.Proofs.MainIterRet
import Verif.Props.C15_Limits

set_option linter.unusedVariables false

/-! # C14: what the call reports agrees with what it hands back

`C15_Call` is an accepted call, not a Hermitian one with several shifts (`C16_Covered`), whose initial basis was built.  `st` is a
state of the main iteration in which it has returned (`pc = done`).  `st.initSize` and `st.ret` are what `primme` reports;
`handBack cast st t` is what the caller finds in entry `t` of an output array, whose type is the working precision
(`cast = false`) or not (`cast = true`): a locked pair, the pair `i` of the last projected problem, a column that holds no pair, or
what the caller had there.  Calls that fail before the main iteration report no pair: `C12_failed_call_reports_none`. -/

namespace Verif.Props
open Verif Verif.Eigs

variable {K : Type} [Field K] [LinearOrder K] [IsStrictOrderedRing K] {X : Type}

theorem C14_ledger {meps : K} {a : Arrays} {s : EP K} {o : Init.Kernels X} {guess : ℕ → X} {r : Init.Res X}
    (hc : C15_Call meps a s o guess r) (products : ℕ) (ans : ℕ → Main.Ans) (hans : ∀ k, (ans k).Ok)
    (k : ℕ) (st : Main.St) (hst : C15_run s ans r.basisSize r.numGuesses r.nextGuess products k = .ok st) :
    Main.Ledger (C16_par s) (fun v => ∃ j, j < k ∧ v = (ans j).verify) st := by
  obtain ⟨hP, h0⟩ := C15_inv hc products
  exact Main.run_ledger hP hans h0 Main.start_ledger k st hst

/-- The reported number of pairs is at most `numEvals`, and no entry from `numEvals` on is written. -/
theorem C14_size_partial (meps : K) (a : Arrays) (s : EP K) (o : Init.Kernels X) (guess : ℕ → X) (r : Init.Res X)
    (hc : C15_Call meps a s o guess r) (products : ℕ) (ans : ℕ → Main.Ans) (hans : ∀ k, (ans k).Ok)
    (k : ℕ) (st : Main.St) (hst : C15_run s ans r.basisSize r.numGuesses r.nextGuess products k = .ok st) (hd : st.pc = .done)
    (cast : Bool) :
    (st.initSize : Int) ≤ s.i .numEvals ∧ (st.numRet : Int) ≤ s.i .numEvals ∧
    ∀ t : ℕ, s.i .numEvals ≤ t → Main.handBack cast st t = .untouched := by
  have hL := C14_ledger hc products ans hans k st hst
  obtain ⟨hP, h0⟩ := C15_inv hc products
  have hi : Main.Inv (C16_par s) st := by
    rcases Main.run_inv hP hans h0 k with ⟨t, e', hi⟩ | ⟨c, e', _⟩
    · have := hst.symm.trans e'; cases this; exact hi
    · have := hst.symm.trans e'; cases this
  have hev := hc.evals
  have hE : ((C16_par s).numEvals : Int) = s.i .numEvals := by
    show ((s.i .numEvals).toNat : Int) = _
    omega
  have hlk := hi.locked
  have hs := hL.soft
  have hout : ∀ t : ℕ, s.i .numEvals ≤ t → st.out t = .untouched ∧ st.numRet ≤ (C16_par s).numEvals := by
    intro t ht
    have ht' : (C16_par s).numEvals ≤ t := by omega
    cases hL.final hd with
    | limit f1 f2 f3 => rw [f3 t, if_neg (by omega), f1]; exact ⟨rfl, by omega⟩
    | all f0 f1 f2 f3 f4 => rw [f4 t, if_neg (by omega), f1]; exact ⟨rfl, by omega⟩
    | some f0 f1 f2 f3 f4 f5 f6 f7 => exact ⟨f7 t (by omega), f4⟩
    | plain v cnt f0 f1 f2 f3 f4 f5 f6 => rw [f6 t, if_neg (by omega), f4]; exact ⟨rfl, Nat.le_refl _⟩
  refine ⟨by omega, ?_, fun t ht => ?_⟩
  · have := (hout (s.i .numEvals).toNat (by omega)).2
    omega
  · unfold Main.handBack
    split
    · rfl
    · exact (hout t ht).1

/-- The call returns 0 or `PRIMME_MAIN_ITER_FAILURE`.  It returns 0 only if, with locking, all the `numEvals` pairs are locked or no
vector could be added to the basis, and, without locking, the final test accepted all the first `numEvals` pairs. -/
theorem C14_success_partial (meps : K) (a : Arrays) (s : EP K) (o : Init.Kernels X) (guess : ℕ → X) (r : Init.Res X)
    (hc : C15_Call meps a s o guess r) (products : ℕ) (ans : ℕ → Main.Ans) (hans : ∀ k, (ans k).Ok)
    (k : ℕ) (st : Main.St) (hst : C15_run s ans r.basisSize r.numGuesses r.nextGuess products k = .ok st) (hd : st.pc = .done) :
    (st.ret = 0 ∨ st.ret = PRIMME_MAIN_ITER_FAILURE) ∧
    (st.ret = 0 → s.i .locking ≠ 0 → st.wholeSpace = true ∨
      ((st.initSize : Int) = s.i .numEvals ∧ ∀ t : ℕ, (t : Int) < s.i .numEvals → Main.handBack false st t = .locked)) ∧
    (st.ret = 0 → s.i .locking = 0 →
      (st.initSize : Int) = s.i .numEvals ∧ ∃ j, j < k ∧ ∀ t : ℕ, (t : Int) < s.i .numEvals → (ans j).verify t ≠ .unconverged) := by
  have hL := C14_ledger hc products ans hans k st hst
  have hev := hc.evals
  have hE : ((C16_par s).numEvals : Int) = s.i .numEvals := by
    show ((s.i .numEvals).toNat : Int) = _
    omega
  have hlk : (C16_par s).locking = true ↔ s.i .locking ≠ 0 := by
    show decide (s.i .locking ≠ 0) = true ↔ _
    simp
  have hne : PRIMME_MAIN_ITER_FAILURE ≠ 0 := by decide
  have hb : ∀ t, Main.handBack false st t = st.out t := fun t => by simp [Main.handBack]
  have hlocked : (C16_par s).locking = true → st.ret = (if st.numLocked = (C16_par s).numEvals ∨ st.wholeSpace = true then 0 else PRIMME_MAIN_ITER_FAILURE) →
      (∀ t, t < st.numLocked → st.out t = .locked) → (st.ret = 0 ∨ st.ret = PRIMME_MAIN_ITER_FAILURE) ∧ (st.ret = 0 → st.wholeSpace = true ∨
      ((st.initSize : Int) = s.i .numEvals ∧ ∀ t : ℕ, (t : Int) < s.i .numEvals → Main.handBack false st t = .locked)) := by
    intro h1 h2 h3
    split_ifs at h2 with hq
    · refine ⟨Or.inl h2, fun _ => ?_⟩
      rcases hq with hq | hq
      · right
        refine ⟨by have := hL.hard h1; omega, fun t ht => ?_⟩
        rw [hb]
        exact h3 t (by omega)
      · exact Or.inl hq
    · exact ⟨Or.inr h2, fun w => absurd (h2.symm.trans w) hne⟩
  cases hL.final hd with
  | limit f1 f2 f3 => exact ⟨Or.inr f2, fun w => absurd (f2.symm.trans w) hne, fun w => absurd (f2.symm.trans w) hne⟩
  | all f0 f1 f2 f3 f4 =>
    obtain ⟨g1, g2⟩ := hlocked f0 f2 (fun t ht => by rw [f4, if_pos ht])
    exact ⟨g1, fun w _ => g2 w, fun _ w => absurd w (hlk.1 f0)⟩
  | some f0 f1 f2 f3 f4 f5 f6 f7 =>
    obtain ⟨g1, g2⟩ := hlocked f0 f1 f5
    exact ⟨g1, fun w _ => g2 w, fun _ w => absurd w (hlk.1 f0)⟩
  | plain v cnt f0 f1 f2 f3 f4 f5 f6 =>
    refine ⟨?_, fun _ w => absurd (hlk.2 w) (by rw [f0]; decide), fun w _ => ?_⟩
    · split_ifs at f5
      · exact Or.inl f5
      · exact Or.inr f5
    · have hq : (C16_par s).numEvals ≤ st.initSize := by
        by_contra hq
        rw [if_neg hq] at f5
        exact hne (f5.symm.trans w)
      have hs := hL.soft
      obtain ⟨j, hj, rfl⟩ := f1
      refine ⟨by omega, j, hj, fun t ht => Main.leading_verify (m := cnt) ?_⟩
      rw [← f3]
      omega

/-- The reported pairs.  With locking, all of them are locked pairs, provided that the array has the working precision or
that `numRet` has been set, and what follows them up to `numRet` are pairs of the last projected problem.  Without locking, either they
are the first pairs of the last projected problem, as far as the basis goes, and the final test has accepted them, or nothing has been
written. -/
theorem C14_entries_partial (meps : K) (a : Arrays) (s : EP K) (o : Init.Kernels X) (guess : ℕ → X) (r : Init.Res X)
    (hc : C15_Call meps a s o guess r) (products : ℕ) (ans : ℕ → Main.Ans) (hans : ∀ k, (ans k).Ok)
    (k : ℕ) (st : Main.St) (hst : C15_run s ans r.basisSize r.numGuesses r.nextGuess products k = .ok st) (hd : st.pc = .done)
    (cast : Bool) :
    (s.i .locking ≠ 0 → cast = false ∨ st.numRet ≠ 0 →
      (∀ t, t < st.initSize → Main.handBack cast st t = .locked) ∧
      ∀ t, st.initSize ≤ t → t < st.numRet → ∃ i, i < st.basisSize ∧ Main.handBack cast st t = .ritz i) ∧
    (s.i .locking = 0 →
      ((st.numRet : Int) = s.i .numEvals ∧ (∀ t, t < st.initSize → t < st.basisSize → Main.handBack cast st t = .ritz t) ∧
        ∃ j, j < k ∧ ∀ t, t < st.initSize → (ans j).verify t ≠ .unconverged) ∨
      (st.ret = PRIMME_MAIN_ITER_FAILURE ∧ st.numRet = 0 ∧ ∀ t, Main.handBack cast st t = .untouched)) := by
  have hL := C14_ledger hc products ans hans k st hst
  obtain ⟨hP, h0⟩ := C15_inv hc products
  have hi : Main.Inv (C16_par s) st := by
    rcases Main.run_inv hP hans h0 k with ⟨t, e', hi⟩ | ⟨c, e', _⟩
    · have := hst.symm.trans e'; cases this; exact hi
    · have := hst.symm.trans e'; cases this
  have hev := hc.evals
  have hE : ((C16_par s).numEvals : Int) = s.i .numEvals := by
    show ((s.i .numEvals).toNat : Int) = _
    omega
  have hlk : (C16_par s).locking = true ↔ s.i .locking ≠ 0 := by
    show decide (s.i .locking ≠ 0) = true ↔ _
    simp
  have hb : ∀ t, Main.handBack false st t = st.out t := fun t => by simp [Main.handBack]
  have hb' : ∀ t, t < st.numRet → Main.handBack cast st t = st.out t := fun t ht => by
    unfold Main.handBack
    rw [if_neg (by intro w; have := w.2; omega)]
  have hs := hL.soft
  refine ⟨fun hl hcast => ?_, fun hl => ?_⟩
  · have hl' := hlk.2 hl
    have hin := hL.hard hl'
    cases hL.final hd with
    | limit f1 f2 f3 =>
      have : cast = false := hcast.resolve_right (fun w => w f1)
      subst this
      refine ⟨fun t ht => by rw [hb, f3, if_pos (by omega)], fun t h1 h2 => by omega⟩
    | all f0 f1 f2 f3 f4 =>
      have : cast = false := hcast.resolve_right (fun w => w f1)
      subst this
      refine ⟨fun t ht => by rw [hb, f4, if_pos (by omega)], fun t h1 h2 => by omega⟩
    | some f0 f1 f2 f3 f4 f5 f6 f7 =>
      refine ⟨fun t ht => by rw [hb' t (by omega)]; exact f5 t (by omega), fun t h1 h2 => ?_⟩
      rw [hb' t h2]
      exact f6 t (by omega) h2
    | plain v cnt f0 f1 f2 f3 f4 f5 f6 => rw [f0] at hl'; cases hl'
  · have hl' : (C16_par s).locking ≠ true := fun w => hlk.1 w hl
    cases hL.final hd with
    | limit f1 f2 f3 =>
      refine Or.inr ⟨f2, f1, fun t => ?_⟩
      unfold Main.handBack
      split
      · rfl
      · have h0 : st.numLocked = 0 := hi.plain (by simpa using hl')
        rw [f3, h0, if_neg (by omega)]
    | all f0 f1 f2 f3 f4 => exact absurd f0 hl'
    | some f0 f1 f2 f3 f4 f5 f6 f7 => exact absurd f0 hl'
    | plain v cnt f0 f1 f2 f3 f4 f5 f6 =>
      obtain ⟨j, hj, rfl⟩ := f1
      refine Or.inl ⟨by omega, fun t ht h2 => ?_, j, hj, fun t ht => Main.leading_verify (m := cnt) (by omega)⟩
      rw [hb' t (by omega), f6, if_pos (by omega), if_pos h2]

/-- What is seen at the end: whether the run has returned, the code, `initSize`, `numRet`, the size of the basis, and the entries of an
array of the working precision and of a converted one. -/
def C14_seen (m : ℕ) (o : Outcome Main.St) : Option (Bool × Int × List ℕ × List Main.Entry × List Main.Entry) :=
  match o with
  | .ok s => some (decide (s.pc = .done), s.ret, [s.initSize, s.numRet, s.basisSize], (List.range m).map (Main.handBack false s),
      (List.range m).map (Main.handBack true s))
  | _ => none

/-- The first pair is accepted in the first test only, and the later tests accept everything. -/
def C14_hit : Main.Ans :=
  { C16_hit with check := fun _ => .converged, verify := fun _ => .converged }

/-- Every test accepts the first pair. -/
def C14_easy : Main.Ans :=
  { C16_calm with prep := ⟨id, fun _ i => if i = 0 then .converged else .unconverged, fun _ => false, fun _ => false⟩
                  check := fun _ => .converged, verify := fun _ => .converged }

theorem C14_hit_ok : C14_hit.Ok := ⟨C16_calm_ok.code, C16_calm_ok.retain⟩
theorem C14_easy_ok : C14_easy.Ok := ⟨C16_calm_ok.code, C16_calm_ok.retain⟩

/-- Cases that meet the hypotheses.  Locking, one pair of three locked, three outer iterations allowed: two candidates follow. -/
example : (∃ r, C15_Call 0 ⟨false, false, false⟩ (C16_store 3 6 3 1 0 1 2 1 0 0 1000 3) C33_kernels id r ∧ r.basisSize = 3 ∧
      r.numGuesses = 0 ∧ r.nextGuess = 0) ∧ (∀ k, (if k = 2 then C14_hit else C16_calm).Ok) ∧
    C14_seen 4 (C15_run (C16_store 3 6 3 1 0 1 2 1 0 0 1000 3) (fun k => if k = 2 then C14_hit else C16_calm) 3 0 0 3 9) =
      some (true, -3, [1, 3, 3], [.locked, .ritz 0, .ritz 1, .untouched], [.locked, .ritz 0, .ritz 1, .untouched]) :=
  ⟨⟨_, ⟨by decide +kernel, by decide, ⟨by decide, by unfold C33_fits; decide, by decide, by unfold C33_taken; decide⟩,
    ⟨_, C33_kernels_ok⟩, rfl⟩, by decide +kernel, by decide +kernel, by decide +kernel⟩,
    fun k => by split; exacts [C14_hit_ok, C16_calm_ok], by decide +kernel⟩

/-- All four pairs accepted without locking; a limit reached and nothing accepted; a limit reached by the initial basis. -/
example : C14_seen 5 (C15_run (C16_store 4 7 4 1 0 0 2 1 0 0 1000 0) (fun _ => C14_easy) 4 0 0 4 6) =
      some (true, 0, [4, 4, 4], [.ritz 0, .ritz 1, .ritz 2, .ritz 3, .untouched], [.ritz 0, .ritz 1, .ritz 2, .ritz 3, .untouched]) ∧
    C14_seen 3 (C15_run C15_case (fun _ => { C16_calm with verify := fun _ => .unconverged }) 3 0 0 3 18) =
      some (true, -3, [0, 2, 3], [.ritz 0, .ritz 1, .untouched], [.ritz 0, .ritz 1, .untouched]) ∧
    C14_seen 1 (C15_run (C16_store 4 7 4 1 0 0 2 1 0 0 1 0) (fun _ => C14_easy) 4 0 0 4 1) =
      some (true, -3, [0, 0, 4], [.untouched], [.untouched]) := by
  refine ⟨by decide +kernel, by decide +kernel, by decide +kernel⟩

theorem C14_found {m : ℕ} {o : Outcome Main.St} {c : Int} {l : List ℕ} {x y : List Main.Entry}
    (h : C14_seen m o = some (true, c, l, x, y)) : ∃ st, o = .ok st ∧ st.pc = .done ∧ st.ret = c ∧ [st.initSize, st.numRet, st.basisSize] = l ∧
      (List.range m).map (Main.handBack false st) = x ∧ (List.range m).map (Main.handBack true st) = y := by
  unfold C14_seen at h
  split at h
  · rename_i s
    simp only [Option.some.injEq, Prod.mk.injEq, decide_eq_true_eq] at h
    exact ⟨s, rfl, h⟩
  · cases h

/-- With locking and arrays that are not of the working precision, a call that finds all the pairs reports success and two pairs,
and hands back none: `copy_back_candidates` leaves without setting `numRet` (main_iter.c:1758-1760). -/
theorem C14_converted_violated : ∃ s : EP ℚ, ∃ r, C15_Call 0 ⟨false, false, false⟩ s C33_kernels id r ∧
    ∃ ans : ℕ → Main.Ans, (∀ k, (ans k).Ok) ∧ ∃ st, C15_run s ans r.basisSize r.numGuesses r.nextGuess r.basisSize 7 = .ok st ∧
      st.pc = .done ∧ st.ret = 0 ∧ st.initSize = 2 ∧ s.i .numEvals = 2 ∧
      (∀ t, t < 2 → Main.handBack false st t = .locked) ∧ ∀ t, t < 2 → Main.handBack true st t = .untouched := by
  obtain ⟨r, hc, b1, b2, b3⟩ : ∃ r, C15_Call 0 ⟨false, false, false⟩ (C16_store 2 6 3 2 0 1 2 1 0 0 1000 0) C33_kernels id r ∧ r.basisSize = 3 ∧ r.numGuesses = 0 ∧
      r.nextGuess = 0 :=
    ⟨_, ⟨by decide +kernel, by decide, ⟨by decide, by unfold C33_fits; decide, by decide, by unfold C33_taken; decide⟩,
      ⟨_, C33_kernels_ok⟩, rfl⟩, by decide +kernel, by decide +kernel, by decide +kernel⟩
  refine ⟨C16_store 2 6 3 2 0 1 2 1 0 0 1000 0, r, hc, fun _ => C14_easy, fun _ => C14_easy_ok, ?_⟩
  rw [b1, b2, b3]
  have h : C14_seen 2 (C15_run (C16_store 2 6 3 2 0 1 2 1 0 0 1000 0) (fun _ => C14_easy) 3 0 0 3 7) =
      some (true, 0, [2, 0, 2], [.locked, .locked], [.untouched, .untouched]) := by decide +kernel
  obtain ⟨st, h1, h2, h3, h4, h5, h6⟩ := C14_found h
  simp only [List.range, List.range.loop, List.map_cons, List.map_nil, List.cons.injEq, and_true] at h4 h5 h6
  refine ⟨st, h1, h2, h3, h4.1, by decide, fun t ht => ?_, fun t ht => ?_⟩
  · have : t = 0 ∨ t = 1 := by omega
    rcases this with rfl | rfl
    exacts [h5.1, h5.2]
  · have : t = 0 ∨ t = 1 := by omega
    rcases this with rfl | rfl
    exacts [h6.1, h6.2]

/-- Without locking: the last restart had four accepted pairs, the final test rejects them, recomputing the products exhausts
`maxMatvecs`, and the call reports four pairs although it has written nothing: `initSize` keeps the value of the last restart. -/
theorem C14_kept_violated : ∃ s : EP ℚ, ∃ r, C15_Call 0 ⟨false, false, false⟩ s C33_kernels id r ∧
    ∃ ans : ℕ → Main.Ans, (∀ k, (ans k).Ok) ∧ ∃ st, C15_run s ans r.basisSize r.numGuesses r.nextGuess r.basisSize 7 = .ok st ∧
      st.pc = .done ∧ st.ret = PRIMME_MAIN_ITER_FAILURE ∧ st.initSize = 4 ∧ s.i .numEvals = 4 ∧
      ∀ t, t < 4 → Main.handBack false st t = .untouched := by
  obtain ⟨r, hc, b1, b2, b3⟩ : ∃ r, C15_Call 0 ⟨false, false, false⟩ (C16_store 4 7 4 1 0 0 2 1 0 0 7 0) C33_kernels id r ∧ r.basisSize = 4 ∧ r.numGuesses = 0 ∧
      r.nextGuess = 0 :=
    ⟨_, ⟨by decide +kernel, by decide, ⟨by decide, by unfold C33_fits; decide, by decide, by unfold C33_taken; decide⟩,
      ⟨_, C33_kernels_ok⟩, rfl⟩, by decide +kernel, by decide +kernel, by decide +kernel⟩
  refine ⟨C16_store 4 7 4 1 0 0 2 1 0 0 7 0, r, hc, fun _ => { C14_easy with verify := fun _ => .unconverged },
    fun _ => ⟨C16_calm_ok.code, C16_calm_ok.retain⟩, ?_⟩
  rw [b1, b2, b3]
  have h : C14_seen 4 (C15_run (C16_store 4 7 4 1 0 0 2 1 0 0 7 0) (fun _ => { C14_easy with verify := fun _ => .unconverged }) 4 0 0 4 7) =
      some (true, -3, [4, 0, 4], [.untouched, .untouched, .untouched, .untouched], [.untouched, .untouched, .untouched, .untouched]) := by
    decide +kernel
  obtain ⟨st, h1, h2, h3, h4, h5, h6⟩ := C14_found h
  simp only [List.range, List.range.loop, List.map_cons, List.map_nil, List.cons.injEq, and_true] at h4 h5 h6
  refine ⟨st, h1, h2, h3, h4.1, by decide, fun t ht => ?_⟩
  have : t = 0 ∨ t = 1 ∨ t = 2 ∨ t = 3 := by omega
  rcases this with rfl | rfl | rfl | rfl
  exacts [h5.1, h5.2.1, h5.2.2.1, h5.2.2.2]

/-- Without locking, one guess is the whole initial basis (`primme_init_user`), four pairs are wanted and one outer iteration is
allowed: the final test looks at four columns of which only two were ever written, and may accept them.  The call reports success
and four pairs. -/
theorem C14_stale_violated : ∃ s : EP ℚ, ∃ r, C15_Call 0 ⟨false, false, false⟩ s C33_kernels id r ∧
    ∃ ans : ℕ → Main.Ans, (∀ k, (ans k).Ok) ∧ ∃ st, C15_run s ans r.basisSize r.numGuesses r.nextGuess r.basisSize 7 = .ok st ∧
      st.pc = .done ∧ st.ret = 0 ∧ st.initSize = 4 ∧ s.i .numEvals = 4 ∧ Main.handBack false st 3 = .stale := by
  obtain ⟨r, hc, b1, b2, b3⟩ : ∃ r, C15_Call 0 ⟨false, false, false⟩ (C16_store 4 7 4 1 1 0 3 1 0 0 1000 1) C33_kernels id r ∧ r.basisSize = 1 ∧ r.numGuesses = 0 ∧
      r.nextGuess = 1 :=
    ⟨_, ⟨by decide +kernel, by decide, ⟨by decide, by unfold C33_fits; decide, by decide, by unfold C33_taken; decide⟩,
      ⟨_, C33_kernels_ok⟩, rfl⟩, by decide +kernel, by decide +kernel, by decide +kernel⟩
  refine ⟨C16_store 4 7 4 1 1 0 3 1 0 0 1000 1, r, hc, fun _ => { C16_calm with verify := fun _ => .converged },
    fun _ => ⟨C16_calm_ok.code, C16_calm_ok.retain⟩, ?_⟩
  rw [b1, b2, b3]
  have h : C14_seen 4 (C15_run (C16_store 4 7 4 1 1 0 3 1 0 0 1000 1) (fun _ => { C16_calm with verify := fun _ => .converged }) 1 0 1 1 7) =
      some (true, 0, [4, 4, 2], [.ritz 0, .ritz 1, .stale, .stale], [.ritz 0, .ritz 1, .stale, .stale]) := by
    decide +kernel
  obtain ⟨st, h1, h2, h3, h4, h5, h6⟩ := C14_found h
  simp only [List.range, List.range.loop, List.map_cons, List.map_nil, List.cons.injEq, and_true] at h4 h5 h6
  exact ⟨st, h1, h2, h3, h4.1, by decide, h5.2.2.2⟩

end Verif.Props
