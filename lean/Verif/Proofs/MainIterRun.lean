import Verif.Proofs.MainIter

set_option linter.unusedSimpArgs false
set_option linter.unusedVariables false

/-! What each step of the main iteration does to the counters and to the results. -/

namespace Verif.Main
open Verif Verif.Spec Verif.Props

/-- The variables that the inner loop never changes. -/
def Kept (s s' : St) : Prop :=
  s'.numLocked = s.numLocked ∧ s'.numGuesses = s.numGuesses ∧ s'.nextGuess = s.nextGuess ∧ s'.sinceReset = s.sinceReset ∧
  s'.numRestarts = s.numRestarts ∧ s'.initSize = s.initSize ∧ s'.numRet = s.numRet ∧ s'.ret = s.ret ∧ s'.out = s.out

theorem Kept.trans {s s' s'' : St} (h : Kept s s') (h' : Kept s' s'') : Kept s s'' := by
  obtain ⟨a1, a2, a3, a4, a5, a6, a7, a8, a9⟩ := h
  obtain ⟨b1, b2, b3, b4, b5, b6, b7, b8, b9⟩ := h'
  exact ⟨b1.trans a1, b2.trans a2, b3.trans a3, b4.trans a4, b5.trans a5, b6.trans a6, b7.trans a7, b8.trans a8, b9.trans a9⟩

theorem practs_kept {P : Par} {a : Ans} : ∀ (m i : ℕ) (s s' : St), practs P a m i s = .ok s' →
    Kept s s' ∧ s'.numMatvecs = s.numMatvecs ∧ s'.numOuter = s.numOuter ∧ s'.basisSize = s.basisSize ∧ s'.blockSize = s.blockSize ∧
      s'.wholeSpace = s.wholeSpace ∧ s'.reset = s.reset := by
  intro m
  induction m with
  | zero => intro i s s' h; cases h; exact ⟨⟨rfl, rfl, rfl, rfl, rfl, rfl, rfl, rfl, rfl⟩, rfl, rfl, rfl, rfl, rfl, rfl⟩
  | succ m ih =>
    intro i s s' h
    unfold practs at h
    split at h
    · cases hr : Restart.rd P.maxBlockSize s.iev i with
      | ub => rw [hr] at h; cases h
      | err c => rw [hr] at h; cases h
      | ok ip =>
        rw [hr, Outcome.bind_ok] at h
        split at h
        · split at h
          · have := ih _ _ _ h; exact this
          · have := ih _ _ _ h; exact this
        · cases h
    · cases h; exact ⟨⟨rfl, rfl, rfl, rfl, rfl, rfl, rfl, rfl, rfl⟩, rfl, rfl, rfl, rfl, rfl, rfl⟩

theorem checkPract_kept {P : Par} {a : Ans} {bs0 : ℕ} {s s' : St} (h : checkPract P a bs0 s = .ok s') :
    Kept s s' ∧ s'.numMatvecs = s.numMatvecs ∧ s'.numOuter = s.numOuter ∧ s'.basisSize = s.basisSize ∧ s'.blockSize = s.blockSize ∧
      s'.wholeSpace = s.wholeSpace ∧ (s'.reset = true → s.reset = true ∨ a.practBad = true) := by
  unfold checkPract at h
  split at h
  · obtain ⟨h1, h2, h3, h4, h5, h6, h7⟩ := practs_kept _ _ _ _ h
    refine ⟨h1, h2, h3, h4, h5, h6, fun hr => ?_⟩
    rw [h7] at hr
    dsimp only at hr
    rw [Bool.or_eq_true, Bool.and_eq_true] at hr
    rcases hr with hr | hr
    · exact Or.inl hr
    · exact Or.inr hr.1
  · cases h; exact ⟨⟨rfl, rfl, rfl, rfl, rfl, rfl, rfl, rfl, rfl⟩, rfl, rfl, rfl, rfl, rfl, fun h => Or.inl h⟩

theorem attempts_pos (orth : ℕ → ℕ) (room avail : ℕ) (hav : 0 < avail) : ∀ m i bs, (attempts orth room avail m i bs).1 < i + m →
    0 < (attempts orth room avail m i bs).2 := by
  intro m
  induction m with
  | zero => intro i bs h; simp [attempts] at h
  | succ m ih =>
    intro i bs h
    unfold attempts at h ⊢
    dsimp only at h ⊢
    split
    · dsimp only; omega
    · rename_i hc
      rw [if_neg hc] at h
      exact ih _ _ (by omega)

/-- What an outer iteration does. -/
structure Turned (P : Par) (a : Ans) (s s' : St) : Prop where
  kept : Kept s s'
  outer : s'.numOuter = s.numOuter + 1
  spent : s.numMatvecs ≤ s'.numMatvecs ∧ s'.numMatvecs ≤ s.numMatvecs + a.corr + P.maxBlockSize
  grown : s.basisSize ≤ s'.basisSize
  pc : s'.pc = .post ∨ (s'.pc = .inner ∧ s'.blockSize = 0 ∧ s.basisSize < s'.basisSize)

theorem grow_turned {P : Par} {a : Ans} {s s' : St} (hbs : s.blockSize ≤ P.maxBlockSize) (hpos : 0 < s.blockSize) (h : grow P a s = .ok s') :
    Kept s s' ∧ s'.numOuter = s.numOuter ∧ s.numMatvecs ≤ s'.numMatvecs ∧ s'.numMatvecs ≤ s.numMatvecs + P.maxBlockSize ∧
      s.basisSize ≤ s'.basisSize ∧ (s'.pc = .post ∨ (s'.pc = .inner ∧ s'.blockSize = 0 ∧ s.basisSize < s'.basisSize)) := by
  have hk : ∀ t : St, Kept t t := fun t => ⟨rfl, rfl, rfl, rfl, rfl, rfl, rfl, rfl, rfl⟩
  unfold grow at h
  split_ifs at h with c1 c2 c3 c4
  · cases h; exact ⟨hk s, rfl, Nat.le_refl _, Nat.le_add_right _ _, Nat.le_refl _, Or.inl rfl⟩
  · cases h; exact ⟨hk s, rfl, Nat.le_add_right _ _, by dsimp only; omega, Nat.le_refl _, Or.inl rfl⟩
  · cases h; exact ⟨hk s, rfl, Nat.le_add_right _ _, by dsimp only; omega, Nat.le_add_right _ _, Or.inl rfl⟩
  · cases h; exact ⟨hk s, rfl, Nat.le_add_right _ _, by dsimp only; omega, Nat.le_add_right _ _, Or.inr ⟨rfl, rfl, by dsimp only; omega⟩⟩

theorem turn_turned {P : Par} {a : Ans} {s s' : St} (hP : Cfg P) (h : Inv P s) (hpc : s.pc = .inner) (hlt : s.basisSize < P.maxBasisSize)
    (e : turn P a s = .ok s') : Turned P a s s' := by
  have hh := h.here
  unfold AtPc at hh
  rw [hpc] at hh
  obtain ⟨hcv, hcn, hcl, hblk⟩ := hh
  obtain ⟨r, er, r1, r2, r3, r4, _, r5⟩ := choose_spec (P := P) (a := a) (s := { s with numOuter := s.numOuter + 1 }) hP h.len hlt hcn
    ⟨hblk.le, hblk.fits, hblk.small, hblk.wanted, hblk.here, hblk.incr⟩
  change choose P a (limits P s) { s with numOuter := s.numOuter + 1 } = _ at er
  change r.bs ≤ (limits P s).2 at r1
  have hav : (limits P s).2 ≤ P.maxBlockSize := by
    have := hP.blk
    unfold limits
    dsimp only
    split <;> dsimp only <;> omega
  have hpos := limits_pos (s := s) hP.blk hlt
  unfold turn at e
  rw [er, Outcome.bind_ok] at e
  dsimp only at e
  unfold proceed at e
  split at e
  · cases e
    exact ⟨⟨rfl, rfl, rfl, rfl, rfl, rfl, rfl, rfl, rfl⟩, rfl, ⟨Nat.le_refl _, by dsimp only; omega⟩, Nat.le_refl _, Or.inl rfl⟩
  · unfold expand at e
    dsimp only at e
    have hcor : (if 0 < r.bs then a.corr else 0) ≤ a.corr := by split <;> omega
    have hb' : (attempts a.orth (P.n - P.numOrthoConst - s.numLocked - s.basisSize) (limits P s).2 10 0 r.bs).1 < 0 + 10 →
        (attempts a.orth (P.n - P.numOrthoConst - s.numLocked - s.basisSize) (limits P s).2 10 0 r.bs).2 ≤ P.maxBlockSize := by
      intro w
      have := attempts_spec a.orth (P.n - P.numOrthoConst - s.numLocked - s.basisSize) (limits P s).2 10 0 r.bs w
      have := hP.blk
      omega
    have hp' := attempts_pos a.orth (P.n - P.numOrthoConst - s.numLocked - s.basisSize) (limits P s).2 hpos 10 0 r.bs
    generalize attempts a.orth (P.n - P.numOrthoConst - s.numLocked - s.basisSize) (limits P s).2 10 0 r.bs = t at *
    generalize (if 0 < r.bs then a.corr else 0) = c at *
    split at e
    · split at e
      · cases e
        exact ⟨⟨rfl, rfl, rfl, rfl, rfl, rfl, rfl, rfl, rfl⟩, rfl, ⟨Nat.le_add_right _ _, by dsimp only; omega⟩, Nat.le_refl _, Or.inl rfl⟩
      · cases e
        exact ⟨⟨rfl, rfl, rfl, rfl, rfl, rfl, rfl, rfl, rfl⟩, rfl, ⟨Nat.le_add_right _ _, by dsimp only; omega⟩, Nat.le_refl _, Or.inl rfl⟩
    · rename_i h10
      generalize hs1 : ({ s with numOuter := s.numOuter + 1, flags := r.flags, iev := r.iev, xr := fun _ => none, nrm := r.nrm, reset := r.reset
                                 blockSize := t.2, numConverged := s.numConverged + r.recent, prepared := true
                                 numMatvecs := s.numMatvecs + c } : St) = s1 at e
      have k1 : Kept s s1 := by rw [← hs1]; exact ⟨rfl, rfl, rfl, rfl, rfl, rfl, rfl, rfl, rfl⟩
      have k2 : s1.numOuter = s.numOuter + 1 ∧ s1.numMatvecs = s.numMatvecs + c ∧ s1.basisSize = s.basisSize ∧ s1.blockSize = t.2 := by
        rw [← hs1]; exact ⟨rfl, rfl, rfl, rfl⟩
      clear hs1
      cases hc : checkPract P a r.bs s1 with
      | ub => rw [hc] at e; cases e
      | err c => rw [hc] at e; cases e
      | ok s2 =>
        rw [hc, Outcome.bind_ok] at e
        obtain ⟨u1, u2, u3, u4, u5, u6, u7⟩ := checkPract_kept hc
        have w1 := hb' (by omega)
        have w2 := hp' (by omega)
        obtain ⟨v1, v2, v3, v4, v5, v6⟩ := grow_turned (by omega) (by omega) e
        exact ⟨(k1.trans u1).trans v1, by omega, ⟨by omega, by omega⟩, by omega, by rcases v6 with v | ⟨v, v', v''⟩ <;> [left; right] <;> [exact v; exact ⟨v, v', by omega⟩]⟩

/-! ## The counters -/

/-- How a step changes the counters. -/
structure Progress (P : Par) (a : Ans) (s s' : St) : Prop where
  outer : s'.numOuter = s.numOuter ∨ (s'.numOuter = s.numOuter + 1 ∧ within P s = true)
  mono : s.numMatvecs ≤ s'.numMatvecs
  guesses : s'.numGuesses ≤ s.numGuesses
  locked : s.numLocked ≤ s'.numLocked
  cost : s'.numMatvecs + s'.numGuesses ≤ s.numMatvecs + s.numGuesses ∨
    (within P s = true ∧ s'.numMatvecs + s'.numGuesses ≤ s.numMatvecs + s.numGuesses + max (a.corr + P.maxBlockSize) P.maxBasisSize)

theorem progress_same {P : Par} {a : Ans} {s s' : St} (h1 : s'.numOuter = s.numOuter) (h2 : s'.numMatvecs = s.numMatvecs)
    (h3 : s'.numGuesses = s.numGuesses) (h4 : s'.numLocked = s.numLocked) : Progress P a s s' :=
  ⟨Or.inl h1, by omega, by omega, by omega, Or.inl (by omega)⟩

/-- The two ways out of the end of the restart loop without locking: `nc` pairs pass the verification. -/
theorem finishPlain_cases {P : Par} {a : Ans} {s s' : St} (e : finishPlain P a s = .ok s') :
    ((within P s = false ∨ P.numEvals ≤ leading ((List.range s.numConverged).map a.verify) ∨ s.wholeSpace = true) ∧
      P.numEvals ≤ P.maxBasisSize ∧
      s' = { s with
        flags := (List.range (if within P s then s.numConverged else P.numEvals)).map a.verify ++
          s.flags.drop (if within P s then s.numConverged else P.numEvals)
        numConverged := leading ((List.range (if within P s then s.numConverged else P.numEvals)).map a.verify)
        out := fun t => if t < P.numEvals then (if t < s.basisSize then .ritz t else .stale) else .untouched
        numRet := P.numEvals, initSize := leading ((List.range (if within P s then s.numConverged else P.numEvals)).map a.verify)
        ret := if P.numEvals ≤ leading ((List.range (if within P s then s.numConverged else P.numEvals)).map a.verify) then 0
          else PRIMME_MAIN_ITER_FAILURE
        pc := .done }) ∨
    (within P s = true ∧ leading ((List.range s.numConverged).map a.verify) < P.numEvals ∧ s.wholeSpace = false ∧
      s' = { s with
        flags := (List.range s.numConverged).map a.verify ++ s.flags.drop s.numConverged
        basisSize := min (a.orth 0) s.basisSize, numMatvecs := s.numMatvecs + min (a.orth 0) s.basisSize
        sinceReset := 0, reset := false, numConverged := 0, pc := .outer }) := by
  unfold finishPlain at e
  dsimp only at e
  cases hw : within P s with
  | false =>
    rw [hw] at e
    left
    simp only [Bool.not_false, if_true, true_or, Bool.false_eq_true, if_false] at e ⊢
    split at e
    · cases e
    · rename_i hb
      refine ⟨trivial, by omega, ?_⟩
      cases e
      rfl
  | true =>
    rw [hw] at e
    simp only [Bool.not_true, Bool.false_eq_true, if_false, false_or, if_true, reduceCtorEq] at e ⊢
    split at e
    · cases e
    · rename_i hb
      split at e
      · rename_i hc
        left
        refine ⟨hc, by omega, ?_⟩
        cases e
        rfl
      · rename_i hc
        right
        refine ⟨trivial, by omega, ?_, ?_⟩
        · cases hq : s.wholeSpace
          · rfl
          · exact absurd (Or.inr hq) hc
        · cases e
          rfl

theorem step_progress {P : Par} {a : Ans} {s s' : St} (ha : a.Ok) (hP : Cfg P) (h : Inv P s) (e : step P a s = .ok s') :
    Progress P a s s' := by
  unfold step at e
  cases hfail : a.fail with
  | some c =>
    rw [hfail] at e
    dsimp only at e
    split at e
    · cases e; exact progress_same rfl rfl rfl rfl
    · cases e
  | none =>
    rw [hfail] at e
    dsimp only at e
    cases hpc : s.pc with
    | outer =>
      rw [hpc] at e
      dsimp only at e
      unfold outerStep at e
      split_ifs at e
      · cases e; exact progress_same rfl rfl rfl rfl
      · cases e; exact progress_same rfl rfl rfl rfl
    | restart =>
      rw [hpc] at e
      dsimp only at e
      split_ifs at e
      · cases e; exact progress_same rfl rfl rfl rfl
      · cases e; exact progress_same rfl rfl rfl rfl
    | inner =>
      rw [hpc] at e
      dsimp only at e
      split_ifs at e with hc
      · have t := turn_turned hP h hpc hc.1 e
        obtain ⟨k1, k2, _⟩ := t.kept
        have := t.spent
        exact ⟨Or.inr ⟨t.outer, hc.2⟩, this.1, by omega, by omega, Or.inr ⟨hc.2, by omega⟩⟩
      · cases e; exact progress_same rfl rfl rfl rfl
    | post =>
      rw [hpc] at e
      dsimp only at e
      obtain ⟨s'', e', _, s1, q, hcase⟩ := after_cases (a := a) ha hP h hpc
      rw [e] at e'
      cases e'
      obtain ⟨c1, c2, _⟩ := q.same.counters
      have c3 := q.same.guesses.1
      have c4 := q.same.locked
      rcases hcase with ⟨_, rfl⟩ | ⟨_, _, r, k, m, x, _, hR, rfl, u1, u2, u3, _⟩
      · exact progress_same c2 c1 c3 c4
      · have hl := hR.locked.1
        exact ⟨Or.inl c2, by dsimp only [restarted]; omega, by dsimp only [restarted]; omega, by dsimp only [restarted]; omega,
          Or.inl (by dsimp only [restarted]; omega)⟩
    | finish =>
      rw [hpc] at e
      dsimp only at e
      split_ifs at e with hl
      · cases e
        unfold finishLocking
        dsimp only
        split
        · exact progress_same rfl rfl rfl rfl
        · exact progress_same rfl rfl rfl rfl
      · rcases finishPlain_cases e with ⟨_, _, rfl⟩ | ⟨hw, _, _, rfl⟩
        · exact progress_same rfl rfl rfl rfl
        · have hf := h.fits
          exact ⟨Or.inl rfl, Nat.le_add_right _ _, Nat.le_refl _, Nat.le_refl _, Or.inr ⟨hw, by dsimp only; omega⟩⟩
    | done =>
      rw [hpc] at e
      cases e
      exact progress_same rfl rfl rfl rfl

end Verif.Main
