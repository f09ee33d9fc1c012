import Verif.Proofs.MainIterRun

set_option linter.unusedSimpArgs false
set_option linter.unusedVariables false

/-! Termination of the main iteration. -/

namespace Verif.Prepare
open Verif Verif.Restart

theorem visit_reset {P : Par} {J : Job} {a : Ans} {f : Flag} {blki : ℕ} {s s' : St} (h : visit P J a f blki s = .ok s') :
    s'.reset = s.reset := by
  unfold visit at h
  cases h1 : rd P.maxBlockSize s.iev blki with
  | ub => rw [h1] at h; cases h
  | err c => rw [h1] at h; cases h
  | ok ip =>
    rw [h1, Outcome.bind_ok] at h
    cases h2 : rdN P.maxBlockSize s.nrm blki with
    | ub => rw [h2] at h; cases h
    | err c => rw [h2] at h; cases h
    | ok v =>
      rw [h2, Outcome.bind_ok] at h
      unfold count keep at h
      dsimp only at h
      split_ifs at h <;> cases h <;> rfl

theorem visits_reset {P : Par} {J : Job} {a : Ans} {r : ℕ} : ∀ (m i blki : ℕ) (s s' : St), visits P J a r m i blki s = .ok s' →
    s'.reset = s.reset := by
  intro m
  induction m with
  | zero => intro i blki s s' h; cases h; rfl
  | succ m ih =>
    intro i blki s s' h
    unfold visits at h
    split at h
    · cases h1 : visit P J a (a.check r i) blki s with
      | ub => rw [h1] at h; cases h
      | err c => rw [h1] at h; cases h
      | ok s1 =>
        rw [h1, Outcome.bind_ok] at h
        exact (ih _ _ _ _ h).trans (visit_reset h1)
    · cases h; rfl

theorem rounds_reset {P : Par} {J : Job} {a : Ans} (hb : ∀ r, a.bad r = false) : ∀ (fuel r bn : ℕ) (s s' : St),
    rounds P J a fuel r bn s = .ok s' → s'.reset = s.reset := by
  intro fuel
  induction fuel with
  | zero => intro r bn s s' h; cases h
  | succ fuel ih =>
    intro r bn s s' h
    unfold rounds at h
    split at h
    · cases h
    · dsimp only at h
      cases h1 : visits P J a r bn 0 s.bs { s with reset := s.reset || a.bad r } with
      | ub => rw [h1] at h; cases h
      | err c => rw [h1] at h; cases h
      | ok s1 =>
        rw [h1, Outcome.bind_ok] at h
        have r1 : s1.reset = s.reset := by
          have := visits_reset _ _ _ _ _ h1
          rw [this]
          simp [hb r]
        cases h2 : cands P s1.flags s1.maxBlock (J.basisSize - s1.next) s1.next s1.bs s1.iev with
        | ub => rw [h2] at h; cases h
        | err c => rw [h2] at h; cases h
        | ok w =>
          obtain ⟨iev, blki⟩ := w
          rw [h2, Outcome.bind_ok] at h
          dsimp only at h
          split at h
          · cases h; exact r1
          · cases h3 : compute P J blki { s1 with iev := iev } with
            | ub => rw [h3] at h; cases h
            | err c => rw [h3] at h; cases h
            | ok s2 =>
              rw [h3, Outcome.bind_ok] at h
              have r2 : s2.reset = s1.reset := by
                unfold compute at h3
                dsimp only at h3
                split at h3
                · cases h3
                · cases h3; rfl
              rw [ih _ _ _ _ h, r2, r1]

theorem prepare_reset {P : Par} {J : Job} {a : Ans} {bn : ℕ} {flags : List Flag} {iev xr : Arr} {nrm : Norms} {reset : Bool} {s' : St}
    (hb : ∀ r, a.bad r = false) (h : prepare P J a bn flags iev xr nrm reset = .ok s') : s'.reset = reset := by
  unfold prepare at h
  split at h
  · cases h
  · exact rounds_reset hb _ _ _ _ _ h

/-- If the check never accepts, no flag changes. -/
theorem visit_unconverged {P : Par} {J : Job} {a : Ans} {blki : ℕ} {s s' : St} (hs : ∀ f ∈ s.flags, f = .unconverged)
    (h : visit P J a .unconverged blki s = .ok s') : ∀ f ∈ s'.flags, f = .unconverged := by
  unfold visit at h
  cases h1 : rd P.maxBlockSize s.iev blki with
  | ub => rw [h1] at h; cases h
  | err c => rw [h1] at h; cases h
  | ok ip =>
    rw [h1, Outcome.bind_ok] at h
    cases h2 : rdN P.maxBlockSize s.nrm blki with
    | ub => rw [h2] at h; cases h
    | err c => rw [h2] at h; cases h
    | ok v =>
      rw [h2, Outcome.bind_ok] at h
      have hset : ∀ f ∈ s.flags.set ip .unconverged, f = .unconverged := by
        intro f hf
        rcases List.mem_or_eq_of_mem_set hf with h | h
        · exact hs f h
        · exact h
      unfold count keep at h
      dsimp only at h
      split_ifs at h <;> cases h <;> exact hset

theorem visits_unconverged {P : Par} {J : Job} {a : Ans} (ha : ∀ r i, a.check r i = .unconverged) {r : ℕ} : ∀ (m i blki : ℕ) (s s' : St),
    (∀ f ∈ s.flags, f = .unconverged) → visits P J a r m i blki s = .ok s' → ∀ f ∈ s'.flags, f = .unconverged := by
  intro m
  induction m with
  | zero => intro i blki s s' hs h; cases h; exact hs
  | succ m ih =>
    intro i blki s s' hs h
    unfold visits at h
    split at h
    · rw [ha] at h
      cases h1 : visit P J a .unconverged blki s with
      | ub => rw [h1] at h; cases h
      | err c => rw [h1] at h; cases h
      | ok s1 =>
        rw [h1, Outcome.bind_ok] at h
        exact ih _ _ _ _ (visit_unconverged hs h1) h
    · cases h; exact hs

theorem rounds_unconverged {P : Par} {J : Job} {a : Ans} (ha : ∀ r i, a.check r i = .unconverged) : ∀ (fuel r bn : ℕ) (s s' : St),
    (∀ f ∈ s.flags, f = .unconverged) → rounds P J a fuel r bn s = .ok s' → ∀ f ∈ s'.flags, f = .unconverged := by
  intro fuel
  induction fuel with
  | zero => intro r bn s s' hs h; cases h
  | succ fuel ih =>
    intro r bn s s' hs h
    unfold rounds at h
    split at h
    · cases h
    · dsimp only at h
      cases h1 : visits P J a r bn 0 s.bs { s with reset := s.reset || a.bad r } with
      | ub => rw [h1] at h; cases h
      | err c => rw [h1] at h; cases h
      | ok s1 =>
        rw [h1, Outcome.bind_ok] at h
        have r1 : ∀ f ∈ s1.flags, f = .unconverged := by
          refine visits_unconverged ha _ _ _ _ _ ?_ h1
          exact hs
        cases h2 : cands P s1.flags s1.maxBlock (J.basisSize - s1.next) s1.next s1.bs s1.iev with
        | ub => rw [h2] at h; cases h
        | err c => rw [h2] at h; cases h
        | ok w =>
          obtain ⟨iev, blki⟩ := w
          rw [h2, Outcome.bind_ok] at h
          dsimp only at h
          split at h
          · cases h; exact r1
          · cases h3 : compute P J blki { s1 with iev := iev } with
            | ub => rw [h3] at h; cases h
            | err c => rw [h3] at h; cases h
            | ok s2 =>
              rw [h3, Outcome.bind_ok] at h
              refine ih _ _ _ _ ?_ h
              unfold compute at h3
              dsimp only at h3
              split at h3
              · cases h3
              · cases h3; exact r1

theorem prepare_unconverged {P : Par} {J : Job} {a : Ans} {bn : ℕ} {flags : List Flag} {iev xr : Arr} {nrm : Norms} {reset : Bool} {s' : St}
    (ha : ∀ r i, a.check r i = .unconverged) (hs : ∀ f ∈ flags, f = .unconverged) (h : prepare P J a bn flags iev xr nrm reset = .ok s') :
    ∀ f ∈ s'.flags, f = .unconverged := by
  unfold prepare at h
  split at h
  · cases h
  · refine rounds_unconverged ha _ _ _ _ _ ?_ h
    intro f hf
    dsimp only [remap] at hf
    obtain ⟨i, _, rfl⟩ := List.mem_map.1 hf
    rw [List.getD_eq_getElem?_getD]
    generalize (if i < J.basisSize then a.map i else i) = j
    cases hj : flags[j]? with
    | none => rfl
    | some g => exact hs g (List.mem_of_getElem? hj)

end Verif.Prepare

namespace Verif.Main
open Verif Verif.Spec Verif.Props

theorem settle_reset {P : Par} {s s' : St} {r : Prepare.St} (h : settle P s r = .ok s') : s'.reset = r.reset := by
  unfold settle at h
  dsimp only at h
  generalize (if P.numQR = true ∧ s.numLocked < s.numConverged + r.recent ∧ s.numLocked + 1 < P.numTargetShifts then 0 else r.bs) = bs at h
  cases h1 : regroup s.basisSize (recount P s.numLocked 0 s.numLocked (List.take s.basisSize r.flags) - s.numLocked) bs r.iev
      (List.take s.basisSize r.flags) 0 0 0 0 (fun _ => none) with
  | ub => rw [h1] at h; cases h
  | err c => rw [h1] at h; cases h
  | ok w =>
    rw [h1, Outcome.bind_ok] at h
    cases h2 : permuteFlags s.basisSize w r.flags with
    | ub => rw [h2] at h; cases h
    | err c => rw [h2] at h; cases h
    | ok fl =>
      rw [h2, Outcome.bind_ok] at h
      cases h
      rfl

theorem before_reset {P : Par} {a : Ans} {s s' : St} (hb : ∀ r, a.prep2.bad r = false) (h : before P a s = .ok s') : s'.reset = s.reset := by
  unfold before at h
  dsimp only at h
  split at h
  · cases h1 : Prepare.prepare P.toPar ⟨s.basisSize, s.numLocked, s.numConverged, (limits2 P s).1, (limits2 P s).2, 0, false⟩ a.prep2
      s.blockSize s.flags s.iev s.xr s.nrm s.reset with
    | ub => rw [h1] at h; cases h
    | err c => rw [h1] at h; cases h
    | ok r =>
      rw [h1, Outcome.bind_ok] at h
      rw [settle_reset h, Prepare.prepare_reset hb h1]
  · split at h
    · cases h
    · cases h; rfl

/-- No errors are found right after the vectors were recomputed: the estimate of the error is zero then
(main_iter.c:492, 894; convergence.c:162). -/
def Calm (s : St) (a : Ans) : Prop := s.sinceReset = 0 → a.wsBad = false ∧ ∀ r, a.prep2.bad r = false

theorem after_calm {P : Par} {a : Ans} {s s' : St} (h1 : a.wsBad = false) (h2 : ∀ r, a.prep2.bad r = false) (hr : s.reset = false)
    (h : after P a s = .ok s') : s'.pc = .restart := by
  have hsp : spanned P a s = s := by
    unfold spanned
    rw [if_neg (by rw [h1]; simp)]
  unfold after at h
  rw [hsp, if_neg (by rw [hr]; simp)] at h
  have key : ∀ s1 : St, s1.reset = false → (if s1.reset = true then Outcome.ok { s1 with pc := .outer } else restartStep P a s1) = .ok s' →
      s'.pc = .restart := by
    intro s1 hs1 h
    rw [if_neg (by rw [hs1]; simp)] at h
    unfold restartStep at h
    cases h3 : Restart.restart P.toPar (answers P a s1) s1.basisSize s1.numLocked s1.flags s1.blockSize s1.iev s1.numGuesses with
    | ub => rw [h3] at h; cases h
    | err c => rw [h3] at h; cases h
    | ok r =>
      rw [h3, Outcome.bind_ok] at h
      split at h
      · cases h
      · cases h4 : insertGuesses P a (restarted s1 r) with
        | ub => rw [h4] at h; cases h
        | err c => rw [h4] at h; cases h
        | ok s2 =>
          rw [h4, Outcome.bind_ok] at h
          cases h
          rfl
  by_cases hp : s.prepared = true
  · rw [if_pos hp, Outcome.bind_ok] at h
    exact key s hr h
  · rw [if_neg hp] at h
    cases h5 : before P a s with
    | ub => rw [h5] at h; cases h
    | err c => rw [h5] at h; cases h
    | ok s1 =>
      rw [h5, Outcome.bind_ok] at h
      exact key s1 (by rw [before_reset h2 h5, hr]) h

/-! ## The ranking -/

/-- What is left of the limits, and the pairs to be locked. -/
def budget (P : Par) (s : St) : ℕ :=
  (P.numEvals - s.numLocked) + (P.maxOuter - s.numOuter).toNat + (P.maxMatvecs - s.numMatvecs).toNat

/-- Position within the loops. -/
def minor (P : Par) (s : St) : ℕ :=
  if within P s then
    match s.pc with
    | .inner => if s.basisSize < P.maxBasisSize then 0 else if s.sinceReset = 0 ∧ s.reset = false then 7 else 11
    | .restart =>
      if s.basisSize < P.maxBasisSize then (if s.numConverged < P.numEvals ∧ s.wholeSpace = false then 1 else 4)
      else if s.sinceReset = 0 ∧ s.reset = false then 8 else 12
    | .outer => if s.basisSize < P.maxBasisSize then (if P.locking = false ∧ s.wholeSpace = false then 2 else 5) else 9
    | .finish => 3
    | .post => if s.sinceReset = 0 ∧ s.reset = false then 6 else 10
    | .done => 0
  else
    match s.pc with
    | .done => 0
    | .finish => 1
    | .restart => 2
    | .outer => 3
    | .post => 4
    | .inner => 5

def rank (P : Par) (s : St) : ℕ := 13 * budget P s + minor P s

theorem minor_le (P : Par) (s : St) : minor P s ≤ 12 := by
  unfold minor
  split <;> split <;> (try split) <;> (try split) <;> omega

theorem within_iff {P : Par} (hO : 0 < P.maxOuter) (s : St) :
    within P s = true ↔ (s.numMatvecs : Int) < P.maxMatvecs ∧ (s.numOuter : Int) < P.maxOuter := by
  unfold within
  rw [Bool.and_eq_true, Bool.or_eq_true, decide_eq_true_iff, decide_eq_true_iff, decide_eq_true_iff]
  constructor
  · rintro ⟨h1, h2 | h2⟩
    · omega
    · exact ⟨h1, h2⟩
  · rintro ⟨h1, h2⟩; exact ⟨h1, Or.inr h2⟩

/-- It is enough to compare positions when the counters stay. -/
theorem rank_lt {P : Par} {a : Ans} {s s' : St} (hO : 0 < P.maxOuter) (hp : Progress P a s s') (hl : s'.numLocked ≤ P.numEvals)
    (h : (s.numLocked < s'.numLocked ∨ (within P s = true ∧ s.numMatvecs < s'.numMatvecs) ∨ s.numOuter < s'.numOuter) ∨
      (within P s' = within P s → minor P s' < minor P s)) : rank P s' < rank P s := by
  have m1 := minor_le P s'
  have q1 := hp.mono
  have q2 := hp.locked
  have q3 := hp.outer
  have w := within_iff hO s
  have w' := within_iff hO s'
  by_cases hb : budget P s' < budget P s
  · unfold rank; omega
  · have heq : ¬ (s.numLocked < s'.numLocked ∨ (within P s = true ∧ s.numMatvecs < s'.numMatvecs) ∨ s.numOuter < s'.numOuter) := by
      intro hc
      apply hb
      unfold budget
      rcases hc with hc | ⟨hc, hc'⟩ | hc
      · omega
      · rw [w] at hc
        omega
      · rcases q3 with q3 | ⟨q3, q4⟩
        · omega
        · rw [w] at q4
          omega
    have hm := h.resolve_left heq
    have hsame : within P s' = within P s := by
      rw [Bool.eq_iff_iff, w, w']
      by_cases hw : within P s = true
      · have : ¬ s.numMatvecs < s'.numMatvecs := fun x => heq (Or.inr (Or.inl ⟨hw, x⟩))
        omega
      · rw [w] at hw
        omega
    have := hm hsame
    have : budget P s' ≤ budget P s := by unfold budget; omega
    unfold rank
    omega

/-- Every step before the end lowers the rank. -/
theorem step_rank {P : Par} {a : Ans} {s s' : St} (hO : 0 < P.maxOuter) (hE : 0 < P.numEvals) (hB : 0 < P.maxBasisSize) (ha : a.Ok)
    (hP : Cfg P) (h : Inv P s) (hn : s.pc ≠ .done) (hcalm : Calm s a) (e : step P a s = .ok s')
    (hroom : s.pc = .post → s'.pc = .restart → s'.basisSize < P.maxBasisSize ∨ s.numLocked < s'.numLocked) :
    rank P s' < rank P s := by
  have hp := step_progress ha hP h e
  have hi : Inv P s' := by
    rcases step_inv ha hP h with ⟨t, e', hi⟩ | ⟨c, e', _⟩
    · rw [e] at e'; cases e'; exact hi
    · rw [e] at e'; cases e'
  refine rank_lt hO hp hi.locked ?_
  have hfits := h.fits
  unfold step at e
  cases hfail : a.fail with
  | some c =>
    rw [hfail] at e
    dsimp only at e
    rw [if_neg hn] at e
    cases e
  | none =>
    rw [hfail] at e
    dsimp only at e
    cases hpc : s.pc with
    | outer =>
      rw [hpc] at e
      dsimp only at e
      unfold outerStep at e
      right
      intro hw
      split_ifs at e with c1 c2
      · cases e
        unfold minor
        rw [hw, c1, hpc]
        dsimp only
        simp only [if_true, true_and, and_true]
        by_cases hf : s.basisSize < P.maxBasisSize
        · rw [if_pos hf, if_pos hf]
          by_cases hq : P.locking = false ∧ s.wholeSpace = false
          · have := h.plain hq.1
            rw [if_pos hq, if_pos ⟨by omega, hq.2⟩]
            omega
          · rw [if_neg hq]
            split <;> omega
        · rw [if_neg hf, if_neg hf]
          simp
      · have hws : within P s = false := by simpa using c1
        cases e
        unfold minor
        rw [hw, hws, hpc]
        simp
    | restart =>
      rw [hpc] at e
      dsimp only at e
      right
      intro hw
      split_ifs at e with c1
      · cases e
        unfold minor
        rw [hw, c1.2.1, hpc]
        dsimp only
        simp only [if_true]
        by_cases hf : s.basisSize < P.maxBasisSize
        · rw [if_pos hf, if_pos hf, if_pos ⟨c1.1, c1.2.2⟩]
          omega
        · rw [if_neg hf, if_neg hf]
          split <;> omega
      · cases e
        unfold minor
        rw [hw, hpc]
        dsimp only
        by_cases hws : within P s = true
        · rw [if_pos hws, if_pos hws]
          by_cases hf : s.basisSize < P.maxBasisSize
          · rw [if_pos hf, if_neg (fun q => c1 ⟨q.1, hws, q.2⟩)]
            omega
          · rw [if_neg hf]
            split <;> omega
        · rw [if_neg hws, if_neg hws]
          omega
    | inner =>
      rw [hpc] at e
      dsimp only at e
      split_ifs at e with hc
      · left; right; right
        have := (turn_turned hP h hpc hc.1 e).outer
        omega
      · right
        intro hw
        cases e
        unfold minor
        rw [hw, hpc]
        dsimp only
        by_cases hws : within P s = true
        · rw [if_pos hws, if_pos hws, if_neg (fun q => hc ⟨q, hws⟩)]
          split <;> omega
        · rw [if_neg hws, if_neg hws]
          omega
    | post =>
      rw [hpc] at e
      dsimp only at e
      obtain ⟨s'', e', _, s1, q, hcase⟩ := after_cases (a := a) ha hP h hpc
      rw [e] at e'
      cases e'
      rcases hcase with ⟨_, rfl⟩ | ⟨_, _, r, k, m, x, _, hR, hs', _⟩
      · right
        intro hw
        have hnot : ¬ (s.sinceReset = 0 ∧ s.reset = false) := by
          rintro ⟨z1, z2⟩
          have := after_calm (hcalm z1).1 (hcalm z1).2 z2 e
          cases this
        unfold minor
        rw [hw, hpc]
        dsimp only
        rw [if_neg hnot]
        by_cases hws : within P s = true
        · rw [if_pos hws, if_pos hws]
          split <;> (try split) <;> omega
        · rw [if_neg hws, if_neg hws]
          omega
      · have hpc' : s'.pc = .restart := by rw [hs']
        rcases hroom hpc hpc' with hr | hr
        · right
          intro hw
          unfold minor
          rw [hw, hpc, hpc']
          dsimp only
          rw [if_pos hr]
          by_cases hws : within P s = true
          · rw [if_pos hws, if_pos hws]
            split <;> split <;> omega
          · rw [if_neg hws, if_neg hws]
            omega
        · exact Or.inl (Or.inl hr)
    | finish =>
      rw [hpc] at e
      dsimp only at e
      have hdone : s'.pc = .done → (within P s' = within P s → minor P s' < minor P s) := by
        intro hd hw
        unfold minor
        rw [hw, hpc, hd]
        dsimp only
        split <;> omega
      split_ifs at e with hl
      · right
        cases e
        apply hdone
        unfold finishLocking
        rfl
      · rcases finishPlain_cases e with ⟨_, _, hs'⟩ | ⟨hw, _, hws, hs'⟩
        · right
          exact hdone (by rw [hs'])
        · by_cases hb : 0 < min (a.orth 0) s.basisSize
          · left; right; left
            refine ⟨hw, ?_⟩
            rw [hs']
            dsimp only
            omega
          · right
            intro hw'
            have b0 : s'.basisSize < P.maxBasisSize := by rw [hs']; dsimp only; omega
            have b1 : s'.pc = .outer := by rw [hs']
            have b2 : s'.wholeSpace = false := by rw [hs']; exact hws
            unfold minor
            rw [hw', hw, hpc, b1]
            dsimp only
            simp [b0, b2, hl]
    | done => exact absurd hpc hn

/-- Runs that lower the rank at each step stop. -/
theorem run_stops {P : Par} {a : ℕ → Ans} {s0 : St} (hdec : ∀ k s, run P a k s0 = .ok s → s.pc ≠ .done →
    (∃ s', step P (a k) s = .ok s' ∧ rank P s' < rank P s) ∨ ∃ c, step P (a k) s = .err c) :
    ∃ k, k ≤ rank P s0 ∧ ((∃ s, run P a k s0 = .ok s ∧ s.pc = .done) ∨ ∃ c, run P a k s0 = .err c) := by
  have key : ∀ m, (∃ k, k ≤ m ∧ ((∃ s, run P a k s0 = .ok s ∧ s.pc = .done) ∨ ∃ c, run P a k s0 = .err c)) ∨
      (∃ s, run P a m s0 = .ok s ∧ rank P s + m ≤ rank P s0 ∧ s.pc ≠ .done) := by
    intro m
    induction m with
    | zero =>
      by_cases hd : s0.pc = .done
      · exact Or.inl ⟨0, Nat.le_refl _, Or.inl ⟨s0, rfl, hd⟩⟩
      · exact Or.inr ⟨s0, rfl, Nat.le_refl _, hd⟩
    | succ m ih =>
      rcases ih with ⟨k, hk, hh⟩ | ⟨s, e, hr, hd⟩
      · exact Or.inl ⟨k, by omega, hh⟩
      · rcases hdec m s e hd with ⟨s', e', hlt⟩ | ⟨c, e'⟩
        · have e2 : run P a (m + 1) s0 = .ok s' := by unfold run; rw [e, Outcome.bind_ok, e']
          by_cases hd' : s'.pc = .done
          · exact Or.inl ⟨m + 1, Nat.le_refl _, Or.inl ⟨s', e2, hd'⟩⟩
          · exact Or.inr ⟨s', e2, by omega, hd'⟩
        · exact Or.inl ⟨m + 1, Nat.le_refl _, Or.inr ⟨c, by unfold run; rw [e, Outcome.bind_ok, e']⟩⟩
  rcases key (rank P s0) with h | ⟨s, e, hr, hd⟩
  · exact h
  · -- the rank is zero, so the state is at the end
    rcases hdec _ s e hd with ⟨s', e', hlt⟩ | ⟨c, e'⟩
    · omega
    · exfalso
      have : rank P s = 0 := by omega
      have hm : minor P s = 0 := by unfold rank at this; omega
      have hbud : budget P s = 0 := by unfold rank at this; omega
      unfold minor at hm
      split at hm
      · rename_i hw
        unfold within at hw
        rw [Bool.and_eq_true, decide_eq_true_iff] at hw
        unfold budget at hbud
        omega
      · cases hpc : s.pc <;> rw [hpc] at hm <;> simp at hm
        exact hd hpc

/-- Conditions under which a restart makes progress: without locking the basis never spans the space; with
locking there is always room for the pairs that fail the second check, or no pair fails it. -/
def Roomy (P : Par) (a : Ans) : Prop :=
  (P.locking = false ∧ P.maxBasisSize + P.numOrthoConst < P.n ∧ P.minRestartSize < P.maxBasisSize) ∨
  (P.locking = true ∧ P.minRestartSize + P.maxPrevRetain + P.numEvals < P.maxBasisSize) ∨
  (P.locking = true ∧ P.minRestartSize < P.maxBasisSize ∧ ∀ i, a.check i ≠ .unconverged)

theorem after_room {P : Par} {a : Ans} {s s' : St} (ha : a.Ok) (hP : Cfg P) (h : Inv P s) (hpc : s.pc = .post) (hR : Roomy P a)
    (e : after P a s = .ok s') (hpc' : s'.pc = .restart) : s'.basisSize < P.maxBasisSize ∨ s.numLocked < s'.numLocked := by
  obtain ⟨s'', e', _, s1, q, hcase⟩ := after_cases (a := a) ha hP h hpc
  rw [e] at e'
  cases e'
  have q1 := q.same.size
  have q2 := q.same.locked
  have hbl := hP.blk
  rcases hcase with ⟨_, rfl⟩ | ⟨_, _, r, k, m, x, er, hr, rfl, u1, u2, u3, _⟩
  · cases hpc'
  · dsimp only [restarted]
    have hpos := answers_possible (P := P) ha s1
    have hpos' := hr.pos
    have hlk := hr.locked.1
    rcases hR with ⟨hl, h1, h2⟩ | ⟨hl, h1⟩ | ⟨hl, h1, h2⟩
    · left
      have hz : s1.numLocked = 0 := by rw [q2]; exact h.plain hl
      have hg0 : s1.numGuesses = 0 := by
        rw [q.same.guesses.1]
        rcases h.guesses with h | ⟨h, _⟩
        · exact h
        · rw [hl] at h; cases h
      have hsm := hP.soft hl
      have hf := h.fits
      have hcl := q.clean hl
      rw [hz, hg0] at hpos er
      have := Restart.restart_soft_room P.toPar (answers P a s1) s1.basisSize s1.flags s1.blockSize s1.iev
        ⟨hl, q.len, by rw [q1]; exact h.fits, hsm.2, hcl, Int.le_refl _, hpos⟩ (by rw [q1]; omega) hbl h2 r er
      omega
    · left
      obtain ⟨r', e', _, _, _, w, _⟩ := Restart.restart_hard_use P.toPar (answers P a s1) s1.basisSize s1.numLocked s1.flags s1.blockSize s1.iev
        s1.numGuesses ⟨hl, q.len, by rw [q1]; exact h.fits, by rw [q2]; exact h.locked, left_nonneg s1, hpos⟩
      rw [er] at e'
      cases e'
      have := w hbl (by omega)
      omega
    · obtain ⟨r', e', _, _, _, _, w⟩ := Restart.restart_hard_use P.toPar (answers P a s1) s1.basisSize s1.numLocked s1.flags s1.blockSize s1.iev
        s1.numGuesses ⟨hl, q.len, by rw [q1]; exact h.fits, by rw [q2]; exact h.locked, left_nonneg s1, hpos⟩
      rw [er] at e'
      cases e'
      by_cases hlt : s.numLocked < r.numLocked
      · exact Or.inr hlt
      · left
        rcases w hbl h1 h2 with w | w <;> omega

/-- A run stops if errors are not found right after a reset, and every restart makes progress. -/
theorem stops {P : Par} {a : ℕ → Ans} {s0 : St} (hP : Cfg P) (hO : 0 < P.maxOuter) (hE : 0 < P.numEvals) (hB : 0 < P.maxBasisSize)
    (ha : ∀ k, (a k).Ok) (h : Inv P s0) (hcalm : ∀ k s, run P a k s0 = .ok s → Calm s (a k))
    (hroom : ∀ k s s', run P a k s0 = .ok s → run P a (k + 1) s0 = .ok s' → s.pc = .post → s'.pc = .restart →
      s'.basisSize < P.maxBasisSize ∨ s.numLocked < s'.numLocked) :
    ∃ k, k ≤ rank P s0 ∧ ((∃ s, run P a k s0 = .ok s ∧ s.pc = .done) ∨ ∃ c, run P a k s0 = .err c) := by
  apply run_stops
  intro k s e hd
  have hi : Inv P s := by
    rcases run_inv hP ha h k with ⟨t, e', hi⟩ | ⟨c, e', _⟩
    · rw [e] at e'; cases e'; exact hi
    · rw [e] at e'; cases e'
  rcases step_inv (ha k) hP hi with ⟨s', e', _⟩ | ⟨c, e', _⟩
  · refine Or.inl ⟨s', e', step_rank hO hE hB (ha k) hP hi hd (hcalm k s e) e' ?_⟩
    exact hroom k s s' e (by unfold run; rw [e, Outcome.bind_ok, e'])
  · exact Or.inr ⟨c, e'⟩

/-! ## Outer iterations, for any parameters -/

theorem expand_outer {P : Par} {a : Ans} {avail : ℕ} {s s' : St} (e : expand P a avail s = .ok s') : s'.numOuter = s.numOuter := by
  unfold expand at e
  dsimp only at e
  generalize attempts a.orth (P.n - P.numOrthoConst - s.numLocked - s.basisSize) avail 10 0 s.blockSize = t at e
  generalize (if 0 < s.blockSize then a.corr else 0) = c at e
  split_ifs at e
  · cases e; rfl
  · cases e; rfl
  · cases hc : checkPract P a s.blockSize { s with numMatvecs := s.numMatvecs + c, xr := fun _ => none, blockSize := t.2 } with
    | ub => rw [hc] at e; cases e
    | err c => rw [hc] at e; cases e
    | ok s2 =>
      rw [hc, Outcome.bind_ok] at e
      have := (checkPract_kept hc).2.2.1
      unfold grow at e
      split_ifs at e <;> cases e <;> exact this

theorem turn_outer {P : Par} {a : Ans} {s s' : St} (e : turn P a s = .ok s') : s'.numOuter = s.numOuter + 1 := by
  unfold turn at e
  cases hc : choose P a (limits P s) { s with numOuter := s.numOuter + 1 } with
  | ub => rw [hc] at e; cases e
  | err c => rw [hc] at e; cases e
  | ok r =>
    rw [hc, Outcome.bind_ok] at e
    have h1 : r.1.numOuter = s.numOuter + 1 := by
      unfold choose at hc
      split at hc
      · cases hp : Prepare.prepare P.toPar ⟨s.basisSize, s.numLocked, s.numConverged, (limits P s).1, (limits P s).2,
          P.maxBasisSize - s.basisSize, true⟩ a.prep s.blockSize s.flags s.iev s.xr s.nrm s.reset with
        | ub => dsimp only at hc; rw [hp] at hc; cases hc
        | err c => dsimp only at hc; rw [hp] at hc; cases hc
        | ok q =>
          dsimp only at hc
          rw [hp, Outcome.bind_ok] at hc
          cases hc
          rfl
      · cases hc; rfl
    unfold proceed at e
    split at e
    · cases e; exact h1
    · rw [expand_outer e, h1]

theorem before_outer {P : Par} {a : Ans} {s s' : St} (h : before P a s = .ok s') : s'.numOuter = s.numOuter := by
  unfold before at h
  dsimp only at h
  split at h
  · cases h1 : Prepare.prepare P.toPar ⟨s.basisSize, s.numLocked, s.numConverged, (limits2 P s).1, (limits2 P s).2, 0, false⟩ a.prep2
      s.blockSize s.flags s.iev s.xr s.nrm s.reset with
    | ub => rw [h1] at h; cases h
    | err c => rw [h1] at h; cases h
    | ok r =>
      rw [h1, Outcome.bind_ok] at h
      unfold settle at h
      dsimp only at h
      generalize (if P.numQR = true ∧ s.numLocked < s.numConverged + r.recent ∧ s.numLocked + 1 < P.numTargetShifts then 0 else r.bs) = bs at h
      cases h2 : regroup s.basisSize (recount P s.numLocked 0 s.numLocked (List.take s.basisSize r.flags) - s.numLocked) bs r.iev
          (List.take s.basisSize r.flags) 0 0 0 0 (fun _ => none) with
      | ub => rw [h2] at h; cases h
      | err c => rw [h2] at h; cases h
      | ok w =>
        rw [h2, Outcome.bind_ok] at h
        cases h3 : permuteFlags s.basisSize w r.flags with
        | ub => rw [h3] at h; cases h
        | err c => rw [h3] at h; cases h
        | ok fl =>
          rw [h3, Outcome.bind_ok] at h
          cases h
          rfl
  · split at h
    · cases h
    · cases h; rfl

theorem after_outer {P : Par} {a : Ans} {s s' : St} (h : after P a s = .ok s') : s'.numOuter = s.numOuter := by
  have hsp : (spanned P a s).numOuter = s.numOuter := (spanned_same P a s).1.counters.2.1
  unfold after at h
  split at h
  · cases h; exact hsp
  · have key : ∀ s1 : St, s1.numOuter = s.numOuter → (if s1.reset = true then Outcome.ok { s1 with pc := .outer } else restartStep P a s1) = .ok s' →
        s'.numOuter = s.numOuter := by
      intro s1 hs1 h
      split at h
      · cases h; exact hs1
      · unfold restartStep at h
        cases h3 : Restart.restart P.toPar (answers P a s1) s1.basisSize s1.numLocked s1.flags s1.blockSize s1.iev s1.numGuesses with
        | ub => rw [h3] at h; cases h
        | err c => rw [h3] at h; cases h
        | ok r =>
          rw [h3, Outcome.bind_ok] at h
          split at h
          · cases h
          · cases h4 : insertGuesses P a (restarted s1 r) with
            | ub => rw [h4] at h; cases h
            | err c => rw [h4] at h; cases h
            | ok s2 =>
              rw [h4, Outcome.bind_ok] at h
              cases h
              unfold insertGuesses at h4
              dsimp only at h4
              split_ifs at h4 <;> cases h4 <;> exact hs1
    by_cases hp : s.prepared = true
    · rw [if_pos hp, Outcome.bind_ok] at h
      exact key _ hsp h
    · rw [if_neg hp] at h
      cases h5 : before P a (spanned P a s) with
      | ub => rw [h5] at h; cases h
      | err c => rw [h5] at h; cases h
      | ok s1 =>
        rw [h5, Outcome.bind_ok] at h
        exact key s1 (by rw [before_outer h5, hsp]) h

/-- A step begins an outer iteration only within the limits. -/
theorem step_outer {P : Par} {a : Ans} {s s' : St} (e : step P a s = .ok s') :
    s'.numOuter = s.numOuter ∨ (s'.numOuter = s.numOuter + 1 ∧ within P s = true) := by
  unfold step at e
  cases hfail : a.fail with
  | some c =>
    rw [hfail] at e
    dsimp only at e
    split at e
    · cases e; exact Or.inl rfl
    · cases e
  | none =>
    rw [hfail] at e
    dsimp only at e
    cases hpc : s.pc with
    | outer =>
      rw [hpc] at e
      dsimp only at e
      unfold outerStep at e
      split_ifs at e <;> cases e <;> exact Or.inl rfl
    | restart =>
      rw [hpc] at e
      dsimp only at e
      split_ifs at e <;> cases e <;> exact Or.inl rfl
    | inner =>
      rw [hpc] at e
      dsimp only at e
      split_ifs at e with hc
      · exact Or.inr ⟨turn_outer e, hc.2⟩
      · cases e; exact Or.inl rfl
    | post =>
      rw [hpc] at e
      exact Or.inl (after_outer e)
    | finish =>
      rw [hpc] at e
      dsimp only at e
      split_ifs at e with hl
      · cases e
        unfold finishLocking
        dsimp only
        split <;> exact Or.inl rfl
      · rcases finishPlain_cases e with ⟨_, _, rfl⟩ | ⟨_, _, _, rfl⟩ <;> exact Or.inl rfl
    | done => rw [hpc] at e; cases e; exact Or.inl rfl

/-! ## A basis that spans the space, without locking -/

/-- The restart loop with a full basis that spans the space, in which no pair was accepted. -/
structure Stuck (P : Par) (s : St) : Prop where
  inv : Inv P s
  full : s.basisSize = P.maxBasisSize
  none : s.pc ≠ .post → s.numConverged = 0
  flags : ∀ f ∈ s.flags, f = .unconverged
  ws : s.wholeSpace = false
  reset : s.reset = false
  lim : within P s = true
  pc : s.pc = .restart ∨ s.pc = .inner ∨ (s.pc = .post ∧ s.prepared = false)
  prep : s.pc = .inner → s.prepared = false

/-- No pair is ever accepted, and nothing fails. -/
structure Never (a : Ans) : Prop where
  ok : a.Ok
  fail : a.fail = none
  check : ∀ r i, a.prep2.check r i = .unconverged
  calm : a.wsBad = false ∧ ∀ r, a.prep2.bad r = false

theorem settle_unconverged {P : Par} {s s' : St} {r : Prepare.St} (hr : ∀ f ∈ r.flags, f = .unconverged) (h : settle P s r = .ok s') :
    ∀ f ∈ s'.flags, f = .unconverged := by
  unfold settle at h
  dsimp only at h
  generalize (if P.numQR = true ∧ s.numLocked < s.numConverged + r.recent ∧ s.numLocked + 1 < P.numTargetShifts then 0 else r.bs) = bs at h
  cases h1 : regroup s.basisSize (recount P s.numLocked 0 s.numLocked (List.take s.basisSize r.flags) - s.numLocked) bs r.iev
      (List.take s.basisSize r.flags) 0 0 0 0 (fun _ => none) with
  | ub => rw [h1] at h; cases h
  | err c => rw [h1] at h; cases h
  | ok w =>
    rw [h1, Outcome.bind_ok] at h
    cases h2 : permuteFlags s.basisSize w r.flags with
    | ub => rw [h2] at h; cases h
    | err c => rw [h2] at h; cases h
    | ok fl =>
      rw [h2, Outcome.bind_ok] at h
      cases h
      unfold permuteFlags at h2
      split at h2
      · cases h2
        intro f hf
        dsimp only at hf
        obtain ⟨i, _, rfl⟩ := List.mem_map.1 hf
        rw [List.getD_eq_getElem?_getD]
        generalize (if i < s.basisSize then (w i).getD 0 else i) = j
        cases hj : r.flags[j]? with
        | none => rfl
        | some g => exact hr g (List.mem_of_getElem? hj)
      · cases h2

theorem before_unconverged {P : Par} {a : Ans} {s s' : St} (ha : ∀ r i, a.prep2.check r i = .unconverged)
    (hs : ∀ f ∈ s.flags, f = .unconverged) (h : before P a s = .ok s') : ∀ f ∈ s'.flags, f = .unconverged := by
  unfold before at h
  dsimp only at h
  split at h
  · cases h1 : Prepare.prepare P.toPar ⟨s.basisSize, s.numLocked, s.numConverged, (limits2 P s).1, (limits2 P s).2, 0, false⟩ a.prep2
      s.blockSize s.flags s.iev s.xr s.nrm s.reset with
    | ub => rw [h1] at h; cases h
    | err c => rw [h1] at h; cases h
    | ok r =>
      rw [h1, Outcome.bind_ok] at h
      exact settle_unconverged (Prepare.prepare_unconverged ha hs h1) h
  · split at h
    · cases h
    · cases h; exact hs

theorem stuck_step {P : Par} {a : Ans} {s : St} (hP : Cfg P) (hl : P.locking = false) (hE : 0 < P.numEvals)
    (hspan : P.n ≤ P.maxBasisSize + P.numOrthoConst) (ha : Never a) (h : Stuck P s) :
    ∃ s', step P a s = .ok s' ∧ Stuck P s' ∧ s'.numOuter = s.numOuter ∧ s'.numMatvecs = s.numMatvecs := by
  have hstep := step_inv ha.ok hP h.inv
  unfold step at hstep ⊢
  rw [ha.fail] at hstep ⊢
  dsimp only at hstep ⊢
  have hw := h.lim
  rcases h.pc with hpc | hpc | ⟨hpc, hprep⟩
  · rw [hpc] at hstep ⊢
    dsimp only at hstep ⊢
    have hc : s.numConverged < P.numEvals ∧ within P s = true ∧ s.wholeSpace = false :=
      ⟨by rw [h.none (by rw [hpc]; decide)]; exact hE, hw, h.ws⟩
    rw [if_pos hc] at hstep ⊢
    rcases hstep with ⟨s', e, hi⟩ | ⟨c, e, _⟩
    · cases e
      exact ⟨_, rfl, ⟨hi, h.full, fun _ => h.none (by rw [hpc]; decide), h.flags, h.ws, h.reset, hw, Or.inr (Or.inl rfl), fun _ => rfl⟩, rfl, rfl⟩
    · cases e
  · rw [hpc] at hstep ⊢
    dsimp only at hstep ⊢
    have hc : ¬ (s.basisSize < P.maxBasisSize ∧ within P s = true) := by rw [h.full]; omega
    rw [if_neg hc] at hstep ⊢
    rcases hstep with ⟨s', e, hi⟩ | ⟨c, e, _⟩
    · cases e
      exact ⟨_, rfl, ⟨hi, h.full, fun w => absurd rfl w, h.flags, h.ws, h.reset, hw, Or.inr (Or.inr ⟨rfl, h.prep hpc⟩), fun w => by cases w⟩, rfl, rfl⟩
    · cases e
  · rw [hpc]
    dsimp only
    have hsp : spanned P a s = s := by
      unfold spanned
      rw [if_neg (by rw [ha.calm.1]; simp)]
    have hh := h.inv.here
    unfold AtPc at hh
    rw [hpc] at hh
    obtain ⟨hcv, hcl, hbl, hblk⟩ := hh
    have hblk' : s.numConverged ≤ P.numEvals ∧ Block P s := by
      rcases hblk with hb | hb | hb
      · rw [hprep] at hb; cases hb
      · rw [h.reset] at hb; cases hb
      · exact hb
    obtain ⟨s1, e1, q⟩ := before_spec (P := P) (a := a) (s := s) hP h.inv.len h.inv.fits h.inv.dim h.inv.locked hcv hblk'.1 hcl hblk'.2
    have r1 : s1.reset = false := by rw [before_reset ha.calm.2 e1, h.reset]
    have f1 := before_unconverged ha.check h.flags e1
    have q1 := q.same.size
    have q2 := q.same.locked
    have qg := q.same.guesses
    have qc := q.same.counters
    obtain ⟨r, k, m, x, e2, hR, e3, hi, u1, u2, u3, u4⟩ := restartStep_spec (P := P) (a := a) (s := s1) ha.ok hP q.len (by rw [q1]; exact h.inv.fits)
      (by rw [q1, q2]; exact h.inv.dim) (left_of h.inv.guesses qg q2) (by rw [q2]; exact h.inv.locked)
      (by rw [q2]; exact h.inv.plain) q.clean
    have hg0 : s1.numGuesses = 0 := by
      rw [qg.1]
      rcases h.inv.guesses with g | ⟨g, _⟩
      · exact g
      · rw [hl] at g; cases g
    have hz : s1.numLocked = 0 := by rw [q2]; exact h.inv.plain hl
    have hpos := answers_possible (P := P) ha.ok s1
    rw [hz, hg0] at e2 hpos
    obtain ⟨w1, w2, w3⟩ := Restart.restart_soft_full P.toPar (answers P a s1) s1.basisSize s1.flags s1.blockSize s1.iev
      ⟨hl, q.len, by rw [q1]; exact h.inv.fits, (hP.soft hl).2, q.clean hl, Int.le_refl _, hpos⟩ (by rw [q1, h.full]; exact hspan) f1 r e2
    have hk : k = 0 := by omega
    refine ⟨_, ?_, ⟨hi, ?_, ?_, w3, ?_, ?_, ?_, Or.inl rfl, ?_⟩, ?_, ?_⟩
    · unfold after
      rw [hsp, if_neg (by rw [h.reset]; simp), if_neg (by rw [hprep]; simp), e1, Outcome.bind_ok, if_neg (by rw [r1]; simp)]
      exact e3
    · dsimp only [restarted]
      have := h.full
      omega
    · intro _; exact w2
    · have := congrArg St.wholeSpace q.same
      dsimp only at this
      show s1.wholeSpace = false
      exact this.trans h.ws
    · exact r1
    · rw [← hw]
      unfold within
      show (decide (((s1.numMatvecs + k : ℕ) : Int) < _) && (_ || decide ((s1.numOuter : Int) < _))) = _
      rw [qc.1, qc.2.1, hk, Nat.add_zero]
    · intro w; cases w
    · show s1.numOuter = _
      exact qc.2.1
    · show s1.numMatvecs + k = _
      rw [qc.1, hk, Nat.add_zero]

/-- From there the run never stops. -/
theorem stuck_run {P : Par} {a : ℕ → Ans} {s0 s : St} (hP : Cfg P) (hl : P.locking = false) (hE : 0 < P.numEvals)
    (hspan : P.n ≤ P.maxBasisSize + P.numOrthoConst) (ha : ∀ k, Never (a k)) (m : ℕ) (e : run P a m s0 = .ok s) (h : Stuck P s) (k : ℕ) :
    ∃ s', run P a (m + k) s0 = .ok s' ∧ Stuck P s' ∧ s'.numOuter = s.numOuter ∧ s'.numMatvecs = s.numMatvecs := by
  induction k with
  | zero => exact ⟨s, e, h, rfl, rfl⟩
  | succ k ih =>
    obtain ⟨s', e', h', c1, c2⟩ := ih
    obtain ⟨s'', e'', h'', d1, d2⟩ := stuck_step hP hl hE hspan (ha (m + k)) h'
    refine ⟨s'', ?_, h'', by omega, by omega⟩
    rw [← Nat.add_assoc]
    unfold run
    rw [e', Outcome.bind_ok, e'']

end Verif.Main
