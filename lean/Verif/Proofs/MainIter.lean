import Verif.Model.MainIter
import Verif.Proofs.Prepare
import Verif.Proofs.PrepareXr
import Verif.Proofs.RestartUse

set_option linter.unusedSimpArgs false
set_option linter.unusedVariables false

/-! Invariant of the main iteration. -/

namespace Verif.Main
open Verif Verif.Spec Verif.Props

/-- Configurations covered: what the input check guarantees (blocks are not empty, one-sided targets need
locking, without locking the basis is large enough), and not more than one shift together with a block of
several pairs and a projection that needs the QR factorisation. -/
structure Cfg (P : Par) : Prop where
  blk : 1 ≤ P.maxBlockSize
  sided : P.side = true → P.locking = true
  soft : P.locking = false → P.numEvals ≤ P.minRestartSize ∧ P.numEvals ≤ P.maxBasisSize
  shifts : P.numQR = true → P.numTargetShifts ≤ 1 ∨ P.maxBlockSize ≤ 1

/-- The block: its size, and what it holds. -/
structure Block (P : Par) (s : St) : Prop where
  le : s.blockSize ≤ P.maxBlockSize
  fits : s.basisSize + s.blockSize ≤ P.maxBasisSize
  small : s.blockSize ≤ s.basisSize
  wanted : 0 < s.blockSize → s.blockSize + s.numConverged ≤ P.numEvals + 1
  here : ∀ k, k < s.blockSize → ∃ i b, s.iev k = some i ∧ i < s.basisSize ∧ s.nrm k = some (i, b)
  incr : ∀ k l i j, k < l → l < s.blockSize → s.iev k = some i → s.iev l = some j → i < j

/-- The columns of the block belong to the pairs of the block. -/
def Exact (s : St) : Prop := ∀ k, k < s.blockSize → s.xr k = s.iev k

/-- Initial guesses that are left: none, or with locking one was taken for each locked pair beyond the first
`minRestartSize`, and the dimension of the space does not limit the basis. -/
def Left (P : Par) (s : St) : Prop :=
  s.numGuesses = 0 ∨ (P.locking = true ∧ P.maxBasisSize + P.numEvals + P.numOrthoConst ≤ P.n ∧
    s.nextGuess = P.numOrthoConst + P.minRestartSize + s.numLocked)

/-- Without locking no pair beyond the basis is marked as converged. -/
def Clean (P : Par) (s : St) : Prop :=
  P.locking = false → ∀ i, s.basisSize ≤ i → i < P.numEvals → ¬ Accepted s.flags i

/-- What holds at each loop test. -/
def AtPc (P : Par) (s : St) : Prop :=
  match s.pc with
  | .outer => True
  | .done => True
  | .restart => s.numLocked ≤ s.numConverged ∧ s.numConverged ≤ P.numEvals ∧ Clean P s ∧ Block P s
  | .inner => s.numLocked ≤ s.numConverged ∧ s.numConverged ≤ P.numEvals ∧ Clean P s ∧ Block P s
  | .post => s.numLocked ≤ s.numConverged ∧ Clean P s ∧ s.blockSize ≤ P.maxBlockSize ∧
      (s.prepared = true ∨ s.reset = true ∨ (s.numConverged ≤ P.numEvals ∧ Block P s))
  | .finish => s.numLocked ≤ s.numConverged ∧ s.numConverged ≤ P.numEvals

structure Inv (P : Par) (s : St) : Prop where
  len : s.flags.length = P.maxBasisSize
  fits : s.basisSize ≤ P.maxBasisSize
  dim : s.basisSize + s.numLocked + P.numOrthoConst ≤ P.n
  guesses : Left P s
  locked : s.numLocked ≤ P.numEvals
  plain : P.locking = false → s.numLocked = 0
  here : AtPc P s

theorem left_of {P : Par} {s s' : St} (h : Left P s) (h1 : s'.numGuesses = s.numGuesses ∧ s'.nextGuess = s.nextGuess)
    (h2 : s'.numLocked = s.numLocked) : Left P s' := by
  unfold Left at *
  rw [h1.1, h1.2, h2]
  exact h

/-! ## The inner loop -/

theorem block_empty {P : Par} {s : St} (hf : s.basisSize ≤ P.maxBasisSize) (h : s.blockSize = 0) : Block P s :=
  ⟨by omega, by omega, by omega, by omega, by omega, by omega⟩

theorem attempts_spec (orth : ℕ → ℕ) (room avail : ℕ) : ∀ m i bs, (attempts orth room avail m i bs).1 < i + m →
    (attempts orth room avail m i bs).2 ≤ max bs 1 ∧ (attempts orth room avail m i bs).2 ≤ room ∧
    (0 < avail → 0 < (attempts orth room avail m i bs).2) := by
  intro m
  induction m with
  | zero => intro i bs h; simp [attempts] at h
  | succ m ih =>
    intro i bs h
    unfold attempts at h ⊢
    dsimp only at h ⊢
    by_cases hc : 0 < min (min (orth i) bs) room ∨ avail = 0
    · rw [if_pos hc] at h ⊢
      dsimp only
      omega
    · rw [if_neg hc] at h ⊢
      obtain ⟨h1, h2, h3⟩ := ih (i + 1) 1 (by omega)
      omega

theorem attempts_le (orth : ℕ → ℕ) (room avail : ℕ) : ∀ m i bs, (attempts orth room avail m i bs).1 ≤ i + m := by
  intro m
  induction m with
  | zero => intro i bs; simp [attempts]
  | succ m ih =>
    intro i bs
    unfold attempts
    dsimp only
    split
    · dsimp only; omega
    · have := ih (i + 1) 1; omega

/-- The check for practical convergence never goes wrong. It changes flags and the count only. -/
theorem practs_spec {P : Par} (a : Ans) : ∀ (m i : ℕ) (s : St), i + m ≤ P.maxBlockSize → s.numConverged ≤ P.numEvals →
    (∀ k, k < i + m → ∃ ip, s.iev k = some ip ∧ ip < s.flags.length) →
    ∃ f c, practs P a m i s = .ok { s with flags := f, numConverged := c } ∧ f.length = s.flags.length ∧
      s.numConverged ≤ c ∧ c ≤ P.numEvals := by
  intro m
  induction m with
  | zero => intro i s _ h _; exact ⟨s.flags, s.numConverged, rfl, rfl, Nat.le_refl _, h⟩
  | succ m ih =>
    intro i s hi hc hiev
    unfold practs
    by_cases hlt : s.numConverged < P.numEvals
    · rw [if_pos hlt]
      obtain ⟨ip, h1, h2⟩ := hiev i (by omega)
      have hrd : Restart.rd P.maxBlockSize s.iev i = .ok ip := by
        unfold Restart.rd; rw [if_pos (by omega)]; simp [h1]
      rw [hrd, Outcome.bind_ok, if_pos h2]
      by_cases hp : a.pract i = .converged
      · rw [if_pos hp]
        obtain ⟨f, c, e, q1, q2, q3⟩ := ih (i + 1) { s with flags := s.flags.set ip .practically_converged, numConverged := s.numConverged + 1 }
          (by omega) (by dsimp only; omega) (by dsimp only; intro k hk; simpa using hiev k (by omega))
        dsimp only at q1 q2
        exact ⟨f, c, e, by simpa using q1, by omega, q3⟩
      · rw [if_neg hp]
        obtain ⟨f, c, e, q1, q2, q3⟩ := ih (i + 1) { s with flags := s.flags.set ip (a.pract i) }
          (by omega) hc (by dsimp only; intro k hk; simpa using hiev k (by omega))
        dsimp only at q1 q2
        exact ⟨f, c, e, by simpa using q1, q2, q3⟩
    · rw [if_neg hlt]
      exact ⟨s.flags, s.numConverged, rfl, rfl, Nat.le_refl _, hc⟩

theorem limits_pos {P : Par} {s : St} (hb : 1 ≤ P.maxBlockSize) (hlt : s.basisSize < P.maxBasisSize) : 0 < (limits P s).2 := by
  unfold limits
  dsimp only
  split <;> dsimp only <;> omega

/-- The requirements of `prepare_candidates` are met in the inner loop. -/
theorem choose_pre {P : Par} {s : St} (hP : Cfg P) (hl : s.flags.length = P.maxBasisSize) (hlt : s.basisSize < P.maxBasisSize)
    (hc : s.numConverged ≤ P.numEvals) (hb : Block P s) :
    Prepare.Pre P.toPar ⟨s.basisSize, s.numLocked, s.numConverged, (limits P s).1, (limits P s).2, P.maxBasisSize - s.basisSize, true⟩
      s.blockSize s.flags s.iev s.iev s.nrm := by
  have h1 := hb.le
  have h2 := hb.fits
  have h3 := hb.wanted
  have h4 := hP.blk
  refine ⟨by dsimp only; omega, ?_, ?_, fun _ => ?_, fun w => ?_, hP.sided, ?_, hb.incr⟩
  · dsimp only
    unfold limits
    dsimp only
    by_cases hq : s.numConverged + 1 < P.numTargetShifts ∧ P.numQR = true
    · rw [if_pos hq]
      dsimp only
      rcases hP.shifts hq.2 with h | h <;> omega
    · rw [if_neg hq]
      dsimp only
      omega
  · dsimp only
    unfold limits
    dsimp only
    split <;> dsimp only <;> omega
  · dsimp only
    unfold limits
    dsimp only
    split <;> dsimp only <;> omega
  · dsimp only at w ⊢
    unfold limits at w ⊢
    dsimp only at w ⊢
    by_cases hq : s.numConverged + 1 < P.numTargetShifts ∧ P.numQR = true
    · rw [if_pos hq] at w ⊢
      dsimp only at w ⊢
      omega
    · rw [if_neg hq] at w ⊢
      dsimp only at w ⊢
      omega
  · intro k hk
    obtain ⟨i, b, w1, w2, w3⟩ := hb.here k hk
    exact ⟨i, b, w1, w2, w3, fun _ => w1⟩

/-- A pair accepted after the call, beyond the basis, was accepted before. -/
theorem prepare_clean {P : Restart.Par} {J : Prepare.Job} {a : Prepare.Ans} {ex : ℕ → Prop} {flags : List Flag} {r : Prepare.St}
    (hv : Prepare.Inv P J a ex (Prepare.remap J.basisSize a.map flags) 0 r.bs r) :
    r.flags.length = flags.length ∧ ∀ i, J.basisSize ≤ i → r.flags[i]? = flags[i]? := by
  have hl := hv.len
  rw [Prepare.remap_length] at hl
  have hn := hv.next
  refine ⟨hl, fun i hi => ?_⟩
  rw [hv.frame i (by omega)]
  unfold Prepare.remap
  by_cases hlt : i < flags.length
  · rw [List.getElem?_map, List.getElem?_range hlt, Option.map_some, if_neg (by omega), List.getElem?_eq_getElem hlt]
    simp [List.getD, hlt]
  · rw [List.getElem?_eq_none (by simp; omega), List.getElem?_eq_none (by omega)]

/-- The choice of the block in the inner loop. -/
theorem choose_spec {P : Par} {a : Ans} {s : St} (hP : Cfg P) (hl : s.flags.length = P.maxBasisSize)
    (hlt : s.basisSize < P.maxBasisSize) (hc : s.numConverged ≤ P.numEvals) (hb : Block P s) :
    ∃ r : Prepare.St, choose P a (limits P s) s = .ok ({ s with
        flags := r.flags, iev := r.iev, xr := r.xr, nrm := r.nrm, reset := r.reset, blockSize := r.bs
        numConverged := s.numConverged + r.recent, prepared := true }, r.recent) ∧
      r.bs ≤ (limits P s).2 ∧ r.flags.length = s.flags.length ∧ (∀ i, s.basisSize ≤ i → r.flags[i]? = s.flags[i]?) ∧
      (∀ k, k < r.bs → ∃ i b, r.iev k = some i ∧ i < s.basisSize ∧ r.nrm k = some (i, b)) ∧
      (Exact s → ∀ k, k < r.bs → r.xr k = r.iev k) ∧
      (∀ k l i j, k < l → l < r.bs → r.iev k = some i → r.iev l = some j → i < j) := by
  have hpre := choose_pre hP hl hlt hc hb
  obtain ⟨r, e, hv, hf⟩ := Prepare.prepare_inv (a := a.prep) (reset := s.reset) hpre
  obtain ⟨q1, q2⟩ := prepare_clean hv
  obtain ⟨y, hy⟩ := Prepare.prepare_xr s.xr e
  refine ⟨{ r with xr := y }, ?_, ?_, q1, q2, ?_, ?_, hv.incr⟩
  · unfold choose
    rw [if_pos (limits_pos hP.blk hlt), hy, Outcome.bind_ok]
  · have h1 := hv.room
    have h2 := hv.cap
    dsimp only at h2 ⊢
    omega
  · intro k hk
    obtain ⟨i, b, w1, w2, _, w4, w5⟩ := hv.block k hk
    have := hv.next
    dsimp only at this w5
    exact ⟨i, b, w1, by omega, w4⟩
  · intro hx k hk
    have hpre' := hpre
    obtain ⟨r', e', hv', _⟩ := Prepare.prepare_inv (a := a.prep) (reset := s.reset) (xr := s.xr)
      (⟨hpre.fits, hpre.old, hpre.block, hpre.room, hpre.wanted, hpre.sided, fun k hk => by
        obtain ⟨i, b, w1, w2, w3, _⟩ := hpre.here k hk
        exact ⟨i, b, w1, w2, w3, fun _ => by rw [hx k hk]; exact w1⟩, hpre.incr⟩)
    rw [hy] at e'
    have er : { r with xr := y } = r' := by injection e'
    subst er
    obtain ⟨i, b, w1, w2, _, w4, w5⟩ := hv'.block k hk
    rw [w5 rfl, w1]

theorem clean_of {P : Par} {s s' : St} (h : Clean P s) (hb : s.basisSize ≤ s'.basisSize)
    (hf : ∀ i, s.basisSize ≤ i → s'.flags[i]? = s.flags[i]?) : Clean P s' := by
  intro hp i h1 h2
  rintro ⟨f, h3, h4⟩
  rw [hf i (by omega)] at h3
  exact h hp i (by omega) h2 ⟨f, h3, h4⟩

theorem clean_locking {P : Par} {s : St} (h : P.locking = true) : Clean P s := by
  intro hp; rw [h] at hp; cases hp

/-- One turn of the inner loop. -/
theorem turn_inv {P : Par} {a : Ans} {s : St} (hP : Cfg P) (h : Inv P s) (hpc : s.pc = .inner)
    (hlt : s.basisSize < P.maxBasisSize) : ∃ s', turn P a s = .ok s' ∧ Inv P s' ∧ (s'.pc = .post ∨ s'.pc = .inner) := by
  have hh := h.here
  unfold AtPc at hh
  rw [hpc] at hh
  obtain ⟨hcv, hcn, hcl, hblk⟩ := hh
  have hlen := h.len
  obtain ⟨r, e, r1, r2, r3, r4, _, r5⟩ := choose_spec (P := P) (a := a) (s := { s with numOuter := s.numOuter + 1 }) hP h.len hlt hcn
    ⟨hblk.le, hblk.fits, hblk.small, hblk.wanted, hblk.here, hblk.incr⟩
  change choose P a (limits P s) { s with numOuter := s.numOuter + 1 } = _ at e
  change r.bs ≤ (limits P s).2 at r1
  have hav : (limits P s).2 ≤ P.maxBlockSize ∧ (limits P s).2 ≤ P.maxBasisSize - s.basisSize := by
    have := hP.blk
    unfold limits
    dsimp only
    split <;> dsimp only <;> omega
  have hpos := limits_pos (s := s) hP.blk hlt
  unfold turn
  rw [e, Outcome.bind_ok]
  dsimp only at r2 r3 r4
  -- the state after the choice
  generalize hs1 : ({ s with numOuter := s.numOuter + 1, flags := r.flags, iev := r.iev, xr := r.xr, nrm := r.nrm, reset := r.reset
                             blockSize := r.bs, numConverged := s.numConverged + r.recent, prepared := true } : St) = s1
  have p1 : s1.basisSize = s.basisSize := by rw [← hs1]
  have p2 : s1.blockSize = r.bs := by rw [← hs1]
  have p3 : s1.numConverged = s.numConverged + r.recent := by rw [← hs1]
  have p4 : s1.numLocked = s.numLocked := by rw [← hs1]
  have p5 : s1.numGuesses = s.numGuesses ∧ s1.nextGuess = s.nextGuess := by rw [← hs1]; exact ⟨rfl, rfl⟩
  have p6 : s1.flags = r.flags := by rw [← hs1]
  have p7 : s1.prepared = true := by rw [← hs1]
  have p8 : s1.iev = r.iev := by rw [← hs1]
  have hcl1 : Clean P s1 := clean_of hcl (by omega) (by rw [p6]; exact r3)
  clear hs1
  change ∃ s', proceed P a (limits P s).2 r.recent s1 = .ok s' ∧ _
  unfold proceed
  by_cases hlv : leave P a r.recent s1 = true
  · rw [if_pos hlv]
    refine ⟨_, rfl, ⟨by dsimp only; rw [p6, r2]; exact h.len, by dsimp only; omega, by dsimp only; have := h.dim; omega,
      left_of h.guesses p5 p4, by dsimp only; have := h.locked; omega, by dsimp only; rw [p4]; exact h.plain,
      by unfold AtPc; dsimp only; exact ⟨by omega, hcl1, by omega, Or.inl p7⟩⟩, Or.inl rfl⟩
  · rw [if_neg hlv]
    have hnc : s1.numConverged < P.numEvals := by
      unfold leave at hlv
      simp only [Bool.or_eq_true, decide_eq_true_eq, not_or, not_le] at hlv
      exact hlv.1.1.1.1
    unfold expand
    dsimp only
    generalize ht : attempts a.orth (P.n - P.numOrthoConst - s1.numLocked - s1.basisSize) (limits P s).2 10 0 s1.blockSize = t
    have hts := attempts_spec a.orth (P.n - P.numOrthoConst - s1.numLocked - s1.basisSize) (limits P s).2 10 0 s1.blockSize
    rw [ht] at hts
    have hpost : ∀ s' : St, s'.flags.length = P.maxBasisSize → s'.basisSize = s.basisSize → s'.numLocked = s.numLocked →
        (s'.numGuesses = s.numGuesses ∧ s'.nextGuess = s.nextGuess) → s.numLocked ≤ s'.numConverged → Clean P s' → s'.blockSize ≤ P.maxBlockSize →
        (s'.prepared = true ∨ s'.reset = true) → s'.pc = .post → Inv P s' := by
      intro s' w1 w2 w3 w4 w5 w6 w7 w8 w9
      refine ⟨w1, by have := h.fits; omega, by have := h.dim; omega, left_of h.guesses w4 w3, by rw [w3]; exact h.locked,
        by rw [w3]; exact h.plain, ?_⟩
      unfold AtPc
      rw [w9]
      refine ⟨by omega, w6, w7, ?_⟩
      rcases w8 with w8 | w8
      · exact Or.inl w8
      · exact Or.inr (Or.inl w8)
    by_cases h10 : 10 ≤ t.1
    · rw [if_pos h10]
      split
      · exact ⟨_, rfl, hpost _ (by dsimp only; rw [p6, r2]; exact h.len) p1 p4 p5 (by dsimp only; omega) hcl1
          (Nat.zero_le _) (Or.inl p7) rfl, Or.inl rfl⟩
      · exact ⟨_, rfl, hpost _ (by dsimp only; rw [p6, r2]; exact h.len) p1 p4 p5 (by dsimp only; omega) hcl1
          (Nat.zero_le _) (Or.inl p7) rfl, Or.inl rfl⟩
    · rw [if_neg h10]
      obtain ⟨t1, t2, t3⟩ := hts (by omega)
      have hb0 : s1.blockSize ≤ (limits P s).2 := by omega
      -- the state after the check for practical convergence
      have hpr : ∃ s2 : St, checkPract P a s1.blockSize { s1 with
            numMatvecs := s1.numMatvecs + (if 0 < s1.blockSize then a.corr else 0), xr := fun _ => none
            blockSize := t.2 } = .ok s2 ∧
          s2.flags.length = P.maxBasisSize ∧ s2.basisSize = s.basisSize ∧ s2.numLocked = s.numLocked ∧ (s2.numGuesses = s.numGuesses ∧ s2.nextGuess = s.nextGuess) ∧
          s.numLocked ≤ s2.numConverged ∧ s2.numConverged ≤ P.numEvals ∧ Clean P s2 ∧ s2.blockSize = t.2 ∧ s2.prepared = true := by
        unfold checkPract
        dsimp only
        by_cases hg : P.locking = true ∧ a.gd = true ∧ 0 < s1.numLocked
        · rw [if_pos hg]
          obtain ⟨f, c, q1, q2, q3, q4⟩ := practs_spec (P := P) a s1.blockSize 0 { s1 with
              numMatvecs := s1.numMatvecs + (if 0 < s1.blockSize then a.corr else 0), xr := fun _ => none, blockSize := t.2
              reset := s1.reset || (a.practBad && decide (0 < s1.blockSize)) } (by omega) (by dsimp only; omega) (by
            dsimp only
            intro k hk
            obtain ⟨i, b, w1, w2, _⟩ := r4 k (by omega)
            exact ⟨i, by rw [p8]; exact w1, by rw [p6, r2, hlen]; omega⟩)
          rw [q1]
          dsimp only at q2 q3
          exact ⟨_, rfl, by dsimp only; rw [q2, p6, r2]; exact h.len, p1, p4, p5, by dsimp only; omega, q4, clean_locking hg.1, rfl, p7⟩
        · rw [if_neg hg]
          exact ⟨_, rfl, by dsimp only; rw [p6, r2]; exact h.len, p1, p4, p5, by dsimp only; omega, by dsimp only; omega, hcl1, rfl, p7⟩
      obtain ⟨s2, e2, v1, v2, v3, v4, v5, v6, v7, v8, v9⟩ := hpr
      rw [e2, Outcome.bind_ok]
      have hdim := h.dim
      unfold grow
      by_cases hg2 : P.locking = true ∧ a.gd = true ∧ lockNow P s2 = true
      · rw [if_pos hg2]
        exact ⟨_, rfl, hpost _ v1 v2 v3 v4 v5 v7 (by dsimp only; omega) (Or.inl v9) rfl, Or.inl rfl⟩
      · rw [if_neg hg2, if_neg (by omega)]
        by_cases hqr : P.numQR = true ∧ ¬ a.qrOk = true
        · rw [if_pos hqr]
          exact ⟨_, rfl, hpost _ v1 v2 v3 v4 v5 v7 (Nat.zero_le _) (Or.inl v9) rfl, Or.inl rfl⟩
        · rw [if_neg hqr]
          have hcl3 : ∀ s' : St, s'.flags = s2.flags → s'.basisSize = s2.basisSize + s2.blockSize → Clean P s' := fun s' w1 w2 =>
            clean_of v7 (by omega) (by intro i _; rw [w1])
          by_cases hre : 1 < s2.sinceReset ∧ a.refErr = true
          · rw [if_pos hre]
            refine ⟨_, rfl, ⟨v1, by dsimp only; omega, by dsimp only; omega, left_of h.guesses v4 v3,
              by dsimp only; rw [v3]; exact h.locked, by dsimp only; rw [v3]; exact h.plain, ?_⟩, Or.inl rfl⟩
            unfold AtPc
            dsimp only
            exact ⟨by omega, hcl3 _ rfl rfl, Nat.zero_le _, Or.inr (Or.inl rfl)⟩
          · rw [if_neg hre]
            refine ⟨_, rfl, ⟨v1, by dsimp only; omega, by dsimp only; omega, left_of h.guesses v4 v3,
              by dsimp only; rw [v3]; exact h.locked, by dsimp only; rw [v3]; exact h.plain, ?_⟩, Or.inr rfl⟩
            unfold AtPc
            dsimp only
            exact ⟨by omega, v6, hcl3 _ rfl rfl, block_empty (by dsimp only; omega) rfl⟩

/-! ## Before a restart -/

/-- Requirements of `prepare_candidates` before a restart. -/
theorem before_pre {P : Par} {s : St} (hP : Cfg P) (hl : s.flags.length = P.maxBasisSize) (hf : s.basisSize ≤ P.maxBasisSize)
    (hdim : s.basisSize + s.numLocked + P.numOrthoConst ≤ P.n) (hcv : s.numLocked ≤ s.numConverged)
    (hc : s.numConverged ≤ P.numEvals) (hb : Block P s) :
    (limits2 P s).2 ≤ P.maxBlockSize ∧
    Prepare.Pre P.toPar ⟨s.basisSize, s.numLocked, s.numConverged, (limits2 P s).1, (limits2 P s).2, 0, false⟩
      s.blockSize s.flags s.iev s.xr s.nrm := by
  have h1 := hb.le
  have h2 := hb.fits
  have h3 := hb.wanted
  have h5 := hb.small
  have h4 := hP.blk
  have hmax : (limits2 P s).2 ≤ P.maxBlockSize := by
    unfold limits2
    dsimp only
    split_ifs <;> dsimp only <;> omega
  refine ⟨hmax, by dsimp only; omega, ?_, hmax, by simp, fun w => ?_, hP.sided, ?_, hb.incr⟩
  · dsimp only
    unfold limits2
    dsimp only
    split_ifs <;> dsimp only <;> omega
  · dsimp only at w ⊢
    unfold limits2 at w ⊢
    dsimp only at w ⊢
    split_ifs at w ⊢ <;> dsimp only at w ⊢ <;> omega
  · intro k hk
    obtain ⟨i, b, w1, w2, w3⟩ := hb.here k hk
    exact ⟨i, b, w1, w2, w3, by simp⟩

theorem recount_bounds (P : Par) (nl : ℕ) : ∀ (fs : List Flag) (i nc : ℕ), nc ≤ P.numEvals →
    nc ≤ recount P nl i nc fs ∧ recount P nl i nc fs ≤ P.numEvals ∧
    recount P nl i nc fs ≤ nc + fs.countP (fun f => decide (f ≠ .unconverged)) := by
  intro fs
  induction fs with
  | nil => intro i nc h; simp [recount, h]
  | cons f fs ih =>
    intro i nc h
    unfold recount
    rw [List.countP_cons]
    by_cases hc : f ≠ .unconverged ∧ nc < P.numEvals ∧ Restart.eligible P.toPar nl i = true
    · rw [if_pos hc, if_pos (by simpa using hc.1)]
      obtain ⟨h1, h2, h3⟩ := ih (i + 1) (nc + 1) (by omega)
      omega
    · rw [if_neg hc]
      obtain ⟨h1, h2, h3⟩ := ih (i + 1) nc h
      omega

/-- Number of positions from `i` to `i + m` that are in the block. -/
def inBlock (bs : ℕ) (iev : Arr) (i : ℕ) : Bool := (List.range bs).any (fun j => iev j == some i)

theorem inBlock_iff {bs : ℕ} {iev : Arr} {i : ℕ} : inBlock bs iev i = true ↔ ∃ j, j < bs ∧ iev j = some i := by
  simp [inBlock]

/-- The new order is completely written: see main_iter.c:1028-1041. -/
theorem regroup_spec {b c bs : ℕ} {iev : Arr} : ∀ (fs : List Flag) (i k l m : ℕ) (w : Arr),
    i + fs.length = b → k + l = i →
    (∀ t, t < fs.length → inBlock bs iev (i + t) = true → fs[t]? = some .unconverged) →
    k + min (c - m) (fs.countP (fun f => decide (f ≠ .unconverged))) + (List.range fs.length).countP (fun t => inBlock bs iev (i + t)) = c + bs →
    c + bs ≤ b →
    (∀ t, t < k → ∃ v, w t = some v ∧ v < b) → (∀ t, c + bs ≤ t → t < c + bs + l → ∃ v, w t = some v ∧ v < b) →
    ∃ w', regroup b c bs iev fs i k l m w = .ok w' ∧ ∀ t, t < b → ∃ v, w' t = some v ∧ v < b := by
  intro fs
  induction fs with
  | nil =>
    intro i k l m w hi hkl _ hk hcb hw1 hw2
    refine ⟨w, rfl, fun t ht => ?_⟩
    simp at hi hk
    by_cases htk : t < k
    · exact hw1 t htk
    · exact hw2 t (by omega) (by omega)
  | cons f fs ih =>
    intro i k l m w hi hkl hin hk hcb hw1 hw2
    have hrange : (List.range (f :: fs).length).countP (fun t => inBlock bs iev (i + t)) =
        (if inBlock bs iev i = true then 1 else 0) + (List.range fs.length).countP (fun t => inBlock bs iev (i + 1 + t)) := by
      rw [List.length_cons, List.range_succ_eq_map, List.countP_cons, List.countP_map]
      rw [Nat.add_comm]
      congr 1
      apply List.countP_congr
      intro t _
      simp only [Function.comp, Nat.succ_eq_add_one]
      rw [show i + (t + 1) = i + 1 + t by omega]
    rw [hrange, List.countP_cons] at hk
    have hin' : ∀ t, t < fs.length → inBlock bs iev (i + 1 + t) = true → fs[t]? = some .unconverged := by
      intro t ht hb
      have := hin (t + 1) (by simp; omega) (by rw [show i + (t + 1) = i + 1 + t by omega]; exact hb)
      simpa using this
    have h0 : inBlock bs iev i = true → f = .unconverged := by
      intro hb
      have := hin 0 (by simp) (by simpa using hb)
      simpa using this
    have hi' : i + 1 + fs.length = b := by simp at hi; omega
    have hle : (List.range fs.length).countP (fun t => inBlock bs iev (i + 1 + t)) ≤ fs.length := by
      have := List.countP_le_length (p := fun t => inBlock bs iev (i + 1 + t)) (l := List.range fs.length)
      simpa using this
    have hsum : ∀ gs : List Flag, ∀ i', (∀ t, t < gs.length → inBlock bs iev (i' + t) = true → gs[t]? = some .unconverged) →
        gs.countP (fun f => decide (f ≠ .unconverged)) + (List.range gs.length).countP (fun t => inBlock bs iev (i' + t)) ≤ gs.length := by
      intro gs
      induction gs with
      | nil => intro i' _; simp
      | cons g gs ihg =>
        intro i' hg
        have hr : (List.range (g :: gs).length).countP (fun t => inBlock bs iev (i' + t)) =
            (if inBlock bs iev i' = true then 1 else 0) + (List.range gs.length).countP (fun t => inBlock bs iev (i' + 1 + t)) := by
          rw [List.length_cons, List.range_succ_eq_map, List.countP_cons, List.countP_map]
          rw [Nat.add_comm]
          congr 1
          apply List.countP_congr
          intro t _
          simp only [Function.comp, Nat.succ_eq_add_one]
          rw [show i' + (t + 1) = i' + 1 + t by omega]
        rw [hr, List.countP_cons]
        have := ihg (i' + 1) (by
          intro t ht hb
          have := hg (t + 1) (by simp; omega) (by rw [show i' + (t + 1) = i' + 1 + t by omega]; exact hb)
          simpa using this)
        have h0 : inBlock bs iev i' = true → g = .unconverged := by
          intro hb
          have := hg 0 (by simp) (by simpa using hb)
          simpa using this
        by_cases hb : inBlock bs iev i' = true
        · have hgu := h0 hb
          subst hgu
          simp [hb]
          simp at this
          omega
        · simp [hb]
          simp at this
          split_ifs <;> omega
    have htail := hsum fs (i + 1) hin'
    unfold regroup
    change ∃ w', (if ((decide (f ≠ .unconverged) && decide (m < c)) || inBlock bs iev i) = true then _ else _) = _ ∧ _
    by_cases hacc : f ≠ .unconverged
    · have hnb : ¬ inBlock bs iev i = true := fun hb => hacc (h0 hb)
      have hb0 : inBlock bs iev i = false := by simpa using hnb
      rw [if_pos (by simpa using hacc), if_neg hnb] at hk
      by_cases hm : m < c
      · rw [if_pos (by simp [hacc, hm])]
        have hwr : Restart.wr b w k i = .ok (fun t => if (t : Int) = (k : Int) then some i else w t) := by
          unfold Restart.wr; rw [if_pos (by omega)]
        rw [hwr, Outcome.bind_ok, if_pos (by simpa using hacc)]
        refine ih (i + 1) (k + 1) l (m + 1) _ hi' (by omega) hin' (by omega) hcb ?_ ?_
        · intro t ht
          by_cases htk : t = k
          · subst htk; rw [if_pos rfl]; exact ⟨i, rfl, by omega⟩
          · rw [if_neg (by omega)]; exact hw1 t (by omega)
        · intro t h1 h2
          by_cases htk : t = k
          · subst htk; rw [if_pos rfl]; exact ⟨i, rfl, by omega⟩
          · rw [if_neg (by omega)]; exact hw2 t h1 h2
      · rw [if_neg (by simp [hm, hb0])]
        have hwr : Restart.wr b w ((c + bs + l : ℕ) : Int) i = .ok (fun t => if (t : Int) = ((c + bs + l : ℕ) : Int) then some i else w t) := by
          unfold Restart.wr; rw [if_pos (by omega)]
        rw [hwr, Outcome.bind_ok, if_pos (by simpa using hacc)]
        refine ih (i + 1) k (l + 1) (m + 1) _ hi' (by omega) hin' (by omega) hcb ?_ ?_
        · intro t ht
          by_cases htk : t = c + bs + l
          · subst htk; rw [if_pos rfl]; exact ⟨i, rfl, by omega⟩
          · rw [if_neg (by omega)]; exact hw1 t (by omega)
        · intro t h1 h2
          by_cases htk : t = c + bs + l
          · subst htk; rw [if_pos rfl]; exact ⟨i, rfl, by omega⟩
          · rw [if_neg (by omega)]; exact hw2 t h1 (by omega)
    · have hfu : f = .unconverged := by simpa using hacc
      rw [if_neg (by simpa using hfu)] at hk
      by_cases hb : inBlock bs iev i = true
      · rw [if_pos (by simp [hb])]
        rw [if_pos hb] at hk
        have hwr : Restart.wr b w k i = .ok (fun t => if (t : Int) = (k : Int) then some i else w t) := by
          unfold Restart.wr; rw [if_pos (by omega)]
        rw [hwr, Outcome.bind_ok, if_neg (by simpa using hfu)]
        refine ih (i + 1) (k + 1) l m _ hi' (by omega) hin' (by omega) hcb ?_ ?_
        · intro t ht
          by_cases htk : t = k
          · subst htk; rw [if_pos rfl]; exact ⟨i, rfl, by omega⟩
          · rw [if_neg (by omega)]; exact hw1 t (by omega)
        · intro t h1 h2
          by_cases htk : t = k
          · subst htk; rw [if_pos rfl]; exact ⟨i, rfl, by omega⟩
          · rw [if_neg (by omega)]; exact hw2 t h1 h2
      · rw [if_neg (by simp [hfu, hb])]
        rw [if_neg hb] at hk
        have hwr : Restart.wr b w ((c + bs + l : ℕ) : Int) i = .ok (fun t => if (t : Int) = ((c + bs + l : ℕ) : Int) then some i else w t) := by
          unfold Restart.wr; rw [if_pos (by omega)]
        rw [hwr, Outcome.bind_ok, if_neg (by simpa using hfu)]
        refine ih (i + 1) k (l + 1) m _ hi' (by omega) hin' (by omega) hcb ?_ ?_
        · intro t ht
          by_cases htk : t = c + bs + l
          · subst htk; rw [if_pos rfl]; exact ⟨i, rfl, by omega⟩
          · rw [if_neg (by omega)]; exact hw1 t (by omega)
        · intro t h1 h2
          by_cases htk : t = c + bs + l
          · subst htk; rw [if_pos rfl]; exact ⟨i, rfl, by omega⟩
          · rw [if_neg (by omega)]; exact hw2 t h1 (by omega)

/-- No pair is put at two places. -/
theorem regroup_inj {b c bs : ℕ} {iev : Arr} : ∀ (fs : List Flag) (i k l m : ℕ) (w w' : Arr),
    (∀ t v, w t = some v → v < i) → (∀ t u v, w t = some v → w u = some v → t = u) →
    regroup b c bs iev fs i k l m w = .ok w' → ∀ t u v, w' t = some v → w' u = some v → t = u := by
  intro fs
  induction fs with
  | nil => intro i k l m w w' _ h e; cases e; exact h
  | cons f fs ih =>
    intro i k l m w w' hlt hinj e
    have key : ∀ (p : Int) (k' l' m' : ℕ), (Restart.wr b w p i >>= fun w => regroup b c bs iev fs (i + 1) k' l' m' w) = .ok w' →
        ∀ t u v, w' t = some v → w' u = some v → t = u := by
      intro p k' l' m' e
      unfold Restart.wr at e
      by_cases hp : 0 ≤ p ∧ p < b
      · rw [if_pos hp, Outcome.bind_ok] at e
        refine ih (i + 1) k' l' m' _ w' ?_ ?_ e
        · intro t v ht
          by_cases hq : (t : Int) = p
          · rw [if_pos hq] at ht; cases ht; omega
          · rw [if_neg hq] at ht; have := hlt t v ht; omega
        · intro t u v ht hu
          by_cases hq : (t : Int) = p
          · rw [if_pos hq] at ht
            cases ht
            by_cases hq' : (u : Int) = p
            · omega
            · rw [if_neg hq'] at hu; have := hlt u _ hu; omega
          · rw [if_neg hq] at ht
            by_cases hq' : (u : Int) = p
            · rw [if_pos hq'] at hu; cases hu; have := hlt t _ ht; omega
            · rw [if_neg hq'] at hu; exact hinj t u v ht hu
      · rw [if_neg hp] at e; cases e
    unfold regroup at e
    dsimp only at e
    split at e
    · exact key _ _ _ _ e
    · exact key _ _ _ _ e

theorem inBlock_count {b bs : ℕ} {iev : Arr} (h : ∀ k, k < bs → ∃ i, iev k = some i ∧ i < b)
    (hinc : ∀ k l i j, k < l → l < bs → iev k = some i → iev l = some j → i < j) :
    (List.range b).countP (fun t => inBlock bs iev t) = bs := by
  have hperm : ((List.range b).filter (fun t => inBlock bs iev t)).Perm ((List.range bs).map (fun k => (iev k).getD 0)) := by
    refine (List.perm_ext_iff_of_nodup (List.nodup_range.filter _) ?_).2 ?_
    · rw [List.nodup_iff_pairwise_ne, List.pairwise_map]
      refine (List.pairwise_lt_range (n := bs)).imp_of_mem ?_
      intro k l hk hl hkl
      rw [List.mem_range] at hk hl
      obtain ⟨i, h1, _⟩ := h k hk
      obtain ⟨j, h2, _⟩ := h l hl
      have := hinc k l i j hkl hl h1 h2
      rw [h1, h2]
      simp only [Option.getD_some]
      omega
    · intro x
      simp only [List.mem_filter, List.mem_range, List.mem_map, inBlock_iff]
      constructor
      · rintro ⟨hx, j, hj, he⟩
        exact ⟨j, hj, by rw [he]; rfl⟩
      · rintro ⟨j, hj, he⟩
        obtain ⟨i, h1, h2⟩ := h j hj
        rw [h1] at he
        simp only [Option.getD_some] at he
        subst he
        exact ⟨h2, j, hj, h1⟩
  rw [List.countP_eq_length_filter, hperm.length_eq]
  simp

/-- `s'` differs from `s` only in the block, the flags and the number of converged pairs. -/
def Same (s s' : St) : Prop :=
  s' = { s with blockSize := s'.blockSize, numConverged := s'.numConverged, flags := s'.flags, iev := s'.iev, xr := s'.xr
                nrm := s'.nrm, reset := s'.reset }

theorem Same.size {s s' : St} (h : Same s s') : s'.basisSize = s.basisSize := by have := congrArg St.basisSize h; exact this
theorem Same.locked {s s' : St} (h : Same s s') : s'.numLocked = s.numLocked := by have := congrArg St.numLocked h; exact this
theorem Same.guesses {s s' : St} (h : Same s s') : s'.numGuesses = s.numGuesses ∧ s'.nextGuess = s.nextGuess :=
  ⟨by have := congrArg St.numGuesses h; exact this, by have := congrArg St.nextGuess h; exact this⟩
theorem Same.counters {s s' : St} (h : Same s s') : s'.numMatvecs = s.numMatvecs ∧ s'.numOuter = s.numOuter ∧
    s'.wholeSpace = s.wholeSpace ∧ s'.sinceReset = s.sinceReset ∧ s'.numRestarts = s.numRestarts :=
  ⟨by have := congrArg St.numMatvecs h; exact this, by have := congrArg St.numOuter h; exact this, by have := congrArg St.wholeSpace h; exact this, by have := congrArg St.sinceReset h; exact this, by have := congrArg St.numRestarts h; exact this⟩
theorem Same.results {s s' : St} (h : Same s s') : s'.initSize = s.initSize ∧ s'.numRet = s.numRet ∧ s'.ret = s.ret ∧ s'.out = s.out :=
  ⟨by have := congrArg St.initSize h; exact this, by have := congrArg St.numRet h; exact this, by have := congrArg St.ret h; exact this, by have := congrArg St.out h; exact this⟩
theorem Same.refl (s : St) : Same s s := rfl
theorem Same.trans {s s' s'' : St} (h : Same s s') (h' : Same s' s'') : Same s s'' := by
  unfold Same at *
  rw [h] at h'
  exact h'

/-- What follows the call of `prepare_candidates` before a restart goes well. -/
theorem settle_spec {P : Par} {s : St} {r : Prepare.St} (hl : r.flags.length = P.maxBasisSize) (hf : s.basisSize ≤ P.maxBasisSize)
    (hlk : s.numLocked ≤ P.numEvals)
    (hb : ∀ k, k < r.bs → ∃ i, r.iev k = some i ∧ i < s.basisSize ∧ r.flags[i]? = some .unconverged)
    (hinc : ∀ k l i j, k < l → l < r.bs → r.iev k = some i → r.iev l = some j → i < j) :
    ∃ s', settle P s r = .ok s' ∧ s'.flags.length = P.maxBasisSize ∧ (∀ i, s.basisSize ≤ i → s'.flags[i]? = r.flags[i]?) ∧
      Same s s' ∧ s.numLocked ≤ s'.numConverged ∧ s'.numConverged ≤ P.numEvals ∧ s'.blockSize ≤ r.bs ∧ s'.reset = r.reset := by
  unfold settle
  dsimp only
  generalize hbs : (if P.numQR = true ∧ s.numLocked < s.numConverged + r.recent ∧ s.numLocked + 1 < P.numTargetShifts then 0 else r.bs) = bs
  have hbs' : bs ≤ r.bs := by rw [← hbs]; split <;> omega
  obtain ⟨c1, c2, c3⟩ := recount_bounds P s.numLocked (r.flags.take s.basisSize) 0 s.numLocked hlk
  generalize recount P s.numLocked 0 s.numLocked (r.flags.take s.basisSize) = nc at *
  have hlen : (r.flags.take s.basisSize).length = s.basisSize := by simp; omega
  have hcnt := inBlock_count (b := s.basisSize) (bs := bs) (iev := r.iev)
    (fun k hk => by obtain ⟨i, w1, w2, _⟩ := hb k (by omega); exact ⟨i, w1, w2⟩)
    (fun k l i j w1 w2 => hinc k l i j w1 (by omega))
  have hun : ∀ t, t < (r.flags.take s.basisSize).length → inBlock bs r.iev (0 + t) = true →
      (r.flags.take s.basisSize)[t]? = some .unconverged := by
    intro t ht hin
    rw [Nat.zero_add, inBlock_iff] at hin
    obtain ⟨j, hj, he⟩ := hin
    obtain ⟨i, w1, w2, w3⟩ := hb j (by omega)
    rw [he] at w1
    cases w1
    rw [List.getElem?_take, if_pos w2]
    exact w3
  have hsum : ∀ gs : List Flag, ∀ i', (∀ t, t < gs.length → inBlock bs r.iev (i' + t) = true → gs[t]? = some .unconverged) →
      gs.countP (fun f => decide (f ≠ .unconverged)) + (List.range gs.length).countP (fun t => inBlock bs r.iev (i' + t)) ≤ gs.length := by
    intro gs
    induction gs with
    | nil => intro i' _; simp
    | cons g gs ihg =>
      intro i' hg
      have hr : (List.range (g :: gs).length).countP (fun t => inBlock bs r.iev (i' + t)) =
          (if inBlock bs r.iev i' = true then 1 else 0) + (List.range gs.length).countP (fun t => inBlock bs r.iev (i' + 1 + t)) := by
        rw [List.length_cons, List.range_succ_eq_map, List.countP_cons, List.countP_map]
        rw [Nat.add_comm]
        congr 1
        apply List.countP_congr
        intro t _
        simp only [Function.comp, Nat.succ_eq_add_one]
        rw [show i' + (t + 1) = i' + 1 + t by omega]
      rw [hr, List.countP_cons]
      have := ihg (i' + 1) (by
        intro t ht hb
        have := hg (t + 1) (by simp; omega) (by rw [show i' + (t + 1) = i' + 1 + t by omega]; exact hb)
        simpa using this)
      have h0 : inBlock bs r.iev i' = true → g = .unconverged := by
        intro hb
        have := hg 0 (by simp) (by simpa using hb)
        simpa using this
      by_cases hb : inBlock bs r.iev i' = true
      · have hgu := h0 hb
        subst hgu
        simp [hb]
        simp at this
        omega
      · simp [hb]
        simp at this
        split_ifs <;> omega
  have htot := hsum (r.flags.take s.basisSize) 0 hun
  rw [hlen] at htot
  simp only [Nat.zero_add] at htot
  rw [hcnt] at htot
  obtain ⟨w, e, hw⟩ := regroup_spec (b := s.basisSize) (c := nc - s.numLocked) (bs := bs) (iev := r.iev)
    (r.flags.take s.basisSize) 0 0 0 0 (fun _ => none) (by rw [hlen]; omega) rfl hun
    (by rw [hlen]; simp only [Nat.zero_add, Nat.sub_zero]; rw [hcnt]; omega) (by omega) (by omega) (by omega)
  rw [e, Outcome.bind_ok]
  have hinj := regroup_inj _ _ _ _ _ _ w (by simp) (by simp) e
  have hperm : (∀ i ∈ List.range s.basisSize, ∃ v ∈ List.range s.basisSize, w i = some v) ∧ ((List.range s.basisSize).map w).Nodup := by
    refine ⟨fun i hi => ?_, ?_⟩
    · obtain ⟨v, h1, h2⟩ := hw i (List.mem_range.1 hi)
      exact ⟨v, List.mem_range.2 h2, h1⟩
    · rw [List.nodup_iff_pairwise_ne, List.pairwise_map]
      refine (List.pairwise_lt_range (n := s.basisSize)).imp_of_mem ?_
      intro k l hk hl hkl
      rw [List.mem_range] at hk hl
      obtain ⟨v, h1, _⟩ := hw k hk
      intro he
      rw [h1] at he
      have := hinj k l v h1 he.symm
      omega
  unfold permuteFlags
  rw [if_pos hperm, Outcome.bind_ok]
  refine ⟨_, rfl, by dsimp only; simp [hl], ?_, rfl, c1, c2, hbs', rfl⟩
  intro i hi
  dsimp only
  by_cases hlt : i < r.flags.length
  · rw [List.getElem?_map, List.getElem?_range hlt, Option.map_some, if_neg (by omega), List.getElem?_eq_getElem hlt]
    simp [List.getD, hlt]
  · rw [List.getElem?_eq_none (by simp; omega), List.getElem?_eq_none (by omega)]

/-- What holds when a restart begins. -/
structure Ready (P : Par) (s0 s : St) : Prop where
  len : s.flags.length = P.maxBasisSize
  same : Same s0 s
  conv : s.numLocked ≤ s.numConverged
  clean : Clean P s
  blk : s.blockSize ≤ P.maxBlockSize

theorem before_spec {P : Par} {a : Ans} {s : St} (hP : Cfg P) (hl : s.flags.length = P.maxBasisSize) (hf : s.basisSize ≤ P.maxBasisSize)
    (hdim : s.basisSize + s.numLocked + P.numOrthoConst ≤ P.n) (hlk : s.numLocked ≤ P.numEvals) (hcv : s.numLocked ≤ s.numConverged)
    (hc : s.numConverged ≤ P.numEvals) (hcl : Clean P s) (hb : Block P s) : ∃ s', before P a s = .ok s' ∧ Ready P s s' := by
  obtain ⟨hmax, hpre⟩ := before_pre hP hl hf hdim hcv hc hb
  unfold before
  dsimp only
  split
  · obtain ⟨r, e, hv, hfull⟩ := Prepare.prepare_inv (a := a.prep2) (reset := s.reset) hpre
    obtain ⟨q1, q2⟩ := prepare_clean hv
    have hcap := hv.cap
    have hroom := hv.room
    dsimp only at hcap
    rw [e, Outcome.bind_ok]
    obtain ⟨s', e', g1, g2, g3, g4, g5, g6, g7⟩ := settle_spec (P := P) (s := s) (r := r) (by rw [q1]; exact hl) hf hlk (by
      intro k hk
      obtain ⟨i, b, w1, w2, w3, _⟩ := hv.block k hk
      have := hv.next
      dsimp only at this
      exact ⟨i, w1, by omega, w3⟩) hv.incr
    have g8 := g3.size
    have g9 := g3.locked
    refine ⟨s', e', g1, g3, by omega, ?_, by omega⟩
    exact clean_of hcl (by omega) (by intro i hi; rw [g2 i hi]; exact q2 i hi)
  · rw [if_neg (by omega)]
    exact ⟨_, rfl, hl, rfl, hcv, hcl, hmax⟩

/-! ## The restart -/

theorem answers_possible {P : Par} {a : Ans} (ha : a.Ok) (s : St) :
    Restart.Possible P.toPar (answers P a s) s.basisSize s.numLocked s.flags s.numGuesses := by
  unfold Restart.Possible answers
  dsimp only
  refine ha.retain _ _ _ ?_
  unfold Restart.sizes
  dsimp only
  omega

theorem left_nonneg (s : St) : (0 : Int) ≤ s.numGuesses := Int.natCast_nonneg _

/-- The restart is well defined, and there is room for the guesses that follow. -/
theorem restart_use {P : Par} {a : Ans} {s : St} (ha : a.Ok) (hP : Cfg P) (hl : s.flags.length = P.maxBasisSize)
    (hf : s.basisSize ≤ P.maxBasisSize) (hg : Left P s) (hlk : s.numLocked ≤ P.numEvals)
    (hpl : P.locking = false → s.numLocked = 0) (hcl : Clean P s) :
    ∃ r, Restart.restart P.toPar (answers P a s) s.basisSize s.numLocked s.flags s.blockSize s.iev s.numGuesses = .ok r ∧
      Restart.Restarted P.toPar s.basisSize s.numLocked s.flags r ∧
      (0 < s.numGuesses → r.basisSize + (r.numLocked - s.numLocked) + r.ievSize ≤ P.maxBasisSize ∧
        P.locking = true ∧ P.maxBasisSize + P.numEvals + P.numOrthoConst ≤ P.n ∧
        s.nextGuess = P.numOrthoConst + P.minRestartSize + s.numLocked) := by
  have hpos := answers_possible (P := P) ha s
  cases hlock : P.locking with
  | false =>
    have hz := hpl hlock
    have hg0 : s.numGuesses = 0 := by
      rcases hg with h | ⟨h, _⟩
      · exact h
      · rw [hlock] at h; cases h
    rw [hz] at hpos ⊢
    rw [hg0] at hpos ⊢
    obtain ⟨r, e, hr⟩ := Restart.restart_soft_use P.toPar (answers P a s) s.basisSize s.flags s.blockSize s.iev
      ⟨hlock, hl, hf, (hP.soft hlock).2, hcl hlock, Int.le_refl _, hpos⟩ (hP.soft hlock).1
    exact ⟨r, e, hr, by omega⟩
  | true =>
    obtain ⟨r, e, hr, h1, _⟩ := Restart.restart_hard_use P.toPar (answers P a s) s.basisSize s.numLocked s.flags s.blockSize s.iev
      s.numGuesses ⟨hlock, hl, hf, hlk, left_nonneg s, hpos⟩
    refine ⟨r, e, hr, fun w => ⟨h1, rfl, ?_⟩⟩
    rcases hg with h | ⟨_, h2, h3⟩
    · omega
    · exact ⟨h2, h3⟩

/-- Insertion of guesses after a restart. -/
theorem insert_spec {P : Par} {a : Ans} {s : St} {r : Restart.Result} (hf : s.basisSize ≤ P.maxBasisSize)
    (hr : Restart.Restarted P.toPar s.basisSize s.numLocked s.flags r)
    (hg : 0 < s.numGuesses → r.basisSize + (r.numLocked - s.numLocked) + r.ievSize ≤ P.maxBasisSize ∧
        P.locking = true ∧ P.maxBasisSize + P.numEvals + P.numOrthoConst ≤ P.n ∧
        s.nextGuess = P.numOrthoConst + P.minRestartSize + s.numLocked) :
    ∃ k m x, insertGuesses P a (restarted s r) = .ok { restarted s r with
        basisSize := r.basisSize.toNat + k, nextGuess := s.nextGuess + m, numGuesses := s.numGuesses - m
        numMatvecs := s.numMatvecs + k, xr := x } ∧ k ≤ m ∧ m ≤ r.numLocked - s.numLocked ∧
      (s.numGuesses = 0 → k = 0 ∧ m = 0 ∧ x = (restarted s r).xr) ∧
      (0 < s.numGuesses → m = min (r.numLocked - s.numLocked) s.numGuesses) := by
  have h1 := hr.pos
  have h2 := hr.le
  obtain ⟨h3, h4, h5⟩ := hr.locked
  by_cases hz : s.numGuesses = 0
  · refine ⟨0, 0, (restarted s r).xr, ?_, Nat.le_refl _, Nat.zero_le _, fun _ => ⟨rfl, rfl, rfl⟩, by omega⟩
    unfold insertGuesses
    rw [if_pos (by show s.numGuesses = 0; exact hz)]
    rfl
  · obtain ⟨q1, q2, q3, q4⟩ := hg (by omega)
    have hc := hr.convLocked q2
    have hiev := hr.blk
    have hm : numNew P (restarted s r) = min (r.numLocked - s.numLocked) s.numGuesses := by
      unfold numNew
      show (max 0 (min ((r.basisSize.toNat : Int) + (max 0 (min ((r.basisSize.toNat : Int) + (max 0 (min
          ((P.minRestartSize : Int) + (r.numConverged : ℕ) - ((s.nextGuess : Int) - P.numOrthoConst)) s.numGuesses))) P.maxBasisSize - r.basisSize.toNat))
          + P.numOrthoConst + (r.numLocked : ℕ)) P.n - P.numOrthoConst - (r.numLocked : ℕ) - r.basisSize.toNat)).toNat = _
      have e1 : (P.minRestartSize : Int) + (r.numConverged : ℕ) - ((s.nextGuess : Int) - P.numOrthoConst) = ((r.numLocked - s.numLocked : ℕ) : Int) := by
        rw [hc, q4]; push_cast; omega
      rw [e1]
      generalize hd : r.numLocked - s.numLocked = d at *
      have e2 : (max 0 (min ((d : ℕ) : Int) s.numGuesses)) = ((min d s.numGuesses : ℕ) : Int) := by omega
      rw [e2]
      generalize hmm : min d s.numGuesses = m at *
      have hmd : m ≤ d := by omega
      have hbb : (r.basisSize.toNat : Int) = r.basisSize := by omega
      have e3 : (max 0 (min ((r.basisSize.toNat : Int) + (m : ℕ)) P.maxBasisSize - r.basisSize.toNat)) = (m : Int) := by omega
      rw [e3]
      have e4 : r.numLocked ≤ P.numEvals := h4
      omega
    have hx : numNew P (restarted s r) ≤ r.numLocked - s.numLocked := by rw [hm]; omega
    refine ⟨min a.guess (numNew P (restarted s r)), numNew P (restarted s r),
      if 0 < numNew P (restarted s r) then fun _ => none else (restarted s r).xr, ?_, Nat.min_le_right _ _, hx, fun w => absurd w hz,
      fun _ => hm⟩
    · unfold insertGuesses
      rw [if_neg (by show ¬ s.numGuesses = 0; exact hz)]
      dsimp only
      rw [if_neg (by show ¬ P.maxBasisSize < r.basisSize.toNat + _; omega)]
      rfl

/-- The state after a restart. -/
theorem restartStep_spec {P : Par} {a : Ans} {s : St} (ha : a.Ok) (hP : Cfg P) (hl : s.flags.length = P.maxBasisSize)
    (hf : s.basisSize ≤ P.maxBasisSize) (hdim : s.basisSize + s.numLocked + P.numOrthoConst ≤ P.n) (hg : Left P s)
    (hlk : s.numLocked ≤ P.numEvals) (hpl : P.locking = false → s.numLocked = 0) (hcl : Clean P s) :
    ∃ r k m x, Restart.restart P.toPar (answers P a s) s.basisSize s.numLocked s.flags s.blockSize s.iev s.numGuesses = .ok r ∧
      Restart.Restarted P.toPar s.basisSize s.numLocked s.flags r ∧
      restartStep P a s = .ok { restarted s r with
        basisSize := r.basisSize.toNat + k, nextGuess := s.nextGuess + m, numGuesses := s.numGuesses - m
        numMatvecs := s.numMatvecs + k, xr := x, numRestarts := s.numRestarts + 1, initSize := r.numConverged, pc := .restart } ∧
      Inv P { restarted s r with
        basisSize := r.basisSize.toNat + k, nextGuess := s.nextGuess + m, numGuesses := s.numGuesses - m
        numMatvecs := s.numMatvecs + k, xr := x, numRestarts := s.numRestarts + 1, initSize := r.numConverged, pc := .restart } ∧
      k ≤ m ∧ m ≤ r.numLocked - s.numLocked ∧ m ≤ s.numGuesses ∧ (s.numGuesses = 0 → x = (restarted s r).xr) := by
  obtain ⟨r, e, hr, hroom⟩ := restart_use ha hP hl hf hg hlk hpl hcl
  obtain ⟨k, m, x, ei, hkm, hmn, hz, hpos⟩ := insert_spec (a := a) hf hr hroom
  have h1 := hr.pos
  have h2 := hr.le
  obtain ⟨h3, h4, h5⟩ := hr.locked
  have h6 := hr.dim
  have h7 := hr.conv
  have h8 := hr.blk
  have h9 := hr.fits
  have h10 := hr.block_le
  have hmg : m ≤ s.numGuesses := by
    by_cases w : s.numGuesses = 0
    · have := (hz w).2.1; omega
    · have := hpos (by omega); omega
  have hin : r.basisSize.toNat + k + r.ievSize.toNat ≤ P.maxBasisSize ∧ r.basisSize.toNat + k + r.numLocked + P.numOrthoConst ≤ P.n := by
    by_cases w : s.numGuesses = 0
    · have := (hz w).1; omega
    · obtain ⟨q1, q2, q3, q4⟩ := hroom (by omega)
      have e4 : r.numLocked ≤ P.numEvals := h4
      omega
  refine ⟨r, k, m, x, e, hr, ?_, ?_, hkm, hmn, hmg, fun w => (hz w).2.2⟩
  · unfold restartStep
    rw [e, Outcome.bind_ok, if_neg (by omega), ei, Outcome.bind_ok]
    rfl
  · refine ⟨by show r.flags.length = _; rw [hr.len]; exact hl, by show r.basisSize.toNat + k ≤ _; omega,
      by show r.basisSize.toNat + k + r.numLocked + _ ≤ _; omega, ?_, h4, fun w => by show r.numLocked = 0; rw [hr.lockedSoft w]; exact hpl w, ?_⟩
    · show s.numGuesses - m = 0 ∨ (_ ∧ _ ∧ s.nextGuess + m = _ + _ + r.numLocked)
      by_cases w : s.numGuesses = 0
      · left; omega
      · obtain ⟨q1, q2, q3, q4⟩ := hroom (by omega)
        have := hpos (by omega)
        by_cases w2 : s.numGuesses ≤ r.numLocked - s.numLocked
        · left; omega
        · right; exact ⟨q2, q3, by omega⟩
    show r.numLocked ≤ r.numConverged ∧ r.numConverged ≤ P.numEvals ∧ _ ∧ _
    refine ⟨h5, h7, ?_, ?_⟩
    · intro w i hi1 hi2
      have hi1' : r.basisSize.toNat + k ≤ i := hi1
      exact hr.clean w i (by omega) hi2
    · refine ⟨by show r.ievSize.toNat ≤ _; omega, by show r.basisSize.toNat + k + r.ievSize.toNat ≤ _; omega,
        by show r.ievSize.toNat ≤ r.basisSize.toNat + k; omega, ?_, ?_, ?_⟩
      · intro w
        have w' : 0 < r.ievSize.toNat := w
        have := hr.wanted (by omega)
        show r.ievSize.toNat + r.numConverged ≤ _
        omega
      · intro k' hk
        have hk' : k' < r.ievSize.toNat := hk
        obtain ⟨i, w1, w2⟩ := hr.iev k' (by omega)
        refine ⟨i, false, w1, by show i < r.basisSize.toNat + k; omega, ?_⟩
        show (if k' < r.ievSize.toNat then (r.iev k').map (fun i => (i, false)) else s.nrm k') = _
        rw [if_pos hk', w1]; rfl
      · intro k l i j hkl hl' hi hj
        have hl'' : l < r.ievSize.toNat := hl'
        exact hr.incr k l i j hkl (by omega) hi hj

theorem spanned_same (P : Par) (a : Ans) (s : St) : Same s (spanned P a s) ∧ (spanned P a s).flags = s.flags ∧
    (spanned P a s).numConverged = s.numConverged ∧ (spanned P a s).blockSize = s.blockSize ∧ (spanned P a s).iev = s.iev ∧
    (spanned P a s).xr = s.xr ∧ (spanned P a s).nrm = s.nrm ∧ (s.reset = true → (spanned P a s).reset = true) := by
  unfold spanned
  split
  · exact ⟨rfl, rfl, rfl, rfl, rfl, rfl, rfl, fun _ => rfl⟩
  · exact ⟨rfl, rfl, rfl, rfl, rfl, rfl, rfl, fun h => h⟩

/-- What happens after the inner loop: back to the outer loop, or a restart. -/
theorem after_cases {P : Par} {a : Ans} {s : St} (ha : a.Ok) (hP : Cfg P) (h : Inv P s) (hpc : s.pc = .post) :
    ∃ s', after P a s = .ok s' ∧ Inv P s' ∧ (∃ s1, Ready P s s1 ∧
      ((s1.reset = true ∧ s' = { s1 with pc := .outer }) ∨
       (s.reset = false ∧ s1.reset = false ∧ ∃ r k m x,
        Restart.restart P.toPar (answers P a s1) s1.basisSize s1.numLocked s1.flags s1.blockSize s1.iev s1.numGuesses = .ok r ∧
        Restart.Restarted P.toPar s1.basisSize s1.numLocked s1.flags r ∧
        s' = { restarted s1 r with
          basisSize := r.basisSize.toNat + k, nextGuess := s1.nextGuess + m, numGuesses := s1.numGuesses - m
          numMatvecs := s1.numMatvecs + k, xr := x, numRestarts := s1.numRestarts + 1, initSize := r.numConverged, pc := .restart } ∧
        k ≤ m ∧ m ≤ r.numLocked - s1.numLocked ∧ m ≤ s1.numGuesses ∧ (s1.numGuesses = 0 → x = (restarted s1 r).xr)))) := by
  have hh := h.here
  unfold AtPc at hh
  rw [hpc] at hh
  obtain ⟨hcv, hcl, hbl, hblk⟩ := hh
  obtain ⟨g0, g1, g5, g6, g7, g8, g9, g10⟩ := spanned_same P a s
  have g2 := g0.size
  have g3 := g0.locked
  have hcl0 : Clean P (spanned P a s) := clean_of hcl (by omega) (by rw [g1]; intro _ _; rfl)
  have hready : Ready P s (spanned P a s) := ⟨by rw [g1]; exact h.len, g0, by omega, hcl0, by omega⟩
  have hout : ∀ s1, Ready P s s1 → Inv P { s1 with pc := .outer } := by
    intro s1 q
    have q1 := q.same.size
    have q2 := q.same.locked
    refine ⟨q.len, by show s1.basisSize ≤ _; rw [q1]; exact h.fits, by show s1.basisSize + s1.numLocked + _ ≤ _; rw [q1, q2]; exact h.dim,
      left_of h.guesses q.same.guesses q2, by show s1.numLocked ≤ _; rw [q2]; exact h.locked,
      by show _ → s1.numLocked = 0; rw [q2]; exact h.plain, trivial⟩
  unfold after
  by_cases hr : (spanned P a s).reset = true
  · rw [if_pos hr]
    exact ⟨_, rfl, hout _ hready, _, hready, Or.inl ⟨hr, rfl⟩⟩
  · rw [if_neg hr]
    have hsr : s.reset = false := by
      cases hq : s.reset
      · rfl
      · exact absurd (g10 hq) hr
    have hbefore : ∃ s1, (if s.prepared = true then Outcome.ok (spanned P a s) else before P a (spanned P a s)) = .ok s1 ∧ Ready P s s1 := by
      by_cases hp : s.prepared = true
      · rw [if_pos hp]; exact ⟨_, rfl, hready⟩
      · rw [if_neg hp]
        rcases hblk with hb | hb | ⟨hb1, hb2⟩
        · exact absurd hb hp
        · rw [hsr] at hb; cases hb
        · obtain ⟨s1, e1, q⟩ := before_spec (P := P) (a := a) (s := spanned P a s) hP (by rw [g1]; exact h.len) (by rw [g2]; exact h.fits)
            (by rw [g2, g3]; exact h.dim) (by rw [g3]; exact h.locked) (by omega) (by omega) hcl0
            ⟨by rw [g6]; exact hb2.le, by rw [g2, g6]; exact hb2.fits, by rw [g2, g6]; exact hb2.small,
              by rw [g5, g6]; exact hb2.wanted, by rw [g2, g6, g7, g9]; exact hb2.here, by rw [g6, g7]; exact hb2.incr⟩
          exact ⟨s1, e1, q.len, g0.trans q.same, q.conv, q.clean, q.blk⟩
    obtain ⟨s1, e1, q⟩ := hbefore
    rw [e1, Outcome.bind_ok]
    by_cases hr1 : s1.reset = true
    · rw [if_pos hr1]
      exact ⟨_, rfl, hout _ q, s1, q, Or.inl ⟨hr1, rfl⟩⟩
    · rw [if_neg hr1]
      have q1 := q.same.size
      have q2 := q.same.locked
      obtain ⟨r, k, m, x, e2, hR, e3, hi, u1, u2, u3, u4⟩ := restartStep_spec (P := P) (a := a) (s := s1) ha hP q.len (by rw [q1]; exact h.fits)
        (by rw [q1, q2]; exact h.dim) (left_of h.guesses q.same.guesses q2) (by rw [q2]; exact h.locked)
        (by rw [q2]; exact h.plain) q.clean
      exact ⟨_, e3, hi, s1, q, Or.inr ⟨hsr, by simpa using hr1, r, k, m, x, e2, hR, rfl, u1, u2, u3, u4⟩⟩

/-! ## The machine -/

/-- One step keeps the invariant; it can fail only with an error code. -/
theorem step_inv {P : Par} {a : Ans} {s : St} (ha : a.Ok) (hP : Cfg P) (h : Inv P s) :
    (∃ s', step P a s = .ok s' ∧ Inv P s') ∨ (∃ c, step P a s = .err c ∧ c ≠ 0) := by
  unfold step
  cases hfail : a.fail with
  | some c =>
    dsimp only
    split
    · exact Or.inl ⟨s, rfl, h⟩
    · exact Or.inr ⟨c, rfl, ha.code c hfail⟩
  | none =>
    dsimp only
    have hh := h.here
    unfold AtPc at hh
    have mk : ∀ s' : St, s'.flags.length = s.flags.length → s'.basisSize = s.basisSize → s'.numLocked = s.numLocked →
        (s'.numGuesses = s.numGuesses ∧ s'.nextGuess = s.nextGuess) → AtPc P s' → Inv P s' := by
      intro s' w1 w2 w3 w4 w5
      exact ⟨by rw [w1]; exact h.len, by rw [w2]; exact h.fits, by rw [w2, w3]; exact h.dim, left_of h.guesses w4 w3,
        by rw [w3]; exact h.locked, by rw [w3]; exact h.plain, w5⟩
    cases hpc : s.pc with
    | outer =>
      dsimp only
      unfold outerStep
      split
      · split
        · exact Or.inr ⟨_, rfl, by decide⟩
        · refine Or.inl ⟨_, rfl, mk _ (by simp) rfl rfl ⟨rfl, rfl⟩ ?_⟩
          refine ⟨Nat.le_refl _, h.locked, ?_, block_empty h.fits rfl⟩
          intro _ i _ _
          rintro ⟨f, h1, h2⟩
          dsimp only at h1
          rw [List.getElem?_replicate] at h1
          split at h1
          · cases h1; exact h2 rfl
          · cases h1
      · exact Or.inl ⟨_, rfl, mk _ rfl rfl rfl ⟨rfl, rfl⟩ trivial⟩
    | restart =>
      rw [hpc] at hh
      obtain ⟨h1, h2, h3, h4⟩ := hh
      dsimp only
      split
      · exact Or.inl ⟨_, rfl, mk _ rfl rfl rfl ⟨rfl, rfl⟩ ⟨h1, h2, h3, ⟨h4.le, h4.fits, h4.small, h4.wanted, h4.here, h4.incr⟩⟩⟩
      · exact Or.inl ⟨_, rfl, mk _ rfl rfl rfl ⟨rfl, rfl⟩ ⟨h1, h2⟩⟩
    | inner =>
      dsimp only
      split
      · rename_i hcond
        obtain ⟨s', e, hi, _⟩ := turn_inv (a := a) hP h hpc hcond.1
        exact Or.inl ⟨s', e, hi⟩
      · rw [hpc] at hh
        obtain ⟨h1, h2, h3, h4⟩ := hh
        exact Or.inl ⟨_, rfl, mk _ rfl rfl rfl ⟨rfl, rfl⟩ ⟨h1, h3, h4.le, Or.inr (Or.inr ⟨h2, ⟨h4.le, h4.fits, h4.small, h4.wanted, h4.here, h4.incr⟩⟩)⟩⟩
    | post =>
      dsimp only
      obtain ⟨s', e, hi, _⟩ := after_cases (a := a) ha hP h hpc
      exact Or.inl ⟨s', e, hi⟩
    | finish =>
      rw [hpc] at hh
      obtain ⟨h1, h2⟩ := hh
      dsimp only
      split
      · refine Or.inl ⟨_, rfl, ?_⟩
        unfold finishLocking
        dsimp only
        split
        · exact mk _ rfl rfl rfl ⟨rfl, rfl⟩ trivial
        · exact mk _ rfl rfl rfl ⟨rfl, rfl⟩ trivial
      · rename_i hlock
        have hlock' : P.locking = false := by simpa using hlock
        have hm := (hP.soft hlock').2
        have hpl := h.plain hlock'
        unfold finishPlain
        dsimp only
        have hcnt : (if (!within P s) = true then P.numEvals else s.numConverged) ≤ P.numEvals := by split <;> omega
        generalize (if (!within P s) = true then P.numEvals else s.numConverged) = cnt at *
        rw [if_neg (by omega)]
        have hlen := h.len
        split
        · exact Or.inl ⟨_, rfl, mk _ (by simp; omega) rfl rfl ⟨rfl, rfl⟩ trivial⟩
        · refine Or.inl ⟨_, rfl, ?_⟩
          have hf := h.fits
          have hd := h.dim
          exact ⟨by simp; omega, by dsimp only; omega, by dsimp only; omega, h.guesses, h.locked, h.plain, trivial⟩
    | done => exact Or.inl ⟨s, rfl, h⟩

theorem run_inv {P : Par} {a : ℕ → Ans} {s : St} (hP : Cfg P) (ha : ∀ k, (a k).Ok) (h : Inv P s) : ∀ k,
    (∃ s', run P a k s = .ok s' ∧ Inv P s') ∨ (∃ c, run P a k s = .err c ∧ c ≠ 0) := by
  intro k
  induction k with
  | zero => exact Or.inl ⟨s, rfl, h⟩
  | succ k ih =>
    unfold run
    rcases ih with ⟨s', e, hi⟩ | ⟨c, e, hc⟩
    · rw [e, Outcome.bind_ok]
      exact step_inv (ha k) hP hi
    · rw [e]
      exact Or.inr ⟨c, rfl, hc⟩

/-- The state at the beginning. -/
theorem start_inv {P : Par} {b g next products : ℕ} (hb : b ≤ P.maxBasisSize) (hd : b + P.numOrthoConst ≤ P.n)
    (hg : g = 0 ∨ (P.locking = true ∧ P.maxBasisSize + P.numEvals + P.numOrthoConst ≤ P.n ∧ next = P.numOrthoConst + P.minRestartSize)) :
    Inv P (start P b g next products) :=
  ⟨by simp [start], hb, by show b + 0 + _ ≤ _; omega, hg, Nat.zero_le _, fun _ => rfl, trivial⟩

end Verif.Main
