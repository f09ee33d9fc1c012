import Verif.Spec.SvdsRun
import Verif.Proofs.SvdsParams
import Mathlib.Tactic.Ring

/-!
# Facts about the driver of the singular value solver
-/

set_option linter.unusedSectionVars false
set_option linter.unusedSimpArgs false

namespace Verif.SvdsRun
open Verif.Members Verif.Eigs Verif.Svds Verif.Spec

variable {K : Type} [Field K] [LinearOrder K]

theorem svI (v : SV K) (f g : Svds.IF) (x : Int) : (v.setI f x).i g = if g = f then x else v.i g := rfl
theorem svD (v : SV K) (f : Svds.IF) (x : Int) : (v.setI f x).d = v.d := rfl
theorem svP (v : SV K) (f : Svds.IF) (x : Int) : (v.setI f x).p = v.p := rfl

/-- Only the count of products of the user's structure changed, by the columns multiplied. -/
structure Quiet (w w' : World K) : Prop where
  i : ∀ g, g ≠ .stats_numMatvecs → w'.s.sv.i g = w.s.sv.i g
  d : w'.s.sv.d = w.s.sv.d
  p : w'.s.sv.p = w.s.sv.p
  svals : w'.svals = w.svals
  mono : w.products ≤ w'.products
  counted : w'.s.sv.i .stats_numMatvecs = w.s.sv.i .stats_numMatvecs + (w'.products - w.products : ℕ)

theorem Quiet.refl (w : World K) : Quiet w w := ⟨fun _ _ => rfl, rfl, rfl, rfl, Nat.le_refl _, by simp⟩

theorem Quiet.trans {a b c : World K} (h : Quiet a b) (k : Quiet b c) : Quiet a c where
  i g hg := (k.i g hg).trans (h.i g hg)
  d := k.d.trans h.d
  p := k.p.trans h.p
  svals := k.svals.trans h.svals
  mono := Nat.le_trans h.mono k.mono
  counted := by
    have h1 := h.counted; have h2 := k.counted; have h3 := h.mono; have h4 := k.mono; omega

theorem quiet_setStage (b : Bool) (w : World K) (p : EP K) : Quiet w (setStage b w p) := by
  unfold setStage
  cases b <;> exact ⟨fun _ _ => rfl, rfl, rfl, rfl, Nat.le_refl _, by simp⟩

theorem quiet_count (n : ℕ) (w : World K) : Quiet w (count n w) where
  i g hg := by simp only [count, svI, if_neg hg]
  d := rfl
  p := rfl
  svals := rfl
  mono := by simp [count]
  counted := by simp only [count, svI, if_true]; omega

theorem stage_setStage (b : Bool) (w : World K) (p : EP K) : stage b (setStage b w p).s = p := by
  cases b <;> rfl

theorem other_setStage (b c : Bool) (w : World K) (p : EP K) (h : c ≠ b) :
    stage c (setStage b w p).s = stage c w.s := by
  cases b <;> cases c <;> simp at h <;> rfl

theorem setStage_rest (b : Bool) (w : World K) (p : EP K) :
    (setStage b w p).rnorms = w.rnorms ∧ (setStage b w p).heap = w.heap ∧ (setStage b w p).log = w.log
    ∧ (setStage b w p).products = w.products ∧ (setStage b w p).s.sv = w.s.sv := by
  cases b <;> exact ⟨rfl, rfl, rfl, rfl, rfl⟩

theorem count_rest (n : ℕ) (w : World K) : (count n w).rnorms = w.rnorms ∧ (count n w).heap = w.heap
    ∧ (count n w).log = w.log ∧ (count n w).products = w.products + n
    ∧ ∀ c, stage c (count n w).s = stage c w.s :=
  ⟨rfl, rfl, rfl, rfl, fun c => by cases c <;> rfl⟩

/-! ## Direct products -/

theorem directProduct_log (o : Sys K) (n : Int) (w : World K) : (directProduct o n w).2.log = w.log := by
  unfold directProduct; split_ifs <;> rfl

theorem directProduct_code (o : Sys K) (n : Int) (w : World K) :
    (directProduct o n w).1 = 0 ∨ (directProduct o n w).1 = -41 := by
  unfold directProduct; split_ifs <;> simp [PRIMME_USER_FAILURE]

theorem directProduct_ok (o : Sys K) (n : Int) (w : World K) (h : (directProduct o n w).1 = 0) :
    Quiet w (directProduct o n w).2 ∧ (directProduct o n w).2.rnorms = w.rnorms
    ∧ (directProduct o n w).2.heap = w.heap ∧ (directProduct o n w).2.products = w.products + n.toNat
    ∧ (∀ c, stage c (directProduct o n w).2.s = stage c w.s) := by
  unfold directProduct at h ⊢
  split_ifs at h ⊢ with h1 h2
  · exact ⟨Quiet.refl _, rfl, rfl, by simp; omega, fun _ => rfl⟩
  · exact absurd h (by simp [PRIMME_USER_FAILURE])
  · exact ⟨quiet_count _ _, rfl, rfl, rfl, (count_rest _ _).2.2.2.2⟩

/-! ## Preparing a stage -/

/-- Members of the structure of a stage the proofs follow. -/
def followed : List Eigs.IF := [.numEvals, .numOrthoConst, .initSize, .maxMatvecs, .stats_numMatvecs]

theorem stageCallbacks_keeps (o : Sys K) (v : SV K) (p : EP K) (g : Eigs.IF) (hg : g ∈ followed) :
    (stageCallbacks o v p).2.i g = p.i g := by
  unfold stageCallbacks
  dsimp only
  simp only [followed, List.mem_cons, List.not_mem_nil, or_false] at hg
  rcases hg with rfl | rfl | rfl | rfl | rfl <;> split_ifs <;> simp [setP_i]

theorem stageCallbacks_code (o : Sys K) (v : SV K) (p : EP K) :
    (stageCallbacks o v p).1 = 0 ∨ (stageCallbacks o v p).1 = -44 := by
  unfold stageCallbacks
  dsimp only
  split_ifs <;> simp_all [PRIMME_FUNCTION_UNAVAILABLE]

theorem stageParams_gives (o : Sys K) (b : Bool) (op : Int) (v : SV K) (spent : Int) (p : EP K) :
    (stageParams o b op v spent p).i .numEvals = p.i .numEvals
    ∧ (stageParams o b op v spent p).i .stats_numMatvecs = p.i .stats_numMatvecs
    ∧ (stageParams o b op v spent p).i .initSize = v.i .initSize
    ∧ (stageParams o b op v spent p).i .numOrthoConst = v.i .numOrthoConst
    ∧ (stageParams o b op v spent p).i .maxMatvecs
        = (if b then (v.i .maxMatvecs).tdiv 2 - spent else (v.i .maxMatvecs).tdiv 2)
    ∧ (stageParams o b op v spent p).p .targetShifts = p.p .targetShifts := by
  unfold stageParams
  simp only [ite_i, ite_p, setI_i, setI_p, setP_i, setP_p, setD_i, setD_p, reduceCtorEq, if_false, if_true,
    ite_self, and_self]

theorem stageShifts_effect (o : Sys K) (b : Bool) (op : Int) (w w' : World K) (p p' : EP K) (al : Bool)
    (h : stageShifts o b op w p = some (w', p', al)) :
    (∀ g ∈ followed, p'.i g = p.i g) ∧ Quiet w w' ∧ w'.rnorms = w.rnorms ∧ w'.log = w.log
    ∧ w'.products = w.products ∧ w'.s = w.s := by
  have key : ∀ (x y : EP K), (∀ g, g ≠ .numTargetShifts → x.i g = y.i g) → ∀ g ∈ followed, x.i g = y.i g := by
    intro x y hxy g hg
    apply hxy
    rintro rfl
    simp [followed] at hg
  unfold stageShifts at h
  dsimp only at h
  split_ifs at h <;>
    first
    | (simp only [Option.some.injEq, Prod.mk.injEq] at h
       obtain ⟨rfl, rfl, rfl⟩ := h
       refine ⟨key _ _ (fun g hg => ?_), ⟨fun _ _ => rfl, rfl, rfl, rfl, Nat.le_refl _, by simp⟩, rfl, rfl, rfl,
         rfl⟩
       simp [setP_i, hg])
    | exact absurd h (by simp)

theorem stageGuess_code (o : Sys K) (b : Bool) (op : Int) (w : World K) (p : EP K) :
    ((stageGuess o b op w p).1 = 0 ∨ (stageGuess o b op w p).1 = -41)
    ∧ (stageGuess o b op w p).2.1.log = w.log := by
  unfold stageGuess
  dsimp only
  have h1 := directProduct_code o 1 w
  have h2 := directProduct_log o 1 w
  by_cases hc : op = 3 ∧ p.i .initSize ≤ 0
  · rw [if_pos hc]
    by_cases h3 : (directProduct o 1 w).1 ≠ 0
    · rw [if_pos h3]; exact ⟨h1, h2⟩
    · rw [if_neg h3]; exact ⟨Or.inl rfl, h2⟩
  · rw [if_neg hc]; exact ⟨Or.inl rfl, rfl⟩

theorem stageGuess_ok (o : Sys K) (b : Bool) (op : Int) (w : World K) (p : EP K)
    (h : (stageGuess o b op w p).1 = 0) :
    Quiet w (stageGuess o b op w p).2.1
    ∧ (stageGuess o b op w p).2.1.products = w.products + (if op = 3 ∧ p.i .initSize ≤ 0 then 1 else 0)
    ∧ (stageGuess o b op w p).2.1.heap = w.heap
    ∧ (∀ c, stage c (stageGuess o b op w p).2.1.s = stage c w.s)
    ∧ (¬ (op = 3 ∧ p.i .initSize ≤ 0) → (stageGuess o b op w p).2.1.rnorms = w.rnorms)
    ∧ (stageGuess o b op w p).2.2.i .initSize = (if op = 3 ∧ p.i .initSize ≤ 0 then 1 else p.i .initSize)
    ∧ (∀ g ∈ followed, g ≠ .initSize → (stageGuess o b op w p).2.2.i g = p.i g)
    ∧ (stageGuess o b op w p).2.2.p = p.p := by
  unfold stageGuess at h ⊢
  dsimp only at h ⊢
  by_cases hc : op = 3 ∧ p.i .initSize ≤ 0
  · rw [if_pos hc] at h ⊢
    by_cases h1 : (directProduct o 1 w).1 ≠ 0
    · rw [if_pos h1] at h; exact absurd h h1
    · rw [if_neg h1]
      obtain ⟨q, _, hh, hp, hs⟩ := directProduct_ok o 1 w (not_not.1 h1)
      refine ⟨⟨q.i, q.d, q.p, q.svals, q.mono, q.counted⟩, by simp only [hp, if_pos hc]; rfl, hh, hs,
        fun hn => absurd hc hn, by simp [if_pos hc], fun g hg hne => ?_, rfl⟩
      have : g ≠ .initBasisMode := by rintro rfl; simp [followed] at hg
      simp [hne, this]
  · rw [if_neg hc]
    exact ⟨Quiet.refl _, by simp [if_neg hc], rfl, fun _ => rfl, fun _ => rfl, by simp [if_neg hc], fun _ _ _ => rfl,
      rfl⟩

/-- The loop over the triplets of the first stage: how many were kept, and what that changed. -/
theorem keepLoop_spec (o : Sys K) (f i : ℕ) (w : World K) (p : EP K) :
    ∃ k, k ≤ f
    ∧ ((keepLoop o f i w p).1 = 0 ∨ (keepLoop o f i w p).1 = -1)
    ∧ Quiet w (keepLoop o f i w p).2.1
    ∧ (keepLoop o f i w p).2.1.rnorms = w.rnorms ∧ (keepLoop o f i w p).2.1.heap = w.heap
    ∧ (∀ c, stage c (keepLoop o f i w p).2.1.s = stage c w.s)
    ∧ (keepLoop o f i w p).2.2.i .numOrthoConst = p.i .numOrthoConst + k
    ∧ (keepLoop o f i w p).2.2.i .initSize = p.i .initSize - k
    ∧ (keepLoop o f i w p).2.2.i .numEvals = p.i .numEvals - k
    ∧ (keepLoop o f i w p).2.2.i .maxMatvecs = p.i .maxMatvecs
    ∧ (keepLoop o f i w p).2.2.i .stats_numMatvecs = p.i .stats_numMatvecs
    ∧ (keepLoop o f i w p).2.2.p = p.p
    ∧ ∃ new, (keepLoop o f i w p).2.1.log = w.log ++ new ∧ solverCalls new = []
      ∧ ((keepLoop o f i w p).1 = 0 → acceptedTriplets new = List.range' i k ∧ lockedTriplets new = List.range' i k
        ∧ testedTriplets new = List.range' i (min (k + 1) f))
      ∧ (∀ j c x n e ok, Ev.test j c x n e ok ∈ new → x = w.svals j ∧ n = w.rnorms j
        ∧ c = p.i .numOrthoConst + j - i) := by
  induction f generalizing i w p with
  | zero => exact ⟨0, Nat.le_refl _, Or.inl rfl, Quiet.refl _, rfl, rfl, fun _ => rfl, by simp [keepLoop],
      by simp [keepLoop], by simp [keepLoop], rfl, rfl, rfl, [], by simp [keepLoop], rfl,
      fun _ => ⟨rfl, rfl, rfl⟩, by simp⟩
  | succ f ih =>
    unfold keepLoop
    dsimp only
    set r := o.test w.products (w.svals i) (w.rnorms i) with hr
    set ev : Ev K := .test i (p.i .numOrthoConst) (w.svals i) (w.rnorms i) r.err r.conv with hev
    set w1 := count r.products { w with log := w.log ++ [ev] } with hw1
    have q1 : Quiet w w1 := by
      have := quiet_count r.products { w with log := w.log ++ [ev] }
      exact ⟨this.i, this.d, this.p, this.svals, this.mono, this.counted⟩
    have s1 : ∀ c, stage c w1.s = stage c w.s := by intro c; cases c <;> rfl
    have hone : ∀ j c x n e ok, Ev.test j c x n e ok = ev → x = w.svals j ∧ n = w.rnorms j
        ∧ c = p.i .numOrthoConst + j - i := by
      intro j c x n e ok h
      rw [hev] at h
      simp only [Ev.test.injEq] at h
      obtain ⟨rfl, rfl, rfl, rfl, rfl, rfl⟩ := h
      exact ⟨rfl, rfl, by omega⟩
    by_cases he : r.err ≠ 0
    · rw [if_pos he]
      exact ⟨0, by omega, Or.inr rfl, q1, rfl, rfl, s1, by simp, by simp, by simp, rfl, rfl, rfl, [ev], rfl, rfl,
        fun h => absurd h (show ¬ ((-1 : Int) = 0) by decide),
        fun j c x n e ok h => hone j c x n e ok (List.mem_singleton.1 h)⟩
    · rw [if_neg he]
      by_cases hc : r.conv = false
      · rw [if_pos hc]
        refine ⟨0, by omega, Or.inl rfl, q1, rfl, rfl, s1, by simp, by simp, by simp, rfl, rfl, rfl, [ev], rfl, rfl,
          fun _ => ⟨?_, rfl, ?_⟩, fun j c x n e ok h => hone j c x n e ok (List.mem_singleton.1 h)⟩
        · simp [acceptedTriplets, hev, hc]
        · have : min (0 + 1) (f + 1) = 1 := by omega
          rw [this]; rfl
      · rw [if_neg hc]
        have hc' : r.conv = true := by simpa using hc
        set w2 : World K := { w1 with log := w1.log ++ [.locked i] } with hw2
        have q2 : Quiet w w2 := ⟨q1.i, q1.d, q1.p, q1.svals, q1.mono, q1.counted⟩
        by_cases hm : o.mon i ≠ 0
        · rw [if_pos hm]
          exact ⟨0, by omega, Or.inr rfl, q2, rfl, rfl, s1, by simp, by simp, by simp, rfl, rfl, rfl,
            [ev, .locked i], by simp [hw2, hw1, count], rfl, fun h => absurd h (show ¬ ((-1 : Int) = 0) by decide),
            fun j c x n e ok h => hone j c x n e ok (by simpa using h)⟩
        · rw [if_neg hm]
          obtain ⟨k, hk, hcode, hq, hrn, hhp, hst, h1, h2, h3, h4, h5, h6, new, hl, hsc, hev', htr⟩ :=
            ih (i + 1) w2 (((p.setI .numOrthoConst (p.i .numOrthoConst + 1)).setI .initSize
              (p.i .initSize - 1)).setI .numEvals (p.i .numEvals - 1))
          simp only [setI_i, setI_p, reduceCtorEq, if_false, if_true] at h1 h2 h3 h4 h5 h6 htr
          refine ⟨k + 1, by omega, hcode, q2.trans hq, hrn, hhp, fun c => (hst c).trans (s1 c), by rw [h1]; push_cast; ring,
            by rw [h2]; push_cast; ring, by rw [h3]; push_cast; ring, h4, h5, h6, ev :: .locked i :: new, ?_, ?_, ?_, ?_⟩
          · rw [hl]; simp [hw2, hw1, count]
          · simpa [solverCalls, hev] using hsc
          · intro h0
            obtain ⟨e1, e2, e3⟩ := hev' h0
            refine ⟨?_, ?_, ?_⟩
            · rw [List.range'_succ, ← e1]
              simp [acceptedTriplets, hev, hc', not_not.1 he]
            · rw [List.range'_succ, ← e2]
              simp [lockedTriplets, hev]
            · have : min (k + 1 + 1) (f + 1) = min (k + 1) f + 1 := by omega
              rw [this, List.range'_succ, ← e3]
              simp [testedTriplets, hev]
          · intro j c x n e ok h
            rcases List.mem_cons.1 h with h | h
            · exact hone j c x n e ok h
            · rcases List.mem_cons.1 h with h | h
              · exact absurd h (by simp)
              · obtain ⟨t1, t2, t3⟩ := htr j c x n e ok h
                exact ⟨t1, t2, by rw [t3]; push_cast; omega⟩

theorem stageMonitor_keeps (o : Sys K) (b : Bool) (v : SV K) (p : EP K) :
    (∀ g ∈ followed, (stageMonitor o b v p).i g = p.i g)
    ∧ (stageMonitor o b v p).p .targetShifts = p.p .targetShifts := by
  refine ⟨fun g hg => ?_, ?_⟩
  · simp only [followed, List.mem_cons, List.not_mem_nil, or_false] at hg
    unfold stageMonitor
    rcases hg with rfl | rfl | rfl | rfl | rfl <;>
      simp only [ite_i, ite_p, setI_i, setI_p, setP_i, setP_p, reduceCtorEq, if_false, ite_self]
  · unfold stageMonitor
    simp only [ite_i, ite_p, setI_i, setI_p, setP_i, setP_p, reduceCtorEq, if_false, ite_self]

/-- Initial guesses the eigensolver gets: those of the user, or one made up for the augmented matrix. -/
def guesses (op : Int) (v : SV K) : Int := if op = 3 ∧ v.i .initSize ≤ 0 then 1 else v.i .initSize

theorem copyFrom_spec (o : Sys K) (b : Bool) (w : World K) (st : Step K) (h : copyFrom o b w = some st)
    (hop : opOf b w.s ≠ 0) :
    (st.code = 0 ∨ driverFailure st.code)
    ∧ ∃ new, st.w.log = w.log ++ new ∧ solverCalls new = []
    ∧ (st.code = 0 → ∃ k : ℕ, (b = false → k = 0 ∧ new = [])
      ∧ Quiet w st.w ∧ (∀ c, c ≠ b → stage c st.w.s = stage c w.s)
      ∧ (stage b st.w.s).i .numEvals = (stage b w.s).i .numEvals - k
      ∧ (stage b st.w.s).i .numOrthoConst = w.s.sv.i .numOrthoConst + k
      ∧ (stage b st.w.s).i .initSize = guesses (opOf b w.s) w.s.sv - k
      ∧ k ≤ (guesses (opOf b w.s) w.s.sv).toNat
      ∧ (stage b st.w.s).i .maxMatvecs = (if b then (w.s.sv.i .maxMatvecs).tdiv 2 - w.s.st1.i .stats_numMatvecs
          else (w.s.sv.i .maxMatvecs).tdiv 2)
      ∧ (b = true → acceptedTriplets new = List.range k ∧ lockedTriplets new = List.range k
        ∧ testedTriplets new = List.range (min (k + 1) (guesses (opOf b w.s) w.s.sv).toNat))
      ∧ (0 < w.s.sv.i .initSize → st.w.rnorms = w.rnorms)
      ∧ (∀ j c x n e ok, Ev.test j c x n e ok ∈ new → x = st.w.svals j ∧ n = st.w.rnorms j
        ∧ c = w.s.sv.i .numOrthoConst + j)) := by
  unfold copyFrom at h
  dsimp only at h
  rw [if_neg hop] at h
  have hcb := stageCallbacks_code o w.s.sv (stage b w.s)
  by_cases h1 : (stageCallbacks o w.s.sv (stage b w.s)).1 ≠ 0
  · rw [if_pos h1] at h
    obtain rfl := Option.some.inj h
    refine ⟨Or.inr (Or.inr (Or.inr (hcb.resolve_left h1))), [], ?_, rfl, fun h0 => absurd h0 h1⟩
    rw [(setStage_rest _ _ _).2.2.1, List.append_nil]
  · rw [if_neg h1] at h
    set p0 := stageParams o b (opOf b w.s) w.s.sv (w.s.st1.i .stats_numMatvecs)
      (stageCallbacks o w.s.sv (stage b w.s)).2 with hp0
    obtain ⟨g1, g2, g3, g4, g5, g6⟩ := stageParams_gives o b (opOf b w.s) w.s.sv (w.s.st1.i .stats_numMatvecs)
      (stageCallbacks o w.s.sv (stage b w.s)).2
    rw [← hp0] at g1 g2 g3 g4 g5 g6
    rw [stageCallbacks_keeps o w.s.sv (stage b w.s) .numEvals (by simp [followed])] at g1
    rcases hs : stageShifts o b (opOf b w.s) w p0 with _ | ⟨w1, p1, al⟩
    · rw [hs] at h; exact absurd h (by simp)
    · rw [hs] at h
      dsimp only at h
      obtain ⟨k1, q1, r1, l1, pr1, s1⟩ := stageShifts_effect o b (opOf b w.s) w w1 p0 p1 al hs
      obtain ⟨c2, l2⟩ := stageGuess_code o b (opOf b w.s) w1 p1
      by_cases h2 : (stageGuess o b (opOf b w.s) w1 p1).1 ≠ 0
      · rw [if_pos h2] at h
        obtain rfl := Option.some.inj h
        refine ⟨Or.inr (Or.inr (Or.inl (c2.resolve_left h2))), [], ?_, rfl, fun h0 => absurd h0 h2⟩
        rw [(setStage_rest _ _ _).2.2.1, l2, l1, List.append_nil]
      · rw [if_neg h2] at h
        obtain ⟨q2, _, _, st2, rn2, i2, k2, pp2⟩ := stageGuess_ok o b (opOf b w.s) w1 p1 (not_not.1 h2)
        set w2 := (stageGuess o b (opOf b w.s) w1 p1).2.1 with hw2
        set p2 := (stageGuess o b (opOf b w.s) w1 p1).2.2 with hp2
        have hg : p2.i .initSize = guesses (opOf b w.s) w.s.sv := by
          rw [i2, k1 .initSize (by simp [followed]), g3]; rfl
        have hne : p2.i .numEvals = (stage b w.s).i .numEvals := by
          rw [k2 .numEvals (by simp [followed]) (by simp), k1 .numEvals (by simp [followed]), g1]
        have hoc : p2.i .numOrthoConst = w.s.sv.i .numOrthoConst := by
          rw [k2 .numOrthoConst (by simp [followed]) (by simp), k1 .numOrthoConst (by simp [followed]), g4]
        have hmm : p2.i .maxMatvecs = (if b then (w.s.sv.i .maxMatvecs).tdiv 2 - w.s.st1.i .stats_numMatvecs
            else (w.s.sv.i .maxMatvecs).tdiv 2) := by
          rw [k2 .maxMatvecs (by simp [followed]) (by simp), k1 .maxMatvecs (by simp [followed]), g5]
        have hrn : 0 < w.s.sv.i .initSize → w2.rnorms = w.rnorms := by
          intro hpos
          rw [rn2, r1]
          rw [k1 .initSize (by simp [followed]), g3]
          rintro ⟨_, hle⟩; omega
        have hst2 : ∀ c, stage c w2.s = stage c w.s := fun c => (st2 c).trans (by rw [s1])
        cases b with
        | false =>
          simp only [Bool.false_eq_true, if_false] at h
          rw [if_neg h2] at h
          obtain rfl := Option.some.inj h
          refine ⟨Or.inl rfl, [], ?_, rfl, fun _ => ⟨0, fun _ => ⟨rfl, rfl⟩, (q1.trans q2).trans (quiet_setStage _ _ _),
            fun c hc => ?_, ?_, ?_, ?_, Nat.zero_le _, ?_, fun h => absurd h (by simp), fun hpos => ?_, by simp⟩⟩
          · rw [(setStage_rest _ _ _).2.2.1, l2, l1, List.append_nil]
          · rw [other_setStage _ _ _ _ hc, hst2]
          · rw [stage_setStage, (stageMonitor_keeps _ _ _ _).1 _ (by simp [followed]), hne]; simp
          · rw [stage_setStage, (stageMonitor_keeps _ _ _ _).1 _ (by simp [followed]), hoc]; simp
          · rw [stage_setStage, (stageMonitor_keeps _ _ _ _).1 _ (by simp [followed]), hg]; simp
          · rw [stage_setStage, (stageMonitor_keeps _ _ _ _).1 _ (by simp [followed]), hmm]
          · rw [(setStage_rest _ _ _).1, hrn hpos]
        | true =>
          simp only [if_true] at h
          obtain ⟨k, hk, hcode, hq, hrn', _, hst, e1, e2, e3, e4, _, _, new, hl, hsc, hev, htr⟩ :=
            keepLoop_spec o (p2.i .initSize).toNat 0 w2 p2
          set r := keepLoop o (p2.i .initSize).toNat 0 w2 p2 with hr
          by_cases h3 : r.1 ≠ 0
          · rw [if_pos h3] at h
            obtain rfl := Option.some.inj h
            refine ⟨Or.inr (Or.inl (hcode.resolve_left h3)), new, ?_, hsc, fun h0 => absurd h0 h3⟩
            rw [(setStage_rest _ _ _).2.2.1, hl, l2, l1]
          · rw [if_neg h3] at h
            obtain rfl := Option.some.inj h
            refine ⟨Or.inl rfl, new, ?_, hsc, fun _ => ⟨k, fun hb => absurd hb (by simp),
              ((q1.trans q2).trans hq).trans (quiet_setStage _ _ _), fun c hc => ?_, ?_, ?_, ?_, ?_, ?_,
              fun _ => ?_, fun hpos => ?_, fun j c x n e ok hj => ?_⟩⟩
            · rw [(setStage_rest _ _ _).2.2.1, hl, l2, l1]
            · rw [other_setStage _ _ _ _ hc, hst, hst2]
            · rw [stage_setStage, (stageMonitor_keeps _ _ _ _).1 _ (by simp [followed]), e3, hne]
            · rw [stage_setStage, (stageMonitor_keeps _ _ _ _).1 _ (by simp [followed]), e1, hoc]
            · rw [stage_setStage, (stageMonitor_keeps _ _ _ _).1 _ (by simp [followed]), e2, hg]
            · rw [← hg]; exact hk
            · rw [stage_setStage, (stageMonitor_keeps _ _ _ _).1 _ (by simp [followed]), e4, hmm]
            · obtain ⟨a1, a2, a3⟩ := hev (not_not.1 h3)
              rw [List.range_eq_range', List.range_eq_range', ← hg]
              exact ⟨a1, a2, a3⟩
            · rw [(setStage_rest _ _ _).1, hrn', hrn hpos]
            · obtain ⟨t1, t2, t3⟩ := htr j c x n e ok hj
              rw [(setStage_rest _ _ _).1, hrn', (quiet_setStage _ _ _).svals, hq.svals]
              exact ⟨t1, t2, by rw [t3, hoc]; push_cast; omega⟩

/-! ## Finishing a stage -/

theorem addStats_other (v : SV K) (p : EP K) (g : Svds.IF)
    (hg : g ∉ [Svds.IF.stats_numOuterIterations, .stats_numRestarts, .stats_numMatvecs, .stats_numPreconds,
      .stats_numGlobalSum, .stats_numBroadcast, .stats_volumeGlobalSum, .stats_volumeBroadcast,
      .stats_lockingIssue]) : (addStats v p).i g = v.i g := by
  simp only [List.mem_cons, List.not_mem_nil, or_false, not_or] at hg
  obtain ⟨h1, h2, h3, h4, h5, h6, h7, h8, h9⟩ := hg
  simp only [addStats, svI, h1, h2, h3, h4, h5, h6, h7, h8, h9, if_false]

/-- Members of the user's structure the proofs follow. -/
def svFollowed : List Svds.IF := [.numSvals, .numOrthoConst, .maxMatvecs, .method, .methodStage2, .target,
  .numTargetShifts]

theorem normBack_i (o : Sys K) (op : Int) (v : SV K) (p : EP K) : (normBack o op v p).i = v.i := by
  unfold normBack; split_ifs <;> rfl

theorem normBack_p (o : Sys K) (op : Int) (v : SV K) (p : EP K) : (normBack o op v p).p = v.p := by
  unfold normBack; split_ifs <;> rfl

theorem normBack_d (o : Sys K) (op : Int) (v v' : SV K) (p : EP K) (h : v.d = v'.d) :
    (normBack o op v p).d = (normBack o op v' p).d := by
  unfold normBack; split_ifs <;> simp [h]

theorem takeBack_spec (o : Sys K) (b : Bool) (op : Int) (w : World K) :
    (takeBack o b op w).log = w.log ∧ (takeBack o b op w).products = w.products
    ∧ (takeBack o b op w).rnorms = w.rnorms
    ∧ stage b (takeBack o b op w).s = giveBack b w.s.sv (stage b w.s)
    ∧ (∀ c, c ≠ b → stage c (takeBack o b op w).s = stage c w.s)
    ∧ (∀ g ∈ svFollowed, (takeBack o b op w).s.sv.i g = w.s.sv.i g)
    ∧ (takeBack o b op w).s.sv.i .initSize = (giveBack b w.s.sv (stage b w.s)).i .initSize
    ∧ (takeBack o b op w).s.sv.i .stats_numMatvecs
        = w.s.sv.i .stats_numMatvecs + (stage b w.s).i .stats_numMatvecs * 2
    ∧ (takeBack o b op w).svals = valuesBack o op ((giveBack b w.s.sv (stage b w.s)).i .initSize) w.svals
    ∧ (takeBack o b op w).s.sv.d = (normBack o op w.s.sv (stage b w.s)).d
    ∧ (takeBack o b op w).s.sv.p = w.s.sv.p := by
  have hst : (giveBack b w.s.sv (stage b w.s)).i .stats_numMatvecs = (stage b w.s).i .stats_numMatvecs := by
    unfold giveBack; split_ifs <;> simp
  have hd : (giveBack b w.s.sv (stage b w.s)).d = (stage b w.s).d := by
    unfold giveBack; split_ifs <;> rfl
  unfold takeBack
  dsimp only
  refine ⟨(setStage_rest _ _ _).2.2.1, (setStage_rest _ _ _).2.2.2.1, (setStage_rest _ _ _).1, stage_setStage _ _ _,
    fun c hc => other_setStage _ _ _ _ hc, ?_, ?_, ?_, ?_, ?_, ?_⟩
  · intro g hg
    rw [(setStage_rest _ _ _).2.2.2.2]
    have h1 : g ≠ .initSize := by rintro rfl; simp [svFollowed] at hg
    simp only [svI, if_neg h1, normBack_i]
    apply addStats_other
    simp only [svFollowed, List.mem_cons, List.not_mem_nil, or_false] at hg
    rcases hg with rfl | rfl | rfl | rfl | rfl | rfl | rfl <;> simp
  · rw [(setStage_rest _ _ _).2.2.2.2]; simp [svI]
  · rw [(setStage_rest _ _ _).2.2.2.2, svI, if_neg (by simp), normBack_i]
    simp only [addStats, svI, reduceCtorEq, if_false, if_true, hst]
  · cases b <;> rfl
  · rw [(setStage_rest _ _ _).2.2.2.2, svD]
    unfold normBack
    rw [hd]
    split_ifs <;> rfl
  · rw [(setStage_rest _ _ _).2.2.2.2, svP, normBack_p]; rfl

theorem closing_spec (o : Sys K) (b : Bool) (op : Int) (al : Bool) (w : World K) :
    (closing o b op al w).log = w.log ∧ (closing o b op al w).products = w.products
    ∧ (closing o b op al w).svals = w.svals
    ∧ (closing o b op al w).rnorms = normsBack o op (w.s.sv.i .initSize) (w.s.sv.d .aNorm) w.svals w.rnorms
    ∧ (closing o b op al w).s.sv.i = w.s.sv.i ∧ (closing o b op al w).s.sv.d = w.s.sv.d
    ∧ (closing o b op al w).s.sv.p = w.s.sv.p
    ∧ (∀ c, c ≠ b → stage c (closing o b op al w).s = stage c w.s)
    ∧ (stage b (closing o b op al w).s).i = (stage b w.s).i
    ∧ (stage b (closing o b op al w).s).p .targetShifts = (if al then 0 else (stage b w.s).p .targetShifts) := by
  unfold closing
  dsimp only
  cases al <;> cases b <;>
    refine ⟨rfl, rfl, rfl, rfl, rfl, rfl, rfl, ?_, rfl, rfl⟩ <;> intro c hc <;> cases c <;> simp at hc <;> rfl

theorem copyTo_log (o : Sys K) (b al : Bool) (w : World K) :
    (copyTo o b al w).2.log = w.log ∧ ((copyTo o b al w).1 = 0 ∨ (copyTo o b al w).1 = -41) := by
  unfold copyTo
  dsimp only
  by_cases h0 : opOf b w.s = 0
  · rw [if_pos h0]; exact ⟨(setStage_rest _ _ _).2.2.1, Or.inl rfl⟩
  · rw [if_neg h0]
    have ht := (takeBack_spec o b (opOf b w.s) w).1
    by_cases h1 : opOf b w.s = 1 ∨ opOf b w.s = 2
    · rw [if_pos h1]
      have hc := directProduct_code o ((takeBack o b (opOf b w.s) w).s.sv.i .initSize) (takeBack o b (opOf b w.s) w)
      have hl := directProduct_log o ((takeBack o b (opOf b w.s) w).s.sv.i .initSize) (takeBack o b (opOf b w.s) w)
      by_cases h2 : (directProduct o ((takeBack o b (opOf b w.s) w).s.sv.i .initSize)
          (takeBack o b (opOf b w.s) w)).1 ≠ 0
      · rw [if_pos h2]; exact ⟨hl.trans ht, hc⟩
      · rw [if_neg h2]; exact ⟨(closing_spec _ _ _ _ _).1.trans (hl.trans ht), Or.inl rfl⟩
    · rw [if_neg h1]
      simp only [ne_eq, not_true, if_false]
      exact ⟨(closing_spec _ _ _ _ _).1.trans ht, Or.inl trivial⟩

/-- Products needed to convert the vectors of a stage. -/
def conversion (op k : Int) : ℕ := if op = 1 ∨ op = 2 then k.toNat else 0

theorem copyTo_ok (o : Sys K) (b al : Bool) (w : World K) (hop : opOf b w.s ≠ 0) (h : (copyTo o b al w).1 = 0) :
    let q := giveBack b w.s.sv (stage b w.s)
    let t := (copyTo o b al w).2
    t.s.sv.i .initSize = q.i .initSize
    ∧ t.products = w.products + conversion (opOf b w.s) (q.i .initSize)
    ∧ t.s.sv.i .stats_numMatvecs = w.s.sv.i .stats_numMatvecs + (stage b w.s).i .stats_numMatvecs * 2
        + conversion (opOf b w.s) (q.i .initSize)
    ∧ (∀ g ∈ svFollowed, t.s.sv.i g = w.s.sv.i g)
    ∧ (∀ c, c ≠ b → stage c t.s = stage c w.s)
    ∧ (stage b t.s).i = q.i
    ∧ t.svals = valuesBack o (opOf b w.s) (q.i .initSize) w.svals
    ∧ t.s.sv.d = (normBack o (opOf b w.s) w.s.sv (stage b w.s)).d ∧ t.s.sv.p = w.s.sv.p
    ∧ t.rnorms = normsBack o (opOf b w.s) (q.i .initSize) (t.s.sv.d .aNorm) t.svals w.rnorms
    ∧ (stage b t.s).p .targetShifts = (if al then 0 else (stage b w.s).p .targetShifts) := by
  have hp : (giveBack b w.s.sv (stage b w.s)).p = (stage b w.s).p := by
    unfold giveBack; split_ifs <;> rfl
  unfold copyTo at h ⊢
  dsimp only at h ⊢
  rw [if_neg hop] at h ⊢
  obtain ⟨t1, t2, t3, t4, t5, t6, t7, t8, t9, t10, t11⟩ := takeBack_spec o b (opOf b w.s) w
  set w1 := takeBack o b (opOf b w.s) w with hw1
  by_cases h1 : opOf b w.s = 1 ∨ opOf b w.s = 2
  · rw [if_pos h1] at h ⊢
    by_cases h2 : (directProduct o (w1.s.sv.i .initSize) w1).1 ≠ 0
    · rw [if_pos h2] at h; exact absurd h h2
    · rw [if_neg h2]
      obtain ⟨q, r1, r2, r3, r4⟩ := directProduct_ok o (w1.s.sv.i .initSize) w1 (not_not.1 h2)
      set w2 := (directProduct o (w1.s.sv.i .initSize) w1).2 with hw2
      obtain ⟨c1, c2, c3, c4, c5, c6, c7, c8, c9, c10⟩ := closing_spec o b (opOf b w.s) al w2
      have hqi := q.i .initSize (by simp)
      refine ⟨?_, ?_, ?_, ?_, ?_, ?_, ?_, ?_, ?_, ?_, ?_⟩
      · rw [c5, hqi, t7]
      · rw [c2, r3, t2, t7]; simp only [conversion, if_pos h1]
      · have e1 := q.counted
        rw [c5, e1, t8, r3, t7]
        simp only [conversion, if_pos h1]
        omega
      · intro g hg
        rw [c5, q.i g (by rintro rfl; simp [svFollowed] at hg), t6 g hg]
      · intro c hc; rw [c8 c hc, r4, t5 c hc]
      · rw [c9, r4, t4]
      · rw [c3, q.svals, t9]
      · rw [c6, q.d, t10]
      · rw [c7, q.p, t11]
      · rw [c4, c3, c6, r1, t3, hqi, t7]
      · rw [c10, r4, t4, hp]
  · rw [if_neg h1] at h ⊢
    simp only [ne_eq, not_true, if_false] at h ⊢
    obtain ⟨c1, c2, c3, c4, c5, c6, c7, c8, c9, c10⟩ := closing_spec o b (opOf b w.s) al w1
    refine ⟨?_, ?_, ?_, ?_, ?_, ?_, ?_, ?_, ?_, ?_, ?_⟩
    · rw [c5, t7]
    · rw [c2, t2]; simp [conversion, if_neg h1]
    · rw [c5, t8]; simp [conversion, if_neg h1]
    · intro g hg; rw [c5, t6 g hg]
    · intro c hc; rw [c8 c hc, t5 c hc]
    · rw [c9, t4]
    · rw [c3, t9]
    · rw [c6, t10]
    · rw [c7, t11]
    · rw [c4, c3, c6, t3, t7]
    · rw [c10, t4, hp]

/-- Calling the eigensolver. -/
theorem callSolver_spec (o : Sys K) (b : Bool) (off : ℕ) (w : World K) :
    let q := o.solve b (stage b w.s) (fun i => w.svals (off + i)) (fun i => w.rnorms (off + i))
      (w.heap ((stage b w.s).p .targetShifts))
    let r := callSolver o b off w
    r.1 = q.ret ∧ stage b r.2.s = q.p ∧ (∀ c, c ≠ b → stage c r.2.s = stage c w.s)
    ∧ r.2.log = w.log ++ [.solve b (stage b w.s) off (w.heap ((stage b w.s).p .targetShifts)) q.ret]
    ∧ r.2.svals = (fun i => if i < off then w.svals i else q.vals (i - off))
    ∧ r.2.rnorms = (fun i => if i < off then w.rnorms i else q.norms (i - off))
    ∧ r.2.products = w.products + 2 * (q.p.i .stats_numMatvecs).toNat + q.testProducts
    ∧ (∀ g, g ≠ .stats_numMatvecs → r.2.s.sv.i g = w.s.sv.i g)
    ∧ r.2.s.sv.i .stats_numMatvecs = w.s.sv.i .stats_numMatvecs + q.testProducts
    ∧ r.2.s.sv.d = w.s.sv.d ∧ r.2.s.sv.p = w.s.sv.p := by
  cases b
  all_goals
    refine ⟨rfl, rfl, ?_, rfl, rfl, rfl, rfl, ?_, ?_, rfl, rfl⟩
    · intro c hc; cases c <;> simp at hc <;> rfl
    · intro g hg; simp [callSolver, setStage, count, svI, hg]
    · simp [callSolver, setStage, count, svI]

theorem calls_append (a b : List (Ev K)) : solverCalls (a ++ b) = solverCalls a ++ solverCalls b := by
  simp [solverCalls]

theorem accepted_append (a b : List (Ev K)) :
    acceptedTriplets (a ++ b) = acceptedTriplets a ++ acceptedTriplets b := by
  simp [acceptedTriplets]

theorem calls_solve (b : Bool) (p : EP K) (off : ℕ) (z : ℕ → K) (r : Int) :
    solverCalls [Ev.solve b p off z r] = [(b, r)] := rfl

/-- The ways a run of the two stages can end. -/
theorem stages_inv (o : Sys K) (w : World K) (r : Ret K) (h : stages o w = some r) :
    ∃ st, copyFrom o false w = some st ∧
    ((st.code ≠ 0 ∧ r = ⟨st.code, st.w, 0⟩) ∨
    (st.code = 0 ∧ ∃ c t, c = callSolver o false 0 st.w ∧ t = copyTo o false st.alloc c.2 ∧
      ((t.1 ≠ 0 ∧ r = ⟨t.1, t.2, 0⟩) ∨
      (t.1 = 0 ∧
        ((¬ (t.2.s.sv.i .methodStage2 ≠ 0 ∧ (if c.1 ≠ 0 then c.1 - 100 else c.1) = 0) ∧
            r = ⟨if c.1 ≠ 0 then c.1 - 100 else c.1, t.2, t.2.s.sv.i .initSize⟩) ∨
        (t.2.s.sv.i .methodStage2 ≠ 0 ∧ (if c.1 ≠ 0 then c.1 - 100 else c.1) = 0 ∧
          ∃ st2, copyFrom o true t.2 = some st2 ∧
          ((st2.code ≠ 0 ∧ r = ⟨st2.code, st2.w, 0⟩) ∨
          (st2.code = 0 ∧ ∃ c2 t2,
            c2 = callSolver o true (st2.w.s.sv.i .numSvals - st2.w.s.st2.i .numEvals).toNat st2.w ∧
            t2 = copyTo o true st2.alloc c2.2 ∧
            ((t2.1 ≠ 0 ∧ r = ⟨t2.1, t2.2, 0⟩) ∨
            (t2.1 = 0 ∧ r = ⟨if c2.1 ≠ 0 then c2.1 - 200 else c2.1, t2.2, t2.2.s.sv.i .initSize⟩)))))))))) := by
  unfold stages at h
  rcases h1 : copyFrom o false w with _ | st
  · rw [h1] at h; exact absurd h (by simp)
  · rw [h1] at h
    dsimp only at h
    refine ⟨st, rfl, ?_⟩
    by_cases h2 : st.code ≠ 0
    · rw [if_pos h2] at h; exact Or.inl ⟨h2, (Option.some.inj h).symm⟩
    · rw [if_neg h2] at h
      refine Or.inr ⟨not_not.1 h2, _, _, rfl, rfl, ?_⟩
      by_cases h3 : (copyTo o false st.alloc (callSolver o false 0 st.w).2).1 ≠ 0
      · rw [if_pos h3] at h; exact Or.inl ⟨h3, (Option.some.inj h).symm⟩
      · rw [if_neg h3] at h
        refine Or.inr ⟨not_not.1 h3, ?_⟩
        by_cases h4 : (copyTo o false st.alloc (callSolver o false 0 st.w).2).2.s.sv.i .methodStage2 ≠ 0 ∧
            (if (callSolver o false 0 st.w).1 ≠ 0 then (callSolver o false 0 st.w).1 - 100
              else (callSolver o false 0 st.w).1) = 0
        · rw [if_pos h4] at h
          refine Or.inr ⟨h4.1, h4.2, ?_⟩
          rcases h5 : copyFrom o true (copyTo o false st.alloc (callSolver o false 0 st.w).2).2 with _ | st2
          · rw [h5] at h; exact absurd h (by simp)
          · rw [h5] at h
            dsimp only at h
            refine ⟨st2, rfl, ?_⟩
            by_cases h6 : st2.code ≠ 0
            · rw [if_pos h6] at h; exact Or.inl ⟨h6, (Option.some.inj h).symm⟩
            · rw [if_neg h6] at h
              refine Or.inr ⟨not_not.1 h6, _, _, rfl, rfl, ?_⟩
              by_cases h7 : (copyTo o true st2.alloc (callSolver o true
                  (st2.w.s.sv.i .numSvals - st2.w.s.st2.i .numEvals).toNat st2.w).2).1 ≠ 0
              · rw [if_pos h7] at h; exact Or.inl ⟨h7, (Option.some.inj h).symm⟩
              · rw [if_neg h7] at h; exact Or.inr ⟨not_not.1 h7, (Option.some.inj h).symm⟩
        · rw [if_neg h4] at h
          exact Or.inl ⟨h4, (Option.some.inj h).symm⟩


/-! ## Complete runs -/

/-- What passes through the first call of the eigensolver of a run. -/
structure FirstStage (o : Sys K) (w : World K) (p : EP K) (sh x y : ℕ → K) (q : Solved K) : Prop where
  call : q = o.solve false p x y sh
  requested : p.i .numEvals = w.s.st1.i .numEvals
  constraints : p.i .numOrthoConst = w.s.sv.i .numOrthoConst
  guesses : p.i .initSize = Verif.SvdsRun.guesses (w.s.sv.i .method) w.s.sv
  budget : p.i .maxMatvecs = (w.s.sv.i .maxMatvecs).tdiv 2
  prepared : ∃ st, copyFrom o false w = some st ∧ st.code = 0 ∧ p = stage false st.w.s ∧
    sh = st.w.heap (p.p .targetShifts)

/-- What passes through the second call of the eigensolver of a run; `q` is the outcome of the first call. -/
structure SecondStage (o : Sys K) (w : World K) (q : Solved K) (k : ℕ) (p2 : EP K) (sh2 x2 y2 : ℕ → K)
    (q2 : Solved K) : Prop where
  call : q2 = o.solve true p2 x2 y2 sh2
  requested : p2.i .numEvals = w.s.st2.i .numEvals - k
  constraints : p2.i .numOrthoConst = w.s.sv.i .numOrthoConst + k
  guesses : p2.i .initSize = (if w.s.sv.i .methodStage2 = 3 ∧ q.p.i .initSize ≤ 0 then 1 else q.p.i .initSize) - k
  atMost : (k : Int) ≤ (if w.s.sv.i .methodStage2 = 3 ∧ q.p.i .initSize ≤ 0 then 1 else q.p.i .initSize)
  budget : p2.i .maxMatvecs = (w.s.sv.i .maxMatvecs).tdiv 2 - q.p.i .stats_numMatvecs
  prepared : ∃ t st, copyFrom o true t = some st ∧ st.code = 0 ∧ p2 = stage true st.w.s ∧
    sh2 = st.w.heap (p2.p .targetShifts) ∧ t.svals = valuesBack o (w.s.sv.i .method) (q.p.i .initSize) q.vals ∧
    t.rnorms = normsBack o (w.s.sv.i .method) (q.p.i .initSize) (t.s.sv.d .aNorm) t.svals q.norms ∧
    t.s.sv.i .initSize = q.p.i .initSize ∧ stage true t.s = w.s.st2 ∧
    (∀ g ∈ svFollowed, t.s.sv.i g = w.s.sv.i g) ∧ t.s.sv.p = w.s.sv.p ∧
    t.s.sv.d = (normBack o (w.s.sv.i .method) w.s.sv q.p).d

theorem counted_step (s0 s1 s3 n : Int) (p0 p1 p3 tp cv : ℕ) (h0 : p0 ≤ p1) (hn : 0 ≤ n)
    (e1 : s1 = s0 + ((p1 - p0 : ℕ) : Int)) (e3 : s3 = s1 + tp + n * 2 + cv)
    (hp : p3 = p1 + 2 * n.toNat + tp + cv) : s3 = s0 + ((p3 - p0 : ℕ) : Int) := by omega

theorem counted_chain (s0 s1 s2 : Int) (p0 p1 p2 : ℕ) (h0 : p0 ≤ p1) (h1 : p1 ≤ p2)
    (e1 : s1 = s0 + ((p1 - p0 : ℕ) : Int)) (e2 : s2 = s1 + ((p2 - p1 : ℕ) : Int)) :
    s2 = s0 + ((p2 - p0 : ℕ) : Int) := by omega

/-- A run that ends without a failure of the driver. -/
theorem run_facts (o : Sys K) (hc : SolverContract o) (w : World K) (r : Ret K)
    (hm : w.s.sv.i .method ≠ 0) (h : stages o w = some r) (hnd : ¬ driverFailure r.code) :
    ∃ p sh x y q, FirstStage o w p sh x y q ∧
    w.products ≤ r.w.products ∧
    r.w.s.sv.i .stats_numMatvecs = w.s.sv.i .stats_numMatvecs + ((r.w.products - w.products : ℕ) : Int) ∧
    (∀ g ∈ svFollowed, r.w.s.sv.i g = w.s.sv.i g) ∧
    r.w.s.st1.i .stats_numMatvecs = q.p.i .stats_numMatvecs ∧
    ((r.w.log = w.log ++ [.solve false p 0 sh q.ret] ∧ r.out = q.p.i .initSize ∧ r.w.s.sv.i .initSize = r.out ∧
        r.w.svals = valuesBack o (w.s.sv.i .method) r.out q.vals ∧
        r.w.rnorms = normsBack o (w.s.sv.i .method) r.out (r.w.s.sv.d .aNorm) r.w.svals q.norms) ∨
     (∃ k p2 sh2 x2 y2 q2 mid, SecondStage o w q k p2 sh2 x2 y2 q2 ∧ w.s.sv.i .methodStage2 ≠ 0 ∧ q.ret = 0 ∧
        r.w.s.st2.i .stats_numMatvecs = q2.p.i .stats_numMatvecs ∧
        (w.s.st2.i .numEvals = w.s.sv.i .numSvals →
          r.w.log = w.log ++ (.solve false p 0 sh q.ret :: mid ++ [.solve true p2 k sh2 q2.ret]) ∧
          solverCalls mid = [] ∧
          acceptedTriplets mid = List.range k ∧ lockedTriplets mid = List.range k ∧
          testedTriplets mid = List.range (min (k + 1)
            (if w.s.sv.i .methodStage2 = 3 ∧ q.p.i .initSize ≤ 0 then (1 : Int) else q.p.i .initSize).toNat) ∧
          r.out = k + q2.p.i .initSize ∧ r.w.s.sv.i .initSize = r.out ∧
          r.w.s.st2.i .numEvals = w.s.sv.i .numSvals ∧
          r.w.s.st2.i .numOrthoConst = w.s.sv.i .numOrthoConst ∧
          (∃ rn : ℕ → K,
            r.w.svals = valuesBack o (w.s.sv.i .methodStage2) r.out (fun i => if i < k then
              valuesBack o (w.s.sv.i .method) (q.p.i .initSize) q.vals i else q2.vals (i - k)) ∧
            r.w.rnorms = normsBack o (w.s.sv.i .methodStage2) r.out (r.w.s.sv.d .aNorm) r.w.svals
              (fun i => if i < k then rn i else q2.norms (i - k)) ∧
            ∀ j c s n e ok, Ev.test j c s n e ok ∈ mid →
              s = valuesBack o (w.s.sv.i .method) (q.p.i .initSize) q.vals j ∧ n = rn j ∧
              c = w.s.sv.i .numOrthoConst + j)))) := by
  obtain ⟨st, hst, hcase⟩ := stages_inv o w r h
  obtain ⟨hcode, new1, hl1, hs1, hok1⟩ := copyFrom_spec o false w st hst hm
  rcases hcase with ⟨hne, rfl⟩ | ⟨h0, c, t, rfl, rfl, hcase⟩
  · exact absurd (hcode.resolve_left hne) hnd
  · obtain ⟨k0, hk0, q1, so1, ne1, oc1, in1, _, mm1, _⟩ := hok1 h0
    obtain ⟨rfl, rfl⟩ := hk0 rfl
    rw [List.append_nil] at hl1
    obtain ⟨hr1, hp1, ho1, hlog1, hv1, hn1, hpr1, hsv1, hmv1, hd1, hpp1⟩ := callSolver_spec o false 0 st.w
    set q := o.solve false (stage false st.w.s) (fun i => st.w.svals (0 + i)) (fun i => st.w.rnorms (0 + i))
      (st.w.heap ((stage false st.w.s).p .targetShifts)) with hq
    obtain ⟨ct1, ct2, ct3, ct4, ct5, ct6⟩ := hc false (stage false st.w.s) (fun i => st.w.svals (0 + i))
      (fun i => st.w.rnorms (0 + i)) (st.w.heap ((stage false st.w.s).p .targetShifts))
    rw [← hq] at ct1 ct2 ct3 ct4 ct5 ct6
    obtain ⟨ht1, ht2⟩ := copyTo_log o false st.alloc (callSolver o false 0 st.w).2
    have hm1 : opOf false (callSolver o false 0 st.w).2.s = w.s.sv.i .method := by
      show (callSolver o false 0 st.w).2.s.sv.i .method = _
      rw [hsv1 _ (by simp), q1.i _ (by simp)]
    rcases hcase with ⟨hne, rfl⟩ | ⟨h1, hcase⟩
    · exact absurd (Or.inr (Or.inl (ht2.resolve_left hne))) hnd
    · have hco := copyTo_ok o false st.alloc (callSolver o false 0 st.w).2 (by rw [hm1]; exact hm) h1
      dsimp only at hco
      rw [hm1, hp1] at hco
      have hgb : giveBack false (callSolver o false 0 st.w).2.s.sv q.p = q.p := rfl
      rw [hgb] at hco
      set t := (copyTo o false st.alloc (callSolver o false 0 st.w).2).2 with ht
      obtain ⟨hi, hprod, hstat, hfol, hoth, hstg, hsv, hdd, hpp, hrn, hts⟩ := hco
      have hfst : FirstStage o w (stage false st.w.s) (st.w.heap ((stage false st.w.s).p .targetShifts))
          (fun i => st.w.svals (0 + i)) (fun i => st.w.rnorms (0 + i)) q :=
        ⟨hq, by rw [ne1]; simp [stage], by rw [oc1]; simp, by rw [in1]; simp [opOf],
          by rw [mm1]; simp, st, hst, h0, rfl, rfl⟩
      have hlogt : t.log = w.log ++ [.solve false (stage false st.w.s) 0
          (st.w.heap ((stage false st.w.s).p .targetShifts)) q.ret] := by
        rw [ht1, hlog1, hl1]
      have hfolt : ∀ g ∈ svFollowed, t.s.sv.i g = w.s.sv.i g := by
        intro g hg
        have hgn : g ≠ .stats_numMatvecs := by rintro rfl; simp [svFollowed] at hg
        rw [hfol g hg, hsv1 g hgn, q1.i g hgn]
      have hprt : t.products = st.w.products + 2 * (q.p.i .stats_numMatvecs).toNat + q.testProducts
          + conversion (w.s.sv.i .method) (q.p.i .initSize) := by rw [hprod, hpr1]
      have hmt : w.products ≤ t.products := by have := q1.mono; omega
      have hct : t.s.sv.i .stats_numMatvecs
          = w.s.sv.i .stats_numMatvecs + ((t.products - w.products : ℕ) : Int) := by
        rw [hmv1] at hstat
        exact counted_step _ _ _ _ _ _ _ _ _ q1.mono ct5 q1.counted hstat hprt
      refine ⟨_, _, _, _, q, hfst, ?_⟩
      have hm2 : t.s.sv.i .methodStage2 = w.s.sv.i .methodStage2 := hfolt _ (by simp [svFollowed])
      have hv1' : (callSolver o false 0 st.w).2.svals = q.vals := by rw [hv1]; rfl
      have hn1' : (callSolver o false 0 st.w).2.rnorms = q.norms := by rw [hn1]; rfl
      rcases hcase with ⟨hno, rfl⟩ | ⟨hs2, hz, st2, hst2, hcase⟩
      · refine ⟨hmt, hct, hfolt, congrFun hstg _, Or.inl ⟨hlogt, hi, rfl, ?_, ?_⟩⟩
        · show t.svals = _
          rw [hsv, hv1', hi]
        · show t.rnorms = _
          rw [hrn, hn1', hi]
      · have hz0 : q.ret = 0 := by
          rw [hr1] at hz
          split_ifs at hz <;> omega
        rw [hm2] at hs2
        have hop2 : opOf true t.s = w.s.sv.i .methodStage2 := hm2
        obtain ⟨hcode2, new2, hl2, hsc2, hok2⟩ := copyFrom_spec o true t st2 hst2 (by rw [hop2]; exact hs2)
        rcases hcase with ⟨hne, rfl⟩ | ⟨h2, c2, t2, rfl, rfl, hcase⟩
        · exact absurd (hcode2.resolve_left hne) hnd
        · obtain ⟨k, _, q2, so2, ne2, oc2, in2, le2, mm2, acc2, _, tst2⟩ := hok2 h2
          have hst2t : stage true t.s = w.s.st2 := by
            rw [hoth true (by simp), ho1 true (by simp), so1 true (by simp)]; rfl
          have hst1t : t.s.st1.i .stats_numMatvecs = q.p.i .stats_numMatvecs := congrFun hstg _
          rw [hop2] at in2 le2 acc2
          rw [hst2t] at ne2
          rw [hfolt .numOrthoConst (by simp [svFollowed])] at oc2
          have hgs : Verif.SvdsRun.guesses (w.s.sv.i .methodStage2) t.s.sv
              = (if w.s.sv.i .methodStage2 = 3 ∧ q.p.i .initSize ≤ 0 then 1 else q.p.i .initSize) := by
            unfold Verif.SvdsRun.guesses; rw [hi]
          rw [hgs] at in2 le2 acc2
          have hmm2 : (stage true st2.w.s).i .maxMatvecs
              = (w.s.sv.i .maxMatvecs).tdiv 2 - q.p.i .stats_numMatvecs := by
            rw [mm2, hfolt .maxMatvecs (by simp [svFollowed]), hst1t]; simp
          set off := (st2.w.s.sv.i .numSvals - st2.w.s.st2.i .numEvals).toNat with hoff
          obtain ⟨hr2, hp2, ho2, hlog2, hv2, hn2, hpr2, hsv2, hmv2, hd2, hpp2⟩ := callSolver_spec o true off st2.w
          obtain ⟨ht3, ht4⟩ := copyTo_log o true st2.alloc (callSolver o true off st2.w).2
          set q2' := o.solve true (stage true st2.w.s) (fun i => st2.w.svals (off + i))
            (fun i => st2.w.rnorms (off + i)) (st2.w.heap ((stage true st2.w.s).p .targetShifts)) with hq2
          obtain ⟨cu1, cu2, cu3, cu4, cu5, cu6⟩ := hc true (stage true st2.w.s) (fun i => st2.w.svals (off + i))
            (fun i => st2.w.rnorms (off + i)) (st2.w.heap ((stage true st2.w.s).p .targetShifts))
          rw [← hq2] at cu1 cu2 cu3 cu4 cu5 cu6
          have hm3 : opOf true (callSolver o true off st2.w).2.s = w.s.sv.i .methodStage2 := by
            show (callSolver o true off st2.w).2.s.sv.i .methodStage2 = _
            rw [hsv2 _ (by simp), q2.i _ (by simp), hm2]
          rcases hcase with ⟨hne, rfl⟩ | ⟨h3, rfl⟩
          · exact absurd (Or.inr (Or.inl (ht4.resolve_left hne))) hnd
          · have hco2 := copyTo_ok o true st2.alloc (callSolver o true off st2.w).2 (by rw [hm3]; exact hs2) h3
            dsimp only at hco2
            rw [hm3, hp2] at hco2
            set gb := giveBack true (callSolver o true off st2.w).2.s.sv q2'.p with hgb2
            set t2 := (copyTo o true st2.alloc (callSolver o true off st2.w).2).2 with ht2'
            obtain ⟨hi2, hprod2, hstat2, hfol2, hoth2, hstg2, hsvv2, hdd2, hppp2, hrn2, hts2⟩ := hco2
            have hcallSv : ∀ g, g ≠ .stats_numMatvecs → (callSolver o true off st2.w).2.s.sv.i g = t.s.sv.i g := by
              intro g hg; rw [hsv2 g hg, q2.i g hg]
            have hfolt2 : ∀ g ∈ svFollowed, t2.s.sv.i g = w.s.sv.i g := by
              intro g hg
              have hgn : g ≠ .stats_numMatvecs := by rintro rfl; simp [svFollowed] at hg
              rw [hfol2 g hg, hcallSv g hgn, hfolt g hg]
            have hns : (callSolver o true off st2.w).2.s.sv.i .numSvals = w.s.sv.i .numSvals := by
              rw [hcallSv _ (by simp), hfolt _ (by simp [svFollowed])]
            have hmt2 : w.products ≤ t2.products := by
              have := q2.mono; rw [hprod2, hpr2]; omega
            refine ⟨hmt2, ?_, hfolt2, ?_, Or.inr ⟨k, stage true st2.w.s, st2.w.heap ((stage true st2.w.s).p .targetShifts),
              fun i => st2.w.svals (off + i), fun i => st2.w.rnorms (off + i), q2', new2, ?_, hs2, hz0, ?_, ?_⟩⟩
            · rw [hmv2] at hstat2
              rw [hpr2] at hprod2
              refine counted_chain _ _ _ _ _ _ hmt ?_ hct
                (counted_step _ _ _ _ _ _ _ _ _ q2.mono cu5 q2.counted hstat2 hprod2)
              have := q2.mono
              show t.products ≤ t2.products
              rw [hprod2]; clear * - this; omega
            · show (stage false t2.s).i .stats_numMatvecs = _
              rw [hoth2 false (by simp), ho2 false (by simp), so2 false (by simp)]
              exact hst1t
            · refine ⟨hq2, ne2, oc2, in2, ?_, hmm2, t, st2, hst2, h2, rfl, rfl, ?_, ?_, hi, hst2t, hfolt, ?_, ?_⟩
              rotate_left
              · rw [hsv, hv1']
              · rw [hrn, hn1']
              · rw [hpp, hpp1, q1.p]
              · rw [hdd, normBack_d o _ _ _ _ (hd1.trans q1.d)]
              have : (0 : Int) ≤ (if w.s.sv.i .methodStage2 = 3 ∧ q.p.i .initSize ≤ 0 then 1 else q.p.i .initSize) := by
                split_ifs <;> omega
              omega
            · show (stage true t2.s).i .stats_numMatvecs = _
              rw [hstg2, hgb2]; unfold giveBack
              simp only [if_true, setI_i, reduceCtorEq, if_false]
            · intro hnum
              have hns2 : st2.w.s.sv.i .numSvals = w.s.sv.i .numSvals := by
                rw [q2.i _ (by simp), hfolt _ (by simp [svFollowed])]
              have hoffk : off = k := by
                rw [hoff, hns2]
                have : st2.w.s.st2.i .numEvals = w.s.st2.i .numEvals - k := ne2
                rw [this, hnum]; omega
              have hgbi : gb.i .initSize = q2'.p.i .initSize + k := by
                rw [hgb2]; unfold giveBack
                simp only [if_true, setI_i, reduceCtorEq, if_false]
                rw [hns, cu1, ne2, hnum]; omega
              have hgbn : gb.i .numEvals = w.s.sv.i .numSvals := by
                rw [hgb2]; unfold giveBack
                simp only [if_true, setI_i, reduceCtorEq, if_false]
                rw [hns, cu1, ne2, hnum]; omega
              have hgbo : gb.i .numOrthoConst = w.s.sv.i .numOrthoConst := by
                rw [hgb2]; unfold giveBack
                simp only [if_true, setI_i, reduceCtorEq, if_false]
                rw [hns, cu1, cu2, ne2, hnum, oc2]; omega
              have hout : t2.s.sv.i .initSize = k + q2'.p.i .initSize := by rw [hi2, hgbi]; omega
              obtain ⟨a1, a2, a3⟩ := acc2 rfl
              refine ⟨?_, hsc2, a1, a2, a3, hout, rfl, ?_, ?_, st2.w.rnorms, ?_, ?_, ?_⟩
              · show t2.log = _
                rw [ht3, hlog2, hl2, hlogt, hoffk]; simp
              · show (stage true t2.s).i .numEvals = _
                rw [hstg2, hgbn]
              · show (stage true t2.s).i .numOrthoConst = _
                rw [hstg2, hgbo]
              · show t2.svals = _
                rw [hsvv2, hv2, hoffk, q2.svals, hsv, hv1', hi2]
              · show t2.rnorms = _
                rw [hrn2, hn2, hoffk, hi2]
              · intro j c s n e ok hj
                obtain ⟨u1, u2, u3⟩ := tst2 j c s n e ok hj
                refine ⟨?_, u2, ?_⟩
                · rw [u1, q2.svals, hsv, hv1']
                · rw [u3, hfolt _ (by simp [svFollowed])]

end Verif.SvdsRun
