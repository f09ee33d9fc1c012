import Verif.Props.C06_SetMethod

/-!
# C39: the preset methods set what the manual says

`Doc.preset` is the manual's table.  Each documented setting is either proved (`kept`) or refuted by a
concrete structure (`other`).
-/

namespace Verif.Props
open Verif.Members Verif.Eigs

variable {K : Type} [Field K] [LinearOrder K]

/-- A setting of the case of method `r` that `primme_set_defaults` does not revise. -/
theorem C39_via {m r : Int} {s v : EP K} (hr : resolveMethod m s = r)
    (hc : methodCase r (methodPrelude r s) = some v) : (setMethod m s).2 = defaultsBody v := by
  rw [setMethod_eq m s hr, hc]

theorem C39_leftQ (r : Int) (s : EP K) :
    (if (methodPrelude r s).i .correctionParams_precondition ≠ 0 then (1 : Int) else 0) =
      Doc.leftQ (decide (s.p .applyPreconditioner ≠ 0)) s.i := by
  rw [(prelude_facts r s).2.2.1]
  unfold Doc.leftQ
  by_cases h : s.p .applyPreconditioner = 0 <;> split_ifs <;> simp_all

/-- Full claim: for every published method `m` and every entry `(member, value)` of the manual's table
(`kept` and `other`), the member has that value after `primme_set_method(m)`.

Proved: the entries `kept`, that is every documented setting except the ones refuted below
(`locking = 0`, the retained vectors of the GD+k, JDQMR and DYNAMIC methods, the inner iterations of
JDQR, `SkewX` of JDQMR_ETol and DYNAMIC, and the sizes of LOBPCG Window, which are right except for
block size 1 with `closest_abs`-like targets).  For the two methods that take their sizes from
`numEvals`, `numEvals` must not be 0. -/
theorem C39_documented_settings_partial {k : Nat} {m : Int} {s t : EP K}
    (h : callMethod k m s = some (0, t)) (hne : (m = 13 ∨ m = 14) → s.i .numEvals ≠ 0) :
    ∀ e ∈ (Doc.preset (decide (s.p .applyPreconditioner ≠ 0)) m s.i).kept, t.i e.1 = e.2 := by
  have ht : t = (setMethod m s).2 := by rw [← C06_result h]
  have hpub : Doc.Published m := ((C06_return_code h).1).1 rfl
  obtain ⟨p1, p2, p3, p4, -, p5⟩ := prelude_facts (resolveMethod m s) s
  have pn := p4 .numEvals (by decide) (by decide) (by decide)
  have ptg := p4 .target (by decide) (by decide) (by decide)
  have hq := C39_leftQ (resolveMethod m s) s
  obtain ⟨h0, h15⟩ := hpub
  have hmm : m = 0 ∨ m = 1 ∨ m = 2 ∨ m = 3 ∨ m = 4 ∨ m = 5 ∨ m = 6 ∨ m = 7 ∨ m = 8 ∨ m = 9 ∨ m = 10 ∨
    m = 11 ∨ m = 12 ∨ m = 13 ∨ m = 14 ∨ m = 15 := by omega
  have dyn : ∀ v : EP K, v = dynamic (methodPrelude 1 s) → resolveMethod m s = 1 →
      t = defaultsBody v →
      ∀ e ∈ (Doc.preset (decide (s.p .applyPreconditioner ≠ 0)) 1 s.i).kept, t.i e.1 = e.2 := by
    intro v hv hr ht e he
    rw [hr] at p1 ptg hq
    obtain ⟨a1, a2, a3, a4, a5, a6, a7, a8, a9, a10, b1, b2, b3, b4⟩ :=
      dynamic_i (methodPrelude 1 s)
    rw [← hv] at a1 a2 a3 a4 a5 a6 a7 a8 a9 a10 b1 b2 b3 b4
    have b5 : v.i .dynamicMethodSwitch = 1 := by
      rw [case_dms 1 (methodPrelude 1 s) v (by rw [hv]; rfl), p1]; rfl
    have a10' : v.i .correctionParams_convTest =
        if s.i .target = 0 ∨ s.i .target = 1 then 2 else 3 := by
      rw [a10]; exact extremal_ite ptg 2 3
    simp only [Doc.preset, Doc.jdqmrCommon] at he
    norm_num at he
    rw [hq] at a3
    rw [ht]
    rcases he with rfl | rfl | rfl | rfl | rfl | rfl | rfl | rfl <;>
      (dsimp only; rw [defaults_i v (by decide)]; first | assumption | simp_all)
  have jdq : ∀ v : EP K, v = jdqmr (methodPrelude 11 s) → resolveMethod m s = 11 →
      t = defaultsBody v →
      ∀ e ∈ (Doc.preset (decide (s.p .applyPreconditioner ≠ 0)) 11 s.i).kept, t.i e.1 = e.2 := by
    intro v hv hr ht e he
    rw [hr] at hq
    obtain ⟨a1, a2, a3, a4, a5, a6, a7, a8, a9, a10⟩ := jdqmr_i (methodPrelude 11 s)
    rw [← hv] at a1 a2 a3 a4 a5 a6 a7 a8 a9 a10
    simp only [Doc.preset, Doc.jdqmrCommon] at he
    norm_num at he
    rw [hq] at a3
    rw [ht]
    rcases he with rfl | rfl | rfl | rfl | rfl | rfl | rfl | rfl <;>
      (dsimp only; rw [defaults_i v (by decide)]; first | assumption | simp_all)
  have jdqe : ∀ v : EP K, v = jdqmrETol (methodPrelude 12 s) → resolveMethod m s = 12 →
      t = defaultsBody v →
      ∀ e ∈ (Doc.preset (decide (s.p .applyPreconditioner ≠ 0)) 12 s.i).kept, t.i e.1 = e.2 := by
    intro v hv hr ht e he
    rw [hr] at hq
    obtain ⟨a1, a2, a3, a4, a5, a6, a7, a8, a9, a10⟩ := jdqmrETol_i (methodPrelude 12 s)
    rw [← hv] at a1 a2 a3 a4 a5 a6 a7 a8 a9 a10
    simp only [Doc.preset, Doc.jdqmrCommon] at he
    norm_num at he
    rw [hq] at a3
    rw [ht]
    rcases he with rfl | rfl | rfl | rfl | rfl | rfl | rfl <;>
      (dsimp only; rw [defaults_i v (by decide)]; first | assumption | simp_all)
  have olsen : ∀ v : EP K, v = gdOlsenPlusK (methodPrelude 7 s) → t = defaultsBody v →
      ∀ e ∈ (Doc.preset (decide (s.p .applyPreconditioner ≠ 0)) 7 s.i).kept, t.i e.1 = e.2 := by
    intro v hv ht e he
    simp only [Doc.preset] at he
    norm_num at he
    rw [ht]
    rcases he with rfl | rfl | rfl <;> (rw [defaults_i v (by decide), hv]; rfl)
  rcases hmm with rfl | rfl | rfl | rfl | rfl | rfl | rfl | rfl | rfl | rfl | rfl | rfl | rfl | rfl |
    rfl | rfl
  · exact dyn _ rfl rfl (ht.trans (C39_via rfl rfl))
  · exact dyn _ rfl rfl (ht.trans (C39_via rfl rfl))
  · by_cases hx : extremal s
    · have hr : resolveMethod 2 s = 12 := by simp [resolveMethod, hx]
      have := jdqe _ rfl hr (ht.trans (C39_via hr rfl))
      have e1 : (Doc.preset (decide (s.p .applyPreconditioner ≠ 0)) 2 s.i) =
          (Doc.preset (decide (s.p .applyPreconditioner ≠ 0)) 12 s.i) := by
        unfold extremal at hx
        have : ¬ (s.i .target ≠ 0 ∧ s.i .target ≠ 1) := by tauto
        simp [Doc.preset, this]
      rw [e1]; exact this
    · have hr : resolveMethod 2 s = 11 := by simp [resolveMethod, hx]
      have := jdq _ rfl hr (ht.trans (C39_via hr rfl))
      have e1 : (Doc.preset (decide (s.p .applyPreconditioner ≠ 0)) 2 s.i) =
          (Doc.preset (decide (s.p .applyPreconditioner ≠ 0)) 11 s.i) := by
        unfold extremal at hx
        have : (s.i .target ≠ 0 ∧ s.i .target ≠ 1) := by tauto
        simp [Doc.preset, this]
      rw [e1]; exact this
  · exact olsen _ rfl (ht.trans (C39_via rfl rfl))
  · intro e he
    have ht := ht.trans (C39_via (m := 4) (r := 4) rfl rfl)
    simp only [Doc.preset] at he
    norm_num at he
    rw [ht]
    rcases he with rfl | rfl | rfl <;> (rw [defaults_i _ (by decide)]; rfl)
  · intro e he
    have ht := ht.trans (C39_via (m := 5) (r := 5) rfl rfl)
    simp only [Doc.preset] at he
    norm_num at he
    rw [ht]
    rcases he with rfl | rfl | rfl | rfl | rfl <;> (rw [defaults_i _ (by decide)]; rfl)
  · intro e he
    have ht := ht.trans (C39_via (m := 6) (r := 6) rfl rfl)
    simp only [Doc.preset] at he
    norm_num at he
    rw [ht]
    rcases he with rfl | rfl | rfl <;> (rw [defaults_i _ (by decide)]; rfl)
  · exact olsen _ rfl (ht.trans (C39_via rfl rfl))
  · intro e he
    have ht := ht.trans (C39_via (m := 8) (r := 8) rfl rfl)
    simp only [Doc.preset] at he
    norm_num at he
    rw [ht]
    rcases he with rfl | rfl | rfl | rfl <;> (rw [defaults_i _ (by decide)]; rfl)
  · intro e he
    have ht := ht.trans (C39_via (m := 9) (r := 9) rfl rfl)
    simp only [Doc.preset] at he
    norm_num at he
    rw [ht]
    rcases he with rfl | he
    · exact d_lock_keep _ (by show (0 : Int) ≤ 1; decide)
    rcases he with rfl | rfl | rfl | rfl | rfl | rfl | rfl | rfl | rfl | rfl <;>
      (rw [defaults_i _ (by decide)]; rfl)
  · intro e he
    have ht := ht.trans (C39_via (m := 10) (r := 10) (v := jdqr (methodPrelude 10 s)) rfl rfl)
    obtain ⟨a1, a2, a3, a4, a5, a6, a7, a8, a9, a10, a11⟩ := jdqr_other (methodPrelude 10 s)
    generalize jdqr (methodPrelude 10 s) = v at *
    simp only [Doc.preset] at he
    norm_num at he
    rw [ht]
    rcases he with rfl | he
    · exact (d_lock_keep _ (by omega)).trans a1
    rcases he with rfl | rfl | rfl | rfl | rfl | rfl | rfl | rfl | rfl <;>
      (dsimp only; rw [defaults_i v (by decide)]; assumption)
  · exact jdq _ rfl rfl (ht.trans (C39_via rfl rfl))
  · exact jdqe _ rfl rfl (ht.trans (C39_via rfl rfl))
  · intro e he
    have ht := ht.trans (C39_via (m := 13) (r := 13) (v := steepest (methodPrelude 13 s)) rfl rfl)
    obtain ⟨a1, a2, a3, a4, a5, a6, a7, a8, a9, a10⟩ := steepest_i (methodPrelude 13 s)
    have pn : (methodPrelude 13 s).i .numEvals = s.i .numEvals := pn
    have hne := hne (Or.inl rfl)
    rw [pn] at a2 a3 a4 a10
    generalize steepest (methodPrelude 13 s) = v at *
    simp only [Doc.preset] at he
    norm_num at he
    rw [ht]
    rcases he with rfl | rfl | rfl | he
    · exact (d_lock_keep _ (by omega)).trans a1
    · exact (d_max_keep _ (by omega)).trans a2
    · exact (d_min_keep _ (by omega)).trans a3
    rcases he with rfl | rfl | rfl | rfl | rfl | rfl <;>
      (dsimp only; rw [defaults_i v (by decide)]; assumption)
  · intro e he
    have ht := ht.trans (C39_via (m := 14) (r := 14) (v := lobpcg (methodPrelude 14 s)) rfl rfl)
    obtain ⟨a2, a3, a4, a5, a6, a7, a8, a9, a1, a10⟩ := lobpcg_i (methodPrelude 14 s)
    have pn : (methodPrelude 14 s).i .numEvals = s.i .numEvals := pn
    have hne := hne (Or.inr rfl)
    rw [pn] at a2 a3 a4 a5 a10
    generalize lobpcg (methodPrelude 14 s) = v at *
    simp only [Doc.preset] at he
    norm_num at he
    rw [ht]
    rcases he with rfl | rfl | he
    · exact (d_max_keep _ (by omega)).trans a2
    · exact (d_min_keep _ (by omega)).trans a3
    rcases he with rfl | rfl | rfl | rfl | rfl | rfl <;>
      (dsimp only; rw [defaults_i v (by decide)]; assumption)
  · intro e he
    have ht := ht.trans
      (C39_via (m := 15) (r := 15) (v := lobpcgWindow (methodPrelude 15 s)) rfl rfl)
    simp only [Doc.preset] at he
    norm_num at he
    rw [ht]
    rcases he with rfl | rfl | rfl | rfl <;>
      (rw [defaults_i _ (by decide)]; unfold lobpcgWindow; simp only; split_ifs <;> rfl)

/-- The double that is part of a preset: JDQR sets `relTolBase` to 1.5; no other preset changes it. -/
theorem C39_relTolBase {k : Nat} {m : Int} {s t : EP K} (h : callMethod k m s = some (0, t)) :
    t.d .correctionParams_relTolBase =
      if m = 10 then 3 / 2 else s.d .correctionParams_relTolBase := by
  have ht : (0, t) = setMethod m s := C06_result h
  have hm : resolveMethod m s = 10 ↔ m = 10 := by
    unfold resolveMethod; simp only; split_ifs <;> omega
  rw [setMethod_eq m s rfl] at ht
  obtain ⟨-, -, -, -, pd, -⟩ := prelude_facts (resolveMethod m s) s
  generalize resolveMethod m s = r at ht pd hm
  cases hc : methodCase r (methodPrelude r s) with
  | none => rw [hc] at ht; simp at ht
  | some v =>
    rw [hc] at ht
    simp only [Prod.mk.injEq, true_and] at ht
    rw [ht, defaults_d]
    have hk : (plusK (methodPrelude r s)).d = s.d := by
      unfold plusK; split_ifs <;> exact pd
    rcases case_cases hc with ⟨rfl, rfl⟩ | ⟨rfl, rfl⟩ | ⟨rfl, rfl⟩ | ⟨rfl, rfl⟩ | ⟨rfl, rfl⟩ |
      ⟨rfl, rfl⟩ | ⟨rfl, rfl⟩ | ⟨rfl, rfl⟩ | ⟨rfl, rfl⟩ | ⟨rfl, rfl⟩ | ⟨rfl, rfl⟩ | ⟨rfl, rfl⟩ |
      ⟨rfl, rfl⟩
    all_goals first
      | (rw [if_pos (hm.1 rfl)]; exact (jdqr_other _).2.2.2.2.2.2.2.2.2.1)
      | (rw [if_neg (fun c => absurd (hm.2 c) (by decide)), ← pd]; rfl)
      | (rw [if_neg (fun c => absurd (hm.2 c) (by decide)), ← hk]; rfl)
      | (rw [if_neg (fun c => absurd (hm.2 c) (by decide)), ← pd]
         unfold jdqmr; simp only [ite_setI]; rfl)
      | (rw [if_neg (fun c => absurd (hm.2 c) (by decide)), ← pd]
         unfold jdqmrETol; simp only [ite_setI]; rfl)
      | (rw [if_neg (fun c => absurd (hm.2 c) (by decide)), ← pd]
         unfold lobpcgWindow; simp only; split_ifs <;> rfl)

/-- What the GD+k presets do instead of the documented rule: the number of retained vectors is only
chosen when it is not positive, and a mass matrix also makes it 2. -/
theorem C39_plusK_retained {k : Nat} {m : Int} {s t : EP K} (h : callMethod k m s = some (0, t))
    (hm : m = 6 ∨ m = 7 ∨ m = 8 ∨ m = 3 ∨ m = 1 ∨ m = 0) :
    t.i .restartingParams_maxPrevRetain =
      if s.i .restartingParams_maxPrevRetain ≤ 0 then
        (if s.p .massMatrixMatvec ≠ 0 then 2 else Doc.plusKRetain s.i)
      else s.i .restartingParams_maxPrevRetain := by
  have ht : t = (setMethod m s).2 := by rw [← C06_result h]
  obtain ⟨-, p2, -, p4, -, pp⟩ := prelude_facts (resolveMethod m s) s
  have e : t.i .restartingParams_maxPrevRetain =
      (plusK (methodPrelude (resolveMethod m s) s)).i .restartingParams_maxPrevRetain := by
    rcases hm with rfl | rfl | rfl | rfl | rfl | rfl
    · rw [ht, C39_via (m := 6) (r := 6) rfl rfl, defaults_i _ (by decide)]; rfl
    · rw [ht, C39_via (m := 7) (r := 7) rfl rfl, defaults_i _ (by decide)]; rfl
    · rw [ht, C39_via (m := 8) (r := 8) rfl rfl, defaults_i _ (by decide)]; rfl
    · rw [ht, C39_via (m := 3) (r := 7) rfl rfl, defaults_i _ (by decide)]; rfl
    · rw [ht, C39_via (m := 1) (r := 1) rfl rfl, defaults_i _ (by decide)]; rfl
    · rw [ht, C39_via (m := 0) (r := 1) rfl rfl, defaults_i _ (by decide)]; rfl
  have pn := p4 .numEvals (by decide) (by decide) (by decide)
  have pr := p4 .restartingParams_maxPrevRetain (by decide) (by decide) (by decide)
  rw [e]
  generalize methodPrelude (resolveMethod m s) s = u at *
  unfold plusK Doc.plusKRetain Doc.block
  rw [pr, p2, pn, pp]
  split_ifs <;> simp_all

/-- `locking = 0` is documented for Arnoldi, GD, the GD+k family, JDQMR, LOBPCG and DYNAMIC, but a user
who had asked for locking keeps it. -/
theorem C39_locking_zero_violated :
    ∃ (s t : EP Rat), callMethod 2 5 s = some (0, t) ∧
      (.locking, (0 : Int)) ∈ (Doc.preset false 5 s.i).other ∧ t.i .locking = 1 :=
  ⟨C06_sample.setI .locking 1, (setMethod 5 (C06_sample.setI .locking 1)).2, by rfl,
    by decide +kernel, by decide +kernel⟩

/-- Nor does a fresh structure get `locking = 0`: here ten values are wanted with restart size 6, so
GD turns locking on. -/
theorem C39_locking_zero_fresh_violated :
    ∃ (s t : EP Rat), callMethod 2 5 s = some (0, t) ∧ s.i .locking = -1 ∧
      (.locking, (0 : Int)) ∈ (Doc.preset false 5 s.i).other ∧ t.i .locking = 1 :=
  ⟨C06_sample, (setMethod 5 C06_sample).2, by rfl, by decide +kernel, by decide +kernel,
    by decide +kernel⟩

/-- JDQR: "maxInnerIterations = 10 if it is 0"; a user's 0 stays 0. -/
theorem C39_jdqr_inner_violated :
    ∃ (s t : EP Rat), callMethod 2 10 s = some (0, t) ∧
      (.correctionParams_maxInnerIterations, (10 : Int)) ∈ (Doc.preset false 10 s.i).other ∧
      t.i .correctionParams_maxInnerIterations = 0 :=
  ⟨C06_sample.setI .correctionParams_maxInnerIterations 0,
    (setMethod 10 (C06_sample.setI .correctionParams_maxInnerIterations 0)).2, by rfl,
    by decide +kernel, by decide +kernel⟩

/-- JDQMR: "maxPrevRetain = 1 if it is 0"; a user's 0 stays 0. -/
theorem C39_jdqmr_retain_violated :
    ∃ (s t : EP Rat), callMethod 2 11 s = some (0, t) ∧
      (.restartingParams_maxPrevRetain, (1 : Int)) ∈ (Doc.preset false 11 s.i).other ∧
      t.i .restartingParams_maxPrevRetain = 0 :=
  ⟨C06_sample.setI .restartingParams_maxPrevRetain 0,
    (setMethod 11 (C06_sample.setI .restartingParams_maxPrevRetain 0)).2, by rfl,
    by decide +kernel, by decide +kernel⟩

/-- JDQMR_ETol: "the same changes as JDQMR", whose `SkewX` is 1; it is set to 0. -/
theorem C39_jdqmr_etol_skewX_violated :
    ∃ (s t : EP Rat), callMethod 2 12 s = some (0, t) ∧
      (.correctionParams_projectors_SkewX, (1 : Int)) ∈ (Doc.preset false 12 s.i).other ∧
      t.i .correctionParams_projectors_SkewX = 0 :=
  ⟨C06_sample, (setMethod 12 C06_sample).2, by rfl, by decide +kernel, by decide +kernel⟩

/-- GD+k: the documented rule ignores a value given by the user; the code keeps it. -/
theorem C39_plusK_retain_violated :
    ∃ (s t : EP Rat), callMethod 2 6 s = some (0, t) ∧
      (.restartingParams_maxPrevRetain, (2 : Int)) ∈ (Doc.preset false 6 s.i).other ∧
      t.i .restartingParams_maxPrevRetain = 3 :=
  ⟨C06_sample.setI .restartingParams_maxPrevRetain 3,
    (setMethod 6 (C06_sample.setI .restartingParams_maxPrevRetain 3)).2, by rfl,
    by decide +kernel, by decide +kernel⟩

/-- LOBPCG Window: with block size 1 and target `primme_closest_geq` the basis has 4 vectors, not 3. -/
theorem C39_window_sizes_violated :
    ∃ (s t : EP Rat), callMethod 2 15 s = some (0, t) ∧
      (.maxBasisSize, (3 : Int)) ∈ (Doc.preset false 15 s.i).other ∧ t.i .maxBasisSize = 4 :=
  ⟨C06_sample.setI .target 2, (setMethod 15 (C06_sample.setI .target 2)).2, by rfl,
    by decide +kernel, by decide +kernel⟩

/-- Away from that case the sizes of LOBPCG Window are as documented. -/
theorem C39_window_sizes {k : Nat} {s t : EP K} (h : callMethod k 15 s = some (0, t))
    (hs : ¬ (Doc.block s.i = 1 ∧ (s.i .target = 2 ∨ s.i .target = 3))) :
    t.i .maxBasisSize = Doc.block s.i * 3 ∧ t.i .minRestartSize = Doc.block s.i ∧
      t.i .restartingParams_maxPrevRetain = Doc.block s.i := by
  have ht : t = (setMethod 15 s).2 := by rw [← C06_result h]
  have ht := ht.trans
    (C39_via (m := 15) (r := 15) (v := lobpcgWindow (methodPrelude 15 s)) rfl rfl)
  obtain ⟨-, p2, -, p4, -, -⟩ := prelude_facts 15 s
  have ptg := p4 .target (by decide) (by decide) (by decide)
  have hb : (methodPrelude 15 s).i .maxBlockSize = Doc.block s.i := p2
  have hb0 : Doc.block s.i ≠ 0 := by unfold Doc.block; split_ifs <;> omega
  generalize methodPrelude 15 s = u at *
  have c : ¬ (u.i .maxBlockSize = 1 ∧ (u.i .target = 3 ∨ u.i .target = 2)) := by
    rw [hb, ptg]; tauto
  have a1 : (lobpcgWindow u).i .maxBasisSize = Doc.block s.i * 3 := by
    unfold lobpcgWindow; simp only; rw [if_neg c, ← hb]; rfl
  have a2 : (lobpcgWindow u).i .minRestartSize = Doc.block s.i := by
    unfold lobpcgWindow; simp only; rw [if_neg c, ← hb]; rfl
  have a3 : (lobpcgWindow u).i .restartingParams_maxPrevRetain = Doc.block s.i := by
    unfold lobpcgWindow; simp only; rw [if_neg c, ← hb]; rfl
  rw [ht]
  exact ⟨(d_max_keep _ (by omega)).trans a1, (d_min_keep _ (by omega)).trans a2,
    (defaults_i _ (by decide)).trans a3⟩

example : ∃ t, callMethod 2 14 C06_sample = some (0, t) ∧
    (Doc.preset false 14 C06_sample.i).kept.length = 8 ∧ t.i .maxBasisSize = 30 :=
  ⟨(setMethod 14 C06_sample).2, by rfl, by decide +kernel, by decide +kernel⟩

end Verif.Props
