import Verif.Props.C28_SvdsRun

/-!
# C12 for the singular value solver: the call that only asks for the configuration
-/

set_option linter.unusedSectionVars false

namespace Verif.Props
open Verif.Members Verif.Eigs Verif.Svds Verif.Spec Verif.SvdsRun

variable {K : Type} [Field K] [LinearOrder K]

/-- **C12, singular values.** With the three arrays `NULL` the call returns 0, calls neither the eigensolver nor
the user's product and reports no triplet, for every structure. -/
theorem C12_svds_query (t : Int) (sys : Int → Option (Sys K)) (w : World K) (o : Sys K)
    (hs : sys (C28_precision t w) = some o) (k : ℕ) (hk : 4 ≤ k) :
    ∃ r, SvdsRun.driver t sys k ⟨true, true, true⟩ w = some r ∧ r.code = 0 ∧ r.w.s.sv.i .initSize = 0 ∧
      r.w.log = w.log ∧ r.w.products = w.products ∧ r.w.svals = w.svals ∧ r.w.rnorms = w.rnorms := by
  unfold SvdsRun.driver
  dsimp only
  have hprec : (if (SvdsRun.defaultTypes t w.s.sv).i .internalPrecision = 0 then t
      else (SvdsRun.defaultTypes t w.s.sv).i .internalPrecision) = C28_precision t w := by
    unfold C28_precision; rw [defaultTypes_keeps _ _ _ (by simp)]
  rw [hprec, hs]
  dsimp only
  unfold SvdsRun.wrapper svdsPrelude
  obtain ⟨s', hs'⟩ := (C10_terminates o.toSEnv 0 0 0 ({ w.s with sv := SvdsRun.defaultTypes t w.s.sv })).2
  simp only [Bool.true_eq_false, and_false, false_and, if_false, hs' k hk, and_self, if_true]
  exact ⟨_, rfl, rfl, by simp [svI], rfl, rfl, rfl, rfl⟩

/-- A call with some array missing makes no product, calls no eigensolver and reports no triplet; unless all three
are missing it returns an error. -/
theorem C12_svds_missing_array (t : Int) (sys : Int → Option (Sys K)) (k : ℕ) (a : SArrays) (w : World K) (r : Ret K)
    (h : SvdsRun.driver t sys k a w = some r) (hw : a ≠ ⟨false, false, false⟩) :
    r.w.s.sv.i .initSize = 0 ∧ r.w.log = w.log ∧ r.w.products = w.products ∧
    (a ≠ ⟨true, true, true⟩ → r.code ≠ 0) := by
  unfold SvdsRun.driver at h
  dsimp only at h
  rcases hs : sys (if (SvdsRun.defaultTypes t w.s.sv).i .internalPrecision = 0 then t
      else (SvdsRun.defaultTypes t w.s.sv).i .internalPrecision) with _ | o
  · rw [hs] at h
    obtain rfl := Option.some.inj h
    exact ⟨by simp [svI], rfl, rfl, fun _ => show (PRIMME_FUNCTION_UNAVAILABLE : Int) ≠ 0 by decide⟩
  · rw [hs] at h
    dsimp only at h
    set w1 : World K := { w with s := { w.s with sv := SvdsRun.defaultTypes t w.s.sv } } with hw1
    rcases hwr : SvdsRun.wrapper o k a w1 with _ | r'
    · rw [hwr] at h; exact absurd h (by simp)
    · rw [hwr] at h
      dsimp only at h
      obtain rfl := Option.some.inj h
      unfold SvdsRun.wrapper at hwr
      rcases hp : svdsPrelude o.toSEnv k a w1.s with _ | s
      · rw [hp] at hwr; exact absurd hwr (by simp)
      · rw [hp] at hwr
        dsimp only at hwr
        by_cases h1 : a.svalsNull = true ∧ a.svecsNull = true ∧ a.resNormsNull = true
        · rw [if_pos h1] at hwr
          obtain rfl := Option.some.inj hwr
          refine ⟨by simp [svI], rfl, rfl, fun hne => absurd ?_ hne⟩
          cases a; simp_all
        · rw [if_neg h1] at hwr
          have h2 : svdsCheckInput a s.sv ≠ 0 := fun hz => hw ((C09_accepted_inputs _ _).1 hz).2.2.2.2.2.2.2.2.2
          rw [if_pos h2] at hwr
          obtain rfl := Option.some.inj hwr
          exact ⟨by simp [svI], rfl, rfl, fun _ => h2⟩

/-- One array missing on one process: the local sizes are completed only if all three are given, so the answer is
-5 (sizes) and not -18 (`svecs`). -/
example : (SvdsRun.driver 3 (fun _ => some C28_sys) 5 ⟨false, true, false⟩ C28_world).map (fun r => r.code)
    = some (-5) := by decide +kernel
example : (SvdsRun.driver 3 (fun _ => some C28_sys) 5 ⟨true, true, true⟩ C28_world).map
    (fun r => (r.code, r.w.s.sv.i .method, r.w.s.st1.i .n)) = some (0, 1, 2) := by decide +kernel

/-- Refutation of "statistics start from zero in every run" for the broadcasts of the singular value solver: the
counters of broadcasts are not reset, so a second call reports the broadcasts of the first too. -/
theorem C29_svds_broadcasts_not_reset_violated : ∃ r : Ret ℚ,
    SvdsRun.driver 3 (fun _ => some C28_sys) 5 ⟨false, false, false⟩
      { C28_world with s := { C28_world.s with sv := C28_world.s.sv.setI .stats_numBroadcast 5 } } = some r ∧
    r.code = 0 ∧ r.w.s.st1.i .stats_numBroadcast = 0 ∧ r.w.s.st2.i .stats_numBroadcast = 0 ∧
    r.w.s.sv.i .stats_numBroadcast = 5 := by
  have h : (SvdsRun.driver 3 (fun _ => some C28_sys) 5 ⟨false, false, false⟩
      { C28_world with s := { C28_world.s with sv := C28_world.s.sv.setI .stats_numBroadcast 5 } }).map
      (fun r => [r.code, r.w.s.st1.i .stats_numBroadcast, r.w.s.st2.i .stats_numBroadcast,
        r.w.s.sv.i .stats_numBroadcast]) = some [0, 0, 0, 5] := by decide +kernel
  rcases hd : SvdsRun.driver 3 (fun _ => some C28_sys) 5 ⟨false, false, false⟩
      { C28_world with s := { C28_world.s with sv := C28_world.s.sv.setI .stats_numBroadcast 5 } } with _ | r
  · rw [hd] at h; exact absurd h (by simp)
  · rw [hd] at h
    simp only [Option.map_some, Option.some.injEq, List.cons.injEq, and_true] at h
    exact ⟨r, rfl, h.1, h.2.1, h.2.2.1, h.2.2.2⟩

end Verif.Props
