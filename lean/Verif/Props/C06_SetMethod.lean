import Verif.Proofs.EigsParams
import Verif.Spec.EigsPresets

/-!
# C06: choosing a preset method

`primme_set_method(method, primme)` and `primme_set_defaults(primme)` call each other; the model
(`callMethod`, `callDefaults`) carries a bound on the call depth, and the first theorem says the bound
is never the reason for an answer.
-/

namespace Verif.Props
open Verif.Members Verif.Eigs

variable {K : Type} [Field K] [LinearOrder K]

theorem C06_result {k : Nat} {m : Int} {s : EP K} {r : Int × EP K}
    (h : callMethod k m s = some r) : r = setMethod m s := by
  match k with
  | 0 => simp [callMethod] at h
  | 1 =>
    unfold callMethod at h
    simp only at h
    unfold setMethod
    cases hc : methodCase (resolveMethod m s) (methodPrelude (resolveMethod m s) s) with
    | none => rw [hc] at h; simpa using h.symm
    | some t => rw [hc] at h; simp [callDefaults] at h
  | k + 2 => rw [callMethod_total] at h; simpa using h.symm

/-- `primme_set_method` terminates for every method number and every structure: two nested calls are
enough, and the answer does not depend on how deep a call stack is available. -/
theorem C06_terminates (m : Int) (s : EP K) : ∃ r, ∀ k ≥ 2, callMethod k m s = some r := by
  refine ⟨setMethod m s, ?_⟩
  intro k hk
  obtain ⟨j, rfl⟩ : ∃ j, k = j + 2 := ⟨k - 2, by omega⟩
  exact callMethod_total j m s

/-- So does `primme_set_defaults`. -/
theorem C06_defaults_terminates (s : EP K) : ∃ t, ∀ k ≥ 3, callDefaults k s = some t := by
  refine ⟨setDefaults s, ?_⟩
  intro k hk
  obtain ⟨j, rfl⟩ : ∃ j, k = j + 3 := ⟨k - 3, by omega⟩
  exact callDefaults_total j s

/-- The return value is 0 exactly for the published methods, and -1 otherwise. -/
theorem C06_return_code {k : Nat} {m : Int} {s t : EP K} {rc : Int}
    (h : callMethod k m s = some (rc, t)) :
    (rc = 0 ↔ Doc.Published m) ∧ (rc = 0 ∨ rc = -1) := by
  have e := C06_result h
  have hr : (resolveMethod m s = 1 ∨ (4 ≤ resolveMethod m s ∧ resolveMethod m s ≤ 15)) ↔
      Doc.Published m := by
    unfold resolveMethod Doc.Published
    simp only
    split_ifs <;> omega
  unfold setMethod at e
  cases hc : methodCase (resolveMethod m s) (methodPrelude (resolveMethod m s) s) with
  | none =>
    rw [hc] at e
    have := (methodCase_none_iff _ _).1 hc
    rw [hr] at this
    simp only [Prod.mk.injEq] at e
    obtain ⟨rfl, -⟩ := e
    simp [this]
  | some u =>
    rw [hc] at e
    have : ¬ methodCase (resolveMethod m s) (methodPrelude (resolveMethod m s) s) = none := by
      rw [hc]; simp
    rw [methodCase_none_iff, not_not, hr] at this
    simp only [Prod.mk.injEq] at e
    obtain ⟨rfl, -⟩ := e
    simp [this]

theorem C06_frame (m : Int) (s : EP K) :
    Within methodMembers methodDoubles s (setMethod m s).2 := by
  have hp : Within methodMembers methodDoubles s (methodPrelude (resolveMethod m s) s) :=
    prelude_within _ _
  unfold setMethod
  cases hc : methodCase (resolveMethod m s) (methodPrelude (resolveMethod m s) s) with
  | none => exact hp
  | some u =>
    refine (hp.trans ((case_within _ _ _ hc).mono ?_ (fun _ h => h))).trans
      ((defaults_within u).mono ?_ ?_)
    · intro f hf; exact (List.mem_filter.1 hf).1
    · intro f hf
      revert f; decide
    · intro f hf; cases hf

/-- The members that describe the problem are not touched: every integral member other than the
nineteen method parameters, every double except `relTolBase`, every pointer, callback and array, and
the seed keep their value, whatever the method. -/
theorem C06_problem_untouched {k : Nat} {m : Int} {s t : EP K} {rc : Int}
    (h : callMethod k m s = some (rc, t)) :
    (∀ f, f ∉ Doc.methodParameters → t.i f = s.i f) ∧
    (∀ f, f ≠ .correctionParams_relTolBase → t.d f = s.d f) ∧
    t.p = s.p ∧ t.seed = s.seed ∧ t.addr = s.addr := by
  have e := C06_result h
  have w := C06_frame m s
  rw [← e] at w
  refine ⟨fun f hf => w.1 f ?_, fun f hf => w.2.1 f ?_, w.2.2⟩
  · intro c; exact hf ((by decide : ∀ f ∈ methodMembers, f ∈ Doc.methodParameters) f c)
  · simpa [methodDoubles] using hf

/-- In particular the problem itself is untouched. -/
theorem C06_problem_members {k : Nat} {m : Int} {s t : EP K} {rc : Int}
    (h : callMethod k m s = some (rc, t)) :
    t.i .n = s.i .n ∧ t.i .nLocal = s.i .nLocal ∧ t.i .numEvals = s.i .numEvals ∧
    t.i .target = s.i .target ∧ t.i .numTargetShifts = s.i .numTargetShifts ∧
    t.i .numOrthoConst = s.i .numOrthoConst ∧ t.i .initSize = s.i .initSize ∧
    t.i .maxMatvecs = s.i .maxMatvecs ∧ t.i .maxOuterIterations = s.i .maxOuterIterations ∧
    t.d .eps = s.d .eps ∧ t.d .aNorm = s.d .aNorm ∧ t.p .matrixMatvec = s.p .matrixMatvec ∧
    t.p .targetShifts = s.p .targetShifts := by
  obtain ⟨hi, hd, hp, -, -⟩ := C06_problem_untouched h
  exact ⟨hi _ (by decide), hi _ (by decide), hi _ (by decide), hi _ (by decide), hi _ (by decide),
    hi _ (by decide), hi _ (by decide), hi _ (by decide), hi _ (by decide), hd _ (by decide),
    hd _ (by decide), by rw [hp], by rw [hp]⟩

/-- Calling `primme_set_method` twice with the same method is calling it once. -/
theorem C06_idempotent {k : Nat} {m : Int} {s t : EP K} {rc : Int}
    (h : callMethod k m s = some (rc, t)) (j : Nat) (hj : 2 ≤ j) :
    callMethod j m t = some (rc, t) := by
  have e := C06_result h
  obtain ⟨i, rfl⟩ : ∃ i, j = i + 2 := ⟨j - 2, by omega⟩
  rw [callMethod_total]
  have := setMethod_idem m s
  rw [← e] at this
  rw [this]

/-- `primme_set_defaults` gives a value only to members that are still unset, once a method has been
chosen: at most six members change, and a member that had been given a value keeps it. -/
theorem C06_defaults_only_unset {k : Nat} {s t : EP K} (h : callDefaults k s = some t)
    (hm : 0 ≤ s.i .dynamicMethodSwitch) :
    (∀ f, f ∉ ([.ldevecs, .projectionParams_projection, .initBasisMode, .maxBasisSize,
        .minRestartSize, .locking] : List IF) → t.i f = s.i f) ∧
    t.d = s.d ∧ t.p = s.p ∧
    (s.i .ldevecs ≠ -1 → t.i .ldevecs = s.i .ldevecs) ∧
    (s.i .projectionParams_projection ≠ 0 →
      t.i .projectionParams_projection = s.i .projectionParams_projection) ∧
    (s.i .initBasisMode ≠ 0 → t.i .initBasisMode = s.i .initBasisMode) ∧
    (s.i .maxBasisSize ≠ 0 → t.i .maxBasisSize = s.i .maxBasisSize) ∧
    (s.i .minRestartSize ≠ 0 → t.i .minRestartSize = s.i .minRestartSize) ∧
    (0 ≤ s.i .locking → t.i .locking = s.i .locking) := by
  have ht : t = defaultsBody s := by
    match k with
    | 0 => simp [callDefaults] at h
    | k + 1 => rw [callDefaults_of_nonneg k s hm] at h; simpa using h.symm
  subst ht
  refine ⟨fun f hf => defaults_i s (fun c => hf ?_), defaults_d s, defaults_p s, ?_, ?_,
    d_init_keep s, d_max_keep s, d_min_keep s, d_lock_keep s⟩
  · clear hf; revert f; decide
  · intro h; rw [d_ld]; unfold vLd; rw [if_neg (fun c => h c.1)]
  · intro h; rw [d_proj]; unfold vProj; rw [if_neg h]

/-- Choosing a method respects what the user set, except for the members that define the method:
a restart size, a basis size, a block size, a locking choice or an initial-basis mode given
beforehand survives every preset other than the ones named. -/
theorem C06_user_settings_kept {k : Nat} {m : Int} {s t : EP K} {rc : Int}
    (h : callMethod k m s = some (rc, t)) :
    (0 ≤ s.i .locking → m ≠ 9 → m ≠ 10 → m ≠ 13 → t.i .locking = s.i .locking) ∧
    (s.i .maxBasisSize ≠ 0 → m ≠ 13 → m ≠ 14 → m ≠ 15 → t.i .maxBasisSize = s.i .maxBasisSize) ∧
    (s.i .minRestartSize ≠ 0 → m ≠ 13 → m ≠ 14 → m ≠ 15 →
      t.i .minRestartSize = s.i .minRestartSize) ∧
    (s.i .maxBlockSize ≠ 0 → m ≠ 13 → m ≠ 14 → t.i .maxBlockSize = s.i .maxBlockSize) ∧
    (s.i .initBasisMode ≠ 0 → m ≠ 14 → m ≠ 15 → t.i .initBasisMode = s.i .initBasisMode) ∧
    (s.i .correctionParams_precondition ≠ -1 → m ≠ 4 →
      t.i .correctionParams_precondition = s.i .correctionParams_precondition) ∧
    (s.i .projectionParams_projection ≠ 0 →
      t.i .projectionParams_projection = s.i .projectionParams_projection) ∧
    (s.i .ldevecs ≠ -1 → t.i .ldevecs = s.i .ldevecs) := by
  have e := C06_result h
  obtain ⟨-, p2, p3, p4, -, -⟩ := prelude_facts (resolveMethod m s) s
  have hm : ∀ j : Int, (j = 9 ∨ j = 10 ∨ j = 13 ∨ j = 14 ∨ j = 15 ∨ j = 4) → m ≠ j →
      resolveMethod m s ≠ j := by
    intro j hj hmj
    unfold resolveMethod
    simp only
    split_ifs <;> omega
  unfold setMethod at e
  generalize hpre : methodPrelude (resolveMethod m s) s = u at e p2 p3 p4
  have q1 := p4 .locking (by decide) (by decide) (by decide)
  have q2 := p4 .maxBasisSize (by decide) (by decide) (by decide)
  have q3 := p4 .minRestartSize (by decide) (by decide) (by decide)
  have q4 := p4 .initBasisMode (by decide) (by decide) (by decide)
  have q5 := p4 .projectionParams_projection (by decide) (by decide) (by decide)
  have q6 := p4 .ldevecs (by decide) (by decide) (by decide)
  have q7 : s.i .maxBlockSize ≠ 0 → u.i .maxBlockSize = s.i .maxBlockSize := by
    intro h; rw [p2, if_neg h]
  have q8 : s.i .correctionParams_precondition ≠ -1 →
      u.i .correctionParams_precondition = s.i .correctionParams_precondition := by
    intro h; rw [p3, if_neg h]
  cases hc : methodCase (resolveMethod m s) u with
  | none =>
    rw [hc] at e
    simp only [Prod.mk.injEq] at e
    obtain ⟨-, rfl⟩ := e
    exact ⟨fun _ _ _ _ => q1, fun _ _ _ _ => q2, fun _ _ _ _ => q3, fun h _ _ => q7 h,
      fun _ _ _ => q4, fun h _ => q8 h, fun _ => q5, fun _ => q6⟩
  | some v =>
    rw [hc] at e
    simp only [Prod.mk.injEq] at e
    obtain ⟨-, rfl⟩ := e
    have w := case_within _ _ _ hc
    -- what the case itself does
    have c : (resolveMethod m s ≠ 9 → resolveMethod m s ≠ 10 → resolveMethod m s ≠ 13 →
          v.i .locking = u.i .locking) ∧
        (resolveMethod m s ≠ 13 → resolveMethod m s ≠ 14 → resolveMethod m s ≠ 15 →
          v.i .maxBasisSize = u.i .maxBasisSize ∧ v.i .minRestartSize = u.i .minRestartSize) ∧
        (resolveMethod m s ≠ 13 → resolveMethod m s ≠ 14 → v.i .maxBlockSize = u.i .maxBlockSize) ∧
        (resolveMethod m s ≠ 14 → resolveMethod m s ≠ 15 →
          v.i .initBasisMode = u.i .initBasisMode) ∧
        (resolveMethod m s ≠ 4 →
          v.i .correctionParams_precondition = u.i .correctionParams_precondition) ∧
        v.i .projectionParams_projection = u.i .projectionParams_projection ∧
        v.i .ldevecs = u.i .ldevecs := by
      generalize resolveMethod m s = r at hc
      have hk : ∀ f, f ≠ .restartingParams_maxPrevRetain → (plusK u).i f = u.i f :=
        fun f hf => plusK_i u hf
      have k1 := hk .locking (by decide)
      have k2 := hk .maxBasisSize (by decide)
      have k3 := hk .minRestartSize (by decide)
      have k4 := hk .maxBlockSize (by decide)
      have k5 := hk .initBasisMode (by decide)
      have k6 := hk .correctionParams_precondition (by decide)
      have k7 := hk .projectionParams_projection (by decide)
      have k8 := hk .ldevecs (by decide)
      rcases case_cases hc with ⟨rfl, rfl⟩ | ⟨rfl, rfl⟩ | ⟨rfl, rfl⟩ | ⟨rfl, rfl⟩ | ⟨rfl, rfl⟩ |
        ⟨rfl, rfl⟩ | ⟨rfl, rfl⟩ | ⟨rfl, rfl⟩ | ⟨rfl, rfl⟩ | ⟨rfl, rfl⟩ | ⟨rfl, rfl⟩ | ⟨rfl, rfl⟩ |
        ⟨rfl, rfl⟩
      · exact ⟨fun _ _ _ => rfl, fun _ _ _ => ⟨rfl, rfl⟩, fun _ _ => rfl, fun _ _ => rfl,
          fun h => absurd rfl h, rfl, rfl⟩
      · exact ⟨fun _ _ _ => rfl, fun _ _ _ => ⟨rfl, rfl⟩, fun _ _ => rfl, fun _ _ => rfl,
          fun h => rfl, rfl, rfl⟩
      · exact ⟨fun _ _ _ => k1, fun _ _ _ => ⟨k2, k3⟩, fun _ _ => k4, fun _ _ => k5,
          fun h => k6, k7, k8⟩
      · exact ⟨fun _ _ _ => k1, fun _ _ _ => ⟨k2, k3⟩, fun _ _ => k4, fun _ _ => k5,
          fun h => k6, k7, k8⟩
      · exact ⟨fun _ _ _ => k1, fun _ _ _ => ⟨k2, k3⟩, fun _ _ => k4, fun _ _ => k5,
          fun h => k6, k7, k8⟩
      · exact ⟨fun h _ _ => absurd rfl h, fun _ _ _ => ⟨rfl, rfl⟩, fun _ _ => rfl, fun _ _ => rfl,
          fun h => rfl, rfl, rfl⟩
      · unfold jdqr; simp only [ite_setI]
        exact ⟨fun _ h _ => absurd rfl h, fun _ _ _ => ⟨rfl, rfl⟩, fun _ _ => rfl, fun _ _ => rfl,
          fun h => rfl, rfl, rfl⟩
      · unfold jdqmr; simp only [ite_setI]
        exact ⟨fun _ _ _ => rfl, fun _ _ _ => ⟨rfl, rfl⟩, fun _ _ => rfl, fun _ _ => rfl,
          fun h => rfl, rfl, rfl⟩
      · unfold jdqmrETol; simp only [ite_setI]
        exact ⟨fun _ _ _ => rfl, fun _ _ _ => ⟨rfl, rfl⟩, fun _ _ => rfl, fun _ _ => rfl,
          fun h => rfl, rfl, rfl⟩
      · exact ⟨fun _ _ h => absurd rfl h, fun h _ _ => absurd rfl h, fun h _ => absurd rfl h,
          fun _ _ => rfl, fun h => rfl, rfl, rfl⟩
      · exact ⟨fun _ _ _ => rfl, fun _ h _ => absurd rfl h, fun _ h => absurd rfl h,
          fun h _ => absurd rfl h, fun h => rfl, rfl, rfl⟩
      · unfold lobpcgWindow; simp only
        split_ifs
        · exact ⟨fun _ _ _ => rfl, fun _ _ h => absurd rfl h, fun _ _ => rfl,
            fun _ h => absurd rfl h, fun h => rfl, rfl, rfl⟩
        · exact ⟨fun _ _ _ => rfl, fun _ _ h => absurd rfl h, fun _ _ => rfl,
            fun _ h => absurd rfl h, fun h => rfl, rfl, rfl⟩
      · exact ⟨fun _ _ _ => k1, fun _ _ _ => ⟨k2, k3⟩, fun _ _ => k4, fun _ _ => k5,
          fun h => k6, k7, k8⟩
    obtain ⟨c1, c2, c3, c4, c5, c6, c7⟩ := c
    refine ⟨fun h a b d => ?_, fun h a b d => ?_, fun h a b d => ?_, fun h a b => ?_,
      fun h a b => ?_, fun h a => ?_, fun h => ?_, fun h => ?_⟩
    · have := c1 (hm 9 (by decide) a) (hm 10 (by decide) b) (hm 13 (by decide) d)
      rw [d_lock_keep v (by omega)]; omega
    · have := (c2 (hm 13 (by decide) a) (hm 14 (by decide) b) (hm 15 (by decide) d)).1
      rw [d_max_keep v (by omega)]; omega
    · have := (c2 (hm 13 (by decide) a) (hm 14 (by decide) b) (hm 15 (by decide) d)).2
      rw [d_min_keep v (by omega)]; omega
    · have := c3 (hm 13 (by decide) a) (hm 14 (by decide) b)
      rw [defaults_i v (by decide), this, q7 h]
    · have := c4 (hm 14 (by decide) a) (hm 15 (by decide) b)
      rw [d_init_keep v (by omega)]; omega
    · have := c5 (hm 4 (by decide) a)
      rw [defaults_i v (by decide), this, q8 h]
    · rw [d_proj]; unfold vProj; rw [if_neg (by rw [c6, q5]; exact h), c6, q5]
    · rw [d_ld]; unfold vLd; rw [if_neg (by rw [c7, q6]; exact fun c => h c.1), c7, q6]

/-! A non-trivial case: a fresh structure for a problem of order 100, ten smallest values, with
PRIMME_JDQMR. -/

def C06_sample : EP Rat := (((initParams (0 : Rat) 1 (fun f => f)).setI .n 100).setI .numEvals 10)

example : ∃ t, callMethod 2 11 C06_sample = some (0, t) ∧
    t.i .maxBasisSize = 15 ∧ t.i .minRestartSize = 6 ∧ t.i .locking = 1 ∧
    t.i .correctionParams_convTest = 3 ∧ t.i .numEvals = 10 :=
  ⟨(setMethod 11 C06_sample).2, by rfl, by decide +kernel, by decide +kernel, by decide +kernel, by decide +kernel, by decide +kernel⟩

example : ∃ t, callMethod 2 16 C06_sample = some (-1, t) := ⟨(setMethod 16 C06_sample).2, by rfl⟩

/-- A failed call is not free of effects: the comment of the function (and a caller checking the
return value) might expect an untouched structure, but the block size, `dynamicMethodSwitch` and
`precondition` have been written, although neither basis size nor restart size is set. -/
theorem C06_unknown_method_writes_violated :
    ∃ (s t : EP Rat), callMethod 2 16 s = some (-1, t) ∧ t.i .maxBlockSize ≠ s.i .maxBlockSize ∧
      t.i .maxBasisSize = 0 ∧ t.i .minRestartSize = 0 :=
  ⟨C06_sample, (setMethod 16 C06_sample).2, by rfl, by decide +kernel, by decide +kernel,
    by decide +kernel⟩

end Verif.Props
