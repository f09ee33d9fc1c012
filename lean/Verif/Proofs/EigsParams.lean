import Verif.Model.EigsParams
import Mathlib.Tactic.SplitIfs
import Mathlib.Tactic.Linarith

/-!
# Facts about `primme_set_method` and `primme_set_defaults`
-/

namespace Verif.Eigs
open Verif.Members

set_option linter.unusedSectionVars false
set_option linter.unusedSimpArgs false
variable {K : Type} [Field K] [LinearOrder K]

@[simp] theorem setI_i (s : EP K) (f g : IF) (v : Int) :
    (s.setI f v).i g = if g = f then v else s.i g := rfl
@[simp] theorem setI_d (s : EP K) (f : IF) (v : Int) : (s.setI f v).d = s.d := rfl
@[simp] theorem setI_p (s : EP K) (f : IF) (v : Int) : (s.setI f v).p = s.p := rfl
@[simp] theorem setI_seed (s : EP K) (f : IF) (v : Int) : (s.setI f v).seed = s.seed := rfl
@[simp] theorem setI_addr (s : EP K) (f : IF) (v : Int) : (s.setI f v).addr = s.addr := rfl
@[simp] theorem setD_i (s : EP K) (f : DF) (v : K) : (setD s f v).i = s.i := rfl
@[simp] theorem setD_d (s : EP K) (f g : DF) (v : K) :
    (setD s f v).d g = if g = f then v else s.d g := rfl
@[simp] theorem setD_p (s : EP K) (f : DF) (v : K) : (setD s f v).p = s.p := rfl

theorem setI_self (s : EP K) (f : IF) (v : Int) (h : s.i f = v) : s.setI f v = s := by
  cases s; simp only [Store.setI, Store.mk.injEq, and_true]
  funext g; split_ifs with hg
  · subst hg; exact h.symm
  · rfl

theorem setD_self (s : EP K) (f : DF) (v : K) (h : s.d f = v) : setD s f v = s := by
  cases s; simp only [setD, Store.mk.injEq, and_true, true_and]
  funext g; split_ifs with hg
  · subst hg; exact h.symm
  · rfl

/-! ## What may be written -/

/-- `t` differs from `s` at most in the integral members listed in `W` and the double members in
`V`. -/
def Within (W : List IF) (V : List DF) (s t : EP K) : Prop :=
  (∀ f, f ∉ W → t.i f = s.i f) ∧ (∀ f, f ∉ V → t.d f = s.d f) ∧ t.p = s.p ∧ t.seed = s.seed ∧
    t.addr = s.addr

theorem Within.refl (W V) (s : EP K) : Within W V s s := ⟨fun _ _ => rfl, fun _ _ => rfl, rfl, rfl, rfl⟩

theorem Within.trans {W V} {s t u : EP K} (h : Within W V s t) (h' : Within W V t u) :
    Within W V s u :=
  ⟨fun f hf => (h'.1 f hf).trans (h.1 f hf), fun f hf => (h'.2.1 f hf).trans (h.2.1 f hf),
    h'.2.2.1.trans h.2.2.1, h'.2.2.2.1.trans h.2.2.2.1, h'.2.2.2.2.trans h.2.2.2.2⟩

theorem Within.setI {W V} {s t : EP K} (h : Within W V s t) {f : IF} (hf : f ∈ W) (v : Int) :
    Within W V s (t.setI f v) := by
  refine h.trans ⟨?_, fun _ _ => rfl, rfl, rfl, rfl⟩
  intro g hg
  rw [setI_i, if_neg (by rintro rfl; exact hg hf)]

theorem Within.setD {W V} {s t : EP K} (h : Within W V s t) {f : DF} (hf : f ∈ V) (v : K) :
    Within W V s (Eigs.setD t f v) := by
  refine h.trans ⟨fun _ _ => rfl, ?_, rfl, rfl, rfl⟩
  intro g hg
  rw [setD_d, if_neg (by rintro rfl; exact hg hf)]

theorem Within.ite {W V} {s t u : EP K} {c : Prop} [Decidable c] (h : Within W V s t)
    (h' : Within W V s u) : Within W V s (if c then t else u) := by split_ifs <;> assumption

/-- Everything `primme_set_method` and `primme_set_defaults` may write. -/
def methodMembers : List IF := [.dynamicMethodSwitch, .maxBlockSize, .correctionParams_precondition,
  .restartingParams_maxPrevRetain, .correctionParams_maxInnerIterations,
  .correctionParams_robustShifts, .correctionParams_projectors_LeftQ,
  .correctionParams_projectors_LeftX, .correctionParams_projectors_RightQ,
  .correctionParams_projectors_RightX, .correctionParams_projectors_SkewQ,
  .correctionParams_projectors_SkewX, .correctionParams_convTest, .locking, .maxBasisSize,
  .minRestartSize, .initBasisMode, .ldevecs, .projectionParams_projection]

def methodDoubles : List DF := [.correctionParams_relTolBase]

local macro "within" : tactic => `(tactic| (
  repeat (first
    | exact Within.refl _ _ _
    | assumption
    | (refine Within.setI ?_ (by decide) _)
    | (refine Within.setD ?_ (by decide) _)
    | (refine Within.ite ?_ ?_))))

theorem plusK_within (s : EP K) :
    Within (methodMembers.filter (· ≠ .dynamicMethodSwitch)) methodDoubles s (plusK s) := by
  unfold plusK; within

theorem leftQ_within {s t : EP K}
    (h : Within (methodMembers.filter (· ≠ .dynamicMethodSwitch)) methodDoubles s t) :
    Within (methodMembers.filter (· ≠ .dynamicMethodSwitch)) methodDoubles s (leftQ t) := by
  unfold leftQ; within

theorem prelude_within (m : Int) (s : EP K) :
    Within methodMembers methodDoubles s (methodPrelude m s) := by
  unfold methodPrelude; within

/-- The method cases, one by one. -/
theorem case_cases {m : Int} {s t : EP K} (h : methodCase m s = some t) :
    (m = 4 ∧ t = arnoldi s) ∨ (m = 5 ∧ t = gd s) ∨ (m = 6 ∧ t = gdPlusK s) ∨ (m = 7 ∧ t = gdOlsenPlusK s) ∨ (m = 8 ∧ t = jdOlsenPlusK s) ∨ (m = 9 ∧ t = rqi s) ∨ (m = 10 ∧ t = jdqr s) ∨ (m = 11 ∧ t = jdqmr s) ∨ (m = 12 ∧ t = jdqmrETol s) ∨ (m = 13 ∧ t = steepest s) ∨ (m = 14 ∧ t = lobpcg s) ∨ (m = 15 ∧ t = lobpcgWindow s) ∨ (m = 1 ∧ t = dynamic s) := by
  unfold methodCase at h
  by_cases h4 : m = 4
  · rw [if_pos h4, Option.some.injEq] at h
    exact Or.inl ⟨h4, h.symm⟩
  rw [if_neg h4] at h
  by_cases h5 : m = 5
  · rw [if_pos h5, Option.some.injEq] at h
    exact Or.inr (Or.inl ⟨h5, h.symm⟩)
  rw [if_neg h5] at h
  by_cases h6 : m = 6
  · rw [if_pos h6, Option.some.injEq] at h
    exact Or.inr (Or.inr (Or.inl ⟨h6, h.symm⟩))
  rw [if_neg h6] at h
  by_cases h7 : m = 7
  · rw [if_pos h7, Option.some.injEq] at h
    exact Or.inr (Or.inr (Or.inr (Or.inl ⟨h7, h.symm⟩)))
  rw [if_neg h7] at h
  by_cases h8 : m = 8
  · rw [if_pos h8, Option.some.injEq] at h
    exact Or.inr (Or.inr (Or.inr (Or.inr (Or.inl ⟨h8, h.symm⟩))))
  rw [if_neg h8] at h
  by_cases h9 : m = 9
  · rw [if_pos h9, Option.some.injEq] at h
    exact Or.inr (Or.inr (Or.inr (Or.inr (Or.inr (Or.inl ⟨h9, h.symm⟩)))))
  rw [if_neg h9] at h
  by_cases h10 : m = 10
  · rw [if_pos h10, Option.some.injEq] at h
    exact Or.inr (Or.inr (Or.inr (Or.inr (Or.inr (Or.inr (Or.inl ⟨h10, h.symm⟩))))))
  rw [if_neg h10] at h
  by_cases h11 : m = 11
  · rw [if_pos h11, Option.some.injEq] at h
    exact Or.inr (Or.inr (Or.inr (Or.inr (Or.inr (Or.inr (Or.inr (Or.inl ⟨h11, h.symm⟩)))))))
  rw [if_neg h11] at h
  by_cases h12 : m = 12
  · rw [if_pos h12, Option.some.injEq] at h
    exact Or.inr (Or.inr (Or.inr (Or.inr (Or.inr (Or.inr (Or.inr (Or.inr (Or.inl ⟨h12, h.symm⟩))))))))
  rw [if_neg h12] at h
  by_cases h13 : m = 13
  · rw [if_pos h13, Option.some.injEq] at h
    exact Or.inr (Or.inr (Or.inr (Or.inr (Or.inr (Or.inr (Or.inr (Or.inr (Or.inr (Or.inl ⟨h13, h.symm⟩)))))))))
  rw [if_neg h13] at h
  by_cases h14 : m = 14
  · rw [if_pos h14, Option.some.injEq] at h
    exact Or.inr (Or.inr (Or.inr (Or.inr (Or.inr (Or.inr (Or.inr (Or.inr (Or.inr (Or.inr (Or.inl ⟨h14, h.symm⟩))))))))))
  rw [if_neg h14] at h
  by_cases h15 : m = 15
  · rw [if_pos h15, Option.some.injEq] at h
    exact Or.inr (Or.inr (Or.inr (Or.inr (Or.inr (Or.inr (Or.inr (Or.inr (Or.inr (Or.inr (Or.inr (Or.inl ⟨h15, h.symm⟩)))))))))))
  rw [if_neg h15] at h
  by_cases h1 : m = 1
  · rw [if_pos h1, Option.some.injEq] at h
    exact Or.inr (Or.inr (Or.inr (Or.inr (Or.inr (Or.inr (Or.inr (Or.inr (Or.inr (Or.inr (Or.inr (Or.inr (⟨h1, h.symm⟩))))))))))))
  rw [if_neg h1] at h
  cases h

theorem methodCase_isSome (m : Int) (s : EP K) (hm : m = 1 ∨ (4 ≤ m ∧ m ≤ 15)) :
    ∃ t, methodCase m s = some t := by
  have : m = 1 ∨ m = 4 ∨ m = 5 ∨ m = 6 ∨ m = 7 ∨ m = 8 ∨ m = 9 ∨ m = 10 ∨ m = 11 ∨ m = 12 ∨ m = 13 ∨
    m = 14 ∨ m = 15 := by omega
  rcases this with rfl | rfl | rfl | rfl | rfl | rfl | rfl | rfl | rfl | rfl | rfl | rfl | rfl <;>
    exact ⟨_, rfl⟩

theorem methodCase_none_iff (m : Int) (s : EP K) :
    methodCase m s = none ↔ ¬ (m = 1 ∨ (4 ≤ m ∧ m ≤ 15)) := by
  constructor
  · intro h hm
    obtain ⟨t, ht⟩ := methodCase_isSome m s hm
    rw [h] at ht; cases ht
  · intro hm
    cases h : methodCase m s with
    | none => rfl
    | some t =>
      exfalso
      rcases case_cases h with ⟨h, -⟩ | ⟨h, -⟩ | ⟨h, -⟩ | ⟨h, -⟩ | ⟨h, -⟩ | ⟨h, -⟩ | ⟨h, -⟩ | ⟨h, -⟩ |
        ⟨h, -⟩ | ⟨h, -⟩ | ⟨h, -⟩ | ⟨h, -⟩ | ⟨h, -⟩ <;> omega

theorem case_within (m : Int) (s t : EP K) (h : methodCase m s = some t) :
    Within (methodMembers.filter (· ≠ .dynamicMethodSwitch)) methodDoubles s t := by
  have hk := plusK_within s
  rcases case_cases h with ⟨-, rfl⟩ | ⟨-, rfl⟩ | ⟨-, rfl⟩ | ⟨-, rfl⟩ | ⟨-, rfl⟩ | ⟨-, rfl⟩ | ⟨-, rfl⟩ |
    ⟨-, rfl⟩ | ⟨-, rfl⟩ | ⟨-, rfl⟩ | ⟨-, rfl⟩ | ⟨-, rfl⟩ | ⟨-, rfl⟩
  · unfold arnoldi; within
  · unfold gd; within
  · unfold gdPlusK; within
  · unfold gdOlsenPlusK; within
  · unfold jdOlsenPlusK; within
  · unfold rqi; within
  · unfold jdqr; within
  · unfold jdqmr
    iterate 6 refine Within.setI ?_ (by decide) _
    refine leftQ_within ?_
    within
  · unfold jdqmrETol
    iterate 6 refine Within.setI ?_ (by decide) _
    refine leftQ_within ?_
    within
  · unfold steepest; within
  · unfold lobpcg; within
  · unfold lobpcgWindow; within
  · unfold dynamic
    iterate 6 refine Within.setI ?_ (by decide) _
    refine leftQ_within ?_
    within

/-- What `primme_set_defaults` alone may write. -/
def defaultMembers : List IF := [.locking, .maxBasisSize, .minRestartSize, .initBasisMode, .ldevecs,
  .projectionParams_projection]

theorem Within.mono {W W' V V'} {s t : EP K} (h : Within W V s t) (hW : ∀ f ∈ W, f ∈ W')
    (hV : ∀ f ∈ V, f ∈ V') : Within W' V' s t :=
  ⟨fun f hf => h.1 f (fun c => hf (hW f c)), fun f hf => h.2.1 f (fun c => hf (hV f c)), h.2.2⟩

theorem defaults_within (s : EP K) : Within defaultMembers [] s (defaultsBody s) := by
  unfold defaultsBody; within

/-! ## Termination -/

theorem prelude_dms (m : Int) (s : EP K) :
    0 ≤ (methodPrelude m s).i .dynamicMethodSwitch := by
  unfold methodPrelude
  simp only
  split_ifs <;> simp

theorem case_dms (m : Int) (s t : EP K) (h : methodCase m s = some t) :
    t.i .dynamicMethodSwitch = s.i .dynamicMethodSwitch :=
  (case_within m s t h).1 _ (by decide)

theorem callDefaults_of_nonneg (k : Nat) (s : EP K) (h : 0 ≤ s.i .dynamicMethodSwitch) :
    callDefaults (k + 1) s = some (defaultsBody s) := by
  unfold callDefaults
  rw [if_neg (by omega)]

theorem callMethod_eq (k : Nat) (m : Int) (s : EP K) :
    callMethod (k + 2) m s =
      match methodCase (resolveMethod m s) (methodPrelude (resolveMethod m s) s) with
      | none => some (-1, methodPrelude (resolveMethod m s) s)
      | some t => some (0, defaultsBody t) := by
  conv_lhs => unfold callMethod
  simp only
  cases h : methodCase (resolveMethod m s) (methodPrelude (resolveMethod m s) s) with
  | none => rfl
  | some t =>
    simp only
    rw [callDefaults_of_nonneg]
    rw [case_dms _ _ _ h]
    exact prelude_dms _ _

/-- `primme_set_method` as a total function. -/
def setMethod (m : Int) (s : EP K) : Int × EP K :=
  match methodCase (resolveMethod m s) (methodPrelude (resolveMethod m s) s) with
  | none => (-1, methodPrelude (resolveMethod m s) s)
  | some t => (0, defaultsBody t)

theorem callMethod_total (k : Nat) (m : Int) (s : EP K) :
    callMethod (k + 2) m s = some (setMethod m s) := by
  rw [callMethod_eq]; unfold setMethod
  split <;> rfl

/-- `primme_set_defaults` as a total function. -/
def setDefaults (s : EP K) : EP K :=
  if s.i .dynamicMethodSwitch < 0 then defaultsBody (setMethod 1 s).2 else defaultsBody s

theorem callDefaults_total (k : Nat) (s : EP K) :
    callDefaults (k + 3) s = some (setDefaults s) := by
  unfold callDefaults setDefaults
  split_ifs
  · rw [callMethod_total]
  · rfl

/-! ## Defaults are a projection -/

theorem defaults_i (u : EP K) {f : IF} (h : f ∉ defaultMembers) :
    (defaultsBody u).i f = u.i f := (defaults_within u).1 f h

theorem defaults_p (u : EP K) : (defaultsBody u).p = u.p := (defaults_within u).2.2.1
theorem defaults_d (u : EP K) : (defaultsBody u).d = u.d := by
  funext f; exact (defaults_within u).2.1 f (by simp)

/-! ### `defaultsBody` as six writes -/

def vLd (s : EP K) : Int :=
  if s.i .ldevecs = -1 ∧ s.i .nLocal ≠ -1 then s.i .nLocal else s.i .ldevecs
def vProj (s : EP K) : Int :=
  if s.i .projectionParams_projection = 0 then 1 else s.i .projectionParams_projection
def vInit (s : EP K) : Int := if s.i .initBasisMode = 0 then 1 else s.i .initBasisMode
def vMax (s : EP K) : Int := if s.i .maxBasisSize = 0 then defMaxBasis s else s.i .maxBasisSize
def vMin (s : EP K) : Int :=
  if s.i .minRestartSize = 0 then defMinRestart (s.setI .maxBasisSize (vMax s))
  else s.i .minRestartSize
def vLock (s : EP K) : Int :=
  if s.i .locking ≥ 0 then s.i .locking
  else if ¬ extremal s then 1
  else if s.i .numEvals > vMin s then 1
  else 0

theorem ite_setI (P : Prop) [Decidable P] (s : EP K) (f : IF) (v : Int) :
    (if P then s.setI f v else s) = s.setI f (if P then v else s.i f) := by
  split_ifs
  · rfl
  · exact (setI_self s f _ rfl).symm

theorem defaults_eq (s : EP K) :
    defaultsBody s = (((((s.setI .ldevecs (vLd s)).setI .projectionParams_projection
      (vProj s)).setI .initBasisMode (vInit s)).setI .maxBasisSize (vMax s)).setI .minRestartSize
      (vMin s)).setI .locking (vLock s) := by
  have e1 : (if s.i .ldevecs = -1 ∧ s.i .nLocal ≠ -1 then s.setI .ldevecs (s.i .nLocal) else s) =
    s.setI .ldevecs (vLd s) := ite_setI _ _ _ _
  unfold defaultsBody
  rw [e1]
  generalize h1 : s.setI .ldevecs (vLd s) = s1
  have e2 : (if s1.i .projectionParams_projection = 0 then
    s1.setI .projectionParams_projection 1 else s1) =
    s1.setI .projectionParams_projection (vProj s) := by
      rw [ite_setI]; subst h1; rfl
  simp only [e2]
  generalize h2 : s1.setI .projectionParams_projection (vProj s) = s2
  have e3 : (if s2.i .initBasisMode = 0 then s2.setI .initBasisMode 1 else s2) =
    s2.setI .initBasisMode (vInit s) := by
      rw [ite_setI]; subst h2 h1; rfl
  simp only [e3]
  generalize h3 : s2.setI .initBasisMode (vInit s) = s3
  have e4 : (if s3.i .maxBasisSize = 0 then s3.setI .maxBasisSize (defMaxBasis s3) else s3) =
    s3.setI .maxBasisSize (vMax s) := by
      rw [ite_setI]; subst h3 h2 h1; rfl
  simp only [e4]
  generalize h4 : s3.setI .maxBasisSize (vMax s) = s4
  have e5 : (if s4.i .minRestartSize = 0 then s4.setI .minRestartSize (defMinRestart s4) else s4) =
    s4.setI .minRestartSize (vMin s) := by
      rw [ite_setI]; subst h4 h3 h2 h1; rfl
  simp only [e5]
  generalize h5 : s4.setI .minRestartSize (vMin s) = s5
  have hl : s5.i .locking = s.i .locking := by subst h5 h4 h3 h2 h1; rfl
  have hx : extremal s5 = extremal s := by subst h5 h4 h3 h2 h1; rfl
  have hn : s5.i .numEvals = s.i .numEvals := by subst h5 h4 h3 h2 h1; rfl
  have hm : s5.i .minRestartSize = vMin s := by subst h5 h4 h3 h2 h1; rfl
  unfold vLock
  simp only [hl, hx, hn, hm]
  by_cases a : s.i .locking ≥ 0
  · rw [if_pos a, if_pos a]; exact (setI_self s5 _ _ hl).symm
  · rw [if_neg a, if_neg a]
    by_cases b : extremal s
    · rw [if_neg (not_not.2 b), if_neg (not_not.2 b)]
      by_cases c : s.i .numEvals > vMin s
      · rw [if_pos c, if_pos c]
      · rw [if_neg c, if_neg c]
    · rw [if_pos b, if_pos b]

theorem d_ld (s : EP K) : (defaultsBody s).i .ldevecs = vLd s := by rw [defaults_eq]; rfl
theorem d_proj (s : EP K) : (defaultsBody s).i .projectionParams_projection = vProj s := by
  rw [defaults_eq]; rfl
theorem d_init (s : EP K) : (defaultsBody s).i .initBasisMode = vInit s := by rw [defaults_eq]; rfl
theorem d_max (s : EP K) : (defaultsBody s).i .maxBasisSize = vMax s := by rw [defaults_eq]; rfl
theorem d_min (s : EP K) : (defaultsBody s).i .minRestartSize = vMin s := by rw [defaults_eq]; rfl
theorem d_lock (s : EP K) : (defaultsBody s).i .locking = vLock s := by rw [defaults_eq]; rfl

theorem defaults_fix (t : EP K) (h1 : vLd t = t.i .ldevecs)
    (h2 : vProj t = t.i .projectionParams_projection) (h3 : vInit t = t.i .initBasisMode)
    (h4 : vMax t = t.i .maxBasisSize) (h5 : vMin t = t.i .minRestartSize)
    (h6 : vLock t = t.i .locking) : defaultsBody t = t := by
  rw [defaults_eq, h1, h2, h3, h4, h5, h6]
  rw [setI_self t _ _ rfl, setI_self t _ _ rfl, setI_self t _ _ rfl, setI_self t _ _ rfl,
    setI_self t _ _ rfl, setI_self t _ _ rfl]

theorem vLock_nonneg (s : EP K) : 0 ≤ vLock s := by
  unfold vLock; split_ifs <;> omega

/-- The value of the default basis size when the restart size changes but the space is empty. -/
theorem vMax_zero (s : EP K) (h : vMax s = 0) : s.i .maxBasisSize = 0 ∧
    s.i .n - s.i .numOrthoConst = 0 := by
  unfold vMax at h
  by_cases a : s.i .maxBasisSize = 0
  · refine ⟨a, ?_⟩
    rw [if_pos a] at h
    unfold defMaxBasis at h
    simp only at h
    split_ifs at h <;> omega
  · rw [if_neg a] at h; exact absurd h a

/-- A second call of `primme_set_defaults` changes nothing. -/
theorem defaults_idem (u : EP K) : defaultsBody (defaultsBody u) = defaultsBody u := by
  have hn : (defaultsBody u).i .n = u.i .n := defaults_i u (by decide)
  have ho : (defaultsBody u).i .numOrthoConst = u.i .numOrthoConst := defaults_i u (by decide)
  have hnl : (defaultsBody u).i .nLocal = u.i .nLocal := defaults_i u (by decide)
  have hb : (defaultsBody u).i .maxBlockSize = u.i .maxBlockSize := defaults_i u (by decide)
  have hp : (defaultsBody u).i .restartingParams_maxPrevRetain =
    u.i .restartingParams_maxPrevRetain := defaults_i u (by decide)
  have ht : (defaultsBody u).i .target = u.i .target := defaults_i u (by decide)
  have h4 : vMax (defaultsBody u) = (defaultsBody u).i .maxBasisSize := by
    conv_lhs => unfold vMax
    by_cases a : (defaultsBody u).i .maxBasisSize = 0
    · rw [if_pos a, a]
      rw [d_max] at a
      have := (vMax_zero u a).2
      unfold defMaxBasis
      simp only [hn, ho]
      split_ifs <;> omega
    · rw [if_neg a]
  apply defaults_fix
  · unfold vLd
    rw [hnl, d_ld]
    unfold vLd
    split_ifs <;> omega
  · unfold vProj
    rw [d_proj]
    unfold vProj
    split_ifs <;> omega
  · unfold vInit
    rw [d_init]
    unfold vInit
    split_ifs <;> omega
  · exact h4
  · unfold vMin
    rw [h4]
    by_cases a : (defaultsBody u).i .minRestartSize = 0
    · rw [if_pos a]
      rw [setI_self _ _ _ rfl]
      have e := d_min u
      rw [a] at e
      rw [a]
      unfold vMin at e
      by_cases b : u.i .minRestartSize = 0
      · rw [if_pos b] at e
        rw [e]
        simp [defMinRestart, hn, ho, hb, hp, extremal, ht, d_max]
      · rw [if_neg b] at e; exact absurd e.symm b
    · rw [if_neg a]
  · unfold vLock
    rw [if_pos (by rw [d_lock]; exact vLock_nonneg u)]

/-! ## Calling `primme_set_method` twice -/

theorem plusK_i (s : EP K) {f : IF} (h : f ≠ .restartingParams_maxPrevRetain) :
    (plusK s).i f = s.i f := by
  unfold plusK; split_ifs <;> simp [h]

theorem plusK_p (s : EP K) : (plusK s).p = s.p := by
  unfold plusK; split_ifs <;> rfl

theorem plusK_fix (s : EP K) {t : EP K}
    (h1 : t.i .restartingParams_maxPrevRetain = (plusK s).i .restartingParams_maxPrevRetain)
    (h2 : t.i .maxBlockSize = s.i .maxBlockSize) (h3 : t.i .numEvals = s.i .numEvals)
    (h4 : t.p = s.p) : plusK t = t := by
  unfold plusK at h1 ⊢
  rw [h2, h3, h4]
  split_ifs at h1 ⊢ <;>
    first | exact setI_self _ _ _ h1 | rfl | (exfalso; omega)

theorem arnoldi_fix (s : EP K) : arnoldi (defaultsBody (arnoldi s)) = defaultsBody (arnoldi s) := by
  generalize hu : arnoldi s = u
  have k0 : (defaultsBody u).i .restartingParams_maxPrevRetain = 0 := by
    rw [defaults_i _ (by decide), ← hu]; rfl
  have k1 : (defaultsBody u).i .correctionParams_precondition = 0 := by
    rw [defaults_i _ (by decide), ← hu]; rfl
  have k2 : (defaultsBody u).i .correctionParams_maxInnerIterations = 0 := by
    rw [defaults_i _ (by decide), ← hu]; rfl
  unfold arnoldi
  rw [setI_self _ _ _ k0, setI_self _ _ _ k1, setI_self _ _ _ k2]

theorem gd_fix (s : EP K) : gd (defaultsBody (gd s)) = defaultsBody (gd s) := by
  generalize hu : gd s = u
  have k0 : (defaultsBody u).i .restartingParams_maxPrevRetain = 0 := by
    rw [defaults_i _ (by decide), ← hu]; rfl
  have k1 : (defaultsBody u).i .correctionParams_robustShifts = 1 := by
    rw [defaults_i _ (by decide), ← hu]; rfl
  have k2 : (defaultsBody u).i .correctionParams_maxInnerIterations = 0 := by
    rw [defaults_i _ (by decide), ← hu]; rfl
  have k3 : (defaultsBody u).i .correctionParams_projectors_RightX = 0 := by
    rw [defaults_i _ (by decide), ← hu]; rfl
  have k4 : (defaultsBody u).i .correctionParams_projectors_SkewX = 0 := by
    rw [defaults_i _ (by decide), ← hu]; rfl
  unfold gd
  rw [setI_self _ _ _ k0, setI_self _ _ _ k1, setI_self _ _ _ k2, setI_self _ _ _ k3, setI_self _ _ _ k4]

theorem gdPlusK_fix (s : EP K) : gdPlusK (defaultsBody (gdPlusK s)) = defaultsBody (gdPlusK s) := by
  generalize hu : gdPlusK s = u
  have k0 : plusK (defaultsBody u) = defaultsBody u := by
    apply plusK_fix s
    · rw [defaults_i _ (by decide), ← hu]; rfl
    · rw [defaults_i _ (by decide), ← hu]; exact plusK_i s (by decide)
    · rw [defaults_i _ (by decide), ← hu]; exact plusK_i s (by decide)
    · rw [defaults_p, ← hu]; exact plusK_p s
  have k1 : (defaultsBody u).i .correctionParams_maxInnerIterations = 0 := by
    rw [defaults_i _ (by decide), ← hu]; rfl
  have k2 : (defaultsBody u).i .correctionParams_projectors_RightX = 0 := by
    rw [defaults_i _ (by decide), ← hu]; rfl
  have k3 : (defaultsBody u).i .correctionParams_projectors_SkewX = 0 := by
    rw [defaults_i _ (by decide), ← hu]; rfl
  unfold gdPlusK
  rw [k0, setI_self _ _ _ k1, setI_self _ _ _ k2, setI_self _ _ _ k3]

theorem gdOlsenPlusK_fix (s : EP K) : gdOlsenPlusK (defaultsBody (gdOlsenPlusK s)) = defaultsBody (gdOlsenPlusK s) := by
  generalize hu : gdOlsenPlusK s = u
  have k0 : plusK (defaultsBody u) = defaultsBody u := by
    apply plusK_fix s
    · rw [defaults_i _ (by decide), ← hu]; rfl
    · rw [defaults_i _ (by decide), ← hu]; exact plusK_i s (by decide)
    · rw [defaults_i _ (by decide), ← hu]; exact plusK_i s (by decide)
    · rw [defaults_p, ← hu]; exact plusK_p s
  have k1 : (defaultsBody u).i .correctionParams_maxInnerIterations = 0 := by
    rw [defaults_i _ (by decide), ← hu]; rfl
  have k2 : (defaultsBody u).i .correctionParams_projectors_RightX = 1 := by
    rw [defaults_i _ (by decide), ← hu]; rfl
  have k3 : (defaultsBody u).i .correctionParams_projectors_SkewX = 0 := by
    rw [defaults_i _ (by decide), ← hu]; rfl
  unfold gdOlsenPlusK
  rw [k0, setI_self _ _ _ k1, setI_self _ _ _ k2, setI_self _ _ _ k3]

theorem jdOlsenPlusK_fix (s : EP K) : jdOlsenPlusK (defaultsBody (jdOlsenPlusK s)) = defaultsBody (jdOlsenPlusK s) := by
  generalize hu : jdOlsenPlusK s = u
  have k0 : plusK (defaultsBody u) = defaultsBody u := by
    apply plusK_fix s
    · rw [defaults_i _ (by decide), ← hu]; rfl
    · rw [defaults_i _ (by decide), ← hu]; exact plusK_i s (by decide)
    · rw [defaults_i _ (by decide), ← hu]; exact plusK_i s (by decide)
    · rw [defaults_p, ← hu]; exact plusK_p s
  have k1 : (defaultsBody u).i .correctionParams_robustShifts = 1 := by
    rw [defaults_i _ (by decide), ← hu]; rfl
  have k2 : (defaultsBody u).i .correctionParams_maxInnerIterations = 0 := by
    rw [defaults_i _ (by decide), ← hu]; rfl
  have k3 : (defaultsBody u).i .correctionParams_projectors_RightX = 1 := by
    rw [defaults_i _ (by decide), ← hu]; rfl
  have k4 : (defaultsBody u).i .correctionParams_projectors_SkewX = 1 := by
    rw [defaults_i _ (by decide), ← hu]; rfl
  unfold jdOlsenPlusK
  rw [k0, setI_self _ _ _ k1, setI_self _ _ _ k2, setI_self _ _ _ k3, setI_self _ _ _ k4]

theorem rqi_fix (s : EP K) : rqi (defaultsBody (rqi s)) = defaultsBody (rqi s) := by
  generalize hu : rqi s = u
  have k0 : (defaultsBody u).i .locking = 1 := by
    have : u.i .locking = 1 := by rw [← hu]; rfl
    rw [d_lock]; unfold vLock; rw [if_pos (by omega), this]
  have k1 : (defaultsBody u).i .restartingParams_maxPrevRetain = 0 := by
    rw [defaults_i _ (by decide), ← hu]; rfl
  have k2 : (defaultsBody u).i .correctionParams_robustShifts = 1 := by
    rw [defaults_i _ (by decide), ← hu]; rfl
  have k3 : (defaultsBody u).i .correctionParams_maxInnerIterations = (-1) := by
    rw [defaults_i _ (by decide), ← hu]; rfl
  have k4 : (defaultsBody u).i .correctionParams_projectors_LeftQ = 1 := by
    rw [defaults_i _ (by decide), ← hu]; rfl
  have k5 : (defaultsBody u).i .correctionParams_projectors_LeftX = 1 := by
    rw [defaults_i _ (by decide), ← hu]; rfl
  have k6 : (defaultsBody u).i .correctionParams_projectors_RightQ = 0 := by
    rw [defaults_i _ (by decide), ← hu]; rfl
  have k7 : (defaultsBody u).i .correctionParams_projectors_RightX = 1 := by
    rw [defaults_i _ (by decide), ← hu]; rfl
  have k8 : (defaultsBody u).i .correctionParams_projectors_SkewQ = 0 := by
    rw [defaults_i _ (by decide), ← hu]; rfl
  have k9 : (defaultsBody u).i .correctionParams_projectors_SkewX = 0 := by
    rw [defaults_i _ (by decide), ← hu]; rfl
  have k10 : (defaultsBody u).i .correctionParams_convTest = 0 := by
    rw [defaults_i _ (by decide), ← hu]; rfl
  unfold rqi
  rw [setI_self _ _ _ k0, setI_self _ _ _ k1, setI_self _ _ _ k2, setI_self _ _ _ k3, setI_self _ _ _ k4, setI_self _ _ _ k5, setI_self _ _ _ k6, setI_self _ _ _ k7, setI_self _ _ _ k8, setI_self _ _ _ k9, setI_self _ _ _ k10]


theorem prev_fix (s : EP K) {t : EP K}
    (h : t.i .restartingParams_maxPrevRetain =
      if s.i .restartingParams_maxPrevRetain < 0 then 1 else s.i .restartingParams_maxPrevRetain) :
    (if t.i .restartingParams_maxPrevRetain < 0 then t.setI .restartingParams_maxPrevRetain 1
      else t) = t := by
  split_ifs at h ⊢ <;> first | rfl | (exfalso; omega)

theorem jdqr_i (s : EP K) : (jdqr s).i .correctionParams_maxInnerIterations =
    (if s.i .correctionParams_maxInnerIterations = -INT_MAX then 10
      else s.i .correctionParams_maxInnerIterations) := by
  unfold jdqr
  simp only [ite_setI]
  rfl

theorem jdqr_other (s : EP K) : (jdqr s).i .locking = 1 ∧
    (jdqr s).i .restartingParams_maxPrevRetain = 1 ∧ (jdqr s).i .correctionParams_robustShifts = 0 ∧
    (jdqr s).i .correctionParams_projectors_LeftQ = 0 ∧
    (jdqr s).i .correctionParams_projectors_LeftX = 1 ∧
    (jdqr s).i .correctionParams_projectors_RightQ = 1 ∧
    (jdqr s).i .correctionParams_projectors_RightX = 1 ∧
    (jdqr s).i .correctionParams_projectors_SkewQ = 1 ∧
    (jdqr s).i .correctionParams_projectors_SkewX = 1 ∧
    (jdqr s).d .correctionParams_relTolBase = 3 / 2 ∧
    (jdqr s).i .correctionParams_convTest = 0 := by
  unfold jdqr
  simp only [ite_setI]
  exact ⟨rfl, rfl, rfl, rfl, rfl, rfl, rfl, rfl, rfl, rfl, rfl⟩

theorem jdqr_fix (s : EP K) : jdqr (defaultsBody (jdqr s)) = defaultsBody (jdqr s) := by
  obtain ⟨a1, a2, a3, a4, a5, a6, a7, a8, a9, a10, a11⟩ := jdqr_other s
  have ai := jdqr_i s
  generalize jdqr s = u at *
  have k1 : (defaultsBody u).i .locking = 1 := by
    rw [d_lock]; unfold vLock; rw [if_pos (by omega), a1]
  have ki : (defaultsBody u).i .correctionParams_maxInnerIterations ≠ -INT_MAX := by
    rw [defaults_i _ (by decide), ai]; unfold INT_MAX; split_ifs <;> omega
  unfold jdqr
  simp only
  rw [setI_self _ _ _ k1, setI_self _ _ _ ((defaults_i u (by decide)).trans a2),
    setI_self _ _ _ ((defaults_i u (by decide)).trans a3), if_neg ki,
    setI_self _ _ _ ((defaults_i u (by decide)).trans a4),
    setI_self _ _ _ ((defaults_i u (by decide)).trans a5),
    setI_self _ _ _ ((defaults_i u (by decide)).trans a6),
    setI_self _ _ _ ((defaults_i u (by decide)).trans a7),
    setI_self _ _ _ ((defaults_i u (by decide)).trans a8),
    setI_self _ _ _ ((defaults_i u (by decide)).trans a9),
    setD_self _ _ _ (by rw [defaults_d]; exact a10),
    setI_self _ _ _ ((defaults_i u (by decide)).trans a11)]

theorem jdqmr_i (s : EP K) :
    (jdqmr s).i .restartingParams_maxPrevRetain =
      (if s.i .restartingParams_maxPrevRetain < 0 then 1
        else s.i .restartingParams_maxPrevRetain) ∧
    (jdqmr s).i .correctionParams_precondition = s.i .correctionParams_precondition ∧
    (jdqmr s).i .correctionParams_projectors_LeftQ =
      (if s.i .correctionParams_precondition ≠ 0 then 1 else 0) ∧
    (jdqmr s).i .correctionParams_maxInnerIterations = -1 ∧
    (jdqmr s).i .correctionParams_projectors_LeftX = 1 ∧
    (jdqmr s).i .correctionParams_projectors_RightQ = 0 ∧
    (jdqmr s).i .correctionParams_projectors_RightX = 0 ∧
    (jdqmr s).i .correctionParams_projectors_SkewQ = 0 ∧
    (jdqmr s).i .correctionParams_projectors_SkewX = 1 ∧
    (jdqmr s).i .correctionParams_convTest = 3 := by
  unfold jdqmr
  simp only [ite_setI]
  exact ⟨rfl, rfl, rfl, rfl, rfl, rfl, rfl, rfl, rfl, rfl⟩

theorem jdqmr_fix (s : EP K) : jdqmr (defaultsBody (jdqmr s)) = defaultsBody (jdqmr s) := by
  obtain ⟨a1, a2, a3, a4, a5, a6, a7, a8, a9, a10⟩ := jdqmr_i s
  generalize jdqmr s = u at *
  have kq : leftQ (defaultsBody u) = defaultsBody u := by
    refine setI_self _ _ _ ?_
    rw [defaults_i _ (by decide), defaults_i _ (by decide), a3, a2]
  unfold jdqmr
  simp only
  rw [prev_fix s ((defaults_i u (by decide)).trans a1),
    setI_self _ _ _ ((defaults_i u (by decide)).trans a4), kq,
    setI_self _ _ _ ((defaults_i u (by decide)).trans a5),
    setI_self _ _ _ ((defaults_i u (by decide)).trans a6),
    setI_self _ _ _ ((defaults_i u (by decide)).trans a7),
    setI_self _ _ _ ((defaults_i u (by decide)).trans a8),
    setI_self _ _ _ ((defaults_i u (by decide)).trans a9),
    setI_self _ _ _ ((defaults_i u (by decide)).trans a10)]

theorem jdqmrETol_i (s : EP K) :
    (jdqmrETol s).i .restartingParams_maxPrevRetain =
      (if s.i .restartingParams_maxPrevRetain < 0 then 1
        else s.i .restartingParams_maxPrevRetain) ∧
    (jdqmrETol s).i .correctionParams_precondition = s.i .correctionParams_precondition ∧
    (jdqmrETol s).i .correctionParams_projectors_LeftQ =
      (if s.i .correctionParams_precondition ≠ 0 then 1 else 0) ∧
    (jdqmrETol s).i .correctionParams_maxInnerIterations = -1 ∧
    (jdqmrETol s).i .correctionParams_projectors_LeftX = 1 ∧
    (jdqmrETol s).i .correctionParams_projectors_RightQ = 0 ∧
    (jdqmrETol s).i .correctionParams_projectors_RightX = 0 ∧
    (jdqmrETol s).i .correctionParams_projectors_SkewQ = 0 ∧
    (jdqmrETol s).i .correctionParams_projectors_SkewX = 0 ∧
    (jdqmrETol s).i .correctionParams_convTest = 2 := by
  unfold jdqmrETol
  simp only [ite_setI]
  exact ⟨rfl, rfl, rfl, rfl, rfl, rfl, rfl, rfl, rfl, rfl⟩

theorem jdqmrETol_fix (s : EP K) : jdqmrETol (defaultsBody (jdqmrETol s)) = defaultsBody (jdqmrETol s) := by
  obtain ⟨a1, a2, a3, a4, a5, a6, a7, a8, a9, a10⟩ := jdqmrETol_i s
  generalize jdqmrETol s = u at *
  have kq : leftQ (defaultsBody u) = defaultsBody u := by
    refine setI_self _ _ _ ?_
    rw [defaults_i _ (by decide), defaults_i _ (by decide), a3, a2]
  unfold jdqmrETol
  simp only
  rw [prev_fix s ((defaults_i u (by decide)).trans a1),
    setI_self _ _ _ ((defaults_i u (by decide)).trans a4), kq,
    setI_self _ _ _ ((defaults_i u (by decide)).trans a5),
    setI_self _ _ _ ((defaults_i u (by decide)).trans a6),
    setI_self _ _ _ ((defaults_i u (by decide)).trans a7),
    setI_self _ _ _ ((defaults_i u (by decide)).trans a8),
    setI_self _ _ _ ((defaults_i u (by decide)).trans a9),
    setI_self _ _ _ ((defaults_i u (by decide)).trans a10)]

theorem extremal_ite {α : Type} {s t : EP K} (h : t.i .target = s.i .target) (a b : α) :
    (if extremal t then a else b) = if extremal s then a else b := by
  have : extremal t ↔ extremal s := by unfold extremal; rw [h]
  simp only [this]

theorem dynamic_i (s : EP K) :
    (dynamic s).i .restartingParams_maxPrevRetain = (plusK s).i .restartingParams_maxPrevRetain ∧
    (dynamic s).i .correctionParams_precondition = s.i .correctionParams_precondition ∧
    (dynamic s).i .correctionParams_projectors_LeftQ =
      (if s.i .correctionParams_precondition ≠ 0 then 1 else 0) ∧
    (dynamic s).i .correctionParams_maxInnerIterations = -1 ∧
    (dynamic s).i .correctionParams_projectors_LeftX = 1 ∧
    (dynamic s).i .correctionParams_projectors_RightQ = 0 ∧
    (dynamic s).i .correctionParams_projectors_RightX = 0 ∧
    (dynamic s).i .correctionParams_projectors_SkewQ = 0 ∧
    (dynamic s).i .correctionParams_projectors_SkewX = 0 ∧
    (dynamic s).i .correctionParams_convTest = (if extremal s then 2 else 3) ∧
    (dynamic s).i .maxBlockSize = s.i .maxBlockSize ∧ (dynamic s).i .numEvals = s.i .numEvals ∧
    (dynamic s).i .target = s.i .target ∧ (dynamic s).p = s.p := by
  have e1 := plusK_i s (f := .maxBlockSize) (by decide)
  have e2 := plusK_i s (f := .numEvals) (by decide)
  have e3 := plusK_i s (f := .target) (by decide)
  have e4 := plusK_i s (f := .correctionParams_precondition) (by decide)
  have e5 := plusK_p s
  unfold dynamic leftQ
  generalize plusK s = v at *
  refine ⟨rfl, e4, ?_, rfl, rfl, rfl, rfl, rfl, rfl, ?_, e1, e2, e3, e5⟩
  · rw [← e4]; rfl
  · exact (extremal_ite e3 2 3 : (if extremal v then (2 : Int) else 3) = _)

theorem dynamic_fix (s : EP K) :
    dynamic (defaultsBody (dynamic s)) = defaultsBody (dynamic s) := by
  obtain ⟨a1, a2, a3, a4, a5, a6, a7, a8, a9, a10, b1, b2, b3, b4⟩ := dynamic_i s
  generalize dynamic s = u at *
  have kq : leftQ (defaultsBody u) = defaultsBody u := by
    refine setI_self _ _ _ ?_
    rw [defaults_i _ (by decide), defaults_i _ (by decide), a3, a2]
  have kp : plusK (defaultsBody u) = defaultsBody u := by
    apply plusK_fix s
    · rw [defaults_i _ (by decide), a1]
    · rw [defaults_i _ (by decide), b1]
    · rw [defaults_i _ (by decide), b2]
    · rw [defaults_p, b4]
  unfold dynamic
  simp only
  rw [kp, setI_self _ _ _ ((defaults_i u (by decide)).trans a4), kq,
    setI_self _ _ _ ((defaults_i u (by decide)).trans a5),
    setI_self _ _ _ ((defaults_i u (by decide)).trans a6),
    setI_self _ _ _ ((defaults_i u (by decide)).trans a7),
    setI_self _ _ _ ((defaults_i u (by decide)).trans a8),
    setI_self _ _ _ ((defaults_i u (by decide)).trans a9)]
  refine setI_self _ _ _ ?_
  rw [defaults_i _ (by decide), a10]
  exact (extremal_ite (by rw [defaults_i _ (by decide), b3]) _ _).symm

theorem d_max_keep (u : EP K) (h : u.i .maxBasisSize ≠ 0) :
    (defaultsBody u).i .maxBasisSize = u.i .maxBasisSize := by
  rw [d_max]; unfold vMax; rw [if_neg h]
theorem d_min_keep (u : EP K) (h : u.i .minRestartSize ≠ 0) :
    (defaultsBody u).i .minRestartSize = u.i .minRestartSize := by
  rw [d_min]; unfold vMin; rw [if_neg h]
theorem d_init_keep (u : EP K) (h : u.i .initBasisMode ≠ 0) :
    (defaultsBody u).i .initBasisMode = u.i .initBasisMode := by
  rw [d_init]; unfold vInit; rw [if_neg h]
theorem d_lock_keep (u : EP K) (h : 0 ≤ u.i .locking) :
    (defaultsBody u).i .locking = u.i .locking := by
  rw [d_lock]; unfold vLock; rw [if_pos h]

theorem lobpcgWindow_fix (s : EP K) (hb : s.i .maxBlockSize ≠ 0) :
    lobpcgWindow (defaultsBody (lobpcgWindow s)) = defaultsBody (lobpcgWindow s) := by
  by_cases c : s.i .maxBlockSize = 1 ∧ (s.i .target = 3 ∨ s.i .target = 2)
  · have e : lobpcgWindow s = (((((((s.setI .maxBasisSize 4).setI .minRestartSize 2).setI
        .restartingParams_maxPrevRetain 1).setI .correctionParams_robustShifts 0).setI
        .correctionParams_maxInnerIterations 0).setI .correctionParams_projectors_RightX 1).setI
        .correctionParams_projectors_SkewX 0).setI .initBasisMode 2 := by
      unfold lobpcgWindow; simp only; rw [if_pos c]
    have a1 : (lobpcgWindow s).i .maxBasisSize = 4 := by rw [e]; rfl
    have a2 : (lobpcgWindow s).i .minRestartSize = 2 := by rw [e]; rfl
    have a3 : (lobpcgWindow s).i .restartingParams_maxPrevRetain = 1 := by rw [e]; rfl
    have a4 : (lobpcgWindow s).i .correctionParams_robustShifts = 0 := by rw [e]; rfl
    have a5 : (lobpcgWindow s).i .correctionParams_maxInnerIterations = 0 := by rw [e]; rfl
    have a6 : (lobpcgWindow s).i .correctionParams_projectors_RightX = 1 := by rw [e]; rfl
    have a7 : (lobpcgWindow s).i .correctionParams_projectors_SkewX = 0 := by rw [e]; rfl
    have a8 : (lobpcgWindow s).i .initBasisMode = 2 := by rw [e]; rfl
    have a9 : (lobpcgWindow s).i .maxBlockSize = s.i .maxBlockSize := by rw [e]; rfl
    have a10 : (lobpcgWindow s).i .target = s.i .target := by rw [e]; rfl
    clear e
    generalize lobpcgWindow s = u at *
    unfold lobpcgWindow
    simp only
    rw [if_pos (by rw [defaults_i _ (by decide), defaults_i _ (by decide), a9, a10]; exact c),
      setI_self _ _ _ ((d_max_keep u (by omega)).trans a1),
      setI_self _ _ _ ((d_min_keep u (by omega)).trans a2),
      setI_self _ _ _ ((defaults_i u (by decide)).trans a3),
      setI_self _ _ _ ((defaults_i u (by decide)).trans a4),
      setI_self _ _ _ ((defaults_i u (by decide)).trans a5),
      setI_self _ _ _ ((defaults_i u (by decide)).trans a6),
      setI_self _ _ _ ((defaults_i u (by decide)).trans a7),
      setI_self _ _ _ ((d_init_keep u (by omega)).trans a8)]
  · have e : lobpcgWindow s = (((((((s.setI .maxBasisSize (s.i .maxBlockSize * 3)).setI
        .minRestartSize (s.i .maxBlockSize)).setI
        .restartingParams_maxPrevRetain (s.i .maxBlockSize)).setI
        .correctionParams_robustShifts 0).setI
        .correctionParams_maxInnerIterations 0).setI .correctionParams_projectors_RightX 1).setI
        .correctionParams_projectors_SkewX 0).setI .initBasisMode 2 := by
      unfold lobpcgWindow; simp only; rw [if_neg c]
    have a1 : (lobpcgWindow s).i .maxBasisSize = s.i .maxBlockSize * 3 := by rw [e]; rfl
    have a2 : (lobpcgWindow s).i .minRestartSize = s.i .maxBlockSize := by rw [e]; rfl
    have a3 : (lobpcgWindow s).i .restartingParams_maxPrevRetain = s.i .maxBlockSize := by
      rw [e]; rfl
    have a4 : (lobpcgWindow s).i .correctionParams_robustShifts = 0 := by rw [e]; rfl
    have a5 : (lobpcgWindow s).i .correctionParams_maxInnerIterations = 0 := by rw [e]; rfl
    have a6 : (lobpcgWindow s).i .correctionParams_projectors_RightX = 1 := by rw [e]; rfl
    have a7 : (lobpcgWindow s).i .correctionParams_projectors_SkewX = 0 := by rw [e]; rfl
    have a8 : (lobpcgWindow s).i .initBasisMode = 2 := by rw [e]; rfl
    have a9 : (lobpcgWindow s).i .maxBlockSize = s.i .maxBlockSize := by rw [e]; rfl
    have a10 : (lobpcgWindow s).i .target = s.i .target := by rw [e]; rfl
    clear e
    generalize lobpcgWindow s = u at *
    have b1 : (defaultsBody u).i .maxBlockSize = s.i .maxBlockSize := by
      rw [defaults_i _ (by decide), a9]
    have b2 : (defaultsBody u).i .target = s.i .target := by
      rw [defaults_i _ (by decide), a10]
    unfold lobpcgWindow
    simp only
    rw [if_neg (by rw [b1, b2]; exact c)]
    rw [setI_self (defaultsBody u) .maxBasisSize _ (by rw [b1, d_max_keep u (by omega), a1]),
      setI_self (defaultsBody u) .minRestartSize _ (by rw [b1, d_min_keep u (by omega), a2]),
      setI_self (defaultsBody u) .restartingParams_maxPrevRetain _
        (by rw [b1, defaults_i u (by decide), a3]),
      setI_self _ _ _ ((defaults_i u (by decide)).trans a4),
      setI_self _ _ _ ((defaults_i u (by decide)).trans a5),
      setI_self _ _ _ ((defaults_i u (by decide)).trans a6),
      setI_self _ _ _ ((defaults_i u (by decide)).trans a7),
      setI_self _ _ _ ((d_init_keep u (by omega)).trans a8)]

theorem prelude_fix (r : Int) (t : EP K)
    (h1 : t.i .dynamicMethodSwitch = if r = 1 then 1 else 0) (h2 : t.i .maxBlockSize ≠ 0)
    (h3 : t.i .correctionParams_precondition ≠ -1) : methodPrelude r t = t := by
  unfold methodPrelude
  simp only
  rw [setI_self _ _ _ h1, if_neg h2, if_neg h3]

theorem store_ext {s t : EP K} (hi : ∀ f, s.i f = t.i f) (hd : s.d = t.d) (hp : s.p = t.p)
    (hs : s.seed = t.seed) (ha : s.addr = t.addr) : s = t := by
  have : s.i = t.i := funext hi
  cases s; cases t; simp_all

theorem defaults_seed (u : EP K) : (defaultsBody u).seed = u.seed := (defaults_within u).2.2.2.1
theorem defaults_addr (u : EP K) : (defaultsBody u).addr = u.addr := (defaults_within u).2.2.2.2

/-- If both sizes were defaulted, clearing them and defaulting again gives the same sizes. -/
theorem defaults_reset (u : EP K) (h1 : u.i .maxBasisSize = 0) (h2 : u.i .minRestartSize = 0) :
    defaultsBody (((defaultsBody u).setI .maxBasisSize 0).setI .minRestartSize 0) =
      defaultsBody u := by
  have hn : (defaultsBody u).i .n = u.i .n := defaults_i u (by decide)
  have ho : (defaultsBody u).i .numOrthoConst = u.i .numOrthoConst := defaults_i u (by decide)
  have hnl : (defaultsBody u).i .nLocal = u.i .nLocal := defaults_i u (by decide)
  have hb : (defaultsBody u).i .maxBlockSize = u.i .maxBlockSize := defaults_i u (by decide)
  have hp : (defaultsBody u).i .restartingParams_maxPrevRetain =
    u.i .restartingParams_maxPrevRetain := defaults_i u (by decide)
  have ht : (defaultsBody u).i .target = u.i .target := defaults_i u (by decide)
  have a1 := d_ld u
  have a2 := d_proj u
  have a3 := d_init u
  have a4 := d_max u
  have a5 := d_min u
  have a6 := d_lock u
  have b6 : 0 ≤ (defaultsBody u).i .locking := by rw [a6]; exact vLock_nonneg u
  generalize ht' : defaultsBody u = t at *
  clear ht'
  have c4 : vMax ((t.setI .maxBasisSize 0).setI .minRestartSize 0) = t.i .maxBasisSize := by
    rw [a4]
    unfold vMax
    simp [h1, defMaxBasis, hn, ho, hb, hp, extremal, ht, h2]
  have c5 : vMin ((t.setI .maxBasisSize 0).setI .minRestartSize 0) = t.i .minRestartSize := by
    conv_lhs => unfold vMin
    rw [c4, a5, a4]
    unfold vMin
    simp [h2, defMinRestart, hn, ho, hb, hp, extremal, ht]
  rw [defaults_eq, c4, c5]
  refine store_ext ?_ rfl rfl rfl rfl
  intro f
  simp only [setI_i]
  by_cases e6 : f = .locking
  · subst e6
    simp [vLock, b6]
  by_cases e5 : f = .minRestartSize
  · subst e5; simp
  by_cases e4 : f = .maxBasisSize
  · subst e4; simp
  by_cases e3 : f = .initBasisMode
  · subst e3
    simp only [reduceCtorEq, if_true, if_false, vInit, setI_i]
    rw [a3]; unfold vInit; split_ifs <;> omega
  by_cases e2 : f = .projectionParams_projection
  · subst e2
    simp only [reduceCtorEq, if_true, if_false, vProj, setI_i]
    rw [a2]; unfold vProj; split_ifs <;> omega
  by_cases e1 : f = .ldevecs
  · subst e1
    simp only [reduceCtorEq, if_true, if_false, vLd, setI_i]
    rw [a1, hnl]; unfold vLd; split_ifs <;> omega
  simp [e1, e2, e3, e4, e5, e6]

theorem steepest_i (s : EP K) :
    (steepest s).i .locking = 1 ∧ (steepest s).i .maxBasisSize = s.i .numEvals * 2 ∧
    (steepest s).i .minRestartSize = s.i .numEvals ∧ (steepest s).i .maxBlockSize = s.i .numEvals ∧
    (steepest s).i .restartingParams_maxPrevRetain = 0 ∧
    (steepest s).i .correctionParams_robustShifts = 0 ∧
    (steepest s).i .correctionParams_maxInnerIterations = 0 ∧
    (steepest s).i .correctionParams_projectors_RightX = 1 ∧
    (steepest s).i .correctionParams_projectors_SkewX = 0 ∧
    (steepest s).i .numEvals = s.i .numEvals :=
  ⟨rfl, rfl, rfl, rfl, rfl, rfl, rfl, rfl, rfl, rfl⟩

theorem lobpcg_i (s : EP K) :
    (lobpcg s).i .maxBasisSize = s.i .numEvals * 3 ∧
    (lobpcg s).i .minRestartSize = s.i .numEvals ∧ (lobpcg s).i .maxBlockSize = s.i .numEvals ∧
    (lobpcg s).i .restartingParams_maxPrevRetain = s.i .numEvals ∧
    (lobpcg s).i .correctionParams_robustShifts = 0 ∧
    (lobpcg s).i .correctionParams_maxInnerIterations = 0 ∧
    (lobpcg s).i .correctionParams_projectors_RightX = 1 ∧
    (lobpcg s).i .correctionParams_projectors_SkewX = 0 ∧
    (lobpcg s).i .initBasisMode = 2 ∧
    (lobpcg s).i .numEvals = s.i .numEvals :=
  ⟨rfl, rfl, rfl, rfl, rfl, rfl, rfl, rfl, rfl, rfl⟩

theorem prelude_block0 (r : Int) (t : EP K) (hr : r ≠ 1)
    (h1 : t.i .dynamicMethodSwitch = 0) (h2 : t.i .maxBlockSize = 0)
    (h3 : t.i .correctionParams_precondition ≠ -1) :
    methodPrelude r t = t.setI .maxBlockSize 1 := by
  unfold methodPrelude
  simp only
  rw [if_neg hr, setI_self _ _ _ h1, if_pos h2, if_neg]
  exact h3

theorem steepest_fix (s : EP K) (hd : s.i .dynamicMethodSwitch = 0)
    (hp : s.i .correctionParams_precondition ≠ -1) :
    defaultsBody (steepest (methodPrelude 13 (defaultsBody (steepest s)))) =
      defaultsBody (steepest s) := by
  have hd' : (steepest s).i .dynamicMethodSwitch = 0 := hd
  have hp' : (steepest s).i .correctionParams_precondition ≠ -1 := hp
  obtain ⟨a1, a2, a3, a4, a5, a6, a7, a8, a9, a10⟩ := steepest_i s
  generalize steepest s = u at *
  have k1 := (d_lock_keep u (by omega)).trans a1
  have k4 : (defaultsBody u).i .maxBlockSize = _ := (defaults_i u (by decide)).trans a4
  have k5 : (defaultsBody u).i .restartingParams_maxPrevRetain = _ :=
    (defaults_i u (by decide)).trans a5
  have k6 : (defaultsBody u).i .correctionParams_robustShifts = _ :=
    (defaults_i u (by decide)).trans a6
  have k7 : (defaultsBody u).i .correctionParams_maxInnerIterations = _ :=
    (defaults_i u (by decide)).trans a7
  have k8 : (defaultsBody u).i .correctionParams_projectors_RightX = _ :=
    (defaults_i u (by decide)).trans a8
  have k9 : (defaultsBody u).i .correctionParams_projectors_SkewX = _ :=
    (defaults_i u (by decide)).trans a9
  have k10 : (defaultsBody u).i .numEvals = _ := (defaults_i u (by decide)).trans a10
  have kd : (defaultsBody u).i .dynamicMethodSwitch = _ := (defaults_i u (by decide)).trans hd'
  have kp : (defaultsBody u).i .correctionParams_precondition ≠ -1 := by
    rw [defaults_i u (by decide)]; exact hp'
  by_cases c : s.i .numEvals = 0
  · rw [prelude_block0 13 _ (by decide) kd (by rw [k4, c]) kp]
    rw [← defaults_reset u (by rw [a2, c]; rfl) (by rw [a3, c])]
    rw [c] at k4 k10
    congr 1
    rw [defaults_reset u (by rw [a2, c]; rfl) (by rw [a3, c])]
    generalize defaultsBody u = t at *
    refine store_ext ?_ rfl rfl rfl rfl
    intro f
    simp only [steepest, setI_i]
    by_cases e0 : f = .locking
    · subst e0; simp [k1, k4, k5, k6, k7, k8, k9, k10]
    by_cases e1 : f = .maxBasisSize
    · subst e1; simp [k1, k4, k5, k6, k7, k8, k9, k10]
    by_cases e2 : f = .minRestartSize
    · subst e2; simp [k1, k4, k5, k6, k7, k8, k9, k10]
    by_cases e3 : f = .maxBlockSize
    · subst e3; simp [k1, k4, k5, k6, k7, k8, k9, k10]
    by_cases e4 : f = .restartingParams_maxPrevRetain
    · subst e4; simp [k1, k4, k5, k6, k7, k8, k9, k10]
    by_cases e5 : f = .correctionParams_robustShifts
    · subst e5; simp [k1, k4, k5, k6, k7, k8, k9, k10]
    by_cases e6 : f = .correctionParams_maxInnerIterations
    · subst e6; simp [k1, k4, k5, k6, k7, k8, k9, k10]
    by_cases e7 : f = .correctionParams_projectors_RightX
    · subst e7; simp [k1, k4, k5, k6, k7, k8, k9, k10]
    by_cases e8 : f = .correctionParams_projectors_SkewX
    · subst e8; simp [k1, k4, k5, k6, k7, k8, k9, k10]
    simp [e0, e1, e2, e3, e4, e5, e6, e7, e8]
  · have k2 := (d_max_keep u (by omega)).trans a2
    have k3 := (d_min_keep u (by omega)).trans a3
    rw [prelude_fix 13 _ (by rw [kd]; rfl) (by omega) kp]
    have : steepest (defaultsBody u) = defaultsBody u := by
      unfold steepest
      rw [k10, setI_self _ _ _ k1, setI_self _ _ _ k2, setI_self _ _ _ k3, setI_self _ _ _ k4,
        setI_self _ _ _ k5, setI_self _ _ _ k6, setI_self _ _ _ k7, setI_self _ _ _ k8,
        setI_self _ _ _ k9]
    rw [this, defaults_idem]

theorem lobpcg_fix (s : EP K) (hd : s.i .dynamicMethodSwitch = 0)
    (hp : s.i .correctionParams_precondition ≠ -1) :
    defaultsBody (lobpcg (methodPrelude 14 (defaultsBody (lobpcg s)))) =
      defaultsBody (lobpcg s) := by
  have hd' : (lobpcg s).i .dynamicMethodSwitch = 0 := hd
  have hp' : (lobpcg s).i .correctionParams_precondition ≠ -1 := hp
  obtain ⟨a2, a3, a4, a5, a6, a7, a8, a9, a1, a10⟩ := lobpcg_i s
  generalize lobpcg s = u at *
  have k1 := (d_init_keep u (by omega)).trans a1
  have k4 : (defaultsBody u).i .maxBlockSize = _ := (defaults_i u (by decide)).trans a4
  have k5 : (defaultsBody u).i .restartingParams_maxPrevRetain = _ :=
    (defaults_i u (by decide)).trans a5
  have k6 : (defaultsBody u).i .correctionParams_robustShifts = _ :=
    (defaults_i u (by decide)).trans a6
  have k7 : (defaultsBody u).i .correctionParams_maxInnerIterations = _ :=
    (defaults_i u (by decide)).trans a7
  have k8 : (defaultsBody u).i .correctionParams_projectors_RightX = _ :=
    (defaults_i u (by decide)).trans a8
  have k9 : (defaultsBody u).i .correctionParams_projectors_SkewX = _ :=
    (defaults_i u (by decide)).trans a9
  have k10 : (defaultsBody u).i .numEvals = _ := (defaults_i u (by decide)).trans a10
  have kd : (defaultsBody u).i .dynamicMethodSwitch = _ := (defaults_i u (by decide)).trans hd'
  have kp : (defaultsBody u).i .correctionParams_precondition ≠ -1 := by
    rw [defaults_i u (by decide)]; exact hp'
  by_cases c : s.i .numEvals = 0
  · rw [prelude_block0 14 _ (by decide) kd (by rw [k4, c]) kp]
    rw [← defaults_reset u (by rw [a2, c]; rfl) (by rw [a3, c])]
    rw [c] at k4 k10 k5
    congr 1
    rw [defaults_reset u (by rw [a2, c]; rfl) (by rw [a3, c])]
    generalize defaultsBody u = t at *
    refine store_ext ?_ rfl rfl rfl rfl
    intro f
    simp only [lobpcg, setI_i]
    by_cases e0 : f = .initBasisMode
    · subst e0; simp [k1, k4, k5, k6, k7, k8, k9, k10]
    by_cases e1 : f = .maxBasisSize
    · subst e1; simp [k1, k4, k5, k6, k7, k8, k9, k10]
    by_cases e2 : f = .minRestartSize
    · subst e2; simp [k1, k4, k5, k6, k7, k8, k9, k10]
    by_cases e3 : f = .maxBlockSize
    · subst e3; simp [k1, k4, k5, k6, k7, k8, k9, k10]
    by_cases e4 : f = .restartingParams_maxPrevRetain
    · subst e4; simp [k1, k4, k5, k6, k7, k8, k9, k10]
    by_cases e5 : f = .correctionParams_robustShifts
    · subst e5; simp [k1, k4, k5, k6, k7, k8, k9, k10]
    by_cases e6 : f = .correctionParams_maxInnerIterations
    · subst e6; simp [k1, k4, k5, k6, k7, k8, k9, k10]
    by_cases e7 : f = .correctionParams_projectors_RightX
    · subst e7; simp [k1, k4, k5, k6, k7, k8, k9, k10]
    by_cases e8 : f = .correctionParams_projectors_SkewX
    · subst e8; simp [k1, k4, k5, k6, k7, k8, k9, k10]
    simp [e0, e1, e2, e3, e4, e5, e6, e7, e8]
  · have k2 := (d_max_keep u (by omega)).trans a2
    have k3 := (d_min_keep u (by omega)).trans a3
    rw [prelude_fix 14 _ (by rw [kd]; rfl) (by omega) kp]
    have : lobpcg (defaultsBody u) = defaultsBody u := by
      unfold lobpcg
      rw [k10, setI_self _ _ _ k2, setI_self _ _ _ k3, setI_self _ _ _ k4,
        setI_self _ _ _ k5, setI_self _ _ _ k6, setI_self _ _ _ k7, setI_self _ _ _ k8,
        setI_self _ _ _ k9, setI_self _ _ _ k1]
    rw [this, defaults_idem]

theorem prelude_facts (r : Int) (s : EP K) :
    (methodPrelude r s).i .dynamicMethodSwitch = (if r = 1 then 1 else 0) ∧
    (methodPrelude r s).i .maxBlockSize =
      (if s.i .maxBlockSize = 0 then 1 else s.i .maxBlockSize) ∧
    (methodPrelude r s).i .correctionParams_precondition =
      (if s.i .correctionParams_precondition = -1 then
        (if s.p .applyPreconditioner ≠ 0 then 1 else 0)
      else s.i .correctionParams_precondition) ∧
    (∀ f, f ≠ .dynamicMethodSwitch → f ≠ .maxBlockSize → f ≠ .correctionParams_precondition →
      (methodPrelude r s).i f = s.i f) ∧
    (methodPrelude r s).d = s.d ∧ (methodPrelude r s).p = s.p := by
  unfold methodPrelude
  simp only [ite_setI]
  refine ⟨rfl, rfl, rfl, ?_, rfl, rfl⟩
  intro f h1 h2 h3
  simp [h1, h2, h3]

/-- The case of one method, run on its own result, gives that result. -/
theorem case_again {r : Int} {s u : EP K} (h : methodCase r (methodPrelude r s) = some u) :
    ∃ v, methodCase r (methodPrelude r (defaultsBody u)) = some v ∧
      defaultsBody v = defaultsBody u := by
  obtain ⟨p1, p2, p3, -, -, -⟩ := prelude_facts r s
  have hblock : (methodPrelude r s).i .maxBlockSize ≠ 0 := by rw [p2]; split_ifs <;> omega
  have hprec : (methodPrelude r s).i .correctionParams_precondition ≠ -1 := by
    rw [p3]; split_ifs <;> omega
  have hdms := case_dms _ _ _ h
  rw [p1] at hdms
  have generic : ∀ (f : EP K → EP K), (∀ w, methodCase r w = some (f w)) → u = f (methodPrelude r s) →
      u.i .maxBlockSize ≠ 0 → u.i .correctionParams_precondition ≠ -1 →
      f (defaultsBody u) = defaultsBody u →
      ∃ v, methodCase r (methodPrelude r (defaultsBody u)) = some v ∧
        defaultsBody v = defaultsBody u := by
    intro f hf hu hb hp hfix
    refine ⟨f (methodPrelude r (defaultsBody u)), hf _, ?_⟩
    rw [prelude_fix r _ (by rw [defaults_i _ (by decide), hdms]) (by rw [defaults_i _ (by decide)]; exact hb)
      (by rw [defaults_i _ (by decide)]; exact hp), hfix, defaults_idem]
  rcases case_cases h with ⟨rfl, e⟩ | ⟨rfl, e⟩ | ⟨rfl, e⟩ | ⟨rfl, e⟩ | ⟨rfl, e⟩ | ⟨rfl, e⟩ |
    ⟨rfl, e⟩ | ⟨rfl, e⟩ | ⟨rfl, e⟩ | ⟨rfl, e⟩ | ⟨rfl, e⟩ | ⟨rfl, e⟩ | ⟨rfl, e⟩
  · refine generic arnoldi (fun _ => rfl) e ?_ ?_ (by rw [e]; exact arnoldi_fix _)
    · rw [e]; exact hblock
    · rw [e]; exact (by decide : (0 : Int) ≠ -1)
  · refine generic gd (fun _ => rfl) e ?_ ?_ (by rw [e]; exact gd_fix _)
    · rw [e]; exact hblock
    · rw [e]; exact hprec
  · refine generic gdPlusK (fun _ => rfl) e ?_ ?_ (by rw [e]; exact gdPlusK_fix _)
    · rw [e]; unfold gdPlusK
      exact fun c => hblock ((plusK_i _ (f := .maxBlockSize) (by decide)).symm.trans c)
    · rw [e]; unfold gdPlusK
      exact fun c => hprec ((plusK_i _ (f := .correctionParams_precondition) (by decide)).symm.trans c)
  · refine generic gdOlsenPlusK (fun _ => rfl) e ?_ ?_ (by rw [e]; exact gdOlsenPlusK_fix _)
    · rw [e]; unfold gdOlsenPlusK
      exact fun c => hblock ((plusK_i _ (f := .maxBlockSize) (by decide)).symm.trans c)
    · rw [e]; unfold gdOlsenPlusK
      exact fun c => hprec ((plusK_i _ (f := .correctionParams_precondition) (by decide)).symm.trans c)
  · refine generic jdOlsenPlusK (fun _ => rfl) e ?_ ?_ (by rw [e]; exact jdOlsenPlusK_fix _)
    · rw [e]; unfold jdOlsenPlusK
      exact fun c => hblock ((plusK_i _ (f := .maxBlockSize) (by decide)).symm.trans c)
    · rw [e]; unfold jdOlsenPlusK
      exact fun c => hprec ((plusK_i _ (f := .correctionParams_precondition) (by decide)).symm.trans c)
  · refine generic rqi (fun _ => rfl) e ?_ ?_ (by rw [e]; exact rqi_fix _)
    · rw [e]; exact hblock
    · rw [e]; exact hprec
  · refine generic jdqr (fun _ => rfl) e ?_ ?_ (by rw [e]; exact jdqr_fix _)
    · rw [e]; unfold jdqr; simp only [ite_setI]; exact hblock
    · rw [e]; unfold jdqr; simp only [ite_setI]; exact hprec
  · refine generic jdqmr (fun _ => rfl) e ?_ ?_ (by rw [e]; exact jdqmr_fix _)
    · rw [e]; unfold jdqmr; simp only [ite_setI]; exact hblock
    · rw [e]; unfold jdqmr; simp only [ite_setI]; exact hprec
  · refine generic jdqmrETol (fun _ => rfl) e ?_ ?_ (by rw [e]; exact jdqmrETol_fix _)
    · rw [e]; unfold jdqmrETol; simp only [ite_setI]; exact hblock
    · rw [e]; unfold jdqmrETol; simp only [ite_setI]; exact hprec
  · exact ⟨_, rfl, by rw [e]; exact steepest_fix _ (by rw [p1]; rfl) hprec⟩
  · exact ⟨_, rfl, by rw [e]; exact lobpcg_fix _ (by rw [p1]; rfl) hprec⟩
  · refine generic lobpcgWindow (fun _ => rfl) e ?_ ?_ (by rw [e]; exact lobpcgWindow_fix _ hblock)
    · rw [e]; unfold lobpcgWindow; simp only; split_ifs <;> exact hblock
    · rw [e]; unfold lobpcgWindow; simp only; split_ifs <;> exact hprec
  · refine generic dynamic (fun _ => rfl) e ?_ ?_ (by rw [e]; exact dynamic_fix _)
    · rw [e, (dynamic_i _).2.2.2.2.2.2.2.2.2.2.1]; exact hblock
    · rw [e, (dynamic_i _).2.1]; exact hprec

theorem prelude_again (r : Int) (s : EP K) :
    methodPrelude r (methodPrelude r s) = methodPrelude r s := by
  obtain ⟨p1, p2, p3, -, -, -⟩ := prelude_facts r s
  refine prelude_fix r _ p1 ?_ ?_
  · rw [p2]; split_ifs <;> omega
  · rw [p3]; split_ifs <;> omega

theorem setMethod_target (m : Int) (s : EP K) : (setMethod m s).2.i .target = s.i .target := by
  have hp := (prelude_facts (resolveMethod m s) s).2.2.2.1 .target (by decide) (by decide) (by decide)
  unfold setMethod
  cases h : methodCase (resolveMethod m s) (methodPrelude (resolveMethod m s) s) with
  | none => exact hp
  | some t =>
    show (defaultsBody t).i .target = _
    rw [defaults_i _ (by decide), (case_within _ _ _ h).1 _ (by decide), hp]

theorem resolve_congr (m : Int) {s t : EP K} (h : t.i .target = s.i .target) :
    resolveMethod m t = resolveMethod m s := by
  unfold resolveMethod
  rw [extremal_ite h]

theorem setMethod_eq (m : Int) (s : EP K) {r : Int} (hr : resolveMethod m s = r) :
    setMethod m s = match methodCase r (methodPrelude r s) with
      | none => (-1, methodPrelude r s)
      | some t => (0, defaultsBody t) := by
  subst hr; rfl

theorem setMethod_idem (m : Int) (s : EP K) :
    setMethod m (setMethod m s).2 = setMethod m s := by
  have hr := resolve_congr m (setMethod_target m s)
  rw [setMethod_eq m _ hr, setMethod_eq m s rfl]
  cases h : methodCase (resolveMethod m s) (methodPrelude (resolveMethod m s) s) with
  | none =>
    simp only
    rw [prelude_again, h]
  | some t =>
    simp only
    obtain ⟨v, hv, e⟩ := case_again h
    rw [hv]; simp only; rw [e]

end Verif.Eigs
