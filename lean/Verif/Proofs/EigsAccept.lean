import Verif.Proofs.EigsParams
import Verif.Spec.EigsPresets

/-!
# Default sizes satisfy the size checks
-/

namespace Verif.Eigs
open Verif.Members

set_option linter.unusedSectionVars false
variable {K : Type} [Field K] [LinearOrder K]

/-- The sizes are in the ranges that make the defaults acceptable: either vectors are added one at a
time, and the constraints leave seven free directions (or there are no constraints); or the free
directions hold 35 vectors and six blocks. -/
def Roomy (n noc b : Int) : Prop :=
  1 ≤ b ∧ 0 ≤ noc ∧ ((b = 1 ∧ (noc = 0 ∨ 7 ≤ n - noc)) ∨ (35 ≤ n - noc ∧ 6 * b ≤ n - noc))

theorem sizes_ok {u : EP K} (h1 : u.i .maxBasisSize = 0) (h2 : u.i .minRestartSize = 0)
    (hn : 1 ≤ u.i .n) (hr : Roomy (u.i .n) (u.i .numOrthoConst) (u.i .maxBlockSize))
    (hp : u.i .restartingParams_maxPrevRetain = 0 ∨ u.i .restartingParams_maxPrevRetain = 1 ∨
      u.i .restartingParams_maxPrevRetain = 2 ∨
      u.i .restartingParams_maxPrevRetain = u.i .maxBlockSize) :
    1 ≤ vMin u ∧ vMin u ≤ vMax u ∧ (vMin u ≤ u.i .n ∨ u.i .n ≤ 2) ∧ (2 ≤ vMax u ∨ u.i .n ≤ 2) ∧
      (vMin u + u.i .restartingParams_maxPrevRetain < vMax u ∨ u.i .n ≤ vMax u) := by
  obtain ⟨hb, ho, hr⟩ := hr
  have eM : vMax u = defMaxBasis u := by unfold vMax; rw [if_pos h1]
  have eR : vMin u = defMinRestart (u.setI .maxBasisSize (vMax u)) := by
    unfold vMin; rw [if_pos h2]
  rw [eM] at eR ⊢
  have e1 : defMaxBasis u = min (u.i .n - u.i .numOrthoConst)
      (if extremal u then
        max 15 (4 * u.i .maxBlockSize + u.i .restartingParams_maxPrevRetain)
      else max 35 (5 * u.i .maxBlockSize + u.i .restartingParams_maxPrevRetain)) := by
    unfold defMaxBasis
    simp only [h2]
    split_ifs <;> omega
  have e2 : defMinRestart (u.setI .maxBasisSize (defMaxBasis u)) =
      (let r := if u.i .n ≤ 3 then u.i .n - u.i .numOrthoConst
        else if extremal u then Int.tdiv (4 * defMaxBasis u + 5) 10
        else Int.tdiv (6 * defMaxBasis u + 5) 10
       if u.i .maxBlockSize > 1 then
        if u.i .restartingParams_maxPrevRetain > 0 then
          defMaxBasis u - u.i .maxBlockSize * (1 + Int.tdiv (defMaxBasis u - r - 1 -
            u.i .restartingParams_maxPrevRetain) (u.i .maxBlockSize)) -
            u.i .restartingParams_maxPrevRetain
        else defMaxBasis u - u.i .maxBlockSize * (1 + Int.tdiv (defMaxBasis u - r - 1)
          (u.i .maxBlockSize))
      else r) := rfl
  rw [e2] at eR
  rw [eR]
  clear eR e2 eM
  generalize defMaxBasis u = M at *
  generalize u.i .n = n at *
  generalize u.i .numOrthoConst = noc at *
  generalize u.i .maxBlockSize = b at *
  generalize u.i .restartingParams_maxPrevRetain = p at *
  have hM : 0 ≤ M := by rw [e1]; split_ifs <;> omega
  have t4 : Int.tdiv (4 * M + 5) 10 = (4 * M + 5) / 10 := Int.tdiv_eq_ediv_of_nonneg (by omega)
  have t6 : Int.tdiv (6 * M + 5) 10 = (6 * M + 5) / 10 := Int.tdiv_eq_ediv_of_nonneg (by omega)
  simp only [t4, t6]
  by_cases hb1 : b > 1
  · rw [if_pos hb1]
    have hbig : 35 ≤ n - noc ∧ 6 * b ≤ n - noc := by omega
    have hn3 : ¬ n ≤ 3 := by omega
    rw [if_neg hn3]
    have hr2 : b ≤ (if extremal u then (4 * M + 5) / 10 else (6 * M + 5) / 10) ∧
        (if extremal u then (4 * M + 5) / 10 else (6 * M + 5) / 10) + 1 + p ≤ M := by
      split_ifs at e1 ⊢ <;> constructor <;> omega
    have hMn : M ≤ n := by split_ifs at e1 <;> omega
    generalize (if extremal u then (4 * M + 5) / 10 else (6 * M + 5) / 10) = r at hr2 ⊢
    have key : ∀ x : Int, 0 ≤ x → b * (1 + Int.tdiv x b) > x ∧ b * (1 + Int.tdiv x b) ≤ b + x := by
      intro x hx
      rw [Int.tdiv_eq_ediv_of_nonneg hx, mul_add, mul_one]
      have q1 := Int.mul_ediv_add_emod x b
      have q2 := Int.emod_nonneg x (by omega : b ≠ 0)
      have q3 := Int.emod_lt_of_pos x (by omega : 0 < b)
      constructor <;> omega
    by_cases hp0 : p > 0
    · rw [if_pos hp0]
      obtain ⟨k1, k2⟩ := key (M - r - 1 - p) (by omega)
      generalize b * (1 + (M - r - 1 - p).tdiv b) = Q at *
      refine ⟨?_, ?_, ?_, ?_, ?_⟩ <;> omega
    · rw [if_neg hp0]
      obtain ⟨k1, k2⟩ := key (M - r - 1) (by omega)
      generalize b * (1 + (M - r - 1).tdiv b) = Q at *
      refine ⟨?_, ?_, ?_, ?_, ?_⟩ <;> omega
  · rw [if_neg hb1]
    have : b = 1 := by omega
    subst this
    by_cases hn3 : n ≤ 3
    · rw [if_pos hn3]
      have : noc = 0 := by omega
      subst this
      have : M = n := by split_ifs at e1 <;> omega
      refine ⟨?_, ?_, ?_, ?_, ?_⟩ <;> omega
    · rw [if_neg hn3]
      split_ifs at e1 ⊢
      · refine ⟨?_, ?_, ?_, ?_, ?_⟩ <;> omega
      · refine ⟨?_, ?_, ?_, ?_, ?_⟩ <;> omega

/-- Everything `check_input` asks of the method parameters. -/
structure Good (t : EP K) : Prop where
  basis : 2 ≤ t.i .maxBasisSize ∨ t.i .n ≤ 2
  basis1 : 1 ≤ t.i .maxBasisSize
  restart : 1 ≤ t.i .minRestartSize
  restart_le : t.i .minRestartSize ≤ t.i .maxBasisSize
  restart_n : t.i .minRestartSize ≤ t.i .n ∨ t.i .n ≤ 2
  block : 1 ≤ t.i .maxBlockSize
  prev : 0 ≤ t.i .restartingParams_maxPrevRetain
  fits : t.i .minRestartSize + t.i .restartingParams_maxPrevRetain < t.i .maxBasisSize ∨
    t.i .n ≤ t.i .maxBasisSize
  lock : t.i .locking = 1 ∨ (t.i .locking = 0 ∧ t.i .numEvals ≤ t.i .minRestartSize ∧
    (t.i .target = 0 ∨ t.i .target = 1))
  conv : t.i .correctionParams_convTest = 0 ∨ t.i .correctionParams_convTest = 2 ∨
    t.i .correctionParams_convTest = 3
  proj : t.i .projectionParams_projection = 1
  mode : t.i .initBasisMode ≠ 0
  prec : t.i .correctionParams_precondition > 0 → t.p .applyPreconditioner ≠ 0
  dms : 0 ≤ t.i .dynamicMethodSwitch

set_option linter.unusedVariables false in
/-- Defaults applied to the result of a method case. -/
theorem good_of_case {v : EP K} (hdms : 0 ≤ v.i .dynamicMethodSwitch)
    (hlock : v.i .locking = -1 ∨ v.i .locking = 1)
    (hproj : v.i .projectionParams_projection = 0)
    (hmode : v.i .initBasisMode = 0 ∨ v.i .initBasisMode = 2)
    (hconv : v.i .correctionParams_convTest = 0 ∨ v.i .correctionParams_convTest = 2 ∨
      v.i .correctionParams_convTest = 3)
    (hprec : v.i .correctionParams_precondition > 0 → v.p .applyPreconditioner ≠ 0)
    (hb : 1 ≤ v.i .maxBlockSize) (hp : 0 ≤ v.i .restartingParams_maxPrevRetain)
    (hs : 1 ≤ vMin v ∧ vMin v ≤ vMax v ∧ (vMin v ≤ v.i .n ∨ v.i .n ≤ 2) ∧ (2 ≤ vMax v ∨ v.i .n ≤ 2) ∧
      (vMin v + v.i .restartingParams_maxPrevRetain < vMax v ∨ v.i .n ≤ vMax v)) :
    Good (defaultsBody v) := by
  obtain ⟨s1, s2, s3, s4, s5⟩ := hs
  have e1 := d_max v
  have e2 := d_min v
  have e3 := d_lock v
  have e4 := d_proj v
  have e5 := d_init v
  have f1 : (defaultsBody v).i .n = v.i .n := defaults_i v (by decide)
  have f2 : (defaultsBody v).i .maxBlockSize = v.i .maxBlockSize := defaults_i v (by decide)
  have f3 : (defaultsBody v).i .restartingParams_maxPrevRetain =
    v.i .restartingParams_maxPrevRetain := defaults_i v (by decide)
  have f4 : (defaultsBody v).i .numEvals = v.i .numEvals := defaults_i v (by decide)
  have f5 : (defaultsBody v).i .target = v.i .target := defaults_i v (by decide)
  have f6 : (defaultsBody v).i .correctionParams_convTest = v.i .correctionParams_convTest :=
    defaults_i v (by decide)
  have f7 : (defaultsBody v).i .correctionParams_precondition =
    v.i .correctionParams_precondition := defaults_i v (by decide)
  have f8 : (defaultsBody v).i .dynamicMethodSwitch = v.i .dynamicMethodSwitch :=
    defaults_i v (by decide)
  have f9 := defaults_p v
  generalize defaultsBody v = t at *
  refine ⟨by omega, by omega, by omega, by omega, by omega, by omega, by omega, by omega, ?_,
    by rw [f6]; exact hconv, ?_, ?_, by rw [f7, f9]; exact hprec, by omega⟩
  · rw [e3, f4, e2, f5]
    unfold vLock
    rcases hlock with h | h
    · rw [if_neg (by omega)]
      by_cases hx : extremal v
      · rw [if_neg (not_not.2 hx)]
        unfold extremal at hx
        split_ifs <;> omega
      · rw [if_pos hx]; exact Or.inl rfl
    · rw [if_pos (by omega)]; exact Or.inl h
  · rw [e4]; unfold vProj; rw [if_pos hproj]
  · rw [e5]; unfold vInit; split_ifs <;> omega

theorem case_good {r : Int} {u v : EP K} (hc : methodCase r u = some v)
    (h0 : 0 ≤ u.i .dynamicMethodSwitch)
    (h1 : u.i .locking = -1) (h2 : u.i .projectionParams_projection = 0)
    (h3 : u.i .initBasisMode = 0) (h4 : u.i .correctionParams_convTest = 2)
    (h5 : u.i .correctionParams_precondition > 0 → u.p .applyPreconditioner ≠ 0)
    (h6 : u.i .restartingParams_maxPrevRetain = -1)
    (h7 : u.i .maxBasisSize = 0) (h8 : u.i .minRestartSize = 0)
    (hn : 1 ≤ u.i .n) (hk : 1 ≤ u.i .numEvals) (hkn : u.i .numEvals ≤ u.i .n)
    (hr : Roomy (u.i .n) (u.i .numOrthoConst) (u.i .maxBlockSize)) : Good (defaultsBody v) := by
  have hb : 1 ≤ u.i .maxBlockSize := hr.1
  have hbn : u.i .maxBlockSize ≤ u.i .n := by obtain ⟨a, b, c⟩ := hr; omega
  have hd := case_dms _ _ _ hc
  have hw := case_within _ _ _ hc
  have kp : (plusK u).i .restartingParams_maxPrevRetain = 2 ∨
      (plusK u).i .restartingParams_maxPrevRetain = u.i .maxBlockSize := by
    unfold plusK; rw [if_pos (by omega)]; split_ifs <;> simp
  have ki : ∀ f, f ≠ .restartingParams_maxPrevRetain → (plusK u).i f = u.i f :=
    fun f hf => plusK_i u hf
  have kpp := plusK_p u
  have std : ∀ v : EP K, (v.i .dynamicMethodSwitch = u.i .dynamicMethodSwitch) →
      (v.i .locking = -1 ∨ v.i .locking = 1) →
      v.i .projectionParams_projection = 0 → v.i .initBasisMode = 0 →
      (v.i .correctionParams_convTest = 0 ∨ v.i .correctionParams_convTest = 2 ∨
        v.i .correctionParams_convTest = 3) →
      (v.i .correctionParams_precondition = u.i .correctionParams_precondition ∨
        v.i .correctionParams_precondition = 0) → v.p = u.p →
      v.i .maxBlockSize = u.i .maxBlockSize → v.i .n = u.i .n →
      v.i .numOrthoConst = u.i .numOrthoConst →
      v.i .maxBasisSize = 0 → v.i .minRestartSize = 0 →
      (v.i .restartingParams_maxPrevRetain = 0 ∨ v.i .restartingParams_maxPrevRetain = 1 ∨
      v.i .restartingParams_maxPrevRetain = 2 ∨
      v.i .restartingParams_maxPrevRetain = u.i .maxBlockSize) → Good (defaultsBody v) := by
    intro v a1 a2 a3 a4 a5 a6 a7 a8 a9 a10 a11 a12 a13
    refine good_of_case (by omega) a2 a3 (Or.inl a4) a5 ?_ (by omega) (by omega) ?_
    · rw [a7]
      rcases a6 with a6 | a6
      · rw [a6]; exact h5
      · rw [a6]; intro c; omega
    · exact sizes_ok a11 a12 (by omega) (by rw [a8, a9, a10]; exact hr) (by rw [a8]; exact a13)
  rcases case_cases hc with ⟨rfl, rfl⟩ | ⟨rfl, rfl⟩ | ⟨rfl, rfl⟩ | ⟨rfl, rfl⟩ | ⟨rfl, rfl⟩ |
    ⟨rfl, rfl⟩ | ⟨rfl, rfl⟩ | ⟨rfl, rfl⟩ | ⟨rfl, rfl⟩ | ⟨rfl, rfl⟩ | ⟨rfl, rfl⟩ | ⟨rfl, rfl⟩ |
    ⟨rfl, rfl⟩
  · exact std _ rfl (Or.inl h1) h2 h3 (Or.inr (Or.inl h4)) (Or.inr rfl) rfl rfl rfl rfl h7 h8
      (Or.inl rfl)
  · exact std _ rfl (Or.inl h1) h2 h3 (Or.inr (Or.inl h4)) (Or.inl rfl) rfl rfl rfl rfl h7 h8
      (Or.inl rfl)
  · exact std _ (ki _ (by decide)) (Or.inl ((ki _ (by decide)).trans h1))
      ((ki .projectionParams_projection (by decide)).trans h2)
      ((ki .initBasisMode (by decide)).trans h3)
      (Or.inr (Or.inl ((ki .correctionParams_convTest (by decide)).trans h4)))
      (Or.inl (ki .correctionParams_precondition (by decide))) kpp
      (ki .maxBlockSize (by decide)) (ki .n (by decide)) (ki .numOrthoConst (by decide))
      ((ki .maxBasisSize (by decide)).trans h7) ((ki .minRestartSize (by decide)).trans h8)
      (Or.inr (Or.inr kp))
  · exact std _ (ki _ (by decide)) (Or.inl ((ki _ (by decide)).trans h1))
      ((ki .projectionParams_projection (by decide)).trans h2)
      ((ki .initBasisMode (by decide)).trans h3)
      (Or.inr (Or.inl ((ki .correctionParams_convTest (by decide)).trans h4)))
      (Or.inl (ki .correctionParams_precondition (by decide))) kpp
      (ki .maxBlockSize (by decide)) (ki .n (by decide)) (ki .numOrthoConst (by decide))
      ((ki .maxBasisSize (by decide)).trans h7) ((ki .minRestartSize (by decide)).trans h8)
      (Or.inr (Or.inr kp))
  · exact std _ (ki _ (by decide)) (Or.inl ((ki _ (by decide)).trans h1))
      ((ki .projectionParams_projection (by decide)).trans h2)
      ((ki .initBasisMode (by decide)).trans h3)
      (Or.inr (Or.inl ((ki .correctionParams_convTest (by decide)).trans h4)))
      (Or.inl (ki .correctionParams_precondition (by decide))) kpp
      (ki .maxBlockSize (by decide)) (ki .n (by decide)) (ki .numOrthoConst (by decide))
      ((ki .maxBasisSize (by decide)).trans h7) ((ki .minRestartSize (by decide)).trans h8)
      (Or.inr (Or.inr kp))
  · exact std _ rfl (Or.inr rfl) h2 h3 (Or.inl rfl) (Or.inl rfl) rfl rfl rfl rfl h7 h8
      (Or.inl rfl)
  · have e : jdqr u = jdqr u := rfl
    conv_rhs at e => unfold jdqr
    simp only [ite_setI] at e
    rw [e]
    exact std _ rfl (Or.inr rfl) h2 h3 (Or.inl rfl) (Or.inl rfl) rfl rfl rfl rfl h7 h8
      (Or.inr (Or.inl rfl))
  · have e : jdqmr u = jdqmr u := rfl
    conv_rhs at e => unfold jdqmr
    simp only [ite_setI, h6] at e
    rw [e]
    exact std _ rfl (Or.inl h1) h2 h3 (Or.inr (Or.inr rfl)) (Or.inl rfl) rfl rfl rfl rfl h7 h8
      (Or.inr (Or.inl rfl))
  · have e : jdqmrETol u = jdqmrETol u := rfl
    conv_rhs at e => unfold jdqmrETol
    simp only [ite_setI, h6] at e
    rw [e]
    exact std _ rfl (Or.inl h1) h2 h3 (Or.inr (Or.inl rfl)) (Or.inl rfl) rfl rfl rfl rfl h7 h8
      (Or.inr (Or.inl rfl))
  · obtain ⟨a1, a2, a3, a4, a5, a6, a7, a8, a9, a10⟩ := steepest_i u
    have b1 : vMax (steepest u) = u.i .numEvals * 2 := by
      unfold vMax; rw [if_neg (by omega), a2]
    have b2 : vMin (steepest u) = u.i .numEvals := by
      unfold vMin; rw [if_neg (by omega), a3]
    have b3 : (steepest u).i .n = u.i .n := rfl
    refine good_of_case (by omega) (Or.inr rfl) h2 (Or.inl h3) (Or.inr (Or.inl h4)) h5 (by omega)
      (by omega) ⟨by omega, by omega, by omega, by omega, by omega⟩
  · obtain ⟨a2, a3, a4, a5, a6, a7, a8, a9, a1, a10⟩ := lobpcg_i u
    have b1 : vMax (lobpcg u) = u.i .numEvals * 3 := by
      unfold vMax; rw [if_neg (by omega), a2]
    have b2 : vMin (lobpcg u) = u.i .numEvals := by
      unfold vMin; rw [if_neg (by omega), a3]
    have b3 : (lobpcg u).i .n = u.i .n := rfl
    refine good_of_case (by omega) (Or.inl h1) h2 (Or.inr rfl) (Or.inr (Or.inl h4)) h5 (by omega)
      (by omega) ⟨by omega, by omega, by omega, by omega, by omega⟩
  · have a0 : (lobpcgWindow u).i .n = u.i .n := hw.1 _ (by decide)
    have a1 : (lobpcgWindow u).p = u.p := hw.2.2.1
    have a2 : (lobpcgWindow u).i .locking = -1 ∧
        (lobpcgWindow u).i .projectionParams_projection = 0 ∧
        (lobpcgWindow u).i .initBasisMode = 2 ∧ (lobpcgWindow u).i .correctionParams_convTest = 2 ∧
        (lobpcgWindow u).i .correctionParams_precondition = u.i .correctionParams_precondition ∧
        (lobpcgWindow u).i .maxBlockSize = u.i .maxBlockSize := by
      unfold lobpcgWindow; simp only
      split_ifs <;> exact ⟨h1, h2, rfl, h4, rfl, rfl⟩
    obtain ⟨b1, b2, b3, b4, b5, b6⟩ := a2
    have a3 : ((lobpcgWindow u).i .maxBasisSize = 4 ∧ (lobpcgWindow u).i .minRestartSize = 2 ∧
          (lobpcgWindow u).i .restartingParams_maxPrevRetain = 1) ∨
        ((lobpcgWindow u).i .maxBasisSize = u.i .maxBlockSize * 3 ∧
          (lobpcgWindow u).i .minRestartSize = u.i .maxBlockSize ∧
          (lobpcgWindow u).i .restartingParams_maxPrevRetain = u.i .maxBlockSize) := by
      unfold lobpcgWindow; simp only
      split_ifs
      · exact Or.inl ⟨rfl, rfl, rfl⟩
      · exact Or.inr ⟨rfl, rfl, rfl⟩
    have c1 : vMax (lobpcgWindow u) = (lobpcgWindow u).i .maxBasisSize := by
      unfold vMax; rw [if_neg (by omega)]
    have c2 : vMin (lobpcgWindow u) = (lobpcgWindow u).i .minRestartSize := by
      unfold vMin; rw [if_neg (by omega)]
    refine good_of_case (by omega) (Or.inl b1) b2 (Or.inr b3) (Or.inr (Or.inl b4))
      (by rw [b5, a1]; exact h5) (by omega) (by omega) ⟨?_, ?_, ?_, ?_, ?_⟩ <;> omega
  · obtain ⟨a1, a2, a3, a4, a5, a6, a7, a8, a9, a10, b1, b2, b3, b4⟩ := dynamic_i u
    refine std _ hd (Or.inl ((ki _ (by decide)).trans h1))
      ((ki .projectionParams_projection (by decide)).trans h2)
      ((ki .initBasisMode (by decide)).trans h3)
      (Or.inr ?_) (Or.inl a2) b4 b1 (ki .n (by decide)) (ki .numOrthoConst (by decide))
      ((ki .maxBasisSize (by decide)).trans h7) ((ki .minRestartSize (by decide)).trans h8)
      (Or.inr (Or.inr (by rw [a1]; exact kp)))
    rw [a10]; split_ifs <;> simp

end Verif.Eigs
