import Verif.Proofs.SvdsParams
import Verif.Props.C09_SvdsCheckInput
import Verif.Props.C06_SetMethod
import Verif.Spec.TargetOrder
import Mathlib.Tactic.Linarith
import Mathlib.Tactic.Ring
import Mathlib.Tactic.Positivity
import Mathlib.Tactic.NormNum
import Mathlib.Algebra.Order.Ring.Rat

/-!
# C10 — method selection and the eigenproblem handed to each stage

`callSvdsMethod` is `primme_svds_set_method`, `svdsPrelude` what the solver does to the structure
before its input check.  Both carry a bound on the depth of the C calls; the first theorem says that
the bound is irrelevant.
-/

namespace Verif.Props
open Verif.Members Verif.Svds Verif.Eigs

set_option linter.unusedSectionVars false
variable {K : Type} [Field K] [LinearOrder K]

theorem C10_depth {e : SEnv K} (k : Nat) :
    (∀ {m m1 m2 : Int} {s t : SP K}, callSvdsMethod e k m m1 m2 s = some t →
      t = svdsMethod e m m1 m2 s) ∧
    (∀ {s t : SP K}, callSvdsDefaults e k s = some t → t = svdsDefaults e s) := by
  -- fuel monotonicity by comparing with the sufficient depth
  have eig : ∀ (k : Nat) (m : Int) (p : EP K) (r : Int × EP K), callMethod k m p = some r →
      r = setMethod m p := fun k m p r h => C06_result h
  induction k using Nat.strong_induction_on with
  | _ k ih =>
  match k with
  | 0 => exact ⟨fun h => by simp [callSvdsMethod] at h, fun h => by simp [callSvdsDefaults] at h⟩
  | k + 1 =>
    constructor
    · intro m m1 m2 s t h
      unfold callSvdsMethod at h
      cases hd : callSvdsDefaults e k { s with sv := chooseOps m s.sv } with
      | none => rw [hd] at h; simp at h
      | some u =>
        have hu := (ih k (by omega)).2 hd
        rw [hd] at h
        simp only at h
        cases h1 : callMethod k m1 u.st1 with
        | none => rw [h1] at h; simp at h
        | some r =>
          have hr := eig _ _ _ _ h1
          rw [h1] at h
          simp only at h
          unfold svdsMethod presetStages
          rw [← hu]
          simp only
          by_cases h2 : u.sv.i .methodStage2 ≠ 0
          · rw [if_pos h2] at h
            rw [if_pos h2]
            cases h3 : callMethod k (if m2 = 0 ∧ u.sv.i .target ≠ 0 then 11 else m2) u.st2 with
            | none => rw [h3] at h; simp at h
            | some r2 =>
              have hr2 := eig _ _ _ _ h3
              rw [h3] at h
              simp only [Option.some.injEq] at h
              rw [← h, ← hr, ← hr2]
          · rw [if_neg h2] at h
            rw [if_neg h2]
            simp only [Option.some.injEq] at h
            rw [← h, ← hr]
    · intro s t h
      unfold callSvdsDefaults at h
      unfold svdsDefaults
      by_cases hm : s.sv.i .method = 0
      · rw [if_pos hm] at h
        rw [if_pos hm]
        cases hc : callSvdsMethod e k 0 0 0 s with
        | none => rw [hc] at h; simp at h
        | some u =>
          have hu := (ih k (by omega)).1 hc
          rw [hc] at h
          simp only [Option.some.injEq] at h
          rw [← h, hu]
          unfold svdsMethod svdsDefaults
          rw [if_neg (chooseOps_ne (m := 0) s.sv (by omega))]
      · rw [if_neg hm] at h
        rw [if_neg hm]
        simpa using h.symm

/-- `primme_svds_set_method` and `primme_svds_set_defaults`, which call each other, terminate, and the
answer does not depend on the depth of stack available. -/
theorem C10_terminates (e : SEnv K) (m m1 m2 : Int) (s : SP K) :
    (∃ t, ∀ k ≥ 5, callSvdsMethod e k m m1 m2 s = some t) ∧
    (∃ t, ∀ k ≥ 4, callSvdsDefaults e k s = some t) := by
  refine ⟨⟨svdsMethod e m m1 m2 s, fun k hk => ?_⟩, ⟨svdsDefaults e s, fun k hk => ?_⟩⟩
  · obtain ⟨j, rfl⟩ : ∃ j, k = j + 5 := ⟨k - 5, by omega⟩
    exact callMethod_total' e j m m1 m2 s
  · obtain ⟨j, rfl⟩ : ∃ j, k = j + 4 := ⟨k - 4, by omega⟩
    exact callDefaults_total' e j s

/-- A documented method sets the documented pair of operators, and of the members of
`primme_svds_params` only these two. -/
theorem C10_documented_operators {e : SEnv K} {k : Nat} {m m1 m2 : Int} {s t : SP K}
    (h : callSvdsMethod e k m m1 m2 s = some t) (hm : 0 ≤ m ∧ m ≤ 3) :
    (t.sv.i .method, t.sv.i .methodStage2) = Doc.presetOps m (s.sv.i .m) (s.sv.i .n) ∧
    (∀ f, f ≠ .method → f ≠ .methodStage2 → t.sv.i f = s.sv.i f) ∧
    t.sv.d = s.sv.d ∧ t.sv.p = s.sv.p ∧ t.sv.seed = s.sv.seed := by
  have ht := (C10_depth k).1 h
  have hsv : t.sv = chooseOps m s.sv := by
    rw [ht]; unfold svdsMethod
    rw [presetStages_sv, svdsDefaults_sv, if_neg (chooseOps_ne _ hm)]
  rw [hsv]
  exact ⟨chooseOps_preset _ hm, fun f h1 h2 => chooseOps_frame m _ h1 h2, chooseOps_rest m _⟩

/-- Each documented method gives a supported pair of operators, so that the check never answers -14 or
-15 afterwards. -/
theorem C10_supported {e : SEnv K} {k : Nat} {m m1 m2 : Int} {s t : SP K}
    (h : callSvdsMethod e k m m1 m2 s = some t) (hm : 0 ≤ m ∧ m ≤ 3) (a : SArrays) :
    Doc.Supported (t.sv.i .method) (t.sv.i .methodStage2) ∧
    svdsCheckInput a t.sv ≠ -14 ∧ svdsCheckInput a t.sv ≠ -15 := by
  have h1 := (C10_documented_operators h hm).1
  have hs : Doc.Supported (t.sv.i .method) (t.sv.i .methodStage2) := by
    unfold Doc.presetOps at h1
    unfold Doc.Supported
    split_ifs at h1 <;> simp only [Prod.mk.injEq] at h1 <;> omega
  refine ⟨hs, ?_, ?_⟩ <;>
  · rcases C09_check_is_first_violated a t.sv with ⟨h0, -⟩ | ⟨pre, c, P, post, hl, -, hP, hx⟩
    · omega
    · intro hc
      rw [hx] at hc
      subst hc
      have hmem := hl ▸ List.mem_append_right pre (List.mem_cons_self (a := (_, P)) (l := post))
      simp only [C09_list, Svds.Doc.errors, List.mem_cons, Prod.mk.injEq, List.not_mem_nil, or_false] at hmem
      norm_num at hmem
      have hP' := hmem.1 hP
      unfold Doc.Supported at hs
      first
        | exact hP' hs
        | omega

/-- The structure of a stage describes the eigenproblem of operator `op`: its order, as many pairs as
singular values, the same tolerance, initial vectors, constraints and verbosity. -/
def StageProblem (v : SV K) (op : Int) (p : EP K) : Prop :=
  Doc.IsOrder (v.i .m) (v.i .n) op (p.i .n) ∧ p.i .numEvals = v.i .numSvals ∧
  p.d .eps = v.d .eps ∧ p.i .initSize = v.i .initSize ∧
  p.i .numOrthoConst = v.i .numOrthoConst ∧ p.i .printLevel = v.i .printLevel

theorem C10_copy {e : SEnv K} {v : SV K} {op : Int} (b : Bool) (p : EP K)
    (hop : op = 1 ∨ op = 2 ∨ op = 3) : StageProblem v op (copyParams e v op b p) := by
  obtain ⟨h1, h2, h3, h4, h5, -, h6⟩ := copyParams_spec e v op b p hop
  refine ⟨?_, h2, h3, h4, h5, h6⟩
  rw [h1]; unfold opSize
  rcases hop with rfl | rfl | rfl
  · exact .AtA
  · exact .AAt
  · exact .augmented

theorem C10_body {e : SEnv K} {s t : SP K} {k : Nat} {a : SArrays}
    (h : svdsPrelude e k a s = some t) : ∃ u : SP K, t = svdsDefaultsBody e u ∧ u.sv = t.sv := by
  unfold svdsPrelude at h
  obtain ⟨w, ht⟩ : ∃ w, t = svdsDefaults e w := ⟨_, (C10_depth k).2 h⟩
  unfold svdsDefaults at ht
  split_ifs at ht
  · exact ⟨_, ht, by rw [ht, body_sv]⟩
  · exact ⟨_, ht, by rw [ht, body_sv]⟩

/-- For every input accepted by the check, each configured stage solves the eigenproblem of its
operator. -/
theorem C10_stage_problems {e : SEnv K} {k : Nat} {a : SArrays} {s t : SP K}
    (h : svdsPrelude e k a s = some t) (hc : svdsCheckInput a t.sv = 0) :
    StageProblem t.sv (t.sv.i .method) t.st1 ∧
    (t.sv.i .methodStage2 ≠ 0 → t.sv.i .methodStage2 = 3 ∧ StageProblem t.sv 3 t.st2) := by
  obtain ⟨u, rfl, hu⟩ := C10_body h
  have hs := ((C09_accepted_inputs _ _).1 hc).2.2.2.1
  rw [← hu] at hs ⊢
  unfold Doc.Supported at hs
  have h1 : ¬ u.sv.i .method = 0 := by omega
  unfold svdsDefaultsBody
  simp only [h1, if_false]
  constructor
  · split_ifs
    · exact C10_copy _ _ (by omega)
    · exact C10_copy _ _ (by omega)
  · intro h2
    have h3 : u.sv.i .methodStage2 = 3 := by omega
    refine ⟨h3, ?_⟩
    rw [if_pos h2]
    rw [show u.sv.i .methodStage2 = 3 from h3]
    exact C10_copy _ _ (by omega)

/-- The first stage of a documented method works on the smaller of the two normal equations. -/
theorem C10_smaller_side (method m n : Int) (hne : method ≠ 3) (x : Int)
    (h : Doc.IsOrder m n (Doc.presetOps method m n).1 x) : x = min m n := by
  unfold Doc.presetOps at h
  rw [if_neg hne] at h
  by_cases hc : m ≥ n
  · rw [if_pos hc] at h
    cases h; omega
  · rw [if_neg hc] at h
    cases h; omega

/-- Rows of a process: a fresh stage gets the rows of its operator. -/
theorem C10_stage_rows (e : SEnv K) (v : SV K) (op : Int) (b : Bool) (p : EP K)
    (hop : op = 1 ∨ op = 2 ∨ op = 3) (hm : 0 ≤ v.i .mLocal) (hn : 0 ≤ v.i .nLocal)
    (hf : p.i .nLocal = -1) :
    Doc.IsOrder (v.i .mLocal) (v.i .nLocal) op ((copyParams e v op b p).i .nLocal) := by
  rw [copyParams_rows, if_pos ⟨hop, hf, by omega, by omega⟩]
  unfold opSize
  rcases hop with rfl | rfl | rfl
  · exact .AtA
  · exact .AAt
  · exact .augmented

/-- Refutation for a structure used before: the rows of the stage are those of the first use, whatever
the present distribution of the matrix. -/
theorem C10_reused_rows_violated (e : SEnv K) (v : SV K) (op : Int) (b : Bool) (p : EP K)
    (hf : p.i .nLocal ≠ -1) : (copyParams e v op b p).i .nLocal = p.i .nLocal := by
  rw [copyParams_rows, if_neg (fun c => hf c.2.1)]

/-- Norm estimate: the user's estimate of the norm of `A` becomes its square for the products with the adjoint
and `√2` times it for the augmented matrix; without an estimate the stage keeps what it had. -/
theorem C10_stage_norm (e : SEnv K) (v : SV K) (op : Int) (b : Bool) (p : EP K)
    (hop : op = 1 ∨ op = 2 ∨ op = 3) :
    (copyParams e v op b p).d .aNorm =
      if 0 < v.d .aNorm then (if op = 3 then e.sqrt2 * v.d .aNorm else v.d .aNorm ^ 2) else p.d .aNorm := by
  have hi : isOp op := hop
  unfold copyParams
  simp only [ite_i, ite_d, ite_p, setI_i, setI_d, setI_p, setD_i, setD_d, setD_p, setP_i, setP_d,
    setP_p, reduceCtorEq, if_false, if_true, ite_self, hi, and_true]
  by_cases h0 : 0 < v.d .aNorm
  · rw [if_pos h0, if_pos h0]
    split_ifs
    · rw [mul_comm]
    · rw [pow_two]
  · rw [if_neg h0, if_neg h0]

/-! ## Targets -/

/-- The eigenvalue of the operator that belongs to the singular value `σ` (the non-negative one for the
augmented matrix). -/
def C10_eigenvalue (op : Int) (σ : K) : K := if op = 3 then σ else σ ^ 2

/-- The shift of the eigenproblem for shift `τ` of the singular value problem: 0 for `smallest` with
the augmented matrix (src/svds/primme_svds_c.c:749-764), `τ²` for the normal equations (lines 695-698),
`τ` otherwise. -/
def C10_shift (op target : Int) (τ : K) : K :=
  if target = 1 then 0 else if op = 3 then τ else τ ^ 2

/-- The target given to the stage. -/
theorem C10_stage_target (e : SEnv K) (v : SV K) (op : Int) (b : Bool) (p : EP K)
    (ht : v.i .target = 0 ∨ v.i .target = 1 ∨ v.i .target = 2) :
    (copyParams e v op b p).i .target = Target.code
      (if v.i .target = 0 then .largest
      else if v.i .target = 1 then (if op = 3 then .closest_geq else .smallest)
      else .closest_abs) := by
  rw [(copyParams_target e v op b p).1]
  rcases ht with h | h | h <;> simp only [h] <;> split_ifs <;> simp_all [Target.code]

variable [IsStrictOrderedRing K]

theorem C10_sq_le {x y : K} (hx : 0 ≤ x) (hy : 0 ≤ y) : x ^ 2 ≤ y ^ 2 ↔ x ≤ y := by
  constructor
  · intro h; by_contra hc; push Not at hc; nlinarith
  · intro h; nlinarith

/-- Order of the singular values and order of the eigenvalues of the stage agree: for `largest` and
`smallest` with every operator, and for `closest_abs` with the augmented matrix.  `t` is the target
handed to the eigensolver. -/
theorem C10_order_preserved (e : SEnv K) (v : SV K) (op : Int) (b : Bool) (p : EP K) (t : Target)
    (hop : op = 1 ∨ op = 2 ∨ op = 3)
    (ht : v.i .target = 0 ∨ v.i .target = 1 ∨ (v.i .target = 2 ∧ op = 3))
    (hcode : (copyParams e v op b p).i .target = t.code) (τ σ σ' : K) (h0 : 0 ≤ σ) (h1 : 0 ≤ σ') :
    Doc.Before (v.i .target) τ σ σ' ↔
      Spec.Precedes t (C10_shift op (v.i .target) τ) (C10_eigenvalue op σ) (C10_eigenvalue op σ') := by
  rw [(copyParams_target e v op b p).1] at hcode
  unfold Doc.Before C10_shift C10_eigenvalue
  rcases ht with ht | ht | ⟨ht, rfl⟩
  · have : t = .largest := by
      rw [ht] at hcode; cases t <;> simp_all [Target.code]
    subst this
    simp only [ht, Spec.Precedes]
    split_ifs <;> simp [C10_sq_le, h0, h1]
  · rcases hop with rfl | rfl | rfl
    · have : t = .smallest := by
        rw [ht] at hcode; cases t <;> simp_all [Target.code]
      subst this
      simp [ht, Spec.Precedes, C10_sq_le, h0, h1]
    · have : t = .smallest := by
        rw [ht] at hcode; cases t <;> simp_all [Target.code]
      subst this
      simp [ht, Spec.Precedes, C10_sq_le, h0, h1]
    · have : t = .closest_geq := by
        rw [ht] at hcode; cases t <;> simp_all [Target.code]
      subst this
      simp [ht, Spec.Precedes]
  · have : t = .closest_abs := by
      rw [ht] at hcode; cases t <;> simp_all [Target.code]
    subst this
    simp [ht, Spec.Precedes]

/-- With the augmented matrix and a non-negative shift, the eigenvalue `-σ` is never preferred to its
mirror image `σ`. -/
theorem C10_mirror_not_preferred (τ σ : K) (h0 : 0 ≤ σ) (h1 : 0 ≤ τ) :
    Spec.Precedes .closest_abs τ σ (-σ) ∧ Spec.Precedes .largest τ σ (-σ) := by
  simp only [Spec.Precedes]
  constructor
  · rw [abs_le]
    have : |(-σ) - τ| = σ + τ := by rw [abs_of_nonpos (by linarith)]; ring
    rw [this]
    constructor <;> linarith
  · linarith

/-- `closest_abs` with the normal equations: the orders agree for singular values on the same side of
the shift. -/
theorem C10_closest_abs_partial (τ σ σ' : K) (h0 : 0 ≤ σ) (h1 : 0 ≤ σ') (hτ : 0 ≤ τ)
    (hside : (τ ≤ σ ∧ τ ≤ σ') ∨ (σ ≤ τ ∧ σ' ≤ τ)) :
    Doc.Before 2 τ σ σ' ↔ Spec.Precedes .closest_abs (τ ^ 2) (σ ^ 2) (σ' ^ 2) := by
  simp only [Doc.Before, Spec.Precedes]
  norm_num
  rcases hside with ⟨ha, hb⟩ | ⟨ha, hb⟩
  · rw [abs_of_nonneg (by linarith : 0 ≤ σ - τ), abs_of_nonneg (by linarith : 0 ≤ σ' - τ),
      abs_of_nonneg (by nlinarith : 0 ≤ σ ^ 2 - τ ^ 2),
      abs_of_nonneg (by nlinarith : 0 ≤ σ' ^ 2 - τ ^ 2), sub_le_sub_iff_right, sub_le_sub_iff_right,
      C10_sq_le h0 h1]
  · rw [abs_of_nonpos (by linarith : σ - τ ≤ 0), abs_of_nonpos (by linarith : σ' - τ ≤ 0),
      abs_of_nonpos (by nlinarith : σ ^ 2 - τ ^ 2 ≤ 0),
      abs_of_nonpos (by nlinarith : σ' ^ 2 - τ ^ 2 ≤ 0), neg_le_neg_iff, neg_le_neg_iff,
      sub_le_sub_iff_right, sub_le_sub_iff_right, C10_sq_le h1 h0]

/-- Refutation: across the shift they do not.  Around 1, the singular value 9/5 is closer than 0, but
`A'A` is asked for the eigenvalue closest to 1, which is 0 and not 81/25. -/
theorem C10_closest_abs_violated :
    ∃ τ σ σ' : ℚ, 0 ≤ τ ∧ 0 ≤ σ ∧ 0 ≤ σ' ∧ ¬ Doc.Before 2 τ σ σ' ∧
      Spec.Precedes .closest_abs (C10_shift 1 2 τ) (C10_eigenvalue 1 σ) (C10_eigenvalue 1 σ') ∧
      ¬ Spec.Precedes .closest_abs (C10_shift 1 2 τ) (C10_eigenvalue 1 σ') (C10_eigenvalue 1 σ) := by
  refine ⟨1, 0, 9 / 5, by norm_num, by norm_num, by norm_num, ?_, ?_, ?_⟩
  · unfold Doc.Before; norm_num
  · simp only [Spec.Precedes, C10_shift, C10_eigenvalue]; norm_num
  · simp only [Spec.Precedes, C10_shift, C10_eigenvalue]; norm_num

/-- Non-vacuity: the default method on a 100×50 and on a 50×100 problem. -/
example : ∃ t, callSvdsMethod (K := ℚ) ⟨7, 8, 1⟩ 5 0 0 0
      { initSvds 0 1 id with sv := ((initSvds 0 1 id).sv.setI .m 100).setI .n 50 } = some t ∧
    t.sv.i .method = 1 ∧ t.sv.i .methodStage2 = 3 ∧ t.st1.i .n = 50 ∧ t.st2.i .n = 150 :=
  ⟨_, rfl, by decide +kernel, by decide +kernel, by decide +kernel, by decide +kernel⟩
example : ∃ t, callSvdsMethod (K := ℚ) ⟨7, 8, 1⟩ 5 2 0 0
      { initSvds 0 1 id with sv := ((initSvds 0 1 id).sv.setI .m 50).setI .n 100 } = some t ∧
    t.sv.i .method = 2 ∧ t.sv.i .methodStage2 = 0 ∧ t.st1.i .n = 50 ∧ t.st1.i .target = 1 :=
  ⟨_, rfl, by decide +kernel, by decide +kernel, by decide +kernel, by decide +kernel⟩
example : ∃ t, svdsPrelude (K := ℚ) ⟨7, 8, 1⟩ 4 ⟨false, false, false⟩
      { initSvds 0 1 id with
        sv := { ((initSvds 0 1 id).sv.setI .m 50).setI .n 100 with p := fun _ => 1 } } = some t ∧
    svdsCheckInput ⟨false, false, false⟩ t.sv = 0 ∧ t.st1.i .n = 50 ∧ t.st1.i .nLocal = 50 :=
  ⟨_, rfl, by decide +kernel, by decide +kernel, by decide +kernel⟩

end Verif.Props
