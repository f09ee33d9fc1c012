import Verif.Proofs.InnerTest
import Verif.Props.C25_InnerSolve
import Mathlib.Analysis.InnerProductSpace.PiL2
import Mathlib.Analysis.Complex.Basic

/-!
# C55: what the inner solver tells the monitor

`innerOps` are the operators of a call in exact arithmetic, `callFor` what it is given for a pair; `Spec.Pair` says what the numbers should be.
After iteration `t` of the loop the state `s` has `s.b` active columns, the ones the monitor has just been told about with `report`.
-/

set_option linter.unusedSectionVars false
set_option linter.unusedVariables false

namespace Verif.Props
open Verif Verif.Inner Verif.Spec Verif.Spec.Qmr Verif.Spec.Pair

variable {V : Type} [NormedAddCommGroup V] [InnerProductSpace ℝ V]

local notation "⟪" x ", " y "⟫" => inner ℝ x y

/-- The problem: a symmetric matrix, `n` converged eigenvectors, and for each of the `B` columns a unit vector orthogonal to them with its Rayleigh
quotient. -/
structure C55_Problem (A : V →ₗ[ℝ] V) (Q : ℕ → V) (mu : ℕ → ℝ) (n B : ℕ) (x : ℕ → V) (lam : ℕ → ℝ) : Prop where
  symm : ∀ u v, ⟪A u, v⟫ = ⟪u, A v⟫
  orth : ∀ i < n, ∀ j < n, ⟪Q i, Q j⟫ = if i = j then 1 else 0
  eigen : ∀ j < n, A (Q j) = mu j • Q j
  unit : ∀ i < B, ‖x i‖ = 1
  away : ∀ i < B, ∀ j < n, ⟪Q j, x i⟫ = 0
  ritz : ∀ i < B, ⟪x i, A (x i)⟫ = lam i

theorem C55_Problem.frame {A : V →ₗ[ℝ] V} {Q : ℕ → V} {mu : ℕ → ℝ} {n B : ℕ} {x : ℕ → V} {lam : ℕ → ℝ}
    (h : C55_Problem A Q mu n B x lam) {i : ℕ} (hi : i < B) : Frame (x i) Q n := ⟨h.unit i hi, h.away i hi, h.orth⟩

/-- Common part of the theorems below. -/
theorem C55_aux {A K N : V →ₗ[ℝ] V} {Q : ℕ → V} {mu : ℕ → ℝ} {n B : ℕ} {x : ℕ → V} {lam : ℕ → ℝ} (h : C55_Problem A Q mu n B x lam)
    {R : RightQ V} {eps : ℝ} (he : 0 < eps) {G : Goal} {c : Cfg} (hc : c.leftX = true) {shift xk : ℕ → ℝ} {rx : ℕ → V} {junk : ℝ}
    {maxIts t : ℕ} (ht : t < maxIts)
    {s : St ℝ V Est}
    (ho : C25_Order (innerOps A K Q n R eps G) c junk maxIts B fun i => callFor A (x i) (lam i) (shift i) (xk i) (rx i))
    (hs : runAt (innerOps A K Q n R eps G) c maxIts
      (init (innerOps A K Q n R eps G) c junk B fun i => callFor A (x i) (lam i) (shift i) (xk i) (rx i)) (t + 1) = some s)
    {i : ℕ} (hi : i < s.b)
    (hN : ∀ v, projectedPrec K Q R.Qhat R.n R.msolve (xk i) (right c (x i) (rx i)) v = N v)
    (keep : ∀ v, part (x i) Q n v = v → part (x i) Q n (N v) = N v)
    (symN : ∀ u v, part (x i) Q n u = u → part (x i) Q n v = v → ⟪N u, v⟫ = ⟪u, N v⟫) :
    i < B ∧ ∃ S : Column ℝ V Est, S.done = false ∧ s.p i = i ∧ s.vec i = S.vec ∧ s.loc i = S.loc ∧
      Good A (partL (x i) Q n) N G (callFor A (x i) (lam i) (shift i) (xk i) (rx i)) t S ∧
      Proj A (partL (x i) Q n) N ∧ Approx A (partL (x i) Q n) (x i) (lam i) (A (x i) - lam i • x i) := by
  obtain ⟨s', hs', sh⟩ := run_shows B (innerOps A K Q n R eps G) c junk maxIts
    (fun i => callFor A (x i) (lam i) (shift i) (xk i) (rx i)) (fun t i i' h1 h2 => (ho t i i' h1 h2).1)
    (fun t i i' h1 h2 => (ho t i i' h1 h2).2) (t + 1)
  rw [hs] at hs'
  obtain rfl := Option.some.inj hs'
  obtain ⟨a1, a2, a3, _⟩ := sh.act i hi
  have hB : i < B := lt_of_lt_of_le hi sh.le
  have fr := h.frame hB
  have ap := fr.approx (A := A) h.symm h.eigen (h.ritz i hB)
  have pj : Proj A (partL (x i) Q n) N := fr.proj h.symm keep symN
  obtain ⟨b1, b2⟩ := active_back _ _ _ _ _ _ a1
  have f : Fits (innerOps A K Q n R eps G) c (callFor A (x i) (lam i) (shift i) (xk i) (rx i)) A (partL (x i) Q n) N G :=
    fits (a := callFor A (x i) (lam i) (shift i) (xk i) (rx i)) fr he hc hN
  refine ⟨hB, _, a1, sh.same i hi, a2, a3, ?_, pj, ap⟩
  exact good_after pj f ⟨ap.pr, rfl, _, rfl⟩ junk maxIts t ht b1 b2

/-- The correction of an active column is orthogonal to `x` and the converged vectors, and the residual of its equation. -/
theorem C55_aux_sol {A N : V →ₗ[ℝ] V} {Q : ℕ → V} {n : ℕ} {x : V} {lam shift xk : ℝ} {rx : V} {G : Goal} {t : ℕ} {S : Column ℝ V Est}
    (fr : Frame x Q n) (g : Good A (partL x Q n) N G (callFor A x lam shift xk rx) t S) :
    ⟪x, S.vec.sol⟫ = 0 ∧ (∀ j < n, ⟪Q j, S.vec.sol⟫ = 0) ∧
      linres A shift x Q n (A x - lam • x) S.vec.sol =
        ‖(callFor A x lam shift xk rx).r - opW A (partL x Q n) (callFor A x lam shift xk rx).shift S.vec.sol‖ :=
  ⟨((fr.fixed _).1 g.inP).1, ((fr.fixed _).1 g.inP).2, rfl⟩

/-- The preconditioner when there is none. -/
theorem C55_aux_id {Q Qhat : ℕ → V} {n : ℕ} {x rx : V} (fr : Frame x Q n) (msolve : (ℕ → ℝ) → ℕ → ℝ) (c : Cfg) (hr : c.right ≠ .kinv) :
    ∃ N : V →ₗ[ℝ] V, (∀ v, projectedPrec (LinearMap.id : V →ₗ[ℝ] V) Q Qhat 0 msolve 1 (right c x rx) v = N v) ∧
      ∀ v, part x Q n v = v → N v = v := by
  have h0 : ∀ v, skewProject Q Qhat 0 msolve v = v := fun v => by unfold skewProject; simp
  cases e : c.right with
  | kinv => exact absurd e hr
  | none =>
    refine ⟨LinearMap.id, fun v => ?_, fun v _ => rfl⟩
    unfold projectedPrec right
    simp only [e]
    exact h0 v
  | same =>
    refine ⟨partL x Q 0, fun v => ?_, fun v hv => ?_⟩
    · unfold projectedPrec right
      simp only [e]
      rw [h0, skew_one, partL_apply]
      unfold part
      simp
    · rw [partL_apply]
      exact part_eq_self ((fr.fixed v).1 hv).1 (fun j hj => absurd hj (by omega))

/-! The theorems named `_partial` are about the problem without mass matrix, about blocks whose columns stop from the last to
the first (`C25_Order`; single columns in particular) and, with a preconditioner, about the right projectors they name.
Missing: other orders of stopping, the mass matrix and the other right projectors (of which `C55_precond_violated` and
`C55_skew_violated` show that the claim is false of them). -/

/-- Without preconditioner: with an adaptive test, the monitor is told the Rayleigh quotient of the corrected vector `x - sol`, the residual norm of that
pair, and the residual norm of the correction equation.  The correction is orthogonal to `x` and to the converged vectors.  Covers the default
projectors of `JDQMR` and `JDQMR_ETol` with and without locking. -/
theorem C55_reports_partial (A : V →ₗ[ℝ] V) (Q : ℕ → V) (mu : ℕ → ℝ) (n B : ℕ) (x : ℕ → V) (lam : ℕ → ℝ) (h : C55_Problem A Q mu n B x lam)
    (Qhat : ℕ → V) (msolve : (ℕ → ℝ) → ℕ → ℝ) (eps : ℝ) (he : 0 < eps) (G : Goal) (hG : G.adaptive = true) (c : Cfg)
    (hc : c.leftX = true) (hr : c.right ≠ .kinv) (shift : ℕ → ℝ) (rx : ℕ → V) (junk : ℝ) (maxIts t : ℕ) (ht : t < maxIts) (s : St ℝ V Est)
    (ho : C25_Order (innerOps A id Q n ⟨0, Qhat, msolve⟩ eps G) c junk maxIts B fun i => callFor A (x i) (lam i) (shift i) 1 (rx i))
    (hs : runAt (innerOps A id Q n ⟨0, Qhat, msolve⟩ eps G) c maxIts
      (init (innerOps A id Q n ⟨0, Qhat, msolve⟩ eps G) c junk B fun i => callFor A (x i) (lam i) (shift i) 1 (rx i)) (t + 1) = some s)
    (i : ℕ) (hi : i < s.b) (rnorm : ℝ) :
    report G rnorm (s.loc (s.p i)) = (value A (x i - (s.vec i).sol), resid A (x i - (s.vec i).sol),
      linres A (shift i) (x i) Q n (A (x i) - lam i • x i) (s.vec i).sol) ∧
    ⟪x i, (s.vec i).sol⟫ = 0 ∧ ∀ j < n, ⟪Q j, (s.vec i).sol⟫ = 0 := by
  have hB : i < B := by
    obtain ⟨s', hs', sh⟩ := run_shows B _ c junk maxIts _ (fun t i i' h1 h2 => (ho t i i' h1 h2).1)
      (fun t i i' h1 h2 => (ho t i i' h1 h2).2) (t + 1)
    rw [hs] at hs'
    obtain rfl := Option.some.inj hs'
    exact lt_of_lt_of_le hi sh.le
  have fr := h.frame hB
  obtain ⟨N, hN, hid⟩ := C55_aux_id (Qhat := Qhat) (rx := rx i) fr msolve c hr
  obtain ⟨_, S, hd, hp, hv, hl, g, pj, ap⟩ := C55_aux (K := LinearMap.id) (xk := fun _ => 1) h he hc ht ho hs hi hN
    (fun v hv => by rw [hid v hv, hv]) (fun u v hu hv => by rw [hid u hu, hid v hv])
  obtain ⟨o1, o2, o3⟩ := C55_aux_sol fr g
  obtain ⟨e1, _, e3⟩ := estimates pj ap rfl (fun v hv => fr.inv h.symm h.eigen v hv) g hG hd
  refine ⟨?_, by rw [hv]; exact o1, by rw [hv]; exact o2⟩
  unfold report
  rw [if_pos hG, hp, hl, hv, e1, e3 hid, o3, g.exact' hid]

/-- With a test that is not adaptive the monitor is told the value and the norm the call started with, and the residual norm of the correction
equation. -/
theorem C55_reports_fixed_partial (A : V →ₗ[ℝ] V) (Q : ℕ → V) (mu : ℕ → ℝ) (n B : ℕ) (x : ℕ → V) (lam : ℕ → ℝ) (h : C55_Problem A Q mu n B x lam)
    (Qhat : ℕ → V) (msolve : (ℕ → ℝ) → ℕ → ℝ) (eps : ℝ) (he : 0 < eps) (G : Goal) (hG : G.adaptive = false) (c : Cfg)
    (hc : c.leftX = true) (hr : c.right ≠ .kinv) (shift : ℕ → ℝ) (rx : ℕ → V) (junk : ℝ) (maxIts t : ℕ) (ht : t < maxIts) (s : St ℝ V Est)
    (ho : C25_Order (innerOps A id Q n ⟨0, Qhat, msolve⟩ eps G) c junk maxIts B fun i => callFor A (x i) (lam i) (shift i) 1 (rx i))
    (hs : runAt (innerOps A id Q n ⟨0, Qhat, msolve⟩ eps G) c maxIts
      (init (innerOps A id Q n ⟨0, Qhat, msolve⟩ eps G) c junk B fun i => callFor A (x i) (lam i) (shift i) 1 (rx i)) (t + 1) = some s)
    (i : ℕ) (hi : i < s.b) :
    report G ‖A (x i) - lam i • x i‖ (s.loc (s.p i)) = (lam i, ‖A (x i) - lam i • x i‖,
      linres A (shift i) (x i) Q n (A (x i) - lam i • x i) (s.vec i).sol) := by
  have hB : i < B := by
    obtain ⟨s', hs', sh⟩ := run_shows B _ c junk maxIts _ (fun t i i' h1 h2 => (ho t i i' h1 h2).1)
      (fun t i i' h1 h2 => (ho t i i' h1 h2).2) (t + 1)
    rw [hs] at hs'
    obtain rfl := Option.some.inj hs'
    exact lt_of_lt_of_le hi sh.le
  have fr := h.frame hB
  obtain ⟨N, hN, hid⟩ := C55_aux_id (Qhat := Qhat) (rx := rx i) fr msolve c hr
  obtain ⟨_, S, hd, hp, hv, hl, g, pj, ap⟩ := C55_aux (K := LinearMap.id) (xk := fun _ => 1) h he hc ht ho hs hi hN
    (fun v hv => by rw [hid v hv, hv]) (fun u v hu hv => by rw [hid u hu, hid v hv])
  obtain ⟨o1, o2, o3⟩ := C55_aux_sol fr g
  unfold report
  rw [if_neg (by rw [hG]; exact Bool.false_ne_true), hp, hl, hv, o3, g.exact' hid, g.ev]
  rfl

/-- With a symmetric preconditioner and the matching right projectors (no right projector with a skewed `x` elsewhere): the value told is still the Rayleigh
quotient of the corrected vector; the residual norm of the equation is at most `√(t + 2)` times the number told, and the squared residual norm of
the pair exceeds the square of the number told by at most `t + 1` times the square of the one for the equation, over the squared norm of `x - sol`.

Two configurations: `SkewX` without converged vectors on the left or on the right, and orthogonal projectors on the right that are those on the
left. -/
theorem C55_reports_precond_partial (A K : V →ₗ[ℝ] V) (hK : ∀ u v, ⟪K u, v⟫ = ⟪u, K v⟫) (Q : ℕ → V) (mu : ℕ → ℝ) (n B : ℕ) (x : ℕ → V)
    (lam : ℕ → ℝ) (h : C55_Problem A Q mu n B x lam) (R : RightQ V) (eps : ℝ) (he : 0 < eps) (G : Goal) (hG : G.adaptive = true) (c : Cfg)
    (hc : c.leftX = true) (shift xk : ℕ → ℝ) (rx : ℕ → V)
    (hR : (n = 0 ∧ R.n = 0 ∧ c.right = .kinv ∧ ∀ i < B, rx i = K (x i) ∧ xk i = ⟪x i, K (x i)⟫ ∧ xk i ≠ 0) ∨
      (R = ⟨n, Q, id⟩ ∧ c.right = .same ∧ ∀ i < B, xk i = 1))
    (junk : ℝ) (maxIts t : ℕ) (ht : t < maxIts) (s : St ℝ V Est)
    (ho : C25_Order (innerOps A K Q n R eps G) c junk maxIts B fun i => callFor A (x i) (lam i) (shift i) (xk i) (rx i))
    (hs : runAt (innerOps A K Q n R eps G) c maxIts
      (init (innerOps A K Q n R eps G) c junk B fun i => callFor A (x i) (lam i) (shift i) (xk i) (rx i)) (t + 1) = some s)
    (i : ℕ) (hi : i < s.b) (rnorm : ℝ) :
    ∃ v e l, report G rnorm (s.loc (s.p i)) = (v, e, l) ∧ v = value A (x i - (s.vec i).sol) ∧
      linres A (shift i) (x i) Q n (A (x i) - lam i • x i) (s.vec i).sol ≤ √(t + 2) * l ∧
      resid A (x i - (s.vec i).sol) ^ 2 ≤ e ^ 2 + (t + 1) * l ^ 2 / ‖x i - (s.vec i).sol‖ ^ 2 ∧
      ⟪x i, (s.vec i).sol⟫ = 0 ∧ ∀ j < n, ⟪Q j, (s.vec i).sol⟫ = 0 := by
  have hB : i < B := by
    obtain ⟨s', hs', sh⟩ := run_shows B _ c junk maxIts _ (fun t i i' h1 h2 => (ho t i i' h1 h2).1)
      (fun t i i' h1 h2 => (ho t i i' h1 h2).2) (t + 1)
    rw [hs] at hs'
    obtain rfl := Option.some.inj hs'
    exact lt_of_lt_of_le hi sh.le
  have fr := h.frame hB
  obtain ⟨N, hN, keep, symN⟩ : ∃ N : V →ₗ[ℝ] V, (∀ v, projectedPrec K Q R.Qhat R.n R.msolve (xk i) (right c (x i) (rx i)) v = N v) ∧
      (∀ v, part (x i) Q n v = v → part (x i) Q n (N v) = N v) ∧
      (∀ u v, part (x i) Q n u = u → part (x i) Q n v = v → ⟪N u, v⟫ = ⟪u, N v⟫) := by
    rcases hR with ⟨rfl, hn, hk, hx⟩ | ⟨rfl, hk, hx⟩
    · obtain ⟨r1, r2, r3⟩ := hx i hB
      refine ⟨{ toFun := fun v => K v - (⟪x i, K v⟫ / xk i) • K (x i)
                map_add' := fun u v => by rw [map_add, inner_add_right, add_div]; module
                map_smul' := fun k v => by rw [map_smul, inner_smul_right, mul_div_assoc, RingHom.id_apply]; module }, fun v => ?_, fun v _ => ?_, ?_⟩
      · unfold projectedPrec right
        simp only [hk, hn]
        rw [skew_one, r1]
        unfold skewProject
        simp
      · refine part_eq_self ?_ (fun j hj => absurd hj (by omega))
        show ⟪x i, K v - (⟪x i, K v⟫ / xk i) • K (x i)⟫ = 0
        rw [inner_sub_right, inner_smul_right, ← r2]
        field_simp
        ring
      · intro u v _ _
        show ⟪K u - (⟪x i, K u⟫ / xk i) • K (x i), v⟫ = ⟪u, K v - (⟪x i, K v⟫ / xk i) • K (x i)⟫
        rw [inner_sub_left, inner_sub_right, inner_smul_left, inner_smul_right, hK u v, ← hK (x i) u, ← hK (x i) v,
          real_inner_comm (K (x i)) u]
        simp only [conj_trivial]
        ring
    · refine ⟨partL (x i) Q n ∘ₗ K, fun v => ?_, fun v _ => fr.idem _, fun u v hu hv => ?_⟩
      · unfold projectedPrec right
        simp only [hk, hx i hB]
        rw [skew_one, div_one, LinearMap.comp_apply, partL_apply, ← fr.two, skew_self (fun _ => x i), Finset.sum_range_one]
      · rw [LinearMap.comp_apply, LinearMap.comp_apply, partL_apply, partL_apply, part_symm, hv, hK, ← part_symm, hu]
  obtain ⟨_, S, hd, hp, hv, hl, g, pj, ap⟩ := C55_aux h he hc ht ho hs hi hN keep symN
  obtain ⟨o1, o2, o3⟩ := C55_aux_sol fr g
  obtain ⟨e1, e2, _⟩ := estimates pj ap rfl (fun v hv => fr.inv h.symm h.eigen v hv) g hG hd
  refine ⟨_, _, _, by unfold report; rw [if_pos hG, hp, hl], e1.trans (by rw [hv]), ?_, ?_, by rw [hv]; exact o1, by rw [hv]; exact o2⟩
  · rw [hv, o3]; exact g.bound
  · have := (ap.facts pj g.inP).2.2.2.1
    rw [hv, ← real_inner_self_eq_norm_sq (x i - S.vec.sol), this, real_inner_self_eq_norm_sq]
    exact e2

/-- Why a single equation ends, without adaptive test: in the iteration in which it stops it has broken down, or the residual norm of the equation is below
`√(t + 2) * LTolerance`, or the number given to the convergence test, times `√((t + 2) / t)` and the factor, bounds the residual norm. -/
theorem C55_stops_partial (A : V →ₗ[ℝ] V) (Q : ℕ → V) (mu : ℕ → ℝ) (n : ℕ) (x : V) (lam : ℝ) (h : C55_Problem A Q mu n 1 (fun _ => x) (fun _ => lam))
    (K : V →ₗ[ℝ] V) (hK : ∀ u v, ⟪K u, v⟫ = ⟪u, K v⟫) (eps : ℝ) (he : 0 < eps) (G : Goal) (hG : G.adaptive = false) (hF : 0 < G.lFac) (c : Cfg)
    (hc : c.leftX = true) (hr : c.right = .same) (shift : ℝ) (rx : V) (junk : ℝ) (maxIts t : ℕ) (ht : t < maxIts)
    (h0 : (before (innerOps A K Q n ⟨n, Q, id⟩ eps G) c junk maxIts (callFor A x lam shift 1 rx) t).done = false)
    (h1 : (before (innerOps A K Q n ⟨n, Q, id⟩ eps G) c junk maxIts (callFor A x lam shift 1 rx) (t + 1)).done = true) :
    (amid (innerOps A K Q n ⟨n, Q, id⟩ eps G) c junk maxIts (callFor A x lam shift 1 rx) t).done = true ∨
    linres A shift x Q n (A x - lam • x)
      (before (innerOps A K Q n ⟨n, Q, id⟩ eps G) c junk maxIts (callFor A x lam shift 1 rx) (t + 1)).vec.sol < √(t + 2) * G.lTol ∨
    ∃ tol, G.conv lam tol = true ∧ 0 < t ∧ linres A shift x Q n (A x - lam • x)
      (before (innerOps A K Q n ⟨n, Q, id⟩ eps G) c junk maxIts (callFor A x lam shift 1 rx) (t + 1)).vec.sol * √t ≤ √(t + 2) * (G.lFac * tol) := by
  have fr := h.frame (i := 0) (by omega)
  cases e : (amid (innerOps A K Q n ⟨n, Q, id⟩ eps G) c junk maxIts (callFor A x lam shift 1 rx) t).done with
  | true => exact .inl rfl
  | false =>
    right
    have pj : Proj A (partL x Q n) (partL x Q n ∘ₗ K) := fr.proj h.symm (fun v _ => fr.idem _) (fun u v hu hv => by
      rw [LinearMap.comp_apply, LinearMap.comp_apply, partL_apply, partL_apply, part_symm, hv, hK, ← part_symm, hu])
    have ap := fr.approx (A := A) h.symm h.eigen (h.ritz 0 (by omega))
    have f : Fits (innerOps A K Q n ⟨n, Q, id⟩ eps G) c (callFor A x lam shift 1 rx) A (partL x Q n) (partL x Q n ∘ₗ K) G := by
      refine fits (a := callFor A x lam shift 1 rx) fr he hc (fun v => ?_)
      unfold projectedPrec right
      simp only [hr, callFor]
      rw [skew_one, div_one, LinearMap.comp_apply, partL_apply, ← fr.two, skew_self (fun _ => x), Finset.sum_range_one]
    have g := good_after pj f ⟨ap.pr, rfl, _, rfl⟩ junk maxIts t ht h0 e
    obtain ⟨_, _, o3⟩ := C55_aux_sol fr g
    rw [o3]
    have hp : 0 < √((t : ℝ) + 2) := Real.sqrt_pos.2 (by positivity)
    rcases g.stop hG h1 with b | ⟨b1, b2⟩
    · exact .inl (lt_of_le_of_lt g.bound (mul_lt_mul_of_pos_left b hp))
    · refine .inr ⟨_, b2, b1, ?_⟩
      calc _ ≤ (√((t : ℝ) + 2) * _) * √t := mul_le_mul_of_nonneg_right g.bound (Real.sqrt_nonneg _)
        _ = _ := by field_simp

/-- What an adaptive test that does not stop leaves. -/
theorem C55_aux_continues {G : Goal} (hG : G.adaptive = true) {t : ℕ} {shift dotSol sigma rhoPrev tauPrev tau gamma eta : ℝ} {m : Est}
    (h : (stopping G t shift dotSol sigma rhoPrev tauPrev tau gamma eta m).1 = false) :
    (stopping G t shift dotSol sigma rhoPrev tauPrev tau gamma eta m).2.evalPrev =
      (stopping G t shift dotSol sigma rhoPrev tauPrev tau gamma eta m).2.evalUpd ∧
    (G.target = 0 → (stopping G t shift dotSol sigma rhoPrev tauPrev tau gamma eta m).2.evalUpd ≤ m.evalPrev) ∧
    (G.target = 1 → m.evalPrev ≤ (stopping G t shift dotSol sigma rhoPrev tauPrev tau gamma eta m).2.evalUpd) := by
  unfold stopping at h ⊢
  rw [if_pos hG] at h ⊢
  dsimp only at h ⊢
  split_ifs at h ⊢ with q1 q2 q3 q4 q5 q6 q7 q8
  refine ⟨rfl, fun hT => ?_, fun hT => ?_⟩
  · exact not_lt.1 fun hlt => q4 ⟨hT, hlt⟩
  · exact not_lt.1 fun hlt => q5 ⟨hT, hlt⟩

/-- The inner solver does not make an extreme pair worse: as long as a single equation goes on with an adaptive test, the Rayleigh quotient of the
corrected vector falls from one iteration to the next when the smallest eigenvalues are sought, and grows when the largest are; in particular it
never leaves the value the call started with. -/
theorem C55_improves_partial (A : V →ₗ[ℝ] V) (Q : ℕ → V) (mu : ℕ → ℝ) (n : ℕ) (x : V) (lam : ℝ) (h : C55_Problem A Q mu n 1 (fun _ => x) (fun _ => lam))
    (K : V →ₗ[ℝ] V) (hK : ∀ u v, ⟪K u, v⟫ = ⟪u, K v⟫) (eps : ℝ) (he : 0 < eps) (G : Goal) (hG : G.adaptive = true) (c : Cfg)
    (hc : c.leftX = true) (hr : c.right = .same) (shift : ℝ) (rx : V) (junk : ℝ) (maxIts t : ℕ) (ht : t < maxIts)
    (h1 : (before (innerOps A K Q n ⟨n, Q, id⟩ eps G) c junk maxIts (callFor A x lam shift 1 rx) (t + 1)).done = false) :
    (before (innerOps A K Q n ⟨n, Q, id⟩ eps G) c junk maxIts (callFor A x lam shift 1 rx) 0).vec.sol = 0 ∧ value A x = lam ∧
    (G.target = 0 →
      value A (x - (before (innerOps A K Q n ⟨n, Q, id⟩ eps G) c junk maxIts (callFor A x lam shift 1 rx) (t + 1)).vec.sol) ≤
      value A (x - (before (innerOps A K Q n ⟨n, Q, id⟩ eps G) c junk maxIts (callFor A x lam shift 1 rx) t).vec.sol)) ∧
    (G.target = 1 →
      value A (x - (before (innerOps A K Q n ⟨n, Q, id⟩ eps G) c junk maxIts (callFor A x lam shift 1 rx) t).vec.sol) ≤
      value A (x - (before (innerOps A K Q n ⟨n, Q, id⟩ eps G) c junk maxIts (callFor A x lam shift 1 rx) (t + 1)).vec.sol)) := by
  have fr := h.frame (i := 0) (by omega)
  have pj : Proj A (partL x Q n) (partL x Q n ∘ₗ K) := fr.proj h.symm (fun v _ => fr.idem _) (fun u v hu hv => by
    rw [LinearMap.comp_apply, LinearMap.comp_apply, partL_apply, partL_apply, part_symm, hv, hK, ← part_symm, hu])
  have ap := fr.approx (A := A) h.symm h.eigen (h.ritz 0 (by omega))
  have f : Fits (innerOps A K Q n ⟨n, Q, id⟩ eps G) c (callFor A x lam shift 1 rx) A (partL x Q n) (partL x Q n ∘ₗ K) G := by
    refine fits (a := callFor A x lam shift 1 rx) fr he hc (fun v => ?_)
    unfold projectedPrec right
    simp only [hr, callFor]
    rw [skew_one, div_one, LinearMap.comp_apply, partL_apply, ← fr.two, skew_self (fun _ => x), Finset.sum_range_one]
  have hx : value A x = lam := by
    have h2 := h.unit 0 (by omega)
    have h3 := h.ritz 0 (by omega)
    unfold value
    rw [h3, real_inner_self_eq_norm_sq, h2]
    simp
  generalize hS : before (innerOps A K Q n ⟨n, Q, id⟩ eps G) c junk maxIts (callFor A x lam shift 1 rx) = S at h1 ⊢
  have sto : (innerOps A K Q n ⟨n, Q, id⟩ eps G).second = stopping G := rfl
  -- an equation that goes on after an iteration went on before it
  have back : ∀ u, (S (u + 1)).done = false → (S u).done = false ∧
      (amid (innerOps A K Q n ⟨n, Q, id⟩ eps G) c junk maxIts (callFor A x lam shift 1 rx) u).done = false ∧
      (S (u + 1)).loc.mem.evalPrev = (S (u + 1)).loc.mem.evalUpd ∧
      (G.target = 0 → (S (u + 1)).loc.mem.evalUpd ≤ (S u).loc.mem.evalPrev) ∧
      (G.target = 1 → (S u).loc.mem.evalPrev ≤ (S (u + 1)).loc.mem.evalUpd) := by
    intro u hu
    subst hS
    have e1 : (second (innerOps A K Q n ⟨n, Q, id⟩ eps G) u (amid (innerOps A K Q n ⟨n, Q, id⟩ eps G) c junk maxIts
        (callFor A x lam shift 1 rx) u)).done = false ∧
        (before (innerOps A K Q n ⟨n, Q, id⟩ eps G) c junk maxIts (callFor A x lam shift 1 rx) (u + 1)).loc.mem =
        (second (innerOps A K Q n ⟨n, Q, id⟩ eps G) u (amid (innerOps A K Q n ⟨n, Q, id⟩ eps G) c junk maxIts
        (callFor A x lam shift 1 rx) u)).loc.mem := by
      unfold amid
      simp only [before] at hu ⊢
      split_ifs at hu ⊢ with q
      · obtain ⟨k1, k2, k3, k4⟩ := third_keep (innerOps A K Q n ⟨n, Q, id⟩ eps G) c (callFor A x lam shift 1 rx)
          (second (innerOps A K Q n ⟨n, Q, id⟩ eps G) u (first (innerOps A K Q n ⟨n, Q, id⟩ eps G) c u (callFor A x lam shift 1 rx)
            (before (innerOps A K Q n ⟨n, Q, id⟩ eps G) c junk maxIts (callFor A x lam shift 1 rx) u)))
        exact ⟨by rw [← k4]; exact hu, k3⟩
      · exact ⟨hu, rfl⟩
    obtain ⟨e1, e2⟩ := e1
    have e3 : (amid (innerOps A K Q n ⟨n, Q, id⟩ eps G) c junk maxIts (callFor A x lam shift 1 rx) u).done = false := by
      cases e : (amid (innerOps A K Q n ⟨n, Q, id⟩ eps G) c junk maxIts (callFor A x lam shift 1 rx) u).done with
      | false => rfl
      | true =>
        unfold second at e1
        rw [if_pos e, e] at e1
        exact e1
    have e4 : (before (innerOps A K Q n ⟨n, Q, id⟩ eps G) c junk maxIts (callFor A x lam shift 1 rx) u).done = false ∧
        (amid (innerOps A K Q n ⟨n, Q, id⟩ eps G) c junk maxIts (callFor A x lam shift 1 rx) u).loc.mem =
        (before (innerOps A K Q n ⟨n, Q, id⟩ eps G) c junk maxIts (callFor A x lam shift 1 rx) u).loc.mem := by
      unfold amid first at e3 ⊢
      dsimp only at e3 ⊢
      split_ifs at e3 ⊢ with q1 q2
      · rw [q1] at e3; exact absurd e3 (by simp)
      · exact ⟨by simpa using q1, rfl⟩
    refine ⟨e4.1, e3, ?_⟩
    rw [e2, ← e4.2]
    unfold second at e1 ⊢
    rw [if_neg (by rw [e3]; exact Bool.false_ne_true)] at e1 ⊢
    dsimp only at e1 ⊢
    exact C55_aux_continues hG e1
  have shown : ∀ u ≤ maxIts, (S u).done = false → (S u).loc.mem.evalPrev = value A (x - (S u).vec.sol) ∧
      (S u).loc.mem.evalUpd = value A (x - (S u).vec.sol) := by
    intro u hu hd
    cases u with
    | zero =>
      subst hS
      have : x - (before (innerOps A K Q n ⟨n, Q, id⟩ eps G) c junk maxIts (callFor A x lam shift 1 rx) 0).vec.sol = x := by
        simp [before, Qmr.start]
      rw [this, hx]
      exact ⟨rfl, rfl⟩
    | succ u =>
      obtain ⟨b1, b2, b3, -⟩ := back u hd
      have hval : (S (u + 1)).loc.mem.evalUpd = value A (x - (S (u + 1)).vec.sol) := by
        subst hS
        have g := good_after pj f ⟨ap.pr, rfl, _, rfl⟩ junk maxIts u (by omega) b1 b2
        exact (estimates pj ap rfl (fun v hv => fr.inv h.symm h.eigen v hv) g hG hd).1
      exact ⟨by rw [b3, hval], hval⟩
  obtain ⟨b1, -, -, b4, b5⟩ := back t h1
  obtain ⟨s1, -⟩ := shown t (by omega) b1
  obtain ⟨-, s2⟩ := shown (t + 1) (by omega) h1
  refine ⟨by subst hS; rfl, hx, fun hT => ?_, fun hT => ?_⟩
  · rw [← s1, ← s2]; exact b4 hT
  · rw [← s1, ← s2]; exact b5 hT

/-! ### Examples -/

/-- The symmetric matrix `[a b; b c]` on the plane. -/
def C55_sym (a b c : ℝ) : ℂ →ₗ[ℝ] ℂ where
  toFun v := ⟨a * v.re + b * v.im, b * v.re + c * v.im⟩
  map_add' u v := by apply Complex.ext <;> simp <;> ring
  map_smul' k v := by apply Complex.ext <;> simp <;> ring

theorem C55_sym_symm (a b c : ℝ) (u v : ℂ) : ⟪C55_sym a b c u, v⟫ = ⟪u, C55_sym a b c v⟫ := by
  simp [C55_sym, Complex.inner]; ring

/-- Tests that never stop an equation. -/
def C55_goal (adaptive : Bool) : Goal := ⟨adaptive, 0, 0, 1, 0, 1, fun _ _ => false⟩

theorem C55_plane (c : ℝ) : C55_Problem (C55_sym 0 1 c) (fun _ => 0) (fun _ => 0) 0 1 (fun _ => 1) (fun _ => 0) where
  symm := C55_sym_symm 0 1 c
  orth i hi := by omega
  eigen j hj := by omega
  unit i hi := by simp
  away i hi j hj := by omega
  ritz i hi := by simp [C55_sym, Complex.inner]

/-- The operators for the plane. -/
noncomputable def C55_ops (K : ℂ → ℂ) (a : Bool) : Ops ℝ ℂ Est :=
  innerOps (C55_sym 0 1 1) K (fun _ => 0) 0 ⟨0, fun _ => 0, id⟩ (1 / 10) (C55_goal a)

theorem C55_sym_one (a b c : ℝ) : C55_sym a b c 1 = ⟨a, b⟩ := by apply Complex.ext <;> simp [C55_sym]

theorem C55_sym_mk (a b c p q : ℝ) : C55_sym a b c ⟨p, q⟩ = ⟨a * p + b * q, b * p + c * q⟩ := rfl

theorem C55_mk_zero : (⟨0, 0⟩ : ℂ) = 0 := rfl

theorem C55_norm_I : ‖(⟨0, 1⟩ : ℂ)‖ = 1 := Complex.norm_I

/-- An equation in the plane is solved by the first iteration and reported. -/
theorem C55_col (a : Bool) : (before (C55_ops id a) ⟨true, .none⟩ 0 5 (callFor (C55_sym 0 1 1) 1 0 0 1 0) 1).done = false ∧
    (before (C55_ops id a) ⟨true, .none⟩ 0 5 (callFor (C55_sym 0 1 1) 1 0 0 1 0) 1).vec.sol = ⟨0, 1⟩ := by
  have f1 : first (C55_ops id a) ⟨true, .none⟩ 0 (callFor (C55_sym 0 1 1) 1 0 0 1 0)
      (start (C55_ops id a) ⟨true, .none⟩ 0 (callFor (C55_sym 0 1 1) 1 0 0 1 0)) =
      ⟨⟨0, 1, 0, ⟨0, 1⟩, 0, ⟨0, 1⟩, 0⟩, ⟨1, 1, 1, 0, 0, 0, 0, Est.start 0 1⟩, 1, 0, false⟩ := by
    have hA : (⟨1, 1⟩ : ℂ) - 1 = ⟨0, 1⟩ := by apply Complex.ext <;> simp
    simp [first, start, C55_ops, innerOps, callFor, projectedMatrix, projectedPrec, skewProject, right, C55_sym_one, C55_sym_mk, Complex.inner,
      C55_norm_I, hA]
    norm_num
  simp only [before, f1]
  cases a <;> simp [second, third, C55_ops, innerOps, stopping, C55_goal, Est.update, Est.start, Complex.inner]

/-- The same equation with a preconditioner and no right projector. -/
theorem C55_col_prec : (before (C55_ops (C55_sym 1 1 2) true) ⟨true, .none⟩ 0 5 (callFor (C55_sym 0 1 1) 1 0 0 1 0) 1).done = false ∧
    (before (C55_ops (C55_sym 1 1 2) true) ⟨true, .none⟩ 0 5 (callFor (C55_sym 0 1 1) 1 0 0 1 0) 1).vec.sol = ⟨1 / 3, 2 / 3⟩ ∧
    (before (C55_ops (C55_sym 1 1 2) true) ⟨true, .none⟩ 0 5 (callFor (C55_sym 0 1 1) 1 0 0 1 0) 1).loc.mem.evalUpd = -3 / 7 := by
  have f1 : first (C55_ops (C55_sym 1 1 2) true) ⟨true, .none⟩ 0 (callFor (C55_sym 0 1 1) 1 0 0 1 0)
      (start (C55_ops (C55_sym 1 1 2) true) ⟨true, .none⟩ 0 (callFor (C55_sym 0 1 1) 1 0 0 1 0)) =
      ⟨⟨0, 1, 0, ⟨1, 2⟩, 0, ⟨0, 1⟩, 0⟩, ⟨1 / 3, 2, 1, 0, 0, 0, 0, Est.start 0 1⟩, 6, 0, false⟩ := by
    have hA : (⟨2, 3⟩ : ℂ) - 2 = ⟨0, 3⟩ := by apply Complex.ext <;> simp
    have hB : (⟨0, 1⟩ : ℂ) - (1 / 3 : ℝ) • (⟨0, 3⟩ : ℂ) = 0 := by apply Complex.ext <;> simp
    simp [first, start, C55_ops, innerOps, callFor, projectedMatrix, projectedPrec, skewProject, right, C55_sym_one, C55_sym_mk, Complex.inner,
      C55_norm_I]
    norm_num [hA, hB]
    apply Complex.ext <;> norm_num
  simp only [before, f1]
  simp [second, third, C55_ops, innerOps, stopping, C55_goal, Est.update, Est.start, Complex.inner]
  norm_num
  apply Complex.ext <;> norm_num

/-- And with the skew projector on the right. -/
theorem C55_col_skew : (before (C55_ops (C55_sym 1 1 2) true) ⟨true, .kinv⟩ 0 5 (callFor (C55_sym 0 1 1) 1 0 0 1 ⟨1, 1⟩) 1).done = false := by
  have f1 : first (C55_ops (C55_sym 1 1 2) true) ⟨true, .kinv⟩ 0 (callFor (C55_sym 0 1 1) 1 0 0 1 ⟨1, 1⟩)
      (start (C55_ops (C55_sym 1 1 2) true) ⟨true, .kinv⟩ 0 (callFor (C55_sym 0 1 1) 1 0 0 1 ⟨1, 1⟩)) =
      ⟨⟨0, 1, 0, ⟨0, 1⟩, 0, ⟨0, 1⟩, 0⟩, ⟨1, 1, 1, 0, 0, 0, 0, Est.start 0 1⟩, 1, 0, false⟩ := by
    have hA : (⟨1, 1⟩ : ℂ) - 1 = ⟨0, 1⟩ := by apply Complex.ext <;> simp
    have hB : (⟨1, 2⟩ : ℂ) - ⟨1, 1⟩ = ⟨0, 1⟩ := by apply Complex.ext <;> norm_num
    simp [first, start, C55_ops, innerOps, callFor, projectedMatrix, projectedPrec, skewProject, right, C55_sym_one, C55_sym_mk, Complex.inner,
      C55_norm_I, hA, hB]
    norm_num
  simp only [before, f1]
  simp [second, third, C55_ops, innerOps, stopping, C55_goal, Est.update, Est.start, Complex.inner]

/-- A column that is active after the first iteration is active in the run with this column only. -/
theorem C55_run (o : Ops ℝ ℂ Est) (c : Cfg) (a : Input ℝ ℂ Est) (h : (before o c 0 5 a 1).done = false) :
    ∃ s, runAt o c 5 (init o c 0 1 fun _ => a) 1 = some s ∧ s.b = 1 ∧ s.p 0 = 0 ∧ s.vec 0 = (before o c 0 5 a 1).vec ∧
      s.loc 0 = (before o c 0 5 a 1).loc := by
  obtain ⟨s, hs, sh⟩ := run_shows 1 o c 0 5 (fun _ => a) (fun t i i' h1 h2 => by omega) (fun t i i' h1 h2 => by omega) 1
  have hb : s.b = 1 := by
    have := sh.le
    by_contra hne
    have h0 : s.b ≤ 0 := by omega
    have := (sh.rest 0 h0 (by omega)).1
    rw [h] at this
    exact Bool.false_ne_true this
  obtain ⟨_, a2, a3, _⟩ := sh.act 0 (by omega)
  exact ⟨s, hs, hb, sh.same 0 (by omega), a2, a3⟩

/-- The hypotheses of `C55_reports_partial`: the correction of `(1, 0)` is `(0, 1)`, and `(1, -1)` has the value `-1/2`. -/
example : ∃ s, runAt (C55_ops id true) ⟨true, .none⟩ 5 (init (C55_ops id true) ⟨true, .none⟩ 0 1 fun _ => callFor (C55_sym 0 1 1) 1 0 0 1 0) 1 =
    some s ∧ s.b = 1 ∧ (report (C55_goal true) 1 (s.loc (s.p 0))).1 = -1 / 2 ∧ (report (C55_goal true) 1 (s.loc (s.p 0))).2.2 = 0 := by
  obtain ⟨s, hs, hb, hp, hv, _⟩ := C55_run _ _ _ (C55_col true).1
  have := C55_reports_partial (C55_sym 0 1 1) (fun _ => 0) (fun _ => 0) 0 1 (fun _ => 1) (fun _ => 0) (C55_plane 1) (fun _ => 0) id (1 / 10) (by norm_num)
    (C55_goal true) rfl ⟨true, .none⟩ rfl (by decide) (fun _ => 0) (fun _ => 0) 0 5 0 (by norm_num) s (fun t i i' h1 h2 => by omega) hs 0 (by omega) 1
  refine ⟨s, hs, hb, ?_, ?_⟩ <;> rw [this.1, hv, (C55_col true).2]
  · simp [value, C55_sym, Complex.inner]
    rw [← Complex.normSq_eq_norm_sq]
    simp [Complex.normSq_apply]
    norm_num
  · simp [linres, part, C55_sym_one, C55_sym_mk, Complex.inner]
    apply Complex.ext <;> simp

/-- The same equation with the projector on both sides, after the first iteration. -/
theorem C55_col_same : (before (C55_ops (LinearMap.id : ℂ →ₗ[ℝ] ℂ) true) ⟨true, .same⟩ 0 5 (callFor (C55_sym 0 1 1) 1 0 0 1 0) 1).done = false ∧
    (before (C55_ops (LinearMap.id : ℂ →ₗ[ℝ] ℂ) true) ⟨true, .same⟩ 0 5 (callFor (C55_sym 0 1 1) 1 0 0 1 0) 1).vec.sol = ⟨0, 1⟩ := by
  have f1 : first (C55_ops (LinearMap.id : ℂ →ₗ[ℝ] ℂ) true) ⟨true, .same⟩ 0 (callFor (C55_sym 0 1 1) 1 0 0 1 0)
      (start (C55_ops (LinearMap.id : ℂ →ₗ[ℝ] ℂ) true) ⟨true, .same⟩ 0 (callFor (C55_sym 0 1 1) 1 0 0 1 0)) =
      ⟨⟨0, 1, 0, ⟨0, 1⟩, 0, ⟨0, 1⟩, 0⟩, ⟨1, 1, 1, 0, 0, 0, 0, Est.start 0 1⟩, 1, 0, false⟩ := by
    have hA : (⟨1, 1⟩ : ℂ) - 1 = ⟨0, 1⟩ := by apply Complex.ext <;> simp
    simp [first, start, C55_ops, innerOps, callFor, projectedMatrix, projectedPrec, skewProject, right, C55_sym_one, C55_sym_mk, Complex.inner,
      C55_norm_I, hA]
    norm_num
  simp only [before, f1]
  simp [second, third, C55_ops, innerOps, stopping, C55_goal, Est.update, Est.start, Complex.inner]

/-- The hypotheses of `C55_improves_partial`: the value falls from 0 to `-1/2`. -/
example : value (C55_sym 0 1 1) (1 - ⟨0, 1⟩) ≤ value (C55_sym 0 1 1) (1 : ℂ) := by
  obtain ⟨h0, -, h1, -⟩ := C55_improves_partial (C55_sym 0 1 1) (fun _ => 0) (fun _ => 0) 0 1 0 (C55_plane 1) LinearMap.id (fun _ _ => rfl) (1 / 10)
    (by norm_num) (C55_goal true) rfl ⟨true, .same⟩ rfl rfl 0 0 0 5 0 (by norm_num) C55_col_same.1
  have h2 := h1 rfl
  rw [h0, sub_zero] at h2
  have h3 := C55_col_same.2
  unfold C55_ops at h3
  rw [h3] at h2
  exact h2

/-- The hypotheses of `C55_reports_fixed_partial`. -/
example : ∃ s, runAt (C55_ops id false) ⟨true, .none⟩ 5 (init (C55_ops id false) ⟨true, .none⟩ 0 1 fun _ => callFor (C55_sym 0 1 1) 1 0 0 1 0) 1 =
    some s ∧ s.b = 1 := by
  obtain ⟨s, hs, hb, _⟩ := C55_run _ _ _ (C55_col false).1
  exact ⟨s, hs, hb⟩

/-- The hypotheses of `C55_reports_precond_partial`. -/
example : ∃ s, runAt (C55_ops (C55_sym 1 1 2) true) ⟨true, .kinv⟩ 5
    (init (C55_ops (C55_sym 1 1 2) true) ⟨true, .kinv⟩ 0 1 fun _ => callFor (C55_sym 0 1 1) 1 0 0 1 ⟨1, 1⟩) 1 = some s ∧ s.b = 1 ∧
    ∃ v e l, report (C55_goal true) 1 (s.loc (s.p 0)) = (v, e, l) ∧ v = value (C55_sym 0 1 1) (1 - (s.vec 0).sol) := by
  obtain ⟨s, hs, hb, _⟩ := C55_run _ _ _ C55_col_skew
  obtain ⟨v, e, l, h1, h2, _⟩ := C55_reports_precond_partial (C55_sym 0 1 1) (C55_sym 1 1 2) (C55_sym_symm 1 1 2) (fun _ => 0) (fun _ => 0) 0 1 (fun _ => 1)
    (fun _ => 0) (C55_plane 1) ⟨0, fun _ => 0, id⟩ (1 / 10) (by norm_num) (C55_goal true) rfl ⟨true, .kinv⟩ rfl (fun _ => 0) (fun _ => 1)
    (fun _ => ⟨1, 1⟩) (.inl ⟨rfl, rfl, rfl, fun i _ => ⟨(C55_sym_one 1 1 2).symm, by simp [C55_sym_one, Complex.inner], by norm_num⟩⟩)
    0 5 0 (by norm_num) s (fun t i i' h1 h2 => by omega) hs 0 (by omega) 1
  exact ⟨s, hs, hb, v, e, l, h1, h2⟩

/-- A preconditioner with the default projectors of `JDQMR`, on the left only: the correction is not orthogonal to `x` and the value the monitor is told
is not the Rayleigh quotient of the corrected vector.  Matrix `[0 1; 1 1]`, `x = (1, 0)`, preconditioner `[1 1; 1 2]`: told `-3/7`, it
is `-1/2`. -/
theorem C55_precond_violated :
    ∃ s, runAt (C55_ops (C55_sym 1 1 2) true) ⟨true, .none⟩ 5
      (init (C55_ops (C55_sym 1 1 2) true) ⟨true, .none⟩ 0 1 fun _ => callFor (C55_sym 0 1 1) 1 0 0 1 0) 1 = some s ∧ s.b = 1 ∧
    (report (C55_goal true) 1 (s.loc (s.p 0))).1 = -3 / 7 ∧ value (C55_sym 0 1 1) (1 - (s.vec 0).sol) = -1 / 2 ∧ ⟪(1 : ℂ), (s.vec 0).sol⟫ = 1 / 3 := by
  obtain ⟨s, hs, hb, hp, hv, hl⟩ := C55_run _ _ _ C55_col_prec.1
  refine ⟨s, hs, hb, ?_, ?_, ?_⟩
  · rw [hp, hl]; exact C55_col_prec.2.2
  · rw [hv, C55_col_prec.2.1]
    simp [value, C55_sym, Complex.inner]
    rw [← Complex.normSq_eq_norm_sq]
    simp [Complex.normSq_apply]
    norm_num
  · rw [hv, C55_col_prec.2.1]
    simp [Complex.inner]

/-- Skew projectors for both the converged vectors and `x` (the projectors of `JDQR`): the first removes the components along the converged vectors, and
the second, with the preconditioned `x`, brings them back.  Here `Q = e₂`, `x = e₁`, the preconditioner is `[2 1 0; 1 2 1; 0 1 2]` and the result
for `e₃` has the component `1/4` along `Q`. -/
theorem C55_skew_violated (K : EuclideanSpace ℝ (Fin 3) → EuclideanSpace ℝ (Fin 3))
    (hK : K = fun v => !₂[2 * v 0 + v 1, v 0 + 2 * v 1 + v 2, v 1 + 2 * v 2]) :
    ⟪(!₂[0, 1, 0] : EuclideanSpace ℝ (Fin 3)), projectedPrec K (fun _ => !₂[0, 1, 0]) (fun _ => K !₂[0, 1, 0]) 1
      (fun b j => b j / ⟪(!₂[0, 1, 0] : EuclideanSpace ℝ (Fin 3)), K !₂[0, 1, 0]⟫) ⟪(!₂[1, 0, 0] : EuclideanSpace ℝ (Fin 3)), K !₂[1, 0, 0]⟫
      (some (!₂[1, 0, 0], K !₂[1, 0, 0])) !₂[0, 0, 1]⟫ = 1 / 4 := by
  subst hK
  simp [projectedPrec, skewProject, PiLp.inner_apply, Fin.sum_univ_three]
  norm_num

/-- The matrix `[0 1 0; 1 1 1; 0 1 2]`. -/
noncomputable def C55_space : EuclideanSpace ℝ (Fin 3) →ₗ[ℝ] EuclideanSpace ℝ (Fin 3) where
  toFun v := !₂[v 1, v 0 + v 1 + v 2, v 1 + 2 * v 2]
  map_add' u v := by ext i; fin_cases i <;> simp <;> ring
  map_smul' k v := by ext i; fin_cases i <;> simp <;> ring

theorem C55_space_mk (a b c : ℝ) : C55_space !₂[a, b, c] = !₂[b, a + b + c, b + 2 * c] := rfl

noncomputable def C55_ops3 : Ops ℝ (EuclideanSpace ℝ (Fin 3)) Est :=
  innerOps C55_space (LinearMap.id : EuclideanSpace ℝ (Fin 3) →ₗ[ℝ] _) (fun _ => 0) 0 ⟨0, fun _ => 0, id⟩ (1 / 10) ⟨false, 0, 0, 1, 0, 1, fun _ _ => true⟩

theorem C55_sub3 (a b c d e f : ℝ) : (!₂[a, b, c] : EuclideanSpace ℝ (Fin 3)) - !₂[d, e, f] = !₂[a - d, b - e, c - f] := by
  ext i; fin_cases i <;> rfl
theorem C55_add3 (a b c d e f : ℝ) : (!₂[a, b, c] : EuclideanSpace ℝ (Fin 3)) + !₂[d, e, f] = !₂[a + d, b + e, c + f] := by
  ext i; fin_cases i <;> rfl
theorem C55_smul3 (k a b c : ℝ) : k • (!₂[a, b, c] : EuclideanSpace ℝ (Fin 3)) = !₂[k * a, k * b, k * c] := by
  ext i; fin_cases i <;> rfl
theorem C55_inner3 (a b c d e f : ℝ) : ⟪(!₂[a, b, c] : EuclideanSpace ℝ (Fin 3)), !₂[d, e, f]⟫ = a * d + b * e + c * f := by
  simp [PiLp.inner_apply, Fin.sum_univ_three]; ring
theorem C55_norm3 (a b c : ℝ) : ‖(!₂[a, b, c] : EuclideanSpace ℝ (Fin 3))‖ = √(a * a + b * b + c * c) := by
  rw [norm_eq_sqrt_real_inner, C55_inner3]

theorem C55_mul3 (a b c : ℝ) : C55_ops3.mul 0 (some !₂[1, 0, 0]) !₂[a, b, c] = !₂[0, a + b + c, b + 2 * c] := by
  simp [C55_ops3, innerOps, projectedMatrix, skewProject, C55_space_mk, C55_sub3, C55_smul3, C55_inner3]

theorem C55_prec3 (a b c : ℝ) : C55_ops3.prec 1 (some (!₂[1, 0, 0], !₂[1, 0, 0])) !₂[a, b, c] = !₂[0, b, c] := by
  simp [C55_ops3, innerOps, projectedPrec, skewProject, C55_sub3, C55_smul3, C55_inner3]

theorem C55_call3 : callFor C55_space !₂[1, 0, 0] 0 0 1 0 = ⟨0, 1, !₂[0, 1, 0], !₂[1, 0, 0], 0, 1, Est.start 0 1⟩ := by
  simp [callFor, C55_space_mk, C55_norm3]

/-- The equation takes a second iteration and is stopped by the convergence test. -/
theorem C55_col3 : ((before C55_ops3 ⟨true, .same⟩ 0 5 (callFor C55_space !₂[1, 0, 0] 0 0 1 0) 1).done = false ∧
    (amid C55_ops3 ⟨true, .same⟩ 0 5 (callFor C55_space !₂[1, 0, 0] 0 0 1 0) 1).done = false) ∧
    (before C55_ops3 ⟨true, .same⟩ 0 5 (callFor C55_space !₂[1, 0, 0] 0 0 1 0) 2).done = true := by
  rw [C55_call3]
  have dot : ∀ u v, C55_ops3.dot u v = ⟪u, v⟫ := fun _ _ => rfl
  have b1 : C55_ops3.broken 1 1 = false := by simp [C55_ops3, innerOps]; norm_num
  have s0 : start C55_ops3 ⟨true, .same⟩ 0 ⟨0, 1, !₂[0, 1, 0], !₂[1, 0, 0], 0, 1, Est.start 0 1⟩ =
      ⟨⟨0, 1, !₂[0, 1, 0], !₂[0, 1, 0], 0, !₂[0, 1, 0], 0⟩, ⟨0, 1, 1, 0, 0, 0, 0, Est.start 0 1⟩, 0, 0, false⟩ := by
    simp [start, right, C55_prec3, dot, C55_norm3]
  have f0 : first C55_ops3 ⟨true, .same⟩ 0 ⟨0, 1, !₂[0, 1, 0], !₂[1, 0, 0], 0, 1, Est.start 0 1⟩
      ⟨⟨0, 1, !₂[0, 1, 0], !₂[0, 1, 0], 0, !₂[0, 1, 0], 0⟩, ⟨0, 1, 1, 0, 0, 0, 0, Est.start 0 1⟩, 0, 0, false⟩ =
      ⟨⟨0, 1, !₂[0, 0, -1], !₂[0, 1, 0], 0, !₂[0, 1, 0], 0⟩, ⟨1, 1, 1, 0, 0, 0, 0, Est.start 0 1⟩, 1, 0, false⟩ := by
    simp [first, C55_mul3, dot, C55_inner3, b1, C55_sub3]
  have g0 : ∃ ta ga et de so, second C55_ops3 0
      ⟨⟨0, 1, !₂[0, 0, -1], !₂[0, 1, 0], 0, !₂[0, 1, 0], 0⟩, ⟨1, 1, 1, 0, 0, 0, 0, Est.start 0 1⟩, 1, 0, false⟩ =
      ⟨⟨0, 1, !₂[0, 0, -1], !₂[0, 1, 0], de, !₂[0, 1, 0], so⟩, ⟨1, 1, 1, ta, 0, ga, et, Est.start 0 1⟩, 1, 1, false⟩ := by
    have th : C55_ops3.sqrt (C55_ops3.dot !₂[0, 0, -1] !₂[0, 0, -1]) / 1 = 1 := by
      rw [dot, C55_inner3]; simp [C55_ops3, innerOps]
    set S2 := second C55_ops3 0 ⟨⟨0, 1, !₂[0, 0, -1], !₂[0, 1, 0], 0, !₂[0, 1, 0], 0⟩, ⟨1, 1, 1, 0, 0, 0, 0, Est.start 0 1⟩, 1, 0, false⟩ with h2
    have q : S2.vec.shift = 0 ∧ S2.vec.xk = 1 ∧ S2.vec.g = !₂[0, 0, -1] ∧ S2.vec.d = !₂[0, 1, 0] ∧ S2.vec.r = !₂[0, 1, 0] ∧ S2.loc.alpha = 1 ∧
        S2.loc.rhoPrev = 1 ∧ S2.loc.tauPrev = 1 ∧ S2.loc.thetaPrev = 0 ∧ S2.loc.mem = Est.start 0 1 ∧ S2.sigma = 1 ∧ S2.theta = 1 ∧
        S2.done = false := by
      rw [h2]
      unfold second
      simp only [th, Bool.false_eq_true, if_false]
      simp [C55_ops3, innerOps, stopping]
    refine ⟨S2.loc.tau, S2.loc.gamma, S2.loc.eta, S2.vec.delta, S2.vec.sol, ?_⟩
    clear_value S2
    obtain ⟨⟨_, _, _, _, _, _, _⟩, ⟨_, _, _, _, _, _, _, _⟩, _, _, _⟩ := S2
    simp only at q ⊢
    obtain ⟨rfl, rfl, rfl, rfl, rfl, rfl, rfl, rfl, rfl, rfl, rfl, rfl, rfl⟩ := q
    rfl
  obtain ⟨ta, ga, et, de, so, g0⟩ := g0
  have h0 : third C55_ops3 ⟨true, .same⟩ ⟨0, 1, !₂[0, 1, 0], !₂[1, 0, 0], 0, 1, Est.start 0 1⟩
      ⟨⟨0, 1, !₂[0, 0, -1], !₂[0, 1, 0], de, !₂[0, 1, 0], so⟩, ⟨1, 1, 1, ta, 0, ga, et, Est.start 0 1⟩, 1, 1, false⟩ =
      ⟨⟨0, 1, !₂[0, 0, -1], !₂[0, 1, -1], de, !₂[0, 1, 0], so⟩, ⟨1, 1, ta, ta, 1, ga, et, Est.start 0 1⟩, 1, 1, false⟩ := by
    simp [third, right, C55_prec3, dot, C55_norm3, C55_add3]
  have e1 : before C55_ops3 ⟨true, .same⟩ 0 5 ⟨0, 1, !₂[0, 1, 0], !₂[1, 0, 0], 0, 1, Est.start 0 1⟩ 1 =
      ⟨⟨0, 1, !₂[0, 0, -1], !₂[0, 1, -1], de, !₂[0, 1, 0], so⟩, ⟨1, 1, ta, ta, 1, ga, et, Est.start 0 1⟩, 1, 1, false⟩ := by
    simp only [before, s0, f0, g0, h0]; simp
  have f1 : first C55_ops3 ⟨true, .same⟩ 1 ⟨0, 1, !₂[0, 1, 0], !₂[1, 0, 0], 0, 1, Est.start 0 1⟩
      ⟨⟨0, 1, !₂[0, 0, -1], !₂[0, 1, -1], de, !₂[0, 1, 0], so⟩, ⟨1, 1, ta, ta, 1, ga, et, Est.start 0 1⟩, 1, 1, false⟩ =
      ⟨⟨0, 1, 0, !₂[0, 1, -1], de, !₂[0, 1, 0], so⟩, ⟨1, 1, ta, ta, 1, ga, et, Est.start 0 1⟩, 1, 1, false⟩ := by
    have w : C55_ops3.mul 0 (some !₂[1, 0, 0]) !₂[0, 1, -1] = !₂[0, 0, -1] := by rw [C55_mul3]; norm_num
    have d : C55_ops3.dot !₂[0, 1, -1] !₂[0, 0, -1] = 1 := by rw [dot, C55_inner3]; norm_num
    simp [first, w, d, b1]
  have e2 : amid C55_ops3 ⟨true, .same⟩ 0 5 ⟨0, 1, !₂[0, 1, 0], !₂[1, 0, 0], 0, 1, Est.start 0 1⟩ 1 =
      ⟨⟨0, 1, 0, !₂[0, 1, -1], de, !₂[0, 1, 0], so⟩, ⟨1, 1, ta, ta, 1, ga, et, Est.start 0 1⟩, 1, 1, false⟩ := by
    rw [amid, e1, f1]
  refine ⟨⟨by rw [e1], by rw [e2]⟩, ?_⟩
  rw [before, e1, f1]
  have d2 : ∀ S : Column ℝ (EuclideanSpace ℝ (Fin 3)) Est, S.done = false → (second C55_ops3 1 S).done = true := by
    intro S hS
    unfold second
    simp only [hS, Bool.false_eq_true, if_false]
    simp [C55_ops3, innerOps, stopping]
  split_ifs
  · rw [(third_keep _ _ _ _).2.2.2]; exact d2 _ rfl
  · exact d2 _ rfl

theorem C55_problem3 : C55_Problem C55_space (fun _ => 0) (fun _ => 0) 0 1 (fun _ => !₂[1, 0, 0]) (fun _ => 0) where
  symm u v := by simp [C55_space, PiLp.inner_apply, Fin.sum_univ_three]; ring
  orth i hi := by omega
  eigen j hj := by omega
  unit i hi := by simp [C55_norm3]
  away i hi j hj := by omega
  ritz i hi := by simp [C55_space_mk, C55_inner3]

/-- The hypotheses of `C55_stops_partial`: the equation is stopped by the test in its second iteration, not by a breakdown. -/
example : linres C55_space 0 !₂[1, 0, 0] (fun _ => 0) 0 (C55_space !₂[1, 0, 0] - (0 : ℝ) • !₂[1, 0, 0])
      (before C55_ops3 ⟨true, .same⟩ 0 5 (callFor C55_space !₂[1, 0, 0] 0 0 1 0) 2).vec.sol < √((1 : ℕ) + 2) * 0 ∨
    ∃ tol : ℝ, linres C55_space 0 !₂[1, 0, 0] (fun _ => 0) 0 (C55_space !₂[1, 0, 0] - (0 : ℝ) • !₂[1, 0, 0])
      (before C55_ops3 ⟨true, .same⟩ 0 5 (callFor C55_space !₂[1, 0, 0] 0 0 1 0) 2).vec.sol * √(1 : ℕ) ≤ √((1 : ℕ) + 2) * (1 * tol) := by
  have := C55_stops_partial C55_space (fun _ => 0) (fun _ => 0) 0 !₂[1, 0, 0] 0 C55_problem3 LinearMap.id (fun _ _ => rfl) (1 / 10) (by norm_num)
    ⟨false, 0, 0, 1, 0, 1, fun _ _ => true⟩ rfl (by norm_num) ⟨true, .same⟩ rfl rfl 0 0 0 5 1 (by norm_num) C55_col3.1.1 C55_col3.2
  rcases this with h | h | ⟨tol, _, _, h⟩
  · exact absurd (h.symm.trans C55_col3.1.2) (by decide)
  · exact .inl h
  · exact .inr ⟨tol, h⟩

end Verif.Props
