import Verif.Model.InnerTest
import Verif.Proofs.InnerSolve
import Verif.Spec.InnerTest
import Mathlib.Analysis.InnerProductSpace.Basic
import Mathlib.LinearAlgebra.Span.Basic
import Mathlib.Tactic.Linarith
import Mathlib.Tactic.FieldSimp
import Mathlib.Tactic.Ring
import Mathlib.Tactic.Positivity
import Mathlib.Tactic.Module

/-!
# The inner solver in exact arithmetic

Conjugate directions, smoothing and the recurrences of the estimates, first without the solver's data structures.
-/

namespace Verif.Inner
open Verif.Spec Verif.Spec.Qmr

variable {V : Type} [NormedAddCommGroup V] [InnerProductSpace ℝ V]

local notation "⟪" x ", " y "⟫" => inner ℝ x y

/-- A projected system: `A` symmetric, `P` an orthogonal projector, `N` symmetric on its range. -/
structure Proj (A P N : V →ₗ[ℝ] V) : Prop where
  symA : ∀ u v, ⟪A u, v⟫ = ⟪u, A v⟫
  symP : ∀ u v, ⟪P u, v⟫ = ⟪u, P v⟫
  idem : ∀ v, P (P v) = P v
  keep : ∀ v, P v = v → P (N v) = N v
  symN : ∀ u v, P u = u → P v = v → ⟪N u, v⟫ = ⟪u, N v⟫

/-- The operator of the equation. -/
def opW (A P : V →ₗ[ℝ] V) (s : ℝ) : V →ₗ[ℝ] V := P ∘ₗ (A - s • LinearMap.id)

theorem opW_apply (A P : V →ₗ[ℝ] V) (s : ℝ) (v : V) : opW A P s v = P (A v - s • v) := rfl

variable {A P N : V →ₗ[ℝ] V} {s : ℝ}

theorem opW_range (h : Proj A P N) (v : V) : P (opW A P s v) = opW A P s v := by
  rw [opW_apply, h.idem]

theorem opW_inner (h : Proj A P N) {u : V} (hu : P u = u) (v : V) : ⟪u, opW A P s v⟫ = ⟪u, A v - s • v⟫ := by
  rw [opW_apply, ← h.symP, hu]

theorem opW_symm (h : Proj A P N) {u v : V} (hu : P u = u) (hv : P v = v) :
    ⟪opW A P s u, v⟫ = ⟪u, opW A P s v⟫ := by
  rw [opW_inner h hu, real_inner_comm, opW_inner h hv, inner_sub_right, inner_sub_right, inner_smul_right, inner_smul_right,
    ← h.symA, real_inner_comm v u, real_inner_comm (A v) u, real_inner_comm u (A v)]

/-- Conjugate directions: `D` is the space of the earlier ones. -/
structure CG (A P N : V →ₗ[ℝ] V) (s : ℝ) (r : V) (D : Submodule ℝ V) (g d : V) (rho : ℝ) : Prop where
  range : ∀ u ∈ D, P u = u
  gP : P g = g
  dP : P d = d
  dg : ⟪d, g⟫ = rho
  orth : ∀ u ∈ D, ⟪u, g⟫ = 0
  conj : ∀ u ∈ D, ⟪u, opW A P s d⟫ = 0
  krylov : ∀ u ∈ D, N (opW A P s u) ∈ D ⊔ Submodule.span ℝ {d}
  Ng : N g ∈ D ⊔ Submodule.span ℝ {d}
  Nr : N r ∈ D ⊔ Submodule.span ℝ {d}

theorem mem_next {D : Submodule ℝ V} {d u : V} : u ∈ D ⊔ Submodule.span ℝ {d} ↔ ∃ v ∈ D, ∃ k : ℝ, u = v + k • d := by
  rw [Submodule.mem_sup]
  constructor
  · rintro ⟨v, hv, z, hz, rfl⟩
    obtain ⟨k, rfl⟩ := Submodule.mem_span_singleton.1 hz
    exact ⟨v, hv, k, rfl⟩
  · rintro ⟨v, hv, k, rfl⟩
    exact ⟨v, hv, _, Submodule.mem_span_singleton.2 ⟨k, rfl⟩, rfl⟩

theorem CG.start (h : Proj A P N) {r : V} (hr : P r = r) : CG A P N s r ⊥ r (N r) ⟪r, N r⟫ where
  range u hu := by rw [(Submodule.mem_bot ℝ).1 hu, map_zero]
  gP := hr
  dP := h.keep r hr
  dg := real_inner_comm _ _
  orth u hu := by rw [(Submodule.mem_bot ℝ).1 hu, inner_zero_left]
  conj u hu := by rw [(Submodule.mem_bot ℝ).1 hu, inner_zero_left]
  krylov u hu := by rw [(Submodule.mem_bot ℝ).1 hu, map_zero, map_zero]; exact Submodule.zero_mem _
  Ng := mem_next.2 ⟨0, Submodule.zero_mem _, 1, by module⟩
  Nr := mem_next.2 ⟨0, Submodule.zero_mem _, 1, by module⟩

section
variable {r g d : V} {D : Submodule ℝ V} {rho : ℝ}

/-- The new residual is orthogonal to all directions. -/
theorem CG.orth_next (h : Proj A P N) (c : CG A P N s r D g d rho) (hs : ⟪d, opW A P s d⟫ ≠ 0) :
    ∀ u ∈ D ⊔ Submodule.span ℝ {d}, ⟪u, g - (rho / ⟪d, opW A P s d⟫) • opW A P s d⟫ = 0 := by
  intro u hu
  obtain ⟨v, hv, k, rfl⟩ := mem_next.1 hu
  rw [inner_add_left, inner_smul_left, inner_sub_right, inner_sub_right, inner_smul_right, inner_smul_right, c.orth v hv, c.conj v hv, c.dg]
  simp only [conj_trivial]
  field_simp
  ring

theorem CG.range_next (c : CG A P N s r D g d rho) : ∀ u ∈ D ⊔ Submodule.span ℝ {d}, P u = u := by
  intro u hu
  obtain ⟨v, hv, k, rfl⟩ := mem_next.1 hu
  rw [map_add, map_smul, c.range v hv, c.dP]

theorem CG.next (h : Proj A P N) (c : CG A P N s r D g d rho) (hs : ⟪d, opW A P s d⟫ ≠ 0) (hr : rho ≠ 0) {g' d' : V}
    (hg : g' = g - (rho / ⟪d, opW A P s d⟫) • opW A P s d) (hd : d' = N g' + (⟪g', N g'⟫ / rho) • d) :
    CG A P N s r (D ⊔ Submodule.span ℝ {d}) g' d' ⟪g', N g'⟫ := by
  set W := opW A P s with hW
  have orth : ∀ u ∈ D ⊔ Submodule.span ℝ {d}, ⟪u, g'⟫ = 0 := by rw [hg]; exact c.orth_next h hs
  have range := c.range_next
  have hg' : P g' = g' := by rw [hg, map_sub, map_smul, opW_range h, c.gP]
  have hd' : P d' = d' := by rw [hd, map_add, map_smul, h.keep g' hg', c.dP]
  have hdm : d ∈ D ⊔ Submodule.span ℝ {d} := mem_next.2 ⟨0, Submodule.zero_mem _, 1, by module⟩
  have hWd : W d = (⟪d, W d⟫ / rho) • (g - g') := by
    rw [hg, sub_sub_cancel, smul_smul, div_mul_div_cancel₀ hr, div_self hs, one_smul]
  have hNg' : N g' ∈ (D ⊔ Submodule.span ℝ {d}) ⊔ Submodule.span ℝ {d'} :=
    mem_next.2 ⟨-(⟪g', N g'⟫ / rho) • d, Submodule.smul_mem _ _ hdm, 1, by rw [hd]; module⟩
  have up : ∀ u ∈ D ⊔ Submodule.span ℝ {d}, u ∈ (D ⊔ Submodule.span ℝ {d}) ⊔ Submodule.span ℝ {d'} :=
    fun u hu => Submodule.mem_sup_left hu
  refine ⟨range, hg', hd', ?_, orth, ?_, ?_, hNg', up _ c.Nr⟩
  · rw [hd, inner_add_left, inner_smul_left, orth d hdm, mul_zero, add_zero, real_inner_comm]
  · intro u hu
    obtain ⟨v, hv, k, rfl⟩ := mem_next.1 hu
    have e1 : ⟪v, W d'⟫ = 0 := by
      rw [hd, map_add, map_smul, inner_add_right, inner_smul_right, c.conj v hv, mul_zero, add_zero,
        ← opW_symm h (c.range v hv) (h.keep g' hg'), ← h.symN _ _ (opW_range h v) hg']
      exact orth _ (c.krylov v hv)
    have e2 : ⟪d, W d'⟫ = 0 := by
      have e3 : ⟪d, W (N g')⟫ = -(⟪d, W d⟫ / rho) * ⟪g', N g'⟫ := by
        rw [← opW_symm h c.dP (h.keep g' hg'), ← hW, hWd, inner_smul_left, inner_sub_left, ← h.symN g g' c.gP hg', orth _ c.Ng]
        simp only [conj_trivial]
        have : ⟪d, (⟪d, W d⟫ / rho) • (g - g')⟫ = ⟪d, W d⟫ := by rw [← hWd]
        rw [this]
        ring
      rw [hd, map_add, map_smul, inner_add_right, inner_smul_right, e3]
      ring
    rw [inner_add_left, inner_smul_left, e1, e2]
    simp
  · intro u hu
    obtain ⟨v, hv, k, rfl⟩ := mem_next.1 hu
    rw [map_add, map_add, map_smul, map_smul]
    refine Submodule.add_mem _ (up _ (c.krylov v hv)) (Submodule.smul_mem _ _ ?_)
    rw [← hW, hWd, map_smul, map_sub]
    exact Submodule.smul_mem _ _ (Submodule.sub_mem _ (up _ c.Ng) hNg')

end

/-! ### Smoothing -/

section
variable {r sol delta g d : V} {th tau alpha : ℝ}

/-- The cosine of the smoothing step. -/
theorem cos_sq (Th : ℝ) : (1 / √(1 + Th * Th)) * (1 / √(1 + Th * Th)) = 1 / (1 + Th * Th) := by
  have : 0 ≤ 1 + Th * Th := by nlinarith [mul_self_nonneg Th]
  rw [div_mul_div_comm, Real.mul_self_sqrt this, one_mul]

/-- The smoothed solution and the residual of conjugate gradients. -/
theorem smooth_g {W : V →ₗ[ℝ] V} {C Th : ℝ} (hC : C * (1 + Th * Th) = 1) (hg : g = r - W (sol + (th * th) • delta)) :
    g - alpha • W d = r - W ((((C * th * th) • delta + (alpha * C) • d) + sol) +
      (Th * Th) • ((C * th * th) • delta + (alpha * C) • d)) := by
  have e : (((C * th * th) • delta + (alpha * C) • d) + sol) + (Th * Th) • ((C * th * th) • delta + (alpha * C) • d) =
      (sol + (th * th) • delta) + alpha • d := by
    have e1 : C * th * th + Th * Th * (C * th * th) = th * th := by
      have : C * th * th + Th * Th * (C * th * th) = (C * (1 + Th * Th)) * (th * th) := by ring
      rw [this, hC, one_mul]
    have e2 : alpha * C + Th * Th * (alpha * C) = alpha := by
      have : alpha * C + Th * Th * (alpha * C) = (C * (1 + Th * Th)) * alpha := by ring
      rw [this, hC, one_mul]
    calc _ = sol + (C * th * th + Th * Th * (C * th * th)) • delta + (alpha * C + Th * Th * (alpha * C)) • d := by module
      _ = _ := by rw [e1, e2]
  rw [e, map_add W, map_smul, hg]
  abel

/-- The residual of the smoothed solution. -/
theorem smooth_z {W : V →ₗ[ℝ] V} {C : ℝ} (hg : g = r - W (sol + (th * th) • delta)) :
    r - W (((C * th * th) • delta + (alpha * C) • d) + sol) = (1 - C) • (r - W sol) + C • (g - alpha • W d) := by
  rw [hg]
  simp only [map_add, map_smul]
  module

theorem smooth_bound {z g' : V} {Th k : ℝ} (ht : 0 < tau) (hT : 0 ≤ Th) (hk : 0 ≤ k) (hg : ‖g'‖ = Th * tau) (hz : ‖z‖ ≤ √k * tau) :
    ‖(1 - 1 / (1 + Th * Th)) • z + (1 / (1 + Th * Th)) • g'‖ ≤ √(k + 1) * (tau * Th * (1 / √(1 + Th * Th))) := by
  have h1 : 0 < 1 + Th * Th := by nlinarith [mul_self_nonneg Th]
  set q := √(1 + Th * Th) with hq
  have hqq : q * q = 1 + Th * Th := Real.mul_self_sqrt h1.le
  have hq0 : 0 < q := Real.sqrt_pos.2 h1
  have e1 : 1 - 1 / (1 + Th * Th) = Th * Th / (q * q) := by rw [hqq]; field_simp; ring
  have e2 : 1 / (1 + Th * Th) = 1 / (q * q) := by rw [hqq]
  have b : ‖(1 - 1 / (1 + Th * Th)) • z + (1 / (1 + Th * Th)) • g'‖ ≤
      Th * Th / (q * q) * (√k * tau) + 1 / (q * q) * (Th * tau) := by
    refine (norm_add_le _ _).trans ?_
    rw [norm_smul, norm_smul, e1, e2, hg, Real.norm_of_nonneg (by positivity), Real.norm_of_nonneg (by positivity)]
    gcongr
  refine b.trans ?_
  have cs : Th * √k + 1 ≤ q * √(k + 1) := by
    have : Th * √k + 1 ≤ √((1 + Th * Th) * (k + 1)) := by
      apply Real.le_sqrt_of_sq_le
      have hk' : √k * √k = k := Real.mul_self_sqrt hk
      nlinarith [mul_self_nonneg (Th - √k)]
    rwa [Real.sqrt_mul h1.le] at this
  have e3 : Th * Th / (q * q) * (√k * tau) + 1 / (q * q) * (Th * tau) = (Th * √k + 1) * (Th * tau / (q * q)) := by
    field_simp
  have e4 : √(k + 1) * (tau * Th * (1 / q)) = (q * √(k + 1)) * (Th * tau / (q * q)) := by
    field_simp
  rw [e3, e4]
  gcongr

theorem smooth_exact {z g' : V} {Th : ℝ} (ht : 0 < tau) (hT : 0 ≤ Th) (hg : ‖g'‖ = Th * tau) (hz : ‖z‖ = tau) (ho : ⟪z, g'⟫ = 0) :
    ‖(1 - 1 / (1 + Th * Th)) • z + (1 / (1 + Th * Th)) • g'‖ = tau * Th * (1 / √(1 + Th * Th)) := by
  have h1 : 0 < 1 + Th * Th := by nlinarith [mul_self_nonneg Th]
  have hq0 : 0 < √(1 + Th * Th) := Real.sqrt_pos.2 h1
  have hs : ‖(1 - 1 / (1 + Th * Th)) • z + (1 / (1 + Th * Th)) • g'‖ * ‖(1 - 1 / (1 + Th * Th)) • z + (1 / (1 + Th * Th)) • g'‖ =
      (tau * Th * (1 / √(1 + Th * Th))) * (tau * Th * (1 / √(1 + Th * Th))) := by
    have hc := cos_sq Th
    rw [norm_add_mul_self_real, inner_smul_left, inner_smul_right, ho, norm_smul, norm_smul, hg, hz]
    have e : (tau * Th * (1 / √(1 + Th * Th))) * (tau * Th * (1 / √(1 + Th * Th))) = tau * tau * (Th * Th) * (1 / (1 + Th * Th)) := by
      rw [← hc]; ring
    rw [e]
    have n1 : ‖(1 - 1 / (1 + Th * Th) : ℝ)‖ * ‖(1 - 1 / (1 + Th * Th) : ℝ)‖ = (1 - 1 / (1 + Th * Th)) * (1 - 1 / (1 + Th * Th)) := by
      rw [Real.norm_eq_abs, abs_mul_abs_self]
    have n2 : ‖(1 / (1 + Th * Th) : ℝ)‖ * ‖(1 / (1 + Th * Th) : ℝ)‖ = (1 / (1 + Th * Th)) * (1 / (1 + Th * Th)) := by
      rw [Real.norm_eq_abs, abs_mul_abs_self]
    calc _ = (‖(1 - 1 / (1 + Th * Th) : ℝ)‖ * ‖(1 - 1 / (1 + Th * Th) : ℝ)‖) * (tau * tau) +
          (‖(1 / (1 + Th * Th) : ℝ)‖ * ‖(1 / (1 + Th * Th) : ℝ)‖) * (Th * tau * (Th * tau)) := by
            simp only [mul_zero]; ring
      _ = _ := by
        rw [n1, n2]
        field_simp
        ring
  exact (mul_self_inj (norm_nonneg _) (by positivity)).1 hs

end

/-! ### The estimates -/

/-- What the recurrences stand for. -/
structure Recur (W : V →ₗ[ℝ] V) (r delta sol : V) (m : Est) : Prop where
  eDelta : m.Delta = ⟪delta, r⟫
  eBeta : m.Beta = -⟪sol, r⟫
  ePhi : m.Phi = ⟪delta, W delta⟫
  ePsi : m.Psi = ⟪sol - delta, W delta⟫
  eGamma : m.Gamma = ⟪sol, W sol⟫

/-- The estimates in terms of the solution. -/
def Shown (W : V →ₗ[ℝ] V) (shift : ℝ) (r sol : V) (tau : ℝ) (m : Est) : Prop :=
  let norm := 1 + ⟪sol, sol⟫
  let e := shift + (m.eval - shift + 2 * (-⟪sol, r⟫) + ⟪sol, W sol⟫) / norm
  let e2 := tau * tau / norm + (m.eval - shift + -⟪sol, r⟫) * (m.eval - shift + -⟪sol, r⟫) / norm - (e - shift) * (e - shift)
  m.evalUpd = e ∧ m.eres = if e2 < 0 then √(tau * tau / norm) else √e2

theorem update_shown {W : V →ₗ[ℝ] V} {shift tau sigma rho gamma eta : ℝ} {r delta sol : V} {m : Est}
    (h : Recur W r ((gamma • delta + eta • d)) ((gamma • delta + eta • d) + sol)
      (m.update shift ⟪(gamma • delta + eta • d) + sol, (gamma • delta + eta • d) + sol⟫ sigma rho tau gamma eta)) :
    Shown W shift r ((gamma • delta + eta • d) + sol) tau
      (m.update shift ⟪(gamma • delta + eta • d) + sol, (gamma • delta + eta • d) + sol⟫ sigma rho tau gamma eta) := by
  have h1 := h.eBeta
  have h2 := h.eGamma
  simp only [Est.update] at h1 h2
  simp only [Shown, Est.update, h1, h2]
  exact ⟨trivial, trivial⟩

/-- One step of the recurrences. -/
theorem Recur.next {W : V →ₗ[ℝ] V} {shift tau gamma eta rho dd : ℝ} {r delta sol d : V} {m : Est} (h : Recur W r delta sol m)
    (c1 : ⟪delta, W d⟫ = 0) (c2 : ⟪d, W delta⟫ = 0) (c3 : ⟪sol, W d⟫ = 0) (c4 : ⟪d, W sol⟫ = 0) (c5 : ⟪d, r⟫ = rho)
    (c6 : ⟪delta, W sol⟫ = ⟪sol, W delta⟫) :
    Recur W r (gamma • delta + eta • d) ((gamma • delta + eta • d) + sol) (m.update shift dd ⟪d, W d⟫ rho tau gamma eta) := by
  have hP : ⟪sol, W delta⟫ = m.Psi + m.Phi := by
    rw [h.ePsi, h.ePhi, inner_sub_left]; ring
  constructor
  · simp only [Est.update, h.eDelta, inner_add_left, inner_smul_left, c5, conj_trivial]
  · simp only [Est.update, h.eDelta, h.eBeta, inner_add_left, inner_smul_left, c5, conj_trivial]; ring
  · simp only [Est.update, h.ePhi, inner_add_left, inner_add_right, inner_smul_left, inner_smul_right, map_add, map_smul, c1, c2, conj_trivial]
    ring
  · rw [add_sub_cancel_left]
    simp only [Est.update, inner_add_right, inner_smul_right, map_add, map_smul, c3, hP]
    ring
  · simp only [Est.update, h.eGamma, inner_add_left, inner_add_right, inner_smul_left, inner_smul_right, map_add, map_smul, c1, c2, c3, c4, c6,
      hP, conj_trivial, ← h.ePhi]
    ring

/-! ### The column -/

/-- The operators of a call compute with `A - shift` projected by `P`, with the preconditioner `N`, and the test of `G`. -/
structure Fits (o : Ops ℝ V Est) (c : Cfg) (a : Input ℝ V Est) (A P N : V →ₗ[ℝ] V) (G : Goal) : Prop where
  mul : ∀ v, o.mul a.shift (if c.leftX then some a.x else none) v = opW A P a.shift v
  prec : ∀ v, o.prec a.xk (right c a.x a.rx) v = N v
  dot : ∀ u v, o.dot u v = ⟪u, v⟫
  sqrt : o.sqrt = Real.sqrt
  broken : ∀ sigma rho, o.broken sigma rho = false → sigma ≠ 0 ∧ rho ≠ 0
  test : o.second = stopping G

/-- Invariant before an iteration. -/
structure Ready (A P N : V →ₗ[ℝ] V) (G : Goal) (a : Input ℝ V Est) (t : ℕ) (S : Column ℝ V Est) (D : Submodule ℝ V) : Prop where
  cg : CG A P N a.shift a.r D S.vec.g S.vec.d S.loc.rhoPrev
  eshift : S.vec.shift = a.shift
  exk : S.vec.xk = a.xk
  res : S.vec.g = a.r - opW A P a.shift (S.vec.sol + (S.loc.thetaPrev * S.loc.thetaPrev) • S.vec.delta)
  deltaD : S.vec.delta ∈ D
  solD : S.vec.sol ∈ D
  tau0 : 0 ≤ S.loc.tauPrev
  tauz : S.loc.tauPrev = 0 → S.vec.g = 0
  bound : ‖a.r - opW A P a.shift S.vec.sol‖ ≤ √(t + 1) * S.loc.tauPrev
  exact' : (∀ v, P v = v → N v = v) → ‖a.r - opW A P a.shift S.vec.sol‖ = S.loc.tauPrev
  ev : S.loc.mem.eval = a.mem.eval
  est : G.adaptive = true → Recur (opW A P a.shift) a.r S.vec.delta S.vec.sol S.loc.mem

/-- What holds after an iteration that has not broken down. -/
structure Good (A P N : V →ₗ[ℝ] V) (G : Goal) (a : Input ℝ V Est) (t : ℕ) (S : Column ℝ V Est) : Prop where
  inP : P S.vec.sol = S.vec.sol
  tau0 : 0 ≤ S.loc.tau
  bound : ‖a.r - opW A P a.shift S.vec.sol‖ ≤ √(t + 2) * S.loc.tau
  exact' : (∀ v, P v = v → N v = v) → ‖a.r - opW A P a.shift S.vec.sol‖ = S.loc.tau
  ev : S.loc.mem.eval = a.mem.eval
  est : G.adaptive = true → (S.done = true ∧ S.loc.tau < G.lTol) ∨ Shown (opW A P a.shift) a.shift a.r S.vec.sol S.loc.tau S.loc.mem
  stop : G.adaptive = false → S.done = true → S.loc.tau < G.lTol ∨ 0 < t ∧ G.conv a.mem.eval (S.loc.tau / G.lFac * √t) = true

theorem Ready.start {o : Ops ℝ V Est} {c : Cfg} {a : Input ℝ V Est} {G : Goal} (h : Proj A P N) (f : Fits o c a A P N G) (junk : ℝ)
    (hr : P a.r = a.r) (hn : a.rnorm = ‖a.r‖) (hm : ∃ ev, a.mem = Est.start ev a.rnorm) : Ready A P N G a 0 (Qmr.start o c junk a) ⊥ := by
  obtain ⟨ev, hm⟩ := hm
  have hz : a.r - opW A P a.shift 0 = a.r := by rw [map_zero, sub_zero]
  refine ⟨?_, rfl, rfl, ?_, Submodule.zero_mem _, Submodule.zero_mem _, ?_, ?_, ?_, ?_, rfl, ?_⟩
  · simp only [Qmr.start, f.prec, f.dot]
    exact CG.start h hr
  · simp only [Qmr.start, smul_zero, add_zero, hz]
  · simp only [Qmr.start, hn]; exact norm_nonneg _
  · simp only [Qmr.start, hn]; exact norm_eq_zero.1
  · simp only [Qmr.start, hz, hn]; simp
  · intro _; simp only [Qmr.start, hz, hn]
  · intro _
    simp only [Qmr.start, hm, Est.start]
    constructor <;> simp

/-- The test only reads or replaces the scalars. -/
theorem stopping_eval (G : Goal) (t : ℕ) (shift dotSol sigma rhoPrev tauPrev tau gamma eta : ℝ) (m : Est) :
    (stopping G t shift dotSol sigma rhoPrev tauPrev tau gamma eta m).2.eval = m.eval := by
  unfold stopping
  dsimp only
  split_ifs <;> rfl

theorem stopping_est (G : Goal) (hG : G.adaptive = true) (t : ℕ) (shift dotSol sigma rhoPrev tauPrev tau gamma eta : ℝ) (m : Est)
    (hr : rhoPrev ≠ 0) :
    ((stopping G t shift dotSol sigma rhoPrev tauPrev tau gamma eta m).1 = true ∧ tau < G.lTol) ∨
      ∃ q, (stopping G t shift dotSol sigma rhoPrev tauPrev tau gamma eta m).2 =
        { m.update shift dotSol sigma rhoPrev tau gamma eta with evalPrev := q } := by
  unfold stopping
  rw [if_neg (by simpa using hr)]
  by_cases h1 : 0 < t ∧ tau < G.lTol
  · rw [if_pos h1]; exact .inl ⟨rfl, h1.2⟩
  · rw [if_neg h1, if_pos hG]
    refine .inr ?_
    dsimp only
    split_ifs
    all_goals first
      | exact ⟨_, rfl⟩

theorem stopping_stop (G : Goal) (hG : G.adaptive = false) (t : ℕ) (shift dotSol sigma rhoPrev tauPrev tau gamma eta : ℝ) (m : Est)
    (hr : rhoPrev ≠ 0) (h : (stopping G t shift dotSol sigma rhoPrev tauPrev tau gamma eta m).1 = true) :
    tau < G.lTol ∨ 0 < t ∧ G.conv m.eval (tau / G.lFac * √t) = true := by
  unfold stopping at h
  rw [if_neg (by simpa using hr)] at h
  by_cases h1 : 0 < t ∧ tau < G.lTol
  · exact .inl h1.2
  · rw [if_neg h1, if_neg (by rw [hG]; exact Bool.false_ne_true)] at h
    simp only [Bool.and_eq_true, decide_eq_true_eq] at h
    exact .inr h

theorem first_keep (o : Ops ℝ V Est) (c : Cfg) (t : ℕ) (a : Input ℝ V Est) (S : Column ℝ V Est) (hd : S.done = false)
    (h : (first o c t a S).done = false) (w : V) (hw : o.mul S.vec.shift (if c.leftX then some a.x else none) S.vec.d = w)
    (sig : ℝ) (hs : o.dot S.vec.d w = sig) :
    o.broken sig S.loc.rhoPrev = false ∧
    first o c t a S = ⟨{ S.vec with g := S.vec.g - (S.loc.rhoPrev / sig) • w }, { S.loc with alpha := S.loc.rhoPrev / sig }, sig,
      S.theta, false⟩ := by
  unfold first at h ⊢
  simp only [hd, Bool.false_eq_true, if_false] at h ⊢
  simp only [hw, hs] at h ⊢
  cases e : o.broken sig S.loc.rhoPrev with
  | true => simp [e] at h
  | false => simp

theorem Ready.step {o : Ops ℝ V Est} {c : Cfg} {a : Input ℝ V Est} {G : Goal} (h : Proj A P N) (f : Fits o c a A P N G) {t : ℕ}
    {S : Column ℝ V Est} {D : Submodule ℝ V} (R : Ready A P N G a t S D) (hPr : P a.r = a.r)
    (hd : S.done = false) (h1 : (first o c t a S).done = false) :
    Good A P N G a t (second o t (first o c t a S)) ∧
    ((second o t (first o c t a S)).done = false →
      Ready A P N G a (t + 1) (third o c a (second o t (first o c t a S))) (D ⊔ Submodule.span ℝ {S.vec.d})) := by
  obtain ⟨hb, e1⟩ := first_keep o c t a S hd h1 (opW A P a.shift S.vec.d) (by rw [R.eshift, f.mul]) _ (f.dot _ _)
  obtain ⟨hs, hr⟩ := f.broken _ _ hb
  rw [e1]
  obtain ⟨⟨sh, xk, g, d, delta, r0, sol⟩, ⟨al, rho, tp, ta, th, ga, et, m⟩, sg, te, dn⟩ := S
  obtain ⟨cg, eshift, exk, res, deltaD, solD, tau0, tauz, bound, exact', ev, est⟩ := R
  dsimp only at *
  subst eshift exk hd
  clear e1 h1 hb
  set W := opW A P a.shift with hW
  set sigma := ⟪d, W d⟫ with hsig
  set g' := g - (rho / sigma) • W d with hg'
  set D' := D ⊔ Submodule.span ℝ {d} with hD'
  have hg0 : g ≠ 0 := by
    rintro rfl
    exact hr (by rw [← cg.dg, inner_zero_right])
  have htp : 0 < tp := lt_of_le_of_ne tau0 (fun e => hg0 (tauz e.symm))
  set Th := √⟪g', g'⟫ / tp with hTh
  have hTh0 : 0 ≤ Th := by positivity
  have hgn : ‖g'‖ = Th * tp := by
    rw [hTh, div_mul_cancel₀ _ htp.ne', real_inner_self_eq_norm_mul_norm, Real.sqrt_mul_self (norm_nonneg _)]
  set C := 1 / (1 + Th * Th) with hC
  have h1T : 0 < 1 + Th * Th := by nlinarith [mul_self_nonneg Th]
  have hC1 : C * (1 + Th * Th) = 1 := by rw [hC]; field_simp
  have hcs := cos_sq Th
  rw [← hC] at hcs
  have egam : 1 / √(1 + Th * Th) * (1 / √(1 + Th * Th)) * th * th = C * th * th := by rw [hcs]
  have eeta : rho / sigma * (1 / √(1 + Th * Th)) * (1 / √(1 + Th * Th)) = rho / sigma * C := by rw [mul_assoc, hcs]
  set del' := (C * th * th) • delta + (rho / sigma * C) • d with hdel
  set tau' := tp * Th * (1 / √(1 + Th * Th)) with htau
  set q := stopping G t a.shift ⟪del' + sol, del' + sol⟫ sigma rho tp tau' (C * th * th) (rho / sigma * C) m with hq
  have e2 : second o t ⟨⟨a.shift, a.xk, g', d, delta, r0, sol⟩, ⟨rho / sigma, rho, tp, ta, th, ga, et, m⟩, sigma, te, false⟩ =
      ⟨⟨a.shift, a.xk, g', d, del', r0, del' + sol⟩, ⟨rho / sigma, rho, tp, tau', th, C * th * th, rho / sigma * C, q.2⟩, sigma, Th, q.1⟩ := by
    unfold second
    simp only [f.dot, f.sqrt, f.test, Bool.false_eq_true, if_false]
    simp only [← hTh, egam, eeta, ← hdel, ← htau, ← hq]
  rw [e2]
  clear e2
  have orth : ∀ u ∈ D', ⟪u, g'⟫ = 0 := cg.orth_next h hs
  have range := cg.range_next
  have hdm : d ∈ D' := mem_next.2 ⟨0, Submodule.zero_mem _, 1, by module⟩
  have up : ∀ u ∈ D, u ∈ D' := fun u hu => Submodule.mem_sup_left hu
  have hdel' : del' ∈ D' := Submodule.add_mem _ (Submodule.smul_mem _ _ (up _ deltaD)) (Submodule.smul_mem _ _ hdm)
  have hsol' : del' + sol ∈ D' := Submodule.add_mem _ hdel' (up _ solD)
  have hz : a.r - W (del' + sol) = (1 - C) • (a.r - W sol) + C • g' := smooth_z res
  have hgg : g' = a.r - W ((del' + sol) + (Th * Th) • del') := smooth_g hC1 res
  have htau0 : 0 ≤ tau' := by positivity
  have hb' : ‖a.r - W (del' + sol)‖ ≤ √((t : ℝ) + 2) * tau' := by
    have := smooth_bound (k := (t : ℝ) + 1) htp hTh0 (by positivity) hgn bound
    rw [hz]
    convert this using 3
    ring
  have he' : (∀ v, P v = v → N v = v) → ‖a.r - W (del' + sol)‖ = tau' := by
    intro hN
    rw [hz]
    refine smooth_exact htp hTh0 hgn (exact' hN) ?_
    have m1 : a.r - W sol ∈ D' := by
      have k1 := cg.Nr
      have k2 := cg.krylov sol solD
      rw [hN _ hPr] at k1
      rw [hN _ (opW_range h _)] at k2
      exact Submodule.sub_mem _ k1 k2
    exact orth _ m1
  have hdr : ⟪d, a.r⟫ = rho := by
    have : a.r = g + W (sol + (th * th) • delta) := by rw [res]; abel
    have hm : sol + (th * th) • delta ∈ D := Submodule.add_mem _ solD (Submodule.smul_mem _ _ deltaD)
    rw [this, inner_add_right, cg.dg, ← opW_symm h cg.dP (cg.range _ hm), real_inner_comm, cg.conj _ hm, add_zero]
  have hrec : G.adaptive = true →
      Recur W a.r del' (del' + sol) (m.update a.shift ⟪del' + sol, del' + sol⟫ sigma rho tau' (C * th * th) (rho / sigma * C)) := by
    intro hG
    refine (est hG).next (cg.conj _ deltaD) ?_ (cg.conj _ solD) ?_ hdr ?_
    · rw [← opW_symm h cg.dP (cg.range _ deltaD), real_inner_comm]; exact cg.conj _ deltaD
    · rw [← opW_symm h cg.dP (cg.range _ solD), real_inner_comm]; exact cg.conj _ solD
    · rw [← opW_symm h (cg.range _ deltaD) (cg.range _ solD), real_inner_comm]
  have hshown : ∀ qq, G.adaptive = true → Shown W a.shift a.r (del' + sol) tau'
      { m.update a.shift ⟪del' + sol, del' + sol⟫ sigma rho tau' (C * th * th) (rho / sigma * C) with evalPrev := qq } := by
    intro qq hG
    exact update_shown (hrec hG)
  have hev : q.2.eval = a.mem.eval := by rw [hq, stopping_eval, ev]
  refine ⟨⟨range _ hsol', htau0, hb', he', hev, ?_, ?_⟩, ?_⟩
  · intro hG
    rcases stopping_est G hG t a.shift ⟪del' + sol, del' + sol⟫ sigma rho tp tau' (C * th * th) (rho / sigma * C) m hr with e | ⟨qq, e⟩
    · exact .inl e
    · right
      dsimp only
      rw [hq, e]
      exact hshown qq hG
  · intro hG hdone
    have := stopping_stop G hG t a.shift ⟪del' + sol, del' + sol⟫ sigma rho tp tau' (C * th * th) (rho / sigma * C) m hr hdone
    rw [ev] at this
    exact this
  · intro hdone
    dsimp only at hdone
    have e3 : third o c a ⟨⟨a.shift, a.xk, g', d, del', r0, del' + sol⟩, ⟨rho / sigma, rho, tp, tau', th, C * th * th, rho / sigma * C, q.2⟩, sigma, Th, q.1⟩ =
        ⟨⟨a.shift, a.xk, g', N g' + (⟪g', N g'⟫ / rho) • d, del', r0, del' + sol⟩,
          ⟨rho / sigma, ⟪g', N g'⟫, tau', tau', Th, C * th * th, rho / sigma * C, q.2⟩, sigma, Th, q.1⟩ := by
      unfold third
      simp only [hdone, f.dot, f.prec, Bool.false_eq_true, if_false]
    rw [e3]
    refine ⟨cg.next h hs hr hg' rfl, rfl, rfl, hgg, hdel', hsol', htau0, ?_, ?_, he', hev, ?_⟩
    · intro e
      have hq0 : 0 < √(1 + Th * Th) := Real.sqrt_pos.2 h1T
      have : Th = 0 := by
        dsimp only at e
        rw [htau] at e
        rcases mul_eq_zero.1 e with e | e
        · rcases mul_eq_zero.1 e with e | e
          · exact absurd e htp.ne'
          · exact e
        · exact absurd e (by positivity)
      rw [this, zero_mul] at hgn
      exact norm_eq_zero.1 hgn
    · have e : ((t + 1 : ℕ) : ℝ) + 1 = t + 2 := by push_cast; ring
      rw [e]
      exact hb'
    · intro hG
      rcases stopping_est G hG t a.shift ⟪del' + sol, del' + sol⟫ sigma rho tp tau' (C * th * th) (rho / sigma * C) m hr with e | ⟨qq, e⟩
      · rw [← hq, hdone] at e
        exact absurd e.1 Bool.false_ne_true
      · dsimp only
        rw [hq, e]
        have := hrec hG
        exact ⟨this.eDelta, this.eBeta, this.ePhi, this.ePsi, this.eGamma⟩

theorem third_keep (o : Ops ℝ V Est) (c : Cfg) (a : Input ℝ V Est) (S : Column ℝ V Est) :
    (third o c a S).vec.sol = S.vec.sol ∧ (third o c a S).loc.tau = S.loc.tau ∧ (third o c a S).loc.mem = S.loc.mem ∧
      (third o c a S).done = S.done := by
  unfold third
  split_ifs <;> exact ⟨rfl, rfl, rfl, rfl⟩

/-- What a call is given: a residual in the range of the projector, its norm and the scalars before the loop. -/
structure Given (P : V →ₗ[ℝ] V) (a : Input ℝ V Est) : Prop where
  inP : P a.r = a.r
  norm : a.rnorm = ‖a.r‖
  mem : ∃ ev, a.mem = Est.start ev a.rnorm

theorem reached {o : Ops ℝ V Est} {c : Cfg} {a : Input ℝ V Est} {G : Goal} (h : Proj A P N) (f : Fits o c a A P N G) (hg : Given P a)
    (junk : ℝ) (maxIts t : ℕ) (ht : t < maxIts) (hd : (before o c junk maxIts a t).done = false) :
    ∃ D, Ready A P N G a t (before o c junk maxIts a t) D := by
  induction t with
  | zero => exact ⟨_, Ready.start h f junk hg.inP hg.norm hg.mem⟩
  | succ t ih =>
    have e : before o c junk maxIts a (t + 1) = third o c a (second o t (first o c t a (before o c junk maxIts a t))) := by
      simp only [before, if_pos ht]
    rw [e] at hd ⊢
    rw [(third_keep _ _ _ _).2.2.2] at hd
    have h1 : (first o c t a (before o c junk maxIts a t)).done = false := by
      by_contra hc
      rw [second_done _ _ _ (by simpa using hc)] at hd
      exact hc hd
    have h0 : (before o c junk maxIts a t).done = false := by
      by_contra hc
      rw [first_done _ _ _ _ _ (by simpa using hc)] at h1
      exact hc h1
    obtain ⟨D, R⟩ := ih (by omega) h0
    exact ⟨_, (R.step h f hg.inP h0 h1).2 hd⟩

/-- After an iteration without breakdown. -/
theorem good_after {o : Ops ℝ V Est} {c : Cfg} {a : Input ℝ V Est} {G : Goal} (h : Proj A P N) (f : Fits o c a A P N G) (hg : Given P a)
    (junk : ℝ) (maxIts t : ℕ) (ht : t < maxIts) (hd : (before o c junk maxIts a t).done = false)
    (h1 : (amid o c junk maxIts a t).done = false) : Good A P N G a t (before o c junk maxIts a (t + 1)) := by
  obtain ⟨D, R⟩ := reached h f hg junk maxIts t ht hd
  have g := (R.step h f hg.inP hd h1).1
  simp only [before]
  split_ifs
  · obtain ⟨k1, k2, k3, k4⟩ := third_keep o c a (second o t (first o c t a (before o c junk maxIts a t)))
    obtain ⟨g1, g2, g3, g4, g5, g6, g7⟩ := g
    constructor
    · rw [k1]; exact g1
    · rw [k2]; exact g2
    · rw [k1, k2]; exact g3
    · rw [k1, k2]; exact g4
    · rw [k3]; exact g5
    · rw [k1, k2, k3, k4]; exact g6
    · rw [k2, k4]; exact g7
  · exact g

/-- A column that is still active has not broken down. -/
theorem active_back (o : Ops ℝ V Est) (c : Cfg) (a : Input ℝ V Est) (junk : ℝ) (maxIts t : ℕ)
    (hd : (before o c junk maxIts a (t + 1)).done = false) :
    (before o c junk maxIts a t).done = false ∧ (amid o c junk maxIts a t).done = false := by
  have e : (second o t (first o c t a (before o c junk maxIts a t))).done = false := by
    simp only [before] at hd
    split_ifs at hd
    · rwa [(third_keep _ _ _ _).2.2.2] at hd
    · exact hd
  have h1 : (first o c t a (before o c junk maxIts a t)).done = false := by
    by_contra hc
    rw [second_done _ _ _ (by simpa using hc)] at e
    exact hc e
  refine ⟨?_, h1⟩
  by_contra hc
  rw [first_done _ _ _ _ _ (by simpa using hc)] at h1
  exact hc h1

/-! ### What the estimates are -/

section
open Verif.Spec.Pair

variable {x r sol : V} {lam : ℝ}

/-- The data of an approximate eigenpair and the projectors for it. -/
structure Approx (A P : V →ₗ[ℝ] V) (x : V) (lam : ℝ) (r : V) : Prop where
  unit : ‖x‖ = 1
  px : P x = 0
  er : r = A x - lam • x
  pr : P r = r

theorem Approx.facts (h : Proj A P N) (ap : Approx A P x lam r) (hs : P sol = sol) :
    ⟪x, sol⟫ = 0 ∧ ⟪x, r⟫ = 0 ∧ ⟪x, A x⟫ = lam ∧ ⟪x - sol, x - sol⟫ = 1 + ⟪sol, sol⟫ ∧ ⟪sol, A x⟫ = ⟪sol, r⟫ := by
  have h1 : ⟪x, sol⟫ = 0 := by rw [← hs, ← h.symP, ap.px, inner_zero_left]
  have h2 : ⟪x, r⟫ = 0 := by rw [← ap.pr, ← h.symP, ap.px, inner_zero_left]
  have hu : ⟪x, x⟫ = 1 := by rw [real_inner_self_eq_norm_sq, ap.unit]; norm_num
  have h1' : ⟪sol, x⟫ = 0 := by rw [real_inner_comm]; exact h1
  refine ⟨h1, h2, ?_, ?_, ?_⟩
  · have : A x = r + lam • x := by rw [ap.er]; abel
    rw [this, inner_add_right, inner_smul_right, h2, hu]; ring
  · rw [inner_sub_left, inner_sub_right, inner_sub_right, hu, h1, h1']; ring
  · have : A x = r + lam • x := by rw [ap.er]; abel
    rw [this, inner_add_right, inner_smul_right, h1']; ring

theorem Approx.value (h : Proj A P N) (ap : Approx A P x lam r) (hs : P sol = sol) :
    Pair.value A (x - sol) = s + (lam - s + 2 * (-⟪sol, r⟫) + ⟪sol, opW A P s sol⟫) / (1 + ⟪sol, sol⟫) := by
  obtain ⟨h1, h2, h3, h4, h5⟩ := ap.facts h hs
  have hp : 0 < 1 + ⟪sol, sol⟫ := by have := real_inner_self_nonneg (x := sol); linarith
  have h6 : ⟪x, A sol⟫ = ⟪sol, r⟫ := by rw [← h5, ← h.symA, real_inner_comm]
  unfold Pair.value
  rw [h4, opW_inner h hs, map_sub, inner_sub_left, inner_sub_right, inner_sub_right, h3, h5, h6, inner_sub_right, inner_smul_right]
  field_simp
  ring

/-- The squared residual norm; `inv` holds without `Q`, and for eigenvectors `Q`. -/
theorem Approx.resid (h : Proj A P N) (ap : Approx A P x lam r) (hs : P sol = sol)
    (inv : A sol - s • sol = opW A P s sol + ⟪x, A sol - s • sol⟫ • x) :
    Pair.resid A (x - sol) * Pair.resid A (x - sol) =
      ‖r - opW A P s sol‖ * ‖r - opW A P s sol‖ / (1 + ⟪sol, sol⟫) +
      (lam - s + -⟪sol, r⟫) * (lam - s + -⟪sol, r⟫) / (1 + ⟪sol, sol⟫) -
      (Pair.value A (x - sol) - s) * (Pair.value A (x - sol) - s) := by
  obtain ⟨h1, h2, h3, h4, h5⟩ := ap.facts h hs
  have hp : 0 < 1 + ⟪sol, sol⟫ := by have := real_inner_self_nonneg (x := sol); linarith
  have h6 : ⟪x, A sol⟫ = ⟪sol, r⟫ := by rw [← h5, ← h.symA, real_inner_comm]
  set y := x - sol with hy
  have hyy : ⟪y, y⟫ = 1 + ⟪sol, sol⟫ := h4
  have hxz : ⟪x, r - opW A P s sol⟫ = 0 := by
    rw [inner_sub_right, h2, ← opW_range h, ← h.symP, ap.px, inner_zero_left]; ring
  have e1 : A y - s • y = (r - opW A P s sol) + (lam - s + -⟪sol, r⟫) • x := by
    have : A y - s • y = (r + (lam - s) • x) - (A sol - s • sol) := by rw [hy, map_sub, ap.er]; module
    rw [this, inv, inner_sub_right, inner_smul_right, h6, h1]
    module
  have hu : ⟪x, x⟫ = 1 := by rw [real_inner_self_eq_norm_sq, ap.unit]; norm_num
  have e2 : ⟪A y - s • y, A y - s • y⟫ = ‖r - opW A P s sol‖ * ‖r - opW A P s sol‖ + (lam - s + -⟪sol, r⟫) * (lam - s + -⟪sol, r⟫) := by
    rw [e1, inner_add_left, inner_add_right, inner_add_right, inner_smul_left, inner_smul_right, inner_smul_left, inner_smul_right, hxz,
      real_inner_comm x, hxz, hu, ← real_inner_self_eq_norm_mul_norm]
    simp only [conj_trivial]; ring
  set v := Pair.value A y with hv
  have e3 : ⟪y, A y⟫ = v * ⟪y, y⟫ := by
    rw [hv, Pair.value, div_mul_cancel₀ _ (by rw [hyy]; exact hp.ne')]
  have e4 : ⟪A y - v • y, A y - v • y⟫ = ⟪A y - s • y, A y - s • y⟫ - (v - s) * (v - s) * ⟪y, y⟫ := by
    have : A y - v • y = (A y - s • y) - (v - s) • y := by module
    have e5 : ⟪y, A y - s • y⟫ = (v - s) * ⟪y, y⟫ := by rw [inner_sub_right, inner_smul_right, e3]; ring
    rw [this, inner_sub_left, inner_sub_right, inner_sub_right (x := (v - s) • y), inner_smul_left, inner_smul_right, inner_smul_right,
      inner_smul_left, real_inner_comm y, e5]
    simp only [conj_trivial]; ring
  have hn : ‖y‖ * ‖y‖ = 1 + ⟪sol, sol⟫ := by rw [← real_inner_self_eq_norm_mul_norm, hyy]
  have : Pair.resid A y * Pair.resid A y = ⟪A y - v • y, A y - v • y⟫ / (1 + ⟪sol, sol⟫) := by
    unfold Pair.resid
    rw [div_mul_div_comm, hn, ← real_inner_self_eq_norm_mul_norm]
  rw [this, e4, e2, hyy]
  field_simp

end

/-! ### The projectors of the solver -/

section
open Verif.Spec.Pair

/-- The first `n` vectors of `Q` are orthonormal, and `x` is a unit vector orthogonal to them. -/
structure Frame (x : V) (Q : ℕ → V) (n : ℕ) : Prop where
  unit : ‖x‖ = 1
  qx : ∀ j < n, ⟪Q j, x⟫ = 0
  qq : ∀ i < n, ∀ j < n, ⟪Q i, Q j⟫ = if i = j then 1 else 0

/-- `Pair.part` as a linear map. -/
noncomputable def partL (x : V) (Q : ℕ → V) (n : ℕ) : V →ₗ[ℝ] V where
  toFun := part x Q n
  map_add' u v := by
    unfold part
    simp only [inner_add_right, add_smul, Finset.sum_add_distrib]
    abel
  map_smul' k v := by
    unfold part
    simp only [inner_smul_right, mul_smul, ← Finset.smul_sum, RingHom.id_apply]
    module

theorem partL_apply (x : V) (Q : ℕ → V) (n : ℕ) (v : V) : partL x Q n v = part x Q n v := rfl

variable {x : V} {Q : ℕ → V} {n : ℕ}

theorem Frame.xx (h : Frame x Q n) : ⟪x, x⟫ = 1 := by rw [real_inner_self_eq_norm_sq, h.unit]; norm_num

theorem Frame.inner_Q (h : Frame x Q n) (v : V) {i : ℕ} (hi : i < n) : ⟪Q i, part x Q n v⟫ = 0 := by
  unfold part
  rw [inner_sub_right, inner_sub_right, inner_smul_right, h.qx i hi, mul_zero, sub_zero, inner_sum,
    Finset.sum_eq_single_of_mem i (Finset.mem_range.2 hi)]
  · rw [inner_smul_right, h.qq i hi i hi, if_pos rfl]; ring
  · intro j hj hne
    rw [inner_smul_right, h.qq i hi j (Finset.mem_range.1 hj), if_neg (Ne.symm hne), mul_zero]

theorem Frame.inner_x (h : Frame x Q n) (v : V) : ⟪x, part x Q n v⟫ = 0 := by
  unfold part
  rw [inner_sub_right, inner_sub_right, inner_smul_right, h.xx, inner_sum, Finset.sum_eq_zero]
  · ring
  · intro j hj
    rw [inner_smul_right, real_inner_comm (Q j) x, h.qx j (Finset.mem_range.1 hj), mul_zero]

theorem part_eq_self {v : V} (hx : ⟪x, v⟫ = 0) (hq : ∀ j < n, ⟪Q j, v⟫ = 0) : part x Q n v = v := by
  unfold part
  rw [hx, Finset.sum_eq_zero (fun j hj => by rw [hq j (Finset.mem_range.1 hj), zero_smul])]
  module

theorem Frame.idem (h : Frame x Q n) (v : V) : part x Q n (part x Q n v) = part x Q n v :=
  part_eq_self (h.inner_x v) (fun _ hj => h.inner_Q v hj)

theorem part_symm (x : V) (Q : ℕ → V) (n : ℕ) (u v : V) : ⟪part x Q n u, v⟫ = ⟪u, part x Q n v⟫ := by
  unfold part
  simp only [inner_sub_left, inner_sub_right, inner_smul_left, inner_smul_right, inner_sum, sum_inner, conj_trivial]
  have : ∀ j, ⟪Q j, u⟫ * ⟪Q j, v⟫ = ⟪Q j, v⟫ * ⟪u, Q j⟫ := fun j => by rw [real_inner_comm u]; ring
  simp only [this, real_inner_comm x u]
  ring

/-- `P v = v` means orthogonal to everything projected out. -/
theorem Frame.fixed (h : Frame x Q n) (v : V) : part x Q n v = v ↔ ⟪x, v⟫ = 0 ∧ ∀ j < n, ⟪Q j, v⟫ = 0 :=
  ⟨fun e => ⟨by rw [← e]; exact h.inner_x v, fun j hj => by rw [← e]; exact h.inner_Q v hj⟩, fun e => part_eq_self e.1 e.2⟩

theorem Frame.part_x (h : Frame x Q n) : part x Q n x = 0 := by
  unfold part
  rw [h.xx, Finset.sum_eq_zero (fun j hj => by rw [h.qx j (Finset.mem_range.1 hj), zero_smul])]
  module

theorem skew_self (Q : ℕ → V) (n : ℕ) (v : V) : skewProject Q Q n id v = v - ∑ j ∈ Finset.range n, ⟪Q j, v⟫ • Q j := rfl

theorem skew_one (x y : V) (k : ℝ) (v : V) : skewProject (fun _ => x) (fun _ => y) 1 (fun b j => b j / k) v = v - (⟪x, v⟫ / k) • y := by
  unfold skewProject
  rw [Finset.sum_range_one]

/-- Two projectors one after the other. -/
theorem Frame.two (h : Frame x Q n) (w : V) : skewProject (fun _ => x) (fun _ => x) 1 id (skewProject Q Q n id w) = part x Q n w := by
  rw [skew_self, skew_self, Finset.sum_range_one]
  have : ⟪x, w - ∑ j ∈ Finset.range n, ⟪Q j, w⟫ • Q j⟫ = ⟪x, w⟫ := by
    rw [inner_sub_right, inner_sum, Finset.sum_eq_zero, sub_zero]
    intro j hj
    rw [inner_smul_right, real_inner_comm (Q j) x, h.qx j (Finset.mem_range.1 hj), mul_zero]
  rw [this]
  rfl

theorem Frame.matrix (h : Frame x Q n) (A : V →ₗ[ℝ] V) (s : ℝ) (v : V) :
    projectedMatrix A Q n s (some x) v = opW A (partL x Q n) s v := h.two _

theorem broken_false {eps sigma rho : ℝ} (he : 0 < eps) {A K : V → V} {Q : ℕ → V} {n : ℕ} {R : RightQ V} {G : Goal}
    (h : (innerOps A K Q n R eps G).broken sigma rho = false) : sigma ≠ 0 ∧ rho ≠ 0 := by
  simp only [innerOps, Bool.or_eq_false_iff, decide_eq_false_iff_not] at h
  refine ⟨h.1.1, fun e => h.1.2 ?_⟩
  rw [e, zero_div, abs_zero]
  exact he

/-- The preconditioner as the solver applies it: `K`, with the right projectors of `c` and `R`. -/
theorem fits {A K : V →ₗ[ℝ] V} {R : RightQ V} {eps : ℝ} {G : Goal} {c : Cfg} {a : Input ℝ V Est} (h : Frame a.x Q n) (he : 0 < eps)
    (hc : c.leftX = true) {N : V →ₗ[ℝ] V} (hN : ∀ v, projectedPrec K Q R.Qhat R.n R.msolve a.xk (right c a.x a.rx) v = N v) :
    Fits (innerOps A K Q n R eps G) c a A (partL a.x Q n) N G where
  mul v := by rw [hc]; exact h.matrix A a.shift v
  prec := hN
  dot _ _ := rfl
  sqrt := rfl
  broken _ _ h := broken_false he h
  test := rfl

end

section
open Verif.Spec.Pair

variable {x : V} {Q : ℕ → V} {n : ℕ} {lam : ℝ}

theorem resid_nonneg (A : V → V) (v : V) : 0 ≤ Pair.resid A v := by unfold Pair.resid; positivity

/-- The estimates of a column after an iteration. -/
theorem estimates {a : Input ℝ V Est} {G : Goal} {t : ℕ} {S : Column ℝ V Est} (h : Proj A P N) (ap : Approx A P x lam a.r)
    (hev : a.mem.eval = lam) (inv : ∀ v, P v = v → A v - a.shift • v = opW A P a.shift v + ⟪x, A v - a.shift • v⟫ • x)
    (g : Good A P N G a t S) (hG : G.adaptive = true) (hd : S.done = false) :
    S.loc.mem.evalUpd = Pair.value A (x - S.vec.sol) ∧
    Pair.resid A (x - S.vec.sol) ^ 2 ≤ S.loc.mem.eres ^ 2 + (t + 1) * S.loc.tau ^ 2 / (1 + ‖S.vec.sol‖ ^ 2) ∧
    ((∀ v, P v = v → N v = v) → S.loc.mem.eres = Pair.resid A (x - S.vec.sol)) := by
  obtain ⟨g1, g2, g3, g4, g5, g6, _⟩ := g
  rcases g6 hG with ⟨e, _⟩ | ⟨sh1, sh2⟩
  · rw [hd] at e; exact absurd e Bool.false_ne_true
  · rw [g5, hev] at sh1 sh2
    have hv := ap.value (s := a.shift) h g1
    rw [← hv] at sh1 sh2
    have hr := ap.resid (s := a.shift) h g1 (inv _ g1)
    have hp : 0 < 1 + ⟪S.vec.sol, S.vec.sol⟫ := by have := real_inner_self_nonneg (x := S.vec.sol); linarith
    have hnn : ‖S.vec.sol‖ ^ 2 = ⟪S.vec.sol, S.vec.sol⟫ := (real_inner_self_eq_norm_sq _).symm
    refine ⟨sh1, ?_, ?_⟩
    · rw [hnn, sq (Pair.resid _ _), hr, sh2]
      have hz : ‖a.r - opW A P a.shift S.vec.sol‖ * ‖a.r - opW A P a.shift S.vec.sol‖ ≤ (t + 2) * (S.loc.tau * S.loc.tau) := by
        calc _ ≤ (√(t + 2) * S.loc.tau) * (√(t + 2) * S.loc.tau) := mul_self_le_mul_self (norm_nonneg _) g3
          _ = (√(t + 2) * √(t + 2)) * (S.loc.tau * S.loc.tau) := by ring
          _ = _ := by rw [Real.mul_self_sqrt (by positivity)]
      have hz' : ‖a.r - opW A P a.shift S.vec.sol‖ * ‖a.r - opW A P a.shift S.vec.sol‖ / (1 + ⟪S.vec.sol, S.vec.sol⟫) ≤
          S.loc.tau * S.loc.tau / (1 + ⟪S.vec.sol, S.vec.sol⟫) + (t + 1) * S.loc.tau ^ 2 / (1 + ⟪S.vec.sol, S.vec.sol⟫) := by
        rw [← add_div]
        gcongr
        nlinarith
      split_ifs with hneg
      · rw [Real.sq_sqrt (by positivity)]
        have : 0 ≤ S.loc.tau * S.loc.tau / (1 + ⟪S.vec.sol, S.vec.sol⟫) := div_nonneg (mul_self_nonneg _) hp.le
        linarith
      · rw [Real.sq_sqrt (not_lt.1 hneg)]
        linarith
    · intro hN
      rw [g4 hN] at hr
      rw [sh2, ← hr, if_neg (not_lt.2 (mul_self_nonneg _)), Real.sqrt_mul_self (resid_nonneg _ _)]

theorem Frame.inv (h : Frame x Q n) {mu : ℕ → ℝ} (symA : ∀ u v, ⟪A u, v⟫ = ⟪u, A v⟫) (hQ : ∀ j < n, A (Q j) = mu j • Q j) (v : V)
    (hv : part x Q n v = v) : A v - s • v = opW A (partL x Q n) s v + ⟪x, A v - s • v⟫ • x := by
  obtain ⟨_, hq⟩ := (h.fixed v).1 hv
  rw [opW_apply, partL_apply]
  unfold part
  rw [Finset.sum_eq_zero]
  · module
  · intro j hj
    have hj := Finset.mem_range.1 hj
    rw [inner_sub_right, inner_smul_right, ← symA, hQ j hj, inner_smul_left, hq j hj]
    simp

theorem Frame.approx (h : Frame x Q n) {mu : ℕ → ℝ} (symA : ∀ u v, ⟪A u, v⟫ = ⟪u, A v⟫) (hQ : ∀ j < n, A (Q j) = mu j • Q j)
    (hl : ⟪x, A x⟫ = lam) : Approx A (partL x Q n) x lam (A x - lam • x) where
  unit := h.unit
  px := h.part_x
  er := rfl
  pr := by
    rw [partL_apply, h.fixed]
    refine ⟨by rw [inner_sub_right, inner_smul_right, hl, h.xx]; ring, fun j hj => ?_⟩
    rw [inner_sub_right, inner_smul_right, ← symA, hQ j hj, inner_smul_left, h.qx j hj]
    simp

theorem Frame.proj (h : Frame x Q n) (symA : ∀ u v, ⟪A u, v⟫ = ⟪u, A v⟫)
    (keep : ∀ v, part x Q n v = v → part x Q n (N v) = N v)
    (symN : ∀ u v, part x Q n u = u → part x Q n v = v → ⟪N u, v⟫ = ⟪u, N v⟫) : Proj A (partL x Q n) N where
  symA := symA
  symP := part_symm x Q n
  idem := h.idem
  keep := keep
  symN := symN

end

end Verif.Inner
