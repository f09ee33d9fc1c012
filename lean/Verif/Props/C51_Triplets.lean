import Verif.Props.C48_Accuracy
import Verif.Proofs.SvdsTriplet

set_option linter.unusedSectionVars false
set_option linter.unusedSimpArgs false
set_option linter.unusedVariables false

/-!
# C51: how far singular values are from the exact ones, in exact arithmetic
-/

namespace Verif.Props
open Verif Verif.Restart Verif.Spec Verif.Rayleigh Verif.SvdTriplet Finset

section General
variable {𝕜 V : Type} [RCLike 𝕜] [AddCommGroup V] [Module 𝕜 V]

/-- The pairs of a state of the eigensolver: those locked and those offered, with their residual vectors. -/
def C51_pairs (s : St 𝕜 V) : List (Locked 𝕜 V) :=
  s.locked ++ (List.range s.b).map (fun j => ⟨ritz s j, s.hVals j, resid s j⟩)

theorem C51_pairs_spec (P : Par) (hmin : P.locking = false → P.numEvals ≤ P.minRestartSize) (ip : V → V → 𝕜) (hip : IsInner ip)
    (T : V → V) (hT : IsHermitian ip T) (s : St 𝕜 V) (h : C47_Reach P ip T id s) :
    (∀ p ∈ C51_pairs s, IsRitz ip T id p.x p.value p.res) ∧ (C51_pairs s).Pairwise (fun p q => ip p.x q.x = 0) := by
  have hI : IsHermitian ip (id : V → V) := ⟨fun _ _ => rfl, fun _ _ => rfl, fun _ _ => rfl⟩
  obtain ⟨h1, h2, h3⟩ := C47_offered_partial P hmin ip T id hip hT hI s h
  obtain ⟨h4, h5⟩ := C47_locked_partial P hmin ip T id hip hT hI s h
  constructor
  · intro p hp
    unfold C51_pairs at hp
    rcases List.mem_append.1 hp with hp | hp
    · exact h5 p hp
    · obtain ⟨j, hj, rfl⟩ := List.mem_map.1 hp
      exact (h1 j (List.mem_range.1 hj)).1
  · unfold C51_pairs
    rw [List.pairwise_append]
    refine ⟨?_, ?_, ?_⟩
    · have := (List.pairwise_append.1 h4.2).2.1
      exact List.pairwise_map.1 this
    · rw [List.pairwise_map]
      refine List.Pairwise.imp_of_mem ?_ List.pairwise_lt_range
      intro a c ha hc hac
      have := h2 a (List.mem_range.1 ha) c (List.mem_range.1 hc)
      rwa [if_neg (by omega)] at this
    · intro p hp q hq
      obtain ⟨j, hj, rfl⟩ := List.mem_map.1 hq
      exact h3 p.x (List.mem_append_right _ (List.mem_map_of_mem hp)) j (List.mem_range.1 hj)

theorem C51_real (ip : V → V → 𝕜) (hip : IsInner ip) (T : V → V) (hT : IsHermitian ip T) (x : V) (value : 𝕜) (res : V)
    (h : IsRitz ip T id x value res) : ((RCLike.re value : ℝ) : 𝕜) = value := by
  rw [← RCLike.conj_eq_iff_re, ← h.quotient]
  exact (hip.conj _ _).trans (hT.self _ _)

variable [FiniteDimensional 𝕜 V]

theorem C51_family (P : Par) (hmin : P.locking = false → P.numEvals ≤ P.minRestartSize) (ip : V → V → 𝕜) (hip : IsInner ip)
    (hpos : ∀ x, x ≠ 0 → 0 < RCLike.re (ip x x)) (T : V →ₗ[𝕜] V) (hT : IsHermitian ip T) (s : St 𝕜 V) (h : C47_Reach P ip T id s)
    (l : List (Locked 𝕜 V)) (hl : l.Sublist (C51_pairs s)) (a b d : ℝ)
    (hv : ∀ p ∈ l, a ≤ RCLike.re p.value ∧ RCLike.re p.value ≤ b)
    (hd : d = Real.sqrt ((l.map (fun p => RCLike.re (ip p.res p.res))).sum)) :
    ∃ (f : Fin l.length → V) (μ : Fin l.length → ℝ), (∀ i j, ip (f i) (f j) = if i = j then 1 else 0) ∧
      (∀ i, T (f i) = (μ i : 𝕜) • f i) ∧ ∀ i, a - d ≤ μ i ∧ μ i ≤ b + d := by
  obtain ⟨h1, h2⟩ := C51_pairs_spec P hmin ip hip T hT s h
  have hR : ∀ i : Fin l.length, IsRitz ip T id l[i].x l[i].value l[i].res := fun i => h1 _ (hl.subset (List.getElem_mem _))
  have hnn : ∀ x, 0 ≤ RCLike.re (ip x x) := by
    intro x
    by_cases hx : x = 0
    · rw [hx, ip_zero hip]; simp
    · exact le_of_lt (hpos x hx)
  have hs : ∀ j : Fin l.length, T l[j].x - ((RCLike.re l[j].value : ℝ) : 𝕜) • l[j].x = l[j].res := by
    intro j
    rw [C51_real ip hip T hT _ _ _ (hR j)]
    exact (hR j).residual.symm
  refine Spectrum.count_core ip hip hpos T hT.self l.length (fun j => l[j].x) ?_ (fun j => RCLike.re l[j].value) a b d
    (fun j => hv _ (List.getElem_mem _)) (by rw [hd]; exact Real.sqrt_nonneg _) ?_
  · intro i j
    have hp := List.pairwise_iff_getElem.1 (h2.sublist hl)
    by_cases hij : i = j
    · subst hij; rw [if_pos rfl]; exact (hR i).unit
    · rw [if_neg hij]
      rcases Nat.lt_or_gt_of_ne (fun e => hij (Fin.ext e)) with hlt | hlt
      · exact hp i j i.2 j.2 hlt
      · have h0 : ip l[j].x l[i].x = (0 : 𝕜) := hp j i j.2 i.2 hlt
        show ip l[i].x l[j].x = 0
        rw [← hip.conj, h0, star_zero]
  · have e : ∑ j : Fin l.length, RCLike.re (ip (T l[j].x - ((RCLike.re l[j].value : ℝ) : 𝕜) • l[j].x)
        (T l[j].x - ((RCLike.re l[j].value : ℝ) : 𝕜) • l[j].x)) = (l.map (fun p => RCLike.re (ip p.res p.res))).sum := by
      rw [Finset.sum_congr rfl (fun j _ => by rw [hs j])]
      rw [← List.sum_ofFn]
      congr 1
      apply List.ext_getElem
      · simp
      · intro i h1 h2; simp
    have h0 : 0 ≤ (l.map (fun p => RCLike.re (ip p.res p.res))).sum := by
      apply List.sum_nonneg
      intro x hx
      obtain ⟨p, _, rfl⟩ := List.mem_map.1 hx
      exact hnn _
    rw [hd, Real.sq_sqrt h0]
    exact le_of_eq e

end General

section Normal
variable {𝕜 E F : Type} [RCLike 𝕜] [NormedAddCommGroup E] [InnerProductSpace 𝕜 E] [NormedAddCommGroup F] [InnerProductSpace 𝕜 F]

theorem C51_inner : IsInner (inner 𝕜 : E → E → 𝕜) :=
  ⟨fun x y z => inner_add_right x y z, fun c x y => inner_smul_right x y c, fun x y => inner_conj_symm y x⟩

theorem C51_hermitian (T : E →ₗ[𝕜] E) (hT : T.IsSymmetric) : IsHermitian (inner 𝕜 : E → E → 𝕜) T :=
  ⟨map_add T, map_smul T, hT⟩

theorem C51_pos (x : E) (hx : x ≠ 0) : 0 < RCLike.re (inner 𝕜 x x : 𝕜) := by
  rw [inner_self_eq_norm_sq_to_K]
  have := norm_pos_iff.2 hx
  norm_cast
  positivity

theorem C51_unit (T : E → E) (p : Locked 𝕜 E) (h : IsRitz (inner 𝕜) T id p.x p.value p.res) : ‖p.x‖ = 1 := by
  have := h.unit
  rw [show (id p.x) = p.x from rfl, inner_self_eq_norm_sq_to_K] at this
  have h1 : ‖p.x‖ ^ 2 = 1 := by exact_mod_cast this
  have := norm_nonneg p.x
  nlinarith

theorem C51_sval (A : E →ₗ[𝕜] F) (At : F →ₗ[𝕜] E) (ha : Adjoint A At) (p : Locked 𝕜 E)
    (h : IsRitz (inner 𝕜) (normalOp A At) id p.x p.value p.res) :
    toSval p.value = ‖A p.x‖ ∧ (p.value : 𝕜) = ((toSval p.value ^ 2 : ℝ) : 𝕜) := by
  have hq := h.quotient
  rw [normal_inner A At ha] at hq
  have e : toSval p.value = ‖A p.x‖ := by
    unfold toSval
    rw [← hq, RCLike.ofReal_re, max_eq_right (by positivity), Real.sqrt_sq (norm_nonneg _)]
  exact ⟨e, by rw [e, hq]⟩

/-- What a pair of the normal equations becomes. -/
theorem C51_convert (A : E →ₗ[𝕜] F) (At : F →ₗ[𝕜] E) (ha : Adjoint A At) (p : Locked 𝕜 E) (aNorm : ℝ)
    (h : IsRitz (inner 𝕜) (normalOp A At) id p.x p.value p.res) (hs : 0 < (fromAtA A aNorm p).sval) :
    ‖(fromAtA A aNorm p).u‖ = 1 ∧ A (fromAtA A aNorm p).v = ((fromAtA A aNorm p).sval : 𝕜) • (fromAtA A aNorm p).u ∧
    tripletResidual A At (fromAtA A aNorm p).u (fromAtA A aNorm p).sval (fromAtA A aNorm p).v =
      ‖p.res‖ / (fromAtA A aNorm p).sval := by
  obtain ⟨e1, e2⟩ := C51_sval A At ha p h
  change 0 < toSval p.value at hs
  have hu : (fromAtA A aNorm p).u = ((1 / toSval p.value : ℝ) : 𝕜) • A p.x := by
    show scalInv _ _ = _
    unfold scalInv; rw [if_pos hs]
  have hmul : A p.x = (toSval p.value : 𝕜) • (fromAtA A aNorm p).u := by
    rw [hu, smul_smul, ← RCLike.ofReal_mul, mul_one_div_cancel (ne_of_gt hs)]; simp
  refine ⟨?_, hmul, ?_⟩
  · rw [hu, norm_smul, ← e1, RCLike.norm_ofReal, abs_of_pos (by positivity), one_div_mul_cancel (ne_of_gt hs)]
  · have hr : At (fromAtA A aNorm p).u - (toSval p.value : 𝕜) • p.x = ((1 / toSval p.value : ℝ) : 𝕜) • p.res := by
      have e3 : ((1 / toSval p.value : ℝ) : 𝕜) • p.value • p.x = (toSval p.value : 𝕜) • p.x := by
        have key : ∀ σ : ℝ, 0 < σ → p.value = ((σ ^ 2 : ℝ) : 𝕜) → ((1 / σ : ℝ) : 𝕜) • p.value • p.x = (σ : 𝕜) • p.x := by
          intro σ hσ e
          rw [e, smul_smul, ← RCLike.ofReal_mul]
          congr 2
          field_simp
        exact key _ hs e2
      rw [h.residual, hu, map_smul, smul_sub, show id p.x = p.x from rfl, e3]
      rfl
    unfold tripletResidual
    rw [show A (fromAtA A aNorm p).v - ((fromAtA A aNorm p).sval : 𝕜) • (fromAtA A aNorm p).u = 0 from sub_eq_zero.2 hmul]
    rw [show At (fromAtA A aNorm p).u - ((fromAtA A aNorm p).sval : 𝕜) • (fromAtA A aNorm p).v = _ from hr]
    rw [norm_zero, norm_smul, RCLike.norm_ofReal, abs_of_pos (by positivity)]
    rw [show (0 : ℝ) ^ 2 + (1 / toSval p.value * ‖p.res‖) ^ 2 = (1 / toSval p.value * ‖p.res‖) ^ 2 by ring,
      Real.sqrt_sq (by positivity)]
    show _ = ‖p.res‖ / toSval p.value
    ring

theorem C51_convert_bound (A : E →ₗ[𝕜] F) (At : F →ₗ[𝕜] E) (ha : Adjoint A At) (u : F) (s : ℝ) (v : E) (aNorm : ℝ) (h0 : 0 ≤ aNorm)
    (hn : ∀ y, ‖At y‖ ≤ aNorm * ‖y‖) (hu : ‖u‖ = 1) (hv : ‖v‖ = 1) (hm : A v = (s : 𝕜) • u) :
    tripletResidual A At u s v ≤ aNorm := by
  unfold tripletResidual
  rw [hm, sub_self, norm_zero]
  apply Real.sqrt_le_iff.2
  refine ⟨h0, ?_⟩
  have e : ‖At u - (s : 𝕜) • v‖ ^ 2 = ‖At u‖ ^ 2 - s ^ 2 := by
    rw [@norm_sub_sq 𝕜]
    have : (inner 𝕜 (At u) ((s : 𝕜) • v) : 𝕜) = ((s ^ 2 : ℝ) : 𝕜) := by
      rw [inner_smul_right, adjoint_swap A At ha, hm, inner_smul_right, inner_self_eq_norm_sq_to_K, hu]
      norm_cast; ring
    rw [this, RCLike.ofReal_re, norm_smul, hv, RCLike.norm_ofReal, mul_one, sq_abs]
    ring
  have h1 := hn u
  rw [hu, mul_one] at h1
  have := norm_nonneg (At u)
  rw [e]
  nlinarith [sq_nonneg s]

/-- A triplet made of a pair of the normal equations `A'A` has a right vector of norm one and the singular value `|A v|`.  If
that is not zero, the left vector has norm one, `A v = s u`, and the residual norm reported is that of the triplet, or
`aNorm` if that is smaller, which does not happen if `aNorm` bounds the norm of the matrix. -/
theorem C51_normal_partial (P : Par) (hmin : P.locking = false → P.numEvals ≤ P.minRestartSize) (A : E →ₗ[𝕜] F) (At : F →ₗ[𝕜] E)
    (ha : Adjoint A At) (aNorm : ℝ) (s : St 𝕜 E) (h : C47_Reach P (inner 𝕜) (normalOp A At) id s) (p : Locked 𝕜 E)
    (hp : p ∈ C51_pairs s) (t : Triplet E F) (ht : t = fromAtA A aNorm p) :
    ‖t.v‖ = 1 ∧ t.sval = ‖A t.v‖ ∧ (0 < t.sval → ‖t.u‖ = 1 ∧ A t.v = (t.sval : 𝕜) • t.u ∧
      t.rnorm = min (tripletResidual A At t.u t.sval t.v) aNorm ∧
      (0 ≤ aNorm → (∀ y, ‖At y‖ ≤ aNorm * ‖y‖) → t.rnorm = tripletResidual A At t.u t.sval t.v)) := by
  have hR := (C51_pairs_spec P hmin _ C51_inner _ (C51_hermitian _ (normal_symm A At ha)) s h).1 p hp
  subst ht
  refine ⟨C51_unit _ p hR, (C51_sval A At ha p hR).1, fun hs => ?_⟩
  obtain ⟨h1, h2, h3⟩ := C51_convert A At ha p aNorm hR hs
  have h4 : (fromAtA A aNorm p).rnorm =
      min (tripletResidual A At (fromAtA A aNorm p).u (fromAtA A aNorm p).sval (fromAtA A aNorm p).v) aNorm := by
    rw [h3]
    exact if_neg (ne_of_gt hs)
  refine ⟨h1, h2, h4, fun h5 h6 => ?_⟩
  rw [h4, min_eq_left]
  exact C51_convert_bound A At ha _ _ _ aNorm h5 h6 h1 (C51_unit _ p hR) h2

/-- The same with `A A'`: then the left vector is the one found and the right one is computed. -/
theorem C51_left_partial (P : Par) (hmin : P.locking = false → P.numEvals ≤ P.minRestartSize) (A : E →ₗ[𝕜] F) (At : F →ₗ[𝕜] E)
    (ha : Adjoint A At) (aNorm : ℝ) (s : St 𝕜 F) (h : C47_Reach P (inner 𝕜) (normalOp At A) id s) (p : Locked 𝕜 F)
    (hp : p ∈ C51_pairs s) (t : Triplet E F) (ht : t = fromAAt At aNorm p) :
    ‖t.u‖ = 1 ∧ t.sval = ‖At t.u‖ ∧ (0 < t.sval → ‖t.v‖ = 1 ∧ At t.u = (t.sval : 𝕜) • t.v ∧
      t.rnorm = min (tripletResidual A At t.u t.sval t.v) aNorm ∧
      (0 ≤ aNorm → (∀ y, ‖A y‖ ≤ aNorm * ‖y‖) → t.rnorm = tripletResidual A At t.u t.sval t.v)) := by
  subst ht
  have := C51_normal_partial P hmin At A (adjoint_swap A At ha) aNorm s h p hp _ rfl
  simp only [residual_swap A At]
  exact this

variable [FiniteDimensional 𝕜 E]

/-- Several triplets with values between `a` and `b`, made of pairs, locked or offered, of the normal equations: the matrix has
as many exact singular triplets, with orthonormal vectors, with values between the roots of `a^2 - d` and `b^2 + d`, where
`d` is the root of the sum of the squares of the residual norms of the pairs. -/
theorem C51_normalCount_partial (P : Par) (hmin : P.locking = false → P.numEvals ≤ P.minRestartSize) (A : E →ₗ[𝕜] F) (At : F →ₗ[𝕜] E)
    (ha : Adjoint A At) (aNorm : ℝ) (s : St 𝕜 E) (h : C47_Reach P (inner 𝕜) (normalOp A At) id s) (l : List (Locked 𝕜 E))
    (hl : l.Sublist (C51_pairs s)) (a b d : ℝ)
    (hv : ∀ p ∈ l, a ≤ (fromAtA A aNorm p).sval ∧ (fromAtA A aNorm p).sval ≤ b)
    (hd : d = Real.sqrt ((l.map (fun p => ‖p.res‖ ^ 2)).sum)) (h0 : 0 < a) (hda : d < a ^ 2) :
    ∃ (u : Fin l.length → F) (σ : Fin l.length → ℝ) (v : Fin l.length → E), IsSingular A At l.length u σ v ∧
      ∀ i, a ^ 2 - d ≤ σ i ^ 2 ∧ σ i ^ 2 ≤ b ^ 2 + d := by
  have hR := (C51_pairs_spec P hmin _ C51_inner _ (C51_hermitian _ (normal_symm A At ha)) s h).1
  obtain ⟨f, μ, k1, k2, k3⟩ := C51_family P hmin _ C51_inner C51_pos _ (C51_hermitian _ (normal_symm A At ha)) s h l hl (a ^ 2) (b ^ 2) d
    (by
      intro p hp
      obtain ⟨q1, q2⟩ := hv p hp
      change a ≤ toSval p.value at q1
      change toSval p.value ≤ b at q2
      have := (C51_sval A At ha p (hR p (hl.subset hp))).2
      rw [this, RCLike.ofReal_re]
      exact ⟨by nlinarith, by nlinarith⟩)
    (by
      rw [hd]
      congr 3
      funext p
      rw [inner_self_eq_norm_sq_to_K]
      norm_cast)
  have hp : ∀ i, 0 < μ i := fun i => by have := (k3 i).1; linarith
  refine ⟨_, _, f, singular_of_normal A At ha _ f μ k1 k2 hp, ?_⟩
  intro i
  rw [Real.sq_sqrt (le_of_lt (hp i))]
  exact k3 i

theorem C51_near_of (A : E →ₗ[𝕜] F) (At : F →ₗ[𝕜] E) (P : Par) (hmin : P.locking = false → P.numEvals ≤ P.minRestartSize)
    (ha : Adjoint A At) (aNorm : ℝ) (s : St 𝕜 E) (h : C47_Reach P (inner 𝕜) (normalOp A At) id s) (p : Locked 𝕜 E)
    (hp : p ∈ C51_pairs s) (hs : 0 < (fromAtA A aNorm p).sval)
    (hr : tripletResidual A At (fromAtA A aNorm p).u (fromAtA A aNorm p).sval (fromAtA A aNorm p).v < (fromAtA A aNorm p).sval) :
    ∃ (u : Fin 1 → F) (σ : Fin 1 → ℝ) (v : Fin 1 → E), IsSingular A At 1 u σ v ∧
      |σ 0 - (fromAtA A aNorm p).sval| ≤
        tripletResidual A At (fromAtA A aNorm p).u (fromAtA A aNorm p).sval (fromAtA A aNorm p).v := by
  have hR := (C51_pairs_spec P hmin _ C51_inner _ (C51_hermitian _ (normal_symm A At ha)) s h).1 p hp
  obtain ⟨h1, h2, h3⟩ := C51_convert A At ha p aNorm hR hs
  rw [h3] at hr ⊢
  generalize hσ : (fromAtA A aNorm p).sval = σ at *
  have hd : Real.sqrt (([p].map (fun p => ‖p.res‖ ^ 2)).sum) = ‖p.res‖ := by simp [Real.sqrt_sq (norm_nonneg _)]
  have hr' : ‖p.res‖ < σ ^ 2 := by
    rw [div_lt_iff₀ hs] at hr
    nlinarith
  obtain ⟨u, τ, v, k1, k2⟩ := C51_normalCount_partial P hmin A At ha aNorm s h [p] (List.singleton_sublist.2 hp) σ σ ‖p.res‖
    (fun q hq => by rw [List.mem_singleton.1 hq, hσ]; exact ⟨le_refl _, le_refl _⟩) hd.symm hs hr'
  refine ⟨u, τ, v, k1, ?_⟩
  obtain ⟨q1, q2⟩ := k2 0
  have hτ := k1.pos 0
  have e : |τ 0 - σ| * σ ≤ ‖p.res‖ := by
    have h4 : |τ 0 - σ| * (τ 0 + σ) ≤ ‖p.res‖ := by
      rw [← abs_of_pos (add_pos hτ hs), ← abs_mul]
      rw [abs_le]
      constructor <;> nlinarith
    have := abs_nonneg (τ 0 - σ)
    change 0 < τ 0 at hτ
    nlinarith
  rw [le_div_iff₀ hs]
  exact e

/-- A triplet of the normal equations whose residual norm is less than its singular value: the latter is within the residual
norm of an exact singular value. -/
theorem C51_normalNear_partial (P : Par) (hmin : P.locking = false → P.numEvals ≤ P.minRestartSize) (A : E →ₗ[𝕜] F) (At : F →ₗ[𝕜] E)
    (ha : Adjoint A At) (aNorm : ℝ) (s : St 𝕜 E) (h : C47_Reach P (inner 𝕜) (normalOp A At) id s) (p : Locked 𝕜 E)
    (hp : p ∈ C51_pairs s) (t : Triplet E F) (ht : t = fromAtA A aNorm p) (hs : 0 < t.sval)
    (hr : tripletResidual A At t.u t.sval t.v < t.sval) :
    ∃ (u : Fin 1 → F) (σ : Fin 1 → ℝ) (v : Fin 1 → E), IsSingular A At 1 u σ v ∧
      |σ 0 - t.sval| ≤ tripletResidual A At t.u t.sval t.v := by
  subst ht
  exact C51_near_of A At P hmin ha aNorm s h p hp hs hr

/-- Singular values offered are never ahead of the exact ones: if `m` values are offered at or above `b > 0`, the matrix has
`m` orthonormal singular triplets with values at or above `b`; and if `m` are offered at or below `b`, there are `m` orthonormal
right vectors, eigenvectors of `A'A`, with values at or below `b^2`. -/
theorem C51_normalMinmax_partial (P : Par) (hmin : P.locking = false → P.numEvals ≤ P.minRestartSize) (A : E →ₗ[𝕜] F) (At : F →ₗ[𝕜] E)
    (ha : Adjoint A At) (s : St 𝕜 E) (h : C47_Reach P (inner 𝕜) (normalOp A At) id s) (b : ℝ) (hb : 0 < b) (m : ℕ) :
    (m ≤ ((range s.b).filter fun j => b ≤ toSval (s.hVals j)).card →
      ∃ (u : Fin m → F) (σ : Fin m → ℝ) (v : Fin m → E), IsSingular A At m u σ v ∧ ∀ i, b ≤ σ i) ∧
    (m ≤ ((range s.b).filter fun j => toSval (s.hVals j) ≤ b).card →
      ∃ (v : Fin m → E) (σ : Fin m → ℝ), _root_.Orthonormal 𝕜 v ∧ ∀ i, 0 ≤ σ i ∧ σ i ≤ b ∧ At (A (v i)) = ((σ i ^ 2 : ℝ) : 𝕜) • v i) := by
  have hR := (C51_pairs_spec P hmin _ C51_inner _ (C51_hermitian _ (normal_symm A At ha)) s h).1
  have hval : ∀ j < s.b, RCLike.re (s.hVals j) = toSval (s.hVals j) ^ 2 ∧ 0 ≤ toSval (s.hVals j) := by
    intro j hj
    have := (C51_sval A At ha _ (hR _ (List.mem_append_right _ (List.mem_map.2 ⟨j, List.mem_range.2 hj, rfl⟩)))).2
    change s.hVals j = ((toSval (s.hVals j) ^ 2 : ℝ) : 𝕜) at this
    have h2 : RCLike.re (s.hVals j) = RCLike.re ((toSval (s.hVals j) ^ 2 : ℝ) : 𝕜) := congrArg _ this
    rw [RCLike.ofReal_re] at h2
    exact ⟨h2, Real.sqrt_nonneg _⟩
  have hm := C48_massMinmax_partial P hmin (normalOp A At) LinearMap.id (normal_symm A At ha) (fun _ _ => rfl) 1 one_pos
    (fun x => by
      show 1 * ‖x‖ ^ 2 ≤ RCLike.re (inner 𝕜 x x : 𝕜)
      rw [inner_self_eq_norm_sq_to_K, one_mul]
      norm_cast) s h (b ^ 2) m
  constructor
  · intro hc
    have e : ((range s.b).filter fun j => b ≤ toSval (s.hVals j)) = (range s.b).filter fun j => b ^ 2 ≤ RCLike.re (s.hVals j) := by
      apply filter_congr
      intro j hj
      obtain ⟨e1, e2⟩ := hval j (mem_range.1 hj)
      rw [e1]
      constructor
      · intro h1; nlinarith
      · intro h1; by_contra h2; nlinarith
    rw [e] at hc
    obtain ⟨f, μ, k1, k2⟩ := hm.2 hc
    have hp : ∀ i, 0 < μ i := fun i => by have := k2 i; nlinarith [sq_pos_of_pos hb]
    refine ⟨_, _, f, singular_of_normal A At ha m f μ k1.orth k1.eigen hp, ?_⟩
    intro i
    exact Real.le_sqrt_of_sq_le (k2 i)
  · intro hc
    have e : ((range s.b).filter fun j => toSval (s.hVals j) ≤ b) = (range s.b).filter fun j => RCLike.re (s.hVals j) ≤ b ^ 2 := by
      apply filter_congr
      intro j hj
      obtain ⟨e1, e2⟩ := hval j (mem_range.1 hj)
      rw [e1]
      constructor
      · intro h1; nlinarith
      · intro h1; by_contra h2; nlinarith
    rw [e] at hc
    obtain ⟨f, μ, k1, k2⟩ := hm.1 hc
    refine ⟨f, fun i => Real.sqrt (μ i), orthonormal_iff_ite.2 k1.orth, ?_⟩
    intro i
    have hi : At (A (f i)) = (μ i : 𝕜) • f i := k1.eigen i
    have hnn : 0 ≤ μ i := by
      have e1 := normal_inner A At ha (f i)
      change inner 𝕜 (f i) (At (A (f i))) = _ at e1
      have e2 : (inner 𝕜 (f i) (f i) : 𝕜) = 1 := by have := k1.orth i i; rw [if_pos rfl] at this; exact this
      rw [hi, inner_smul_right, e2, mul_one] at e1
      have : μ i = ‖A (f i)‖ ^ 2 := by exact_mod_cast e1
      rw [this]; positivity
    refine ⟨Real.sqrt_nonneg _, (Real.sqrt_le_left (le_of_lt hb)).2 (k2 i), ?_⟩
    rw [Real.sq_sqrt hnn]
    exact hi

end Normal

section Left
variable {𝕜 E F : Type} [RCLike 𝕜] [NormedAddCommGroup E] [InnerProductSpace 𝕜 E] [NormedAddCommGroup F] [InnerProductSpace 𝕜 F]
  [FiniteDimensional 𝕜 F]

/-- `C51_normalNear_partial` for `A A'`. -/
theorem C51_leftNear_partial (P : Par) (hmin : P.locking = false → P.numEvals ≤ P.minRestartSize) (A : E →ₗ[𝕜] F) (At : F →ₗ[𝕜] E)
    (ha : Adjoint A At) (aNorm : ℝ) (s : St 𝕜 F) (h : C47_Reach P (inner 𝕜) (normalOp At A) id s) (p : Locked 𝕜 F)
    (hp : p ∈ C51_pairs s) (t : Triplet E F) (ht : t = fromAAt At aNorm p) (hs : 0 < t.sval)
    (hr : tripletResidual A At t.u t.sval t.v < t.sval) :
    ∃ (u : Fin 1 → F) (σ : Fin 1 → ℝ) (v : Fin 1 → E), IsSingular A At 1 u σ v ∧
      |σ 0 - t.sval| ≤ tripletResidual A At t.u t.sval t.v := by
  subst ht
  rw [residual_swap A At] at hr ⊢
  obtain ⟨u, σ, v, k1, k2⟩ := C51_near_of At A P hmin (adjoint_swap A At ha) aNorm s h p hp hs hr
  exact ⟨v, σ, u, singular_swap A At 1 v σ u k1, k2⟩

end Left

section Augmented
variable {𝕜 E F : Type} [RCLike 𝕜] [NormedAddCommGroup E] [InnerProductSpace 𝕜 E] [NormedAddCommGroup F] [InnerProductSpace 𝕜 F]

/-- A triplet made of a pair of the augmented problem whose halves have the same norm: the vectors have norm one and the residual
norm reported is that of the triplet. -/
theorem C51_augmented_partial (P : Par) (hmin : P.locking = false → P.numEvals ≤ P.minRestartSize) (A : E →ₗ[𝕜] F) (At : F →ₗ[𝕜] E)
    (ha : Adjoint A At) (s : St 𝕜 (E × F)) (h : C47_Reach P ip2 (augOp A At) id s) (p : Locked 𝕜 (E × F))
    (hp : p ∈ C51_pairs s) (hbal : ‖p.x.1‖ = ‖p.x.2‖) (t : Triplet E F) (ht : t = fromAug p) :
    ‖t.u‖ = 1 ∧ ‖t.v‖ = 1 ∧ t.rnorm = tripletResidual A At t.u t.sval t.v := by
  have hR := (C51_pairs_spec P hmin _ ip2_inner _ (aug_hermitian A At ha) s h).1 p hp
  have hre := C51_real _ ip2_inner _ (aug_hermitian A At ha) _ _ _ hR
  have hu := hR.unit
  rw [show id p.x = p.x from rfl, ip2_self] at hu
  have hu' : ‖p.x.1‖ ^ 2 + ‖p.x.2‖ ^ 2 = 1 := by exact_mod_cast hu
  have hn : ‖p.x.2‖ ^ 2 = 1 / 2 := by rw [hbal] at hu'; linarith
  have hpos : 0 < ‖p.x.2‖ := by
    have h0 := norm_nonneg p.x.2
    rcases lt_or_eq_of_le h0 with h1 | h1
    · exact h1
    · rw [← h1] at hn; norm_num at hn
  have h1 : p.res.1 = At p.x.2 - (RCLike.re p.value : 𝕜) • p.x.1 := by
    have := congrArg Prod.fst hR.residual
    rw [← hre] at this
    exact this
  have h2 : p.res.2 = A p.x.1 - (RCLike.re p.value : 𝕜) • p.x.2 := by
    have := congrArg Prod.snd hR.residual
    rw [← hre] at this
    exact this
  subst ht
  have hsq : (1 / ‖p.x.2‖) ^ 2 = 2 := by rw [div_pow, one_pow, hn]; norm_num
  have nsm : ∀ {G : Type} [NormedAddCommGroup G] [InnerProductSpace 𝕜 G] (z : G),
      ‖((1 / ‖p.x.2‖ : ℝ) : 𝕜) • z‖ ^ 2 = 2 * ‖z‖ ^ 2 := by
    intro G _ _ z
    rw [norm_smul, RCLike.norm_ofReal, abs_of_pos (by positivity), mul_pow, hsq]
  refine ⟨?_, ?_, ?_⟩
  · show ‖((1 / ‖p.x.2‖ : ℝ) : 𝕜) • p.x.2‖ = 1
    rw [norm_smul, RCLike.norm_ofReal, abs_of_pos (by positivity), one_div_mul_cancel (ne_of_gt hpos)]
  · show ‖((1 / ‖p.x.1‖ : ℝ) : 𝕜) • p.x.1‖ = 1
    rw [hbal, norm_smul, RCLike.norm_ofReal, abs_of_pos (by positivity), hbal, one_div_mul_cancel (ne_of_gt hpos)]
  · show Real.sqrt (RCLike.re (ip2 p.res p.res : 𝕜)) * Real.sqrt 2 =
      tripletResidual A At (((1 / ‖p.x.2‖ : ℝ) : 𝕜) • p.x.2) (RCLike.re p.value) (((1 / ‖p.x.1‖ : ℝ) : 𝕜) • p.x.1)
    unfold tripletResidual
    rw [hbal, map_smul, map_smul, smul_comm (RCLike.re p.value : 𝕜), smul_comm (RCLike.re p.value : 𝕜), ← smul_sub, ← smul_sub, ← h1,
      ← h2, nsm, nsm, ip2_self, RCLike.ofReal_re, ← Real.sqrt_mul (by positivity)]
    congr 1
    ring

variable [FiniteDimensional 𝕜 E] [FiniteDimensional 𝕜 F]

/-- Several triplets with values between `a` and `b`, made of pairs, locked or offered, of the augmented problem: the matrix has as
many exact singular triplets, with orthonormal vectors, with values between `a - d` and `b + d`, where `d` is the root of half the sum
of the squares of the residual norms reported. -/
theorem C51_augmentedCount_partial (P : Par) (hmin : P.locking = false → P.numEvals ≤ P.minRestartSize) (A : E →ₗ[𝕜] F)
    (At : F →ₗ[𝕜] E) (ha : Adjoint A At) (s : St 𝕜 (E × F)) (h : C47_Reach P ip2 (augOp A At) id s)
    (l : List (Locked 𝕜 (E × F))) (hl : l.Sublist (C51_pairs s)) (a b d : ℝ)
    (hv : ∀ p ∈ l, a ≤ (fromAug p).sval ∧ (fromAug p).sval ≤ b)
    (hd : d = Real.sqrt ((l.map (fun p => (fromAug p).rnorm ^ 2 / 2)).sum)) (hda : d < a) :
    ∃ (u : Fin l.length → F) (σ : Fin l.length → ℝ) (v : Fin l.length → E), IsSingular A At l.length u σ v ∧
      ∀ i, a - d ≤ σ i ∧ σ i ≤ b + d := by
  obtain ⟨f, μ, k1, k2, k3⟩ := C51_family P hmin _ ip2_inner ip2_pos _ (aug_hermitian A At ha) s h l hl a b d hv
    (by
      rw [hd]
      congr 3
      funext p
      show (Real.sqrt (RCLike.re (ip2 p.res p.res : 𝕜)) * Real.sqrt 2) ^ 2 / 2 = _
      rw [mul_pow, Real.sq_sqrt (by rw [ip2_self, RCLike.ofReal_re]; positivity), Real.sq_sqrt (by norm_num)]
      ring)
  have hp : ∀ i, 0 < μ i := fun i => by have := (k3 i).1; linarith
  exact ⟨_, μ, _, singular_of_aug A At ha _ f μ k1 k2 hp, k3⟩

/-- A triplet of the augmented problem whose residual norm, as reported, is less than its singular value: the latter is
within the residual norm of an exact singular value. -/
theorem C51_augmentedNear_partial (P : Par) (hmin : P.locking = false → P.numEvals ≤ P.minRestartSize) (A : E →ₗ[𝕜] F)
    (At : F →ₗ[𝕜] E) (ha : Adjoint A At) (s : St 𝕜 (E × F)) (h : C47_Reach P ip2 (augOp A At) id s) (p : Locked 𝕜 (E × F))
    (hp : p ∈ C51_pairs s) (t : Triplet E F) (ht : t = fromAug p) (hr : t.rnorm < t.sval) :
    ∃ (u : Fin 1 → F) (σ : Fin 1 → ℝ) (v : Fin 1 → E), IsSingular A At 1 u σ v ∧ |σ 0 - t.sval| ≤ t.rnorm := by
  subst ht
  have hnn : 0 ≤ (fromAug p).rnorm := mul_nonneg (Real.sqrt_nonneg _) (Real.sqrt_nonneg _)
  have hle : Real.sqrt (([p].map (fun p => (fromAug p).rnorm ^ 2 / 2)).sum) ≤ (fromAug p).rnorm := by
    simp only [List.map_cons, List.map_nil, List.sum_cons, List.sum_nil, add_zero]
    apply Real.sqrt_le_iff.2
    exact ⟨hnn, by nlinarith [sq_nonneg (fromAug p).rnorm]⟩
  obtain ⟨u, σ, v, k1, k2⟩ := C51_augmentedCount_partial P hmin A At ha s h [p] (List.singleton_sublist.2 hp) (fromAug p).sval
    (fromAug p).sval _ (fun q hq => by rw [List.mem_singleton.1 hq]; exact ⟨le_refl _, le_refl _⟩) rfl (lt_of_le_of_lt hle hr)
  have : _ ∧ _ := k2 (0 : Fin 1)
  change _ ≤ σ (0 : Fin 1) ∧ σ (0 : Fin 1) ≤ _ at this
  exact ⟨u, σ, v, k1, abs_le.2 ⟨by linarith [this.1], by linarith [this.2]⟩⟩

end Augmented

section Examples

/-- The state of the eigensolver with one vector in the basis. -/
def C51_first {𝕜 V : Type} [RCLike 𝕜] [AddCommGroup V] [Module 𝕜 V] (ip : V → V → 𝕜) (T : V → V) (x : V) (value : 𝕜) : St 𝕜 V :=
  expand ip T id ⟨0, fun _ => 0, fun _ => 0, fun _ => 0, fun _ _ => 0, fun _ _ => 0, fun _ => 0, [], []⟩ 1 (fun _ => x)
    ⟨fun _ _ => 1, fun _ => value⟩

theorem C51_first_spec {𝕜 V : Type} [RCLike 𝕜] [AddCommGroup V] [Module 𝕜 V] (P : Par) (ip : V → V → 𝕜) (T : V → V) (x : V) (value : 𝕜)
    (h1 : ip x x = 1) (h2 : ip x (T x) = value) (h3 : star value = value) :
    C47_Reach P ip T id (C51_first ip T x value) ∧ C51_pairs (C51_first ip T x value) = [⟨x, value, T x - value • x⟩] := by
  have hH : sym (C51_first ip T x value).H 0 0 = value := by
    simp [sym, C51_first, expand, h2]
  refine ⟨C47_Reach.grow ⟨0, fun _ => 0, fun _ => 0, fun _ => 0, fun _ _ => 0, fun _ _ => 0, fun _ => 0, [], []⟩ 1 _ _
    (C47_Reach.start _ rfl rfl ⟨fun x hx => (by cases hx), List.Pairwise.nil⟩)
    ⟨?_, fun i hi => absurd hi (Nat.not_lt_zero i), fun x hx => (List.not_mem_nil hx).elim⟩ ⟨?_, ?_, ?_⟩, ?_⟩
  · intro i hi j hj
    have : i = j := by omega
    rw [if_pos this]
    exact h1
  · intro i hi j hj
    have e1 : i = 0 := by simpa using hi
    have e2 : j = 0 := by simpa using hj
    subst e1; subst e2
    simp
  · intro i hi j hj
    have e1 : i = 0 := by simpa using hi
    subst e1
    rw [show (0 : ℕ) + 1 = 1 from rfl, sum_range_one]
    change sym (C51_first ip T x value).H 0 0 * 1 = value * 1
    rw [hH]
  · intro j _; exact h3
  · have hb : (C51_first ip T x value).b = 1 := rfl
    unfold C51_pairs
    rw [hb]
    simp only [List.range_one, List.map_cons, List.map_nil]
    unfold ritz resid ritzW ritzBV comb
    rw [hb, sum_range_one, sum_range_one, sum_range_one]
    simp [C51_first, expand]

/-- The matrix with the single row `1 10`. -/
noncomputable def C51_row : EuclideanSpace ℝ (Fin 2) →ₗ[ℝ] ℝ where
  toFun x := x 0 + 10 * x 1
  map_add' x y := by simp; ring
  map_smul' c x := by simp; ring

noncomputable def C51_rowT : ℝ →ₗ[ℝ] EuclideanSpace ℝ (Fin 2) where
  toFun y := !₂[y, 10 * y]
  map_add' x y := by ext i; fin_cases i <;> simp <;> ring
  map_smul' c x := by ext i; fin_cases i <;> simp <;> ring

theorem C51_row_adjoint : Adjoint C51_row C51_rowT := by
  intro x y
  simp [C51_row, C51_rowT, PiLp.inner_apply, Fin.sum_univ_two]
  ring

theorem C51_row_reach (P : Par) (s : St ℝ (EuclideanSpace ℝ (Fin 2)))
    (hs : s = C51_first (inner ℝ) (normalOp C51_row C51_rowT) !₂[1, 0] 1) :
    C47_Reach P (inner ℝ) (normalOp C51_row C51_rowT) id s ∧ C51_pairs s = [⟨!₂[1, 0], 1, !₂[0, 10]⟩] := by
  subst hs
  obtain ⟨h1, h2⟩ := C51_first_spec P (inner ℝ) (normalOp C51_row C51_rowT) (!₂[1, 0] : EuclideanSpace ℝ (Fin 2)) 1
    (by rw [PiLp.inner_apply, Fin.sum_univ_two]; simp) (by simp [normalOp, C51_row, C51_rowT, PiLp.inner_apply, Fin.sum_univ_two]) (by simp)
  refine ⟨h1, h2.trans ?_⟩
  congr 2
  ext i; fin_cases i <;> simp [normalOp, C51_row, C51_rowT]

/-- What a user expects of the residual norms reported with the normal equations: they are those of the triplets, when the norm of
the matrix is the estimate that the eigensolver makes, its largest value so far.  This is not so: the smaller of the two is reported,
and the estimate can be less.  Here the matrix is a row `1 10`, the only vector of the basis is the first unit vector: the value
is 1, the estimate is 1, the residual norm is 10 and 1 is reported. -/
theorem C51_normal_violated (P : Par) :
    ¬ ∀ (s : St ℝ (EuclideanSpace ℝ (Fin 2))) (_ : C47_Reach P (inner ℝ) (normalOp C51_row C51_rowT) id s),
      ∀ p ∈ C51_pairs s, ∀ aNorm : ℝ, (∀ q ∈ C51_pairs s, toSval q.value ≤ aNorm) → (∃ q ∈ C51_pairs s, toSval q.value = aNorm) →
        ∀ t, t = fromAtA C51_row aNorm p → 0 < t.sval → t.rnorm = tripletResidual C51_row C51_rowT t.u t.sval t.v := by
  intro H
  obtain ⟨h1, h2⟩ := C51_row_reach P _ rfl
  have hone : toSval (1 : ℝ) = 1 := by simp [toSval]
  have := H _ h1 ⟨!₂[1, 0], 1, !₂[0, 10]⟩ (by rw [h2]; simp) 1 (by rw [h2]; intro q hq; rw [List.mem_singleton.1 hq, hone])
    (by rw [h2]; exact ⟨_, List.mem_singleton.2 rfl, hone⟩) _ rfl (by simp only [fromAtA, hone]; norm_num)
  have hA : C51_row !₂[1, 0] = 1 := by simp [C51_row]
  have hT : C51_rowT 1 - (1 : ℝ) • !₂[1, 0] = !₂[0, 10] := by ext i; fin_cases i <;> simp [C51_rowT]
  have hn : ‖(!₂[0, 10] : EuclideanSpace ℝ (Fin 2))‖ = 10 := by
    rw [EuclideanSpace.norm_eq, Fin.sum_univ_two]
    simp
  simp only [fromAtA, hone, toRnorm, scalInv, hA, hn, tripletResidual] at this
  norm_num at this
  rw [show C51_rowT 1 - !₂[1, 0] = !₂[0, 10] by rw [← hT, one_smul], hn] at this
  norm_num at this

/-- With the norm known, as in `C51_normal_partial`: the same state, and `aNorm` a bound, 11. -/
example (P : Par) : ∃ s : St ℝ (EuclideanSpace ℝ (Fin 2)), C47_Reach P (inner ℝ) (normalOp C51_row C51_rowT) id s ∧
    (∃ p ∈ C51_pairs s, 0 < (fromAtA C51_row 11 p).sval) ∧ ∀ y, ‖C51_rowT y‖ ≤ 11 * ‖y‖ := by
  obtain ⟨h1, h2⟩ := C51_row_reach P _ rfl
  refine ⟨_, h1, ⟨⟨!₂[1, 0], 1, !₂[0, 10]⟩, by rw [h2]; simp, ?_⟩, ?_⟩
  · have hone : toSval (1 : ℝ) = 1 := by simp [toSval]
    simp only [fromAtA, hone]; norm_num
  · intro y
    rw [EuclideanSpace.norm_eq, Fin.sum_univ_two]
    apply Real.sqrt_le_iff.2
    refine ⟨by positivity, ?_⟩
    simp [C51_rowT]
    rw [mul_pow, mul_pow, sq_abs]
    nlinarith [sq_nonneg y]

/-- The matrix with the rows `1 1` and `0 10`. -/
noncomputable def C51_tri : EuclideanSpace ℝ (Fin 2) →ₗ[ℝ] EuclideanSpace ℝ (Fin 2) where
  toFun x := !₂[x 0 + x 1, 10 * x 1]
  map_add' x y := by ext i; fin_cases i <;> simp <;> ring
  map_smul' c x := by ext i; fin_cases i <;> simp <;> ring

noncomputable def C51_triT : EuclideanSpace ℝ (Fin 2) →ₗ[ℝ] EuclideanSpace ℝ (Fin 2) where
  toFun y := !₂[y 0, y 0 + 10 * y 1]
  map_add' x y := by ext i; fin_cases i <;> simp <;> ring
  map_smul' c x := by ext i; fin_cases i <;> simp <;> ring

theorem C51_tri_adjoint : Adjoint C51_tri C51_triT := by
  intro x y
  simp [C51_tri, C51_triT, PiLp.inner_apply, Fin.sum_univ_two]
  ring

theorem C51_tri_reach (P : Par) (x : EuclideanSpace ℝ (Fin 2) × EuclideanSpace ℝ (Fin 2)) (value : ℝ)
    (h1 : (ip2 x x : ℝ) = 1) (h2 : (ip2 x (augOp C51_tri C51_triT x) : ℝ) = value) :
    ∃ s, C47_Reach P (ip2 : _ → _ → ℝ) (augOp C51_tri C51_triT) id s ∧ C51_pairs s = [⟨x, value, augOp C51_tri C51_triT x - value • x⟩] :=
  ⟨_, C51_first_spec P ip2 (augOp C51_tri C51_triT) x value h1 h2 (by simp)⟩

/-- What a user expects of the residual norms reported with the augmented problem: they bound the residual norms of the triplets
returned.  This is not so when the two halves of the vector have different norms, since they are normalised separately and the norm
reported is that of the pair times the root of two.  Here the matrix has the rows `1 1` and `0 10`, and the only vector of
the basis has the halves `(0, 3/5)` and `(4/5, 0)`. -/
theorem C51_augmented_violated (P : Par) :
    ¬ ∀ (s : St ℝ (EuclideanSpace ℝ (Fin 2) × EuclideanSpace ℝ (Fin 2))) (_ : C47_Reach P ip2 (augOp C51_tri C51_triT) id s),
      ∀ p ∈ C51_pairs s, ∀ t, t = fromAug p → 0 < t.sval → tripletResidual C51_tri C51_triT t.u t.sval t.v ≤ t.rnorm := by
  intro H
  obtain ⟨s, h1, h2⟩ := C51_tri_reach P (!₂[0, 3 / 5], !₂[4 / 5, 0]) (24 / 25)
    (by unfold ip2; rw [PiLp.inner_apply, PiLp.inner_apply, Fin.sum_univ_two, Fin.sum_univ_two]; simp; norm_num)
    (by unfold ip2; rw [PiLp.inner_apply, PiLp.inner_apply, Fin.sum_univ_two, Fin.sum_univ_two]; simp [augOp, C51_tri, C51_triT]; norm_num)
  have := H s h1 _ (by rw [h2]; exact List.mem_singleton.2 rfl) _ rfl (by simp [fromAug])
  have n1 : ‖(!₂[0, 3 / 5] : EuclideanSpace ℝ (Fin 2))‖ = 3 / 5 := by
    rw [EuclideanSpace.norm_eq, Fin.sum_univ_two, Real.sqrt_eq_iff_mul_self_eq (by positivity) (by norm_num)]; simp; norm_num
  have n2 : ‖(!₂[4 / 5, 0] : EuclideanSpace ℝ (Fin 2))‖ = 4 / 5 := by
    rw [EuclideanSpace.norm_eq, Fin.sum_univ_two, Real.sqrt_eq_iff_mul_self_eq (by positivity) (by norm_num)]; simp; norm_num
  simp only [fromAug, tripletResidual, n1, n2, RCLike.re_to_real] at this
  rw [← Real.sqrt_mul (by rw [ip2_self]; exact add_nonneg (sq_nonneg _) (sq_nonneg _)), Real.sqrt_le_sqrt_iff (by
    apply mul_nonneg _ (by norm_num); rw [ip2_self]; exact add_nonneg (sq_nonneg _) (sq_nonneg _))] at this
  unfold ip2 at this
  simp only [PiLp.inner_apply, EuclideanSpace.norm_sq_eq, Fin.sum_univ_two] at this
  simp [augOp, C51_tri, C51_triT] at this
  norm_num at this

/-- `C51_normalCount_partial` and `C51_normalNear_partial` with the row `1 10` and the second unit vector: the value is 10, the residual
norm 1; the exact value is the root of 101. -/
example (P : Par) : ∃ s : St ℝ (EuclideanSpace ℝ (Fin 2)), C47_Reach P (inner ℝ) (normalOp C51_row C51_rowT) id s ∧
    ∃ p ∈ C51_pairs s, (fromAtA C51_row 11 p).sval = 10 ∧ ‖p.res‖ = 10 ∧
      tripletResidual C51_row C51_rowT (fromAtA C51_row 11 p).u (fromAtA C51_row 11 p).sval (fromAtA C51_row 11 p).v = 1 := by
  obtain ⟨h1, h2⟩ := C51_first_spec P (inner ℝ) (normalOp C51_row C51_rowT) (!₂[0, 1] : EuclideanSpace ℝ (Fin 2)) 100
    (by rw [PiLp.inner_apply, Fin.sum_univ_two]; simp)
    (by simp [normalOp, C51_row, C51_rowT, PiLp.inner_apply, Fin.sum_univ_two]; norm_num) (by simp)
  have hten : toSval (100 : ℝ) = 10 := by
    unfold toSval
    rw [RCLike.re_to_real, max_eq_right (by norm_num), Real.sqrt_eq_iff_mul_self_eq (by norm_num) (by norm_num)]
    norm_num
  have hres : normalOp C51_row C51_rowT !₂[0, 1] - (100 : ℝ) • !₂[0, 1] = !₂[10, 0] := by
    ext i; fin_cases i <;> simp [normalOp, C51_row, C51_rowT] <;> norm_num
  have hn : ‖(!₂[10, 0] : EuclideanSpace ℝ (Fin 2))‖ = 10 := by
    rw [EuclideanSpace.norm_eq, Fin.sum_univ_two]; simp
  have hn1 : ‖(!₂[1, 0] : EuclideanSpace ℝ (Fin 2))‖ = 1 := by
    rw [EuclideanSpace.norm_eq, Fin.sum_univ_two]; simp
  have hm := List.mem_singleton_self (⟨!₂[0, 1], 100, normalOp C51_row C51_rowT !₂[0, 1] - (100 : ℝ) • !₂[0, 1]⟩ :
    Locked ℝ (EuclideanSpace ℝ (Fin 2)))
  rw [← h2] at hm
  refine ⟨_, h1, _, hm, hten, by rw [hres, hn], ?_⟩
  have hA : C51_row !₂[0, 1] = 10 := by simp [C51_row]
  have hT : C51_rowT 1 - (10 : ℝ) • !₂[0, 1] = !₂[1, 0] := by ext i; fin_cases i <;> simp [C51_rowT]
  simp only [fromAtA, hten, scalInv, hA, tripletResidual]
  norm_num
  rw [hT, hn1]

/-- `C51_augmented_partial`, `C51_augmentedCount_partial` and `C51_augmentedNear_partial` with both halves equal to `(1/10, 7/10)`. -/
example (P : Par) : ∃ s : St ℝ (EuclideanSpace ℝ (Fin 2) × EuclideanSpace ℝ (Fin 2)),
    C47_Reach P ip2 (augOp C51_tri C51_triT) id s ∧ ∃ p ∈ C51_pairs s, ‖p.x.1‖ = ‖p.x.2‖ ∧ 0 < (fromAug p).rnorm ∧
      (fromAug p).rnorm < (fromAug p).sval := by
  obtain ⟨s, h1, h2⟩ := C51_tri_reach P (!₂[1 / 10, 7 / 10], !₂[1 / 10, 7 / 10]) (249 / 25)
    (by unfold ip2; rw [PiLp.inner_apply, Fin.sum_univ_two]; simp; norm_num)
    (by unfold ip2; rw [PiLp.inner_apply, PiLp.inner_apply, Fin.sum_univ_two, Fin.sum_univ_two]; simp [augOp, C51_tri, C51_triT]; norm_num)
  have hm := List.mem_singleton_self (⟨(!₂[1 / 10, 7 / 10], !₂[1 / 10, 7 / 10]), 249 / 25,
    augOp C51_tri C51_triT (!₂[1 / 10, 7 / 10], !₂[1 / 10, 7 / 10]) - (249 / 25 : ℝ) • (!₂[1 / 10, 7 / 10], !₂[1 / 10, 7 / 10])⟩ :
    Locked ℝ (EuclideanSpace ℝ (Fin 2) × EuclideanSpace ℝ (Fin 2)))
  rw [← h2] at hm
  refine ⟨s, h1, _, hm, rfl, ?_, ?_⟩
  · simp only [fromAug]
    refine mul_pos (Real.sqrt_pos.2 ?_) (by positivity)
    simp only [ip2, PiLp.inner_apply, Fin.sum_univ_two]
    simp [augOp, C51_tri, C51_triT]
    norm_num
  · simp only [fromAug, RCLike.re_to_real]
    rw [← Real.sqrt_mul (by rw [ip2_self]; exact add_nonneg (sq_nonneg _) (sq_nonneg _)), Real.sqrt_lt' (by norm_num)]
    simp only [ip2, PiLp.inner_apply, Fin.sum_univ_two]
    simp [augOp, C51_tri, C51_triT]
    norm_num

end Examples

end Verif.Props
