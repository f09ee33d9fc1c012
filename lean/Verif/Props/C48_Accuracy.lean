import Verif.Props.C47_Rayleigh
import Verif.Proofs.SpectrumMass
import Mathlib.Analysis.InnerProductSpace.PiL2

set_option linter.unusedSectionVars false
set_option linter.unusedSimpArgs false
set_option linter.unusedVariables false

/-!
# C48: how far the values are from the eigenvalues, in exact arithmetic

`T` is any self-adjoint operator on a real or complex space of finite dimension `n`; `hT.eigenvalues hn` are its `n`
eigenvalues, with their multiplicity.
-/

namespace Verif.Props
open Verif Verif.Restart Verif.Spec Verif.Rayleigh Finset Module

variable {𝕜 E : Type} [RCLike 𝕜] [NormedAddCommGroup E] [InnerProductSpace 𝕜 E] [FiniteDimensional 𝕜 E]

/-- The pairs of a state: those locked and those offered, with their residual vectors. -/
def C48_pairs (s : St 𝕜 E) : List (Locked 𝕜 E) :=
  s.locked ++ (List.range s.b).map (fun j => ⟨ritz s j, s.hVals j, resid s j⟩)

theorem C48_inner : IsInner (inner 𝕜 : E → E → 𝕜) :=
  ⟨fun x y z => inner_add_right x y z, fun c x y => inner_smul_right x y c, fun x y => inner_conj_symm y x⟩

theorem C48_hermitian (T : E →ₗ[𝕜] E) (hT : T.IsSymmetric) : IsHermitian (inner 𝕜 : E → E → 𝕜) T :=
  ⟨map_add T, map_smul T, hT⟩

theorem C48_id : IsHermitian (inner 𝕜 : E → E → 𝕜) id := ⟨fun _ _ => rfl, fun _ _ => rfl, fun _ _ => rfl⟩

theorem C48_pairs_spec (P : Par) (hmin : P.locking = false → P.numEvals ≤ P.minRestartSize) (T : E →ₗ[𝕜] E) (hT : T.IsSymmetric) (s : St 𝕜 E)
    (h : C47_Reach P (inner 𝕜) T id s) :
    (∀ p ∈ C48_pairs s, IsRitz (inner 𝕜) T id p.x p.value p.res) ∧
    (C48_pairs s).Pairwise (fun p q => inner 𝕜 p.x q.x = 0) := by
  obtain ⟨h1, h2, h3⟩ := C47_offered_partial P hmin _ _ _ C48_inner (C48_hermitian T hT) C48_id s h
  obtain ⟨h4, h5⟩ := C47_locked_partial P hmin _ _ _ C48_inner (C48_hermitian T hT) C48_id s h
  constructor
  · intro p hp
    unfold C48_pairs at hp
    rcases List.mem_append.1 hp with hp | hp
    · exact h5 p hp
    · obtain ⟨j, hj, rfl⟩ := List.mem_map.1 hp
      exact (h1 j (List.mem_range.1 hj)).1
  · unfold C48_pairs
    rw [List.pairwise_append]
    refine ⟨?_, ?_, ?_⟩
    · have := (List.pairwise_append.1 h4.2).2.1
      exact List.pairwise_map.1 this
    · rw [List.pairwise_map]
      refine List.Pairwise.imp_of_mem ?_ List.pairwise_lt_range
      intro a c ha hc hac
      have := h2 a (List.mem_range.1 ha) c (List.mem_range.1 hc)
      rwa [if_neg (by omega)] at this
    · intro p hp q hq
      obtain ⟨j, hj, rfl⟩ := List.mem_map.1 hq
      exact h3 p.x (List.mem_append_right _ (List.mem_map_of_mem hp)) j (List.mem_range.1 hj)

/-- The value of a pair is real. -/
theorem C48_real (T : E →ₗ[𝕜] E) (hT : T.IsSymmetric) (x : E) (value : 𝕜) (res : E) (h : IsRitz (inner 𝕜) T id x value res) :
    ((RCLike.re value : ℝ) : 𝕜) = value := by
  rw [← RCLike.conj_eq_iff_re, ← h.quotient, inner_conj_symm, hT]

/-- The count for any list of Ritz pairs with orthogonal vectors. -/
theorem C48_count_list (T : E →ₗ[𝕜] E) (hT : T.IsSymmetric) (n : ℕ)
    (hn : finrank 𝕜 E = n) (l : List (Locked 𝕜 E)) (h1 : ∀ p ∈ l, IsRitz (inner 𝕜) T id p.x p.value p.res)
    (h2 : l.Pairwise (fun p q => inner 𝕜 p.x q.x = 0)) (a b d : ℝ) (hv : ∀ p ∈ l, a ≤ RCLike.re p.value ∧ RCLike.re p.value ≤ b)
    (hd : d = Real.sqrt ((l.map (fun p => ‖p.res‖ ^ 2)).sum)) :
    l.length ≤ (univ.filter fun i : Fin n => a - d ≤ hT.eigenvalues hn i ∧ hT.eigenvalues hn i ≤ b + d).card := by
  have hR : ∀ i : Fin l.length, IsRitz (inner 𝕜) T id l[i].x l[i].value l[i].res := fun i => h1 _ (List.getElem_mem _)
  refine Spectrum.count T hT n hn l.length (fun j => l[j].x) ?_ (fun j => RCLike.re l[j].value) a b d
    (fun j => hv _ (List.getElem_mem _)) (by rw [hd]; exact Real.sqrt_nonneg _) ?_
  · rw [orthonormal_iff_ite]
    intro i j
    have hp := List.pairwise_iff_getElem.1 h2
    by_cases hij : i = j
    · subst hij; rw [if_pos rfl]; exact (hR i).unit
    · rw [if_neg hij]
      rcases Nat.lt_or_gt_of_ne (fun e => hij (Fin.ext e)) with hlt | hlt
      · exact hp i j i.2 j.2 hlt
      · have h0 : inner 𝕜 l[j].x l[i].x = (0 : 𝕜) := hp j i j.2 i.2 hlt
        rw [← inner_conj_symm, h0, map_zero]
  · have hs : ∀ j : Fin l.length, T l[j].x - ((RCLike.re l[j].value : ℝ) : 𝕜) • l[j].x = l[j].res := by
      intro j
      rw [C48_real T hT _ _ _ (hR j)]
      exact (hR j).residual.symm
    have e : ∑ j : Fin l.length, ‖T l[j].x - ((RCLike.re l[j].value : ℝ) : 𝕜) • l[j].x‖ ^ 2 =
        (l.map (fun p => ‖p.res‖ ^ 2)).sum := by
      rw [Finset.sum_congr rfl (fun j _ => by rw [hs j])]
      rw [← List.sum_ofFn]
      congr 1
      apply List.ext_getElem
      · simp
      · intro i h1 h2; simp
    have hnn : 0 ≤ (l.map (fun p => ‖p.res‖ ^ 2)).sum := by
      apply List.sum_nonneg
      intro x hx
      obtain ⟨p, _, rfl⟩ := List.mem_map.1 hx
      positivity
    rw [hd, Real.sq_sqrt hnn]
    exact le_of_eq e

/-- No value is a ghost.  Take any of the pairs, locked or offered, with values between `a` and `b`: the operator has at
least as many eigenvalues, with multiplicity, between `a - d` and `b + d`, where `d` is the root of the sum of the squares of their
residual norms. -/
theorem C48_count_partial (P : Par) (hmin : P.locking = false → P.numEvals ≤ P.minRestartSize) (T : E →ₗ[𝕜] E) (hT : T.IsSymmetric) (n : ℕ)
    (hn : finrank 𝕜 E = n) (s : St 𝕜 E) (h : C47_Reach P (inner 𝕜) T id s) (l : List (Locked 𝕜 E))
    (hl : l.Sublist (C48_pairs s)) (a b d : ℝ) (hv : ∀ p ∈ l, a ≤ RCLike.re p.value ∧ RCLike.re p.value ≤ b)
    (hd : d = Real.sqrt ((l.map (fun p => ‖p.res‖ ^ 2)).sum)) :
    l.length ≤ (univ.filter fun i : Fin n => a - d ≤ hT.eigenvalues hn i ∧ hT.eigenvalues hn i ≤ b + d).card := by
  obtain ⟨h1, h2⟩ := C48_pairs_spec P hmin T hT s h
  exact C48_count_list T hT n hn l (fun p hp => h1 p (hl.subset hp)) (h2.sublist hl) a b d hv hd

/-- Every value, locked or offered, is within its residual norm of an eigenvalue. -/
theorem C48_near_partial (P : Par) (hmin : P.locking = false → P.numEvals ≤ P.minRestartSize) (T : E →ₗ[𝕜] E) (hT : T.IsSymmetric) (n : ℕ)
    (hn : finrank 𝕜 E = n) (s : St 𝕜 E) (h : C47_Reach P (inner 𝕜) T id s) (p : Locked 𝕜 E) (hp : p ∈ C48_pairs s) :
    ∃ i : Fin n, |hT.eigenvalues hn i - RCLike.re p.value| ≤ ‖p.res‖ := by
  have hc := C48_count_partial P hmin T hT n hn s h [p] (List.singleton_sublist.2 hp) (RCLike.re p.value) (RCLike.re p.value) _
    (fun q hq => by rw [List.mem_singleton.1 hq]; exact ⟨le_refl _, le_refl _⟩) rfl
  have hd : Real.sqrt (([p].map (fun p => ‖p.res‖ ^ 2)).sum) = ‖p.res‖ := by
    simp [Real.sqrt_sq (norm_nonneg _)]
  rw [hd] at hc
  obtain ⟨i, hi⟩ := Finset.card_pos.1 (lt_of_lt_of_le Nat.zero_lt_one hc)
  rw [mem_filter] at hi
  exact ⟨i, abs_le.2 ⟨by linarith [hi.2.1], by linarith [hi.2.2]⟩⟩

theorem C48_diag (P : Par) (hmin : P.locking = false → P.numEvals ≤ P.minRestartSize) (T : E →ₗ[𝕜] E) (hT : T.IsSymmetric) (n : ℕ)
    (hn : finrank 𝕜 E = n) (s : St 𝕜 E) (h : C47_Reach P (inner 𝕜) T id s) (sign b : ℝ) (l : List ℕ)
    (hl : l.Sublist (List.range s.b)) (hb : ∀ j ∈ l, sign * RCLike.re (s.hVals j) ≤ b) :
    l.length ≤ (univ.filter fun i : Fin n => sign * hT.eigenvalues hn i ≤ b).card := by
  obtain ⟨h1, h2, h3⟩ := C47_offered_partial P hmin _ _ _ C48_inner (C48_hermitian T hT) C48_id s h
  have hnd : l.Nodup := hl.nodup List.nodup_range
  have hlt : ∀ i : Fin l.length, l[i] < s.b := fun i => List.mem_range.1 (hl.subset (List.getElem_mem _))
  have hite : ∀ i j : Fin l.length, (l[i] = l[j]) = (i = j) := by
    intro i j
    rw [eq_iff_iff]
    exact ⟨fun e => Fin.ext ((List.Nodup.getElem_inj_iff hnd).1 e), fun e => by rw [e]⟩
  have horth : ∀ i j : Fin l.length, inner 𝕜 (ritz s l[i]) (ritz s l[j]) = if i = j then (1 : 𝕜) else 0 := by
    intro i j
    have := h2 _ (hlt i) _ (hlt j)
    simp only [hite] at this
    exact this
  refine Spectrum.minmax T hT n hn l.length (fun j => ritz s l[j]) (orthonormal_iff_ite.2 horth)
    (fun j => RCLike.re (s.hVals l[j])) ?_ sign b (fun j => hb _ (List.getElem_mem _))
  intro i j
  have hr := (h1 _ (hlt j)).1
  have e : T (ritz s l[j]) = resid s l[j] + s.hVals l[j] • ritz s l[j] := by rw [hr.residual]; simp
  have h0 : inner 𝕜 (ritz s l[i]) (resid s l[j]) = (0 : 𝕜) := by
    unfold ritz
    rw [ip_comb_left C48_inner]
    refine sum_eq_zero fun k hk => ?_
    rw [(h1 _ (hlt j)).2 k (mem_range.1 hk), mul_zero]
  rw [C48_real T hT _ _ _ hr, e, inner_add_right, h0, zero_add, inner_smul_right, horth]
  split_ifs <;> simp

/-- The values offered are never ahead of the spectrum: at least as many eigenvalues lie at or below `b` as values
offered, and at least as many at or above.  Hence the `k`-th smallest value is not below the `k`-th smallest eigenvalue, nor
the `k`-th largest above the `k`-th largest. -/
theorem C48_minmax_partial (P : Par) (hmin : P.locking = false → P.numEvals ≤ P.minRestartSize) (T : E →ₗ[𝕜] E) (hT : T.IsSymmetric) (n : ℕ)
    (hn : finrank 𝕜 E = n) (s : St 𝕜 E) (h : C47_Reach P (inner 𝕜) T id s) (b : ℝ) :
    ((range s.b).filter fun j => RCLike.re (s.hVals j) ≤ b).card ≤ (univ.filter fun i : Fin n => hT.eigenvalues hn i ≤ b).card ∧
    ((range s.b).filter fun j => b ≤ RCLike.re (s.hVals j)).card ≤ (univ.filter fun i : Fin n => b ≤ hT.eigenvalues hn i).card := by
  classical
  have hcard : ∀ p : ℕ → Prop, [DecidablePred p] → ((range s.b).filter p).card = ((List.range s.b).filter (fun j => decide (p j))).length := by
    intro p _
    rw [Finset.card_def, Finset.filter_val, Finset.range_val]
    rfl
  constructor
  · rw [hcard]
    have := C48_diag P hmin T hT n hn s h 1 b _ (List.filter_sublist (p := fun j => decide (RCLike.re (s.hVals j) ≤ b)))
      (fun j hj => by rw [one_mul]; exact of_decide_eq_true (List.mem_filter.1 hj).2)
    simpa only [one_mul] using this
  · rw [hcard]
    have := C48_diag P hmin T hT n hn s h (-1) (-b) _ (List.filter_sublist (p := fun j => decide (b ≤ RCLike.re (s.hVals j))))
      (fun j hj => by
        have := of_decide_eq_true (List.mem_filter.1 hj).2
        linarith)
    simpa only [neg_one_mul, neg_le_neg_iff] using this

/-! ## With a mass matrix

`B` is a self-adjoint positive definite operator, of which `β > 0` is a lower bound. -/

theorem C48_mass_pairs (P : Par) (hmin : P.locking = false → P.numEvals ≤ P.minRestartSize) (A B : E →ₗ[𝕜] E) (hA : A.IsSymmetric)
    (hB : B.IsSymmetric) (s : St 𝕜 E) (h : C47_Reach P (inner 𝕜) A B s) :
    (∀ p ∈ C48_pairs s, IsRitz (inner 𝕜) A B p.x p.value p.res) ∧
    (C48_pairs s).Pairwise (fun p q => inner 𝕜 p.x (B q.x) = 0) := by
  obtain ⟨h1, h2, h3⟩ := C47_offered_partial P hmin _ _ _ C48_inner (C48_hermitian A hA) (C48_hermitian B hB) s h
  obtain ⟨h4, h5⟩ := C47_locked_partial P hmin _ _ _ C48_inner (C48_hermitian A hA) (C48_hermitian B hB) s h
  constructor
  · intro p hp
    unfold C48_pairs at hp
    rcases List.mem_append.1 hp with hp | hp
    · exact h5 p hp
    · obtain ⟨j, hj, rfl⟩ := List.mem_map.1 hp
      exact (h1 j (List.mem_range.1 hj)).1
  · unfold C48_pairs
    rw [List.pairwise_append]
    refine ⟨?_, ?_, ?_⟩
    · have := (List.pairwise_append.1 h4.2).2.1
      exact List.pairwise_map.1 this
    · rw [List.pairwise_map]
      refine List.Pairwise.imp_of_mem ?_ List.pairwise_lt_range
      intro a c ha hc hac
      have := h2 a (List.mem_range.1 ha) c (List.mem_range.1 hc)
      rwa [if_neg (by omega)] at this
    · intro p hp q hq
      obtain ⟨j, hj, rfl⟩ := List.mem_map.1 hq
      exact h3 p.x (List.mem_append_right _ (List.mem_map_of_mem hp)) j (List.mem_range.1 hj)

theorem C48_mass_real (A B : E →ₗ[𝕜] E) (hA : A.IsSymmetric) (x : E) (value : 𝕜) (res : E) (h : IsRitz (inner 𝕜) A B x value res) :
    ((RCLike.re value : ℝ) : 𝕜) = value := by
  rw [← RCLike.conj_eq_iff_re, ← h.quotient, inner_conj_symm, hA]

/-- No value is a ghost, with a mass matrix.  Take any of the pairs, locked or offered, with values between `a` and `b`: the
pencil has as many eigenpairs, orthonormal in the inner product of `B`, with values between `a - d` and `b + d`, where `d` is the
root of the sum of the squares of their residual norms, divided by the root of `β`. -/
theorem C48_massCount_partial (P : Par) (hmin : P.locking = false → P.numEvals ≤ P.minRestartSize) (A B : E →ₗ[𝕜] E)
    (hA : A.IsSymmetric) (hB : B.IsSymmetric) (β : ℝ) (hβ : 0 < β) (hlow : ∀ x : E, β * ‖x‖ ^ 2 ≤ RCLike.re (inner 𝕜 x (B x)))
    (s : St 𝕜 E) (h : C47_Reach P (inner 𝕜) A B s) (l : List (Locked 𝕜 E)) (hl : l.Sublist (C48_pairs s)) (a b d : ℝ)
    (hv : ∀ p ∈ l, a ≤ RCLike.re p.value ∧ RCLike.re p.value ≤ b)
    (hd : d = Real.sqrt ((l.map (fun p => ‖p.res‖ ^ 2)).sum / β)) :
    ∃ (f : Fin l.length → E) (μ : Fin l.length → ℝ), IsEigenFamily (inner 𝕜) A B l.length f (fun i => (μ i : 𝕜)) ∧
      ∀ i, a - d ≤ μ i ∧ μ i ≤ b + d := by
  obtain ⟨h1, h2⟩ := C48_mass_pairs P hmin A B hA hB s h
  have hR : ∀ i : Fin l.length, IsRitz (inner 𝕜) A B l[i].x l[i].value l[i].res := fun i => h1 _ (hl.subset (List.getElem_mem _))
  have horth : ∀ i j : Fin l.length, inner 𝕜 l[i].x (B l[j].x) = if i = j then (1 : 𝕜) else 0 := by
    intro i j
    have hp := List.pairwise_iff_getElem.1 (h2.sublist hl)
    by_cases hij : i = j
    · subst hij; rw [if_pos rfl]; exact (hR i).unit
    · rw [if_neg hij]
      rcases Nat.lt_or_gt_of_ne (fun e => hij (Fin.ext e)) with hlt | hlt
      · exact hp i j i.2 j.2 hlt
      · have h0 : inner 𝕜 l[j].x (B l[i].x) = (0 : 𝕜) := hp j i j.2 i.2 hlt
        rw [← hB, ← inner_conj_symm, h0, map_zero]
  have hs : ∀ j : Fin l.length, A l[j].x - ((RCLike.re l[j].value : ℝ) : 𝕜) • B l[j].x = l[j].res := by
    intro j
    rw [C48_mass_real A B hA _ _ _ (hR j)]
    exact (hR j).residual.symm
  have e : ∑ j : Fin l.length, ‖A l[j].x - ((RCLike.re l[j].value : ℝ) : 𝕜) • B l[j].x‖ ^ 2 =
      (l.map (fun p => ‖p.res‖ ^ 2)).sum := by
    rw [Finset.sum_congr rfl (fun j _ => by rw [hs j])]
    rw [← List.sum_ofFn]
    congr 1
    apply List.ext_getElem
    · simp
    · intro i h1 h2; simp
  have hnn : 0 ≤ (l.map (fun p => ‖p.res‖ ^ 2)).sum / β := by
    refine div_nonneg (List.sum_nonneg ?_) (le_of_lt hβ)
    intro x hx
    obtain ⟨p, _, rfl⟩ := List.mem_map.1 hx
    positivity
  obtain ⟨f, μ, k1, k2, k3⟩ := Spectrum.count_mass A B hA hB β hβ hlow l.length (fun j => l[j].x) horth
    (fun j => RCLike.re l[j].value) a b d (fun j => hv _ (List.getElem_mem _)) (by rw [hd]; exact Real.sqrt_nonneg _)
    (by rw [e, hd, Real.sq_sqrt hnn])
  exact ⟨f, μ, ⟨k1, k2⟩, k3⟩

/-- With a mass matrix, every value, locked or offered, is within its residual norm, divided by the root of `β`, of an
eigenvalue of the pencil. -/
theorem C48_massNear_partial (P : Par) (hmin : P.locking = false → P.numEvals ≤ P.minRestartSize) (A B : E →ₗ[𝕜] E)
    (hA : A.IsSymmetric) (hB : B.IsSymmetric) (β : ℝ) (hβ : 0 < β) (hlow : ∀ x : E, β * ‖x‖ ^ 2 ≤ RCLike.re (inner 𝕜 x (B x)))
    (s : St 𝕜 E) (h : C47_Reach P (inner 𝕜) A B s) (p : Locked 𝕜 E) (hp : p ∈ C48_pairs s) :
    ∃ (x : E) (μ : ℝ), x ≠ 0 ∧ A x = (μ : 𝕜) • B x ∧ |μ - RCLike.re p.value| ≤ ‖p.res‖ / Real.sqrt β := by
  obtain ⟨f, μ, h1, h2⟩ := C48_massCount_partial P hmin A B hA hB β hβ hlow s h [p] (List.singleton_sublist.2 hp) (RCLike.re p.value)
    (RCLike.re p.value) _ (fun q hq => by rw [List.mem_singleton.1 hq]; exact ⟨le_refl _, le_refl _⟩) rfl
  have hd : Real.sqrt (([p].map (fun p => ‖p.res‖ ^ 2)).sum / β) = ‖p.res‖ / Real.sqrt β := by
    rw [Real.sqrt_div (by simp)]
    simp [Real.sqrt_sq (norm_nonneg _)]
  rw [hd] at h2
  have h3 := h2 ⟨0, by simp⟩
  refine ⟨f ⟨0, by simp⟩, μ ⟨0, by simp⟩, ?_, h1.eigen _, abs_le.2 ⟨by linarith [h3.1], by linarith [h3.2]⟩⟩
  intro h0
  have := h1.orth ⟨0, by simp⟩ ⟨0, by simp⟩
  rw [if_pos rfl, h0] at this
  simp at this

theorem C48_mass_diag (P : Par) (hmin : P.locking = false → P.numEvals ≤ P.minRestartSize) (A B : E →ₗ[𝕜] E)
    (hA : A.IsSymmetric) (hB : B.IsSymmetric) (β : ℝ) (hβ : 0 < β) (hlow : ∀ x : E, β * ‖x‖ ^ 2 ≤ RCLike.re (inner 𝕜 x (B x)))
    (s : St 𝕜 E) (h : C47_Reach P (inner 𝕜) A B s) (sign b : ℝ) (l : List ℕ)
    (hl : l.Sublist (List.range s.b)) (hb : ∀ j ∈ l, sign * RCLike.re (s.hVals j) ≤ b) :
    ∃ (f : Fin l.length → E) (μ : Fin l.length → ℝ), IsEigenFamily (inner 𝕜) A B l.length f (fun i => (μ i : 𝕜)) ∧
      ∀ i, sign * μ i ≤ b := by
  obtain ⟨h1, h2, h3⟩ := C47_offered_partial P hmin _ _ _ C48_inner (C48_hermitian A hA) (C48_hermitian B hB) s h
  have hnd : l.Nodup := hl.nodup List.nodup_range
  have hlt : ∀ i : Fin l.length, l[i] < s.b := fun i => List.mem_range.1 (hl.subset (List.getElem_mem _))
  have hite : ∀ i j : Fin l.length, (l[i] = l[j]) = (i = j) := by
    intro i j
    rw [eq_iff_iff]
    exact ⟨fun e => Fin.ext ((List.Nodup.getElem_inj_iff hnd).1 e), fun e => by rw [e]⟩
  have horth : ∀ i j : Fin l.length, inner 𝕜 (ritz s l[i]) (B (ritz s l[j])) = if i = j then (1 : 𝕜) else 0 := by
    intro i j
    have := h2 _ (hlt i) _ (hlt j)
    simp only [hite] at this
    exact this
  obtain ⟨f, μ, k1, k2, k3⟩ := Spectrum.minmax_mass A B hA hB β hβ hlow l.length (fun j => ritz s l[j]) horth
    (fun j => RCLike.re (s.hVals l[j])) (by
      intro i j
      have hr := (h1 _ (hlt j)).1
      have e : A (ritz s l[j]) = resid s l[j] + s.hVals l[j] • B (ritz s l[j]) := by rw [hr.residual]; simp
      have h0 : inner 𝕜 (ritz s l[i]) (resid s l[j]) = (0 : 𝕜) := by
        unfold ritz
        rw [ip_comb_left C48_inner]
        refine sum_eq_zero fun k hk => ?_
        rw [(h1 _ (hlt j)).2 k (mem_range.1 hk), mul_zero]
      rw [C48_mass_real A B hA _ _ _ hr, e, inner_add_right, h0, zero_add, inner_smul_right, horth]
      split_ifs <;> simp) sign b (fun j => hb _ (List.getElem_mem _))
  exact ⟨f, μ, ⟨k1, k2⟩, k3⟩

/-- With a mass matrix, the values offered are never ahead of the spectrum: as many eigenpairs of the pencil, orthonormal in the
inner product of `B`, lie at or below `b` as values offered, and as many at or above. -/
theorem C48_massMinmax_partial (P : Par) (hmin : P.locking = false → P.numEvals ≤ P.minRestartSize) (A B : E →ₗ[𝕜] E)
    (hA : A.IsSymmetric) (hB : B.IsSymmetric) (β : ℝ) (hβ : 0 < β) (hlow : ∀ x : E, β * ‖x‖ ^ 2 ≤ RCLike.re (inner 𝕜 x (B x)))
    (s : St 𝕜 E) (h : C47_Reach P (inner 𝕜) A B s) (b : ℝ) (m : ℕ) :
    (m ≤ ((range s.b).filter fun j => RCLike.re (s.hVals j) ≤ b).card →
      ∃ (f : Fin m → E) (μ : Fin m → ℝ), IsEigenFamily (inner 𝕜) A B m f (fun i => (μ i : 𝕜)) ∧ ∀ i, μ i ≤ b) ∧
    (m ≤ ((range s.b).filter fun j => b ≤ RCLike.re (s.hVals j)).card →
      ∃ (f : Fin m → E) (μ : Fin m → ℝ), IsEigenFamily (inner 𝕜) A B m f (fun i => (μ i : 𝕜)) ∧ ∀ i, b ≤ μ i) := by
  classical
  have hcard : ∀ p : ℕ → Prop, [DecidablePred p] → ((range s.b).filter p).card = ((List.range s.b).filter (fun j => decide (p j))).length := by
    intro p _
    rw [Finset.card_def, Finset.filter_val, Finset.range_val]
    rfl
  constructor
  · intro hm
    rw [hcard] at hm
    have hlen : (((List.range s.b).filter (fun j => decide (RCLike.re (s.hVals j) ≤ b))).take m).length = m := by
      rw [List.length_take]; omega
    obtain ⟨f, μ, k1, k2⟩ := C48_mass_diag P hmin A B hA hB β hβ hlow s h 1 b _
      ((List.take_sublist m _).trans (List.filter_sublist (p := fun j => decide (RCLike.re (s.hVals j) ≤ b))))
      (fun j hj => by rw [one_mul]; exact of_decide_eq_true (List.mem_filter.1 (List.mem_of_mem_take hj)).2)
    generalize hL : ((List.range s.b).filter (fun j => decide (RCLike.re (s.hVals j) ≤ b))).take m = L at *
    subst hlen
    exact ⟨f, μ, k1, fun i => by have := k2 i; linarith⟩
  · intro hm
    rw [hcard] at hm
    have hlen : (((List.range s.b).filter (fun j => decide (b ≤ RCLike.re (s.hVals j)))).take m).length = m := by
      rw [List.length_take]; omega
    obtain ⟨f, μ, k1, k2⟩ := C48_mass_diag P hmin A B hA hB β hβ hlow s h (-1) (-b) _
      ((List.take_sublist m _).trans (List.filter_sublist (p := fun j => decide (b ≤ RCLike.re (s.hVals j)))))
      (fun j hj => by
        have := of_decide_eq_true (List.mem_filter.1 (List.mem_of_mem_take hj)).2
        linarith)
    generalize hL : ((List.range s.b).filter (fun j => decide (b ≤ RCLike.re (s.hVals j)))).take m = L at *
    subst hlen
    exact ⟨f, μ, k1, fun i => by have := k2 i; linarith⟩

/-! ## Example -/

/-- The operator that exchanges the two coordinates of the plane; its eigenvalues are 1 and -1. -/
noncomputable def C48_swap : EuclideanSpace ℝ (Fin 2) →ₗ[ℝ] EuclideanSpace ℝ (Fin 2) where
  toFun x := !₂[x 1, x 0]
  map_add' x y := by ext i; fin_cases i <;> simp
  map_smul' c x := by ext i; fin_cases i <;> simp

theorem C48_swap_symm : C48_swap.IsSymmetric := by
  intro x y
  simp only [C48_swap, LinearMap.coe_mk, AddHom.coe_mk, PiLp.inner_apply, Fin.sum_univ_two]
  simp
  ring

noncomputable def C48_empty : St ℝ (EuclideanSpace ℝ (Fin 2)) :=
  ⟨0, fun _ => 0, fun _ => 0, fun _ => 0, fun _ _ => 0, fun _ _ => 0, fun _ => 0, [], []⟩
noncomputable def C48_one : St ℝ (EuclideanSpace ℝ (Fin 2)) :=
  expand (inner ℝ) C48_swap id C48_empty 1 (fun _ => !₂[1, 0]) ⟨fun _ _ => 1, fun _ => 0⟩

/-- A basis of one vector: value 0, residual of norm one, and the bound is attained. -/
example (P : Par) : C47_Reach P (inner ℝ) C48_swap id C48_one ∧ C48_one.b = 1 ∧ C48_one.hVals 0 = 0 ∧
    resid C48_one 0 = !₂[0, 1] := by
  have hA : C48_swap !₂[1, 0] = !₂[0, 1] := by simp [C48_swap]
  have hH : sym C48_one.H 0 0 = 0 := by
    simp [sym, C48_one, expand, C48_empty, hA, PiLp.inner_apply, Fin.sum_univ_two]
  refine ⟨C47_Reach.grow C48_empty 1 _ _ (C47_Reach.start _ rfl rfl ⟨fun x hx => (by cases hx), List.Pairwise.nil⟩)
    ⟨?_, fun i hi => absurd hi (Nat.not_lt_zero i), fun x hx => (List.not_mem_nil hx).elim⟩ ⟨?_, ?_, ?_⟩, rfl, rfl, ?_⟩
  · intro i hi j hj
    have : i = j := by omega
    rw [if_pos this, PiLp.inner_apply, Fin.sum_univ_two]
    simp
  · intro i hi j hj
    have e1 : i = 0 := by simp [C48_empty] at hi; exact hi
    have e2 : j = 0 := by simp [C48_empty] at hj; exact hj
    subst e1; subst e2
    simp [C48_empty]
  · intro i hi j hj
    have e1 : i = 0 := by simp [C48_empty] at hi; exact hi
    subst e1
    rw [show C48_empty.b + 1 = 1 from rfl, sum_range_one]
    change sym C48_one.H 0 0 * 1 = _
    rw [hH]
  · intro j _; exact star_trivial _
  · have hb : C48_one.b = 1 := rfl
    unfold resid ritzW ritzBV comb
    rw [hb, sum_range_one, sum_range_one]
    simp [C48_one, expand, C48_empty, hA]

/-- Four times the identity, as a mass matrix. -/
noncomputable def C48_four : EuclideanSpace ℝ (Fin 2) →ₗ[ℝ] EuclideanSpace ℝ (Fin 2) := (4 : ℝ) • LinearMap.id
noncomputable def C48_half : St ℝ (EuclideanSpace ℝ (Fin 2)) :=
  expand (inner ℝ) C48_swap C48_four C48_empty 1 (fun _ => !₂[1 / 2, 0]) ⟨fun _ _ => 1, fun _ => 0⟩

/-- With the mass matrix: value 0, residual of norm one half; the eigenvalues of the pencil are 1/4 and -1/4, so the bound
`‖res‖ / √4` is attained. -/
example (P : Par) : C47_Reach P (inner ℝ) C48_swap C48_four C48_half ∧ C48_half.b = 1 ∧ C48_half.hVals 0 = 0 ∧
    resid C48_half 0 = !₂[0, 1 / 2] ∧ (∀ x : EuclideanSpace ℝ (Fin 2), 4 * ‖x‖ ^ 2 ≤ RCLike.re (inner ℝ x (C48_four x))) ∧
    C48_four.IsSymmetric := by
  have hA : C48_swap !₂[1 / 2, 0] = !₂[0, 1 / 2] := by simp [C48_swap]
  have hH : sym C48_half.H 0 0 = 0 := by
    simp [sym, C48_half, expand, C48_empty, C48_swap, PiLp.inner_apply, Fin.sum_univ_two]
  refine ⟨C47_Reach.grow C48_empty 1 _ _ (C47_Reach.start _ rfl rfl ⟨fun x hx => (by cases hx), List.Pairwise.nil⟩)
    ⟨?_, fun i hi => absurd hi (Nat.not_lt_zero i), fun x hx => (List.not_mem_nil hx).elim⟩ ⟨?_, ?_, ?_⟩, rfl, rfl, ?_, ?_, ?_⟩
  · intro i hi j hj
    have : i = j := by omega
    rw [if_pos this, PiLp.inner_apply, Fin.sum_univ_two]
    simp [C48_four]
    norm_num
  · intro i hi j hj
    have e1 : i = 0 := by simp [C48_empty] at hi; exact hi
    have e2 : j = 0 := by simp [C48_empty] at hj; exact hj
    subst e1; subst e2
    simp [C48_empty]
  · intro i hi j hj
    have e1 : i = 0 := by simp [C48_empty] at hi; exact hi
    subst e1
    rw [show C48_empty.b + 1 = 1 from rfl, sum_range_one]
    change sym C48_half.H 0 0 * 1 = _
    rw [hH]
  · intro j _; exact star_trivial _
  · have hb : C48_half.b = 1 := rfl
    unfold resid ritzW ritzBV comb
    rw [hb, sum_range_one, sum_range_one]
    simp [C48_half, expand, C48_empty, C48_swap]
  · intro x
    simp [C48_four, inner_smul_right]
  · intro x y
    simp [C48_four, inner_smul_left, inner_smul_right]

end Verif.Props
