import Verif.Spec.SvdsTest
import Verif.Proofs.Monitor
import Mathlib.Algebra.Order.BigOperators.Ring.Finset
import Mathlib.Algebra.BigOperators.Field
import Mathlib.Analysis.Real.Sqrt
import Mathlib.Tactic.NormNum
import Mathlib.Tactic.FieldSimp
import Mathlib.Tactic.Positivity

/-!
# C45: the convergence test for triplets is asked about the triplet
-/

set_option linter.unusedSectionVars false
set_option linter.unusedSimpArgs false
set_option linter.unusedVariables false

namespace Verif.Props
open Verif.Mon Verif.Spec Finset

section
variable {K : Type} [Field K] [LinearOrder K] [IsStrictOrderedRing K] {V : Type}

/-- **C45** for the normal equations: unless the residual of the eigenpair is at the limit of the arithmetic
(then the pair is accepted without asking), the user's test is asked about the singular value the
eigenvalue stands for, the residual norm of the triplet (for a value that is not zero), the vector on
the side of the operator, and the norm of the matrix. -/
theorem C45_normal (env : Env K) (hs : IsSqrt env.sqrt) (eps f316 x r : K) (evec : Option V) (isConv : Int)
    (e : Eig K) (v : Sv K) (hop : v.method = .AtA ∨ v.method = .AAt) (he : 0 ≤ normOf e) :
    (r < eps * max e.aNorm e.estimateLargestSVal * f316 →
      ∀ user : ConvTest K V,
        testNormal env user (some eps) f316 (some x) evec (some r) isConv e v = (v, 1, some 0)) ∧
    (¬ r < eps * max e.aNorm e.estimateLargestSVal * f316 →
      ∃ σ ρ shown, Asks (fun u => testNormal env u (some eps) f316 (some x) evec (some r) isConv e v) σ
          (if v.method = .AAt then evec else none) (if v.method = .AtA then evec else none) ρ v.method
          { v with aNorm := shown } ∧
        IsSvalOf v.method σ x ∧ (σ ≠ 0 → IsNormOf v.method σ r ρ) ∧
        IsNormShown v.method v.aNorm (normOf e) shown) := by
  constructor
  · intro h user
    unfold testNormal
    simp [h]
  · intro h
    have hx := hs |x| (abs_nonneg x)
    refine ⟨env.sqrt |x|, r / env.sqrt |x|, if v.aNorm ≤ 0 then env.sqrt (normOf e) else v.aNorm, ?_, ?_,
      ?_, ?_⟩
    · intro user
      obtain ⟨a0, st, k, me⟩ := v
      unfold testNormal callTest
      dsimp only at *
      by_cases h0 : a0 ≤ 0
      · simp only [h0, if_true, Option.any_some, decide_eq_true_eq, h, if_false]
        split_ifs with h1 <;> simp_all
      · simp only [h0, if_false, Option.any_some, decide_eq_true_eq, h]
        split_ifs with h1 <;> simp_all
    · refine ⟨hx.1, ?_⟩
      rcases hop with h | h <;> rw [h] <;> exact hx.2
    · intro h0
      rcases hop with h | h <;> rw [h] <;> exact div_mul_cancel₀ _ h0
    · constructor
      · intro h0; rw [if_neg (not_le.2 h0)]
      · intro h0
        rw [if_pos h0]
        refine ⟨(hs _ he).1, ?_⟩
        rcases hop with h | h <;> rw [h] <;> exact (hs _ he).2

/-- **C45** for the augmented operator: the user's test is asked about the absolute value of the eigenvalue,
the residual norm of the triplet, both parts of the vector, each on its side, and the norm. -/
theorem C45_augmented (env : Env K) (h2 : env.root2 * env.root2 = 2) (h2' : 0 ≤ env.root2)
    (halves : V → V × V) (x r : K) (hr : 0 ≤ r) (evec : Option V) (e : Eig K) (v : Sv K)
    (hop : v.method = .augmented) (he : 0 ≤ normOf e) :
    ∃ σ ρ shown, Asks (fun u => testAugmented env u halves (some x) evec (some r) e v) σ
        (evec.map (fun y => (halves y).2)) (evec.map (fun y => (halves y).1)) ρ .augmented
        { v with aNorm := shown } ∧
      IsSvalOf .augmented σ x ∧ IsNormOf .augmented σ r ρ ∧
      IsNormShown .augmented v.aNorm (normOf e) shown := by
  refine ⟨|x|, r * env.root2, if v.aNorm ≤ 0 then normOf e else v.aNorm, ?_, ⟨abs_nonneg x, rfl⟩, ?_, ?_⟩
  · intro user
    obtain ⟨a0, st, k, me⟩ := v
    unfold testAugmented callTest
    dsimp only at *
    by_cases h0 : a0 ≤ 0
    · simp only [h0, if_true]
      split_ifs with h1 <;> simp_all
    · simp only [h0, if_false]
      split_ifs with h1 <;> simp_all
  · refine ⟨mul_nonneg hr h2', ?_⟩
    calc r * env.root2 * (r * env.root2) = env.root2 * env.root2 * (r * r) := by ring
      _ = 2 * (r * r) := by rw [h2]
  · constructor
    · intro h0; rw [if_neg (not_le.2 h0)]
    · intro h0
      rw [if_pos h0]
      exact ⟨he, rfl⟩

/-- The residual norm computed from the vectors is that of the normalised triplet, whatever the lengths of
the vectors; it is refused when `u'Av` is negative. -/
theorem C45_residual (sqrt : K → K) (hs : IsSqrt sqrt) {m n : Nat} (a : Fin m → Fin n → K) (u : Fin m → K)
    (v : Fin n → K) (hu : ∃ i, u i ≠ 0) (hv : ∃ j, v j ≠ 0) :
    match resNorm sqrt a u v with
    | some ρ => ∃ s, 0 ≤ s ∧ IsTripletResidual a u v s ρ
    | none => ∃ s ρ, s < 0 ∧ IsTripletResidual a u v s ρ := by
  have pos : ∀ {k : Nat} (w : Fin k → K), (∃ i, w i ≠ 0) → 0 < dot w w := by
    intro k w ⟨i, hi⟩
    exact sum_pos' (fun j _ => mul_self_nonneg _) ⟨i, mem_univ _, mul_self_pos.2 hi⟩
  have root : ∀ x : K, 0 < x → 0 < sqrt x := by
    intro x hx
    refine lt_of_le_of_ne (hs x hx.le).1 ?_
    intro h0
    have := (hs x hx.le).2
    rw [← h0, zero_mul] at this
    exact absurd this (ne_of_lt hx)
  have pu := pos u hu
  have pv := pos v hv
  have ru := root _ pu
  have rv := root _ pv
  have su := (hs _ pu.le).2
  have sv := (hs _ pv.le).2
  have key : ∀ ρ : K, 0 ≤ ρ →
      ρ * ρ = dot (fun j => 1 / sqrt (dot u u) * mulT a u j +
          -(dot u (mulV a v) / sqrt (dot v v) / sqrt (dot u u)) / sqrt (dot v v) * v j)
        (fun j => 1 / sqrt (dot u u) * mulT a u j +
          -(dot u (mulV a v) / sqrt (dot v v) / sqrt (dot u u)) / sqrt (dot v v) * v j) +
        dot (fun i => 1 / sqrt (dot v v) * mulV a v i +
          -(dot u (mulV a v) / sqrt (dot v v) / sqrt (dot u u)) / sqrt (dot u u) * u i)
        (fun i => 1 / sqrt (dot v v) * mulV a v i +
          -(dot u (mulV a v) / sqrt (dot v v) / sqrt (dot u u)) / sqrt (dot u u) * u i) →
      IsTripletResidual a u v (dot u (mulV a v) / sqrt (dot v v) / sqrt (dot u u)) ρ := by
    intro ρ hρ hρ2
    generalize hnu : sqrt (dot u u) = nu at *
    generalize hnv : sqrt (dot v v) = nv at *
    have hu0 : nu ≠ 0 := ru.ne'
    have hv0 : nv ≠ 0 := rv.ne'
    have eV : ∀ i, (∑ j, a i j * (v j / nv)) = 1 / nv * mulV a v i := by
      intro i
      unfold mulV
      rw [mul_sum]
      exact sum_congr rfl (fun j _ => by field_simp)
    have eT : ∀ j, (∑ i, a i j * (u i / nu)) = 1 / nu * mulT a u j := by
      intro j
      unfold mulT
      rw [mul_sum]
      exact sum_congr rfl (fun i _ => by field_simp)
    have one : ∀ {k : Nat} (w : Fin k → K) (c : K), c ≠ 0 → c * c = dot w w →
        ∑ i, w i / c * (w i / c) = 1 := by
      intro k w c hc h
      have : ∑ i, w i / c * (w i / c) = dot w w / (c * c) := by
        unfold dot
        rw [sum_div]
        exact sum_congr rfl (fun i _ => by field_simp)
      rw [this, h, div_self]
      rw [← h]; exact mul_ne_zero hc hc
    refine ⟨fun i => u i / nu, fun j => v j / nv, nu, nv, ru, rv, fun i => by field_simp,
      fun j => by field_simp, one u nu hu0 su, one v nv hv0 sv, ?_, hρ, ?_⟩
    · simp only [eV]
      unfold dot
      rw [sum_div, sum_div]
      exact sum_congr rfl (fun i _ => by field_simp)
    · rw [hρ2, add_comm]
      simp only [eV, eT]
      unfold dot
      congr 1
      · exact sum_congr rfl (fun i _ => by ring)
      · exact sum_congr rfl (fun i _ => by ring)
  have nn : ∀ {k : Nat} (w : Fin k → K), 0 ≤ dot w w := fun w => sum_nonneg (fun i _ => mul_self_nonneg _)
  have hroot := hs _ (add_nonneg
    (nn (fun j => 1 / sqrt (dot u u) * mulT a u j +
          -(dot u (mulV a v) / sqrt (dot v v) / sqrt (dot u u)) / sqrt (dot v v) * v j))
    (nn (fun i => 1 / sqrt (dot v v) * mulV a v i +
          -(dot u (mulV a v) / sqrt (dot v v) / sqrt (dot u u)) / sqrt (dot u u) * u i)))
  unfold resNorm
  dsimp only
  by_cases h0 : dot u (mulV a v) / sqrt (dot v v) / sqrt (dot u u) < 0
  · rw [if_pos h0]
    exact ⟨_, _, h0, key _ hroot.1 hroot.2⟩
  · rw [if_neg h0]
    exact ⟨_, not_lt.1 h0, key _ hroot.1 hroot.2⟩

/-- **C45**, the default criterion: a triplet of the augmented problem accepted with both vectors at hand has a
singular value that is not negative and an actual residual norm below `max(eps, 3.16 macheps)*aNorm`. -/
theorem C45_default (sqrt : K → K) (hs : IsSqrt sqrt) {m n : Nat} (a : Fin m → Fin n → K)
    (eps macheps f316 : K) (u : Fin m → K) (w : Fin n → K) (hu : ∃ i, u i ≠ 0) (hw : ∃ j, w j ≠ 0) (rNorm : K)
    (v : Sv K) (h : defaultTest sqrt a eps macheps f316 (some u) (some w) rNorm .augmented v = true) :
    ∃ s ρ, 0 ≤ s ∧ IsTripletResidual a u w s ρ ∧ ρ < max eps (macheps * f316) * v.aNorm := by
  have hr := C45_residual sqrt hs a u w hu hw
  unfold defaultTest at h
  dsimp only at h
  by_cases hc : rNorm < tolerance eps macheps f316 v.aNorm
  · simp only [hc, decide_true, and_self, if_true] at h
    cases hres : resNorm sqrt a u w with
    | none => rw [hres] at h; simp at h
    | some ρ =>
      rw [hres] at h hr
      dsimp only at h hr
      obtain ⟨s, h1, h2⟩ := hr
      exact ⟨s, ρ, h1, h2, by simpa [tolerance] using of_decide_eq_true h⟩
  · simp [hc] at h

/-- For the normal equations, or without the vectors, it is the norm given that is compared. -/
theorem C45_default_normal (sqrt : K → K) {m n : Nat} (a : Fin m → Fin n → K) (eps macheps f316 : K)
    (left : Option (Fin m → K)) (right : Option (Fin n → K)) (rNorm : K) (op : Op) (v : Sv K)
    (h : op ≠ .augmented ∨ left = none ∨ right = none) :
    defaultTest sqrt a eps macheps f316 left right rNorm op v = true ↔
      rNorm < max eps (macheps * f316) * v.aNorm := by
  unfold defaultTest tolerance
  dsimp only
  rcases h with h | rfl | rfl
  · rw [if_neg (fun h' => h h'.2)]; simp
  · split_ifs <;> simp
  · split_ifs
    · cases left <;> simp
    · simp

end

/-- Real numbers. -/
theorem C45_sqrt : IsSqrt Real.sqrt := fun x hx => ⟨Real.sqrt_nonneg x, Real.mul_self_sqrt hx⟩

/-- The normal equations: eigenvalue 4 with residual norm 6 and an estimate 25 of the norm; the test is asked
about a singular value, and the structure has no norm of its own. -/
example : ∃ σ ρ shown : ℝ, Asks (V := Unit) (fun u => testNormal ⟨Real.sqrt, Real.sqrt 2, id, fun _ => true⟩ u
      (some 0) 3 (some 4) (some ()) (some 6) 0
      ⟨⟨0, 0, 0, 0, 0, 0, 0, 0, 0, 0, 0, 0, 0, 0, 0, 0⟩, 1, false, 0, 25, 0⟩
      ⟨0, ⟨0, 0, 0, 0, 0, 0, 0, 0, 0, 0, 0, 0, 0, 0, 0, 0⟩, 1, .AtA⟩) σ none (some ()) ρ .AtA
      ⟨shown, ⟨0, 0, 0, 0, 0, 0, 0, 0, 0, 0, 0, 0, 0, 0, 0, 0⟩, 1, .AtA⟩ ∧ σ * σ = 4 ∧ ρ * σ = 6 ∧
      shown * shown = 25 := by
  obtain ⟨σ, ρ, shown, h1, h2, h3, h4⟩ := (C45_normal (V := Unit)
    ⟨Real.sqrt, Real.sqrt 2, id, fun _ => true⟩ C45_sqrt 0 3 4 6 (some ()) 0
    ⟨⟨0, 0, 0, 0, 0, 0, 0, 0, 0, 0, 0, 0, 0, 0, 0, 0⟩, 1, false, 0, 25, 0⟩
    ⟨0, ⟨0, 0, 0, 0, 0, 0, 0, 0, 0, 0, 0, 0, 0, 0, 0, 0⟩, 1, .AtA⟩ (Or.inl rfl) (by norm_num [normOf])).2
    (by norm_num)
  have h5 : σ * σ = 4 := by have := h2.2; dsimp only at this; rw [this]; norm_num
  refine ⟨σ, ρ, shown, h1, h5, h3 ?_, ?_⟩
  · rintro rfl; norm_num at h5
  · have := (h4.2 (le_refl _)).2
    dsimp only at this
    rw [this]; norm_num [normOf]

/-- The diagonal matrix (2, 1): the vectors (3, 0) and (5, 0), not of length one, have residual norm zero and
pass; the directions (3, 0) and (-5, 0) are refused. -/
example : (defaultTest (fun x : ℚ => if x = 9 then 3 else if x = 25 then 5 else x) (fun i j : Fin 2 => if i = j
      then (if i = 0 then 2 else 1) else 0) (1/10) 0 3 (some ![3, 0]) (some ![5, 0]) 0 .augmented
      ⟨1, ⟨0, 0, 0, 0, 0, 0, 0, 0, 0, 0, 0, 0, 0, 0, 0, 0⟩, 1, .augmented⟩ = true) ∧
    (defaultTest (fun x : ℚ => if x = 9 then 3 else if x = 25 then 5 else x) (fun i j : Fin 2 => if i = j
      then (if i = 0 then 2 else 1) else 0) (1/10) 0 3 (some ![3, 0]) (some ![-5, 0]) 0 .augmented
      ⟨1, ⟨0, 0, 0, 0, 0, 0, 0, 0, 0, 0, 0, 0, 0, 0, 0, 0⟩, 1, .augmented⟩ = false) := by
  constructor <;> decide +kernel

end Verif.Props
