import Verif.Model.Direction
import Verif.Model.EigsParams
import Verif.Spec.Direction
import Mathlib.Analysis.InnerProductSpace.PiL2

/-!
# C61: the corrections appended to the basis are the documented ones
-/

namespace Verif.Props
open Verif.Dir

variable {F V : Type} [RCLike F] [NormedAddCommGroup V] [InnerProductSpace F V]

/-- The user's preconditioner applies `M s` to a column with shift `s` (without preconditioner `M s` is the identity). -/
structure C61_Acts (c : Cfg) (K : Prec V) (n : ℕ) (s : ℕ → ℝ) (M : ℝ → V → V) : Prop where
  acts : c.precondition = true → ∀ v, K n s v = some fun i => M (s i) (v i)
  none : c.precondition = false → ∀ t v, M t v = v

private theorem applied {c : Cfg} {K : Prec V} {n : ℕ} {s : ℕ → ℝ} {M : ℝ → V → V} (h : C61_Acts c K n s M) (v : ℕ → V) :
    applyPrec c K n s v = .ok fun i => M (s i) (v i) := by
  unfold applyPrec
  cases hp : c.precondition with
  | true => simp [h.acts hp]
  | false => simp [h.none hp]

private theorem skew_one (x h v : V) (hne : inner F x h ≠ (0 : F)) :
    Spec.Dir.Skew F 1 (fun _ => x) (fun _ => h) v (v + (-(inner F x v) / inner F x h) • h) := by
  constructor
  · exact ⟨fun _ => inner F x v / inner F x h, by simp [neg_div, sub_eq_add_neg]⟩
  · intro j _
    rw [inner_add_right, inner_smul_right, div_mul_cancel₀ _ hne, add_neg_cancel]

/-- **Corrections without inner iterations.**  For every block, every column of the correction is the documented one for its
vector, residual and shift.  Missing: the combination documented as an error (`C61_error_violated`), the estimation left out
without preconditioner (`C61_cheap`). -/
theorem C61_davidson_partial (c : Cfg) (K : Prec V) (n : ℕ) (s eps : ℕ → ℝ) (x Bx r : ℕ → V) (M : ℝ → V → V)
    (hK : C61_Acts c K n s M) (herr : ¬(c.RightX = false ∧ c.SkewX = true))
    (hcheap : c.RightX = true → c.SkewX = false →
      c.precondition = true ∨ c.mass = true ∨ (c.locking = true ∧ c.implicitI = true))
    (hne : c.RightX = true → c.SkewX = true → ∀ i < n, inner F (x i) (M (s i) (Bx i)) ≠ (0 : F)) :
    ∃ D, davidson (F := F) c K n s eps x Bx r = .ok D ∧
      ∀ i < n, Spec.Dir.Davidson F c.RightX c.SkewX (M (s i)) (x i) (Bx i) (r i) (eps i) (D i) := by
  unfold davidson
  cases hR : c.RightX with
  | false =>
    cases hS : c.SkewX with
    | true => exact absurd ⟨hR, hS⟩ herr
    | false =>
      simp only [Bool.false_and, Bool.false_eq_true, if_false]
      exact ⟨_, applied hK r, fun i _ => rfl⟩
  | true =>
    cases hS : c.SkewX with
    | false =>
      have h := hcheap hR hS
      have h2 : (c.precondition || c.mass || (c.locking && c.implicitI)) = true := by
        rcases h with h | h | ⟨h, h'⟩ <;> simp [*]
      simp only [Bool.and_false, Bool.false_eq_true, if_false, Bool.true_and, h2, if_true]
      exact ⟨_, applied hK _, fun i _ => rfl⟩
    | true =>
      simp only [Bool.and_self, if_true]
      refine ⟨_, rfl, ?_⟩
      intro i hi
      have hn := hne hR hS i hi
      simp only [olsen, applied hK, if_pos hi]
      rw [if_pos (norm_pos_iff.2 hn)]
      exact skew_one _ _ _ hn

/-- In the remaining case, RightX without preconditioner, mass matrix and locking, the correction is the residual, not the
residual minus the estimation times the vector; the difference is in the search space, to which the vector belongs. -/
theorem C61_cheap (c : Cfg) (K : Prec V) (n : ℕ) (s eps : ℕ → ℝ) (x Bx r : ℕ → V) (M : ℝ → V → V)
    (hK : C61_Acts c K n s M) (hR : c.RightX = true) (hS : c.SkewX = false) (hp : c.precondition = false)
    (hm : c.mass = false) (hl : c.locking = false ∨ c.implicitI = false) :
    ∃ D, davidson (F := F) c K n s eps x Bx r = .ok D ∧ ∀ i < n, ∃ D',
      Spec.Dir.Davidson F c.RightX c.SkewX (M (s i)) (x i) (Bx i) (r i) (eps i) D' ∧ D i = D' + (eps i : F) • Bx i := by
  unfold davidson
  have h2 : (c.precondition || c.mass || (c.locking && c.implicitI)) = false := by
    rcases hl with h | h <;> simp [*]
  rw [hR, hS]
  simp only [Bool.and_false, Bool.false_eq_true, if_false, h2]
  refine ⟨_, applied hK r, fun i _ => ⟨_, rfl, ?_⟩⟩
  simp only [hK.none hp]
  abel

/-- The table says `M⁻¹(R - Δ X)` for RightX alone; without preconditioner, mass matrix and locking it is `R`. -/
theorem C61_cheap_violated : ∃ (c : Cfg) (K : Prec ℝ) (s eps : ℕ → ℝ) (x Bx r : ℕ → ℝ) (M : ℝ → ℝ → ℝ) (D : ℕ → ℝ),
    C61_Acts c K 1 s M ∧ c.RightX = true ∧ c.SkewX = false ∧ davidson (F := ℝ) c K 1 s eps x Bx r = .ok D ∧
    ¬Spec.Dir.Davidson ℝ c.RightX c.SkewX (M (s 0)) (x 0) (Bx 0) (r 0) (eps 0) (D 0) := by
  refine ⟨⟨false, false, false, true, false, false, false, false, false, false⟩, fun _ _ _ => none, fun _ => 0, fun _ => 1,
    fun _ => 1, fun _ => 1, fun _ => 1, fun _ v => v, fun _ => 1, ⟨fun h => (Bool.false_ne_true h).elim, fun _ _ _ => rfl⟩,
    rfl, rfl, ?_, ?_⟩
  · simp [davidson, applyPrec]
  · simp [Spec.Dir.Davidson]

/-- SkewX without RightX, documented as an error, is accepted and means the same as neither of them. -/
theorem C61_error_violated (c : Cfg) (K : Prec V) (n : ℕ) (s eps : ℕ → ℝ) (x Bx r : ℕ → V) (M : ℝ → V → V)
    (hK : C61_Acts c K n s M) (hR : c.RightX = false) (hS : c.SkewX = true) :
    davidson (F := F) c K n s eps x Bx r = .ok fun i => M (s i) (r i) := by
  unfold davidson
  rw [hR, hS]
  simp [applied hK]

/-- Only one vector has the correction of Olsen's method with given data. -/
theorem C61_unique (x h v D D' : V) (hne : inner F x h ≠ (0 : F)) (h1 : Spec.Dir.Skew F 1 (fun _ => x) (fun _ => h) v D)
    (h2 : Spec.Dir.Skew F 1 (fun _ => x) (fun _ => h) v D') : D = D' := by
  obtain ⟨⟨a, ha⟩, ha0⟩ := h1
  obtain ⟨⟨b, hb⟩, hb0⟩ := h2
  have e1 := ha0 0 (by norm_num)
  have e2 := hb0 0 (by norm_num)
  simp only [Finset.sum_range_one] at ha hb
  rw [ha, inner_sub_right, inner_smul_right] at e1
  rw [hb, inner_sub_right, inner_smul_right] at e2
  have : a 0 = b 0 := mul_right_cancel₀ hne (by rw [← sub_eq_zero.1 e1, ← sub_eq_zero.1 e2])
  rw [ha, hb, this]

/-- For a block, the table has one projector for all its vectors, with results orthogonal to all of them; the code has one for
each vector, and the result is not orthogonal to the others.  Here `M = [1 0 0; 0 2 1; 0 1 2]`, two vectors of the
canonical basis and a residual along the third. -/
theorem C61_block_violated : ∃ (c : Cfg) (K : Prec (EuclideanSpace ℝ (Fin 3))) (s eps : ℕ → ℝ)
    (x r : ℕ → EuclideanSpace ℝ (Fin 3)) (M : ℝ → EuclideanSpace ℝ (Fin 3) → EuclideanSpace ℝ (Fin 3))
    (D : ℕ → EuclideanSpace ℝ (Fin 3)),
    C61_Acts c K 2 s M ∧ c.RightX = true ∧ c.SkewX = true ∧ (∀ i < 2, ∀ j < 2, inner ℝ (x i) (x j) = if i = j then (1 : ℝ) else 0) ∧
    (∀ i < 2, ∀ j < 2, inner ℝ (x i) (r j) = (0 : ℝ)) ∧
    davidson (F := ℝ) c K 2 s eps x x r = .ok D ∧ inner ℝ (x 1) (D 0) ≠ (0 : ℝ) := by
  let M : EuclideanSpace ℝ (Fin 3) → EuclideanSpace ℝ (Fin 3) := fun v => !₂[v 0, 2 * v 1 + v 2, v 1 + 2 * v 2]
  let x : ℕ → EuclideanSpace ℝ (Fin 3) := fun i => if i = 0 then !₂[1, 0, 0] else !₂[0, 1, 0]
  let r : ℕ → EuclideanSpace ℝ (Fin 3) := fun _ => !₂[0, 0, 1]
  refine ⟨⟨false, false, false, true, false, true, true, false, false, false⟩, fun _ _ v => some fun i => M (v i), fun _ => 0,
    fun _ => 1, x, r, fun _ => M, _, ⟨fun _ _ => rfl, fun h => (Bool.false_ne_true h.symm).elim⟩, rfl, rfl, ?_, ?_, rfl, ?_⟩
  · intro i hi j hj
    interval_cases i <;> interval_cases j <;>
      simp [x, PiLp.inner_apply, Fin.sum_univ_three, -real_inner_self_eq_norm_sq, -inner_self_eq_norm_sq_to_K]
  · intro i hi j hj
    interval_cases i <;> interval_cases j <;> simp [x, r, PiLp.inner_apply, Fin.sum_univ_three]
  · simp [olsen, applyPrec, x, r, M, PiLp.inner_apply, Fin.sum_univ_three]

/-- **Failures of the preconditioner**, outside of Olsen's method, end the solver with an error. -/
theorem C61_failure_partial (c : Cfg) (K : Prec V) (n : ℕ) (s eps : ℕ → ℝ) (x Bx r : ℕ → V) (hp : c.precondition = true)
    (hK : ∀ v, K n s v = none) (ho : ¬(c.RightX = true ∧ c.SkewX = true)) :
    davidson (F := F) c K n s eps x Bx r = .err PRIMME_UNEXPECTED_FAILURE := by
  unfold davidson
  have : (c.RightX && c.SkewX) = false := by
    cases h1 : c.RightX <;> cases h2 : c.SkewX <;> simp_all
  rw [this]
  simp [applyPrec, hp, hK]

/-- In Olsen's method a failing preconditioner goes unnoticed: the vectors themselves are appended as their corrections.  And
where the failure is noticed, the code returned is not the documented one for failures of the user's functions. -/
theorem C61_failure_violated (c : Cfg) (K : Prec V) (n : ℕ) (s eps : ℕ → ℝ) (x Bx r : ℕ → V) (hp : c.precondition = true)
    (hK : ∀ v, K n s v = none) (hR : c.RightX = true) (hS : c.SkewX = true) :
    davidson (F := F) c K n s eps x Bx r = .ok x ∧ PRIMME_UNEXPECTED_FAILURE ≠ PRIMME_USER_FAILURE := by
  refine ⟨?_, by decide⟩
  unfold davidson
  rw [hR, hS]
  simp [olsen, applyPrec, hp, hK]

/-! ### Projectors of the inner solver -/

/-- What the arrays hold when the projectors are set up: the `k` constraints and converged vectors are orthonormal, the block is
orthonormal to them, `Bx` and (if it exists) `Bevecs` have the products with the mass matrix. -/
structure C61_Arrays (F : Type) [RCLike F] [InnerProductSpace F V] (c : Cfg) (B : V → V) (n k : ℕ) (x Bx evecs Bevecs : ℕ → V) :
    Prop where
  noB : c.mass = false → ∀ v, B v = v
  bx : ∀ i < n, Bx i = B (x i)
  bQ : c.mass = true → c.locking = true → ∀ j < k, Bevecs j = B (evecs j)
  one : ∀ i < n, inner F (x i) (Bx i) = (1 : F)
  orth : ∀ i < k, ∀ j < k, inner F (evecs i) (B (evecs j)) = if i = j then (1 : F) else 0
  left : ∀ i < n, ∀ j < k, inner F (evecs j) (Bx i) = (0 : F)
  right : ∀ i < n, ∀ j < k, inner F (x i) (B (evecs j)) = (0 : F)

private theorem fields {c : Cfg} {K : Prec V} {n k : ℕ} {s : ℕ → ℝ} {x Bx evecs Bevecs hat : ℕ → V} {S : Setup F V}
    (hS : setup (F := F) c K n k s x Bx evecs Bevecs hat = .ok S) :
    S.nLQ = (if c.LeftQ then if append c n then k + n else k else 0) ∧ S.LQ = (arrays c n k x Bx evecs Bevecs).1 ∧
    S.LBQ = (arrays c n k x Bx evecs Bevecs).2 ∧ S.LX = (c.LeftX && !append c n) ∧
    S.nRQ = (if c.RightQ then k else 0) ∧
    S.RQ = (if c.precondition && c.SkewQ then hat else (arrays c n k x Bx evecs Bevecs).2) ∧
    S.evecs = (arrays c n k x Bx evecs Bevecs).1 ∧ (c.RightX = false → S.RX = none) ∧
    (c.RightX = true → (c.precondition && c.SkewX) = false → S.RX = some Bx ∧ ∀ i, S.xk i = 1) ∧
    (c.RightX = true → (c.precondition && c.SkewX) = true → ∃ w, applyPrec c K n s Bx = .ok w ∧ S.RX = some w ∧
      ∀ i, S.xk i = inner F (x i) (w i)) := by
  unfold setup at hS
  dsimp only at hS
  cases hR : c.RightX with
  | false =>
    simp only [hR, Bool.false_eq_true, if_false] at hS
    injection hS with hS
    subst hS
    exact ⟨rfl, rfl, rfl, rfl, rfl, rfl, rfl, fun _ => rfl, fun h => (Bool.false_ne_true h).elim,
      fun h => (Bool.false_ne_true h).elim⟩
  | true =>
    cases hp : c.precondition && c.SkewX with
    | false =>
      simp only [hR, hp, Bool.false_eq_true, if_false, if_true] at hS
      injection hS with hS
      subst hS
      exact ⟨rfl, rfl, rfl, rfl, rfl, rfl, rfl, fun h => (Bool.false_ne_true h.symm).elim, fun _ _ => ⟨rfl, fun _ => rfl⟩,
        fun _ h => (Bool.false_ne_true h).elim⟩
    | true =>
      simp only [hR, hp, if_true] at hS
      cases hw : applyPrec c K n s Bx with
      | err e => rw [hw] at hS; exact absurd hS (by simp)
      | ub => rw [hw] at hS; exact absurd hS (by simp)
      | ok w =>
        rw [hw] at hS
        injection hS with hS
        subst hS
        exact ⟨rfl, rfl, rfl, rfl, rfl, rfl, rfl, fun h => (Bool.false_ne_true h.symm).elim,
          fun _ h => (Bool.false_ne_true h.symm).elim, fun _ _ => ⟨w, rfl, rfl, fun _ => rfl⟩⟩

private theorem copyTo_lt {n k j : ℕ} (x a : ℕ → V) (h : j < k) : copyTo n k x a j = a j := if_neg (by omega)

private theorem copyTo_eq {n k : ℕ} (x a : ℕ → V) (h : 0 < n) : copyTo n k x a k = x 0 := by
  unfold copyTo
  rw [if_pos (by omega), Nat.sub_self]

private theorem arrays_lt {c : Cfg} {B : V → V} {n k : ℕ} {x Bx evecs Bevecs : ℕ → V}
    (ha : C61_Arrays F c B n k x Bx evecs Bevecs) (hm : c.mass = false ∨ c.locking = true) (j : ℕ) (hj : j < k) :
    (arrays c n k x Bx evecs Bevecs).1 j = evecs j ∧ (arrays c n k x Bx evecs Bevecs).2 j = B (evecs j) := by
  unfold arrays
  cases hmass : c.mass with
  | true =>
    have hl : c.locking = true := by
      rcases hm with h | h
      · rw [h] at hmass; exact (Bool.false_ne_true hmass).elim
      · exact h
    rw [hl]
    simp only [Bool.and_self, if_true]
    split_ifs
    · exact ⟨copyTo_lt _ _ hj, (copyTo_lt _ _ hj).trans (ha.bQ hmass hl j hj)⟩
    · exact ⟨rfl, ha.bQ hmass hl j hj⟩
  | false =>
    simp only [Bool.false_and, Bool.and_false, Bool.false_eq_true, if_false, ha.noB hmass]
    split_ifs
    · exact ⟨copyTo_lt _ _ hj, copyTo_lt _ _ hj⟩
    · exact ⟨rfl, rfl⟩

private theorem arrays_at {c : Cfg} {B : V → V} {n k : ℕ} {x Bx evecs Bevecs : ℕ → V}
    (ha : C61_Arrays F c B n k x Bx evecs Bevecs) (hm : c.mass = false ∨ c.locking = true) (hn : 0 < n)
    (happ : append c n = true) :
    (arrays c n k x Bx evecs Bevecs).1 k = x 0 ∧ (arrays c n k x Bx evecs Bevecs).2 k = Bx 0 := by
  unfold arrays
  rw [happ]
  cases hmass : c.mass with
  | true =>
    have hl : c.locking = true := by
      rcases hm with h | h
      · rw [h] at hmass; exact (Bool.false_ne_true hmass).elim
      · exact h
    rw [hl]
    simp only [Bool.and_self, if_true]
    exact ⟨copyTo_eq _ _ hn, copyTo_eq _ _ hn⟩
  | false =>
    simp only [Bool.false_and, Bool.and_false, Bool.false_eq_true, if_false, if_true]
    refine ⟨copyTo_eq _ _ hn, (copyTo_eq _ _ hn).trans ?_⟩
    rw [ha.bx 0 hn, ha.noB hmass]

private theorem skew_congr {k : ℕ} {Q Q' H H' : ℕ → V} (h1 : ∀ j < k, Q j = Q' j) (h2 : ∀ j < k, H j = H' j) (v : V) :
    skew (F := F) k Q H id v = Spec.Dir.proj F k Q' H' v := by
  unfold skew Spec.Dir.proj
  congr 1
  refine Finset.sum_congr rfl fun j hj => ?_
  rw [h2 j (Finset.mem_range.1 hj), id, h1 j (Finset.mem_range.1 hj)]

/-- **Left projectors.**  Without mass matrix or with locking, for every block size and choice of projectors, what the inner
solver applies to a column is the documented operator, with its vector and shift. -/
theorem C61_left_partial (A B : V → V) (c : Cfg) (K : Prec V) (n k : ℕ) (s : ℕ → ℝ) (x Bx evecs Bevecs hat : ℕ → V)
    (hm : c.mass = false ∨ c.locking = true) (ha : C61_Arrays F c B n k x Bx evecs Bevecs) (S : Setup F V)
    (hS : setup (F := F) c K n k s x Bx evecs Bevecs hat = .ok S) (i : ℕ) (hi : i < n) (shift : ℝ) (v : V) :
    projectedMatrix A B S x Bx i shift v =
      Spec.Dir.left F c.LeftQ c.LeftX k evecs (fun j => B (evecs j)) (x i) (Bx i) (A v - (shift : F) • B v) := by
  obtain ⟨f1, f2, f3, f4, -⟩ := fields hS
  unfold projectedMatrix Spec.Dir.left
  rw [f1, f2, f3, f4]
  generalize A v - (shift : F) • B v = w
  have hlt := arrays_lt ha hm
  dsimp only
  cases hQ : c.LeftQ with
  | false =>
    have happ : append c n = false := by simp [append, hQ]
    simp only [happ, Bool.false_eq_true, if_false, Bool.not_false, Bool.and_true]
    have h0 : ∀ u : V, skew (F := F) 0 (arrays c n k x Bx evecs Bevecs).1 (arrays c n k x Bx evecs Bevecs).2 id u = u := by
      intro u; simp [skew]
    rw [h0]
    split_ifs
    · exact skew_congr (fun _ _ => rfl) (fun _ _ => rfl) w
    · rfl
  | true =>
    cases hX : c.LeftX with
    | false =>
      have happ : append c n = false := by simp [append, hX]
      simp only [happ, Bool.false_eq_true, if_false, if_true, Bool.false_and]
      exact skew_congr (fun j hj => (hlt j hj).1) (fun j hj => (hlt j hj).2) w
    | true =>
      cases happ : append c n with
      | false =>
        simp only [Bool.false_eq_true, if_false, if_true, Bool.not_false, Bool.and_true]
        rw [skew_congr (fun j hj => (hlt j hj).1) (fun j hj => (hlt j hj).2) w,
          skew_congr (Q' := fun _ => x i) (H' := fun _ => Bx i) (fun _ _ => rfl) (fun _ _ => rfl)]
        have e1 : inner F (x i) (Spec.Dir.proj F k evecs (fun j => B (evecs j)) w) = inner F (x i) w := by
          unfold Spec.Dir.proj
          rw [inner_sub_right, inner_sum, Finset.sum_eq_zero, sub_zero]
          intro j hj
          rw [inner_smul_right, ha.right i hi j (Finset.mem_range.1 hj), mul_zero]
        unfold Spec.Dir.proj at e1 ⊢
        simp only [Finset.sum_range_one]
        rw [e1]
        have e2 : ∀ j ∈ Finset.range k, inner F (evecs j) (w - inner F (x i) w • Bx i) • B (evecs j) =
            inner F (evecs j) w • B (evecs j) := by
          intro j hj
          rw [inner_sub_right, inner_smul_right, ha.left i hi j (Finset.mem_range.1 hj), mul_zero, sub_zero]
        rw [Finset.sum_congr rfl e2]
        abel
      | true =>
        have hn1 : n ≤ 1 := by
          unfold append at happ
          rw [hQ, hX] at happ
          simpa using happ
        have hn : n = 1 := by omega
        have hi0 : i = 0 := by omega
        subst hn hi0
        obtain ⟨a1, a2⟩ := arrays_at ha hm hi happ
        simp only [if_true, Bool.not_true, Bool.and_false, Bool.false_eq_true, if_false]
        unfold skew Spec.Dir.proj
        rw [Finset.sum_range_succ]
        simp only [id, Finset.sum_range_one]
        rw [a1, a2]
        have e0 : ∀ j ∈ Finset.range k, inner F ((arrays c 1 k x Bx evecs Bevecs).1 j) w • (arrays c 1 k x Bx evecs Bevecs).2 j =
            inner F (evecs j) w • B (evecs j) := by
          intro j hj
          rw [(hlt j (Finset.mem_range.1 hj)).1, (hlt j (Finset.mem_range.1 hj)).2]
        have e2 : ∀ j ∈ Finset.range k, inner F (evecs j) (w - inner F (x 0) w • Bx 0) • B (evecs j) =
            inner F (evecs j) w • B (evecs j) := by
          intro j hj
          rw [inner_sub_right, inner_smul_right, ha.left 0 hi j (Finset.mem_range.1 hj), mul_zero, sub_zero]
        rw [Finset.sum_congr rfl e0, Finset.sum_congr rfl e2]
        abel

/-- With a mass matrix and no locking, LeftQ and LeftX (as the preset PRIMME_JDQMR has with a preconditioner) do not give the
documented operator: `B x` takes the place of `x` in the array.  Here `B = 4`, `x = 1/2`: the documented operator is zero, what is
applied is `-3 (A - shift B)`. -/
theorem C61_left_violated : ∃ (B : ℝ → ℝ) (c : Cfg) (K : Prec ℝ) (s : ℕ → ℝ) (x Bx evecs Bevecs hat : ℕ → ℝ) (S : Setup ℝ ℝ),
    C61_Arrays ℝ c B 1 0 x Bx evecs Bevecs ∧ setup (F := ℝ) c K 1 0 s x Bx evecs Bevecs hat = .ok S ∧ ∀ (A : ℝ → ℝ) (shift v : ℝ),
    Spec.Dir.left ℝ c.LeftQ c.LeftX 0 evecs (fun j => B (evecs j)) (x 0) (Bx 0) (A v - shift • B v) = 0 ∧
    projectedMatrix A B S x Bx 0 shift v = -3 * (A v - shift * B v) := by
  refine ⟨fun v => 4 * v, ⟨true, true, false, false, false, true, true, false, false, true⟩, fun _ _ _ => none, fun _ => 0,
    fun _ => 1 / 2, fun _ => 2, fun _ => 0, fun _ => 0, fun _ => 0, _, ?_, rfl, ?_⟩
  · refine ⟨fun h => (Bool.false_ne_true h.symm).elim, fun _ _ => by norm_num, fun _ h => (Bool.false_ne_true h).elim,
      fun _ _ => ?_, fun _ h => absurd h (Nat.not_lt_zero _), fun _ _ _ h => absurd h (Nat.not_lt_zero _),
      fun _ _ _ h => absurd h (Nat.not_lt_zero _)⟩
    simp
  · intro A shift v
    constructor
    · simp [Spec.Dir.left, Spec.Dir.proj]
    · simp [projectedMatrix, skew, arrays, append, copyTo]
      ring

/-- **Right projectors.**  Without mass matrix or with locking, for every block size and choice of projectors, the preconditioner
is followed by the documented projectors, first that of the converged vectors, then that of the vector of the column.  The skew
projector of the converged vectors needs what `C58` is about: `hat` has the vectors `M B q`, and `solve` solves with `Q' M B Q`. -/
theorem C61_right_partial (B : V → V) (c : Cfg) (K : Prec V) (n k : ℕ) (s t : ℕ → ℝ) (x Bx evecs Bevecs hat : ℕ → V)
    (M : ℝ → V → V) (hK : C61_Acts c K n s M) (hm : c.mass = false ∨ c.locking = true)
    (ha : C61_Arrays F c B n k x Bx evecs Bevecs) (S : Setup F V)
    (hS : setup (F := F) c K n k s x Bx evecs Bevecs hat = .ok S) (solve : (ℕ → F) → ℕ → F)
    (hhat : c.precondition = true → c.SkewQ = true → ∀ j < k, hat j = M (t j) (B (evecs j)))
    (hsolve : c.precondition = true → c.RightQ = true → c.SkewQ = true → ∀ b, ∀ i < k,
      ∑ j ∈ Finset.range k, inner F (evecs i) (hat j) * solve b j = b i)
    (hid : ¬(c.precondition = true ∧ c.RightQ = true ∧ c.SkewQ = true) → solve = id)
    (i : ℕ) (hi : i < n) (hne : c.RightX = true → c.SkewX = true → inner F (x i) (M (s i) (Bx i)) ≠ (0 : F)) (w : V) :
    ∃ u, Spec.Dir.Right F c.RightQ c.SkewQ k evecs (fun j => B (evecs j)) (fun j => M (t j) (B (evecs j))) w u ∧
      Spec.Dir.Right F c.RightX c.SkewX 1 (fun _ => x i) (fun _ => Bx i) (fun _ => M (s i) (Bx i)) u
        (projectedPrec S solve x i w) := by
  obtain ⟨-, -, -, -, f5, f6, f7, f8, f9, f10⟩ := fields hS
  have hlt := arrays_lt ha hm
  refine ⟨skew (F := F) S.nRQ S.evecs S.RQ solve w, ?_, ?_⟩
  · rw [f5, f6, f7]
    cases hQ : c.RightQ with
    | false => simp [Spec.Dir.Right, skew]
    | true =>
      simp only [if_true]
      have hproj : (c.precondition && c.SkewQ) = false → skew (F := F) k (arrays c n k x Bx evecs Bevecs).1
          (arrays c n k x Bx evecs Bevecs).2 solve w = Spec.Dir.proj F k evecs (fun j => B (evecs j)) w := by
        intro hp
        rw [hid (by rintro ⟨h1, -, h2⟩; rw [h1, h2] at hp; exact Bool.false_ne_true hp.symm)]
        exact skew_congr (fun j hj => (hlt j hj).1) (fun j hj => (hlt j hj).2) w
      cases hK' : c.SkewQ with
      | false =>
        simp only [Bool.and_false, Bool.false_eq_true, if_false]
        exact hproj (by simp [hK'])
      | true =>
        cases hP : c.precondition with
        | false =>
          simp only [Bool.false_and, Bool.false_eq_true, if_false]
          rw [hproj (by simp [hP])]
          refine ⟨⟨fun j => inner F (evecs j) w, ?_⟩, ?_⟩
          · unfold Spec.Dir.proj
            simp only [hK.none hP]
          · intro j hj
            unfold Spec.Dir.proj
            rw [inner_sub_right, inner_sum, Finset.sum_eq_single j]
            · rw [inner_smul_right, ha.orth j hj j hj, if_pos rfl, mul_one, sub_self]
            · intro l hl hne'
              rw [inner_smul_right, ha.orth j hj l (Finset.mem_range.1 hl), if_neg (Ne.symm hne'), mul_zero]
            · intro h
              exact absurd (Finset.mem_range.2 hj) h
        | true =>
          simp only [Bool.and_self, if_true]
          have hsk : skew (F := F) k (arrays c n k x Bx evecs Bevecs).1 hat solve w =
              w - ∑ j ∈ Finset.range k, solve (fun i => inner F ((arrays c n k x Bx evecs Bevecs).1 i) w) j • hat j := rfl
          rw [hsk]
          refine ⟨⟨solve (fun i => inner F ((arrays c n k x Bx evecs Bevecs).1 i) w), ?_⟩, ?_⟩
          · congr 1
            refine Finset.sum_congr rfl fun j hj => ?_
            rw [hhat hP hK' j (Finset.mem_range.1 hj)]
          · intro j hj
            rw [inner_sub_right, inner_sum]
            have := hsolve hP hQ hK' (fun i => inner F ((arrays c n k x Bx evecs Bevecs).1 i) w) j hj
            rw [(hlt j hj).1] at this
            rw [sub_eq_zero, ← this]
            exact Finset.sum_congr rfl fun l _ => by rw [inner_smul_right, mul_comm]
  · unfold projectedPrec
    generalize skew (F := F) S.nRQ S.evecs S.RQ solve w = u
    have h1 := ha.one i hi
    cases hR : c.RightX with
    | false =>
      simp only [f8 hR]
      rfl
    | true =>
      cases hp : c.precondition && c.SkewX with
      | false =>
        obtain ⟨g1, g2⟩ := f9 hR hp
        simp only [g1, g2]
        have hu : skew (F := F) 1 (fun _ => x i) (fun _ => Bx i) (fun b j => b j / 1) u =
            Spec.Dir.proj F 1 (fun _ => x i) (fun _ => Bx i) u := by
          simp [skew, Spec.Dir.proj]
        rw [hu]
        cases hX : c.SkewX with
        | false => rfl
        | true =>
          have hP : c.precondition = false := by rw [hX, Bool.and_true] at hp; exact hp
          refine ⟨⟨fun _ => inner F (x i) u, ?_⟩, ?_⟩
          · simp only [Spec.Dir.proj, hK.none hP]
          · intro j _
            simp only [Spec.Dir.proj, Finset.sum_range_one]
            rw [inner_sub_right, inner_smul_right, h1, mul_one, sub_self]
      | true =>
        have hX : c.SkewX = true := by
          simp only [Bool.and_eq_true] at hp
          exact hp.2
        obtain ⟨w', g0, g1, g2⟩ := f10 hR hp
        rw [applied hK] at g0
        injection g0 with g0
        subst g0
        simp only [g1, g2]
        have hne' := hne hR hX
        rw [hX]
        have := skew_one (x i) (M (s i) (Bx i)) u hne'
        show Spec.Dir.Skew F 1 _ _ u _
        convert this using 1
        simp only [skew, Finset.sum_range_one]
        rw [neg_div, neg_smul, sub_eq_add_neg]

/-- With a mass matrix and no locking, the right projector of the converged vectors is not the documented one: the vectors take the
place of their products with the mass matrix.  Here `B = 4`, `q = 1/2`: the documented result is zero. -/
theorem C61_right_violated : ∃ (B : ℝ → ℝ) (c : Cfg) (K : Prec ℝ) (s : ℕ → ℝ) (x Bx evecs Bevecs hat : ℕ → ℝ) (S : Setup ℝ ℝ),
    C61_Arrays ℝ c B 0 1 x Bx evecs Bevecs ∧ c.RightQ = true ∧ c.SkewQ = false ∧
    setup (F := ℝ) c K 0 1 s x Bx evecs Bevecs hat = .ok S ∧
    Spec.Dir.proj ℝ 1 evecs (fun j => B (evecs j)) 1 = 0 ∧ projectedPrec S id x 0 1 = 3 / 4 := by
  refine ⟨fun v => 4 * v, ⟨false, true, true, false, false, false, true, false, false, true⟩, fun _ _ _ => none, fun _ => 0,
    fun _ => 0, fun _ => 0, fun _ => 1 / 2, fun _ => 0, fun _ => 0, _, ?_, rfl, rfl, rfl, ?_, ?_⟩
  · refine ⟨fun h => (Bool.false_ne_true h.symm).elim, fun _ h => absurd h (Nat.not_lt_zero _),
      fun _ h => (Bool.false_ne_true h).elim, fun _ h => absurd h (Nat.not_lt_zero _), ?_,
      fun _ h => absurd h (Nat.not_lt_zero _), fun _ h => absurd h (Nat.not_lt_zero _)⟩
    intro i hi j hj
    interval_cases i
    interval_cases j
    norm_num
  · norm_num [Spec.Dir.proj]
  · norm_num [projectedPrec, skew, arrays, append]

/-- The constraints and converged vectors are never touched: at most the column behind them is written. -/
theorem C61_evecs (c : Cfg) (K : Prec V) (n k : ℕ) (s : ℕ → ℝ) (x Bx evecs Bevecs hat : ℕ → V) (S : Setup F V)
    (hS : setup (F := F) c K n k s x Bx evecs Bevecs hat = .ok S) (j : ℕ) (hj : j ≠ k) : S.evecs j = evecs j := by
  obtain ⟨-, -, -, -, -, -, f7, -⟩ := fields hS
  rw [f7]
  have hc : ∀ (happ : append c n = true) (y a : ℕ → V), copyTo n k y a j = a j := by
    intro happ y a
    have hn : n ≤ 1 := by
      unfold append at happ
      simp only [Bool.and_eq_true, decide_eq_true_eq] at happ
      exact happ.2
    exact if_neg (by omega)
  unfold arrays
  cases happ : append c n with
  | false => cases c.mass <;> cases c.locking <;> simp
  | true =>
    cases c.mass <;> cases c.locking <;> simp [hc happ]

/-! ### Shifts -/

/-- **Shifts at a restart.**  With target shifts, the preconditioner finds an array with a shift for every column: the target shift
of the pair, the last one for pairs beyond. -/
theorem C61_shifts_partial (targets : List ℝ) (ht : targets ≠ []) (numConverged size : ℕ) (hs : size ≤ numConverged) :
    ∃ l, restartShifts targets numConverged size = some l ∧ numConverged - size ≤ l.length ∧
      ∀ i < numConverged - size, l[i]? = targets[min (i + size) (targets.length - 1)]? := by
  have hpos : 0 < targets.length := List.length_pos_iff.2 ht
  unfold restartShifts
  split_ifs with h
  · refine ⟨_, rfl, by rw [List.length_drop]; omega, ?_⟩
    intro i hi
    rw [List.getElem?_drop, min_eq_left (by omega), Nat.add_comm]
  · refine ⟨_, rfl, by simp, ?_⟩
    intro i hi
    rw [List.getElem?_map, List.getElem?_range hi, Option.map_some, List.getD_eq_getElem?_getD,
      List.getElem?_eq_getElem (by omega), Option.getD_some]

/-- The preconditioner is called without an array of shifts (a null pointer) for the constraints, and for converged vectors when no
target shifts are given. -/
theorem C61_shifts_violated (numConverged size : ℕ) (h : size < numConverged) :
    initShifts = none ∧ restartShifts [] numConverged size = none := by
  refine ⟨rfl, ?_⟩
  unfold restartShifts
  rw [if_neg (by simp; omega), if_neg (by simp)]

/-- The preset PRIMME_JDQMR leaves SkewX without RightX, documented as an error, and with a preconditioner the two left projectors
of `C61_left_violated`. -/
theorem C61_preset_violated {K : Type} [Field K] (p t : Eigs.EP K) (h : Eigs.methodCase 11 p = some t) :
    t.i .correctionParams_projectors_RightX = 0 ∧ t.i .correctionParams_projectors_SkewX = 1 ∧
    t.i .correctionParams_projectors_LeftX = 1 ∧
    (t.i .correctionParams_precondition ≠ 0 → t.i .correctionParams_projectors_LeftQ = 1) := by
  have : Eigs.methodCase 11 p = some (Eigs.jdqmr p) := rfl
  rw [this] at h
  injection h with h
  subst h
  refine ⟨?_, ?_, ?_, ?_⟩
  · simp [Eigs.jdqmr, Eigs.leftQ, Members.Store.setI, Function.update]
  · simp [Eigs.jdqmr, Eigs.leftQ, Members.Store.setI, Function.update]
  · simp [Eigs.jdqmr, Eigs.leftQ, Members.Store.setI, Function.update]
  · simp only [Eigs.jdqmr, Eigs.leftQ, Members.Store.setI, Function.update]
    split_ifs <;> simp_all

/-! ### The hypotheses are met -/

/-- Olsen's method for a block of two numbers: `M = 1/2`, `x = r = 1`; the correction is zero, the only vector orthogonal to `x`. -/
example : ∃ D, davidson (F := ℝ) ⟨false, false, false, true, false, true, true, false, false, false⟩
    (fun _ _ v => some fun i => v i / 2) 2 (fun _ => 0) (fun _ => 1) (fun _ => (1 : ℝ)) (fun _ => 1) (fun _ => 1) = .ok D ∧
    D 0 = 0 ∧ D 1 = 0 := by
  obtain ⟨D, h1, h2⟩ := C61_davidson_partial (F := ℝ) ⟨false, false, false, true, false, true, true, false, false, false⟩
    (fun _ _ v => some fun i => v i / 2) 2 (fun _ => 0) (fun _ => 1) (fun _ => (1 : ℝ)) (fun _ => 1) (fun _ => 1)
    (fun _ v => v / 2) ⟨fun _ _ => rfl, fun h => (Bool.false_ne_true h.symm).elim⟩ (by simp) (by simp) (by simp)
  refine ⟨D, h1, ?_, ?_⟩
  · have := (h2 0 (by norm_num)).2 0 (by norm_num)
    simpa using this
  · have := (h2 1 (by norm_num)).2 0 (by norm_num)
    simpa using this

/-- The mass matrix `diag(4, 1)`, one converged vector and a block of one vector, with locking and all the projectors. -/
example : C61_Arrays ℝ ⟨true, true, true, true, true, true, true, true, false, true⟩
    (fun v : EuclideanSpace ℝ (Fin 2) => !₂[4 * v 0, v 1]) 1 1 (fun _ => !₂[0, 1]) (fun _ => !₂[0, 1]) (fun _ => !₂[1 / 2, 0])
    (fun _ => !₂[2, 0]) := by
  refine ⟨fun h => (Bool.false_ne_true h.symm).elim, ?_, ?_, ?_, ?_, ?_, ?_⟩
  · intro i _
    ext j
    fin_cases j <;> simp
  · intro _ _ j _
    ext l
    fin_cases l <;> norm_num
  · intro i _
    simp [PiLp.inner_apply, -real_inner_self_eq_norm_sq, -inner_self_eq_norm_sq_to_K]
  · intro i hi j hj
    interval_cases i
    interval_cases j
    simp [PiLp.inner_apply]
    norm_num
  · intro i _ j _
    simp [PiLp.inner_apply]
  · intro i _ j _
    simp [PiLp.inner_apply]

/-- Four converged pairs with three target shifts, two of them new. -/
example : restartShifts [1, 2, 3] 4 2 = some [3, 3] := by
  obtain ⟨l, h1, h2, h3⟩ := C61_shifts_partial [1, 2, 3] (by simp) 4 2 (by norm_num)
  have a := h3 0 (by norm_num)
  have b := h3 1 (by norm_num)
  simp [restartShifts, List.range_succ]

end Verif.Props
