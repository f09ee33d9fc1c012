import Verif.Proofs.PractProj
import Verif.Props.C19_Convergence
import Mathlib.Tactic.NormNum
import Mathlib.Tactic.FinCases

set_option linter.unusedSectionVars false
set_option linter.unusedVariables false

/-!
# C59: "practically converged" means that what is left without the converged directions is within the tolerance

The theorems are about `orthoSingle` (`ortho_single_iteration`) run by any number of processes with any distribution of the
rows, about the decision `Conv.checkConvergence` makes with its result, and about the shortcut of the main iteration.
-/

open scoped ComplexConjugate

namespace Verif.Props
open Verif.Pract Verif.Conv

variable {F : Type} [RCLike F]
variable {M P nQ : ℕ} {rows : ℕ → ℕ} {Q BQ X X' : Cols F} {inX : List ℕ} {nrm : ℕ → ℝ}
variable {solve : Option ((ℕ → ℕ → F) → Option (ℕ → ℕ → F))}

/-- Column `j` of a distributed array. -/
def C59_col (A : Cols F) (j : ℕ) : ℕ → ℕ → F := fun p i => A p j i

/-- **What is computed.**  Whatever the number of processes, the distribution of the rows, the size of the blocks and the
order of the columns, each selected column loses `BQ (Q' x)`, the other columns and the rows that are not of the vectors
keep their contents, and the norms are those of the new columns. -/
theorem C59_computed (hM : 0 < M) (h : orthoSingle M P rows nQ Q BQ solve X inX = some (X', nrm)) :
    (∀ c < inX.length, nrm c = Spec.Pract.norm P rows (fun p i => X p (inX.getD c 0) i -
      ∑ k ∈ Finset.range nQ, BQ p k i * Spec.Pract.ip P rows (C59_col Q k) (C59_col X (inX.getD c 0)))) ∧
    (inX.Nodup → ∀ c < inX.length, ∀ p i, X' p (inX.getD c 0) i = if i < rows p then X p (inX.getD c 0) i -
      ∑ k ∈ Finset.range nQ, BQ p k i * Spec.Pract.ip P rows (C59_col Q k) (C59_col X (inX.getD c 0))
      else X p (inX.getD c 0) i) ∧
    (∀ q ∉ inX, ∀ p i, X' p q i = X p q i) := by
  unfold orthoSingle at h
  dsimp only at h
  split at h
  · simp at h
  · simp only [Option.some.injEq, Prod.mk.injEq] at h
    obtain ⟨rfl, rfl⟩ := h
    have hy : ∀ k, ∀ c < inX.length, ∑ p ∈ Finset.range P, coefficients M (rows p) (Q p) (X p) inX k c =
        Spec.Pract.ip P rows (C59_col Q k) (C59_col X (inX.getD c 0)) := by
      intro k c hc
      unfold Spec.Pract.ip
      refine Finset.sum_congr rfl fun p _ => ?_
      rw [coefficients_eq hM _ _ _ _ _ hc]
      rfl
    refine ⟨?_, ?_, ?_⟩
    · intro c hc
      unfold Spec.Pract.norm
      dsimp only
      refine congrArg Real.sqrt (Finset.sum_congr rfl fun p _ => ?_)
      rw [(turns_eq hM _ _ _ _ _).2.2 c hc]
      refine Finset.sum_congr rfl fun i _ => ?_
      refine congrArg (fun z => ‖X p (inX.getD c 0) i - z‖ ^ 2) (Finset.sum_congr rfl fun k _ => ?_)
      rw [hy k c hc]
    · intro hnd c hc p i
      dsimp only
      rw [(turns_eq hM _ _ _ _ _).1 hnd c hc i]
      split
      · congr 1
        refine Finset.sum_congr rfl fun k _ => ?_
        rw [hy k c hc]
      · rfl
    · intro q hq p i
      exact (turns_eq hM _ _ _ _ _).2.1 q hq i

/-- **It is the residual without the converged directions.**  When the converged vectors are orthonormal (with respect to
the mass matrix, if there is one), each selected column becomes the one that differs in a combination of the `BQ` and is
orthogonal to every `Q`, and the norms are those of these vectors. -/
theorem C59_removed (hM : 0 < M) (h : orthoSingle M P rows nQ Q BQ solve X inX = some (X', nrm))
    (ho : Spec.Pract.Orthonormal P rows nQ (C59_col Q) (C59_col BQ)) (hnd : inX.Nodup) {c : ℕ} (hc : c < inX.length) :
    Spec.Pract.Removed P rows nQ (C59_col Q) (C59_col BQ) (C59_col X (inX.getD c 0)) (C59_col X' (inX.getD c 0)) ∧
    nrm c = Spec.Pract.norm P rows (C59_col X' (inX.getD c 0)) := by
  obtain ⟨h1, h2, h3⟩ := C59_computed hM h
  have hval : ∀ p i, i < rows p → C59_col X' (inX.getD c 0) p i = C59_col X (inX.getD c 0) p i -
      ∑ k ∈ Finset.range nQ, C59_col BQ k p i * Spec.Pract.ip P rows (C59_col Q k) (C59_col X (inX.getD c 0)) := by
    intro p i hi
    have := h2 hnd c hc p i
    rw [if_pos hi] at this
    exact this
  refine ⟨⟨⟨fun k => Spec.Pract.ip P rows (C59_col Q k) (C59_col X (inX.getD c 0)), fun p _ i hi => hval p i hi⟩, ?_⟩, ?_⟩
  · intro j hj
    rw [Spec.Pract.ip_congr _ (fun p _ i hi => hval p i hi), Spec.Pract.ip_sub, Spec.Pract.ip_comb]
    rw [Finset.sum_eq_single j]
    · rw [ho j hj j hj, if_pos rfl, one_mul, sub_self]
    · intro b hb hne
      rw [ho j hj b (Finset.mem_range.1 hb), if_neg (Ne.symm hne), zero_mul]
    · intro hb
      exact absurd (Finset.mem_range.2 hj) hb
  · rw [h1 c hc]
    exact Spec.Pract.norm_congr fun p _ i hi => (hval p i hi).symm

/-- There is one such vector only. -/
theorem C59_unique {k : ℕ} {q bq : ℕ → ℕ → ℕ → F} {r r1 r2 : ℕ → ℕ → F} (ho : Spec.Pract.Orthonormal P rows k q bq)
    (h1 : Spec.Pract.Removed P rows k q bq r r1) (h2 : Spec.Pract.Removed P rows k q bq r r2) :
    ∀ p < P, ∀ i < rows p, r1 p i = r2 p i := by
  have coef : ∀ r' : ℕ → ℕ → F, ∀ c : ℕ → F, (∀ p < P, ∀ i < rows p, r' p i = r p i - ∑ j ∈ Finset.range k, bq j p i * c j) →
      (∀ j < k, Spec.Pract.ip P rows (q j) r' = 0) → ∀ j < k, c j = Spec.Pract.ip P rows (q j) r := by
    intro r' c hc hz j hj
    have := hz j hj
    rw [Spec.Pract.ip_congr _ hc, Spec.Pract.ip_sub, Spec.Pract.ip_comb, Finset.sum_eq_single j] at this
    · rw [ho j hj j hj, if_pos rfl, one_mul] at this
      exact (sub_eq_zero.1 this).symm
    · intro b hb hne
      rw [ho j hj b (Finset.mem_range.1 hb), if_neg (Ne.symm hne), zero_mul]
    · intro hb
      exact absurd (Finset.mem_range.2 hj) hb
  obtain ⟨c1, e1⟩ := h1.combination
  obtain ⟨c2, e2⟩ := h2.combination
  intro p hp i hi
  rw [e1 p hp i hi, e2 p hp i hi]
  congr 1
  refine Finset.sum_congr rfl fun j hj => ?_
  rw [coef r1 c1 e1 h1.orthogonal j (Finset.mem_range.1 hj), coef r2 c2 e2 h2.orthogonal j (Finset.mem_range.1 hj)]

/-- Without the Gram matrix of the converged vectors there is nothing that can fail. -/
theorem C59_total (M P : ℕ) (rows : ℕ → ℕ) (nQ : ℕ) (Q BQ X : Cols F) (inX : List ℕ) :
    ∃ o, orthoSingle M P rows nQ Q BQ none X inX = some o := ⟨_, rfl⟩

/-- **Never too small.**  Without a mass matrix, even when the converged vectors are not orthonormal, the computed norm is
at least that of the residual without its components along them. -/
theorem C59_sound (hM : 0 < M) (h : orthoSingle M P rows nQ Q Q solve X inX = some (X', nrm)) {c : ℕ}
    (hc : c < inX.length) {r' : ℕ → ℕ → F}
    (hr : Spec.Pract.Removed P rows nQ (C59_col Q) (C59_col Q) (C59_col X (inX.getD c 0)) r') :
    Spec.Pract.norm P rows r' ≤ nrm c := by
  rw [(C59_computed hM h).1 c hc]
  obtain ⟨d, hd⟩ := hr.combination
  have hrw : Spec.Pract.norm P rows (fun p i => X p (inX.getD c 0) i -
      ∑ k ∈ Finset.range nQ, Q p k i * Spec.Pract.ip P rows (C59_col Q k) (C59_col X (inX.getD c 0))) =
      Spec.Pract.norm P rows (fun p i => r' p i + ∑ k ∈ Finset.range nQ, C59_col Q k p i *
        (d k - Spec.Pract.ip P rows (C59_col Q k) (C59_col X (inX.getD c 0)))) := by
    refine Spec.Pract.norm_congr fun p hp i hi => ?_
    rw [hd p hp i hi]
    simp only [mul_sub, Finset.sum_sub_distrib, C59_col]
    ring
  rw [hrw]
  have := Spec.Pract.norm_pyth P rows r' _ (Spec.Pract.ip_swap_comb P rows r' nQ (C59_col Q)
    (fun k => d k - Spec.Pract.ip P rows (C59_col Q k) (C59_col X (inX.getD c 0))) hr.orthogonal)
  have h0 := Spec.Pract.norm_nonneg P rows r'
  have h1 := Spec.Pract.norm_nonneg P rows (fun p i => r' p i + ∑ k ∈ Finset.range nQ, C59_col Q k p i *
        (d k - Spec.Pract.ip P rows (C59_col Q k) (C59_col X (inX.getD c 0))))
  nlinarith [sq_nonneg (Spec.Pract.norm P rows (fun p i => ∑ k ∈ Finset.range nQ, C59_col Q k p i *
        (d k - Spec.Pract.ip P rows (C59_col Q k) (C59_col X (inX.getD c 0)))))]

/-- The norms do not depend on which other residuals are examined. -/
theorem C59_norms (hM : 0 < M) {R : Cols F} (l : List ℕ) (q : List ℝ)
    (h : practNorms M P rows nQ Q BQ solve R l = some q) : q = l.map fun j =>
      Spec.Pract.norm P rows (fun p i => R p j i -
        ∑ k ∈ Finset.range nQ, BQ p k i * Spec.Pract.ip P rows (C59_col Q k) (C59_col R j)) := by
  unfold practNorms at h
  rw [Option.map_eq_some_iff] at h
  obtain ⟨⟨X', nrm⟩, h1, rfl⟩ := h
  have := (C59_computed hM h1).1
  refine List.ext_getElem (by simp) fun n h2 h3 => ?_
  simp only [List.length_map, List.length_range] at h2
  simp only [List.getElem_map, List.getElem_range]
  rw [this n h2, List.getD_eq_getElem?_getD, List.getElem?_eq_getElem h2, Option.getD_some]

/-- **The decision.**  A pair whose residual `r` is above the tolerance and that was not accepted before is flagged
practically converged exactly when locking found vectors before, its residual is there and is below the tolerance times
the square root of their number, and what is left of it without the components along them is within the tolerance. -/
theorem C59_decision {W : Type} (test : Test ℝ W) (rt : ℕ → ℝ) (epsMatrix : ℝ) (p : Conv.P ℝ) (numLocked : ℕ)
    (givenR : Bool) (pract : Int) (left right : ℕ) (flags : List Flag) (norms vals : List ℝ) (reset : Option Bool) (w : W)
    (res : Res ℝ W) {R : Cols F} (hM : 0 < M)
    (ho : Spec.Pract.Orthonormal P rows (p.numOrthoConst + numLocked) (C59_col Q) (C59_col BQ))
    (h : checkConvergence test rt epsMatrix (practNorms M P rows (p.numOrthoConst + numLocked) Q BQ solve R) p numLocked
      givenR pract left right flags norms vals reset w = .ok res)
    (i : ℕ) (hl : left ≤ i) (hr : i < right) (v r : ℝ) (old : Flag) (hv : vals[i]? = some v)
    (hn : norms[i - left]? = some r) (hf : flags[i]? = some old) (hpos : 0 ≤ r) (hold : old ≠ .practically_converged)
    (tol : ℝ) (htol : tol = max (epsMatrix * problemNorm true p) p.maxConvTol) :
    res.flags[i]? = some .practically_converged ↔
      (¬ Spec.Excluded p.target (Spec.activeShift p.shifts p.initSize) v r ∧ p.maxConvTol < r ∧
        Spec.Asked res.calls i v r false ∧ ¬ (r ≤ p.estimateResidualError ∧ reset.isSome = true) ∧
        p.locking = true ∧ 0 < numLocked ∧ 0 ≤ pract ∧ givenR = true ∧
        r < rt (p.numOrthoConst + numLocked) * tol ∧
        ∃ r', Spec.Pract.Removed P rows (p.numOrthoConst + numLocked) (C59_col Q) (C59_col BQ) (C59_col R (i - left)) r' ∧
          Spec.Pract.norm P rows r' ≤ tol) := by
  have hd := (C19_decisions test rt epsMatrix _ _ p numLocked givenR pract left right flags norms vals reset w res
    (fun l q hq => C59_norms hM l q hq) h i hl hr v r old hv hn hf hpos tol htol _ rfl).2.2.1
  rw [hd]
  obtain ⟨⟨X', nrm⟩, ht⟩ := C59_total M P rows (p.numOrthoConst + numLocked) Q BQ R [i - left]
  have hrem := C59_removed hM ht ho (by simp) (c := 0) (by simp)
  have hcomp := (C59_computed hM ht).1 0 (by simp)
  simp only [List.getD_cons_zero] at hrem hcomp
  rw [← hcomp]
  have hex : nrm 0 ≤ tol ↔ ∃ r', Spec.Pract.Removed P rows (p.numOrthoConst + numLocked) (C59_col Q) (C59_col BQ)
      (C59_col R (i - left)) r' ∧ Spec.Pract.norm P rows r' ≤ tol := by
    constructor
    · intro hle
      exact ⟨_, hrem.1, by rw [← hrem.2]; exact hle⟩
    · rintro ⟨r', h1, h2⟩
      rw [hrem.2, Spec.Pract.norm_congr (C59_unique ho hrem.1 h1)]
      exact h2
  rw [← hex]
  constructor
  · rintro ⟨a1, a2, a3, a4, a5, a6, a7, a8⟩
    split at a8
    · rename_i hc
      exact ⟨a1, a2, a3, a4, a5, a6, a7, hc.1, hc.2, a8⟩
    · exact absurd a8 hold
  · rintro ⟨a1, a2, a3, a4, a5, a6, a7, a8, a9, a10⟩
    refine ⟨a1, a2, a3, a4, a5, a6, a7, ?_⟩
    rw [if_pos ⟨a8, a9⟩]
    exact a10

/-- The norm of a combination of orthonormal vectors. -/
private theorem comb_norm {k : ℕ} {q : ℕ → ℕ → ℕ → F} (ho : Spec.Pract.Orthonormal P rows k q q) (c : ℕ → F) :
    Spec.Pract.norm P rows (fun p i => ∑ j ∈ Finset.range k, q j p i * c j) ^ 2 = ∑ j ∈ Finset.range k, ‖c j‖ ^ 2 := by
  rw [Spec.Pract.norm_sq, Spec.Pract.ip_comb, map_sum]
  refine Finset.sum_congr rfl fun j hj => ?_
  rw [← Spec.Pract.ip_conj, Spec.Pract.ip_comb, Finset.sum_eq_single j]
  · rw [ho j (Finset.mem_range.1 hj) j (Finset.mem_range.1 hj), if_pos rfl, one_mul, RCLike.conj_mul]
    norm_cast
  · intro b hb hne
    rw [ho j (Finset.mem_range.1 hj) b (Finset.mem_range.1 hb), if_neg (Ne.symm hne), zero_mul]
  · intro hb
    exact absurd hj hb

/-- The square sum the code takes. -/
private theorem square_sum (k : ℕ) (c : ℕ → F) :
    ‖∑ j ∈ Finset.range k, conj (c j) * c j‖ = ∑ j ∈ Finset.range k, ‖c j‖ ^ 2 := by
  have : ∑ j ∈ Finset.range k, conj (c j) * c j = ((∑ j ∈ Finset.range k, ‖c j‖ ^ 2 : ℝ) : F) := by
    push_cast
    refine Finset.sum_congr rfl fun j _ => ?_
    rw [RCLike.conj_mul]
  rw [this, RCLike.norm_ofReal, abs_of_nonneg (Finset.sum_nonneg fun _ _ => by positivity)]

/-- **The shortcut.**  The number the main iteration compares instead, when it has the products of the (orthonormal)
converged vectors with the residual, is the norm of the same vector if the candidate is orthogonal to the converged
vectors, and never more than it. -/
theorem C59_shortcut {k : ℕ} {q : ℕ → ℕ → ℕ → F} (ho : Spec.Pract.Orthonormal P rows k q q) {r r' : ℕ → ℕ → F}
    (hr : Spec.Pract.Removed P rows k q q r r') {Rl : ℕ → F} (hRl : ∀ j < k, Rl j = Spec.Pract.ip P rows (q j) r) :
    newBlockNorm (Spec.Pract.norm P rows r) k Rl 0 = Spec.Pract.norm P rows r' ∧
    ∀ t, 0 ≤ t → newBlockNorm (Spec.Pract.norm P rows r) k Rl t ≤ Spec.Pract.norm P rows r' := by
  obtain ⟨c, hc⟩ := hr.combination
  have hcj : ∀ j < k, c j = Rl j := by
    intro j hj
    have := hr.orthogonal j hj
    rw [Spec.Pract.ip_congr _ hc, Spec.Pract.ip_sub, Spec.Pract.ip_comb, Finset.sum_eq_single j] at this
    · rw [ho j hj j hj, if_pos rfl, one_mul] at this
      rw [hRl j hj, (sub_eq_zero.1 this)]
    · intro b hb hne
      rw [ho j hj b (Finset.mem_range.1 hb), if_neg (Ne.symm hne), zero_mul]
    · intro hb
      exact absurd (Finset.mem_range.2 hj) hb
  have hpy := Spec.Pract.norm_pyth P rows r' _ (Spec.Pract.ip_swap_comb P rows r' k q c hr.orthogonal)
  have hrr : Spec.Pract.norm P rows (fun p i => r' p i + ∑ j ∈ Finset.range k, q j p i * c j) =
      Spec.Pract.norm P rows r := by
    refine Spec.Pract.norm_congr fun p hp i hi => ?_
    rw [hc p hp i hi]; ring
  rw [hrr, comb_norm ho, Finset.sum_congr rfl fun j hj => by rw [hcj j (Finset.mem_range.1 hj)]] at hpy
  have h0 := Spec.Pract.norm_nonneg P rows r'
  have hs : (0 : ℝ) ≤ ∑ j ∈ Finset.range k, ‖Rl j‖ ^ 2 := Finset.sum_nonneg fun _ _ => by positivity
  unfold newBlockNorm
  rw [square_sum]
  constructor
  · rw [show Spec.Pract.norm P rows r * Spec.Pract.norm P rows r - (∑ j ∈ Finset.range k, ‖Rl j‖ ^ 2) * (1 + 0) =
      Spec.Pract.norm P rows r' ^ 2 by nlinarith, max_eq_left (sq_nonneg _), Real.sqrt_sq h0]
  · intro t ht
    rw [Real.sqrt_le_left h0]
    refine max_le ?_ (sq_nonneg _)
    nlinarith [mul_nonneg hs ht]

/-- **The correction for candidates that are not orthogonal** is the sum of the squares of their products with the locked
vectors, when there are no constraints and `VtBV` holds the products of the locked vectors with the basis.  With
constraints see `C59_overlap_violated`. -/
theorem C59_overlap_partial {k n : ℕ} {q v : ℕ → ℕ → ℕ → F} {G : ℕ → ℕ → F} {h : ℕ → F}
    (hG : ∀ i < k, ∀ j < n, G i (k + j) = Spec.Pract.ip P rows (q i) (v j)) :
    overlapNorm k n (some G) h =
      ∑ i ∈ Finset.range k, ‖Spec.Pract.ip P rows (q i) (fun p r => ∑ j ∈ Finset.range n, v j p r * h j)‖ ^ 2 ∧
    overlapNorm k n (none : Option (ℕ → ℕ → F)) h = 0 := by
  refine ⟨?_, rfl⟩
  simp only [overlapNorm]
  rw [square_sum]
  refine Finset.sum_congr rfl fun i hi => ?_
  rw [Spec.Pract.ip_comb]
  unfold overlap
  congr 2
  refine Finset.sum_congr rfl fun j hj => ?_
  rw [hG i (Finset.mem_range.1 hi) j (Finset.mem_range.1 hj)]

/-- A single process with the rows of a list of columns. -/
def C59_lists (cols : List (List ℝ)) : Cols ℝ := fun _ j i => (cols.getD j []).getD i 0

/-- **Violation.**  With constraints the code takes another block of `VtBV`: here the constraint, the locked vector and the
basis vector are the columns, `VtBV` is their Gram matrix, and the candidate, which is the basis vector, has the product
3/5 with the locked vector; the code finds 0. -/
theorem C59_overlap_violated : ∃ cols : Cols ℝ, ∃ G : ℕ → ℕ → ℝ,
    (∀ i < 3, ∀ j < 3, G i j = Spec.Pract.ip 1 (fun _ => 3) (C59_col cols i) (C59_col cols j)) ∧
    Spec.Pract.ip 1 (fun _ => 3) (C59_col cols 1) (C59_col cols 2) = 3 / 5 ∧
    overlapNorm 1 1 (some G) (fun _ => 1) = 0 := by
  refine ⟨C59_lists [[1, 0, 0], [0, 1, 0], [0, 3 / 5, 4 / 5]],
    fun i j => Spec.Pract.ip 1 (fun _ => 3) (C59_col (C59_lists [[1, 0, 0], [0, 1, 0], [0, 3 / 5, 4 / 5]]) i)
      (C59_col (C59_lists [[1, 0, 0], [0, 1, 0], [0, 3 / 5, 4 / 5]]) j), fun _ _ _ _ => rfl, ?_, ?_⟩
  · simp [Spec.Pract.ip, C59_col, C59_lists, Finset.sum_range_succ]
  · simp [overlapNorm, overlap, Spec.Pract.ip, C59_col, C59_lists, Finset.sum_range_succ]

/-- **Violation.**  The routine is given the Gram matrix of vectors that are not orthonormal, solves the system with it, and
does not use the solution: here nothing is left of the residual without the direction of the converged vector, and the norm
found is 3. -/
theorem C59_gram_violated : ∃ (Q X : Cols ℝ) (solve : (ℕ → ℕ → ℝ) → Option (ℕ → ℕ → ℝ)),
    (∀ y, ∃ z, solve y = some z ∧
      ∀ c, Spec.Pract.ip 1 (fun _ => 1) (C59_col Q 0) (C59_col Q 0) * z 0 c = y 0 c) ∧
    (∃ r', Spec.Pract.Removed 1 (fun _ => 1) 1 (C59_col Q) (C59_col Q) (C59_col X 0) r' ∧
      Spec.Pract.norm 1 (fun _ => 1) r' = 0) ∧
    ∃ o, orthoSingle 512 1 (fun _ => 1) 1 Q Q (some solve) X [0] = some o ∧ o.2 0 = 3 := by
  refine ⟨C59_lists [[2]], C59_lists [[1]], fun y => some fun k c => y k c / 4, ?_, ⟨fun _ _ => 0, ⟨⟨fun _ => 1 / 2, ?_⟩, ?_⟩,
    ?_⟩, _, rfl, ?_⟩
  · intro y
    refine ⟨_, rfl, fun c => ?_⟩
    simp [Spec.Pract.ip, C59_col, C59_lists]
    ring
  · intro p hp i hi
    have hi' : i = 0 := by omega
    subst hi'
    simp [C59_col, C59_lists]
  · intro j hj
    simp [Spec.Pract.ip]
  · simp [Spec.Pract.norm]
  · dsimp only
    have h := (C59_computed (M := 512) (P := 1) (rows := fun _ => 1) (nQ := 1) (Q := C59_lists [[2]])
      (BQ := C59_lists [[2]]) (X := C59_lists [[1]]) (inX := [0])
      (solve := some fun (y : ℕ → ℕ → ℝ) => some fun k c => y k c / 4) (by norm_num) rfl).1 0 (by simp)
    refine h.trans ?_
    simp [Spec.Pract.norm, Spec.Pract.ip, C59_col, C59_lists]
    norm_num
    rw [show (9 : ℝ) = 3 ^ 2 by norm_num, Real.sqrt_sq (by norm_num)]

/-- Two processes with a row each; a converged vector on the first row; a residual (3, 4): what is left is (0, 4). -/
example : ∃ o, orthoSingle 512 2 (fun _ => 1) 1 (fun p _ _ => if p = 0 then (1 : ℝ) else 0)
    (fun p _ _ => if p = 0 then (1 : ℝ) else 0) none (fun p _ _ => if p = 0 then 3 else 4) [0] = some o ∧
    Spec.Pract.Orthonormal 2 (fun _ => 1) 1 (C59_col fun p _ _ => if p = 0 then (1 : ℝ) else 0)
      (C59_col fun p _ _ => if p = 0 then (1 : ℝ) else 0) ∧ o.2 0 = 4 ∧ o.1 0 0 0 = 0 ∧ o.1 1 0 0 = 4 := by
  obtain ⟨⟨X', nrm⟩, h⟩ := C59_total 512 2 (fun _ => 1) 1 (fun p _ _ => if p = 0 then (1 : ℝ) else 0)
    (fun p _ _ => if p = 0 then (1 : ℝ) else 0) (fun p _ _ => if p = 0 then 3 else 4) [0]
  obtain ⟨h1, h2, -⟩ := C59_computed (by norm_num) h
  refine ⟨_, h, ?_, ?_, ?_, ?_⟩
  · intro i hi j hj
    have : i = 0 := by omega
    subst this
    have : j = 0 := by omega
    subst this
    simp [Spec.Pract.ip, C59_col, Finset.sum_range_succ]
  · refine (h1 0 (by simp)).trans ?_
    simp [Spec.Pract.norm, Spec.Pract.ip, C59_col, Finset.sum_range_succ]
  · refine (h2 (by simp) 0 (by simp) 0 0).trans ?_
    simp [Spec.Pract.ip, C59_col, Finset.sum_range_succ]
  · refine (h2 (by simp) 0 (by simp) 1 0).trans ?_
    simp [Spec.Pract.ip, C59_col, Finset.sum_range_succ]

/-- The shortcut on the same numbers: the norm of the residual is 5, its product with the converged vector 3. -/
example : newBlockNorm 5 1 (fun _ => (3 : ℝ)) 0 = 4 := by
  unfold newBlockNorm
  simp only [Finset.sum_range_one, conj_trivial, Real.norm_eq_abs]
  rw [show ((5 : ℝ) * 5 - |3 * 3| * (1 + 0)) = 4 ^ 2 by norm_num, max_eq_left (by norm_num), Real.sqrt_sq (by norm_num)]

/-- The parameters of the example below. -/
noncomputable def C59_p : Conv.P ℝ := ⟨.largest, [], 0, true, 0, false, 0, 0, 0, 4, 0, 0⟩

/-- A decision: the residual above is 5, the tolerance 4 with one locked vector; the user's test refuses it and the pair is
flagged practically converged. -/
example : ∃ res, checkConvergence (K := ℝ) (fun (w : Unit) _ _ => (w, some false)) (fun _ => 2) 0
    (practNorms 512 2 (fun _ => 1) (0 + 1) (fun p _ _ => if p = 0 then (1 : ℝ) else 0)
      (fun p _ _ => if p = 0 then (1 : ℝ) else 0) none (fun p _ _ => if p = 0 then 3 else 4))
    C59_p 1 true 0 0 1 [.unconverged] [5] [1] none () = .ok res ∧
    res.flags[0]? = some .practically_converged := by
  obtain ⟨⟨X', nrm⟩, h⟩ := C59_total 512 2 (fun _ => 1) 1 (fun p _ _ => if p = 0 then (1 : ℝ) else 0)
    (fun p _ _ => if p = 0 then (1 : ℝ) else 0) (fun p _ _ => if p = 0 then 3 else 4) [0]
  have h4 : nrm 0 = 4 := by
    refine ((C59_computed (by norm_num) h).1 0 (by simp)).trans ?_
    simp [Spec.Pract.norm, Spec.Pract.ip, C59_col, Finset.sum_range_succ]
  have hp : practNorms 512 2 (fun _ => 1) (0 + 1) (fun p _ _ => if p = 0 then (1 : ℝ) else 0)
      (fun p _ _ => if p = 0 then (1 : ℝ) else 0) none (fun p _ _ => if p = 0 then 3 else 4) [0] = some [4] := by
    simp [practNorms, h, h4]
  have hl : loop (K := ℝ) (fun (w : Unit) _ _ => (w, some false)) C59_p (2 * 4) 1 true 0 0 [1] [5] 1 0
      ⟨[.unconverged], none, [], (), []⟩ = .ok ⟨[.unconverged], none, [0], (), [⟨0, 1, 5, false⟩]⟩ := by
    have ht : Conv.turn (K := ℝ) (fun (w : Unit) _ _ => (w, some false)) C59_p (2 * 4) 1 true 0 0 0 1 5 .unconverged
        ⟨[.unconverged], none, [], (), []⟩ = .ok ⟨[.unconverged], none, [0], (), [⟨0, 1, 5, false⟩]⟩ := by
      simp only [Conv.turn]
      rw [if_neg (by simp [wrongSide, C59_p]), if_neg (by norm_num [C59_p])]
      norm_num [C59_p]
    show (Conv.turn _ _ _ _ _ _ _ _ _ _ _ _ >>= _) = _
    rw [ht]
    rfl
  refine ⟨⟨[.practically_converged], [4], none, (), [⟨0, 1, 5, false⟩]⟩, ?_, rfl⟩
  unfold checkConvergence
  have ht : max (0 * problemNorm true C59_p) C59_p.maxConvTol = (4 : ℝ) := by norm_num [C59_p]
  have ha : (if C59_p.locking = true then (2 : ℝ) * 4 else 0) = 2 * 4 := by simp [C59_p]
  simp only [ht, ha, Nat.sub_zero]
  rw [hl]
  rw [Outcome.bind_ok, if_neg (by simp)]
  simp only [hp]
  simp [practLoop]

end Verif.Props
