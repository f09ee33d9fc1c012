import Verif.Proofs.Clusters
import Verif.Props.C52_Extraction

/-!
# C70: with the refined extraction, vectors that cannot be told apart are replaced together

`prepare_vecs` decides which of the singular vectors are used as they are and which are replaced by Rayleigh-Ritz in their span.
-/

namespace Verif.Props
open Verif.Clusters Verif.Spec

variable {C : Type}

/-- **C70**, the clusters: the columns from the first that can change on are cut at those that are far from the one before, every
segment of two or more columns is replaced by Rayleigh-Ritz, and nothing else changes; the columns looked at hold as many eligible
pairs as asked for, or all; and no cluster begins once there are enough. -/
theorem C70_clusters (J : Job C) (arb : ℕ) (col : ℕ → C) (hb : J.b ≠ 0) (hs : J.blockSize ≠ 0) (hi : J.i0 ≤ J.b)
    (ha : arb ≤ J.b) (r : St C) (hr : r = prepareVecs true J arb col) :
    Segmented J.far col J.b (max J.i0 arb) r.j r.cl ∧
    (J.blockSize ≤ eligible J.unc J.i0 r.j ∨ r.j = J.b) ∧
    (∀ x ∈ r.cl, eligible J.unc J.i0 x.1 < J.blockSize) ∧
    (∀ x ∈ r.cl, ∀ k, x.1 ≤ k → k < x.2 → r.col k = J.ans x.1 k) ∧
    (∀ k, (∀ x ∈ r.cl, ¬ (x.1 ≤ k ∧ k < x.2)) → r.col k = col k) ∧
    r.arb = lastEnd arb r.cl := by
  have h := prepareVecs_done J arb col hb hs hi ha
  rw [← hr] at h
  refine ⟨h.seg, ?_, h.need, h.new, h.old, h.last⟩
  rw [← h.enough.1]
  exact h.enough.2

/-- **C70**, nothing is done with another extraction. -/
theorem C70_other (J : Job C) (arb : ℕ) (col : ℕ → C) : (prepareVecs false J arb col).cl = [] ∧
    (prepareVecs false J arb col).col = col ∧ (prepareVecs false J arb col).arb = arb := by
  unfold prepareVecs
  rw [if_pos (Or.inl rfl)]
  exact ⟨rfl, rfl, rfl⟩

private theorem bounds {far : ℕ → List C → Bool} {col : ℕ → C} {b p e : ℕ} {cl : List (ℕ × ℕ)}
    (h : Segmented far col b p e cl) : p ≤ e ∧ (∀ x ∈ cl, p ≤ x.1 ∧ x.1 + 1 < x.2 ∧ x.2 ≤ e ∧ x.2 ≤ b) ∧
      cl.Pairwise (fun x y => x.2 ≤ y.1) := by
  induction h with
  | start => exact ⟨le_refl _, fun x hx => (by cases hx), List.Pairwise.nil⟩
  | single q cl h hb hend ih =>
    refine ⟨by omega, fun x hx => ?_, ih.2.2⟩
    have := ih.2.1 x hx
    omega
  | several q e cl h hq hb hin hend ih =>
    refine ⟨by omega, fun x hx => ?_, ?_⟩
    · rcases List.mem_append.1 hx with hx | hx
      · have := ih.2.1 x hx
        omega
      · rw [List.mem_singleton.1 hx]
        dsimp only
        omega
    · rw [List.pairwise_append]
      refine ⟨ih.2.2, List.pairwise_singleton _ _, fun x hx y hy => ?_⟩
      rw [List.mem_singleton.1 hy]
      exact (ih.2.1 x hx).2.2.1

/-- **C70**, safety: clusters have two or more columns of the basis, come after the columns that are arbitrary already and before
the position asked for, and do not overlap. -/
theorem C70_bounds (J : Job C) (arb : ℕ) (col : ℕ → C) (hb : J.b ≠ 0) (hs : J.blockSize ≠ 0) (hi : J.i0 ≤ J.b) (ha : arb ≤ J.b)
    (r : St C) (hr : r = prepareVecs true J arb col) :
    (∀ x ∈ r.cl, J.i0 ≤ x.1 ∧ arb ≤ x.1 ∧ x.1 + 1 < x.2 ∧ x.2 ≤ J.b) ∧ r.cl.Pairwise (fun x y => x.2 ≤ y.1) ∧
    arb ≤ r.arb ∧ r.arb ≤ r.j := by
  have h := prepareVecs_done J arb col hb hs hi ha
  rw [← hr] at h
  obtain ⟨h1, h2, h3⟩ := bounds h.seg
  refine ⟨fun x hx => ?_, h3, ?_, h.arb⟩
  · have := h2 x hx
    omega
  · rw [h.last]
    unfold lastEnd
    cases hl : r.cl.getLast? with
    | none => exact le_refl _
    | some x =>
      have := h2 x (List.mem_of_getLast? hl)
      show arb ≤ x.2
      omega

private theorem cut {far : ℕ → List C → Bool} {col : ℕ → C} {b p e : ℕ} {cl : List (ℕ × ℕ)}
    (h : Segmented far col b p e cl) : ∀ k, p < k → k ≤ e → k < b → (∃ x ∈ cl, x.1 < k ∧ k < x.2) ∨
      ∃ q, p ≤ q ∧ q < k ∧ far q ((List.range' q (k + 1 - q)).map col) = true := by
  induction h with
  | start => intro k h1 h2; omega
  | single q cl h hb hend ih =>
    intro k h1 h2 h3
    rcases Nat.lt_or_ge q k with h4 | h4
    · have hk : k = q + 1 := by omega
      subst hk
      refine Or.inr ⟨q, (bounds h).1, by omega, ?_⟩
      rw [show q + 1 + 1 - q = 2 by omega]
      exact hend h3
    · exact ih k h1 h4 h3
  | several q e cl h hq hb hin hend ih =>
    intro k h1 h2 h3
    rcases Nat.lt_or_ge q k with h4 | h4
    · rcases Nat.lt_or_ge k e with h5 | h5
      · exact Or.inl ⟨(q, e), List.mem_append.2 (Or.inr (List.mem_singleton.2 rfl)), h4, h5⟩
      · have hk : k = e := by omega
        subst hk
        exact Or.inr ⟨q, (bounds h).1, h4, hend h3⟩
    · rcases ih k h1 h4 h3 with ⟨x, hx, h⟩ | h
      · exact Or.inl ⟨x, List.mem_append.2 (Or.inl hx), h⟩
      · exact Or.inr h

/-- **C70**, neighbours are kept apart only when the test says that they are far, also where the columns looked at end. -/
theorem C70_apart (J : Job C) (arb : ℕ) (col : ℕ → C) (hb : J.b ≠ 0) (hs : J.blockSize ≠ 0) (hi : J.i0 ≤ J.b) (ha : arb ≤ J.b)
    (r : St C) (hr : r = prepareVecs true J arb col) (k : ℕ) (h1 : max J.i0 arb < k) (h2 : k ≤ r.j) (h3 : k < J.b)
    (hk : ∀ x ∈ r.cl, ¬ (x.1 < k ∧ k < x.2)) :
    ∃ q, max J.i0 arb ≤ q ∧ q < k ∧ J.far q ((List.range' q (k + 1 - q)).map col) = true := by
  have h := prepareVecs_done J arb col hb hs hi ha
  rw [← hr] at h
  rcases cut h.seg k h1 h2 h3 with ⟨x, hx, h⟩ | h
  · exact absurd h (hk x hx)
  · exact h

private theorem ends (col : ℕ → C) (q k : ℕ) (h : q < k) :
    ((List.range' q (k + 1 - q)).map col).getLast? = some (col k) ∧
    ((List.range' q (k + 1 - q)).map col).dropLast.getLast? = some (col (k - 1)) ∧
    q + ((List.range' q (k + 1 - q)).map col).length - 1 = k := by
  obtain ⟨d, rfl⟩ := Nat.exists_eq_add_of_lt h
  rw [show q + d + 1 + 1 - q = d + 1 + 1 by omega, List.range'_concat, List.range'_concat]
  refine ⟨?_, ?_, ?_⟩
  · simp [Nat.add_assoc]
  · simp only [List.map_append, List.map_cons, List.map_nil, List.dropLast_concat]
    simp
  · simp
    omega

/-- **C70**, with real numbers: two neighbours are kept apart only when the bound of the angle of the singular vector to the exact one,
`√2 ‖R‖ ε` over the gap of the singular values, is at most the bound of the angle of the eigenvector, `‖A‖ eps` over the gap of the
Ritz values.  This is what the comment of the function promises. -/
theorem C70_angles (T : Test) (J : Job (ℝ × ℝ)) (hT : J.far = separated T) (hTb : T.b = J.b) (arb : ℕ) (col : ℕ → ℝ × ℝ)
    (hb : J.b ≠ 0) (hs : J.blockSize ≠ 0) (hi : J.i0 ≤ J.b) (ha : arb ≤ J.b) (hpos : 0 < T.aNorm * T.eps)
    (r : St (ℝ × ℝ)) (hr : r = prepareVecs true J arb col) (k : ℕ) (h1 : max J.i0 arb < k) (h2 : k ≤ r.j) (h3 : k < J.b)
    (hk : ∀ x ∈ r.cl, ¬ (x.1 < k ∧ k < x.2)) (hsv : T.sv k ≠ T.sv (k - 1)) (hv : (col k).1 ≠ (col (k - 1)).1) :
    √2 * T.sv (J.b - 1) * T.machEps / |T.sv k - T.sv (k - 1)| ≤ T.aNorm * T.eps / |(col k).1 - (col (k - 1)).1| := by
  obtain ⟨q, _, h4, h5⟩ := C70_apart J arb col hb hs hi ha r hr k h1 h2 h3 hk
  obtain ⟨e1, e2, e3⟩ := ends col q k h4
  rw [hT] at h5
  unfold separated at h5
  simp only [e1, e2, decide_eq_true_eq] at h5
  have h6 := h5.1
  rw [e3, hTb] at h6
  have g1 : 0 < |T.sv k - T.sv (k - 1)| := abs_pos.2 (sub_ne_zero.2 hsv)
  have g2 : 0 < |(col k).1 - (col (k - 1)).1| := abs_pos.2 (sub_ne_zero.2 hv)
  rw [div_le_iff₀ (div_pos hpos g2)] at h6
  rw [div_le_iff₀ g1, mul_comm (T.aNorm * T.eps / _)]
  exact h6

/-- **C70**, the newest direction: when there is a smallest residual norm, a segment also ends only when its vectors have enough of the
last basis vector, or nothing of it. -/
theorem C70_newest (T : Test) (J : Job (ℝ × ℝ)) (hT : J.far = separated T) (arb : ℕ) (col : ℕ → ℝ × ℝ) (hb : J.b ≠ 0)
    (hs : J.blockSize ≠ 0) (hi : J.i0 ≤ J.b) (ha : arb ≤ J.b) (r : St (ℝ × ℝ)) (hr : r = prepareVecs true J arb col) (k : ℕ)
    (h1 : max J.i0 arb < k) (h2 : k ≤ r.j) (h3 : k < J.b) (hk : ∀ x ∈ r.cl, ¬ (x.1 < k ∧ k < x.2)) (small : ℝ)
    (hsm : T.smallest = some small) :
    ∃ q, max J.i0 arb ≤ q ∧ q < k ∧ ((((List.range' q (k - q)).map (fun l => (col l).2 ^ 2)).sum = 0) ∨
      small / T.aNorm / 3.16 ≤ √(((List.range' q (k - q)).map (fun l => (col l).2 ^ 2)).sum)) := by
  obtain ⟨q, h0, h4, h5⟩ := C70_apart J arb col hb hs hi ha r hr k h1 h2 h3 hk
  obtain ⟨e1, e2, _⟩ := ends col q k h4
  rw [hT] at h5
  unfold separated at h5
  simp only [e1, e2, decide_eq_true_eq, hsm] at h5
  refine ⟨q, h0, h4, ?_⟩
  have hd : ((List.range' q (k + 1 - q)).map col).dropLast.map (fun c => c.2 ^ 2) =
      (List.range' q (k - q)).map (fun l => (col l).2 ^ 2) := by
    rw [show k + 1 - q = (k - q) + 1 by omega, List.range'_concat]
    simp
  rw [hd] at h5
  exact h5.2

/-- The hypothesis `hpos` of `C70_angles` holds for the values that the function computes, and `eps` is at least the tolerance of the
pairs accepted so far, or a tenth of the smallest residual norm before the first. -/
theorem C70_tolerance (b : ℕ) (sv : ℕ → ℝ) (machEps epsOrth aNorm est tol : ℝ) (smallest : Option ℝ) (ho : 0 < epsOrth)
    (hn : aNorm ≤ 0 → 0 < est) :
    0 < (mkTest b sv machEps epsOrth aNorm est tol smallest).aNorm * (mkTest b sv machEps epsOrth aNorm est tol smallest).eps ∧
    tol ≤ (mkTest b sv machEps epsOrth aNorm est tol smallest).eps ∧
    (∀ r, smallest = some r → tol ≤ 0 → r / 10 ≤ (mkTest b sv machEps epsOrth aNorm est tol smallest).eps) := by
  have h1 : 0 < (mkTest b sv machEps epsOrth aNorm est tol smallest).eps :=
    lt_of_lt_of_le (by positivity) (le_max_left _ _)
  refine ⟨mul_pos ?_ h1, ?_, ?_⟩
  · show 0 < if aNorm ≤ 0 then est else aNorm
    split
    · exact hn (by assumption)
    · exact not_le.1 (by assumption)
  · rcases lt_or_ge 0 tol with h | h
    · refine le_trans ?_ (le_max_right _ _)
      rw [if_pos h]
    · exact h.trans h1.le
  · rintro r rfl ht
    refine le_trans ?_ (le_max_right _ _)
    rw [if_neg (not_lt.2 ht)]

/-- **C70**, one decision for the whole iteration: when the next call begins after the last candidate taken, it goes on exactly where
this one ended, so no pair of neighbours is skipped between two calls. -/
theorem C70_resume (J : Job C) (arb : ℕ) (col : ℕ → C) (hb : J.b ≠ 0) (hs : J.blockSize ≠ 0) (hi : J.i0 ≤ J.b) (ha : arb ≤ J.b)
    (r : St C) (hr : r = prepareVecs true J arb col) (he : J.blockSize ≤ eligible J.unc J.i0 r.j) (l : ℕ) (h0 : J.i0 ≤ l)
    (hl : eligible J.unc J.i0 l + 1 = J.blockSize) (hu : J.unc l = true) : max (l + 1) r.arb = r.j := by
  have h := prepareVecs_done J arb col hb hs hi ha
  rw [← hr] at h
  have hlt : l < r.j := by
    by_contra hc
    have := eligible_mono J.unc J.i0 r.j l (by omega)
    omega
  have hsucc := eligible_succ J.unc J.i0 l h0
  rw [if_pos hu] at hsucc
  have harb := h.arb
  rcases h.resume with h | h | ⟨h, h'⟩
  · omega
  · omega
  · have : r.j - 1 ≤ l := by
      by_contra hc
      have := eligible_mono J.unc J.i0 (l + 1) (r.j - 1) (by omega)
      omega
    omega

/-! ## The runs of C52 -/

open Verif.Rayleigh Verif.Extraction Finset
variable {𝕜 E : Type} [RCLike 𝕜] [AddCommGroup E] [Module 𝕜 E]

/-- Rayleigh-Ritz on one cluster after the other. -/
def C70_apply (s : XSt 𝕜 E) : List ((ℕ × ℕ) × Eig 𝕜) → XSt 𝕜 E
  | [] => s
  | (x, e) :: l => C70_apply (prepare s x.1 x.2 e) l

/-- Each decomposition is one of the matrix of its cluster. -/
def C70_Solved (s : XSt 𝕜 E) : List ((ℕ × ℕ) × Eig 𝕜) → Prop
  | [] => True
  | (x, e) :: l => IsEigenbasis (x.2 - x.1) (sym (clusterH s x.1)) e.vecs e.vals ∧ C70_Solved (prepare s x.1 x.2 e) l

/-- **C70**, the clusters are those that the runs of C52 may have: doing Rayleigh-Ritz on them leads to another state of such a run,
in which every pair of a cluster is a Ritz pair in the span of the cluster. -/
theorem C70_reach (P : Restart.Par) (ip : E → E → 𝕜) (A : E → E) (M : C52_Mode) (hm : M ≠ .harmonic) :
    ∀ (l : List ((ℕ × ℕ) × Eig 𝕜)) (s : XSt 𝕜 E) (cut good : ℕ → Prop), C52_Reach P ip A M s cut good →
      (∀ x ∈ l.map (·.1), s.arb ≤ x.1 ∧ x.1 + 1 < x.2 ∧ x.2 ≤ s.b) → (l.map (·.1)).Pairwise (fun x y => x.2 ≤ y.1) →
      C70_Solved s l →
      ∃ cut' good' : ℕ → Prop, C52_Reach P ip A M (C70_apply s l) cut' good' ∧
        (∀ j, good' j ↔ good j ∨ ∃ x ∈ l.map (·.1), x.1 ≤ j ∧ j < x.2) ∧
        (∀ k, cut' k ↔ cut k ∧ ∀ x ∈ l.map (·.1), ¬ (x.1 < k ∧ k < x.2))
  | [], s, cut, good, h, _, _, _ => ⟨cut, good, h, fun j => by simp, fun k => by simp⟩
  | (x, e) :: l, s, cut, good, h, hb, hp, hs => by
    rw [List.map_cons] at hb hp
    obtain ⟨h1, h2, h3⟩ := hb x (List.mem_cons_self ..)
    obtain ⟨p1, p2⟩ := List.pairwise_cons.1 hp
    obtain ⟨c', g', r1, r2, r3⟩ := C70_reach P ip A M hm l (prepare s x.1 x.2 e) _ _
      (C52_Reach.cluster s cut good x.1 x.2 e h hm h1 (by omega) h3 hs.1)
      (fun y hy => ⟨p1 y hy, (hb y (List.mem_cons_of_mem _ hy)).2⟩) p2 hs.2
    refine ⟨c', g', r1, fun j => ?_, fun k => ?_⟩
    · rw [r2, List.map_cons]
      simp only [List.mem_cons, exists_eq_or_imp]
      tauto
    · rw [r3, List.map_cons]
      simp only [List.mem_cons, forall_eq_or_imp]
      tauto

/-- The same for a call: its clusters meet what `C70_reach` asks for. -/
theorem C70_call_reach (P : Restart.Par) (ip : E → E → 𝕜) (A : E → E) (M : C52_Mode) (hm : M ≠ .harmonic) (s : XSt 𝕜 E)
    (cut good : ℕ → Prop) (h : C52_Reach P ip A M s cut good) (J : Job C) (col : ℕ → C) (hJ : J.b = s.b) (hb : s.b ≠ 0)
    (hs : J.blockSize ≠ 0) (hi : J.i0 ≤ s.b) (ha : s.arb ≤ s.b) (es : List (Eig 𝕜))
    (hl : es.length = (prepareVecs true J s.arb col).cl.length)
    (hsol : C70_Solved s ((prepareVecs true J s.arb col).cl.zip es)) :
    ∃ cut' good' : ℕ → Prop, C52_Reach P ip A M (C70_apply s ((prepareVecs true J s.arb col).cl.zip es)) cut' good' ∧
      (∀ j, good' j ↔ good j ∨ ∃ x ∈ (prepareVecs true J s.arb col).cl, x.1 ≤ j ∧ j < x.2) := by
  obtain ⟨b1, b2, _⟩ := C70_bounds J s.arb col (hJ ▸ hb) hs (hJ ▸ hi) (hJ ▸ ha) _ rfl
  have hz : ((prepareVecs true J s.arb col).cl.zip es).map (·.1) = (prepareVecs true J s.arb col).cl :=
    List.map_fst_zip (by omega)
  obtain ⟨c', g', r1, r2, _⟩ := C70_reach P ip A M hm _ s cut good h
    (by rw [hz]; intro x hx; have := b1 x hx; omega) (by rw [hz]; exact b2) hsol
  rw [hz] at r2
  exact ⟨c', g', r1, r2⟩

/-! ## The hypotheses are met -/

/-- Six columns, the singular values of which are `1 1 2 3 3 3`: a column is its singular value, and two are far when they differ. -/
def C70_job : Job ℕ where
  b := 6
  i0 := 0
  blockSize := 4
  unc := fun k => k ≠ 1
  rrForAll := true
  far := fun _ w => w.getLast? != w.dropLast.getLast?
  ans := fun j k => 100 * (j + 1) + k

def C70_cols (k : ℕ) : ℕ := [1, 1, 2, 3, 3, 3].getD k 0

/-- The clusters are the columns 0 and 1, and 3 to 5; the column 2 is not changed. -/
theorem C70_example : (prepareVecs true C70_job 0 C70_cols).cl = [(0, 2), (3, 6)] ∧
    (List.range 6).map (prepareVecs true C70_job 0 C70_cols).col = [100, 101, 2, 403, 404, 405] ∧
    (prepareVecs true C70_job 0 C70_cols).arb = 6 := by
  simp [prepareVecs, C70_job, loop, scan, refine, count, window, C70_cols, List.range', List.range_succ]

/-- With one candidate asked for only the first cluster is looked at, and the next call begins at its end. -/
theorem C70_example_one : (prepareVecs true { C70_job with blockSize := 1 } 0 C70_cols).cl = [(0, 2)] ∧
    (prepareVecs true { C70_job with blockSize := 1 } 0 C70_cols).j = 2 := by
  simp [prepareVecs, C70_job, loop, scan, refine, count, window, C70_cols, List.range', List.range_succ]

/-- The comment of `RRForAll` ("if false compute Rayleigh-Ritz only in clusters with candidates") is not what the code does: without it a
cluster of converged pairs only is replaced as well.  The solver never calls it so. -/
theorem C70_candidates_violated : ∃ (J : Job ℕ) (col : ℕ → ℕ), J.rrForAll = false ∧ (∀ k < 2, J.unc k = false) ∧
    (0, 2) ∈ (prepareVecs true J 0 col).cl := by
  refine ⟨{ C70_job with rrForAll := false, unc := fun k => decide (2 ≤ k), blockSize := 1 }, C70_cols, rfl, by decide, ?_⟩
  simp [prepareVecs, C70_job, loop, scan, refine, count, window, C70_cols, List.range']

/-- Two columns with the singular values 1 and 2 and the Ritz values 0 and 1. -/
noncomputable def C70_test : Test where
  b := 2
  sv := fun k => (k : ℝ) + 1
  machEps := 1 / 1000
  aNorm := 1
  eps := 1
  smallest := none

theorem C70_test_far : separated C70_test 0 [((0 : ℝ), (1 : ℝ)), (1, 1)] = true := by
  have h2 : √2 ≤ 2 := by
    rw [show (2 : ℝ) = √(2 ^ 2) by rw [Real.sqrt_sq (by norm_num)]]
    apply Real.sqrt_le_sqrt
    rw [Real.sqrt_sq (by norm_num)]
    norm_num
  unfold separated
  simp [C70_test]
  norm_num
  linarith

noncomputable def C70_realJob : Job (ℝ × ℝ) where
  b := 2
  i0 := 0
  blockSize := 2
  unc := fun _ => true
  rrForAll := true
  far := separated C70_test
  ans := fun _ _ => (0, 0)

/-- The hypotheses of `C70_angles`: the two columns are kept apart. -/
example : (prepareVecs true C70_realJob 0 (fun k => ((k : ℝ), 1))).cl = [] ∧
    1 ≤ (prepareVecs true C70_realJob 0 (fun k => ((k : ℝ), 1))).j ∧ 0 < C70_test.aNorm * C70_test.eps ∧
    C70_test.sv 1 ≠ C70_test.sv 0 := by
  have h := C70_test_far
  refine ⟨?_, ?_, ?_, ?_⟩
  · simp [prepareVecs, C70_realJob, loop, scan, refine, count, window, List.range', h]
  · simp [prepareVecs, C70_realJob, loop, scan, refine, count, window, List.range', h]
  · norm_num [C70_test]
  · norm_num [C70_test]

end Verif.Props
