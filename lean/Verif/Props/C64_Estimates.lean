import Verif.Model.Estimates
import Verif.Props.C48_Accuracy
import Verif.Model.Convergence

set_option linter.unusedSectionVars false

/-!
# C64: the estimates of the spectrum

`stats.estimateMinEVal`, `stats.estimateMaxEVal`, `stats.estimateLargestSVal` (readme.txt:4121-4160, 4811-4815): the leftmost and the
rightmost Ritz value seen, and the largest absolute value.  In exact arithmetic, with the Rayleigh-Ritz extraction.
-/

namespace Verif.Props
open Verif Verif.Restart Verif.Spec Verif.Rayleigh Verif.Estimates Finset Module

variable {𝕜 E : Type} [RCLike 𝕜] [AddCommGroup E] [Module 𝕜 E]

/-- States that a run can reach, as in C47, with the estimates and the list of all values the projected problems have had. -/
inductive C64_Reach (P : Par) (ip : E → E → 𝕜) (A B : E → E) : St 𝕜 E → Est → List 𝕜 → Prop
  | start (s : St 𝕜 E) (hb : s.b = 0) (hl : s.locked = []) (hc : Spec.Orthonormal ip B s.cons) : C64_Reach P ip A B s Est.start []
  | grow (s : St 𝕜 E) (t : Est) (L : List 𝕜) (m : ℕ) (q : ℕ → E) (e : Eig 𝕜) (hs : C64_Reach P ip A B s t L)
      (hq : C47_New ip B s m q) (he : IsEigenbasis (s.b + m) (sym (expand ip A B s m q e).H) e.vecs e.vals) :
      C64_Reach P ip A B (expand ip A B s m q e) (note (s.b + m) e.vals t) (L ++ (List.range (s.b + m)).map e.vals)
  | soft (s : St 𝕜 E) (t : Est) (L : List 𝕜) (o : Answers) (flags : List Conv.Flag) (ievSize : Int) (iev : Arr) (r : Result)
      (prev : ℕ → ℕ → 𝕜) (e : Eig 𝕜) (hs : C64_Reach P ip A B s t L) (h : C22_Plain P o s.b flags 0)
      (hr : Restart.restart P o s.b 0 flags ievSize iev 0 = .ok r) (hp : Retained s r prev)
      (he : IsEigenbasis r.retained.toNat (blockH s prev r) e.vecs e.vals) :
      C64_Reach P ip A B (Rayleigh.restart s prev r e 0) (note r.retained.toNat e.vals t)
        (L ++ (List.range r.retained.toNat).map e.vals)
  | hard (s : St 𝕜 E) (t : Est) (L : List 𝕜) (o : Answers) (flags : List Conv.Flag) (ievSize : Int) (iev : Arr) (g : Int) (r : Result)
      (prev : ℕ → ℕ → 𝕜) (e : Eig 𝕜) (hs : C64_Reach P ip A B s t L) (h : C22_Hard P o s.b s.locked.length flags g)
      (hr : Restart.restart P o s.b s.locked.length flags ievSize iev g = .ok r)
      (hbef : C22_Before (C22_chosen P s.b s.locked.length flags) r) (hp : Retained s r prev)
      (he : IsEigenbasis r.retained.toNat (blockH s prev r) e.vecs e.vals) :
      C64_Reach P ip A B (Rayleigh.restart s prev r e s.locked.length) (note r.retained.toNat e.vals t)
        (L ++ (List.range r.retained.toNat).map e.vals)
  | again (s : St 𝕜 E) (t : Est) (L : List 𝕜) (e : Eig 𝕜) (hs : C64_Reach P ip A B s t L)
      (he : IsEigenbasis s.b (sym s.H) e.vecs e.vals) :
      C64_Reach P ip A B (Rayleigh.resolve s e) (note s.b e.vals t) (L ++ (List.range s.b).map e.vals)

/-- They are the runs of C47. -/
theorem C64_is_C47 (P : Par) (ip : E → E → 𝕜) (A B : E → E) (s : St 𝕜 E) (t : Est) (L : List 𝕜) (h : C64_Reach P ip A B s t L) :
    C47_Reach P ip A B s := by
  induction h with
  | start s hb hl hc => exact .start s hb hl hc
  | grow s t L m q e hs hq he ih => exact .grow s m q e ih hq he
  | soft s t L o flags ievSize iev r prev e hs h hr hp he ih => exact .soft s o flags ievSize iev r prev e ih h hr hp he
  | hard s t L o flags ievSize iev g r prev e hs h hr hbef hp he ih =>
    exact .hard s o flags ievSize iev g r prev e ih h hr hbef hp he
  | again s t L e hs he ih => exact .again s e ih he

/-- And every run of C47 is one of them. -/
theorem C64_of_C47 (P : Par) (ip : E → E → 𝕜) (A B : E → E) (s : St 𝕜 E) (h : C47_Reach P ip A B s) :
    ∃ t L, C64_Reach P ip A B s t L := by
  induction h with
  | start s hb hl hc => exact ⟨_, _, .start s hb hl hc⟩
  | grow s m q e hs hq he ih => obtain ⟨t, L, ih⟩ := ih; exact ⟨_, _, .grow s t L m q e ih hq he⟩
  | soft s o flags ievSize iev r prev e hs h hr hp he ih =>
    obtain ⟨t, L, ih⟩ := ih
    exact ⟨_, _, .soft s t L o flags ievSize iev r prev e ih h hr hp he⟩
  | hard s o flags ievSize iev g r prev e hs h hr hbef hp he ih =>
    obtain ⟨t, L, ih⟩ := ih
    exact ⟨_, _, .hard s t L o flags ievSize iev g r prev e ih h hr hbef hp he⟩
  | again s e hs he ih => obtain ⟨t, L, ih⟩ := ih; exact ⟨_, _, .again s t L e ih he⟩

/-- The estimates are the extremes of the values in the list. -/
structure C64_Extremes (t : Est) (L : List 𝕜) : Prop where
  min : (L = [] ∧ t.minEVal = none) ∨ ∃ v ∈ L, t.minEVal = some (RCLike.re v) ∧ ∀ w ∈ L, RCLike.re v ≤ RCLike.re w
  max : (L = [] ∧ t.maxEVal = none) ∨ ∃ v ∈ L, t.maxEVal = some (RCLike.re v) ∧ ∀ w ∈ L, RCLike.re w ≤ RCLike.re v
  abs : (L = [] ∧ t.largestSVal = none) ∨ ∃ v ∈ L, t.largestSVal = some ‖v‖ ∧ ∀ w ∈ L, ‖w‖ ≤ ‖v‖

private theorem lower_one (f : 𝕜 → ℝ) (a : Option ℝ) (L : List 𝕜) (x : 𝕜)
    (h : (L = [] ∧ a = none) ∨ ∃ v ∈ L, a = some (f v) ∧ ∀ w ∈ L, f v ≤ f w) :
    ∃ v ∈ L ++ [x], lower a (f x) = some (f v) ∧ ∀ w ∈ L ++ [x], f v ≤ f w := by
  rcases h with ⟨rfl, rfl⟩ | ⟨v, hv, rfl, hw⟩
  · exact ⟨x, by simp, rfl, by simp⟩
  · rcases le_total (f v) (f x) with hc | hc
    · refine ⟨v, by simp [hv], by simp only [lower, min_eq_left hc], ?_⟩
      intro w hw'
      rcases List.mem_append.1 hw' with h | h
      · exact hw w h
      · rw [List.mem_singleton.1 h]; exact hc
    · refine ⟨x, by simp, by simp only [lower, min_eq_right hc], ?_⟩
      intro w hw'
      rcases List.mem_append.1 hw' with h | h
      · exact hc.trans (hw w h)
      · rw [List.mem_singleton.1 h]

private theorem raise_one (f : 𝕜 → ℝ) (a : Option ℝ) (L : List 𝕜) (x : 𝕜)
    (h : (L = [] ∧ a = none) ∨ ∃ v ∈ L, a = some (f v) ∧ ∀ w ∈ L, f w ≤ f v) :
    ∃ v ∈ L ++ [x], raise a (f x) = some (f v) ∧ ∀ w ∈ L ++ [x], f w ≤ f v := by
  rcases h with ⟨rfl, rfl⟩ | ⟨v, hv, rfl, hw⟩
  · exact ⟨x, by simp, rfl, by simp⟩
  · rcases le_total (f x) (f v) with hc | hc
    · refine ⟨v, by simp [hv], by simp only [raise, max_eq_left hc], ?_⟩
      intro w hw'
      rcases List.mem_append.1 hw' with h | h
      · exact hw w h
      · rw [List.mem_singleton.1 h]; exact hc
    · refine ⟨x, by simp, by simp only [raise, max_eq_right hc], ?_⟩
      intro w hw'
      rcases List.mem_append.1 hw' with h | h
      · exact (hw w h).trans hc
      · rw [List.mem_singleton.1 h]

private theorem note_extremes (n : ℕ) (vals : ℕ → 𝕜) (t : Est) (L : List 𝕜) (h : C64_Extremes t L) :
    C64_Extremes (note n vals t) (L ++ (List.range n).map vals) := by
  induction n with
  | zero => simpa [note] using h
  | succ n ih =>
    rw [List.range_succ, List.map_append, ← List.append_assoc]
    have e : note (n + 1) vals t = ⟨lower (note n vals t).minEVal (RCLike.re (vals n)),
        raise (note n vals t).maxEVal (RCLike.re (vals n)), raise (note n vals t).largestSVal ‖vals n‖⟩ := by
      unfold note
      rw [List.range_succ, List.foldl_append]
      rfl
    rw [e]
    exact ⟨.inr (lower_one RCLike.re _ _ _ ih.min), .inr (raise_one RCLike.re _ _ _ ih.max), .inr (raise_one norm _ _ _ ih.abs)⟩

private theorem restart_values (s : St 𝕜 E) (prev : ℕ → ℕ → 𝕜) (r : Result) (e : Eig 𝕜) (nl : ℕ) (hp : Plan r s.b nl) :
    (∀ j < (Rayleigh.restart s prev r e nl).b, (Rayleigh.restart s prev r e nl).hVals j ∈ (List.range s.b).map s.hVals ∨
      (Rayleigh.restart s prev r e nl).hVals j ∈ (List.range r.retained.toNat).map e.vals) ∧
    ∀ p ∈ (Rayleigh.restart s prev r e nl).locked, p ∈ s.locked ∨ p.value ∈ (List.range s.b).map s.hVals := by
  have hval : ∀ c < r.basisSize.toNat + (r.numLocked - nl), ¬ (r.indexPrev.toNat ≤ c ∧ c < r.indexPrev.toNat + r.retained.toNat) →
      newVal s r c ∈ (List.range s.b).map s.hVals := by
    intro c hc hn
    obtain ⟨v, hv, -, e1, -⟩ := hp.ritz c hc hn
    rw [newVal, e1]
    exact List.mem_map_of_mem (List.mem_range.2 hv)
  constructor
  · intro j hj
    change newVals s r e r.basisSize.toNat j ∈ _ ∨ newVals s r e r.basisSize.toNat j ∈ _
    change j < r.basisSize.toNat at hj
    unfold newVals
    dsimp only
    split_ifs with hb
    · right
      exact List.mem_map_of_mem (List.mem_range.2 (by omega))
    · left
      obtain ⟨c, hc, ec⟩ := hp.order j hj
      rw [ec]
      refine hval c (by omega) fun hcon => hb ?_
      obtain ⟨b1, b2⟩ := hp.block (c - r.indexPrev.toNat) (by omega)
      have := hp.orderOnce j hj _ b1 (by rw [b2, ec]; congr 1; omega)
      omega
  · intro p hp'
    rcases List.mem_append.1 hp' with h | h
    · exact .inl h
    · right
      obtain ⟨t, ht, rfl⟩ := List.mem_map.1 h
      rw [List.mem_range] at ht
      have := hp.fits
      exact hval _ (by omega) (by omega)

/-- In any run: the estimates are the smallest, the largest and the largest absolute value among all the values seen; all the values seen are Rayleigh
quotients of the operator, at vectors of norm one; and the values of the pairs at hand and of the locked pairs are among
them, so they lie between the two estimates. -/
theorem C64_seen_partial (P : Par) (hmin : P.locking = false → P.numEvals ≤ P.minRestartSize) (ip : E → E → 𝕜) (A B : E → E)
    (hip : IsInner ip) (hA : IsHermitian ip A) (hB : IsHermitian ip B) (s : St 𝕜 E) (t : Est) (L : List 𝕜)
    (h : C64_Reach P ip A B s t L) :
    C64_Extremes t L ∧ (∀ v ∈ L, ∃ x, ip x (B x) = 1 ∧ ip x (A x) = v) ∧ (∀ j < s.b, s.hVals j ∈ L) ∧
    ∀ p ∈ s.locked, p.value ∈ L := by
  have hrest : ∀ (s : St 𝕜 E) (t : Est) (L : List 𝕜) (r : Result) (prev : ℕ → ℕ → 𝕜) (e : Eig 𝕜) (nl : ℕ),
      Inv ip A B s → Plan r s.b nl → Retained s r prev → IsEigenbasis r.retained.toNat (blockH s prev r) e.vecs e.vals →
      (C64_Extremes t L ∧ (∀ v ∈ L, ∃ x, ip x (B x) = 1 ∧ ip x (A x) = v) ∧ (∀ j < s.b, s.hVals j ∈ L) ∧
        ∀ p ∈ s.locked, p.value ∈ L) →
      C64_Extremes (note r.retained.toNat e.vals t) (L ++ (List.range r.retained.toNat).map e.vals) ∧
        (∀ v ∈ L ++ (List.range r.retained.toNat).map e.vals, ∃ x, ip x (B x) = 1 ∧ ip x (A x) = v) ∧
        (∀ j < (Rayleigh.restart s prev r e nl).b, (Rayleigh.restart s prev r e nl).hVals j ∈
          L ++ (List.range r.retained.toNat).map e.vals) ∧
        ∀ p ∈ (Rayleigh.restart s prev r e nl).locked, p.value ∈ L ++ (List.range r.retained.toNat).map e.vals := by
    intro s t L r prev e nl hi hp hret he ⟨h1, h2, h3, h4⟩
    obtain ⟨g1, g2⟩ := restart_values s prev r e nl hp
    have hold : ∀ v ∈ (List.range s.b).map s.hVals, v ∈ L := by
      intro v hv
      obtain ⟨j, hj, rfl⟩ := List.mem_map.1 hv
      exact h3 j (List.mem_range.1 hj)
    refine ⟨note_extremes _ _ _ _ h1, ?_, ?_, ?_⟩
    · intro v hv
      rcases List.mem_append.1 hv with hv | hv
      · exact h2 v hv
      · obtain ⟨m, hm, rfl⟩ := List.mem_map.1 hv
        rw [List.mem_range] at hm
        have hi' := restart_inv hip hA hB hi hp hret e he
        obtain ⟨b1, -⟩ := hp.block m hm
        have hr := (ritz_spec hip hA hB _ hi' (firstPrev r r.basisSize.toNat + m) b1).1
        refine ⟨_, hr.unit, hr.quotient.trans ?_⟩
        change newVals s r e r.basisSize.toNat _ = _
        unfold newVals
        dsimp only
        rw [if_pos (by omega), Nat.add_sub_cancel_left]
    · intro j hj
      rcases g1 j hj with h | h
      · exact List.mem_append_left _ (hold _ h)
      · exact List.mem_append_right _ h
    · intro p hp'
      rcases g2 p hp' with h | h
      · exact List.mem_append_left _ (h4 p h)
      · exact List.mem_append_left _ (hold _ h)
  induction h with
  | start s hb hl hc =>
    refine ⟨⟨.inl ⟨rfl, rfl⟩, .inl ⟨rfl, rfl⟩, .inl ⟨rfl, rfl⟩⟩, by simp, ?_, ?_⟩
    · intro j hj; omega
    · intro p hp; rw [hl] at hp; cases hp
  | grow s t L m q e hs hq he ih =>
    have hi := C47_inv P hmin ip A B hip hA hB _ (C64_is_C47 P ip A B _ _ _ (.grow s t L m q e hs hq he))
    obtain ⟨h1, h2, h3, h4⟩ := ih
    refine ⟨note_extremes _ _ _ _ h1, ?_, ?_, ?_⟩
    · intro v hv
      rcases List.mem_append.1 hv with hv | hv
      · exact h2 v hv
      · obtain ⟨j, hj, rfl⟩ := List.mem_map.1 hv
        have hr := (ritz_spec hip hA hB _ hi j (List.mem_range.1 hj)).1
        exact ⟨_, hr.unit, hr.quotient⟩
    · intro j hj
      exact List.mem_append_right _ (List.mem_map_of_mem (List.mem_range.2 hj))
    · intro p hp
      exact List.mem_append_left _ (h4 p hp)
  | soft s t L o flags ievSize iev r prev e hs h hr hp he ih =>
    exact hrest s t L r prev e 0 (C47_inv P hmin ip A B hip hA hB _ (C64_is_C47 P ip A B _ _ _ hs))
      (C47_plan_without_locking P o s.b flags ievSize iev r h (hmin h.soft) hr) hp he ih
  | hard s t L o flags ievSize iev g r prev e hs h hr hbef hp he ih =>
    exact hrest s t L r prev e s.locked.length (C47_inv P hmin ip A B hip hA hB _ (C64_is_C47 P ip A B _ _ _ hs))
      (C47_plan_with_locking P o s.b s.locked.length flags ievSize iev g r h hr hbef) hp he ih
  | again s t L e hs he ih =>
    have hi := C47_inv P hmin ip A B hip hA hB _ (C64_is_C47 P ip A B _ _ _ (.again s t L e hs he))
    obtain ⟨h1, h2, h3, h4⟩ := ih
    refine ⟨note_extremes _ _ _ _ h1, ?_, ?_, ?_⟩
    · intro v hv
      rcases List.mem_append.1 hv with hv | hv
      · exact h2 v hv
      · obtain ⟨j, hj, rfl⟩ := List.mem_map.1 hv
        have hr := (ritz_spec hip hA hB _ hi j (List.mem_range.1 hj)).1
        exact ⟨_, hr.unit, hr.quotient⟩
    · intro j hj
      exact List.mem_append_right _ (List.mem_map_of_mem (List.mem_range.2 hj))
    · intro p hp
      exact List.mem_append_left _ (h4 p hp)

section Spectrum
variable {F : Type} [NormedAddCommGroup F] [InnerProductSpace 𝕜 F] [FiniteDimensional 𝕜 F]

/-- An eigenvalue of the pencil `A - value B`. -/
def C64_IsEigenvalue (A B : F → F) (value : ℝ) : Prop := ∃ x : F, x ≠ 0 ∧ A x = (value : 𝕜) • B x

private theorem beyond (A B : F →ₗ[𝕜] F) (hA : A.IsSymmetric) (hB : B.IsSymmetric) (β : ℝ) (hβ : 0 < β)
    (hlow : ∀ x : F, β * ‖x‖ ^ 2 ≤ RCLike.re (inner 𝕜 x (B x) : 𝕜)) (x : F) (v : 𝕜) (h1 : inner 𝕜 x (B x) = (1 : 𝕜))
    (h2 : inner 𝕜 x (A x) = v) (sign : ℝ) :
    ((RCLike.re v : ℝ) : 𝕜) = v ∧ ∃ μ : ℝ, C64_IsEigenvalue (𝕜 := 𝕜) A B μ ∧ sign * μ ≤ sign * RCLike.re v := by
  have hre : ((RCLike.re v : ℝ) : 𝕜) = v := by rw [← RCLike.conj_eq_iff_re, ← h2, inner_conj_symm, hA]
  refine ⟨hre, ?_⟩
  obtain ⟨f, μ, k1, k2, k3⟩ := Spectrum.minmax_mass A B hA hB β hβ hlow 1 (fun _ => x)
    (fun i j => by rw [if_pos (Subsingleton.elim i j)]; exact h1) (fun _ => RCLike.re v)
    (fun i j => by rw [if_pos (Subsingleton.elim i j), hre]; exact h2) sign _ (fun _ => le_refl _)
  refine ⟨μ 0, ⟨f 0, ?_, k2 0⟩, k3 0⟩
  intro h0
  have := k1 0 0
  rw [h0, inner_zero_left, if_pos rfl] at this
  exact zero_ne_one this

/-- In any run the estimates do not go beyond the spectrum: some eigenvalue is at or below the estimate of the smallest, some at or above that
of the largest, and some has at least the estimated absolute value. -/
theorem C64_inside_partial (P : Par) (hmin : P.locking = false → P.numEvals ≤ P.minRestartSize) (A B : F →ₗ[𝕜] F) (hA : A.IsSymmetric)
    (hB : B.IsSymmetric) (β : ℝ) (hβ : 0 < β) (hlow : ∀ x : F, β * ‖x‖ ^ 2 ≤ RCLike.re (inner 𝕜 x (B x) : 𝕜)) (s : St 𝕜 F) (t : Est)
    (L : List 𝕜) (h : C64_Reach P (inner 𝕜) A B s t L) :
    (∀ a, t.minEVal = some a → ∃ μ, C64_IsEigenvalue (𝕜 := 𝕜) A B μ ∧ μ ≤ a) ∧
    (∀ a, t.maxEVal = some a → ∃ μ, C64_IsEigenvalue (𝕜 := 𝕜) A B μ ∧ a ≤ μ) ∧
    (∀ a, t.largestSVal = some a → ∃ μ, C64_IsEigenvalue (𝕜 := 𝕜) A B μ ∧ a ≤ |μ|) := by
  obtain ⟨h1, h2, -, -⟩ := C64_seen_partial P hmin _ _ _ C48_inner (C48_hermitian A hA) (C48_hermitian B hB) s t L h
  have key : ∀ v ∈ L, ((RCLike.re v : ℝ) : 𝕜) = v ∧ (∃ μ, C64_IsEigenvalue (𝕜 := 𝕜) A B μ ∧ μ ≤ RCLike.re v) ∧
      ∃ μ, C64_IsEigenvalue (𝕜 := 𝕜) A B μ ∧ RCLike.re v ≤ μ := by
    intro v hv
    obtain ⟨x, x1, x2⟩ := h2 v hv
    obtain ⟨hre, μ, m1, m2⟩ := beyond A B hA hB β hβ hlow x v x1 x2 1
    obtain ⟨-, ν, n1, n2⟩ := beyond A B hA hB β hβ hlow x v x1 x2 (-1)
    exact ⟨hre, ⟨μ, m1, by linarith⟩, ν, n1, by linarith⟩
  refine ⟨?_, ?_, ?_⟩
  · intro a ha
    rcases h1.min with ⟨-, h⟩ | ⟨v, hv, e, -⟩
    · rw [h] at ha; cases ha
    · rw [e] at ha
      cases ha
      exact (key v hv).2.1
  · intro a ha
    rcases h1.max with ⟨-, h⟩ | ⟨v, hv, e, -⟩
    · rw [h] at ha; cases ha
    · rw [e] at ha
      cases ha
      exact (key v hv).2.2
  · intro a ha
    rcases h1.abs with ⟨-, h⟩ | ⟨v, hv, e, -⟩
    · rw [h] at ha; cases ha
    · rw [e] at ha
      cases ha
      obtain ⟨hre, ⟨μ, m1, m2⟩, ν, n1, n2⟩ := key v hv
      have en : ‖v‖ = |RCLike.re v| := by rw [← RCLike.norm_ofReal (K := 𝕜), hre]
      rw [en]
      rcases le_total 0 (RCLike.re v) with hs | hs
      · exact ⟨ν, n1, by rw [abs_of_nonneg hs]; exact n2.trans (le_abs_self _)⟩
      · exact ⟨μ, m1, by rw [abs_of_nonpos hs]; exact (by linarith : -RCLike.re v ≤ -μ).trans (neg_le_abs _)⟩

/-- What `eps` promises when `aNorm` is not given: a residual norm that passes the library's test is below `eps` times the
absolute value of some eigenvalue, whatever the history of the estimate (`2u` and `u` are the least values used for `eps`). -/
theorem C64_tolerance_partial (P : Par) (hmin : P.locking = false → P.numEvals ≤ P.minRestartSize) (A B : F →ₗ[𝕜] F)
    (hA : A.IsSymmetric) (hB : B.IsSymmetric) (β : ℝ) (hβ : 0 < β)
    (hlow : ∀ x : F, β * ‖x‖ ^ 2 ≤ RCLike.re (inner 𝕜 x (B x) : 𝕜)) (s : St 𝕜 F) (t : Est)
    (L : List 𝕜) (h : C64_Reach P (inner 𝕜) A B s t L) (p : Conv.P ℝ) (u rNorm : ℝ) (hu : 0 ≤ u) (hn : p.aNorm ≤ 0)
    (hp : t.largestSVal = some p.estimateLargestSVal) (hpass : Conv.convTestFunAbsolute u p rNorm = true) :
    ∃ μ, C64_IsEigenvalue (𝕜 := 𝕜) A B μ ∧ rNorm < max p.eps (if p.hasB then u else u * 2) * |μ| := by
  obtain ⟨-, -, h3⟩ := C64_inside_partial P hmin A B hA hB β hβ hlow s t L h
  obtain ⟨μ, m1, m2⟩ := h3 _ hp
  refine ⟨μ, m1, ?_⟩
  have e : Conv.problemNorm false p = p.estimateLargestSVal := by
    unfold Conv.problemNorm
    simp [not_lt.2 hn]
  unfold Conv.convTestFunAbsolute at hpass
  rw [e] at hpass
  cases hb : p.hasB with
  | false =>
    simp only [hb, Bool.false_eq_true, not_false_eq_true, if_true, decide_eq_true_eq] at hpass
    simp only [Bool.false_eq_true, if_false]
    exact hpass.trans_le (mul_le_mul_of_nonneg_left m2 (le_max_of_le_right (by linarith)))
  | true =>
    simp only [hb, not_true_eq_false, if_false, decide_eq_true_eq] at hpass
    simp only [if_true]
    exact hpass.trans_le (mul_le_mul_of_nonneg_left m2 (le_max_of_le_right hu))

end Spectrum

/-- `aNorm` is documented to hold on return the largest absolute Ritz value seen when it was not given (readme.txt:3204-3206):
it still holds what the user left there. -/
theorem C64_aNorm_violated : ∃ (t : Est) (L : List ℝ), C64_Extremes t L ∧ t.largestSVal = some 5 ∧ aNormOnReturn 0 t ≠ 5 := by
  refine ⟨⟨some 5, some 5, some 5⟩, [5], ⟨.inr ?_, .inr ?_, .inr ?_⟩, rfl, by norm_num [aNormOnReturn]⟩
  · exact ⟨5, by simp, by simp, by simp⟩
  · exact ⟨5, by simp, by simp, by simp⟩
  · exact ⟨5, by simp, by simp, by simp⟩

/-- The hypotheses are met by every run of C47 and C48 (`C64_of_C47`); here the basis of one vector of C48. -/
example (P : Par) : ∃ t L, C64_Reach P (inner ℝ) C48_swap id C48_one t L ∧ t.minEVal = some 0 ∧ t.largestSVal = some 0 := by
  have hA : C48_swap !₂[1, 0] = !₂[0, 1] := by simp [C48_swap]
  have hH : sym C48_one.H 0 0 = 0 := by
    simp [sym, C48_one, expand, C48_empty, hA, PiLp.inner_apply, Fin.sum_univ_two]
  refine ⟨_, _, C64_Reach.grow C48_empty Est.start [] 1 _ _ (C64_Reach.start _ rfl rfl ⟨fun x hx => (by cases hx), List.Pairwise.nil⟩)
    ⟨?_, fun i hi => absurd hi (Nat.not_lt_zero i), fun x hx => (List.not_mem_nil hx).elim⟩ ⟨?_, ?_, ?_⟩, ?_, ?_⟩
  · intro i hi j hj
    have : i = j := by omega
    rw [if_pos this, PiLp.inner_apply, Fin.sum_univ_two]
    simp
  · intro i hi j hj
    have e1 : i = 0 := by simp [C48_empty] at hi; exact hi
    have e2 : j = 0 := by simp [C48_empty] at hj; exact hj
    subst e1; subst e2
    simp [C48_empty]
  · intro i hi j hj
    have e1 : i = 0 := by simp [C48_empty] at hi; exact hi
    subst e1
    rw [show C48_empty.b + 1 = 1 from rfl, sum_range_one]
    change sym C48_one.H 0 0 * 1 = _
    rw [hH]
  · intro j _; exact star_trivial _
  · simp [note, C48_empty, lower, Est.start]
  · simp [note, C48_empty, raise, Est.start]

end Verif.Props
