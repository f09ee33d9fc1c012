import Verif.Model.PractProj
import Verif.Spec.Practical
import Mathlib.Algebra.BigOperators.Intervals
import Mathlib.Tactic.Ring
import Mathlib.Tactic.Linarith

/-! Lemmas about the model of `ortho_single_iteration`. -/

set_option linter.unusedSectionVars false

open scoped ComplexConjugate

namespace Verif.Pract

variable {F : Type} [RCLike F]

/-- An invariant of the turns holds after all the rows. -/
theorem blocks_inv {α : Type} (mQ : ℕ) (f : α → ℕ × ℕ → α) (I : ℕ → α → Prop)
    (step : ∀ i m s, i + m ≤ mQ → I i s → I (i + m) (f s (i, m))) :
    ∀ fuel i m s, mQ - i ≤ fuel → i ≤ mQ → (i < mQ → 0 < m ∧ i + m ≤ mQ) → I i s →
      I mQ ((blocks mQ fuel i m).foldl f s) := by
  intro fuel
  induction fuel with
  | zero =>
    intro i m s h1 h2 _ h
    have : i = mQ := by omega
    subst this
    exact h
  | succ n ih =>
    intro i m s h1 h2 h3 h
    unfold blocks
    by_cases hi : i < mQ
    · rw [if_pos hi, List.foldl_cons]
      obtain ⟨hm, hle⟩ := h3 hi
      refine ih (i + m) _ _ (by omega) hle (fun hlt => ⟨by rw [lt_min_iff]; omega, by
        have := min_le_right m (mQ - (i + m)); omega⟩) (step i m s hle h)
    · rw [if_neg hi]
      have : i = mQ := by omega
      subst this
      exact h

theorem turns_inv {α : Type} {M mQ : ℕ} (hM : 0 < M) (f : α → ℕ × ℕ → α) (I : ℕ → α → Prop)
    (step : ∀ i m s, i + m ≤ mQ → I i s → I (i + m) (f s (i, m))) (s : α) (h : I 0 s) :
    I mQ ((turns M mQ).foldl f s) := by
  unfold turns
  refine blocks_inv mQ f I step mQ 0 _ s (by omega) (by omega) (fun h0 => ⟨by rw [lt_min_iff]; omega, by simp⟩) h

theorem contiguous_get {inX : List ℕ} {j : ℕ} (h : contiguous j inX = true) {c : ℕ} (hc : c < inX.length) :
    inX.getD c 0 = j + c := by
  induction inX generalizing j c with
  | nil => simp at hc
  | cons a r ih =>
    simp only [contiguous, Bool.and_eq_true, decide_eq_true_eq] at h
    obtain ⟨rfl, h2⟩ := h
    cases c with
    | zero => simp
    | succ c =>
      have := ih h2 (c := c) (by simpa using hc)
      simp only [List.getD_cons_succ, this]
      omega

/-- The products do not depend on the blocks nor on whether the columns are consecutive. -/
theorem coefficients_eq {M mQ : ℕ} (hM : 0 < M) (Q X : Local F) (inX : List ℕ) (k c : ℕ) (hc : c < inX.length) :
    coefficients M mQ Q X inX k c = ∑ i ∈ Finset.range mQ, conj (Q k i) * X (inX.getD c 0) i := by
  unfold coefficients
  split
  · rename_i h
    unfold product
    rw [contiguous_get h.2 hc]
  · unfold productIndexed
    refine turns_inv (mQ := mQ) hM _ (fun i (y : ℕ → ℕ → F) => y k c = ∑ r ∈ Finset.range i, conj (Q k r) * X (inX.getD c 0) r) ?_ _ ?_
    · intro i m y _ h
      simp only
      rw [h, Finset.sum_range_add]
    · simp

theorem putColumns_out (b : ℕ × ℕ) (X0 : Local F) (l : List ℕ) (c : ℕ) (X : Local F) (q s : ℕ)
    (h : q ∉ l ∨ ¬ (b.1 ≤ s ∧ s < b.1 + b.2)) : putColumns b X0 l c X q s = X q s := by
  induction l generalizing c X with
  | nil => rfl
  | cons j r ih =>
    unfold putColumns
    rw [ih]
    · rw [if_neg]
      rintro ⟨h1, h2⟩
      rcases h with h | h
      · exact h (by simp [h1])
      · exact h h2
    · rcases h with h | h
      · exact .inl (fun hh => h (by simp [hh]))
      · exact .inr h

theorem putColumns_in (b : ℕ × ℕ) (X0 : Local F) (l : List ℕ) (hl : l.Nodup) (c : ℕ) (X : Local F) (k s : ℕ)
    (hk : k < l.length) (hs : b.1 ≤ s ∧ s < b.1 + b.2) :
    putColumns b X0 l c X (l.getD k 0) s = X0 (c + k) (s - b.1) := by
  induction l generalizing c X k with
  | nil => simp at hk
  | cons j r ih =>
    rw [List.nodup_cons] at hl
    unfold putColumns
    cases k with
    | zero =>
      rw [putColumns_out _ _ _ _ _ _ _ (.inl (by simpa using hl.1))]
      simp [hs]
    | succ k =>
      have hk' : k < r.length := by simpa using hk
      simp only [List.getD_cons_succ]
      rw [ih hl.2 (c + 1) _ k hk']
      congr 1
      omega

/-- What a process has after the turns: the vectors without `BQ*y`, and the squares of their norms. -/
theorem turns_eq {M mQ : ℕ} (hM : 0 < M) (nQ : ℕ) (BQ : Local F) (y : ℕ → ℕ → F) (inX : List ℕ) (X : Local F) :
    (inX.Nodup → ∀ c < inX.length, ∀ r, ((turns M mQ).foldl (turn nQ BQ y inX) (X, fun _ => 0)).1 (inX.getD c 0) r =
      if r < mQ then X (inX.getD c 0) r - ∑ k ∈ Finset.range nQ, BQ k r * y k c else X (inX.getD c 0) r) ∧
    (∀ q ∉ inX, ∀ r, ((turns M mQ).foldl (turn nQ BQ y inX) (X, fun _ => 0)).1 q r = X q r) ∧
    (∀ c < inX.length, ((turns M mQ).foldl (turn nQ BQ y inX) (X, fun _ => 0)).2 c =
      ∑ r ∈ Finset.range mQ, ‖X (inX.getD c 0) r - ∑ k ∈ Finset.range nQ, BQ k r * y k c‖ ^ 2) := by
  have hre : ∀ z : F, RCLike.re (conj z * z) = ‖z‖ ^ 2 := by
    intro z
    rw [RCLike.conj_mul]
    norm_cast
  let new : ℕ → ℕ → F := fun c r => X (inX.getD c 0) r - ∑ k ∈ Finset.range nQ, BQ k r * y k c
  have key := turns_inv (mQ := mQ) hM (turn nQ BQ y inX)
    (fun i s => (inX.Nodup → ∀ c < inX.length, ∀ r, s.1 (inX.getD c 0) r = if r < i then new c r else X (inX.getD c 0) r) ∧
      (∀ q ∉ inX, ∀ r, s.1 q r = X q r) ∧ (∀ q, ∀ r, i ≤ r → s.1 q r = X q r) ∧
      (∀ c < inX.length, s.2 c = ∑ r ∈ Finset.range i, ‖new c r‖ ^ 2)) ?_ (X, fun _ => 0) ?_
  · exact ⟨key.1, key.2.1, key.2.2.2⟩
  · rintro i m s hle ⟨h1, h2, h3, h4⟩
    unfold turn
    split
    · rename_i hcon
      have hx : ∀ c < inX.length, inX.getD c 0 = inX.headD 0 + c := fun c hc => contiguous_get hcon.2 hc
      dsimp only
      have hval : ∀ c < inX.length, ∀ r, i ≤ r → r < i + m →
          s.1 (inX.headD 0 + c) r - ∑ k ∈ Finset.range nQ, BQ k r * y k c = new c r := by
        intro c hc r hr _
        rw [h3 _ r hr]
        simp only [new, hx c hc]
      refine ⟨?_, ?_, ?_, ?_⟩
      · intro hnd c hc r
        rw [hx c hc]
        by_cases hr : i ≤ r ∧ r < i + m
        · rw [if_pos ⟨by omega, by omega, hr.1, hr.2⟩, if_pos hr.2, Nat.add_sub_cancel_left, hval c hc r hr.1 hr.2]
        · rw [if_neg (by tauto), ← hx c hc, h1 hnd c hc r]
          by_cases hri : r < i
          · rw [if_pos hri, if_pos (by omega)]
          · rw [if_neg hri, if_neg (by omega)]
      · intro q hq r
        rw [if_neg, h2 q hq r]
        rintro ⟨a1, a2, -⟩
        apply hq
        have hc : q - inX.headD 0 < inX.length := by omega
        have := hx _ hc
        rw [List.getD_eq_getElem?_getD, List.getElem?_eq_getElem hc, Option.getD_some] at this
        have hq' : q = inX[q - inX.headD 0] := by omega
        rw [hq']
        exact List.getElem_mem _
      · intro q r hr
        rw [if_neg (by omega), h3 q r (by omega)]
      · intro c hc
        rw [h4 c hc, Finset.sum_range_add]
        congr 1
        refine Finset.sum_congr rfl fun r hr => ?_
        rw [Finset.mem_range] at hr
        rw [if_pos ⟨by omega, by omega, by omega, by omega⟩, Nat.add_sub_cancel_left,
          hval c hc _ (by omega) (by omega), hre]
    · dsimp only
      have hval : ∀ c, ∀ r, i ≤ r → s.1 (inX.getD c 0) r - ∑ k ∈ Finset.range nQ, BQ k r * y k c = new c r := by
        intro c r hr
        rw [h3 _ r hr]
      refine ⟨?_, ?_, ?_, ?_⟩
      · intro hnd c hc r
        by_cases hr : i ≤ r ∧ r < i + m
        · rw [putColumns_in _ _ _ hnd _ _ _ _ hc hr, if_pos hr.2, Nat.zero_add, show i + (r - i) = r by omega,
            hval c r hr.1]
        · rw [putColumns_out _ _ _ _ _ _ _ (.inr hr), h1 hnd c hc r]
          by_cases hri : r < i
          · rw [if_pos hri, if_pos (by omega)]
          · rw [if_neg hri, if_neg (by omega)]
      · intro q hq r
        rw [putColumns_out _ _ _ _ _ _ _ (.inl hq), h2 q hq r]
      · intro q r hr
        rw [putColumns_out _ _ _ _ _ _ _ (.inr (by simp only; omega)), h3 q r (by omega)]
      · intro c hc
        rw [h4 c hc, Finset.sum_range_add]
        congr 1
        refine Finset.sum_congr rfl fun r hr => ?_
        rw [hval c _ (by omega), hre]
  · refine ⟨?_, ?_, ?_, ?_⟩
    · intro _ c _ r; simp
    · intro q _ r; rfl
    · intro q r _; rfl
    · intro c _; simp

end Verif.Pract

namespace Verif.Spec.Pract
open Verif.Pract

variable {F : Type} [RCLike F]

theorem ip_sub (P : ℕ) (rows : ℕ → ℕ) (u v w : ℕ → ℕ → F) :
    ip P rows u (fun p i => v p i - w p i) = ip P rows u v - ip P rows u w := by
  unfold ip
  simp only [mul_sub, Finset.sum_sub_distrib]

theorem ip_comb (P : ℕ) (rows : ℕ → ℕ) (u : ℕ → ℕ → F) (k : ℕ) (b : ℕ → ℕ → ℕ → F) (c : ℕ → F) :
    ip P rows u (fun p i => ∑ j ∈ Finset.range k, b j p i * c j) =
      ∑ j ∈ Finset.range k, ip P rows u (b j) * c j := by
  unfold ip
  simp only [Finset.mul_sum, Finset.sum_mul]
  rw [Finset.sum_comm (s := Finset.range k)]
  refine Finset.sum_congr rfl fun p _ => ?_
  rw [Finset.sum_comm]
  refine Finset.sum_congr rfl fun j _ => Finset.sum_congr rfl fun i _ => ?_
  ring

theorem ip_conj (P : ℕ) (rows : ℕ → ℕ) (u v : ℕ → ℕ → F) : conj (ip P rows u v) = ip P rows v u := by
  unfold ip
  simp only [map_sum, map_mul, RCLike.conj_conj]
  refine Finset.sum_congr rfl fun p _ => Finset.sum_congr rfl fun i _ => ?_
  ring

theorem ip_congr {P : ℕ} {rows : ℕ → ℕ} (u : ℕ → ℕ → F) {v w : ℕ → ℕ → F} (h : ∀ p < P, ∀ i < rows p, v p i = w p i) :
    ip P rows u v = ip P rows u w := by
  unfold ip
  refine Finset.sum_congr rfl fun p hp => Finset.sum_congr rfl fun i hi => ?_
  rw [h p (Finset.mem_range.1 hp) i (Finset.mem_range.1 hi)]

theorem norm_congr {P : ℕ} {rows : ℕ → ℕ} {v w : ℕ → ℕ → F} (h : ∀ p < P, ∀ i < rows p, v p i = w p i) :
    norm P rows v = norm P rows w := by
  unfold norm
  congr 1
  refine Finset.sum_congr rfl fun p hp => Finset.sum_congr rfl fun i hi => ?_
  rw [h p (Finset.mem_range.1 hp) i (Finset.mem_range.1 hi)]

theorem norm_nonneg (P : ℕ) (rows : ℕ → ℕ) (v : ℕ → ℕ → F) : 0 ≤ norm P rows v := Real.sqrt_nonneg _

theorem norm_sq (P : ℕ) (rows : ℕ → ℕ) (v : ℕ → ℕ → F) : norm P rows v ^ 2 = RCLike.re (ip P rows v v) := by
  unfold norm ip
  rw [Real.sq_sqrt (Finset.sum_nonneg fun _ _ => Finset.sum_nonneg fun _ _ => by positivity)]
  simp only [map_sum, RCLike.conj_mul]
  refine Finset.sum_congr rfl fun p _ => Finset.sum_congr rfl fun i _ => ?_
  norm_cast

/-- Pythagoras. -/
theorem norm_pyth (P : ℕ) (rows : ℕ → ℕ) (v w : ℕ → ℕ → F) (h : ip P rows w v = 0) :
    norm P rows (fun p i => v p i + w p i) ^ 2 = norm P rows v ^ 2 + norm P rows w ^ 2 := by
  have h' : ip P rows v w = 0 := by rw [← ip_conj, h, map_zero]
  have : ip P rows (fun p i => v p i + w p i) (fun p i => v p i + w p i) = ip P rows v v + ip P rows v w +
      (ip P rows w v + ip P rows w w) := by
    unfold ip
    simp only [← Finset.sum_add_distrib]
    refine Finset.sum_congr rfl fun p _ => Finset.sum_congr rfl fun i _ => ?_
    rw [map_add]
    ring
  rw [norm_sq, norm_sq, norm_sq, this, h, h']
  simp

theorem ip_swap_comb (P : ℕ) (rows : ℕ → ℕ) (v : ℕ → ℕ → F) (k : ℕ) (b : ℕ → ℕ → ℕ → F) (c : ℕ → F)
    (h : ∀ j < k, ip P rows (b j) v = 0) : ip P rows (fun p i => ∑ j ∈ Finset.range k, b j p i * c j) v = 0 := by
  rw [← ip_conj, ip_comb]
  rw [Finset.sum_eq_zero]
  · simp
  · intro j hj
    rw [← ip_conj, h j (Finset.mem_range.1 hj)]
    simp

end Verif.Spec.Pract
