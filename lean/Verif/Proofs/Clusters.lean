import Verif.Model.Clusters
import Verif.Spec.Clusters
import Mathlib.Data.List.Range

/-! # The loop over the clusters -/

namespace Verif.Clusters
open Verif.Spec

variable {C : Type}

theorem eligible_self (unc : ℕ → Bool) (p : ℕ) : eligible unc p p = 0 := by
  unfold eligible
  rw [List.length_eq_zero_iff, List.filter_eq_nil_iff]
  intro k hk
  have := List.mem_range.1 hk
  simp
  omega

theorem eligible_succ (unc : ℕ → Bool) (p e : ℕ) (h : p ≤ e) :
    eligible unc p (e + 1) = eligible unc p e + if unc e then 1 else 0 := by
  unfold eligible
  rw [List.range_succ, List.filter_append, List.length_append]
  congr 1
  rw [List.filter_singleton]
  cases unc e <;> simp [h]

theorem eligible_mono (unc : ℕ → Bool) (p e e' : ℕ) (h : e ≤ e') : eligible unc p e ≤ eligible unc p e' := by
  unfold eligible
  exact ((List.range_sublist.2 h).filter _).length_le

theorem eligible_count (unc : ℕ → Bool) (p j i : ℕ) (hp : p ≤ j) :
    eligible unc p (max j i) = eligible unc p j + count unc j i := by
  rcases Nat.le_total i j with h | h
  · rw [Nat.max_eq_left h]
    unfold count
    rw [Nat.sub_eq_zero_of_le h]
    rfl
  · rw [Nat.max_eq_right h]
    obtain ⟨d, rfl⟩ := Nat.exists_eq_add_of_le h
    unfold count
    rw [Nat.add_sub_cancel_left]
    clear h
    induction d with
    | zero => rfl
    | succ d ih =>
      rw [← Nat.add_assoc, eligible_succ _ _ _ (by omega), ih, List.range'_concat, List.filter_append, List.length_append,
        List.filter_singleton, Nat.one_mul]
      cases unc (j + d) <;> simp <;> omega

theorem window_eq (col col' : ℕ → C) (j i : ℕ) (h : ∀ k, j ≤ k → col k = col' k) :
    window col j i = (List.range' j (i + 1 - j)).map col' := by
  unfold window
  apply List.map_congr_left
  intro k hk
  exact h k (List.mem_range'_1.1 hk).1

theorem scan_spec (far : ℕ → List C → Bool) (col : ℕ → C) (b j i : ℕ) (hi : i ≤ b) :
    scan far col b j i ≤ b ∧ (∀ k, i ≤ k → k < scan far col b j i → far j (window col j k) = false) ∧
      (scan far col b j i < b → far j (window col j (scan far col b j i)) = true) := by
  fun_induction scan far col b j i with
  | case1 i h1 h2 => exact ⟨by omega, fun k a c => by omega, fun _ => h2⟩
  | case2 i h1 h2 ih =>
    obtain ⟨a1, a2, a3⟩ := ih (by omega)
    refine ⟨a1, fun k hk hk' => ?_, a3⟩
    rcases Nat.lt_or_ge i k with h | h
    · exact a2 k h hk'
    · have : k = i := by omega
      subst this
      simpa using h2
  | case3 i h1 => exact ⟨hi, fun k a c => by omega, fun h => absurd h h1⟩

/-- What is true each time the loop is entered. -/
structure Inv (J : Job C) (arb : ℕ) (col : ℕ → C) (s : St C) : Prop where
  seg : Segmented J.far col J.b (max J.i0 arb) (max s.j s.i) s.cl
  cand : s.cand = eligible J.unc J.i0 s.j
  few : s.cand < J.blockSize
  hj : J.i0 ≤ s.j
  hjb : s.j ≤ J.b
  hib : s.i ≤ J.b
  tail : ∀ k, max s.j s.i ≤ k → s.col k = col k
  last : s.arb = lastEnd arb s.cl
  arb : s.arb ≤ max s.j s.i
  need : ∀ x ∈ s.cl, eligible J.unc J.i0 x.1 < J.blockSize
  below : ∀ x ∈ s.cl, x.2 ≤ max s.j s.i
  new : ∀ x ∈ s.cl, ∀ k, x.1 ≤ k → k < x.2 → s.col k = J.ans x.1 k
  old : ∀ k, (∀ x ∈ s.cl, ¬ (x.1 ≤ k ∧ k < x.2)) → s.col k = col k
  resume : max s.j s.i = s.arb ∨ max s.j s.i = J.i0 ∨
    (J.i0 + 1 ≤ max s.j s.i ∧ eligible J.unc J.i0 (max s.j s.i - 1) < J.blockSize)

/-- What is true at the end. -/
structure Done (J : Job C) (arb : ℕ) (col : ℕ → C) (r : St C) : Prop where
  seg : Segmented J.far col J.b (max J.i0 arb) r.j r.cl
  enough : r.cand = eligible J.unc J.i0 r.j ∧ (J.blockSize ≤ r.cand ∨ r.j = J.b)
  last : r.arb = lastEnd arb r.cl
  arb : r.arb ≤ r.j
  need : ∀ x ∈ r.cl, eligible J.unc J.i0 x.1 < J.blockSize
  new : ∀ x ∈ r.cl, ∀ k, x.1 ≤ k → k < x.2 → r.col k = J.ans x.1 k
  old : ∀ k, (∀ x ∈ r.cl, ¬ (x.1 ≤ k ∧ k < x.2)) → r.col k = col k
  resume : r.j = r.arb ∨ r.j = J.i0 ∨ (J.i0 + 1 ≤ r.j ∧ eligible J.unc J.i0 (r.j - 1) < J.blockSize)

theorem refine_inv (J : Job C) (arb : ℕ) (col : ℕ → C) (s : St C) (h : Inv J arb col s) (hjb : max s.j s.i < J.b)
    (hc : s.cand + count J.unc s.j s.i < J.blockSize) :
    Inv J arb col (refine J { s with cand := s.cand + count J.unc s.j s.i } (max s.j s.i)
      (min (scan J.far s.col J.b (max s.j s.i) (max s.j s.i + 1)) J.b)) := by
  have hm : s.cand + count J.unc s.j s.i = eligible J.unc J.i0 (max s.j s.i) := by
    rw [h.cand, eligible_count _ _ _ _ h.hj]
  generalize hM : max s.j s.i = m at *
  obtain ⟨z1, z2, z3⟩ := scan_spec J.far s.col J.b m (m + 1) (by omega)
  have z0 := le_scan J.far s.col J.b m (m + 1)
  rw [Nat.min_eq_left z1]
  generalize hE : scan J.far s.col J.b m (m + 1) = e at *
  have hw : ∀ k, window s.col m k = (List.range' m (k + 1 - m)).map col := fun k =>
    window_eq _ _ _ _ (fun k' hk' => h.tail k' (by omega))
  have hj0 := h.hj
  have hge : s.j ≤ m := by omega
  unfold refine
  split
  · rename_i hr
    have he : max m e = e := by omega
    refine ⟨?_, hm, hc, by show J.i0 ≤ m; omega, by show m ≤ J.b; omega, z1, ?_, ?_, ?_, ?_, ?_, ?_, ?_, ?_⟩ <;>
      dsimp only
    · rw [he]
      refine .several m e s.cl (hM ▸ h.seg) (by omega) z1 ?_ ?_
      · intro k h1 h2
        rw [← hw]
        exact z2 k h1 h2
      · intro h1
        rw [← hw]
        exact z3 h1
    · intro k hk
      rw [if_neg (by omega)]
      exact h.tail k (by omega)
    · simp [lastEnd]
    · omega
    · intro x hx
      rcases List.mem_append.1 hx with hx | hx
      · exact h.need x hx
      · rw [List.mem_singleton.1 hx]; dsimp only; omega
    · intro x hx
      rcases List.mem_append.1 hx with hx | hx
      · have := h.below x hx; omega
      · rw [List.mem_singleton.1 hx]; dsimp only; omega
    · intro x hx k h1 h2
      rcases List.mem_append.1 hx with hx | hx
      · have := h.below x hx
        rw [if_neg (by omega)]
        exact h.new x hx k h1 h2
      · rw [List.mem_singleton.1 hx] at h1 h2 ⊢
        exact if_pos ⟨h1, h2⟩
    · intro k hk
      rw [if_neg (hk (m, e) (List.mem_append.2 (Or.inr (List.mem_singleton.2 rfl))))]
      exact h.old k (fun x hx => hk x (List.mem_append.2 (Or.inl hx)))
    · left; omega
  · rename_i hr
    have he1 : e = m + 1 := by
      by_contra hne
      exact hr ⟨by omega, Or.inl (by omega)⟩
    have he : max m e = m + 1 := by omega
    refine ⟨?_, hm, hc, by show J.i0 ≤ m; omega, by show m ≤ J.b; omega, z1, ?_, h.last, ?_, h.need, ?_, h.new, h.old, ?_⟩ <;>
      dsimp only
    · rw [he]
      refine .single m s.cl (hM ▸ h.seg) (by omega) ?_
      intro h1
      have := z3 (by omega)
      rw [hw, he1] at this
      rw [show m + 1 + 1 - m = 2 by omega] at this
      exact this
    · intro k hk
      exact h.tail k (by omega)
    · have := h.arb; omega
    · intro x hx
      have := h.below x hx; omega
    · right; right
      rw [he]
      exact ⟨by omega, by rw [Nat.add_sub_cancel]; omega⟩

theorem loop_done (J : Job C) (arb : ℕ) (col : ℕ → C) (s : St C) (h : Inv J arb col s) : Done J arb col (loop J s) := by
  fun_induction loop J s with
  | case1 s h1 j cand h2 =>
    have e : max s.j s.i = j := rfl
    refine ⟨h.seg, ⟨?_, Or.inl h2⟩, h.last, h.arb, h.need, h.new, h.old, h.resume⟩
    rw [show ({ s with cand := cand, j := j } : St C).j = max s.j s.i from rfl, eligible_count _ _ _ _ h.hj, ← h.cand]
  | case2 s h1 j cand h2 ih =>
    rcases Nat.lt_or_ge (max s.j s.i) J.b with hb | hb
    · exact ih (refine_inv J arb col s h hb (by omega))
    · -- all the columns were counted
      have hm : max s.j s.i = J.b := by have := h.hjb; have := h.hib; omega
      have hj : j = J.b := hm
      have hsc : min (scan J.far s.col J.b j (j + 1)) J.b = J.b := by
        have := le_scan J.far s.col J.b j (j + 1)
        omega
      rw [hsc, hj]
      have hr : refine J { s with cand := cand } J.b J.b = { s with cand := cand, i := J.b, j := J.b } := by
        unfold refine
        rw [if_neg (by omega)]
      rw [hr]
      rw [loop.eq_def]
      rw [if_neg (by simp)]
      have hel : cand = eligible J.unc J.i0 J.b := by
        rw [← hm, eligible_count _ _ _ _ h.hj, ← h.cand]
      have h3 := h.seg
      have h4 := h.arb
      have h5 := h.resume
      rw [hm] at h3 h4 h5
      exact ⟨h3, ⟨hel, Or.inr rfl⟩, h.last, h4, h.need, h.new, h.old, h5⟩
  | case3 s h1 =>
    have hf := h.few
    have hj : s.j = J.b := by have := h.hjb; omega
    have hm : max s.j s.i = s.j := by have := h.hib; omega
    have h3 := h.seg
    have h4 := h.arb
    have h5 := h.resume
    rw [hm] at h3 h4 h5
    exact ⟨h3, ⟨h.cand, Or.inr hj⟩, h.last, h4, h.need, h.new, h.old, h5⟩

theorem prepareVecs_done (J : Job C) (arb : ℕ) (col : ℕ → C) (hb : J.b ≠ 0) (hs : J.blockSize ≠ 0) (hi : J.i0 ≤ J.b)
    (ha : arb ≤ J.b) : Done J arb col (prepareVecs true J arb col) := by
  unfold prepareVecs
  rw [if_neg (by simp [hb, hs])]
  apply loop_done
  rw [Nat.min_eq_left ha]
  refine ⟨.start, (eligible_self _ _).symm, by show 0 < J.blockSize; omega, le_refl _, hi, ha, fun _ _ => rfl, rfl, ?_, ?_, ?_, ?_, fun _ _ => rfl, ?_⟩
  · show arb ≤ max J.i0 arb; omega
  · intro x hx; cases hx
  · intro x hx; cases hx
  · intro x hx; cases hx
  · show max J.i0 arb = arb ∨ max J.i0 arb = J.i0 ∨ _
    omega

end Verif.Clusters
