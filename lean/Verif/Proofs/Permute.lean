import Verif.Model.Permute
import Verif.Spec.Perm
import Mathlib.Data.Finset.Card
import Mathlib.Data.Finset.Range
import Mathlib.Data.Fintype.EquivFin

/-! Helper lemmas for `Verif.Props.C18_Permute`. -/

namespace Verif.Permute
open Verif.Mem Verif.Spec

theorem col_disj {ld m i j : Nat} (hm : m ≤ ld) (hij : i ≠ j) :
    i * ld + m ≤ j * ld ∨ j * ld + m ≤ i * ld := by
  rcases Nat.lt_or_gt_of_ne hij with h | h
  · left
    have := Nat.mul_le_mul_right ld (Nat.succ_le_of_lt h)
    rw [Nat.succ_mul] at this; omega
  · right
    have := Nat.mul_le_mul_right ld (Nat.succ_le_of_lt h)
    rw [Nat.succ_mul] at this; omega

/-- `b` holds a matrix with `n` columns. -/
def Fits (m n ld : Nat) (b : Buf α) : Prop := ∀ i, i < n → i * ld + m ≤ b.size

theorem copyIn_col {m n ld src dst : Nat} {b : Buf α} (hm : m ≤ ld) (hne : src ≠ dst)
    (hs : src < n) (hd : dst < n) (hf : Fits m n ld b) :
    ∃ b', copyIn m (src * ld) (dst * ld) b = some b' ∧ b'.size = b.size ∧
      (∀ i r, r < m → b'.data (i * ld + r) =
        if i = dst then b.data (src * ld + r) else b.data (i * ld + r)) ∧
      (∀ a, ¬ InMatrix m n ld a → b'.data a = b.data a) := by
  unfold copyIn
  by_cases h0 : m = 0
  · subst h0
    exact ⟨b, by simp, rfl, by intro i r h; omega, by intros; rfl⟩
  · have h1 := hf _ hs
    have h2 := hf _ hd
    have h3 := col_disj hm hne
    rw [if_neg h0, if_pos ⟨h1, h2, h3⟩]
    refine ⟨_, rfl, rfl, ?_, ?_⟩ <;> dsimp only
    · intro i r hr
      by_cases hi : i = dst
      · subst hi
        have : i * ld ≤ i * ld + r ∧ i * ld + r < i * ld + m := by omega
        simp only [if_pos this, if_true]
        congr 2; omega
      · have := col_disj (m := m) hm hi
        have : ¬ (dst * ld ≤ i * ld + r ∧ i * ld + r < dst * ld + m) := by omega
        simp only [if_neg this, if_neg hi]
    · intro a ha
      have : ¬ (dst * ld ≤ a ∧ a < dst * ld + m) := by
        intro h
        exact ha ⟨dst, a - dst * ld, hd, by omega, by omega⟩
      simp only [if_neg this]

theorem copyBack_col {m n ld dst : Nat} {b : Buf α} {w : Nat → α} (hm : m ≤ ld)
    (hd : dst < n) (hf : Fits m n ld b) :
    ∃ b', copyBack m (dst * ld) w b = some b' ∧ b'.size = b.size ∧
      (∀ i r, r < m → b'.data (i * ld + r) =
        if i = dst then w r else b.data (i * ld + r)) ∧
      (∀ a, ¬ InMatrix m n ld a → b'.data a = b.data a) := by
  unfold copyBack
  by_cases h0 : m = 0
  · subst h0
    exact ⟨b, by simp, rfl, by intro i r h; omega, by intros; rfl⟩
  · have h2 := hf _ hd
    rw [if_neg h0, if_pos h2]
    refine ⟨_, rfl, rfl, ?_, ?_⟩ <;> dsimp only
    · intro i r hr
      by_cases hi : i = dst
      · subst hi
        have : i * ld ≤ i * ld + r ∧ i * ld + r < i * ld + m := by omega
        simp only [if_pos this, if_true]
        congr 1; omega
      · have := col_disj (m := m) hm hi
        have : ¬ (dst * ld ≤ i * ld + r ∧ i * ld + r < dst * ld + m) := by omega
        simp only [if_neg this, if_neg hi]
    · intro a ha
      have : ¬ (dst * ld ≤ a ∧ a < dst * ld + m) := by
        intro h
        exact ha ⟨dst, a - dst * ld, hd, by omega, by omega⟩
      simp only [if_neg this]

theorem copyOut_col {m n ld src : Nat} {b : Buf α} (hs : src < n) (hf : Fits m n ld b) :
    ∃ w, copyOut m (src * ld) b = some w ∧ ∀ r, r < m → w r = b.data (src * ld + r) := by
  unfold copyOut
  by_cases h0 : m = 0
  · subst h0
    exact ⟨b.data, by simp, by intro r h; omega⟩
  · exact ⟨_, by rw [if_neg h0, if_pos (hf _ hs)], by intros; rfl⟩

/-- Loop invariant: `D` is the set of positions already in final state. -/
structure Inv (m n ld : Nat) (b0 : Buf α) (π : Nat → Nat) (D : Finset Nat)
    (b : Buf α) (p : Nat → Nat) : Prop where
  size : b.size = b0.size
  sub : ∀ i ∈ D, i < n
  doneP : ∀ i ∈ D, p i = i
  doneV : ∀ i ∈ D, ∀ r, r < m → b.data (i * ld + r) = b0.data (π i * ld + r)
  todoP : ∀ i, i < n → i ∉ D → p i = π i
  todoV : ∀ i, i < n → i ∉ D → ∀ r, r < m → b.data (i * ld + r) = b0.data (i * ld + r)
  frame : ∀ a, ¬ InMatrix m n ld a → b.data a = b0.data a

theorem cycle_spec {m n ld : Nat} {b0 : Buf α} {π : Nat → Nat} (hπ : IsPermOn n π)
    (hm : m ≤ ld) (hf : Fits m n ld b0) {cur : Nat} {w : Nat → α}
    (hw : ∀ r, r < m → w r = b0.data (cur * ld + r)) :
    ∀ (fuel dst : Nat) (D : Finset Nat) (b : Buf α) (p : Nat → Nat),
      Inv m n ld b0 π D b p → dst < n → dst ∉ D → n < fuel + D.card + 1 →
      (∀ i ∈ D, i ≠ cur → ∃ j ∈ D, π j = i) → (cur ∈ D ∨ cur = dst) →
      (dst ≠ cur → ∃ j ∈ D, π j = dst) →
      ∃ b' p' D', cycle m n ld cur w fuel dst b p = some (b', p') ∧ Inv m n ld b0 π D' b' p' ∧
        D ⊆ D' ∧ cur ∈ D' ∧ (∀ i ∈ D', ∃ j ∈ D', π j = i) := by
  intro fuel
  induction fuel with
  | zero =>
    intro dst D b p hI hd hdD hfu _ _ _
    exfalso
    have h1 : insert dst D ⊆ Finset.range n := by
      intro x hx
      rcases Finset.mem_insert.1 hx with rfl | hx
      · simpa using hd
      · simpa using hI.sub x hx
    have h2 := Finset.card_le_card h1
    rw [Finset.card_insert_of_notMem hdD, Finset.card_range] at h2
    omega
  | succ fuel ih =>
    intro dst D b p hI hd hdD hfu hpred hcur hdpred
    have hfb : Fits m n ld b := by intro i hi; rw [hI.size]; exact hf i hi
    unfold cycle
    have hpd := hI.todoP dst hd hdD
    by_cases hne : p dst ≠ cur
    · rw [if_pos hne, if_pos (by rw [hpd]; exact hπ.1 _ hd)]
      have hsn : π dst < n := hπ.1 _ hd
      have hsD : π dst ∉ D := by
        intro hin
        obtain ⟨j, hj, hjd⟩ := hpred _ hin (by rw [← hpd]; exact hne)
        have := hπ.2 _ _ (hI.sub j hj) hd hjd
        exact hdD (this ▸ hj)
      have hsd : π dst ≠ dst := by
        intro h
        by_cases hdc : dst = cur
        · exact hne (by rw [hpd, h, hdc])
        · obtain ⟨j, hj, hjd⟩ := hdpred hdc
          have := hπ.2 j dst (hI.sub j hj) hd (by rw [hjd, h])
          exact hdD (this ▸ hj)
      obtain ⟨b', hb', hsz, hdat, hfr⟩ := copyIn_col (n := n) hm hsd hsn hd hfb
      rw [hpd, hb']
      have hI' : Inv m n ld b0 π (insert dst D) b' (upd p dst dst) := by
        refine ⟨by rw [hsz, hI.size], ?_, ?_, ?_, ?_, ?_, ?_⟩
        · intro i hi
          rcases Finset.mem_insert.1 hi with rfl | hi
          · exact hd
          · exact hI.sub i hi
        · intro i hi
          unfold upd
          split
          · simp_all
          · rename_i h
            rcases Finset.mem_insert.1 hi with h' | hi
            · exact absurd h' h
            · exact hI.doneP i hi
        · intro i hi r hr
          rw [hdat i r hr]
          split
          · rename_i h; subst h
            exact hI.todoV _ hsn hsD r hr
          · rename_i h
            rcases Finset.mem_insert.1 hi with h' | hi
            · exact absurd h' h
            · exact hI.doneV i hi r hr
        · intro i hi hiD
          have hid : i ≠ dst := fun h => hiD (by simp [h])
          unfold upd; rw [if_neg hid]
          exact hI.todoP i hi (fun h => hiD (by simp [h]))
        · intro i hi hiD r hr
          have hid : i ≠ dst := fun h => hiD (by simp [h])
          rw [hdat i r hr, if_neg hid]
          exact hI.todoV i hi (fun h => hiD (by simp [h])) r hr
        · intro a ha
          rw [hfr a ha, hI.frame a ha]
      obtain ⟨b'', p'', D'', h1, h2, h3, h4, h5⟩ :=
        ih (π dst) (insert dst D) b' (upd p dst dst) hI' hsn
          (by simp [hsd, hsD])
          (by rw [Finset.card_insert_of_notMem hdD]; omega)
          (by
            intro i hi hic
            rcases Finset.mem_insert.1 hi with rfl | hi
            · obtain ⟨j, hj, h⟩ := hdpred hic
              exact ⟨j, by simp [hj], h⟩
            · obtain ⟨j, hj, h⟩ := hpred i hi hic
              exact ⟨j, by simp [hj], h⟩)
          (by
            rcases hcur with h | h
            · left; simp [h]
            · left; simp [h])
          (by intro _; exact ⟨dst, by simp, rfl⟩)
      refine ⟨b'', p'', D'', by simpa using h1, h2, ?_, h4, h5⟩
      exact fun x hx => h3 (by simp [hx])
    · rw [if_neg hne]
      have hpc : p dst = cur := by simpa using hne
      have hπc : π dst = cur := by rw [← hpd, hpc]
      obtain ⟨b', hb', hsz, hdat, hfr⟩ := copyBack_col (n := n) (w := w) hm hd hfb
      rw [hb']
      refine ⟨b', upd p dst dst, insert dst D, rfl, ?_, ?_, ?_, ?_⟩
      · refine ⟨by rw [hsz, hI.size], ?_, ?_, ?_, ?_, ?_, ?_⟩
        · intro i hi
          rcases Finset.mem_insert.1 hi with rfl | hi
          · exact hd
          · exact hI.sub i hi
        · intro i hi
          unfold upd
          split
          · simp_all
          · rename_i h
            rcases Finset.mem_insert.1 hi with h' | hi
            · exact absurd h' h
            · exact hI.doneP i hi
        · intro i hi r hr
          rw [hdat i r hr]
          split
          · rename_i h; subst h
            rw [hw r hr, hπc]
          · rename_i h
            rcases Finset.mem_insert.1 hi with h' | hi
            · exact absurd h' h
            · exact hI.doneV i hi r hr
        · intro i hi hiD
          have hid : i ≠ dst := fun h => hiD (by simp [h])
          unfold upd; rw [if_neg hid]
          exact hI.todoP i hi (fun h => hiD (by simp [h]))
        · intro i hi hiD r hr
          have hid : i ≠ dst := fun h => hiD (by simp [h])
          rw [hdat i r hr, if_neg hid]
          exact hI.todoV i hi (fun h => hiD (by simp [h])) r hr
        · intro a ha
          rw [hfr a ha, hI.frame a ha]
      · exact fun x hx => by simp [hx]
      · rcases hcur with h | h <;> simp [h]
      · intro i hi
        by_cases hic : i = cur
        · exact ⟨dst, by simp, by rw [hπc, hic]⟩
        · rcases Finset.mem_insert.1 hi with rfl | hi
          · obtain ⟨j, hj, h⟩ := hdpred hic
            exact ⟨j, by simp [hj], h⟩
          · obtain ⟨j, hj, h⟩ := hpred i hi hic
            exact ⟨j, by simp [hj], h⟩

theorem outer_spec {m n ld : Nat} {b0 : Buf α} {π : Nat → Nat} (hπ : IsPermOn n π)
    (hm : m ≤ ld) (hf : Fits m n ld b0) :
    ∀ (k cur : Nat) (D : Finset Nat) (b : Buf α) (p : Nat → Nat),
      cur + k = n → Inv m n ld b0 π D b p → (∀ i ∈ D, ∃ j ∈ D, π j = i) →
      (∀ i, i < cur → i ∈ D ∨ π i = i) →
      ∃ b' p' D', outer m n ld k cur b p = some (b', p') ∧ Inv m n ld b0 π D' b' p' ∧
        ∀ i, i < n → i ∈ D' ∨ π i = i := by
  intro k
  induction k with
  | zero =>
    intro cur D b p hk hI hpred hlt
    exact ⟨b, p, D, rfl, hI, fun i hi => hlt i (by omega)⟩
  | succ k ih =>
    intro cur D b p hk hI hpred hlt
    have hcn : cur < n := by omega
    unfold outer
    by_cases hfix : p cur = cur
    · rw [if_pos hfix]
      refine ih (cur + 1) D b p (by omega) hI hpred ?_
      intro i hi
      rcases Nat.lt_succ_iff_lt_or_eq.1 hi with h | rfl
      · exact hlt i h
      · by_cases hD : i ∈ D
        · exact Or.inl hD
        · right; rw [← hI.todoP i hcn hD, hfix]
    · rw [if_neg hfix]
      have hfb : Fits m n ld b := by intro i hi; rw [hI.size]; exact hf i hi
      obtain ⟨w, hw, hwd⟩ := copyOut_col hcn hfb
      have hcD : cur ∉ D := fun h => hfix (hI.doneP _ h)
      obtain ⟨b', p', D', h1, h2, h3, h4, h5⟩ :=
        cycle_spec hπ hm hf (cur := cur) (w := w)
          (by intro r hr; rw [hwd r hr]; exact hI.todoV cur hcn hcD r hr)
          n cur D b p hI hcn hcD (by omega) (fun i hi _ => hpred i hi) (Or.inr rfl)
          (fun h => absurd rfl h)
      obtain ⟨b'', p'', D'', h6, h7, h8⟩ := ih (cur + 1) D' b' p' (by omega) h2 h5 (by
        intro i hi
        rcases Nat.lt_succ_iff_lt_or_eq.1 hi with h | rfl
        · rcases hlt i h with h | h
          · exact Or.inl (h3 h)
          · exact Or.inr h
        · exact Or.inl h4)
      exact ⟨b'', p'', D'', by simp [hw, h1, h6], h7, h8⟩

theorem permCheck_iff {n : Nat} {p : Nat → Nat} : permCheck n p = true ↔ IsPermOn n p := by
  unfold permCheck IsPermOn
  simp only [Bool.and_eq_true, List.all_eq_true, List.mem_range, decide_eq_true_eq,
    List.any_eq_true, beq_iff_eq]
  constructor
  · rintro ⟨h1, h2⟩
    refine ⟨h1, ?_⟩
    let f : Fin n → Fin n := fun i => ⟨p i, h1 i i.2⟩
    have hs : Function.Surjective f := by
      intro t
      obtain ⟨s, hs, h⟩ := h2 t t.2
      exact ⟨⟨s, hs⟩, Fin.ext h⟩
    have hi := Finite.injective_iff_surjective.2 hs
    intro i j hin hjn hij
    have := @hi ⟨i, hin⟩ ⟨j, hjn⟩ (Fin.ext hij)
    exact congrArg Fin.val this
  · rintro ⟨h1, h2⟩
    refine ⟨h1, ?_⟩
    let f : Fin n → Fin n := fun i => ⟨p i, h1 i i.2⟩
    have hi : Function.Injective f := by
      intro i j h
      exact Fin.ext (h2 i j i.2 j.2 (congrArg Fin.val h))
    have hs := Finite.injective_iff_surjective.1 hi
    intro t ht
    obtain ⟨s, h⟩ := hs ⟨t, ht⟩
    exact ⟨s, s.2, congrArg Fin.val h⟩

end Verif.Permute
