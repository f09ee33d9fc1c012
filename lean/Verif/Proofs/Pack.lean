import Verif.Model.MatrixOps
import Mathlib.Tactic.Ring
import Mathlib.Tactic.Linarith
import Mathlib.Algebra.BigOperators.Group.List.Basic

/-!
# Lemmas on packing triangles
-/

namespace Verif.Mat

variable {α : Type*}

/-- Offset of column `i` in the packed triangle. -/
def triOff (i0 i : ℕ) : ℕ := i * (i + 1) / 2 + i * i0

theorem triOff_zero (i0 : ℕ) : triOff i0 0 = 0 := by simp [triOff]

theorem triOff_succ (i0 i : ℕ) : triOff i0 (i + 1) = triOff i0 i + (i + i0 + 1) := by
  unfold triOff
  have h1 : (i + 1) * (i + 1 + 1) = i * (i + 1) + 2 * (i + 1) := by ring
  rw [h1, Nat.add_mul_div_left _ _ (by norm_num : 0 < 2)]
  ring

theorem triOff_mono (i0 : ℕ) {i i' : ℕ} (h : i < i') : triOff i0 i + (i + i0 + 1) ≤ triOff i0 i' := by
  induction i' with
  | zero => omega
  | succ k ih =>
    rw [triOff_succ]
    rcases Nat.lt_succ_iff_lt_or_eq.1 h with h | rfl
    · have := ih h; omega
    · omega

theorem packCol_eq (x : ℕ → α) (base : ℕ) : ∀ c j k (y : ℕ → α),
    packCol x base c j k y =
      (k + c, fun a => if k ≤ a ∧ a < k + c then x (base + (j + (a - k))) else y a) := by
  intro c
  induction c with
  | zero =>
    intro j k y
    refine Prod.ext rfl ?_
    funext a
    have : ¬ (k ≤ a ∧ a < k + 0) := by omega
    simp [packCol, this]
  | succ c ih =>
    intro j k y
    unfold packCol
    rw [ih]
    refine Prod.ext (by dsimp only; omega) ?_
    funext a
    dsimp only
    by_cases h1 : k + 1 ≤ a ∧ a < k + 1 + c
    · rw [if_pos h1, if_pos (by omega)]
      congr 2
      omega
    · rw [if_neg h1]
      by_cases h2 : a = k
      · subst h2
        rw [if_pos rfl, if_pos (by omega)]
        congr 1
        omega
      · rw [if_neg h2, if_neg (by omega)]

theorem packLoop_spec (x : ℕ → α) (ld i0 : ℕ) : ∀ c i (y : ℕ → α),
    (packLoop x ld i0 c i (triOff i0 i) y).1 = triOff i0 (i + c) ∧
    (∀ i', i ≤ i' → i' < i + c → ∀ j ≤ i' + i0,
      (packLoop x ld i0 c i (triOff i0 i) y).2 (triOff i0 i' + j) = x (i' * ld + j)) ∧
    (∀ a, a < triOff i0 i ∨ triOff i0 (i + c) ≤ a →
      (packLoop x ld i0 c i (triOff i0 i) y).2 a = y a) := by
  intro c
  induction c with
  | zero =>
    intro i y
    refine ⟨rfl, fun i' h1 h2 => by omega, fun a _ => rfl⟩
  | succ c ih =>
    intro i y
    have hstep : packLoop x ld i0 (c + 1) i (triOff i0 i) y =
        packLoop x ld i0 c (i + 1) (triOff i0 (i + 1))
          (fun a => if triOff i0 i ≤ a ∧ a < triOff i0 i + (i + i0 + 1) then
            x (i * ld + (0 + (a - triOff i0 i))) else y a) := by
      rw [packLoop]
      rw [packCol_eq]
      rw [triOff_succ]
    rw [hstep]
    obtain ⟨h1, h2, h3⟩ := ih (i + 1) (fun a =>
      if triOff i0 i ≤ a ∧ a < triOff i0 i + (i + i0 + 1) then
        x (i * ld + (0 + (a - triOff i0 i))) else y a)
    have e : i + 1 + c = i + (c + 1) := by omega
    rw [e] at h1 h2 h3
    refine ⟨h1, ?_, ?_⟩
    · intro i' hi hi' j hj
      rcases Nat.eq_or_lt_of_le hi with rfl | hlt
      · rw [h3 _ (Or.inl (by rw [triOff_succ]; omega))]
        rw [if_pos (by omega)]
        congr 2
        omega
      · exact h2 i' hlt hi' j hj
    · intro a ha
      have hm := triOff_succ i0 i
      have hm2 := triOff_mono i0 (show i < i + (c + 1) by omega)
      rw [h3 a (by omega), if_neg (by omega)]

theorem unpackCol_eq (x : ℕ → α) (base : ℕ) : ∀ c k1 (y : ℕ → α), c ≤ k1 →
    unpackCol x base c k1 y =
      (k1 - c, fun a => if base ≤ a ∧ a < base + c then x (k1 - c + (a - base)) else y a) := by
  intro c
  induction c with
  | zero =>
    intro k1 y _
    refine Prod.ext rfl ?_
    funext a
    have : ¬ (base ≤ a ∧ a < base + 0) := by omega
    simp [unpackCol, this]
  | succ c ih =>
    intro k1 y hk
    unfold unpackCol
    rw [ih _ _ (by omega)]
    refine Prod.ext (by dsimp only; omega) ?_
    funext a
    dsimp only
    by_cases h1 : base ≤ a ∧ a < base + c
    · rw [if_pos h1, if_pos (by omega)]
      congr 1
      omega
    · rw [if_neg h1]
      by_cases h2 : a = base + c
      · subst h2
        rw [if_pos rfl, if_pos (by omega)]
        congr 1
        omega
      · rw [if_neg h2, if_neg (by omega)]

theorem unpackLoop_spec (x : ℕ → α) (ld i0 : ℕ) : ∀ n (y : ℕ → α), n + i0 ≤ ld →
    (∀ i < n, ∀ j ≤ i + i0, unpackLoop x ld i0 n (triOff i0 n) y (i * ld + j) =
      x (triOff i0 i + j)) ∧
    (∀ a, (∀ i < n, ∀ j ≤ i + i0, a ≠ i * ld + j) →
      unpackLoop x ld i0 n (triOff i0 n) y a = y a) := by
  intro n
  induction n with
  | zero => intro y _; exact ⟨fun i hi => by omega, fun a _ => rfl⟩
  | succ n ih =>
    intro y hn
    have hstep : unpackLoop x ld i0 (n + 1) (triOff i0 (n + 1)) y =
        unpackLoop x ld i0 n (triOff i0 n)
          (fun a => if n * ld ≤ a ∧ a < n * ld + (n + i0 + 1) then
            x (triOff i0 n + (a - n * ld)) else y a) := by
      rw [unpackLoop]
      rw [unpackCol_eq _ _ _ _ _ (by rw [triOff_succ]; omega)]
      have : triOff i0 (n + 1) - (n + i0 + 1) = triOff i0 n := by rw [triOff_succ]; omega
      rw [this]
    rw [hstep]
    obtain ⟨h1, h2⟩ := ih (fun a => if n * ld ≤ a ∧ a < n * ld + (n + i0 + 1) then
            x (triOff i0 n + (a - n * ld)) else y a) (by omega)
    refine ⟨?_, ?_⟩
    · intro i hi j hj
      rcases Nat.lt_succ_iff_lt_or_eq.1 hi with hlt | rfl
      · exact h1 i hlt j hj
      · rw [h2 _ (fun i' hi' j' hj' => by
          have : (i' + 1) * ld ≤ i * ld := Nat.mul_le_mul_right _ hi'
          rw [Nat.add_mul] at this
          omega)]
        rw [if_pos (by omega)]
        congr 1
        omega
    · intro a ha
      rw [h2 a (fun i hi j hj => ha i (by omega) j hj)]
      rw [if_neg]
      rintro ⟨c1, c2⟩
      exact ha n (by omega) (a - n * ld) (by omega) (by omega)

theorem triOff_total (n i0 : ℕ) : (n + 1) * n / 2 + i0 * n = triOff i0 n := by
  unfold triOff
  rw [Nat.mul_comm (n + 1) n, Nat.mul_comm i0 n]

end Verif.Mat
