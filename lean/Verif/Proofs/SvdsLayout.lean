import Verif.Model.SvdsLayout
import Verif.Spec.SvdsLayout
import Verif.Props.C40_CopyMatrix
import Mathlib.Tactic.Ring

set_option linter.unusedSectionVars false

namespace Verif.Layout
open Verif.Mat Verif.Props

variable {K : Type} [Field K] [LinearOrder K]

/-- Contiguous move of `k` columns of `n` rows. -/
theorem move_in (n k x y : ℕ) (mem : ℕ → K) (j r : ℕ) (hj : j < k) (hr : r < n) :
    copyMatrix n k n n x y mem (y + j * n + r) = mem (x + j * n + r) :=
  (C40_copy_matrix_partial n k n n x y (Nat.le_refl _) (Nat.le_refl _)
    (Or.inr (Or.inr ⟨rfl, Or.inl rfl⟩)) mem).1 (j, r) ⟨hj, hr⟩

theorem move_out (n k x y : ℕ) (mem : ℕ → K) (a : ℕ) (h : a < y ∨ y + n * k ≤ a) :
    copyMatrix n k n n x y mem a = mem a := by
  refine (C40_copy_matrix_partial n k n n x y (Nat.le_refl _) (Nat.le_refl _)
    (Or.inr (Or.inr ⟨rfl, Or.inl rfl⟩)) mem).2 a ?_
  rintro ⟨j, r⟩ ⟨hj, hr⟩ heq
  dsimp only at hj hr heq
  have := Nat.mul_le_mul_right n (show j + 1 ≤ k by omega)
  have e : (j + 1) * n = j * n + n := by ring
  have e2 : k * n = n * k := Nat.mul_comm _ _
  omega

/-- Copy between disjoint places. -/
theorem far_in (m k ldx ldy x y : ℕ) (hx : m ≤ ldx) (hy : m ≤ ldy)
    (h : x + (k - 1) * ldx + m ≤ y ∨ y + (k - 1) * ldy + m ≤ x) (mem : ℕ → K) (j r : ℕ) (hj : j < k)
    (hr : r < m) : copyMatrix m k ldx ldy x y mem (y + j * ldy + r) = mem (x + j * ldx + r) :=
  (C40_copy_matrix_partial m k ldx ldy x y hx hy (Or.inl h) mem).1 (j, r) ⟨hj, hr⟩

theorem far_out (m k ldx ldy x y : ℕ) (hx : m ≤ ldx) (hy : m ≤ ldy)
    (h : x + (k - 1) * ldx + m ≤ y ∨ y + (k - 1) * ldy + m ≤ x) (mem : ℕ → K) (a : ℕ)
    (ha : ∀ j < k, ∀ r < m, a ≠ y + j * ldy + r) : copyMatrix m k ldx ldy x y mem a = mem a :=
  (C40_copy_matrix_partial m k ldx ldy x y hx hy (Or.inl h) mem).2 a (fun q hq => ha q.1 hq.1 q.2 hq.2)

theorem copyCol_in (len y x : ℕ) (h : y ≤ x ∨ x + len ≤ y) (mem : ℕ → K) (r : ℕ) (hr : r < len) :
    copyCol len y x mem (y + r) = mem (x + r) := (copyCol_moves len y x h mem).1 r hr

theorem copyCol_out (len y x : ℕ) (h : y ≤ x ∨ x + len ≤ y) (mem : ℕ → K) (a : ℕ)
    (ha : a < y ∨ y + len ≤ a) : copyCol len y x mem a = mem a :=
  (copyCol_moves len y x h mem).2 a (fun r hr => by dsimp only; omega)

/-- Division of an address in a block of columns. -/
theorem addr_div (m j r : ℕ) (hr : r < m) : (j * m + r) / m = j ∧ (j * m + r) % m = r := by
  have e : j * m + r = r + m * j := by ring
  rw [e]
  exact ⟨by rw [Nat.add_mul_div_left _ _ (by omega), Nat.div_eq_of_lt hr, Nat.zero_add],
    by rw [Nat.add_mul_mod_self_left, Nat.mod_eq_of_lt hr]⟩

theorem addr_lt (m j r k : ℕ) (hr : r < m) (hj : j < k) : j * m + r < m * k := by
  have := Nat.mul_le_mul_right m (show j + 1 ≤ k by omega)
  have e : (j + 1) * m = j * m + m := by ring
  have e2 : k * m = m * k := Nat.mul_comm _ _
  omega

theorem mulCols_in (mV mW : ℕ) (f : (ℕ → K) → ℕ → K) (x y cnt : ℕ) (mem : ℕ → K) (j r : ℕ)
    (hj : j < cnt) (hr : r < mW) :
    mulCols mV mW f x y cnt mem (y + j * mW + r)
      = f (fun q => if q < mV then mem (x + j * mV + q) else 0) r := by
  have h1 := addr_lt mW j r cnt hr hj
  obtain ⟨h2, h3⟩ := addr_div mW j r hr
  unfold mulCols
  rw [if_pos ⟨by omega, by omega⟩]
  have e : y + j * mW + r - y = j * mW + r := by omega
  rw [e, h2, h3]

theorem mulCols_out (mV mW : ℕ) (f : (ℕ → K) → ℕ → K) (x y cnt : ℕ) (mem : ℕ → K) (a : ℕ)
    (h : a < y ∨ y + mW * cnt ≤ a) : mulCols mV mW f x y cnt mem a = mem a := by
  unfold mulCols; rw [if_neg (by omega)]

theorem scalInv_in (e : Num K) (m cnt x : ℕ) (sval : ℕ → K) (mem : ℕ → K) (j r : ℕ) (hj : j < cnt)
    (hr : r < m) : scalInv e m cnt x sval mem (x + j * m + r)
      = 1 / invFactor e m x sval mem j * mem (x + j * m + r) := by
  have h1 := addr_lt m j r cnt hr hj
  obtain ⟨h2, -⟩ := addr_div m j r hr
  unfold scalInv
  rw [if_pos ⟨by omega, by omega⟩]
  have e : x + j * m + r - x = j * m + r := by omega
  rw [e, h2]

theorem scalInv_out (e : Num K) (m cnt x : ℕ) (sval : ℕ → K) (mem : ℕ → K) (a : ℕ)
    (h : a < x ∨ x + m * cnt ≤ a) : scalInv e m cnt x sval mem a = mem a := by
  unfold scalInv; rw [if_neg (by omega)]

theorem scal_in (len : ℕ) (c : K) (off : ℕ) (mem : ℕ → K) (a : ℕ) (h : off ≤ a ∧ a < off + len) :
    scal len c off mem a = c * mem a := by unfold scal; rw [if_pos h]

theorem scal_out (len : ℕ) (c : K) (off : ℕ) (mem : ℕ → K) (a : ℕ) (h : a < off ∨ off + len ≤ a) :
    scal len c off mem a = mem a := by unfold scal; rw [if_neg (by omega)]

end Verif.Layout
