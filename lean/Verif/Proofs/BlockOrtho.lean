import Verif.Spec.BlockOrtho
import Mathlib.Algebra.BigOperators.Ring.Finset
import Mathlib.Algebra.BigOperators.Group.Finset.Sigma
import Mathlib.Algebra.BigOperators.Intervals
import Mathlib.Tactic.Ring
import Mathlib.Tactic.Abel
import Mathlib.Tactic.Linarith
import Mathlib.Tactic.FieldSimp

set_option linter.unusedSectionVars false
set_option linter.unusedSimpArgs false

/-! # Block orthogonalisation: triangular systems and one turn -/

namespace Verif.BlockOrtho
open Verif Finset

section tri
variable {K : Type} [Field K] {M : Type} [AddCommGroup M] [Module K M]

theorem fwd_stable (F : ℕ → ℕ → K) (b : ℕ → M) {i m n : ℕ} (h : i < m) (hm : m ≤ n) :
    fwd F b n i = fwd F b m i := by
  induction n with
  | zero => omega
  | succ n ih =>
    rcases Nat.lt_or_ge n m with h' | h'
    · have : m = n + 1 := by omega
      rw [this]
    · have e : fwd F b (n + 1) i = fwd F b n i := if_neg (by omega)
      rw [e, ih h']

theorem fwd_rec (F : ℕ → ℕ → K) (b : ℕ → M) {i n : ℕ} (h : i < n) :
    fwd F b n i = (F i i)⁻¹ • (b i - ∑ l ∈ range i, F l i • fwd F b n l) := by
  rw [fwd_stable F b (Nat.lt_succ_self i) h]
  have e : fwd F b (i + 1) i = (F i i)⁻¹ • (b i - ∑ l ∈ range i, F l i • fwd F b i l) := if_pos rfl
  rw [e]
  congr 2
  refine sum_congr rfl fun l hl => ?_
  rw [fwd_stable F b (mem_range.1 hl) (Nat.le_of_lt h)]

/-- The sum of a row of an upper triangle. -/
theorem sum_up [LinearOrder K] (F : ℕ → ℕ → K) (z : ℕ → M) {i n : ℕ} (h : i < n) :
    ∑ l ∈ range n, up F l i • z l = ∑ l ∈ range i, F l i • z l + F i i • z i := by
  have hs : ∑ l ∈ range n, up F l i • z l = ∑ l ∈ range (i + 1), up F l i • z l := by
    symm
    refine sum_subset (fun l hl => ?_) fun l _ hl => ?_
    · simp only [mem_range] at *; omega
    · simp only [mem_range] at hl
      rw [up, if_neg (by omega), zero_smul]
  rw [hs, sum_range_succ]
  congr 1
  · refine sum_congr rfl fun l hl => ?_
    simp only [mem_range] at hl
    rw [up, if_pos (by omega)]
  · rw [up, if_pos (Nat.le_refl _)]

theorem fwd_spec [LinearOrder K] (F : ℕ → ℕ → K) (b : ℕ → M) {i n : ℕ} (h : i < n) (hF : F i i ≠ 0) :
    ∑ l ∈ range n, up F l i • fwd F b n l = b i := by
  rw [sum_up F _ h, fwd_rec F b h, smul_smul, mul_inv_cancel₀ hF, one_smul]
  abel

theorem back_spec [LinearOrder K] (F : ℕ → ℕ → K) (b : ℕ → K) {i n : ℕ} (h : i < n) (hF : F i i ≠ 0) :
    ∑ l ∈ range n, up F i l * back F n b l = b i := by
  have h0 : n - 1 - (n - 1 - i) = i := by omega
  have := fwd_spec (fun l i => F (n - 1 - i) (n - 1 - l)) (fun i => b (n - 1 - i)) (i := n - 1 - i) (n := n)
    (by omega) (by rw [h0]; exact hF)
  rw [h0] at this
  rw [← this, ← sum_range_reflect]
  refine sum_congr rfl fun l hl => ?_
  simp only [mem_range] at hl
  simp only [up, back, smul_eq_mul, h0]
  have e : n - 1 - (n - 1 - l) = l := by omega
  rw [e]
  by_cases c : l ≤ n - 1 - i
  · rw [if_pos c, if_pos (by omega)]
  · rw [if_neg c, if_neg (by omega), zero_mul]

theorem tri_unique [LinearOrder K] (F : ℕ → ℕ → K) (q q' : ℕ → K) (n : ℕ) (hF : ∀ i < n, F i i ≠ 0)
    (h : ∀ i < n, ∑ l ∈ range n, up F l i * q l = ∑ l ∈ range n, up F l i * q' l) :
    ∀ i < n, q i = q' i := by
  intro i
  induction i using Nat.strong_induction_on with
  | _ i ih =>
    intro hi
    have e := h i hi
    have e1 := sum_up F q hi
    have e2 := sum_up F q' hi
    simp only [smul_eq_mul] at e1 e2
    rw [e1, e2] at e
    have : ∑ l ∈ range i, F l i * q l = ∑ l ∈ range i, F l i * q' l :=
      sum_congr rfl fun l hl => by rw [ih l (mem_range.1 hl) (by have := mem_range.1 hl; omega)]
    rw [this] at e
    exact mul_left_cancel₀ (hF i hi) (add_left_cancel e)

end tri

variable {K X : Type} [Field K] [LinearOrder K] [IsStrictOrderedRing K] [AddCommGroup X] [Module K X]

section ip
variable {o : Kern K X} (h : Contract o)
include h

theorem ip_zero (v : X) : o.ip v 0 = 0 := by
  have := h.smul v 0 0
  rwa [zero_smul, zero_mul] at this

theorem ip_sum (v : X) (n : ℕ) (a : ℕ → K) (x : ℕ → X) :
    o.ip v (∑ i ∈ range n, a i • x i) = ∑ i ∈ range n, a i * o.ip v (x i) := by
  induction n with
  | zero => simp [ip_zero h]
  | succ n ih => rw [sum_range_succ, sum_range_succ, h.add, ih, h.smul]

theorem ip_sub (v x y : X) : o.ip v (x - y) = o.ip v x - o.ip v y := by
  have : x - y = x + (-1 : K) • y := by rw [neg_smul, one_smul]; abel
  rw [this, h.add, h.smul]; ring

theorem ip_sum_left (v : X) (n : ℕ) (a : ℕ → K) (x : ℕ → X) :
    o.ip (∑ i ∈ range n, a i • x i) v = ∑ i ∈ range n, a i * o.ip (x i) v := by
  rw [h.symm, ip_sum h]
  exact sum_congr rfl fun i _ => by rw [h.symm]

theorem ip_sub_left (v x y : X) : o.ip (x - y) v = o.ip x v - o.ip y v := by
  rw [h.symm, ip_sub h, h.symm v x, h.symm v y]

theorem ip_smul_left (v : X) (a : K) (x : X) : o.ip (a • x) v = a * o.ip x v := by
  rw [h.symm, h.smul, h.symm]

theorem ip_nonneg (x : X) : 0 ≤ o.ip x x := by
  by_cases c : x = 0
  · rw [c, ip_zero h]
  · exact (h.pos x c).le

theorem ip_self_zero {x : X} (c : o.ip x x = 0) : x = 0 := by
  by_contra hx
  have := h.pos x hx
  rw [c] at this
  exact lt_irrefl _ this

theorem sqrt_pos {a : K} (ha : 0 < a) : 0 < o.sqrt a := by
  obtain ⟨h0, h1⟩ := h.sqrt a ha.le
  rcases h0.lt_or_eq with hl | hl
  · exact hl
  · rw [← hl, mul_zero] at h1
    exact absurd h1 ha.ne

theorem sqrt_one : o.sqrt 1 = 1 := by
  obtain ⟨h0, h1⟩ := h.sqrt 1 zero_le_one
  nlinarith [mul_self_nonneg (o.sqrt 1 - 1), mul_self_nonneg (o.sqrt 1 + 1)]


/-- The two substitutions give the projection: what is left is orthogonal to `P`. -/
theorem solve_orth (n : ℕ) (f : ℕ → ℕ → K) (P : ℕ → X) (x : X) (hd : ∀ i < n, f i i ≠ 0)
    (hf : ∀ i < n, ∀ j < n, ∑ l ∈ range n, up f l i * up f l j = o.ip (P i) (P j)) (i : ℕ) (hi : i < n) :
    o.ip (P i) (x - ∑ j ∈ range n, back f n (fwd f (fun j => o.ip (P j) x) n) j • P j) = 0 := by
  rw [ip_sub h, ip_sum h, sub_eq_zero]
  have e1 := fwd_spec f (fun j => o.ip (P j) x) hi (hd i hi)
  simp only [smul_eq_mul] at e1
  rw [← e1]
  have : ∀ l ∈ range n, up f l i * fwd f (fun j => o.ip (P j) x) n l =
      ∑ j ∈ range n, back f n (fwd f (fun j => o.ip (P j) x) n) j * (up f l i * up f l j) := by
    intro l hl
    have e2 := back_spec f (fwd f (fun j => o.ip (P j) x) n) (mem_range.1 hl) (hd l (mem_range.1 hl))
    rw [← e2, mul_sum]
    refine sum_congr rfl fun j _ => ?_
    ring
  rw [sum_congr rfl this, sum_comm]
  refine sum_congr rfl fun j hj => ?_
  rw [← hf i hi j (mem_range.1 hj), mul_sum]

theorem solve_gram (n : ℕ) (f : ℕ → ℕ → K) (P : ℕ → X) (x y : X) (hd : ∀ i < n, f i i ≠ 0)
    (hf : ∀ i < n, ∀ j < n, ∑ l ∈ range n, up f l i * up f l j = o.ip (P i) (P j)) :
    o.ip (x - ∑ j ∈ range n, back f n (fwd f (fun j => o.ip (P j) x) n) j • P j)
        (y - ∑ j ∈ range n, back f n (fwd f (fun j => o.ip (P j) y) n) j • P j) =
      o.ip x y - ∑ l ∈ range n, fwd f (fun j => o.ip (P j) x) n l * fwd f (fun j => o.ip (P j) y) n l := by
  rw [ip_sub_left h, ip_sum_left h]
  have z : ∑ i ∈ range n, back f n (fwd f (fun j => o.ip (P j) x) n) i *
      o.ip (P i) (y - ∑ j ∈ range n, back f n (fwd f (fun j => o.ip (P j) y) n) j • P j) = 0 :=
    sum_eq_zero fun i hi => by rw [solve_orth h n f P y hd hf i (mem_range.1 hi), mul_zero]
  rw [z, sub_zero, ip_sub h, ip_sum h]
  congr 1
  have : ∀ l ∈ range n, fwd f (fun j => o.ip (P j) x) n l * fwd f (fun j => o.ip (P j) y) n l =
      ∑ j ∈ range n, back f n (fwd f (fun j => o.ip (P j) y) n) j *
        (up f l j * fwd f (fun j => o.ip (P j) x) n l) := by
    intro l hl
    have e2 := back_spec f (fwd f (fun j => o.ip (P j) y) n) (mem_range.1 hl) (hd l (mem_range.1 hl))
    conv_lhs => rw [← e2]
    rw [mul_sum]
    exact sum_congr rfl fun j _ => by ring
  rw [sum_congr rfl this, sum_comm]
  refine sum_congr rfl fun j hj => ?_
  have e1 := fwd_spec f (fun j => o.ip (P j) x) (mem_range.1 hj) (hd j (mem_range.1 hj))
  simp only [smul_eq_mul] at e1
  rw [← mul_sum, e1, h.symm x]

end ip

/-- `Z * (U N) = X` gives orthonormal columns when `U' U` is the scaled Gram matrix of `X`. -/
theorem chol_orth {o : Kern K X} (h : Contract o) (k : ℕ) (U : ℕ → ℕ → K) (N : ℕ → K) (x Z : ℕ → X)
    (hN : ∀ i < k, N i ≠ 0) (hU : ∀ i < k, U i i ≠ 0)
    (hZ : ∀ i < k, ∑ l ∈ range k, (up U l i * N i) • Z l = x i)
    (hC : ∀ i < k, ∀ j < k, ∑ l ∈ range k, up U l i * up U l j = o.ip (x i) (x j) / (N i * N j)) :
    ∀ i < k, ∀ j < k, o.ip (Z i) (Z j) = if i = j then 1 else 0 := by
  have step : ∀ w i, i < k → N i * ∑ l ∈ range k, up U l i * o.ip (Z l) w = o.ip (x i) w := by
    intro w i hi
    rw [← hZ i hi, ip_sum_left h, mul_sum]
    exact sum_congr rfl fun l _ => by ring
  have cross : ∀ j < k, ∀ l < k, o.ip (Z l) (x j) = N j * up U l j := by
    intro j hj
    refine tri_unique U (fun l => o.ip (Z l) (x j)) (fun l => N j * up U l j) k hU fun i hi => ?_
    have e := step (x j) i hi
    have c := hC i hi j hj
    have hi0 := hN i hi
    have hj0 := hN j hj
    have e2 : ∑ l ∈ range k, up U l i * (N j * up U l j) = N j * ∑ l ∈ range k, up U l i * up U l j := by
      rw [mul_sum]; exact sum_congr rfl fun l _ => by ring
    rw [e2, c, ← e]
    field_simp
  intro i hi j hj
  refine tri_unique U (fun l => o.ip (Z l) (Z j)) (fun l => if l = j then 1 else 0) k hU (fun m hm => ?_) i hi
  have e := step (Z j) m hm
  rw [h.symm, cross m hm j hj] at e
  have e1 := mul_left_cancel₀ (hN m hm) e
  rw [e1]
  simp only [mul_ite, mul_one, mul_zero]
  rw [sum_ite_eq' (range k) j, if_pos (mem_range.2 hj)]

/-- `Z = X N⁻¹ Y D⁻¹` has a diagonal Gram matrix when the columns of `Y` are eigenvectors. -/
theorem eig_orth {o : Kern K X} (h : Contract o) (k : ℕ) (Y : ℕ → ℕ → K) (N D d : ℕ → K) (x Z : ℕ → X)
    (H : ℕ → ℕ → K) (hY : IsEig k H Y d)
    (hZ : ∀ i < k, Z i = ∑ l ∈ range k, (Y l i / N l * (1 / D i)) • x l)
    (hC : ∀ i < k, ∀ j < k, sym H i j = o.ip (x i) (x j) / (N i * N j)) :
    ∀ i < k, ∀ j < k, o.ip (Z i) (Z j) = if i = j then d i / (D i * D i) else 0 := by
  intro i hi j hj
  have e : o.ip (Z i) (Z j) = (1 / D i) * (1 / D j) * ∑ l ∈ range k, Y l i * ∑ m ∈ range k, sym H l m * Y m j := by
    rw [hZ i hi, hZ j hj, ip_sum_left h, mul_sum]
    refine sum_congr rfl fun l hl => ?_
    rw [ip_sum h, mul_sum, mul_sum, mul_sum]
    refine sum_congr rfl fun m hm => ?_
    rw [hC l (mem_range.1 hl) m (mem_range.1 hm)]
    ring
  rw [e]
  have e2 : ∑ l ∈ range k, Y l i * ∑ m ∈ range k, sym H l m * Y m j = d j * ∑ l ∈ range k, Y l i * Y l j := by
    rw [mul_sum]
    refine sum_congr rfl fun l hl => ?_
    rw [hY.vec l (mem_range.1 hl) j hj]; ring
  rw [e2, hY.cols i hi j hj]
  by_cases c : i = j
  · subst c
    rw [if_pos rfl, if_pos rfl]; ring
  · rw [if_neg c, if_neg c]; ring
end Verif.BlockOrtho
