import Verif.Model.Rayleigh
import Verif.Spec.Rayleigh
import Mathlib.Algebra.BigOperators.Group.Finset.Sigma
import Mathlib.Algebra.Star.BigOperators
import Mathlib.Tactic.Ring
import Mathlib.Tactic.Abel

set_option linter.unusedSectionVars false
set_option linter.unusedSimpArgs false
set_option linter.unusedVariables false

namespace Verif.Rayleigh
open Finset Verif Verif.Spec

variable {K E : Type} [Field K] [StarRing K] [AddCommGroup E] [Module K E]

/-! ## Inner products of combinations -/

section Inner
variable {ip : E → E → K} (hip : IsInner ip)
include hip

theorem ip_zero (x : E) : ip x 0 = 0 := by
  have := hip.smul 0 x 0
  rwa [zero_smul, zero_mul] at this

theorem ip_neg (x y : E) : ip x (-y) = - ip x y := by
  have := hip.smul (-1) x y
  rwa [neg_smul, one_smul, neg_mul, one_mul] at this

theorem ip_sub (x y z : E) : ip x (y - z) = ip x y - ip x z := by
  rw [sub_eq_add_neg, hip.add, ip_neg hip, sub_eq_add_neg]

theorem ip_add_left (x y z : E) : ip (x + y) z = ip x z + ip y z := by
  rw [← hip.conj, hip.add, star_add, hip.conj, hip.conj]

theorem ip_smul_left (c : K) (x y : E) : ip (c • x) y = star c * ip x y := by
  rw [← hip.conj, hip.smul, star_mul', hip.conj]

theorem ip_sum (x : E) (n : ℕ) (f : ℕ → E) : ip x (∑ k ∈ range n, f k) = ∑ k ∈ range n, ip x (f k) := by
  induction n with
  | zero => simp [ip_zero hip]
  | succ n ih => rw [sum_range_succ, sum_range_succ, hip.add, ih]

theorem ip_sum_left (x : E) (n : ℕ) (f : ℕ → E) : ip (∑ k ∈ range n, f k) x = ∑ k ∈ range n, ip (f k) x := by
  induction n with
  | zero => rw [← hip.conj]; simp [ip_zero hip]
  | succ n ih => rw [sum_range_succ, sum_range_succ, ip_add_left hip, ih]

theorem ip_comb (x : E) (n : ℕ) (V : ℕ → E) (h : ℕ → K) : ip x (comb n V h) = ∑ k ∈ range n, ip x (V k) * h k := by
  unfold comb
  rw [ip_sum hip]
  refine sum_congr rfl fun k _ => ?_
  rw [hip.smul, mul_comm]

theorem ip_comb_left (x : E) (n : ℕ) (V : ℕ → E) (h : ℕ → K) :
    ip (comb n V h) x = ∑ k ∈ range n, star (h k) * ip (V k) x := by
  unfold comb
  rw [ip_sum_left hip]
  refine sum_congr rfl fun k _ => ?_
  rw [ip_smul_left hip]

theorem ip_comb_comb (n : ℕ) (V W : ℕ → E) (h g : ℕ → K) :
    ip (comb n V h) (comb n W g) = ∑ i ∈ range n, ∑ j ∈ range n, star (h i) * ip (V i) (W j) * g j := by
  rw [ip_comb_left hip]
  refine sum_congr rfl fun i _ => ?_
  rw [ip_comb hip, mul_sum]
  refine sum_congr rfl fun j _ => ?_
  ring

end Inner

theorem A_zero {ip : E → E → K} {A : E → E} (hA : IsHermitian ip A) : A 0 = 0 := by
  have := hA.smul 0 0
  rwa [zero_smul, zero_smul] at this

theorem A_comb {ip : E → E → K} {A : E → E} (hA : IsHermitian ip A) (n : ℕ) (V : ℕ → E) (h : ℕ → K) :
    A (comb n V h) = comb n (fun i => A (V i)) h := by
  unfold comb
  induction n with
  | zero => simp [A_zero hA]
  | succ n ih => rw [sum_range_succ, sum_range_succ, hA.add, hA.smul, ih]

theorem comb_congr (n : ℕ) (V W : ℕ → E) (h : ℕ → K) (hVW : ∀ i < n, V i = W i) : comb n V h = comb n W h := by
  unfold comb
  refine sum_congr rfl fun i hi => ?_
  rw [hVW i (mem_range.1 hi)]

/-- Product of coefficient vectors. -/
def dotc (n : ℕ) (x y : ℕ → K) : K := ∑ k ∈ range n, star (x k) * y k

theorem dotc_conj (n : ℕ) (x y : ℕ → K) : star (dotc n x y) = dotc n y x := by
  unfold dotc
  rw [star_sum]
  refine sum_congr rfl fun k _ => ?_
  rw [star_mul', star_star, mul_comm]

/-! ## The invariant -/

/-- What holds of the projected problem between the steps. -/
structure Inv (ip : E → E → K) (A B : E → E) (s : St K E) : Prop where
  orth : ∀ i < s.b, ∀ j < s.b, ip (s.V i) (B (s.V j)) = if i = j then 1 else 0
  prod : ∀ i < s.b, s.W i = A (s.V i)
  mass : ∀ i < s.b, s.BV i = B (s.V i)
  proj : ∀ i < s.b, ∀ j < s.b, sym s.H i j = ip (s.V i) (A (s.V j))
  eig : IsEigenbasis s.b (sym s.H) s.hVecs s.hVals
  out : ∀ x ∈ s.cons ++ s.locked.map Locked.x, ∀ i < s.b, ip x (B (s.V i)) = 0
  others : Orthonormal ip B (s.cons ++ s.locked.map Locked.x)
  locked : ∀ p ∈ s.locked, IsRitz ip A B p.x p.value p.res

section
variable {ip : E → E → K} {A B : E → E} (hip : IsInner ip) (hA : IsHermitian ip A) (hB : IsHermitian ip B)
include hip hB

theorem ip_V (s : St K E) (h : Inv ip A B s) (x y : ℕ → K) : ip (comb s.b s.V x) (B (comb s.b s.V y)) = dotc s.b x y := by
  rw [A_comb hB, ip_comb_comb hip]
  unfold dotc
  refine sum_congr rfl fun i hi => ?_
  rw [sum_eq_single i]
  · rw [h.orth i (mem_range.1 hi) i (mem_range.1 hi), if_pos rfl, mul_one]
  · intro j hj hne
    rw [h.orth i (mem_range.1 hi) j (mem_range.1 hj), if_neg (Ne.symm hne), mul_zero, zero_mul]
  · intro h'; exact absurd hi h'

theorem ip_out (s : St K E) (h : Inv ip A B s) (z : E) (hz : z ∈ s.cons ++ s.locked.map Locked.x) (x : ℕ → K) :
    ip z (B (comb s.b s.V x)) = 0 := by
  rw [A_comb hB, ip_comb hip]
  refine sum_eq_zero fun k hk => ?_
  rw [h.out z hz k (mem_range.1 hk), zero_mul]

omit hip in
theorem BV_comb (s : St K E) (h : Inv ip A B s) (x : ℕ → K) : comb s.b s.BV x = B (comb s.b s.V x) := by
  rw [A_comb hB]
  exact comb_congr _ _ _ _ h.mass

include hA

omit hip hB in
theorem W_comb (s : St K E) (h : Inv ip A B s) (x : ℕ → K) : comb s.b s.W x = A (comb s.b s.V x) := by
  rw [A_comb hA]
  exact comb_congr _ _ _ _ h.prod

omit hB in
theorem ip_AV (s : St K E) (h : Inv ip A B s) (x y : ℕ → K) :
    ip (comb s.b s.V x) (A (comb s.b s.V y)) = quad s.b s.H x y := by
  rw [A_comb hA, ip_comb_comb hip]
  unfold quad
  refine sum_congr rfl fun i hi => sum_congr rfl fun j hj => ?_
  rw [h.proj i (mem_range.1 hi) j (mem_range.1 hj)]

omit hB in
/-- With an eigenvector of the projected matrix. -/
theorem quad_eig (s : St K E) (h : Inv ip A B s) (x : ℕ → K) (v : ℕ) (hv : v < s.b) :
    quad s.b s.H x (fun k => s.hVecs k v) = s.hVals v * dotc s.b x (fun k => s.hVecs k v) := by
  unfold quad dotc
  rw [mul_sum]
  refine sum_congr rfl fun i hi => ?_
  simp only [mul_assoc]
  rw [← mul_sum, h.eig.eigen i (mem_range.1 hi) v hv]
  ring

omit hB in
theorem quad_conj (s : St K E) (h : Inv ip A B s) (x y : ℕ → K) : star (quad s.b s.H x y) = quad s.b s.H y x := by
  rw [← ip_AV hip hA s h, ← ip_AV hip hA s h, hip.conj, hA.self]

/-- Every pair of the projected problem is a Ritz pair, and its residual is orthogonal to the basis. -/
theorem ritz_spec (s : St K E) (h : Inv ip A B s) (j : ℕ) (hj : j < s.b) :
    IsRitz ip A B (ritz s j) (s.hVals j) (resid s j) ∧ ∀ i < s.b, ip (s.V i) (resid s j) = 0 := by
  have hd : dotc s.b (fun k => s.hVecs k j) (fun k => s.hVecs k j) = 1 := by
    have := h.eig.orth j hj j hj
    rwa [if_pos rfl] at this
  refine ⟨⟨?_, ?_, ?_⟩, ?_⟩
  · unfold ritz; rw [ip_V hip hB s h, hd]
  · unfold ritz; rw [ip_AV hip hA s h, quad_eig hip hA s h _ j hj, hd, mul_one]
  · unfold resid ritzW ritzBV; rw [W_comb hA s h, BV_comb hB s h]; rfl
  · intro i hi
    unfold resid ritzW ritzBV
    rw [W_comb hA s h, BV_comb hB s h, ip_sub hip, hip.smul, A_comb hB, ip_comb hip, A_comb hA, ip_comb hip]
    have e1 : ∑ k ∈ range s.b, ip (s.V i) (A (s.V k)) * s.hVecs k j = s.hVals j * s.hVecs i j := by
      rw [← h.eig.eigen i hi j hj]
      refine sum_congr rfl fun k hk => ?_
      rw [h.proj i hi k (mem_range.1 hk)]
    have e2 : ∑ k ∈ range s.b, ip (s.V i) (B (s.V k)) * s.hVecs k j = s.hVecs i j := by
      rw [sum_eq_single i]
      · rw [h.orth i hi i hi, if_pos rfl, one_mul]
      · intro k hk hne
        rw [h.orth i hi k (mem_range.1 hk), if_neg (Ne.symm hne), zero_mul]
      · intro h'; exact absurd (mem_range.2 hi) h'
    rw [e1, e2, sub_self]

/-- Different pairs have orthogonal vectors, orthogonal to the locked ones and the constraints. -/
theorem ritz_orth (s : St K E) (h : Inv ip A B s) (i j : ℕ) (hi : i < s.b) (hj : j < s.b) :
    ip (ritz s i) (B (ritz s j)) = if i = j then 1 else 0 := by
  unfold ritz
  rw [ip_V hip hB s h]
  exact h.eig.orth i hi j hj

/-- Adding vectors that are orthonormal, and orthogonal to what is there. -/
theorem expand_inv (s : St K E) (h : Inv ip A B s) (m : ℕ) (q : ℕ → E) (e : Eig K)
    (hq : ∀ i < m, ∀ j < m, ip (q i) (B (q j)) = if i = j then 1 else 0) (hqV : ∀ i < s.b, ∀ j < m, ip (s.V i) (B (q j)) = 0)
    (hqo : ∀ x ∈ s.cons ++ s.locked.map Locked.x, ∀ j < m, ip x (B (q j)) = 0)
    (he : IsEigenbasis (s.b + m) (sym (expand ip A B s m q e).H) e.vecs e.vals) :
    Inv ip A B (expand ip A B s m q e) := by
  have hV0 : ∀ i < s.b, (expand ip A B s m q e).V i = s.V i := by
    intro i hi; exact if_neg (by omega)
  have hV1 : ∀ i < m, (expand ip A B s m q e).V (s.b + i) = q i := by
    intro i hi
    have : (expand ip A B s m q e).V (s.b + i) = if s.b ≤ s.b + i ∧ s.b + i < s.b + m then q (s.b + i - s.b) else s.V (s.b + i) := rfl
    rw [this, if_pos (by omega), Nat.add_sub_cancel_left]
  have hcase : ∀ i, i < s.b + m → i < s.b ∨ ∃ k < m, i = s.b + k := by
    intro i hi
    by_cases h1 : i < s.b
    · exact Or.inl h1
    · exact Or.inr ⟨i - s.b, by omega, by omega⟩
  have hW : ∀ i < s.b + m, (expand ip A B s m q e).W i = A ((expand ip A B s m q e).V i) := by
    intro i hi
    rcases hcase i hi with h1 | ⟨k, hk, rfl⟩
    · rw [hV0 i h1, ← h.prod i h1]; exact if_neg (by omega)
    · exact if_pos (by omega)
  have hBV : ∀ i < s.b + m, (expand ip A B s m q e).BV i = B ((expand ip A B s m q e).V i) := by
    intro i hi
    rcases hcase i hi with h1 | ⟨k, hk, rfl⟩
    · rw [hV0 i h1, ← h.mass i h1]; exact if_neg (by omega)
    · exact if_pos (by omega)
  have hH : ∀ i j, i ≤ j → j < s.b + m → (expand ip A B s m q e).H i j =
      ip ((expand ip A B s m q e).V i) (A ((expand ip A B s m q e).V j)) := by
    intro i j hij hj
    by_cases h1 : s.b ≤ j
    · rw [← hW j hj]; exact if_pos ⟨h1, hj, hij⟩
    · have e1 : (expand ip A B s m q e).H i j = s.H i j := if_neg (by omega)
      rw [e1, hV0 i (by omega), hV0 j (by omega), ← h.proj i (by omega) j (by omega)]
      unfold sym; rw [if_pos hij]
  refine ⟨?_, hW, hBV, ?_, he, ?_, h.others, h.locked⟩
  · intro i hi j hj
    rcases hcase i hi with h1 | ⟨k, hk, rfl⟩ <;> rcases hcase j hj with h2 | ⟨l, hl, rfl⟩
    · rw [hV0 i h1, hV0 j h2]; exact h.orth i h1 j h2
    · rw [hV0 i h1, hV1 l hl, hqV i h1 l hl, if_neg (by omega)]
    · rw [hV1 k hk, hV0 j h2, ← hip.conj, hB.self, hqV j h2 k hk, star_zero, if_neg (by omega)]
    · rw [hV1 k hk, hV1 l hl, hq k hk l hl]
      by_cases hkl : k = l
      · rw [if_pos hkl, if_pos (by omega)]
      · rw [if_neg hkl, if_neg (by omega)]
  · intro i hi j hj
    by_cases hij : i ≤ j
    · unfold sym; rw [if_pos hij, hH i j hij hj]
    · unfold sym; rw [if_neg hij, hH j i (by omega) hi, hip.conj, hA.self]
  · intro x hx i hi
    rcases hcase i hi with h1 | ⟨k, hk, rfl⟩
    · rw [hV0 i h1]; exact h.out x hx i h1
    · rw [hV1 k hk]; exact hqo x hx k hk

end

end Verif.Rayleigh
