import Verif.Model.Extraction
import Verif.Spec.Extraction
import Verif.Proofs.RayleighRestart
import Mathlib.LinearAlgebra.Matrix.NonsingularInverse
import Mathlib.Tactic.Linarith

set_option linter.unusedSectionVars false
set_option linter.unusedSimpArgs false
set_option linter.unusedVariables false

namespace Verif.Extraction
open Finset Verif Verif.Spec Verif.Rayleigh Verif.Restart

variable {𝕜 E : Type} [RCLike 𝕜] [AddCommGroup E] [Module 𝕜 E]

/-! ## Square matrices with orthonormal columns -/

/-- The rows are orthonormal too. -/
theorem rows_of_columns (n : ℕ) (M : ℕ → ℕ → 𝕜) (h : Columns n M) :
    ∀ i < n, ∀ j < n, ∑ k ∈ range n, M i k * star (M j k) = if i = j then 1 else 0 := by
  let A : Matrix (Fin n) (Fin n) 𝕜 := fun i j => star (M j i)
  let B : Matrix (Fin n) (Fin n) 𝕜 := fun i j => M i j
  have hAB : A * B = 1 := by
    ext i j
    rw [Matrix.mul_apply, Matrix.one_apply]
    have := h i i.2 j j.2
    rw [sum_range] at this
    rw [this]
    simp [Fin.ext_iff]
  have hBA : B * A = 1 := mul_eq_one_comm.1 hAB
  intro i hi j hj
  have := congrFun (congrFun hBA ⟨i, hi⟩) ⟨j, hj⟩
  rw [Matrix.mul_apply, Matrix.one_apply] at this
  rw [sum_range]
  simpa [A, B, Fin.ext_iff] using this

/-- Coefficients with respect to the columns. -/
theorem expand_columns (n : ℕ) (M : ℕ → ℕ → 𝕜) (h : Columns n M) (z : ℕ → 𝕜) (i : ℕ) (hi : i < n) :
    z i = ∑ j ∈ range n, M i j * dotc n (fun k => M k j) z := by
  unfold dotc
  simp_rw [mul_sum]
  rw [sum_comm]
  rw [sum_eq_single i]
  · have := rows_of_columns n M h i hi i hi
    rw [if_pos rfl] at this
    simp_rw [← mul_assoc]
    rw [← sum_mul, this, one_mul]
  · intro k hk hne
    have := rows_of_columns n M h i hi k (mem_range.1 hk)
    rw [if_neg (Ne.symm hne)] at this
    simp_rw [← mul_assoc]
    rw [← sum_mul, this, zero_mul]
  · intro h'; exact absurd (mem_range.2 hi) h'

theorem dotc_sum_right (n m : ℕ) (x : ℕ → 𝕜) (f : ℕ → ℕ → 𝕜) :
    dotc n x (fun i => ∑ j ∈ range m, f i j) = ∑ j ∈ range m, dotc n x (fun i => f i j) := by
  unfold dotc
  simp_rw [mul_sum]
  exact sum_comm

theorem dotc_congr (n : ℕ) (x y y' : ℕ → 𝕜) (h : ∀ i < n, y i = y' i) : dotc n x y = dotc n x y' := by
  unfold dotc
  refine sum_congr rfl fun i hi => ?_
  rw [h i (mem_range.1 hi)]

theorem dotc_congr_left (n : ℕ) (x x' y : ℕ → 𝕜) (h : ∀ i < n, x i = x' i) : dotc n x y = dotc n x' y := by
  unfold dotc
  refine sum_congr rfl fun i hi => ?_
  rw [h i (mem_range.1 hi)]

theorem dotc_mul_right (n : ℕ) (x y : ℕ → 𝕜) (c : 𝕜) : dotc n x (fun i => y i * c) = dotc n x y * c := by
  unfold dotc
  rw [sum_mul]
  refine sum_congr rfl fun i _ => ?_
  ring

/-- Parseval. -/
theorem parseval (n : ℕ) (M : ℕ → ℕ → 𝕜) (h : Columns n M) (x y : ℕ → 𝕜) :
    dotc n x y = ∑ j ∈ range n, dotc n x (fun k => M k j) * dotc n (fun k => M k j) y := by
  rw [dotc_congr n x y _ (fun i hi => expand_columns n M h y i hi), dotc_sum_right]
  refine sum_congr rfl fun j _ => ?_
  rw [dotc_mul_right]

/-- Squared modulus. -/
theorem dotc_self (n : ℕ) (M : ℕ → ℕ → 𝕜) (h : Columns n M) (z : ℕ → 𝕜) :
    dotc n z z = ((∑ j ∈ range n, ‖dotc n (fun k => M k j) z‖ ^ 2 : ℝ) : 𝕜) := by
  rw [parseval n M h]
  push_cast
  refine sum_congr rfl fun j _ => ?_
  rw [← dotc_conj n _ z]
  exact RCLike.conj_mul _

/-! ## The singular value decomposition -/

/-- Product of a matrix with a vector. -/
def mulv (n : ℕ) (R : ℕ → ℕ → 𝕜) (z : ℕ → 𝕜) (i : ℕ) : 𝕜 := ∑ k ∈ range n, R i k * z k

theorem mulv_expand (n : ℕ) (R u : ℕ → ℕ → 𝕜) (s : ℕ → ℝ) (v : ℕ → ℕ → 𝕜) (h : IsSvd n R u s v) (z : ℕ → 𝕜) (i : ℕ) (hi : i < n) :
    mulv n R z i = ∑ j ∈ range n, u i j * ((s j : 𝕜) * dotc n (fun k => v k j) z) := by
  unfold mulv
  have : ∀ k ∈ range n, R i k * z k = ∑ j ∈ range n, R i k * v k j * dotc n (fun k => v k j) z := by
    intro k hk
    conv_lhs => rw [expand_columns n v h.right z k (mem_range.1 hk)]
    rw [mul_sum]
    refine sum_congr rfl fun j _ => ?_
    ring
  rw [sum_congr rfl this, sum_comm]
  refine sum_congr rfl fun j hj => ?_
  rw [← sum_mul, h.mul i hi j (mem_range.1 hj)]
  ring

/-- The left coefficients of a product. -/
theorem left_coef (n : ℕ) (R u : ℕ → ℕ → 𝕜) (s : ℕ → ℝ) (v : ℕ → ℕ → 𝕜) (h : IsSvd n R u s v) (z : ℕ → 𝕜) (j : ℕ) (hj : j < n) :
    dotc n (fun k => u k j) (mulv n R z) = (s j : 𝕜) * dotc n (fun k => v k j) z := by
  rw [dotc_congr n _ _ _ (fun i hi => mulv_expand n R u s v h z i hi), dotc_sum_right]
  rw [sum_eq_single j]
  · rw [dotc_mul_right]
    have := h.left j hj j hj
    rw [if_pos rfl] at this
    unfold dotc at *
    rw [this, one_mul]
  · intro k hk hne
    rw [dotc_mul_right]
    have := h.left j hj k (mem_range.1 hk)
    rw [if_neg (Ne.symm hne)] at this
    unfold dotc at *
    rw [this, zero_mul]
  · intro h'; exact absurd (mem_range.2 hj) h'

/-- Squared norm of a product. -/
theorem mulv_sq (n : ℕ) (R u : ℕ → ℕ → 𝕜) (s : ℕ → ℝ) (v : ℕ → ℕ → 𝕜) (h : IsSvd n R u s v) (z : ℕ → 𝕜) :
    dotc n (mulv n R z) (mulv n R z) = ((∑ j ∈ range n, s j ^ 2 * ‖dotc n (fun k => v k j) z‖ ^ 2 : ℝ) : 𝕜) := by
  rw [dotc_self n u h.left]
  congr 1
  refine sum_congr rfl fun j hj => ?_
  rw [left_coef n R u s v h z j (mem_range.1 hj), norm_mul, mul_pow, RCLike.norm_ofReal, sq_abs]

/-! ## The basis -/

/-- What holds of the basis, its products and the projected matrix. -/
structure Plain (ip : E → E → 𝕜) (A : E → E) (s : St 𝕜 E) : Prop where
  orth : ∀ i < s.b, ∀ j < s.b, ip (s.V i) (s.V j) = if i = j then 1 else 0
  prod : ∀ i < s.b, s.W i = A (s.V i)
  mass : ∀ i < s.b, s.BV i = s.V i
  proj : ∀ i < s.b, ∀ j < s.b, sym s.H i j = ip (s.V i) (A (s.V j))
  out : ∀ x ∈ s.cons ++ s.locked.map Locked.x, ∀ i < s.b, ip x (s.V i) = 0
  others : Spec.Orthonormal ip id (s.cons ++ s.locked.map Locked.x)
  locked : ∀ p ∈ s.locked, IsRitz ip A id p.x p.value p.res

/-- What holds of the factors. -/
structure Fac (ip : E → E → 𝕜) (s : XSt 𝕜 E) : Prop where
  orth : ∀ i < s.b, ∀ j < s.b, ip (s.Q i) (s.Q j) = if i = j then 1 else 0
  mul : ∀ c < s.b, shifted s.toSt s.tau c = comb s.b s.Q (fun k => s.R k c)

/-- What holds of the coefficient vectors, and of the values that are good. -/
structure Solved (s : St 𝕜 E) (good : ℕ → Prop) : Prop where
  vecs : Columns s.b s.hVecs
  quot : ∀ j < s.b, good j → quad s.b s.H (fun k => s.hVecs k j) (fun k => s.hVecs k j) = s.hVals j

section
variable {ip : E → E → 𝕜} {A : E → E} (hip : IsInner ip) (hA : IsHermitian ip A)
include hip

theorem plain_ip (s : St 𝕜 E) (h : Plain ip A s) (x y : ℕ → 𝕜) : ip (comb s.b s.V x) (comb s.b s.V y) = dotc s.b x y := by
  rw [ip_comb_comb hip]
  unfold dotc
  refine sum_congr rfl fun i hi => ?_
  rw [sum_eq_single i]
  · rw [h.orth i (mem_range.1 hi) i (mem_range.1 hi), if_pos rfl, mul_one]
  · intro j hj hne
    rw [h.orth i (mem_range.1 hi) j (mem_range.1 hj), if_neg (Ne.symm hne), mul_zero, zero_mul]
  · intro h'; exact absurd hi h'

theorem fac_ip (s : XSt 𝕜 E) (h : Fac ip s) (x y : ℕ → 𝕜) : ip (comb s.b s.Q x) (comb s.b s.Q y) = dotc s.b x y := by
  rw [ip_comb_comb hip]
  unfold dotc
  refine sum_congr rfl fun i hi => ?_
  rw [sum_eq_single i]
  · rw [h.orth i (mem_range.1 hi) i (mem_range.1 hi), if_pos rfl, mul_one]
  · intro j hj hne
    rw [h.orth i (mem_range.1 hi) j (mem_range.1 hj), if_neg (Ne.symm hne), mul_zero, zero_mul]
  · intro h'; exact absurd hi h'

theorem plain_out (s : St 𝕜 E) (h : Plain ip A s) (z : E) (hz : z ∈ s.cons ++ s.locked.map Locked.x) (x : ℕ → 𝕜) :
    ip z (comb s.b s.V x) = 0 := by
  rw [ip_comb hip]
  refine sum_eq_zero fun k hk => ?_
  rw [h.out z hz k (mem_range.1 hk), zero_mul]

omit hip in
theorem plain_BV (s : St 𝕜 E) (h : Plain ip A s) (x : ℕ → 𝕜) : comb s.b s.BV x = comb s.b s.V x :=
  comb_congr _ _ _ _ h.mass

include hA

omit hip in
theorem plain_W (s : St 𝕜 E) (h : Plain ip A s) (x : ℕ → 𝕜) : comb s.b s.W x = A (comb s.b s.V x) := by
  rw [A_comb hA]
  exact comb_congr _ _ _ _ h.prod

theorem plain_AV (s : St 𝕜 E) (h : Plain ip A s) (x y : ℕ → 𝕜) :
    ip (comb s.b s.V x) (A (comb s.b s.V y)) = quad s.b s.H x y := by
  rw [A_comb hA, ip_comb_comb hip]
  unfold quad
  refine sum_congr rfl fun i hi => sum_congr rfl fun j hj => ?_
  rw [h.proj i (mem_range.1 hi) j (mem_range.1 hj)]

theorem plain_conj (s : St 𝕜 E) (h : Plain ip A s) (x y : ℕ → 𝕜) : star (quad s.b s.H x y) = quad s.b s.H y x := by
  rw [← plain_AV hip hA s h, ← plain_AV hip hA s h, hip.conj, hA.self]

/-- The quotients computed are the quotients. -/
theorem quotients_eq (s : St 𝕜 E) (h : Plain ip A s) (vecs : ℕ → ℕ → 𝕜) (j : ℕ) :
    quotients s vecs j = quad s.b s.H (fun k => vecs k j) (fun k => vecs k j) := by
  unfold quotients
  exact RCLike.conj_eq_iff_re.1 (plain_conj hip hA s h _ _)

/-- The shifted operator on a vector of the search space. -/
theorem off_comb (s : XSt 𝕜 E) (h : Plain ip A s.toSt) (hf : Fac ip s) (x : ℕ → 𝕜) :
    off (𝕜 := 𝕜) A s.tau (comb s.b s.V x) = comb s.b s.Q (mulv s.b s.R x) := by
  have h1 : off (𝕜 := 𝕜) A s.tau (comb s.b s.V x) = comb s.b (shifted s.toSt s.tau) x := by
    unfold off
    rw [← plain_W hA s.toSt h]
    unfold comb shifted
    rw [smul_sum, ← sum_sub_distrib]
    refine sum_congr rfl fun k _ => ?_
    rw [smul_sub, smul_comm]
  rw [h1, comb_congr _ _ _ _ hf.mul]
  unfold comb mulv
  simp_rw [smul_sum, sum_smul]
  rw [sum_comm]
  refine sum_congr rfl fun k _ => sum_congr rfl fun c _ => ?_
  rw [smul_smul, mul_comm]

theorem off_ip (s : XSt 𝕜 E) (h : Plain ip A s.toSt) (hf : Fac ip s) (x y : ℕ → 𝕜) :
    ip (off (𝕜 := 𝕜) A s.tau (comb s.b s.V x)) (off (𝕜 := 𝕜) A s.tau (comb s.b s.V y)) =
      dotc s.b (mulv s.b s.R x) (mulv s.b s.R y) := by
  rw [off_comb hip hA s h hf, off_comb hip hA s h hf, fac_ip hip s hf]

/-- Every pair offered. -/
theorem offered (s : St 𝕜 E) (h : Plain ip A s) {good : ℕ → Prop} (hs : Solved s good) (j : ℕ) (hj : j < s.b) (hg : good j) :
    IsRitz ip A id (ritz s j) (s.hVals j) (resid s j) := by
  refine ⟨?_, ?_, ?_⟩
  · unfold ritz
    have := hs.vecs j hj j hj
    rw [if_pos rfl] at this
    exact (plain_ip hip s h _ _).trans this
  · unfold ritz; rw [plain_AV hip hA s h, hs.quot j hj hg]
  · unfold resid ritzW ritzBV; rw [plain_W hA s h, plain_BV s h]; rfl

theorem offered_orth (s : St 𝕜 E) (h : Plain ip A s) {good : ℕ → Prop} (hs : Solved s good) (i j : ℕ) (hi : i < s.b) (hj : j < s.b) :
    ip (ritz s i) (ritz s j) = if i = j then 1 else 0 := by
  unfold ritz
  rw [plain_ip hip s h]
  exact hs.vecs i hi j hj

/-! ## Growth -/

theorem plain_expand (s : St 𝕜 E) (h : Plain ip A s) (m : ℕ) (q : ℕ → E) (e : Eig 𝕜)
    (hq : ∀ i < m, ∀ j < m, ip (q i) (q j) = if i = j then 1 else 0) (hqV : ∀ i < s.b, ∀ j < m, ip (s.V i) (q j) = 0)
    (hqo : ∀ x ∈ s.cons ++ s.locked.map Locked.x, ∀ j < m, ip x (q j) = 0) :
    Plain ip A (expand ip A id s m q e) := by
  have hV0 : ∀ i < s.b, (expand ip A id s m q e).V i = s.V i := by
    intro i hi; exact if_neg (by omega)
  have hV1 : ∀ i < m, (expand ip A id s m q e).V (s.b + i) = q i := by
    intro i hi
    have : (expand ip A id s m q e).V (s.b + i) = if s.b ≤ s.b + i ∧ s.b + i < s.b + m then q (s.b + i - s.b) else s.V (s.b + i) := rfl
    rw [this, if_pos (by omega), Nat.add_sub_cancel_left]
  have hcase : ∀ i, i < s.b + m → i < s.b ∨ ∃ k < m, i = s.b + k := by
    intro i hi
    by_cases h1 : i < s.b
    · exact Or.inl h1
    · exact Or.inr ⟨i - s.b, by omega, by omega⟩
  have hW : ∀ i < s.b + m, (expand ip A id s m q e).W i = A ((expand ip A id s m q e).V i) := by
    intro i hi
    rcases hcase i hi with h1 | ⟨k, hk, rfl⟩
    · rw [hV0 i h1, ← h.prod i h1]; exact if_neg (by omega)
    · exact if_pos (by omega)
  have hBV : ∀ i < s.b + m, (expand ip A id s m q e).BV i = (expand ip A id s m q e).V i := by
    intro i hi
    rcases hcase i hi with h1 | ⟨k, hk, rfl⟩
    · rw [hV0 i h1, ← h.mass i h1]; exact if_neg (by omega)
    · exact if_pos (by omega)
  have hH : ∀ i j, i ≤ j → j < s.b + m → (expand ip A id s m q e).H i j =
      ip ((expand ip A id s m q e).V i) (A ((expand ip A id s m q e).V j)) := by
    intro i j hij hj
    by_cases h1 : s.b ≤ j
    · rw [← hW j hj]; exact if_pos ⟨h1, hj, hij⟩
    · have e1 : (expand ip A id s m q e).H i j = s.H i j := if_neg (by omega)
      rw [e1, hV0 i (by omega), hV0 j (by omega), ← h.proj i (by omega) j (by omega)]
      unfold sym; rw [if_pos hij]
  refine ⟨?_, hW, hBV, ?_, ?_, h.others, h.locked⟩
  · intro i hi j hj
    rcases hcase i hi with h1 | ⟨k, hk, rfl⟩ <;> rcases hcase j hj with h2 | ⟨l, hl, rfl⟩
    · rw [hV0 i h1, hV0 j h2]; exact h.orth i h1 j h2
    · rw [hV0 i h1, hV1 l hl, hqV i h1 l hl, if_neg (by omega)]
    · rw [hV1 k hk, hV0 j h2, ← hip.conj, hqV j h2 k hk, star_zero, if_neg (by omega)]
    · rw [hV1 k hk, hV1 l hl, hq k hk l hl]
      by_cases hkl : k = l
      · rw [if_pos hkl, if_pos (by omega)]
      · rw [if_neg hkl, if_neg (by omega)]
  · intro i hi j hj
    by_cases hij : i ≤ j
    · unfold sym; rw [if_pos hij, hH i j hij hj]
    · unfold sym; rw [if_neg hij, hH j i (by omega) hi, hip.conj, hA.self]
  · intro x hx i hi
    rcases hcase i hi with h1 | ⟨k, hk, rfl⟩
    · rw [hV0 i h1]; exact h.out x hx i h1
    · rw [hV1 k hk]; exact hqo x hx k hk

omit hA in
/-- Updating the factors. -/
theorem fac_update (s : XSt 𝕜 E) (b0 m : ℕ) (tau : ℝ) (o : Qr 𝕜 E) (hb : s.b = b0 + m)
    (h1 : ∀ i < b0, ∀ j < b0, ip (s.Q i) (s.Q j) = if i = j then 1 else 0)
    (h2 : ∀ c < b0, shifted s.toSt tau c = comb b0 s.Q (fun k => s.R k c))
    (hq : IsQr ip b0 m s.Q (fun j => shifted s.toSt tau (b0 + j)) o.q o.r) : Fac ip (updateQ s b0 m tau o) := by
  have hQ0 : ∀ i < b0, (updateQ s b0 m tau o).Q i = s.Q i := by
    intro i hi; exact if_neg (by omega)
  have hQ1 : ∀ i < m, (updateQ s b0 m tau o).Q (b0 + i) = o.q i := by
    intro i hi
    have : (updateQ s b0 m tau o).Q (b0 + i) = if b0 ≤ b0 + i ∧ b0 + i < b0 + m then o.q (b0 + i - b0) else s.Q (b0 + i) := rfl
    rw [this, if_pos (by omega), Nat.add_sub_cancel_left]
  have hcase : ∀ i, i < b0 + m → i < b0 ∨ ∃ k < m, i = b0 + k := by
    intro i hi
    by_cases h1 : i < b0
    · exact Or.inl h1
    · exact Or.inr ⟨i - b0, by omega, by omega⟩
  have hR : ∀ k c, (updateQ s b0 m tau o).R k c = if b0 ≤ c ∧ c < b0 + m then o.r k (c - b0)
      else if b0 ≤ k ∧ k < b0 + m ∧ c < b0 then 0 else s.R k c := fun _ _ => rfl
  have hbs : (updateQ s b0 m tau o).b = b0 + m := hb
  constructor
  · intro i hi j hj
    rw [hbs] at hi hj
    rcases hcase i hi with h3 | ⟨k, hk, rfl⟩ <;> rcases hcase j hj with h4 | ⟨l, hl, rfl⟩
    · rw [hQ0 i h3, hQ0 j h4]; exact h1 i h3 j h4
    · rw [hQ0 i h3, hQ1 l hl, hq.old i h3 l hl, if_neg (by omega)]
    · rw [hQ1 k hk, hQ0 j h4, ← hip.conj, hq.old j h4 k hk, star_zero, if_neg (by omega)]
    · rw [hQ1 k hk, hQ1 l hl, hq.orth k hk l hl]
      by_cases hkl : k = l
      · rw [if_pos hkl, if_pos (by omega)]
      · rw [if_neg hkl, if_neg (by omega)]
  · intro c hc
    rw [hbs] at hc ⊢
    change shifted s.toSt tau c = _
    have hsplit : comb (b0 + m) (updateQ s b0 m tau o).Q (fun k => (updateQ s b0 m tau o).R k c) =
        comb b0 s.Q (fun k => (updateQ s b0 m tau o).R k c) +
        ∑ k ∈ range m, (updateQ s b0 m tau o).R (b0 + k) c • o.q k := by
      unfold comb
      rw [sum_range_add]
      congr 1
      · refine sum_congr rfl fun k hk => ?_
        rw [hQ0 k (mem_range.1 hk)]
      · refine sum_congr rfl fun k hk => ?_
        rw [hQ1 k (mem_range.1 hk)]
    rw [hsplit]
    rcases hcase c hc with h3 | ⟨l, hl, rfl⟩
    · rw [h2 c h3]
      have e1 : ∑ k ∈ range m, (updateQ s b0 m tau o).R (b0 + k) c • o.q k = 0 := by
        refine sum_eq_zero fun k hk => ?_
        have := mem_range.1 hk
        rw [hR, if_neg (by omega), if_pos (by omega), zero_smul]
      rw [e1, add_zero]
      unfold comb
      refine sum_congr rfl fun k hk => ?_
      have := mem_range.1 hk
      dsimp only
      rw [hR, if_neg (by omega), if_neg (by omega)]
    · rw [hq.mul l hl]
      unfold comb
      congr 1
      · refine sum_congr rfl fun k hk => ?_
        dsimp only
        rw [hR, if_pos (by omega), Nat.add_sub_cancel_left]
      · refine sum_congr rfl fun k hk => ?_
        rw [hR, if_pos (by omega), Nat.add_sub_cancel_left]

theorem fac_extend (s : XSt 𝕜 E) (h : Plain ip A s.toSt) (hf : Fac ip s) (m : ℕ) (v : ℕ → E) (o : Qr 𝕜 E)
    (hq : IsQr ip s.b m s.Q (fun j => off (𝕜 := 𝕜) A s.tau (v j)) o.q o.r) : Fac ip (extend ip A s m v o) := by
  unfold extend
  refine fac_update hip _ s.b m s.tau o rfl hf.orth ?_ ?_
  · intro c hc
    rw [← hf.mul c hc]
    unfold shifted
    have e1 : (expand ip A id s.toSt m v ⟨s.hVecs, s.hVals⟩).V c = s.V c := if_neg (by omega)
    have e2 : (expand ip A id s.toSt m v ⟨s.hVecs, s.hVals⟩).W c = s.W c := if_neg (by omega)
    rw [e1, e2]
  · refine ⟨hq.orth, hq.old, ?_⟩
    intro j hj
    rw [← hq.mul j hj]
    have e1 : (expand ip A id s.toSt m v ⟨s.hVecs, s.hVals⟩).V (s.b + j) = v j := by
      have : (expand ip A id s.toSt m v ⟨s.hVecs, s.hVals⟩).V (s.b + j) =
        if s.b ≤ s.b + j ∧ s.b + j < s.b + m then v (s.b + j - s.b) else s.V (s.b + j) := rfl
      rw [this, if_pos (by omega), Nat.add_sub_cancel_left]
    have e2 : (expand ip A id s.toSt m v ⟨s.hVecs, s.hVals⟩).W (s.b + j) =
        A ((expand ip A id s.toSt m v ⟨s.hVecs, s.hVals⟩).V (s.b + j)) := if_pos (by omega)
    show shifted (expand ip A id s.toSt m v ⟨s.hVecs, s.hVals⟩) s.tau (s.b + j) = _
    unfold shifted off
    rw [e2, e1]

/-! ## Restart -/

section
variable {s : St 𝕜 E} (h : Plain ip A s) {good : ℕ → Prop} (hs : Solved s good) {r : Result} {nl : ℕ} (hp : Plan r s.b nl) {prev : ℕ → ℕ → 𝕜}
  (hprev : Retained s r prev)
include h hs hp hprev

omit hip hA h in
theorem coef_orth (c c' : ℕ) (hc : c < r.basisSize.toNat + (r.numLocked - nl)) (hc' : c' < r.basisSize.toNat + (r.numLocked - nl)) :
    dotc s.b (newCoef s prev r c) (newCoef s prev r c') = if c = c' then 1 else 0 := by
  by_cases b1 : r.indexPrev.toNat ≤ c ∧ c < r.indexPrev.toNat + r.retained.toNat
  · obtain ⟨m, hm, rfl⟩ : ∃ m < r.retained.toNat, c = r.indexPrev.toNat + m := ⟨c - r.indexPrev.toNat, by omega, by omega⟩
    rw [coef_prev hp m hm]
    by_cases b2 : r.indexPrev.toNat ≤ c' ∧ c' < r.indexPrev.toNat + r.retained.toNat
    · obtain ⟨m', hm', rfl⟩ : ∃ m < r.retained.toNat, c' = r.indexPrev.toNat + m := ⟨c' - r.indexPrev.toNat, by omega, by omega⟩
      rw [coef_prev hp m' hm', hprev.orth m hm m' hm']
      by_cases e : m = m'
      · rw [if_pos e, if_pos (by omega)]
      · rw [if_neg e, if_neg (by omega)]
    · obtain ⟨v, h1, h2, h3, h4, h5⟩ := coef_ritz (s := s) (prev := prev) hp c' hc' b2
      rw [h4, ← dotc_conj, hprev.front m hm v h1 h2, star_zero, if_neg (by rintro rfl; exact b2 b1)]
  · obtain ⟨v, h1, h2, h3, h4, h5⟩ := coef_ritz (s := s) (prev := prev) hp c hc b1
    rw [h4]
    by_cases b2 : r.indexPrev.toNat ≤ c' ∧ c' < r.indexPrev.toNat + r.retained.toNat
    · obtain ⟨m', hm', rfl⟩ : ∃ m < r.retained.toNat, c' = r.indexPrev.toNat + m := ⟨c' - r.indexPrev.toNat, by omega, by omega⟩
      rw [coef_prev hp m' hm', hprev.front m' hm' v h1 h2, if_neg (by rintro rfl; exact b1 b2)]
    · obtain ⟨v', k1, k2, k3, k4, k5⟩ := coef_ritz (s := s) (prev := prev) hp c' hc' b2
      rw [k4]
      have := hs.vecs v h1 v' k1
      unfold dotc
      rw [this]
      by_cases e : c = c'
      · subst e
        rw [h3] at k3
        rw [if_pos (Option.some.inj k3), if_pos rfl]
      · rw [if_neg e, if_neg]
        rintro rfl
        exact e (hp.once c hc c' hc' b1 b2 (by rw [h3, k3]))

/-- The basis after a restart; whatever the eigenpairs. -/
theorem plain_restart (hg : ∀ j < s.b, good j) (e : Eig 𝕜) :
    Plain ip A { Rayleigh.restart s prev r e nl with
                 H := fun i j => quad s.b s.H (newCoef s prev r i) (newCoef s prev r j) } := by
  have hfit := hp.fits
  have hx : ∀ p ∈ newLocked s prev r nl, ∃ t < r.numLocked - nl, p.x = comb s.b s.V (newCoef s prev r (r.basisSize.toNat + t)) := by
    intro p hp'
    unfold newLocked at hp'
    obtain ⟨t, ht, rfl⟩ := List.mem_map.1 hp'
    exact ⟨t, List.mem_range.1 ht, rfl⟩
  refine ⟨?_, ?_, ?_, ?_, ?_, ⟨?_, ?_⟩, ?_⟩
  · intro i hi j hj
    change i < r.basisSize.toNat at hi
    change j < r.basisSize.toNat at hj
    change ip (comb s.b s.V _) (comb s.b s.V _) = _
    rw [plain_ip hip s h]
    exact coef_orth hs hp hprev i j (by omega) (by omega)
  · intro i hi
    exact plain_W hA s h _
  · intro i hi
    exact plain_BV s h _
  · intro i hi j hj
    change i < r.basisSize.toNat at hi
    change j < r.basisSize.toNat at hj
    change sym (fun i j => quad s.b s.H (newCoef s prev r i) (newCoef s prev r j)) i j = ip (comb s.b s.V _) (A (comb s.b s.V _))
    rw [plain_AV hip hA s h]
    unfold sym
    by_cases hij : i ≤ j
    · rw [if_pos hij]
    · rw [if_neg hij, plain_conj hip hA s h]
  · intro x hx' i hi
    change i < r.basisSize.toNat at hi
    change ip x (comb s.b s.V _) = 0
    change x ∈ s.cons ++ (s.locked ++ newLocked s prev r nl).map Locked.x at hx'
    rw [List.map_append, ← List.append_assoc, List.mem_append] at hx'
    rcases hx' with hx' | hx'
    · exact plain_out hip s h x hx' _
    · obtain ⟨p, hp', rfl⟩ := List.mem_map.1 hx'
      obtain ⟨t, ht, e1⟩ := hx p hp'
      rw [e1, plain_ip hip s h, coef_orth hs hp hprev _ _ (by omega) (by omega), if_neg (by omega)]
  · intro x hx'
    change x ∈ s.cons ++ (s.locked ++ newLocked s prev r nl).map Locked.x at hx'
    rw [List.map_append, ← List.append_assoc, List.mem_append] at hx'
    rcases hx' with hx' | hx'
    · exact h.others.1 x hx'
    · obtain ⟨p, hp', rfl⟩ := List.mem_map.1 hx'
      obtain ⟨t, ht, e1⟩ := hx p hp'
      rw [e1, id_eq, plain_ip hip s h, coef_orth hs hp hprev _ _ (by omega) (by omega), if_pos rfl]
  · change (s.cons ++ (s.locked ++ newLocked s prev r nl).map Locked.x).Pairwise _
    rw [List.map_append, ← List.append_assoc, List.pairwise_append]
    refine ⟨h.others.2, ?_, ?_⟩
    · unfold newLocked
      rw [List.map_map, List.pairwise_map]
      refine List.Pairwise.imp_of_mem ?_ List.pairwise_lt_range
      intro a c ha hc hac
      rw [List.mem_range] at ha hc
      change ip (comb s.b s.V _) (comb s.b s.V _) = 0
      rw [plain_ip hip s h, coef_orth hs hp hprev _ _ (by omega) (by omega), if_neg (by omega)]
    · intro x hx' y hy
      obtain ⟨p, hp', rfl⟩ := List.mem_map.1 hy
      obtain ⟨t, ht, e1⟩ := hx p hp'
      rw [e1]
      exact plain_out hip s h x hx' _
  · intro p hp'
    change p ∈ s.locked ++ newLocked s prev r nl at hp'
    rw [List.mem_append] at hp'
    rcases hp' with hp' | hp'
    · exact h.locked p hp'
    · unfold newLocked at hp'
      obtain ⟨t, ht, rfl⟩ := List.mem_map.1 hp'
      rw [List.mem_range] at ht
      obtain ⟨v, h1, h2, h3, h4, h5⟩ := coef_ritz (s := s) (prev := prev) hp (r.basisSize.toNat + t) (by omega) (by omega)
      dsimp only
      rw [h4, h5]
      exact offered hip hA s h hs v h1 (hg v h1)

end

end

end Verif.Extraction
