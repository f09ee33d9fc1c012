import Verif.Proofs.BlockOrthoLoop
import Verif.Proofs.BlockOrthoWitness
import Mathlib.Algebra.Order.BigOperators.Group.Finset
import Mathlib.Tactic.Positivity
import Mathlib.Tactic.NormNum

set_option linter.unusedSectionVars false
set_option linter.unusedSimpArgs false
set_option exponentiation.threshold 4000

/-!
# C49: blocks of new directions keep the search space and its conditioning

With `orth = primme_orth_explicit_I` (the default for `maxBlockSize > 1`) new directions are added to the basis
in blocks.  The basis then spans exactly the old directions and the new ones, the columns kept are independent,
the stored matrix of inner products and its factor are those of the basis, and any basis accepted has
condition number at most three.
-/

namespace Verif.Props
open Verif Finset BlockOrtho

variable {K X : Type} [Field K] [LinearOrder K] [IsStrictOrderedRing K] [AddCommGroup X] [Module K X]

/-- Whatever the kernels compute, every column kept has passed the test on the stored inner products. -/
theorem C49_tested (o : Kern K X) (p : Par K) (locked V : ℕ → X) (G f : ℕ → ℕ → K) (res : Result K X)
    (hb : p.b1 ≤ p.b2) (h : bortho o p locked V G f = .ok res) :
    p.b1 ≤ res.out ∧ res.out ≤ p.b2 ∧ ∀ i, p.b1 ≤ i → i < res.out →
      0 < res.s.G (p.numLocked + i) (p.numLocked + i) ∧ ∀ j < p.numLocked + i,
        |res.s.G j (p.numLocked + i)| ≤ 8 / 10 / (p.maxRank : K) *
          o.sqrt (res.s.G (p.numLocked + i) (p.numLocked + i) * res.s.G j j) := by
  unfold bortho at h
  dsimp only at h
  generalize loop o p locked f 5 0 5 (start V G) = q at h
  have hr := rankFrom_le o p.maxRank q.1.G (p.numLocked + p.b2 - p.nVL) p.nVL
  have hn : p.nVL = p.numLocked + p.b1 := rfl
  cases hu : updateChol o q.1.G f p.nVL (rankEst o q.1.G p.nVL (p.numLocked + p.b2) p.maxRank) with
  | none => rw [hu] at h; cases h
  | some f' =>
    rw [hu] at h
    cases h
    dsimp only
    unfold rankEst
    refine ⟨by omega, by omega, fun i h1 h2 => ?_⟩
    unfold rankEst at h2
    exact rankFrom_ok o p.maxRank q.1.G (p.numLocked + p.b2 - p.nVL) p.nVL (p.numLocked + i) (by omega) (by omega)

/-- Columns that have passed the test form a basis with condition number at most three, `(9/5)/(1/5) = 3²`: no
combination of the normalised columns is much longer or much shorter than its coefficients. -/
theorem C49_conditioned (o : Kern K X) (h : Contract o) (n m : ℕ) (hm : m ≤ n) (G : ℕ → ℕ → K) (v : ℕ → X)
    (hG : ∀ i j, i ≤ j → j < m → G i j = o.ip (v i) (v j))
    (ht : ∀ i < m, 0 < G i i ∧ ∀ j < i, |G j i| ≤ 8 / 10 / (n : K) * o.sqrt (G i i * G j j)) (c : ℕ → K) :
    1 / 5 * ∑ i ∈ range m, c i * c i * o.ip (v i) (v i) ≤
        o.ip (∑ i ∈ range m, c i • v i) (∑ i ∈ range m, c i • v i) ∧
      o.ip (∑ i ∈ range m, c i • v i) (∑ i ∈ range m, c i • v i) ≤
        9 / 5 * ∑ i ∈ range m, c i * c i * o.ip (v i) (v i) := by
  rcases Nat.eq_zero_or_pos m with h0 | h0
  · subst h0
    simp [ip_zero h]
  have hn : (0 : K) < (n : K) := by exact_mod_cast lt_of_lt_of_le h0 hm
  set g := fun i => c i * c i * o.ip (v i) (v i) with hg
  have hgp : ∀ i, 0 ≤ g i := fun i => mul_nonneg (mul_self_nonneg _) (ip_nonneg h _)
  have hpair : ∀ i j, j < i → i < m →
      |c i * c j * o.ip (v i) (v j)| ≤ 4 / 10 / (n : K) * (g i + g j) := by
    intro i j hj hi
    have t := (ht i hi).2 j hj
    rw [hG j i hj.le hi, hG i i le_rfl hi, hG j j le_rfl (by omega), h.symm (v j)] at t
    obtain ⟨s0, s1⟩ := h.sqrt (o.ip (v i) (v i) * o.ip (v j) (v j))
      (mul_nonneg (ip_nonneg h _) (ip_nonneg h _))
    set S := o.sqrt (o.ip (v i) (v i) * o.ip (v j) (v j)) with hS
    rw [abs_mul]
    have am : 2 * (|c i * c j| * S) ≤ g i + g j := by
      have hx : 0 ≤ g i + g j := add_nonneg (hgp i) (hgp j)
      refine abs_le_of_sq_le_sq' ?_ hx |>.2
      have e : (2 * (|c i * c j| * S)) ^ 2 = 4 * (g i * g j) := by
        have : |c i * c j| * |c i * c j| = c i * c j * (c i * c j) := abs_mul_abs_self _
        calc (2 * (|c i * c j| * S)) ^ 2 = 4 * ((|c i * c j| * |c i * c j|) * (S * S)) := by ring
          _ = _ := by rw [this, s1, hg]; ring
      rw [e]
      nlinarith [mul_self_nonneg (g i - g j)]
    calc |c i * c j| * |o.ip (v i) (v j)| ≤ |c i * c j| * (8 / 10 / (n : K) * S) :=
          mul_le_mul_of_nonneg_left t (abs_nonneg _)
      _ = 4 / 10 / (n : K) * (2 * (|c i * c j| * S)) := by ring
      _ ≤ _ := mul_le_mul_of_nonneg_left am (by positivity)
  have hall : ∀ i ∈ range m, ∀ j ∈ range m,
      |c i * c j * o.ip (v i) (v j) - if i = j then g i else 0| ≤ 4 / 10 / (n : K) * (g i + g j) := by
    intro i hi j hj
    have hi := mem_range.1 hi
    have hj := mem_range.1 hj
    rcases Nat.lt_trichotomy i j with q | q | q
    · rw [if_neg (by omega), sub_zero, h.symm, mul_comm (c i), add_comm (g i)]
      exact hpair j i q hj
    · subst q
      rw [if_pos rfl]
      have : c i * c i * o.ip (v i) (v i) - g i = 0 := sub_self _
      rw [this, abs_zero]
      exact mul_nonneg (by positivity) (add_nonneg (hgp i) (hgp i))
    · rw [if_neg (by omega), sub_zero]
      exact hpair i j q hi
  have hsum : o.ip (∑ i ∈ range m, c i • v i) (∑ i ∈ range m, c i • v i) - ∑ i ∈ range m, g i =
      ∑ i ∈ range m, ∑ j ∈ range m, (c i * c j * o.ip (v i) (v j) - if i = j then g i else 0) := by
    rw [ip_sum_left h, ← sum_sub_distrib]
    refine sum_congr rfl fun i hi => ?_
    rw [ip_sum h, sum_sub_distrib, sum_ite_eq (range m) i, if_pos hi, mul_sum]
    congr 1
    exact sum_congr rfl fun j _ => by ring
  have hbound : |o.ip (∑ i ∈ range m, c i • v i) (∑ i ∈ range m, c i • v i) - ∑ i ∈ range m, g i| ≤
      8 / 10 * ∑ i ∈ range m, g i := by
    rw [hsum]
    calc _ ≤ ∑ i ∈ range m, ∑ j ∈ range m, 4 / 10 / (n : K) * (g i + g j) :=
          (abs_sum_le_sum_abs _ _).trans (sum_le_sum fun i hi =>
            (abs_sum_le_sum_abs _ _).trans (sum_le_sum fun j hj => hall i hi j hj))
      _ = 8 / 10 * ((m : K) / (n : K)) * ∑ i ∈ range m, g i := by
          simp only [← mul_sum, sum_add_distrib, sum_const, card_range, nsmul_eq_mul]
          ring
      _ ≤ 8 / 10 * 1 * ∑ i ∈ range m, g i := by
          refine mul_le_mul_of_nonneg_right ?_ (sum_nonneg fun i _ => hgp i)
          refine mul_le_mul_of_nonneg_left ?_ (by norm_num)
          rw [div_le_one hn]
          exact_mod_cast hm
      _ = _ := by ring
  have := abs_le.1 hbound
  constructor <;> linarith [this.1, this.2]

section
variable (o : Kern K X) (h : Contract o) (p : Par K) (locked V : ℕ → X) (G f : ℕ → ℕ → K)
  (he : Entry o p locked V G f) (hn : NoOverflow o p locked V) (res : Result K X)
  (hres : bortho o p locked V G f = .ok res)

include h he hn

/-- The call succeeds when `potrf` does on diagonal matrices with positive diagonal. -/
theorem C49_succeeds (hc : CholDiag o) : ∃ res, bortho o p locked V G f = .ok res :=
  bortho_ok h he hn hc

include hres

/-- The old columns are left alone, and the locked vectors with the columns kept span what the locked vectors and
all the columns given span: no direction is lost and none is made up. -/
theorem C49_span : (∀ j < p.b1, res.s.V j = V j) ∧ p.b1 ≤ res.out ∧ res.out ≤ p.b2 ∧
    spanned p locked res.s.V res.out = spanned p locked V p.b2 := by
  obtain ⟨s0, h1, h2, h3, h4, h5, m, hm, h6, h7, h8, h9⟩ := bortho_spec h he hn res hres
  have hr := he.range
  have hk : p.b1 + p.k = p.b2 := by unfold Par.k; omega
  refine ⟨fun j hj => by rw [h3]; exact h1.keep j (by omega), by omega, by omega, ?_⟩
  rw [← h1.span, h3, h6]
  refine le_antisymm ?_ ?_
  · exact spanned_le _ _ _ _ _ (fun j hj => locked_mem p locked _ _ hj) fun j hj => column_mem p locked _ (by omega)
  · refine spanned_le _ _ _ _ _ (fun j hj => locked_mem p locked _ _ hj) fun j hj => ?_
    by_cases c : j < p.b1 + m
    · exact column_mem p locked _ c
    · have : s0.V j = 0 := by
        have := h8 (j - p.b1) (by omega) (by omega)
        unfold St.new at this
        rwa [show p.b1 + (j - p.b1) = j by omega] at this
      rw [this]
      exact Submodule.zero_mem _

/-- The columns kept are not zero, orthogonal to each other, to the locked vectors and to the old columns. -/
theorem C49_orthogonal (i : ℕ) (h1 : p.b1 ≤ i) (h2 : i < res.out) :
    0 < o.ip (res.s.V i) (res.s.V i) ∧ o.ip (res.s.V i) (res.s.V i) ≤ 1 ∧
      (∀ j < p.numLocked, o.ip (locked j) (res.s.V i) = 0) ∧ ∀ j < res.out, j ≠ i → o.ip (res.s.V j) (res.s.V i) = 0 := by
  obtain ⟨s0, a1, a2, a3, a4, a5, m, hm, a6, a7, a8, a9⟩ := bortho_spec h he hn res hres
  obtain ⟨c, rfl⟩ := Nat.exists_eq_add_of_le h1
  rw [a3]
  refine ⟨a7 c (by omega), a2.le c (by omega), fun j hj => ?_, fun j hj hji => ?_⟩
  · have := a2.old j (by unfold Par.nVL; omega) c (by omega)
    rwa [basis_lt p locked _ hj] at this
  · rcases Nat.lt_or_ge j p.b1 with q | q
    · have := a2.old (p.numLocked + j) (by unfold Par.nVL; omega) c (by omega)
      rwa [basis_add] at this
    · obtain ⟨d, rfl⟩ := Nat.exists_eq_add_of_le q
      exact a2.new d (by omega) c (by omega) (by omega)

/-- The stored matrix is the matrix of inner products of the locked vectors and the columns kept, and the stored
factor is its Cholesky factor: the next call finds what it needs. -/
theorem C49_stored : (∀ i j, i ≤ j → j < p.numLocked + res.out →
      res.s.G i j = o.ip (basis p locked res.s.V i) (basis p locked res.s.V j)) ∧
    IsChol (p.numLocked + res.out) res.f res.s.G := by
  obtain ⟨s0, a1, a2, a3, a4, a5, m, hm, a6, a7, a8, a9⟩ := bortho_spec h he hn res hres
  have hr := he.range
  have hk : p.b1 + p.k = p.b2 := by unfold Par.k; omega
  have hnv : p.nVL = p.numLocked + p.b1 := rfl
  rw [a3, a4, a6, ← Nat.add_assoc]
  refine ⟨fun i j hij hj => ?_, a9⟩
  rcases Nat.lt_or_ge j p.nVL with q | q
  · rw [a1.keepG i j (by omega), he.gram i j hij q]
    have e : ∀ j < p.b1, s0.V j = V j := fun j hj => a1.keep j (by omega)
    rw [basis_congr p locked _ _ e q, basis_congr p locked _ _ e (lt_of_le_of_lt hij q)]
  · obtain ⟨c, rfl⟩ := Nat.exists_eq_add_of_le q
    rw [a1.mid.gram i (by omega) c (by omega)]
    congr 1
    rw [Par.nVL, Nat.add_assoc, basis_add]

/-- When the loop ends because the basis passed the test, the coefficients returned give the columns back,
`input_V = [locked output_V] * [RLocked; R]`, all the columns are kept and their norms are close to one.
Missing: the exit after five turns, see `C49_factor_violated`. -/
theorem C49_factor_partial (hs : res.stopped = true) :
    res.out = p.b2 ∧ (∀ c < p.k, Factors p locked V res.s.V res.s.RL res.s.R res.s.r c) ∧
      ∀ i, p.b1 ≤ i → i < p.b2 → |o.ip (res.s.V i) (res.s.V i) - 1| < 8 / 10 := by
  obtain ⟨s0, a1, a2, a3, a4, a5, m, hm, a6, a7, a8, a9⟩ := bortho_spec h he hn res hres
  obtain ⟨b1, b2, b3⟩ := a5 hs
  refine ⟨b3, fun c hc => by rw [b1]; exact a1.factor c hc, fun i h1 h2 => ?_⟩
  obtain ⟨c, rfl⟩ := Nat.exists_eq_add_of_le h1
  have hc : c < p.k := by unfold Par.k; omega
  have := b2 c hc
  rw [a1.mid.gram _ (by omega) c hc, Par.nVL, Nat.add_assoc, basis_add] at this
  rw [b1]
  exact this

end

/-! ## Examples -/

/-- Three coordinates. -/
abbrev C49_R3 : Type := ℝ × ℝ × ℝ

/-- Inner product with the mass matrix `diag(1,2,3)`. -/
def C49_ip (x y : C49_R3) : ℝ := x.1 * y.1 + 2 * (x.2.1 * y.2.1) + 3 * (x.2.2 * y.2.2)

theorem C49_contract : Contract (realKern C49_R3 C49_ip) := by
  refine realKern_contract _ _ ?_ ?_ ?_ ?_
  · intro v x y; simp only [C49_ip, Prod.fst_add, Prod.snd_add]; ring
  · intro v a x; simp only [C49_ip, Prod.smul_fst, Prod.smul_snd, smul_eq_mul]; ring
  · intro x y; simp only [C49_ip]; ring
  · intro x hx
    by_contra hneg
    apply hx
    simp only [C49_ip, not_lt] at hneg
    have e1 : x.1 = 0 := by nlinarith [mul_self_nonneg x.1, mul_self_nonneg x.2.1, mul_self_nonneg x.2.2]
    have e2 : x.2.1 = 0 := by nlinarith [mul_self_nonneg x.1, mul_self_nonneg x.2.1, mul_self_nonneg x.2.2]
    have e3 : x.2.2 = 0 := by nlinarith [mul_self_nonneg x.1, mul_self_nonneg x.2.1, mul_self_nonneg x.2.2]
    exact Prod.ext e1 (Prod.ext e2 e3)

/-- One locked vector and a block of three columns, the last two parallel up to the locked vector. -/
noncomputable def C49_par : Par ℝ := ⟨1, 0, 3, 4, 1 / 8, 1000⟩

def C49_cols (j : ℕ) : C49_R3 := if j = 0 then (1, 1, 0) else if j = 1 then (0, 0, 1) else (5, 0, 2)

example : ∃ res, bortho (realKern C49_R3 C49_ip) C49_par (fun _ => (2, 0, 0)) C49_cols (fun _ _ => 4) (fun _ _ => 2) =
      .ok res ∧ spanned C49_par (fun _ => (2, 0, 0)) res.s.V res.out =
        spanned C49_par (fun _ => (2, 0, 0)) C49_cols 3 := by
  have he : Entry (realKern C49_R3 C49_ip) C49_par (fun _ => (2, 0, 0)) C49_cols (fun _ _ => 4) (fun _ _ => 2) := by
    refine ⟨by decide, ?_, ?_, ?_, ?_, ?_⟩
    · simp [C49_par]
    · simp [C49_par, Par.k]; norm_num
    · intro i j hij hj
      simp only [Par.nVL, C49_par] at hj
      have : j = 0 := by omega
      have : i = 0 := by omega
      subst_vars
      simp [basis, C49_par, realKern, C49_ip]; norm_num
    · intro i _; norm_num
    · intro i j hij hj
      simp only [Par.nVL, C49_par] at hj
      have : j = 0 := by omega
      have : i = 0 := by omega
      subst_vars
      simp [Par.nVL, C49_par, up]; norm_num
  have hn : NoOverflow (realKern C49_R3 C49_ip) C49_par (fun _ => (2, 0, 0)) C49_cols := by
    refine ⟨by norm_num [C49_par], fun i hi => ?_⟩
    simp only [Par.k, C49_par] at hi
    have : i = 0 ∨ i = 1 ∨ i = 2 := by omega
    rcases this with rfl | rfl | rfl <;> norm_num [basis, C49_par, realKern, C49_ip, C49_cols]
  obtain ⟨res, hres⟩ := C49_succeeds _ C49_contract _ _ _ _ _ he hn (realKern_diag _ _)
  exact ⟨res, hres, (C49_span _ C49_contract _ _ _ _ _ he hn res hres).2.2.2⟩

/-! ## The exit after five turns -/

/-- Vectors with one coordinate. -/
noncomputable def C49_line : Kern ℝ ℝ := realKern ℝ (fun x y => x * y)

theorem C49_line_contract : Contract C49_line := by
  refine realKern_contract _ _ (fun v x y => mul_add v x y) (fun v a x => ?_) (fun x y => mul_comm x y) (fun x hx => ?_)
  · simp only [smul_eq_mul]; ring
  · exact mul_self_pos.2 hx

/-- A block of four columns with the machine precision of doubles. -/
noncomputable def C49_four : Par ℝ := ⟨0, 0, 4, 4, (1 / 2) ^ 52, 2 ^ 1000⟩

theorem C49_four_k : C49_four.k = 4 := rfl
theorem C49_four_n : C49_four.nVL = 0 := rfl

/-- Columns `x, 0, 0, 0`, and what a turn leaves for the next one. -/
structure C49_Tiny (x t : ℝ) (s : St ℝ ℝ) : Prop where
  V : ∀ j < 4, s.V j = if j = 0 then x else 0
  r : s.r 0 0 = t
  yortho : s.yortho = true
  Y : ∀ i < 4, ∀ j < 4, s.Y i j = if i = j then 2 ^ 26 else 0
  D : ∀ i < 4, s.D i = (1 / 2) ^ 25

theorem C49_gram_tiny {x : ℝ} {s : St ℝ ℝ} (hV : ∀ j < 4, s.V j = if j = 0 then x else 0) (i : ℕ) (hi : i < 4) (j : ℕ)
    (hj : j < 4) : (gram C49_line C49_four (fun _ => 0) s).G i j = if i = 0 ∧ j = 0 then x * x else 0 := by
  show (if _ then _ else _) = _
  rw [if_pos (by rw [C49_four_n]; simp only [C49_four]; omega)]
  show basis C49_four (fun _ => 0) s.V i * s.V (j - 0) = _
  have e := basis_add C49_four (fun _ => (0 : ℝ)) s.V i
  rw [show C49_four.numLocked + i = i from Nat.zero_add i] at e
  rw [e, Nat.sub_zero, hV i hi, hV j hj]
  by_cases c1 : i = 0 <;> by_cases c2 : j = 0 <;> simp [c1, c2]

theorem C49_rank_tiny {G : ℕ → ℕ → ℝ} (h1 : G 1 1 = 0) :
    rankEst C49_line G C49_four.nVL (C49_four.numLocked + C49_four.b2) C49_four.maxRank ≠
      C49_four.numLocked + C49_four.b2 := by
  intro h
  have := rankFrom_ok C49_line C49_four.maxRank G 4 0 1 (by omega) (by
    have : rankFrom C49_line C49_four.maxRank G 4 0 = 4 := h
    omega)
  have h2 := this.1
  rw [h1] at h2
  exact lt_irrefl _ h2

theorem C49_reduce_tiny {x t : ℝ} (f : ℕ → ℕ → ℝ) {s : St ℝ ℝ} (hV : ∀ j < 4, s.V j = if j = 0 then x else 0)
    (hr : s.r 0 0 = t) (hG : ∀ i < 4, ∀ j < 4, s.G i j = if i = 0 ∧ j = 0 then x * x else 0)
    (hx : x * x ≤ (1 / 2) ^ 102) : C49_Tiny x ((1 / 2) ^ 51 * t) (reduce C49_line C49_four f s) := by
  have hov : overflow C49_four s.G C49_four.k = s.G := by
    refine overflow_none _ _ _ fun i hi => ?_
    rw [C49_four_k] at hi
    rw [C49_four_n, Nat.zero_add, hG i hi i hi]
    show _ < (2 : ℝ) ^ 1000
    split_ifs
    · exact hx.trans_lt (by norm_num)
    · positivity
  have hsch : ∀ i < 4, ∀ j < 4, schur C49_four f s.G i j = if i = 0 ∧ j = 0 then x * x else 0 := by
    intro i hi j hj
    rw [schur, C49_four_n, sum_range_zero, sub_zero, Nat.zero_add, Nat.zero_add, hG i hi j hj]
  have hsc : ∀ i < 4, scale C49_line C49_four f s.G i = (1 / 2) ^ 26 := by
    intro i hi
    have : max |schur C49_four f s.G i i| C49_four.eps = ((1 / 2 : ℝ) ^ 26) ^ 2 := by
      rw [hsch i hi i hi]
      have e : C49_four.eps = ((1 / 2 : ℝ) ^ 26) ^ 2 := by
        show (1 / 2 : ℝ) ^ 52 = _
        norm_num
      rw [e]
      refine max_eq_right ?_
      split_ifs
      · rw [abs_mul_self]
        exact hx.trans (by norm_num)
      · rw [abs_zero]; positivity
    rw [scale, this]
    exact Real.sqrt_sq (by positivity)
  have hsd : ∀ i < 4, ∀ j < 4, i ≤ j → scaled C49_line C49_four f s.G i j =
      if i = 0 ∧ j = 0 then x * x * 2 ^ 52 else 0 := by
    intro i hi j hj hij
    rw [scaled, if_pos hij, hsch i hi j hj, hsc i hi, hsc j hj]
    split_ifs
    · rw [div_eq_mul_inv]; norm_num
    · rw [zero_div]
  have hch : C49_line.chol C49_four.k (scaled C49_line C49_four f s.G) = none := by
    refine dif_neg ?_
    rintro ⟨U, h1, h2⟩
    have h3 := h2 1 1 (Nat.le_refl _) (by decide)
    rw [hsd 1 (by omega) 1 (by omega) (Nat.le_refl _), if_neg (by omega)] at h3
    have h4 := (sum_eq_zero_iff_of_nonneg (fun l _ => mul_self_nonneg (up U l 1))).1 h3 1 (by decide)
    exact h1 1 (by decide) (by simpa [up] using h4)
  have hdd : DiagDesc C49_four.k (scaled C49_line C49_four f s.G) := by
    refine ⟨fun i j hij hj => ?_, fun i j hij hj => ?_⟩
    · rw [C49_four_k] at hj
      rw [hsd i (by omega) j hj hij.le, if_neg (by omega)]
    · rw [C49_four_k] at hj
      rw [hsd i (by omega) i (by omega) (Nat.le_refl _), hsd j hj j hj (Nat.le_refl _)]
      split_ifs
      · exact le_rfl
      · omega
      · exact mul_nonneg (mul_self_nonneg x) (by positivity)
      · exact le_rfl
  have heig : C49_line.eig C49_four.k (scaled C49_line C49_four f s.G) =
      (fun i j => if i = j then 1 else 0, fun i => scaled C49_line C49_four f s.G i i) := if_pos hdd
  have hD : ∀ i < 4, Real.sqrt (max (scaled C49_line C49_four f s.G i i) (C49_four.eps * (C49_four.k : ℝ))) =
      (1 / 2) ^ 25 := by
    intro i hi
    have : max (scaled C49_line C49_four f s.G i i) (C49_four.eps * (C49_four.k : ℝ)) = ((1 / 2 : ℝ) ^ 25) ^ 2 := by
      rw [hsd i hi i hi (Nat.le_refl _)]
      have e : C49_four.eps * (C49_four.k : ℝ) = ((1 / 2 : ℝ) ^ 25) ^ 2 := by
        show (1 / 2 : ℝ) ^ 52 * ((4 : ℕ) : ℝ) = _
        norm_num
      rw [e]
      refine max_eq_right ?_
      split_ifs
      · have : x * x * 2 ^ 52 ≤ (1 / 2) ^ 102 * 2 ^ 52 := mul_le_mul_of_nonneg_right hx (by positivity)
        exact this.trans (by norm_num)
      · positivity
    rw [this]
    exact Real.sqrt_sq (by positivity)
  refine ⟨hV, ?_, ?_, ?_, ?_⟩
  · simp only [reduce, hov, decomp, hch, heig, if_true]
    rw [C49_four_k]
    simp only [ite_mul, one_mul, zero_mul]
    rw [sum_ite_eq' (range 4) 0, if_pos (by decide), hr, hsc 0 (by omega)]
    have := hD 0 (by omega)
    rw [C49_four_k] at this
    show Real.sqrt _ * _ = _
    rw [this]
    ring
  · simp only [reduce, hov, decomp, hch]
  · intro i hi j hj
    simp only [reduce, hov, decomp, hch, heig, if_true]
    rw [hsc i hi]
    split_ifs
    · norm_num
    · rw [zero_div]
  · intro i hi
    simp only [reduce, hov, decomp, hch, heig]
    exact hD i hi

theorem C49_apply_tiny {x t : ℝ} {s : St ℝ ℝ} (hs : C49_Tiny x t s) (j : ℕ) (hj : j < 4) :
    (apply C49_four (fun _ => 0) s).V j = if j = 0 then 2 ^ 51 * x else 0 := by
  have e := apply_V C49_four (fun _ => (0 : ℝ)) s (c := j) (by rw [C49_four_k]; exact hj)
  rw [show C49_four.b1 + j = j from Nat.zero_add j] at e
  have hp : ∀ i < 4, project C49_four (fun _ => (0 : ℝ)) s i = if i = 0 then x else 0 := by
    intro i hi
    have e := project_eq C49_four (fun _ => (0 : ℝ)) s i
    rw [C49_four_n, sum_range_zero, sub_zero, show C49_four.b1 + i = i from Nat.zero_add i, hs.V i hi] at e
    exact e
  rw [e, columns, hs.yortho, if_pos rfl, C49_four_k]
  have : ∀ i ∈ range 4, (s.Y i j * (1 / s.D j)) • project C49_four (fun _ => (0 : ℝ)) s i =
      if i = j then (if j = 0 then 2 ^ 51 * x else 0) else 0 := by
    intro i hi
    have hi := mem_range.1 hi
    rw [hs.Y i hi j hj, hs.D j hj, hp i hi, smul_eq_mul]
    by_cases c : i = j
    · subst c
      rw [if_pos rfl, if_pos rfl]
      split_ifs
      · norm_num
      · rw [mul_zero]
    · rw [if_neg c, if_neg c, zero_mul, zero_mul]
  rw [sum_congr rfl this, sum_ite_eq' (range 4) j, if_pos (mem_range.2 hj)]

theorem C49_turn_tiny {x t : ℝ} (f : ℕ → ℕ → ℝ) {s : St ℝ ℝ} (hs : C49_Tiny x t s) (cnt its plus1 : ℕ) (hi : its ≠ 0)
    (hx : 2 ^ 51 * x * (2 ^ 51 * x) ≤ (1 / 2) ^ 102) :
    ∃ s', C49_Tiny (2 ^ 51 * x) ((1 / 2) ^ 51 * t) s' ∧
      loop C49_line C49_four (fun _ => 0) f (cnt + 1) its plus1 s =
        loop C49_line C49_four (fun _ => 0) f cnt (its + 1) plus1 s' ∧
      ∀ i < 4, ∀ j < 4, s'.G i j = if i = 0 ∧ j = 0 then 2 ^ 51 * x * (2 ^ 51 * x) else 0 := by
  have hG := fun i hi j hj => C49_gram_tiny (s := apply C49_four (fun _ => 0) s) (x := 2 ^ 51 * x)
    (fun j hj => C49_apply_tiny hs j hj) i hi j hj
  refine ⟨reduce C49_line C49_four f (gram C49_line C49_four (fun _ => 0) (apply C49_four (fun _ => 0) s)),
    C49_reduce_tiny f (fun j hj => C49_apply_tiny hs j hj) hs.r hG hx, ?_, ?_⟩
  · rw [loop, if_neg hi]
    rw [if_neg (C49_rank_tiny (by rw [hG 1 (by omega) 1 (by omega)]; simp))]
  · intro i hi j hj
    show overflow C49_four _ C49_four.k i j = _
    rw [overflow_none, hG i hi j hj]
    intro i hi
    rw [C49_four_k] at hi
    rw [C49_four_n, Nat.zero_add, hG i hi i hi]
    show _ < (2 : ℝ) ^ 1000
    split_ifs
    · exact hx.trans_lt (by norm_num)
    · positivity

/-- With doubles, a block made of a column of length `2^-300` and three zero columns: the call succeeds, keeps the
first column, but with length `2^-96` instead of one, and the coefficients returned give back a column of length
`2^-351`: the last turn went into the coefficients and not into the columns. -/
theorem C49_factor_violated : ∃ (p : Par ℝ) (V : ℕ → ℝ) (res : Result ℝ ℝ),
    Entry C49_line p (fun _ => 0) V (fun _ _ => 0) (fun _ _ => 0) ∧ NoOverflow C49_line p (fun _ => 0) V ∧
      bortho C49_line p (fun _ => 0) V (fun _ _ => 0) (fun _ _ => 0) = .ok res ∧ res.out = p.b1 + 1 ∧
      C49_line.ip (res.s.V p.b1) (res.s.V p.b1) < (1 / 2) ^ 100 ∧
      ¬ Factors p (fun _ => 0) V res.s.V res.s.RL res.s.R res.s.r 0 := by
  let V : ℕ → ℝ := fun j => if j = 0 then (1 / 2) ^ 300 else 0
  have he : Entry C49_line C49_four (fun _ => 0) V (fun _ _ => 0) (fun _ _ => 0) := by
    refine ⟨by decide, ?_, ?_, fun i j _ hj => ?_, fun i hi => ?_, fun i j _ hj => ?_⟩
    · show (0 : ℝ) < (1 / 2) ^ 52; positivity
    · show (1 / 2 : ℝ) ^ 52 * ((4 : ℕ) : ℝ) ≤ 1; norm_num
    · exact absurd hj (Nat.not_lt_zero _)
    · exact absurd hi (Nat.not_lt_zero _)
    · exact absurd hj (Nat.not_lt_zero _)
  have hV : ∀ j < 4, (start (K := ℝ) V (fun _ _ => 0)).V j = if j = 0 then (1 / 2) ^ 300 else 0 := fun _ _ => rfl
  have hG0 := fun i hi j hj => C49_gram_tiny hV i hi j hj
  have hn : NoOverflow C49_line C49_four (fun _ => 0) V := by
    refine ⟨?_, fun i hi => ?_⟩
    · show (1 : ℝ) < 2 ^ 1000; norm_num
    · rw [C49_four_k] at hi
      have e := hG0 i hi i hi
      have e2 : (gram C49_line C49_four (fun _ => 0) (start V (fun _ _ => 0))).G i i =
          C49_line.ip (basis C49_four (fun _ => 0) V i) (V (i - 0)) :=
        if_pos (by rw [C49_four_n]; simp only [C49_four]; omega)
      rw [Nat.sub_zero] at e2
      rw [show C49_four.b1 + i = i from Nat.zero_add i, ← e2, e]
      show _ < (2 : ℝ) ^ 1000
      split_ifs
      · norm_num
      · positivity
  obtain ⟨res, hres⟩ := C49_succeeds _ C49_line_contract _ _ _ _ _ he hn (realKern_diag _ _)
  have h0 : loop C49_line C49_four (fun _ => 0) (fun _ _ => 0) 5 0 5 (start V (fun _ _ => 0)) =
      loop C49_line C49_four (fun _ => 0) (fun _ _ => 0) 4 1 5
        (reduce C49_line C49_four (fun _ _ => 0) (gram C49_line C49_four (fun _ => 0) (start V (fun _ _ => 0)))) := by
    rw [loop, if_pos rfl]
    rw [if_neg (C49_rank_tiny (by rw [hG0 1 (by omega) 1 (by omega)]; simp))]
  have t0 := C49_reduce_tiny (t := 1) (fun _ _ => 0) (s := gram C49_line C49_four (fun _ => 0) (start V (fun _ _ => 0)))
    hV (by show (if (0 : ℕ) = 0 then (1 : ℝ) else 0) = 1; rw [if_pos rfl]) hG0 (by norm_num)
  obtain ⟨s1, t1, l1, _⟩ := C49_turn_tiny (fun _ _ => 0) t0 3 1 5 (by omega) (by norm_num)
  obtain ⟨s2, t2, l2, _⟩ := C49_turn_tiny (fun _ _ => 0) t1 2 2 5 (by omega) (by norm_num)
  obtain ⟨s3, t3, l3, _⟩ := C49_turn_tiny (fun _ _ => 0) t2 1 3 5 (by omega) (by norm_num)
  obtain ⟨s4, t4, l4, g4⟩ := C49_turn_tiny (fun _ _ => 0) t3 0 4 5 (by omega) (by norm_num)
  have hl : loop C49_line C49_four (fun _ => 0) (fun _ _ => 0) 5 0 5 (start V (fun _ _ => 0)) = (s4, false) := by
    rw [h0, l1, l2, l3, l4, loop]
  have hs : res.s = s4 ∧ res.out = rankEst C49_line s4.G 0 4 4 := by
    have hres' := hres
    unfold bortho at hres'
    rw [hl] at hres'
    dsimp only at hres'
    cases hu : updateChol C49_line s4.G (fun _ _ => 0) C49_four.nVL
      (rankEst C49_line s4.G C49_four.nVL (C49_four.numLocked + C49_four.b2) C49_four.maxRank) with
    | none => rw [hu] at hres'; cases hres'
    | some f' => rw [hu] at hres'; cases hres'; exact ⟨rfl, rfl⟩
  refine ⟨C49_four, V, res, he, hn, hres, ?_, ?_, ?_⟩
  · rw [hs.2]
    refine rankFrom_eq C49_line 4 s4.G 4 0 1 (by omega) (fun c hc => ?_) fun _ hcol => ?_
    · have : c = 0 := by omega
      subst this
      refine ⟨?_, fun j hj => absurd hj (Nat.not_lt_zero _)⟩
      rw [Nat.add_zero, g4 0 (by omega) 0 (by omega), if_pos ⟨rfl, rfl⟩]
      positivity
    · have := hcol.1
      rw [Nat.zero_add, g4 1 (by omega) 1 (by omega)] at this
      simp at this
  · rw [hs.1]
    show s4.V 0 * s4.V 0 < _
    rw [t4.V 0 (by omega), if_pos rfl]
    norm_num
  · rw [hs.1]
    unfold Factors
    rw [show C49_four.numLocked = 0 from rfl, show C49_four.b1 = 0 from rfl, C49_four_k]
    simp only [sum_range_succ, sum_range_zero, zero_add, Nat.zero_add, t4.V 0 (by omega), t4.V 1 (by omega),
      t4.V 2 (by omega), t4.V 3 (by omega), t4.r, smul_eq_mul]
    show ¬ ((1 / 2 : ℝ) ^ 300 = _)
    norm_num

/-- The test for overflow looks at the inner product of new column `i` with the `i`-th vector of the whole basis,
not with itself: a new column whose norm is beyond the largest number goes unnoticed. -/
theorem C49_overflow_violated : ∃ (p : Par ℚ) (G : ℕ → ℕ → ℚ), p.b1 < p.b2 ∧
    p.top ≤ G (p.nVL + 0) (p.nVL + 0) ∧ overflow p G p.k = G :=
  ⟨⟨1, 0, 1, 2, 1 / 8, 100⟩, fun i j => if i = 1 ∧ j = 1 then 1000 else 0, by decide, by decide +kernel,
    overflow_none _ _ _ fun i hi => by
      have : i = 0 := by simp only [Par.k] at hi; omega
      subst this
      decide +kernel⟩

end Verif.Props
