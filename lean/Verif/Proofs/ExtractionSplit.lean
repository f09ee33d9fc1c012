import Verif.Proofs.ExtractionKeep

set_option linter.unusedSectionVars false
set_option linter.unusedSimpArgs false
set_option linter.unusedVariables false

namespace Verif.Extraction
open Finset Verif Verif.Spec Verif.Rayleigh Verif.Restart

variable {𝕜 E : Type} [RCLike 𝕜] [AddCommGroup E] [Module 𝕜 E]

/-! ## Singular vectors of a matrix with two blocks -/

/-- Part of a singular vector of a matrix with blocks. -/
theorem part_sq (n : ℕ) (M u : ℕ → ℕ → 𝕜) (s : ℕ → ℝ) (v : ℕ → ℕ → 𝕜) (h : IsSvd n M u s v) (P : ℕ → Prop) [DecidablePred P]
    (hM : ∀ a < n, ∀ b < n, ¬ (P a ↔ P b) → M a b = 0) (j : ℕ) (hj : j < n) :
    dotc n (mulv n M (fun i => if P i then v i j else 0)) (mulv n M (fun i => if P i then v i j else 0)) =
      ((s j : 𝕜) * (s j : 𝕜)) * dotc n (fun i => if P i then v i j else 0) (fun i => if P i then v i j else 0) := by
  have hrow : ∀ i < n, mulv n M (fun i => if P i then v i j else 0) i = if P i then mulv n M (fun i => v i j) i else 0 := by
    intro i hi
    by_cases c : P i
    · rw [if_pos c]
      unfold mulv
      refine sum_congr rfl fun l hl => ?_
      dsimp only
      by_cases c2 : P l
      · rw [if_pos c2]
      · rw [hM i hi l (mem_range.1 hl) (by tauto), zero_mul, zero_mul]
    · rw [if_neg c]
      unfold mulv
      refine sum_eq_zero fun l hl => ?_
      dsimp only
      by_cases c2 : P l
      · rw [hM i hi l (mem_range.1 hl) (by tauto), zero_mul]
      · rw [if_neg c2, mul_zero]
  have h1 : dotc n (mulv n M (fun i => if P i then v i j else 0)) (mulv n M (fun i => if P i then v i j else 0)) =
      dotc n (mulv n M (fun i => if P i then v i j else 0)) (mulv n M (fun i => v i j)) := by
    unfold dotc
    refine sum_congr rfl fun i hi => ?_
    rw [hrow i (mem_range.1 hi)]
    by_cases c : P i
    · rw [if_pos c]
    · rw [if_neg c, star_zero, zero_mul, zero_mul]
  have h2 : dotc n (mulv n M (fun i => if P i then v i j else 0)) (mulv n M (fun i => v i j)) =
      dotc n (mulv n M (fun i => if P i then v i j else 0)) (fun k => u k j) * (s j : 𝕜) := by
    rw [← dotc_mul_right]
    refine dotc_congr n _ _ _ fun i hi => ?_
    unfold mulv
    rw [h.mul i hi j hj, mul_comm]
  have h3 : dotc n (fun i => if P i then v i j else 0) (fun k => v k j) =
      dotc n (fun i => if P i then v i j else 0) (fun i => if P i then v i j else 0) := by
    unfold dotc
    refine sum_congr rfl fun i _ => ?_
    by_cases c : P i
    · simp only [if_pos c]
    · simp only [if_neg c, star_zero, zero_mul]
  rw [h1, h2, ← dotc_conj, left_coef n M u s v h _ j hj, star_mul', dotc_conj, h3]
  rw [show star (s j : 𝕜) = (s j : 𝕜) from RCLike.conj_ofReal _]
  ring

theorem dotc_norm (n : ℕ) (x : ℕ → 𝕜) : dotc n x x = ((∑ i ∈ range n, ‖x i‖ ^ 2 : ℝ) : 𝕜) := by
  unfold dotc
  push_cast
  refine sum_congr rfl fun i _ => ?_
  exact RCLike.conj_mul _

/-- The singular vectors of a matrix with two blocks, one of which has the first singular values, belong to one block each when there is
a gap. -/
theorem split_of_gap (n k : ℕ) (M u : ℕ → ℕ → 𝕜) (s : ℕ → ℝ) (v : ℕ → ℕ → 𝕜) (h : IsSvd n M u s v) (ε γ : ℝ)
    (hord : ∀ i < n, ∀ j < n, i ≤ j → ε * s i ^ 2 ≤ ε * s j ^ 2)
    (hM : ∀ a < n, ∀ b < n, ¬ (a < k ↔ b < k) → M a b = 0)
    (h1 : ∀ x : ℕ → 𝕜, (∀ i < n, ¬ i < k → x i = 0) → ε * RCLike.re (dotc n (mulv n M x) (mulv n M x)) ≤ γ * RCLike.re (dotc n x x))
    (h2 : ∀ x : ℕ → 𝕜, (∀ i < n, i < k → x i = 0) → γ * RCLike.re (dotc n x x) ≤ ε * RCLike.re (dotc n (mulv n M x) (mulv n M x)))
    (hgap : 0 < k → k < n → ε * s (k - 1) ^ 2 < ε * s k ^ 2) :
    ∀ i < n, ∀ j < n, ¬ (i < k ↔ j < k) → v i j = 0 := by
  by_cases hkn : k < n
  swap
  · intro i hi j hj hh; exact absurd ⟨fun _ => by omega, fun _ => by omega⟩ hh
  -- masses
  set a : ℕ → ℝ := fun j => ∑ i ∈ range n, ‖if i < k then v i j else 0‖ ^ 2 with ha
  set c : ℕ → ℝ := fun j => ∑ i ∈ range n, ‖if ¬ i < k then v i j else 0‖ ^ 2 with hc
  have ha0 : ∀ j, 0 ≤ a j := fun j => sum_nonneg fun i _ => by positivity
  have hc0 : ∀ j, 0 ≤ c j := fun j => sum_nonneg fun i _ => by positivity
  have hac : ∀ j < n, a j + c j = 1 := by
    intro j hj
    have e := h.right j hj j hj
    rw [if_pos rfl] at e
    have e2 := dotc_norm n (fun k => v k j)
    unfold dotc at e2
    rw [e] at e2
    have e3 : (∑ i ∈ range n, ‖v i j‖ ^ 2 : ℝ) = 1 := by exact_mod_cast e2.symm
    rw [← e3, ha, hc, ← sum_add_distrib]
    refine sum_congr rfl fun i _ => ?_
    by_cases c : i < k <;> simp [c]
  have hrow : ∀ i < n, ∑ j ∈ range n, ‖v i j‖ ^ 2 = (1 : ℝ) := by
    intro i hi
    have e := rows_of_columns n v h.right i hi i hi
    rw [if_pos rfl] at e
    have e2 : (∑ j ∈ range n, v i j * star (v i j)) = ((∑ j ∈ range n, ‖v i j‖ ^ 2 : ℝ) : 𝕜) := by
      push_cast
      exact sum_congr rfl fun j _ => RCLike.mul_conj _
    rw [e] at e2
    exact_mod_cast e2.symm
  have htot : ∑ j ∈ range n, a j = k := by
    rw [ha, sum_comm]
    have : ∀ i ∈ range n, ∑ j ∈ range n, ‖if i < k then v i j else 0‖ ^ 2 = if i < k then (1 : ℝ) else 0 := by
      intro i hi
      by_cases c : i < k
      · simp only [if_pos c]; exact hrow i (mem_range.1 hi)
      · simp [c]
    rw [sum_congr rfl this, ← sum_filter, sum_const, nsmul_eq_mul, mul_one]
    congr 1
    have : (range n).filter (fun i => i < k) = range k := by
      ext i; rw [mem_filter, mem_range, mem_range]; omega
    rw [this, card_range]
  have hsplit : ∑ j ∈ range k, c j = ∑ j ∈ range (n - k), a (k + j) := by
    have e1 : ∑ j ∈ range n, a j = ∑ j ∈ range k, a j + ∑ j ∈ range (n - k), a (k + j) := by
      rw [← sum_range_add, Nat.add_sub_cancel' (by omega)]
    have e2 : ∑ j ∈ range k, a j + ∑ j ∈ range k, c j = k := by
      rw [← sum_add_distrib, sum_congr rfl (fun j hj => hac j (by have := mem_range.1 hj; omega))]
      simp
    linarith
  -- a value above and one below
  have hlow : ∀ j < n, 0 < a j → ε * s j ^ 2 ≤ γ := by
    intro j hj hpos
    have e := part_sq n M u s v h (fun i => i < k) hM j hj
    have := h1 (fun i => if i < k then v i j else 0) (fun i _ hi => if_neg hi)
    rw [e, dotc_norm, ← RCLike.ofReal_mul, ← RCLike.ofReal_mul, RCLike.ofReal_re, RCLike.ofReal_re, ← mul_assoc] at this
    have e2 := le_of_mul_le_mul_right this hpos
    rw [pow_two]; exact e2
  have hhigh : ∀ j < n, 0 < c j → γ ≤ ε * s j ^ 2 := by
    intro j hj hpos
    have e := part_sq n M u s v h (fun i => ¬ i < k) (fun a ha b hb hh => hM a ha b hb (by tauto)) j hj
    have := h2 (fun i => if ¬ i < k then v i j else 0) (fun i _ hi => if_neg (not_not.2 hi))
    rw [e, dotc_norm, ← RCLike.ofReal_mul, ← RCLike.ofReal_mul, RCLike.ofReal_re, RCLike.ofReal_re, ← mul_assoc] at this
    have e2 := le_of_mul_le_mul_right this hpos
    rw [pow_two]; exact e2
  have hzero : ∑ j ∈ range k, c j = 0 := by
    by_contra hne
    have hne2 : ∑ j ∈ range (n - k), a (k + j) ≠ 0 := by rwa [← hsplit]
    obtain ⟨j1, hj1, p1⟩ := exists_ne_zero_of_sum_ne_zero hne
    obtain ⟨j2, hj2, p2⟩ := exists_ne_zero_of_sum_ne_zero hne2
    have hj1 := mem_range.1 hj1
    have hj2 := mem_range.1 hj2
    have q1 := hhigh j1 (by omega) (lt_of_le_of_ne (hc0 j1) (Ne.symm p1))
    have q2 := hlow (k + j2) (by omega) (lt_of_le_of_ne (ha0 _) (Ne.symm p2))
    have q3 := hord j1 (by omega) (k - 1) (by omega) (by omega)
    have q4 := hord k (by omega) (k + j2) (by omega) (by omega)
    have q5 := hgap (by omega) hkn
    linarith
  intro i hi j hj hh
  by_cases cj : j < k
  · have e := (sum_eq_zero_iff_of_nonneg (fun j _ => hc0 j)).1 hzero j (mem_range.2 cj)
    have e2 := (sum_eq_zero_iff_of_nonneg (fun i _ => by positivity)).1 e i (mem_range.2 hi)
    rw [if_pos (show ¬ i < k by tauto)] at e2
    exact norm_eq_zero.1 (pow_eq_zero_iff (by norm_num) |>.1 e2)
  · rw [hsplit] at hzero
    have e := (sum_eq_zero_iff_of_nonneg (fun j _ => ha0 _)).1 hzero (j - k) (mem_range.2 (by omega))
    rw [Nat.add_sub_cancel' (by omega)] at e
    have e2 := (sum_eq_zero_iff_of_nonneg (fun i _ => by positivity)).1 e i (mem_range.2 hi)
    rw [if_pos (show i < k by tauto)] at e2
    exact norm_eq_zero.1 (pow_eq_zero_iff (by norm_num) |>.1 e2)

/-! ## The two blocks of a restart that keeps the factors -/

/-- One way or the other. -/
def sign (closest : Bool) : ℝ := if closest then 1 else -1

/-- Values in the order of the target: ascending for the targets closest to a shift, descending for the others. -/
def Graded (closest : Bool) (n : ℕ) (s : ℕ → ℝ) : Prop :=
  ∀ i < n, ∀ j < n, i ≤ j → sign closest * s i ^ 2 ≤ sign closest * s j ^ 2

theorem graded_reversed (closest : Bool) (n : ℕ) (sv : ℕ → ℝ) (h0 : ∀ j < n, 0 ≤ sv j) (h : Descending n sv) :
    Graded closest n (fun j => sv (reversed closest n j)) := by
  intro i hi j hj hij
  unfold sign reversed
  cases closest
  · simp only [Bool.false_eq_true, if_false]
    have := pow_le_pow_left₀ (h0 j hj) (h i hi j hj hij) 2
    linarith
  · simp only [if_true]
    have := pow_le_pow_left₀ (h0 (n - 1 - i) (by omega)) (h (n - 1 - j) (by omega) (n - 1 - i) (by omega) (by omega)) 2
    linarith

theorem ascending_of_graded (n : ℕ) (s : ℕ → ℝ) (h0 : ∀ j < n, 0 ≤ s j) (h : Graded true n s) : Ascending n s := by
  intro i hi j hj hij
  have := h i hi j hj hij
  simp only [sign, if_true, one_mul] at this
  exact (pow_le_pow_iff_left₀ (h0 i hi) (h0 j hj) (by norm_num)).1 this

section
variable {s : XSt 𝕜 E} {r : Result} {nl : ℕ} (hp : Plan r s.b nl) (ht : Tail r) {prev : ℕ → ℕ → 𝕜}
include hp ht

omit hp in
theorem keepR_block (o : Keep 𝕜) (ho : KeepOk s r prev o) (hx : (s.arb : Int) ≤ r.indexPrev0) (k : ℕ) (h1 : newArb s r ≤ k)
    (h2 : k ≤ Extraction.regular r) (i j : ℕ) (hh : ¬ (i < k ↔ j < k)) : keepR s r o i j = 0 := by
  obtain ⟨n1, n2⟩ := newArb_spec (s := s) ht
  unfold keepR
  by_cases c : j < Extraction.regular r
  · rw [if_pos c]
    by_cases c2 : newArb s r ≤ j
    · have := n2 j c
      rw [if_pos ⟨c2, by omega⟩, if_neg (by rintro rfl; exact hh Iff.rfl)]
    · rw [if_neg (fun h => c2 h.1)]
      by_cases c3 : i < Extraction.regular r
      · rw [if_pos c3]
        exact ho.upper j c i c3 (by omega)
      · rw [if_neg c3]
  · rw [if_neg c, if_pos ⟨hx, by omega⟩]

/-- The product with a combination of the new coefficient vectors. -/
theorem keep_norm (v : ℕ → ℕ → 𝕜) (hr : Rot s v) (hv : Columns s.b s.hVecs) (o : Keep 𝕜) (ho : KeepOk s r prev o)
    (hret : Retained s.toSt r prev) (x : ℕ → 𝕜) :
    dotc r.basisSize.toNat (mulv r.basisSize.toNat (keepR s r o) x) (mulv r.basisSize.toNat (keepR s r o) x) =
      dotc s.b (mulv s.b s.R (fun l => ∑ i ∈ range r.basisSize.toNat, newCoef s.toSt prev r (place r i) l * x i))
        (mulv s.b s.R (fun l => ∑ i ∈ range r.basisSize.toNat, newCoef s.toSt prev r (place r i) l * x i)) ∧
    dotc r.basisSize.toNat x x = dotc s.b (fun l => ∑ i ∈ range r.basisSize.toNat, newCoef s.toSt prev r (place r i) l * x i)
      (fun l => ∑ i ∈ range r.basisSize.toNat, newCoef s.toSt prev r (place r i) l * x i) := by
  constructor
  · have e1 : ∀ l < s.b, mulv s.b s.R (fun l => ∑ i ∈ range r.basisSize.toNat, newCoef s.toSt prev r (place r i) l * x i) l =
        ∑ k ∈ range r.basisSize.toNat, keepU s r o l k * mulv r.basisSize.toNat (keepR s r o) x k := by
      intro l hl
      have e2 : mulv s.b s.R (fun l => ∑ i ∈ range r.basisSize.toNat, newCoef s.toSt prev r (place r i) l * x i) l =
          ∑ i ∈ range r.basisSize.toNat, mulv s.b s.R (newCoef s.toSt prev r (place r i)) l * x i := by
        unfold mulv
        simp_rw [mul_sum, sum_mul]
        rw [sum_comm]
        refine sum_congr rfl fun i _ => sum_congr rfl fun k _ => ?_
        ring
      rw [e2, sum_congr rfl (fun i hi => by rw [keep_columns hp ht v hr hv o ho hret i (mem_range.1 hi) l hl, sum_mul]), sum_comm]
      refine sum_congr rfl fun k _ => ?_
      unfold mulv
      rw [mul_sum]
      refine sum_congr rfl fun i _ => ?_
      ring
    rw [dotc_congr _ _ _ _ e1, dotc_congr_left _ _ _ _ e1, dotc_comb_left]
    unfold dotc
    refine sum_congr rfl fun k hk => ?_
    congr 1
    have : dotc s.b (fun l => keepU s r o l k) (fun l => ∑ k ∈ range r.basisSize.toNat, keepU s r o l k * mulv r.basisSize.toNat (keepR s r o) x k) =
        mulv r.basisSize.toNat (keepR s r o) x k := by
      rw [dotc_comb_right, sum_eq_single k]
      · rw [keepU_orth hp ht v hr o ho k k (mem_range.1 hk) (mem_range.1 hk), if_pos rfl, one_mul]
      · intro k' hk' hne
        rw [keepU_orth hp ht v hr o ho k k' (mem_range.1 hk) (mem_range.1 hk'), if_neg (Ne.symm hne), zero_mul]
      · intro h'; exact absurd hk h'
    exact this.symm
  · have hcol : ∀ i < r.basisSize.toNat, ∀ j < r.basisSize.toNat,
        dotc s.b (newCoef s.toSt prev r (place r i)) (newCoef s.toSt prev r (place r j)) = if i = j then 1 else 0 := by
      intro i hi j hj
      have p1 := (place_lt hp i hi).1
      have p2 := (place_lt hp j hj).1
      rw [coef_orth (good := fun _ => False) ⟨hv, fun _ _ h => h.elim⟩ hp hret _ _ (by omega) (by omega)]
      by_cases e : i = j
      · rw [if_pos e, if_pos (by rw [e])]
      · rw [if_neg e, if_neg (fun h => e (place_inj hp i j hi hj h))]
    rw [dotc_comb_left]
    unfold dotc
    refine sum_congr rfl fun i hi => ?_
    congr 1
    have : dotc s.b (fun l => newCoef s.toSt prev r (place r i) l) (fun l => ∑ i ∈ range r.basisSize.toNat, newCoef s.toSt prev r (place r i) l * x i) = x i := by
      rw [dotc_comb_right, sum_eq_single i]
      · rw [hcol i (mem_range.1 hi) i (mem_range.1 hi), if_pos rfl, one_mul]
      · intro k' hk' hne
        rw [hcol i (mem_range.1 hi) k' (mem_range.1 hk'), if_neg (Ne.symm hne), zero_mul]
      · intro h'; exact absurd hi h'
    exact this.symm

/-- Where the new coefficient vectors are, in terms of the singular vectors. -/
theorem keep_place (v : ℕ → ℕ → 𝕜) (hr : Rot s v) (hv : Columns s.b s.hVecs) (hret : Retained s.toSt r prev)
    (hx : (s.arb : Int) ≤ r.indexPrev0) (k : ℕ) (hk : 0 < k) (h1 : newArb s r ≤ k) (h2 : k ≤ Extraction.regular r) :
    ∃ top, 0 < top ∧ top ≤ s.b ∧
      (∀ i < k, ∀ l < s.b, top ≤ l → dotc s.b (fun a => v a l) (newCoef s.toSt prev r (place r i)) = 0) ∧
      ∀ i < r.basisSize.toNat, k ≤ i → ∀ l < top, dotc s.b (fun a => v a l) (newCoef s.toSt prev r (place r i)) = 0 := by
  obtain ⟨n1, n2⟩ := newArb_spec (s := s) ht
  have hreg := regular_add hp
  have hle := hr.le
  have hvv : ∀ l < s.b, ∀ l' < s.b, dotc s.b (fun a => v a l) (fun a => v a l') = if l = l' then 1 else 0 := hr.svd.right
  have hk1 := keep_regular (prev := prev) hp ht (k - 1) (by omega)
  refine ⟨max s.arb (source r (k - 1) + 1), by omega, by omega, ?_, ?_⟩
  · intro i hi l hl hl2
    rw [(keep_regular (prev := prev) hp ht i (by omega)).2.2.1]
    have hsb := (keep_regular (prev := prev) hp ht i (by omega)).1
    by_cases c : source r i < s.arb
    · rw [dotc_congr _ _ _ _ (fun a ha => hr.low a ha _ c), dotc_comb_right]
      refine sum_eq_zero fun a ha => ?_
      have := mem_range.1 ha
      rw [hvv l hl a (by omega), if_neg (by omega), zero_mul]
    · rw [dotc_congr _ _ _ _ (fun a ha => hr.high a ha _ hsb (by omega)), hvv l hl _ hsb, if_neg]
      rintro rfl
      by_cases e : i = k - 1
      · subst e; omega
      · have := ht.sorted i (k - 1) (by omega) (by omega); omega
  · intro i hi hki l hl
    have hlx : (l : Int) < r.indexPrev0 := by
      have := hk1.2.1
      omega
    have hlb : l < s.b := by omega
    by_cases c : i < Extraction.regular r
    · rw [(keep_regular (prev := prev) hp ht i c).2.2.1]
      have hsb := (keep_regular (prev := prev) hp ht i c).1
      have hn := n2 i c
      rw [dotc_congr _ _ _ _ (fun a ha => hr.high a ha _ hsb (by omega)), hvv l hlb _ hsb, if_neg]
      rintro rfl
      have := ht.sorted (k - 1) i (by omega) c
      omega
    · obtain ⟨m, rfl⟩ : ∃ m, i = Extraction.regular r + m := ⟨i - Extraction.regular r, by omega⟩
      rw [keep_prev hp ht m (by omega), parseval s.b s.hVecs hv]
      refine sum_eq_zero fun j hj => ?_
      have hj := mem_range.1 hj
      by_cases cj : (j : Int) < r.indexPrev0
      · have := hret.front m (by omega) j hj cj
        rw [this, mul_zero]
      · rw [dotc_congr _ _ _ _ (fun a ha => hr.high a ha _ hj (by omega)), hvv l hlb j hj, if_neg (by omega), zero_mul]

/-- The singular vectors of the new `R` belong to one block each. -/
theorem keep_split (v : ℕ → ℕ → 𝕜) (hr : Rot s v) (hv : Columns s.b s.hVecs) (o : Keep 𝕜) (ho : KeepOk s r prev o)
    (hret : Retained s.toSt r prev) (closest : Bool) (hg : Graded closest s.b s.hSVals) (u' v' : ℕ → ℕ → 𝕜) (s' : ℕ → ℝ)
    (hd : IsSvd r.basisSize.toNat (keepR s r o) u' s' v') (hg' : Graded closest r.basisSize.toNat s') (k : ℕ)
    (hx : (s.arb : Int) ≤ r.indexPrev0) (h1 : newArb s r ≤ k) (h2 : k ≤ Extraction.regular r)
    (hgap : 0 < k → k < r.basisSize.toNat → sign closest * s' (k - 1) ^ 2 < sign closest * s' k ^ 2) :
    ∀ i < r.basisSize.toNat, ∀ j < r.basisSize.toNat, ¬ (i < k ↔ j < k) → v' i j = 0 := by
  by_cases hk : 0 < k
  swap
  · intro i _ j _ hh; exact absurd ⟨fun _ => by omega, fun _ => by omega⟩ hh
  obtain ⟨top, t0, t1, t2, t3⟩ := keep_place hp ht v hr hv hret hx k hk h1 h2
  have hcomb : ∀ (x : ℕ → 𝕜) (l : ℕ), dotc s.b (fun a => v a l) (fun l => ∑ i ∈ range r.basisSize.toNat, newCoef s.toSt prev r (place r i) l * x i) =
      ∑ i ∈ range r.basisSize.toNat, dotc s.b (fun a => v a l) (newCoef s.toSt prev r (place r i)) * x i := fun x l => dotc_comb_right _ _ _ _ _
  refine split_of_gap _ k _ u' s' v' hd (sign closest) (sign closest * s.hSVals (top - 1) ^ 2) hg'
    (fun a _ b _ hh => keepR_block ht o ho hx k h1 h2 a b hh) ?_ ?_ hgap
  · intro x hx0
    obtain ⟨q1, q2⟩ := keep_norm hp ht v hr hv o ho hret x
    rw [q1, q2, mulv_sq s.b s.R s.hU s.hSVals v hr.svd, dotc_self s.b v hr.svd.right, RCLike.ofReal_re, RCLike.ofReal_re, mul_sum, mul_sum]
    refine sum_le_sum fun l hl => ?_
    have hl := mem_range.1 hl
    by_cases c : l < top
    · rw [← mul_assoc]
      exact mul_le_mul_of_nonneg_right (hg l hl (top - 1) (by omega) (by omega)) (by positivity)
    · have : dotc s.b (fun a => v a l) (fun l => ∑ i ∈ range r.basisSize.toNat, newCoef s.toSt prev r (place r i) l * x i) = 0 := by
        rw [hcomb]
        refine sum_eq_zero fun i hi => ?_
        by_cases ci : i < k
        · rw [t2 i ci l hl (by omega), zero_mul]
        · rw [hx0 i (mem_range.1 hi) ci, mul_zero]
      rw [this]; simp
  · intro x hx0
    obtain ⟨q1, q2⟩ := keep_norm hp ht v hr hv o ho hret x
    rw [q1, q2, mulv_sq s.b s.R s.hU s.hSVals v hr.svd, dotc_self s.b v hr.svd.right, RCLike.ofReal_re, RCLike.ofReal_re, mul_sum, mul_sum]
    refine sum_le_sum fun l hl => ?_
    have hl := mem_range.1 hl
    by_cases c : l < top
    · have : dotc s.b (fun a => v a l) (fun l => ∑ i ∈ range r.basisSize.toNat, newCoef s.toSt prev r (place r i) l * x i) = 0 := by
        rw [hcomb]
        refine sum_eq_zero fun i hi => ?_
        by_cases ci : i < k
        · rw [hx0 i (mem_range.1 hi) ci, mul_zero]
        · rw [t3 i (mem_range.1 hi) (by omega) l c, zero_mul]
      rw [this]; simp
    · rw [← mul_assoc]
      exact mul_le_mul_of_nonneg_right (hg (top - 1) (by omega) l hl (by omega)) (by positivity)

end

end Verif.Extraction
