import Verif.Proofs.Extraction

set_option linter.unusedSectionVars false
set_option linter.unusedSimpArgs false
set_option linter.unusedVariables false

namespace Verif.Extraction
open Finset Verif Verif.Spec Verif.Rayleigh Verif.Restart

variable {𝕜 E : Type} [RCLike 𝕜] [AddCommGroup E] [Module 𝕜 E]

/-! ## The refined extraction -/

theorem reversed_lt (closest : Bool) (b j : ℕ) (hj : j < b) : reversed closest b j < b := by
  unfold reversed; split_ifs <;> omega

theorem reversed_inj (closest : Bool) (b i j : ℕ) (hi : i < b) (hj : j < b) (h : reversed closest b i = reversed closest b j) : i = j := by
  unfold reversed at h; split_ifs at h <;> omega

theorem columns_reversed (closest : Bool) (b : ℕ) (M : ℕ → ℕ → 𝕜) (h : Columns b M) :
    Columns b (fun i j => M i (reversed closest b j)) := by
  intro i hi j hj
  rw [h _ (reversed_lt closest b i hi) _ (reversed_lt closest b j hj)]
  by_cases e : i = j
  · rw [if_pos e, if_pos (by rw [e])]
  · rw [if_neg e, if_neg (fun h' => e (reversed_inj closest b i j hi hj h'))]

/-- The coefficient vectors belong to the singular vectors `v`, up to mixing inside the clusters left between the cuts: the span of the
first `k` is that of the `k` first singular vectors whenever there is a cut at `k`. -/
def Sep (s : XSt 𝕜 E) (cut : ℕ → Prop) (v : ℕ → ℕ → 𝕜) : Prop :=
  ∀ k, cut k → ∀ i < s.b, ∀ j < s.b, (i < k ∧ k ≤ j) ∨ (j < k ∧ k ≤ i) → dotc s.b (fun l => v l i) (fun l => s.hVecs l j) = 0

/-- The same for some singular value decomposition of `R` with the singular values kept, in ascending order. -/
def Ref (s : XSt 𝕜 E) (cut : ℕ → Prop) : Prop :=
  ∃ u v, IsSvd s.b s.R u s.hSVals v ∧ Ascending s.b s.hSVals ∧ Sep s cut v

/-- The coefficient vectors in terms of the right singular vectors `v`: the first `arb` are combinations with coefficients `rot`,
the others are singular vectors. -/
structure Rot (s : XSt 𝕜 E) (v : ℕ → ℕ → 𝕜) : Prop where
  svd : IsSvd s.b s.R s.hU s.hSVals v
  le : s.arb ≤ s.b
  low : ∀ i < s.b, ∀ j < s.arb, s.hVecs i j = ∑ k ∈ range s.arb, v i k * s.rot k j
  high : ∀ i < s.b, ∀ j < s.b, s.arb ≤ j → s.hVecs i j = v i j
  zero : ∀ j < s.arb, ∀ k < s.b, s.arb ≤ k → s.rot k j = 0

theorem solveRef_svd (closest : Bool) (s : XSt 𝕜 E) (d : Svd 𝕜) (hd : IsSvd s.b s.R d.u d.sv d.v) :
    IsSvd s.b s.R (solveRef closest s d).hU (solveRef closest s d).hSVals (solveRef closest s d).hVecs :=
  ⟨columns_reversed closest s.b _ hd.left, columns_reversed closest s.b _ hd.right,
    fun j hj => hd.nonneg _ (reversed_lt closest s.b j hj), fun i hi j hj => hd.mul i hi _ (reversed_lt closest s.b j hj)⟩

theorem solveRef_rot (closest : Bool) (s : XSt 𝕜 E) (d : Svd 𝕜) (hd : IsSvd s.b s.R d.u d.sv d.v) :
    Rot (solveRef closest s d) (solveRef closest s d).hVecs :=
  ⟨solveRef_svd closest s d hd, Nat.zero_le _, fun i _ j hj => absurd hj (Nat.not_lt_zero j), fun _ _ _ _ _ => rfl,
    fun j hj => absurd hj (Nat.not_lt_zero j)⟩

theorem reversed_ascending (n : ℕ) (sv : ℕ → ℝ) (hs : Descending n sv) : Ascending n (fun j => sv (reversed true n j)) := by
  intro i hi j hj hij
  refine hs _ (reversed_lt true n j hj) _ (reversed_lt true n i hi) ?_
  unfold reversed; simp only [if_true]; omega

theorem solveRef_sep (s : XSt 𝕜 E) (d : Svd 𝕜) (hd : IsSvd s.b s.R d.u d.sv d.v) (cut : ℕ → Prop) :
    Sep (solveRef true s d) cut (solveRef true s d).hVecs := by
  intro k _ i hi j hj hk
  have := columns_reversed true s.b _ hd.right i hi j hj
  rw [if_neg (by omega)] at this
  exact this

/-- Lower bound. -/
theorem ref_lower (s : XSt 𝕜 E) (cut : ℕ → Prop) (hr : Ref s cut) (hv : Columns s.b s.hVecs) (k : ℕ) (hk : cut k) (hkb : k < s.b)
    (z : ℕ → 𝕜) (hz : ∀ j < k, dotc s.b (fun l => s.hVecs l j) z = 0) :
    s.hSVals k ^ 2 * RCLike.re (dotc s.b z z) ≤ RCLike.re (dotc s.b (mulv s.b s.R z) (mulv s.b s.R z)) := by
  obtain ⟨u, v, hsvd, hasc, hsep⟩ := hr
  rw [mulv_sq s.b s.R u s.hSVals v hsvd, dotc_self s.b v hsvd.right, RCLike.ofReal_re, RCLike.ofReal_re, mul_sum]
  refine sum_le_sum fun i hi => ?_
  have hib := mem_range.1 hi
  by_cases hik : i < k
  · have : dotc s.b (fun l => v l i) z = 0 := by
      rw [parseval s.b s.hVecs hv]
      refine sum_eq_zero fun j hj => ?_
      by_cases hjk : j < k
      · rw [hz j hjk, mul_zero]
      · rw [hsep k hk i hib j (mem_range.1 hj) (Or.inl ⟨hik, by omega⟩), zero_mul]
    rw [this]; simp
  · have h1 := hasc k hkb i hib (by omega)
    have h0 := hsvd.nonneg k hkb
    exact mul_le_mul_of_nonneg_right (pow_le_pow_left₀ h0 h1 2) (by positivity)

/-- Upper bound. -/
theorem ref_upper (s : XSt 𝕜 E) (cut : ℕ → Prop) (hr : Ref s cut) (hv : Columns s.b s.hVecs) (k : ℕ) (hk : cut (k + 1)) (hkb : k < s.b)
    (j : ℕ) (hj : j ≤ k) :
    RCLike.re (dotc s.b (mulv s.b s.R (fun l => s.hVecs l j)) (mulv s.b s.R (fun l => s.hVecs l j))) ≤ s.hSVals k ^ 2 := by
  obtain ⟨u, v, hsvd, hasc, hsep⟩ := hr
  have h1 : RCLike.re (dotc s.b (fun l => s.hVecs l j) (fun l => s.hVecs l j)) = 1 := by
    have := hv j (by omega) j (by omega)
    rw [if_pos rfl] at this
    unfold dotc
    rw [this]; simp
  rw [← mul_one (s.hSVals k ^ 2), ← h1]
  rw [mulv_sq s.b s.R u s.hSVals v hsvd, dotc_self s.b v hsvd.right, RCLike.ofReal_re, RCLike.ofReal_re, mul_sum]
  refine sum_le_sum fun i hi => ?_
  have hib := mem_range.1 hi
  by_cases hik : i ≤ k
  · have h1 := hasc i hib k hkb hik
    have h0 := hsvd.nonneg i hib
    exact mul_le_mul_of_nonneg_right (pow_le_pow_left₀ h0 h1 2) (by positivity)
  · rw [hsep (k + 1) hk i hib j (by omega) (Or.inr ⟨by omega, by omega⟩)]; simp

section
variable {ip : E → E → 𝕜} {A : E → E} (hip : IsInner ip) (hA : IsHermitian ip A)
include hip hA

theorem solveRef_solved (closest : Bool) (s : XSt 𝕜 E) (h : Plain ip A s.toSt) (d : Svd 𝕜) (hd : IsSvd s.b s.R d.u d.sv d.v) :
    Solved (solveRef closest s d).toSt (fun _ => True) :=
  ⟨columns_reversed closest s.b _ hd.right, fun j _ _ => (quotients_eq hip hA s.toSt h _ j).symm⟩

theorem solveHarm_solved (s : XSt 𝕜 E) (h : Plain ip A s.toSt) (d : Harm 𝕜) (hd : Columns s.b d.vecs) :
    Solved (solveHarm s d).toSt (fun _ => True) :=
  ⟨hd, fun j _ _ => (quotients_eq hip hA s.toSt h _ j).symm⟩

/-! ## Clusters -/

omit hip hA in
theorem quad_sum_right (n m : ℕ) (H : ℕ → ℕ → 𝕜) (x : ℕ → 𝕜) (f : ℕ → ℕ → 𝕜) (c : ℕ → 𝕜) :
    quad n H x (fun i => ∑ l ∈ range m, f i l * c l) = ∑ l ∈ range m, quad n H x (fun i => f i l) * c l := by
  unfold quad
  simp_rw [mul_sum, sum_mul]
  rw [sum_congr rfl (fun i _ => sum_comm), sum_comm]
  refine sum_congr rfl fun l _ => sum_congr rfl fun i _ => sum_congr rfl fun j _ => ?_
  ring

omit hip hA in
theorem dotc_comb_right (n m : ℕ) (x : ℕ → 𝕜) (f : ℕ → ℕ → 𝕜) (c : ℕ → 𝕜) :
    dotc n x (fun i => ∑ l ∈ range m, f i l * c l) = ∑ l ∈ range m, dotc n x (fun i => f i l) * c l := by
  rw [dotc_sum_right]
  refine sum_congr rfl fun l _ => ?_
  rw [dotc_mul_right]

omit hip hA in
theorem dotc_comb_left (n m : ℕ) (y : ℕ → 𝕜) (f : ℕ → ℕ → 𝕜) (c : ℕ → 𝕜) :
    dotc n (fun i => ∑ l ∈ range m, f i l * c l) y = ∑ l ∈ range m, star (c l) * dotc n (fun i => f i l) y := by
  rw [← dotc_conj, dotc_comb_right, star_sum]
  refine sum_congr rfl fun l _ => ?_
  rw [star_mul', dotc_conj, mul_comm]

theorem prepare_solved (s : XSt 𝕜 E) (h : Plain ip A s.toSt) {good : ℕ → Prop} (hs : Solved s.toSt good) (a c : ℕ) (e : Eig 𝕜) (hac : a ≤ c) (hcb : c ≤ s.b)
    (he : IsEigenbasis (c - a) (sym (clusterH s a)) e.vecs e.vals) : Solved (prepare s a c e).toSt (fun j => good j ∨ (a ≤ j ∧ j < c)) := by
  have hin : ∀ j, a ≤ j ∧ j < c → (fun k => (prepare s a c e).hVecs k j) =
      fun i => ∑ l ∈ range (c - a), s.hVecs i (a + l) * e.vecs l (j - a) := by
    intro j hj; funext i; exact if_pos hj
  have hout : ∀ j, ¬ (a ≤ j ∧ j < c) → (fun k => (prepare s a c e).hVecs k j) = fun i => s.hVecs i j := by
    intro j hj; funext i; exact if_neg hj
  have hsym : ∀ i j, sym (clusterH s a) i j = clusterH s a i j := by
    intro i j
    unfold sym
    split_ifs with hij
    · rfl
    · unfold clusterH; rw [plain_conj hip hA s.toSt h]
  have ho : ∀ i < s.b, ∀ j < s.b, dotc s.b (fun k => s.hVecs k i) (fun k => s.hVecs k j) = if i = j then 1 else 0 := hs.vecs
  constructor
  · intro i hi j hj
    change i < s.b at hi
    change j < s.b at hj
    change dotc s.b (fun k => (prepare s a c e).hVecs k i) (fun k => (prepare s a c e).hVecs k j) = _
    by_cases bi : a ≤ i ∧ i < c <;> by_cases bj : a ≤ j ∧ j < c
    · rw [hin i bi, hin j bj, dotc_comb_left]
      have h1 : ∀ l ∈ range (c - a), star (e.vecs l (i - a)) * dotc s.b (fun k => s.hVecs k (a + l))
          (fun k => ∑ l ∈ range (c - a), s.hVecs k (a + l) * e.vecs l (j - a)) = star (e.vecs l (i - a)) * e.vecs l (j - a) := by
        intro l hl
        have hl' := mem_range.1 hl
        rw [dotc_comb_right, sum_eq_single l]
        · rw [ho _ (by omega) _ (by omega), if_pos rfl, one_mul]
        · intro l' hl'' hne
          have := mem_range.1 hl''
          rw [ho _ (by omega) _ (by omega), if_neg (by omega), zero_mul]
        · intro h'; exact absurd hl h'
      rw [sum_congr rfl h1, he.orth _ (by omega) _ (by omega)]
      by_cases eq : i = j
      · rw [if_pos eq, if_pos (by omega)]
      · rw [if_neg eq, if_neg (by omega)]
    · rw [hin i bi, hout j bj, dotc_comb_left, if_neg (by rintro rfl; exact bj bi)]
      refine sum_eq_zero fun l hl => ?_
      have hl' := mem_range.1 hl
      rw [ho _ (by omega) _ hj, if_neg (by omega), mul_zero]
    · rw [hout i bi, hin j bj, dotc_comb_right, if_neg (by rintro rfl; exact bi bj)]
      refine sum_eq_zero fun l hl => ?_
      have hl' := mem_range.1 hl
      rw [ho _ hi _ (by omega), if_neg (by omega), zero_mul]
    · rw [hout i bi, hout j bj, ho i hi j hj]
  · intro j hj hg
    change j < s.b at hj
    change quad s.b s.H (fun k => (prepare s a c e).hVecs k j) (fun k => (prepare s a c e).hVecs k j) = (prepare s a c e).hVals j
    have hval : (prepare s a c e).hVals j = if a ≤ j ∧ j < c then e.vals (j - a) else s.hVals j := rfl
    by_cases bj : a ≤ j ∧ j < c
    · rw [hval, if_pos bj, hin j bj, quad_sum_right]
      have h1 : ∀ l ∈ range (c - a), quad s.b s.H (fun i => ∑ l ∈ range (c - a), s.hVecs i (a + l) * e.vecs l (j - a))
          (fun i => s.hVecs i (a + l)) * e.vecs l (j - a) =
          star (e.vals (j - a)) * (star (e.vecs l (j - a)) * e.vecs l (j - a)) := by
        intro l hl
        rw [← plain_conj hip hA s.toSt h, quad_sum_right]
        have h2 := he.eigen l (mem_range.1 hl) (j - a) (by omega)
        simp_rw [hsym] at h2
        unfold clusterH at h2
        rw [h2, star_mul']
        ring
      rw [sum_congr rfl h1, ← mul_sum, he.orth _ (by omega) _ (by omega), if_pos rfl, mul_one, he.real _ (by omega)]
    · rw [hval, if_neg bj, hout j bj, hs.quot j hj (hg.resolve_right bj)]

omit hip hA in
theorem prepare_sep (s : XSt 𝕜 E) (cut : ℕ → Prop) (v : ℕ → ℕ → 𝕜) (hsep : Sep s cut v) (a c : ℕ) (e : Eig 𝕜) (hcb : c ≤ s.b) :
    Sep (prepare s a c e) (fun k => cut k ∧ ¬ (a < k ∧ k < c)) v := by
  intro k hk i hi j hj hij
  change i < s.b at hi
  change j < s.b at hj
  change dotc s.b (fun l => v l i) (fun l => (prepare s a c e).hVecs l j) = 0
  by_cases bj : a ≤ j ∧ j < c
  · have : (fun l => (prepare s a c e).hVecs l j) = fun i => ∑ l ∈ range (c - a), s.hVecs i (a + l) * e.vecs l (j - a) := by
      funext l; exact if_pos bj
    rw [this, dotc_comb_right]
    refine sum_eq_zero fun l hl => ?_
    have := mem_range.1 hl
    rw [hsep k hk.1 i hi (a + l) (by omega) (by omega), zero_mul]
  · have : (fun l => (prepare s a c e).hVecs l j) = fun i => s.hVecs i j := by
      funext l; exact if_neg bj
    rw [this]
    exact hsep k hk.1 i hi j hj hij

omit hip hA in
theorem prepare_rot (s : XSt 𝕜 E) (v : ℕ → ℕ → 𝕜) (h : Rot s v) (a c : ℕ) (e : Eig 𝕜) (hac : a ≤ c) (hcb : c ≤ s.b) (ha : s.arb ≤ a) :
    Rot (prepare s a c e) v := by
  refine ⟨h.svd, hcb, ?_, ?_, ?_⟩
  · intro i hi j hj
    change i < s.b at hi
    change j < c at hj
    change (if a ≤ j ∧ j < c then ∑ k ∈ range (c - a), s.hVecs i (a + k) * e.vecs k (j - a) else s.hVecs i j) =
      ∑ k ∈ range c, v i k * (if s.arb ≤ j ∧ j < c then
        if a ≤ j ∧ a ≤ k ∧ k < c then e.vecs (k - a) (j - a) else if k = j then 1 else 0 else s.rot k j)
    by_cases h1 : a ≤ j
    · rw [if_pos ⟨h1, hj⟩]
      obtain ⟨w, rfl⟩ : ∃ w, c = a + w := ⟨c - a, by omega⟩
      rw [sum_range_add, Nat.add_sub_cancel_left]
      rw [sum_eq_zero (s := range a), zero_add]
      · refine sum_congr rfl fun k hk => ?_
        have hk' := mem_range.1 hk
        rw [h.high i hi _ (by omega) (by omega), if_pos ⟨by omega, hj⟩, if_pos ⟨h1, by omega, by omega⟩, Nat.add_sub_cancel_left]
      · intro k hk
        have hk' := mem_range.1 hk
        rw [if_pos ⟨by omega, hj⟩, if_neg (by omega), if_neg (by omega), mul_zero]
    · rw [if_neg (by omega)]
      by_cases h2 : s.arb ≤ j
      · rw [h.high i hi j (by omega) h2, sum_eq_single j]
        · rw [if_pos ⟨h2, hj⟩, if_neg (by omega), if_pos rfl, mul_one]
        · intro k _ hne
          rw [if_pos ⟨h2, hj⟩, if_neg (by omega), if_neg hne, mul_zero]
        · intro h'; exact absurd (mem_range.2 hj) h'
      · rw [h.low i hi j (by omega)]
        obtain ⟨w, rfl⟩ : ∃ w, c = s.arb + w := ⟨c - s.arb, by omega⟩
        rw [sum_range_add, sum_eq_zero (s := range w), add_zero]
        · refine sum_congr rfl fun k _ => ?_
          rw [if_neg (by omega)]
        · intro k hk
          have hk' := mem_range.1 hk
          rw [if_neg (by omega), h.zero j (by omega) _ (by omega) (by omega), mul_zero]
  · intro i hi j hj hc
    change i < s.b at hi
    change j < s.b at hj
    change c ≤ j at hc
    change (if a ≤ j ∧ j < c then _ else s.hVecs i j) = _
    rw [if_neg (by omega), h.high i hi j hj (by omega)]
  · intro j hj k hk hc
    change j < c at hj
    change k < s.b at hk
    change c ≤ k at hc
    change (if s.arb ≤ j ∧ j < c then
        if a ≤ j ∧ a ≤ k ∧ k < c then e.vecs (k - a) (j - a) else if k = j then 1 else 0 else s.rot k j) = 0
    by_cases h2 : s.arb ≤ j
    · rw [if_pos ⟨h2, hj⟩, if_neg (by omega), if_neg (by omega)]
    · rw [if_neg (by omega), h.zero j (by omega) k hk (by omega)]

end

/-! ## The harmonic extraction -/

/-- What the kernels deliver in `solveHarm`: the matrix of the eigenproblem solves `R^H g = (Q^H V)^H`, of which the upper triangle has
the eigenpairs `y`, `mu`; `x` solves `R x = y`; and `x = vecs t` with orthonormal columns and an upper triangular `t`. -/
structure HarmOk (ip : E → E → 𝕜) (s : XSt 𝕜 E) (d : Harm 𝕜) : Prop where
  regular : ∀ z : ℕ → 𝕜, (∀ i < s.b, mulv s.b s.R z i = 0) → ∀ i < s.b, z i = 0
  matrix : ∀ i < s.b, ∀ j < s.b, ∑ k ∈ range s.b, star (s.R k i) * d.g k j = star (ip (s.Q j) (s.V i))
  eig : IsEigenbasis s.b (sym d.g) d.y d.mu
  solve : ∀ i < s.b, ∀ j < s.b, mulv s.b s.R (fun k => d.x k j) i = d.y i j
  orth : Columns s.b d.vecs
  mul : ∀ i < s.b, ∀ j < s.b, d.x i j = ∑ k ∈ range s.b, d.vecs i k * d.t k j
  upper : ∀ i < s.b, ∀ j < s.b, j < i → d.t i j = 0

section
variable {ip : E → E → 𝕜} {A : E → E} (hip : IsInner ip) (hA : IsHermitian ip A)
include hip hA

/-- A product with `R^H` that vanishes. -/
theorem regular_conj (s : XSt 𝕜 E) (hreg : ∀ z : ℕ → 𝕜, (∀ i < s.b, mulv s.b s.R z i = 0) → ∀ i < s.b, z i = 0)
    (w : ℕ → 𝕜) (hw : ∀ i < s.b, ∑ k ∈ range s.b, star (s.R k i) * w k = 0) : ∀ k < s.b, w k = 0 := by
  let M : Matrix (Fin s.b) (Fin s.b) 𝕜 := fun i j => s.R i j
  have hinj : Function.Injective M.mulVec := by
    intro x y hxy
    have : M.mulVec (x - y) = 0 := by rw [Matrix.mulVec_sub, hxy, sub_self]
    have h1 := hreg (fun k => if hk : k < s.b then (x - y) ⟨k, hk⟩ else 0) (by
      intro i hi
      have := congrFun this ⟨i, hi⟩
      unfold mulv
      rw [sum_range]
      simpa [Matrix.mulVec, dotProduct, M] using this)
    funext i
    have := h1 i i.2
    simp at this
    exact sub_eq_zero.1 this
  have hunit : IsUnit M := Matrix.mulVec_injective_iff_isUnit.1 hinj
  have hunit' : IsUnit M.conjTranspose := by
    rw [Matrix.isUnit_iff_isUnit_det, Matrix.det_conjTranspose]
    exact ((Matrix.isUnit_iff_isUnit_det M).1 hunit).star
  have hinj' := Matrix.mulVec_injective_iff_isUnit.2 hunit'
  have h0 : M.conjTranspose.mulVec (fun k => w k) = M.conjTranspose.mulVec 0 := by
    rw [Matrix.mulVec_zero]
    funext i
    have := hw i i.2
    rw [sum_range] at this
    exact this
  intro k hk
  exact congrFun (hinj' h0) ⟨k, hk⟩

omit hip in
/-- The shifted operator is self-adjoint. -/
theorem off_self (hip : IsInner ip) (tau : ℝ) (x y : E) : ip (off (𝕜 := 𝕜) A tau x) y = ip x (off (𝕜 := 𝕜) A tau y) := by
  unfold off
  rw [ip_sub hip, hip.smul, ← hip.conj, ip_sub hip, hip.smul, star_sub, star_mul', hip.conj, hip.conj, hA.self]
  congr 2
  exact RCLike.conj_ofReal tau

theorem unit_comb (s : XSt 𝕜 E) (l : ℕ) (hl : l < s.b) : comb s.b s.V (fun k => if k = l then (1 : 𝕜) else 0) = s.V l := by
  unfold comb
  rw [sum_eq_single l]
  · dsimp only; rw [if_pos rfl, one_smul]
  · intro k _ hk; dsimp only; rw [if_neg hk, zero_smul]
  · intro h'; exact absurd (mem_range.2 hl) h'

/-- The products with the search space, through the factors. -/
theorem ip_off (s : XSt 𝕜 E) (h : Plain ip A s.toSt) (hf : Fac ip s) (i : ℕ) (x : ℕ → 𝕜) :
    ip (s.V i) (off (𝕜 := 𝕜) A s.tau (comb s.b s.V x)) = ∑ j ∈ range s.b, star (ip (s.Q j) (s.V i)) * mulv s.b s.R x j := by
  rw [off_comb hip hA s h hf, ip_comb hip]
  refine sum_congr rfl fun j _ => ?_
  rw [hip.conj]

theorem mulv_unit (s : XSt 𝕜 E) (l : ℕ) (hl : l < s.b) (j : ℕ) : mulv s.b s.R (fun k => if k = l then (1 : 𝕜) else 0) j = s.R j l := by
  unfold mulv
  rw [sum_eq_single l]
  · dsimp only; rw [if_pos rfl, mul_one]
  · intro k _ hk; dsimp only; rw [if_neg hk, mul_zero]
  · intro h'; exact absurd (mem_range.2 hl) h'

/-- The matrix of the harmonic problem is Hermitian, so that reading its upper triangle reads all of it. -/
theorem harm_hermitian (s : XSt 𝕜 E) (h : Plain ip A s.toSt) (hf : Fac ip s) (d : Harm 𝕜) (hd : HarmOk ip s d) :
    ∀ i < s.b, ∀ j < s.b, d.g i j = star (d.g j i) := by
  have hS : ∀ i < s.b, ∀ l < s.b, ∑ k ∈ range s.b, (∑ j ∈ range s.b, star (s.R j i) * d.g j k) * s.R k l =
      ip (s.V i) (off (𝕜 := 𝕜) A s.tau (s.V l)) := by
    intro i hi l hl
    have := ip_off hip hA s h hf i (fun k => if k = l then (1 : 𝕜) else 0)
    rw [unit_comb hip hA s l hl] at this
    rw [this]
    refine sum_congr rfl fun k hk => ?_
    rw [hd.matrix i hi k (mem_range.1 hk), mulv_unit hip hA s l hl]
  have hw : ∀ l < s.b, ∀ k < s.b, ∑ j ∈ range s.b, (d.g k j - star (d.g j k)) * s.R j l = 0 := by
    intro l hl
    refine regular_conj hip hA s hd.regular (fun k => ∑ j ∈ range s.b, (d.g k j - star (d.g j k)) * s.R j l) ?_
    intro i hi
    have h1 : ∑ k ∈ range s.b, star (s.R k i) * ∑ j ∈ range s.b, (d.g k j - star (d.g j k)) * s.R j l =
        (∑ k ∈ range s.b, (∑ j ∈ range s.b, star (s.R j i) * d.g j k) * s.R k l) -
        star (∑ k ∈ range s.b, (∑ j ∈ range s.b, star (s.R j l) * d.g j k) * s.R k i) := by
      rw [star_sum]
      simp_rw [star_mul', star_sum, star_mul', star_star, mul_sum, sum_mul]
      rw [sum_comm (f := fun k j => s.R j l * star (d.g j k) * star (s.R k i)), sum_comm, ← sum_sub_distrib]
      rw [sum_congr rfl (fun j _ => sum_congr rfl (fun k _ => by rw [sub_mul, mul_sub]))]
      simp_rw [sum_sub_distrib]
      congr 1
      · refine sum_congr rfl fun j _ => sum_congr rfl fun k _ => by ring
      · refine sum_congr rfl fun j _ => sum_congr rfl fun k _ => by ring
    rw [h1, hS i hi l hl, hS l hl i hi, hip.conj, off_self hA hip, sub_self]
  intro k hk j hj
  have := regular_conj hip hA s hd.regular (fun j => star (d.g k j - star (d.g j k))) (by
    intro l hl
    have h1 := congrArg star (hw l hl k hk)
    rw [star_sum, star_zero] at h1
    rw [← h1]
    refine sum_congr rfl fun j _ => ?_
    rw [star_mul', mul_comm]) j hj
  have h2 := congrArg star this
  rw [star_star, star_zero] at h2
  exact sub_eq_zero.1 h2

/-- The eigenvectors, taken back to the basis, satisfy the harmonic condition with the inverse values. -/
theorem harm_pair (s : XSt 𝕜 E) (h : Plain ip A s.toSt) (hf : Fac ip s) (d : Harm 𝕜) (hd : HarmOk ip s d) (j : ℕ) (hj : j < s.b)
    (i : ℕ) (hi : i < s.b) :
    ip (off (𝕜 := 𝕜) A s.tau (s.V i)) (comb s.b s.V (fun k => d.x k j) -
      d.mu j • off (𝕜 := 𝕜) A s.tau (comb s.b s.V (fun k => d.x k j))) = 0 := by
  have hsym : ∀ a < s.b, ∀ c < s.b, sym d.g a c = d.g a c := by
    intro a ha c hc
    unfold sym
    split_ifs
    · rfl
    · exact (harm_hermitian hip hA s h hf d hd a ha c hc).symm
  rw [ip_sub hip, hip.smul, off_self hA hip, ip_off hip hA s h hf]
  have h1 : ip (off (𝕜 := 𝕜) A s.tau (s.V i)) (off (𝕜 := 𝕜) A s.tau (comb s.b s.V (fun k => d.x k j))) =
      ∑ k ∈ range s.b, star (s.R k i) * d.y k j := by
    rw [← unit_comb hip hA s i hi, off_ip hip hA s h hf]
    unfold dotc
    refine sum_congr rfl fun k hk => ?_
    rw [mulv_unit hip hA s i hi, hd.solve k (mem_range.1 hk) j hj]
  rw [h1, mul_sum, ← sum_sub_distrib]
  have h2 : ∑ k ∈ range s.b, star (ip (s.Q k) (s.V i)) * mulv s.b s.R (fun k => d.x k j) k =
      ∑ k ∈ range s.b, d.mu j * (star (s.R k i) * d.y k j) := by
    have e1 : ∀ k ∈ range s.b, star (ip (s.Q k) (s.V i)) * mulv s.b s.R (fun k => d.x k j) k =
        ∑ l ∈ range s.b, star (s.R l i) * (sym d.g l k * d.y k j) := by
      intro k hk
      rw [hd.solve k (mem_range.1 hk) j hj, ← hd.matrix i hi k (mem_range.1 hk), sum_mul]
      refine sum_congr rfl fun l hl => ?_
      rw [hsym l (mem_range.1 hl) k (mem_range.1 hk)]
      ring
    rw [sum_congr rfl e1, sum_comm]
    refine sum_congr rfl fun l hl => ?_
    rw [← mul_sum, hd.eig.eigen l (mem_range.1 hl) j hj]
    ring
  rw [sum_sub_distrib, h2, sub_self]

/-- The first vector offered is a multiple of the first eigenvector taken back. -/
theorem harm_first (s : XSt 𝕜 E) (d : Harm 𝕜) (hd : HarmOk ip s d) (hb : 0 < s.b) :
    comb s.b s.V (fun k => d.x k 0) = d.t 0 0 • ritz (solveHarm s d).toSt 0 ∧ d.t 0 0 ≠ 0 := by
  have h1 : ∀ i < s.b, d.x i 0 = d.vecs i 0 * d.t 0 0 := by
    intro i hi
    rw [hd.mul i hi 0 hb, sum_eq_single 0]
    · intro k hk hne
      rw [hd.upper k (mem_range.1 hk) 0 hb (by omega), mul_zero]
    · intro h'; exact absurd (mem_range.2 hb) h'
  constructor
  · unfold ritz comb
    rw [smul_sum]
    refine sum_congr rfl fun i hi => ?_
    dsimp only
    rw [h1 i (mem_range.1 hi), smul_smul, mul_comm]
    rfl
  · intro ht
    have h2 : ∀ i < s.b, d.x i 0 = 0 := fun i hi => by rw [h1 i hi, ht, mul_zero]
    have h3 : ∀ i < s.b, d.y i 0 = 0 := by
      intro i hi
      rw [← hd.solve i hi 0 hb]
      unfold mulv
      exact sum_eq_zero fun k hk => by dsimp only; rw [h2 k (mem_range.1 hk), mul_zero]
    have h4 := hd.eig.orth 0 hb 0 hb
    rw [if_pos rfl, sum_eq_zero] at h4
    · exact zero_ne_one h4
    · intro k hk; rw [h3 k (mem_range.1 hk), mul_zero]

end

end Verif.Extraction
