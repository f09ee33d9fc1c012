import Verif.Model.Blas
import Verif.Spec.Blas
import Mathlib.Tactic.Ring
import Mathlib.Tactic.SplitIfs
import Mathlib.Algebra.BigOperators.Group.Finset.Sigma

set_option linter.unusedSectionVars false
set_option linter.unusedSimpArgs false
set_option linter.unusedVariables false

namespace Verif.Blas
open Finset Verif Verif.Spec

variable {K : Type} [CommRing K] [StarRing K] [DecidableEq K]

theorem tooLarge_false {cap : ℕ} {l : List ℕ} : tooLarge cap l = false ↔ ∀ i ∈ l, i ≤ cap := by
  unfold tooLarge
  rw [List.any_eq_false]
  simp

theorem opOf_eq (tr : Bool) (a : ℕ → K) (lda i l : ℕ) : opOf tr a lda i l = Elem tr a lda i l := by
  unfold opOf Elem; cases tr <;> rfl

/-- Splitting a sum at the end of a strip. -/
theorem sum_split (f : ℕ → K) {n k : ℕ} (h : k ≤ n) :
    ∑ i ∈ range n, f i = ∑ i ∈ range k, f i + ∑ i ∈ range (n - k), f (k + i) := by
  obtain ⟨d, rfl⟩ := Nat.exists_eq_add_of_le h
  rw [sum_range_add, Nat.add_sub_cancel_left]

theorem dotLoop_one (cap : ℕ) (hcap : 2 ≤ cap) (x y : ℕ → K) : ∀ (f n off : ℕ) (r : K), n ≤ f →
    dotLoop cap x 1 y 1 f n off r = r + ∑ i ∈ range n, star (x (off + i)) * y (off + i) := by
  intro f
  induction f with
  | zero => intro n off r h; obtain rfl : n = 0 := by omega
            simp [dotLoop]
  | succ f ih =>
    intro n off r h
    unfold dotLoop
    split_ifs with h0
    · subst h0; simp
    · rw [ih _ _ _ (by omega), sum_split (fun i => star (x (off + i)) * y (off + i)) (Nat.min_le_left n (cap - 1))]
      unfold xDot after
      simp only [Nat.mul_one, add_assoc]

theorem dotLoop_short (cap : ℕ) (x y : ℕ → K) (incx incy n : ℕ) (h : n < cap) :
    dotLoop cap x incx y incy n n 0 0 = ∑ i ∈ range n, star (x (i * incx)) * y (i * incy) := by
  cases n with
  | zero => simp [dotLoop]
  | succ n =>
    unfold dotLoop
    have e : min (n + 1) (cap - 1) = n + 1 := by omega
    rw [if_neg (by omega), e, Nat.sub_self]
    have : ∀ f o (r : K), dotLoop cap x incx y incy f 0 o r = r := by
      intro f o r; cases f <;> simp [dotLoop]
    rw [this]
    unfold xDot after
    simp

theorem dot_spec (cap : ℕ) (hcap : 2 ≤ cap) (cplx : Bool) (n : ℕ) (x : ℕ → K) (incx : ℕ) (y : ℕ → K) (incy : ℕ)
    (h : cplx = true ∨ n < cap ∨ (incx = 1 ∧ incy = 1)) :
    dot cap cplx n x incx y incy = ∑ i ∈ range n, star (x (i * incx)) * y (i * incy) := by
  unfold dot
  cases cplx
  · rw [if_neg (by simp)]
    rcases h with h | h | ⟨rfl, rfl⟩
    · simp at h
    · exact dotLoop_short cap x y incx incy n h
    · rw [dotLoop_one cap hcap x y n n 0 0 le_rfl]; simp
  · rw [if_pos rfl]; rfl

theorem axpyLoop_one (cap : ℕ) (hcap : 2 ≤ cap) (alpha : K) (x : ℕ → K) : ∀ (f n off : ℕ) (y : ℕ → K), n ≤ f →
    axpyLoop cap alpha x 1 1 f n off y = fun t => if off ≤ t ∧ t < off + n then y t + alpha * x t else y t := by
  intro f
  induction f with
  | zero => intro n off y h; obtain rfl : n = 0 := by omega
            funext t; rw [if_neg (by omega)]; rfl
  | succ f ih =>
    intro n off y h
    unfold axpyLoop
    split_ifs with h0
    · subst h0; funext t; rw [if_neg (by omega)]
    · rw [ih _ _ _ (by omega)]
      funext t
      unfold xAxpy after
      simp only [Nat.mod_one, Nat.div_one, Nat.mul_one, true_and]
      have hk : min n (cap - 1) ≤ n := Nat.min_le_left _ _
      generalize min n (cap - 1) = k at *
      by_cases h1 : off ≤ t
      · have e : off + (t - off) = t := by omega
        rw [e]
        by_cases h2 : t - off < k
        · rw [if_neg (by omega), if_pos ⟨h1, h2⟩, if_pos (by omega)]
        · by_cases h3 : t < off + n
          · rw [if_pos (by omega), if_neg (by omega), if_pos (by omega)]
          · rw [if_neg (by omega), if_neg (by omega), if_neg (by omega)]
      · rw [if_neg (by omega), if_neg (by omega), if_neg (by omega)]

theorem axpyLoop_short (cap : ℕ) (alpha : K) (x : ℕ → K) (incx incy n : ℕ) (y : ℕ → K) (h : n < cap) :
    axpyLoop cap alpha x incx incy n n 0 y = xAxpy n alpha x incx 0 y incy := by
  cases n with
  | zero => funext t; unfold axpyLoop xAxpy; rw [if_neg (fun h => Nat.not_lt_zero _ h.2.2)]
  | succ n =>
    unfold axpyLoop
    have e : min (n + 1) (cap - 1) = n + 1 := by omega
    rw [if_neg (by omega), e, Nat.sub_self]
    have : ∀ f o (y : ℕ → K), axpyLoop cap alpha x incx incy f 0 o y = y := by
      intro f o r; cases f <;> simp [axpyLoop]
    rw [this]
    have : after x 0 = x := by funext t; simp [after]
    rw [this]

theorem scalLoop_one (cap : ℕ) (hcap : 2 ≤ cap) (alpha : K) : ∀ (f n off : ℕ) (x : ℕ → K), n ≤ f →
    scalLoop cap alpha 1 f n off x = fun t => if off ≤ t ∧ t < off + n then alpha * x t else x t := by
  intro f
  induction f with
  | zero => intro n off y h; obtain rfl : n = 0 := by omega
            funext t; rw [if_neg (by omega)]; rfl
  | succ f ih =>
    intro n off y h
    unfold scalLoop
    split_ifs with h0
    · subst h0; funext t; rw [if_neg (by omega)]
    · rw [ih _ _ _ (by omega)]
      funext t
      unfold xScal
      simp only [Nat.mod_one, Nat.div_one, true_and]
      have hk : min n (cap - 1) ≤ n := Nat.min_le_left _ _
      generalize min n (cap - 1) = k at *
      by_cases h1 : off ≤ t
      · by_cases h2 : t - off < k
        · rw [if_neg (by omega), if_pos ⟨h1, h2⟩, if_pos (by omega)]
        · by_cases h3 : t < off + n
          · rw [if_pos (by omega), if_neg (by omega), if_pos (by omega)]
          · rw [if_neg (by omega), if_neg (by omega), if_neg (by omega)]
      · rw [if_neg (by omega), if_neg (by omega), if_neg (by omega)]

theorem scalLoop_short (cap : ℕ) (alpha : K) (incx n : ℕ) (x : ℕ → K) (h : n < cap) :
    scalLoop cap alpha incx n n 0 x = xScal n alpha 0 x incx := by
  cases n with
  | zero => funext t; unfold scalLoop xScal; rw [if_neg (fun h => Nat.not_lt_zero _ h.2.2)]
  | succ n =>
    unfold scalLoop
    have e : min (n + 1) (cap - 1) = n + 1 := by omega
    rw [if_neg (by omega), e, Nat.sub_self]
    have : ∀ f o (y : ℕ → K), scalLoop cap alpha incx f 0 o y = y := by
      intro f o r; cases f <;> simp [scalLoop]
    rw [this]

/-- Positions of a strided vector. -/
theorem stride_hit {inc n i : ℕ} (hinc : 0 < inc) (hi : i < n) :
    0 ≤ i * inc ∧ (i * inc - 0) % inc = 0 ∧ (i * inc - 0) / inc < n := by
  refine ⟨Nat.zero_le _, ?_, ?_⟩
  · simp
  · rw [Nat.sub_zero, Nat.mul_div_cancel _ hinc]; exact hi

theorem stride_miss {inc n t : ℕ} (h : ∀ i < n, t ≠ i * inc) : ¬ (0 ≤ t ∧ (t - 0) % inc = 0 ∧ (t - 0) / inc < n) := by
  rintro ⟨-, h1, h2⟩
  refine h _ h2 ?_
  rw [Nat.sub_zero] at *
  exact (Nat.div_mul_cancel (Nat.dvd_of_mod_eq_zero h1)).symm

theorem scal_spec (cap : ℕ) (hcap : 2 ≤ cap) (n : ℕ) (alpha : K) (x : ℕ → K) (incx : ℕ) (hinc : 0 < incx)
    (h : n < cap ∨ incx = 1) :
    (∀ i < n, scalLoop cap alpha incx n n 0 x (i * incx) = alpha * x (i * incx)) ∧
    ∀ t, (∀ i < n, t ≠ i * incx) → scalLoop cap alpha incx n n 0 x t = x t := by
  rcases h with h | rfl
  · rw [scalLoop_short cap alpha incx n x h]
    unfold xScal
    exact ⟨fun i hi => if_pos (stride_hit hinc hi), fun t ht => if_neg (stride_miss ht)⟩
  · rw [scalLoop_one cap hcap alpha n n 0 x le_rfl]
    constructor
    · intro i hi; exact if_pos (by omega)
    · intro t ht; exact if_neg (fun h => ht t (by omega) (by omega))

theorem axpy_spec (cap : ℕ) (hcap : 2 ≤ cap) (n : ℕ) (alpha : K) (x : ℕ → K) (incx : ℕ) (y : ℕ → K) (incy : ℕ)
    (hinc : 0 < incy) (h : n < cap ∨ (incx = 1 ∧ incy = 1)) :
    (∀ i < n, axpyLoop cap alpha x incx incy n n 0 y (i * incy) = y (i * incy) + alpha * x (i * incx)) ∧
    ∀ t, (∀ i < n, t ≠ i * incy) → axpyLoop cap alpha x incx incy n n 0 y t = y t := by
  rcases h with h | ⟨rfl, rfl⟩
  · rw [axpyLoop_short cap alpha x incx incy n y h]
    unfold xAxpy
    refine ⟨fun i hi => ?_, fun t ht => if_neg (stride_miss ht)⟩
    rw [if_pos (stride_hit hinc hi), Nat.sub_zero, Nat.mul_div_cancel _ hinc]
  · rw [axpyLoop_one cap hcap alpha x n n 0 y le_rfl]
    constructor
    · intro i hi; rw [Nat.mul_one]; exact if_pos (by omega)
    · intro t ht; exact if_neg (fun h => ht t (by omega) (by omega))

theorem xGemv_spec (tr : Bool) (m n : ℕ) (alpha : K) (a : ℕ → K) (lda : ℕ) (x : ℕ → K) (incx : ℕ) (beta : K)
    (y : ℕ → K) (incy : ℕ) (hinc : 0 < incy) :
    IsGemv tr m n alpha a lda x incx beta y incy (xGemv tr m n alpha a lda x incx beta 0 y incy) := by
  unfold xGemv
  refine ⟨fun i hi => ?_, fun t ht => if_neg (stride_miss ht)⟩
  dsimp only
  rw [if_pos (stride_hit hinc hi), Nat.sub_zero, Nat.mul_div_cancel _ hinc]
  simp only [opOf_eq]

theorem gemvLoop_rows (cap : ℕ) (hcap : 2 ≤ cap) (n : ℕ) (alpha : K) (a : ℕ → K) (lda : ℕ) (x : ℕ → K) (incx : ℕ)
    (beta : K) : ∀ (f m off : ℕ) (y : ℕ → K), m ≤ f →
    gemvLoop cap false n alpha a lda x incx 1 f m off beta y = fun t => if off ≤ t ∧ t < off + m then
      beta * y t + alpha * ∑ l ∈ range n, a (l * lda + t) * x (l * incx) else y t := by
  intro f
  induction f with
  | zero => intro m off y h; obtain rfl : m = 0 := by omega
            funext t; rw [if_neg (by omega)]; rfl
  | succ f ih =>
    intro m off y h
    unfold gemvLoop
    by_cases h0 : m = 0
    · subst h0; funext t; rw [if_pos rfl, if_neg (by omega)]
    · rw [if_neg h0]
      simp only [Bool.false_eq_true, if_false]
      rw [ih _ _ _ (by omega)]
      funext t
      unfold xGemv after opOf
      simp only [Nat.mod_one, Nat.div_one, true_and, Bool.false_eq_true, if_false]
      have hk : min m (cap - 1) ≤ m := Nat.min_le_left _ _
      generalize min m (cap - 1) = k at *
      by_cases h1 : off ≤ t
      · have e : ∀ l, off + (l * lda + (t - off)) = l * lda + t := by intro l; omega
        simp only [e]
        by_cases h2 : t - off < k
        · rw [if_neg (by omega), if_pos ⟨h1, h2⟩, if_pos (by omega)]
        · by_cases h3 : t < off + m
          · rw [if_pos (by omega), if_neg (by omega), if_pos (by omega)]
          · rw [if_neg (by omega), if_neg (by omega), if_neg (by omega)]
      · rw [if_neg (by omega), if_neg (by omega), if_neg (by omega)]

theorem gemvLoop_cols (cap : ℕ) (hcap : 2 ≤ cap) (n : ℕ) (alpha : K) (a : ℕ → K) (lda : ℕ) (x : ℕ → K) (incy : ℕ) :
    ∀ (f m off : ℕ) (beta : K) (y : ℕ → K), m ≤ f →
    gemvLoop cap true n alpha a lda x 1 incy f m off beta y = fun t => if m ≠ 0 ∧ t % incy = 0 ∧ t / incy < n then
      beta * y t + alpha * ∑ l ∈ range m, star (a (off + (t / incy * lda + l))) * x (off + l) else y t := by
  intro f
  induction f with
  | zero => intro m off beta y h; obtain rfl : m = 0 := by omega
            funext t; rw [if_neg (by omega)]; rfl
  | succ f ih =>
    intro m off beta y h
    unfold gemvLoop
    by_cases h0 : m = 0
    · subst h0; funext t; rw [if_pos rfl, if_neg (by omega)]
    · rw [if_neg h0]
      simp only [if_true]
      rw [ih _ _ _ _ (by omega)]
      funext t
      unfold xGemv after opOf
      simp only [if_true, Nat.zero_le, true_and, Nat.sub_zero, Nat.mul_one]
      have hk : min m (cap - 1) ≤ m := Nat.min_le_left _ _
      have hk0 : 0 < min m (cap - 1) := by omega
      generalize min m (cap - 1) = k at *
      by_cases h1 : t % incy = 0 ∧ t / incy < n
      · rw [sum_split (fun l => star (a (off + (t / incy * lda + l))) * x (off + l)) hk]
        by_cases h2 : m - k ≠ 0
        · rw [if_pos ⟨h2, h1⟩, if_pos h1, if_pos ⟨h0, h1⟩]
          have e : ∀ l, off + k + (t / incy * lda + l) = off + (t / incy * lda + (k + l)) := by intro l; omega
          simp only [e, Nat.add_assoc off k]
          ring
        · have h3 : m - k = 0 := by omega
          rw [if_neg (fun h' => h2 h'.1), if_pos h1, if_pos ⟨h0, h1⟩, h3]
          simp
      · rw [if_neg (fun h' => h1 h'.2), if_neg h1, if_neg (fun h' => h1 h'.2)]

theorem gemvLoop_short (cap : ℕ) (tr : Bool) (n : ℕ) (alpha : K) (a : ℕ → K) (lda : ℕ) (x : ℕ → K) (incx incy m : ℕ)
    (beta : K) (y : ℕ → K) (h : m < cap) (h0 : m ≠ 0) :
    gemvLoop cap tr n alpha a lda x incx incy m m 0 beta y = xGemv tr m n alpha a lda x incx beta 0 y incy := by
  cases m with
  | zero => exact absurd rfl h0
  | succ m =>
    unfold gemvLoop
    have e : min (m + 1) (cap - 1) = m + 1 := by omega
    rw [if_neg (by omega), e, Nat.sub_self]
    have : ∀ f o b (y : ℕ → K), gemvLoop cap tr n alpha a lda x incx incy f 0 o b y = y := by
      intro f o b r; cases f <;> simp [gemvLoop]
    rw [this]
    have e1 : after a 0 = a := by funext t; simp [after]
    have e2 : after x 0 = x := by funext t; simp [after]
    rw [e1, e2]
    cases tr <;> rfl

theorem gemv_spec (cap : ℕ) (hcap : 2 ≤ cap) (cplx tr : Bool) (m n : ℕ) (alpha : K) (a : ℕ → K) (lda : ℕ) (x : ℕ → K)
    (incx : ℕ) (beta : K) (y : ℕ → K) (incy : ℕ) (hld : lda ≤ cap) (hix : incx ≤ cap) (hiy : incy ≤ cap) (hn : n < cap)
    (hinc : 0 < incy) (hs : m < cap ∨ (incx = 1 ∧ incy = 1)) (hr : tr = true ∨ m ≠ 1 ∨ ∀ z : K, star z = z) :
    ∃ y', gemv cap cplx tr m n alpha a lda x incx beta y incy = .ok y' ∧
      IsGemv tr m n alpha a lda x incx beta y incy y' := by
  unfold gemv
  have ht : tooLarge cap [n, lda, incx, incy] = false := by
    rw [tooLarge_false]; intro i hi; simp at hi; omega
  rw [ht, if_neg (by simp)]
  dsimp only
  have hbig : (if tr then n else m) < cap ∨ incy = 1 := by
    cases tr
    · rcases hs with h | h
      · exact Or.inl h
      · exact Or.inr h.2
    · exact Or.inl hn
  by_cases h1 : (if tr then n else m) = 0
  · rw [if_pos h1]
    refine ⟨y, rfl, ?_, fun _ _ => rfl⟩
    intro i hi; rw [h1] at hi; omega
  rw [if_neg h1]
  by_cases h2 : (if tr then m else n) = 0 ∨ alpha = 0
  · rw [if_pos h2]
    have hz : ∀ i : ℕ, alpha * ∑ l ∈ range (if tr then m else n), Elem tr a lda i l * x (l * incx) = 0 := by
      intro i
      rcases h2 with h2 | h2
      · rw [h2]; simp
      · rw [h2, zero_mul]
    by_cases h3 : beta = 0
    · rw [if_pos h3]
      refine ⟨_, rfl, ?_, ?_⟩
      · intro i hi
        rw [hz, h3]
        unfold zeroMatrix
        rw [if_pos ⟨by simp, by rw [Nat.mul_div_cancel _ hinc]; exact hi⟩]
        simp
      · intro t ht
        unfold zeroMatrix
        refine if_neg ?_
        rintro ⟨h4, h5⟩
        refine ht _ h5 ?_
        exact (Nat.div_mul_cancel (Nat.dvd_of_mod_eq_zero (by omega))).symm
    · rw [if_neg h3]
      unfold scal
      have ht' : tooLarge cap [incy] = false := by rw [tooLarge_false]; intro i hi; simp at hi; omega
      rw [ht', if_neg (by simp)]
      obtain ⟨g1, g2⟩ := scal_spec cap hcap (if tr then n else m) beta y incy hinc hbig
      refine ⟨_, rfl, ?_, g2⟩
      intro i hi
      rw [hz, add_zero, g1 i hi]
  rw [if_neg h2]
  by_cases h3 : (if tr then n else m) = 1
  · rw [if_pos h3]
    refine ⟨_, rfl, ?_, ?_⟩
    · intro i hi
      obtain rfl : i = 0 := by omega
      dsimp only
      rw [if_pos (by simp), Nat.zero_mul]
      have hb : (if beta ≠ 0 then beta * y 0 else 0) = beta * y 0 := by
        split_ifs with h
        · rfl
        · rw [not_not.1 h, zero_mul]
      rw [hb, dot_spec cap hcap]
      · cases tr
        · simp only [Bool.false_eq_true, if_false] at h3 ⊢
          rcases hr with h | h | h
          · simp at h
          · exact absurd h3 h
          · simp only [h, Elem, Nat.add_zero]; ring
        · simp only [if_true, Elem, Nat.mul_one, Nat.zero_mul, Nat.zero_add]; ring
      · cases tr
        · exact Or.inr (Or.inl hn)
        · rcases hs with h | h
          · exact Or.inr (Or.inl h)
          · exact Or.inr (Or.inr ⟨rfl, h.1⟩)
    · intro t ht
      dsimp only
      rw [if_neg]
      rintro rfl
      exact ht 0 (by omega) (by simp)
  rw [if_neg h3]
  refine ⟨_, rfl, ?_⟩
  have h4 : m ≠ 0 := by
    intro h
    subst h
    cases tr
    · simp at h1
    · simp at h2
  rcases hs with h | ⟨rfl, rfl⟩
  · rw [gemvLoop_short cap tr n alpha a lda x incx incy m beta y h h4]
    exact xGemv_spec tr m n alpha a lda x incx beta y incy hinc
  · cases tr
    · rw [gemvLoop_rows cap hcap n alpha a lda x 1 beta m m 0 y le_rfl]
      constructor
      · intro i hi
        simp only [Bool.false_eq_true, if_false] at hi
        dsimp only
        rw [if_pos (by omega)]
        simp [Elem]
      · intro t ht
        dsimp only
        simp only [Bool.false_eq_true, if_false] at ht
        exact if_neg (fun h => ht t (by omega) (by omega))
    · rw [gemvLoop_cols cap hcap n alpha a lda x 1 m m 0 beta y le_rfl]
      constructor
      · intro i hi
        simp only [if_true] at hi
        dsimp only
        rw [if_pos ⟨h4, by simp [Nat.mod_one], by simpa using hi⟩]
        simp [Elem]
      · intro t ht
        simp only [if_true] at ht
        dsimp only
        exact if_neg (fun h => ht t (by simpa using h.2.2) (by omega))

/-- Positions of a matrix stored by columns. -/
theorem cell {ld m i j : ℕ} (hi : i < m) (hm : m ≤ ld) : (j * ld + i) % ld = i ∧ (j * ld + i) / ld = j := by
  have h : i < ld := by omega
  constructor
  · rw [Nat.add_comm, Nat.add_mul_mod_self_right, Nat.mod_eq_of_lt h]
  · rw [Nat.add_comm, Nat.add_mul_div_right _ _ (by omega), Nat.div_eq_of_lt h, Nat.zero_add]

theorem cell_miss {ld m n t : ℕ} (h : ∀ i < m, ∀ j < n, t ≠ j * ld + i) : ¬ (t % ld < m ∧ t / ld < n) := by
  rintro ⟨h1, h2⟩
  exact h _ h1 _ h2 (by rw [Nat.mul_comm]; exact (Nat.div_add_mod t ld).symm)

theorem scalAt_spec (cap : ℕ) (hcap : 2 ≤ cap) (m : ℕ) (beta : K) (c : ℕ → K) (off t : ℕ) :
    scalColumns.scalAt cap m beta c off t = if off ≤ t ∧ t < off + m then beta * c t else c t := by
  unfold scalColumns.scalAt
  rw [scalLoop_one cap hcap beta m m 0 _ le_rfl]
  unfold after
  dsimp only
  by_cases h : off ≤ t
  · rw [if_pos h]
    have e : off + (t - off) = t := by omega
    rw [e]
    by_cases h2 : t < off + m
    · rw [if_pos (by omega), if_pos ⟨h, h2⟩]
    · rw [if_neg (by omega), if_neg (by omega)]
  · rw [if_neg h, if_neg (by omega)]

theorem scalColumns_spec (cap : ℕ) (hcap : 2 ≤ cap) (m ldc : ℕ) (hm : m ≤ ldc) (hm0 : 0 < m) (beta : K) (c : ℕ → K) :
    ∀ n t, scalColumns cap m ldc beta n c t = if t % ldc < m ∧ t / ldc < n then beta * c t else c t := by
  intro n
  induction n with
  | zero => intro t; rw [if_neg (fun h => Nat.not_lt_zero _ h.2)]; rfl
  | succ n ih =>
    intro t
    rw [scalColumns, scalAt_spec cap hcap, ih]
    have hd := Nat.div_add_mod t ldc
    have hlt := Nat.mod_lt t (show 0 < ldc by omega)
    by_cases h : ldc * n ≤ t ∧ t < ldc * n + m
    · have e1 : t / ldc = n := by
        have h3 : n ≤ t / ldc := (Nat.le_div_iff_mul_le (by omega)).2 (by rw [Nat.mul_comm]; exact h.1)
        have h4 : t / ldc < n + 1 := (Nat.div_lt_iff_lt_mul (by omega)).2 (by rw [Nat.add_mul, Nat.mul_comm n]; omega)
        omega
      have e2 : t % ldc < m := by rw [e1] at hd; omega
      rw [if_pos h, if_neg (by omega), if_pos (by omega)]
    · rw [if_neg h]
      by_cases h2 : t % ldc < m ∧ t / ldc < n
      · rw [if_pos h2, if_pos (by omega)]
      · rw [if_neg h2, if_neg]
        rintro ⟨h3, h4⟩
        have e1 : t / ldc = n := by omega
        rw [e1] at hd
        exact h ⟨by omega, by omega⟩

theorem xGemm_spec (ta tb : Bool) (m n k : ℕ) (alpha : K) (a : ℕ → K) (lda : ℕ) (b : ℕ → K) (ldb : ℕ) (beta : K)
    (c : ℕ → K) (ldc : ℕ) (hm : m ≤ ldc) :
    IsGemm ta tb m n k alpha a lda b ldb beta c ldc (xGemm ta tb m n k alpha a lda b ldb beta c ldc) := by
  unfold xGemm
  refine ⟨fun i hi j hj => ?_, fun t ht => if_neg (cell_miss ht)⟩
  obtain ⟨e1, e2⟩ := cell (j := j) hi hm
  dsimp only
  rw [e1, e2, if_pos ⟨hi, hj⟩]
  simp only [opOf_eq]

theorem gemm_spec (cap : ℕ) (hcap : 2 ≤ cap) (cplx ta tb : Bool) (m n k : ℕ) (alpha : K) (a : ℕ → K) (lda : ℕ) (b : ℕ → K)
    (ldb : ℕ) (beta : K) (c : ℕ → K) (ldc : ℕ) (hm : m < cap) (hn : n ≤ cap) (hk : k < cap) (hla : lda ≤ cap)
    (hlb : ldb ≤ cap) (hlc : ldc ≤ cap) (hmc : m ≤ ldc)
    (hc : cplx = false → ∀ z : K, star z = z)
    (hr : ta = true ∨ m ≠ 1 ∨ n ≠ 1 ∨ (cplx = true ∧ tb = true) ∨ ∀ z : K, star z = z) :
    ∃ c', gemm cap cplx ta tb m n k alpha a lda b ldb beta c ldc = .ok c' ∧
      IsGemm ta tb m n k alpha a lda b ldb beta c ldc c' := by
  unfold gemm
  have ht : tooLarge cap [m, n, k, lda, ldb, ldc] = false := by
    rw [tooLarge_false]; intro i hi; simp at hi; omega
  rw [ht, if_neg (by simp)]
  by_cases h0 : m = 0 ∨ n = 0
  · rw [if_pos h0]
    refine ⟨c, rfl, ?_, fun _ _ => rfl⟩
    intro i hi j hj; omega
  rw [if_neg h0]
  by_cases h1 : k = 0 ∨ alpha = 0
  · rw [if_pos h1]
    have hz : ∀ i j : ℕ, alpha * ∑ l ∈ range k, Elem ta a lda i l * Elem tb b ldb l j = 0 := by
      intro i j
      rcases h1 with h1 | h1
      · rw [h1]; simp
      · rw [h1, zero_mul]
    by_cases h2 : beta = 0
    · rw [if_pos h2]
      refine ⟨_, rfl, ?_, fun t ht => if_neg (cell_miss ht)⟩
      intro i hi j hj
      unfold zeroMatrix
      obtain ⟨e1, e2⟩ := cell (j := j) hi hmc
      rw [e1, e2, if_pos ⟨hi, hj⟩, hz, h2]; simp
    rw [if_neg h2]
    by_cases h3 : beta ≠ 1
    · rw [if_pos h3]
      refine ⟨_, rfl, ?_, ?_⟩
      · intro i hi j hj
        obtain ⟨e1, e2⟩ := cell (j := j) hi hmc
        rw [scalColumns_spec cap hcap m ldc hmc (by omega), e1, e2, if_pos ⟨hi, hj⟩, hz, add_zero]
      · intro t ht
        rw [scalColumns_spec cap hcap m ldc hmc (by omega), if_neg (cell_miss ht)]
    · rw [if_neg h3]
      refine ⟨c, rfl, ?_, fun _ _ => rfl⟩
      intro i hi j hj
      rw [hz, not_not.1 h3]; ring
  rw [if_neg h1]
  by_cases h2 : n = 1 ∧ (cplx = false ∨ tb = false)
  · rw [if_pos h2]
    obtain ⟨rfl, h2⟩ := h2
    have hmk : (if ta then k else m) < cap := by cases ta <;> assumption
    have hkm : (if ta then m else k) < cap := by cases ta <;> assumption
    obtain ⟨c', e, g1, g2⟩ := gemv_spec cap hcap cplx ta (if ta then k else m) (if ta then m else k) alpha a lda b
      (if tb then ldb else 1) beta c 1 hla (by split_ifs <;> omega) (by omega) hkm (by omega) (Or.inl hmk) (by
        rcases hr with h | h | h | h | h
        · exact Or.inl h
        · cases ta
          · right; left; simpa using h
          · exact Or.inl rfl
        · exact absurd rfl h
        · rcases h2 with h2 | h2
          · rw [h2] at h; simp at h
          · rw [h2] at h; simp at h
        · exact Or.inr (Or.inr h))
    refine ⟨c', e, ?_, ?_⟩
    · intro i hi j hj
      obtain rfl : j = 0 := by omega
      have := g1 i (by cases ta <;> simpa using hi)
      rw [Nat.mul_one] at this
      rw [Nat.zero_mul, Nat.zero_add, this]
      congr 2
      have hrange : (if ta = true then (if ta = true then k else m) else if ta = true then m else k) = k := by
        cases ta <;> rfl
      rw [hrange]
      refine sum_congr rfl ?_
      intro l hl
      congr 1
      cases tb
      · simp [Elem]
      · simp only [Bool.true_eq_false, or_false] at h2
        simp [Elem, hc h2]
    · intro t ht
      refine g2 t ?_
      intro i hi
      have := ht i (by cases ta <;> simpa using hi) 0 (by omega)
      simpa using this
  rw [if_neg h2]
  exact ⟨_, rfl, xGemm_spec ta tb m n k alpha a lda b ldb beta c ldc hmc⟩

/-! ## The variants that convert -/

theorem elem_conv (w : ℕ) (lda i : ℕ) (a : ℕ → K) (p l : ℕ) (hl : l < w) :
    Elem true (fun t => a (i + (t / w * lda + t % w))) w p l = Elem true (after a i) lda p l := by
  obtain ⟨e1, e2⟩ := cell (ld := w) (j := p) hl le_rfl
  simp [Elem, after, e1, e2]

theorem elem_conv' (w : ℕ) (lda i : ℕ) (a : ℕ → K) (p l : ℕ) (hl : l < w) :
    Elem false (fun t => a (i + (t / w * lda + t % w))) w l p = Elem false (after a i) lda l p := by
  obtain ⟨e1, e2⟩ := cell (ld := w) (j := p) hl le_rfl
  simp [Elem, after, e1, e2]

theorem stripLoop_spec (cap : ℕ) (hcap : 2 ≤ cap) (cplx same : Bool) (m n k w : ℕ) (alpha : K) (a : ℕ → K) (lda : ℕ)
    (b : ℕ → K) (ldb ldc : ℕ) (hm : m < cap) (hn : n ≤ cap) (hw : w < cap) (hla : lda ≤ cap) (hlb : ldb ≤ cap)
    (hlc : ldc ≤ cap) (hmc : m ≤ ldc) (hc : cplx = false → ∀ z : K, star z = z) :
    ∀ (f i h : ℕ) (beta : K) (c : ℕ → K), k ≤ i + f → i < k → 0 < h → h ≤ w → i + h ≤ k →
      ∃ c', stripLoop cap cplx same m n k w alpha a lda b ldb ldc f i h beta c = .ok c' ∧
        IsGemm true false m n (k - i) alpha (after a i) lda (after b i) ldb beta c ldc c' := by
  intro f
  induction f with
  | zero => intros; omega
  | succ f ih =>
    intro i h beta c hf hi h0 hh hik
    rw [stripLoop, if_pos hi]
    obtain ⟨c1, e1, g1, g2⟩ := gemm_spec cap hcap cplx true false m n h alpha
      (if same then after a i else fun t => a (i + (t / w * lda + t % w))) (if same then lda else w)
      (if same then after b i else fun t => b (i + (t / w * ldb + t % w))) (if same then ldb else w) beta c ldc
      hm hn (by omega) (by split_ifs <;> omega) (by split_ifs <;> omega) hlc hmc hc (Or.inl rfl)
    rw [e1, Outcome.bind_ok]
    have g1' : ∀ p < m, ∀ j < n, c1 (j * ldc + p) =
        beta * c (j * ldc + p) + alpha * ∑ l ∈ range h, Elem true (after a i) lda p l * Elem false (after b i) ldb l j := by
      intro p hp j hj
      rw [g1 p hp j hj]
      congr 2
      refine sum_congr rfl ?_
      intro l hl
      have hl' : l < w := by rw [mem_range] at hl; omega
      cases same
      · simp only [Bool.false_eq_true, if_false]
        rw [elem_conv w lda i a p l hl', elem_conv' w ldb i b j l hl']
      · simp only [if_true]
    have hsum : ∀ p j, ∑ l ∈ range (k - i), Elem true (after a i) lda p l * Elem false (after b i) ldb l j =
        (∑ l ∈ range h, Elem true (after a i) lda p l * Elem false (after b i) ldb l j) +
        ∑ l ∈ range (k - (i + h)), Elem true (after a (i + h)) lda p l * Elem false (after b (i + h)) ldb l j := by
      intro p j
      rw [sum_split _ (show h ≤ k - i by omega), Nat.sub_sub]
      congr 1
      refine sum_congr rfl ?_
      intro l _
      have q1 : i + (p * lda + (h + l)) = i + h + (p * lda + l) := by omega
      have q2 : i + (j * ldb + (h + l)) = i + h + (j * ldb + l) := by omega
      simp only [Elem, after, q1, q2]
    by_cases hl : i + h < k
    · obtain ⟨c2, e2, k1, k2⟩ := ih (i + h) (min h (k - (i + h))) 1 c1 (by omega) hl (by omega) (by omega) (by omega)
      refine ⟨c2, e2, ?_, ?_⟩
      · intro p hp j hj
        rw [k1 p hp j hj, g1' p hp j hj, hsum]
        ring
      · intro t ht
        rw [k2 t ht, g2 t ht]
    · have hk : k - (i + h) = 0 := by omega
      have : ∀ (f h : ℕ) (beta : K) c, stripLoop cap cplx same m n k w alpha a lda b ldb ldc f (i + (k - i)) h beta c =
          .ok c := by
        intro f h beta c
        cases f
        · rfl
        · rw [stripLoop, if_neg (by omega)]
      refine ⟨c1, ?_, ?_, g2⟩
      · have e : i + h = i + (k - i) := by omega
        rw [e, this]
      · intro p hp j hj
        rw [g1' p hp j hj, hsum, hk]
        simp

theorem gemmDdh_spec (cap block : ℕ) (hcap : 2 ≤ cap) (hb0 : 0 < block) (hb : block < cap) (cplx same : Bool) (m n k : ℕ)
    (alpha : K) (a : ℕ → K) (lda : ℕ) (b : ℕ → K) (ldb : ℕ) (beta : K) (c : ℕ → K) (ldc : ℕ) (hm : m < cap) (hn : n ≤ cap)
    (hk : same = false ∨ k < cap) (hla : lda ≤ cap) (hlb : ldb ≤ cap) (hlc : ldc ≤ cap) (hmc : m ≤ ldc)
    (hc : cplx = false → ∀ z : K, star z = z) (hk0 : 0 < k ∨ beta = 1) :
    ∃ c', gemmDdh cap block cplx same m n k alpha a lda b ldb beta c ldc = .ok c' ∧
      IsGemm true false m n k alpha a lda b ldb beta c ldc c' := by
  unfold gemmDdh
  by_cases h : m = 0 ∨ n = 0 ∨ ((k = 0 ∨ alpha = 0) ∧ beta = 1)
  · rw [if_pos h]
    refine ⟨c, rfl, ?_, fun _ _ => rfl⟩
    intro i hi j hj
    rcases h with h | h | ⟨h | h, rfl⟩
    · omega
    · omega
    · rw [h]; simp
    · rw [h]; ring
  · rw [if_neg h]
    dsimp only
    have hk1 : 0 < k := by
      rcases hk0 with h1 | h1
      · exact h1
      · by_contra h2
        exact h (Or.inr (Or.inr ⟨Or.inl (by omega), h1⟩))
    have hw : (if same = false ∧ block < k then block else k) < cap := by
      split_ifs with h3
      · exact hb
      · rcases hk with h4 | h4
        · have : ¬ block < k := fun h5 => h3 ⟨h4, h5⟩
          omega
        · exact h4
    have hw0 : 0 < (if same = false ∧ block < k then block else k) := by split_ifs <;> omega
    have hwk : (if same = false ∧ block < k then block else k) ≤ k := by split_ifs <;> omega
    obtain ⟨c', e, g⟩ := stripLoop_spec cap hcap cplx same m n k _ alpha a lda b ldb ldc hm hn hw hla hlb hlc hmc hc k 0 _ beta c
      (by omega) hk1 hw0 le_rfl (by omega)
    refine ⟨c', e, ?_⟩
    have e1 : ∀ a : ℕ → K, after a 0 = a := by intro a; funext t; simp [after]
    rw [e1, e1, Nat.sub_zero] at g
    exact g

theorem gemmDhd_spec (cap : ℕ) (hcap : 2 ≤ cap) (cplx same : Bool) (m n k : ℕ) (alpha : K) (a : ℕ → K) (lda : ℕ) (b : ℕ → K)
    (ldb : ℕ) (beta : K) (c : ℕ → K) (ldc : ℕ) (hm : m < cap) (hn : n ≤ cap) (hk : k < cap) (hla : lda ≤ cap)
    (hlb : ldb ≤ cap) (hlc : ldc ≤ cap) (hma : m ≤ lda) (hmc : m ≤ ldc) (hc : cplx = false → ∀ z : K, star z = z)
    (hr : m ≠ 1 ∨ n ≠ 1 ∨ ∀ z : K, star z = z) :
    ∃ c', gemmDhd cap cplx same m n k alpha a lda b ldb beta c ldc = .ok c' ∧
      IsGemm false false m n k alpha a lda b ldb beta c ldc c' := by
  unfold gemmDhd
  by_cases h : m = 0 ∨ n = 0 ∨ ((k = 0 ∨ alpha = 0) ∧ beta = 1)
  · rw [if_pos h]
    refine ⟨c, rfl, ?_, fun _ _ => rfl⟩
    intro i hi j hj
    rcases h with h | h | ⟨h | h, rfl⟩
    · omega
    · omega
    · rw [h]; simp
    · rw [h]; ring
  · rw [if_neg h]
    dsimp only
    have hr' : false = true ∨ m ≠ 1 ∨ n ≠ 1 ∨ (cplx = true ∧ false = true) ∨ ∀ z : K, star z = z := by
      rcases hr with h | h | h
      · exact Or.inr (Or.inl h)
      · exact Or.inr (Or.inr (Or.inl h))
      · exact Or.inr (Or.inr (Or.inr (Or.inr h)))
    cases same
    · obtain ⟨c1, e1, g1, g2⟩ := gemm_spec cap hcap cplx false false m n k alpha (astype false m lda a).1
        (astype false m lda a).2 b ldb beta (astype false m ldc c).1 (astype false m ldc c).2 hm hn hk
        (by simp [astype]; omega) hlb (by simp [astype]; omega) (by simp [astype]) hc hr'
      rw [e1, Outcome.bind_ok]
      refine ⟨_, rfl, ?_, ?_⟩
      · intro i hi j hj
        obtain ⟨q1, q2⟩ := cell (j := j) hi hmc
        simp only [Bool.false_eq_true, if_false, q1, q2]
        rw [if_pos ⟨hi, hj⟩]
        have := g1 i hi j hj
        simp only [astype, Bool.false_eq_true, if_false] at this
        rw [this]
        obtain ⟨p1, p2⟩ := cell (ld := m) (j := j) hi le_rfl
        rw [p1, p2]
        congr 2
        refine sum_congr rfl ?_
        intro l _
        obtain ⟨p3, p4⟩ := cell (ld := m) (j := l) hi le_rfl
        simp only [Elem, p3, p4]
      · intro t ht
        simp only [Bool.false_eq_true, if_false]
        exact if_neg (cell_miss ht)
    · obtain ⟨c1, e1, g⟩ := gemm_spec cap hcap cplx false false m n k alpha a lda b ldb beta c ldc hm hn hk hla hlb hlc hmc hc hr'
      simp only [astype, if_true]
      rw [e1, Outcome.bind_ok]
      exact ⟨c1, rfl, g⟩

end Verif.Blas

namespace Verif.Blas
open Finset Verif Verif.Spec

variable {K : Type} [CommRing K] [StarRing K] [DecidableEq K]

/-- A converted matrix has the same elements. -/
theorem astype_elem (same : Bool) (m lda : ℕ) (a : ℕ → K) (h : same = true → lda = m) (j i : ℕ) (hi : i < m) :
    (astype same m lda a).1 (j * m + i) = a (j * lda + i) := by
  unfold astype
  cases same
  · obtain ⟨e1, e2⟩ := cell (ld := m) (j := j) hi le_rfl
    simp [e1, e2]
  · rw [h rfl]; rfl

theorem astype_vec (same : Bool) (x : ℕ → K) (i : ℕ) : (astype same 1 1 x).1 i = x i := by
  unfold astype; cases same <;> simp [Nat.mod_one]

theorem deflate_spec (cap : ℕ) (hcap : 2 ≤ cap) (cplx same : Bool) (rows n : ℕ) (cols : ℕ → K) (ld : ℕ) (v : ℕ → K)
    (hn : n < cap) (hrows : rows ≤ cap) (hld : same = true → ld = rows)
    (h1 : rows ≠ 1 ∨ ∀ z : K, star z = z) :
    ∃ v', deflate cap cplx same rows n cols ld v = .ok v' ∧
      (∀ i < rows, v' i = v i - ∑ j ∈ range n, cols (j * ld + i) * Inner rows (Col cols ld j) v) ∧
      ∀ i, rows ≤ i → v' i = v i := by
  unfold deflate gemvDdh
  obtain ⟨o, e1, g1, -⟩ := gemv_spec cap hcap cplx true rows n 1 (astype same rows ld cols).1 rows (astype same 1 1 v).1 1 0
    (fun _ => 0) 1 hrows (by omega) (by omega) hn (by omega) (Or.inr ⟨rfl, rfl⟩) (Or.inl rfl)
  rw [e1, Outcome.bind_ok]
  unfold gemvDhd
  have hy : (astype same 1 1 v).2 = 1 := by unfold astype; cases same <;> rfl
  dsimp only
  rw [hy]
  obtain ⟨w, e2, k1, k2⟩ := gemv_spec cap hcap cplx false rows n (-1) (astype same rows ld cols).1 rows o 1 1
    (astype same 1 1 v).1 1 hrows (by omega) (by omega) hn (by omega) (Or.inr ⟨rfl, rfl⟩) (Or.inr h1)
  rw [e2, Outcome.bind_ok]
  have ho : ∀ j < n, o j = Inner rows (Col cols ld j) v := by
    intro j hj
    have := g1 j hj
    simp only [if_true, Nat.mul_one, zero_mul, zero_add, one_mul, Elem, astype_vec] at this
    rw [this]
    unfold Inner Col
    refine sum_congr rfl ?_
    intro l hl
    rw [astype_elem same rows ld cols hld j l (mem_range.1 hl)]
  have hw : ∀ i < rows, w i = v i - ∑ j ∈ range n, cols (j * ld + i) * Inner rows (Col cols ld j) v := by
    intro i hi
    have := k1 i hi
    simp only [Nat.mul_one, one_mul, Elem, astype_vec, Bool.false_eq_true, if_false, neg_mul] at this
    rw [this, ← sub_eq_add_neg]
    congr 1
    refine sum_congr rfl ?_
    intro j hj
    rw [astype_elem same rows ld cols hld j i hi, ho j (mem_range.1 hj)]
  have hw2 : ∀ i, rows ≤ i → w i = v i := by
    intro i hi
    rw [k2 i (by intro p hp; simp only [Bool.false_eq_true, if_false] at hp; omega), astype_vec]
  cases same
  · refine ⟨_, rfl, ?_, ?_⟩
    · intro i hi
      simp only [Bool.false_eq_true, if_false, Nat.mod_one, Nat.div_one]
      rw [if_pos ⟨by omega, hi⟩, hw i hi]
    · intro i hi
      simp only [Bool.false_eq_true, if_false, Nat.mod_one, Nat.div_one]
      rw [if_neg (by omega)]
  · exact ⟨w, rfl, hw, hw2⟩

/-- Taking away the components along orthonormal columns leaves nothing along them. -/
theorem deflated_orth (rows n : ℕ) (q : ℕ → ℕ → K) (v v' : ℕ → K)
    (ho : ∀ j < n, ∀ j' < n, Inner rows (q j) (q j') = if j = j' then 1 else 0)
    (hv : ∀ i < rows, v' i = v i - ∑ j ∈ range n, q j i * Inner rows (q j) v) :
    ∀ j < n, Inner rows (q j) v' = 0 := by
  intro j hj
  have e : Inner rows (q j) v' = Inner rows (q j) v - ∑ j' ∈ range n, Inner rows (q j) (q j') * Inner rows (q j') v := by
    have hL : Inner rows (q j) v' =
        ∑ l ∈ range rows, (star (q j l) * v l - ∑ j' ∈ range n, star (q j l) * q j' l * Inner rows (q j') v) := by
      rw [Inner]
      refine sum_congr rfl ?_
      intro l hl
      rw [hv l (mem_range.1 hl), mul_sub, mul_sum]
      simp only [mul_assoc]
    rw [hL, sum_sub_distrib, sum_comm]
    congr 1
    refine sum_congr rfl ?_
    intro j' _
    rw [← sum_mul]; rfl
  rw [e, sum_eq_single j]
  · rw [ho j hj j hj, if_pos rfl]; ring
  · intro j' hj' hne
    rw [ho j hj j' (mem_range.1 hj'), if_neg (Ne.symm hne), zero_mul]
  · intro h; exact absurd (mem_range.2 hj) h

theorem allOverlaps_spec (cap block : ℕ) (hcap : 2 ≤ cap) (hb0 : 0 < block) (hb : block < cap) (cplx same : Bool) (cols bs : ℕ)
    (hc : cols < cap) (hbs : bs ≤ cap) (hs : cplx = false → ∀ z : K, star z = z) : ∀ (ps : List (Part K)),
    (∀ p ∈ ps, 0 < p.rows ∧ p.rows < cap ∧ p.ldq ≤ cap ∧ p.ldv ≤ cap) →
    ∃ o, allOverlaps cap block cplx same cols bs ps = .ok o ∧ ∀ i < cols, ∀ j < bs,
      o (j * cols + i) = (ps.map (fun p => Inner p.rows (Col p.q p.ldq i) (Col p.v p.ldv j))).sum := by
  intro ps
  induction ps with
  | nil => intro _; exact ⟨_, rfl, fun _ _ _ _ => rfl⟩
  | cons p ps ih =>
    intro h
    obtain ⟨h1, h2, h3, h4⟩ := h p (List.mem_cons_self)
    obtain ⟨c, e1, g1, -⟩ := gemmDdh_spec cap block hcap hb0 hb cplx same cols bs p.rows (1 : K) p.q p.ldq p.v p.ldv 0 p.junk
      cols hc hbs (Or.inr h2) h3 h4 (by omega) le_rfl hs (Or.inl h1)
    obtain ⟨s, e2, g2⟩ := ih (fun q hq => h q (List.mem_cons_of_mem _ hq))
    refine ⟨fun t => c t + s t, ?_, ?_⟩
    · unfold allOverlaps overlaps
      rw [e1, Outcome.bind_ok, e2, Outcome.bind_ok]
    · intro i hi j hj
      dsimp only
      rw [g1 i hi j hj, g2 i hi j hj, List.map_cons, List.sum_cons, zero_mul, zero_add, one_mul]
      rfl

end Verif.Blas
