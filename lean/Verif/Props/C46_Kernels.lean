import Verif.Proofs.Blas
import Mathlib.NumberTheory.Zsqrtd.Basic

/-!
# C46: the dense kernels compute on the described matrices, whatever the layout

Every product the library forms goes through a handful of kernels that take vectors and matrices with leading dimensions and
strides.  For every size, layout and contents the result is the one of the formula on the described elements, every other
element of the output array keeps its value, and a dimension that does not fit the BLAS integer is reported with nothing
written.  `cap` is the largest BLAS integer, `cplx` says that the type is complex.

The code departs from this in five cases, each shown below: strided vectors longer than the BLAS limit; complex products with a
single row and a single column, where the row is conjugated; `A'*B` with no rows at all; and the two products that convert,
when nothing needs conversion and the matrix has padding.
-/

set_option linter.unusedSectionVars false
set_option linter.unusedVariables false

namespace Verif.Props
open Finset Verif Verif.Blas Verif.Spec

variable {K : Type} [CommRing K] [StarRing K] [DecidableEq K]

/-- The inner product, for any number of terms when the strides are 1 (or the type is complex). -/
theorem C46_dot (cap : ℕ) (hcap : 2 ≤ cap) (cplx : Bool) (n : ℕ) (x : ℕ → K) (incx : ℕ) (y : ℕ → K) (incy : ℕ)
    (h : cplx = true ∨ n < cap ∨ (incx = 1 ∧ incy = 1)) :
    dot cap cplx n x incx y incy = ∑ i ∈ range n, star (x (i * incx)) * y (i * incy) :=
  dot_spec cap hcap cplx n x incx y incy h

example : dot 3 false 7 (fun i => (i : ℤ)) 1 (fun i => (i : ℤ)) 1 = 91 := by
  rw [C46_dot 3 (by decide) false 7 _ 1 _ 1 (Or.inr (Or.inr ⟨rfl, rfl⟩))]; decide

/-- A strided inner product of `cap` terms leaves the stride: whatever the limit, the last term is taken at the wrong place. -/
theorem C46_dot_violated (cap : ℕ) (hcap : 2 ≤ cap) :
    ∃ (x y : ℕ → ℤ), dot cap false cap x 2 y 2 ≠ ∑ i ∈ range cap, star (x (i * 2)) * y (i * 2) := by
  refine ⟨fun t => if t = 2 * (cap - 1) then 1 else 0, fun t => if t = 2 * (cap - 1) then 1 else 0, ?_⟩
  have hr : ∑ i ∈ range cap, star ((if i * 2 = 2 * (cap - 1) then 1 else 0 : ℤ)) *
      (if i * 2 = 2 * (cap - 1) then 1 else 0 : ℤ) = 1 := by
    rw [sum_eq_single (cap - 1)]
    · rw [if_pos (by omega)]; simp
    · intro b _ hb; rw [if_neg (by omega)]; simp
    · intro h; exact absurd (mem_range.2 (by omega)) h
  rw [hr]
  have hl : ∀ (c : ℕ) (x y : ℕ → ℤ), dot (c + 2) false (c + 2) x 2 y 2 = (0 + xDot (c + 1) (after x 0) 2 (after y 0) 2) +
      xDot 1 (after x (0 + (c + 1))) 2 (after y (0 + (c + 1))) 2 := by
    intro c x y
    have e1 : min (c + 2) (c + 2 - 1) = c + 1 := by omega
    have e2 : c + 2 - (c + 1) = 1 := by omega
    have e3 : min 1 (c + 2 - 1) = 1 := by omega
    rw [dot, if_neg (by simp), dotLoop, if_neg (by omega), e1, e2, dotLoop, if_neg (by omega), e3, Nat.sub_self]
    have : ∀ f o r, dotLoop (c + 2) x 2 y 2 f 0 o r = r := by intro f o r; cases f <;> simp [dotLoop]
    rw [this]
  obtain ⟨c, rfl⟩ : ∃ c, cap = c + 2 := ⟨cap - 2, by omega⟩
  rw [hl]
  have h1 : xDot (c + 1) (after (fun t => if t = 2 * (c + 2 - 1) then (1 : ℤ) else 0) 0) 2
      (after (fun t => if t = 2 * (c + 2 - 1) then (1 : ℤ) else 0) 0) 2 = 0 := by
    unfold xDot after
    refine sum_eq_zero ?_
    intro i hi
    have := mem_range.1 hi
    dsimp only
    rw [if_neg (by omega)]; simp
  have h2 : xDot 1 (after (fun t => if t = 2 * (c + 2 - 1) then (1 : ℤ) else 0) (0 + (c + 1))) 2
      (after (fun t => if t = 2 * (c + 2 - 1) then (1 : ℤ) else 0) (0 + (c + 1))) 2 = 0 := by
    unfold xDot after
    refine sum_eq_zero ?_
    intro i hi
    have := mem_range.1 hi
    dsimp only
    rw [if_neg (by omega)]; simp
  rw [h1, h2]
  decide

/-- Adding a multiple of a vector. -/
theorem C46_axpy (cap : ℕ) (hcap : 2 ≤ cap) (n : ℕ) (alpha : K) (x : ℕ → K) (incx : ℕ) (y : ℕ → K) (incy : ℕ)
    (hx : incx ≤ cap) (hy : incy ≤ cap) (hinc : 0 < incy) (h : n < cap ∨ (incx = 1 ∧ incy = 1)) :
    ∃ y', axpy cap n alpha x incx y incy = .ok y' ∧
      (∀ i < n, y' (i * incy) = y (i * incy) + alpha * x (i * incx)) ∧ ∀ t, (∀ i < n, t ≠ i * incy) → y' t = y t := by
  unfold axpy
  have ht : tooLarge cap [incx, incy] = false := by rw [tooLarge_false]; intro i hi; simp at hi; omega
  rw [ht, if_neg (by simp)]
  exact ⟨_, rfl, axpy_spec cap hcap n alpha x incx y incy hinc h⟩

/-- Multiplying a vector. -/
theorem C46_scal (cap : ℕ) (hcap : 2 ≤ cap) (n : ℕ) (alpha : K) (x : ℕ → K) (incx : ℕ)
    (hx : incx ≤ cap) (hinc : 0 < incx) (h : n < cap ∨ incx = 1) :
    ∃ x', scal cap n alpha x incx = .ok x' ∧
      (∀ i < n, x' (i * incx) = alpha * x (i * incx)) ∧ ∀ t, (∀ i < n, t ≠ i * incx) → x' t = x t := by
  unfold scal
  have ht : tooLarge cap [incx] = false := by rw [tooLarge_false]; intro i hi; simp at hi; omega
  rw [ht, if_neg (by simp)]
  exact ⟨_, rfl, scal_spec cap hcap n alpha x incx hinc h⟩

example : ∃ x', scal 3 7 (2 : ℤ) (fun i => (i : ℤ)) 1 = .ok x' ∧ x' 6 = 12 ∧ x' 7 = 7 := by
  obtain ⟨x', e, g1, g2⟩ := C46_scal 3 (by decide) 7 (2 : ℤ) (fun i => (i : ℤ)) 1 (by decide) (by decide) (Or.inr rfl)
  exact ⟨x', e, by rw [show (6 : ℕ) = 6 * 1 from rfl, g1 6 (by decide)]; rfl, by rw [g2 7 (by omega)]; rfl⟩

/-- Matrix by vector. -/
theorem C46_gemv (cap : ℕ) (hcap : 2 ≤ cap) (cplx tr : Bool) (m n : ℕ) (alpha : K) (a : ℕ → K) (lda : ℕ) (x : ℕ → K)
    (incx : ℕ) (beta : K) (y : ℕ → K) (incy : ℕ) (hld : lda ≤ cap) (hix : incx ≤ cap) (hiy : incy ≤ cap) (hn : n < cap)
    (hinc : 0 < incy) (hs : m < cap ∨ (incx = 1 ∧ incy = 1)) (hr : tr = true ∨ m ≠ 1 ∨ ∀ z : K, star z = z) :
    ∃ y', gemv cap cplx tr m n alpha a lda x incx beta y incy = .ok y' ∧
      IsGemv tr m n alpha a lda x incx beta y incy y' :=
  gemv_spec cap hcap cplx tr m n alpha a lda x incx beta y incy hld hix hiy hn hinc hs hr

/-- More rows than the limit, in strips. -/
example : ∃ y', gemv 3 false false 5 2 (1 : ℤ) (fun t => (t : ℤ)) 3 (fun _ => 1) 1 0 (fun _ => 7) 1 = .ok y' ∧
    y' 4 = 4 + 7 ∧ y' 5 = 7 := by
  obtain ⟨y', e, g1, g2⟩ := C46_gemv 3 (by decide) false false 5 2 (1 : ℤ) (fun t => (t : ℤ)) 3 (fun _ => 1) 1 0 (fun _ => 7) 1
    (by decide) (by decide) (by decide) (by decide) (by decide) (Or.inr ⟨rfl, rfl⟩) (Or.inr (Or.inl (by decide)))
  refine ⟨y', e, ?_, ?_⟩
  · rw [show (4 : ℕ) = 4 * 1 from rfl, g1 4 (by decide)]; decide
  · exact g2 5 (by intro i hi; simp at hi; omega)

/-- Matrix by matrix: for every size below the BLAS limit, whatever the leading dimensions. -/
theorem C46_gemm (cap : ℕ) (hcap : 2 ≤ cap) (cplx ta tb : Bool) (m n k : ℕ) (alpha : K) (a : ℕ → K) (lda : ℕ) (b : ℕ → K)
    (ldb : ℕ) (beta : K) (c : ℕ → K) (ldc : ℕ) (hm : m < cap) (hn : n ≤ cap) (hk : k < cap) (hla : lda ≤ cap)
    (hlb : ldb ≤ cap) (hlc : ldc ≤ cap) (hmc : m ≤ ldc) (hc : cplx = false → ∀ z : K, star z = z)
    (hr : ta = true ∨ m ≠ 1 ∨ n ≠ 1 ∨ (cplx = true ∧ tb = true) ∨ ∀ z : K, star z = z) :
    ∃ c', gemm cap cplx ta tb m n k alpha a lda b ldb beta c ldc = .ok c' ∧
      IsGemm ta tb m n k alpha a lda b ldb beta c ldc c' :=
  gemm_spec cap hcap cplx ta tb m n k alpha a lda b ldb beta c ldc hm hn hk hla hlb hlc hmc hc hr

example : ∃ c', gemm 100 false true false 2 2 3 (1 : ℤ) (fun t => (t : ℤ)) 4 (fun t => (t : ℤ)) 5 2 (fun _ => 1) 7 = .ok c' ∧
    c' 8 = 2 + (4 * 5 + 5 * 6 + 6 * 7) ∧ c' 2 = 1 := by
  obtain ⟨c', e, g1, g2⟩ := C46_gemm 100 (by decide) false true false 2 2 3 (1 : ℤ) (fun t => (t : ℤ)) 4 (fun t => (t : ℤ)) 5 2
    (fun _ => 1) 7 (by decide) (by decide) (by decide) (by decide) (by decide) (by decide) (by decide) (by intro _ z; rfl)
    (Or.inl rfl)
  refine ⟨c', e, ?_, ?_⟩
  · rw [show (8 : ℕ) = 1 * 7 + 1 from rfl, g1 1 (by decide) 1 (by decide)]; decide
  · exact g2 2 (by intro i hi j hj; omega)

/-- An argument that does not fit the BLAS integer is reported; there is no result to write. -/
theorem C46_too_large (cap : ℕ) (cplx ta tb : Bool) (m n k : ℕ) (alpha : K) (a : ℕ → K) (lda : ℕ) (b : ℕ → K)
    (ldb : ℕ) (beta : K) (c : ℕ → K) (ldc : ℕ)
    (h : cap < m ∨ cap < n ∨ cap < k ∨ cap < lda ∨ cap < ldb ∨ cap < ldc) :
    gemm cap cplx ta tb m n k alpha a lda b ldb beta c ldc = .err PRIMME_UNEXPECTED_FAILURE := by
  unfold gemm
  have ht : tooLarge cap [m, n, k, lda, ldb, ldc] = true := by
    unfold tooLarge; simpa using h
  rw [if_pos ht]

/-- A complex product of one row and one column: the row is conjugated, although no transposition is asked. -/
theorem C46_gemm_violated : ∃ (a b c : ℕ → Zsqrtd (-1)) (c' : ℕ → Zsqrtd (-1)),
    gemm 100 true false false 1 1 1 1 a 1 b 1 0 c 1 = .ok c' ∧ ¬ IsGemm false false 1 1 1 1 a 1 b 1 0 c 1 c' := by
  refine ⟨fun _ => ⟨0, 1⟩, fun _ => 1, fun _ => 0, _, rfl, ?_⟩
  rintro ⟨h, -⟩
  exact absurd (h 0 (by decide) 0 (by decide)) (by decide)

/-- `A'*B` in a lower precision, in strips or not. -/
theorem C46_gemm_ddh_partial (cap block : ℕ) (hcap : 2 ≤ cap) (hb0 : 0 < block) (hb : block < cap) (cplx same : Bool)
    (m n k : ℕ) (alpha : K) (a : ℕ → K) (lda : ℕ) (b : ℕ → K) (ldb : ℕ) (beta : K) (c : ℕ → K) (ldc : ℕ) (hm : m < cap)
    (hn : n ≤ cap) (hk : same = false ∨ k < cap) (hla : lda ≤ cap) (hlb : ldb ≤ cap) (hlc : ldc ≤ cap) (hmc : m ≤ ldc)
    (hc : cplx = false → ∀ z : K, star z = z) (hk0 : 0 < k ∨ beta = 1) :
    ∃ c', gemmDdh cap block cplx same m n k alpha a lda b ldb beta c ldc = .ok c' ∧
      IsGemm true false m n k alpha a lda b ldb beta c ldc c' :=
  gemmDdh_spec cap block hcap hb0 hb cplx same m n k alpha a lda b ldb beta c ldc hm hn hk hla hlb hlc hmc hc hk0

/-- Seven rows in strips of three. -/
example : ∃ c', gemmDdh 100 3 false false 1 1 7 (1 : ℤ) (fun t => (t : ℤ)) 9 (fun t => (t : ℤ)) 8 0 (fun _ => 5) 2 = .ok c' ∧
    c' 0 = 91 ∧ c' 1 = 5 := by
  obtain ⟨c', e, g1, g2⟩ := C46_gemm_ddh_partial 100 3 (by decide) (by decide) (by decide) false false 1 1 7 (1 : ℤ)
    (fun t => (t : ℤ)) 9 (fun t => (t : ℤ)) 8 0 (fun _ => 5) 2 (by decide) (by decide) (Or.inl rfl) (by decide) (by decide)
    (by decide) (by decide) (by intro _ z; rfl) (Or.inl (by decide))
  refine ⟨c', e, ?_, ?_⟩
  · rw [show (0 : ℕ) = 0 * 2 + 0 from rfl, g1 0 (by decide) 0 (by decide)]; decide
  · exact g2 1 (by intro i hi j hj; omega)

/-- With no rows the output is left as it was, whatever `beta`. -/
theorem C46_gemm_ddh_violated (cap block : ℕ) (cplx same : Bool) (a b c : ℕ → K) (hc : c 0 ≠ 0) :
    gemmDdh cap block cplx same 1 1 0 1 a 1 b 1 0 c 1 = .ok c ∧ ¬ IsGemm true false 1 1 0 1 a 1 b 1 0 c 1 c := by
  constructor
  · unfold gemmDdh
    by_cases h : (0 : K) = 1
    · rw [if_pos (Or.inr (Or.inr ⟨Or.inl rfl, h⟩))]
    · rw [if_neg (by rintro (h1 | h1 | ⟨-, h1⟩); exact absurd h1 (by decide); exact absurd h1 (by decide); exact h h1)]
      rfl
  · rintro ⟨h, -⟩
    have := h 0 (by decide) 0 (by decide)
    simp at this
    exact hc this

/-- `A*B` in a lower precision. -/
theorem C46_gemm_dhd (cap : ℕ) (hcap : 2 ≤ cap) (cplx same : Bool) (m n k : ℕ) (alpha : K) (a : ℕ → K) (lda : ℕ) (b : ℕ → K)
    (ldb : ℕ) (beta : K) (c : ℕ → K) (ldc : ℕ) (hm : m < cap) (hn : n ≤ cap) (hk : k < cap) (hla : lda ≤ cap)
    (hlb : ldb ≤ cap) (hlc : ldc ≤ cap) (hma : m ≤ lda) (hmc : m ≤ ldc) (hc : cplx = false → ∀ z : K, star z = z)
    (hr : m ≠ 1 ∨ n ≠ 1 ∨ ∀ z : K, star z = z) :
    ∃ c', gemmDhd cap cplx same m n k alpha a lda b ldb beta c ldc = .ok c' ∧
      IsGemm false false m n k alpha a lda b ldb beta c ldc c' :=
  gemmDhd_spec cap hcap cplx same m n k alpha a lda b ldb beta c ldc hm hn hk hla hlb hlc hma hmc hc hr

example : ∃ c', gemmDhd 100 false false 2 2 2 (1 : ℤ) (fun t => (t : ℤ)) 4 (fun t => (t : ℤ)) 5 2 (fun _ => 1) 7 = .ok c' ∧
    c' 8 = 2 + (1 * 5 + 5 * 6) ∧ c' 2 = 1 := by
  obtain ⟨c', e, g1, g2⟩ := C46_gemm_dhd 100 (by decide) false false 2 2 2 (1 : ℤ) (fun t => (t : ℤ)) 4 (fun t => (t : ℤ)) 5 2
    (fun _ => 1) 7 (by decide) (by decide) (by decide) (by decide) (by decide) (by decide) (by decide) (by decide)
    (by intro _ z; rfl) (Or.inl (by decide))
  refine ⟨c', e, ?_, ?_⟩
  · rw [show (8 : ℕ) = 1 * 7 + 1 from rfl, g1 1 (by decide) 1 (by decide)]; decide
  · exact g2 2 (by intro i hi j hj; omega)

/-- Overlaps `Q'*v` over all processes, if each of them has rows: the sum of the local ones, whatever was in the new arrays. -/
theorem C46_overlaps_partial (cap block : ℕ) (hcap : 2 ≤ cap) (hb0 : 0 < block) (hb : block < cap) (cplx same : Bool)
    (cols bs : ℕ) (hc : cols < cap) (hbs : bs ≤ cap) (hs : cplx = false → ∀ z : K, star z = z) (ps : List (Blas.Part K))
    (h : ∀ p ∈ ps, 0 < p.rows ∧ p.rows < cap ∧ p.ldq ≤ cap ∧ p.ldv ≤ cap) :
    ∃ o, allOverlaps cap block cplx same cols bs ps = .ok o ∧ ∀ i < cols, ∀ j < bs,
      o (j * cols + i) = (ps.map (fun p => Inner p.rows (Col p.q p.ldq i) (Col p.v p.ldv j))).sum :=
  allOverlaps_spec cap block hcap hb0 hb cplx same cols bs hc hbs hs ps h

/-- Two processes with different layouts. -/
example : ∃ o, allOverlaps 100 3 false true 1 1
    [⟨2, fun t => (t : ℤ), 2, fun t => (t : ℤ), 3, fun _ => 9⟩, ⟨3, fun _ => 1, 3, fun _ => 2, 4, fun _ => 9⟩] = .ok o ∧
    o 0 = 7 := by
  obtain ⟨o, e, g⟩ := C46_overlaps_partial 100 3 (by decide) (by decide) (by decide) false true 1 1 (by decide) (by decide)
    (by intro _ z; rfl) [⟨2, fun t => (t : ℤ), 2, fun t => (t : ℤ), 3, fun _ => 9⟩, ⟨3, fun _ => 1, 3, fun _ => 2, 4, fun _ => 9⟩]
    (by intro p hp; fin_cases hp <;> decide)
  exact ⟨o, e, by rw [show (0 : ℕ) = 0 * 1 + 0 from rfl, g 0 (by decide) 0 (by decide)]; decide⟩

/-- A process without rows adds whatever its new array contained. -/
theorem C46_overlaps_violated (cap block : ℕ) (cplx same : Bool) (z : ℤ) :
    ∃ o, allOverlaps cap block cplx same 1 1 [⟨0, fun _ => 0, 1, fun _ => 0, 1, fun _ => z⟩] = .ok o ∧ o 0 = z := by
  refine ⟨fun t => z + 0, ?_, by simp⟩
  unfold allOverlaps overlaps
  have : gemmDdh cap block cplx same 1 1 0 (1 : ℤ) (fun _ => 0) 1 (fun _ => 0) 1 0 (fun _ => z) 1 = .ok (fun _ => z) := by
    unfold gemmDdh
    rw [if_neg (by decide)]
    rfl
  rw [this]
  rfl

/-- One orthogonalisation of a vector against orthonormal columns leaves it orthogonal to all of them, and only its rows are
written; as long as the columns have no padding, or need conversion, and (complex) there is more than one row. -/
theorem C46_deflate_partial (cap : ℕ) (hcap : 2 ≤ cap) (cplx same : Bool) (rows n : ℕ) (cols : ℕ → K) (ld : ℕ) (v : ℕ → K)
    (hn : n < cap) (hrows : rows ≤ cap) (hld : same = true → ld = rows) (h1 : rows ≠ 1 ∨ ∀ z : K, star z = z)
    (ho : ∀ j < n, ∀ j' < n, Inner rows (Col cols ld j) (Col cols ld j') = if j = j' then 1 else 0) :
    ∃ v', deflate cap cplx same rows n cols ld v = .ok v' ∧
      (∀ j < n, Inner rows (Col cols ld j) v' = 0) ∧ ∀ i, rows ≤ i → v' i = v i := by
  obtain ⟨v', e, g1, g2⟩ := deflate_spec cap hcap cplx same rows n cols ld v hn hrows hld h1
  exact ⟨v', e, deflated_orth rows n (Col cols ld) v v' ho (by intro i hi; rw [g1 i hi]; rfl), g2⟩

/-- Two columns with padding, converted. -/
example : ∃ v', deflate 100 false false 3 2 (fun t => if t = 0 ∨ t = 6 then (1 : ℤ) else if t = 3 ∨ t = 4 then 7 else 0) 5
    (fun t => (t : ℤ) + 1) = .ok v' ∧ v' 0 = 0 ∧ v' 3 = 4 := by
  obtain ⟨v', e, g1, g2⟩ := C46_deflate_partial 100 (by decide) false false 3 2
    (fun t => if t = 0 ∨ t = 6 then (1 : ℤ) else if t = 3 ∨ t = 4 then 7 else 0) 5 (fun t => (t : ℤ) + 1) (by decide) (by decide)
    (by simp) (Or.inl (by decide)) (by decide)
  refine ⟨v', e, ?_, by rw [g2 3 (by decide)]; rfl⟩
  have := g1 0 (by decide)
  simpa [Inner, Col, sum_range_succ] using this

/-- In the working precision with padding, the second column is not removed: what is taken for it is the padding and part of
the column. -/
theorem C46_deflate_violated : ∃ (cols v : ℕ → ℤ) (v' : ℕ → ℤ), deflate 100 false true 2 2 cols 3 v = .ok v' ∧
    (∀ j < 2, ∀ j' < 2, Inner 2 (Col cols 3 j) (Col cols 3 j') = if j = j' then 1 else 0) ∧
    Inner 2 (Col cols 3 1) v' ≠ 0 := by
  refine ⟨fun t => if t = 0 ∨ t = 4 then 1 else if t = 2 then 9 else 0, fun _ => 1, _, rfl, by decide, by decide⟩

/-- With one row the complex update is made with the conjugate. -/
theorem C46_deflate_row_violated : ∃ (cols v : ℕ → Zsqrtd (-1)) (v' : ℕ → Zsqrtd (-1)),
    deflate 100 true true 1 1 cols 1 v = .ok v' ∧ Inner 1 (Col cols 1 0) (Col cols 1 0) = 1 ∧ Inner 1 (Col cols 1 0) v' ≠ 0 := by
  refine ⟨fun _ => ⟨0, 1⟩, fun _ => 1, _, rfl, by decide, by decide⟩

end Verif.Props
