import Verif.Proofs.Moves

/-!
# C37: gathering rows and columns
-/

namespace Verif.Props
open Verif.Mat

variable {α : Type*}

/-- `y(:,yin) = x(:,xin)` between arrays that do not overlap, for any list of source columns (repeated
ones included) and any distinct target columns. -/
theorem C37_columns (m n ldx ldy x y cx cy : ℕ) (xin yin : Option (ℕ → ℕ)) (hx : m ≤ ldx)
    (hy : m ≤ ldy) (hxin : ∀ i < n, idx xin i < cx) (hyin : ∀ i < n, idx yin i < cy)
    (hinj : ∀ i < n, ∀ i' < n, idx yin i = idx yin i' → i = i')
    (hdisj : x + cx * ldx ≤ y ∨ y + cy * ldy ≤ x) :
    Moves (copyColumns (α := α) m n ldx ldy x y xin yin) (fun q : ℕ × ℕ => q.1 < n ∧ q.2 < m)
      (fun q => y + idx yin q.1 * ldy + q.2) (fun q => x + idx xin q.1 * ldx + q.2) := by
  have bx : ∀ i < n, idx xin i * ldx + m ≤ cx * ldx := fun i hi => col_step hx (hxin i hi)
  have by' : ∀ i < n, idx yin i * ldy + m ≤ cy * ldy := fun i hi => col_step hy (hyin i hi)
  have h := cols_moves (α := α)
    (fun mem i => copyCol m (y + idx yin i * ldy) (x + idx xin i * ldx) mem) m
    (fun i => y + idx yin i * ldy) (fun i => x + idx xin i * ldx) (List.range n)
    (fun i hi => copyCol_moves m _ _ (by
      rw [List.mem_range] at hi
      have := bx i hi; have := by' i hi
      omega))
    (by
      refine (List.Pairwise.and_mem.1 (range_pairwise_lt n)).imp ?_
      rintro i i' ⟨hi, hi', hlt⟩ j j' hj hj'
      rw [List.mem_range] at hi hi'
      refine ⟨?_, ?_⟩
      · have hne : idx yin i ≠ idx yin i' := fun c => by have := hinj i hi i' hi' c; omega
        rcases Nat.lt_or_gt_of_ne hne with h | h
        · have := col_step hy h; omega
        · have := col_step hy h; omega
      · have := bx i' hi'; have := by' i hi
        omega)
  exact h.congr id id (fun q hq => ⟨⟨List.mem_range.2 hq.1, hq.2⟩, rfl, rfl⟩)
    (fun q hq => ⟨⟨List.mem_range.1 hq.1, hq.2⟩, rfl⟩)

/-- In place: gathering increasingly numbered columns to the front of the same array keeps every selected
column, whatever the selection. -/
theorem C37_columns_in_place (m n ld x : ℕ) (sel : ℕ → ℕ) (hld : m ≤ ld)
    (hsel : ∀ i i', i < i' → i' < n → sel i < sel i') :
    Moves (copyColumns (α := α) m n ld ld x x (some sel) none)
      (fun q : ℕ × ℕ => q.1 < n ∧ q.2 < m)
      (fun q => x + q.1 * ld + q.2) (fun q => x + sel q.1 * ld + q.2) := by
  have hge : ∀ i, i < n → i ≤ sel i := by
    intro i
    induction i with
    | zero => intro _; omega
    | succ i ih =>
      intro h
      have := ih (by omega)
      have := hsel i (i + 1) (by omega) h
      omega
  have h := cols_moves (α := α)
    (fun mem i => copyCol m (x + i * ld) (x + sel i * ld) mem) m
    (fun i => x + i * ld) (fun i => x + sel i * ld) (List.range n)
    (fun i hi => copyCol_moves m _ _ (by
      rw [List.mem_range] at hi
      have : i * ld ≤ sel i * ld := Nat.mul_le_mul_right _ (hge i hi)
      omega))
    (by
      refine (List.Pairwise.and_mem.1 (range_pairwise_lt n)).imp ?_
      rintro i i' ⟨hi, hi', hlt⟩ j j' hj hj'
      rw [List.mem_range] at hi hi'
      refine ⟨by have := col_step hld hlt; omega, ?_⟩
      have : i < sel i' := lt_of_lt_of_le hlt (hge i' hi')
      have := col_step hld this
      omega)
  exact h.congr id id (fun q hq => ⟨⟨List.mem_range.2 hq.1, hq.2⟩, rfl, rfl⟩)
    (fun q hq => ⟨⟨List.mem_range.1 hq.1, hq.2⟩, rfl⟩)

/-- `y(yim,:) = x(xim,:)` between arrays that do not overlap. -/
theorem C37_rows (m n ldx ldy x y : ℕ) (xim yim : Option (ℕ → ℕ))
    (hxim : ∀ i < m, idx xim i < ldx) (hyim : ∀ i < m, idx yim i < ldy)
    (hinj : ∀ i < m, ∀ i' < m, idx yim i = idx yim i' → i = i')
    (hdisj : x + n * ldx ≤ y ∨ y + n * ldy ≤ x) :
    Moves (copyRows (α := α) m n ldx ldy x y xim yim) (fun q : ℕ × ℕ => q.1 < m ∧ q.2 < n)
      (fun q => y + idx yim q.1 + q.2 * ldy) (fun q => x + idx xim q.1 + q.2 * ldx) := by
  have bx : ∀ i < m, ∀ j < n, idx xim i + j * ldx < n * ldx := fun i hi j hj => by
    have := hxim i hi
    have := col_step (le_refl ldx) hj
    omega
  have by' : ∀ i < m, ∀ j < n, idx yim i + j * ldy < n * ldy := fun i hi j hj => by
    have := hyim i hi
    have := col_step (le_refl ldy) hj
    omega
  have h := foldl_moves (α := α)
    (fun mem i => copyRow n ldx ldy (y + idx yim i) (x + idx xim i) mem) (fun _ j => j < n)
    (fun i j => y + idx yim i + j * ldy) (fun i j => x + idx xim i + j * ldx) (List.range m)
    (fun i hi => copyRow_moves n ldx ldy _ _ (by
        rw [List.mem_range] at hi
        have := hyim i hi; omega) (fun j j' hj hj' => by
      rw [List.mem_range] at hi
      have := bx i hi j' hj'; have := by' i hi j (by omega)
      omega))
    (by
      refine (List.Pairwise.and_mem.1 (range_pairwise_lt m)).imp ?_
      rintro i i' ⟨hi, hi', hlt⟩ j j' hj hj'
      rw [List.mem_range] at hi hi'
      refine ⟨?_, ?_⟩
      · have hne : idx yim i ≠ idx yim i' := fun c => by have := hinj i hi i' hi' c; omega
        have h1 := hyim i hi
        have h2 := hyim i' hi'
        rcases Nat.lt_trichotomy j j' with h | h | h
        · have := col_step (le_refl ldy) h; omega
        · subst h; omega
        · have := col_step (le_refl ldy) h; omega
      · have := bx i' hi' j' hj'; have := by' i hi j hj
        omega)
  exact h.congr id id (fun q hq => ⟨⟨List.mem_range.2 hq.1, hq.2⟩, rfl, rfl⟩)
    (fun q hq => ⟨⟨List.mem_range.1 hq.1, hq.2⟩, rfl⟩)

theorem C37_scan (perm : ℕ → ℕ) (n : ℕ) : ∀ k i, (∀ j < i, perm j + 1 = perm (j + 1)) →
    ∀ j < contiguousUpTo perm n k i, perm j + 1 = perm (j + 1) := by
  intro k
  induction k with
  | zero => intro i h j hj; exact h j hj
  | succ k ih =>
    intro i h j hj
    unfold contiguousUpTo at hj
    split_ifs at hj with hc
    · refine ih (i + 1) ?_ j hj
      intro j hj
      rcases Nat.lt_succ_iff_lt_or_eq.1 hj with h' | rfl
      · exact h j h'
      · exact hc.2
    · exact h j hj

/-- The compaction returns a matrix whose column `i` is the old column `perm[i]`: a pointer into the source
when copying may be avoided and the columns are consecutive, the work array otherwise (separate from the
source, or the source itself with increasing columns). -/
theorem C37_compact (m n ld vecs : ℕ) (perm : ℕ → ℕ) (work ldwork : ℕ) (avoidCopy : Bool)
    (mem : ℕ → α) (c : ℕ) (hld : m ≤ ld) (hlw : m ≤ ldwork) (hperm : ∀ i < n, perm i < c)
    (hplace : (vecs + c * ld ≤ work ∨ work + n * ldwork ≤ vecs) ∨
      (work = vecs ∧ ldwork = ld ∧ ∀ i i', i < i' → i' < n → perm i < perm i'))
    (hav : avoidCopy = true → ldwork = ld) :
    let r := compactVecs m n ld vecs perm work ldwork avoidCopy mem
    ∀ i < n, ∀ j < m, r.2 (r.1 + i * ldwork + j) = mem (vecs + perm i * ld + j) := by
  intro r i hi j hj
  by_cases hc : avoidCopy = true ∧ contiguousUpTo perm n n 0 ≥ n - 1
  · have hr : r = (vecs + ld * perm 0, mem) := if_pos hc
    rw [hr, hav hc.1]
    have hcon : ∀ i < n, perm i = perm 0 + i := by
      intro i
      induction i with
      | zero => intro _; rfl
      | succ i ih =>
        intro h
        have h1 := ih (by omega)
        have h2 := C37_scan perm n n 0 (by omega) i (by omega)
        omega
    rw [hcon i hi]
    dsimp only
    congr 1
    ring
  · have hr : r = (work, (List.range n).foldl
        (fun mem i => copyCol m (work + i * ldwork) (vecs + perm i * ld) mem) mem) := if_neg hc
    rw [hr]
    rcases hplace with hd | ⟨rfl, rfl, hs⟩
    · have := C37_columns (α := α) m n ld ldwork vecs work c n (some perm) none hld hlw hperm
        (fun i hi => hi) (fun i _ i' _ h => h) hd
      exact (this mem).1 (i, j) ⟨hi, hj⟩
    · have := C37_columns_in_place (α := α) m n ldwork work perm hld hs
      exact (this mem).1 (i, j) ⟨hi, hj⟩

/-- Three of five columns of a 2-row matrix, gathered in place. -/
example : (compactVecs 2 3 2 0 (fun i => [1, 2, 4].getD i 0) 0 2 false (fun a => a)).2 4 = 8 := by
  decide

/-- Gathering in place needs increasing columns: with columns 1, 0 the first copy destroys column 0. -/
example : (compactVecs 1 2 1 0 (fun i => [1, 0].getD i 0) 0 1 false (fun a => a)).2 1 ≠ 0 := by decide

end Verif.Props
