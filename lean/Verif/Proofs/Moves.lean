import Verif.Model.MatrixOps
import Verif.Spec.Moves
import Mathlib.Tactic.Ring
import Mathlib.Tactic.Linarith

/-!
# Sequences of moves in one memory
-/

namespace Verif.Mat

variable {α : Type*}

theorem assign_moves (d s : ℕ) : Moves (fun mem : ℕ → α => assign mem d s) (fun _ : Unit => True)
    (fun _ => d) (fun _ => s) := by
  intro mem
  refine ⟨fun _ _ => by simp [assign], fun a ha => ?_⟩
  have := ha () trivial
  simp [assign, this]

theorem memmove_moves (m d s : ℕ) : Moves (memmove (α := α) d s m) (fun j => j < m)
    (fun j => d + j) (fun j => s + j) := by
  intro mem
  refine ⟨fun j hj => ?_, fun a ha => ?_⟩
  · dsimp only
    unfold memmove
    rw [if_pos ⟨by omega, by omega⟩]
    congr 2
    omega
  · unfold memmove
    rw [if_neg]
    rintro ⟨h1, h2⟩
    exact ha (a - d) (by omega) (by dsimp only; omega)

theorem foldl_moves {ι κ : Type*} (op : (ℕ → α) → ι → ℕ → α) (dom : ι → κ → Prop)
    (d s : ι → κ → ℕ) (is : List ι)
    (hop : ∀ i ∈ is, Moves (fun mem => op mem i) (dom i) (d i) (s i))
    (hp : is.Pairwise fun i i' => ∀ k k', dom i k → dom i' k' →
      d i k ≠ d i' k' ∧ d i k ≠ s i' k') :
    Moves (fun mem => is.foldl op mem) (fun q : ι × κ => q.1 ∈ is ∧ dom q.1 q.2)
      (fun q => d q.1 q.2) (fun q => s q.1 q.2) := by
  induction is with
  | nil => intro mem; exact ⟨by simp, by simp⟩
  | cons i is ih =>
    rw [List.pairwise_cons] at hp
    have ih := ih (fun i' h => hop i' (List.mem_cons_of_mem _ h)) hp.2
    have h0 := hop i (List.mem_cons_self)
    intro mem
    obtain ⟨a1, a2⟩ := h0 mem
    obtain ⟨b1, b2⟩ := ih (op mem i)
    dsimp only at a1 a2 b1 b2 ⊢
    refine ⟨?_, ?_⟩
    · rintro ⟨i', k'⟩ ⟨hm, hk⟩
      simp only [List.foldl_cons] at *
      by_cases hin : i' ∈ is
      · rw [b1 (i', k') ⟨hin, hk⟩]
        refine a2 _ (fun k hk0 h => ?_)
        exact (hp.1 i' hin k k' hk0 hk).2 h.symm
      · have he : i' = i := by
          rcases List.mem_cons.1 hm with h | h
          · exact h
          · exact absurd h hin
        subst he
        rw [b2, a1 k' hk]
        rintro ⟨i2, k2⟩ ⟨h1, h2⟩
        exact (hp.1 i2 h1 k' k2 hk h2).1
    · intro a ha
      simp only [List.foldl_cons]
      rw [b2 a (fun q hq => ha q ⟨List.mem_cons_of_mem _ hq.1, hq.2⟩)]
      exact a2 a (fun k hk => ha (i, k) ⟨List.mem_cons_self, hk⟩)

theorem Moves.congr {κ κ' : Type*} {op : (ℕ → α) → ℕ → α} {dom : κ → Prop} {d s : κ → ℕ}
    {dom' : κ' → Prop} {d' s' : κ' → ℕ} (h : Moves op dom d s) (f : κ' → κ) (g : κ → κ')
    (hf : ∀ k, dom' k → dom (f k) ∧ d (f k) = d' k ∧ s (f k) = s' k)
    (hg : ∀ k, dom k → dom' (g k) ∧ d' (g k) = d k) : Moves op dom' d' s' := by
  intro mem
  obtain ⟨h1, h2⟩ := h mem
  refine ⟨fun k hk => ?_, fun a ha => h2 a (fun k hk => ?_)⟩
  · obtain ⟨e1, e2, e3⟩ := hf k hk
    rw [← e2, ← e3, h1 _ e1]
  · obtain ⟨e1, e2⟩ := hg k hk
    rw [← e2]
    exact ha _ e1

theorem range_pairwise_lt (n : ℕ) : (List.range n).Pairwise (· < ·) := List.pairwise_lt_range

theorem copyCol_moves (m y x : ℕ) (h : y ≤ x ∨ x + m ≤ y) :
    Moves (copyCol (α := α) m y x) (fun j => j < m) (fun j => y + j) (fun j => x + j) := by
  have := foldl_moves (α := α) (fun mem j => assign mem (y + j) (x + j)) (fun _ (_ : Unit) => True)
    (fun j _ => y + j) (fun j _ => x + j) (List.range m) (fun j _ => assign_moves _ _)
    (by
      refine (List.Pairwise.and_mem.1 (range_pairwise_lt m)).imp ?_
      rintro i i' ⟨h1, h2, h3⟩ - - - -
      rw [List.mem_range] at h1 h2
      omega)
  refine this.congr (fun j => (j, ())) (fun q => q.1) ?_ ?_
  · intro j hj; exact ⟨⟨List.mem_range.2 hj, trivial⟩, rfl, rfl⟩
  · rintro ⟨j, _⟩ ⟨hj, _⟩; exact ⟨List.mem_range.1 hj, rfl⟩

theorem copyRow_moves (n ldx ldy y x : ℕ) (hy : 0 < ldy)
    (h : ∀ j j', j < j' → j' < n → y + j * ldy ≠ x + j' * ldx) :
    Moves (copyRow (α := α) n ldx ldy y x) (fun j => j < n) (fun j => y + j * ldy)
      (fun j => x + j * ldx) := by
  have := foldl_moves (α := α) (fun mem j => assign mem (y + j * ldy) (x + j * ldx))
    (fun _ (_ : Unit) => True) (fun j _ => y + j * ldy) (fun j _ => x + j * ldx) (List.range n)
    (fun j _ => assign_moves _ _)
    (by
      refine (List.Pairwise.and_mem.1 (range_pairwise_lt n)).imp ?_
      rintro i i' ⟨h1, h2, h3⟩ - - - -
      rw [List.mem_range] at h1 h2
      refine ⟨?_, h i i' h3 h2⟩
      have : i * ldy < i' * ldy := Nat.mul_lt_mul_of_pos_right h3 hy
      omega)
  refine this.congr (fun j => (j, ())) (fun q => q.1) ?_ ?_
  · intro j hj; exact ⟨⟨List.mem_range.2 hj, trivial⟩, rfl, rfl⟩
  · rintro ⟨j, _⟩ ⟨hj, _⟩; exact ⟨List.mem_range.1 hj, rfl⟩

/-- Columns copied one after the other, in any order. -/
theorem cols_moves (op : (ℕ → α) → ℕ → ℕ → α) (m : ℕ) (D S : ℕ → ℕ) (is : List ℕ)
    (hop : ∀ i ∈ is, Moves (fun mem => op mem i) (fun j => j < m) (fun j => D i + j)
      (fun j => S i + j))
    (hp : is.Pairwise fun i i' => ∀ j j', j < m → j' < m →
      D i + j ≠ D i' + j' ∧ D i + j ≠ S i' + j') :
    Moves (fun mem => is.foldl op mem) (fun q : ℕ × ℕ => q.1 ∈ is ∧ q.2 < m)
      (fun q => D q.1 + q.2) (fun q => S q.1 + q.2) :=
  foldl_moves op (fun _ j => j < m) (fun i j => D i + j) (fun i j => S i + j) is hop hp

theorem col_step {m ld i i' : ℕ} (hm : m ≤ ld) (h : i < i') : i * ld + m ≤ i' * ld := by
  have : (i + 1) * ld ≤ i' * ld := Nat.mul_le_mul_right _ h
  rw [Nat.add_mul] at this
  omega

end Verif.Mat
