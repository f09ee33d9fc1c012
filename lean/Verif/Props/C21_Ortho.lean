import Verif.Proofs.Ortho
import Mathlib.Algebra.Field.Rat
import Mathlib.Algebra.Order.Ring.Rat
import Mathlib.Algebra.Module.Pi
import Mathlib.Data.Fin.VecNotation
import Mathlib.Data.Rat.Lemmas
import Mathlib.Analysis.Real.Sqrt

/-!
# C21 — Orthogonalisation delivers an orthonormal factorisation and terminates

The routine orthogonalises columns `b1 … b2` of `V` against the columns before and the locked vectors,
one after another.  Whatever the arithmetic does it stops after a bounded number of passes; in exact
arithmetic the columns it announces are orthonormal, and the old columns are the new ones times `R`, plus
the locked ones times `RLocked`.
-/

set_option linter.unusedSectionVars false
set_option linter.unusedVariables false

namespace Verif.Props
open Verif Verif.Ortho Verif.Spec.Ortho

section anyArithmetic
variable {K X : Type} [Field K] [LinearOrder K]

/-- Termination: with whatever results of the arithmetic, a column takes at most `11*3` passes (`11*7` inside the
library), and the call ends. -/
theorem C21_terminates (o : Kern K X) (g : Cfg K) (locked : List X) (b1 b2 : ℕ) (V : ℕ → X) :
    (∃ t, bortho o g locked b1 b2 V = some t) ∧ turns g = (if g.prim then 34 else 78) := by
  refine ⟨columns_terminate o g locked _ _ _, ?_⟩
  unfold turns maxNumRandoms Cfg.maxNumOrthos
  split_ifs <;> rfl

/-- What is touched: the columns announced as done and the one being worked on when the limit of random vectors is hit,
never one before `b1` or after `b2`; and no more than ten random vectors for each. -/
theorem C21_frame (o : Kern K X) (g : Cfg K) (locked : List X) (b1 b2 : ℕ) (hb : b1 ≤ b2) (V : ℕ → X) (t : St K X)
    (h : bortho o g locked b1 b2 V = some t) :
    b1 ≤ t.out ∧ t.out ≤ b2 + 1 ∧ (∀ j, j < b1 ∨ b2 < j ∨ t.out < j → t.V j = V j) ∧
      t.seed ≤ 10 * (b2 + 1 - b1) := by
  obtain ⟨a, b, c, d, e, f⟩ := columns_frame o g locked _ b1 _ t rfl h
  dsimp only at c d e f
  refine ⟨a, by omega, ?_, ?_⟩
  · intro j hj
    by_cases h1 : j < b1
    · exact (c j h1).1
    · by_cases h2 : t.out < j
      · exact d j h2
      · have h3 : j = b1 + (b2 + 1 - b1) := by omega
        rw [h3]; exact e (by omega)
  · -- one more careful count: the last column is inside the range
    have : ∀ (cnt i : ℕ) (s t : St K X), columns o g locked cnt i s = some t → t.seed ≤ s.seed + 10 * cnt := by
      intro cnt
      induction cnt with
      | zero => intro i s t h; injection h with h; subst h; omega
      | succ cnt ih =>
        intro i s t h
        unfold columns at h
        obtain ⟨⟨x, ok⟩, hc⟩ := column_terminates o g ((List.range i).map s.V) locked _ _
          (start_budget g locked s i).1 (start_budget g locked s i).2
        rw [hc] at h
        have hsd := column_seed o g _ locked _ _ _ (start_budget g locked s i).1 (Nat.zero_le _) hc
        have e1 : (start g locked i s).seed = s.seed := rfl
        have e2 : (start g locked i s).rand = 0 := rfl
        rw [e1, e2] at hsd
        dsimp only at h hsd
        unfold maxNumRandoms at hsd
        cases ok with
        | true => rw [if_pos rfl] at h; have := ih _ _ _ h; dsimp only at this; omega
        | false => rw [if_neg (by simp)] at h; injection h with h; subst h; dsimp only; omega
    have := this _ _ _ _ h
    dsimp only at this
    omega

/-- The return value says whether all the columns were done. -/
theorem C21_code (o : Kern K X) (g : Cfg K) (locked : List X) (b1 b2 : ℕ) (V : ℕ → X) (t : St K X)
    (h : bortho o g locked b1 b2 V = some t) : (code b2 t = 0 ↔ t.out = b2 + 1) ∧ (code b2 t ≠ 0 → code b2 t = -3) := by
  unfold code
  split_ifs with h1 <;> simp [h1]

end anyArithmetic

section exactArithmetic
variable {K X : Type} [Field K] [LinearOrder K] [IsStrictOrderedRing K] [AddCommGroup X] [Module K X]

/-- Orthonormality: if the locked vectors and the first `b1` columns are orthonormal, so are all the columns announced, with
the locked ones. -/
theorem C21_orthonormal (o : Kern K X) (ho : Exact o) (g : Cfg K) (locked : List X) (b1 b2 : ℕ) (V : ℕ → X)
    (hl : OrthonormalList o.ip locked) (hV : Orthonormal o.ip V b1) (hx : ∀ j, j < b1 → ∀ l ∈ locked, o.ip l (V j) = 0)
    (t : St K X) (h : bortho o g locked b1 b2 V = some t) :
    Orthonormal o.ip t.V t.out ∧ ∀ j, j < t.out → ∀ l ∈ locked, o.ip l (t.V j) = 0 := by
  obtain ⟨a, b, -⟩ := columns_exact ho g hl _ b1 _ t rfl hV hx h
  exact ⟨a, b⟩

/-- Factorisation: a column that was not replaced by a random vector is recovered from the new columns up to it, the locked
ones and the factors, with a positive diagonal factor; a column that was has diagonal factor zero, and what was dropped
of it is orthogonal to the locked vectors and the columns before. -/
theorem C21_factorisation (o : Kern K X) (ho : Exact o) (g : Cfg K) (locked : List X) (b1 b2 : ℕ) (V : ℕ → X)
    (hl : OrthonormalList o.ip locked) (hV : Orthonormal o.ip V b1) (hx : ∀ j, j < b1 → ∀ l ∈ locked, o.ip l (V j) = 0)
    (hw : g.wantR = true) (t : St K X) (h : bortho o g locked b1 b2 V = some t) (j : ℕ) (h1 : b1 ≤ j) (h2 : j < t.out) :
    (t.R j).length = j ∧ (t.RL j).length = locked.length ∧
    (t.replaced j = false → 0 < t.diag j ∧
      V j = combo (t.R j) ((List.range j).map t.V) + combo (t.RL j) locked + t.diag j • t.V j) ∧
    (t.replaced j = true → t.diag j = 0 ∧ ∃ w,
      V j = combo (t.R j) ((List.range j).map t.V) + combo (t.RL j) locked + w ∧
      (∀ k, k < j → o.ip (t.V k) w = 0) ∧ ∀ l ∈ locked, o.ip l w = 0) := by
  obtain ⟨-, -, c⟩ := columns_exact ho g hl _ b1 _ t rfl hV hx h
  have := c j h1 h2
  exact ⟨this.lenr, this.lenl, fun hr => ⟨(this.same hw hr).2, (this.same hw hr).1⟩, this.rep hw⟩

/-- Which columns are replaced: those whose part outside the span of the others has norm at most `eps` times their norm, and
no other; for those kept the factors are the inner products.  The call gives up only at such a column. -/
theorem C21_replaced_iff (o : Kern K X) (ho : Exact o) (hd : Definite o) (g : Cfg K) (he : 0 ≤ g.eps) (he1 : g.eps < 1)
    (ht : g.tol < 1) (locked : List X) (b1 b2 : ℕ) (hb : b1 ≤ b2) (V : ℕ → X)
    (hl : OrthonormalList o.ip locked) (hV : Orthonormal o.ip V b1) (hx : ∀ j, j < b1 → ∀ l ∈ locked, o.ip l (V j) = 0)
    (t : St K X) (h : bortho o g locked b1 b2 V = some t) :
    (∀ j, b1 ≤ j → j < t.out →
      (t.replaced j = true ↔ ∃ a b, o.sqrt (o.ip (V j) (V j)) = some a ∧
        o.sqrt (o.ip (remainder o.ip locked t.V j (V j)) (remainder o.ip locked t.V j (V j))) = some b ∧ b ≤ g.eps * a) ∧
      (g.wantR = true → t.replaced j = false → t.R j = (List.range j).map (fun k => o.ip (t.V k) (V j)) ∧
        t.RL j = locked.map (fun l => o.ip l (V j)))) ∧
    (t.out ≤ b2 → ∃ a b, o.sqrt (o.ip (V t.out) (V t.out)) = some a ∧
      o.sqrt (o.ip (remainder o.ip locked t.V t.out (V t.out)) (remainder o.ip locked t.V t.out (V t.out))) = some b ∧
      b ≤ g.eps * a) := by
  obtain ⟨a, b⟩ := columns_definite ho hd g he he1 ht hl _ b1 _ t rfl hV hx h
  dsimp only at a b
  constructor
  · intro j h1 h2
    obtain ⟨p, q⟩ := a j h1 h2
    unfold Negligible at p
    rw [resid_eq] at p
    rw [List.map_map] at q
    exact ⟨p, q⟩
  · intro hc
    have := b (by omega)
    unfold Negligible at this
    rw [resid_eq] at this
    exact this

end exactArithmetic

/-! ### A concrete case -/

/-- The plane over the rationals; square roots of the squares 0, 1, 4, 9, 16, 25 only. -/
def C21_kern : Kern ℚ (Fin 2 → ℚ) where
  ip := fun u v => u 0 * v 0 + u 1 * v 1
  sub := fun x a v => x - a • v
  scal := fun t x => t • x
  sqrt := fun a => if a = 0 then some 0 else if a = 1 then some 1 else if a = 4 then some 2 else if a = 9 then some 3 else
    if a = 16 then some 4 else if a = 25 then some 5 else none
  inv := fun a => if a = 0 then none else some a⁻¹
  rnd := fun k => if k = 0 then ![0, 0] else ![3, 4]

theorem C21_kern_exact : Exact C21_kern := by
  refine ⟨?_, ?_, ?_, fun _ _ _ => rfl, fun _ _ => rfl, ?_, ?_⟩
  · intro v x y; simp [C21_kern]; ring
  · intro v a x; simp [C21_kern]; ring
  · intro x y; simp [C21_kern]; ring
  · intro a r h
    simp only [C21_kern] at h
    split_ifs at h <;> injection h with h <;> subst h <;> (constructor <;> norm_num) <;> linarith
  · intro a t h
    simp only [C21_kern] at h
    split_ifs at h with h0
    injection h with h
    subst h
    exact inv_mul_cancel₀ h0

/-- What can be seen of a result: columns, `R` above the diagonal, its diagonal, which were replaced, the rank. -/
def C21_seen (x : Option (St ℚ (Fin 2 → ℚ))) : Option (List (List ℚ) × List (List ℚ) × List ℚ × List Bool × ℕ) :=
  x.map (fun t => ((List.range 2).map (fun j => [t.V j 0, t.V j 1]), (List.range 2).map t.R, (List.range 2).map t.diag,
    (List.range 2).map t.replaced, t.out))

/-- Two independent vectors: the second one is `3` times the first new one plus `4` times the second. -/
example : C21_seen (bortho C21_kern ⟨true, 7/10, 1/1000, true⟩ [] 0 1 (fun j => if j = 0 then ![2, 0] else ![3, 4])) =
    some ([[1, 0], [0, 1]], [[], [3]], [2, 4], [false, false], 2) := by decide +kernel

/-- A dependent vector: replaced by the second random vector, zero on the diagonal. -/
example : C21_seen (bortho C21_kern ⟨true, 7/10, 1/1000, true⟩ [] 0 1 (fun j => if j = 0 then ![2, 0] else ![3, 0])) =
    some ([[1, 0], [0, 1]], [[], [3]], [2, 0], [false, true], 2) := by decide +kernel

/-- The contracts of `C21_replaced_iff` are met by the reals with their square root. -/
noncomputable def C21_real : Kern ℝ ℝ where
  ip := fun u v => u * v
  sub := fun x a v => x - a • v
  scal := fun t x => t • x
  sqrt := fun a => if 0 ≤ a then some (Real.sqrt a) else none
  inv := fun a => if a = 0 then none else some a⁻¹
  rnd := fun _ => 1

example : Exact C21_real ∧ Definite C21_real := by
  refine ⟨⟨?_, ?_, ?_, fun _ _ _ => rfl, fun _ _ => rfl, ?_, ?_⟩, ⟨?_, ?_, ?_⟩⟩
  · intro v x y; simp [C21_real]; ring
  · intro v a x; simp [C21_real]; ring
  · intro x y; simp [C21_real]; ring
  · intro a r h
    simp only [C21_real] at h
    split_ifs at h with h0
    injection h with h; subst h
    exact ⟨Real.sqrt_nonneg a, Real.mul_self_sqrt h0⟩
  · intro a t h
    simp only [C21_real] at h
    split_ifs at h with h0
    injection h with h; subst h
    exact inv_mul_cancel₀ h0
  · intro x; exact mul_self_nonneg x
  · intro a ha; exact ⟨Real.sqrt a, by simp [C21_real, ha]⟩
  · intro a ha; exact ⟨a⁻¹, by simp [C21_real, ha]⟩

end Verif.Props
