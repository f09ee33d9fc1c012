import Verif.Model.Factor
import Mathlib.Algebra.Field.Rat
import Mathlib.Algebra.Order.Ring.Abs
import Mathlib.Algebra.Order.Ring.Rat
import Mathlib.Tactic.FieldSimp
import Mathlib.Tactic.NormNum
import Mathlib.Tactic.Linarith
import Mathlib.Tactic.IntervalCases
import Mathlib.Tactic.Ring

/-!
# C73: a factorized matrix serves any number of solves
-/

namespace Verif.Props
open Verif Verif.Factor Finset

variable {K : Type}

/-- **C73**, any number of solves: with the LAPACK functions for Hermitian matrices, every solve with one factorization, however many there
were before, gives the solution for the Hermitian matrix of which the upper triangle was given.  Missing: the build of the R package
(`C73_again_violated`, `C73_first`). -/
theorem C73_solves_partial [Field K] (small : K → Prop) (conj : K → K) (n ld : ℕ) (a : ℕ → K) (h1 : n = 1 → a 0 ≠ 0)
    (l : List ((ℕ → K) × (ℕ → K))) (h : Session small conj n ld (factorize false conj n ld a) l) :
    ∀ q ∈ l, Solves n (herm conj ld a) q.1 q.2 := by
  have hf : factorize false conj n ld a = .ldl a := rfl
  rw [hf] at h
  induction l with
  | nil => intro q hq; cases hq
  | cons q l ih =>
    obtain ⟨b, x⟩ := q
    intro q hq
    unfold Session at h
    by_cases hn : n = 1
    · rw [if_pos hn] at h
      rcases List.mem_cons.1 hq with rfl | hq
      · intro i hi
        subst hn
        have : i = 0 := by omega
        subst this
        have ha := h1 rfl
        simp only [sum_range_one, herm, le_refl, if_true, entry, Nat.mul_zero, Nat.add_zero, h.1]
        field_simp
      · exact ih h.2 q hq
    · rw [if_neg hn] at h
      obtain ⟨a', ⟨rfl, hs⟩, hl⟩ := h
      rcases List.mem_cons.1 hq with rfl | hq
      · exact hs
      · exact ih hl q hq

private theorem store_self (a : ℕ → K) (d : ℕ) (v : K) : store a d v d = v := if_pos rfl

private theorem store_ne (a : ℕ → K) {d k : ℕ} (v : K) (h : k ≠ d) : store a d v k = a k := if_neg h

private theorem row_spec (conj : K → K) (ld i : ℕ) (a : ℕ → K) (hi : i < ld) :
    (∀ j < i, mirrorRow conj ld i a (ld * j + i) = conj (a (ld * i + j))) ∧
    ∀ k, (∀ j < i, k ≠ ld * j + i) → mirrorRow conj ld i a k = a k := by
  have key : ∀ c ≤ i, (∀ j < c, (List.range c).foldl (fun a j => store a (ld * j + i) (conj (a (ld * i + j)))) a (ld * j + i) =
      conj (a (ld * i + j))) ∧
      ∀ k, (∀ j < c, k ≠ ld * j + i) → (List.range c).foldl (fun a j => store a (ld * j + i) (conj (a (ld * i + j)))) a k = a k := by
    intro c
    induction c with
    | zero => exact fun _ => ⟨fun j hj => absurd hj (by omega), fun k _ => rfl⟩
    | succ c ih =>
      intro hc
      obtain ⟨h1, h2⟩ := ih (by omega)
      rw [List.range_succ, List.foldl_append, List.foldl_cons, List.foldl_nil]
      have hsrc : ∀ j < c, ld * i + c ≠ ld * j + i := by
        intro j hj he
        have : ld * (j + 1) ≤ ld * i := Nat.mul_le_mul_left _ (by omega)
        rw [Nat.mul_add] at this
        omega
      refine ⟨fun j hj => ?_, fun k hk => ?_⟩
      · by_cases hjc : j = c
        · subst hjc
          rw [store_self, h2 _ hsrc]
        · have hne : ld * j + i ≠ ld * c + i := by
            intro he
            have : ld * (j + 1) ≤ ld * c := Nat.mul_le_mul_left _ (by omega)
            rw [Nat.mul_add] at this
            omega
          rw [store_ne _ _ hne]
          exact h1 j (by omega)
      · rw [store_ne _ _ (hk c (by omega))]
        exact h2 k (fun j hj => hk j (by omega))
  exact key i le_rfl

private theorem addr {ld i j i' j' : ℕ} (hi : i < ld) (hi' : i' < ld) (h : ld * j + i = ld * j' + i') : i = i' ∧ j = j' := by
  rcases Nat.lt_trichotomy j j' with hj | hj | hj
  · have : ld * (j + 1) ≤ ld * j' := Nat.mul_le_mul_left _ hj
    rw [Nat.mul_add] at this
    omega
  · subst hj
    omega
  · have : ld * (j' + 1) ≤ ld * j := Nat.mul_le_mul_left _ hj
    rw [Nat.mul_add] at this
    omega

/-- **C73**, the copy: the array becomes the full Hermitian matrix with the upper triangle given, and nothing outside of the lower triangle
is written. -/
theorem C73_mirror (conj : K → K) (n ld : ℕ) (hn : n ≤ ld) (a : ℕ → K) :
    (∀ i < n, ∀ j < n, entry ld (mirror conj n ld a) i j = herm conj ld a i j) ∧
    ∀ k, (∀ i < n, ∀ j < i, k ≠ ld * j + i) → mirror conj n ld a k = a k := by
  have key : ∀ c, c + 1 ≤ ld → (∀ i < c + 1, ∀ j < i,
      (List.range' 1 c).foldl (fun a i => mirrorRow conj ld i a) a (ld * j + i) = conj (a (ld * i + j))) ∧
      ∀ k, (∀ i < c + 1, ∀ j < i, k ≠ ld * j + i) → (List.range' 1 c).foldl (fun a i => mirrorRow conj ld i a) a k = a k := by
    intro c
    induction c with
    | zero => exact fun _ => ⟨fun i hi j hj => by omega, fun k _ => rfl⟩
    | succ c ih =>
      intro hc
      obtain ⟨h1, h2⟩ := ih (by omega)
      rw [List.range'_concat, List.foldl_append, List.foldl_cons, List.foldl_nil, Nat.one_mul, Nat.add_comm 1 c]
      obtain ⟨h3, h4⟩ := row_spec conj ld (c + 1) ((List.range' 1 c).foldl (fun a i => mirrorRow conj ld i a) a) (by omega)
      refine ⟨fun i hi j hj => ?_, fun k hk => ?_⟩
      · by_cases hic : i = c + 1
        · subst hic
          rw [h3 j hj, h2]
          intro i' hi' j' hj' he
          have := addr (by omega) (by omega) he
          omega
        · rw [h4 _ (fun j' hj' he => by have := addr (by omega) (by omega) he; omega)]
          exact h1 i (by omega) j hj
      · rw [h4 k (fun j hj => hk (c + 1) (by omega) j hj)]
        exact h2 k (fun i hi j hj => hk i (by omega) j hj)
  rcases Nat.eq_zero_or_pos n with rfl | hpos
  · exact ⟨fun i hi => absurd hi (by omega), fun k _ => rfl⟩
  obtain ⟨h1, h2⟩ := key (n - 1) (by omega)
  rw [show n - 1 + 1 = n by omega] at h1 h2
  refine ⟨fun i hi j hj => ?_, h2⟩
  unfold herm entry mirror
  by_cases hij : i ≤ j
  · rw [if_pos hij]
    refine h2 _ (fun i' hi' j' hj' he => ?_)
    have := addr (by omega) (by omega) he
    omega
  · rw [if_neg hij]
    exact h1 i hi j (by omega)

/-- **C73**, the first solve in the build of the R package: it gives the solution for the Hermitian matrix. -/
theorem C73_first [Field K] (small : K → Prop) (conj : K → K) (n ld : ℕ) (hn : n ≤ ld) (a b x : ℕ → K) (h1 : n = 1 → a 0 ≠ 0)
    (l : List ((ℕ → K) × (ℕ → K))) (h : Session small conj n ld (factorize true conj n ld a) ((b, x) :: l)) :
    Solves n (herm conj ld a) b x := by
  have hf : factorize true conj n ld a = .full (mirror conj n ld a) := rfl
  rw [hf] at h
  have hm := (C73_mirror conj n ld hn a).1
  unfold Session at h
  by_cases hn1 : n = 1
  · rw [if_pos hn1] at h
    subst hn1
    intro i hi
    have : i = 0 := by omega
    subst this
    have ha := h1 rfl
    have h0 : mirror conj 1 ld a 0 = a 0 := rfl
    simp only [sum_range_one, herm, le_refl, if_true, entry, Nat.mul_zero, Nat.add_zero, h.1, h0]
    field_simp
  · rw [if_neg hn1] at h
    obtain ⟨a', ⟨hs, -⟩, -⟩ := h
    intro i hi
    rw [← hs i hi]
    refine sum_congr rfl (fun j hj => ?_)
    rw [hm i hi j (mem_range.1 hj)]

/-- **C73**, one unknown: every solve gives the solution in both builds. -/
theorem C73_one [Field K] (small : K → Prop) (conj : K → K) (zgesv : Bool) (ld : ℕ) (a : ℕ → K) (h1 : a 0 ≠ 0)
    (l : List ((ℕ → K) × (ℕ → K))) (h : Session small conj 1 ld (factorize zgesv conj 1 ld a) l) :
    ∀ q ∈ l, Solves 1 (herm conj ld a) q.1 q.2 := by
  cases zgesv with
  | false => exact C73_solves_partial small conj 1 ld a (fun _ => h1) l h
  | true =>
    have hf : factorize true conj 1 ld a = .full a := rfl
    rw [hf] at h
    induction l with
    | nil => intro q hq; cases hq
    | cons q l ih =>
      obtain ⟨b, x⟩ := q
      intro q hq
      unfold Session at h
      rw [if_pos rfl] at h
      rcases List.mem_cons.1 hq with rfl | hq
      · intro i hi
        have : i = 0 := by omega
        subst this
        simp only [sum_range_one, herm, le_refl, if_true, entry, Nat.mul_zero, Nat.add_zero, h.1]
        field_simp
      · exact ih h.2 q hq

/-- A session of three solves with the matrix with rows (2, 1) and (1, 2) and the LAPACK functions for Hermitian matrices. -/
example : Session (fun t : ℚ => |t| ≤ 1) id 2 2 (factorize false id 2 2 (fun k => if k = 2 then 1 else 2))
    [(fun _ => 3, fun _ => 1), (fun _ => 6, fun _ => 2), (fun _ => 3, fun _ => 1)] := by
  have h : ∀ c : ℚ, Solves 2 (herm id 2 (fun k => if k = 2 then (1 : ℚ) else 2)) (fun _ => 3 * c) (fun _ => c) := by
    intro c i hi
    interval_cases i <;> norm_num [sum_range_succ, herm, entry] <;> ring
  refine ⟨_, ⟨rfl, ?_⟩, _, ⟨rfl, ?_⟩, _, ⟨rfl, ?_⟩, trivial⟩
  · simpa using h 1
  · have := h 2
    norm_num at this
    exact this
  · simpa using h 1

/-- The matrix with rows (2, 1) and (1, 2), of which the upper triangle is given, column by column. -/
def C73_a : ℕ → ℚ := fun k => if k = 0 then 2 else if k = 2 then 1 else if k = 3 then 2 else 0

private theorem mirror_a (k : ℕ) : mirror id 2 2 C73_a k = if k = 0 then 2 else if k = 1 then 1 else if k = 2 then 1 else
    if k = 3 then 2 else 0 := by
  have h : mirror id 2 2 C73_a k = if k = 1 then C73_a 2 else C73_a k := by
    simp [mirror, mirrorRow, store, List.range_succ]
  rw [h]
  by_cases hk : k = 1
  · subst hk
    norm_num [C73_a]
  · simp [hk, C73_a]

/-- In the build of the R package the second solve with one factorization is wrong: the first has replaced the matrix by its factors, which are
taken for the matrix.  For a right-hand side given twice, the second result is never a solution. -/
theorem C73_again_violated :
    (∃ x y : ℕ → ℚ, Session (fun t => |t| ≤ 1) id 2 2 (factorize true id 2 2 C73_a) [(fun _ => 3, x), (fun _ => 3, y)]) ∧
    ∀ x y : ℕ → ℚ, Session (fun t => |t| ≤ 1) id 2 2 (factorize true id 2 2 C73_a) [(fun _ => 3, x), (fun _ => 3, y)] →
      ¬ Solves 2 (herm id 2 C73_a) (fun _ => 3) y := by
  constructor
  · refine ⟨fun _ => 1, fun i => if i = 0 then 3 / 5 else 9 / 5, ?_⟩
    refine ⟨.full (fun k => if k = 0 then 2 else if k = 1 then 1 / 2 else if k = 2 then 1 else 3 / 2), ⟨?_, _, rfl, ?_, id, ?_⟩,
      .full (fun k => if k = 0 then 2 else if k = 1 then 1 / 4 else if k = 2 then 1 else 5 / 4), ⟨?_, _, rfl, ?_, id, ?_⟩, trivial⟩
    · intro i hi
      interval_cases i <;> norm_num [sum_range_succ, entry, mirror_a]
    · intro i hi k hk
      have : i = 1 := by omega
      subst this
      have : k = 0 := by omega
      subst this
      norm_num [entry, abs_le]
    · refine ⟨fun i hi => hi, fun i _ j _ h => h, fun i hi j hj => ?_⟩
      interval_cases i <;> interval_cases j <;> norm_num [sum_range_succ, entry, mirror_a]
    · intro i hi
      interval_cases i <;> norm_num [sum_range_succ, entry]
    · intro i hi k hk
      have : i = 1 := by omega
      subst this
      have : k = 0 := by omega
      subst this
      norm_num [entry, abs_le]
    · refine ⟨fun i hi => hi, fun i _ j _ h => h, fun i hi j hj => ?_⟩
      interval_cases i <;> interval_cases j <;> norm_num [sum_range_succ, entry]
  · intro x y h hy
    obtain ⟨a', ⟨-, f, rfl, hsm, p, hp, hinj, hlu⟩, a'', ⟨hs, -⟩, -⟩ := h
    have hsm := hsm 1 (by omega) 0 (by omega)
    have e00 := hlu 0 (by omega) 0 (by omega)
    have e01 := hlu 0 (by omega) 1 (by omega)
    have e10 := hlu 1 (by omega) 0 (by omega)
    have e11 := hlu 1 (by omega) 1 (by omega)
    have s0 := hs 0 (by omega)
    have s1 := hs 1 (by omega)
    have y0 := hy 0 (by omega)
    have y1 := hy 1 (by omega)
    have p0 := hp 0 (by omega)
    have p1 := hp 1 (by omega)
    have pne : p 0 ≠ p 1 := fun hc => by have := hinj 0 (by omega) 1 (by omega) hc; omega
    generalize hP0 : p 0 = P0 at *
    generalize hP1 : p 1 = P1 at *
    simp only [sum_range_succ, range_zero, sum_empty, entry, herm, C73_a, mirror_a] at *
    norm_num at *
    have hy0 : y 0 = 1 := by linarith
    have hy1 : y 1 = 1 := by linarith
    rw [hy0, hy1] at s1
    clear hlu hs hy
    interval_cases P0 <;> interval_cases P1 <;> norm_num at e00 e01 e10 e11 pne
    · have a0 : f 0 = 2 := by linarith
      have a2 : f 2 = 1 := by linarith
      rw [a0] at e10
      rw [a2] at e11
      linarith
    · have a0 : f 0 = 1 := by linarith
      rw [a0] at e10
      have a1 : f 1 = 2 := by linarith
      rw [a1] at hsm
      norm_num at hsm

end Verif.Props
