import Verif.Model.ReturnVecs
import Verif.Props.C18_Permute
import Mathlib.Tactic.Ring
import Mathlib.Tactic.Linarith

/-! # C44: the eigenvectors arrive at their places in the caller's array

The main iteration has put `k ≥ initSize` vectors `v 0, …` after the `numOrthoConst` constraint vectors, and `perm` says which of them
belongs to which value.  `e` is the caller's array with leading dimension `ldevecs`, and room for `cols` columns, and `e'` the same
array after the call.  `cast`: the type of the array is not the working precision, so that the main iteration works on a copy. -/

namespace Verif.Props
open Verif Verif.Mem Verif.Spec Verif.ReturnVecs

/-- Element `r` of column `c`. -/
def C44_at {α : Type u} (ld : ℕ) (e : Buf α) (c r : ℕ) : α := e.data (c * ld + r)

theorem C44_divmod {ld c r : ℕ} (h : r < ld) : (c * ld + r) / ld = c ∧ (c * ld + r) % ld = r := by
  constructor
  · rw [Nat.add_comm, Nat.add_mul_div_right _ _ (by omega), Nat.div_eq_of_lt h, Nat.zero_add]
  · rw [Nat.add_comm, Nat.add_mul_mod_self_right, Nat.mod_eq_of_lt h]

theorem C44_inner {α : Type u} {oc nLocal cols k initSize ld : ℕ} {v : ℕ → ℕ → α} {perm : ℕ → ℕ} {b : Buf α}
    (hp : IsPermOn initSize perm) (hk : initSize ≤ k) (hcols : oc + k ≤ cols) (hld : nLocal ≤ ld)
    (hroom : ∀ c, c < cols → c * ld + nLocal ≤ b.size) :
    ∃ b', finalPermute oc nLocal initSize ld (store oc nLocal k ld v b) perm = some b' ∧ b'.size = b.size ∧
      (∀ j r, j < initSize → r < nLocal → C44_at ld b' (oc + j) r = v (perm j) r) ∧
      (∀ c r, r < ld → ¬ (r < nLocal ∧ oc ≤ c ∧ c < oc + k) → C44_at ld b' c r = C44_at ld b c r) := by
  obtain ⟨out, h1, h2, h3, h4⟩ := C18_permute_vecs_gather nLocal initSize ld
    (⟨b.size - oc * ld, fun a => (store oc nLocal k ld v b).data (oc * ld + a)⟩ : Buf α) perm hp hld (by
      intro i hi
      have := hroom (oc + i) (by omega)
      rw [Nat.add_mul] at this
      show i * ld + nLocal ≤ b.size - oc * ld
      omega)
  have hst : ∀ c r, r < ld → (store oc nLocal k ld v b).data (c * ld + r) =
      if r < nLocal ∧ oc ≤ c ∧ c < oc + k then v (c - oc) r else b.data (c * ld + r) := by
    intro c r hr
    obtain ⟨d1, d2⟩ := C44_divmod (c := c) hr
    unfold store
    dsimp only
    rw [d1, d2]
  refine ⟨⟨b.size, fun a => if oc * ld ≤ a then out.data (a - oc * ld) else (store oc nLocal k ld v b).data a⟩, ?_, rfl, ?_, ?_⟩
  · unfold finalPermute permuteAt
    show (Permute.permuteVecs _ _ _ ⟨b.size - oc * ld, _⟩ perm).bind _ = _
    rw [h1]
    rfl
  · intro j r hj hr
    unfold C44_at
    dsimp only
    rw [if_pos (by rw [Nat.add_mul]; omega)]
    have e1 : (oc + j) * ld + r - oc * ld = j * ld + r := by rw [Nat.add_mul]; omega
    rw [e1, h3 j r hj hr]
    dsimp only
    have e2 : oc * ld + (perm j * ld + r) = (oc + perm j) * ld + r := by ring
    rw [e2, hst _ _ (by omega), if_pos ⟨hr, by omega, by have := hp.1 j hj; omega⟩]
    congr 1
    omega
  · intro c r hr hc
    unfold C44_at
    dsimp only
    split
    · rename_i hle
      have hoc : oc ≤ c := by
        by_contra hq
        have : (c + 1) * ld ≤ oc * ld := Nat.mul_le_mul_right _ (by omega)
        rw [Nat.add_mul] at this
        omega
      have e1 : c * ld + r - oc * ld = (c - oc) * ld + r := by
        obtain ⟨d, rfl⟩ : ∃ d, c = oc + d := ⟨c - oc, by omega⟩
        rw [Nat.add_mul]
        have : oc + d - oc = d := by omega
        rw [this]
        omega
      have hnot : ¬ InMatrix nLocal initSize ld (c * ld + r - oc * ld) := by
        rw [e1]
        rintro ⟨i, q, hi, hq, he⟩
        obtain ⟨d1, d2⟩ := C44_divmod (c := c - oc) hr
        obtain ⟨d3, d4⟩ := C44_divmod (ld := ld) (c := i) (r := q) (by omega)
        rw [he] at d1 d2
        exact hc ⟨by omega, hoc, by omega⟩
      rw [h4 _ hnot]
      dsimp only
      have e2 : oc * ld + (c * ld + r - oc * ld) = c * ld + r := by omega
      rw [e2, hst _ _ hr, if_neg hc]
    · rw [hst _ _ hr, if_neg hc]

/-- If the array has the working precision, or its leading dimension is the number of its rows, then the call accesses nothing
out of range, the vector of the `j`-th value is in column `numOrthoConst + j`, for all the `initSize` reported pairs (up to `numRet` if
the array was converted), and the constraint vectors and all the columns after the `k`-th are unchanged. -/
theorem C44_delivery_partial {α : Type u} (cast : Bool) (oc nLocal cols k initSize numRet ldevecs : ℕ) (v : ℕ → ℕ → α) (perm : ℕ → ℕ)
    (e : Buf α) (hp : IsPermOn initSize perm) (hk : initSize ≤ k) (hcols : oc + k ≤ cols) (hld : nLocal ≤ ldevecs)
    (hroom : ∀ c, c < cols → c * ldevecs + nLocal ≤ e.size) (hret : numRet ≤ k)
    (hsame : cast = false ∨ ldevecs = nLocal) :
    ∃ e', deliver cast oc nLocal cols k initSize numRet ldevecs v perm e = some e' ∧ e'.size = e.size ∧
      (∀ j r, j < initSize → r < nLocal → cast = false ∨ j < numRet → C44_at ldevecs e' (oc + j) r = v (perm j) r) ∧
      (∀ c r, r < ldevecs → c < oc ∨ oc + k ≤ c → C44_at ldevecs e' c r = C44_at ldevecs e c r) := by
  cases cast with
  | false =>
    obtain ⟨b', h1, h2, h3, h4⟩ := C44_inner (v := v) hp hk hcols hld hroom
    refine ⟨b', ?_, h2, fun j r hj hr _ => h3 j r hj hr, fun c r hr hc => h4 c r hr (by omega)⟩
    unfold deliver castIn
    show (finalPermute _ _ _ _ _ _).bind _ = _
    simp only [Bool.false_eq_true, if_false]
    rw [h1]
    rfl
  | true =>
    have hld' : ldevecs = nLocal := hsame.resolve_left (by decide)
    subst hld'
    obtain ⟨b', h1, h2, h3, h4⟩ := C44_inner (v := v) (b := ⟨cols * ldevecs, fun a => e.data (a / ldevecs * ldevecs + a % ldevecs)⟩) hp hk hcols
      (Nat.le_refl _) (by
        intro c hc
        have : (c + 1) * ldevecs ≤ cols * ldevecs := Nat.mul_le_mul_right _ (by omega)
        rw [Nat.add_mul] at this
        show c * ldevecs + ldevecs ≤ cols * ldevecs
        omega)
    refine ⟨castOut true oc ldevecs numRet ldevecs ldevecs b' e, ?_, rfl, fun j r hj hr hc => ?_, fun c r hr hc => ?_⟩
    · unfold deliver castIn
      show (finalPermute _ _ _ _ _ _).bind _ = _
      simp only [if_true]
      rw [h1]
      rfl
    · have hj' : j < numRet := hc.resolve_left (by decide)
      rw [← h3 j r hj hr]
      unfold C44_at castOut
      simp only [if_true]
      obtain ⟨d1, d2⟩ := C44_divmod (c := oc + j) hr
      rw [d1, d2, if_pos ⟨hr, by omega, by omega⟩]
    · unfold C44_at castOut
      simp only [if_true]
      obtain ⟨d1, d2⟩ := C44_divmod (c := c) hr
      rw [d1, d2, if_neg (by omega)]

/-- A caller's array with three columns of two rows, leading dimension three: one constraint vector, two pairs found in the wrong order. -/
def C44_e : Buf ℕ := ⟨9, fun a => a⟩
def C44_v : ℕ → ℕ → ℕ := fun j r => 100 + 10 * j + r
def C44_swap : ℕ → ℕ := fun i => if i = 0 then 1 else if i = 1 then 0 else i

example : IsPermOn 2 C44_swap ∧ (∀ c, c < 3 → c * 3 + 2 ≤ C44_e.size) ∧
    (deliver false 1 2 3 2 2 2 3 C44_v C44_swap C44_e).map (fun b => (List.range 9).map b.data) = some [0, 1, 2, 110, 111, 5, 100, 101, 8] ∧
    (deliver true 1 2 3 2 2 2 2 C44_v C44_swap ⟨6, fun a => a⟩).map (fun b => (List.range 6).map b.data) = some [0, 1, 110, 111, 100, 101] := by
  refine ⟨by rw [← Permute.permCheck_iff]; decide, ?_, by decide +kernel, by decide +kernel⟩
  show ∀ c, c < 3 → c * 3 + 2 ≤ 9
  omega

/-- With a converted array whose leading dimension is not the number of its rows, the last permutation works on the copy with the
leading dimension of the original: it leaves the copy (first case), or permutes something that is not a column, so that the
vectors that are handed back are mixed (second case: room for five columns, two pairs wanted). -/
theorem C44_converted_violated :
    deliver true 1 2 3 2 2 2 3 C44_v C44_swap C44_e = none ∧
    ∃ e', deliver true 0 2 5 2 2 2 3 C44_v C44_swap ⟨15, fun a => a⟩ = some e' ∧ C44_at 3 e' 0 0 = 111 ∧ C44_at 3 e' 0 1 ≠ 111 ∧
      C44_v (C44_swap 0) 0 = 110 := by
  constructor
  · have h : (deliver true 1 2 3 2 2 2 3 C44_v C44_swap C44_e).isNone = true := by decide +kernel
    simpa using h
  · exact ⟨_, rfl, by decide +kernel, by decide +kernel, by decide +kernel⟩

end Verif.Props
