import Verif.Model.SvdsOperator
import Mathlib.Tactic.Ring
import Mathlib.Data.Fin.VecNotation
import Mathlib.Data.Fin.Tuple.Reflection

/-!
# C26: singular value operator products cover every column exactly once
-/

set_option linter.unusedSectionVars false

namespace Verif.Props
open Verif Verif.SvdsOp

variable {α : Type}

/-! ## Columns written by a call -/

theorem applyCols_in {mV mW : ℕ} (f : (Fin mV → α) → Fin mW → α) (x : ℕ → α) (offx ldx : ℕ)
    (y : ℕ → α) (offy ldy bs : ℕ) (hld : mW ≤ ldy) (j : ℕ) (hj : j < bs) (r : Fin mW) :
    applyCols f x offx ldx y offy ldy bs (offy + j * ldy + r) = f (col mV x offx ldx j) r := by
  have hr := r.isLt
  have hpos : 0 < ldy := by omega
  have e : offy + j * ldy + r - offy = r + ldy * j := by
    have : j * ldy = ldy * j := Nat.mul_comm _ _
    omega
  have d : (r + ldy * j) / ldy = j := by
    rw [Nat.add_mul_div_left _ _ hpos, Nat.div_eq_of_lt (by omega), Nat.zero_add]
  have m : (r + ldy * j) % ldy = r := by
    rw [Nat.add_mul_mod_self_left, Nat.mod_eq_of_lt (by omega)]
  unfold applyCols
  rw [dif_pos ⟨by omega, by rw [e, d]; exact hj, by rw [e, m]; exact hr⟩]
  simp only [e, d, m]

/-- An address is written only if it is an entry of one of the columns. -/
theorem applyCols_out {mV mW : ℕ} (f : (Fin mV → α) → Fin mW → α) (x : ℕ → α) (offx ldx : ℕ)
    (y : ℕ → α) (offy ldy bs a : ℕ)
    (h : ∀ j < bs, ∀ r < mW, a ≠ offy + j * ldy + r) :
    applyCols f x offx ldx y offy ldy bs a = y a := by
  unfold applyCols
  split_ifs with hc
  · exfalso
    obtain ⟨h0, h1, h2⟩ := hc
    apply h _ h1 _ h2
    have := Nat.div_add_mod (a - offy) ldy
    have e : (a - offy) / ldy * ldy = ldy * ((a - offy) / ldy) := Nat.mul_comm _ _
    omega
  · rfl

/-- The columns of the calls with `A'` (`t = true`) or with `A`, in the order of the calls. -/
def C26_columns (t : Bool) (calls : List Call) : List ℕ :=
  (calls.filter (fun c => c.trans == t)).flatMap (fun c => List.range' c.first c.cols)

/-- The product with all calls successful: what is stored where, and the calls made. -/
theorem loop_ok {m0 mid : ℕ} (f : (Fin m0 → α) → Fin mid → α) (g : (Fin mid → α) → Fin m0 → α) (t : Bool)
    (code : ℕ → Int) (x : ℕ → α) (ldx ldy blockSize maxBlockSize auxSize : ℕ)
    (hcode : ∀ k, code k = 0) (hmax : 0 < maxBlockSize) (hldy : m0 ≤ ldy)
    (haux : mid * min maxBlockSize blockSize ≤ auxSize)
    (fuel i : ℕ) (s : State α) (hfuel : blockSize < i + fuel) (hi : i ≤ blockSize) (hs : s.ierr = 0) :
    let s' := loop f g t code x ldx ldy blockSize maxBlockSize auxSize fuel i s
    s'.ierr = 0 ∧ s'.oob = s.oob
    ∧ (∀ j, i ≤ j → j < blockSize → ∀ r : Fin m0, s'.y (j * ldy + r) = g (f (col m0 x 0 ldx j)) r)
    ∧ (∀ a, (∀ j, i ≤ j → j < blockSize → ∀ r < m0, a ≠ j * ldy + r) → s'.y a = s.y a)
    ∧ (∃ cs, s'.calls = s.calls ++ cs ∧ (∀ c ∈ cs, 0 < c.cols ∧ c.cols ≤ maxBlockSize)
        ∧ C26_columns t cs = List.range' i (blockSize - i)
        ∧ C26_columns (!t) cs = List.range' i (blockSize - i)) := by
  induction fuel generalizing i s with
  | zero => omega
  | succ fuel ih =>
    dsimp only
    unfold loop
    simp only [hcode, ne_eq, not_true_eq_false, if_false]
    by_cases hbs : min (blockSize - i) maxBlockSize > 0
    · rw [if_pos hbs]
      set bs := min (blockSize - i) maxBlockSize with hbsdef
      have hbs1 : i + bs ≤ blockSize := by omega
      have hbs2 : bs ≤ maxBlockSize := by omega
      have hmid : ¬ auxSize < mid * bs := by
        have : mid * bs ≤ mid * min maxBlockSize blockSize := Nat.mul_le_mul (Nat.le_refl _) (by omega)
        omega
      obtain ⟨h1, h2, h3, h4, cs, h5, h6, h7, h8⟩ := ih (i + bs)
        { y := applyCols g (applyCols f x (ldx * i) ldx s.aux 0 mid bs) 0 mid s.y (ldy * i) ldy bs,
          aux := applyCols f x (ldx * i) ldx s.aux 0 mid bs,
          calls := s.calls ++ [⟨t, i, bs⟩] ++ [⟨!t, i, bs⟩], ierr := 0,
          oob := s.oob || decide (auxSize < mid * bs) } (by omega) hbs1 rfl
      refine ⟨h1, ?_, ?_, ?_, ?_⟩
      · rw [h2]; simp [hmid]
      · intro j hij hj r
        by_cases hjb : i + bs ≤ j
        · exact h3 j hjb hj r
        · rw [h4]
          · obtain ⟨j', rfl⟩ : ∃ j', j = i + j' := ⟨j - i, by omega⟩
            have e : (i + j') * ldy + r = ldy * i + j' * ldy + r := by ring
            dsimp only
            rw [e, applyCols_in g _ 0 mid s.y (ldy * i) ldy bs hldy j' (by omega) r]
            congr 1
            funext q
            show applyCols f x (ldx * i) ldx s.aux 0 mid bs (0 + j' * mid + q) = _
            rw [applyCols_in f x (ldx * i) ldx s.aux 0 mid bs (Nat.le_refl _) j' (by omega) q]
            congr 1
            funext p
            unfold col
            congr 1
            ring
          · intro k hk _ q hq heq
            have hr := r.isLt
            have : (j + 1) * ldy ≤ k * ldy := Nat.mul_le_mul_right _ (by omega)
            have e1 : (j + 1) * ldy = j * ldy + ldy := by ring
            omega
      · intro a ha
        rw [h4 a (fun j h1 h2 => ha j (by omega) h2)]
        dsimp only
        apply applyCols_out
        intro j hj r hr heq
        apply ha (i + j) (by omega) (by omega) r hr
        rw [heq]; ring
      · refine ⟨[⟨t, i, bs⟩, ⟨!t, i, bs⟩] ++ cs, ?_, ?_, ?_, ?_⟩
        · rw [h5]; simp
        · intro c hc
          rw [List.mem_append] at hc
          rcases hc with hc | hc
          · simp at hc
            rcases hc with rfl | rfl <;> exact ⟨hbs, hbs2⟩
          · exact h6 c hc
        · have : C26_columns t ([⟨t, i, bs⟩, ⟨!t, i, bs⟩] ++ cs) = List.range' i bs ++ C26_columns t cs := by
            cases t <;> simp [C26_columns]
          rw [this, h7, List.range'_append_1]
          congr 1; omega
        · have : C26_columns (!t) ([⟨t, i, bs⟩, ⟨!t, i, bs⟩] ++ cs)
              = List.range' i bs ++ C26_columns (!t) cs := by
            cases t <;> simp [C26_columns]
          rw [this, h8, List.range'_append_1]
          congr 1; omega
    · rw [if_neg hbs]
      have hib : blockSize - i = 0 := by omega
      refine ⟨hs, rfl, ?_, fun _ _ => rfl, [], by simp, by simp, ?_, ?_⟩
      · intro j h1 h2; omega
      · simp [C26_columns, hib]
      · simp [C26_columns, hib]

/-- The operator of each equivalent eigenvalue problem, on one column of `x` (manual: the normal equations
`A'A` and `AA'`; the augmented matrix acts on `[v; u]`, where `v` has the length of the right singular
vectors, and gives `[A'u; Av]`). -/
def C26_image {mLocal nLocal : ℕ} (u : User α mLocal nLocal) (op : Int) (x : ℕ → α) (start : ℕ)
    (a : ℕ) (v : α) : Prop :=
  (op = 1 → ∀ r : Fin nLocal, a = r → v = u.At (u.A (fun q => x (start + q))) r)
  ∧ (op = 2 → ∀ r : Fin mLocal, a = r → v = u.A (u.At (fun q => x (start + q))) r)
  ∧ (op = 3 → (∀ r : Fin nLocal, a = r → v = u.At (fun q => x (start + nLocal + q)) r)
      ∧ (∀ r : Fin mLocal, a = nLocal + r → v = u.A (fun q => x (start + q)) r))

/-- The number of rows of the eigenvalue problem of an operator. -/
def C26_rows (op : Int) (mLocal nLocal : ℕ) : ℕ :=
  if op = 1 then nLocal else if op = 2 then mLocal else if op = 3 then nLocal + mLocal else 0

/-- **C26, values.** For each of the three operators, every block size and limit, and every user product which
does not fail: the function succeeds, never leaves its work array, stores in every column of the output the
image of the same column of the input, and writes nothing else. -/
theorem C26_products {mLocal nLocal : ℕ} (u : User α mLocal nLocal) (op : Int)
    (hop : op = 1 ∨ op = 2 ∨ op = 3) (x : ℕ → α) (ldx : ℕ)
    (y : ℕ → α) (ldy blockSize maxBlockSize : ℕ) (garbage : ℕ → α)
    (hcode : ∀ k, u.code k = 0) (hmax : 0 < maxBlockSize) (hldy : C26_rows op mLocal nLocal ≤ ldy) :
    let s := matrixMatvecEigs u op x ldx y ldy blockSize maxBlockSize garbage
    s.ierr = 0 ∧ s.oob = false
    ∧ (∀ j < blockSize, ∀ r < C26_rows op mLocal nLocal, C26_image u op x (j * ldx) r (s.y (j * ldy + r)))
    ∧ (∀ a, (∀ j < blockSize, ∀ r < C26_rows op mLocal nLocal, a ≠ j * ldy + r) → s.y a = y a) := by
  dsimp only
  rcases hop with rfl | rfl | rfl
  · simp only [C26_rows, if_true] at hldy ⊢
    obtain ⟨h1, h2, h3, h4, -⟩ := loop_ok u.A u.At false u.code x ldx ldy blockSize maxBlockSize
      (mLocal * min maxBlockSize blockSize) hcode hmax hldy (Nat.le_refl _) (blockSize + 1) 0
      ⟨y, garbage, [], 0, false⟩ (by omega) (by omega) rfl
    refine ⟨h1, h2, ?_, ?_⟩
    · intro j hj r hr
      refine ⟨fun _ r' hr' => ?_, fun h => absurd h (by decide), fun h => absurd h (by decide)⟩
      subst hr'
      refine (h3 j (Nat.zero_le _) hj r').trans ?_
      congr 2
      funext q; simp [col]
    · intro a ha
      exact h4 a (fun j _ hj => ha j hj)
  · simp only [C26_rows, if_true, if_false, show ¬ ((2 : Int) = 1) by decide] at hldy ⊢
    obtain ⟨h1, h2, h3, h4, -⟩ := loop_ok u.At u.A true u.code x ldx ldy blockSize maxBlockSize
      (nLocal * min maxBlockSize blockSize) hcode hmax hldy (Nat.le_refl _) (blockSize + 1) 0
      ⟨y, garbage, [], 0, false⟩ (by omega) (by omega) rfl
    refine ⟨h1, h2, ?_, ?_⟩
    · intro j hj r hr
      refine ⟨fun h => absurd h (by decide), fun _ r' hr' => ?_, fun h => absurd h (by decide)⟩
      subst hr'
      refine (h3 j (Nat.zero_le _) hj r').trans ?_
      congr 2
      funext q; simp [col]
    · intro a ha
      exact h4 a (fun j _ hj => ha j hj)
  · simp only [C26_rows, if_true, if_false, show ¬ ((3 : Int) = 1) by decide,
      show ¬ ((3 : Int) = 2) by decide] at hldy ⊢
    have hm : matrixMatvecEigs u 3 x ldx y ldy blockSize maxBlockSize garbage
        = { y := applyCols u.A x 0 ldx (applyCols u.At x nLocal ldx y 0 ldy blockSize) nLocal ldy blockSize,
            aux := garbage, calls := [⟨true, 0, blockSize⟩, ⟨false, 0, blockSize⟩], ierr := 0,
            oob := false } := by
      simp [matrixMatvecEigs, hcode]
    rw [hm]
    refine ⟨rfl, rfl, ?_, ?_⟩
    · intro j hj r hr
      refine ⟨fun h => absurd h (by decide), fun h => absurd h (by decide), fun _ => ⟨?_, ?_⟩⟩
      · rintro r' rfl
        have hr' := r'.isLt
        dsimp only
        rw [applyCols_out]
        · have := applyCols_in u.At x nLocal ldx y 0 ldy blockSize (by omega) j hj r'
          rw [Nat.zero_add] at this
          rw [this]
          congr 1
          funext q
          simp only [col]
          congr 1; ring
        · intro k hk q hq heq
          rcases Nat.lt_trichotomy j k with h | h | h
          · have := Nat.mul_le_mul_right ldy (show j + 1 ≤ k by omega)
            have e : (j + 1) * ldy = j * ldy + ldy := by ring
            omega
          · subst h; omega
          · have := Nat.mul_le_mul_right ldy (show k + 1 ≤ j by omega)
            have e : (k + 1) * ldy = k * ldy + ldy := by ring
            omega
      · rintro r' rfl
        have hr' := r'.isLt
        dsimp only
        have e : j * ldy + (nLocal + r') = nLocal + j * ldy + r' := by ring
        rw [e, applyCols_in u.A x 0 ldx _ nLocal ldy blockSize (by omega) j hj r']
        congr 1
        funext q
        simp [col]
    · intro a ha
      dsimp only
      rw [applyCols_out, applyCols_out]
      · intro j hj r hr heq
        exact ha j hj r (by omega) (by omega)
      · intro j hj r hr heq
        exact ha j hj (nLocal + r) (by omega) (by omega)

/-- **C26, every column exactly once.** Without failures the calls with `A` and the calls with `A'` each go
through the columns `0, 1, …, blockSize-1` in order, each once; the normal equations use at most
`maxBlockSize` columns per call. -/
theorem C26_each_column_once {mLocal nLocal : ℕ} (u : User α mLocal nLocal) (op : Int)
    (hop : op = 1 ∨ op = 2 ∨ op = 3) (x : ℕ → α) (ldx : ℕ)
    (y : ℕ → α) (ldy blockSize maxBlockSize : ℕ) (garbage : ℕ → α)
    (hcode : ∀ k, u.code k = 0) (hmax : 0 < maxBlockSize) (hldy : C26_rows op mLocal nLocal ≤ ldy) :
    let s := matrixMatvecEigs u op x ldx y ldy blockSize maxBlockSize garbage
    C26_columns false s.calls = List.range blockSize ∧ C26_columns true s.calls = List.range blockSize
    ∧ (op ≠ 3 → ∀ c ∈ s.calls, 0 < c.cols ∧ c.cols ≤ maxBlockSize) := by
  dsimp only
  rcases hop with rfl | rfl | rfl
  · simp only [C26_rows, if_true] at hldy
    obtain ⟨-, -, -, -, cs, h5, h6, h7, h8⟩ := loop_ok u.A u.At false u.code x ldx ldy blockSize maxBlockSize
      (mLocal * min maxBlockSize blockSize) hcode hmax hldy (Nat.le_refl _) (blockSize + 1) 0
      ⟨y, garbage, [], 0, false⟩ (by omega) (by omega) rfl
    have e : (matrixMatvecEigs u 1 x ldx y ldy blockSize maxBlockSize garbage).calls = cs := by
      rw [← List.nil_append cs]; exact h5
    rw [e, List.range_eq_range']
    exact ⟨h7, h8, fun _ => h6⟩
  · simp only [C26_rows, if_true, if_false, show ¬ ((2 : Int) = 1) by decide] at hldy
    obtain ⟨-, -, -, -, cs, h5, h6, h7, h8⟩ := loop_ok u.At u.A true u.code x ldx ldy blockSize maxBlockSize
      (nLocal * min maxBlockSize blockSize) hcode hmax hldy (Nat.le_refl _) (blockSize + 1) 0
      ⟨y, garbage, [], 0, false⟩ (by omega) (by omega) rfl
    have e : (matrixMatvecEigs u 2 x ldx y ldy blockSize maxBlockSize garbage).calls = cs := by
      rw [← List.nil_append cs]; exact h5
    rw [e, List.range_eq_range']
    exact ⟨h8, h7, fun _ => h6⟩
  · have e : (matrixMatvecEigs u 3 x ldx y ldy blockSize maxBlockSize garbage).calls
        = [⟨true, 0, blockSize⟩, ⟨false, 0, blockSize⟩] := by
      simp [matrixMatvecEigs, hcode]
    rw [e]
    refine ⟨?_, ?_, fun h => absurd rfl h⟩ <;> simp [C26_columns, List.range_eq_range']

/-! ## Failing products -/

/-- A run of calls: all but the last succeeded, and the error code is the one of the last. -/
def C26_Stops (code : ℕ → Int) (s : State α) : Prop :=
  (∀ k, k + 1 < s.calls.length → code k = 0)
  ∧ (s.calls = [] → s.ierr = 0) ∧ (s.calls ≠ [] → s.ierr = code (s.calls.length - 1))

theorem loop_stops {m0 mid : ℕ} (f : (Fin m0 → α) → Fin mid → α) (g : (Fin mid → α) → Fin m0 → α) (t : Bool)
    (code : ℕ → Int) (x : ℕ → α) (ldx ldy blockSize maxBlockSize auxSize : ℕ) (fuel i : ℕ) (s : State α)
    (hs : ∀ k < s.calls.length, code k = 0) (hst : C26_Stops code s) :
    C26_Stops code (loop f g t code x ldx ldy blockSize maxBlockSize auxSize fuel i s) := by
  induction fuel generalizing i s with
  | zero => exact hst
  | succ fuel ih =>
    unfold loop
    dsimp only
    split_ifs with h1 h2 h3
    · refine ⟨?_, by simp, by simp⟩
      intro k hk; simp at hk; exact hs k hk
    · refine ⟨?_, by simp, by simp⟩
      intro k hk
      simp at hk h2
      rcases Nat.lt_or_ge k s.calls.length with h | h
      · exact hs k h
      · have : k = s.calls.length := by omega
        rw [this]; exact h2
    · apply ih
      · intro k hk
        simp at hk h2 h3
        rcases Nat.lt_or_ge k s.calls.length with h | h
        · exact hs k h
        · rcases Nat.lt_or_ge k (s.calls.length + 1) with h' | h'
          · have : k = s.calls.length := by omega
            rw [this]; exact h2
          · have : k = s.calls.length + 1 := by omega
            rw [this]; exact h3
      · refine ⟨?_, by simp, by simp⟩
        intro k hk
        simp at hk h2 h3
        rcases Nat.lt_or_ge k s.calls.length with h | h
        · exact hs k h
        · have : k = s.calls.length := by omega
          rw [this]; exact h2
    · exact hst

/-- **C26, failures.** Whatever the user's product returns, the first non-zero code ends the function and is
the code reported; no further call is made. -/
theorem C26_failure_reported {mLocal nLocal : ℕ} (u : User α mLocal nLocal) (op : Int) (x : ℕ → α)
    (ldx : ℕ) (y : ℕ → α) (ldy blockSize maxBlockSize : ℕ) (garbage : ℕ → α) :
    C26_Stops u.code (matrixMatvecEigs u op x ldx y ldy blockSize maxBlockSize garbage) := by
  have h0 : C26_Stops u.code (⟨y, garbage, [], 0, false⟩ : State α) :=
    ⟨fun k hk => by simp at hk, fun _ => rfl, fun h => absurd rfl h⟩
  unfold matrixMatvecEigs
  dsimp only
  split_ifs with h1 h2 h3 h4
  · exact loop_stops _ _ _ _ _ _ _ _ _ _ _ _ _ (by simp) h0
  · exact loop_stops _ _ _ _ _ _ _ _ _ _ _ _ _ (by simp) h0
  · exact ⟨by simp, by simp, by simp⟩
  · refine ⟨?_, by simp, by simp⟩
    intro k hk
    simp at hk h4
    have : k = 0 := by omega
    rw [this]; exact h4
  · exact h0

/-- The preconditioner is told the operator of the stage it is called from. -/
theorem C26_preconditioner {β : Type} (user : β → Int → β) (method methodStage2 : Int) (x : β) :
    applyPreconditionerEigs user true method methodStage2 x = user x method
    ∧ applyPreconditionerEigs user false method methodStage2 x = user x methodStage2 := ⟨rfl, rfl⟩

/-! ## A case -/

/-- A 2 x 3 matrix as a user product. -/
def C26_exUser : User ℤ 2 3 where
  A := fun v => ![v 0 + 2 * v 1, v 2 - v 0]
  At := fun w => ![w 0 - w 1, 2 * w 0, w 1]
  code := fun _ => 0

/-- Five columns with limit two: three pairs of calls, and `A'A` of the third column. -/
example :
    let s := matrixMatvecEigs C26_exUser 1 (fun a => (a : ℤ)) 4 (fun _ => 7) 3 5 2 (fun _ => 99)
    s.calls.map (·.cols) = [2, 2, 2, 2, 1, 1] ∧ s.y (2 * 3 + 0) = 24 ∧ s.y 15 = 7 ∧ s.oob = false := by
  decide +kernel

/-- The hypotheses of the theorems hold for it. -/
example : (∀ k, C26_exUser.code k = 0) ∧ C26_rows 1 2 3 ≤ 3 := ⟨fun _ => rfl, by decide⟩

end Verif.Props
