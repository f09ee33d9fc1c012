import Verif.Proofs.SvdsLayout
import Mathlib.Algebra.Field.Rat
import Mathlib.Algebra.Order.Field.Rat
import Mathlib.Algebra.Order.BigOperators.Group.Finset
import Mathlib.Algebra.BigOperators.Ring.Finset

/-!
# C27: singular vector layout conversions lose nothing
-/

set_option linter.unusedSectionVars false

namespace Verif.Props
open Verif Verif.Mat Verif.Layout Verif.Spec

variable {K : Type} [Field K] [LinearOrder K]

/-- The eigensolver, seen from the arrays: it may change its own `cols` vectors of `rows` rows at `base` and
nothing else. -/
def C27_Solver (rows cols base : ℕ) (before after : ℕ → K) : Prop :=
  ∀ a, a < base ∨ base + rows * cols ≤ a → after a = before a

/-- The product of the user applied to a vector of `len` rows. -/
def C27_apply (len : ℕ) (f : (ℕ → K) → ℕ → K) (v : ℕ → K) (r : ℕ) : K :=
  f (fun q => if q < len then v q else 0) r

/-- **C27, stage with `A'A`.** The eigensolver receives the right constraints and guesses of the user, in
order.  Whatever it leaves in its array, afterwards the user's layout, now with `nc + ret` vectors of each
kind, holds its vectors as right vectors, the untouched left constraints, and as left vectors `A v` divided
by the singular value (or by its norm).  Nothing outside of the array of the user is written. -/
theorem C27_AtA (e : Num K) (m n nc init nsv ret aux : ℕ) (A At : (ℕ → K) → ℕ → K) (sval : ℕ → K)
    (isq2 sq2 : K) (mem mem2 : ℕ → K) (hret : ret ≤ max init nsv)
    (hsolver : C27_Solver n (max init nsv + nc) (fromSvds 1 m n nc init nsv aux isq2 mem).1
      (fromSvds 1 m n nc init nsv aux isq2 mem).2 mem2) :
    let base := (fromSvds 1 m n nc init nsv aux isq2 mem).1
    let mem1 := (fromSvds 1 m n nc init nsv aux isq2 mem).2
    let mem3 := toSvds e 1 m n nc init nsv ret n aux A At sval sq2 mem2
    (∀ j < nc + init, ∀ r < n, eigVec n base mem1 j r = rightVec m n (nc + init) mem j r)
    ∧ (∀ j < nc + ret, ∀ r < n, rightVec m n (nc + ret) mem3 j r = eigVec n base mem2 j r)
    ∧ (∀ j < nc, ∀ r < m, leftVec m mem3 j r = leftVec m mem j r)
    ∧ (∀ j < ret, ∃ c : K, (sval j > 0 ∧ 1 / sval j < e.big → c = sval j) ∧
        ∀ r < m, leftVec m mem3 (nc + j) r = 1 / c * C27_apply n A (eigVec n base mem2 (nc + j)) r)
    ∧ (∀ a, (m + n) * (max init nsv + nc) ≤ a → mem1 a = mem a ∧ mem3 a = mem2 a) := by
  have hb : (fromSvds 1 m n nc init nsv aux isq2 mem).1 = (max init nsv + nc) * m := rfl
  have h1 : (fromSvds 1 m n nc init nsv aux isq2 mem).2
      = copyMatrix n (init + nc) n n (m * (init + nc)) ((max init nsv + nc) * m) mem := rfl
  rw [hb, h1] at hsolver
  rw [hb, h1]
  dsimp only
  set kM := max init nsv + nc with hkM
  have hk0 : init + nc ≤ kM := by omega
  have hk1 : ret + nc ≤ kM := by omega
  have c1 : kM * m = m * kM := Nat.mul_comm _ _
  have hmk : m * (ret + nc) ≤ m * kM := Nat.mul_le_mul (Nat.le_refl _) hk1
  have hmk0 : m * (init + nc) ≤ m * kM := Nat.mul_le_mul (Nat.le_refl _) hk0
  have hnk : n * (ret + nc) ≤ n * kM := Nat.mul_le_mul (Nat.le_refl _) hk1
  have hnk0 : n * (init + nc) ≤ n * kM := Nat.mul_le_mul (Nat.le_refl _) hk0
  have hmd : m * (ret + nc) = m * nc + m * ret := by ring
  have htot : (m + n) * kM = m * kM + n * kM := by ring
  have h3 : toSvds e 1 m n nc init nsv ret n aux A At sval sq2 mem2
      = copyMatrix n (ret + nc) n n (m * kM) (m * (ret + nc))
        (scalInv e m ret (m * nc) sval (mulCols n m A (m * kM + n * nc) (m * nc) ret mem2)) := rfl
  rw [h3]
  refine ⟨?_, ?_, ?_, ?_, ?_⟩
  · intro j hj r hr
    unfold eigVec rightVec
    rw [move_in n _ _ _ mem j r (by omega) hr]
    congr 1
    ring
  · intro j hj r hr
    have hjr := addr_lt n j r (ret + nc) hr (by omega)
    unfold eigVec rightVec
    have e1 : (nc + ret) * m + j * n + r = m * (ret + nc) + j * n + r := by ring
    rw [e1, move_in n _ _ _ _ j r (by omega) hr, scalInv_out _ _ _ _ _ _ _ (by omega),
      mulCols_out _ _ _ _ _ _ _ _ (by omega)]
    congr 1; omega
  · intro j hj r hr
    have hjr := addr_lt m j r nc hr hj
    unfold leftVec
    rw [move_out n _ _ _ _ _ (by omega), scalInv_out _ _ _ _ _ _ _ (by omega),
      mulCols_out _ _ _ _ _ _ _ _ (by omega), hsolver _ (by omega), move_out n _ _ _ _ _ (by omega)]
  · intro j hj
    refine ⟨invFactor e m (m * nc) sval (mulCols n m A (m * kM + n * nc) (m * nc) ret mem2) j, ?_, ?_⟩
    · intro h; unfold invFactor; rw [if_pos h]
    · intro r hr
      have hjr := addr_lt m j r ret hr hj
      unfold leftVec C27_apply
      have e1 : (nc + j) * m + r = m * nc + j * m + r := by ring
      rw [e1, move_out n _ _ _ _ _ (by omega), scalInv_in _ _ _ _ _ _ j r hj hr,
        mulCols_in _ _ _ _ _ _ _ j r hj hr]
      congr 2
      funext q
      unfold eigVec
      split_ifs with hq
      · congr 1; rw [c1]; ring
      · rfl
  · intro a ha
    refine ⟨move_out n _ _ _ _ _ (by omega), ?_⟩
    rw [move_out n _ _ _ _ _ (by omega), scalInv_out _ _ _ _ _ _ _ (by omega),
      mulCols_out _ _ _ _ _ _ _ _ (by omega)]

/-- Full claim for a stage with `AA'`: as for `A'A` with left and right exchanged.  Proved when there are no
constraints or the local parts of left and right vectors have the same length; refuted otherwise below,
because the right vectors are stored `primme->nLocal * numOrthoConst = mLocal * numOrthoConst` numbers after
the beginning of the right block instead of `nLocal * numOrthoConst`. -/
theorem C27_AAt_partial (e : Num K) (m n nc init nsv ret aux : ℕ) (A At : (ℕ → K) → ℕ → K) (sval : ℕ → K)
    (isq2 sq2 : K) (mem mem2 : ℕ → K) (hret : ret ≤ max init nsv) (hok : nc = 0 ∨ m = n)
    (hsolver : C27_Solver m (max init nsv + nc) (fromSvds 2 m n nc init nsv aux isq2 mem).1
      (fromSvds 2 m n nc init nsv aux isq2 mem).2 mem2) :
    let base := (fromSvds 2 m n nc init nsv aux isq2 mem).1
    let mem1 := (fromSvds 2 m n nc init nsv aux isq2 mem).2
    let mem3 := toSvds e 2 m n nc init nsv ret m aux A At sval sq2 mem2
    (∀ j < nc + init, ∀ r < m, eigVec m base mem1 j r = leftVec m mem j r)
    ∧ (∀ j < nc + ret, ∀ r < m, leftVec m mem3 j r = eigVec m base mem2 j r)
    ∧ (∀ j < nc, ∀ r < n, rightVec m n (nc + ret) mem3 j r = rightVec m n (nc + init) mem j r)
    ∧ (∀ j < ret, ∃ c : K, (sval j > 0 ∧ 1 / sval j < e.big → c = sval j) ∧
        ∀ r < n, rightVec m n (nc + ret) mem3 (nc + j) r
          = 1 / c * C27_apply m At (eigVec m base mem2 (nc + j)) r)
    ∧ (∀ a, (m + n) * (max init nsv + nc) ≤ a → mem1 a = mem a ∧ mem3 a = mem2 a) := by
  have hb : (fromSvds 2 m n nc init nsv aux isq2 mem).1 = 0 := rfl
  have h1 : (fromSvds 2 m n nc init nsv aux isq2 mem).2
      = copyMatrix n nc n n (m * (init + nc)) ((max init nsv + nc) * m) mem := rfl
  rw [hb, h1] at hsolver
  rw [hb, h1]
  dsimp only
  set kM := max init nsv + nc with hkM
  have hk0 : init + nc ≤ kM := by omega
  have hk1 : ret + nc ≤ kM := by omega
  have c1 : kM * m = m * kM := Nat.mul_comm _ _
  have hmk : m * (ret + nc) ≤ m * kM := Nat.mul_le_mul (Nat.le_refl _) hk1
  have hmk0 : m * (init + nc) ≤ m * kM := Nat.mul_le_mul (Nat.le_refl _) hk0
  have hnk : n * (ret + nc) ≤ n * kM := Nat.mul_le_mul (Nat.le_refl _) hk1
  have hnd : n * (ret + nc) = n * nc + n * ret := by ring
  have hmd : m * (ret + nc) = m * nc + m * ret := by ring
  have htot : (m + n) * kM = m * kM + n * kM := by ring
  have hmn : m * nc = n * nc := by rcases hok with h | h <;> simp [h]
  have h3 : toSvds e 2 m n nc init nsv ret m aux A At sval sq2 mem2
      = scalInv e n ret (m * (ret + nc) + m * nc) sval
        (mulCols m n At (m * nc) (m * (ret + nc) + m * nc) ret
          (copyMatrix n nc n n (m * kM) (m * (ret + nc)) mem2)) := rfl
  rw [h3]
  refine ⟨?_, ?_, ?_, ?_, ?_⟩
  · intro j hj r hr
    have hjr := addr_lt m j r (init + nc) hr (by omega)
    unfold eigVec leftVec
    rw [Nat.zero_add, move_out n _ _ _ _ _ (by omega)]
  · intro j hj r hr
    have hjr := addr_lt m j r (ret + nc) hr (by omega)
    unfold eigVec leftVec
    rw [Nat.zero_add, scalInv_out _ _ _ _ _ _ _ (by omega), mulCols_out _ _ _ _ _ _ _ _ (by omega),
      move_out n _ _ _ _ _ (by omega)]
  · intro j hj r hr
    have hjr := addr_lt n j r nc hr hj
    unfold rightVec
    have e1 : (nc + ret) * m + j * n + r = m * (ret + nc) + j * n + r := by ring
    have e2 : (nc + init) * m + j * n + r = m * (init + nc) + j * n + r := by ring
    rw [e1, scalInv_out _ _ _ _ _ _ _ (by omega), mulCols_out _ _ _ _ _ _ _ _ (by omega),
      move_in n _ _ _ _ j r hj hr, hsolver _ (by omega)]
    have e3 : m * kM + j * n + r = kM * m + j * n + r := by omega
    rw [e3, move_in n _ _ _ _ j r hj hr, e2]
  · intro j hj
    refine ⟨invFactor e n (m * (ret + nc) + m * nc) sval (mulCols m n At (m * nc) (m * (ret + nc) + m * nc)
      ret (copyMatrix n nc n n (m * kM) (m * (ret + nc)) mem2)) j, ?_, ?_⟩
    · intro h; unfold invFactor; rw [if_pos h]
    · intro r hr
      have hjr := addr_lt n j r ret hr hj
      unfold rightVec C27_apply
      have e1 : (nc + ret) * m + (nc + j) * n + r = m * (ret + nc) + m * nc + j * n + r := by
        rw [hmn]; ring
      rw [e1, scalInv_in _ _ _ _ _ _ j r hj hr, mulCols_in _ _ _ _ _ _ _ j r hj hr]
      congr 2
      funext q
      unfold eigVec
      split_ifs with hq
      · have hq' := addr_lt m j q ret hq hj
        rw [move_out n _ _ _ _ _ (by omega)]
        congr 1; ring
      · rfl
  · intro a ha
    refine ⟨move_out n _ _ _ _ _ (by omega), ?_⟩
    rw [scalInv_out _ _ _ _ _ _ _ (by omega), mulCols_out _ _ _ _ _ _ _ _ (by omega),
      move_out n _ _ _ _ _ (by omega)]

/-- **C27 refuted for `AA'` with constraints.** A matrix with one row and two columns, one constraint and one
vector: the second entry of the user's right constraint is replaced, and the returned right vector is not
`A'u` but shifted by one place: the place of its first entry holds the second one. -/
theorem C27_AAt_constraints_violated :
    let e : Num ℚ := ⟨id, fun f => f, 1000⟩
    let mem : ℕ → ℚ := fun a => 10 + a
    let At : (ℕ → ℚ) → ℕ → ℚ := fun u r => if r = 0 then 3 * u 0 else 4 * u 0
    -- the eigensolver returns the left vector 1
    let mem2 : ℕ → ℚ := fun a => if a = 1 then 1 else (fromSvds 2 1 2 1 0 1 100 1 mem).2 a
    let mem3 := toSvds e 2 1 2 1 0 1 1 1 100 (fun _ _ => 0) At (fun _ => 1) 1 mem2
    (rightVec 1 2 1 mem 0 0, rightVec 1 2 1 mem 0 1) = (11, 12)
    ∧ (rightVec 1 2 2 mem3 0 0, rightVec 1 2 2 mem3 0 1) = (11, 3)
    ∧ rightVec 1 2 2 mem3 1 0 = 4 ∧ At (fun _ => leftVec 1 mem3 1 0) 0 = 3 := by
  decide +kernel

/-! ## The augmented operator -/

/-- Adjacent stacking: an address determines column and row. -/
theorem stacked_inj (N i j a b : ℕ) (ha : a < N) (hb : b < N) (h : i * N + a = j * N + b) :
    i = j ∧ a = b := by
  obtain ⟨h1, h2⟩ := addr_div N i a ha
  obtain ⟨h3, h4⟩ := addr_div N j b hb
  rw [h] at h1 h2
  exact ⟨h1.symm.trans h3, h2.symm.trans h4⟩

/-- **C27, stage with the augmented operator, input.** The eigensolver receives in column `j` the user's right
vector `j` on top of the user's left vector `j`, constraints scaled by `isq2 = 1/√2`. -/
theorem C27_augmented_in (m n nc init nsv aux : ℕ) (isq2 : K) (mem : ℕ → K)
    (haux : (m + n) * (max init nsv + nc) ≤ aux) :
    let mem1 := (fromSvds 3 m n nc init nsv aux isq2 mem).2
    (fromSvds 3 m n nc init nsv aux isq2 mem).1 = 0
    ∧ (∀ j < nc + init, ∀ r < n, eigVec (m + n) 0 mem1 j r
        = (if j < nc then isq2 else 1) * rightVec m n (nc + init) mem j r)
    ∧ (∀ j < nc + init, ∀ r < m, eigVec (m + n) 0 mem1 j (n + r)
        = (if j < nc then isq2 else 1) * leftVec m mem j r)
    ∧ (∀ a, (m + n) * (nc + init) ≤ a → a < aux → mem1 a = mem a) := by
  dsimp only
  set k := init + nc with hk
  have hkM : k ≤ max init nsv + nc := by omega
  have hNk : (m + n) * k ≤ aux := Nat.le_trans (Nat.mul_le_mul (Nat.le_refl _) hkM) haux
  have hd : (m + n) * k = m * k + n * k := by ring
  have hc : (m + n) * (nc + init) = (m + n) * k := by rw [hk]; ring
  set mem0 := copyCol ((m + n) * k) aux 0 mem with hm0
  set memV := copyMatrix n k n (m + n) (aux + m * k) 0 mem0 with hmV
  set memU := copyMatrix m k m (m + n) aux n memV with hmU
  have hres : (fromSvds 3 m n nc init nsv aux isq2 mem).2 = scal ((m + n) * nc) isq2 0 memU := rfl
  rw [hres]
  have hk1 : 0 < k → (k - 1) * (m + n) + (m + n) = (m + n) * k := by
    intro h
    obtain ⟨k', hk'⟩ : ∃ k', k = k' + 1 := ⟨k - 1, by omega⟩
    rw [hk']; simp; ring
  -- the two copies are between disjoint places when there is something to copy
  have hdisV : 0 < k → (aux + m * k) + (k - 1) * n + n ≤ 0 ∨ 0 + (k - 1) * (m + n) + n ≤ aux + m * k := by
    intro h; right; have := hk1 h; omega
  have hdisU : 0 < k → aux + (k - 1) * m + m ≤ n ∨ n + (k - 1) * (m + n) + m ≤ aux := by
    intro h; right; have := hk1 h; omega
  have haux0 : ∀ q, q < (m + n) * k → mem0 (aux + q) = mem q := by
    intro q hq
    rw [hm0, copyCol_in _ _ _ (Or.inr (by omega)) _ q hq, Nat.zero_add]
  -- scaling
  have hsc : ∀ j, j < k → ∀ r, r < m + n → scal ((m + n) * nc) isq2 0 memU (0 + j * (m + n) + r)
      = (if j < nc then isq2 else 1) * memU (j * (m + n) + r) := by
    intro j hj r hr
    by_cases hjn : j < nc
    · have := addr_lt (m + n) j r nc hr hjn
      rw [scal_in _ _ _ _ _ ⟨by omega, by omega⟩, if_pos hjn, Nat.zero_add]
    · have := Nat.mul_le_mul_right (m + n) (show nc ≤ j by omega)
      have e2 : nc * (m + n) = (m + n) * nc := Nat.mul_comm _ _
      rw [scal_out _ _ _ _ _ (by right; omega), if_neg hjn, one_mul, Nat.zero_add]
  refine ⟨rfl, ?_, ?_, ?_⟩
  · intro j hj r hr
    have hjk : j < k := by omega
    unfold eigVec rightVec
    rw [hsc j hjk r (by omega)]
    congr 1
    rw [hmU, far_out m k m (m + n) aux n (Nat.le_refl _) (by omega) (hdisU (by omega))]
    · have := far_in n k n (m + n) (aux + m * k) 0 (Nat.le_refl _) (by omega) (hdisV (by omega)) mem0 j r
        hjk hr
      rw [Nat.zero_add] at this
      have hlt := addr_lt n j r k hr hjk
      rw [hmV, this, show aux + m * k + j * n + r = aux + (m * k + j * n + r) by omega,
        haux0 _ (by omega)]
      congr 1; rw [hk]; ring
    · intro i hi q hq heq
      have := (stacked_inj (m + n) j i r (n + q) (by omega) (by omega) (by omega)).2
      omega
  · intro j hj r hr
    have hjk : j < k := by omega
    unfold eigVec leftVec
    rw [hsc j hjk (n + r) (by omega)]
    congr 1
    have := far_in m k m (m + n) aux n (Nat.le_refl _) (by omega) (hdisU (by omega)) memV j r hjk hr
    rw [show j * (m + n) + (n + r) = n + j * (m + n) + r by omega, hmU, this, hmV]
    rw [far_out n k n (m + n) (aux + m * k) 0 (Nat.le_refl _) (by omega) (hdisV (by omega))]
    · have hlt := addr_lt m j r k hr hjk
      rw [show aux + j * m + r = aux + (j * m + r) by omega, haux0 _ (by omega)]
    · intro i hi q hq heq
      have := addr_lt (m + n) i q k (by omega) hi
      omega
  · intro a ha1 ha2
    have hncle : (m + n) * nc ≤ (m + n) * k := Nat.mul_le_mul (Nat.le_refl _) (by omega)
    rw [scal_out _ _ _ _ _ (by right; omega), hmU]
    rcases Nat.eq_zero_or_pos k with h0 | h0
    · rw [hmV, hm0, h0]
      simp [copyMatrix, copyCol]
    · rw [far_out m k m (m + n) aux n (Nat.le_refl _) (by omega) (hdisU h0), hmV,
        far_out n k n (m + n) (aux + m * k) 0 (Nat.le_refl _) (by omega) (hdisV h0), hm0,
        copyCol_out _ _ _ (by right; omega) _ _ (Or.inl ha2)]
      · intro i hi q hq heq
        have := addr_lt (m + n) i q k (by omega) hi
        omega
      · intro i hi q hq heq
        have := addr_lt (m + n) i (n + q) k (by omega) hi
        omega

/-- The vectors of the user's layout before the final normalisation: the eigensolver's, constraints scaled. -/
theorem augmented_unshuffle (m n nc k aux : ℕ) (sq2 : K) (mem : ℕ → K)
    (haux : (m + n) * k ≤ aux) :
    let mem4 := copyMatrix m k (m + n) m (aux + n) 0 (copyMatrix n k (m + n) n aux (m * k)
      (copyCol ((m + n) * k) aux 0 (scal ((m + n) * nc) sq2 0 mem)))
    (∀ j < k, ∀ r < m, mem4 (j * m + r) = (if j < nc then sq2 else 1) * mem (j * (m + n) + (n + r)))
    ∧ (∀ j < k, ∀ r < n, mem4 (m * k + j * n + r) = (if j < nc then sq2 else 1) * mem (j * (m + n) + r)) := by
  dsimp only
  have hd : (m + n) * k = m * k + n * k := by ring
  set mem0 := scal ((m + n) * nc) sq2 0 mem with hm0
  set memC := copyCol ((m + n) * k) aux 0 mem0 with hmC
  set memV := copyMatrix n k (m + n) n aux (m * k) memC with hmV
  have hkm : 0 < k → (k - 1) * m + m = m * k ∧ (k - 1) * n + n = n * k := by
    intro h
    obtain ⟨k', hk'⟩ : ∃ k', k = k' + 1 := ⟨k - 1, by omega⟩
    rw [hk']; simp; constructor <;> ring
  have hsc : ∀ j, j < k → ∀ r, r < m + n → mem0 (j * (m + n) + r)
      = (if j < nc then sq2 else 1) * mem (j * (m + n) + r) := by
    intro j hj r hr
    by_cases hjn : j < nc
    · have := addr_lt (m + n) j r nc hr hjn
      rw [hm0, scal_in _ _ _ _ _ ⟨by omega, by omega⟩, if_pos hjn]
    · have := Nat.mul_le_mul_right (m + n) (show nc ≤ j by omega)
      have e2 : nc * (m + n) = (m + n) * nc := Nat.mul_comm _ _
      rw [hm0, scal_out _ _ _ _ _ (by right; omega), if_neg hjn, one_mul]
  have hC : ∀ q, q < (m + n) * k → memC (aux + q) = mem0 q := by
    intro q hq
    rw [hmC, copyCol_in _ _ _ (Or.inr (by omega)) _ q hq, Nat.zero_add]
  have hdisV : 0 < k → aux + (k - 1) * (m + n) + n ≤ m * k ∨ m * k + (k - 1) * n + n ≤ aux := by
    intro h; right; have := hkm h; omega
  have hdisU : 0 < k → aux + n + (k - 1) * (m + n) + m ≤ 0 ∨ 0 + (k - 1) * m + m ≤ aux + n := by
    intro h; right; have := hkm h; omega
  refine ⟨?_, ?_⟩
  · intro j hj r hr
    have := far_in m k (m + n) m (aux + n) 0 (by omega) (Nat.le_refl _) (hdisU (by omega)) memV j r hj hr
    rw [Nat.zero_add] at this
    have hlt := addr_lt (m + n) j (n + r) k (by omega) hj
    rw [this, hmV, far_out n k (m + n) n aux (m * k) (by omega) (Nat.le_refl _) (hdisV (by omega)),
      show aux + n + j * (m + n) + r = aux + (j * (m + n) + (n + r)) by omega, hC _ hlt,
      hsc j hj (n + r) (by omega)]
    intro i hi q hq heq
    have := addr_lt n i q k hq hi
    omega
  · intro j hj r hr
    have hlt := addr_lt (m + n) j r k (by omega) hj
    rw [far_out m k (m + n) m (aux + n) 0 (by omega) (Nat.le_refl _) (hdisU (by omega)), hmV,
      far_in n k (m + n) n aux (m * k) (by omega) (Nat.le_refl _) (hdisV (by omega)) memC j r hj hr,
      show aux + j * (m + n) + r = aux + (j * (m + n) + r) by omega, hC _ hlt, hsc j hj r (by omega)]
    intro i hi q hq heq
    have := addr_lt m i q k hq hi
    omega

/-- **C27, stage with the augmented operator, output.** Whatever vectors the eigensolver returns, afterwards
left and right vector `j` of the user are the lower and upper part of its vector `j`, each multiplied by a
factor: the inverse of the norm of that part, over all the processes. -/
theorem C27_augmented_out (e : Num K) (m n nc init nsv ret rows aux : ℕ) (A At : (ℕ → K) → ℕ → K)
    (sval : ℕ → K) (sq2 : K) (mem2 : ℕ → K) (hret : ret ≤ max init nsv)
    (haux : (m + n) * (max init nsv + nc) ≤ aux) :
    let mem3 := toSvds e 3 m n nc init nsv ret rows aux A At sval sq2 mem2
    let w : ℕ → K := fun j => if j < nc then sq2 else 1
    let U : ℕ → ℕ → K := fun j r => w j * eigVec (m + n) 0 mem2 j (n + r)
    let V : ℕ → ℕ → K := fun j r => w j * eigVec (m + n) 0 mem2 j r
    ∃ loc : ℕ → K,
      (∀ j < nc + ret, loc j = ∑ r ∈ Finset.range m, U j r * U j r)
      ∧ (∀ j < nc + ret, loc (nc + ret + j) = ∑ r ∈ Finset.range n, V j r * V j r)
      ∧ (∀ j < nc + ret, ∀ r < m, leftVec m mem3 j r = 1 / e.sqrt (e.gsum loc j) * U j r)
      ∧ (∀ j < nc + ret, ∀ r < n, rightVec m n (nc + ret) mem3 j r
          = 1 / e.sqrt (e.gsum loc (nc + ret + j)) * V j r) := by
  dsimp only
  have hk : nc + ret = ret + nc := Nat.add_comm _ _
  rw [hk]
  set k := ret + nc with hkdef
  have haux' : (m + n) * k ≤ aux :=
    Nat.le_trans (Nat.mul_le_mul (Nat.le_refl _) (show k ≤ max init nsv + nc by omega)) haux
  obtain ⟨hU, hV⟩ := augmented_unshuffle m n nc k aux sq2 mem2 haux'
  set mem4 := copyMatrix m k (m + n) m (aux + n) 0 (copyMatrix n k (m + n) n aux (m * k)
      (copyCol ((m + n) * k) aux 0 (scal ((m + n) * nc) sq2 0 mem2))) with hmem4
  have h3 : toSvds e 3 m n nc init nsv ret rows aux A At sval sq2 mem2 = normalize e m n k mem4 := rfl
  rw [h3]
  refine ⟨fun i => if i < k then norm2 m (m * i) mem4 else norm2 n (m * k + n * (i - k)) mem4, ?_, ?_, ?_, ?_⟩
  · intro j hj
    simp only [if_pos hj, norm2]
    apply Finset.sum_congr rfl
    intro r hr
    rw [Nat.mul_comm m j, hU j hj r (Finset.mem_range.1 hr)]
    simp [eigVec]
  · intro j hj
    have e1 : k + j - k = j := by omega
    simp only [if_neg (show ¬ (k + j < k) by omega), e1, norm2]
    apply Finset.sum_congr rfl
    intro r hr
    rw [Nat.mul_comm n j, hV j hj r (Finset.mem_range.1 hr)]
    simp [eigVec]
  · intro j hj r hr
    unfold leftVec normalize
    have hlt := addr_lt m j r k hr hj
    rw [if_pos hlt, (addr_div m j r hr).1, hU j hj r hr]
    simp [eigVec]
  · intro j hj r hr
    unfold rightVec normalize
    have hlt := addr_lt n j r k hr hj
    have e1 : k * m + j * n + r = m * k + j * n + r := by ring
    rw [e1, if_neg (by omega), if_pos (by omega), show m * k + j * n + r - m * k = j * n + r by omega,
      (addr_div n j r hr).1, hV j hj r hr]
    simp [eigVec]

/-- **C27, normalisation.** In exact arithmetic on one process the vectors of the augmented stage have norm
one unless they vanish. -/
theorem C27_augmented_unit [IsStrictOrderedRing K] (e : Num K) (m n nc init nsv ret rows aux : ℕ)
    (A At : (ℕ → K) → ℕ → K) (sval : ℕ → K) (sq2 : K) (mem2 : ℕ → K) (hret : ret ≤ max init nsv)
    (haux : (m + n) * (max init nsv + nc) ≤ aux)
    (hsqrt : ∀ x, 0 ≤ x → e.sqrt x * e.sqrt x = x) (hsum : ∀ f i, e.gsum f i = f i) (hsq2 : sq2 ≠ 0)
    (j : ℕ) (hj : j < nc + ret) :
    let mem3 := toSvds e 3 m n nc init nsv ret rows aux A At sval sq2 mem2
    ((∃ r < m, eigVec (m + n) 0 mem2 j (n + r) ≠ 0) →
      ∑ r ∈ Finset.range m, leftVec m mem3 j r * leftVec m mem3 j r = 1)
    ∧ ((∃ r < n, eigVec (m + n) 0 mem2 j r ≠ 0) →
      ∑ r ∈ Finset.range n, rightVec m n (nc + ret) mem3 j r * rightVec m n (nc + ret) mem3 j r = 1) := by
  obtain ⟨loc, h1, h2, h3, h4⟩ := C27_augmented_out e m n nc init nsv ret rows aux A At sval sq2 mem2 hret haux
  have key : ∀ (len : ℕ) (x y : ℕ → K) (s : K), s = ∑ r ∈ Finset.range len, x r * x r →
      (∀ r < len, y r = 1 / e.sqrt s * x r) → (∃ r < len, x r ≠ 0) →
      ∑ r ∈ Finset.range len, y r * y r = 1 := by
    intro len x y s hs hy ⟨r0, hr0, hx0⟩
    have hpos : 0 < s := by
      rw [hs]
      apply Finset.sum_pos'
      · intro r _; exact mul_self_nonneg _
      · exact ⟨r0, Finset.mem_range.2 hr0, mul_self_pos.2 hx0⟩
    have hsq := hsqrt s (le_of_lt hpos)
    have hne : e.sqrt s ≠ 0 := by
      intro h0; rw [h0, mul_zero] at hsq; exact absurd hsq.symm (ne_of_gt hpos)
    have : ∀ r ∈ Finset.range len, y r * y r = 1 / s * (x r * x r) := by
      intro r hr
      rw [hy r (Finset.mem_range.1 hr)]
      have e1 : 1 / e.sqrt s * x r * (1 / e.sqrt s * x r) = 1 / (e.sqrt s * e.sqrt s) * (x r * x r) := by
        rw [one_div, one_div, mul_inv]; ring
      rw [e1, hsq]
    rw [Finset.sum_congr rfl this, ← Finset.mul_sum, ← hs, one_div, inv_mul_cancel₀ (ne_of_gt hpos)]
  have hw : (if j < nc then sq2 else (1 : K)) ≠ 0 := by split_ifs; exact hsq2; exact one_ne_zero
  refine ⟨?_, ?_⟩
  · rintro ⟨r, hr, hx⟩
    refine key m _ _ (loc j) (h1 j hj) (fun r hr => ?_) ⟨r, hr, mul_ne_zero hw hx⟩
    rw [h3 j hj r hr, hsum]
  · rintro ⟨r, hr, hx⟩
    refine key n _ _ (loc (nc + ret + j)) (h2 j hj) (fun r hr => ?_) ⟨r, hr, mul_ne_zero hw hx⟩
    rw [h4 j hj r hr, hsum]

/-- One constraint and one guess for a 2 x 3 matrix: the first stage with `A'A` gets the user's right vectors
(which start at 4), placed at 6 since two values are requested, and the augmented stage `[v; u]`. -/
example :
    let mem : ℕ → ℚ := fun a => a
    (fromSvds 1 2 3 1 1 2 100 1 mem).1 = 6
    ∧ (List.range 6).map (fun r => (fromSvds 1 2 3 1 1 2 100 1 mem).2 (6 + r)) = [4, 5, 6, 7, 8, 9]
    ∧ (List.range 10).map (fun r => (fromSvds 3 2 3 1 1 2 100 (1 / 2) mem).2 r)
        = [4 / 2, 5 / 2, 6 / 2, 0, 1 / 2, 7, 8, 9, 2, 3] := by
  decide +kernel

end Verif.Props
