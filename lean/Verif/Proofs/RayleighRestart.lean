import Verif.Proofs.Rayleigh

set_option linter.unusedSectionVars false
set_option linter.unusedSimpArgs false
set_option linter.unusedVariables false

namespace Verif.Rayleigh
open Finset Verif Verif.Spec Verif.Restart

variable {K E : Type} [Field K] [StarRing K] [AddCommGroup E] [Module K E]

/-- What the bookkeeping of a restart must deliver for the numbers to be right: every column of the new basis, and of the pairs
that are locked, comes from a Ritz vector in front of the retained ones, each of them used once, except the columns where the
retained vectors are expected, which hold these; and the target order of the new pairs is a permutation that keeps the retained
ones together. -/
structure Plan (r : Result) (b nl : ℕ) : Prop where
  fits : r.indexPrev.toNat + r.retained.toNat ≤ r.basisSize.toNat
  prev : ∀ m < r.retained.toNat, column r (r.indexPrev.toNat + m) = some (.prev m)
  ritz : ∀ c < r.basisSize.toNat + (r.numLocked - nl), ¬ (r.indexPrev.toNat ≤ c ∧ c < r.indexPrev.toNat + r.retained.toNat) →
    ∃ v < b, (v : Int) < r.indexPrev0 ∧ r.restartPerm c = some v ∧ column r c = some (.ritz v)
  once : ∀ c < r.basisSize.toNat + (r.numLocked - nl), ∀ c' < r.basisSize.toNat + (r.numLocked - nl),
    ¬ (r.indexPrev.toNat ≤ c ∧ c < r.indexPrev.toNat + r.retained.toNat) →
    ¬ (r.indexPrev.toNat ≤ c' ∧ c' < r.indexPrev.toNat + r.retained.toNat) →
    r.restartPerm c = r.restartPerm c' → c = c'
  order : ∀ j < r.basisSize.toNat, ∃ c < r.basisSize.toNat, r.hVecsPerm j = some c
  orderOnce : ∀ j < r.basisSize.toNat, ∀ j' < r.basisSize.toNat, r.hVecsPerm j = r.hVecsPerm j' → j = j'
  block : ∀ m < r.retained.toNat, firstPrev r r.basisSize.toNat + m < r.basisSize.toNat ∧
    r.hVecsPerm (firstPrev r r.basisSize.toNat + m) = some (r.indexPrev.toNat + m)

/-- What the orthogonalisation of the retained coefficient vectors delivers (`Bortho_local` in
`ortho_coefficient_vectors_Sprimme`): orthonormal vectors, orthogonal to the Ritz coefficient vectors in front. -/
structure Retained (s : St K E) (r : Result) (prev : ℕ → ℕ → K) : Prop where
  orth : ∀ m < r.retained.toNat, ∀ m' < r.retained.toNat, dotc s.b (prev m) (prev m') = if m = m' then 1 else 0
  front : ∀ m < r.retained.toNat, ∀ v < s.b, (v : Int) < r.indexPrev0 → dotc s.b (fun k => s.hVecs k v) (prev m) = 0

theorem sum_block (n ix ret : ℕ) (h : ix + ret ≤ n) (f : ℕ → K) (hz : ∀ k < n, ¬ (ix ≤ k ∧ k < ix + ret) → f k = 0) :
    ∑ k ∈ range n, f k = ∑ m ∈ range ret, f (ix + m) := by
  have h1 : ∑ k ∈ range n, f k = ∑ k ∈ range (ix + ret), f k := by
    symm
    refine sum_subset (by intro k hk; rw [mem_range] at *; omega) ?_
    intro k hk hk'
    rw [mem_range] at hk hk'
    exact hz k hk (by omega)
  rw [h1, sum_range_add]
  have h2 : ∑ k ∈ range ix, f k = 0 := by
    refine sum_eq_zero fun k hk => ?_
    rw [mem_range] at hk
    exact hz k (by omega) (by omega)
  rw [h2, zero_add]

section
variable {ip : E → E → K} {A B : E → E} (hip : IsInner ip) (hA : IsHermitian ip A) (hB : IsHermitian ip B)
include hip hA hB

variable {s : St K E} (h : Inv ip A B s) {r : Result} {nl : ℕ} (hp : Plan r s.b nl) {prev : ℕ → ℕ → K} (hprev : Retained s r prev)
include h hp hprev

omit hip hA hB h hprev in
theorem coef_ritz (c : ℕ) (hc : c < r.basisSize.toNat + (r.numLocked - nl))
    (hb : ¬ (r.indexPrev.toNat ≤ c ∧ c < r.indexPrev.toNat + r.retained.toNat)) :
    ∃ v < s.b, (v : Int) < r.indexPrev0 ∧ r.restartPerm c = some v ∧ newCoef s prev r c = (fun k => s.hVecs k v) ∧
      newVal s r c = s.hVals v := by
  obtain ⟨v, h1, h2, h3, h4⟩ := hp.ritz c hc hb
  refine ⟨v, h1, h2, h3, ?_, ?_⟩
  · unfold newCoef; rw [h4]; rfl
  · unfold newVal; rw [h3]

omit hip hA hB h hprev in
theorem coef_prev (m : ℕ) (hm : m < r.retained.toNat) : newCoef s prev r (r.indexPrev.toNat + m) = prev m := by
  unfold newCoef; rw [hp.prev m hm]; rfl

omit hip hA hB in
/-- The new coefficient vectors are orthonormal. -/
theorem coef_orth (c c' : ℕ) (hc : c < r.basisSize.toNat + (r.numLocked - nl)) (hc' : c' < r.basisSize.toNat + (r.numLocked - nl)) :
    dotc s.b (newCoef s prev r c) (newCoef s prev r c') = if c = c' then 1 else 0 := by
  by_cases b1 : r.indexPrev.toNat ≤ c ∧ c < r.indexPrev.toNat + r.retained.toNat
  · obtain ⟨m, hm, rfl⟩ : ∃ m < r.retained.toNat, c = r.indexPrev.toNat + m := ⟨c - r.indexPrev.toNat, by omega, by omega⟩
    rw [coef_prev hp m hm]
    by_cases b2 : r.indexPrev.toNat ≤ c' ∧ c' < r.indexPrev.toNat + r.retained.toNat
    · obtain ⟨m', hm', rfl⟩ : ∃ m < r.retained.toNat, c' = r.indexPrev.toNat + m := ⟨c' - r.indexPrev.toNat, by omega, by omega⟩
      rw [coef_prev hp m' hm', hprev.orth m hm m' hm']
      by_cases e : m = m'
      · rw [if_pos e, if_pos (by omega)]
      · rw [if_neg e, if_neg (by omega)]
    · obtain ⟨v, h1, h2, h3, h4, h5⟩ := coef_ritz (s := s) (prev := prev) hp c' hc' b2
      rw [h4, ← dotc_conj, hprev.front m hm v h1 h2, star_zero, if_neg (by rintro rfl; exact b2 b1)]
  · obtain ⟨v, h1, h2, h3, h4, h5⟩ := coef_ritz (s := s) (prev := prev) hp c hc b1
    rw [h4]
    by_cases b2 : r.indexPrev.toNat ≤ c' ∧ c' < r.indexPrev.toNat + r.retained.toNat
    · obtain ⟨m', hm', rfl⟩ : ∃ m < r.retained.toNat, c' = r.indexPrev.toNat + m := ⟨c' - r.indexPrev.toNat, by omega, by omega⟩
      rw [coef_prev hp m' hm', hprev.front m' hm' v h1 h2, if_neg (by rintro rfl; exact b1 b2)]
    · obtain ⟨v', k1, k2, k3, k4, k5⟩ := coef_ritz (s := s) (prev := prev) hp c' hc' b2
      rw [k4]
      have := h.eig.orth v h1 v' k1
      unfold dotc
      rw [this]
      by_cases e : c = c'
      · subst e
        rw [h3] at k3
        rw [if_pos (Option.some.inj k3), if_pos rfl]
      · rw [if_neg e, if_neg]
        rintro rfl
        exact e (hp.once c hc c' hc' b1 b2 (by rw [h3, k3]))

omit hB in
theorem newH_upper (i j : ℕ) (hij : i ≤ j) (hj : j < r.basisSize.toNat) :
    newH s prev r i j = ip (comb s.b s.V (newCoef s prev r i)) (A (comb s.b s.V (newCoef s prev r j))) := by
  rw [ip_AV hip hA s h]
  have hjl : j < r.basisSize.toNat + (r.numLocked - nl) := by omega
  have hil : i < r.basisSize.toNat + (r.numLocked - nl) := by omega
  unfold newH
  dsimp only
  by_cases b2 : r.indexPrev.toNat ≤ j ∧ j < r.indexPrev.toNat + r.retained.toNat
  · rw [if_pos b2]
    by_cases b1 : i < r.indexPrev.toNat
    · rw [if_pos b1]
      obtain ⟨v, h1, h2, h3, h4, h5⟩ := coef_ritz (s := s) (prev := prev) hp i hil (by omega)
      rw [← quad_conj hip hA s h, h4, quad_eig hip hA s h _ v h1]
      have := coef_orth h hp hprev j i hjl hil
      rw [h4] at this
      rw [this, if_neg (by omega), mul_zero, star_zero]
    · rw [if_neg b1]
  · rw [if_neg b2]
    obtain ⟨v, h1, h2, h3, h4, h5⟩ := coef_ritz (s := s) (prev := prev) hp j hjl b2
    have ho := coef_orth h hp hprev i j hil hjl
    rw [h4] at ho ⊢
    rw [quad_eig hip hA s h _ v h1, ho, h5]
    split_ifs <;> ring

omit hip hA hB h hprev in
/-- Outside of the block of the retained vectors the new matrix is diagonal. -/
theorem newH_diag (i c : ℕ) (hc : ¬ (r.indexPrev.toNat ≤ c ∧ c < r.indexPrev.toNat + r.retained.toNat))
    (hr : star (newVal s r c) = newVal s r c) :
    sym (newH s prev r) i c = if i = c then newVal s r c else 0 := by
  unfold sym newH
  dsimp only
  by_cases h1 : i ≤ c
  · rw [if_pos h1, if_neg hc]
  · rw [if_neg h1]
    by_cases h2 : r.indexPrev.toNat ≤ i ∧ i < r.indexPrev.toNat + r.retained.toNat
    · rw [if_pos h2, if_pos (by omega), star_zero, if_neg (by omega)]
    · rw [if_neg h2, if_neg (by omega), star_zero, if_neg (by omega)]

omit hip hA hB hprev in
/-- A column of a Ritz vector in target order. -/
theorem order_ritz (j : ℕ) (hj : j < r.basisSize.toNat)
    (hb : ¬ (firstPrev r r.basisSize.toNat ≤ j ∧ j < firstPrev r r.basisSize.toNat + r.retained.toNat)) :
    ∃ c < r.basisSize.toNat, r.hVecsPerm j = some c ∧ ¬ (r.indexPrev.toNat ≤ c ∧ c < r.indexPrev.toNat + r.retained.toNat) ∧
      star (newVal s r c) = newVal s r c := by
  obtain ⟨c, hc, e⟩ := hp.order j hj
  have hnb : ¬ (r.indexPrev.toNat ≤ c ∧ c < r.indexPrev.toNat + r.retained.toNat) := by
    intro hcb
    obtain ⟨h1, h2⟩ := hp.block (c - r.indexPrev.toNat) (by omega)
    have : firstPrev r r.basisSize.toNat + (c - r.indexPrev.toNat) = j := by
      refine hp.orderOnce _ h1 j hj ?_
      rw [h2, e]
      congr 1
      omega
    exact hb ⟨by omega, by omega⟩
  refine ⟨c, hc, e, hnb, ?_⟩
  obtain ⟨v, h1, h2, h3, h4, h5⟩ := coef_ritz (s := s) (prev := fun _ _ => 0) hp c (by omega) hnb
  rw [h5, h.eig.real v h1]

omit hip hA hB h hprev in
theorem newVecs_block (e : Eig K) (i m : ℕ) (hm : m < r.retained.toNat) :
    newVecs r e r.basisSize.toNat i (firstPrev r r.basisSize.toNat + m) =
      if r.indexPrev.toNat ≤ i ∧ i < r.indexPrev.toNat + r.retained.toNat then e.vecs (i - r.indexPrev.toNat) m else 0 := by
  unfold newVecs
  dsimp only
  by_cases h1 : r.indexPrev.toNat ≤ i ∧ i < r.indexPrev.toNat + r.retained.toNat
  · rw [if_pos ⟨by omega, by omega, h1⟩, if_pos h1, Nat.add_sub_cancel_left]
  · rw [if_neg (fun h => h1 h.2.2), if_neg h1, (hp.block m hm).2, if_neg]
    intro e
    have := Option.some.inj e
    omega

omit hip hA hB h hp hprev in
theorem newVecs_unit (e : Eig K) (i j c : ℕ)
    (hb : ¬ (firstPrev r r.basisSize.toNat ≤ j ∧ j < firstPrev r r.basisSize.toNat + r.retained.toNat))
    (hc : r.hVecsPerm j = some c) : newVecs r e r.basisSize.toNat i j = if i = c then 1 else 0 := by
  unfold newVecs
  dsimp only
  rw [if_neg (fun h => hb ⟨h.1, h.2.1⟩), hc]
  by_cases e : i = c
  · rw [if_pos e, if_pos (by rw [e])]
  · rw [if_neg e, if_neg (fun h => e (Option.some.inj h).symm)]

/-- The block of the retained vectors. -/
def blockH (s : St K E) (prev : ℕ → ℕ → K) (r : Result) : ℕ → ℕ → K := fun i j =>
  sym (newH s prev r) (r.indexPrev.toNat + i) (r.indexPrev.toNat + j)

omit hip hA hB in
theorem newEig (e : Eig K) (he : IsEigenbasis r.retained.toNat (blockH s prev r) e.vecs e.vals) :
    IsEigenbasis r.basisSize.toNat (sym (newH s prev r)) (newVecs r e r.basisSize.toNat) (newVals s r e r.basisSize.toNat) := by
  have hfit := hp.fits
  have hcase : ∀ j, (firstPrev r r.basisSize.toNat ≤ j ∧ j < firstPrev r r.basisSize.toNat + r.retained.toNat) →
      ∃ m < r.retained.toNat, j = firstPrev r r.basisSize.toNat + m := fun j hj =>
    ⟨j - firstPrev r r.basisSize.toNat, by omega, by omega⟩
  refine ⟨?_, ?_, ?_⟩
  · intro i hi j hj
    by_cases bi : firstPrev r r.basisSize.toNat ≤ i ∧ i < firstPrev r r.basisSize.toNat + r.retained.toNat
    · obtain ⟨a, ha, rfl⟩ := hcase i bi
      by_cases bj : firstPrev r r.basisSize.toNat ≤ j ∧ j < firstPrev r r.basisSize.toNat + r.retained.toNat
      · obtain ⟨c, hc, rfl⟩ := hcase j bj
        simp only [newVecs_block hp e _ _ ha, newVecs_block hp e _ _ hc]
        rw [sum_block _ _ _ hfit]
        · have := he.orth a ha c hc
          have e1 : ∀ m ∈ range r.retained.toNat, star (if r.indexPrev.toNat ≤ r.indexPrev.toNat + m ∧
              r.indexPrev.toNat + m < r.indexPrev.toNat + r.retained.toNat then
              e.vecs (r.indexPrev.toNat + m - r.indexPrev.toNat) a else 0) *
              (if r.indexPrev.toNat ≤ r.indexPrev.toNat + m ∧ r.indexPrev.toNat + m < r.indexPrev.toNat + r.retained.toNat then
              e.vecs (r.indexPrev.toNat + m - r.indexPrev.toNat) c else 0) = star (e.vecs m a) * e.vecs m c := by
            intro m hm
            rw [mem_range] at hm
            rw [if_pos (by omega), if_pos (by omega), Nat.add_sub_cancel_left]
          rw [sum_congr rfl e1, this]
          by_cases eq : a = c
          · rw [if_pos eq, if_pos (by omega)]
          · rw [if_neg eq, if_neg (by omega)]
        · intro k _ hk
          rw [if_neg hk, star_zero, zero_mul]
      · obtain ⟨c, hc, hq, hnb, _⟩ := order_ritz (s := s) h hp j hj bj
        simp only [newVecs_block hp e _ _ ha, newVecs_unit e _ _ _ bj hq]
        rw [sum_eq_zero, if_neg (by rintro rfl; exact bj bi)]
        intro k _
        by_cases ek : k = c
        · rw [if_neg (by rw [ek]; exact hnb), star_zero, zero_mul]
        · rw [if_neg ek, mul_zero]
    · obtain ⟨c, hc, hq, hnb, _⟩ := order_ritz (s := s) h hp i hi bi
      by_cases bj : firstPrev r r.basisSize.toNat ≤ j ∧ j < firstPrev r r.basisSize.toNat + r.retained.toNat
      · obtain ⟨a, ha, rfl⟩ := hcase j bj
        simp only [newVecs_block hp e _ _ ha, newVecs_unit e _ _ _ bi hq]
        rw [sum_eq_zero, if_neg (by rintro rfl; exact bi bj)]
        intro k _
        by_cases ek : k = c
        · rw [if_neg (c := _ ∧ _) (by rw [ek]; exact hnb), mul_zero]
        · rw [if_neg ek, star_zero, zero_mul]
      · obtain ⟨c', hc', hq', hnb', _⟩ := order_ritz (s := s) h hp j hj bj
        simp only [newVecs_unit e _ _ _ bi hq, newVecs_unit e _ _ _ bj hq']
        rw [sum_eq_single c]
        · rw [if_pos rfl, star_one, one_mul]
          by_cases eq : c = c'
          · rw [if_pos eq, if_pos (hp.orderOnce i hi j hj (by rw [hq, hq', eq]))]
          · rw [if_neg eq, if_neg]
            rintro rfl
            rw [hq] at hq'
            exact eq (Option.some.inj hq')
        · intro k _ hk
          rw [if_neg hk, star_zero, zero_mul]
        · intro hn; exact absurd (mem_range.2 hc) hn
  · intro i hi j hj
    by_cases bj : firstPrev r r.basisSize.toNat ≤ j ∧ j < firstPrev r r.basisSize.toNat + r.retained.toNat
    · obtain ⟨a, ha, rfl⟩ := hcase j bj
      have hv : newVals s r e r.basisSize.toNat (firstPrev r r.basisSize.toNat + a) = e.vals a := by
        unfold newVals; dsimp only; rw [if_pos bj, Nat.add_sub_cancel_left]
      simp only [newVecs_block hp e _ _ ha, hv]
      rw [sum_block _ _ _ hfit]
      · by_cases bi : r.indexPrev.toNat ≤ i ∧ i < r.indexPrev.toNat + r.retained.toNat
        · obtain ⟨m', hm', rfl⟩ : ∃ m' < r.retained.toNat, i = r.indexPrev.toNat + m' :=
            ⟨i - r.indexPrev.toNat, by omega, by omega⟩
          have := he.eigen m' hm' a ha
          have e1 : ∀ m ∈ range r.retained.toNat, sym (newH s prev r) (r.indexPrev.toNat + m') (r.indexPrev.toNat + m) *
              (if r.indexPrev.toNat ≤ r.indexPrev.toNat + m ∧ r.indexPrev.toNat + m < r.indexPrev.toNat + r.retained.toNat then
              e.vecs (r.indexPrev.toNat + m - r.indexPrev.toNat) a else 0) = blockH s prev r m' m * e.vecs m a := by
            intro m hm
            rw [mem_range] at hm
            rw [if_pos (by omega), Nat.add_sub_cancel_left]
            rfl
          rw [sum_congr rfl e1, this, if_pos bi, Nat.add_sub_cancel_left]
        · rw [if_neg bi, mul_zero]
          refine sum_eq_zero fun m hm => ?_
          rw [mem_range] at hm
          have hz : sym (newH s prev r) i (r.indexPrev.toNat + m) = 0 := by
            unfold sym newH
            dsimp only
            by_cases h1 : i ≤ r.indexPrev.toNat + m
            · rw [if_pos h1, if_pos (by omega), if_pos (by omega)]
            · rw [if_neg h1, if_neg bi, if_neg (by omega), star_zero]
          rw [hz, zero_mul]
      · intro k _ hk
        rw [if_neg hk, mul_zero]
    · obtain ⟨c, hc, hq, hnb, hre⟩ := order_ritz (s := s) h hp j hj bj
      have hv : newVals s r e r.basisSize.toNat j = newVal s r c := by
        unfold newVals; dsimp only; rw [if_neg bj, hq]
      simp only [newVecs_unit e _ _ _ bj hq, hv]
      rw [sum_eq_single c]
      · rw [if_pos rfl, mul_one, newH_diag hp i c hnb hre]
        split_ifs <;> simp
      · intro k _ hk
        rw [if_neg hk, mul_zero]
      · intro hn; exact absurd (mem_range.2 hc) hn
  · intro j hj
    by_cases bj : firstPrev r r.basisSize.toNat ≤ j ∧ j < firstPrev r r.basisSize.toNat + r.retained.toNat
    · obtain ⟨a, ha, rfl⟩ := hcase j bj
      have hv : newVals s r e r.basisSize.toNat (firstPrev r r.basisSize.toNat + a) = e.vals a := by
        unfold newVals; dsimp only; rw [if_pos bj, Nat.add_sub_cancel_left]
      rw [hv, he.real a ha]
    · obtain ⟨c, hc, hq, hnb, hre⟩ := order_ritz (s := s) h hp j hj bj
      have hv : newVals s r e r.basisSize.toNat j = newVal s r c := by
        unfold newVals; dsimp only; rw [if_neg bj, hq]
      rw [hv, hre]

theorem locked_ritz (t : ℕ) (ht : t < r.numLocked - nl) :
    IsRitz ip A B (comb s.b s.V (newCoef s prev r (r.basisSize.toNat + t))) (newVal s r (r.basisSize.toNat + t))
      (comb s.b s.W (newCoef s prev r (r.basisSize.toNat + t)) -
        newVal s r (r.basisSize.toNat + t) • comb s.b s.BV (newCoef s prev r (r.basisSize.toNat + t))) := by
  have hfit := hp.fits
  obtain ⟨v, h1, h2, h3, h4, h5⟩ := coef_ritz (s := s) (prev := prev) hp (r.basisSize.toNat + t) (by omega) (by omega)
  obtain ⟨q, -⟩ := ritz_spec hip hA hB s h v h1
  rw [h4, h5]
  exact q

/-- A restart keeps the invariant. -/
theorem restart_inv (e : Eig K) (he : IsEigenbasis r.retained.toNat (blockH s prev r) e.vecs e.vals) :
    Inv ip A B (restart s prev r e nl) := by
  have hfit := hp.fits
  have hx : ∀ p ∈ newLocked s prev r nl, ∃ t < r.numLocked - nl, p.x = comb s.b s.V (newCoef s prev r (r.basisSize.toNat + t)) := by
    intro p hp'
    unfold newLocked at hp'
    obtain ⟨t, ht, rfl⟩ := List.mem_map.1 hp'
    exact ⟨t, List.mem_range.1 ht, rfl⟩
  refine ⟨?_, ?_, ?_, ?_, newEig h hp hprev e he, ?_, ⟨?_, ?_⟩, ?_⟩
  · intro i hi j hj
    change i < r.basisSize.toNat at hi
    change j < r.basisSize.toNat at hj
    change ip (comb s.b s.V _) (B (comb s.b s.V _)) = _
    rw [ip_V hip hB s h]
    exact coef_orth h hp hprev i j (by omega) (by omega)
  · intro i hi
    exact W_comb hA s h _
  · intro i hi
    exact BV_comb hB s h _
  · intro i hi j hj
    change i < r.basisSize.toNat at hi
    change j < r.basisSize.toNat at hj
    change sym (newH s prev r) i j = ip (comb s.b s.V _) (A (comb s.b s.V _))
    by_cases hij : i ≤ j
    · unfold sym; rw [if_pos hij, newH_upper hip hA h hp hprev i j hij hj]
    · unfold sym; rw [if_neg hij, newH_upper hip hA h hp hprev j i (by omega) hi, hip.conj, hA.self]
  · intro x hx' i hi
    change i < r.basisSize.toNat at hi
    change ip x (B (comb s.b s.V _)) = 0
    change x ∈ s.cons ++ (s.locked ++ newLocked s prev r nl).map Locked.x at hx'
    rw [List.map_append, ← List.append_assoc, List.mem_append] at hx'
    rcases hx' with hx' | hx'
    · exact ip_out hip hB s h x hx' _
    · obtain ⟨p, hp', rfl⟩ := List.mem_map.1 hx'
      obtain ⟨t, ht, e1⟩ := hx p hp'
      rw [e1, ip_V hip hB s h, coef_orth h hp hprev _ _ (by omega) (by omega), if_neg (by omega)]
  · intro x hx'
    change x ∈ s.cons ++ (s.locked ++ newLocked s prev r nl).map Locked.x at hx'
    rw [List.map_append, ← List.append_assoc, List.mem_append] at hx'
    rcases hx' with hx' | hx'
    · exact h.others.1 x hx'
    · obtain ⟨p, hp', rfl⟩ := List.mem_map.1 hx'
      obtain ⟨t, ht, e1⟩ := hx p hp'
      rw [e1, ip_V hip hB s h, coef_orth h hp hprev _ _ (by omega) (by omega), if_pos rfl]
  · change (s.cons ++ (s.locked ++ newLocked s prev r nl).map Locked.x).Pairwise _
    rw [List.map_append, ← List.append_assoc, List.pairwise_append]
    refine ⟨h.others.2, ?_, ?_⟩
    · unfold newLocked
      rw [List.map_map, List.pairwise_map]
      refine List.Pairwise.imp_of_mem ?_ List.pairwise_lt_range
      intro a c ha hc hac
      rw [List.mem_range] at ha hc
      change ip (comb s.b s.V _) (B (comb s.b s.V _)) = 0
      rw [ip_V hip hB s h, coef_orth h hp hprev _ _ (by omega) (by omega), if_neg (by omega)]
    · intro x hx' y hy
      obtain ⟨p, hp', rfl⟩ := List.mem_map.1 hy
      obtain ⟨t, ht, e1⟩ := hx p hp'
      rw [e1]
      exact ip_out hip hB s h x hx' _
  · intro p hp'
    change p ∈ s.locked ++ newLocked s prev r nl at hp'
    rw [List.mem_append] at hp'
    rcases hp' with hp' | hp'
    · exact h.locked p hp'
    · unfold newLocked at hp'
      obtain ⟨t, ht, rfl⟩ := List.mem_map.1 hp'
      exact locked_ritz hip hA hB h hp hprev t (List.mem_range.1 ht)

end

end Verif.Rayleigh
