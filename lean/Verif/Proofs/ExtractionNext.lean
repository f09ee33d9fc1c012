import Verif.Proofs.ExtractionSplit

set_option linter.unusedSectionVars false
set_option linter.unusedSimpArgs false
set_option linter.unusedVariables false

namespace Verif.Extraction
open Finset Verif Verif.Spec Verif.Rayleigh Verif.Restart

variable {𝕜 E : Type} [RCLike 𝕜] [AddCommGroup E] [Module 𝕜 E]

/-- Without mixing beyond the arbitrary vectors. -/
theorem rot_sep (s : XSt 𝕜 E) (v : ℕ → ℕ → 𝕜) (h : Rot s v) : Sep s (fun k => k = 0 ∨ s.arb ≤ k) v := by
  intro k hk i hi j hj hij
  have hle := h.le
  have hvv : ∀ l < s.b, ∀ l' < s.b, dotc s.b (fun a => v a l) (fun a => v a l') = if l = l' then 1 else 0 := h.svd.right
  by_cases c : j < s.arb
  · rw [dotc_congr _ _ _ _ (fun a ha => h.low a ha _ c), dotc_comb_right]
    refine sum_eq_zero fun a ha => ?_
    have := mem_range.1 ha
    rw [hvv i hi a (by omega), if_neg (by omega), zero_mul]
  · rw [dotc_congr _ _ _ _ (fun a ha => h.high a ha _ hj (by omega)), hvv i hi j hj, if_neg (by omega)]

section
variable {s : XSt 𝕜 E} {r : Result} {nl : ℕ} (hp : Plan r s.b nl) (ht : Tail r) {prev : ℕ → ℕ → 𝕜}
include hp ht

theorem keepArb_spec : keepArb s r ≤ r.basisSize.toNat ∧ (∀ i < r.basisSize.toNat, keepArb s r ≤ i → place r i = i) ∧
    (keepArb s r = r.basisSize.toNat ∨
      ((s.arb : Int) ≤ r.indexPrev0 ∧ newArb s r ≤ keepArb s r ∧ keepArb s r ≤ Extraction.regular r)) := by
  have hreg := regular_add hp
  have hn := (newArb_spec (s := s) ht).1
  unfold keepArb
  by_cases c : (s.arb : Int) ≤ r.indexPrev0
  · rw [if_pos c]
    obtain ⟨h1, h2, h3⟩ := lastMoved_spec (place r) (newArb s r) r.basisSize.toNat
    refine ⟨by omega, h1, ?_⟩
    by_cases e : lastMoved (place r) (newArb s r) r.basisSize.toNat ≤ Extraction.regular r
    · exact Or.inr ⟨c, h3, e⟩
    · left
      by_contra hne
      have := h1 (r.basisSize.toNat - 1) (by omega) (by omega)
      -- the retained vectors have all moved, or none of them has
      have hl : ∀ m < r.retained.toNat, place r (Extraction.regular r + m) = r.indexPrev.toNat + m := fun m hm => place_last hp ht m hm
      have e1 := hl (r.retained.toNat - 1) (by omega)
      have hx : r.indexPrev.toNat = Extraction.regular r := by
        rw [show Extraction.regular r + (r.retained.toNat - 1) = r.basisSize.toNat - 1 by omega, this] at e1
        omega
      -- so that none of them has
      have hmv : ∀ n, n ≤ r.basisSize.toNat → lastMoved (place r) (newArb s r) n ≤ max (newArb s r) (Extraction.regular r) := by
        intro n
        induction n with
        | zero => intro _; exact le_trans (le_of_eq rfl) (le_max_left _ _)
        | succ n ih =>
          intro hn
          have e : lastMoved (place r) (newArb s r) (n + 1) =
              if newArb s r ≤ n ∧ place r n ≠ n then n + 1 else lastMoved (place r) (newArb s r) n := by
            unfold lastMoved
            rw [List.range_succ, List.foldl_append]
            rfl
          rw [e]
          split_ifs with hc
          · by_cases c2 : n < Extraction.regular r
            · omega
            · exfalso
              have := hl (n - Extraction.regular r) (by omega)
              rw [show Extraction.regular r + (n - Extraction.regular r) = n by omega] at this
              exact hc.2 (by omega)
          · exact ih (by omega)
      have := hmv _ (le_refl _)
      omega
  · rw [if_neg c]
    exact ⟨le_refl _, fun i hi h => by omega, Or.inl rfl⟩

/-- The vectors before the first that has not moved have stayed among themselves. -/
theorem unplace_low (i : ℕ) (hi : i < r.basisSize.toNat) : (unplace r i < keepArb s r ↔ i < keepArb s r) ∧
    (keepArb s r ≤ i → unplace r i = i) := by
  obtain ⟨a1, a2, a3⟩ := keepArb_spec (s := s) hp ht
  obtain ⟨u1, u2⟩ := unplace_spec hp i hi
  have h1 : keepArb s r ≤ i → unplace r i = i := by
    intro h
    have := unplace_place hp i hi
    rwa [a2 i hi h] at this
  refine ⟨⟨fun h => ?_, fun h => ?_⟩, h1⟩
  · by_contra hc
    have := h1 (by omega)
    omega
  · by_contra hc
    have := a2 _ u1 (by omega)
    omega

/-- Sums in the other order. -/
theorem sum_unplace (f : ℕ → 𝕜) : ∑ c ∈ range r.basisSize.toNat, f (unplace r c) = ∑ i ∈ range r.basisSize.toNat, f i := by
  refine sum_nbij' (unplace r) (place r) ?_ ?_ ?_ ?_ ?_
  · intro c hc; exact mem_range.2 (unplace_spec hp c (mem_range.1 hc)).1
  · intro i hi; exact mem_range.2 (place_lt hp i (mem_range.1 hi)).1
  · intro c hc; exact (unplace_spec hp c (mem_range.1 hc)).2
  · intro i hi; exact unplace_place hp i (mem_range.1 hi)
  · intro c _; rfl

section
variable (v : ℕ → ℕ → 𝕜) (hr : Rot s v) (hv : Columns s.b s.hVecs) (o : Keep 𝕜) (ho : KeepOk s r prev o)
  (hret : Retained s.toSt r prev) (closest : Bool) (hg : Graded closest s.b s.hSVals) (d : Svd 𝕜)
  (hd : IsSvd r.basisSize.toNat (keepR s r o) d.u d.sv d.v) (hdo : Descending r.basisSize.toNat d.sv)
  (hgap : ∀ k, keepArb s r ≤ k → k ≤ Extraction.regular r → 0 < k → k < r.basisSize.toNat →
    d.sv (reversed closest r.basisSize.toNat (k - 1)) ≠ d.sv (reversed closest r.basisSize.toNat k))
include hr hv ho hret hg hd hdo hgap

theorem next_split (k : ℕ) (hk : k = keepArb s r ∨ (keepArb s r ≤ k ∧ k ≤ Extraction.regular r)) (i j : ℕ) (hi : i < r.basisSize.toNat)
    (hj : j < r.basisSize.toNat) (hh : ¬ (i < k ↔ j < k)) : d.v i (reversed closest r.basisSize.toNat j) = 0 := by
  obtain ⟨a1, a2, a3⟩ := keepArb_spec (s := s) hp ht
  have hreg := regular_add hp
  by_cases hn : r.basisSize.toNat ≤ k
  · exact absurd ⟨fun _ => by omega, fun _ => by omega⟩ hh
  obtain ⟨b1, b2, b3⟩ : (s.arb : Int) ≤ r.indexPrev0 ∧ newArb s r ≤ keepArb s r ∧ keepArb s r ≤ Extraction.regular r := by
    rcases a3 with a3 | a3
    · omega
    · exact a3
  have hd' : IsSvd r.basisSize.toNat (keepR s r o) (fun i j => d.u i (reversed closest r.basisSize.toNat j))
      (fun j => d.sv (reversed closest r.basisSize.toNat j)) (fun i j => d.v i (reversed closest r.basisSize.toNat j)) :=
    ⟨columns_reversed closest _ _ hd.left, columns_reversed closest _ _ hd.right,
      fun j hj => hd.nonneg _ (reversed_lt closest _ j hj), fun i hi j hj => hd.mul i hi _ (reversed_lt closest _ j hj)⟩
  have hg' := graded_reversed closest r.basisSize.toNat d.sv hd.nonneg hdo
  refine keep_split hp ht v hr hv o ho hret closest hg _ _ _ hd' hg' k b1 (by omega) (by omega) ?_ i hi j hj hh
  intro k0 kn
  refine lt_of_le_of_ne (hg' _ (by omega) _ kn (by omega)) (fun e => ?_)
  have n1 := hd.nonneg _ (reversed_lt closest _ (k - 1) (show k - 1 < r.basisSize.toNat by omega))
  have n2 := hd.nonneg _ (reversed_lt closest _ k kn)
  have e2 : d.sv (reversed closest r.basisSize.toNat (k - 1)) ^ 2 = d.sv (reversed closest r.basisSize.toNat k) ^ 2 := by
    refine mul_left_cancel₀ (a := sign closest) ?_ e
    unfold sign; split_ifs <;> norm_num
  exact hgap k (by omega) (by omega) k0 kn ((pow_left_inj₀ n1 n2 (by norm_num)).1 e2)

theorem next_svd : IsSvd r.basisSize.toNat (keep closest s prev r nl o d).R (keep closest s prev r nl o d).hU
    (keep closest s prev r nl o d).hSVals (fun i j => d.v (unplace r i) (reversed closest r.basisSize.toNat j)) := by
  refine ⟨columns_reversed closest _ _ hd.left, ?_, fun j hj => hd.nonneg _ (reversed_lt closest _ j hj), ?_⟩
  · intro i hi j hj
    rw [sum_unplace hp ht (fun k => star (d.v k (reversed closest r.basisSize.toNat i)) * d.v k (reversed closest r.basisSize.toNat j))]
    exact columns_reversed closest _ _ hd.right i hi j hj
  · intro i hi j hj
    change ∑ k ∈ range r.basisSize.toNat, keepR s r o i (unplace r k) * d.v (unplace r k) (reversed closest r.basisSize.toNat j) = _
    rw [sum_unplace hp ht (fun k => keepR s r o i k * d.v k (reversed closest r.basisSize.toNat j))]
    exact hd.mul i hi _ (reversed_lt closest _ j hj)

theorem next_rot : Rot (keep closest s prev r nl o d) (fun i j => d.v (unplace r i) (reversed closest r.basisSize.toNat j)) := by
  obtain ⟨a1, a2, a3⟩ := keepArb_spec (s := s) hp ht
  have hsp := next_split hp ht v hr hv o ho hret closest hg d hd hdo hgap (keepArb s r) (Or.inl rfl)
  refine ⟨next_svd hp ht v hr hv o ho hret closest hg d hd hdo hgap, a1, ?_, ?_, ?_⟩
  · intro i hi j hj
    change i < r.basisSize.toNat at hi
    change j < keepArb s r at hj
    obtain ⟨u1, u2⟩ := unplace_spec hp i hi
    change (if j < keepArb s r then if i = place r j then (1 : 𝕜) else 0 else _) = ∑ k ∈ range (keepArb s r),
      d.v (unplace r i) (reversed closest r.basisSize.toNat k) *
        (if k < r.basisSize.toNat ∧ j < keepArb s r then star (d.v j (reversed closest r.basisSize.toNat k)) else 0)
    rw [if_pos hj]
    have e := rows_of_columns _ _ (columns_reversed closest _ _ hd.right) (unplace r i) u1 j (by omega)
    have e2 : ∑ k ∈ range (keepArb s r), d.v (unplace r i) (reversed closest r.basisSize.toNat k) *
        (if k < r.basisSize.toNat ∧ j < keepArb s r then star (d.v j (reversed closest r.basisSize.toNat k)) else 0) =
        ∑ k ∈ range r.basisSize.toNat, d.v (unplace r i) (reversed closest r.basisSize.toNat k) * star (d.v j (reversed closest r.basisSize.toNat k)) := by
      refine (sum_congr rfl fun k hk => ?_).trans (sum_subset (by intro k hk; rw [mem_range] at *; omega : range (keepArb s r) ⊆ range r.basisSize.toNat) ?_)
      · have := mem_range.1 hk
        rw [if_pos ⟨by omega, hj⟩]
      · intro k hk hk'
        rw [mem_range] at hk hk'
        rw [hsp j k (by omega) hk (by omega), star_zero, mul_zero]
    rw [e2, e]
    by_cases c : i = place r j
    · rw [if_pos c, if_pos (by rw [c]; exact unplace_place hp j (by omega))]
    · rw [if_neg c, if_neg (fun h => c (by rw [← h, u2]))]
  · intro i hi j hj ha
    change i < r.basisSize.toNat at hi
    change j < r.basisSize.toNat at hj
    change keepArb s r ≤ j at ha
    change (if j < keepArb s r then if i = place r j then (1 : 𝕜) else 0 else d.v i (reversed closest r.basisSize.toNat j)) = _
    rw [if_neg (by omega)]
    obtain ⟨q1, q2⟩ := unplace_low (s := s) hp ht i hi
    by_cases c : i < keepArb s r
    · rw [hsp i j hi hj (by omega), hsp (unplace r i) j (unplace_spec hp i hi).1 hj (by omega)]
    · rw [q2 (by omega)]
  · intro j hj k hk ha
    change j < keepArb s r at hj
    change k < r.basisSize.toNat at hk
    change keepArb s r ≤ k at ha
    change (if k < r.basisSize.toNat ∧ j < keepArb s r then star (d.v j (reversed closest r.basisSize.toNat k)) else 0) = (0 : 𝕜)
    rw [if_pos ⟨hk, hj⟩, hsp j k (by omega) hk (by omega), star_zero]

theorem next_graded : Graded closest (keep closest s prev r nl o d).b (keep closest s prev r nl o d).hSVals :=
  graded_reversed closest _ _ hd.nonneg hdo

variable (hq : ∀ j < s.b, quad s.b s.H (fun k => s.hVecs k j) (fun k => s.hVecs k j) = s.hVals j)
include hq

/-- The coefficient vectors are orthonormal, and the values that do not belong to retained vectors are right. -/
theorem next_solved :
    Solved (keep closest s prev r nl o d).toSt (fun j => j < Extraction.regular r) := by
  obtain ⟨a1, a2, a3⟩ := keepArb_spec (s := s) hp ht
  have hreg := regular_add hp
  have hsp := next_split hp ht v hr hv o ho hret closest hg d hd hdo hgap
  have hcol := columns_reversed closest _ _ hd.right
  have hlo : ∀ j < keepArb s r, (fun k => (keep closest s prev r nl o d).hVecs k j) = fun k => if k = place r j then (1 : 𝕜) else 0 := by
    intro j hj; funext k; exact if_pos hj
  have hhi : ∀ j, ¬ j < keepArb s r → (fun k => (keep closest s prev r nl o d).hVecs k j) = fun k => d.v k (reversed closest r.basisSize.toNat j) := by
    intro j hj; funext k; exact if_neg hj
  have hpick : ∀ (f : ℕ → 𝕜) (p : ℕ), p < r.basisSize.toNat → dotc r.basisSize.toNat (fun k => if k = p then (1 : 𝕜) else 0) f = f p := by
    intro f p hp'
    unfold dotc
    rw [sum_eq_single p]
    · dsimp only; rw [if_pos rfl, star_one, one_mul]
    · intro k _ hne; dsimp only; rw [if_neg hne, star_zero, zero_mul]
    · intro h'; exact absurd (mem_range.2 hp') h'
  constructor
  · intro i hi j hj
    change i < r.basisSize.toNat at hi
    change j < r.basisSize.toNat at hj
    change dotc r.basisSize.toNat (fun k => (keep closest s prev r nl o d).hVecs k i) (fun k => (keep closest s prev r nl o d).hVecs k j) = _
    have hzero : ∀ i j, i < keepArb s r → ¬ j < keepArb s r → j < r.basisSize.toNat →
        d.v (place r i) (reversed closest r.basisSize.toNat j) = 0 := by
      intro i j hi hj hj2
      have p1 := (place_lt hp i (by omega)).1
      have := (unplace_low (s := s) hp ht (place r i) p1).1
      rw [unplace_place hp i (by omega)] at this
      exact hsp _ (Or.inl rfl) _ _ p1 hj2 (by omega)
    by_cases c1 : i < keepArb s r <;> by_cases c2 : j < keepArb s r
    · rw [hlo i c1, hlo j c2, hpick _ _ (place_lt hp i hi).1]
      by_cases e : i = j
      · rw [if_pos e, if_pos (by rw [e])]
      · rw [if_neg e, if_neg (fun h => e (place_inj hp i j hi hj h))]
    · rw [hlo i c1, hhi j c2, hpick _ _ (place_lt hp i hi).1, hzero i j c1 c2 hj, if_neg (by omega)]
    · rw [hlo j c2, hhi i c1, ← dotc_conj, hpick _ _ (place_lt hp j hj).1, hzero j i c2 c1 hi, star_zero, if_neg (by omega)]
    · rw [hhi i c1, hhi j c2]
      exact hcol i hi j hj
  · intro j hj hgood
    change j < r.basisSize.toNat at hj
    have hval : (keep closest s prev r nl o d).hVals j = s.hVals (source r j) := (keep_regular (prev := prev) hp ht j hgood).2.2.2
    have hsb := (keep_regular (prev := prev) hp ht j hgood).1
    have hdiag : quad s.b s.H (newCoef s.toSt prev r (place r j)) (newCoef s.toSt prev r (place r j)) = s.hVals (source r j) := by
      rw [(keep_regular (prev := prev) hp ht j hgood).2.2.1, hq _ hsb]
    have hsym : sym (keep closest s prev r nl o d).H (place r j) (place r j) = s.hVals (source r j) := by
      unfold sym
      rw [if_pos (le_refl _)]
      exact hdiag
    -- a vector with a single entry
    have hsingle : ∀ (x : ℕ → 𝕜) (p : ℕ), p < r.basisSize.toNat → (∀ k < r.basisSize.toNat, k ≠ p → x k = 0) → star (x p) * x p = 1 →
        quad r.basisSize.toNat (keep closest s prev r nl o d).H x x = sym (keep closest s prev r nl o d).H p p := by
      intro x p hp' hx h1
      unfold quad
      rw [sum_eq_single p]
      · rw [sum_eq_single p]
        · rw [mul_right_comm, h1, one_mul]
        · intro k hk hne; rw [hx k (mem_range.1 hk) hne, mul_zero]
        · intro h'; exact absurd (mem_range.2 hp') h'
      · intro k hk hne
        refine sum_eq_zero fun l _ => ?_
        rw [hx k (mem_range.1 hk) hne, star_zero, zero_mul, zero_mul]
      · intro h'; exact absurd (mem_range.2 hp') h'
    change quad r.basisSize.toNat (keep closest s prev r nl o d).H (fun k => (keep closest s prev r nl o d).hVecs k j)
      (fun k => (keep closest s prev r nl o d).hVecs k j) = _
    rw [hval, ← hsym]
    refine hsingle _ _ (place_lt hp j hj).1 ?_ ?_
    · intro k hk hne
      by_cases c : j < keepArb s r
      · have := congrFun (hlo j c) k
        rw [this, if_neg hne]
      · have := congrFun (hhi j c) k
        rw [this]
        rw [a2 j hj (by omega)] at hne
        rcases Nat.lt_or_gt_of_ne hne with h | h
        · exact hsp j (Or.inr ⟨by omega, by omega⟩) k j hk hj (by omega)
        · exact hsp (j + 1) (Or.inr ⟨by omega, by omega⟩) k j hk hj (by omega)
    · by_cases c : j < keepArb s r
      · have := congrFun (hlo j c) (place r j)
        rw [this, if_pos rfl, star_one, one_mul]
      · have := congrFun (hhi j c) (place r j)
        rw [this, a2 j hj (by omega)]
        have e := hcol j hj j hj
        rw [if_pos rfl, sum_eq_single j] at e
        · exact e
        · intro k hk hne
          have : d.v k (reversed closest r.basisSize.toNat j) = 0 := by
            rcases Nat.lt_or_gt_of_ne hne with h | h
            · exact hsp j (Or.inr ⟨by omega, by omega⟩) k j (mem_range.1 hk) hj (by omega)
            · exact hsp (j + 1) (Or.inr ⟨by omega, by omega⟩) k j (mem_range.1 hk) hj (by omega)
          dsimp only
          rw [this, mul_zero]
        · intro h'; exact absurd (mem_range.2 hj) h'

end

end

end Verif.Extraction
