import Verif.Proofs.ExtractionSolve
import Mathlib.Data.Finset.Card

set_option linter.unusedSectionVars false
set_option linter.unusedSimpArgs false
set_option linter.unusedVariables false

namespace Verif.Extraction
open Finset Verif Verif.Spec Verif.Rayleigh Verif.Restart

variable {𝕜 E : Type} [RCLike 𝕜] [AddCommGroup E] [Module 𝕜 E]

/-! ## Permutations -/

theorem perm_surj (p : ℕ → ℕ) (n : ℕ) (hlt : ∀ j < n, p j < n) (hinj : ∀ i < n, ∀ j < n, p i = p j → i = j) (c : ℕ) (hc : c < n) :
    ∃ j < n, p j = c := by
  have h1 : (range n).image p ⊆ range n := by
    intro x hx
    obtain ⟨j, hj, rfl⟩ := mem_image.1 hx
    exact mem_range.2 (hlt j (mem_range.1 hj))
  have h2 : ((range n).image p).card = (range n).card :=
    card_image_of_injOn (fun i hi j hj e => hinj i (by simpa using hi) j (by simpa using hj) e)
  have h3 := eq_of_subset_of_card_le h1 (le_of_eq h2.symm)
  have : c ∈ (range n).image p := by rw [h3]; exact mem_range.2 hc
  obtain ⟨j, hj, e⟩ := mem_image.1 this
  exact ⟨j, mem_range.1 hj, e⟩

theorem lastMoved_spec (p : ℕ → ℕ) (i0 n : ℕ) :
    (∀ i < n, lastMoved p i0 n ≤ i → p i = i) ∧ lastMoved p i0 n ≤ max i0 n ∧ i0 ≤ lastMoved p i0 n := by
  induction n with
  | zero => exact ⟨fun i hi => absurd hi (Nat.not_lt_zero i), le_max_left _ _, le_refl _⟩
  | succ n ih =>
    have e : lastMoved p i0 (n + 1) = if i0 ≤ n ∧ p n ≠ n then n + 1 else lastMoved p i0 n := by
      unfold lastMoved
      rw [List.range_succ, List.foldl_append]
      rfl
    rw [e]
    obtain ⟨h1, h2, h3⟩ := ih
    split_ifs with hc
    · exact ⟨fun i hi hle => by omega, by omega, by omega⟩
    · refine ⟨fun i hi hle => ?_, by omega, h3⟩
      rcases Nat.lt_succ_iff_lt_or_eq.1 hi with hi | rfl
      · exact h1 i hi hle
      · by_contra hne
        exact hc ⟨by omega, hne⟩

/-! ## Another order -/

theorem arrange_solved (s : XSt 𝕜 E) {good : ℕ → Prop} (hs : Solved s.toSt good) (p : ℕ → ℕ) (hlt : ∀ j < s.b, p j < s.b)
    (hinj : ∀ i < s.b, ∀ j < s.b, p i = p j → i = j) : Solved (arrange s p).toSt (fun j => good (p j)) := by
  constructor
  · intro i hi j hj
    change i < s.b at hi
    change j < s.b at hj
    refine (hs.vecs (p i) (hlt i hi) (p j) (hlt j hj)).trans ?_
    by_cases e : i = j
    · rw [if_pos e, if_pos (by rw [e])]
    · rw [if_neg e, if_neg (fun h => e (hinj i hi j hj h))]
  · intro j hj hg
    exact hs.quot (p j) (hlt j hj) hg

theorem arrange_sep (s : XSt 𝕜 E) (cut : ℕ → Prop) (v : ℕ → ℕ → 𝕜) (hsep : Sep s cut v) (p : ℕ → ℕ) (hlt : ∀ j < s.b, p j < s.b)
    (hinj : ∀ i < s.b, ∀ j < s.b, p i = p j → i = j) : Sep (arrange s p) (fun k => cut k ∧ ∀ j < k, p j < k) v := by
  rintro k ⟨hk, hp⟩ i hi j hj hij
  change i < s.b at hi
  change j < s.b at hj
  refine hsep k hk i hi (p j) (hlt j hj) ?_
  rcases hij with ⟨h1, h2⟩ | ⟨h1, h2⟩
  · refine Or.inl ⟨h1, ?_⟩
    by_contra hcon
    obtain ⟨l, hl, e⟩ := perm_surj p k hp (fun a ha c hc e => hinj a (by omega) c (by omega) e) (p j) (by omega)
    have := hinj l (by omega) j hj e
    omega
  · exact Or.inr ⟨hp j h1, h2⟩

theorem arrange_rot (s : XSt 𝕜 E) (v : ℕ → ℕ → 𝕜) (h : Rot s v) (p : ℕ → ℕ) (hlt : ∀ j < s.b, p j < s.b)
    (hinj : ∀ i < s.b, ∀ j < s.b, p i = p j → i = j) : Rot (arrange s p) v := by
  obtain ⟨m1, m2, -⟩ := lastMoved_spec p 0 s.b
  have hle := h.le
  have hab : (arrange s p).arb = max s.arb (lastMoved p 0 s.b) := rfl
  have hstay : ∀ j < max s.arb (lastMoved p 0 s.b), p j < max s.arb (lastMoved p 0 s.b) := by
    intro j hj
    by_contra hcon
    have h1 := hlt j (by omega)
    have h2 := m1 (p j) h1 (by omega)
    have := hinj (p j) h1 j (by omega) h2
    omega
  refine ⟨h.svd, by rw [hab]; change _ ≤ s.b; omega, ?_, ?_, ?_⟩
  · intro i hi j hj
    change i < s.b at hi
    rw [hab] at hj ⊢
    have hp := hstay j hj
    change s.hVecs i (p j) = ∑ k ∈ range _, v i k * (if p j < s.arb then s.rot k (p j) else if k = p j then 1 else 0)
    by_cases c : p j < s.arb
    · simp only [if_pos c]
      rw [h.low i hi _ c]
      refine sum_subset (by intro k hk; rw [mem_range] at *; omega) ?_
      intro k hk hk'
      rw [mem_range] at hk hk'
      rw [h.zero _ c k (by omega) (by omega), mul_zero]
    · simp only [if_neg c]
      rw [h.high i hi (p j) (by omega) (by omega), sum_eq_single (p j)]
      · rw [if_pos rfl, mul_one]
      · intro k _ hne; rw [if_neg hne, mul_zero]
      · intro h'; exact absurd (mem_range.2 hp) h'
  · intro i hi j hj ha
    change i < s.b at hi
    change j < s.b at hj
    rw [hab] at ha
    change s.hVecs i (p j) = _
    rw [m1 j hj (by omega), h.high i hi j hj (by omega)]
  · intro j hj k hk ha
    change k < s.b at hk
    rw [hab] at hj ha
    have hp := hstay j hj
    change (if p j < s.arb then s.rot k (p j) else if k = p j then 1 else 0) = (0 : 𝕜)
    by_cases c : p j < s.arb
    · rw [if_pos c, h.zero _ c k hk (by omega)]
    · rw [if_neg c, if_neg (by omega)]

/-! ## Restarts that keep the factors -/

/-- What the bookkeeping of the restart must deliver besides `Plan`: the retained vectors are the last in target order, and the others
keep their order. -/
structure Tail (r : Result) : Prop where
  last : ∀ m < r.retained.toNat, r.hVecsPerm (Extraction.regular r + m) = some (r.indexPrev.toNat + m)
  sorted : ∀ i j, i < j → j < Extraction.regular r → source r i < source r j

/-- What the two orthogonalisations deliver when the columns of `hVecsRot0` are independent: `hVecsRot0 = z t` with orthonormal
columns `z` and an upper triangular `t` with positive diagonal, and `R prev = [hU z, q] rr` with columns `q` that are orthonormal and
orthogonal to `hU z`. -/
structure KeepOk (s : XSt 𝕜 E) (r : Result) (prev : ℕ → ℕ → 𝕜) (o : Keep 𝕜) : Prop where
  zorth : ∀ i < Extraction.regular r, ∀ j < Extraction.regular r, dotc (height s r) (fun k => o.z k i) (fun k => o.z k j) = if i = j then 1 else 0
  zmul : ∀ k < height s r, ∀ i < Extraction.regular r, rot0 s r k i = ∑ l ∈ range (Extraction.regular r), o.z k l * o.t l i
  upper : ∀ i < Extraction.regular r, ∀ l < Extraction.regular r, i < l → o.t l i = 0
  diag : ∀ i < Extraction.regular r, ∃ x : ℝ, 0 < x ∧ o.t i i = (x : 𝕜)
  qorth : ∀ i < r.retained.toNat, ∀ j < r.retained.toNat, dotc s.b (fun k => o.q k i) (fun k => o.q k j) = if i = j then 1 else 0
  qold : ∀ i < Extraction.regular r, ∀ j < r.retained.toNat, dotc s.b (fun k => keepU s r o k i) (fun k => o.q k j) = 0
  qmul : ∀ l < s.b, ∀ m < r.retained.toNat, prevR s prev l m =
    ∑ k ∈ range (Extraction.regular r), keepU s r o l k * o.rr k m + ∑ k ∈ range r.retained.toNat, o.q l k * o.rr (Extraction.regular r + k) m

theorem filter_front (n : ℕ) (p : ℕ → Bool) (h : ∀ i j, i < j → j < n → p j = true → p i = true) :
    ((List.range n).filter p).length ≤ n ∧ ∀ i < n, i < ((List.range n).filter p).length ↔ p i = true := by
  induction n with
  | zero => exact ⟨by simp, fun i hi => absurd hi (Nat.not_lt_zero i)⟩
  | succ n ih =>
    obtain ⟨h1, h2⟩ := ih (fun i j hij hj => h i j hij (by omega))
    rw [List.range_succ, List.filter_append, List.length_append]
    by_cases hp : p n = true
    · have hall : ((List.range n).filter p).length = n := by
        rw [List.filter_eq_self.2, List.length_range]
        intro a ha
        exact h a n (List.mem_range.1 ha) (by omega) hp
      rw [hall, List.filter_singleton, hp, cond_true]
      refine ⟨by simp, fun i hi => ⟨fun _ => ?_, fun _ => by simp; omega⟩⟩
      rcases Nat.lt_succ_iff_lt_or_eq.1 hi with hi | rfl
      · exact h i n hi (by omega) hp
      · exact hp
    · rw [List.filter_singleton, Bool.eq_false_iff.2 hp, cond_false]
      refine ⟨by simp; omega, fun i hi => ?_⟩
      simp only [List.length_nil, add_zero]
      rcases Nat.lt_succ_iff_lt_or_eq.1 hi with hi | rfl
      · exact h2 i hi
      · exact ⟨fun hlt => by omega, fun hh => absurd hh hp⟩

section
variable {s : XSt 𝕜 E} {r : Result} {nl : ℕ} (hp : Plan r s.b nl) (ht : Tail r) {prev : ℕ → ℕ → 𝕜}
include hp ht

omit ht in
theorem regular_add : Extraction.regular r + r.retained.toNat = r.basisSize.toNat := by
  have := hp.fits
  unfold Extraction.regular; omega

omit ht in
theorem place_lt (i : ℕ) (hi : i < r.basisSize.toNat) : place r i < r.basisSize.toNat ∧ r.hVecsPerm i = some (place r i) := by
  obtain ⟨c, hc, e⟩ := hp.order i hi
  unfold place
  rw [e]; exact ⟨hc, rfl⟩

omit ht in
theorem place_inj (i j : ℕ) (hi : i < r.basisSize.toNat) (hj : j < r.basisSize.toNat) (e : place r i = place r j) : i = j :=
  hp.orderOnce i hi j hj (by rw [(place_lt hp i hi).2, (place_lt hp j hj).2, e])

omit ht in
theorem unplace_spec (c : ℕ) (hc : c < r.basisSize.toNat) : unplace r c < r.basisSize.toNat ∧ place r (unplace r c) = c := by
  obtain ⟨i, hi, e⟩ := perm_surj (place r) r.basisSize.toNat (fun j hj => (place_lt hp j hj).1)
    (fun i hi j hj => place_inj hp i j hi hj) c hc
  unfold unplace
  cases hf : (List.range r.basisSize.toNat).find? (fun i => place r i == c) with
  | none =>
    have := List.find?_eq_none.1 hf i (List.mem_range.2 hi)
    simp [e] at this
  | some x =>
    have h1 := List.mem_range.1 (List.mem_of_find?_eq_some hf)
    have h2 := List.find?_some hf
    exact ⟨h1, by simpa using h2⟩

omit ht in
theorem unplace_place (i : ℕ) (hi : i < r.basisSize.toNat) : unplace r (place r i) = i := by
  obtain ⟨h1, h2⟩ := unplace_spec hp (place r i) (place_lt hp i hi).1
  exact place_inj hp _ _ h1 hi h2

theorem place_last (m : ℕ) (hm : m < r.retained.toNat) : place r (Extraction.regular r + m) = r.indexPrev.toNat + m := by
  unfold place; rw [ht.last m hm]; rfl

theorem keep_regular (i : ℕ) (hi : i < Extraction.regular r) :
    source r i < s.b ∧ (source r i : Int) < r.indexPrev0 ∧ newCoef s.toSt prev r (place r i) = (fun k => s.hVecs k (source r i)) ∧
      newVal s.toSt r (place r i) = s.hVals (source r i) := by
  have hreg := regular_add hp
  have hpl := place_lt hp i (by omega)
  have hout : ¬ (r.indexPrev.toNat ≤ place r i ∧ place r i < r.indexPrev.toNat + r.retained.toNat) := by
    rintro ⟨h1, h2⟩
    have h3 := place_last hp ht (place r i - r.indexPrev.toNat) (by omega)
    rw [Nat.add_sub_cancel' h1] at h3
    have := place_inj hp _ _ (by omega) (by omega) h3
    omega
  obtain ⟨v, h1, h2, h3, h4, h5⟩ := coef_ritz (s := s.toSt) (prev := prev) hp (place r i) (by omega) hout
  have hsrc : source r i = v := by unfold source; rw [h3]; rfl
  rw [hsrc]
  exact ⟨h1, h2, h4, h5⟩

theorem keep_prev (m : ℕ) (hm : m < r.retained.toNat) : newCoef s.toSt prev r (place r (Extraction.regular r + m)) = prev m := by
  rw [place_last hp ht m hm]
  exact coef_prev hp m hm

omit hp in
theorem newArb_spec : newArb s r ≤ Extraction.regular r ∧ ∀ i < Extraction.regular r, i < newArb s r ↔ source r i < s.arb := by
  have := filter_front (Extraction.regular r) (fun i => decide (source r i < s.arb)) (by
    intro i j hij hj h
    have := ht.sorted i j hij hj
    simp only [decide_eq_true_eq] at *
    omega)
  refine ⟨this.1, fun i hi => ?_⟩
  have h2 := this.2 i hi
  rw [decide_eq_true_eq] at h2
  exact h2

omit hp ht in
theorem height_spec : s.arb ≤ height s r ∧ (∀ i < Extraction.regular r, source r i < height s r) ∧
    ∀ x, s.arb ≤ x → (∀ i < Extraction.regular r, source r i < x) → height s r ≤ x := by
  unfold height
  generalize Extraction.regular r = n
  induction n with
  | zero => exact ⟨le_refl _, fun i hi => absurd hi (Nat.not_lt_zero i), fun x h _ => h⟩
  | succ n ih =>
    obtain ⟨h1, h2, h3⟩ := ih
    rw [List.range_succ, List.foldl_append]
    simp only [List.foldl_cons, List.foldl_nil]
    refine ⟨by omega, fun i hi => ?_, fun x hx hall => ?_⟩
    · rcases Nat.lt_succ_iff_lt_or_eq.1 hi with hi | rfl
      · have := h2 i hi; omega
      · omega
    · have := h3 x hx (fun i hi => hall i (by omega))
      have := hall n (by omega)
      omega

/-- The front part of `R hVecs`, in terms of `hU`. -/
theorem keep_front (v : ℕ → ℕ → 𝕜) (hr : Rot s v) (i : ℕ) (hi : i < Extraction.regular r) (l : ℕ) (hl : l < s.b) :
    mulv s.b s.R (fun k => s.hVecs k (source r i)) l = ∑ k ∈ range (height s r), s.hU l k * rot0 s r k i := by
  have hsrc := (keep_regular (prev := fun _ _ => (0 : 𝕜)) hp ht i hi).1
  obtain ⟨g1, g2, g3⟩ := height_spec (s := s) (r := r)
  have hh : height s r ≤ s.b := g3 _ hr.le (fun j hj => (keep_regular (prev := fun _ _ => (0 : 𝕜)) hp ht j hj).1)
  obtain ⟨n1, n2⟩ := newArb_spec (s := s) ht
  have hmul : ∀ j < s.b, ∑ k ∈ range s.b, s.R l k * v k j = s.hU l j * (s.hSVals j : 𝕜) := by
    intro j hj; rw [hr.svd.mul l hl j hj, mul_comm]
  by_cases c : source r i < s.arb
  · have e1 : mulv s.b s.R (fun k => s.hVecs k (source r i)) l =
        ∑ j ∈ range s.arb, s.hU l j * (s.hSVals j : 𝕜) * s.rot j (source r i) := by
      unfold mulv
      dsimp only
      rw [sum_congr rfl (fun k hk => by rw [hr.low k (mem_range.1 hk) _ c, mul_sum]), sum_comm]
      refine sum_congr rfl fun j hj => ?_
      rw [← hmul j (lt_of_lt_of_le (mem_range.1 hj) hr.le), sum_mul]
      refine sum_congr rfl fun k _ => ?_
      ring
    rw [e1]
    refine (sum_congr rfl fun j hj => ?_).trans (sum_subset (by intro k hk; rw [mem_range] at *; omega : range s.arb ⊆ range (height s r)) ?_)
    · unfold rot0
      rw [if_pos ((n2 i hi).2 c), if_pos (mem_range.1 hj)]
      ring
    · intro k _ hk
      unfold rot0
      rw [if_pos ((n2 i hi).2 c), if_neg (fun h => hk (mem_range.2 h)), mul_zero]
  · have e1 : mulv s.b s.R (fun k => s.hVecs k (source r i)) l = s.hU l (source r i) * (s.hSVals (source r i) : 𝕜) := by
      rw [← hmul _ hsrc]
      unfold mulv
      refine sum_congr rfl fun k hk => ?_
      dsimp only
      rw [hr.high k (mem_range.1 hk) _ hsrc (by omega)]
    rw [e1, sum_eq_single (source r i)]
    · unfold rot0
      rw [if_neg (fun h => c ((n2 i hi).1 h)), if_pos rfl]
    · intro k _ hne
      unfold rot0
      rw [if_neg (fun h => c ((n2 i hi).1 h)), if_neg hne, mul_zero]
    · intro h'; exact absurd (mem_range.2 (g2 i hi)) h'

omit hp in
/-- The columns of `hVecsRot0` that come from singular vectors are orthogonal to those before. -/
theorem rot0_orth (l i : ℕ) (hli : l < i) (hi : i < Extraction.regular r) (hn : newArb s r ≤ i) :
    dotc (height s r) (fun k => rot0 s r k l) (fun k => rot0 s r k i) = 0 := by
  obtain ⟨n1, n2⟩ := newArb_spec (s := s) ht
  have hs := ht.sorted l i hli hi
  have ha : s.arb ≤ source r i := by
    by_contra hcon
    have := (n2 i hi).2 (by omega)
    omega
  unfold dotc
  refine sum_eq_zero fun k _ => ?_
  unfold rot0
  dsimp only
  rw [if_neg (show ¬ i < newArb s r by omega)]
  by_cases e : k = source r i
  · have : (if l < newArb s r then if k < s.arb then s.rot k (source r l) * (s.hSVals k : 𝕜) else 0
        else if k = source r l then (s.hSVals k : 𝕜) else 0) = 0 := by
      split_ifs <;> first | rfl | omega
    rw [this, star_zero, zero_mul]
  · rw [if_neg e, mul_zero]

omit hp ht in
theorem gram (n m : ℕ) (f z t : ℕ → ℕ → 𝕜) (hz : ∀ i < m, ∀ j < m, dotc n (fun k => z k i) (fun k => z k j) = if i = j then 1 else 0)
    (hf : ∀ k < n, ∀ i < m, f k i = ∑ l ∈ range m, z k l * t l i) (i j : ℕ) (hi : i < m) (hj : j < m) :
    dotc n (fun k => f k i) (fun k => f k j) = ∑ l ∈ range m, star (t l i) * t l j := by
  rw [dotc_congr_left n _ _ _ (fun k hk => hf k hk i hi), dotc_comb_left]
  refine sum_congr rfl fun l hl => ?_
  rw [dotc_congr n _ _ _ (fun k hk => hf k hk j hj), dotc_comb_right, sum_eq_single l]
  · rw [hz l (mem_range.1 hl) l (mem_range.1 hl), if_pos rfl, one_mul]
  · intro l' hl' hne
    rw [hz l (mem_range.1 hl) l' (mem_range.1 hl'), if_neg (Ne.symm hne), zero_mul]
  · intro h'; exact absurd hl h'

omit hp in
/-- What the first zeroing of entries of `R` writes is what is there. -/
theorem keep_t (o : Keep 𝕜) (hs : ∀ k < s.b, 0 ≤ s.hSVals k) (hsrc : ∀ i < Extraction.regular r, source r i < s.b) (ho : KeepOk s r prev o)
    (i : ℕ) (hi : i < Extraction.regular r) (hn : newArb s r ≤ i) (l : ℕ) (hl : l < Extraction.regular r) :
    o.t l i = if l = i then (s.hSVals (source r i) : 𝕜) else 0 := by
  obtain ⟨g1, g2, g3⟩ := height_spec (s := s) (r := r)
  have hg := fun a ha c hc => gram (height s r) (Extraction.regular r) (rot0 s r) o.z o.t ho.zorth ho.zmul a c ha hc
  have hlow : ∀ l, l < i → o.t l i = 0 := by
    intro l
    induction l using Nat.strong_induction_on with
    | _ l ih =>
      intro hli
      have h1 := hg l (by omega) i hi
      rw [rot0_orth ht l i hli hi hn, sum_eq_single l] at h1
      · obtain ⟨x, hx, e⟩ := ho.diag l (by omega)
        rw [e] at h1
        rcases mul_eq_zero.1 h1.symm with h2 | h2
        · exfalso
          have h3 : (x : 𝕜) = 0 := star_eq_zero.1 h2
          rw [RCLike.ofReal_eq_zero] at h3
          linarith
        · exact h2
      · intro l' hl' hne
        rcases Nat.lt_or_gt_of_ne hne with h2 | h2
        · rw [ih l' h2 (by omega), mul_zero]
        · rw [ho.upper l (by omega) l' (mem_range.1 hl') h2, star_zero, zero_mul]
      · intro h'; exact absurd (mem_range.2 (by omega)) h'
  rcases Nat.lt_trichotomy l i with h1 | rfl | h1
  · rw [hlow l h1, if_neg (by omega)]
  · rw [if_pos rfl]
    have h1 := hg l hi l hi
    rw [sum_eq_single l] at h1
    · obtain ⟨x, hx, e⟩ := ho.diag l hi
      have h2 : dotc (height s r) (fun k => rot0 s r k l) (fun k => rot0 s r k l) = (s.hSVals (source r l) : 𝕜) * (s.hSVals (source r l) : 𝕜) := by
        unfold dotc
        rw [sum_eq_single (source r l)]
        · unfold rot0
          dsimp only
          rw [if_neg (show ¬ l < newArb s r by omega), if_pos rfl]
          congr 1
          exact RCLike.conj_ofReal _
        · intro k _ hne
          unfold rot0
          dsimp only
          rw [if_neg (show ¬ l < newArb s r by omega), if_neg hne, mul_zero]
        · intro h'; exact absurd (mem_range.2 (g2 l hi)) h'
      rw [h2, e] at h1
      have h3 : star (x : 𝕜) = (x : 𝕜) := RCLike.conj_ofReal _
      rw [h3] at h1
      have h4 : s.hSVals (source r l) * s.hSVals (source r l) = x * x := by exact_mod_cast h1
      have h5 := hs (source r l) (hsrc l hi)
      rw [e]
      congr 1
      nlinarith [mul_self_eq_mul_self_iff.1 h4]
    · intro l' hl' hne
      rcases Nat.lt_or_gt_of_ne hne with h2 | h2
      · rw [hlow l' h2, mul_zero]
      · rw [ho.upper l hi l' (mem_range.1 hl') h2, mul_zero]
    · intro h'; exact absurd (mem_range.2 hi) h'
  · rw [ho.upper i hi l hl h1, if_neg (by omega)]

theorem keepU_front (v : ℕ → ℕ → 𝕜) (hr : Rot s v) (o : Keep 𝕜) (ho : KeepOk s r prev o) (i k : ℕ) (hi : i < Extraction.regular r)
    (hk : k < Extraction.regular r) : dotc s.b (fun l => keepU s r o l i) (fun l => keepU s r o l k) = if i = k then 1 else 0 := by
  obtain ⟨g1, g2, g3⟩ := height_spec (s := s) (r := r)
  have hh : height s r ≤ s.b := g3 _ hr.le (fun j hj => (keep_regular (prev := prev) hp ht j hj).1)
  have e1 : ∀ i < Extraction.regular r, (fun l => keepU s r o l i) = fun l => ∑ k ∈ range (height s r), s.hU l k * o.z k i := by
    intro i hi; funext l; exact if_pos hi
  rw [e1 i hi, e1 k hk, dotc_comb_left, ← ho.zorth i hi k hk]
  unfold dotc
  refine sum_congr rfl fun a ha => ?_
  have ha' := mem_range.1 ha
  congr 1
  have : dotc s.b (fun l => s.hU l a) (fun l => ∑ k' ∈ range (height s r), s.hU l k' * o.z k' k) = o.z a k := by
    rw [dotc_comb_right, sum_eq_single a]
    · have := hr.svd.left a (by omega) a (by omega)
      rw [if_pos rfl] at this
      unfold dotc
      rw [this, one_mul]
    · intro a' ha'' hne
      have := hr.svd.left a (by omega) a' (by have := mem_range.1 ha''; omega)
      rw [if_neg (Ne.symm hne)] at this
      unfold dotc
      rw [this, zero_mul]
    · intro h'; exact absurd ha h'
  exact this

theorem keepU_orth (v : ℕ → ℕ → 𝕜) (hr : Rot s v) (o : Keep 𝕜) (ho : KeepOk s r prev o) (i k : ℕ) (hi : i < r.basisSize.toNat)
    (hk : k < r.basisSize.toNat) : dotc s.b (fun l => keepU s r o l i) (fun l => keepU s r o l k) = if i = k then 1 else 0 := by
  have hreg := regular_add hp
  have eq : ∀ i, ¬ i < Extraction.regular r → (fun l => keepU s r o l i) = fun l => o.q l (i - Extraction.regular r) := by
    intro i hi; funext l; exact if_neg hi
  by_cases c1 : i < Extraction.regular r <;> by_cases c2 : k < Extraction.regular r
  · exact keepU_front hp ht v hr o ho i k c1 c2
  · rw [eq k c2, ho.qold i c1 _ (by omega), if_neg (by omega)]
  · rw [eq i c1, ← dotc_conj, ho.qold k c2 _ (by omega), star_zero, if_neg (by omega)]
  · rw [eq i c1, eq k c2, ho.qorth _ (by omega) _ (by omega)]
    by_cases e : i = k
    · rw [if_pos e, if_pos (by omega)]
    · rw [if_neg e, if_neg (by omega)]

/-- What the second zeroing writes is what is there. -/
theorem keep_rr (v : ℕ → ℕ → 𝕜) (hr : Rot s v) (hv : Columns s.b s.hVecs) (o : Keep 𝕜) (ho : KeepOk s r prev o)
    (hret : Retained s.toSt r prev) (hcase : (s.arb : Int) ≤ r.indexPrev0) (i : ℕ) (hi : i < Extraction.regular r) (m : ℕ) (hm : m < r.retained.toNat) :
    o.rr i m = 0 := by
  obtain ⟨g1, g2, g3⟩ := height_spec (s := s) (r := r)
  have hh : height s r ≤ s.b := g3 _ hr.le (fun j hj => (keep_regular (prev := prev) hp ht j hj).1)
  have hidx : (height s r : Int) ≤ r.indexPrev0 := by
    have := g3 r.indexPrev0.toNat (by omega) (fun j hj => by have := (keep_regular (prev := prev) hp ht j hj).2.1; omega)
    omega
  -- the singular vectors in front are orthogonal to the retained vectors
  have hfront : ∀ j < height s r, dotc s.b (fun k => v k j) (prev m) = 0 := by
    intro j hj
    by_cases c : s.arb ≤ j
    · rw [← dotc_congr_left s.b (fun k => s.hVecs k j) _ _ (fun k hk => hr.high k hk j (by omega) c)]
      exact hret.front m hm j (by omega) (by omega)
    · rw [parseval s.b s.hVecs hv]
      refine sum_eq_zero fun a ha => ?_
      have ha' := mem_range.1 ha
      by_cases c2 : s.arb ≤ a
      · rw [dotc_congr s.b _ (fun k => s.hVecs k a) _ (fun k hk => hr.high k hk a ha' c2)]
        have := hr.svd.right j (by omega) a ha'
        rw [if_neg (by omega)] at this
        unfold dotc
        rw [this, zero_mul]
      · have := hret.front m hm a ha' (by omega)
        rw [this, mul_zero]
  -- the coefficient is an inner product
  have hU := fun k hk => keepU_front hp ht v hr o ho i k hi hk
  have h1 : dotc s.b (fun l => keepU s r o l i) (fun l => prevR s prev l m) = o.rr i m := by
    rw [dotc_congr s.b _ _ _ (fun l hl => ho.qmul l hl m hm)]
    have e2 : dotc s.b (fun l => keepU s r o l i) (fun l => ∑ k ∈ range (Extraction.regular r), keepU s r o l k * o.rr k m +
        ∑ k ∈ range r.retained.toNat, o.q l k * o.rr (Extraction.regular r + k) m) =
        dotc s.b (fun l => keepU s r o l i) (fun l => ∑ k ∈ range (Extraction.regular r), keepU s r o l k * o.rr k m) +
        dotc s.b (fun l => keepU s r o l i) (fun l => ∑ k ∈ range r.retained.toNat, o.q l k * o.rr (Extraction.regular r + k) m) := by
      unfold dotc
      rw [← sum_add_distrib]
      refine sum_congr rfl fun l _ => ?_
      ring
    rw [e2, dotc_comb_right, dotc_comb_right, sum_eq_single i, sum_eq_zero (s := range r.retained.toNat), add_zero, hU i hi, if_pos rfl, one_mul]
    · intro k hk
      rw [ho.qold i hi k (mem_range.1 hk), zero_mul]
    · intro k hk hne
      rw [hU k (mem_range.1 hk), if_neg (Ne.symm hne), zero_mul]
    · intro h'; exact absurd (mem_range.2 hi) h'
  rw [← h1]
  have e3 : ∀ l < s.b, prevR s prev l m = ∑ j ∈ range s.b, s.hU l j * ((s.hSVals j : 𝕜) * dotc s.b (fun k => v k j) (prev m)) :=
    fun l hl => mulv_expand s.b s.R s.hU s.hSVals v hr.svd (prev m) l hl
  rw [dotc_congr s.b _ _ _ e3, dotc_comb_right]
  refine sum_eq_zero fun j hj => ?_
  have hj' := mem_range.1 hj
  by_cases c : j < height s r
  · rw [hfront j c, mul_zero, mul_zero]
  · have e1 : (fun l => keepU s r o l i) = fun l => ∑ k ∈ range (height s r), s.hU l k * o.z k i := by
      funext l; exact if_pos hi
    rw [e1, dotc_comb_left, sum_eq_zero, zero_mul]
    intro a ha
    have ha' := mem_range.1 ha
    have := hr.svd.left a (by omega) j hj'
    rw [if_neg (by omega)] at this
    unfold dotc
    rw [this, mul_zero]

/-- `R Y = hU R'`, columns in target order. -/
theorem keep_columns (v : ℕ → ℕ → 𝕜) (hr : Rot s v) (hv : Columns s.b s.hVecs) (o : Keep 𝕜) (ho : KeepOk s r prev o)
    (hret : Retained s.toSt r prev) (i : ℕ) (hi : i < r.basisSize.toNat) (l : ℕ) (hl : l < s.b) :
    mulv s.b s.R (newCoef s.toSt prev r (place r i)) l = ∑ k ∈ range r.basisSize.toNat, keepU s r o l k * keepR s r o k i := by
  have hreg := regular_add hp
  obtain ⟨n1, n2⟩ := newArb_spec (s := s) ht
  by_cases c : i < Extraction.regular r
  · rw [(keep_regular (prev := prev) hp ht i c).2.2.1, keep_front hp ht v hr i c l hl]
    have hR : ∀ k < Extraction.regular r, keepR s r o k i = o.t k i := by
      intro k hk
      unfold keepR
      rw [if_pos c]
      by_cases c2 : newArb s r ≤ i ∧ s.arb ≤ source r i
      · rw [if_pos c2, keep_t ht o hr.svd.nonneg (fun i hi => (keep_regular (prev := prev) hp ht i hi).1) ho i c c2.1 k hk]
      · rw [if_neg c2, if_pos hk]
    have hR0 : ∀ k, Extraction.regular r ≤ k → keepR s r o k i = 0 := by
      intro k hk
      unfold keepR
      rw [if_pos c, if_neg (show ¬ k = i by omega), if_neg (show ¬ k < Extraction.regular r by omega), ite_self]
    have e1 : ∑ k ∈ range r.basisSize.toNat, keepU s r o l k * keepR s r o k i =
        ∑ k ∈ range (Extraction.regular r), keepU s r o l k * o.t k i := by
      rw [← hreg, sum_range_add, sum_eq_zero (s := range r.retained.toNat), add_zero]
      · refine sum_congr rfl fun k hk => ?_
        rw [hR k (mem_range.1 hk)]
      · intro k _
        rw [hR0 _ (by omega), mul_zero]
    rw [e1, sum_congr rfl (fun k hk => by rw [ho.zmul k (mem_range.1 hk) i c, mul_sum]), sum_comm]
    refine sum_congr rfl fun k hk => ?_
    unfold keepU
    rw [if_pos (mem_range.1 hk), sum_mul]
    refine sum_congr rfl fun a _ => ?_
    ring
  · obtain ⟨m, rfl⟩ : ∃ m, i = Extraction.regular r + m := ⟨i - Extraction.regular r, by omega⟩
    have hm : m < r.retained.toNat := by omega
    rw [keep_prev hp ht m hm]
    change prevR s prev l m = _
    rw [ho.qmul l hl m hm, ← hreg, sum_range_add]
    have hR : ∀ k, keepR s r o k (Extraction.regular r + m) =
        if (s.arb : Int) ≤ r.indexPrev0 ∧ k < Extraction.regular r then 0 else o.rr k m := by
      intro k
      unfold keepR
      rw [if_neg c, Nat.add_sub_cancel_left]
    congr 1
    · refine sum_congr rfl fun k hk => ?_
      rw [hR k]
      by_cases c2 : (s.arb : Int) ≤ r.indexPrev0
      · rw [if_pos ⟨c2, mem_range.1 hk⟩, keep_rr hp ht v hr hv o ho hret c2 k (mem_range.1 hk) m hm]
      · rw [if_neg (fun h => c2 h.1)]
    · refine sum_congr rfl fun k hk => ?_
      rw [hR, if_neg (by omega)]
      unfold keepU
      rw [if_neg (by omega), Nat.add_sub_cancel_left]

variable {ip : E → E → 𝕜} {A : E → E} (hip : IsInner ip) (hA : IsHermitian ip A)
include hip hA

/-- The factors after a restart that keeps them. -/
theorem keep_fac (h : Plain ip A s.toSt) (hf : Fac ip s) (v : ℕ → ℕ → 𝕜) (hr : Rot s v) (hv : Columns s.b s.hVecs) (o : Keep 𝕜)
    (ho : KeepOk s r prev o) (hret : Retained s.toSt r prev) (closest : Bool) (d : Svd 𝕜) :
    Fac ip (keep closest s prev r nl o d) := by
  constructor
  · intro i hi j hj
    change i < r.basisSize.toNat at hi
    change j < r.basisSize.toNat at hj
    change ip (comb s.b s.Q (fun l => keepU s r o l i)) (comb s.b s.Q (fun l => keepU s r o l j)) = _
    rw [fac_ip hip s hf, keepU_orth hp ht v hr o ho i j hi hj]
  · intro c hc
    change c < r.basisSize.toNat at hc
    obtain ⟨u1, u2⟩ := unplace_spec hp c hc
    have e1 : shifted (keep closest s prev r nl o d).toSt (keep closest s prev r nl o d).tau c =
        off (𝕜 := 𝕜) A s.tau (comb s.b s.V (newCoef s.toSt prev r c)) := by
      change comb s.b s.W _ - (s.tau : 𝕜) • comb s.b s.V _ = _
      rw [plain_W hA s.toSt h]; rfl
    rw [e1, off_comb hip hA s h hf]
    change comb s.b s.Q _ = ∑ k ∈ range r.basisSize.toNat, keepR s r o k (unplace r c) • ∑ l ∈ range s.b, keepU s r o l k • s.Q l
    simp_rw [smul_sum]
    rw [sum_comm]
    unfold comb
    refine sum_congr rfl fun l hl => ?_
    rw [← u2, keep_columns hp ht v hr hv o ho hret _ u1 l (mem_range.1 hl), u2, sum_smul]
    refine sum_congr rfl fun k _ => ?_
    rw [smul_smul, mul_comm]

end

end Verif.Extraction
