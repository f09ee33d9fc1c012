import Verif.Model.MapVecs
import Verif.Spec.Perm
import Mathlib.Data.Finset.Card
import Mathlib.Tactic.SplitIfs
import Mathlib.Tactic.Linarith

namespace Verif.MapVecs
open Verif.Spec

variable {K : Type} [Field K] [LinearOrder K] [IsStrictOrderedRing K]

theorem used_iff {p : ℕ → ℕ} {i j : ℕ} : used p i j = true ↔ ∃ k, k < i ∧ p k = j := by
  unfold used
  simp [List.any_eq_true]

theorem used_false {p : ℕ → ℕ} {i j : ℕ} : used p i j = false ↔ ∀ k, k < i → p k ≠ j := by
  rw [← Bool.not_eq_true, used_iff]
  push Not
  rfl

theorem used_congr {p q : ℕ → ℕ} {i : ℕ} (h : ∀ k, k < i → p k = q k) (j : ℕ) : used p i j = used q i j := by
  rw [Bool.eq_iff_iff, used_iff, used_iff]
  constructor
  · rintro ⟨k, h1, h2⟩; exact ⟨k, h1, by rw [← h k h1]; exact h2⟩
  · rintro ⟨k, h1, h2⟩; exact ⟨k, h1, by rw [h k h1]; exact h2⟩

theorem scan_congr {ip nrm : ℕ → K} {p q : ℕ → ℕ} {i : ℕ} (h : ∀ k, k < i → p k = q k) : ∀ m j x b,
    scan ip nrm p i m j x b = scan ip nrm q i m j x b := by
  intro m
  induction m with
  | zero => intros; rfl
  | succ m ih => intro j x b; unfold scan; rw [used_congr h j]; split_ifs <;> exact ih _ _ _

/-- The state of the search after columns `0..j-1`. -/
def Best (ip nrm : ℕ → K) (p : ℕ → ℕ) (i j : ℕ) (x : K) (b : Option ℕ) : Prop :=
  (b = none ∧ x = -1 ∧ ∀ t, t < j → used p i t = true) ∨
  ∃ c, b = some c ∧ c < j ∧ used p i c = false ∧ x = ip c / nrm c ∧
    ∀ t, t < j → used p i t = false → ip t / nrm t ≤ x ∧ (t < c → ip t / nrm t < x)

theorem scan_best {ip nrm : ℕ → K} {p : ℕ → ℕ} {i : ℕ} : ∀ m j x b, (∀ t, t < j + m → 0 ≤ ip t ∧ 0 < nrm t) →
    Best ip nrm p i j x b → ∃ y, Best ip nrm p i (j + m) y (scan ip nrm p i m j x b) := by
  intro m
  induction m with
  | zero => intro j x b _ h; exact ⟨x, h⟩
  | succ m ih =>
    intro j x b hn h
    obtain ⟨h0, h1⟩ := hn j (by omega)
    have hj : |ip j / nrm j| = ip j / nrm j := abs_of_nonneg (div_nonneg h0 h1.le)
    unfold scan
    have hm : j + (m + 1) = (j + 1) + m := by omega
    rw [hm]
    split_ifs with hc
    · refine ih _ _ _ (fun t ht => hn t (by omega)) (Or.inr ⟨j, rfl, by omega, hc.2, hj, fun t ht hu => ?_⟩)
      have hlt : x < ip j / nrm j := by rw [lt_div_iff₀ h1]; exact hc.1
      rw [hj]
      by_cases htj : t = j
      · subst htj; exact ⟨le_refl _, fun w => absurd w (by omega)⟩
      · rcases h with ⟨_, _, h4⟩ | ⟨c, _, _, _, _, h4⟩
        · rw [h4 t (by omega)] at hu; cases hu
        · have := (h4 t (by omega) hu).1
          exact ⟨by linarith, fun _ => by linarith⟩
    · refine ih _ _ _ (fun t ht => hn t (by omega)) ?_
      rcases h with ⟨h2, h3, h4⟩ | ⟨c, h2, h3, h4, h5, h6⟩
      · refine Or.inl ⟨h2, h3, fun t ht => ?_⟩
        by_cases htj : t = j
        · by_contra hq
          apply hc
          rw [h3]
          rw [htj] at hq
          exact ⟨by linarith, by simpa using hq⟩
        · exact h4 t (by omega)
      · refine Or.inr ⟨c, h2, by omega, h4, h5, fun t ht hu => ?_⟩
        by_cases htj : t = j
        · have : ¬ (x * nrm j < ip j) := fun w => hc ⟨w, by rw [← htj]; exact hu⟩
          rw [htj]
          refine ⟨?_, fun w => absurd w (by omega)⟩
          rw [div_le_iff₀ h1]
          linarith
        · exact h6 t (by omega) hu

theorem loop_below {ip : ℕ → ℕ → K} {nrm : ℕ → K} {nV : ℕ} : ∀ m i p t, t < i → loop ip nrm nV m i p t = p t := by
  intro m
  induction m with
  | zero => intros; rfl
  | succ m ih =>
    intro i p t ht
    unfold loop
    rw [ih _ _ _ (by omega)]
    unfold assign
    rw [if_neg (by omega)]

theorem loop_entry {ip : ℕ → ℕ → K} {nrm : ℕ → K} {nV : ℕ} : ∀ m i p t, i ≤ t → t < i + m →
    loop ip nrm nV m i p t = (scan (ip t) nrm (loop ip nrm nV m i p) t nV 0 (-1) none).getD t := by
  intro m
  induction m with
  | zero => intros; omega
  | succ m ih =>
    intro i p t h1 h2
    unfold loop
    by_cases ht : t = i
    · subst ht
      rw [loop_below _ _ _ _ (by omega)]
      have hc : ∀ k, k < t → loop ip nrm nV m (t + 1) (assign ip nrm nV p t) k = p k := by
        intro k hk
        rw [loop_below _ _ _ _ (by omega)]
        unfold assign
        rw [if_neg (by omega)]
      rw [scan_congr hc]
      unfold assign
      rw [if_pos rfl]
    · exact ih _ _ _ (by omega) (by omega)

theorem loop_above {ip : ℕ → ℕ → K} {nrm : ℕ → K} {nV : ℕ} : ∀ m i p t, i + m ≤ t → loop ip nrm nV m i p t = p t := by
  intro m
  induction m with
  | zero => intros; rfl
  | succ m ih =>
    intro i p t ht
    unfold loop
    rw [ih _ _ _ (by omega)]
    unfold assign
    rw [if_neg (by omega)]

/-- Each entry is the best column not taken before, or the index itself if all columns are taken. -/
theorem map_entry {ip : ℕ → ℕ → K} {nrm : ℕ → K} {nV n : ℕ} {p : ℕ → ℕ} (hip : ∀ i j, 0 ≤ ip i j) (hn : ∀ j, j < nV → 0 < nrm j)
    {i : ℕ} (hi : i < n) :
    (mapVecs ip nrm nV 0 n p i = i ∧ ∀ j, j < nV → ∃ k, k < i ∧ mapVecs ip nrm nV 0 n p k = j) ∨
    (mapVecs ip nrm nV 0 n p i < nV ∧ (∀ k, k < i → mapVecs ip nrm nV 0 n p k ≠ mapVecs ip nrm nV 0 n p i) ∧
      ∀ j, j < nV → (∀ k, k < i → mapVecs ip nrm nV 0 n p k ≠ j) →
        ip i j / nrm j ≤ ip i (mapVecs ip nrm nV 0 n p i) / nrm (mapVecs ip nrm nV 0 n p i) ∧
        (j < mapVecs ip nrm nV 0 n p i → ip i j / nrm j < ip i (mapVecs ip nrm nV 0 n p i) / nrm (mapVecs ip nrm nV 0 n p i))) := by
  have he : mapVecs ip nrm nV 0 n p i = (scan (ip i) nrm (mapVecs ip nrm nV 0 n p) i nV 0 (-1) none).getD i :=
    loop_entry _ _ _ _ (by omega) (by omega)
  obtain ⟨y, hb⟩ := scan_best (ip := ip i) (nrm := nrm) (p := mapVecs ip nrm nV 0 n p) (i := i) nV 0 (-1) none
    (fun t ht => ⟨hip i t, hn t (by omega)⟩) (Or.inl ⟨rfl, rfl, fun t ht => absurd ht (by omega)⟩)
  rw [Nat.zero_add] at hb
  rcases hb with ⟨h1, _, h2⟩ | ⟨c, h1, h2, h3, h4, h5⟩
  · left
    rw [h1] at he
    exact ⟨he, fun j hj => used_iff.1 (h2 j hj)⟩
  · right
    rw [h1] at he
    have he' : mapVecs ip nrm nV 0 n p i = c := he
    rw [he']
    refine ⟨h2, used_false.1 h3, fun j hj hu => ?_⟩
    have := h5 j hj (used_false.2 hu)
    rw [h4] at this
    exact this

theorem map_prefix {ip : ℕ → ℕ → K} {nrm : ℕ → K} {nV n : ℕ} {p : ℕ → ℕ} (hip : ∀ i j, 0 ≤ ip i j) (hn : ∀ j, j < nV → 0 < nrm j)
    (hle : nV ≤ n) : ∀ i, i ≤ nV → (∀ k, k < i → mapVecs ip nrm nV 0 n p k < nV) ∧
      ∀ k l, k < i → l < i → mapVecs ip nrm nV 0 n p k = mapVecs ip nrm nV 0 n p l → k = l := by
  intro i
  induction i with
  | zero => intro _; exact ⟨fun k h => absurd h (by omega), fun k l h => absurd h (by omega)⟩
  | succ i ih =>
    intro hi
    obtain ⟨a1, a2⟩ := ih (by omega)
    rcases map_entry (p := p) hip hn (show i < n by omega) with ⟨_, h2⟩ | ⟨h1, h2, _⟩
    · exfalso
      have hsub : Finset.range nV ⊆ (Finset.range i).image (mapVecs ip nrm nV 0 n p) := by
        intro j hj
        obtain ⟨k, hk, he⟩ := h2 j (Finset.mem_range.1 hj)
        exact Finset.mem_image.2 ⟨k, Finset.mem_range.2 hk, he⟩
      have h3 := Finset.card_le_card hsub
      have h4 := Finset.card_image_le (s := Finset.range i) (f := mapVecs ip nrm nV 0 n p)
      rw [Finset.card_range] at h3 h4
      omega
    · refine ⟨fun k hk => ?_, fun k l hk hl e => ?_⟩
      · rcases Nat.lt_succ_iff_lt_or_eq.1 hk with hk | rfl
        · exact a1 k hk
        · exact h1
      · rcases Nat.lt_succ_iff_lt_or_eq.1 hk with hk | rfl <;> rcases Nat.lt_succ_iff_lt_or_eq.1 hl with hl | rfl
        · exact a2 k l hk hl e
        · exact absurd e (h2 k hk)
        · exact absurd e.symm (h2 l hl)
        · rfl

theorem map_onto {ip : ℕ → ℕ → K} {nrm : ℕ → K} {nV n : ℕ} {p : ℕ → ℕ} (hip : ∀ i j, 0 ≤ ip i j) (hn : ∀ j, j < nV → 0 < nrm j)
    (hle : nV ≤ n) {j : ℕ} (hj : j < nV) : ∃ k, k < nV ∧ mapVecs ip nrm nV 0 n p k = j := by
  obtain ⟨a1, a2⟩ := map_prefix (p := p) hip hn hle nV (Nat.le_refl _)
  have hsub : (Finset.range nV).image (mapVecs ip nrm nV 0 n p) ⊆ Finset.range nV := by
    intro x hx
    obtain ⟨k, hk, rfl⟩ := Finset.mem_image.1 hx
    exact Finset.mem_range.2 (a1 k (Finset.mem_range.1 hk))
  have hcard : ((Finset.range nV).image (mapVecs ip nrm nV 0 n p)).card = nV := by
    rw [Finset.card_image_of_injOn, Finset.card_range]
    intro k hk l hl e
    exact a2 k l (Finset.mem_range.1 hk) (Finset.mem_range.1 hl) e
  have := Finset.eq_of_subset_of_card_le hsub (by rw [hcard, Finset.card_range])
  have hm : j ∈ (Finset.range nV).image (mapVecs ip nrm nV 0 n p) := by rw [this]; exact Finset.mem_range.2 hj
  obtain ⟨k, hk, he⟩ := Finset.mem_image.1 hm
  exact ⟨k, Finset.mem_range.1 hk, he⟩

theorem map_rest {ip : ℕ → ℕ → K} {nrm : ℕ → K} {nV n : ℕ} {p : ℕ → ℕ} (hip : ∀ i j, 0 ≤ ip i j) (hn : ∀ j, j < nV → 0 < nrm j)
    (hle : nV ≤ n) {i : ℕ} (h1 : nV ≤ i) (h2 : i < n) : mapVecs ip nrm nV 0 n p i = i := by
  rcases map_entry (p := p) hip hn h2 with ⟨h, _⟩ | ⟨h3, h4, _⟩
  · exact h
  · obtain ⟨k, hk, he⟩ := map_onto (p := p) hip hn hle h3
    exact absurd he (h4 k (by omega))

end Verif.MapVecs
