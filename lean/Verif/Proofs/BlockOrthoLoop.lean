import Verif.Proofs.BlockOrthoTurn

set_option linter.unusedSectionVars false
set_option linter.unusedSimpArgs false

/-! # Block orthogonalisation: the loop and the result -/

namespace Verif.BlockOrtho
open Verif Finset

variable {K X : Type} [Field K] [LinearOrder K] [IsStrictOrderedRing K] [AddCommGroup X] [Module K X]

theorem fwd_mem {M : Type} [AddCommGroup M] [Module K M] (S : Submodule K M) (F : ℕ → ℕ → K) (b : ℕ → M) (n : ℕ)
    (hb : ∀ i < n, b i ∈ S) (i : ℕ) : fwd F b n i ∈ S := by
  induction n generalizing i with
  | zero => exact S.zero_mem
  | succ n ih =>
    show (if i = n then _ else _) ∈ S
    split_ifs
    · exact S.smul_mem _ (S.sub_mem (hb n (Nat.lt_succ_self n))
        (S.sum_mem fun l _ => S.smul_mem _ (ih (fun i hi => hb i (by omega)) l)))
    · exact ih (fun i hi => hb i (by omega)) i

theorem columns_mem (S : Submodule K X) (p : Par K) (locked : ℕ → X) (s : St K X)
    (hb : ∀ i < p.k, project p locked s i ∈ S) (c : ℕ) : columns p locked s c ∈ S := by
  unfold columns
  split_ifs with h1 h2
  · exact S.sum_mem fun l hl => S.smul_mem _ (hb l (mem_range.1 hl))
  · exact S.smul_mem _ (hb 0 (by omega))
  · exact fwd_mem S _ _ _ hb c

theorem locked_mem (p : Par K) (locked V : ℕ → X) (n : ℕ) {j : ℕ} (hj : j < p.numLocked) :
    locked j ∈ spanned p locked V n := Submodule.subset_span (Or.inl ⟨j, hj, rfl⟩)

theorem column_mem (p : Par K) (locked V : ℕ → X) {n j : ℕ} (hj : j < n) :
    V j ∈ spanned p locked V n := Submodule.subset_span (Or.inr ⟨j, hj, rfl⟩)

theorem spanned_le (p : Par K) (locked V : ℕ → X) (n : ℕ) (S : Submodule K X) (h1 : ∀ j < p.numLocked, locked j ∈ S)
    (h2 : ∀ j < n, V j ∈ S) : spanned p locked V n ≤ S := by
  refine Submodule.span_le.2 ?_
  rintro x (⟨j, hj, rfl⟩ | ⟨j, hj, rfl⟩)
  · exact h1 j hj
  · exact h2 j hj

theorem project_mem (p : Par K) (locked : ℕ → X) (s : St K X) (hr : p.b1 ≤ p.b2) {c : ℕ} (hc : c < p.k) :
    project p locked s c ∈ spanned p locked s.V p.b2 := by
  unfold project
  unfold Par.k at hc
  refine Submodule.sub_mem _ (Submodule.sub_mem _ (column_mem p locked s.V (by omega)) ?_) ?_
  · exact Submodule.sum_mem _ fun j hj => Submodule.smul_mem _ _ (locked_mem p locked s.V _ (mem_range.1 hj))
  · exact Submodule.sum_mem _ fun j hj => Submodule.smul_mem _ _
      (column_mem p locked s.V (by have := mem_range.1 hj; omega))

theorem reduce_V (o : Kern K X) (p : Par K) (f : ℕ → ℕ → K) (s : St K X) : (reduce o p f s).V = s.V := rfl

/-- State after the first part of a turn. -/
structure Now (o : Kern K X) (p : Par K) (locked Vin : ℕ → X) (Gin f : ℕ → ℕ → K) (s : St K X) : Prop where
  keep : ∀ j, ¬ (p.b1 ≤ j ∧ j < p.b2) → s.V j = Vin j
  keepG : ∀ i j, ¬ (p.nVL ≤ j ∧ j < p.numLocked + p.b2 ∧ i < p.numLocked + p.b2) → s.G i j = Gin i j
  factor : ∀ c < p.k, Factors p locked Vin s.V s.RL s.R s.r c
  span : spanned p locked s.V p.b2 = spanned p locked Vin p.b2
  mid : Mid o p locked f s

variable {o : Kern K X} (h : Contract o) {p : Par K} {locked Vin : ℕ → X} {Gin f : ℕ → ℕ → K}
  (he : Entry o p locked Vin Gin f) (hn : NoOverflow o p locked Vin)

include h he in
theorem entry_fac {V : ℕ → X} (hV : ∀ j < p.b1, V j = Vin j) (i : ℕ) (hi : i < p.nVL) (j : ℕ) (hj : j < p.nVL) :
    ∑ l ∈ range p.nVL, up f l i * up f l j = o.ip (basis p locked V i) (basis p locked V j) := by
  rw [basis_congr p locked V Vin hV hi, basis_congr p locked V Vin hV hj]
  rcases Nat.le_total i j with c | c
  · rw [he.chol.2 i j c hj, he.gram i j c hj]
  · rw [h.symm, ← he.gram j i c hi, ← he.chol.2 j i c hi]
    exact sum_congr rfl fun l _ => mul_comm _ _

theorem gram_at (p : Par K) (locked : ℕ → X) (s : St K X) (hr : p.b1 ≤ p.b2) (j : ℕ) (hj : j < p.nVL + p.k) (c : ℕ)
    (hc : c < p.k) :
    (gram o p locked s).G j (p.nVL + c) = o.ip (basis p locked s.V j) (s.V (p.b1 + c)) := by
  unfold Par.k Par.nVL at *
  show (if _ then _ else _) = _
  rw [if_pos (by unfold Par.nVL; omega)]
  congr 2
  omega

include h he hn in
/-- First turn. -/
theorem now_start : Now o p locked Vin Gin f (gram o p locked (start Vin Gin)) := by
  have hr := he.range.le
  refine ⟨fun _ _ => rfl, fun i j hij => if_neg (by simpa [gram] using hij), ?_, rfl, ⟨?_, ?_, ?_, ?_⟩⟩
  · intro c hc
    show Vin (p.b1 + c) = ∑ j ∈ range p.numLocked, (0 : K) • locked j + ∑ j ∈ range p.b1, (0 : K) • Vin j +
      ∑ i ∈ range p.k, (if i = c then (1 : K) else 0) • Vin (p.b1 + i)
    simp only [zero_smul, sum_const_zero, zero_add, ite_smul, one_smul]
    rw [sum_ite_eq' (range p.k) c, if_pos (mem_range.2 hc)]
  · exact fun i hi j hj => entry_fac h he (fun _ _ => rfl) i hi j hj
  · exact he.chol.1
  · exact fun j hj c hc => gram_at p locked _ hr j hj c hc
  · intro i hi
    rw [gram_at p locked _ hr i (by omega) i hi]
    exact hn.input i hi

theorem apply_V (p : Par K) (locked : ℕ → X) (s : St K X) {c : ℕ} (hc : c < p.k) :
    (apply p locked s).V (p.b1 + c) = columns p locked s c := by
  show (if _ then _ else _) = _
  unfold Par.k at hc
  rw [if_pos ⟨by omega, by omega⟩, Nat.add_sub_cancel_left]

theorem apply_keep (p : Par K) (locked : ℕ → X) (s : St K X) {j : ℕ} (hj : ¬ (p.b1 ≤ j ∧ j < p.b2)) :
    (apply p locked s).V j = s.V j := if_neg hj

theorem orth_congr {k n : ℕ} {P P' Z Z' : ℕ → X} (hP : ∀ j < n, P' j = P j) (hZ : ∀ c < k, Z' c = Z c)
    (ho : Orth o k n P Z) : Orth o k n P' Z' := by
  obtain ⟨h1, h2, h3, m, hm, h4, h5⟩ := ho
  refine ⟨fun j hj c hc => ?_, fun c hc d hd hcd => ?_, fun c hc => ?_, m, hm, fun c hc => ?_, fun c hc hd => ?_⟩
  · rw [hP j hj, hZ c hc, h1 j hj c hc]
  · rw [hZ c hc, hZ d hd, h2 c hc d hd hcd]
  · rw [hZ c hc]; exact h3 c hc
  · rw [hZ c (by omega)]; exact h4 c hc
  · rw [hZ c hd]; exact h5 c hc hd

include h he hn in
/-- Later turns. -/
theorem now_step {s : St K X} (hs : Now o p locked Vin Gin f s) :
    Now o p locked Vin Gin f (gram o p locked (apply p locked (reduce o p f s))) ∧
      Orth o p.k p.nVL (basis p locked (apply p locked (reduce o p f s)).V)
        (fun c => (apply p locked (reduce o p f s)).V (p.b1 + c)) := by
  have hr := he.range.le
  have hk : p.numLocked + p.b2 = p.nVL + p.k := by unfold Par.nVL Par.k; omega
  have hV : ∀ j < p.b1, (apply p locked (reduce o p f s)).V j = s.V j := fun j hj => apply_keep p locked _ (by omega)
  have hZ : ∀ c < p.k, (apply p locked (reduce o p f s)).V (p.b1 + c) = columns p locked (reduce o p f s) c :=
    fun c hc => apply_V p locked _ hc
  have ho := turn_orth h he.eps he.small hs.mid
  have ho' : Orth o p.k p.nVL (basis p locked (apply p locked (reduce o p f s)).V)
        (fun c => (apply p locked (reduce o p f s)).V (p.b1 + c)) :=
    orth_congr (fun j hj => basis_congr p locked _ _ hV hj) hZ ho
  refine ⟨⟨?_, ?_, ?_, ?_, ⟨?_, he.chol.1, ?_, ?_⟩⟩, ho'⟩
  · intro j hj
    exact (apply_keep p locked _ hj).trans (hs.keep j hj)
  · intro i j hij
    have e : (gram o p locked (apply p locked (reduce o p f s))).G i j = (reduce o p f s).G i j :=
      if_neg (by simpa using hij)
    rw [e, ← hs.keepG i j hij]
    show overflow p s.G p.k i j = _
    rw [overflow_mid hs.mid]
  · intro c hc
    have hf := hs.factor c hc
    have hr' := turn_r h he.eps he.small hs.mid c
    unfold Factors at hf ⊢
    have eV : (gram o p locked (apply p locked (reduce o p f s))).V = (apply p locked (reduce o p f s)).V := rfl
    have e1 : ∑ i ∈ range p.k, (reduce o p f s).r i c • (apply p locked (reduce o p f s)).V (p.b1 + i) =
        ∑ i ∈ range p.k, s.r i c • project p locked (reduce o p f s) i := by
      rw [← hr']
      exact sum_congr rfl fun i hi => by rw [hZ i (mem_range.1 hi)]
    have e2 : ∑ i ∈ range p.k, s.r i c • s.V (p.b1 + i) =
        ∑ i ∈ range p.k, s.r i c • project p locked (reduce o p f s) i +
        (∑ j ∈ range p.numLocked, (∑ i ∈ range p.k, (reduce o p f s).a j i * s.r i c) • locked j +
         ∑ j ∈ range p.b1, (∑ i ∈ range p.k, (reduce o p f s).a (p.numLocked + j) i * s.r i c) • s.V j) := by
      have x1 : ∀ i, s.r i c • s.V (p.b1 + i) = s.r i c • project p locked (reduce o p f s) i +
          (∑ j ∈ range p.numLocked, ((reduce o p f s).a j i * s.r i c) • locked j +
            ∑ j ∈ range p.b1, ((reduce o p f s).a (p.numLocked + j) i * s.r i c) • s.V j) := by
        intro i
        have y1 : ∑ j ∈ range p.numLocked, ((reduce o p f s).a j i * s.r i c) • locked j =
            s.r i c • ∑ j ∈ range p.numLocked, (reduce o p f s).a j i • locked j := by
          rw [smul_sum]; exact sum_congr rfl fun j _ => by rw [smul_smul, mul_comm]
        have y2 : ∑ j ∈ range p.b1, ((reduce o p f s).a (p.numLocked + j) i * s.r i c) • s.V j =
            s.r i c • ∑ j ∈ range p.b1, (reduce o p f s).a (p.numLocked + j) i • s.V j := by
          rw [smul_sum]; exact sum_congr rfl fun j _ => by rw [smul_smul, mul_comm]
        rw [y1, y2, ← smul_add, ← smul_add]
        congr 1
        unfold project
        rw [reduce_V]
        abel
      rw [sum_congr rfl fun i _ => x1 i, sum_add_distrib, sum_add_distrib]
      congr 2
      · rw [sum_comm]; exact sum_congr rfl fun j _ => (sum_smul ..).symm
      · rw [sum_comm]; exact sum_congr rfl fun j _ => (sum_smul ..).symm
    rw [eV]
    show Vin (p.b1 + c) = ∑ j ∈ range p.numLocked, (s.RL j c + ∑ i ∈ range p.k, (reduce o p f s).a j i * s.r i c) • locked j +
      ∑ j ∈ range p.b1, (s.R j c + ∑ i ∈ range p.k, (reduce o p f s).a (p.numLocked + j) i * s.r i c) •
        (apply p locked (reduce o p f s)).V j +
      ∑ i ∈ range p.k, (reduce o p f s).r i c • (apply p locked (reduce o p f s)).V (p.b1 + i)
    rw [e1, hf, e2]
    simp only [add_smul, sum_add_distrib]
    have z1 : ∑ j ∈ range p.b1, s.R j c • (apply p locked (reduce o p f s)).V j = ∑ j ∈ range p.b1, s.R j c • s.V j :=
      sum_congr rfl fun j hj => by rw [hV j (mem_range.1 hj)]
    have z2 : ∑ j ∈ range p.b1, (∑ i ∈ range p.k, (reduce o p f s).a (p.numLocked + j) i * s.r i c) •
        (apply p locked (reduce o p f s)).V j =
        ∑ j ∈ range p.b1, (∑ i ∈ range p.k, (reduce o p f s).a (p.numLocked + j) i * s.r i c) • s.V j :=
      sum_congr rfl fun j hj => by rw [hV j (mem_range.1 hj)]
    rw [z1, z2]
    abel
  · rw [← hs.span]
    refine le_antisymm ?_ ?_
    · refine spanned_le _ _ _ _ _ (fun j hj => locked_mem p locked s.V _ hj) fun j hj => ?_
      by_cases c : p.b1 ≤ j
      · obtain ⟨c', rfl⟩ := Nat.exists_eq_add_of_le c
        have hc : c' < p.k := by unfold Par.k; omega
        show (apply p locked (reduce o p f s)).V (p.b1 + c') ∈ _
        rw [hZ c' hc]
        exact columns_mem _ p locked _ (fun i hi => by
          have := project_mem p locked (reduce o p f s) hr hi
          rwa [reduce_V] at this) c'
      · show (apply p locked (reduce o p f s)).V j ∈ _
        rw [hV j (by omega)]
        exact column_mem p locked s.V hj
    · have hlow : ∀ j < p.b1, s.V j ∈ spanned p locked (apply p locked (reduce o p f s)).V p.b2 := fun j hj => by
        rw [← hV j hj]; exact column_mem p locked _ (by omega)
      refine spanned_le _ _ _ _ _ (fun j hj => locked_mem p locked _ _ hj) fun j hj => ?_
      by_cases c : p.b1 ≤ j
      · obtain ⟨c', rfl⟩ := Nat.exists_eq_add_of_le c
        have hc : c' < p.k := by unfold Par.k; omega
        obtain ⟨t, ht⟩ := turn_undo h he.eps he.small hs.mid c' hc
        have e : s.V (p.b1 + c') = project p locked (reduce o p f s) c' +
            (∑ j ∈ range p.numLocked, (reduce o p f s).a j c' • locked j +
              ∑ j ∈ range p.b1, (reduce o p f s).a (p.numLocked + j) c' • s.V j) := by
          unfold project
          rw [reduce_V]
          abel
        rw [e, ht]
        refine Submodule.add_mem _ (Submodule.sum_mem _ fun l hl => Submodule.smul_mem _ _ ?_)
          (Submodule.add_mem _ (Submodule.sum_mem _ fun l hl => Submodule.smul_mem _ _ ?_)
            (Submodule.sum_mem _ fun l hl => Submodule.smul_mem _ _ ?_))
        · rw [← hZ l (mem_range.1 hl)]
          have := mem_range.1 hl
          exact column_mem p locked _ (by unfold Par.k at this; omega)
        · exact locked_mem p locked _ _ (mem_range.1 hl)
        · exact hlow l (mem_range.1 hl)
      · exact hlow j (by omega)
  · exact fun i hi j hj => entry_fac h he (fun j hj => (hV j hj).trans (hs.keep j (by omega))) i hi j hj
  · exact fun j hj c hc => gram_at p locked _ hr j hj c hc
  · intro i hi
    rw [gram_at p locked _ hr i (by omega) i hi]
    refine lt_of_le_of_lt ?_ hn.one
    by_cases c : i < p.nVL
    · rw [ho'.old i c i hi]; exact zero_le_one
    · obtain ⟨d, hd⟩ := Nat.exists_eq_add_of_le (not_lt.1 c)
      have e : basis p locked (apply p locked (reduce o p f s)).V i = (apply p locked (reduce o p f s)).V (p.b1 + d) := by
        rw [hd, Par.nVL, Nat.add_assoc, basis_add]
      rw [e]
      by_cases c2 : d = i
      · rw [c2]; exact ho'.le i hi
      · rw [ho'.new d (by omega) i hi c2]; exact zero_le_one

/-- New columns of a state, counted from `b1`. -/
def St.new (p : Par K) (s : St K X) (c : ℕ) : X := s.V (p.b1 + c)

include h he hn in
theorem loop_spec (cnt its plus1 : ℕ) (s : St K X)
    (hs : its = 0 ∧ s = start Vin Gin ∨ 0 < its ∧ ∃ s0, Now o p locked Vin Gin f s0 ∧
      (2 ≤ its → Orth o p.k p.nVL (basis p locked s0.V) (s0.new p)) ∧ s = reduce o p f s0)
    (h5 : its + cnt = 5) (hp : 1 ≤ plus1) (q : St K X × Bool) (hq : loop o p locked f cnt its plus1 s = q) :
    (q.2 = true → Now o p locked Vin Gin f q.1 ∧ Orth o p.k p.nVL (basis p locked q.1.V) (q.1.new p) ∧
      rankEst o q.1.G p.nVL (p.numLocked + p.b2) p.maxRank = p.numLocked + p.b2 ∧ normsOk p q.1.G) ∧
    (q.2 = false → ∃ s0, Now o p locked Vin Gin f s0 ∧
      Orth o p.k p.nVL (basis p locked s0.V) (s0.new p) ∧ q.1 = reduce o p f s0) := by
  induction cnt generalizing its plus1 s with
  | zero =>
    rcases hs with ⟨h0, _⟩ | ⟨_, s0, h1, h2, h3⟩
    · omega
    · rw [loop] at hq
      subst hq
      exact ⟨fun hh => absurd hh (by simp), fun _ => ⟨s0, h1, h2 (by omega), h3⟩⟩
  | succ cnt ih =>
    have hnow : Now o p locked Vin Gin f (gram o p locked (if its = 0 then s else apply p locked s)) ∧
        (1 ≤ its → Orth o p.k p.nVL (basis p locked (gram o p locked (if its = 0 then s else apply p locked s)).V)
          ((gram o p locked (if its = 0 then s else apply p locked s)).new p)) := by
      rcases hs with ⟨h0, h1⟩ | ⟨h0, s0, h1, h2, h3⟩
      · rw [if_pos h0, h1]
        exact ⟨now_start h he hn, fun hh => by omega⟩
      · rw [if_neg (by omega), h3]
        exact ⟨(now_step h he hn h1).1, fun _ => (now_step h he hn h1).2⟩
    have next : ∀ plus1, 1 ≤ plus1 →
        loop o p locked f cnt (its + 1) plus1
          (reduce o p f (gram o p locked (if its = 0 then s else apply p locked s))) = q → _ :=
      fun plus1 hp' hq' => ih (its + 1) plus1 _
        (Or.inr ⟨Nat.succ_pos _, _, hnow.1, fun hh => hnow.2 (by omega), rfl⟩) (by omega) hp' hq'
    rw [loop] at hq
    generalize gram o p locked (if its = 0 then s else apply p locked s) = s1 at hnow next hq
    split_ifs at hq with c1 c2 c3
    · subst hq
      exact ⟨fun _ => ⟨hnow.1, hnow.2 (by omega), c1, c3⟩, fun hh => absurd hh (by simp)⟩
    · exact next plus1 hp hq
    · exact next _ (by omega) hq
    · exact next plus1 hp hq

theorem rankFrom_le (o : Kern K X) (n : ℕ) (G : ℕ → ℕ → K) (cnt i : ℕ) :
    i ≤ rankFrom o n G cnt i ∧ rankFrom o n G cnt i ≤ i + cnt := by
  induction cnt generalizing i with
  | zero => exact ⟨Nat.le_refl _, Nat.le_refl _⟩
  | succ cnt ih =>
    rw [rankFrom]
    split_ifs
    · have := ih (i + 1); omega
    · omega

theorem rankFrom_ok (o : Kern K X) (n : ℕ) (G : ℕ → ℕ → K) (cnt i : ℕ) :
    ∀ j, i ≤ j → j < rankFrom o n G cnt i → colOk o n G j := by
  induction cnt generalizing i with
  | zero => intro j h1 h2; rw [rankFrom] at h2; omega
  | succ cnt ih =>
    intro j h1 h2
    rw [rankFrom] at h2
    split_ifs at h2 with c
    · rcases Nat.lt_or_ge i j with h3 | h3
      · exact ih (i + 1) j h3 h2
      · have : j = i := by omega
        rw [this]; exact c
    · omega

theorem rankFrom_eq (o : Kern K X) (n : ℕ) (G : ℕ → ℕ → K) (cnt i m : ℕ) (hm : m ≤ cnt)
    (h1 : ∀ c < m, colOk o n G (i + c)) (h2 : m < cnt → ¬ colOk o n G (i + m)) :
    rankFrom o n G cnt i = i + m := by
  induction cnt generalizing i m with
  | zero => rw [rankFrom]; omega
  | succ cnt ih =>
    rw [rankFrom]
    rcases Nat.eq_zero_or_pos m with c | c
    · rw [if_neg]
      · omega
      · have := h2 (by omega)
        rwa [c] at this
    · have h0 : colOk o n G i := h1 0 c
      rw [if_pos h0, ih (i + 1) (m - 1) (by omega)]
      · omega
      · intro c' hc'
        have := h1 (c' + 1) (by omega)
        rwa [show i + (c' + 1) = i + 1 + c' by omega] at this
      · intro hlt
        have := h2 (by omega)
        rwa [show i + m = i + 1 + (m - 1) by omega] at this

include h in
/-- `rank_estimation` counts the leading columns that are not zero. -/
theorem rank_orth {s : St K X} (hr : p.b1 ≤ p.b2) (hm : Mid o p locked f s)
    (hd : ∀ j < p.nVL, 0 ≤ s.G j j) (ho : Orth o p.k p.nVL (basis p locked s.V) (s.new p)) :
    ∃ m ≤ p.k, rankEst o s.G p.nVL (p.numLocked + p.b2) p.maxRank = p.nVL + m ∧
      (∀ c < m, 0 < o.ip (s.new p c) (s.new p c)) ∧ ∀ c, m ≤ c → c < p.k → s.new p c = 0 := by
  obtain ⟨m, hmk, h1, h2⟩ := ho.lead
  have hk : p.numLocked + p.b2 - p.nVL = p.k := by unfold Par.nVL Par.k; omega
  have hG : ∀ c < p.k, ∀ d < p.k, s.G (p.nVL + c) (p.nVL + d) = o.ip (s.new p c) (s.new p d) := by
    intro c hc d hd
    rw [hm.gram _ (by omega) d hd]
    have : basis p locked s.V (p.nVL + c) = s.V (p.b1 + c) := by rw [Par.nVL, Nat.add_assoc, basis_add]
    rw [this]; rfl
  refine ⟨m, hmk, ?_, h1, fun c hc hc' => ip_self_zero h (h2 c hc hc')⟩
  rw [rankEst, hk]
  refine rankFrom_eq o p.maxRank s.G p.k p.nVL m hmk (fun c hc => ⟨?_, fun j hj => ?_⟩) fun hlt hcol => ?_
  · rw [hG c (by omega) c (by omega)]; exact h1 c hc
  · have hz : s.G j (p.nVL + c) = 0 := by
      rcases Nat.lt_or_ge j p.nVL with hj' | hj'
      · rw [hm.gram j (by omega) c (by omega)]; exact ho.old j hj' c (by omega)
      · obtain ⟨d, rfl⟩ := Nat.exists_eq_add_of_le hj'
        rw [hG d (by omega) c (by omega)]
        exact ho.new d (by omega) c (by omega) (by omega)
    have hjj : 0 ≤ s.G j j := by
      rcases Nat.lt_or_ge j p.nVL with hj' | hj'
      · exact hd j hj'
      · obtain ⟨d, rfl⟩ := Nat.exists_eq_add_of_le hj'
        rw [hG d (by omega) d (by omega)]
        exact ip_nonneg h _
    rw [hz, abs_zero]
    refine mul_nonneg (div_nonneg (by norm_num) (Nat.cast_nonneg _)) (h.sqrt _ (mul_nonneg ?_ hjj)).1
    rw [hG c (by omega) c (by omega)]
    exact ip_nonneg h _
  · have := hcol.1
    rw [hG m hlt m hlt, h2 m (Nat.le_refl _) hlt] at this
    exact lt_irrefl _ this

theorem fwd_zero (F : ℕ → ℕ → K) (b : ℕ → K) (n : ℕ) (hb : ∀ i < n, b i = 0) (i : ℕ) : fwd F b n i = 0 := by
  induction n generalizing i with
  | zero => rfl
  | succ n ih =>
    show (if i = n then _ else _) = (0 : K)
    have ih' := ih fun i hi => hb i (by omega)
    split_ifs
    · rw [hb n (Nat.lt_succ_self n), sum_eq_zero fun l _ => by rw [ih' l, smul_zero], sub_zero, smul_zero]
    · exact ih' i

/-- The updated factor is the Cholesky factor of the larger matrix. -/
theorem updateChol_spec (hc : ∀ n H U, o.chol n H = some U → IsChol n U H) {G f f' : ℕ → ℕ → K} {n0 n : ℕ}
    (hn : n0 ≤ n) (hf : IsChol n0 f G) (hu : updateChol o G f n0 n = some f') : IsChol n f' G := by
  unfold updateChol at hu
  dsimp only at hu
  obtain ⟨U, hU, rfl⟩ := Option.map_eq_some_iff.1 hu
  have hU := hc _ _ _ hU
  obtain ⟨m, rfl⟩ := Nat.exists_eq_add_of_le hn
  rw [Nat.add_sub_cancel_left] at hU
  set A := fun c => fwd f (fun j => G j (n0 + c)) n0 with hA
  set f' : ℕ → ℕ → K := fun i j => if j < n0 ∨ n0 + m ≤ j then f i j
    else if i < n0 then A (j - n0) i else U (i - n0) (j - n0) with hf'
  have o1 : ∀ i j, j < n0 → f' i j = f i j := fun i j hj => if_pos (Or.inl hj)
  have o2 : ∀ i c, i < n0 → c < m → f' i (n0 + c) = A c i := fun i c hi hc => by
    rw [hf']
    dsimp only
    rw [if_neg (by omega), if_pos hi, Nat.add_sub_cancel_left]
  have o3 : ∀ i c, c < m → f' (n0 + i) (n0 + c) = U i c := fun i c hc => by
    rw [hf']
    dsimp only
    rw [if_neg (by omega), if_neg (by omega), Nat.add_sub_cancel_left, Nat.add_sub_cancel_left]
  refine ⟨fun i hi => ?_, fun i j hij hj => ?_⟩
  · rcases Nat.lt_or_ge i n0 with c | c
    · show f' i i ≠ 0
      rw [o1 i i c]; exact hf.1 i c
    · obtain ⟨d, rfl⟩ := Nat.exists_eq_add_of_le c
      show f' (n0 + d) (n0 + d) ≠ 0
      rw [o3 d d (by omega)]; exact hU.1 d (by omega)
  · show ∑ l ∈ range (n0 + m), up f' l i * up f' l j = G i j
    rw [sum_range_add]
    rcases Nat.lt_or_ge i n0 with ci | ci
    · have z : ∑ l ∈ range m, up f' (n0 + l) i * up f' (n0 + l) j = 0 :=
        sum_eq_zero fun l _ => by
          have : up f' (n0 + l) i = 0 := if_neg (by omega)
          rw [this, zero_mul]
      rw [z, add_zero]
      have ui : ∀ l, up f' l i = up f l i := fun l => by unfold up; rw [o1 l i ci]
      rcases Nat.lt_or_ge j n0 with cj | cj
      · rw [← hf.2 i j hij cj]
        refine sum_congr rfl fun l _ => ?_
        rw [ui]; unfold up; rw [o1 l j cj]
      · obtain ⟨d, rfl⟩ := Nat.exists_eq_add_of_le cj
        have e := fwd_spec f (fun j => G j (n0 + d)) ci (hf.1 i ci)
        simp only [smul_eq_mul] at e
        rw [← e]
        refine sum_congr rfl fun l hl => ?_
        have hl := mem_range.1 hl
        have : up f' l (n0 + d) = f' l (n0 + d) := if_pos (by omega)
        rw [ui, this, o2 l d hl (by omega)]
    · obtain ⟨c, rfl⟩ := Nat.exists_eq_add_of_le ci
      obtain ⟨d, rfl⟩ := Nat.exists_eq_add_of_le (ci.trans hij)
      have e := hU.2 c d (by omega) (by omega)
      have x1 : ∑ l ∈ range n0, up f' l (n0 + c) * up f' l (n0 + d) = ∑ l ∈ range n0, A c l * A d l :=
        sum_congr rfl fun l hl => by
          have hl := mem_range.1 hl
          have y1 : up f' l (n0 + c) = f' l (n0 + c) := if_pos (by omega)
          have y2 : up f' l (n0 + d) = f' l (n0 + d) := if_pos (by omega)
          rw [y1, y2, o2 l c hl (by omega), o2 l d hl (by omega)]
      have x2 : ∑ l ∈ range m, up f' (n0 + l) (n0 + c) * up f' (n0 + l) (n0 + d) =
          ∑ l ∈ range m, up U l c * up U l d :=
        sum_congr rfl fun l _ => by
          unfold up
          rw [o3 l c (by omega), o3 l d (by omega)]
          congr 1
          · exact if_congr (by omega) rfl rfl
          · exact if_congr (by omega) rfl rfl
      rw [x1, x2, e]
      ring

include h he hn in
/-- Everything about the state in which the call ends. -/
theorem bortho_spec (res : Result K X) (hres : bortho o p locked Vin Gin f = .ok res) :
    ∃ s0, Now o p locked Vin Gin f s0 ∧ Orth o p.k p.nVL (basis p locked s0.V) (s0.new p) ∧
      res.s.V = s0.V ∧ res.s.G = s0.G ∧ (res.stopped = true → res.s = s0 ∧ normsOk p s0.G ∧ res.out = p.b2) ∧
      ∃ m ≤ p.k, res.out = p.b1 + m ∧ (∀ c < m, 0 < o.ip (s0.new p c) (s0.new p c)) ∧
        (∀ c, m ≤ c → c < p.k → s0.new p c = 0) ∧ IsChol (p.nVL + m) res.f s0.G := by
  have hr := he.range.le
  have hl := loop_spec h he hn 5 0 5 (start Vin Gin) (Or.inl ⟨rfl, rfl⟩) rfl (by omega) _ rfl
  unfold bortho at hres
  dsimp only at hres
  have hall : ∃ s0, Now o p locked Vin Gin f s0 ∧ Orth o p.k p.nVL (basis p locked s0.V) (s0.new p) ∧
      (loop o p locked f 5 0 5 (start Vin Gin)).1.V = s0.V ∧ (loop o p locked f 5 0 5 (start Vin Gin)).1.G = s0.G ∧
      ((loop o p locked f 5 0 5 (start Vin Gin)).2 = true → (loop o p locked f 5 0 5 (start Vin Gin)).1 = s0 ∧
        normsOk p s0.G ∧ rankEst o s0.G p.nVL (p.numLocked + p.b2) p.maxRank = p.numLocked + p.b2) := by
    cases hb : (loop o p locked f 5 0 5 (start Vin Gin)).2 with
    | true =>
      obtain ⟨h1, h2, h3, h4⟩ := hl.1 hb
      exact ⟨_, h1, h2, rfl, rfl, fun _ => ⟨rfl, h4, h3⟩⟩
    | false =>
      obtain ⟨s0, h1, h2, h3⟩ := hl.2 hb
      refine ⟨s0, h1, h2, by rw [h3]; rfl, ?_, fun hh => absurd hh (by simp)⟩
      rw [h3]
      exact overflow_mid h1.mid
  obtain ⟨s0, h1, h2, h3, h4, h5⟩ := hall
  have hd : ∀ j < p.nVL, 0 ≤ s0.G j j := by
    intro j hj
    rw [h1.keepG j j (by omega), he.gram j j (Nat.le_refl _) hj]
    exact ip_nonneg h _
  obtain ⟨m, hm, h6, h7, h8⟩ := rank_orth h hr h1.mid hd h2
  rw [h4, h6] at hres
  have hout : p.nVL + m - p.numLocked = p.b1 + m := by unfold Par.nVL; omega
  cases hu : updateChol o s0.G f p.nVL (p.nVL + m) with
  | none => rw [hu] at hres; cases hres
  | some f' =>
    rw [hu] at hres
    cases hres
    refine ⟨s0, h1, h2, h3, h4, fun hh => ?_, m, hm, hout, h7, h8, ?_⟩
    · obtain ⟨a1, a2, a3⟩ := h5 hh
      refine ⟨a1, a2, ?_⟩
      rw [h6] at a3
      show p.nVL + m - p.numLocked = p.b2
      omega
    · refine updateChol_spec h.chol (Nat.le_add_right _ _) ⟨he.chol.1, fun i j hij hj => ?_⟩ hu
      rw [h1.keepG i j (by omega)]
      exact he.chol.2 i j hij hj

include h he hn in
/-- The call succeeds. -/
theorem bortho_ok (hc : CholDiag o) : ∃ res, bortho o p locked Vin Gin f = .ok res := by
  have hr := he.range.le
  have hl := loop_spec h he hn 5 0 5 (start Vin Gin) (Or.inl ⟨rfl, rfl⟩) rfl (by omega) _ rfl
  have hall : ∃ s0, Now o p locked Vin Gin f s0 ∧ Orth o p.k p.nVL (basis p locked s0.V) (s0.new p) ∧
      (loop o p locked f 5 0 5 (start Vin Gin)).1.G = s0.G := by
    cases hb : (loop o p locked f 5 0 5 (start Vin Gin)).2 with
    | true =>
      obtain ⟨h1, h2, h3, h4⟩ := hl.1 hb
      exact ⟨_, h1, h2, rfl⟩
    | false =>
      obtain ⟨s0, h1, h2, h3⟩ := hl.2 hb
      refine ⟨s0, h1, h2, ?_⟩
      rw [h3]
      exact overflow_mid h1.mid
  obtain ⟨s0, h1, h2, h4⟩ := hall
  have hd : ∀ j < p.nVL, 0 ≤ s0.G j j := by
    intro j hj
    rw [h1.keepG j j (by omega), he.gram j j (Nat.le_refl _) hj]
    exact ip_nonneg h _
  obtain ⟨m, hm, h6, h7, h8⟩ := rank_orth h hr h1.mid hd h2
  have hG : ∀ c < p.k, ∀ d < p.k, s0.G (p.nVL + c) (p.nVL + d) = o.ip (s0.new p c) (s0.new p d) := by
    intro c hc d hd
    rw [h1.mid.gram _ (by omega) d hd]
    have : basis p locked s0.V (p.nVL + c) = s0.V (p.b1 + c) := by rw [Par.nVL, Nat.add_assoc, basis_add]
    rw [this]; rfl
  have hz : ∀ c < p.k, ∀ l, fwd f (fun j => s0.G j (p.nVL + c)) p.nVL l = 0 := fun c hc l =>
    fwd_zero f _ _ (fun i hi => by rw [h1.mid.gram i (by omega) c hc]; exact h2.old i hi c hc) l
  obtain ⟨U, hU⟩ := hc (p.nVL + m - p.nVL) (fun i j => s0.G (p.nVL + i) (p.nVL + j) -
      ∑ l ∈ range p.nVL, fwd f (fun j => s0.G j (p.nVL + i)) p.nVL l * fwd f (fun r => s0.G r (p.nVL + j)) p.nVL l)
    (fun i hi => by
      rw [sum_eq_zero fun l _ => by rw [hz i (by omega), zero_mul], sub_zero, hG i (by omega) i (by omega)]
      exact h7 i (by omega))
    (fun i j hij hj => by
      rw [sum_eq_zero fun l _ => by rw [hz i (by omega), zero_mul], sub_zero, hG i (by omega) j (by omega)]
      exact h2.new i (by omega) j (by omega) (by omega))
  unfold bortho
  dsimp only
  rw [h4, h6]
  unfold updateChol
  dsimp only
  rw [hU]
  exact ⟨_, rfl⟩

end Verif.BlockOrtho
