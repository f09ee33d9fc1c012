import Verif.Props.C22_Restart

set_option linter.unusedSimpArgs false

/-! The facts about one restart that the main iteration relies on, when no guesses are left. -/

namespace Verif.Restart
open Verif Verif.Spec Verif.Props

/-- What the main iteration needs from a restart of a basis of `b` vectors. -/
structure Restarted (P : Par) (b nl : ℕ) (flags : List Flag) (r : Result) : Prop where
  pos : 0 ≤ r.basisSize
  le : r.basisSize ≤ b
  locked : nl ≤ r.numLocked ∧ r.numLocked ≤ P.numEvals ∧ r.numLocked ≤ r.numConverged
  dim : r.basisSize + r.numLocked ≤ b + nl
  lockedSoft : P.locking = false → r.numLocked = nl
  convLocked : P.locking = true → r.numConverged = r.numLocked
  conv : r.numConverged ≤ P.numEvals
  len : r.flags.length = flags.length
  clean : P.locking = false → ∀ i : ℕ, r.basisSize ≤ i → i < P.numEvals → ¬ Accepted r.flags i
  blk : 0 ≤ r.ievSize ∧ r.ievSize ≤ P.maxBlockSize
  fits : r.basisSize + r.ievSize ≤ P.maxBasisSize
  wanted : 0 < r.ievSize → r.ievSize + r.numConverged ≤ P.numEvals + 1
  iev : ∀ k : ℕ, (k : Int) < r.ievSize → ∃ i : ℕ, r.iev k = some i ∧ (i : Int) < r.basisSize
  incr : ∀ k l i j : ℕ, k < l → (l : Int) < r.ievSize → r.iev k = some i → r.iev l = some j → i < j

/-- The `i`-th position not in `F` is at most `i` plus the number of members of `F`. -/
theorem others_le (b : ℕ) (F : List ℕ) (i v : ℕ) (h : (others b F)[i]? = some v) : v ≤ F.length + i := by
  have hs := others_sorted b F
  have hvb : v < b := by
    have := List.mem_of_getElem? h
    simp only [others, List.mem_filter, List.mem_range] at this
    exact this.1
  -- the positions below `v` are in `F` or among the first `i` others
  have hsub : ∀ x ∈ List.range v, x ∈ F ++ (others b F).take i := by
    intro x hx
    have hxv := List.mem_range.1 hx
    by_cases hxF : x ∈ F
    · exact List.mem_append.2 (Or.inl hxF)
    · apply List.mem_append.2
      right
      have hxo : x ∈ others b F := by simp [others, hxF]; omega
      obtain ⟨j, hj, rfl⟩ := List.mem_iff_getElem.1 hxo
      by_cases hji : j < i
      · rw [List.mem_iff_getElem]
        exact ⟨j, by simp; omega, by simp⟩
      · exfalso
        have hi : i < (others b F).length := by
          by_contra hcon
          rw [List.getElem?_eq_none (by omega)] at h
          cases h
        rw [List.getElem?_eq_getElem hi] at h
        have hv := Option.some.inj h
        rcases Nat.lt_or_ge i j with hij | hij
        · have := List.pairwise_iff_getElem.1 hs i j hi hj hij
          omega
        · have : i = j := by omega
          subst this
          omega
  have hnd : (List.range v).Nodup := List.nodup_range
  have hlen := (List.subperm_of_subset hnd hsub).length_le
  simp only [List.length_range, List.length_append, List.length_take] at hlen
  omega

theorem lt_of_getElem? {α : Type} {l : List α} {i : ℕ} {v : α} (h : l[i]? = some v) : i < l.length := by
  by_contra hcon
  rw [List.getElem?_eq_none (by omega)] at h
  cases h

theorem length_of_map {l l' : List Flag} (f : ℕ → Flag → Flag) (h : ∀ i, l'[i]? = (l[i]?).map (f i)) :
    l'.length = l.length := by
  rcases Nat.lt_trichotomy l'.length l.length with hlt | heq | hgt
  · have := h l'.length
    rw [List.getElem?_eq_none (Nat.le_refl _), List.getElem?_eq_getElem hlt] at this
    cases this
  · exact heq
  · have := h l.length
    rw [List.getElem?_eq_none (Nat.le_refl _), List.getElem?_eq_getElem hgt] at this
    cases this

theorem restart_soft_use (P : Par) (o : Answers) (b : ℕ) (flags : List Flag) (bs : Int) (iev : Arr)
    (h : C22_Plain P o b flags 0) (hmin : P.numEvals ≤ P.minRestartSize) :
    ∃ r, restart P o b 0 flags bs iev 0 = .ok r ∧ Restarted P b 0 flags r := by
  obtain ⟨r, e, h1, h2, h3, h4, h5, h6, h7, h8, h9, h10, h11, h12, h13, h14⟩ := restart_soft P o b flags bs iev 0 h.soft
    (by rw [h.len]; exact h.fits) (by rw [h.len]; exact h.wanted) h.fits h.clean (Int.le_refl _) h.possible
  obtain ⟨q1, q2, q3, q4, q5, q6⟩ := C22_block_without_locking P o b flags bs iev 0 r h e
  have hb := h.fits
  have hnc : r.numConverged ≤ P.numEvals := by
    rw [h2, (accepted_below _ _ _).1]
    refine Nat.le_trans (List.length_filter_le _ _) ?_
    simp
  have hip : min (b : Int) P.minRestartSize ≤ r.indexPrev := by
    rw [h10]
    generalize (accepted ((flags.take b).map unmark) b P.numEvals (eligible P 0)).length = c
    unfold sizes
    simp only [h.soft, Bool.false_eq_true, if_false, not_false_eq_true, true_and]
    split_ifs <;> dsimp only <;> omega
  have hbase : min (b : Int) P.minRestartSize ≤ r.basisSize := by omega
  have hiv : ∀ k : ℕ, (k : Int) < r.ievSize → ∃ v : ℕ, r.iev k = some v ∧ (v : Int) < r.basisSize ∧
      (others b (C22_front P b r.flags))[k]? = some v := by
    intro k hk
    obtain ⟨v, w1, w2, w3⟩ := q6 k hk
    have hv := others_le _ _ _ _ w2
    have hF : (C22_front P b r.flags).length = r.numConverged := by rw [h2]; rfl
    rw [hF] at hv
    rw [h13] at hk
    unfold softBlock at hk
    have hlt : (v : Int) < r.basisSize := by omega
    exact ⟨v, w3 hlt, hlt, w2⟩
  refine ⟨r, e, ⟨q1, q2, ⟨by omega, by omega, by omega⟩, by omega, fun _ => h3, fun w => ?_, hnc, ?_, fun _ i hi1 hi2 => ?_, ⟨q3, q4⟩, q5, ?_, ?_, ?_⟩⟩
  · rw [h.soft] at w; cases w
  · exact length_of_map _ h1
  · rintro ⟨f, hf, hn⟩
    rw [h1 i] at hf
    have hbi : b ≤ i := by omega
    simp only [show ¬ i < b by omega, if_false] at hf
    have hcl := h.clean i hbi hi2
    cases hfi : flags[i]? with
    | none => rw [hfi] at hf; cases hf
    | some g =>
      rw [hfi] at hf
      simp only [Option.map_some, Option.some.injEq] at hf
      by_cases hm : i < P.numEvals ∧ o.moved i = true
      · rw [if_pos hm] at hf; exact hn hf.symm
      · rw [if_neg hm] at hf
        subst hf
        exact hcl ⟨_, hfi, hn⟩
  · intro hpos
    rw [h13] at hpos ⊢
    unfold softBlock at hpos ⊢
    omega
  · intro k hk
    obtain ⟨v, w1, w2, _⟩ := hiv k hk
    exact ⟨v, w1, w2⟩
  · intro k l i j hkl hl hi hj
    obtain ⟨v, w1, _, w3⟩ := hiv k (by omega)
    obtain ⟨v', w1', _, w3'⟩ := hiv l hl
    rw [hi] at w1; rw [hj] at w1'
    cases w1; cases w1'
    have hll := lt_of_getElem? w3'
    have hkk := lt_of_getElem? w3
    rw [List.getElem?_eq_getElem hkk] at w3
    rw [List.getElem?_eq_getElem hll] at w3'
    have := List.pairwise_iff_getElem.1 (others_sorted b (C22_front P b r.flags)) k l hkk hll hkl
    have a1 := Option.some.inj w3
    have a2 := Option.some.inj w3'
    omega

/-- Without locking a restart leaves room for at least one more vector, unless the basis spans the whole
space. -/
theorem restart_soft_room (P : Par) (o : Answers) (b : ℕ) (flags : List Flag) (bs : Int) (iev : Arr)
    (h : C22_Plain P o b flags 0) (hspan : b + P.numOrthoConst < P.n) (hbl : 0 < P.maxBlockSize)
    (hmr : P.minRestartSize < P.maxBasisSize) (r : Result) (hr : restart P o b 0 flags bs iev 0 = .ok r) :
    r.basisSize < P.maxBasisSize := by
  obtain ⟨r', e, h1, h2, h3, h4, h5, h6, h7, h8, h9, h10, h11, h12, h13, h14⟩ := restart_soft P o b flags bs iev 0 h.soft
    (by rw [h.len]; exact h.fits) (by rw [h.len]; exact h.wanted) h.fits h.clean (Int.le_refl _) h.possible
  rw [hr] at e
  cases e
  have hp := h.possible
  unfold Possible at hp
  have hrc := recount_zero P 0 b flags (by rw [h.len]; exact h.fits)
  rw [hrc] at hp
  simp only [Nat.zero_add, Nat.sub_zero] at hp
  rw [h9, h10]
  have hret := hp.2.1
  have hb := h.fits
  generalize (accepted ((flags.take b).map unmark) b P.numEvals (eligible P 0)).length = c at *
  have hret' : o.retained ≤ (sizes P b 0 c 0).2 := by
    have := hret
    push_cast at this
    exact this
  unfold sizes at hret' ⊢
  simp only [h.soft, Bool.false_eq_true, if_false, not_false_eq_true, true_and] at hret' ⊢
  rw [if_neg (by omega)] at hret' ⊢
  split_ifs at hret' ⊢ <;> dsimp only at hret' ⊢ <;> omega

/-- Without locking, a basis that spans the space is kept whole; if no pair was accepted, none is after the restart. -/
theorem restart_soft_full (P : Par) (o : Answers) (b : ℕ) (flags : List Flag) (bs : Int) (iev : Arr)
    (h : C22_Plain P o b flags 0) (hspan : P.n ≤ b + P.numOrthoConst) (hun : ∀ f ∈ flags, f = .unconverged)
    (r : Result) (hr : restart P o b 0 flags bs iev 0 = .ok r) :
    r.basisSize = b ∧ r.numConverged = 0 ∧ ∀ f ∈ r.flags, f = .unconverged := by
  obtain ⟨r', e, h1, h2, h3, h4, h5, h6, h7, h8, h9, h10, h11, h12, h13, h14⟩ := restart_soft P o b flags bs iev 0 h.soft
    (by rw [h.len]; exact h.fits) (by rw [h.len]; exact h.wanted) h.fits h.clean (Int.le_refl _) h.possible
  rw [hr] at e
  cases e
  have hfl : ∀ f ∈ r.flags, f = .unconverged := by
    intro f hf
    obtain ⟨i, hi, hfi⟩ := List.getElem_of_mem hf
    have h1i := h1 i
    rw [List.getElem?_eq_getElem hi, hfi] at h1i
    cases hg : flags[i]? with
    | none => rw [hg] at h1i; cases h1i
    | some g =>
      rw [hg] at h1i
      have := hun g (List.mem_of_getElem? hg)
      subst this
      simp only [Option.map_some, Option.some.injEq] at h1i
      rw [h1i]
      split
      · rfl
      · split <;> rfl
  refine ⟨?_, ?_, hfl⟩
  · have hp := h.possible
    unfold Possible at hp
    have hrc := recount_zero P 0 b flags (by rw [h.len]; exact h.fits)
    rw [hrc] at hp
    simp only [Nat.zero_add, Nat.sub_zero] at hp
    rw [h9, h10]
    have hret := hp.2.1
    generalize (accepted ((flags.take b).map unmark) b P.numEvals (eligible P 0)).length = c at *
    have hret' : o.retained ≤ (sizes P b 0 c 0).2 := by
      have := hret
      push_cast at this
      exact this
    unfold sizes at hret' ⊢
    simp only [h.soft, Bool.false_eq_true, if_false, not_false_eq_true, true_and] at hret' ⊢
    rw [if_pos (by omega)] at hret' ⊢
    dsimp only at hret' ⊢
    omega
  · rw [h2]
    unfold accepted
    rw [List.length_take, Nat.min_eq_zero_iff]
    right
    rw [List.length_eq_zero_iff, List.filter_eq_nil_iff]
    intro i _ hi
    rw [Bool.and_eq_true, decide_eq_true_iff] at hi
    obtain ⟨⟨f, g1, g2⟩, _⟩ := hi
    exact g2 (hfl f (List.mem_of_getElem? g1))

theorem restart_hard_use (P : Par) (o : Answers) (b nl : ℕ) (flags : List Flag) (bs : Int) (iev : Arr) (g : Int)
    (h : C22_Hard P o b nl flags g) :
    ∃ r, restart P o b nl flags bs iev g = .ok r ∧ Restarted P b nl flags r ∧
      r.basisSize + (r.numLocked - nl) + r.ievSize ≤ P.maxBasisSize ∧ r.basisSize + (r.numLocked - nl) ≤ b ∧
      (0 < P.maxBlockSize → P.minRestartSize + P.maxPrevRetain + P.numEvals < P.maxBasisSize + nl →
        r.basisSize + (r.numLocked - nl) < P.maxBasisSize) ∧
      (0 < P.maxBlockSize → P.minRestartSize < P.maxBasisSize → (∀ i, o.check i ≠ .unconverged) →
        r.basisSize < P.maxBasisSize ∨ nl < r.numLocked) := by
  have hlen : b ≤ flags.length := by rw [h.len]; exact h.fits
  have hpos := h.possible
  have hrc := recount_zero P nl b flags hlen
  have hCb : (accepted ((flags.take b).map unmark) b (P.numEvals - nl) (eligible P nl)).length ≤ b := accepted_length_le _ _ _ _
  have hCcap : (accepted ((flags.take b).map unmark) b (P.numEvals - nl) (eligible P nl)).length ≤ P.numEvals - nl := by
    unfold accepted; simp
  unfold Possible at hpos
  rw [hrc] at hpos
  dsimp only at hpos
  obtain ⟨s1, s2, s3⟩ := sizes_locking P h.hard b nl _ g o.retained h.guesses_nonneg hCb hpos
  have hsz : (sizes P b nl (nl + (accepted ((flags.take b).map unmark) b (P.numEvals - nl) (eligible P nl)).length : ℕ) g).2 ≥ o.retained :=
    hpos.2.1
  generalize hC : accepted ((flags.take b).map unmark) b (P.numEvals - nl) (eligible P nl) = C at *
  have hroom : 0 < P.maxBlockSize → P.minRestartSize + P.maxPrevRetain + P.numEvals < P.maxBasisSize + nl →
      (sizes P b nl (nl + C.length : ℕ) g).1 + o.retained + C.length < P.maxBasisSize := by
    intro w1 w2
    have hb := h.fits
    have hg := h.guesses_nonneg
    have hnl := h.locked
    clear hrc hC hpos s1
    push_cast at hsz s3 ⊢
    unfold sizes at hsz s3 ⊢
    simp only [h.hard, not_true_eq_false, false_and, if_false, if_true] at hsz s3 ⊢
    split_ifs at hsz s3 ⊢ <;> dsimp only at hsz s3 ⊢ <;> omega
  have hroom' : 0 < P.maxBlockSize → P.minRestartSize < P.maxBasisSize → C.length = 0 →
      (sizes P b nl (nl + C.length : ℕ) g).1 + o.retained < P.maxBasisSize := by
    intro w1 w2 w3
    have hb := h.fits
    have hg := h.guesses_nonneg
    have hnl := h.locked
    rw [w3] at hsz ⊢
    clear hrc hC hpos s1 hroom s3
    push_cast at hsz ⊢
    unfold sizes at hsz ⊢
    simp only [h.hard, not_true_eq_false, false_and, if_false, if_true] at hsz ⊢
    split_ifs at hsz ⊢ <;> dsimp only at hsz ⊢ <;> omega
  obtain ⟨rs, hrs⟩ := Int.eq_ofNat_of_zero_le s1
  obtain ⟨ret, hret⟩ := Int.eq_ofNat_of_zero_le s2
  rw [hrs, hret] at s3 hroom hroom'
  have hflags : C = accepted ((flags.take b).map unmark ++ flags.drop b) b (P.numEvals - nl) (eligible P nl) := by
    rw [accepted_append _ _ _ _ _ (by simp [hlen])]; exact hC.symm
  obtain ⟨s, kept, e, e1, e2, e3, e4, e5, e6, e7, e8, e9, e10, e11, e12, e13, e14, e15, e16, e17, -⟩ :=
    locking_main P o.check b ((flags.take b).map unmark ++ flags.drop b) nl rs ret C (others b C) hflags rfl
      (by simp; omega) h.locked (by omega) h.fits
  have hres : restart P o b nl flags bs iev g = .ok ⟨List.replicate b .unconverged ++
      ((flags.take b).map unmark ++ flags.drop b).drop b, s.numLocked, s.numLocked, s.restartSize,
      s.ievSize, fun i => if (i : Int) < s.ievSize then some i else iev i, s.restartPerm, s.hVecsPerm,
      indexOfPrevious P rs nl (nl + C.length : ℕ), s.indexPrev, o.retained⟩ := by
    unfold restart
    rw [hrc]
    dsimp only
    rw [if_neg (by simp [h.hard]), hrs, hret, e, Outcome.bind_ok]
  have hfl : s.failed.length ≤ C.length := by
    rw [e4]
    have := List.length_filter_le (fun t => decide (o.check t = .unconverged)) (List.range C.length)
    simpa using this
  have hnl := h.locked
  refine ⟨_, hres, ⟨?_, ?_, ⟨?_, ?_, ?_⟩, by dsimp only; rw [e6]; omega, ?_, fun _ => rfl, ?_, ?_, ?_, ⟨e7, e8⟩, by dsimp only; rw [e6]; omega, ?_, ?_, ?_⟩, ?_, ?_, ?_, ?_⟩
  · dsimp only; rw [e6]; omega
  · dsimp only; rw [e6]; omega
  · dsimp only; omega
  · dsimp only; omega
  · dsimp only; omega
  · intro w; rw [h.hard] at w; cases w
  · dsimp only; omega
  · dsimp only; simp; omega
  · intro w; rw [h.hard] at w; cases w
  · dsimp only; intro hp; omega
  · intro k hk
    dsimp only at hk ⊢
    rw [if_pos hk]
    exact ⟨k, rfl, by rw [e6]; omega⟩
  · intro k l i j hkl hl hi hj
    dsimp only at hl hi hj
    rw [if_pos (by omega)] at hi
    rw [if_pos hl] at hj
    cases hi; cases hj
    exact hkl
  · dsimp only; rw [e6]; omega
  · dsimp only; rw [e6]; omega
  · intro w1 w2
    have := hroom w1 w2
    dsimp only
    rw [e6]
    omega
  · intro w1 w2 w3
    have hf0 : s.failed.length = 0 := by
      rw [e4]
      simp [w3]
    dsimp only
    rw [e6]
    by_cases hC0 : C.length = 0
    · have := hroom' w1 w2 hC0
      left; omega
    · right; omega

/-- The block is not larger than the basis. -/
theorem Restarted.block_le {P : Par} {b nl : ℕ} {flags : List Flag} {r : Result} (h : Restarted P b nl flags r) :
    r.ievSize ≤ r.basisSize := by
  have key : ∀ k : ℕ, (k : Int) < r.ievSize → ∃ i : ℕ, r.iev k = some i ∧ k ≤ i := by
    intro k
    induction k with
    | zero => intro hk; obtain ⟨i, h1, _⟩ := h.iev 0 hk; exact ⟨i, h1, Nat.zero_le _⟩
    | succ k ih =>
      intro hk
      obtain ⟨i, h1, h2⟩ := ih (by push_cast at hk; omega)
      obtain ⟨j, h3, _⟩ := h.iev (k + 1) hk
      have := h.incr k (k + 1) i j (by omega) hk h1 h3
      exact ⟨j, h3, by omega⟩
  by_contra hcon
  have hpos := h.pos
  have hk : ((r.ievSize - 1).toNat : Int) < r.ievSize := by omega
  obtain ⟨i, h1, h2⟩ := key (r.ievSize - 1).toNat hk
  obtain ⟨j, h3, h4⟩ := h.iev (r.ievSize - 1).toNat hk
  rw [h1] at h3
  cases h3
  omega

end Verif.Restart
