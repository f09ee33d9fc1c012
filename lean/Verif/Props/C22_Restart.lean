import Verif.Proofs.Restart
import Mathlib.Data.List.Perm.Subperm

set_option linter.unusedSectionVars false
set_option linter.unusedSimpArgs false

/-!
# C22: reorderings at a restart

A pair is named by its position in the basis before the restart.  `r.restartPerm t` is the pair whose
vector becomes column `t` of the new basis, `r.hVecsPerm j` is the column of the new basis that holds
pair `j` of the new projected problem.
-/

namespace Verif.Props
open Verif Verif.Restart Verif.Spec

/-- Situation of a restart without locking: `maxBasisSize` flags, a basis that fits, no flag left over
beyond the basis, and answers of the kernels within their contract. -/
structure C22_Plain (P : Par) (o : Answers) (b : ℕ) (flags : List Conv.Flag) (guesses : Int) : Prop where
  soft : P.locking = false
  len : flags.length = P.maxBasisSize
  fits : b ≤ P.maxBasisSize
  wanted : P.numEvals ≤ P.maxBasisSize
  clean : ∀ i, b ≤ i → i < P.numEvals → ¬ Accepted flags i
  guesses_nonneg : 0 ≤ guesses
  possible : Possible P o b 0 flags guesses

/-- Situation of a restart with locking. -/
structure C22_Hard (P : Par) (o : Answers) (b nl : ℕ) (flags : List Conv.Flag) (guesses : Int) : Prop where
  hard : P.locking = true
  len : flags.length = P.maxBasisSize
  fits : b ≤ P.maxBasisSize
  locked : nl ≤ P.numEvals
  guesses_nonneg : 0 ≤ guesses
  possible : Possible P o b nl flags guesses

/-- Without locking: the accepted pairs among the first `numEvals`. -/
def C22_front (P : Par) (b : ℕ) (flags : List Conv.Flag) : List ℕ := accepted flags b b (fun i => decide (i < P.numEvals))

/-- With locking: the pairs chosen to be locked, at most `numEvals - numLocked`, among the first
`numEvals - numLocked` positions unless the target is one-sided. -/
def C22_chosen (P : Par) (b nl : ℕ) (flags : List Conv.Flag) : List ℕ :=
  accepted (flags.map unmark) b (P.numEvals - nl) (fun i => decide (i + nl < P.numEvals) || P.side)

/-- Without locking the restart is well defined, keeps a pair accepted exactly if it was accepted, not
merely set aside, and its value has not moved, and reorders the basis by a permutation: the accepted
pairs first, then the others, each group in its previous order; `hVecsPerm` undoes the reordering. -/
theorem C22_order_without_locking (P : Par) (o : Answers) (b : ℕ) (flags : List Conv.Flag) (ievSize : Int) (iev : Arr)
    (g : Int) (h : C22_Plain P o b flags g) :
    ∃ r, restart P o b 0 flags ievSize iev g = .ok r ∧
      (∀ i, Accepted r.flags i ↔ ∃ f, flags[i]? = some f ∧ f ≠ .unconverged ∧ (i < b → f ≠ .skip_until_restart) ∧
        ¬ (i < P.numEvals ∧ o.moved i = true)) ∧
      r.numConverged = (C22_front P b r.flags).length ∧
      (C22_front P b r.flags ++ others b (C22_front P b r.flags)).Perm (List.range b) ∧
      (∀ t, r.restartPerm t = (C22_front P b r.flags ++ others b (C22_front P b r.flags))[t]?) ∧
      (∀ t v, r.restartPerm t = some v → r.hVecsPerm v = some t) := by
  obtain ⟨r, e, h1, h2, _, h4, h5, _⟩ := restart_soft P o b flags ievSize iev g h.soft (by rw [h.len]; exact h.fits)
    (by rw [h.len]; exact h.wanted) h.fits h.clean h.guesses_nonneg h.possible
  refine ⟨r, e, ?_, h2, perm_of_sublist b _ (accepted_sublist _ _ _ _), h4, h5⟩
  intro i
  unfold Accepted
  rw [h1 i]
  constructor
  · rintro ⟨f, hf, hn⟩
    obtain ⟨f', hf', hff⟩ := Option.map_eq_some_iff.1 hf
    refine ⟨f', hf', ?_, ?_, ?_⟩
    · intro hh; apply hn; rw [← hff, hh]; split_ifs <;> rfl
    · intro hi hh; apply hn; rw [← hff, hh]; split_ifs <;> rfl
    · intro hh; apply hn; rw [← hff, if_pos hh]
  · rintro ⟨f, hf, h1', h2', h3'⟩
    refine ⟨f, ?_, h1'⟩
    rw [hf, Option.map_some, if_neg h3']
    by_cases hi : i < b
    · rw [if_pos hi]
      have := h2' hi
      cases f <;> first | rfl | exact absurd rfl this
    · rw [if_neg hi]

/-- Without locking and without pending initial guesses, the numbering of the pairs survives: pair `j`
of the restarted problem is pair `j` of the old one, so that values, flags and residual norms kept by
position still belong to the same pair. -/
theorem C22_numbering_without_locking (P : Par) (o : Answers) (b : ℕ) (flags : List Conv.Flag) (ievSize : Int) (iev : Arr)
    (r : Result) (h : C22_Plain P o b flags 0) (hmin : P.numEvals ≤ P.minRestartSize)
    (hr : restart P o b 0 flags ievSize iev 0 = .ok r) (j : ℕ) (hj : (j : Int) < r.basisSize) :
    ∃ t : ℕ, (t : Int) < r.basisSize ∧ r.hVecsPerm j = some t ∧ r.restartPerm t = some j := by
  obtain ⟨r', e, h1, h2, _, h4, h5, h6, h7, h8, h9, h10, h11, h12, _⟩ := restart_soft P o b flags ievSize iev 0 h.soft
    (by rw [h.len]; exact h.fits) (by rw [h.len]; exact h.wanted) h.fits h.clean (Int.le_refl _) h.possible
  rw [hr] at e
  cases e
  have hperm := perm_of_sublist b (accepted r.flags b b (fun i => decide (i < P.numEvals))) (accepted_sublist _ _ _ _)
  have hjb : j < b := by omega
  obtain ⟨t, ht, htj⟩ := perm_getElem b _ hperm j hjb
  have htj' : r.restartPerm t = some j := by rw [h4]; exact htj
  refine ⟨t, ?_, h5 t j htj', htj'⟩
  -- the size of the new basis is at least `min numEvals b`
  have hsz : ((min P.numEvals b : ℕ) : Int) ≤ r.basisSize := by
    rw [h9, h10]
    have : ((min P.numEvals b : ℕ) : Int) ≤
        (sizes P b 0 (accepted ((flags.take b).map unmark) b P.numEvals (eligible P 0)).length 0).1 := by
      unfold sizes
      simp only [h.soft, Bool.false_eq_true, if_false, not_false_eq_true, true_and]
      clear * - hmin
      split_ifs <;> dsimp only <;> omega
    omega
  -- column `t` of the new basis: front or an other pair
  generalize hF : accepted r.flags b b (fun i => decide (i < P.numEvals)) = F at *
  have hFlt : ∀ x ∈ F, x < min P.numEvals b := by
    intro x hx
    rw [← hF, (accepted_below r.flags b P.numEvals).1] at hx
    exact List.mem_range.1 (List.mem_filter.1 hx).1
  have hFs : F.Sublist (List.range b) := hF ▸ accepted_sublist _ _ _ _
  have hFlen : F.length ≤ min P.numEvals b := by
    rw [← hF, (accepted_below r.flags b P.numEvals).1]
    have := List.length_filter_le (fun i => decide (Accepted r.flags i)) (List.range (min P.numEvals b))
    simpa using this
  by_cases htF : t < F.length
  · omega
  · -- the pairs before `j` are all in columns before `t`, and conversely an other pair moves only forward over accepted ones
    rw [List.getElem?_append_right (by omega)] at htj
    by_cases hjm : j < min P.numEvals b
    · -- others smaller than `min numEvals b` sit in columns smaller than that
      by_contra hcon
      have htb : min P.numEvals b ≤ t := by omega
      obtain ⟨ho, hoe⟩ := List.getElem?_eq_some_iff.1 htj
      -- count: `others` before index `t - |F|` are all `< j`, together with `F` they are `t` distinct numbers `< min numEvals b`
      have hsub : ∀ x ∈ F ++ (others b F).take (t - F.length), x < min P.numEvals b := by
        intro x hx
        rcases List.mem_append.1 hx with hx | hx
        · exact hFlt x hx
        · obtain ⟨k, hk, hkx⟩ := List.getElem_of_mem hx
          rw [List.length_take] at hk
          rw [List.getElem_take] at hkx
          have := List.pairwise_iff_getElem.1 (others_sorted b F) k (t - F.length) (by omega) ho (by omega)
          omega
      have hnd : (F ++ (others b F).take (t - F.length)).Nodup := by
        have : (F ++ (others b F).take (t - F.length)).Sublist (F ++ others b F) :=
          List.Sublist.append (List.Sublist.refl _) (List.take_sublist _ _)
        exact this.nodup (hperm.nodup_iff.2 List.nodup_range)
      -- `j` itself is missing from the list
      have hj' : j ∉ F ++ (others b F).take (t - F.length) := by
        intro hx
        rcases List.mem_append.1 hx with hx | hx
        · have : j ∈ others b F := hoe ▸ List.getElem_mem _
          simp only [others, List.mem_filter, decide_eq_true_eq] at this
          exact this.2 hx
        · obtain ⟨k, hk, hkx⟩ := List.getElem_of_mem hx
          rw [List.length_take] at hk
          rw [List.getElem_take] at hkx
          have := List.pairwise_iff_getElem.1 (others_sorted b F) k (t - F.length) (by omega) ho (by omega)
          omega
      have hnd' : (j :: (F ++ (others b F).take (t - F.length))).Nodup := List.nodup_cons.2 ⟨hj', hnd⟩
      have hsubset : (j :: (F ++ (others b F).take (t - F.length))) ⊆ List.range (min P.numEvals b) := by
        intro x hx
        rcases List.mem_cons.1 hx with rfl | hx
        · exact List.mem_range.2 hjm
        · exact List.mem_range.2 (hsub x hx)
      have hle := (List.subperm_of_subset hnd' hsubset).length_le
      simp only [List.length_cons, List.length_append, List.length_take, List.length_range] at hle
      omega
    · -- all accepted pairs come before `j`: `t = j`
      have : t ≤ j := by
        obtain ⟨ho, hoe⟩ := List.getElem?_eq_some_iff.1 htj
        have hsub : (F ++ (others b F).take (t - F.length)) ⊆ List.range j := by
          intro x hx
          rcases List.mem_append.1 hx with hx | hx
          · have := hFlt x hx; exact List.mem_range.2 (by omega)
          · obtain ⟨k, hk, hkx⟩ := List.getElem_of_mem hx
            rw [List.length_take] at hk
            rw [List.getElem_take] at hkx
            have := List.pairwise_iff_getElem.1 (others_sorted b F) k (t - F.length) (by omega) ho (by omega)
            exact List.mem_range.2 (by omega)
        have hnd : (F ++ (others b F).take (t - F.length)).Nodup := by
          have : (F ++ (others b F).take (t - F.length)).Sublist (F ++ others b F) :=
            List.Sublist.append (List.Sublist.refl _) (List.take_sublist _ _)
          exact this.nodup (hperm.nodup_iff.2 List.nodup_range)
        have hle := (List.subperm_of_subset hnd hsub).length_le
        simp only [List.length_append, List.length_take, List.length_range] at hle
        omega
      omega

/-- Without locking: the candidates whose vectors and residuals are computed for the next block are the
first pairs that are not accepted, the block indices name these same pairs, and basis and block fit in
the allocation. -/
theorem C22_block_without_locking (P : Par) (o : Answers) (b : ℕ) (flags : List Conv.Flag) (ievSize : Int) (iev : Arr)
    (g : Int) (r : Result) (h : C22_Plain P o b flags g) (hr : restart P o b 0 flags ievSize iev g = .ok r) :
    0 ≤ r.basisSize ∧ r.basisSize ≤ b ∧ 0 ≤ r.ievSize ∧ r.ievSize ≤ P.maxBlockSize ∧
      r.basisSize + r.ievSize ≤ P.maxBasisSize ∧
      (∀ i : ℕ, (i : Int) < r.ievSize → ∃ v, r.restartPerm (r.numConverged + i) = some v ∧
        (others b (C22_front P b r.flags))[i]? = some v ∧ ((v : Int) < r.basisSize → r.iev i = some v)) := by
  obtain ⟨r', e, h1, h2, _, h4, h5, h6, h7, h8, h9, h10, h11, h12, h13, h14⟩ := restart_soft P o b flags ievSize iev g h.soft
    (by rw [h.len]; exact h.fits) (by rw [h.len]; exact h.wanted) h.fits h.clean h.guesses_nonneg h.possible
  rw [hr] at e
  cases e
  have hfit := h.fits
  have hcb : r.numConverged ≤ b := by rw [h2]; exact accepted_length_le _ _ _ _
  have hblk : 0 ≤ r.ievSize ∧ r.ievSize ≤ P.maxBlockSize ∧ r.basisSize + r.ievSize ≤ P.maxBasisSize ∧
      (r.numConverged : Int) + r.ievSize ≤ b := by
    rw [h13]; unfold softBlock; clear * - hcb hfit h12; omega
  refine ⟨by omega, h12, hblk.1, hblk.2.1, hblk.2.2.1, ?_⟩
  intro i hi
  have hperm := perm_of_sublist b (accepted r.flags b b (fun i => decide (i < P.numEvals))) (accepted_sublist _ _ _ _)
  have hfl := h14 i hi
  generalize hF : accepted r.flags b b (fun i => decide (i < P.numEvals)) = F at *
  have hlen : F.length + (others b F).length = b := by simpa using hperm.length_eq
  have hio : i < (others b F).length := by omega
  have hv : r.restartPerm (r.numConverged + i) = some (others b F)[i] := by
    rw [h4, h2, List.getElem?_append_right (by omega), Nat.add_sub_cancel_left, List.getElem?_eq_getElem hio]
  refine ⟨(others b F)[i], hv, ?_, ?_⟩
  · unfold C22_front; rw [hF, List.getElem?_eq_getElem hio]
  · intro hlt
    have hq := h5 _ _ hv
    obtain ⟨x, ex, _, h3⟩ := findLast_spec b r.hVecsPerm ((r.numConverged : Int) + i) (iev i) r.basisSize.toNat
      (by omega) (by
        intro j hj
        obtain ⟨t, _, htj⟩ := perm_getElem b _ hperm j (by omega)
        exact ⟨t, h5 t j (by rw [h4]; exact htj)⟩)
    rw [ex] at hfl
    rw [← Outcome.ok.inj hfl]
    refine h3 _ (by omega) ⟨_, hq, by push_cast; rfl⟩ ?_
    intro j' hj' hne v hv' hcon
    apply hne
    obtain ⟨t, _, htj⟩ := perm_getElem b _ hperm j' (by omega)
    have htj' : r.restartPerm t = some j' := by rw [h4]; exact htj
    have := h5 t j' htj'
    rw [hv'] at this
    have h3 : t = r.numConverged + i := by
      have := Option.some.inj this
      omega
    rw [h3, hv] at htj'
    exact (Option.some.inj htj').symm

theorem C22_accepted_take (flags : List Conv.Flag) (b cap : ℕ) (ok : ℕ → Bool) (hb : b ≤ flags.length) :
    accepted ((flags.take b).map unmark) b cap ok = accepted (flags.map unmark) b cap ok := by
  have : flags.map unmark = (flags.take b).map unmark ++ (flags.drop b).map unmark := by
    rw [← List.map_append, List.take_append_drop]
  rw [this, accepted_append _ _ _ _ _ (by simp [hb])]

theorem C22_eligible (P : Par) (nl : ℕ) : eligible P nl = fun i => decide (i + nl < P.numEvals) || P.side := by
  funext i
  unfold eligible
  congr 1
  apply decide_eq_decide.2
  omega

/-- With locking the restart is well defined.  Of the chosen pairs, those that fail the check again stay
in the basis, the others are locked.  The pairs kept in the basis are in their previous order, and they
are the first others together with the chosen pairs that failed.  After them come the retained vectors.
Every flag of the old basis is cleared, and basis and block fit in the allocation. -/
theorem C22_order_with_locking (P : Par) (o : Answers) (b nl : ℕ) (flags : List Conv.Flag) (ievSize : Int) (iev : Arr)
    (g : Int) (h : C22_Hard P o b nl flags g) :
    ∃ r kept, restart P o b nl flags ievSize iev g = .ok r ∧
      List.Pairwise (· < ·) kept ∧
      kept.Perm ((others b (C22_chosen P b nl flags)).take r.indexPrev.toNat ++
        rejected (C22_chosen P b nl flags) o.check) ∧
      (∀ k, k < kept.length → ∃ c : ℕ, (c : Int) < r.basisSize ∧ r.hVecsPerm k = some c ∧ r.restartPerm c = kept[k]?) ∧
      0 ≤ o.retained ∧ r.basisSize = kept.length + o.retained ∧ 0 ≤ r.indexPrev ∧
      (∀ m : ℕ, (m : Int) < o.retained → r.hVecsPerm (kept.length + m) = some (r.indexPrev.toNat + m)) ∧
      r.numLocked + (rejected (C22_chosen P b nl flags) o.check).length = nl + (C22_chosen P b nl flags).length ∧
      nl ≤ r.numLocked ∧ r.numLocked ≤ P.numEvals ∧ r.numConverged = r.numLocked ∧
      (∀ i, i < b → ¬ Accepted r.flags i) ∧
      r.basisSize ≤ b ∧ 0 ≤ r.ievSize ∧ r.ievSize ≤ P.maxBlockSize ∧ r.basisSize + r.ievSize ≤ P.maxBasisSize ∧
      (∀ i : ℕ, (i : Int) < r.ievSize → i < kept.length ∧ r.iev i = some i) := by
  have hlen : b ≤ flags.length := by rw [h.len]; exact h.fits
  have hpos := h.possible
  have hrc := recount_zero P nl b flags hlen
  rw [C22_accepted_take flags b _ _ hlen] at hrc
  have hCe : C22_chosen P b nl flags = accepted (flags.map unmark) b (P.numEvals - nl) (eligible P nl) := by
    unfold C22_chosen; rw [C22_eligible]
  rw [← hCe] at hrc
  have hCb : (C22_chosen P b nl flags).length ≤ b := accepted_length_le _ _ _ _
  have hCcap : (C22_chosen P b nl flags).length ≤ P.numEvals - nl := by unfold C22_chosen accepted; simp
  unfold Possible at hpos
  rw [hrc] at hpos
  dsimp only at hpos
  obtain ⟨s1, s2, s3⟩ := sizes_locking P h.hard b nl _ g o.retained h.guesses_nonneg hCb hpos
  generalize hC : C22_chosen P b nl flags = C at *
  obtain ⟨rs, hrs⟩ := Int.eq_ofNat_of_zero_le s1
  obtain ⟨ret, hret⟩ := Int.eq_ofNat_of_zero_le s2
  rw [hrs, hret] at s3
  have hflags : C = accepted ((flags.take b).map unmark ++ flags.drop b) b (P.numEvals - nl) (eligible P nl) := by
    rw [accepted_append _ _ _ _ _ (by simp [hlen]), C22_accepted_take flags b _ _ hlen]; exact hCe
  obtain ⟨s, kept, e, e1, e2, e3, e4, e5, e6, e7, e8, e9, e10, e11, e12, e13, e14, e15, e16, e17, -⟩ :=
    locking_main P o.check b ((flags.take b).map unmark ++ flags.drop b) nl rs ret C (others b C) hflags rfl
      (by simp; omega) h.locked (by omega) h.fits
  have hres : restart P o b nl flags ievSize iev g = .ok ⟨List.replicate b .unconverged ++
      ((flags.take b).map unmark ++ flags.drop b).drop b, s.numLocked, s.numLocked, s.restartSize,
      s.ievSize, fun i => if (i : Int) < s.ievSize then some i else iev i, s.restartPerm, s.hVecsPerm,
      indexOfPrevious P rs nl (nl + C.length : ℕ), s.indexPrev, o.retained⟩ := by
    unfold restart
    rw [hrc]
    dsimp only
    rw [if_neg (by simp [h.hard]), hrs, hret, e, Outcome.bind_ok]
  have hkl : kept.length = rs + s.failed.length := by
    have hp := e15.length_eq
    rw [List.length_append, List.length_take] at hp
    have hperm := perm_of_sublist b C (hC ▸ accepted_sublist _ _ _ _)
    have hlenCO : C.length + (others b C).length = b := by simpa using hperm.length_eq
    have hrl : (rejected C o.check).length = s.failed.length := by
      unfold rejected; rw [List.length_map, e4]
    omega
  have hrl : (rejected C o.check).length = s.failed.length := by
    unfold rejected; rw [List.length_map, e4]
  have hfl : s.failed.length ≤ C.length := by
    rw [e4]
    have := List.length_filter_le (fun t => decide (o.check t = .unconverged)) (List.range C.length)
    simpa using this
  have hnl := h.locked
  refine ⟨_, kept, hres, e14, ?_, ?_, s2, ?_, ?_, ?_, ?_, ?_, ?_, rfl, ?_, ?_, e7, e8, by dsimp only; rw [e6]; omega, ?_⟩
  · dsimp only; rw [e3, Int.toNat_natCast]; exact e15
  · intro k hk
    obtain ⟨c, hc0, hc1, hc2⟩ := e16 k hk
    exact ⟨c, by dsimp only; rw [e6]; omega, hc1, hc2⟩
  · dsimp only; rw [e6, hkl, hret]; push_cast; omega
  · dsimp only; rw [e3]; omega
  · intro m hm
    dsimp only
    rw [e3, Int.toNat_natCast, hkl]
    exact e17 m (by omega)
  · dsimp only; rw [hrl]; exact e5
  · dsimp only; omega
  · dsimp only; omega
  · intro i hi ⟨f, hf, hn⟩
    dsimp only at hf
    rw [List.getElem?_append_left (by simpa using hi), List.getElem?_replicate_of_lt hi] at hf
    exact hn (Option.some.inj hf).symm
  · dsimp only; rw [e6]; omega
  · intro i hi
    dsimp only at hi ⊢
    rw [if_pos hi]
    exact ⟨by omega, rfl⟩

/-- Every pair chosen for the front or for locking lies before the columns that receive the previous
coefficient vectors. -/
def C22_Before (chosen : List ℕ) (r : Result) : Prop := ∀ c ∈ chosen, (c : Int) < r.indexPrev0

/-- Without locking, provided the accepted pairs lie before them: the retained previous vectors end
just after the kept pairs, every other column of the new basis comes from the Ritz vector it should. -/
theorem C22_retained_without_locking (P : Par) (o : Answers) (b : ℕ) (flags : List Conv.Flag) (ievSize : Int) (iev : Arr)
    (g : Int) (r : Result) (h : C22_Plain P o b flags g) (hr : restart P o b 0 flags ievSize iev g = .ok r)
    (hbef : C22_Before (C22_front P b r.flags) r) :
    (∀ m : ℕ, (m : Int) < o.retained → column r (r.indexPrev.toNat + m) = some (.prev m)) ∧
    (∀ t v : ℕ, (t : Int) < r.indexPrev → r.restartPerm t = some v → column r t = some (.ritz v)) := by
  obtain ⟨r', e, h1, h2, _, h4, h5, h6, h7, h8, h9, h10, h11, h12, _⟩ := restart_soft P o b flags ievSize iev g h.soft
    (by rw [h.len]; exact h.fits) (by rw [h.len]; exact h.wanted) h.fits h.clean h.guesses_nonneg h.possible
  rw [hr] at e
  cases e
  have hFsub : (C22_front P b r.flags).Sublist (List.range b) := accepted_sublist _ _ _ _
  have hpermF := perm_of_sublist b _ hFsub
  change ∀ t, r.restartPerm t = (C22_front P b r.flags ++ others b (C22_front P b r.flags))[t]? at h4
  generalize C22_front P b r.flags = F at *
  have htail := others_tail b F r.indexPrev.toNat hFsub (by omega) (fun c hc => by have := hbef c hc; omega)
  have hlast : ∀ m : ℕ, r.indexPrev.toNat + m < b → r.restartPerm (r.indexPrev.toNat + m) = some (r.indexPrev.toNat + m) := by
    intro m hm
    rw [h4, List.getElem?_append_right (by omega), show r.indexPrev.toNat + m - F.length = (r.indexPrev.toNat - F.length) + m by omega]
    exact htail.2 m hm
  constructor
  · intro m hm
    unfold column
    rw [hlast m (by omega), Option.map_some]
    unfold coefficient
    rw [if_pos (by rw [h6]; omega)]
    congr 2; omega
  · intro t v ht hv
    unfold column
    rw [hv, Option.map_some]
    unfold coefficient
    rw [if_neg]
    rintro ⟨hv1, hv2⟩
    rw [h6] at hv2
    have hvm := hlast (v - r.indexPrev.toNat) (by omega)
    rw [show r.indexPrev.toNat + (v - r.indexPrev.toNat) = v by omega] at hvm
    rw [h4] at hvm hv
    have := perm_getElem_inj b _ hpermF _ _ _ hv hvm
    omega

/-- Without locking and without pending guesses the condition above holds. -/
theorem C22_before_without_locking (P : Par) (o : Answers) (b : ℕ) (flags : List Conv.Flag) (ievSize : Int) (iev : Arr)
    (r : Result) (h : C22_Plain P o b flags 0) (hmin : P.numEvals ≤ P.minRestartSize)
    (hr : restart P o b 0 flags ievSize iev 0 = .ok r) : C22_Before (C22_front P b r.flags) r := by
  obtain ⟨r', e, h1, h2, _, h4, h5, h6, h7, h8, h9, h10, h11, h12, _⟩ := restart_soft P o b flags ievSize iev 0 h.soft
    (by rw [h.len]; exact h.fits) (by rw [h.len]; exact h.wanted) h.fits h.clean (Int.le_refl _) h.possible
  rw [hr] at e
  cases e
  intro c hc
  unfold C22_front at hc
  rw [(accepted_below r.flags b P.numEvals).1] at hc
  have hc' := List.mem_range.1 (List.mem_filter.1 hc).1
  rw [h8, h10]
  have : ((min P.numEvals b : ℕ) : Int) ≤
      (sizes P b 0 (accepted ((flags.take b).map unmark) b P.numEvals (eligible P 0)).length 0).1 := by
    unfold sizes
    simp only [h.soft, Bool.false_eq_true, if_false, not_false_eq_true, true_and]
    clear * - hmin
    split_ifs <;> dsimp only <;> omega
  omega

/-- With locking, provided the pairs to be locked lie before the columns of the previous vectors: the
retained previous vectors end just after the kept pairs, and every kept pair comes from its own Ritz
vector. -/
theorem C22_retained_with_locking_partial (P : Par) (o : Answers) (b nl : ℕ) (flags : List Conv.Flag) (ievSize : Int)
    (iev : Arr) (g : Int) (r : Result) (h : C22_Hard P o b nl flags g) (hr : restart P o b nl flags ievSize iev g = .ok r)
    (hbef : C22_Before (C22_chosen P b nl flags) r) :
    (∀ m : ℕ, (m : Int) < o.retained → column r (r.indexPrev.toNat + m) = some (.prev m)) ∧
    (∀ k : ℕ, (k : Int) + o.retained < r.basisSize → ∃ c v, r.hVecsPerm k = some c ∧ r.restartPerm c = some v ∧
      column r c = some (.ritz v)) := by
  obtain ⟨r', kept, e, k1, k2, k3, k4, k5, k6, k7, k8, k9, k10, k11, k12, k13, k14, k15, k16, k17⟩ :=
    C22_order_with_locking P o b nl flags ievSize iev g h
  rw [hr] at e
  cases e
  have hip := restart_locking_prev P o b nl flags ievSize iev g r h.hard (by rw [h.len]; exact h.fits) h.locked
    h.fits h.guesses_nonneg h.possible hr
  have hCe : accepted (flags.map unmark) b (P.numEvals - nl) (eligible P nl) = C22_chosen P b nl flags := by
    unfold C22_chosen; rw [C22_eligible]
  rw [← C22_accepted_take flags b _ _ (by rw [h.len]; exact h.fits)] at hCe
  rw [hCe] at hip
  obtain ⟨i1, i2, i3, i4⟩ := hip
  have hCsub : (C22_chosen P b nl flags).Sublist (List.range b) := accepted_sublist _ _ _ _
  generalize C22_chosen P b nl flags = C at *
  have htail := others_tail b C (r.indexPrev.toNat + C.length) hCsub (by omega)
    (fun c hc => by have := hbef c hc; omega)
  rw [Nat.add_sub_cancel] at htail
  constructor
  · intro m hm
    unfold column
    rw [i4 _ (by omega), htail.2 m (by omega), Option.map_some]
    unfold coefficient
    rw [if_pos (by rw [i1, i2]; push_cast; omega)]
    congr 2; rw [i1]; push_cast; omega
  · intro k hk
    have hkk : k < kept.length := by omega
    obtain ⟨c, c1, c2, c3⟩ := k3 k hkk
    refine ⟨c, kept[k], c2, by rw [c3, List.getElem?_eq_getElem hkk], ?_⟩
    unfold column
    rw [c3, List.getElem?_eq_getElem hkk, Option.map_some]
    unfold coefficient
    rw [if_neg]
    rintro ⟨hv1, _⟩
    rcases List.mem_append.1 (k2.subset (List.getElem_mem hkk)) with hx | hx
    · obtain ⟨j, hj, hje⟩ := List.getElem_of_mem hx
      rw [List.length_take] at hj
      rw [List.getElem_take] at hje
      -- an early "other" is before the boundary
      by_cases hrb : r.indexPrev.toNat + C.length < b
      · have h0 := htail.2 0 (by omega)
        obtain ⟨ho, hoe⟩ := List.getElem?_eq_some_iff.1 h0
        have := List.pairwise_iff_getElem.1 (others_sorted b C) j (r.indexPrev.toNat + 0) (by omega) ho (by omega)
        omega
      · have : kept[k] ∈ List.range b := by
          have : kept[k] ∈ others b C := hje ▸ List.getElem_mem _
          exact (List.mem_filter.1 this).1
        have := List.mem_range.1 this
        omega
    · have : kept[k] ∈ C := by
        unfold rejected at hx
        obtain ⟨t, ht, hte⟩ := List.mem_map.1 hx
        have htl := List.mem_range.1 (List.mem_filter.1 ht).1
        rw [getD_lt _ _ htl] at hte
        rw [← hte]
        exact List.getElem_mem _
      have := hbef _ this
      omega

/-! ## A case where the condition fails -/

/-- Six pairs wanted, basis of ten, restart with two pairs and two previous vectors. -/
def C22_par : Par := ⟨100, 6, 0, 10, 2, 1, 2, true, false⟩
/-- The fifth pair has converged. -/
def C22_flags : List Conv.Flag := [.unconverged, .unconverged, .unconverged, .unconverged, .converged, .unconverged,
  .unconverged, .unconverged, .unconverged, .unconverged]
/-- Both previous vectors are retained; the pair fails the second check. -/
def C22_ans : Answers := ⟨2, fun _ => false, fun _ => .unconverged⟩

/-- What is looked at in a result: sizes, block, and the first entries of the arrays. -/
def C22_seen (n : ℕ) (x : Outcome Result) : Option (List Int × List (List (Option ℕ))) :=
  match x with
  | .ok r => some ([r.basisSize, r.ievSize, r.numConverged, r.numLocked], [(List.range n).map r.restartPerm,
      (List.range n).map r.hVecsPerm, (List.range r.ievSize.toNat).map r.iev])
  | _ => none

/-- Columns of the restarted basis. -/
def C22_columns (n : ℕ) (x : Outcome Result) : Option (List (Option Source)) :=
  match x with
  | .ok r => some ((List.range n).map (column r))
  | _ => none

theorem C22_hard_example : C22_Hard C22_par C22_ans 10 0 C22_flags 0 :=
  ⟨rfl, by decide +kernel, by decide +kernel, by decide +kernel, by decide +kernel,
    by unfold Possible RetainOk; decide +kernel⟩

/-- With locking the condition of `C22_retained_with_locking_partial` can fail, and then a pair chosen to
be locked loses its vector: the fifth pair is chosen, but what is tested and would be locked, in column 4
of the new basis, is the second retained previous vector.  Of the two columns meant for the previous
vectors the first holds the third Ritz vector and the second holds the first previous vector. -/
theorem C22_retained_with_locking_violated :
    C22_chosen C22_par 10 0 C22_flags = [4] ∧
    ∃ r, restart C22_par C22_ans 10 0 C22_flags 1 (fun _ => none) 0 = .ok r ∧
      r.restartPerm 4 = some 4 ∧ column r 4 = some (.prev 1) ∧
      column r r.indexPrev.toNat = some (.ritz 2) ∧ column r (r.indexPrev.toNat + 1) = some (.prev 0) := by
  refine ⟨by decide +kernel, ?_⟩
  obtain ⟨r, kept, e, _⟩ := C22_order_with_locking C22_par C22_ans 10 0 C22_flags 1 (fun _ => none) 0 C22_hard_example
  refine ⟨r, e, ?_⟩
  have h1 : C22_columns 5 (restart C22_par C22_ans 10 0 C22_flags 1 (fun _ => none) 0) =
      some [some (.ritz 0), some (.ritz 1), some (.ritz 2), some (.prev 0), some (.prev 1)] := by decide +kernel
  have h2 : C22_seen 5 (restart C22_par C22_ans 10 0 C22_flags 1 (fun _ => none) 0) =
      some ([5, 1, 0, 0], [[some 0, some 1, some 2, some 3, some 4], [some 0, some 1, some 4, some 2, some 3], [some 0]]) := by
    decide +kernel
  have h3 : (match restart C22_par C22_ans 10 0 C22_flags 1 (fun _ => none) 0 with | .ok r => r.indexPrev | _ => 0) = 2 := by
    decide +kernel
  rw [e] at h1 h2 h3
  simp only [C22_columns, C22_seen, List.range_succ, List.range_zero, List.nil_append, List.cons_append, List.map_cons,
    List.map_nil, Option.some.injEq, List.cons.injEq, Prod.mk.injEq, and_true] at h1 h2 h3
  rw [h3]
  obtain ⟨_, _, a, b, c⟩ := h1
  exact ⟨h2.2.1.2.2.2.2, c, a, b⟩

/-! ## Examples -/

/-- Without locking: pairs 0 and 3 accepted, 1 set aside, 3 moved away; basis of six restarted with four. -/
def C22_plainPar : Par := ⟨100, 4, 0, 6, 4, 2, 1, false, false⟩
def C22_plainFlags : List Conv.Flag := [.unconverged, .skip_until_restart, .converged, .converged, .unconverged, .unconverged]
def C22_plainAns : Answers := ⟨1, fun i => i == 3, fun _ => .unconverged⟩

example : C22_Plain C22_plainPar C22_plainAns 6 C22_plainFlags 0 :=
  ⟨rfl, by decide +kernel, by decide +kernel, by decide +kernel,
    fun i h1 h2 => absurd (Nat.lt_of_lt_of_le h2 (by decide +kernel : C22_plainPar.numEvals ≤ 6)) (by omega),
    by decide +kernel, by unfold Possible RetainOk; decide +kernel⟩

example : C22_seen 6 (restart C22_plainPar C22_plainAns 6 0 C22_plainFlags 2 (fun _ => none) 0) =
    some ([5, 1, 1, 0], [[some 2, some 0, some 1, some 3, some 4, some 5], [some 1, some 2, some 0, some 3, some 4, some 5],
      [some 0]]) := by decide +kernel

/-- With locking: pairs 0, 1 and 2 chosen, of which 1 fails the second check and stays in its place. -/
def C22_lockFlags : List Conv.Flag := [.converged, .converged, .practically_converged, .unconverged, .unconverged,
  .unconverged, .unconverged, .unconverged, .unconverged, .unconverged]
def C22_lockAns : Answers := ⟨1, fun _ => false, fun i => if i = 1 then .unconverged else .converged⟩
def C22_lockPar : Par := ⟨100, 6, 0, 10, 4, 2, 2, true, false⟩

example : C22_Hard C22_lockPar C22_lockAns 10 1 C22_lockFlags 0 ∧ C22_chosen C22_lockPar 10 1 C22_lockFlags = [0, 1, 2] :=
  ⟨⟨rfl, by decide +kernel, by decide +kernel, by decide +kernel, by decide +kernel,
    by unfold Possible RetainOk; decide +kernel⟩, by decide +kernel⟩

example : C22_seen 6 (restart C22_lockPar C22_lockAns 10 1 C22_lockFlags 1 (fun _ => none) 0) =
    some ([6, 0, 3, 3], [[some 3, some 4, some 5, some 6, some 7, some 1], [some 5, some 0, some 1, some 2, some 3, some 4],
      []]) := by decide +kernel

example : C22_columns 6 (restart C22_lockPar C22_lockAns 10 1 C22_lockFlags 1 (fun _ => none) 0) =
    some [some (.ritz 3), some (.ritz 4), some (.ritz 5), some (.ritz 6), some (.prev 0), some (.ritz 1)] := by
  decide +kernel

end Verif.Props
