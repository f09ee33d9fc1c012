import Verif.Proofs.LockBlock
import Verif.Props.C22_Restart

/-!
# Proofs about the restart with locking as a whole: what it is made of
-/

namespace Verif.Lock
open Verif Verif.Comb
open Verif.Restart (Par Answers eligible)
open Verif.Spec (accepted others rejected passed unmark)
open Verif.Props (C22_Hard C22_chosen C22_eligible C22_accepted_take)

variable {F : Type} [RCLike F]

/-- Parts of a successful restart with locking. -/
theorem lockingRestart_inv {P : Par} {check : ℕ → Conv.Flag} {b : ℕ} {flags : List Conv.Flag} {nc nl : ℕ} {rs ret : Int}
    {s : Restart.Locked} (h : Restart.lockingRestart P check b flags nc nl rs ret = .ok s) :
    ∃ p np q k q', Restart.packLoop P b nl (rs + ret) ((min nc P.numEvals : ℕ) - nl) (flags.take b) 0 0 0 (fun _ => none) =
        .ok (p, np) ∧
      Restart.mergeLoop b p (rs + ret) rs.toNat s.failed (rs.toNat + s.failed.length) 0 0 0 (fun _ => none) = .ok (q, k) ∧
      Restart.mergePrev b rs.toNat k ret.toNat q = .ok q' ∧ s.hVecsPerm = q' ∧ s.numPacked = np ∧
      s.ievSize = min (max 0 (min (Restart.lockBlock P rs ret nc nl).1 ((P.maxBasisSize : Int) - (rs + ret + np) - ret - nc + nl)))
        ((Restart.lockBlock P rs ret nc nl).2 + s.failed.length) ∧
      s.packed = Restart.capPassed P nl 0 ((List.range np).map check) ∧ (k : Int) + ret = rs + ret + s.failed.length := by
  unfold Restart.lockingRestart at h
  dsimp only at h
  by_cases h1 : flags.length < b
  · rw [if_pos h1] at h; cases h
  rw [if_neg h1] at h
  cases ep : Restart.packLoop P b nl (rs + ret) ((min nc P.numEvals : ℕ) - nl) (flags.take b) 0 0 0 (fun _ => none) with
  | ub => rw [ep] at h; cases h
  | err _ => rw [ep] at h; cases h
  | ok pn =>
    obtain ⟨p, np⟩ := pn
    rw [ep, Outcome.bind_ok] at h
    dsimp only at h
    split at h
    · cases h
    · cases em : Restart.mergeLoop b p (rs + ret) rs.toNat (Restart.failedIdx 0 (Restart.capPassed P nl 0 ((List.range np).map check)))
          (rs.toNat + (Restart.failedIdx 0 (Restart.capPassed P nl 0 ((List.range np).map check))).length) 0 0 0 (fun _ => none) with
      | ub => rw [em] at h; cases h
      | err _ => rw [em] at h; cases h
      | ok qk =>
        obtain ⟨q, k⟩ := qk
        rw [em, Outcome.bind_ok] at h
        dsimp only at h
        cases ev : Restart.mergePrev b rs.toNat k ret.toNat q with
        | ub => rw [ev] at h; cases h
        | err _ => rw [ev] at h; cases h
        | ok q' =>
          rw [ev, Outcome.bind_ok] at h
          split at h
          · cases h
          · rename_i hk
            cases h
            exact ⟨p, np, q, k, q', rfl, em, ev, rfl, rfl, rfl, rfl, by simpa using hk⟩

theorem Merged.le {left ip nf i j : ℕ} {ms : List ℕ} (h : Merged left ip nf i j ms) :
    ∀ t v, ms[t]? = some v → v < left → v ≤ i + t := by
  induction h with
  | done _ _ => intro t v hv; simp at hv
  | cand hi _ ih =>
    intro t v hv hl
    cases t with
    | zero => simp at hv; omega
    | succ t => have := ih t v (by simpa using hv) hl; omega
  | fail hj _ ih =>
    intro t v hv hl
    cases t with
    | zero => simp at hv; omega
    | succ t => have := ih t v (by simpa using hv) hl; omega

/-- What a restart with locking leaves, in terms of the combinations made before (`u`). -/
structure Facts (P : Par) (o : Answers) (b nl : ℕ) (C : List ℕ) (a : Before F) (r : After F) (kept : List ℕ) (p : Restart.Arr)
    (rs ret n : ℕ) (u : AuxRes F) : Prop where
  u_eq : u = auxUpdate a.M a.procs a.rows (lockArgs a.hasBV a.explicit b (fun k c => a.hVecs k ((p c).getD 0))
    (fun c => a.hVals ((p c).getD 0)) (rs + ret) C.length n (nl + a.q)) a.junk a.mem a.err (nl + a.q) a.VtBV
  retained : o.retained = ret
  left : r.s.left = (rs + ret : ℕ)
  ip : r.s.indexPrev = rs
  size : r.s.restartSize = (rs + ret + r.s.failed.length : ℕ)
  numLocked : r.s.numLocked + r.s.failed.length = nl + C.length
  failed : r.s.failed = (List.range C.length).filter (fun t => decide (o.check t = .unconverged))
  sorted : kept.Pairwise (· < ·)
  perm : kept.Perm ((others b C).take rs ++ rejected C o.check)
  lenO : rs + ret ≤ (others b C).length
  pO : ∀ t < rs + ret, p t = some ((others b C).getD t 0)
  pC : ∀ t < C.length, p (rs + ret + t) = some (C.getD t 0)
  fitsN : n ≤ rs
  iev0 : 0 ≤ r.s.ievSize
  iev : r.s.ievSize ≤ n
  room : rs + ret + C.length + r.s.ievSize ≤ (P.maxBasisSize : Int)
  pos : ∀ t : ℕ, (t : Int) < r.s.ievSize → t < kept.length ∧ ∃ v, r.s.hVecsPerm t = some v ∧ r.s.restartPerm v = kept[t]? ∧
    (v < rs + ret → v < n) ∧ (rs + ret ≤ v → v < rs + ret + r.s.failed.length) ∧
    r.blockNorms t = if v < rs + ret then u.toRes.Rn v else u.norms (r.s.failed.getD (v - (rs + ret)) 0)
  rpO : ∀ t < rs + ret, r.s.restartPerm t = some ((others b C).getD t 0)
  rpC : ∀ j < r.s.failed.length, r.s.restartPerm (rs + ret + j) = some (C.getD (r.s.failed.getD j 0) 0)
  mem : ∀ pr arr col row, row < a.rows pr → r.mem pr arr col row =
    fin { hasB := a.hasBV, evals := fun i => a.hVals ((p (rs + ret + i)).getD 0), x := rs + ret, p := r.s.failed,
          xo := rs + ret + C.length, no := n, io0 := 0, xd := rs + ret + r.s.failed.length, nd := r.s.ievSize.toNat,
          pd := r.s.hVecsPerm } (u.toRes.mem pr) arr col row
  vals : ∀ i, r.vals i = if rs + ret ≤ i ∧ i < rs + ret + r.s.failed.length
    then a.hVals ((p (rs + ret + r.s.failed.getD (i - (rs + ret)) 0)).getD 0) else a.hVals ((p i).getD 0)
  H : r.H = if a.explicit then gatherH (rs + ret) C.length r.s.failed u.toRes.H else u.toRes.H
  VtBV : r.VtBV = if a.explicit then gatherG (nl + a.q)
      (((List.range C.length).filter (fun t => decide (o.check t ≠ .unconverged))).map (· + (rs + ret)) ++ List.range (rs + ret) ++
        r.s.failed.map (· + (rs + ret))) u.VtBV
    else u.VtBV

/-- The order of the pairs and the sizes are those of the restart without the vectors. -/
def SameOrder (P : Par) (o : Answers) (b nl : ℕ) (flags : List Conv.Flag) (g : Int) (s : Restart.Locked) : Prop :=
  ∀ ievSize iev, ∃ r0, Restart.restart P o b nl flags ievSize iev g = .ok r0 ∧ r0.numLocked = s.numLocked ∧
    r0.basisSize = s.restartSize ∧ r0.ievSize = s.ievSize ∧ r0.restartPerm = s.restartPerm ∧ r0.hVecsPerm = s.hVecsPerm ∧
    r0.indexPrev = s.indexPrev

theorem restart_facts (P : Par) (o : Answers) (b nl : ℕ) (flags : List Conv.Flag) (g : Int) (h : C22_Hard P o b nl flags g)
    (a : Before F) (hM : 0 < a.M) :
    ∃ r kept p rs ret n u, restart P o b nl flags g a = .ok r ∧ SameOrder P o b nl flags g r.s ∧
      Facts P o b nl (C22_chosen P b nl flags) a r kept p rs ret n u := by
  have hlen : b ≤ flags.length := by rw [h.len]; exact h.fits
  have hpos := h.possible
  have hrc := Restart.recount_zero P nl b flags hlen
  rw [C22_accepted_take flags b _ _ hlen] at hrc
  have hCe : C22_chosen P b nl flags = accepted (flags.map unmark) b (P.numEvals - nl) (eligible P nl) := by
    unfold C22_chosen; rw [C22_eligible]
  rw [← hCe] at hrc
  have hCb : (C22_chosen P b nl flags).length ≤ b := Restart.accepted_length_le _ _ _ _
  have hCcap : (C22_chosen P b nl flags).length ≤ P.numEvals - nl := by unfold C22_chosen accepted; simp
  unfold Restart.Possible at hpos
  rw [hrc] at hpos
  dsimp only at hpos
  obtain ⟨s1, s2, s3⟩ := Restart.sizes_locking P h.hard b nl _ g o.retained h.guesses_nonneg hCb hpos
  have hCsub : (C22_chosen P b nl flags).Sublist (List.range b) := Restart.accepted_sublist _ _ _ _
  generalize hC : C22_chosen P b nl flags = C at *
  obtain ⟨rs, hrs⟩ := Int.eq_ofNat_of_zero_le s1
  obtain ⟨ret, hret⟩ := Int.eq_ofNat_of_zero_le s2
  rw [hrs, hret] at s3
  have hfl0 : ((flags.take b).map unmark ++ flags.drop b).take b = (flags.take b).map unmark := by
    rw [List.take_append_of_le_length (by simp [hlen]), List.take_of_length_le (by simp)]
  have hflags : C = accepted ((flags.take b).map unmark ++ flags.drop b) b (P.numEvals - nl) (eligible P nl) := by
    rw [Restart.accepted_append _ _ _ _ _ (by simp [hlen]), C22_accepted_take flags b _ _ hlen]; exact hCe
  obtain ⟨s, kept, e, e1, e2, e3, e4, e5, e6, e7, e8, e9, e10, e11, e12, e13, e14, e15, e16, e17, -⟩ :=
    Restart.locking_main P o.check b ((flags.take b).map unmark ++ flags.drop b) nl rs ret C (others b C) hflags rfl
      (by simp; omega) h.locked (by omega) h.fits
  obtain ⟨p, np, q, k, q', ep, em, ev, i1, i2, i3, i4, i5⟩ := lockingRestart_inv e
  have hperm := Restart.perm_of_sublist b C hCsub
  have hlenCO : C.length + (others b C).length = b := by simpa using hperm.length_eq
  have hnp : np = C.length := by omega
  subst hnp
  -- the permutation of the basis
  have hsp : Restart.split (P.numEvals - nl) (eligible P nl) (((flags.take b).map unmark ++ flags.drop b).take b) 0 0 =
      (C, others b C) := by
    rw [Restart.split_zero _ _ _ _ (by simp; omega), ← hflags]
  have hpack := Restart.packLoop_spec P b nl (rs + ret) C.length (((flags.take b).map unmark ++ flags.drop b).take b) 0 0 0
    (fun _ => none)
  dsimp only at hpack
  rw [hsp] at hpack
  obtain ⟨p0, ep0, hp⟩ := hpack (by simp) (by dsimp only; omega) (by dsimp only; omega)
  dsimp only at hp
  simp only [Nat.add_zero, Nat.zero_le, Nat.sub_zero, if_true, true_and] at hp
  have hnl := h.locked
  have hshift : ((min (nl + C.length) P.numEvals : ℕ) : Int) - (nl : Int) = (C.length : Int) := by
    rw [min_eq_left (by omega)]; push_cast; ring
  rw [hshift, show (rs : Int) + (ret : Int) = ((rs + ret : ℕ) : Int) by push_cast; rfl, ep0] at ep
  obtain rfl : p0 = p := congrArg Prod.fst (Outcome.ok.inj ep)
  have hpO : ∀ t < rs + ret, p0 t = some ((others b C).getD t 0) := by
    intro t ht
    rw [hp t, if_neg (by omega), if_pos ht, List.getElem?_eq_getElem (by omega)]
    simp [show t < (others b C).length by omega]
  have hpC : ∀ t < C.length, p0 (rs + ret + t) = some (C.getD t 0) := by
    intro t ht
    rw [hp _, if_pos (by omega), show rs + ret + t - (rs + ret) = t by omega, List.getElem?_eq_getElem ht]
    simp [ht]
  -- sizes
  obtain ⟨n, hn⟩ : ∃ n : ℕ, (Restart.lockBlock P rs ret (nl + C.length : ℕ) nl).2 = n :=
    Int.eq_ofNat_of_zero_le (by unfold Restart.lockBlock; dsimp only; omega)
  have hblk : (Restart.lockBlock P rs ret (nl + C.length : ℕ) nl).1 ≤ rs := by unfold Restart.lockBlock; dsimp only; omega
  have hnrs : n ≤ rs := by
    have : (Restart.lockBlock P rs ret (nl + C.length : ℕ) nl).2 ≤ rs := by unfold Restart.lockBlock; dsimp only; omega
    omega
  obtain ⟨mb, hmb⟩ : ∃ mb : ℕ, max 0 (min (Restart.lockBlock P rs ret (nl + C.length : ℕ) nl).1
      ((P.maxBasisSize : Int) - (((rs + ret : ℕ) : Int) + C.length) - ret - (nl + C.length : ℕ) + nl)) = mb :=
    Int.eq_ofNat_of_zero_le (by omega)
  have hmbn : mb ≤ n := by
    have : max 0 (min (Restart.lockBlock P rs ret (nl + C.length : ℕ) nl).1
      ((P.maxBasisSize : Int) - (((rs + ret : ℕ) : Int) + C.length) - ret - (nl + C.length : ℕ) + nl)) ≤
        (Restart.lockBlock P rs ret (nl + C.length : ℕ) nl).2 := by
      unfold Restart.lockBlock; dsimp only; push_cast; omega
    omega
  have hiev : s.ievSize = mb := by
    rw [i3, hn, show (rs : Int) + (ret : Int) = ((rs + ret : ℕ) : Int) by push_cast; rfl, hmb]
    omega
  -- the merge
  rw [show (rs : Int) + (ret : Int) = ((rs + ret : ℕ) : Int) by push_cast; rfl, Int.toNat_natCast] at em
  rw [Int.toNat_natCast, Int.toNat_natCast] at ev
  let u := auxUpdate a.M a.procs a.rows (lockArgs a.hasBV a.explicit b (fun k c => a.hVecs k ((p0 c).getD 0))
    (fun c => a.hVals ((p0 c).getD 0)) (rs + ret) C.length n (nl + a.q)) a.junk a.mem a.err (nl + a.q) a.VtBV
  let old : ℕ → ℝ := fun i => if i < n then u.toRes.Rn i else a.blockNorms i
  obtain ⟨ms, m1, m2, m3, z, m4, m5, m6⟩ := merge_spec (b := b) (p := p0) (left := rs + ret) (ip := rs) (failed := s.failed)
    (Nat.le_add_right _ _) mb n old u.norms
    (rs + s.failed.length) 0 0 0 (fun _ => none) (q, k) old (by omega) (by omega) (by omega) em
  have hk : k = rs + s.failed.length := by omega
  have hfl : s.failed.length ≤ C.length := by
    rw [e4]
    have := List.length_filter_le (fun t => decide (o.check t = .unconverged)) (List.range C.length)
    simpa using this
  obtain ⟨q'', ev', hq''⟩ := Restart.mergePrev_spec b rs k ret q (by omega)
  rw [ev] at ev'
  cases ev'
  have hpd : ∀ t < mb, s.hVecsPerm t = ms[t]? := by
    intro t ht
    rw [i1, hq'', if_neg (by omega)]
    have := m3 t
    dsimp only at this
    rw [this, if_pos (by omega), Nat.sub_zero]
  let c : Cols F := { hasB := a.hasBV, evals := fun i => a.hVals ((p0 (rs + ret + i)).getD 0), x := rs + ret, p := s.failed,
                      xo := rs + ret + C.length, no := n, io0 := 0, xd := rs + ret + s.failed.length, nd := mb,
                      pd := s.hVecsPerm }
  have hfit : Fits c C.length rs ms := by
    refine ⟨rfl, ?_, ?_, rfl, rfl, Nat.le_add_right _ _, m1, hpd, ?_, hmbn, hnrs⟩
    · show s.failed.Pairwise _
      rw [e4]
      exact List.Pairwise.sublist List.filter_sublist List.pairwise_lt_range
    · show ∀ t ∈ s.failed, _
      intro t ht
      rw [e4] at ht
      exact List.mem_range.1 (List.mem_filter.1 ht).1
    · show mb ≤ ms.length
      omega
  obtain ⟨moves, em1, em2⟩ := columns_eq hfit hM
  have em1' : (if s.failed.length = 0 then Outcome.ok [] else plan c (s.failed.length + mb + 1) 0 0 0) = .ok moves := em1
  have hcap : s.packed = (List.range C.length).map o.check := by
    rw [i4]; exact Restart.capPassed_eq P nl _ 0 (by simp; omega)
  have hres : restart P o b nl flags g a = .ok
      { s := s
        mem := fun p => columns a.M (a.rows p) c moves a.junk (u.toRes.mem p)
        vals := fun i => if rs + ret ≤ i ∧ i < rs + ret + s.failed.length
          then a.hVals ((p0 (rs + ret + s.failed.getD (i - (rs + ret)) 0)).getD 0) else a.hVals ((p0 i).getD 0)
        blockNorms := z
        H := if a.explicit then gatherH (rs + ret) C.length s.failed u.toRes.H else u.toRes.H
        VtBV := if a.explicit then
            gatherG (nl + a.q) ((Restart.passedIdx 0 s.packed).map (· + (rs + ret)) ++ List.range (rs + ret) ++
              s.failed.map (· + (rs + ret))) u.VtBV
          else u.VtBV } := by
    unfold restart
    rw [hrc]
    dsimp only
    rw [hrs, hret, e, Outcome.bind_ok, e1, hshift, ep0, Outcome.bind_ok]
    dsimp only
    rw [Int.toNat_natCast, hn, Int.toNat_natCast, Int.toNat_natCast, hmb, Int.toNat_natCast, m4, Outcome.bind_ok]
    by_cases h0 : s.failed.length = 0
    · rw [if_pos h0] at em1' ⊢
      rw [em1', Outcome.bind_ok]
    · rw [if_neg h0] at em1' ⊢
      exact (congrArg (· >>= _) em1').trans rfl
  have hkl : kept.length = rs + s.failed.length := by
    have hp := e15.length_eq
    rw [List.length_append, List.length_take] at hp
    have hrl : (rejected C o.check).length = s.failed.length := by
      unfold rejected; rw [List.length_map, e4]
    omega
  refine ⟨_, kept, p0, rs, ret, n, u, hres, ?_, ?_⟩
  · intro ievSize iev
    refine ⟨⟨List.replicate b .unconverged ++
      ((flags.take b).map unmark ++ flags.drop b).drop b, s.numLocked, s.numLocked, s.restartSize,
      s.ievSize, fun i => if (i : Int) < s.ievSize then some i else iev i, s.restartPerm, s.hVecsPerm,
      Restart.indexOfPrevious P rs nl (nl + C.length : ℕ), s.indexPrev, o.retained⟩, ?_, rfl, rfl, rfl, rfl, rfl, rfl⟩
    unfold Restart.restart
    rw [hrc]
    dsimp only
    rw [if_neg (by simp [h.hard]), hrs, hret, e, Outcome.bind_ok]
  exact
    { u_eq := rfl
      retained := hret
      left := e1
      ip := e3
      size := e6
      numLocked := e5
      failed := e4
      sorted := e14
      perm := e15
      lenO := by omega
      pO := hpO
      pC := hpC
      fitsN := hnrs
      iev0 := e7
      iev := by dsimp only; omega
      room := by dsimp only; push_cast at e10; omega
      pos := by
        intro t ht
        dsimp only at ht ⊢
        have htm : t < mb := by omega
        have htk : t < kept.length := by omega
        refine ⟨htk, ?_⟩
        obtain ⟨v, hv0, hv1, hv2⟩ := e16 t htk
        have hmv : ms[t]? = some v := by rw [← hpd t htm, hv1]
        have hle := m1.le t v hmv
        refine ⟨v, hv1, hv2, fun hv => by have := hle hv; omega, fun _ => hv0, ?_⟩
        rw [m5 t v (by omega) (by omega) (by omega) (by rw [Nat.sub_zero]; exact hmv)]
        by_cases hv : v < rs + ret
        · have := hle hv
          rw [if_pos hv, if_pos (by omega), if_pos hv]
          show (if v < n then _ else _) = _
          rw [if_pos (by omega)]
        · rw [if_neg hv, if_neg hv]
      rpO := by
        intro t ht
        dsimp only
        rw [e12 t ht, List.getElem?_eq_getElem (by omega)]
        simp [show t < (others b C).length by omega]
      rpC := by
        intro j hj
        dsimp only at hj ⊢
        rw [e13 j hj]
        unfold rejected
        rw [← e4, List.getElem?_map, List.getElem?_eq_getElem hj, Option.map_some, getD_get hj]
      mem := by
        intro pr arr col row hrow
        dsimp only
        rw [em2, if_pos hrow, hiev, Int.toNat_natCast]
      vals := fun i => rfl
      H := rfl
      VtBV := by
        dsimp only
        rw [hcap, Restart.passedIdx_map] }

end Verif.Lock
