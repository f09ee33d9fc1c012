import Verif.Props.C22_Restart
import Verif.Proofs.RayleighRestart
import Mathlib.Algebra.Star.Rat
import Mathlib.Algebra.Module.Pi
import Mathlib.Tactic.Linarith
import Mathlib.Tactic.NormNum

set_option linter.unusedSectionVars false
set_option linter.unusedSimpArgs false
set_option linter.unusedVariables false

/-!
# C47: the pairs offered are Ritz pairs, in exact arithmetic
-/

namespace Verif.Props
open Verif Verif.Restart Verif.Spec Verif.Rayleigh Finset

variable {K E : Type} [Field K] [StarRing K] [AddCommGroup E] [Module K E]

theorem C47_firstPrev (r : Result) (n o : ℕ) (ho : o < n) (hq : r.hVecsPerm o = some r.indexPrev.toNat)
    (h1 : ∀ j < n, r.hVecsPerm j = some r.indexPrev.toNat → j = o) : firstPrev r n = o := by
  unfold firstPrev
  have : (List.range n).find? (fun i => r.hVecsPerm i == some r.indexPrev.toNat) = some o := by
    rw [List.find?_eq_some_iff_getElem]
    refine ⟨by simp [hq], o, by simpa using ho, by simp, ?_⟩
    intro j hj
    simp only [List.getElem_range, Bool.not_eq_eq_eq_not, Bool.not_true, beq_eq_false_iff_ne, ne_eq]
    intro h
    have := h1 j (by omega) h
    omega
  rw [this]; rfl

/-- Without locking and without pending guesses the bookkeeping of the restart is as the numbers need it. -/
theorem C47_plan_without_locking (P : Par) (o : Answers) (b : ℕ) (flags : List Conv.Flag) (ievSize : Int) (iev : Arr)
    (r : Result) (h : C22_Plain P o b flags 0) (hmin : P.numEvals ≤ P.minRestartSize)
    (hr : Restart.restart P o b 0 flags ievSize iev 0 = .ok r) : Plan r b 0 := by
  have hbef := C22_before_without_locking P o b flags ievSize iev r h hmin hr
  have hcol := C22_retained_without_locking P o b flags ievSize iev 0 r h hr hbef
  have hnum := C22_numbering_without_locking P o b flags ievSize iev r h hmin hr
  obtain ⟨r', e, h1, h2, hnl, h4, h5, h6, h7, h8, h9, h10, h11, h12, _⟩ := restart_soft P o b flags ievSize iev 0 h.soft
    (by rw [h.len]; exact h.fits) (by rw [h.len]; exact h.wanted) h.fits h.clean h.guesses_nonneg h.possible
  rw [hr] at e
  cases e
  have hFsub : (C22_front P b r.flags).Sublist (List.range b) := accepted_sublist _ _ _ _
  have hperm := perm_of_sublist b _ hFsub
  change ∀ t, r.restartPerm t = (C22_front P b r.flags ++ others b (C22_front P b r.flags))[t]? at h4
  generalize C22_front P b r.flags = F at *
  clear h1 h2 h10 hr
  have htail := others_tail b F r.indexPrev.toNat hFsub (by omega) (fun c hc => by have := hbef c hc; omega)
  have hlast : ∀ m : ℕ, r.indexPrev.toNat + m < b → r.restartPerm (r.indexPrev.toNat + m) = some (r.indexPrev.toNat + m) := by
    intro m hm
    rw [h4, List.getElem?_append_right (by omega), show r.indexPrev.toNat + m - F.length = (r.indexPrev.toNat - F.length) + m by omega]
    exact htail.2 m hm
  have hinj : ∀ c c' v, r.restartPerm c = some v → r.restartPerm c' = some v → c = c' := by
    intro c c' v e e'
    rw [h4] at e e'
    exact perm_getElem_inj b _ hperm c c' v e e'
  have hinjq : ∀ j < r.basisSize.toNat, ∀ j' < r.basisSize.toNat, r.hVecsPerm j = r.hVecsPerm j' → j = j' := by
    intro j hj j' hj' e
    obtain ⟨t, t1, t2, t3⟩ := hnum j (by omega)
    obtain ⟨t', t1', t2', t3'⟩ := hnum j' (by omega)
    rw [t2, t2'] at e
    rw [Option.some.inj e, t3'] at t3
    exact (Option.some.inj t3).symm
  have hsome : ∀ c < b, ∃ v < b, r.restartPerm c = some v := by
    intro c hc
    have hl : (F ++ others b F).length = b := by simpa using hperm.length_eq
    have : r.restartPerm c = some ((F ++ others b F)[c]'(by omega)) := by rw [h4, List.getElem?_eq_getElem]
    exact ⟨_, List.mem_range.1 (hperm.subset (List.getElem_mem _)), this⟩
  have hfront : ∀ m : ℕ, m < r.retained.toNat → firstPrev r r.basisSize.toNat = r.indexPrev.toNat := by
    intro m hm
    have e0 : r.hVecsPerm r.indexPrev.toNat = some r.indexPrev.toNat := h5 _ _ (by simpa using hlast 0 (by omega))
    refine C47_firstPrev r _ _ (by omega) e0 ?_
    intro j hj e
    exact hinjq j hj _ (by omega) (by rw [e, e0])
  refine ⟨by omega, ?_, ?_, ?_, ?_, hinjq, ?_⟩
  · intro m hm; exact hcol.1 m (by omega)
  · intro c hc hb
    obtain ⟨v, hv, e⟩ := hsome c (by omega)
    refine ⟨v, hv, ?_, e, hcol.2 c v (by omega) e⟩
    by_contra hcon
    obtain ⟨m, rfl⟩ : ∃ m, v = r.indexPrev.toNat + m := ⟨v - r.indexPrev.toNat, by omega⟩
    have := hinj c _ _ e (hlast m (by omega))
    omega
  · intro c hc c' hc' _ _ e
    obtain ⟨v, hv, e1⟩ := hsome c (by omega)
    exact hinj c c' v e1 (by rw [← e, e1])
  · intro j hj
    obtain ⟨t, t1, t2, _⟩ := hnum j (by omega)
    exact ⟨t, by omega, t2⟩
  · intro m hm
    rw [hfront m hm]
    exact ⟨by omega, h5 _ _ (hlast m (by omega))⟩

/-- With locking, provided the pairs to be locked lie before the columns of the previous vectors, the bookkeeping of the
restart is as the numbers need it. -/
theorem C47_plan_with_locking (P : Par) (o : Answers) (b nl : ℕ) (flags : List Conv.Flag) (ievSize : Int) (iev : Arr)
    (g : Int) (r : Result) (h : C22_Hard P o b nl flags g) (hr : Restart.restart P o b nl flags ievSize iev g = .ok r)
    (hbef : C22_Before (C22_chosen P b nl flags) r) : Plan r b nl := by
  have hcol := C22_retained_with_locking_partial P o b nl flags ievSize iev g r h hr hbef
  obtain ⟨r', kept, e, k1, k2, k3, k4, k5, k6, k7, k8, k9, k10, k11, k12, k13, -⟩ :=
    C22_order_with_locking P o b nl flags ievSize iev g h
  rw [hr] at e
  cases e
  have hip := restart_locking_prev P o b nl flags ievSize iev g r h.hard (by rw [h.len]; exact h.fits) h.locked
    h.fits h.guesses_nonneg h.possible hr
  have hlk := restart_locking_columns P o b nl flags ievSize iev g r h.hard (by rw [h.len]; exact h.fits) h.locked
    h.fits h.guesses_nonneg h.possible hr
  have hCe : accepted (flags.map unmark) b (P.numEvals - nl) (eligible P nl) = C22_chosen P b nl flags := by
    unfold C22_chosen; rw [C22_eligible]
  rw [← C22_accepted_take flags b _ _ (by rw [h.len]; exact h.fits)] at hCe
  rw [hCe] at hip hlk
  obtain ⟨i1, i2, i3, i4⟩ := hip
  obtain ⟨l1, l2, l3, l4⟩ := hlk
  have hCsub : (C22_chosen P b nl flags).Sublist (List.range b) := accepted_sublist _ _ _ _
  clear k12 hr hCe
  generalize C22_chosen P b nl flags = C at *
  have htail := others_tail b C (r.indexPrev.toNat + C.length) hCsub (by omega) (fun c hc => by have := hbef c hc; omega)
  rw [Nat.add_sub_cancel] at htail
  have hperm := perm_of_sublist b C hCsub
  have hlenCO : C.length + (others b C).length = b := by simpa using hperm.length_eq
  have hOs := others_sorted b C
  have hrejC : ∀ v ∈ rejected C o.check ++ passed C o.check, v ∈ C := by
    intro v hv
    have : ∀ t, t ∈ List.range C.length → C.getD t 0 ∈ C := by
      intro t ht
      rw [getD_lt _ _ (List.mem_range.1 ht)]; exact List.getElem_mem _
    rcases List.mem_append.1 hv with hv | hv
    · unfold rejected at hv
      obtain ⟨t, ht, rfl⟩ := List.mem_map.1 hv
      exact this t (List.mem_filter.1 ht).1
    · unfold passed at hv
      obtain ⟨t, ht, rfl⟩ := List.mem_map.1 hv
      exact this t (List.mem_filter.1 ht).1
  have hsplit : (rejected C o.check ++ passed C o.check).Perm C := by
    unfold rejected passed
    rw [← List.map_append]
    have e1 : ((List.range C.length).filter (fun t => decide (o.check t = .unconverged)) ++
        (List.range C.length).filter (fun t => decide (o.check t ≠ .unconverged))).Perm (List.range C.length) := by
      have := List.filter_append_perm (fun t => decide (o.check t = .unconverged)) (List.range C.length)
      refine List.Perm.trans (List.Perm.of_eq ?_) this
      congr 1
      apply List.filter_congr; intro x _; simp
    refine (e1.map _).trans (List.Perm.of_eq ?_)
    apply List.ext_getElem?
    intro i
    by_cases hi : i < C.length
    · rw [List.getElem?_map, List.getElem?_range hi, Option.map_some, getD_lt _ _ hi, List.getElem?_eq_getElem hi]
    · rw [List.getElem?_eq_none (by simpa using hi), List.getElem?_eq_none (by omega)]
  have hLnd : ((others b C).take (r.indexPrev + o.retained).toNat ++ (rejected C o.check ++ passed C o.check)).Nodup := by
    have h1 : (others b C ++ C).Nodup := (List.perm_append_comm.nodup_iff).1 (hperm.nodup_iff.2 List.nodup_range)
    have h2 : (others b C ++ (rejected C o.check ++ passed C o.check)).Nodup :=
      ((List.Perm.append_left _ hsplit).nodup_iff).2 h1
    exact (List.Sublist.append (List.take_sublist _ _) (List.Sublist.refl _)).nodup h2
  have hTl : ((others b C).take (r.indexPrev + o.retained).toNat).length = (r.indexPrev + o.retained).toNat := by
    rw [List.length_take]; omega
  generalize hL : (others b C).take (r.indexPrev + o.retained).toNat ++ (rejected C o.check ++ passed C o.check) = L at *
  have hLl : L.length = r.basisSize.toNat + (r.numLocked - nl) := by
    rw [← hL, List.length_append, List.length_append, hTl]; omega
  have hinj : ∀ c < L.length, ∀ c' < L.length, r.restartPerm c = r.restartPerm c' → c = c' := by
    intro c hc c' hc' e
    rw [l4 c (by omega), l4 c' (by omega), List.getElem?_eq_getElem hc, List.getElem?_eq_getElem hc'] at e
    exact (List.Nodup.getElem_inj_iff hLnd).1 (Option.some.inj e)
  have hCin : ∀ v ∈ C, v < b := fun v hv => List.mem_range.1 (hCsub.subset hv)
  have hblockcol : ∀ m : ℕ, (m : Int) < o.retained → r.restartPerm (r.indexPrev.toNat + m) =
      some (r.indexPrev.toNat + C.length + m) := by
    intro m hm
    rw [i4 _ (by omega), htail.2 m (by omega)]
  -- the columns of Ritz vectors
  have hout : ∀ c < L.length, ¬ (r.indexPrev.toNat ≤ c ∧ c < r.indexPrev.toNat + r.retained.toNat) →
      ∃ v < b, (v : Int) < r.indexPrev0 ∧ r.restartPerm c = some v := by
    intro c hc hb
    by_cases h1 : c < r.indexPrev.toNat
    · have hco : c < (others b C).length := by omega
      refine ⟨(others b C)[c], ?_, ?_, by rw [i4 c (by omega), List.getElem?_eq_getElem hco]⟩
      · exact List.mem_range.1 (List.mem_filter.1 (List.getElem_mem hco)).1
      · by_cases hrb : r.indexPrev.toNat + C.length < b
        · have h0 := htail.2 0 (by omega)
          obtain ⟨ho, hoe⟩ := List.getElem?_eq_some_iff.1 h0
          have := List.pairwise_iff_getElem.1 hOs c (r.indexPrev.toNat + 0) hco ho (by omega)
          omega
        · have := List.mem_range.1 (List.mem_filter.1 (List.getElem_mem hco)).1
          omega
    · have h2 : (r.indexPrev + o.retained).toNat ≤ c := by omega
      have hx : L[c] ∈ rejected C o.check ++ passed C o.check := by
        have : L[c]? = (rejected C o.check ++ passed C o.check)[c - (r.indexPrev + o.retained).toNat]? := by
          rw [← hL, List.getElem?_append_right (by omega), hTl]
        rw [List.getElem?_eq_getElem hc] at this
        exact List.mem_of_getElem? this.symm
      have hC := hrejC _ hx
      exact ⟨L[c], hCin _ hC, hbef _ hC, by rw [l4 c (by omega), List.getElem?_eq_getElem hc]⟩
  have hkept : ∀ k < kept.length, ∃ c : ℕ, (c : Int) < r.basisSize ∧ r.hVecsPerm k = some c ∧ r.restartPerm c = kept[k]? ∧
      ¬ (r.indexPrev.toNat ≤ c ∧ c < r.indexPrev.toNat + r.retained.toNat) := by
    intro k hk
    obtain ⟨c, c1, c2, c3⟩ := k3 k hk
    refine ⟨c, c1, c2, c3, ?_⟩
    intro hb
    obtain ⟨c', v, e1, e2, e3⟩ := hcol.2 k (by omega)
    rw [c2] at e1
    cases e1
    have := hcol.1 (c - r.indexPrev.toNat) (by omega)
    rw [show r.indexPrev.toNat + (c - r.indexPrev.toNat) = c by omega, e3] at this
    cases this
  have hkinj : ∀ k < kept.length, ∀ k' < kept.length, kept[k]? = kept[k']? → k = k' := by
    intro k hk k' hk' e
    rw [List.getElem?_eq_getElem hk, List.getElem?_eq_getElem hk'] at e
    have hnd : kept.Nodup := k1.imp (fun h => Nat.ne_of_lt h)
    exact (List.Nodup.getElem_inj_iff hnd).1 (Option.some.inj e)
  have hcase : ∀ j < r.basisSize.toNat, j < kept.length ∨ ∃ m < r.retained.toNat, j = kept.length + m := by
    intro j hj
    by_cases h1 : j < kept.length
    · exact Or.inl h1
    · exact Or.inr ⟨j - kept.length, by omega, by omega⟩
  have hinjq : ∀ j < r.basisSize.toNat, ∀ j' < r.basisSize.toNat, r.hVecsPerm j = r.hVecsPerm j' → j = j' := by
    intro j hj j' hj' e
    rcases hcase j hj with h1 | ⟨m, hm, rfl⟩ <;> rcases hcase j' hj' with h2 | ⟨m', hm', rfl⟩
    · obtain ⟨c, c1, c2, c3, c4⟩ := hkept j h1
      obtain ⟨c', c1', c2', c3', c4'⟩ := hkept j' h2
      rw [c2, c2'] at e
      rw [Option.some.inj e, c3'] at c3
      exact hkinj j h1 j' h2 c3.symm
    · obtain ⟨c, c1, c2, c3, c4⟩ := hkept j h1
      rw [c2, k7 m' (by omega)] at e
      have := Option.some.inj e
      omega
    · obtain ⟨c, c1, c2, c3, c4⟩ := hkept j' h2
      rw [c2, k7 m (by omega)] at e
      have := Option.some.inj e
      omega
    · rw [k7 m (by omega), k7 m' (by omega)] at e
      have := Option.some.inj e
      omega
  have hfront : ∀ m : ℕ, m < r.retained.toNat → firstPrev r r.basisSize.toNat = kept.length := by
    intro m hm
    have e0 : r.hVecsPerm kept.length = some r.indexPrev.toNat := by simpa using k7 0 (by omega)
    refine C47_firstPrev r _ _ (by omega) e0 ?_
    intro j hj e
    exact hinjq j hj _ (by omega) (by rw [e, e0])
  refine ⟨by omega, fun m hm => hcol.1 m (by omega), ?_, ?_, ?_, hinjq, ?_⟩
  · intro c hc hb
    obtain ⟨v, v1, v2, v3⟩ := hout c (by omega) hb
    refine ⟨v, v1, v2, v3, ?_⟩
    unfold column
    rw [v3, Option.map_some]
    unfold coefficient
    rw [if_neg (by omega)]
  · intro c hc c' hc' _ _ e
    exact hinj c (by omega) c' (by omega) e
  · intro j hj
    rcases hcase j hj with h1 | ⟨m, hm, rfl⟩
    · obtain ⟨c, c1, c2, c3, c4⟩ := hkept j h1
      exact ⟨c, by omega, c2⟩
    · exact ⟨_, by omega, k7 m (by omega)⟩
  · intro m hm
    rw [hfront m hm]
    exact ⟨by omega, k7 m (by omega)⟩

/-! ## Runs -/

/-- Vectors that may be added to the basis: orthonormal, and orthogonal to the basis, to the constraints and to the locked
vectors (what the orthogonalisation is there to deliver). -/
structure C47_New (ip : E → E → K) (B : E → E) (s : St K E) (m : ℕ) (q : ℕ → E) : Prop where
  orth : ∀ i < m, ∀ j < m, ip (q i) (B (q j)) = if i = j then 1 else 0
  basis : ∀ i < s.b, ∀ j < m, ip (s.V i) (B (q j)) = 0
  out : ∀ x ∈ s.cons ++ s.locked.map Locked.x, ∀ j < m, ip x (B (q j)) = 0

/-- States that a run can reach, in exact arithmetic.  The run starts with an empty basis and orthonormal constraints.  It adds
vectors and has the projected problem solved, has it solved again, or it restarts: without locking when no guesses are pending, or with
locking when the pairs to be locked lie before the columns of the previous vectors.  The flags, the answers of the convergence
test and the number of retained vectors are any that the kernels can give. -/
inductive C47_Reach (P : Par) (ip : E → E → K) (A B : E → E) : St K E → Prop
  | start (s : St K E) (hb : s.b = 0) (hl : s.locked = []) (hc : Orthonormal ip B s.cons) : C47_Reach P ip A B s
  | grow (s : St K E) (m : ℕ) (q : ℕ → E) (e : Eig K) (hs : C47_Reach P ip A B s) (hq : C47_New ip B s m q)
      (he : IsEigenbasis (s.b + m) (sym (expand ip A B s m q e).H) e.vecs e.vals) :
      C47_Reach P ip A B (expand ip A B s m q e)
  | soft (s : St K E) (o : Answers) (flags : List Conv.Flag) (ievSize : Int) (iev : Arr) (r : Result) (prev : ℕ → ℕ → K)
      (e : Eig K) (hs : C47_Reach P ip A B s) (h : C22_Plain P o s.b flags 0)
      (hr : Restart.restart P o s.b 0 flags ievSize iev 0 = .ok r) (hp : Retained s r prev)
      (he : IsEigenbasis r.retained.toNat (blockH s prev r) e.vecs e.vals) :
      C47_Reach P ip A B (Rayleigh.restart s prev r e 0)
  | hard (s : St K E) (o : Answers) (flags : List Conv.Flag) (ievSize : Int) (iev : Arr) (g : Int) (r : Result)
      (prev : ℕ → ℕ → K) (e : Eig K) (hs : C47_Reach P ip A B s) (h : C22_Hard P o s.b s.locked.length flags g)
      (hr : Restart.restart P o s.b s.locked.length flags ievSize iev g = .ok r)
      (hbef : C22_Before (C22_chosen P s.b s.locked.length flags) r) (hp : Retained s r prev)
      (he : IsEigenbasis r.retained.toNat (blockH s prev r) e.vecs e.vals) :
      C47_Reach P ip A B (Rayleigh.restart s prev r e s.locked.length)
  | again (s : St K E) (e : Eig K) (hs : C47_Reach P ip A B s) (he : IsEigenbasis s.b (sym s.H) e.vecs e.vals) :
      C47_Reach P ip A B (Rayleigh.resolve s e)

theorem C47_inv (P : Par) (hmin : P.locking = false → P.numEvals ≤ P.minRestartSize) (ip : E → E → K) (A B : E → E) (hip : IsInner ip)
    (hA : IsHermitian ip A) (hB : IsHermitian ip B) (s : St K E) (h : C47_Reach P ip A B s) : Inv ip A B s := by
  induction h with
  | start s hb hl hc =>
    refine ⟨?_, ?_, ?_, ?_, ⟨?_, ?_, ?_⟩, ?_, ?_, ?_⟩
    · intro i hi; rw [hb] at hi; omega
    · intro i hi; rw [hb] at hi; omega
    · intro i hi; rw [hb] at hi; omega
    · intro i hi; rw [hb] at hi; omega
    · intro i hi; rw [hb] at hi; omega
    · intro i hi; rw [hb] at hi; omega
    · intro i hi; rw [hb] at hi; omega
    · intro x hx i hi; rw [hb] at hi; omega
    · rw [hl]; simpa using hc
    · intro p hp; rw [hl] at hp; cases hp
  | grow s m q e hs hq he ih => exact expand_inv hip hA hB s ih m q e hq.orth hq.basis hq.out he
  | soft s o flags ievSize iev r prev e hs h hr hp he ih =>
    exact restart_inv hip hA hB ih (C47_plan_without_locking P o s.b flags ievSize iev r h (hmin h.soft) hr) hp e he
  | hard s o flags ievSize iev g r prev e hs h hr hbef hp he ih =>
    exact restart_inv hip hA hB ih (C47_plan_with_locking P o s.b s.locked.length flags ievSize iev g r h hr hbef) hp e he
  | again s e hs he ih => exact ⟨ih.orth, ih.prod, ih.mass, ih.proj, he, ih.out, ih.others, ih.locked⟩

/-- In exact arithmetic, in any run, every pair offered is a Ritz pair: the vector has norm one, the value is its Rayleigh
quotient, and the residual vector from which the residual norm is taken is `A x - value x`; the residual is orthogonal to the
whole basis; and the vectors offered are orthogonal to each other, to the constraints and to the locked vectors. -/
theorem C47_offered_partial (P : Par) (hmin : P.locking = false → P.numEvals ≤ P.minRestartSize) (ip : E → E → K) (A B : E → E) (hip : IsInner ip)
    (hA : IsHermitian ip A) (hB : IsHermitian ip B) (s : St K E) (h : C47_Reach P ip A B s) :
    (∀ j < s.b, IsRitz ip A B (ritz s j) (s.hVals j) (resid s j) ∧ ∀ i < s.b, ip (s.V i) (resid s j) = 0) ∧
    (∀ i < s.b, ∀ j < s.b, ip (ritz s i) (B (ritz s j)) = if i = j then 1 else 0) ∧
    (∀ x ∈ s.cons ++ s.locked.map Locked.x, ∀ j < s.b, ip x (B (ritz s j)) = 0) := by
  have hi := C47_inv P hmin ip A B hip hA hB s h
  exact ⟨fun j hj => ritz_spec hip hA hB s hi j hj, fun i hi' j hj => ritz_orth hip hA hB s hi i j hi' hj,
    fun x hx j hj => ip_out hip hB s hi x hx _⟩

/-- In exact arithmetic, in any run, the locked pairs are Ritz pairs, with the residual that was recorded for them, and
the locked vectors and the constraints are orthonormal. -/
theorem C47_locked_partial (P : Par) (hmin : P.locking = false → P.numEvals ≤ P.minRestartSize) (ip : E → E → K) (A B : E → E) (hip : IsInner ip)
    (hA : IsHermitian ip A) (hB : IsHermitian ip B) (s : St K E) (h : C47_Reach P ip A B s) :
    Orthonormal ip B (s.cons ++ s.locked.map Locked.x) ∧ ∀ p ∈ s.locked, IsRitz ip A B p.x p.value p.res :=
  ⟨(C47_inv P hmin ip A B hip hA hB s h).others, (C47_inv P hmin ip A B hip hA hB s h).locked⟩

/-- In exact arithmetic, in any run, what is kept beside the basis belongs to it: the basis is orthonormal, `W` is its
product with the operator, and the projected matrix, of which the upper triangle is stored, is the operator seen in the basis. -/
theorem C47_basis_partial (P : Par) (hmin : P.locking = false → P.numEvals ≤ P.minRestartSize) (ip : E → E → K) (A B : E → E) (hip : IsInner ip)
    (hA : IsHermitian ip A) (hB : IsHermitian ip B) (s : St K E) (h : C47_Reach P ip A B s) :
    (∀ i < s.b, ∀ j < s.b, ip (s.V i) (B (s.V j)) = if i = j then 1 else 0) ∧ (∀ i < s.b, s.W i = A (s.V i)) ∧
    (∀ i < s.b, s.BV i = B (s.V i)) ∧
    (∀ i < s.b, ∀ j < s.b, i ≤ j → s.H i j = ip (s.V i) (A (s.V j))) := by
  have hi := C47_inv P hmin ip A B hip hA hB s h
  refine ⟨hi.orth, hi.prod, hi.mass, ?_⟩
  intro i h1 j h2 hij
  have := hi.proj i h1 j h2
  unfold sym at this
  rwa [if_pos hij] at this

/-! ## A diagonal operator -/

/-- Inner product of rational vectors, entries beyond 12 left out. -/
def C47_ip (x y : ℕ → ℚ) : ℚ := ∑ k ∈ range 12, x k * y k
/-- The operator with eigenvalues 0, 1, 2, ... -/
def C47_A (x : ℕ → ℚ) : ℕ → ℚ := fun k => k * x k
def C47_unit (i : ℕ) : ℕ → ℚ := fun k => if k = i then 1 else 0

theorem C47_ip_inner : IsInner C47_ip := by
  refine ⟨?_, ?_, ?_⟩
  · intro x y z; unfold C47_ip; rw [← sum_add_distrib]; refine sum_congr rfl fun k _ => ?_; simp [mul_add]
  · intro c x y; unfold C47_ip; rw [mul_sum]; refine sum_congr rfl fun k _ => ?_; simp; ring
  · intro x y; unfold C47_ip; rw [star_trivial]; refine sum_congr rfl fun k _ => ?_; ring

theorem C47_A_hermitian : IsHermitian C47_ip C47_A := by
  refine ⟨?_, ?_, ?_⟩
  · intro x y; funext k; simp [C47_A, mul_add]
  · intro c x; funext k; simp [C47_A]; ring
  · intro x y; unfold C47_ip C47_A; refine sum_congr rfl fun k _ => ?_; ring

theorem C47_unit_orth (i j : ℕ) (hi : i < 12) : C47_ip (C47_unit i) (C47_unit j) = if i = j then 1 else 0 := by
  unfold C47_ip C47_unit
  rw [sum_eq_single i]
  · simp
  · intro k _ hk; simp [hk]
  · intro h; exact absurd (mem_range.2 hi) h

theorem C47_A_unit (j : ℕ) : C47_A (C47_unit j) = (j : ℚ) • C47_unit j := by
  funext k
  simp only [C47_A, C47_unit, Pi.smul_apply, smul_eq_mul]
  split_ifs with h
  · rw [h]
  · simp

def C47_empty : St ℚ (ℕ → ℚ) := ⟨0, fun _ => 0, fun _ => 0, fun _ => 0, fun _ _ => 0, fun _ _ => 0, fun _ => 0, [], []⟩
def C47_idEig : Eig ℚ := ⟨fun i j => if i = j then 1 else 0, fun j => j⟩
/-- The basis of the first ten unit vectors. -/
def C47_ten : St ℚ (ℕ → ℚ) := expand C47_ip C47_A id C47_empty 10 C47_unit C47_idEig

theorem C47_ten_H (i j : ℕ) (hi : i < 10) (hj : j < 10) : sym C47_ten.H i j = if i = j then (j : ℚ) else 0 := by
  have h : ∀ a b : ℕ, a < 10 → b < 10 → a ≤ b → C47_ten.H a b = if a = b then (b : ℚ) else 0 := by
    intro a b ha hb hab
    have e : C47_ten.H a b = C47_ip (C47_unit a) (C47_A (C47_unit b)) := by
      simp only [C47_ten, expand, C47_empty, Nat.zero_le, Nat.zero_add, Nat.sub_zero, true_and]
      simp only [hb, hab, ha, and_self, if_true]
    rw [e, C47_A_unit, C47_ip_inner.smul, C47_unit_orth _ _ (by omega)]
    split_ifs <;> simp
  unfold sym
  by_cases hij : i ≤ j
  · rw [if_pos hij, h i j hi hj hij]
  · rw [if_neg hij, h j i hj hi (by omega), star_trivial, if_neg (by omega), if_neg (by omega)]

theorem C47_ten_reach (P : Par) : C47_Reach P C47_ip C47_A id C47_ten := by
  refine C47_Reach.grow C47_empty 10 C47_unit C47_idEig (C47_Reach.start _ rfl rfl ⟨fun x hx => (by cases hx), List.Pairwise.nil⟩)
    ⟨fun i hi j hj => C47_unit_orth i j (by omega), fun i hi => absurd hi (Nat.not_lt_zero i),
      fun x hx => (List.not_mem_nil hx).elim⟩ ⟨?_, ?_, ?_⟩
  · intro i hi j hj
    simp only [C47_idEig, C47_empty, star_trivial] at *
    rw [sum_eq_single i]
    · simp
    · intro k _ hk; simp [hk]
    · intro h; exact absurd (mem_range.2 hi) h
  · intro i hi j hj
    have hi' : i < 10 := by simpa [C47_empty] using hi
    have hj' : j < 10 := by simpa [C47_empty] using hj
    rw [sum_eq_single i]
    · have := C47_ten_H i i hi' hi'
      rw [C47_ten] at this
      rw [this]
      simp only [C47_idEig, if_true]
      by_cases h : i = j
      · rw [h]
      · simp [h]
    · intro k hk hne
      have hk' : k < 10 := by simpa [C47_empty] using hk
      have := C47_ten_H i k hi' hk'
      rw [C47_ten] at this
      rw [this, if_neg (Ne.symm hne), zero_mul]
    · intro h; exact absurd (mem_range.2 hi) h
  · intro j _; exact star_trivial _

def C47_result (x : Outcome Result) : Result :=
  match x with
  | .ok r => r
  | _ => ⟨[], 0, 0, 0, 0, fun _ => none, fun _ => none, fun _ => none, 0, 0, 0⟩

/-! ## A case where the condition on locking fails -/

def C47_badR : Result := C47_result (Restart.restart C22_par C22_ans 10 0 C22_flags 1 (fun _ => none) 0)
/-- The retained vectors: the sixth and the seventh Ritz vector. -/
def C47_badPrev : ℕ → ℕ → ℚ := fun m k => if k = 5 + m then 1 else 0
def C47_badEig : Eig ℚ := ⟨fun i j => if i = j then 1 else 0, fun j => if j = 0 then 2 else 5⟩

/-- With locking, when the pair to be locked lies behind the columns of the previous vectors, the restart offers a pair that
is not a Ritz pair: value 4, for a vector with Rayleigh quotient 6. -/
theorem C47_locking_violated :
    ∃ (s : St ℚ (ℕ → ℚ)) (r : Result) (prev : ℕ → ℕ → ℚ) (e : Eig ℚ), C47_Reach C22_par C47_ip C47_A id s ∧
      C22_Hard C22_par C22_ans s.b s.locked.length C22_flags 0 ∧
      Restart.restart C22_par C22_ans s.b s.locked.length C22_flags 1 (fun _ => none) 0 = .ok r ∧ Retained s r prev ∧
      IsEigenbasis r.retained.toNat (blockH s prev r) e.vecs e.vals ∧
      ∃ j < (Rayleigh.restart s prev r e s.locked.length).b,
        (Rayleigh.restart s prev r e s.locked.length).hVals j = 4 ∧
        C47_ip (ritz (Rayleigh.restart s prev r e s.locked.length) j)
          (C47_A (ritz (Rayleigh.restart s prev r e s.locked.length) j)) = 6 := by
  obtain ⟨r, kept, e, _⟩ := C22_order_with_locking C22_par C22_ans 10 0 C22_flags 1 (fun _ => none) 0 C22_hard_example
  have hr : C47_badR = r := by unfold C47_badR; rw [e]; rfl
  rw [← hr] at e
  refine ⟨C47_ten, C47_badR, C47_badPrev, C47_badEig, C47_ten_reach _, C22_hard_example, e, ⟨?_, ?_⟩, ⟨?_, ?_, ?_⟩, 2, ?_, ?_, ?_⟩
  · decide +kernel
  · decide +kernel
  · decide +kernel
  · decide +kernel
  · decide +kernel
  · decide +kernel
  · decide +kernel
  · decide +kernel

/-! ## Examples -/

/-- One retained vector, in the plane of the eighth and the ninth Ritz vectors. -/
def C47_prev : ℕ → ℕ → ℚ := fun _ k => if k = 7 then 3 / 5 else if k = 8 then 4 / 5 else 0
def C47_oneEig : Eig ℚ := ⟨fun _ _ => 1, fun _ => 9 / 25 * 7 + 16 / 25 * 8⟩
def C47_lockR : Result := C47_result (Restart.restart C22_lockPar C22_lockAns 10 0 C22_lockFlags 1 (fun _ => none) 0)

/-- A restart with locking of the basis of ten: two pairs are locked, one fails the check and stays, one previous vector is
retained. -/
example : C47_Reach C22_lockPar C47_ip C47_A id (Rayleigh.restart C47_ten C47_prev C47_lockR C47_oneEig 0) ∧
    (Rayleigh.restart C47_ten C47_prev C47_lockR C47_oneEig 0).b = 6 ∧
    (Rayleigh.restart C47_ten C47_prev C47_lockR C47_oneEig 0).locked.map Locked.value = [0, 2] ∧
    (List.range 6).map (Rayleigh.restart C47_ten C47_prev C47_lockR C47_oneEig 0).hVals =
      [1, 3, 4, 5, 6, 9 / 25 * 7 + 16 / 25 * 8] := by
  have hh : C22_Hard C22_lockPar C22_lockAns 10 0 C22_lockFlags 0 :=
    ⟨rfl, by decide +kernel, by decide +kernel, by decide +kernel, by decide +kernel, by unfold Possible RetainOk; decide +kernel⟩
  obtain ⟨r, kept, e, _⟩ := C22_order_with_locking C22_lockPar C22_lockAns 10 0 C22_lockFlags 1 (fun _ => none) 0 hh
  have hr : C47_lockR = r := by unfold C47_lockR; rw [e]; rfl
  rw [← hr] at e
  refine ⟨C47_Reach.hard C47_ten C22_lockAns C22_lockFlags 1 (fun _ => none) 0 C47_lockR C47_prev C47_oneEig (C47_ten_reach _) hh e
    ?_ ⟨?_, ?_⟩ ⟨?_, ?_, ?_⟩, ?_, ?_, ?_⟩
  · unfold C22_Before; decide +kernel
  · decide +kernel
  · decide +kernel
  · decide +kernel
  · decide +kernel
  · decide +kernel
  · decide +kernel
  · decide +kernel
  · decide +kernel

/-- Without locking: six wanted pairs of which two are accepted. -/
def C47_softPar : Par := ⟨100, 4, 0, 10, 4, 2, 1, false, false⟩
def C47_softFlags : List Conv.Flag := [.unconverged, .skip_until_restart, .converged, .converged, .unconverged, .unconverged,
  .unconverged, .unconverged, .unconverged, .unconverged]
def C47_softAns : Answers := ⟨1, fun _ => false, fun _ => .unconverged⟩
def C47_softR : Result := C47_result (Restart.restart C47_softPar C47_softAns 10 0 C47_softFlags 1 (fun _ => none) 0)

example : C47_Reach C47_softPar C47_ip C47_A id (Rayleigh.restart C47_ten C47_prev C47_softR C47_oneEig 0) ∧
    C47_softPar.numEvals ≤ C47_softPar.minRestartSize ∧
    (Rayleigh.restart C47_ten C47_prev C47_softR C47_oneEig 0).b = 5 ∧
    (List.range 5).map (Rayleigh.restart C47_ten C47_prev C47_softR C47_oneEig 0).hVals =
      [0, 1, 2, 3, 9 / 25 * 7 + 16 / 25 * 8] := by
  have hh : C22_Plain C47_softPar C47_softAns 10 C47_softFlags 0 :=
    ⟨rfl, by decide +kernel, by decide +kernel, by decide +kernel,
      fun i h1 h2 => absurd (Nat.lt_of_lt_of_le h2 (by decide +kernel : C47_softPar.numEvals ≤ 10)) (by omega),
      by decide +kernel, by unfold Possible RetainOk; decide +kernel⟩
  obtain ⟨r, e, _⟩ := C22_order_without_locking C47_softPar C47_softAns 10 C47_softFlags 1 (fun _ => none) 0 hh
  have hr : C47_softR = r := by unfold C47_softR; rw [e]; rfl
  rw [← hr] at e
  refine ⟨C47_Reach.soft C47_ten C47_softAns C47_softFlags 1 (fun _ => none) C47_softR C47_prev C47_oneEig (C47_ten_reach _) hh e
    ⟨?_, ?_⟩ ⟨?_, ?_, ?_⟩, ?_, ?_, ?_⟩
  · decide +kernel
  · decide +kernel
  · decide +kernel
  · decide +kernel
  · decide +kernel
  · decide +kernel
  · decide +kernel
  · decide +kernel

end Verif.Props
