import Verif.Proofs.SvdsShifts
import Verif.Props.C28_SvdsRun

/-!
# C41: the shifts handed to the two stages
-/

set_option linter.unusedSectionVars false

namespace Verif.Props
open Verif.Members Verif.Eigs Verif.Svds Verif.Spec Verif.SvdsRun

section
variable {K : Type} [Field K] [LinearOrder K]

/-- The events of a run that does not fail: the first call of the eigensolver, and the second if there is one. -/
theorem stage_events (o : Sys K) (hc : SolverContract o) (w : World K) (r : Ret K)
    (hm : w.s.sv.i .method ≠ 0) (hn2 : w.s.st2.i .numEvals = w.s.sv.i .numSvals)
    (h : stages o w = some r) (hnd : ¬ driverFailure r.code)
    (new : List (Ev K)) (hl : r.w.log = w.log ++ new) :
    (∀ p off sh c, Ev.solve false p off sh c ∈ new → ∃ x y q, FirstStage o w p sh x y q) ∧
    (∀ p off sh c, Ev.solve true p off sh c ∈ new → ∃ p1 sh1 x y q k x2 y2 q2, FirstStage o w p1 sh1 x y q ∧
      SecondStage o w q k p sh x2 y2 q2 ∧ w.s.sv.i .methodStage2 ≠ 0) := by
  obtain ⟨p, sh', x, y, q, hq, _, _, _, _, hx⟩ := run_facts o hc w r hm h hnd
  rcases hx with ⟨hl2, _⟩ | ⟨k', p2', sh2, x2, y2, q2, mid, h2, hne, _, _, hx⟩
  · have hnew := new_unique hl hl2
    subst hnew
    constructor
    · intro p' off sh c hev
      simp only [List.mem_singleton, Ev.solve.injEq, true_and] at hev
      obtain ⟨rfl, rfl, rfl, rfl⟩ := hev
      exact ⟨x, y, q, hq⟩
    · intro p' off sh c hev
      simp at hev
  · obtain ⟨hlg, hsc, _⟩ := hx hn2
    have hnew := new_unique hl hlg
    have hmid : ∀ b p off sh c, Ev.solve b p off sh c ∉ mid := by
      intro b p off sh c hev
      have : (b, c) ∈ solverCalls mid := by
        unfold solverCalls
        exact List.mem_filterMap.2 ⟨_, hev, rfl⟩
      rw [hsc] at this; simp at this
    constructor
    · intro p' off sh c hev
      rw [hnew] at hev
      simp only [List.mem_cons, List.mem_append, List.not_mem_nil, or_false, List.cons_append] at hev
      rcases hev with hev | hev | hev
      · simp only [Ev.solve.injEq, true_and] at hev
        obtain ⟨rfl, rfl, rfl, rfl⟩ := hev
        exact ⟨x, y, q, hq⟩
      · exact absurd hev (hmid _ _ _ _ _)
      · simp at hev
    · intro p' off sh c hev
      rw [hnew] at hev
      simp only [List.mem_cons, List.mem_append, List.not_mem_nil, or_false, List.cons_append] at hev
      rcases hev with hev | hev | hev
      · simp at hev
      · exact absurd hev (hmid _ _ _ _ _)
      · simp only [Ev.solve.injEq, true_and] at hev
        obtain ⟨rfl, rfl, rfl, rfl⟩ := hev
        exact ⟨_, _, _, _, q, _, x2, y2, q2, hq, h2, hne⟩

/-- **C41, first stage.** The eigensolver of the first stage gets as many shifts as the user gave: their squares if
it works with the product of the matrix and its adjoint, the shifts themselves for the augmented matrix. -/
theorem C41_first_stage (o : Sys K) (hc : SolverContract o) (w : World K) (r : Ret K)
    (hop : isOp (w.s.sv.i .method)) (hn2 : w.s.st2.i .numEvals = w.s.sv.i .numSvals)
    (h : stages o w = some r) (hnd : ¬ driverFailure r.code) (hts : 0 < w.s.sv.i .numTargetShifts)
    (new : List (Ev K)) (hl : r.w.log = w.log ++ new) (p : EP K) (off : ℕ) (sh : ℕ → K) (c : Int)
    (hev : Ev.solve false p off sh c ∈ new) :
    p.i .numTargetShifts = w.s.sv.i .numTargetShifts ∧
    ∀ i, sh i = if w.s.sv.i .method = 3 then w.heap (w.s.sv.p .targetShifts) i
      else w.heap (w.s.sv.p .targetShifts) i * w.heap (w.s.sv.p .targetShifts) i := by
  have hm : w.s.sv.i .method ≠ 0 := by unfold isOp at hop; omega
  obtain ⟨x, y, q, hq⟩ := (stage_events o hc w r hm hn2 h hnd new hl).1 p off sh c hev
  obtain ⟨st, hst, h0, rfl, rfl⟩ := hq.prepared
  obtain ⟨p0, w1, p1, _, _, hs, hh, hpt, hpn⟩ := copyFrom_shifts o false w st hst hm h0
  rw [hpn, hpt, hh]
  unfold stageShifts at hs
  dsimp only at hs
  rw [if_pos (Or.inl ⟨rfl, hts⟩)] at hs
  have hopf : opOf false w.s = w.s.sv.i .method := rfl
  rw [hopf] at hs
  by_cases h12 : w.s.sv.i .method = 1 ∨ w.s.sv.i .method = 2
  · rw [if_pos ⟨rfl, h12⟩] at hs
    by_cases hov : w.s.sv.i .numTargetShifts > w.s.sv.i .numSvals
    · rw [if_pos hov] at hs; exact absurd hs (by simp)
    · rw [if_neg hov] at hs
      simp only [Option.some.injEq, Prod.mk.injEq] at hs
      obtain ⟨rfl, rfl, _⟩ := hs
      refine ⟨by simp [setP_i, setI_i], fun i => ?_⟩
      rw [if_neg (show ¬ w.s.sv.i .method = 3 by omega)]
      simp [setP_p]
  · rw [if_neg (fun hx => h12 hx.2)] at hs
    simp only [Option.some.injEq, Prod.mk.injEq] at hs
    obtain ⟨rfl, rfl, _⟩ := hs
    refine ⟨by simp [setP_i, setI_i], fun i => ?_⟩
    have : w.s.sv.i .method = 3 := by unfold isOp at hop; omega
    rw [if_pos this]
    simp [setP_p]

/-- Refutation: the array of the squares has room for `numSvals` shifts, so a call with more shifts than singular
values writes past its end (`none`), although the documentation allows any number of shifts. -/
theorem C41_more_shifts_than_values_violated (o : Sys K) (w : World K)
    (hop : w.s.sv.i .method = 1 ∨ w.s.sv.i .method = 2) (hts : 0 < w.s.sv.i .numTargetShifts)
    (hmany : w.s.sv.i .numSvals < w.s.sv.i .numTargetShifts) (hsup : ∀ t, o.supports t = true) :
    stages o w = none := by
  have hne : opOf false w.s ≠ 0 := by show w.s.sv.i .method ≠ 0; omega
  have hcb : (stageCallbacks o w.s.sv (stage false w.s)).1 = 0 := by
    unfold stageCallbacks
    simp only [hsup, if_true]
    split_ifs <;> simp_all
  have hcf : copyFrom o false w = none := by
    unfold copyFrom
    dsimp only
    rw [if_neg hne, if_neg (not_not.2 hcb)]
    have : ∀ p0, stageShifts o false (opOf false w.s) w p0 = none := by
      intro p0
      unfold stageShifts
      dsimp only
      rw [if_pos (Or.inl ⟨rfl, hts⟩), if_pos ⟨rfl, hop⟩, if_pos hmany]
    rw [this]
  unfold stages
  rw [hcf]

/-- **C41, second stage, closest values.** The second stage gets the user's own array and number of shifts, provided
its structure has no array yet. -/
theorem C41_second_stage_closest (o : Sys K) (hc : SolverContract o) (w : World K) (r : Ret K)
    (hm : w.s.sv.i .method ≠ 0) (hn2 : w.s.st2.i .numEvals = w.s.sv.i .numSvals)
    (h : stages o w = some r) (hnd : ¬ driverFailure r.code) (htg : w.s.sv.i .target = 2)
    (hfree : w.s.st2.p .targetShifts = 0)
    (new : List (Ev K)) (hl : r.w.log = w.log ++ new) (p : EP K) (off : ℕ) (sh : ℕ → K) (c : Int)
    (hev : Ev.solve true p off sh c ∈ new) :
    p.p .targetShifts = w.s.sv.p .targetShifts ∧ p.i .numTargetShifts = w.s.sv.i .numTargetShifts := by
  obtain ⟨p1, sh1, x, y, q, k, x2, y2, q2, hq, hq2, hm2⟩ := (stage_events o hc w r hm hn2 h hnd new hl).2 p off sh c hev
  obtain ⟨t, st, hst, h0, rfl, rfl, hsv, hrn, hin, hst2, hfol, hp, hd⟩ := hq2.prepared
  have hop : opOf true t.s ≠ 0 := by
    show t.s.sv.i .methodStage2 ≠ 0
    rw [hfol _ (by simp [svFollowed])]
    exact hm2
  obtain ⟨p0, w1, p1', hp0, _, hs, hh, hpt, hpn⟩ := copyFrom_shifts o true t st hst hop h0
  rw [hst2] at hp0
  unfold stageShifts at hs
  dsimp only at hs
  rw [hfol _ (by simp [svFollowed] : Svds.IF.target ∈ svFollowed), htg, hp0, hfree] at hs
  rw [if_pos (by simp), if_neg (by simp)] at hs
  simp only [Option.some.injEq, Prod.mk.injEq] at hs
  obtain ⟨rfl, rfl, _⟩ := hs
  rw [hpt, hpn, hp]
  exact ⟨by simp [setP_p], by simp [setP_i, setI_i, hfol _ (by simp [svFollowed] : Svds.IF.numTargetShifts ∈ svFollowed)]⟩

/-- Refutation for a structure used before: the array a previous call left in the structure of the second stage is
used again, whatever shifts the user gives now (the driver clears only arrays it allocated). -/
theorem C41_reused_structure_violated (o : Sys K) (hc : SolverContract o) (w : World K) (r : Ret K)
    (hm : w.s.sv.i .method ≠ 0) (hn2 : w.s.st2.i .numEvals = w.s.sv.i .numSvals)
    (h : stages o w = some r) (hnd : ¬ driverFailure r.code) (hold : w.s.st2.p .targetShifts ≠ 0)
    (new : List (Ev K)) (hl : r.w.log = w.log ++ new) (p : EP K) (off : ℕ) (sh : ℕ → K) (c : Int)
    (hev : Ev.solve true p off sh c ∈ new) :
    p.p .targetShifts = w.s.st2.p .targetShifts ∧ p.i .numTargetShifts = w.s.st2.i .numTargetShifts := by
  obtain ⟨p1, sh1, x, y, q, k, x2, y2, q2, hq, hq2, hm2⟩ := (stage_events o hc w r hm hn2 h hnd new hl).2 p off sh c hev
  obtain ⟨t, st, hst, h0, rfl, rfl, hsv, hrn, hin, hst2, hfol, hp, hd⟩ := hq2.prepared
  have hop : opOf true t.s ≠ 0 := by
    show t.s.sv.i .methodStage2 ≠ 0
    rw [hfol _ (by simp [svFollowed])]
    exact hm2
  obtain ⟨p0, w1, p1', hp0, hpn0, hs, hh, hpt, hpn⟩ := copyFrom_shifts o true t st hst hop h0
  rw [hst2] at hp0 hpn0
  unfold stageShifts at hs
  dsimp only at hs
  rw [hp0] at hs
  rw [if_neg (by simp [hold]), if_neg (by simp [hold]), if_neg (by simp [hold])] at hs
  simp only [Option.some.injEq, Prod.mk.injEq] at hs
  obtain ⟨rfl, rfl, _⟩ := hs
  rw [hpt, hpn, hp0, hpn0]
  exact ⟨rfl, rfl⟩

/-- A run of each kind: the state handed to the stages by the 3 by 2 example of C28, here with the closest values to
two shifts, 1 and 3. -/
def C41_world (target : Int) (shifts : Int) : World ℚ where
  s := match svdsPrelude C28_sys.toSEnv 5 ⟨false, false, false⟩
      { C28_world.s with sv := ({ C28_world.s.sv with p := fun f => if f = .matrixMatvec then 5 else
          if f = .targetShifts then 40 else 0 } : SV ℚ).setI .target target |>.setI .numTargetShifts shifts } with
    | some s => s
    | none => C28_world.s
  svals := fun _ => 0
  rnorms := fun _ => 0
  heap := fun a i => if a = 40 then (if i = 0 then 1 else 3) else 0
  products := 0
  log := []

/-- Pointer, number and first two shifts of each call of the eigensolver. -/
def C41_shifts (l : List (Ev ℚ)) : List (List ℚ) :=
  l.filterMap fun e => match e with
    | .solve _ p _ sh _ => some [(p.p .targetShifts : ℚ), (p.i .numTargetShifts : ℚ), sh 0, sh 1]
    | _ => none

example : isOp ((C41_world 2 2).s.sv.i .method) ∧
    (C41_world 2 2).s.st2.i .numEvals = (C41_world 2 2).s.sv.i .numSvals ∧
    (C41_world 2 2).s.st2.p .targetShifts = 0 ∧ (C41_world 2 2).s.sv.i .numTargetShifts = 2 :=
  ⟨by decide +kernel, by decide +kernel, by decide +kernel, by decide +kernel⟩

/-- The normal equations get the squares 1 and 9, the augmented matrix the shifts themselves. -/
example : (stages C28_sys (C41_world 2 2)).map (fun r => C41_shifts r.w.log)
    = some [[21, 2, 1, 9], [40, 2, 1, 3]] := by decide +kernel

/-- Smallest values: no shift for the first stage; two, in the driver's own array, for the second. -/
example : (stages C28_sys (C41_world 1 0)).map (fun r => (C41_shifts r.w.log).map (List.take 2))
    = some [[0, 0], [22, 2]] := by decide +kernel

/-- More shifts than values. -/
example : stages C28_sys (C41_world 2 3) = none :=
  C41_more_shifts_than_values_violated _ _ (by decide +kernel) (by decide +kernel) (by decide +kernel) (fun _ => rfl)

end

section
variable {K : Type} [Field K] [LinearOrder K] [IsStrictOrderedRing K]

/-- **C41, second stage.** When the smallest singular values are sought, the eigensolver of the second stage gets one
shift per singular value, in increasing order, none below `‖A‖ε`.  If the values and residual norms of the first
stage satisfy its error bound (the squared value is within residual norm times value of the square of an exact
singular value), then the `i`-th shift does not exceed the `i`-th exact value, or `‖A‖ε` if that is larger: looking
for the closest value above the shift cannot skip it. -/
theorem C41_second_stage (o : Sys K) (hc : SolverContract o) (w : World K) (r : Ret K)
    (hm : w.s.sv.i .method ≠ 0) (hn2 : w.s.st2.i .numEvals = w.s.sv.i .numSvals)
    (hsq : ∀ x, 0 ≤ x → 0 ≤ o.sqrt x ∧ o.sqrt x * o.sqrt x = x)
    (h : stages o w = some r) (hnd : ¬ driverFailure r.code) (htg : w.s.sv.i .target = 1)
    (hfree : w.s.st2.p .targetShifts = 0)
    (new : List (Ev K)) (hl : r.w.log = w.log ++ new) (p : EP K) (off : ℕ) (sh : ℕ → K) (c : Int)
    (hev : Ev.solve true p off sh c ∈ new) :
    p.i .numTargetShifts = w.s.sv.i .numSvals ∧
    ∃ (found : Int) (sval rnorm : ℕ → K) (aNorm : K),
      (∃ p1 x y sh1, found = (o.solve false p1 x y sh1).p.i .initSize ∧
        sval = valuesBack o (w.s.sv.i .method) found (o.solve false p1 x y sh1).vals ∧
        rnorm = normsBack o (w.s.sv.i .method) found aNorm sval (o.solve false p1 x y sh1).norms) ∧
      (∀ i j, i ≤ j → j < (w.s.sv.i .numSvals).toNat → sh i ≤ sh j) ∧
      (∀ i < (w.s.sv.i .numSvals).toNat, aNorm * o.meps ≤ sh i) ∧
      (∀ exact : ℕ → K, (∀ i j, i ≤ j → j < (w.s.sv.i .numSvals).toNat → exact i ≤ exact j) →
        (∀ i : ℕ, (i : Int) < found → 0 ≤ sval i ∧ 0 ≤ exact i ∧
          sval i * sval i - exact i * exact i ≤ rnorm i * sval i) →
        ∀ i < (w.s.sv.i .numSvals).toNat, sh i ≤ max (exact i) (aNorm * o.meps)) := by
  obtain ⟨p1, sh1, x, y, q, k, x2, y2, q2, hq, hq2, hm2⟩ := (stage_events o hc w r hm hn2 h hnd new hl).2 p off sh c hev
  obtain ⟨t, st, hst, h0, rfl, rfl, hsv, hrn, hin, hst2, hfol, hp, hd⟩ := hq2.prepared
  have hop : opOf true t.s ≠ 0 := by
    show t.s.sv.i .methodStage2 ≠ 0
    rw [hfol _ (by simp [svFollowed])]
    exact hm2
  obtain ⟨p0, w1, p1', hp0, _, hs, hh, hpt, hpn⟩ := copyFrom_shifts o true t st hst hop h0
  rw [hst2] at hp0
  unfold stageShifts at hs
  dsimp only at hs
  rw [hfol _ (by simp [svFollowed] : Svds.IF.target ∈ svFollowed), htg, hp0, hfree] at hs
  rw [if_neg (by simp), if_pos (by simp)] at hs
  by_cases hov : t.s.sv.i .initSize > t.s.sv.i .numSvals
  · rw [if_pos hov] at hs; exact absurd hs (by simp)
  · rw [if_neg hov] at hs
    simp only [Option.some.injEq, Prod.mk.injEq] at hs
    obtain ⟨rfl, rfl, _⟩ := hs
    have hns : t.s.sv.i .numSvals = w.s.sv.i .numSvals := hfol _ (by simp [svFollowed])
    rw [hpn, hpt, hh]
    refine ⟨by simp [setI_i, hns], q.p.i .initSize, t.svals, t.rnorms, t.s.sv.d .aNorm, ⟨p1, x, y, sh1, ?_, ?_, ?_⟩, ?_⟩
    · rw [← hq.call]
    · rw [← hq.call]; exact hsv
    · rw [← hq.call]; exact hrn
    · simp only [setI_p, setP_p, if_true]
      rw [hns, hin]
      set n := (w.s.sv.i .numSvals).toNat with hn
      set l := bounds o (t.s.sv.d .aNorm) n (q.p.i .initSize).toNat t.svals t.rnorms with hl'
      have hlen : l.length = n := bounds_length ..
      have hso := bounds_sorted o (t.s.sv.d .aNorm) n (q.p.i .initSize).toNat t.svals t.rnorms
      have hpe := bounds_perm o (t.s.sv.d .aNorm) n (q.p.i .initSize).toNat t.svals t.rnorms
      rw [← hl'] at hso hpe
      have harr : ∀ i (hi : i < n), arr l i = l[i]'(by omega) := by
        intro i hi
        unfold arr
        rw [List.getD_eq_getElem?_getD, List.getElem?_eq_getElem (by omega), Option.getD_some]
      refine ⟨?_, ?_, ?_⟩
      · intro i j hij hj
        rw [harr i (by omega), harr j hj]
        rcases Nat.eq_or_lt_of_le hij with rfl | hlt
        · exact le_refl _
        · exact List.pairwise_iff_getElem.1 hso i j (by omega) (by omega) hlt
      · intro i hi
        rw [harr i hi]
        have hmem : l[i]'(by omega) ∈ l := List.getElem_mem _
        rw [hpe.mem_iff, List.mem_map] at hmem
        obtain ⟨j, _, hj⟩ := hmem
        rw [← hj]
        split_ifs
        · exact le_max_right _ _
        · exact le_refl _
      · intro exact hmono hbound i hi
        rw [harr i hi]
        refine sorted_le (b := fun i => max (exact i) (t.s.sv.d .aNorm * o.meps)) ?_ ?_ hso hpe i (by omega)
        · intro i j hij hj
          exact max_le_max (hmono i j hij hj) (le_refl _)
        · intro j hj
          split_ifs with hjf
          · obtain ⟨b1, b2, b3⟩ := hbound j (by omega)
            refine max_le_max ?_ (le_refl _)
            have hnn : 0 ≤ max (t.svals j - t.rnorms j) 0 * t.svals j := mul_nonneg (le_max_right _ _) b1
            rw [abs_of_nonneg hnn]
            obtain ⟨s1, s2⟩ := hsq _ hnn
            have hle : max (t.svals j - t.rnorms j) 0 * t.svals j ≤ exact j * exact j := by
              rcases le_total (t.svals j - t.rnorms j) 0 with hc0 | hc0
              · rw [max_eq_right hc0, zero_mul]; exact mul_nonneg b2 b2
              · rw [max_eq_left hc0, sub_mul]; linarith
            rw [← s2] at hle
            exact (mul_self_le_mul_self_iff s1 b2).2 hle
          · exact le_max_right _ _

end

end Verif.Props
