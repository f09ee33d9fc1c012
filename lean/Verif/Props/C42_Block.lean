import Verif.Proofs.Prepare

set_option linter.unusedVariables false

/-!
# C42: the next block

Which Ritz pairs the next block corrects, and which are counted as converged.  The statements are about
one call of `prepare_candidates` (model: `Prepare.prepare`), for every basis, every answer of the
convergence test, every order of the pairs and every block handed over by the caller.

`Prepare.Pre` are the requirements on the arguments; `C16_*` shows that the main iteration meets them at
each of its calls.
-/

namespace Verif.Props
open Verif Verif.Restart Verif.Prepare

/-- The call ends, without any access outside of an array or to an entry that was never written. -/
theorem C42_terminates (P : Par) (J : Job) (a : Ans) (bn : ℕ) (flags : List Flag) (iev xr : Arr) (nrm : Norms)
    (reset : Bool) (h : Pre P J bn flags iev xr nrm) : ∃ s, prepare P J a bn flags iev xr nrm reset = .ok s :=
  let ⟨s, e, _⟩ := prepare_inv (a := a) (reset := reset) h
  ⟨s, e⟩

/-- The block has at most as many pairs as there is room for, and together with the pairs that have
converged at most one pair more than was asked for.  Its pairs are different, in increasing order, and not
converged; the vector, the residual and the residual norm at each position are those of its pair. -/
theorem C42_block (P : Par) (J : Job) (a : Ans) (bn : ℕ) (flags : List Flag) (iev xr : Arr) (nrm : Norms)
    (reset : Bool) (h : Pre P J bn flags iev xr nrm) (s : St) (hs : prepare P J a bn flags iev xr nrm reset = .ok s) :
    s.bs ≤ J.avail ∧ (0 < J.remained → s.bs + s.recent + J.numConverged ≤ P.numEvals + 1) ∧
    (∀ k, k < s.bs → ∃ i raised, s.iev k = some i ∧ i < J.basisSize ∧ s.flags[i]? = some .unconverged ∧
      s.nrm k = some (i, raised) ∧ (J.xrOn = true → s.xr k = some i)) ∧
    (∀ k l i j, k < l → l < s.bs → s.iev k = some i → s.iev l = some j → i < j) := by
  obtain ⟨s', e, hi, hf⟩ := prepare_inv (a := a) (reset := reset) h
  rw [hs] at e
  cases e
  have h1 := hi.room
  have h2 := hi.cap
  refine ⟨by omega, fun w => ?_, fun k hk => ?_, hi.incr⟩
  · have := hi.wanted w; omega
  · obtain ⟨i, b, w1, w2, w3, w4, w5⟩ := hi.block k hk
    have := hi.next
    exact ⟨i, b, w1, by omega, w3, w4, w5⟩

/-- The block takes the first pairs: an unconverged pair that is neither in the block nor excused comes
after all the pairs of the block, and it is left out only if the block is as large as it may be (the room,
or the pairs that are still missing plus one) or no further pair is missing.  Excused are the pairs on the
wrong side of the shift, and those that the pairs handed over by the caller jump over. -/
theorem C42_first (P : Par) (J : Job) (a : Ans) (bn : ℕ) (flags : List Flag) (iev xr : Arr) (nrm : Norms)
    (reset : Bool) (h : Pre P J bn flags iev xr nrm) (s : St) (hs : prepare P J a bn flags iev xr nrm reset = .ok s)
    (i : ℕ) (hi : i < J.basisSize) (hu : s.flags[i]? = some .unconverged)
    (hout : ∀ k, k < s.bs → s.iev k ≠ some i) (hex : ¬ Excused P a bn iev i) :
    (∀ k j, k < s.bs → s.iev k = some j → j < i) ∧
    (J.remained ≤ s.recent ∨
      (s.bs : Int) = if s.recent = 0 then (J.avail : Int) else min (J.avail : Int) ((P.numEvals : Int) + 1 - s.recent - J.numConverged)) := by
  obtain ⟨s', e, hv, hf⟩ := prepare_inv (a := a) (reset := reset) h
  rw [hs] at e
  cases e
  have hge : s.next ≤ i := by
    by_contra hlt
    rcases hv.cover i (by omega) hu with ⟨k, hk1, hk2⟩ | he
    · exact hout k hk1 hk2
    · exact hex he
  refine ⟨fun k j hk hj => ?_, ?_⟩
  · obtain ⟨i', b, w1, w2, _⟩ := hv.block k hk
    rw [hj] at w1
    cases w1
    omega
  · rcases hf with hf | hf | hf
    · exact Or.inl hf
    · right; rw [hf]; exact hv.exact
    · exact absurd hu (hf i hge hi)

/-- A pair counted as converged is one that the convergence test of this call accepted, it is counted
once, and, unless the target has a side, it is among the pairs that are asked for.  No more pairs are
counted than are missing. -/
theorem C42_counted (P : Par) (J : Job) (a : Ans) (bn : ℕ) (flags : List Flag) (iev xr : Arr) (nrm : Norms)
    (reset : Bool) (h : Pre P J bn flags iev xr nrm) (s : St) (hs : prepare P J a bn flags iev xr nrm reset = .ok s) :
    s.recent = s.counted.length ∧ s.counted.Nodup ∧ s.recent ≤ J.remained ∧
    (∀ i ∈ s.counted, i < J.basisSize ∧ (P.side = false → i + J.numLocked < P.numEvals) ∧
      ∃ f, s.flags[i]? = some f ∧ f ≠ .unconverged ∧ ∃ r t, a.check r t = f) ∧
    ((∀ r t, a.check r t = .unconverged) → s.recent = 0) := by
  obtain ⟨s', e, hv, hf⟩ := prepare_inv (a := a) (reset := reset) h
  rw [hs] at e
  cases e
  refine ⟨hv.counted, ?_, hv.recent, fun i hi => ?_, fun hall => ?_⟩
  · exact hv.sorted.imp (fun hlt => by omega)
  · obtain ⟨w1, w2, f, w3, w4, w5⟩ := hv.done i hi
    have := hv.next
    refine ⟨by omega, fun hsd => ?_, f, w3, w4, w5⟩
    unfold eligible at w2
    rw [hsd, Bool.or_false, decide_eq_true_eq] at w2
    omega
  · rw [hv.counted, List.length_eq_zero_iff]
    cases hc : s.counted with
    | nil => rfl
    | cons i t =>
      obtain ⟨_, _, f, _, w4, r, t', w5⟩ := hv.done i (by rw [hc]; simp)
      rw [hall r t'] at w5
      exact absurd w5.symm w4

/-- The flags of the pairs after the last one looked at are the ones given, in the new order. -/
theorem C42_frame (P : Par) (J : Job) (a : Ans) (bn : ℕ) (flags : List Flag) (iev xr : Arr) (nrm : Norms)
    (reset : Bool) (h : Pre P J bn flags iev xr nrm) (s : St) (hs : prepare P J a bn flags iev xr nrm reset = .ok s) :
    s.flags.length = flags.length ∧ (∀ i, J.basisSize ≤ i → s.flags[i]? = flags[i]?) ∧
    (∀ i, s.next ≤ i → i < J.basisSize → s.flags[i]? = some (flags.getD (a.map i) .unconverged)) := by
  obtain ⟨s', e, hv, hf⟩ := prepare_inv (a := a) (reset := reset) h
  rw [hs] at e
  cases e
  have hl := hv.len
  rw [remap_length] at hl
  have hfit := h.fits
  have hn := hv.next
  refine ⟨hl, fun i hi => ?_, fun i h1 h2 => ?_⟩
  · rw [hv.frame i (by omega)]
    unfold remap
    by_cases hlt : i < flags.length
    · rw [List.getElem?_map, List.getElem?_range hlt, Option.map_some, if_neg (by omega), List.getElem?_eq_getElem hlt]
      simp [List.getD, hlt]
    · rw [List.getElem?_eq_none (by simp; omega), List.getElem?_eq_none (by omega)]
  · rw [hv.frame i h1]
    unfold remap
    rw [List.getElem?_map, List.getElem?_range (by omega), Option.map_some, if_pos h2]

/-! ## The floor of the residual norms

"Don't trust residual norm smaller than the error in the residual norm" (main_iter.c:1685): every norm
computed by the call should be raised to `estimateResidualError`. -/

/-- A norm that the call leaves in the block and that it computed itself was raised. -/
def C42_Floored (s : St) : Prop := ∀ k i raised, k < s.bs → s.nrm k = some (i, raised) → raised = true

/-- For a block of one pair it holds. -/
theorem C42_floor_partial (P : Par) (J : Job) (a : Ans) (flags : List Flag) (iev xr : Arr)
    (reset : Bool) (h : Pre P J 0 flags iev xr (fun _ => none)) (hone : J.avail ≤ 1) (s : St)
    (hs : prepare P J a 0 flags iev xr (fun _ => none) reset = .ok s) : C42_Floored s := by
  intro k i b _ hk
  unfold prepare at hs
  split_ifs at hs
  exact rounds_floor _ _ _ _ s (by intro k i b hk; cases hk) (by dsimp only; omega) hs k i b hk

/-- A small job: three pairs of ten, a basis of four vectors, a block of two. -/
def C42_par : Par :=
  { n := 10, numOrthoConst := 0, minRestartSize := 3, maxBasisSize := 8, maxBlockSize := 2, numEvals := 3
    maxPrevRetain := 1, locking := false, side := false }

def C42_job : Job := { basisSize := 4, numLocked := 0, numConverged := 0, remained := 3, avail := 2, cols := 2, xrOn := true }

/-- The second pair tested in the first round that tests anything converges. -/
def C42_ans : Ans := ⟨fun i => i, fun r i => if r = 1 ∧ i = 1 then .converged else .unconverged, fun _ => false, fun _ => false⟩

def C42_fresh : List Flag := List.replicate 8 .unconverged

theorem C42_pre : Pre C42_par C42_job 0 C42_fresh (fun _ => none) (fun _ => none) (fun _ => none) :=
  ⟨by decide, by decide, by decide, by decide, by decide, by decide, by omega, by omega⟩

/-- What is looked at in the examples: the pairs counted, and for each position of the block its pair, the
pair of its vectors, the pair of its norm, and whether that was raised. -/
def C42_seen (x : Outcome St) : Option (List ℕ × List (List ℕ)) :=
  match x with
  | .ok s => some (s.counted, (List.range s.bs).map fun k =>
      [(s.iev k).getD 99, (s.xr k).getD 99, ((s.nrm k).getD (99, false)).1, if ((s.nrm k).getD (99, false)).2 then 1 else 0])
  | _ => none

/-- Pairs 0 and 1 are tested, 1 converges, 2 takes its place: the block is {0, 2}. -/
example : C42_seen (prepare C42_par C42_job C42_ans 0 C42_fresh (fun _ => none) (fun _ => none) (fun _ => none) false)
    = some ([1], [[0, 0, 0, 1], [2, 2, 2, 0]]) := by decide +kernel

/-- The requirement of `C42_first` is met: pair 3 is left out of that block. -/
example : ∃ s, prepare C42_par C42_job C42_ans 0 C42_fresh (fun _ => none) (fun _ => none) (fun _ => none) false = .ok s ∧
    s.flags[3]? = some .unconverged ∧ (∀ k, k < s.bs → s.iev k ≠ some 3) := by
  obtain ⟨s, e⟩ := C42_terminates C42_par C42_job C42_ans 0 C42_fresh _ _ _ false C42_pre
  refine ⟨s, e, ?_⟩
  have h1 : (match prepare C42_par C42_job C42_ans 0 C42_fresh (fun _ => none) (fun _ => none) (fun _ => none) false with
    | .ok s => decide (s.flags[3]? = some .unconverged ∧ (∀ k, k < s.bs → s.iev k ≠ some 3))
    | _ => false) = true := by decide +kernel
  rw [e] at h1
  exact of_decide_eq_true h1

/-- The code does not do what its comment says: the second norm of that block, computed after the first
pair was kept, is not raised, because the loop of main_iter.c:1687 runs from the first new position to the
*number* of new positions. -/
theorem C42_floor_violated : ∃ (P : Par) (J : Job) (a : Ans) (flags : List Flag) (s : St),
    Pre P J 0 flags (fun _ => none) (fun _ => none) (fun _ => none) ∧
    prepare P J a 0 flags (fun _ => none) (fun _ => none) (fun _ => none) false = .ok s ∧ ¬ C42_Floored s := by
  obtain ⟨s, e⟩ := C42_terminates C42_par C42_job C42_ans 0 C42_fresh _ _ _ false C42_pre
  refine ⟨C42_par, C42_job, C42_ans, C42_fresh, s, C42_pre, e, ?_⟩
  have h1 : (match prepare C42_par C42_job C42_ans 0 C42_fresh (fun _ => none) (fun _ => none) (fun _ => none) false with
    | .ok s => decide (1 < s.bs ∧ s.nrm 1 = some (2, false))
    | _ => false) = true := by decide +kernel
  rw [e] at h1
  replace h1 := of_decide_eq_true h1
  intro hfl
  have := hfl 1 2 false h1.1 h1.2
  cases this

/-- A block handed over by the caller: pairs 0 and 2, with their vectors and norms. -/
theorem C42_pre_given : Pre C42_par C42_job 2 C42_fresh (fun k => some (2 * k)) (fun k => some (2 * k)) (fun k => some (2 * k, true)) :=
  ⟨by decide, by decide, by decide, by decide, by decide, by decide,
    fun k hk => ⟨2 * k, true, rfl, by show 2 * k < 4; omega, rfl, fun _ => rfl⟩,
    fun k l i j h _ h1 h2 => by cases h1; cases h2; omega⟩

/-- Pair 1 is excused there and only there. -/
example : Excused C42_par C42_ans 2 (fun k => some (2 * k)) 1 ∧ ¬ Excused C42_par C42_ans 2 (fun k => some (2 * k)) 3 := by
  constructor
  · refine Or.inr ⟨⟨1, 2, by omega, rfl, by omega⟩, ?_⟩
    intro k hk e
    have := Option.some.inj e
    omega
  · rintro (h | h)
    · cases h.1
    · obtain ⟨⟨k, j, h1, h2, h3⟩, _⟩ := h
      have := Option.some.inj h2
      omega

/-- `C42_floor_partial`: a block of one. -/
example : Pre { C42_par with maxBlockSize := 1 } { C42_job with avail := 1 } 0 C42_fresh (fun _ => none) (fun _ => none) (fun _ => none) :=
  ⟨by decide, by decide, by decide, by decide, by decide, by decide, by omega, by omega⟩

end Verif.Props
