import Verif.Proofs.SvdsRun
import Mathlib.Algebra.Order.Field.Basic
import Mathlib.Tactic.Linarith

/-!
# Facts about the shifts of the stages
-/

set_option linter.unusedSectionVars false

namespace Verif.SvdsRun
open Verif.Members Verif.Eigs Verif.Svds Verif.Spec

section Sorting
variable {K : Type} [LinearOrder K]

/-- In a sorted list an element larger than `x` has fewer than its position elements `≤ x`. -/
theorem countP_le_of_sorted {l : List K} (hs : l.Pairwise (· ≤ ·)) (x : K) (i : ℕ) (hi : i < l.length)
    (hx : x < l[i]) : l.countP (fun a => decide (a ≤ x)) ≤ i := by
  induction l generalizing i with
  | nil => simp at hi
  | cons a l ih =>
    rw [List.pairwise_cons] at hs
    cases i with
    | zero =>
      simp only [List.getElem_cons_zero] at hx
      rw [Nat.le_zero, List.countP_eq_zero]
      intro b hb
      simp only [decide_eq_true_eq, not_le]
      rcases List.mem_cons.1 hb with rfl | hb
      · exact hx
      · exact lt_of_lt_of_le hx (hs.1 b hb)
    | succ i =>
      simp only [List.getElem_cons_succ] at hx
      have := ih hs.2 i (by simpa using hi) hx
      rw [List.countP_cons]
      split_ifs <;> omega

/-- Sorting keeps upper bounds that increase. -/
theorem sorted_le {f b : ℕ → K} {n : ℕ} (hb : ∀ i j, i ≤ j → j < n → b i ≤ b j) (hf : ∀ i < n, f i ≤ b i)
    {l : List K} (hs : l.Pairwise (· ≤ ·)) (hp : l.Perm ((List.range n).map f)) (i : ℕ) (hi : i < l.length) :
    l[i] ≤ b i := by
  by_contra hlt
  have hlen : l.length = n := by rw [hp.length_eq]; simp
  have h1 := countP_le_of_sorted hs (b i) i hi (not_le.1 hlt)
  rw [hp.countP_eq, List.countP_map] at h1
  have h2 : (List.range (i + 1)).countP ((fun a => decide (a ≤ b i)) ∘ f) = (List.range (i + 1)).length := by
    rw [List.countP_eq_length]
    intro j hj
    have hj' := List.mem_range.1 hj
    simp only [Function.comp, decide_eq_true_eq]
    exact le_trans (hf j (by omega)) (hb j i (by omega) (by omega))
  have h3 : (List.range (i + 1)).countP ((fun a => decide (a ≤ b i)) ∘ f)
      ≤ (List.range n).countP ((fun a => decide (a ≤ b i)) ∘ f) := by
    apply List.Sublist.countP_le
    exact List.range_sublist.2 (by omega)
  rw [h2, List.length_range] at h3
  omega

end Sorting

variable {K : Type} [Field K] [LinearOrder K]

theorem bounds_perm (o : Sys K) (aNorm : K) (n m : ℕ) (x y : ℕ → K) :
    (bounds o aNorm n m x y).Perm ((List.range n).map fun i =>
      if i < m then max (o.sqrt |max (x i - y i) 0 * x i|) (aNorm * o.meps) else aNorm * o.meps) :=
  List.mergeSort_perm _ _

theorem bounds_sorted (o : Sys K) (aNorm : K) (n m : ℕ) (x y : ℕ → K) :
    (bounds o aNorm n m x y).Pairwise (· ≤ ·) := by
  have := List.pairwise_mergeSort (le := fun a b : K => decide (a ≤ b))
    (fun a b c h1 h2 => by simp only [decide_eq_true_eq] at *; exact le_trans h1 h2)
    (fun a b => by simp only [Bool.or_eq_true, decide_eq_true_eq]; exact le_total a b)
    ((List.range n).map fun i =>
      if i < m then max (o.sqrt |max (x i - y i) 0 * x i|) (aNorm * o.meps) else aNorm * o.meps)
  exact this.imp (fun h => by simpa using h)

theorem bounds_length (o : Sys K) (aNorm : K) (n m : ℕ) (x y : ℕ → K) :
    (bounds o aNorm n m x y).length = n := by
  rw [(bounds_perm o aNorm n m x y).length_eq]; simp

/-- The shifts of a prepared stage are those of `stageShifts`. -/
theorem copyFrom_shifts (o : Sys K) (b : Bool) (w : World K) (st : Step K) (h : copyFrom o b w = some st)
    (hop : opOf b w.s ≠ 0) (h0 : st.code = 0) :
    ∃ p0 w1 p1, p0.p .targetShifts = (stage b w.s).p .targetShifts ∧
      p0.i .numTargetShifts = (stage b w.s).i .numTargetShifts ∧
      stageShifts o b (opOf b w.s) w p0 = some (w1, p1, st.alloc) ∧ st.w.heap = w1.heap ∧
      (stage b st.w.s).p .targetShifts = p1.p .targetShifts ∧
      (stage b st.w.s).i .numTargetShifts = p1.i .numTargetShifts := by
  unfold copyFrom at h
  dsimp only at h
  rw [if_neg hop] at h
  by_cases h1 : (stageCallbacks o w.s.sv (stage b w.s)).1 ≠ 0
  · rw [if_pos h1] at h
    obtain rfl := Option.some.inj h
    exact absurd h0 h1
  · rw [if_neg h1] at h
    set p0 := stageParams o b (opOf b w.s) w.s.sv (w.s.st1.i .stats_numMatvecs)
      (stageCallbacks o w.s.sv (stage b w.s)).2 with hp0
    have hcbp : (stageCallbacks o w.s.sv (stage b w.s)).2.p .targetShifts = (stage b w.s).p .targetShifts := by
      unfold stageCallbacks
      dsimp only
      split_ifs <;> simp [setP_p, setI_p]
    have hcbi : (stageCallbacks o w.s.sv (stage b w.s)).2.i .numTargetShifts
        = (stage b w.s).i .numTargetShifts := by
      unfold stageCallbacks
      dsimp only
      split_ifs <;> simp [setP_i, setI_i]
    have hpi : p0.i .numTargetShifts = (stageCallbacks o w.s.sv (stage b w.s)).2.i .numTargetShifts := by
      rw [hp0]; unfold stageParams
      simp only [ite_i, setI_i, setD_i, setP_i, reduceCtorEq, if_false, ite_self]
    rcases hs : stageShifts o b (opOf b w.s) w p0 with _ | ⟨w1, p1, al⟩
    · rw [hs] at h; exact absurd h (by simp)
    · rw [hs] at h
      dsimp only at h
      refine ⟨p0, w1, p1, ?_⟩
      rw [(stageParams_gives o b (opOf b w.s) w.s.sv (w.s.st1.i .stats_numMatvecs)
        (stageCallbacks o w.s.sv (stage b w.s)).2).2.2.2.2.2, hcbp, hpi, hcbi, hs]
      refine ⟨rfl, rfl, ?_⟩
      by_cases h2 : (stageGuess o b (opOf b w.s) w1 p1).1 ≠ 0
      · rw [if_pos h2] at h
        obtain rfl := Option.some.inj h
        exact absurd h0 h2
      · rw [if_neg h2] at h
        obtain ⟨_, _, hh2, _, _, _, _, pp2⟩ := stageGuess_ok o b (opOf b w.s) w1 p1 (not_not.1 h2)
        have hi2 : (stageGuess o b (opOf b w.s) w1 p1).2.2.i .numTargetShifts = p1.i .numTargetShifts := by
          unfold stageGuess
          dsimp only
          split_ifs <;> simp [setI_i]
        have hmon : ∀ (v : SV K) (p : EP K), (stageMonitor o b v p).i .numTargetShifts = p.i .numTargetShifts := by
          intro v p
          unfold stageMonitor
          simp only [ite_i, setI_i, setP_i, reduceCtorEq, if_false, ite_self]
        cases b with
        | false =>
          simp only [Bool.false_eq_true, if_false] at h
          rw [if_neg h2] at h
          obtain rfl := Option.some.inj h
          refine ⟨rfl, ?_, ?_, ?_⟩
          · rw [(setStage_rest _ _ _).2.1, hh2]
          · rw [stage_setStage, (stageMonitor_keeps _ _ _ _).2, pp2]
          · rw [stage_setStage, hmon, hi2]
        | true =>
          simp only [if_true] at h
          obtain ⟨k, _, _, _, _, hhk, _, _, _, _, _, _, hpk, _⟩ :=
            keepLoop_spec o ((stageGuess o true (opOf true w.s) w1 p1).2.2.i .initSize).toNat 0
              (stageGuess o true (opOf true w.s) w1 p1).2.1 (stageGuess o true (opOf true w.s) w1 p1).2.2
          have hki : ∀ f i (w : World K) (p : EP K),
              (keepLoop o f i w p).2.2.i .numTargetShifts = p.i .numTargetShifts := by
            intro f
            induction f with
            | zero => intro i w p; rfl
            | succ f ih =>
              intro i w p
              unfold keepLoop
              dsimp only
              split_ifs
              · rfl
              · rfl
              · rfl
              · rw [ih]; simp [setI_i]
          set rr := keepLoop o ((stageGuess o true (opOf true w.s) w1 p1).2.2.i .initSize).toNat 0
              (stageGuess o true (opOf true w.s) w1 p1).2.1 (stageGuess o true (opOf true w.s) w1 p1).2.2 with hr
          by_cases h3 : rr.1 ≠ 0
          · rw [if_pos h3] at h
            obtain rfl := Option.some.inj h
            exact absurd h0 h3
          · rw [if_neg h3] at h
            obtain rfl := Option.some.inj h
            refine ⟨rfl, ?_, ?_, ?_⟩
            · rw [(setStage_rest _ _ _).2.1, hhk, hh2]
            · rw [stage_setStage, (stageMonitor_keeps _ _ _ _).2, hpk, pp2]
            · rw [stage_setStage, hmon, hr, hki, hi2]

end Verif.SvdsRun
