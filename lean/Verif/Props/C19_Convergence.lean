import Verif.Proofs.Convergence
import Mathlib.Algebra.Field.Rat
import Mathlib.Algebra.Order.Ring.Rat
import Mathlib.Data.List.Nodup
import Mathlib.Tactic.NormNum

/-!
# C19: convergence decisions are sound
-/

set_option linter.unusedSectionVars false
set_option linter.unusedSimpArgs false

namespace Verif.Props
open Verif Verif.Conv Verif.Spec

variable {K : Type} [Field K] [LinearOrder K] [IsStrictOrderedRing K]

theorem ite_cases {c a b : Prop} {_ : Decidable c} (h : if c then a else b) : (c ∧ a) ∨ (¬ c ∧ b) := by
  by_cases hc : c
  · rw [if_pos hc] at h; exact Or.inl ⟨hc, h⟩
  · rw [if_neg hc] at h; exact Or.inr ⟨hc, h⟩

open Classical in
/-- Everything known about a run that succeeded, by case of each index. -/
theorem C19_by_case {W : Type} (test : Test K W) (rt : ℕ → K) (epsMatrix : K)
    (proj : List ℕ → Option (List K)) (pn : ℕ → K) (p : P K) (numLocked : ℕ) (givenR : Bool) (pract : Int)
    (left right : ℕ) (flags : List Flag) (norms vals : List K) (reset : Option Bool) (w : W)
    (res : Res K W) (hproj : ∀ l q, proj l = some q → q = l.map pn) (tol att : K)
    (htol : tol = max (epsMatrix * problemNorm true p) p.maxConvTol)
    (hatt : att = if p.locking then rt (p.numOrthoConst + numLocked) * tol else 0)
    (h : checkConvergence test rt epsMatrix proj p numLocked givenR pract left right flags norms vals
      reset w = .ok res) :
    ∃ ans : ℕ → Bool, ∀ C, C = caseAt p att numLocked givenR pract reset.isSome left vals norms flags ans →
      (∀ j, left ≤ j → j < right → j < vals.length ∧ j - left < norms.length ∧ j < flags.length)
      ∧ (∀ j, res.flags[j]? = if left ≤ j ∧ j < right then
            some (if C j = .project then
                (if pn (j - left) ≤ tol then .practically_converged else .unconverged)
              else flagOf (flags.getD j .unconverged) (C j))
          else flags[j]?)
      ∧ (∀ k, res.norms[k]? = if k < right - left ∧ C (left + k) = .project then some (pn k)
          else norms[k]?)
      ∧ res.calls = (List.range' left (right - left)).filterMap (fun j => if (C j).asked
            then some ⟨j, vals.getD j 0, norms.getD (j - left) 0, ans j⟩ else none)
      ∧ (if ∃ j, left ≤ j ∧ j < right ∧ C j = .skip then res.reset = some true
          else res.reset = reset) := by
  unfold checkConvergence at h
  simp only [← htol, ← hatt] at h
  rcases hl : loop test p att numLocked givenR pract left vals norms (right - left) left
      ⟨flags, reset, [], w, []⟩ with s | c | _
  rotate_left
  · rw [hl] at h; cases h
  · rw [hl] at h; cases h
  rw [hl, Outcome.bind_ok] at h
  obtain ⟨ans, hans⟩ := loop_spec test p att numLocked givenR pract left vals norms flags reset.isSome
    (right - left) left ⟨flags, reset, [], w, []⟩ s (fun _ _ => rfl) rfl hl
  refine ⟨ans, fun C hC => ?_⟩
  obtain ⟨a0, a1, a2, a3, a4, a5⟩ := hans C hC
  simp only [List.nil_append] at a3 a4
  have hmem : ∀ k, k ∈ s.toProject ↔ k < right - left ∧ C (left + k) = .project := by
    intro k
    rw [a4]
    simp only [List.mem_map, List.mem_filter, List.mem_range'_1, decide_eq_true_eq]
    constructor
    · rintro ⟨j, ⟨⟨h1, h2⟩, h3⟩, rfl⟩
      refine ⟨by omega, ?_⟩
      rw [show left + (j - left) = j by omega]; exact h3
    · rintro ⟨h1, h2⟩
      exact ⟨left + k, ⟨⟨by omega, by omega⟩, h2⟩, by omega⟩
  have hnd : s.toProject.Nodup := by
    rw [a4]
    apply List.Nodup.map_on
    · intro x hx y hy hxy
      simp only [List.mem_filter, List.mem_range'_1] at hx hy
      omega
    · exact List.Nodup.filter _ List.nodup_range'
  have hreset : (if ∃ j, left ≤ j ∧ j < right ∧ C j = .skip then s.reset = some true
          else s.reset = reset) := by
    by_cases hx : ∃ j, left ≤ j ∧ j < right ∧ C j = .skip
    · rw [if_pos hx]
      obtain ⟨j, h1, h2, h3⟩ := hx
      rw [a5, if_pos ⟨j, h1, by omega, h3⟩]
    · rw [if_neg hx, a5, if_neg]
      rintro ⟨j, h1, h2, h3⟩
      exact hx ⟨j, h1, by omega, h3⟩
  have hflag : ∀ j, C j ≠ .project ∨ ¬ (left ≤ j ∧ j < right) →
      s.flags[j]? = if left ≤ j ∧ j < right then
            some (if C j = .project then
                (if pn (j - left) ≤ tol then .practically_converged else .unconverged)
              else flagOf (flags.getD j .unconverged) (C j))
          else flags[j]? := by
    intro j hj
    rw [a1 j]
    by_cases h1 : left ≤ j ∧ j < right
    · rw [if_pos h1, if_pos ⟨h1.1, by omega⟩]
      rcases hj with hj | hj
      · rw [if_neg hj]
      · exact absurd h1 hj
    · rw [if_neg h1, if_neg (by omega)]
  by_cases he : s.toProject = []
  · rw [if_pos he] at h
    cases h
    have hno : ∀ j, left ≤ j ∧ j < right → C j ≠ .project := by
      intro j hj hp
      have := (hmem (j - left)).mpr ⟨by omega, by rw [show left + (j - left) = j by omega]; exact hp⟩
      rw [he] at this; simp at this
    refine ⟨fun j h1 h2 => a0 j h1 (by omega), ?_, ?_, a3, hreset⟩
    · intro j
      apply hflag
      by_cases h1 : left ≤ j ∧ j < right
      · exact Or.inl (hno j h1)
      · exact Or.inr h1
    · intro k
      rw [if_neg]
      rintro ⟨h1, h2⟩
      exact hno (left + k) (by omega) h2
  · rw [if_neg he] at h
    rcases hp : proj s.toProject with _ | q
    · rw [hp] at h; cases h
    rw [hp] at h
    simp only [Outcome.ok.injEq] at h
    rw [hproj _ _ hp] at h
    obtain ⟨b1, b2⟩ := practLoop_spec left tol pn s.toProject s.flags norms hnd (by
      intro k hk
      obtain ⟨h1, h2⟩ := (hmem k).mp hk
      obtain ⟨-, h3, h4⟩ := a0 (left + k) (by omega) (by omega)
      rw [a2]
      exact ⟨h4, by rw [show left + k - left = k by omega] at h3; exact h3⟩)
    subst h
    refine ⟨fun j h1 h2 => a0 j h1 (by omega), ?_, ?_, a3, hreset⟩
    · intro j
      rw [b1 j]
      by_cases h1 : left ≤ j ∧ j - left ∈ s.toProject
      · rw [if_pos h1]
        obtain ⟨h2, h3⟩ := (hmem _).mp h1.2
        rw [show left + (j - left) = j by omega] at h3
        rw [if_pos (show left ≤ j ∧ j < right by omega), if_pos h3]
      · rw [if_neg h1]
        apply hflag
        by_cases h2 : left ≤ j ∧ j < right
        · left
          intro h3
          exact h1 ⟨h2.1, (hmem _).mpr ⟨by omega, by rw [show left + (j - left) = j by omega]; exact h3⟩⟩
        · exact Or.inr h2
    · intro k
      rw [b2 k]
      by_cases h1 : k ∈ s.toProject
      · rw [if_pos h1, if_pos ((hmem k).mp h1)]
      · rw [if_neg h1, if_neg (fun h => h1 ((hmem k).mpr h))]

theorem calls_mem {C : ℕ → Case} {ans : ℕ → Bool} {left n : ℕ} {vals norms : List K} (c : Call K) :
    c ∈ (List.range' left n).filterMap (fun j => if (C j).asked
            then some (⟨j, vals.getD j 0, norms.getD (j - left) 0, ans j⟩ : Call K) else none) ↔
      left ≤ c.idx ∧ c.idx < left + n ∧ (C c.idx).asked = true ∧ c.val = vals.getD c.idx 0
        ∧ c.norm = norms.getD (c.idx - left) 0 ∧ c.ans = ans c.idx := by
  rw [List.mem_filterMap]
  constructor
  · rintro ⟨j, h1, h2⟩
    rw [List.mem_range'_1] at h1
    by_cases hA : (C j).asked = true
    · rw [if_pos hA] at h2
      cases h2
      exact ⟨h1.1, h1.2, hA, rfl, rfl, rfl⟩
    · rw [if_neg hA] at h2; cases h2
  · rintro ⟨h1, h2, h3, h4, h5, h6⟩
    refine ⟨c.idx, List.mem_range'_1.mpr ⟨h1, h2⟩, ?_⟩
    rw [if_pos h3, ← h4, ← h5, ← h6]

theorem caseOf_converged (p : P K) (att : K) (numLocked : ℕ) (givenR : Bool) (pract : Int)
    (hasReset : Bool) (v r : K) (old : Flag) (ans : Bool) (hr : 0 ≤ r) :
    let c := caseOf p att numLocked givenR pract hasReset v r old ans
    let ex := Excluded p.target (activeShift p.shifts p.initSize) v r
    (c = .wrong ↔ ex) ∧ (c = .attained ↔ ¬ ex ∧ r ≤ p.maxConvTol)
    ∧ (c.asked = true ↔ ¬ ex ∧ p.maxConvTol < r)
    ∧ (c = .accepted ↔ c.asked = true ∧ ans = true)
    ∧ (c = .skip ↔ c.asked = true ∧ ans = false ∧ r ≤ p.estimateResidualError ∧ hasReset = true)
    ∧ (c = .project ↔ c.asked = true ∧ ans = false ∧ ¬ (r ≤ p.estimateResidualError ∧ hasReset = true)
        ∧ p.locking = true ∧ 0 < numLocked ∧ 0 ≤ pract ∧ givenR = true ∧ r < att)
    ∧ (c = .keep ↔ c.asked = true ∧ ans = false ∧ ¬ (r ≤ p.estimateResidualError ∧ hasReset = true)
        ∧ p.locking = true ∧ 0 < numLocked ∧ 0 ≤ pract ∧ ¬ (givenR = true ∧ r < att)
        ∧ old = .practically_converged) := by
  intro c ex
  have hw := wrongSide_iff p v r hr
  have hc : c = caseOf p att numLocked givenR pract hasReset v r old ans := rfl
  clear_value c
  unfold caseOf at hc
  by_cases h1 : wrongSide p v r = true
  · rw [if_pos h1] at hc
    have : ex := hw.mp h1
    subst hc
    simp [Case.asked, this]
  rw [if_neg h1] at hc
  have hex : ¬ ex := fun h => h1 (hw.mpr h)
  by_cases h2 : r ≤ p.maxConvTol
  · rw [if_pos h2] at hc
    subst hc
    simp [Case.asked, hex, h2]
  rw [if_neg h2] at hc
  have h2' : p.maxConvTol < r := not_le.mp h2
  by_cases h3 : ans = true
  · rw [if_pos h3] at hc
    subst hc
    simp [Case.asked, hex, h2, h2', h3]
  rw [if_neg h3] at hc
  rw [Bool.not_eq_true] at h3
  by_cases h4 : r ≤ p.estimateResidualError ∧ hasReset = true
  · rw [if_pos h4] at hc
    subst hc
    simp [Case.asked, hex, h2, h2', h3, h4.1, h4.2]
  rw [if_neg h4] at hc
  have h4' : ¬ (r ≤ p.estimateResidualError ∧ hasReset = true) := h4
  by_cases h5 : p.locking = true ∧ numLocked > 0 ∧ 0 ≤ pract
  · rw [if_pos h5] at hc
    obtain ⟨h5a, h5b, h5c⟩ := h5
    have h5b' : numLocked ≠ 0 := by omega
    by_cases h6 : givenR = true ∧ r < att
    · rw [if_pos h6] at hc
      subst hc
      refine ⟨by simp [hex], by simp [h2], by simp [Case.asked, hex, h2'], by simp [h3], ?_, ?_, ?_⟩
      · simp only [reduceCtorEq, false_iff]; exact fun h => h4' h.2.2
      · simp only [true_iff]
        exact ⟨rfl, h3, h4', h5a, h5b, h5c, h6⟩
      · simp only [reduceCtorEq, false_iff]
        exact fun h => h.2.2.2.2.2.2.1 h6
    · rw [if_neg h6] at hc
      by_cases h7 : old ≠ .practically_converged
      · rw [if_pos h7] at hc
        subst hc
        refine ⟨by simp [hex], by simp [h2], by simp [Case.asked, hex, h2'], by simp [h3], ?_, ?_, ?_⟩
        · simp only [reduceCtorEq, false_iff]; exact fun h => h4' h.2.2
        · simp only [reduceCtorEq, false_iff]
          exact fun h => h6 h.2.2.2.2.2.2
        · simp only [reduceCtorEq, false_iff]
          exact fun h => h7 h.2.2.2.2.2.2.2
      · rw [if_neg h7] at hc
        rw [not_not] at h7
        subst hc
        refine ⟨by simp [hex], by simp [h2], by simp [Case.asked, hex, h2'], by simp [h3], ?_, ?_, ?_⟩
        · simp only [reduceCtorEq, false_iff]; exact fun h => h4' h.2.2
        · simp only [reduceCtorEq, false_iff]
          exact fun h => h6 h.2.2.2.2.2.2
        · simp only [true_iff]
          exact ⟨rfl, h3, h4', h5a, h5b, h5c, h6, h7⟩
  · rw [if_neg h5] at hc
    subst hc
    refine ⟨by simp [hex], by simp [h2], by simp [Case.asked, hex, h2'], by simp [h3], ?_, ?_, ?_⟩
    · simp only [reduceCtorEq, false_iff]; exact fun h => h4' h.2.2
    · simp only [reduceCtorEq, false_iff]
      exact fun h => h5 ⟨h.2.2.2.1, h.2.2.2.2.1, h.2.2.2.2.2.1⟩
    · simp only [reduceCtorEq, false_iff]
      exact fun h => h5 ⟨h.2.2.2.1, h.2.2.2.2.1, h.2.2.2.2.2.1⟩

/-- C19.  When the routine deciding convergence succeeds, then for every tested pair, with value `v`,
residual norm `r` and previous flag `old`:
* it is flagged converged exactly when its interval is not excluded by the target and either its norm is
  not above the accuracy already attained or the user's test was asked about this very pair and accepted;
* it is flagged practically converged exactly when it is not excluded, its norm is above the attained
  accuracy, the user's test refused it, locking is on and some pair is locked, and either its residual,
  given and small, becomes not larger than the tolerance once the locked directions are removed, or it
  was so flagged before;
* it is left for after the restart exactly when it was refused and its norm is below the error in the
  residual, and then the restart is requested.
`pn` gives the norms of the residuals after removal of the locked directions. -/
theorem C19_decisions {W : Type} (test : Test K W) (rt : ℕ → K) (epsMatrix : K)
    (proj : List ℕ → Option (List K)) (pn : ℕ → K) (p : P K) (numLocked : ℕ) (givenR : Bool) (pract : Int)
    (left right : ℕ) (flags : List Flag) (norms vals : List K) (reset : Option Bool) (w : W)
    (res : Res K W) (hproj : ∀ l q, proj l = some q → q = l.map pn)
    (h : checkConvergence test rt epsMatrix proj p numLocked givenR pract left right flags norms vals
      reset w = .ok res)
    (i : ℕ) (hl : left ≤ i) (hr : i < right) (v r : K) (old : Flag) (hv : vals[i]? = some v)
    (hn : norms[i - left]? = some r) (hf : flags[i]? = some old) (hpos : 0 ≤ r)
    (tol : K) (htol : tol = max (epsMatrix * problemNorm true p) p.maxConvTol)
    (ex : Prop) (hex : ex = Excluded p.target (activeShift p.shifts p.initSize) v r) :
    (res.flags[i]? = some .converged ↔ ¬ ex ∧ (r ≤ p.maxConvTol ∨ Asked res.calls i v r true))
    ∧ (res.flags[i]? = some .skip_until_restart ↔ ¬ ex ∧ Asked res.calls i v r false
        ∧ r ≤ p.estimateResidualError ∧ reset.isSome = true)
    ∧ (res.flags[i]? = some .practically_converged ↔ ¬ ex ∧ p.maxConvTol < r ∧ Asked res.calls i v r false
        ∧ ¬ (r ≤ p.estimateResidualError ∧ reset.isSome = true)
        ∧ p.locking = true ∧ 0 < numLocked ∧ 0 ≤ pract
        ∧ if givenR = true ∧ r < rt (p.numOrthoConst + numLocked) * tol then pn (i - left) ≤ tol
          else old = .practically_converged)
    ∧ (res.norms[i - left]? = some r ∨ (res.norms[i - left]? = some (pn (i - left))
        ∧ (res.flags[i]? = some .practically_converged ∨ res.flags[i]? = some .unconverged)))
    ∧ (res.flags[i]? = some .skip_until_restart → res.reset = some true)
    ∧ ((∃ b, Asked res.calls i v r b) ↔ ¬ ex ∧ p.maxConvTol < r) := by
  obtain ⟨ans, hans⟩ := C19_by_case test rt epsMatrix proj pn p numLocked givenR pract left right flags
    norms vals reset w res hproj tol _ htol rfl h
  obtain ⟨-, b1, b2, b3, b4⟩ := hans _ rfl
  set att := if p.locking then rt (p.numOrthoConst + numLocked) * tol else 0 with hatt
  set C := caseAt p att numLocked givenR pract reset.isSome left vals norms flags ans with hC
  have e1 : vals.getD i 0 = v := by rw [List.getD_eq_getElem?_getD, hv]; rfl
  have e2 : norms.getD (i - left) 0 = r := by rw [List.getD_eq_getElem?_getD, hn]; rfl
  have e3 : flags.getD i .unconverged = old := by rw [List.getD_eq_getElem?_getD, hf]; rfl
  have hCi : C i = caseOf p att numLocked givenR pract reset.isSome v r old (ans i) := by
    rw [hC]; unfold caseAt; rw [e1, e2, e3]
  have hcase := caseOf_converged p att numLocked givenR pract reset.isSome v r old (ans i) hpos
  simp only [← hCi, ← hex] at hcase
  obtain ⟨c1, c2, c3, c4, c5, c6, c7⟩ := hcase
  have hfl : res.flags[i]? = some (if C i = .project then
                (if pn (i - left) ≤ tol then .practically_converged else .unconverged)
              else flagOf old (C i)) := by
    rw [b1 i, if_pos ⟨hl, hr⟩, e3]
  have hnorm : res.norms[i - left]? = if C i = .project then some (pn (i - left)) else some r := by
    rw [b2 (i - left), hn, show left + (i - left) = i by omega]
    by_cases hp : C i = .project
    · rw [if_pos hp, if_pos ⟨by omega, hp⟩]
    · rw [if_neg hp, if_neg (fun h => hp h.2)]
  have hasked : ∀ b, Asked res.calls i v r b ↔ (C i).asked = true ∧ ans i = b := by
    intro b
    unfold Asked
    constructor
    · rintro ⟨c, hc, d1, d2, d3, d4⟩
      rw [b3, calls_mem] at hc
      rw [d1] at hc
      exact ⟨hc.2.2.1, by rw [← hc.2.2.2.2.2, d4]⟩
    · rintro ⟨d1, d2⟩
      refine ⟨⟨i, v, r, b⟩, ?_, rfl, rfl, rfl, rfl⟩
      rw [b3, calls_mem]
      exact ⟨hl, by simp only; omega, d1, e1.symm, e2.symm, d2.symm⟩
  have hkeep_old : C i = .keep → old = .practically_converged := fun h => (c7.mp h).2.2.2.2.2.2.2
  refine ⟨?_, ?_, ?_, ?_, ?_, ?_⟩
  · rw [hasked, hfl]
    rcases hci : C i <;> rw [hci] at c1 c2 c3 c4 c5 c6 c7 hkeep_old <;>
      simp only [reduceCtorEq, if_false, if_true, flagOf, Option.some.injEq, Case.asked, true_iff,
        false_iff, iff_true, iff_false, true_and, false_and, and_true, and_false, not_true_eq_false,
        not_false_eq_true, Bool.false_eq_true, true_implies, or_false] at *
    · exact fun h => h.1 c1
    · exact c2
    · exact ⟨c3.1, Or.inr c4⟩
    · rintro ⟨-, h | h⟩
      · exact absurd h (not_le.mpr c3.2)
      · rw [c5.1] at h; cases h
    · constructor
      · intro h; split_ifs at h
      · rintro ⟨-, h | h⟩
        · exact absurd h (not_le.mpr c3.2)
        · rw [c6.1] at h; cases h
    · rw [hkeep_old]
      simp only [reduceCtorEq, false_iff]
      rintro ⟨-, h | h⟩
      · exact absurd h (not_le.mpr c3.2)
      · rw [c7.1] at h; cases h
    · rintro ⟨-, h | h⟩
      · exact absurd h (not_le.mpr c3.2)
      · exact c4 h
  · rw [hasked, hfl]
    rcases hci : C i <;> rw [hci] at c1 c2 c3 c4 c5 c6 c7 hkeep_old <;>
      simp only [reduceCtorEq, if_false, if_true, flagOf, Option.some.injEq, Case.asked, true_iff,
        false_iff, iff_true, iff_false, true_and, false_and, and_true, and_false, not_true_eq_false,
        not_false_eq_true, Bool.false_eq_true, true_implies, or_false] at *
    · exact fun h => c5 ⟨h.2.1, h.2.2⟩
    · exact ⟨c3.1, c5⟩
    · constructor
      · intro h; split_ifs at h
      · exact fun h => absurd ⟨h.2.1, h.2.2⟩ c5
    · rw [hkeep_old]
      simp only [reduceCtorEq, false_iff]
      exact fun h => c5 ⟨h.2.1, h.2.2⟩
    · exact fun h => c5 ⟨h.2.1, h.2.2⟩
  · rw [hasked, hfl]
    have hlk : p.locking = true → att = rt (p.numOrthoConst + numLocked) * tol := by
      intro h; rw [hatt, if_pos h]
    rcases hci : C i <;> rw [hci] at c1 c2 c3 c4 c5 c6 c7 hkeep_old <;>
      simp only [reduceCtorEq, if_false, if_true, flagOf, Option.some.injEq, Case.asked, true_iff,
        false_iff, iff_true, iff_false, true_and, false_and, and_true, and_false, not_true_eq_false,
        not_false_eq_true, Bool.false_eq_true, true_implies, or_false] at *
    · rintro ⟨-, -, h, -⟩
      rw [c4] at h; cases h
    · rintro ⟨-, -, -, h, -⟩
      exact h c5.2
    · have h1 := c6.2.2.1
      have hg : givenR = true ∧ r < rt (p.numOrthoConst + numLocked) * tol := by
        rw [← hlk h1]; exact c6.2.2.2.2.2
      rw [if_pos hg]
      constructor
      · intro h
        refine ⟨c3.1, c3.2, c6.1, c6.2.1, h1, c6.2.2.2.1, c6.2.2.2.2.1, ?_⟩
        by_contra hq
        rw [if_neg hq] at h; cases h
      · intro h
        rw [if_pos h.2.2.2.2.2.2.2]
    · have h1 := c7.2.2.1
      have hg : ¬ (givenR = true ∧ r < rt (p.numOrthoConst + numLocked) * tol) := by
        rw [← hlk h1]; exact c7.2.2.2.2.2.1
      rw [if_neg hg]
      simp only [hkeep_old, true_iff, and_true]
      exact ⟨c3.1, c3.2, c7.1, c7.2.1, h1, c7.2.2.2.1, c7.2.2.2.2.1⟩
    · rintro ⟨-, -, h1, h2, h3, h4, h5, h6⟩
      by_cases hg : givenR = true ∧ r < rt (p.numOrthoConst + numLocked) * tol
      · apply c6
        exact ⟨h1, h2, h3, h4, h5, hg.1, by rw [hlk h3]; exact hg.2⟩
      · rw [if_neg hg] at h6
        apply c7
        refine ⟨h1, h2, h3, h4, h5, ?_, h6⟩
        rw [hlk h3]; exact hg
  · rw [hnorm, hfl]
    by_cases hp : C i = .project
    · rw [if_pos hp, if_pos hp]
      right
      refine ⟨rfl, ?_⟩
      by_cases hq : pn (i - left) ≤ tol
      · rw [if_pos hq]; exact Or.inl rfl
      · rw [if_neg hq]; exact Or.inr rfl
    · rw [if_neg hp]; exact Or.inl rfl
  · intro hs
    rw [hfl] at hs
    have : C i = .skip := by
      rcases hci : C i <;> rw [hci] at hs <;> simp [flagOf] at hs
      · split_ifs at hs
      · rw [hkeep_old hci] at hs; cases hs
    rw [if_pos ⟨i, hl, hr, this⟩] at b4
    exact b4
  · rw [← c3]
    constructor
    · rintro ⟨b, hb⟩
      exact ((hasked b).mp hb).1
    · intro hb
      exact ⟨ans i, (hasked _).mpr ⟨hb, rfl⟩⟩

/-- C19.  What is not tested is not changed, every call of the user's test is about a tested pair, with
its own value and norm, no pair is asked about twice, and the restart is requested only for a pair put
aside. -/
theorem C19_frame {W : Type} (test : Test K W) (rt : ℕ → K) (epsMatrix : K)
    (proj : List ℕ → Option (List K)) (pn : ℕ → K) (p : P K) (numLocked : ℕ) (givenR : Bool) (pract : Int)
    (left right : ℕ) (flags : List Flag) (norms vals : List K) (reset : Option Bool) (w : W)
    (res : Res K W) (hproj : ∀ l q, proj l = some q → q = l.map pn)
    (h : checkConvergence test rt epsMatrix proj p numLocked givenR pract left right flags norms vals
      reset w = .ok res) :
    (∀ j, ¬ (left ≤ j ∧ j < right) → res.flags[j]? = flags[j]?)
    ∧ (∀ k, right - left ≤ k → res.norms[k]? = norms[k]?)
    ∧ (∀ c ∈ res.calls, left ≤ c.idx ∧ c.idx < right ∧ vals[c.idx]? = some c.val
        ∧ norms[c.idx - left]? = some c.norm)
    ∧ (res.calls.map (·.idx)).Nodup
    ∧ (res.reset = reset ∨ (res.reset = some true
        ∧ ∃ j, left ≤ j ∧ j < right ∧ res.flags[j]? = some .skip_until_restart)) := by
  obtain ⟨ans, hans⟩ := C19_by_case test rt epsMatrix proj pn p numLocked givenR pract left right flags
    norms vals reset w res hproj _ _ rfl rfl h
  obtain ⟨b0, b1, b2, b3, b4⟩ := hans _ rfl
  refine ⟨?_, ?_, ?_, ?_, ?_⟩
  · intro j hj
    rw [b1 j, if_neg hj]
  · intro k hk
    rw [b2 k, if_neg (by omega)]
  · intro c hc
    rw [b3, calls_mem] at hc
    obtain ⟨d1, d2, -, d3, d4, -⟩ := hc
    have d2' : c.idx < right := by omega
    obtain ⟨f1, f2, -⟩ := b0 c.idx d1 d2'
    refine ⟨d1, d2', ?_, ?_⟩
    · rw [d3, List.getD_eq_getElem?_getD, List.getElem?_eq_getElem f1]; rfl
    · rw [d4, List.getD_eq_getElem?_getD, List.getElem?_eq_getElem f2]; rfl
  · rw [b3]
    have : ∀ (C : ℕ → Case) (n i : ℕ), (((List.range' i n).filterMap (fun j => if (C j).asked
            then some (⟨j, vals.getD j 0, norms.getD (j - left) 0, ans j⟩ : Call K) else none)).map
          (·.idx)) = (List.range' i n).filter (fun j => (C j).asked) := by
      intro C n
      induction n with
      | zero => intro i; rfl
      | succ n ih =>
        intro i
        rw [List.range'_succ, List.filterMap_cons, List.filter_cons]
        by_cases hA : (C i).asked = true
        · simp only [hA, if_true, List.map_cons, ih]
        · simp only [hA, if_false, ih, Bool.false_eq_true]
    rw [this]
    exact List.Nodup.filter _ List.nodup_range'
  · rcases ite_cases b4 with ⟨hx, b4⟩ | ⟨hx, b4⟩
    · right
      obtain ⟨j, h1, h2, h3⟩ := hx
      refine ⟨b4, j, h1, h2, ?_⟩
      rw [b1 j, if_pos ⟨h1, h2⟩, h3]
      rfl
    · exact Or.inl b4

/-- C19.  If the arrays are long enough the routine reads nothing out of range, and it fails only because
the user's test or the projection failed. -/
theorem C19_safe {W : Type} (test : Test K W) (rt : ℕ → K) (epsMatrix : K)
    (proj : List ℕ → Option (List K)) (p : P K) (numLocked : ℕ) (givenR : Bool) (pract : Int)
    (left right : ℕ) (flags : List Flag) (norms vals : List K) (reset : Option Bool) (w : W)
    (h1 : right ≤ flags.length) (h2 : right - left ≤ norms.length) (h3 : right ≤ vals.length) :
    (∃ res, checkConvergence test rt epsMatrix proj p numLocked givenR pract left right flags norms vals
      reset w = .ok res) ∨
    (checkConvergence test rt epsMatrix proj p numLocked givenR pract left right flags norms vals
      reset w = .err PRIMME_UNEXPECTED_FAILURE
      ∧ ((∃ w' v r, (test w' v r).2 = none) ∨ ∃ l, proj l = none)) := by
  have hturn : ∀ att i v r old (s : LS K W),
      (∃ s', turn test p att numLocked givenR pract left i v r old s = .ok s'
        ∧ s'.flags.length = s.flags.length) ∨
      (turn test p att numLocked givenR pract left i v r old s = .err PRIMME_UNEXPECTED_FAILURE
        ∧ ∃ w' v r, (test w' v r).2 = none) := by
    intro att i v r old s
    unfold turn
    by_cases a1 : wrongSide p v r = true
    · rw [if_pos a1]; exact Or.inl ⟨_, rfl, by simp⟩
    rw [if_neg a1]
    by_cases a2 : r ≤ p.maxConvTol
    · rw [if_pos a2]; exact Or.inl ⟨_, rfl, by simp⟩
    rw [if_neg a2]
    rcases ht : test s.w v r with ⟨w', _ | ans⟩
    · exact Or.inr ⟨rfl, s.w, v, r, by rw [ht]⟩
    · left
      simp only
      split_ifs <;> exact ⟨_, rfl, by simp⟩
  have hloop : ∀ att n i (s : LS K W), i + n ≤ vals.length → left ≤ i → i + n - left ≤ norms.length →
      i + n ≤ s.flags.length →
      (∃ s', loop test p att numLocked givenR pract left vals norms n i s = .ok s') ∨
      (loop test p att numLocked givenR pract left vals norms n i s = .err PRIMME_UNEXPECTED_FAILURE
        ∧ ∃ w' v r, (test w' v r).2 = none) := by
    intro att n
    induction n with
    | zero => intro i s _ _ _ _; exact Or.inl ⟨s, rfl⟩
    | succ n ih =>
      intro i s g1 g2 g3 g4
      unfold loop
      rw [List.getElem?_eq_getElem (show i < vals.length by omega),
        List.getElem?_eq_getElem (show i - left < norms.length by omega),
        List.getElem?_eq_getElem (show i < s.flags.length by omega)]
      simp only
      rcases hturn att i vals[i] norms[i - left] s.flags[i] s with ⟨s1, e1, e2⟩ | ⟨e1, e2⟩
      · rw [e1, Outcome.bind_ok]
        exact ih (i + 1) s1 (by omega) (by omega) (by omega) (by omega)
      · rw [e1, Outcome.bind_err]
        exact Or.inr ⟨rfl, e2⟩
  unfold checkConvergence
  simp only
  by_cases hlr : left ≤ right
  · rcases hloop _ (right - left) left ⟨flags, reset, [], w, []⟩ (by omega) le_rfl (by omega)
      (by simp only; omega) with ⟨s1, e1⟩ | ⟨e1, e2⟩
    · rw [e1, Outcome.bind_ok]
      by_cases he : s1.toProject = []
      · rw [if_pos he]; exact Or.inl ⟨_, rfl⟩
      · rw [if_neg he]
        rcases hp : proj s1.toProject with _ | q
        · exact Or.inr ⟨rfl, Or.inr ⟨_, hp⟩⟩
        · exact Or.inl ⟨_, rfl⟩
    · rw [e1, Outcome.bind_err]
      exact Or.inr ⟨rfl, Or.inl e2⟩
  · rw [show right - left = 0 by omega]
    exact Or.inl ⟨_, rfl⟩

/-- C19.  The default test accepts a pair only if its residual norm is below the tolerance of the manual:
`eps` times the norm of the problem (never less than twice the machine precision, once with a mass
matrix).  The norm is the user's when the user gave it and otherwise an estimate. -/
theorem C19_default_test (u : K) (p : P K) (r : K) (h : convTestFunAbsolute u p r = true) :
    (p.hasB = false → 0 < p.aNorm → r < max p.eps (2 * u) * p.aNorm)
    ∧ (p.hasB = true → 0 < p.aNorm → 0 < p.invBNorm → r < max p.eps u * (p.aNorm * p.invBNorm))
    ∧ (p.hasB = false → p.aNorm ≤ 0 → r < max p.eps (2 * u) * p.estimateLargestSVal)
    ∧ (p.hasB = true → (p.aNorm ≤ 0 ∨ p.invBNorm ≤ 0) → r < max p.eps u * p.estimateLargestSVal) := by
  unfold convTestFunAbsolute problemNorm at h
  rw [mul_comm u 2] at h
  refine ⟨?_, ?_, ?_, ?_⟩
  · intro h1 h2
    simpa [h1, h2] using h
  · intro h1 h2 h3
    simpa [h1, h2, h3] using h
  · intro h1 h2
    simpa [h1, not_lt.mpr h2] using h
  · intro h1 h2
    have : ¬ (0 < p.aNorm ∧ 0 < p.invBNorm) := by
      rintro ⟨h3, h4⟩
      rcases h2 with h2 | h2
      · exact absurd h3 (not_lt.mpr h2)
      · exact absurd h4 (not_lt.mpr h2)
    simp only [h1, not_true_eq_false, if_false, Bool.false_eq_true, not_false_eq_true, if_true, gt_iff_lt,
      this, decide_eq_true_eq] at h
    exact h

/-! A run over three pairs with locking: the first is below the attained accuracy, the second is accepted
by the user's test, the third is refused but its residual is small once the locked directions are
removed. -/

def C19_p : P ℚ := ⟨.smallest, [], 0, true, 0, false, 1, 1, 1/100, 1/1000, 0, 2⟩

/-- Accepts norms below 1/100. -/
def C19_test : Test ℚ ℕ := fun w _ r => (w + 1, some (decide (r < 1/100)))

def C19_run : Outcome (Res ℚ ℕ) :=
  checkConvergence C19_test (fun k => k) (1/1000) (fun l => some (l.map fun k => if k = 2 then 1/5000 else 1))
    C19_p 10 true 0 1 5 [.converged, .unconverged, .unconverged, .unconverged, .converged]
    [1/2000, 1/500, 1/90, 1/2] [0, 1, 2, 3, 4] (some false) 0

/-- What the run leaves: flags, norms, number of calls and pairs asked about. -/
def C19_seen : Outcome (Res ℚ ℕ) → Option (List Conv.Flag × List ℚ × ℕ × List ℕ)
  | .ok r => some (r.flags, r.norms, r.w, r.calls.map (·.idx))
  | _ => none

example : C19_seen C19_run = some ([.converged, .converged, .converged, .practically_converged,
    .unconverged], [1/2000, 1/500, 1/5000, 1/2], 3, [2, 3, 4]) := by decide +kernel

/-- A pair is excluded although the user's test would accept it: value 2 with norm 1/2000 when values
not above 1 are wanted. -/
example : Excluded Target.closest_leq (1 : ℚ) 2 (1/2000) := by
  left
  refine ⟨rfl, fun x hx => ?_⟩
  have := (abs_le.mp hx).1
  linarith

end Verif.Props
