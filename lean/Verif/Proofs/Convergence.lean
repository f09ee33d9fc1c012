import Verif.Spec.Convergence
import Mathlib.Algebra.Order.Field.Basic
import Mathlib.Data.List.Range
import Mathlib.Tactic.Linarith
import Mathlib.Tactic.SplitIfs

set_option linter.unusedSectionVars false
set_option linter.unusedSimpArgs false

namespace Verif.Conv
open Verif Verif.Spec

variable {K : Type} [Field K] [LinearOrder K] [IsStrictOrderedRing K]

/-- The seven ways a turn of the loop ends. -/
inductive Case where
  | wrong | attained | accepted | skip | project | keep | no
  deriving DecidableEq

def caseOf (p : P K) (att : K) (numLocked : ℕ) (givenR : Bool) (pract : Int) (hasReset : Bool)
    (v r : K) (old : Flag) (ans : Bool) : Case :=
  if wrongSide p v r then .wrong
  else if r ≤ p.maxConvTol then .attained
  else if ans then .accepted
  else if r ≤ p.estimateResidualError ∧ hasReset then .skip
  else if p.locking ∧ numLocked > 0 ∧ 0 ≤ pract then
    if givenR ∧ r < att then .project
    else if old ≠ .practically_converged then .no
    else .keep
  else .no

def flagOf (old : Flag) : Case → Flag
  | .wrong => .unconverged
  | .attained => .converged
  | .accepted => .converged
  | .skip => .skip_until_restart
  | .project => old
  | .keep => old
  | .no => .unconverged

def Case.asked : Case → Bool
  | .wrong => false
  | .attained => false
  | _ => true

theorem list_set_self {α : Type} (l : List α) (i : ℕ) (a : α) (h : l[i]? = some a) : l.set i a = l := by
  apply List.ext_getElem?
  intro j
  by_cases hj : i = j
  · subst hj
    obtain ⟨hi, -⟩ := List.getElem?_eq_some_iff.mp h
    rw [List.getElem?_set_self hi, h]
  · rw [List.getElem?_set_ne hj]

theorem turn_spec {W : Type} (test : Test K W) (p : P K) (att : K) (numLocked : ℕ) (givenR : Bool)
    (pract : Int) (left i : ℕ) (v r : K) (old : Flag) (s s' : LS K W) (hold : s.flags[i]? = some old)
    (h : turn test p att numLocked givenR pract left i v r old s = .ok s') :
    ∃ ans, ∀ c, c = caseOf p att numLocked givenR pract s.reset.isSome v r old ans →
      s'.flags = s.flags.set i (flagOf old c)
      ∧ s'.calls = s.calls ++ (if c.asked then [⟨i, v, r, ans⟩] else [])
      ∧ s'.toProject = s.toProject ++ (if c = .project then [i - left] else [])
      ∧ s'.reset = (if c = .skip then some true else s.reset) := by
  unfold turn at h
  by_cases h1 : wrongSide p v r = true
  · rw [if_pos h1] at h
    refine ⟨false, fun c hc => ?_⟩
    have : c = .wrong := by rw [hc]; unfold caseOf; rw [if_pos h1]
    subst this
    cases h
    simp [flagOf, Case.asked]
  rw [if_neg h1] at h
  by_cases h2 : r ≤ p.maxConvTol
  · rw [if_pos h2] at h
    refine ⟨false, fun c hc => ?_⟩
    have : c = .attained := by rw [hc]; unfold caseOf; rw [if_neg h1, if_pos h2]
    subst this
    cases h
    simp [flagOf, Case.asked]
  rw [if_neg h2] at h
  rcases ht : test s.w v r with ⟨w', _ | ans⟩
  · rw [ht] at h; cases h
  rw [ht] at h
  refine ⟨ans, fun c hc => ?_⟩
  unfold caseOf at hc
  rw [if_neg h1, if_neg h2] at hc
  simp only at h
  by_cases h3 : ans = true
  · rw [if_pos h3] at h hc
    subst hc
    cases h
    simp [flagOf, Case.asked]
  rw [if_neg h3] at h hc
  by_cases h4 : r ≤ p.estimateResidualError ∧ s.reset.isSome = true
  · rw [if_pos h4] at h hc
    subst hc
    cases h
    simp [flagOf, Case.asked]
  rw [if_neg h4] at h hc
  by_cases h5 : p.locking = true ∧ numLocked > 0 ∧ 0 ≤ pract
  · rw [if_pos h5] at h hc
    by_cases h6 : givenR = true ∧ r < att
    · rw [if_pos h6] at h hc
      subst hc
      cases h
      simp [flagOf, Case.asked, list_set_self _ _ _ hold]
    rw [if_neg h6] at h hc
    by_cases h7 : old ≠ .practically_converged
    · rw [if_pos h7] at h hc
      subst hc
      cases h
      simp [flagOf, Case.asked]
    · rw [if_neg h7] at h hc
      subst hc
      cases h
      simp [flagOf, Case.asked, list_set_self _ _ _ hold]
  · rw [if_neg h5] at h hc
    subst hc
    cases h
    simp [flagOf, Case.asked]

/-- Case of index `j` in a run over the arrays `vals`, `norms`, `flags`. -/
def caseAt (p : P K) (att : K) (numLocked : ℕ) (givenR : Bool) (pract : Int) (hasReset : Bool)
    (left : ℕ) (vals norms : List K) (flags : List Flag) (ans : ℕ → Bool) (j : ℕ) : Case :=
  caseOf p att numLocked givenR pract hasReset (vals.getD j 0) (norms.getD (j - left) 0)
    (flags.getD j .unconverged) (ans j)

theorem caseAt_congr (p : P K) (att : K) (numLocked : ℕ) (givenR : Bool) (pract : Int)
    (hasReset : Bool) (left : ℕ) (vals norms : List K) (flags : List Flag) (a b : ℕ → Bool) (j : ℕ)
    (h : a j = b j) : caseAt p att numLocked givenR pract hasReset left vals norms flags a j
      = caseAt p att numLocked givenR pract hasReset left vals norms flags b j := by
  unfold caseAt; rw [h]

open Classical in
theorem loop_spec {W : Type} (test : Test K W) (p : P K) (att : K) (numLocked : ℕ) (givenR : Bool)
    (pract : Int) (left : ℕ) (vals norms : List K) (flags0 : List Flag) (hasReset : Bool) :
    ∀ (n i : ℕ) (s s' : LS K W), (∀ j, i ≤ j → s.flags[j]? = flags0[j]?) → s.reset.isSome = hasReset →
      loop test p att numLocked givenR pract left vals norms n i s = .ok s' →
      ∃ ans : ℕ → Bool, ∀ C, C = caseAt p att numLocked givenR pract hasReset left vals norms flags0 ans →
        (∀ j, i ≤ j → j < i + n → j < vals.length ∧ j - left < norms.length ∧ j < flags0.length)
        ∧ (∀ j, s'.flags[j]? = if i ≤ j ∧ j < i + n then some (flagOf (flags0.getD j .unconverged) (C j))
            else s.flags[j]?)
        ∧ s'.flags.length = s.flags.length
        ∧ s'.calls = s.calls ++ (List.range' i n).filterMap (fun j => if (C j).asked
            then some ⟨j, vals.getD j 0, norms.getD (j - left) 0, ans j⟩ else none)
        ∧ s'.toProject = s.toProject ++ ((List.range' i n).filter (fun j => C j = .project)).map (· - left)
        ∧ s'.reset = (if ∃ j, i ≤ j ∧ j < i + n ∧ C j = .skip then some true else s.reset) := by
  intro n
  induction n with
  | zero =>
    intro i s s' _ _ h
    simp only [loop, Outcome.ok.injEq] at h
    subst h
    refine ⟨fun _ => false, fun C _ => ⟨?_, ?_, rfl, ?_, ?_, ?_⟩⟩
    · intro j h1 h2; omega
    · intro j
      rw [if_neg (by omega)]
    · simp
    · simp
    · rw [if_neg]
      rintro ⟨j, h1, h2, -⟩
      omega
  | succ n ih =>
    intro i s s' hf hr h
    unfold loop at h
    rcases hv : vals[i]? with _ | v
    · simp [hv] at h
    rcases hn : norms[i - left]? with _ | r
    · simp [hv, hn] at h
    rcases hfl : s.flags[i]? with _ | old
    · simp [hv, hn, hfl] at h
    simp only [hv, hn, hfl] at h
    rcases ht : turn test p att numLocked givenR pract left i v r old s with s1 | c | _
    rotate_left
    · rw [ht] at h; cases h
    · rw [ht] at h; cases h
    rw [ht, Outcome.bind_ok] at h
    obtain ⟨a, ha⟩ := turn_spec test p att numLocked givenR pract left i v r old s s1 hfl ht
    obtain ⟨t1, t2, t3, t4⟩ := ha _ rfl
    have hf1 : ∀ j, i + 1 ≤ j → s1.flags[j]? = flags0[j]? := by
      intro j hj
      rw [t1, List.getElem?_set_ne (by omega)]
      exact hf j (by omega)
    have hr1 : s1.reset.isSome = hasReset := by
      rw [t4]
      by_cases hc : caseOf p att numLocked givenR pract s.reset.isSome v r old a = .skip
      · rw [if_pos hc]
        unfold caseOf at hc
        split_ifs at hc with h1 h2 h3 h4
        rw [← hr, h4.2]; rfl
      · rw [if_neg hc, hr]
    obtain ⟨ans, hans⟩ := ih (i + 1) s1 s' hf1 hr1 h
    refine ⟨fun j => if j = i then a else ans j, fun C hC => ?_⟩
    obtain ⟨u0, u1, u2, u3, u4, u5⟩ := hans _ rfl
    have hCj : ∀ j, i + 1 ≤ j → caseAt p att numLocked givenR pract hasReset left vals norms flags0 ans j
        = C j := by
      intro j hj
      rw [hC]
      apply caseAt_congr
      rw [if_neg (by omega)]
    have e1 : vals.getD i 0 = v := by rw [List.getD_eq_getElem?_getD, hv]; rfl
    have e2 : norms.getD (i - left) 0 = r := by rw [List.getD_eq_getElem?_getD, hn]; rfl
    have hfl0 : flags0[i]? = some old := by rw [← hf i le_rfl]; exact hfl
    have e3 : flags0.getD i .unconverged = old := by
      rw [List.getD_eq_getElem?_getD, hfl0]; rfl
    have hCi : C i = caseOf p att numLocked givenR pract s.reset.isSome v r old a := by
      rw [hC]; unfold caseAt
      rw [e1, e2, e3, hr]; simp
    rw [← hCi] at t1 t2 t3 t4
    obtain ⟨lv, -⟩ := List.getElem?_eq_some_iff.mp hv
    obtain ⟨ln, -⟩ := List.getElem?_eq_some_iff.mp hn
    obtain ⟨lf, -⟩ := List.getElem?_eq_some_iff.mp hfl0
    obtain ⟨lf', -⟩ := List.getElem?_eq_some_iff.mp hfl
    refine ⟨?_, ?_, ?_, ?_, ?_, ?_⟩
    · intro j h1 h2
      rcases Nat.eq_or_lt_of_le h1 with rfl | h3
      · exact ⟨lv, ln, lf⟩
      · exact u0 j h3 (by omega)
    · intro j
      rw [u1 j]
      by_cases h1 : i + 1 ≤ j ∧ j < i + 1 + n
      · rw [if_pos h1, if_pos (by omega), hCj j h1.1]
      · rw [if_neg h1]
        by_cases h2 : j = i
        · subst h2
          rw [if_pos (by omega), t1, List.getElem?_set_self lf', e3]
        · rw [if_neg (by omega), t1, List.getElem?_set_ne (by omega)]
    · rw [u2, t1, List.length_set]
    · rw [u3, t2, List.range'_succ, List.filterMap_cons, List.append_assoc]
      congr 1
      have hrest : (List.range' (i + 1) n).filterMap (fun j =>
            if (caseAt p att numLocked givenR pract hasReset left vals norms flags0 ans j).asked = true
            then some (⟨j, vals.getD j 0, norms.getD (j - left) 0, ans j⟩ : Call K) else none)
          = (List.range' (i + 1) n).filterMap (fun j => if (C j).asked = true
            then some ⟨j, vals.getD j 0, norms.getD (j - left) 0, if j = i then a else ans j⟩ else none) := by
        apply List.filterMap_congr
        intro j hj
        have hj1 : i + 1 ≤ j := by
          rw [List.mem_range'_1] at hj; exact hj.1
        rw [hCj j hj1, if_neg (show ¬ j = i by omega)]
      rw [hrest]
      by_cases hA : (C i).asked = true
      · simp only [hA, if_true]
        rw [e1, e2]; rfl
      · simp only [hA]; rfl
    · rw [u4, t3, List.range'_succ, List.filter_cons, List.append_assoc]
      congr 1
      have hrest : (List.range' (i + 1) n).filter (fun j =>
            decide (caseAt p att numLocked givenR pract hasReset left vals norms flags0 ans j = .project))
          = (List.range' (i + 1) n).filter (fun j => decide (C j = .project)) := by
        apply List.filter_congr
        intro j hj
        have hj1 : i + 1 ≤ j := by
          rw [List.mem_range'_1] at hj; exact hj.1
        rw [hCj j hj1]
      rw [hrest]
      by_cases hA : C i = .project
      · simp [hA]
      · simp [hA]
    · rw [u5, t4]
      by_cases hA : C i = .skip
      · rw [if_pos hA, if_pos (⟨i, le_rfl, by omega, hA⟩ : ∃ j, i ≤ j ∧ j < i + (n + 1) ∧ C j = .skip)]
        split_ifs <;> rfl
      · rw [if_neg hA]
        have : (∃ j, i + 1 ≤ j ∧ j < i + 1 + n ∧
            caseAt p att numLocked givenR pract hasReset left vals norms flags0 ans j = .skip)
            ↔ ∃ j, i ≤ j ∧ j < i + (n + 1) ∧ C j = .skip := by
          constructor
          · rintro ⟨j, h1, h2, h3⟩
            exact ⟨j, by omega, by omega, by rw [← hCj j h1]; exact h3⟩
          · rintro ⟨j, h1, h2, h3⟩
            have hne : j ≠ i := fun e => hA (e ▸ h3)
            exact ⟨j, by omega, by omega, by rw [hCj j (by omega)]; exact h3⟩
        by_cases hx : ∃ j, i ≤ j ∧ j < i + (n + 1) ∧ C j = .skip
        · rw [if_pos (this.mpr hx), if_pos hx]
        · rw [if_neg (fun h => hx (this.mp h)), if_neg hx]

theorem practLoop_spec (left : ℕ) (tol : K) (pn : ℕ → K) :
    ∀ (iev : List ℕ) (flags : List Flag) (b : List K), iev.Nodup →
      (∀ k ∈ iev, left + k < flags.length ∧ k < b.length) →
      (∀ j, (practLoop left tol iev (iev.map pn) flags b).1[j]? =
          if left ≤ j ∧ j - left ∈ iev then
            some (if pn (j - left) ≤ tol then .practically_converged else .unconverged)
          else flags[j]?)
      ∧ (∀ k, (practLoop left tol iev (iev.map pn) flags b).2[k]? = if k ∈ iev then some (pn k) else b[k]?) := by
  intro iev
  induction iev with
  | nil => intro flags b _ _; constructor <;> intro j <;> simp [practLoop]
  | cons k iev ih =>
    intro flags b hn hb
    rw [List.nodup_cons] at hn
    obtain ⟨hk1, hk2⟩ := hb k (by simp)
    have := ih (flags.set (left + k) (if pn k ≤ tol then .practically_converged else .unconverged))
      (b.set k (pn k)) hn.2 (by
        intro k' hk'
        rw [List.length_set, List.length_set]
        exact hb k' (by simp [hk']))
    obtain ⟨h1, h2⟩ := this
    simp only [List.map_cons, practLoop]
    constructor
    · intro j
      rw [h1 j]
      by_cases hj : left ≤ j ∧ j - left ∈ iev
      · rw [if_pos hj, if_pos (show left ≤ j ∧ j - left ∈ k :: iev from ⟨hj.1, by simp [hj.2]⟩)]
      · rw [if_neg hj]
        by_cases he : j = left + k
        · subst he
          rw [if_pos (show left ≤ left + k ∧ left + k - left ∈ k :: iev from ⟨by omega, by simp⟩),
            List.getElem?_set_self hk1]
          simp
        · rw [List.getElem?_set_ne (by omega), if_neg]
          rintro ⟨h3, h4⟩
          rw [List.mem_cons] at h4
          rcases h4 with h4 | h4
          · omega
          · exact hj ⟨h3, h4⟩
    · intro j
      rw [h2 j]
      by_cases hj : j ∈ iev
      · rw [if_pos hj, if_pos (by simp [hj])]
      · rw [if_neg hj]
        by_cases he : j = k
        · subst he
          rw [if_pos (by simp), List.getElem?_set_self hk2]
        · rw [List.getElem?_set_ne (by omega), if_neg (by simp [he, hj])]

/-- The interval test of the code is the exclusion of the whole interval. -/
theorem wrongSide_iff (p : P K) (v r : K) (hr : 0 ≤ r) :
    wrongSide p v r = true ↔ Excluded p.target (activeShift p.shifts p.initSize) v r := by
  have hs : (if p.shifts.length > 0 then p.shifts.getD (min p.initSize (p.shifts.length - 1)) 0 else 0)
      = activeShift p.shifts p.initSize := by
    unfold activeShift
    rcases p.shifts with _ | ⟨s, ss⟩
    · rfl
    · simp
  unfold wrongSide Excluded
  simp only [hs, Bool.or_eq_true, Bool.and_eq_true, decide_eq_true_eq]
  generalize activeShift p.shifts p.initSize = s
  have e1 : v - r > s ↔ ∀ x, |x - v| ≤ r → s < x := by
    constructor
    · intro h x hx
      have := (abs_le.mp hx).1
      linarith
    · intro h
      have := h (v - r) (by rw [abs_le]; constructor <;> linarith)
      exact this
  have e2 : v + r < s ↔ ∀ x, |x - v| ≤ r → x < s := by
    constructor
    · intro h x hx
      have := (abs_le.mp hx).2
      linarith
    · intro h
      exact h (v + r) (by rw [abs_le]; constructor <;> linarith)
  rw [e1, e2]

end Verif.Conv
