import Verif.Model.Targets
import Verif.Spec.Targets
import Mathlib.Tactic.Linarith
import Mathlib.Tactic.NormNum

/-! # C63: each pair is searched for around its own shift

`run o l start = some s` is a run with the events `l`.  `s.log` lists the accepted pairs, in order, each with the index of the shift
of the projected problem it was taken from: the shift its values are ordered by, or that of the factorisation. -/

namespace Verif.Props
open Verif Verif.Targets

/-- The events for which the claim is proved: no reset, norms with `eps * norm < 1` and at most `N`, and while more than one shift
is left at most one pair is accepted at a time. -/
def C63_Plain (o : Opts) (N : ℝ) (s : St) : Ev → Prop
  | .turn m _ norm => o.eps * norm < 1 ∧ 0 ≤ o.eps * norm ∧ o.eps * norm ≤ N ∧ (s.c + 1 < o.shifts.length → m ≤ 1)
  | .full _ norm => o.eps * norm < 1 ∧ 0 ≤ o.eps * norm ∧ o.eps * norm ≤ N
  | .guesses => True
  | .reset => False

/-- A run of such events. -/
def C63_run (o : Opts) (N : ℝ) : List Ev → St → St → Prop
  | [], s, s' => s' = s
  | e :: l, s, s' => C63_Plain o N s e ∧ ∃ s1, step o e s = some s1 ∧ C63_run o N l s1 s'

/-- It is a run of the model. -/
theorem C63_is_run (o : Opts) (N : ℝ) : ∀ l s s', C63_run o N l s s' → run o l s = some s' := by
  intro l
  induction l with
  | nil => intro s s' h; simp only [C63_run] at h; simp [run, h]
  | cons e l ih =>
    intro s s' ⟨_, s1, h1, h2⟩
    simp [run, h1, ih s1 s' h2]

private theorem shiftOf_idx (o : Opts) (h : o.shifts ≠ []) (i : ℕ) : Spec.Targets.shiftOf o.shifts i = some (o.shift (idx o i)) := by
  have hp : 0 < o.shifts.length := List.length_pos_iff.2 h
  unfold Spec.Targets.shiftOf Opts.shift idx
  split_ifs with hi
  · rw [min_eq_right (by omega), List.getD_eq_getElem?_getD, List.getElem?_eq_getElem hi, Option.getD_some]
  · rw [min_eq_left (by omega), List.getLast?_eq_getElem?, List.getD_eq_getElem?_getD, List.getElem?_eq_getElem (by omega),
      Option.getD_some]

private theorem logged {o : Opts} {s : St} {m : ℕ} {P : ℕ → ℕ → Prop} (h : ∀ p ∈ s.log, P p.1 p.2)
    (h' : ∀ k < m, P (s.c + k) (used o s)) : ∀ p ∈ (accept o m s).log, P p.1 p.2 := by
  intro p hp
  simp only [accept, List.mem_append, List.mem_map, List.mem_range] at hp
  rcases hp with hp | ⟨k, hk, rfl⟩
  · exact h p hp
  · exact h' k hk

private theorem idx_last {o : Opts} {c k : ℕ} (h : o.shifts.length ≤ c + 1) : idx o (c + k) = idx o c := by
  unfold idx
  omega

/-- The Rayleigh-Ritz extraction, with locking: every accepted pair was taken from a projected problem ordered by the pair's own
shift.  Missing: several pairs accepted at once while more than one shift is left, a norm of `1/eps` or more, resets, and runs without
locking. -/
theorem C63_ritz_partial (o : Opts) (N : ℝ) (h0 : o.shifts ≠ []) (hl : o.locking = true) (hq : o.numQR = false) (l : List Ev)
    (s : St) (hr : C63_run o N l start s) :
    ∀ p ∈ s.log, Spec.Targets.shiftOf o.shifts p.1 = some (o.shift p.2) := by
  have key : ∀ (l : List Ev) (s s' : St), s.locked = s.c → o.shift s.ord = o.shift (idx o s.c) → o.shift s.tsi = o.shift (idx o s.c) →
      (∀ p ∈ s.log, Spec.Targets.shiftOf o.shifts p.1 = some (o.shift p.2)) → C63_run o N l s s' →
      ∀ p ∈ s'.log, Spec.Targets.shiftOf o.shifts p.1 = some (o.shift p.2) := by
    intro l
    induction l with
    | nil => intro s s' _ _ _ h4 h5; simp only [C63_run] at h5; subst h5; exact h4
    | cons e l ih =>
      intro s s' h1 h2 h3 h4 ⟨hp, s1, hs, h5⟩
      have hacc : ∀ m, (s.c + 1 < o.shifts.length → m ≤ 1) →
          ∀ p ∈ (accept o m s).log, Spec.Targets.shiftOf o.shifts p.1 = some (o.shift p.2) := by
        intro m hm
        refine logged (P := fun i j => Spec.Targets.shiftOf o.shifts i = some (o.shift j)) h4 fun k hk => ?_
        rw [shiftOf_idx o h0]
        unfold used
        rw [hq, if_neg (by decide), h2]
        by_cases hc : s.c + 1 < o.shifts.length
        · have : k = 0 := by have := hm hc; omega
          rw [this]; rfl
        · rw [idx_last (by omega)]
      have hrest : ∀ (m : ℕ) (norm : ℝ), o.eps * norm < 1 → 0 ≤ o.eps * norm →
          let u := restart o norm (accept o m s)
          u.locked = u.c ∧ o.shift u.ord = o.shift (idx o u.c) ∧ o.shift u.tsi = o.shift (idx o u.c) ∧
            u.log = (accept o m s).log := by
        intro m norm n1 n2
        simp only [restart, hl, if_true, hq, Bool.false_eq_true, if_false]
        unfold restartRR
        dsimp only
        by_cases hd : |o.shift (accept o m s).tsi - o.shift (idx o (accept o m s).c)| ≠ 0
        · rw [if_pos (by rw [if_pos hd]; exact n1)]
          exact ⟨rfl, rfl, rfl, rfl⟩
        · rw [if_neg (by rw [if_neg hd]; exact not_lt.2 n2)]
          have e : o.shift (accept o m s).tsi = o.shift (idx o (accept o m s).c) := by
            rw [ne_eq, not_not, abs_eq_zero, sub_eq_zero] at hd
            exact hd
          refine ⟨rfl, ?_, e, rfl⟩
          rw [← e]
          show o.shift s.ord = o.shift s.tsi
          rw [h2, h3]
      cases e with
      | reset => exact hp.elim
      | guesses =>
        simp only [step, Option.some.injEq] at hs
        subst hs
        exact ih (solve o s) _ h1 rfl h3 h4 h5
      | full m norm =>
        obtain ⟨n1, n2, -⟩ := hp
        simp only [step] at hs
        split_ifs at hs with hc
        obtain ⟨hc1, hc2⟩ := hc
        cases hs
        obtain ⟨a1, a2, a3, a4⟩ := hrest m norm n1 n2
        refine ih _ _ a1 a2 a3 ?_ h5
        rw [a4]
        refine hacc m fun h => ?_
        simp only [limit2, h, if_true, hl, h1] at hc2
        omega
      | turn m other norm =>
        obtain ⟨n1, n2, -, n3⟩ := hp
        simp only [step] at hs
        split_ifs at hs with hc hv
        · cases hs
          obtain ⟨a1, a2, a3, a4⟩ := hrest m norm n1 n2
          exact ih _ _ a1 a2 a3 (by rw [a4]; exact hacc m n3) h5
        · cases hs
          have hm : m = 0 := by
            by_contra hm
            apply hv
            have : (accept o m s).locked < (accept o m s).c := by
              show s.locked < s.c + m
              omega
            simp [leave, hl, hq, this]
          subst hm
          exact ih (solve o (accept o 0 s)) _ h1 rfl h3 (hacc 0 n3) h5
  exact key l start s rfl (by simp [start, idx]) (by simp [start, idx]) (by intro p hp; cases hp) hr

/-- The refined and the harmonic extraction, with locking and one of the two one-sided targets: the shift of the factorisation is the
pair's own, or so near that the refined extraction keeps the factors.  Missing: the target closest in absolute value, resets, and
runs without locking. -/
theorem C63_factors_partial (o : Opts) (N : ℝ) (h0 : o.shifts ≠ []) (hl : o.locking = true) (hq : o.numQR = true)
    (hside : o.side = true) (hN : 0 ≤ N) (l : List Ev) (s : St) (hr : C63_run o N l start s) :
    ∀ p ∈ s.log, ∃ x, Spec.Targets.shiftOf o.shifts p.1 = some x ∧ |o.shift p.2 - x| ≤ if o.harmonic then 0 else N := by
  set B : ℝ := if o.harmonic then 0 else N with hB
  have hB0 : 0 ≤ B := by rw [hB]; split_ifs <;> simp [hN]
  have key : ∀ (l : List Ev) (s s' : St), s.locked = s.c → |o.shift s.tsi - o.shift (idx o s.c)| ≤ B →
      (∀ p ∈ s.log, ∃ x, Spec.Targets.shiftOf o.shifts p.1 = some x ∧ |o.shift p.2 - x| ≤ B) → C63_run o N l s s' →
      ∀ p ∈ s'.log, ∃ x, Spec.Targets.shiftOf o.shifts p.1 = some x ∧ |o.shift p.2 - x| ≤ B := by
    intro l
    induction l with
    | nil => intro s s' _ _ h4 h5; simp only [C63_run] at h5; subst h5; exact h4
    | cons e l ih =>
      intro s s' h1 h3 h4 ⟨hp, s1, hs, h5⟩
      have hacc : ∀ m, (s.c + 1 < o.shifts.length → m ≤ 1) →
          ∀ p ∈ (accept o m s).log, ∃ x, Spec.Targets.shiftOf o.shifts p.1 = some x ∧ |o.shift p.2 - x| ≤ B := by
        intro m hm
        refine logged (P := fun i j => ∃ x, Spec.Targets.shiftOf o.shifts i = some x ∧ |o.shift j - x| ≤ B) h4 fun k hk => ?_
        rw [shiftOf_idx o h0]
        refine ⟨_, rfl, ?_⟩
        unfold used
        rw [hq, if_pos rfl]
        by_cases hc : s.c + 1 < o.shifts.length
        · have : k = 0 := by have := hm hc; omega
          rw [this]; exact h3
        · rw [idx_last (by omega)]; exact h3
      have hrest : ∀ (m : ℕ) (norm : ℝ), o.eps * norm ≤ N →
          let u := restart o norm (accept o m s)
          u.locked = u.c ∧ |o.shift u.tsi - o.shift (idx o u.c)| ≤ B ∧ u.log = (accept o m s).log := by
        intro m norm n1
        simp only [restart, hl, if_true, hq]
        cases hh : o.harmonic with
        | true =>
          rw [if_pos rfl]
          exact ⟨rfl, by simp only [restartHarmonic, idx, sub_self, abs_zero]; exact hB0, rfl⟩
        | false =>
          rw [if_neg (by decide)]
          unfold restartRefined
          dsimp only
          split_ifs with hd
          · exact ⟨rfl, by simpa using hB0, rfl⟩
          · refine ⟨rfl, ?_, rfl⟩
            rw [hB, hh, if_neg (by decide)]
            exact (not_lt.1 hd).trans n1
      cases e with
      | reset => exact hp.elim
      | guesses =>
        simp only [step, Option.some.injEq] at hs
        subst hs
        exact ih (solve o s) _ h1 h3 h4 h5
      | full m norm =>
        obtain ⟨-, -, n1⟩ := hp
        simp only [step] at hs
        split_ifs at hs with hc
        obtain ⟨hc1, hc2⟩ := hc
        cases hs
        obtain ⟨a1, a2, a3⟩ := hrest m norm n1
        refine ih _ _ a1 a2 ?_ h5
        rw [a3]
        refine hacc m fun h => ?_
        simp only [limit2, h, if_true, hl, h1] at hc2
        omega
      | turn m other norm =>
        obtain ⟨-, -, n1, -⟩ := hp
        simp only [step] at hs
        split_ifs at hs with hc hv
        · cases hs
          obtain ⟨a1, a2, a3⟩ := hrest m norm n1
          refine ih _ _ a1 a2 (a3 ▸ hacc m fun h => ?_) h5
          have := hc.2.1
          simp only [limit, h, hq, and_self, if_true] at this
          omega
        · cases hs
          have hm : m = 0 := by
            by_contra hm
            apply hv
            have : (accept o m s).locked < (accept o m s).c := by
              show s.locked < s.c + m
              omega
            simp [leave, hl, hside, this]
          subst hm
          exact ih (solve o (accept o 0 s)) _ h1 h3 (hacc 0 fun _ => Nat.zero_le _) h5
  exact key l start s rfl (by simpa [start, idx] using hB0) (by intro p hp; cases hp) hr

/-- Two pairs that pass one test are both accepted, although the second has another shift. -/
theorem C63_batch_violated : ∃ (o : Opts) (l : List Ev) (s : St), o.locking = true ∧ o.numQR = false ∧ run o l start = some s ∧
    ∃ p ∈ s.log, ∃ x, Spec.Targets.shiftOf o.shifts p.1 = some x ∧ o.shift p.2 = 0 ∧ x = 100 := by
  have h1 : step ⟨[0, 100], 2, true, false, false, false, 0⟩ (.turn 2 false 1) start = some ⟨2, 2, 1, 1, [(0, 0), (1, 0)]⟩ := by
    simp only [step, start, accept, used]
    have : leave ⟨[0, 100], 2, true, false, false, false, 0⟩ 1 ⟨2, 0, 0, 0, [(0, 0), (1, 0)]⟩ = true := by
      simp [leave]
    simp [List.range_succ, this, limit, restart, restartRR, idx, Opts.shift]
  refine ⟨⟨[0, 100], 2, true, false, false, false, 0⟩, [.turn 2 false 1], ⟨2, 2, 1, 1, [(0, 0), (1, 0)]⟩, rfl, rfl, ?_, (1, 0),
    ?_, 100, ?_, rfl, rfl⟩
  · rw [run, h1, Option.bind_some, run]
  · simp
  · simp [Spec.Targets.shiftOf]

/-- Refined extraction, target closest in absolute value: after a pair converges the next one is accepted from the factorisation for
the shift of the first, as the loop is left only when the shifts differ by more than the norm of the matrix. -/
theorem C63_refined_violated : ∃ (o : Opts) (l : List Ev) (s : St), o.locking = true ∧ o.numQR = true ∧ run o l start = some s ∧
    ∃ p ∈ s.log, ∃ x, Spec.Targets.shiftOf o.shifts p.1 = some x ∧ o.shift p.2 = 0 ∧ x = 10 := by
  have h1 : step ⟨[0, 10], 3, true, false, true, false, 0⟩ (.turn 1 false 100) start = some ⟨1, 0, 1, 0, [(0, 0)]⟩ := by
    simp only [step, start, limit, accept, used]
    rw [if_pos (by norm_num)]
    have : leave ⟨[0, 10], 3, true, false, true, false, 0⟩ 100 ⟨1, 0, 0, 0, [(0, 0)]⟩ = false := by
      simp only [leave, Opts.shift, idx]
      norm_num
    simp [this, solve, idx]
  have h2 : step ⟨[0, 10], 3, true, false, true, false, 0⟩ (.turn 1 false 100) ⟨1, 0, 1, 0, [(0, 0)]⟩ =
      some ⟨2, 0, 1, 0, [(0, 0), (1, 0)]⟩ := by
    simp only [step, limit, accept, used]
    rw [if_pos (by norm_num)]
    have : leave ⟨[0, 10], 3, true, false, true, false, 0⟩ 100 ⟨2, 0, 1, 0, [(0, 0), (1, 0)]⟩ = false := by
      simp only [leave, Opts.shift, idx]
      norm_num
    simp [this, solve, idx]
  refine ⟨⟨[0, 10], 3, true, false, true, false, 0⟩, [.turn 1 false 100, .turn 1 false 100], ⟨2, 0, 1, 0, [(0, 0), (1, 0)]⟩, rfl, rfl,
    ?_, (1, 0), ?_, 10, ?_, rfl, rfl⟩
  · rw [run, h1, Option.bind_some, run, h2, Option.bind_some, run]
  · simp
  · simp [Spec.Targets.shiftOf]

/-- With a norm of `1/eps` or more a restart leaves the Ritz pairs in the order of the old shift, and the next pair is accepted from
them: here the norm is `2^60` and the unit of rounding `2^-53`. -/
theorem C63_norm_violated : ∃ (o : Opts) (l : List Ev) (s : St), o.locking = true ∧ o.numQR = false ∧ o.eps = 1 / 2 ^ 53 ∧
    run o l start = some s ∧ (∀ e ∈ l, e = .turn 1 false (2 ^ 60)) ∧
    ∃ p ∈ s.log, ∃ x, Spec.Targets.shiftOf o.shifts p.1 = some x ∧ o.shift p.2 = 0 ∧ x = 2 ^ 59 := by
  have h1 : step ⟨[0, 2 ^ 59], 3, true, false, false, false, 1 / 2 ^ 53⟩ (.turn 1 false (2 ^ 60)) start =
      some ⟨1, 1, 0, 0, [(0, 0)]⟩ := by
    simp only [step, start, accept, used]
    simp [leave, limit, restart, restartRR, idx, Opts.shift]
    norm_num
  have h2 : step ⟨[0, 2 ^ 59], 3, true, false, false, false, 1 / 2 ^ 53⟩ (.turn 1 false (2 ^ 60)) ⟨1, 1, 0, 0, [(0, 0)]⟩ =
      some ⟨2, 2, 0, 0, [(0, 0), (1, 0)]⟩ := by
    simp only [step, accept, used]
    simp [leave, limit, restart, restartRR, idx, Opts.shift]
    norm_num
  refine ⟨⟨[0, 2 ^ 59], 3, true, false, false, false, 1 / 2 ^ 53⟩, [.turn 1 false (2 ^ 60), .turn 1 false (2 ^ 60)],
    ⟨2, 2, 0, 0, [(0, 0), (1, 0)]⟩, rfl, rfl, rfl, ?_, by simp, (1, 0), ?_, 2 ^ 59, ?_, rfl, rfl⟩
  · rw [run, h1, Option.bind_some, run, h2, Option.bind_some, run]
  · simp
  · simp [Spec.Targets.shiftOf]

/-- After a reset the factorisation is for the first shift, whatever pairs are locked, and the next pair is accepted from it. -/
theorem C63_reset_violated : ∃ (o : Opts) (s : St), o.locking = true ∧ o.numQR = true ∧ o.side = true ∧
    run o [.turn 1 false 1, .reset, .turn 1 false 1] start = some s ∧
    ∃ p ∈ s.log, ∃ x, Spec.Targets.shiftOf o.shifts p.1 = some x ∧ o.shift p.2 = 0 ∧ x = 10 := by
  have h1 : step ⟨[0, 10], 3, true, true, true, false, 0⟩ (.turn 1 false 1) start = some ⟨1, 1, 0, 1, [(0, 0)]⟩ := by
    simp only [step, start, accept, used]
    have : leave ⟨[0, 10], 3, true, true, true, false, 0⟩ 1 ⟨1, 0, 0, 0, [(0, 0)]⟩ = true := by
      simp [leave]
    simp [this, limit, restart, restartRefined, idx, Opts.shift]
  have h2 : step ⟨[0, 10], 3, true, true, true, false, 0⟩ .reset ⟨1, 1, 0, 1, [(0, 0)]⟩ = some ⟨1, 1, 1, 0, [(0, 0)]⟩ := by
    simp [step, solve, idx]
  have h3 : step ⟨[0, 10], 3, true, true, true, false, 0⟩ (.turn 1 false 1) ⟨1, 1, 1, 0, [(0, 0)]⟩ =
      some ⟨2, 2, 1, 1, [(0, 0), (1, 0)]⟩ := by
    simp only [step, accept, used]
    have : leave ⟨[0, 10], 3, true, true, true, false, 0⟩ 1 ⟨2, 1, 1, 0, [(0, 0), (1, 0)]⟩ = true := by
      simp [leave]
    simp [this, limit, restart, restartRefined, idx, Opts.shift]
  refine ⟨⟨[0, 10], 3, true, true, true, false, 0⟩, ⟨2, 2, 1, 1, [(0, 0), (1, 0)]⟩, rfl, rfl, rfl, ?_, (1, 0), ?_, 10, ?_, rfl, rfl⟩
  · rw [run, h1, Option.bind_some, run, h2, Option.bind_some, run, h3, Option.bind_some, run]
  · simp
  · simp [Spec.Targets.shiftOf]

/-! ### The hypotheses are met -/

/-- Two shifts and three pairs, found one after the other. -/
example : ∃ s, C63_run ⟨[0, 10], 3, true, false, false, false, 0⟩ 0 [.turn 1 false 1, .turn 0 false 1, .turn 2 false 1] start s ∧
    s.log = [(0, 0), (1, 1), (2, 1)] := by
  have h1 : step ⟨[0, 10], 3, true, false, false, false, 0⟩ (.turn 1 false 1) start = some ⟨1, 1, 1, 1, [(0, 0)]⟩ := by
    simp only [step, start, accept, used]
    have : leave ⟨[0, 10], 3, true, false, false, false, 0⟩ 1 ⟨1, 0, 0, 0, [(0, 0)]⟩ = true := by
      simp [leave]
    simp [this, limit, restart, restartRR, idx, Opts.shift]
  have h2 : step ⟨[0, 10], 3, true, false, false, false, 0⟩ (.turn 0 false 1) ⟨1, 1, 1, 1, [(0, 0)]⟩ =
      some ⟨1, 1, 1, 1, [(0, 0)]⟩ := by
    simp only [step, limit, accept, used]
    rw [if_pos (by norm_num)]
    have : leave ⟨[0, 10], 3, true, false, false, false, 0⟩ 1 ⟨1, 1, 1, 1, [(0, 0)]⟩ = false := by
      simp [leave]
    simp [this, solve, idx]
  have h3 : step ⟨[0, 10], 3, true, false, false, false, 0⟩ (.turn 2 false 1) ⟨1, 1, 1, 1, [(0, 0)]⟩ =
      some ⟨3, 3, 1, 1, [(0, 0), (1, 1), (2, 1)]⟩ := by
    simp only [step, limit, accept, used]
    rw [if_pos (by norm_num)]
    have : leave ⟨[0, 10], 3, true, false, false, false, 0⟩ 1 ⟨3, 1, 1, 1, [(0, 0), (1, 1), (2, 1)]⟩ = true := by
      simp [leave]
    simp [List.range_succ, this, limit, restart, restartRR, idx, Opts.shift]
  exact ⟨_, ⟨by simp [C63_Plain], _, h1, ⟨by simp [C63_Plain], _, h2, ⟨by simp [C63_Plain], _, h3, rfl⟩⟩⟩, rfl⟩

end Verif.Props
