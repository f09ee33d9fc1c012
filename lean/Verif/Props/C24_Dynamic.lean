import Verif.Model.Dynamic
import Mathlib.Algebra.Field.Rat
import Mathlib.Algebra.Order.Field.Rat
import Mathlib.Algebra.Order.Ring.Rat
import Mathlib.Tactic.SplitIfs
import Mathlib.Tactic.Linarith
import Mathlib.Tactic.NormNum

/-!
# C24: the dynamic method

The user sees three members: `dynamicMethodSwitch` (`dyn`), `correctionParams.maxInnerIterations` (`maxInner`) and
`correctionParams.projectors.RightX` (`rightX`).  The methods in turn are GD+k (no inner iterations: `maxInner = 0`) and JDQMR (inner
iterations until the tolerance: `maxInner = -1`).  All statements hold for every history of events, every value the clock returns and any
arithmetic, with NaN and infinity.
-/

set_option linter.unusedSectionVars false
set_option linter.unusedSimpArgs false
set_option linter.unusedVariables false

namespace Verif.Props
open Verif Verif.Dynamic

variable {K : Type} [Field K] [LinearOrder K] [IsStrictOrderedRing K]

/-- What the documentation calls the two methods. -/
inductive C24_Method where
  | gdk
  | jdqmr

/-- The inner iterations each of them uses. -/
def C24_inner : C24_Method → Int
  | .gdk => 0
  | .jdqmr => -1

/-- The method that a value of `dynamicMethodSwitch` stands for during a run (main_iter.c:1900-1930, 2013-2048). -/
def C24_method : Int → Option C24_Method
  | 1 => some .gdk
  | 2 => some .jdqmr
  | 3 => some .gdk
  | 4 => some .jdqmr
  | -1 => some .gdk
  | _ => none

/-- Whether the problem is one of few pairs, or of a basis that will fill the whole space. -/
def C24_Few (p : Par K) : Prop := p.numEvals < 5 ∨ p.n ≤ p.maxBasisSize + if p.locking then p.numEvals else 0

/-- The moves that a single event may make. -/
def C24_Move (a b : Int) : Prop :=
  a = b ∨ (a = 1 ∧ b = 2) ∨ (a = 2 ∧ b = 1) ∨ (a = 3 ∧ b = 4) ∨ (a = 4 ∧ b = 3) ∨ (a = 2 ∧ b = -1)

/-- The members that no event changes. -/
def C24_Same (p q : Par K) : Prop :=
  q.numEvals = p.numEvals ∧ q.maxBasisSize = p.maxBasisSize ∧ q.locking = p.locking ∧ q.n = p.n ∧ q.numProcs = p.numProcs

theorem C24_jdqmr_cases (o : Arith K) (sum : ℕ → Dbl K → Dbl K) (p : Par K) (m : Model K) (h : p.dyn = 2 ∨ p.dyn = 4) :
    C24_Same p (switchFromJDQMR o sum p m).1 ∧ C24_Move p.dyn (switchFromJDQMR o sum p m).1.dyn ∧
    (((switchFromJDQMR o sum p m).1.dyn = p.dyn ∧ (switchFromJDQMR o sum p m).1.maxInner = p.maxInner ∧
        (switchFromJDQMR o sum p m).1.rightX = p.rightX) ∨
      (((switchFromJDQMR o sum p m).1.dyn = p.dyn - 1 ∨ (p.dyn = 2 ∧ (switchFromJDQMR o sum p m).1.dyn = -1)) ∧
        (switchFromJDQMR o sum p m).1.maxInner = 0 ∧ (switchFromJDQMR o sum p m).1.rightX = 1)) := by
  unfold switchFromJDQMR C24_Same C24_Move
  rcases h with h | h
  · simp only [h, if_true, true_and]
    split_ifs <;> simp [h]
  · simp only [h, show ((4 : Int) = 2) = False by simp, if_false, false_and]
    split_ifs <;> simp [h]

theorem C24_gdpk_cases (o : Arith K) (sum : ℕ → Dbl K → Dbl K) (p : Par K) (m : Model K) (h : p.dyn = 1 ∨ p.dyn = 3) :
    C24_Same p (switchFromGDpk o sum p m).1 ∧ C24_Move p.dyn (switchFromGDpk o sum p m).1.dyn ∧
    (((switchFromGDpk o sum p m).1.dyn = p.dyn ∧ (switchFromGDpk o sum p m).1.maxInner = p.maxInner ∧
        (switchFromGDpk o sum p m).1.rightX = p.rightX) ∨
      ((switchFromGDpk o sum p m).1.dyn = p.dyn + 1 ∧ (switchFromGDpk o sum p m).1.maxInner = -1 ∧
        (switchFromGDpk o sum p m).1.rightX = 0 ∧ p.numRestarts ≠ 0 ∧ saturates p = false)) := by
  unfold switchFromGDpk C24_Same C24_Move
  rcases h with h | h
  all_goals
    simp only [h]
    split_ifs with h1 h2 h3
    all_goals simp_all

/-- What one event does, in the words of the interface. -/
theorem C24_event (o : Arith K) (s : Par K × Model K) (e : Event K) :
    C24_Same s.1 (step o s e).1 ∧ C24_Move s.1.dyn (step o s e).1.dyn ∧
    (((step o s e).1.dyn = s.1.dyn ∧ (step o s e).1.maxInner = s.1.maxInner ∧ (step o s e).1.rightX = s.1.rightX) ∨
      ((s.1.dyn = 2 ∨ s.1.dyn = 4) ∧ ((step o s e).1.dyn = s.1.dyn - 1 ∨ (s.1.dyn = 2 ∧ (step o s e).1.dyn = -1)) ∧
        (step o s e).1.maxInner = 0 ∧ (step o s e).1.rightX = 1) ∨
      ((s.1.dyn = 1 ∨ s.1.dyn = 3) ∧ (step o s e).1.dyn = s.1.dyn + 1 ∧ (step o s e).1.maxInner = -1 ∧
        (step o s e).1.rightX = 0 ∧ (step o s e).1.numRestarts ≠ 0 ∧ saturates s.1 = false)) := by
  have hself : ∀ p : Par K, C24_Same p p := fun p => ⟨rfl, rfl, rfl, rfl, rfl⟩
  have hgd : ∀ (e : Seen K) (m : Model K), s.1.dyn = 1 ∨ s.1.dyn = 3 →
      (switchFromGDpk o e.sum (s.1.see e) m).1.numRestarts = e.numRestarts := by
    intro e m h
    unfold switchFromGDpk
    dsimp only
    split
    · rfl
    split
    · rfl
    split <;> rfl
  cases e with
  | corrected dt => exact ⟨hself _, Or.inl rfl, Or.inl ⟨rfl, rfl, rfl⟩⟩
  | restarted e =>
    unfold step
    dsimp only
    split_ifs with h1
    · have h1' : s.1.dyn = 1 := h1
      obtain ⟨a, b, c⟩ := C24_gdpk_cases o e.sum (s.1.see e)
        (updateStatistics o (s.1.see e) e.now 0 true e.numConverged e.resid { s.2 with MV := e.mv }).2 (Or.inl h1)
      refine ⟨a, b, ?_⟩
      rcases c with c | ⟨c1, c2, c3, c4, c5⟩
      · exact Or.inl c
      · exact Or.inr (Or.inr ⟨Or.inl h1', c1, c2, c3, by rw [hgd _ _ (Or.inl h1')]; exact c4, c5⟩)
    · exact ⟨hself _, Or.inl rfl, Or.inl ⟨rfl, rfl, rfl⟩⟩
  | chosen recent e =>
    unfold step
    dsimp only
    generalize (if s.2.resid_0.eq (.num (-1)) then { s.2 with resid_0 := e.resid } else s.2) = m
    generalize updateStatistics o (s.1.see e) e.now recent false e.numConverged e.resid { m with MV := e.mv } = u
    split_ifs with h0 h1 h2 h3 h4
    · have h3' : s.1.dyn = 3 := h3
      obtain ⟨a, b, c⟩ := C24_gdpk_cases o e.sum (s.1.see e) u.2 (Or.inr h3)
      refine ⟨a, b, ?_⟩
      rcases c with c | ⟨c1, c2, c3, c4, c5⟩
      · exact Or.inl c
      · exact Or.inr (Or.inr ⟨Or.inr h3', c1, c2, c3, by rw [hgd _ _ (Or.inr h3')]; exact c4, c5⟩)
    · have h4' : s.1.dyn = 2 ∨ s.1.dyn = 4 := h4
      obtain ⟨a, b, c⟩ := C24_jdqmr_cases o e.sum (s.1.see e) u.2 h4
      refine ⟨a, b, ?_⟩
      rcases c with c | ⟨c1, c2, c3⟩
      · exact Or.inl c
      · exact Or.inr (Or.inl ⟨h4', c1, c2, c3⟩)
    all_goals exact ⟨hself _, Or.inl rfl, Or.inl ⟨rfl, rfl, rfl⟩⟩

/-- An invariant of the events holds of every history. -/
theorem C24_induct (o : Arith K) (P : Par K × Model K → Prop) (s : Par K × Model K) (h0 : P s)
    (hs : ∀ s e, P s → P (step o s e)) (h : List (Event K)) : P (run o s h) := by
  unfold run
  induction h generalizing s with
  | nil => exact h0
  | cons e h ih => exact ih _ (hs _ _ h0)

/-- In every history of a call with the dynamic method, `dynamicMethodSwitch` names the method that `maxInnerIterations` selects, and a call
for few pairs stays with the values 1, 2 and -1, a call for many pairs with 3 and 4. -/
theorem C24_modes (o : Arith K) (p : Par K) (now mv : Dbl K) (hd : 0 < p.dyn) (h : List (Event K)) :
    (∃ m, C24_method (run o (start p now mv) h).1.dyn = some m ∧ (run o (start p now mv) h).1.maxInner = C24_inner m) ∧
    (C24_Few p → (run o (start p now mv) h).1.dyn = 1 ∨ (run o (start p now mv) h).1.dyn = 2 ∨ (run o (start p now mv) h).1.dyn = -1) ∧
    (¬ C24_Few p → (run o (start p now mv) h).1.dyn = 3 ∨ (run o (start p now mv) h).1.dyn = 4) := by
  have key := C24_induct o (fun s =>
      (C24_Few p ∧ ((s.1.dyn = 1 ∧ s.1.maxInner = 0) ∨ (s.1.dyn = 2 ∧ s.1.maxInner = -1) ∨ (s.1.dyn = -1 ∧ s.1.maxInner = 0))) ∨
      (¬ C24_Few p ∧ ((s.1.dyn = 3 ∧ s.1.maxInner = 0) ∨ (s.1.dyn = 4 ∧ s.1.maxInner = -1)))) (start p now mv) ?_ ?_ h
  · rcases key with ⟨f, k | k | k⟩ | ⟨f, k | k⟩
    · exact ⟨⟨.gdk, by rw [k.1]; rfl, k.2⟩, fun _ => Or.inl k.1, fun c => absurd f c⟩
    · exact ⟨⟨.jdqmr, by rw [k.1]; rfl, k.2⟩, fun _ => Or.inr (Or.inl k.1), fun c => absurd f c⟩
    · exact ⟨⟨.gdk, by rw [k.1]; rfl, k.2⟩, fun _ => Or.inr (Or.inr k.1), fun c => absurd f c⟩
    · exact ⟨⟨.gdk, by rw [k.1]; rfl, k.2⟩, fun c => absurd c f, fun _ => Or.inl k.1⟩
    · exact ⟨⟨.jdqmr, by rw [k.1]; rfl, k.2⟩, fun c => absurd c f, fun _ => Or.inr k.1⟩
  · by_cases f : C24_Few p
    · have : p.numEvals < 5 ∨ saturates p = true := by
        rcases f with f | f
        · exact Or.inl f
        · exact Or.inr (decide_eq_true f)
      refine Or.inl ⟨f, Or.inl ?_⟩
      unfold start
      simp only [if_pos hd, if_pos this, and_self]
    · have : ¬ (p.numEvals < 5 ∨ saturates p = true) := by
        rintro (g | g)
        · exact f (Or.inl g)
        · exact f (Or.inr (of_decide_eq_true g))
      refine Or.inr ⟨f, Or.inl ?_⟩
      unfold start
      simp only [if_pos hd, if_neg this, and_self]
  · intro s e ih
    obtain ⟨_, _, c⟩ := C24_event o s e
    rcases ih with ⟨f, ih⟩ | ⟨f, ih⟩
    · refine Or.inl ⟨f, ?_⟩
      omega
    · refine Or.inr ⟨f, ?_⟩
      omega

/-- Every event leaves `dynamicMethodSwitch` or takes it along one of the documented switches; JDQMR is entered only after a restart. -/
theorem C24_switches (o : Arith K) (s : Par K × Model K) (e : Event K) :
    C24_Move s.1.dyn (step o s e).1.dyn ∧
    (s.1.dyn ≠ (step o s e).1.dyn → (step o s e).1.maxInner = -1 → (step o s e).1.numRestarts ≠ 0) := by
  obtain ⟨_, b, c⟩ := C24_event o s e
  refine ⟨b, fun h1 h2 => ?_⟩
  rcases c with c | c | c
  · exact absurd c.1.symm h1
  · omega
  · exact c.2.2.2.2.1

theorem C24_start_same (p : Par K) (now mv : Dbl K) : C24_Same p (start p now mv).1 := by
  unfold start
  dsimp only
  split_ifs <;> exact ⟨rfl, rfl, rfl, rfl, rfl⟩

/-- When the basis can fill the whole space the call never leaves GD+k. -/
theorem C24_saturated (o : Arith K) (p : Par K) (now mv : Dbl K) (hd : 0 < p.dyn)
    (hs : p.n ≤ p.maxBasisSize + if p.locking then p.numEvals else 0) (h : List (Event K)) :
    (run o (start p now mv) h).1.dyn = 1 ∧ (run o (start p now mv) h).1.maxInner = 0 := by
  have key := C24_induct o (fun s => saturates s.1 = true ∧ s.1.dyn = 1 ∧ s.1.maxInner = 0) (start p now mv) ?_ ?_ h
  · exact key.2
  · have h1 : saturates p = true := decide_eq_true hs
    unfold start
    simp only [if_pos hd, if_pos (Or.inr h1 : p.numEvals < 5 ∨ saturates p = true), and_self, and_true]
    exact h1
  · rintro s e ⟨h1, h2, h3⟩
    obtain ⟨⟨a1, a2, a3, a4, _⟩, _, c⟩ := C24_event o s e
    refine ⟨?_, ?_⟩
    · unfold saturates at h1 ⊢
      rw [a1, a2, a3, a4]; exact h1
    · rcases c with c | c | c
      · omega
      · omega
      · rw [h1] at c; exact absurd c.2.2.2.2.2 (by simp)

/-- A call that does not use the dynamic method never changes these members and makes no reduction for them. -/
theorem C24_off (o : Arith K) (p : Par K) (now mv : Dbl K) (hd : p.dyn ≤ 0) (h : List (Event K)) :
    (run o (start p now mv) h).1.dyn = p.dyn ∧ (run o (start p now mv) h).1.maxInner = p.maxInner ∧
    (run o (start p now mv) h).1.rightX = p.rightX ∧ (run o (start p now mv) h).1.reductions = p.reductions ∧
    (recommend (run o (start p now mv) h)).dyn = p.dyn := by
  have key := C24_induct o (fun s => s.1.dyn = p.dyn ∧ s.1.maxInner = p.maxInner ∧ s.1.rightX = p.rightX ∧ s.1.reductions = p.reductions)
    (start p now mv) ?_ ?_ h
  · refine ⟨key.1, key.2.1, key.2.2.1, key.2.2.2, ?_⟩
    unfold recommend
    rw [if_neg (by omega)]
    exact key.1
  · unfold start
    rw [if_neg (by omega)]
    exact ⟨rfl, rfl, rfl, rfl⟩
  · rintro s e ⟨h1, h2, h3, h4⟩
    cases e with
    | corrected dt => exact ⟨h1, h2, h3, h4⟩
    | restarted e =>
      unfold step
      dsimp only
      rw [if_neg (by show ¬ s.1.dyn = 1; omega)]
      exact ⟨h1, h2, h3, h4⟩
    | chosen recent e =>
      unfold step
      dsimp only
      rw [if_neg (by show ¬ 0 < s.1.dyn; omega)]
      exact ⟨h1, h2, h3, h4⟩

theorem C24_clamp (x : Dbl K) : ∃ q : K, Dbl.max (.num (11 / 10)) (Dbl.min x (.num (5 / 2))) = .num q ∧ 11 / 10 ≤ q ∧ q ≤ 5 / 2 := by
  have h1 : (11 : K) / 10 ≤ 5 / 2 := by norm_num
  have h2 : ¬ (5 : K) / 2 < 11 / 10 := by norm_num
  cases x with
  | nan => exact ⟨5 / 2, by simp [Dbl.max, Dbl.min, Dbl.lt, h2], h1, le_refl _⟩
  | inf b =>
    cases b
    · exact ⟨5 / 2, by simp [Dbl.max, Dbl.min, Dbl.lt, h2], h1, le_refl _⟩
    · exact ⟨11 / 10, by simp [Dbl.max, Dbl.min, Dbl.lt], le_refl _, h1⟩
  | num q =>
    by_cases a : q < 5 / 2
    · by_cases b : q < 11 / 10
      · exact ⟨11 / 10, by simp [Dbl.max, Dbl.min, Dbl.lt, a, b], le_refl _, h1⟩
      · exact ⟨q, by simp [Dbl.max, Dbl.min, Dbl.lt, a, b], not_lt.mp b, le_of_lt a⟩
    · exact ⟨5 / 2, by simp [Dbl.max, Dbl.min, Dbl.lt, a, h2], h1, le_refl _⟩

/-- The slowdown is a number. -/
def C24_Bounded (m : Model K) : Prop := ∃ q : K, m.JDQMR_slowdown = .num q ∧ 11 / 10 ≤ q ∧ q ≤ 5 / 2

theorem C24_update_bounded (o : Arith K) (p : Par K) (now : Dbl K) (recent : Int) (r : Bool) (nc : Int) (resid : Dbl K) (m : Model K)
    (h : C24_Bounded m) : C24_Bounded (updateStatistics o p now recent r nc resid m).2 := by
  unfold updateStatistics
  split
  · exact h
  split
  · exact h
  exact C24_clamp _

theorem C24_jdqmr_slow (o : Arith K) (sum : ℕ → Dbl K → Dbl K) (p : Par K) (m : Model K) :
    (switchFromJDQMR o sum p m).2.JDQMR_slowdown = m.JDQMR_slowdown := by
  unfold switchFromJDQMR
  dsimp only
  split_ifs <;> rfl

theorem C24_gdpk_slow (o : Arith K) (sum : ℕ → Dbl K → Dbl K) (p : Par K) (m : Model K) :
    (switchFromGDpk o sum p m).2.JDQMR_slowdown = m.JDQMR_slowdown := by
  unfold switchFromGDpk
  dsimp only
  split_ifs <;> rfl

/-- The estimated slowdown stays a number between 1.1 and 2.5 even when measured times are zero, NaN or infinite. -/
theorem C24_slowdown (o : Arith K) (p : Par K) (now mv : Dbl K) (h : List (Event K)) :
    ∃ q : K, (run o (start p now mv) h).2.JDQMR_slowdown = .num q ∧ 11 / 10 ≤ q ∧ q ≤ 5 / 2 := by
  refine C24_induct o (fun s => C24_Bounded s.2) (start p now mv) ?_ ?_ h
  · refine ⟨3 / 2, ?_, by norm_num, by norm_num⟩
    unfold start
    dsimp only
    split_ifs <;> rfl
  · intro s e ih
    cases e with
    | corrected dt => exact ih
    | restarted e =>
      unfold step
      dsimp only
      split_ifs with h1
      · unfold C24_Bounded
        rw [C24_gdpk_slow]
        exact C24_update_bounded _ _ _ _ _ _ _ _ ih
      · exact ih
    | chosen recent e =>
      have hm : C24_Bounded (if s.2.resid_0.eq (.num (-1)) then { s.2 with resid_0 := e.resid } else s.2) := by
        split_ifs
        · exact ih
        · exact ih
      unfold step
      dsimp only
      revert hm
      generalize (if s.2.resid_0.eq (.num (-1)) then { s.2 with resid_0 := e.resid } else s.2) = m
      intro hm
      have hu := C24_update_bounded o (s.1.see e) e.now recent false e.numConverged e.resid { m with MV := e.mv } hm
      revert hu
      generalize updateStatistics o (s.1.see e) e.now recent false e.numConverged e.resid { m with MV := e.mv } = u
      intro hu
      split_ifs
      · unfold C24_Bounded; rw [C24_gdpk_slow]; exact hu
      · unfold C24_Bounded; rw [C24_jdqmr_slow]; exact hu
      · exact hu
      · exact hu
      · exact hm
      · exact ih

/-- A call with the dynamic method that ends where the recommendation is given hands back one of the three documented values: -2 (use JDQMR) if
the accumulated ratio of the times is below 0.96, -1 (use GD+k) if it is above 1.04 or the call had settled for GD+k, -3 otherwise.
Missing for the full claim: the other ways out of the call, `C24_exit_violated`. -/
theorem C24_recommendation_partial (o : Arith K) (p : Par K) (now mv : Dbl K) (hd : 0 < p.dyn) (h : List (Event K)) :
    ((recommend (run o (start p now mv) h)).dyn = -1 ∨ (recommend (run o (start p now mv) h)).dyn = -2 ∨
      (recommend (run o (start p now mv) h)).dyn = -3) ∧
    ((recommend (run o (start p now mv) h)).dyn = -2 ↔
      (run o (start p now mv) h).1.dyn ≠ -1 ∧ (run o (start p now mv) h).2.accum_jdq_gdk.lt (.num (24 / 25)) = true) ∧
    ((recommend (run o (start p now mv) h)).dyn = -1 ↔
      (run o (start p now mv) h).1.dyn = -1 ∨ (Dbl.num (26 / 25)).lt (run o (start p now mv) h).2.accum_jdq_gdk = true) := by
  obtain ⟨_, a, b⟩ := C24_modes o p now mv hd h
  have hc : (run o (start p now mv) h).1.dyn = -1 ∨ 0 < (run o (start p now mv) h).1.dyn := by
    by_cases f : C24_Few p
    · have := a f; omega
    · have := b f; omega
  have hx : ∀ x : Dbl K, x.lt (.num (24 / 25)) = true → (Dbl.num (26 / 25)).lt x = false := by
    intro x hx
    cases x with
    | nan => rfl
    | inf b => cases b <;> simp [Dbl.lt] at hx ⊢
    | num q =>
      simp only [Dbl.lt, decide_eq_true_eq, decide_eq_false_iff_not] at hx ⊢
      intro h2
      have : (26 : K) / 25 < 24 / 25 := lt_trans h2 hx
      norm_num at this
  rcases hc with hc | hc
  · have hr : (recommend (run o (start p now mv) h)).dyn = -1 := by
      unfold recommend
      rw [if_neg (by omega)]
      exact hc
    rw [hr]
    simp [hc]
  · have hn : (run o (start p now mv) h).1.dyn ≠ -1 := by omega
    unfold recommend
    rw [if_pos hc]
    by_cases a1 : (run o (start p now mv) h).2.accum_jdq_gdk.lt (.num (24 / 25)) = true
    · have := hx _ a1
      simp [a1, this, hn]
    · by_cases a2 : (Dbl.num (26 / 25)).lt (run o (start p now mv) h).2.accum_jdq_gdk = true
      · simp [a1, a2, hn]
      · simp [a1, a2, hn]

/-- `projectors.RightX` follows the method, except that until the first switch it keeps the value it had when the call was made: it is 1 with GD+k,
0 with JDQMR.  Missing for the full claim: the time before the first switch, `C24_rightX_violated`. -/
theorem C24_rightX_partial (o : Arith K) (p : Par K) (now mv : Dbl K) (hd : 0 < p.dyn) (h : List (Event K)) :
    ((run o (start p now mv) h).1.rightX = 1 ∧ (run o (start p now mv) h).1.maxInner = 0) ∨
    ((run o (start p now mv) h).1.rightX = 0 ∧ (run o (start p now mv) h).1.maxInner = -1) ∨
    ((run o (start p now mv) h).1.rightX = p.rightX ∧ (run o (start p now mv) h).1.dyn = (start p now mv).1.dyn ∧
      (run o (start p now mv) h).1.maxInner = 0) := by
  refine C24_induct o (fun s => (s.1.rightX = 1 ∧ s.1.maxInner = 0) ∨ (s.1.rightX = 0 ∧ s.1.maxInner = -1) ∨
    (s.1.rightX = p.rightX ∧ s.1.dyn = (start p now mv).1.dyn ∧ s.1.maxInner = 0)) (start p now mv) ?_ ?_ h
  · refine Or.inr (Or.inr ⟨?_, rfl, ?_⟩)
    · unfold start; dsimp only; split_ifs <;> rfl
    · unfold start; dsimp only; rw [if_pos hd]; dsimp only; split_ifs <;> rfl
  · intro s e ih
    obtain ⟨_, _, c⟩ := C24_event o s e
    rcases c with ⟨c1, c2, c3⟩ | c | c
    · rw [c1, c2, c3]; exact ih
    · exact Or.inl ⟨c.2.2.2, c.2.2.1⟩
    · exact Or.inr (Or.inl ⟨c.2.2.2.1, c.2.2.1⟩)

/-! ### Several processes -/

/-- What two processes of a call see at the same event: the same counters, the same results of the reductions, but their own clocks. -/
def C24_Together : Event K → Event K → Prop
  | .chosen r a, .chosen r' b => r = r' ∧ a.numOuter = b.numOuter ∧ a.numMatvecs = b.numMatvecs ∧ a.numRestarts = b.numRestarts ∧
      a.maxConvTol = b.maxConvTol ∧ ∀ i x y, a.sum i x = b.sum i y
  | .corrected _, .corrected _ => True
  | .restarted a, .restarted b => a.numOuter = b.numOuter ∧ a.numMatvecs = b.numMatvecs ∧ a.numRestarts = b.numRestarts ∧
      a.maxConvTol = b.maxConvTol ∧ ∀ i x y, a.sum i x = b.sum i y
  | _, _ => False

/-- The states agree in all that is not a measured time. -/
def C24_Alike (s t : Par K × Model K) : Prop := s.1 = t.1 ∧ s.2.numIt_0 = t.2.numIt_0 ∧ s.2.numMV_0 = t.2.numMV_0

theorem C24_update_alike (o : Arith K) (p : Par K) (nowA nowB : Dbl K) (recent : Int) (r : Bool) (ncA ncB : Int) (ra rb : Dbl K)
    (a b : Model K) (h1 : a.numIt_0 = b.numIt_0) (h2 : a.numMV_0 = b.numMV_0) (h3 : a.qmr_only.eq (.num 0) = b.qmr_only.eq (.num 0)) :
    (updateStatistics o p nowA recent r ncA ra a).1 = (updateStatistics o p nowB recent r ncB rb b).1 ∧
    (updateStatistics o p nowA recent r ncA ra a).2.numIt_0 = (updateStatistics o p nowB recent r ncB rb b).2.numIt_0 ∧
    (updateStatistics o p nowA recent r ncA ra a).2.numMV_0 = (updateStatistics o p nowB recent r ncB rb b).2.numMV_0 := by
  unfold updateStatistics
  have hk : koutOf p r a = koutOf p r b := by unfold koutOf; rw [h1]
  have hi : kinnOf o p r a = kinnOf o p r b := by unfold kinnOf; rw [hk, h2]
  rw [hk, hi, h3]
  split
  · exact ⟨rfl, h1, h2⟩
  split
  · exact ⟨rfl, h1, h2⟩
  exact ⟨rfl, rfl, rfl⟩

theorem C24_update_qmr (o : Arith K) (p : Par K) (now : Dbl K) (recent : Int) (r : Bool) (nc : Int) (resid : Dbl K) (m : Model K)
    (h : p.dyn = 1 ∨ p.dyn = 3) : (updateStatistics o p now recent r nc resid m).2.qmr_only = m.qmr_only := by
  unfold updateStatistics
  split
  · rfl
  split
  · rfl
  show (updated o p now recent r nc resid m).qmr_only = _
  unfold updated updateSlowdown Dynamic.measure
  dsimp only
  rw [if_pos h]
  unfold measureGD window timeOuter credit
  dsimp only
  by_cases hr : 0 < recent
  · by_cases hi : p.maxInner = -1
    · simp only [if_pos hr, if_pos hi]
      split_ifs <;> rfl
    · simp only [if_pos hr, if_neg hi]
      split_ifs <;> rfl
  · simp only [if_neg hr]
    split_ifs <;> rfl

theorem C24_jdqmr_alike (o : Arith K) (f g : ℕ → Dbl K → Dbl K) (hfg : ∀ i x y, f i x = g i y) (p : Par K) (a b : Model K)
    (h1 : a.numIt_0 = b.numIt_0) (h2 : a.numMV_0 = b.numMV_0) :
    C24_Alike (switchFromJDQMR o f p a) (switchFromJDQMR o g p b) := by
  unfold switchFromJDQMR C24_Alike
  dsimp only
  rw [hfg 0 _ (ratio o b 0 (.num (11 / 10)) (.num 1000)), hfg 1 _ (ratio o b 0 b.JDQMR_slowdown b.ratio_MV_outer)]
  split
  · exact ⟨rfl, h1, h2⟩
  · exact ⟨rfl, h1, h2⟩

theorem C24_gdpk_alike (o : Arith K) (f g : ℕ → Dbl K → Dbl K) (hfg : ∀ i x y, f i x = g i y) (p : Par K) (a b : Model K)
    (h1 : a.numIt_0 = b.numIt_0) (h2 : a.numMV_0 = b.numMV_0) (h3 : a.qmr_only.eq (.num 0) = b.qmr_only.eq (.num 0)) :
    C24_Alike (switchFromGDpk o f p a) (switchFromGDpk o g p b) := by
  unfold switchFromGDpk C24_Alike
  dsimp only
  rw [hfg 0 _ (ratio o b 0 b.JDQMR_slowdown b.ratio_MV_outer), h3]
  split
  · exact ⟨rfl, h1, h2⟩
  split
  · exact ⟨rfl, h1, h2⟩
  · exact ⟨rfl, h1, h2⟩

theorem C24_step_alike (o : Arith K) (s t : Par K × Model K) (a b : Event K) (h : C24_Alike s t) (hab : C24_Together a b)
    (hq : s.2.qmr_only.eq (.num 0) = t.2.qmr_only.eq (.num 0)) : C24_Alike (step o s a) (step o t b) := by
  obtain ⟨p, m⟩ := s
  obtain ⟨p', m'⟩ := t
  obtain ⟨h0, h1, h2⟩ := h
  dsimp only at h0 h1 h2 hq
  subst h0
  cases a with
  | corrected dt =>
    cases b with
    | corrected dt' => exact ⟨rfl, h1, h2⟩
    | restarted b => exact hab.elim
    | chosen r b => exact hab.elim
  | restarted a =>
    cases b with
    | corrected dt' => exact hab.elim
    | chosen r b => exact hab.elim
    | restarted b =>
      obtain ⟨e1, e2, e3, e4, e5⟩ := hab
      have hp : p.see a = p.see b := by unfold Par.see; rw [e1, e2, e3, e4]
      unfold step
      dsimp only
      rw [hp]
      split
      · rename_i hd
        have hu := C24_update_alike o (p.see b) a.now b.now 0 true a.numConverged b.numConverged a.resid b.resid
          { m with MV := a.mv } { m' with MV := b.mv } h1 h2 hq
        refine C24_gdpk_alike o _ _ e5 _ _ _ hu.2.1 hu.2.2 ?_
        rw [C24_update_qmr _ _ _ _ _ _ _ _ (Or.inl hd), C24_update_qmr _ _ _ _ _ _ _ _ (Or.inl hd)]
        exact hq
      · exact ⟨rfl, h1, h2⟩
  | chosen r a =>
    cases b with
    | corrected dt' => exact hab.elim
    | restarted b => exact hab.elim
    | chosen r' b =>
      obtain ⟨e0, e1, e2, e3, e4, e5⟩ := hab
      subst e0
      have hp : p.see a = p.see b := by unfold Par.see; rw [e1, e2, e3, e4]
      unfold step
      dsimp only
      rw [hp]
      have hm : ∀ x : Model K, ∀ y : Dbl K, (if x.resid_0.eq (.num (-1)) then { x with resid_0 := y } else x).numIt_0 = x.numIt_0 ∧
          (if x.resid_0.eq (.num (-1)) then { x with resid_0 := y } else x).numMV_0 = x.numMV_0 ∧
          (if x.resid_0.eq (.num (-1)) then { x with resid_0 := y } else x).qmr_only = x.qmr_only := by
        intro x y; split_ifs <;> exact ⟨rfl, rfl, rfl⟩
      obtain ⟨a1, a2, a3⟩ := hm m a.resid
      obtain ⟨b1, b2, b3⟩ := hm m' b.resid
      revert a1 a2 a3 b1 b2 b3
      generalize (if m.resid_0.eq (.num (-1)) then { m with resid_0 := a.resid } else m) = ma
      generalize (if m'.resid_0.eq (.num (-1)) then { m' with resid_0 := b.resid } else m') = mb
      intro a1 a2 a3 b1 b2 b3
      have hu := C24_update_alike o (p.see b) a.now b.now r false a.numConverged b.numConverged a.resid b.resid
        { ma with MV := a.mv } { mb with MV := b.mv } (by show ma.numIt_0 = mb.numIt_0; rw [a1, b1, h1])
        (by show ma.numMV_0 = mb.numMV_0; rw [a2, b2, h2])
        (by show ma.qmr_only.eq _ = mb.qmr_only.eq _; rw [a3, b3, hq])
      have ua : ∀ hd : (p.see b).dyn = 1 ∨ (p.see b).dyn = 3,
          (updateStatistics o (p.see b) a.now r false a.numConverged a.resid { ma with MV := a.mv }).2.qmr_only = m.qmr_only :=
        fun hd => (C24_update_qmr _ _ _ _ _ _ _ _ hd).trans a3
      have ub : ∀ hd : (p.see b).dyn = 1 ∨ (p.see b).dyn = 3,
          (updateStatistics o (p.see b) b.now r false b.numConverged b.resid { mb with MV := b.mv }).2.qmr_only = m'.qmr_only :=
        fun hd => (C24_update_qmr _ _ _ _ _ _ _ _ hd).trans b3
      revert hu ua ub
      generalize updateStatistics o (p.see b) a.now r false a.numConverged a.resid { ma with MV := a.mv } = ua
      generalize updateStatistics o (p.see b) b.now r false b.numConverged b.resid { mb with MV := b.mv } = ub
      rintro ⟨u1, u2, u3⟩ va vb
      rw [u1]
      by_cases d0 : 0 < (p.see b).dyn
      · rw [if_pos d0, if_pos d0]
        by_cases d1 : 0 < r ∨ (p.see b).dyn = 2
        · rw [if_pos d1, if_pos d1]
          by_cases d2 : ub.1 = true
          · rw [if_pos d2, if_pos d2]
            by_cases d3 : (p.see b).dyn = 3
            · rw [if_pos d3, if_pos d3]
              exact C24_gdpk_alike o _ _ e5 _ _ _ u2 u3 (by rw [va (Or.inr d3), vb (Or.inr d3), hq])
            · rw [if_neg d3, if_neg d3]
              by_cases d4 : (p.see b).dyn = 2 ∨ (p.see b).dyn = 4
              · rw [if_pos d4, if_pos d4]
                exact C24_jdqmr_alike o _ _ e5 _ _ _ u2 u3
              · rw [if_neg d4, if_neg d4]
                exact ⟨rfl, u2, u3⟩
          · rw [if_neg d2, if_neg d2]
            exact ⟨rfl, u2, u3⟩
        · rw [if_neg d1, if_neg d1]
          exact ⟨rfl, by show ma.numIt_0 = mb.numIt_0; rw [a1, b1, h1], by show ma.numMV_0 = mb.numMV_0; rw [a2, b2, h2]⟩
      · rw [if_neg d0, if_neg d0]
        exact ⟨rfl, h1, h2⟩

/-- Two processes that go through a history together, each with its own clock, make the same decisions and the same number of reductions,
provided that at every event they agree on whether a time of QMR has been measured.  Missing for the full claim: that proviso, `C24_collective_violated`. -/
theorem C24_collective_partial (o : Arith K) (p : Par K) (nowA mvA nowB mvB : Dbl K) (ha hb : List (Event K))
    (hab : List.Forall₂ C24_Together ha hb)
    (hq : ∀ k < ha.length, (run o (start p nowA mvA) (ha.take k)).2.qmr_only.eq (.num 0) =
      (run o (start p nowB mvB) (hb.take k)).2.qmr_only.eq (.num 0)) :
    (run o (start p nowA mvA) ha).1 = (run o (start p nowB mvB) hb).1 := by
  have h0 : C24_Alike (start p nowA mvA) (start p nowB mvB) := by
    unfold start
    dsimp only
    split
    · exact ⟨rfl, rfl, rfl⟩
    · exact ⟨rfl, rfl, rfl⟩
  suffices C24_Alike (run o (start p nowA mvA) ha) (run o (start p nowB mvB) hb) from this.1
  revert h0 hq
  generalize start p nowA mvA = s
  generalize start p nowB mvB = t
  intro hq h0
  induction hab generalizing s t with
  | nil => exact h0
  | cons he hr ih =>
    rename_i a b la lb
    refine ih _ _ (fun k hk => ?_) (C24_step_alike o s t a b h0 he ?_)
    · have := hq (k + 1) (by simpa using hk)
      exact this
    · have := hq 0 (by simp)
      exact this

/-! ### Concrete histories -/

/-- Exact arithmetic on rational numbers; logarithm and exponential are replaced by constants. -/
def C24_arith : Arith ℚ where
  add | .num a, .num b => .num (a + b) | _, _ => .nan
  sub | .num a, .num b => .num (a - b) | _, _ => .nan
  mul | .num a, .num b => .num (a * b) | _, _ => .nan
  div | .num a, .num b => if b = 0 then .nan else .num (a / b) | _, _ => .nan
  neg | .num a => .num (-a) | _ => .nan
  log | .num _ => .num (-1) | _ => .nan
  exp | .num _ => .num (1 / 2) | _ => .nan
  ofInt a := .num a

/-- The parameters of a call for `k` pairs of a problem of size `n`, with the presets of `PRIMME_DYNAMIC` (primme_interface.c:495-515). -/
def C24_call (k n : Int) : Par ℚ where
  dyn := 1
  maxInner := -1
  rightX := 0
  numEvals := k
  maxBasisSize := 15
  locking := false
  n := n
  numProcs := 1
  numRestarts := 0
  numOuter := 0
  numMatvecs := 3
  maxConvTol := .num (1 / 100)
  reductions := 0

/-- What is seen after `it` outer iterations, `mv` products and `rs` restarts at the time `now`; a product takes the time `t`. -/
def C24_seen (t : ℚ) (it mv rs : Int) (now resid : ℚ) (sum : ℕ → Dbl ℚ → Dbl ℚ) : Seen ℚ where
  numOuter := it
  numMatvecs := mv
  numRestarts := rs
  maxConvTol := .num (1 / 100)
  now := .num now
  mv := .num t
  resid := .num resid
  numConverged := 0
  sum := sum

/-- GD+k until the restart, JDQMR, a decision, one more restart; a correction takes the time `dt`. -/
def C24_history (t dt : ℚ) (sum : ℕ → Dbl ℚ → Dbl ℚ) : List (Event ℚ) :=
  [.chosen 0 (C24_seen t 1 3 0 (10 * t) 1 sum), .corrected (.num dt), .restarted (C24_seen t 5 8 1 (50 * t) (1 / 2) sum),
   .corrected (.num dt), .chosen 0 (C24_seen t 7 20 1 (50 * t + 5 * dt) (1 / 4) sum),
   .corrected (.num dt), .restarted (C24_seen t 9 25 2 (80 * t + 6 * dt) (1 / 8) sum)]

/-- The state after the first `k` events. -/
def C24_after (t dt : ℚ) (sum : ℕ → Dbl ℚ → Dbl ℚ) (k : ℕ) : Par ℚ × Model ℚ :=
  run C24_arith (start (C24_call 2 100) (.num 0) (.num t)) ((C24_history t dt sum).take k)

/-- On one process: GD+k at first, JDQMR after the restart, where it stays since the ratio is small; -2 is recommended. -/
example : (C24_after (1 / 10) 3 (fun _ x => x) 2).1.dyn = 1 ∧ (C24_after (1 / 10) 3 (fun _ x => x) 2).1.maxInner = 0 ∧
    (C24_after (1 / 10) 3 (fun _ x => x) 3).1.dyn = 2 ∧ (C24_after (1 / 10) 3 (fun _ x => x) 3).1.maxInner = -1 ∧
    (C24_after (1 / 10) 3 (fun _ x => x) 7).1.dyn = 2 ∧ (C24_after (1 / 10) 3 (fun _ x => x) 7).1.reductions = 2 ∧
    (recommend (C24_after (1 / 10) 3 (fun _ x => x) 7)).dyn = -2 := by
  decide +kernel

/-- When the mean over the processes is large even for the best case: back to GD+k for good. -/
example : (C24_after (1 / 10) 3 (fun _ _ => .num 2) 4).1.dyn = 2 ∧ (C24_after (1 / 10) 3 (fun _ _ => .num 2) 5).1.dyn = -1 ∧
    (C24_after (1 / 10) 3 (fun _ _ => .num 2) 5).1.maxInner = 0 ∧ (recommend (C24_after (1 / 10) 3 (fun _ _ => .num 2) 7)).dyn = -1 := by
  decide +kernel

/-- A call for seven pairs starts with 3 and goes to 4 when a pair converges after a restart; one whose basis fills the space stays. -/
example : (run C24_arith (start (C24_call 7 100) (.num 0) (.num 1)) [.chosen 1 (C24_seen 1 8 9 1 9 1 (fun _ x => x))]).1.dyn = 4 ∧
    (run C24_arith (start (C24_call 7 15) (.num 0) (.num 1)) [.restarted (C24_seen 1 8 9 1 9 1 (fun _ x => x))]).1.dyn = 1 ∧
    ¬ C24_Few (C24_call 7 100) ∧ (C24_call 7 15).n ≤ (C24_call 7 15).maxBasisSize := by
  refine ⟨by decide +kernel, by decide +kernel, ?_, by decide +kernel⟩
  unfold C24_Few
  decide +kernel

/-- `RightX` does not follow the method: with the presets of `PRIMME_DYNAMIC` GD+k runs with 0 at first and with 1 later, after the history has gone
through JDQMR. -/
theorem C24_rightX_violated : ∃ (k : ℕ) (sum : ℕ → Dbl ℚ → Dbl ℚ),
    C24_method (C24_after (1 / 10) 3 sum 2).1.dyn = some .gdk ∧ (C24_after (1 / 10) 3 sum 2).1.rightX = 0 ∧
    C24_method (C24_after (1 / 10) 3 sum k).1.dyn = some .gdk ∧ (C24_after (1 / 10) 3 sum k).1.rightX = 1 := by
  have h : ∀ k, C24_method k = some .gdk ↔ k = 1 ∨ k = 3 ∨ k = -1 := by
    intro k
    unfold C24_method
    split <;> simp_all
  refine ⟨5, fun i _ => if i = 0 then .num 1 else .num 2, ?_⟩
  rw [h, h]
  decide +kernel

/-- Not every call with the dynamic method hands back a recommendation: leaving by the test of the outer loop (after the final test failed and the
limit of products has been reached, `C14_kept_violated`) hands back 1 to 4, which the documentation does not list among the values on exit, for every history
that has not settled for GD+k. -/
theorem C24_exit_violated (o : Arith K) (p : Par K) (now mv : Dbl K) (hd : 0 < p.dyn) (h : List (Event K))
    (hn : (run o (start p now mv) h).1.dyn ≠ -1) :
    1 ≤ (leave true (run o (start p now mv) h)).dyn ∧ (leave true (run o (start p now mv) h)).dyn ≤ 4 := by
  obtain ⟨_, a, b⟩ := C24_modes o p now mv hd h
  show 1 ≤ (run o (start p now mv) h).1.dyn ∧ (run o (start p now mv) h).1.dyn ≤ 4
  by_cases f : C24_Few p
  · have := a f; omega
  · have := b f; omega

example : (C24_after (1 / 10) 3 (fun _ x => x) 7).1.dyn ≠ -1 ∧ 0 < (C24_call 2 100).dyn := by decide +kernel

/-- The decisions of two processes that see the same counters and results of reductions may differ: one whose clock showed no time for QMR
switches to JDQMR on its own, without the reduction that the other one enters, and the two go on with different methods. -/
theorem C24_collective_violated : ∃ (sum : ℕ → Dbl ℚ → Dbl ℚ),
    List.Forall₂ C24_Together (C24_history 0 0 sum) (C24_history (1 / 10) 3 sum) ∧
    (C24_after 0 0 sum 7).1.reductions = 2 ∧ (C24_after (1 / 10) 3 sum 7).1.reductions = 3 ∧
    (C24_after 0 0 sum 7).1.maxInner = -1 ∧ (C24_after (1 / 10) 3 sum 7).1.maxInner = 0 := by
  refine ⟨fun i _ => if i = 0 then .num 1 else .num 2, ?_, by decide +kernel⟩
  unfold C24_history
  refine .cons ?_ (.cons ?_ (.cons ?_ (.cons ?_ (.cons ?_ (.cons ?_ (.cons ?_ .nil))))))
  all_goals simp [C24_Together, C24_seen]

/-- Two processes with different clocks that agree on whether QMR has been timed. -/
example : ∃ sum : ℕ → Dbl ℚ → Dbl ℚ, List.Forall₂ C24_Together (C24_history (1 / 20) 2 sum) (C24_history (1 / 10) 3 sum) ∧
    (∀ k < 7, (C24_after (1 / 20) 2 sum k).2.qmr_only.eq (.num 0) = (C24_after (1 / 10) 3 sum k).2.qmr_only.eq (.num 0)) ∧
    (C24_after (1 / 20) 2 sum 7).1.reductions = 3 := by
  refine ⟨fun i _ => if i = 0 then .num 1 else .num 2, ?_, by decide +kernel, by decide +kernel⟩
  unfold C24_history
  refine .cons ?_ (.cons ?_ (.cons ?_ (.cons ?_ (.cons ?_ (.cons ?_ (.cons ?_ .nil))))))
  all_goals simp [C24_Together, C24_seen]

end Verif.Props
