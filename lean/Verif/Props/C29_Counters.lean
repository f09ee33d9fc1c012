import Verif.Model.Operators

/-!
# C29: statistics agree with the calls made
-/

set_option linter.unusedSectionVars false

namespace Verif.Props
open Verif Verif.Ops

variable {V : Type}

/-- The settings of a run that matter here. -/
structure C29_Cfg (V : Type) where
  env : Env V
  sc : Prec
  matvecType : Prec
  massType : Prec
  precType : Prec
  sumType : Prec
  bcastType : Prec
  precondition : Bool
  numProcs : ℕ
  procID : ℕ
  hasSum : Bool
  hasBcast : Bool
  zero : V

/-- One operation of the solver on one process that completes: any of the five wrappers with any
arguments and any behaviour of the user's function, or anything that only touches the arrays. -/
inductive C29_Step (c : C29_Cfg V) : St V → St V → Prop
  | matrix {m n : ℕ} (f : (Fin m → Fin n → V) → (Fin m → Fin n → V) × Int) (v w : Ptr) (ldV ldW k : ℕ)
      {s s' : St V} {o : Option (Seen V m n)}
      (h : matrixMatvec c.env c.sc c.matvecType f s v ldV w ldW k = .ok (s', o)) : C29_Step c s s'
  | mass {m n : ℕ} (f : (Fin m → Fin n → V) → (Fin m → Fin n → V) × Int) (v w : Ptr) (ldV ldW k : ℕ)
      {s s' : St V} {o : Option (Seen V m n)}
      (h : massMatrixMatvec c.env c.sc c.matvecType c.massType f s v ldV w ldW k = .ok (s', o)) :
      C29_Step c s s'
  | precond {m n : ℕ} (f : (Fin m → Fin n → V) → (Fin m → Fin n → V) × Int) (v w : Ptr) (ldV ldW : ℕ)
      {s s' : St V} {o : Option (Seen V m n)}
      (h : applyPreconditioner c.env c.sc c.precType c.precondition f s v ldV w ldW = .ok (s', o)) :
      C29_Step c s s'
  | sum {n : ℕ} (t : Prec) (f : (Fin 1 → Fin n → V) → (Fin 1 → Fin n → V)) (ierr : Int) (b : Ptr)
      {s s' : St V} {o : Option (Seen V 1 n)}
      (h : globalSum c.env t c.sumType c.numProcs c.hasSum f ierr s b = .ok (s', o)) : C29_Step c s s'
  | bcast {n : ℕ} (t : Prec) (f : (Fin 1 → Fin n → V) → (Fin 1 → Fin n → V)) (ierr : Int) (b : Ptr)
      {s s' : St V}
      (h : broadcast c.env t c.sumType c.bcastType c.numProcs c.procID c.hasSum c.hasBcast c.zero f ierr
        s b = .ok s') : C29_Step c s s'
  | local {s : St V} (h : Heap V) : C29_Step c s { s with heap := h }

/-- Any history of completed operations. -/
inductive C29_Steps (c : C29_Cfg V) : St V → St V → Prop
  | refl (s : St V) : C29_Steps c s s
  | tail {s s' s'' : St V} : C29_Steps c s s' → C29_Step c s' s'' → C29_Steps c s s''

/-- Total over the calls of a history of a quantity. -/
def C29_total (q : Event → ℕ) (l : List Event) : ℕ := (l.map q).sum

/-- Columns given to `matrixMatvec`. -/
def C29_matrixCols : Event → ℕ
  | .matrix k => k
  | _ => 0

/-- Columns given to `massMatrixMatvec`. -/
def C29_massCols : Event → ℕ
  | .mass k => k
  | _ => 0

/-- Columns given to `applyPreconditioner`. -/
def C29_precondCols : Event → ℕ
  | .precond k => k
  | _ => 0

/-- Calls of `globalSumReal`. -/
def C29_sumCalls : Event → ℕ
  | .sum _ => 1
  | _ => 0

/-- Numbers given to `globalSumReal`. -/
def C29_sumVolume : Event → ℕ
  | .sum k => k
  | _ => 0

/-- Calls of `broadcastReal`. -/
def C29_bcastCalls : Event → ℕ
  | .bcast _ => 1
  | _ => 0

/-- Numbers given to `broadcastReal`. -/
def C29_bcastVolume : Event → ℕ
  | .bcast k => k
  | _ => 0

theorem C29_append (q : Event → ℕ) (l : List Event) (e : Event) :
    C29_total q (l ++ [e]) = C29_total q l + q e := by
  simp [C29_total]

/-- The counters after one more reduction. -/
def C29_plusSum (k : Counters) (n : ℕ) : Counters :=
  ⟨k.numMatvecs, k.numPreconds, k.numGlobalSum + 1, k.volumeGlobalSum + n, k.numBroadcast, k.volumeBroadcast⟩

/-- Each counter grows by what the operation adds. -/
theorem C29_step_effect (c : C29_Cfg V) {s s' : St V} (h : C29_Step c s s') :
    (∃ l, s'.trace = s.trace ++ l) ∧
    (s'.stats.numMatvecs + (C29_total C29_matrixCols s.trace + C29_total C29_massCols s.trace) =
      s.stats.numMatvecs + (C29_total C29_matrixCols s'.trace + C29_total C29_massCols s'.trace)) ∧
    (s'.stats.numPreconds + C29_total C29_precondCols s.trace = s.stats.numPreconds + C29_total C29_precondCols s'.trace) ∧
    (s'.stats.numGlobalSum + C29_total C29_sumCalls s.trace = s.stats.numGlobalSum + C29_total C29_sumCalls s'.trace) ∧
    (s'.stats.volumeGlobalSum + C29_total C29_sumVolume s.trace =
      s.stats.volumeGlobalSum + C29_total C29_sumVolume s'.trace) ∧
    (c.hasBcast = true →
      s'.stats.numBroadcast + C29_total C29_bcastCalls s.trace =
        s.stats.numBroadcast + C29_total C29_bcastCalls s'.trace ∧
      s'.stats.volumeBroadcast + C29_total C29_bcastVolume s.trace =
        s.stats.volumeBroadcast + C29_total C29_bcastVolume s'.trace) ∧
    s.stats.numMatvecs ≤ s'.stats.numMatvecs ∧ s.stats.numPreconds ≤ s'.stats.numPreconds ∧
    s.stats.numGlobalSum ≤ s'.stats.numGlobalSum ∧ s.stats.volumeGlobalSum ≤ s'.stats.volumeGlobalSum ∧
    s.stats.numBroadcast ≤ s'.stats.numBroadcast ∧
    s.stats.volumeBroadcast ≤ s'.stats.volumeBroadcast := by
  have obind : ∀ {α β : Type} {x : Outcome α} {g : α → Outcome β} {b : β}, (x >>= g) = .ok b →
      ∃ a, x = .ok a ∧ g a = .ok b := by
    intro α β x g b hx
    cases x with
    | ok a => exact ⟨a, rfl, hx⟩
    | err e => exact absurd hx (by simp)
    | ub => exact absurd hx (by simp)
  have gsum : ∀ {n : ℕ} (t : Prec) (f : (Fin 1 → Fin n → V) → (Fin 1 → Fin n → V)) (ierr : Int) (b : Ptr)
      {s s' : St V} {o : Option (Seen V 1 n)},
      globalSum c.env t c.sumType c.numProcs c.hasSum f ierr s b = .ok (s', o) →
      s'.stats = s.stats ∧ s'.trace = s.trace ∨
      s'.stats = C29_plusSum s.stats n ∧
        s'.trace = s.trace ++ [.sum n] := by
    intro n t f ierr b s s' o h
    unfold globalSum at h
    by_cases h1 : c.numProcs = 1 ∨ (!c.hasSum) = true
    · rw [if_pos h1] at h
      simp only [Outcome.ok.injEq, Prod.mk.injEq] at h
      obtain ⟨rfl, -⟩ := h
      exact Or.inl ⟨rfl, rfl⟩
    · rw [if_neg h1] at h
      obtain ⟨a, -, h⟩ := obind h
      obtain ⟨a2, -, h⟩ := obind h
      dsimp only at h
      split_ifs at h
      obtain ⟨a3, -, h⟩ := obind h
      simp only [Outcome.ok.injEq, Prod.mk.injEq] at h
      obtain ⟨rfl, -⟩ := h
      exact Or.inr ⟨rfl, rfl⟩
  cases h with
  | matrix f v w ldV ldW k h =>
    unfold matrixMatvec at h
    split_ifs at h with h1 h2
    · simp only [Outcome.ok.injEq, Prod.mk.injEq] at h
      obtain ⟨rfl, -⟩ := h
      exact ⟨⟨[], by simp⟩, rfl, rfl, rfl, rfl, fun _ => ⟨rfl, rfl⟩, by omega, by omega, by omega, by omega, by omega, by omega⟩
    · obtain ⟨a, -, h⟩ := obind h
      simp only [Outcome.ok.injEq, Prod.mk.injEq] at h
      obtain ⟨rfl, -⟩ := h
      rename_i n _
      dsimp only
      simp only [C29_append]
      simp only [C29_matrixCols, C29_massCols, C29_precondCols, C29_sumCalls, C29_sumVolume, C29_bcastCalls,
  C29_bcastVolume]
      exact ⟨⟨_, rfl⟩, by omega, by omega, by omega, by omega, fun _ => ⟨by omega, by omega⟩, by omega, by omega, by omega, by omega, by omega, by omega⟩
  | mass f v w ldV ldW k h =>
    unfold massMatrixMatvec at h
    split_ifs at h with h1 h2
    · simp only [Outcome.ok.injEq, Prod.mk.injEq] at h
      obtain ⟨rfl, -⟩ := h
      exact ⟨⟨[], by simp⟩, rfl, rfl, rfl, rfl, fun _ => ⟨rfl, rfl⟩, by omega, by omega, by omega, by omega, by omega, by omega⟩
    · obtain ⟨a, -, h⟩ := obind h
      simp only [Outcome.ok.injEq, Prod.mk.injEq] at h
      obtain ⟨rfl, -⟩ := h
      rename_i n _
      dsimp only
      simp only [C29_append]
      simp only [C29_matrixCols, C29_massCols, C29_precondCols, C29_sumCalls, C29_sumVolume, C29_bcastCalls,
  C29_bcastVolume]
      exact ⟨⟨_, rfl⟩, by omega, by omega, by omega, by omega, fun _ => ⟨by omega, by omega⟩, by omega, by omega, by omega, by omega, by omega, by omega⟩
  | precond f v w ldV ldW h =>
    unfold applyPreconditioner at h
    split_ifs at h with h1 h2
    · simp only [Outcome.ok.injEq, Prod.mk.injEq] at h
      obtain ⟨rfl, -⟩ := h
      exact ⟨⟨[], by simp⟩, rfl, rfl, rfl, rfl, fun _ => ⟨rfl, rfl⟩, by omega, by omega, by omega, by omega, by omega, by omega⟩
    · obtain ⟨a, -, h⟩ := obind h
      obtain ⟨a2, -, h⟩ := obind h
      obtain ⟨a3, -, h⟩ := obind h
      dsimp only at h
      split_ifs at h
      all_goals
        obtain ⟨a4, -, h⟩ := obind h
        obtain ⟨a5, -, h⟩ := obind h
        simp only [Outcome.ok.injEq, Prod.mk.injEq] at h
        obtain ⟨rfl, -⟩ := h
        rename_i n _ _ _
        dsimp only
        simp only [C29_append]
        simp only [C29_matrixCols, C29_massCols, C29_precondCols, C29_sumCalls, C29_sumVolume, C29_bcastCalls,
  C29_bcastVolume]
        exact ⟨⟨_, rfl⟩, by omega, by omega, by omega, by omega, fun _ => ⟨by omega, by omega⟩, by omega, by omega, by omega, by omega, by omega, by omega⟩
    · obtain ⟨a, -, h⟩ := obind h
      simp only [Outcome.ok.injEq, Prod.mk.injEq] at h
      obtain ⟨rfl, -⟩ := h
      exact ⟨⟨[], by simp⟩, rfl, rfl, rfl, rfl, fun _ => ⟨rfl, rfl⟩, by dsimp only; omega, by dsimp only; omega, by dsimp only; omega, by dsimp only; omega, by dsimp only; omega, by dsimp only; omega⟩
  | sum t f ierr b h =>
    rename_i n _
    rcases gsum t f ierr b h with ⟨e1, e2⟩ | ⟨e1, e2⟩
    · rw [e1, e2]
      exact ⟨⟨[], by simp⟩, rfl, rfl, rfl, rfl, fun _ => ⟨rfl, rfl⟩, by omega, by omega, by omega, by omega, by omega, by omega⟩
    · rw [e1, e2]
      simp only [C29_append, C29_plusSum]
      simp only [C29_matrixCols, C29_massCols, C29_precondCols, C29_sumCalls, C29_sumVolume, C29_bcastCalls,
  C29_bcastVolume]
      exact ⟨⟨_, rfl⟩, by omega, by omega, by omega, by omega, fun _ => ⟨by omega, by omega⟩, by omega, by omega, by omega, by omega, by omega, by omega⟩
  | bcast t f ierr b h =>
    rename_i n
    unfold broadcast at h
    by_cases h1 : c.numProcs = 1
    · rw [if_pos h1] at h
      simp only [Outcome.ok.injEq] at h
      subst h
      exact ⟨⟨[], by simp⟩, rfl, rfl, rfl, rfl, fun _ => ⟨rfl, rfl⟩, by omega, by omega, by omega, by omega, by omega, by omega⟩
    rw [if_neg h1] at h
    by_cases h2 : c.hasBcast = true
    · rw [if_pos h2] at h
      obtain ⟨a, ha, h⟩ := obind h
      obtain ⟨a2, -, ha⟩ := obind ha
      obtain ⟨a3, -, ha⟩ := obind ha
      dsimp only at ha
      split_ifs at ha
      obtain ⟨a4, -, ha⟩ := obind ha
      simp only [Outcome.ok.injEq] at ha h
      subst ha
      subst h
      dsimp only
      simp only [C29_append]
      simp only [C29_matrixCols, C29_massCols, C29_precondCols, C29_sumCalls, C29_sumVolume, C29_bcastCalls,
  C29_bcastVolume]
      exact ⟨⟨_, rfl⟩, by omega, by omega, by omega, by omega, fun _ => ⟨by omega, by omega⟩, by omega, by omega, by omega, by omega, by omega, by omega⟩
    · rw [if_neg h2] at h
      obtain ⟨a, ha, h⟩ := obind h
      obtain ⟨a2, ha2, ha⟩ := obind ha
      simp only [Outcome.ok.injEq] at ha h
      subst ha
      subst h
      have key : ∀ s0 : St V, s0.stats = s.stats → s0.trace = s.trace →
          globalSum c.env t c.sumType c.numProcs c.hasSum f ierr s0 b = .ok a2 →
          a2.1.stats = s.stats ∧ a2.1.trace = s.trace ∨
          a2.1.stats = C29_plusSum s.stats n ∧
          a2.1.trace = s.trace ++ [.sum n] := by
        intro s0 p1 p2 p3
        have := gsum t f ierr b p3
        rw [p1, p2] at this
        exact this
      have hk : a2.1.stats = s.stats ∧ a2.1.trace = s.trace ∨
          a2.1.stats = C29_plusSum s.stats n ∧
          a2.1.trace = s.trace ++ [.sum n] := by
        refine key _ ?_ ?_ ha2
        · split_ifs <;> rfl
        · split_ifs <;> rfl
      rcases hk with ⟨e1, e2⟩ | ⟨e1, e2⟩
      · dsimp only
        rw [e1, e2]
        exact ⟨⟨[], by simp⟩, rfl, rfl, rfl, rfl, fun hc => absurd hc h2, by omega, by omega, by omega, by omega, by omega, by omega⟩
      · dsimp only
        rw [e1, e2]
        simp only [C29_append, C29_plusSum]
        simp only [C29_matrixCols, C29_massCols, C29_precondCols, C29_sumCalls, C29_sumVolume, C29_bcastCalls,
          C29_bcastVolume]
        exact ⟨⟨_, rfl⟩, by omega, by omega, by omega, by omega, fun hc => absurd hc h2, by omega, by omega, by omega, by omega, by omega, by omega⟩
  | «local» h =>
    exact ⟨⟨[], by simp⟩, rfl, rfl, rfl, rfl, fun _ => ⟨rfl, rfl⟩, by dsimp only; omega, by dsimp only; omega, by dsimp only; omega, by dsimp only; omega, by dsimp only; omega, by dsimp only; omega⟩

/-- In every run on every process: starting from the reset counters, after any history of operations
`numMatvecs` is the number of columns given to the matrix and mass matrix products, `numPreconds` the number of
columns given to the preconditioner, `numGlobalSum` and `volumeGlobalSum` the calls of `globalSumReal` and the
numbers given to it, and, when the user provides `broadcastReal`, `numBroadcast` and `volumeBroadcast` the
calls of `broadcastReal` and the numbers given to it. -/
theorem C29_counters_agree_partial (c : C29_Cfg V) {s s' : St V} (h : C29_Steps c s s')
    (h0 : s.stats = zeroCounters) (ht : s.trace = []) :
    s'.stats.numMatvecs = C29_total C29_matrixCols s'.trace + C29_total C29_massCols s'.trace ∧
    s'.stats.numPreconds = C29_total C29_precondCols s'.trace ∧
    s'.stats.numGlobalSum = C29_total C29_sumCalls s'.trace ∧
    s'.stats.volumeGlobalSum = C29_total C29_sumVolume s'.trace ∧
    (c.hasBcast = true → s'.stats.numBroadcast = C29_total C29_bcastCalls s'.trace ∧
      s'.stats.volumeBroadcast = C29_total C29_bcastVolume s'.trace) := by
  induction h with
  | refl => rw [h0, ht]; exact ⟨rfl, rfl, rfl, rfl, fun _ => ⟨rfl, rfl⟩⟩
  | tail h1 h2 ih =>
    obtain ⟨i1, i2, i3, i4, i5⟩ := ih
    obtain ⟨-, e1, e2, e3, e4, e5, -⟩ := C29_step_effect c h2
    refine ⟨by omega, by omega, by omega, by omega, ?_⟩
    intro hb
    have := i5 hb
    have := e5 hb
    omega

/-- The counters never decrease during a run, and calls are only added to the history. -/
theorem C29_counters_monotone (c : C29_Cfg V) {s s' : St V} (h : C29_Steps c s s') :
    s.trace <+: s'.trace ∧
    s.stats.numMatvecs ≤ s'.stats.numMatvecs ∧ s.stats.numPreconds ≤ s'.stats.numPreconds ∧
    s.stats.numGlobalSum ≤ s'.stats.numGlobalSum ∧ s.stats.volumeGlobalSum ≤ s'.stats.volumeGlobalSum ∧
    s.stats.numBroadcast ≤ s'.stats.numBroadcast ∧
    s.stats.volumeBroadcast ≤ s'.stats.volumeBroadcast := by
  induction h with
  | refl => exact ⟨List.prefix_refl _, by omega, by omega, by omega, by omega, by omega, by omega⟩
  | tail h1 h2 ih =>
    obtain ⟨i0, i1, i2, i3, i4, i5, i6⟩ := ih
    obtain ⟨⟨l, e0⟩, -, -, -, -, -, e1, e2, e3, e4, e5, e6⟩ := C29_step_effect c h2
    refine ⟨?_, by omega, by omega, by omega, by omega, by omega, by omega⟩
    rw [e0]
    exact i0.trans (List.prefix_append _ _)

/-- A run for the cases: two processes, double precision, one array. -/
def C29_cfg (hasBcast : Bool) : C29_Cfg ℤ :=
  ⟨⟨fun _ => true, fun _ _ x => x, 0⟩, .double, .double, .double, .double, .double, .double, true, 2, 0, true,
    hasBcast, 0⟩

def C29_state : St ℤ :=
  ⟨⟨fun b => if b < 2 then some ⟨.double, 12, fun k => k⟩ else none, 2⟩, zeroCounters, []⟩

/-- A history with a product of two columns, a reduction of three numbers and a broadcast of four. -/
example : ∃ s', C29_Steps (C29_cfg true) C29_state s' ∧ s'.stats = ⟨2, 0, 1, 3, 1, 4⟩ ∧
    s'.trace = [.matrix 2, .sum 3, .bcast 4] := by
  refine ⟨_, .tail (.tail (.tail (.refl _)
    (.matrix (m := 3) (n := 2) (fun x => (x, 0)) ⟨0, 0⟩ ⟨1, 0⟩ 3 3 1 rfl))
    (.sum (n := 3) .double (fun x => x) 0 ⟨0, 0⟩ rfl))
    (.bcast (n := 4) .double (fun x => x) 0 ⟨0, 0⟩ rfl), rfl, rfl⟩

/-- When broadcasts are emulated (no `broadcastReal`), `numBroadcast` counts calls that were not made. -/
theorem C29_emulated_broadcast_violated : ∃ s', C29_Steps (C29_cfg false) C29_state s' ∧
    s'.stats.numBroadcast = 1 ∧ C29_total C29_bcastCalls s'.trace = 0 :=
  ⟨_, .tail (.refl _) (.bcast (n := 4) .double (fun x => x) 0 ⟨0, 0⟩ rfl), rfl, rfl⟩

/-- The products with the mass matrix are added to the products with the matrix: `numMatvecs` is not the number
of columns given to `matrixMatvec` alone. -/
theorem C29_mass_products_counted_violated : ∃ s', C29_Steps (C29_cfg false) C29_state s' ∧
    s'.stats.numMatvecs = 2 ∧ C29_total C29_matrixCols s'.trace = 0 :=
  ⟨_, .tail (.refl _) (.mass (m := 3) (n := 2) (fun x => (x, 0)) ⟨0, 0⟩ ⟨1, 0⟩ 3 3 1 rfl), rfl, rfl⟩

/-- The reduction that coordinates the exit calls `globalSumReal` without being counted. -/
theorem C29_exit_reduction_violated (s : St V) :
    C29_total C29_sumCalls (exitSum true s).trace = C29_total C29_sumCalls s.trace + 1 ∧
    (exitSum true s).stats = s.stats := by
  unfold exitSum
  simp only [if_true]
  exact ⟨C29_append _ _ _, trivial⟩

end Verif.Props
