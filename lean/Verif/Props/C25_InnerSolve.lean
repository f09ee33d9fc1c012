import Verif.Proofs.InnerSolve
import Verif.Model.Permute
import Mathlib.Algebra.Field.Rat
import Mathlib.Algebra.Module.Prod

/-!
# C25: the inner solver on a block

The caller gives `B` equations (`Input`) and gets the array of solutions `sol`.  `Spec.Qmr` is the method for one equation.
-/

set_option linter.unusedSectionVars false
set_option linter.unusedVariables false

namespace Verif.Props
open Verif Verif.Inner Verif.Spec Verif.Spec.Qmr

variable {K V M : Type} [Field K] [AddCommGroup V] [Module K V]

/-- The columns stop in this order: when a column has stopped, so have the ones after it.  Looked at for every equation on its own, at both
stopping tests of every iteration. -/
def C25_Order (o : Ops K V M) (c : Cfg) (junk : K) (maxIts B : ℕ) (a : ℕ → Input K V M) : Prop :=
  ∀ t i i', i < i' → i' < B →
    ((amid o c junk maxIts (a i) t).done = true → (amid o c junk maxIts (a i') t).done = true) ∧
    ((before o c junk maxIts (a i) t).done = true → (before o c junk maxIts (a i') t).done = true)

/-- When the columns stop from the last to the first (in particular for a block of one column), the block solver gives every column the solution it gets
on its own, and the results do not depend on uninitialised memory.  Missing for the full claim: other orders, refuted by `C25_memory_violated`
and `C25_projector_violated`. -/
theorem C25_columns_partial (o : Ops K V M) (c : Cfg) (junk : K) (maxIts B : ℕ) (a : ℕ → Input K V M)
    (h : C25_Order o c junk maxIts B a) :
    ∃ s, solve o c junk maxIts B a = some s ∧ IsPermOn B s.p ∧ ∀ k < B, (s.vec k).sol = solution o c junk maxIts (a (s.p k)) := by
  obtain ⟨s, hs, hsh⟩ := run_shows B o c junk maxIts a (fun t i i' h1 h2 => (h t i i' h1 h2).1)
    (fun t i i' h1 h2 => (h t i i' h1 h2).2) maxIts
  refine ⟨s, hs, hsh.perm, fun k hk => ?_⟩
  by_cases e : k < s.b
  · obtain ⟨_, a1, _⟩ := hsh.act k e
    rw [a1, hsh.same k e]
    rfl
  · exact (hsh.rest k (by omega) hk).2

/-- The solution of a single equation does not depend on uninitialised memory. -/
theorem C25_clean (o : Ops K V M) (c : Cfg) (junk junk' : K) (maxIts : ℕ) (a : Input K V M) :
    solution o c junk maxIts a = solution o c junk' maxIts a := by
  have h : ∀ t, (before o c junk maxIts a t).vec = (before o c junk' maxIts a t).vec ∧
      (before o c junk maxIts a t).loc = (before o c junk' maxIts a t).loc ∧
      (before o c junk maxIts a t).done = (before o c junk' maxIts a t).done := by
    intro t
    induction t with
    | zero => exact ⟨rfl, rfl, rfl⟩
    | succ t ih =>
      simp only [before]
      revert ih
      generalize before o c junk maxIts a t = x
      generalize before o c junk' maxIts a t = y
      rintro ⟨h1, h2, h3⟩
      obtain ⟨xv, xl, xs, xt, xd⟩ := x
      obtain ⟨yv, yl, ys, yt, yd⟩ := y
      dsimp only at h1 h2 h3
      subst h1 h2 h3
      cases xd with
      | true =>
        have e : ∀ z : Column K V M, z.done = true → (if t + 1 < maxIts then third o c a (second o t (first o c t a z))
            else second o t (first o c t a z)) = z := by
          intro z hz
          rw [first_done _ _ _ _ _ hz, second_done _ _ _ hz, third_done _ _ _ _ hz, ite_self]
        rw [e _ rfl, e _ rfl]
        exact ⟨rfl, rfl, rfl⟩
      | false =>
        have e : ∀ r r' q q' : K, first o c t a ⟨xv, xl, r, q, false⟩ = { first o c t a ⟨xv, xl, r', q', false⟩ with
            theta := q
            sigma := if (first o c t a ⟨xv, xl, r', q', false⟩).done then r else (first o c t a ⟨xv, xl, r', q', false⟩).sigma } := by
          intro r r' q q'
          unfold first
          simp only [Bool.false_eq_true, if_false]
          split_ifs <;> first | rfl | simp_all
        rw [e xs ys xt yt]
        generalize first o c t a ⟨xv, xl, ys, yt, false⟩ = z
        obtain ⟨zv, zl, zs, zt, zd⟩ := z
        cases zd with
        | true =>
          have e : ∀ z : Column K V M, z.done = true → (if t + 1 < maxIts then third o c a (second o t z) else second o t z) = z := by
            intro z hz
            rw [second_done _ _ _ hz, third_done _ _ _ _ hz, ite_self]
          rw [e _ rfl, e _ rfl]
          exact ⟨rfl, rfl, rfl⟩
        | false =>
          have e : second o t ⟨zv, zl, zs, xt, false⟩ = second o t ⟨zv, zl, zs, zt, false⟩ := by
            unfold second
            simp only [Bool.false_eq_true, if_false]
          simp only [Bool.false_eq_true, if_false]
          rw [e]
          exact ⟨rfl, rfl, rfl⟩
  unfold solution
  rw [(h maxIts).1]

/-- A block of one column: no condition. -/
theorem C25_single (o : Ops K V M) (c : Cfg) (junk : K) (maxIts : ℕ) (a : ℕ → Input K V M) :
    ∃ s, solve o c junk maxIts 1 a = some s ∧ (s.vec 0).sol = solution o c junk maxIts (a 0) := by
  obtain ⟨s, hs, hp, h⟩ := C25_columns_partial o c junk maxIts 1 a (fun t i i' h1 h2 => by omega)
  refine ⟨s, hs, ?_⟩
  have h0 := h 0 (by omega)
  have hp0 : s.p 0 = 0 := by have := hp.1 0 (by omega); omega
  rw [hp0] at h0
  exact h0

/-- Whatever the order in which columns stop: the solver finishes without error after at most `maxIts` iterations and `B * maxIts` products, the
solutions are some rearrangement of the columns, and what stands at a position has been built, by sums, multiples and the operators, from the
residual of its own column: it lies in every family of sets that contains the residuals and is closed under these. -/
theorem C25_own (o : Ops K V M) (c : Cfg) (junk : K) (maxIts B : ℕ) (a : ℕ → Input K V M) (P : ℕ → V → Prop) (h0 : ∀ j, P j 0)
    (ha : ∀ j u v, P j u → P j v → P j (u + v)) (hs : ∀ j (k : K) v, P j v → P j (k • v)) (hm : ∀ j s l v, P j v → P j (o.mul s l v))
    (hp : ∀ j k r v, P j v → P j (o.prec k r v)) (hr : ∀ j < B, P j (a j).r) :
    ∃ s, solve o c junk maxIts B a = some s ∧ IsPermOn B s.p ∧ s.prods ≤ B * maxIts ∧ ∀ k < B, P (s.p k) (s.vec k).sol := by
  obtain ⟨s, e, h, hb⟩ := run_tidy B o c junk maxIts a P ⟨h0, ha, hs, hm, hp⟩ hr maxIts
  exact ⟨s, e, h.perm, hb, fun k hk => (h.mine k hk).2.2.2.2.2.2.2⟩

/-- A column that has stopped is not touched any more: from any iteration on, the positions behind the active ones keep column and solution, and no stopped
column becomes active again. -/
theorem C25_stopped (o : Ops K V M) (c : Cfg) (junk : K) (maxIts B : ℕ) (a : ℕ → Input K V M) (t u : ℕ) (s s' : St K V M)
    (h : runAt o c maxIts (init o c junk B a) t = some s) (h' : runAt o c maxIts (init o c junk B a) (t + u) = some s') :
    s'.b ≤ s.b ∧ ∀ k, s.b ≤ k → s'.p k = s.p k ∧ (s'.vec k).sol = (s.vec k).sol :=
  run_settled B o c junk maxIts a t s h u s' h'

/-! ### The limit of iterations -/

/-- The limit is the smaller of `maxInnerIterations`, if positive, and the products left, provided these fit an `int`. -/
theorem C25_limit_partial (maxMatvecs numMatvecs maxInner : Int) (h1 : 0 < maxMatvecs) (h2 : numMatvecs ≤ maxMatvecs)
    (h3 : maxMatvecs - numMatvecs < 2 ^ 31) :
    maxIterations maxMatvecs numMatvecs maxInner =
      if 0 < maxInner then min maxInner (maxMatvecs - numMatvecs) else maxMatvecs - numMatvecs := by
  unfold maxIterations toInt32
  rw [if_pos h1]
  have : (maxMatvecs - numMatvecs + 2 ^ 31) % 2 ^ 32 - 2 ^ 31 = maxMatvecs - numMatvecs := by omega
  rw [this]

/-- With the limit for the products computed from `maxMatvecs`, a block of `B` columns makes at most `B` times the products left.
Missing for the full claim, at most the products left: `C25_budget_violated`. -/
theorem C25_budget_partial (o : Ops K V M) (c : Cfg) (junk : K) (B : ℕ) (a : ℕ → Input K V M) (maxMatvecs numMatvecs maxInner : Int)
    (h1 : 0 < maxMatvecs) (h2 : numMatvecs ≤ maxMatvecs) (h3 : maxMatvecs - numMatvecs < 2 ^ 31) :
    ∃ s, solve o c junk (maxIterations maxMatvecs numMatvecs maxInner).toNat B a = some s ∧
      (s.prods : Int) ≤ B * (maxMatvecs - numMatvecs) := by
  obtain ⟨s, e, _, hb, _⟩ := C25_own o c junk (maxIterations maxMatvecs numMatvecs maxInner).toNat B a (fun _ _ => True) (fun _ => trivial)
    (fun _ _ _ _ _ => trivial) (fun _ _ _ _ => trivial) (fun _ _ _ _ _ => trivial) (fun _ _ _ _ _ => trivial) (fun _ _ => trivial)
  refine ⟨s, e, ?_⟩
  have hm : ((maxIterations maxMatvecs numMatvecs maxInner).toNat : Int) ≤ maxMatvecs - numMatvecs := by
    rw [C25_limit_partial _ _ _ h1 h2 h3]
    split_ifs
    · omega
    · omega
  calc (s.prods : Int) ≤ ((B * (maxIterations maxMatvecs numMatvecs maxInner).toNat : ℕ) : Int) := by exact_mod_cast hb
    _ = B * ((maxIterations maxMatvecs numMatvecs maxInner).toNat : Int) := by push_cast; rfl
    _ ≤ B * (maxMatvecs - numMatvecs) := Int.mul_le_mul_of_nonneg_left hm (by omega)

/-! ### Concrete blocks -/

/-- Two unknowns, the matrix with diagonal 1 and 3; a column stops at the iteration given by its `mem`.  The square root is exact on squares of
fractions and rounded elsewhere. -/
def C25_ops : Ops ℚ (ℚ × ℚ) ℕ where
  mul s l v := match l with
    | some x => let w := ((1 - s) * v.1, (3 - s) * v.2); (w.1 - (x.1 * w.1 + x.2 * w.2) * x.1, w.2 - (x.1 * w.1 + x.2 * w.2) * x.2)
    | none => ((1 - s) * v.1, (3 - s) * v.2)
  prec _ _ v := v
  dot u v := u.1 * v.1 + u.2 * v.2
  sqrt q := (Nat.sqrt q.num.toNat : ℚ) / (Nat.sqrt q.den : ℚ)
  broken s _ := decide (s = 0)
  second t _ _ _ _ _ _ _ _ m := (decide (m ≤ t), m)

/-- A column that stops at the iteration `m`. -/
def C25_input (r x : ℚ × ℚ) (m : ℕ) : Input ℚ (ℚ × ℚ) ℕ where
  shift := 0
  xk := 1
  r := r
  x := x
  rx := x
  rnorm := 2
  mem := m

/-- Two columns: the first stops at the iteration `m`, the second at `m'`. -/
def C25_pair (m m' : ℕ) : ℕ → Input ℚ (ℚ × ℚ) ℕ := fun i =>
  if i = 0 then C25_input (1, 1) (1, 0) m else C25_input (1, 2) (0, 1) m'

/-- No projectors with `x`. -/
def C25_plain : Cfg := ⟨false, .none⟩

/-- The projectors of `PRIMME_JDQMR`, `PRIMME_JDQMR_ETol` and `PRIMME_DYNAMIC` (primme_interface.c:440-449, 508-514): `LeftX` only. -/
def C25_jdqmr : Cfg := ⟨true, .none⟩

theorem C25_done_next (o : Ops K V M) (c : Cfg) (junk : K) (maxIts : ℕ) (a : Input K V M) (t : ℕ)
    (h : (before o c junk maxIts a t).done = true) :
    before o c junk maxIts a (t + 1) = before o c junk maxIts a t ∧ amid o c junk maxIts a t = before o c junk maxIts a t := by
  have h1 : first o c t a (before o c junk maxIts a t) = before o c junk maxIts a t := first_done _ _ _ _ _ h
  refine ⟨?_, h1⟩
  simp only [before]
  rw [h1, second_done _ _ _ h, third_done _ _ _ _ h, ite_self]

theorem C25_done_mono (o : Ops K V M) (c : Cfg) (junk : K) (maxIts : ℕ) (a : Input K V M) (t : ℕ)
    (h : (before o c junk maxIts a t).done = true) : ∀ u, (before o c junk maxIts a (t + u)).done = true ∧
      (amid o c junk maxIts a (t + u)).done = true := by
  intro u
  induction u with
  | zero => exact ⟨h, by rw [Nat.add_zero, (C25_done_next _ _ _ _ _ _ h).2]; exact h⟩
  | succ u ih =>
    have h1 : (before o c junk maxIts a (t + u + 1)).done = true := by rw [(C25_done_next _ _ _ _ _ _ ih.1).1]; exact ih.1
    exact ⟨h1, by rw [show t + (u + 1) = t + u + 1 from rfl, (C25_done_next _ _ _ _ _ _ h1).2]; exact h1⟩

/-- Both columns go through one iteration, the second stops, the first goes on: the order of `C25_columns_partial`. -/
theorem C25_pair_order : C25_Order C25_ops C25_plain 0 2 2 (C25_pair 1 0) := by
  intro t i i' h1 h2
  have hi : i = 0 := by omega
  have hi' : i' = 1 := by omega
  subst hi hi'
  have h : (before C25_ops C25_plain 0 2 (C25_pair 1 0 1) 1).done = true := by decide +kernel
  rcases t with _ | t
  · exact ⟨by decide +kernel, by decide +kernel⟩
  · have := C25_done_mono _ _ _ _ _ _ h t
    rw [show 1 + t = t + 1 by omega] at this
    exact ⟨fun _ => this.2, fun _ => this.1⟩

example : ∃ s, solve C25_ops C25_plain 0 2 2 (C25_pair 1 0) = some s ∧ (s.vec 0).sol = solution C25_ops C25_plain 0 2 (C25_pair 1 0 0) ∧
    solution C25_ops C25_plain 0 2 (C25_pair 1 0 0) ≠ solution C25_ops C25_plain 0 1 (C25_pair 1 0 0) := by
  obtain ⟨s, h1, h2, h3⟩ := C25_columns_partial C25_ops C25_plain 0 2 2 (C25_pair 1 0) C25_pair_order
  have hp : (solve C25_ops C25_plain 0 2 2 (C25_pair 1 0)).map (fun s => s.p 0) = some 0 := by decide +kernel
  rw [h1] at hp
  have hp : s.p 0 = 0 := by simpa using hp
  refine ⟨s, h1, ?_, by decide +kernel⟩
  have := h3 0 (by omega)
  rw [hp] at this
  exact this

/-- The other order.  The first column stops and the second goes on, at the first position: the inner products are stored by position and read by
column, so the second iteration reads an entry of `rho` that has never been written.  The solution depends on what is in that memory, and
is not the one the column gets on its own. -/
theorem C25_memory_violated : ∃ u v : ℚ × ℚ,
    (solve C25_ops C25_plain 0 2 2 (C25_pair 0 1)).map (fun s => (s.p 0, (s.vec 0).sol)) = some (1, u) ∧
    (solve C25_ops C25_plain 1 2 2 (C25_pair 0 1)).map (fun s => (s.p 0, (s.vec 0).sol)) = some (1, v) ∧ u ≠ v ∧
    u ≠ solution C25_ops C25_plain 0 2 (C25_pair 0 1 1) ∧ v ≠ solution C25_ops C25_plain 0 2 (C25_pair 0 1 1) := by
  refine ⟨(255725 / 634933, 511450 / 634933), (1377841 / 3174665, 2568482 / 3174665), ?_⟩
  decide +kernel

/-- With a left projector, which is the array `x` itself, `x` is permuted twice: after the exchange of the two columns, the remaining column is at
the first position and the vector its equation is projected against is the one of the column that stopped. -/
theorem C25_projector_violated : ∃ s, solve C25_ops C25_jdqmr 0 1 2 (C25_pair 0 1) = some s ∧ s.b = 1 ∧ s.p 0 = 1 ∧
    s.x 0 = (C25_pair 0 1 0).x ∧ s.x 0 ≠ (C25_pair 0 1 (s.p 0)).x := by
  have h : (solve C25_ops C25_jdqmr 0 1 2 (C25_pair 0 1)).map (fun s => (s.b, s.p 0, s.x 0)) = some (1, 1, (1, 0)) := by decide +kernel
  cases hs : solve C25_ops C25_jdqmr 0 1 2 (C25_pair 0 1) with
  | none => rw [hs] at h; simp at h
  | some s =>
    rw [hs] at h
    simp only [Option.map_some, Option.some.injEq, Prod.mk.injEq] at h
    obtain ⟨h1, h2, h3⟩ := h
    refine ⟨s, rfl, h1, h2, ?_, ?_⟩
    · rw [h3]; rfl
    · rw [h2]
      rw [h3]
      decide +kernel

/-- The left projector is permuted with the leading dimension `nLocal` (inner_solve.c:370, 601) although it is the array `x`, whose leading dimension is
`ldOPs`: with `ldOPs = 3` and two rows the two columns 10, 11 and 20, 21 (99 is padding) do not change places but are torn apart. -/
theorem C25_stride_violated :
    (Permute.permuteVecs 2 2 2 (⟨6, fun i => [10, 11, 99, 20, 21, 99].getD i 0⟩ : Mem.Buf ℕ) (fun i => [1, 0].getD i 0)).map
      (fun b => (List.range 6).map b.data) = some [99, 20, 10, 11, 21, 99] ∧
    (Permute.permuteVecs 2 2 3 (⟨6, fun i => [10, 11, 99, 20, 21, 99].getD i 0⟩ : Mem.Buf ℕ) (fun i => [1, 0].getD i 0)).map
      (fun b => (List.range 6).map b.data) = some [20, 21, 99, 10, 11, 99] := by
  decide +kernel

/-- Solutions do not come out in the order of the equations: two columns that stop together are exchanged. -/
theorem C25_position_violated :
    (solve C25_ops C25_plain 0 1 2 (C25_pair 0 0)).map (fun s => ((s.vec 0).sol, (s.vec 1).sol)) =
      some (solution C25_ops C25_plain 0 1 (C25_pair 0 0 1), solution C25_ops C25_plain 0 1 (C25_pair 0 0 0)) ∧
    solution C25_ops C25_plain 0 1 (C25_pair 0 0 1) ≠ solution C25_ops C25_plain 0 1 (C25_pair 0 0 0) := by
  decide +kernel

/-- One product is left, and the block of two columns makes two. -/
theorem C25_budget_violated : (solve C25_ops C25_plain 0 (maxIterations 100 99 (-1)).toNat 2 (C25_pair 5 5)).map (fun s => s.prods) =
    some 2 := by
  decide +kernel

/-- The products left do not fit an `int`: a limit of `2 ^ 32` products (the member has 64 bits) leaves no iteration at all, and the corrections are zero. -/
theorem C25_wrap_violated : (maxIterations (2 ^ 32) 10 (-1)).toNat = 0 ∧
    (solve C25_ops C25_plain 0 (maxIterations (2 ^ 32) 10 (-1)).toNat 2 (C25_pair 5 5)).map (fun s => ((s.vec 0).sol, (s.vec 1).sol)) =
      some (0, 0) := by
  decide +kernel

example : maxIterations 1000 10 (-1) = 990 ∧ maxIterations 1000 10 50 = 50 := by decide

/-- The hypotheses of `C25_own` hold for a family that tells the columns apart: vectors with zero second entry for column 0, all for the others. -/
example : ∃ P : ℕ → ℚ × ℚ → Prop, (∀ j, P j 0) ∧ (∀ j u v, P j u → P j v → P j (u + v)) ∧ (∀ j (k : ℚ) v, P j v → P j (k • v)) ∧
    (∀ j s v, P j v → P j (C25_ops.mul s none v)) ∧ P 0 (2, 0) ∧ ¬ P 0 (1, 2) ∧ P 1 (1, 2) := by
  refine ⟨fun j v => j = 0 → v.2 = 0, fun _ _ => rfl, fun j u v hu hv hj => ?_, fun j k v hv hj => ?_, fun j s v hv hj => ?_, ?_, ?_, ?_⟩
  · simp [hu hj, hv hj]
  · simp [hv hj]
  · simp [C25_ops, hv hj]
  · intro _; rfl
  · intro h; exact absurd (h rfl) (by decide)
  · intro h; exact absurd h (by decide)

end Verif.Props
