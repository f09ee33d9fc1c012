import Verif.Spec.Precision
import Verif.Model.Driver

/-!
# C71: precisions

The user's functions get vectors in the precision asked for, and the solver takes for its rounding level that of the least precise
operation.
-/

namespace Verif.Props
open Verif.Precision Verif.Spec

/-- **C71**, types, exactly: a function gets vectors in the type last set for it, or, if that is the default, in the precision of the
first call made since it was set. -/
theorem C71_types (l1 l2 : List Ev) (f : Fn) (t : Op) (c : Ty) (h2 : ∀ h' t', Ev.set f h' t' ∉ l2) :
    (after fresh (l1 ++ .set f true t :: l2 ++ [.call c])).ty f =
      if t = .default then .ty ((calls l2).headD c) else t := by
  have key : ∀ (l : List Ev) (p : P), (∀ h' t', Ev.set f h' t' ∉ l) → p.has f = true →
      ((l ++ [Ev.call c]).foldl step p).ty f = if p.ty f = .default then .ty ((calls l).headD c) else p.ty f := by
    intro l
    induction l with
    | nil =>
      intro p _ hp
      simp [step, setTypes, hp, calls]
    | cons e l ih =>
      intro p hl hp
      rw [List.cons_append, List.foldl_cons]
      have hl' : ∀ h' t', Ev.set f h' t' ∉ l := fun h' t' h => hl h' t' (List.mem_cons_of_mem _ h)
      cases e with
      | set g b u =>
        have hg : f ≠ g := by
          rintro rfl
          exact hl b u (List.mem_cons_self ..)
        rw [ih _ hl' (by simp [step, hg, hp])]
        simp [step, hg, calls]
      | call d =>
        rw [ih _ hl' (by simp [step, setTypes, hp])]
        by_cases hd : p.ty f = .default
        · simp [step, setTypes, hp, hd, calls]
        · simp [step, setTypes, hd]
  unfold after
  rw [List.append_assoc, List.foldl_append, List.cons_append, List.foldl_cons, key l2 _ h2 (by simp [step])]
  simp [step]

private theorem asked_last (l1 l2 : List Ev) (f : Fn) (h : Bool) (t : Op) (h2 : ∀ h' t', Ev.set f h' t' ∉ l2) :
    asked f (l1 ++ .set f h t :: l2) = t := by
  have key : ∀ (l : List Ev) (a : Op), (∀ h' t', Ev.set f h' t' ∉ l) → l.foldl (note f) a = a := by
    intro l
    induction l with
    | nil => intro a _; rfl
    | cons e l ih =>
      intro a hl
      rw [List.foldl_cons, ih _ (fun h' t' h => hl h' t' (List.mem_cons_of_mem _ h))]
      cases e with
      | set g b u =>
        refine if_neg ?_
        rintro rfl
        exact hl b u (List.mem_cons_self ..)
      | call d => rfl
  unfold asked
  rw [List.foldl_append, List.foldl_cons, key l2 _ h2]
  simp [note]

/-- **C71**, types: a function gets what the manual promises, if its type was set to other than the default, or if the calls since it
was set are in one precision.  Missing: calls in several precisions (`C71_reuse_violated`). -/
theorem C71_types_partial (l1 l2 : List Ev) (f : Fn) (t : Op) (c : Ty) (h2 : ∀ h' t', Ev.set f h' t' ∉ l2)
    (hc : t = .default → ∀ c', Ev.call c' ∈ l2 → c' = c) :
    (after fresh (l1 ++ .set f true t :: l2 ++ [.call c])).ty f = promised f (l1 ++ .set f true t :: l2) c := by
  rw [C71_types l1 l2 f t c h2]
  unfold promised
  rw [asked_last l1 l2 f true t h2]
  by_cases ht : t = .default
  · rw [if_pos ht, if_pos ht]
    congr 1
    cases hl : calls l2 with
    | nil => rfl
    | cons d m =>
      have hd : d ∈ calls l2 := hl ▸ List.mem_cons_self ..
      unfold calls at hd
      obtain ⟨e, he, hed⟩ := List.mem_filterMap.1 hd
      cases e with
      | set g b u => cases hed
      | call d' =>
        cases hed
        exact hc ht _ he
  · rw [if_neg ht, if_neg ht]

/-- **C71** fails for a structure used in one precision and then in another: the first call replaces the default for good, so that the
functions keep getting vectors in the precision of the first call. -/
theorem C71_reuse_violated (f : Fn) (c c' : Ty) (h : c ≠ c') :
    (after fresh [.set f true .default, .call c, .call c']).ty f = .ty c ∧
    promised f [.set f true .default, .call c] c' = .ty c' ∧
    (after fresh [.set f true .default, .call c, .call c']).ty f ≠ promised f [.set f true .default, .call c] c' := by
  have h1 : (after fresh [.set f true .default, .call c, .call c']).ty f = .ty c := by
    simp [after, step, setTypes, fresh]
  have h2 : promised f [.set f true .default, .call c] c' = .ty c' := by
    simp [promised, asked, note]
  refine ⟨h1, h2, ?_⟩
  rw [h1, h2]
  intro hc
  cases hc
  exact h rfl

variable {K : Type} [LinearOrder K]

private theorem machEps_ok {B : Build} {eps : Ty → K} {w : Ty} {t : Op} {v : K} (h : machEps B eps w t = .ok v) :
    v = eps (precisionOf w t) := by
  cases t with
  | default => cases h; rfl
  | int => cases h
  | ty t =>
    simp only [machEps] at h
    split at h
    · rename_i ht
      cases h
      rw [precisionOf, ht]
    · split at h
      · cases h; rfl
      · cases h

private theorem machEps_total (B : Build) (eps : Ty → K) (w : Ty) (t : Op) :
    (Compiled B w t ∧ machEps B eps w t = .ok (eps (precisionOf w t))) ∨ (¬ Compiled B w t ∧ machEps B eps w t = .err (-44)) := by
  cases t with
  | default => exact Or.inl ⟨trivial, rfl⟩
  | int => exact Or.inr ⟨fun h => h, rfl⟩
  | ty t =>
    simp only [machEps, Compiled, precisionOf]
    by_cases h1 : t = w
    · subst h1; simp
    · by_cases h2 : B.has t = true
      · simp [h1, h2]
      · simp [h1, h2]

/-- **C71**, rounding of the products: the level is the greatest of those of the solver and of the products with the matrices. -/
theorem C71_matrix (B : Build) (eps : Ty → K) (w : Ty) (p : P) (v : K) (h : epsMatrix B eps w p = .ok v) :
    IsGreatest (productLevels eps w p) v := by
  unfold epsMatrix at h
  rcases machEps_total B eps w (p.ty .matrixMatvec) with ⟨_, ha⟩ | ⟨_, ha⟩
  swap
  · rw [ha] at h; cases h
  rw [ha, Outcome.bind_ok] at h
  by_cases hm : p.has .massMatrixMatvec = true
  · rw [if_pos hm] at h
    rcases machEps_total B eps w (p.ty .massMatrixMatvec) with ⟨_, hb⟩ | ⟨_, hb⟩
    swap
    · rw [hb] at h; cases h
    rw [hb, Outcome.bind_ok] at h
    cases h
    refine ⟨?_, ?_⟩
    · rcases max_choice (max (eps w) (eps (precisionOf w (p.ty .matrixMatvec)))) (eps (precisionOf w (p.ty .massMatrixMatvec))) with h | h
      · rw [h]
        rcases max_choice (eps w) (eps (precisionOf w (p.ty .matrixMatvec))) with h | h
        · rw [h]; exact Or.inl rfl
        · rw [h]; exact Or.inr (Or.inl rfl)
      · rw [h]; exact Or.inr (Or.inr ⟨hm, rfl⟩)
    · rintro x (rfl | rfl | ⟨_, rfl⟩)
      · exact le_max_of_le_left (le_max_left _ _)
      · exact le_max_of_le_left (le_max_right _ _)
      · exact le_max_right _ _
  · rw [if_neg hm, Outcome.bind_ok] at h
    cases h
    refine ⟨?_, ?_⟩
    · rw [max_eq_left (le_max_left _ _)]
      rcases max_choice (eps w) (eps (precisionOf w (p.ty .matrixMatvec))) with h | h
      · rw [h]; exact Or.inl rfl
      · rw [h]; exact Or.inr (Or.inl rfl)
    · rintro x (rfl | rfl | ⟨h, rfl⟩)
      · exact le_max_right _ _
      · exact le_max_of_le_left (le_max_right _ _)
      · exact absurd h hm

/-- **C71**, rounding of what is exchanged: the level is the greatest of those of the solver and, with several processes, of the
reductions and broadcasts. -/
theorem C71_orth (B : Build) (eps : Ty → K) (w : Ty) (p : P) (v : K) (h : epsOrth B eps w p = .ok v) :
    IsGreatest (exchangeLevels eps w p) v := by
  unfold epsOrth at h
  by_cases hn : 1 < p.numProcs
  swap
  · rw [if_neg hn, if_neg (fun h => hn h.1), Outcome.bind_ok, Outcome.bind_ok] at h
    cases h
    refine ⟨by rw [max_self, max_self]; exact Or.inl rfl, ?_⟩
    rintro x (rfl | ⟨h, _⟩ | ⟨h, _⟩)
    · exact le_max_right _ _
    · exact absurd h hn
    · exact absurd h hn
  rw [if_pos hn] at h
  rcases machEps_total B eps w (p.ty .globalSumReal) with ⟨_, ha⟩ | ⟨_, ha⟩
  swap
  · rw [ha] at h; cases h
  rw [ha, Outcome.bind_ok] at h
  by_cases hm : p.has .broadcastReal = true
  · rw [if_pos ⟨hn, hm⟩] at h
    rcases machEps_total B eps w (p.ty .broadcastReal) with ⟨_, hb⟩ | ⟨_, hb⟩
    swap
    · rw [hb] at h; cases h
    rw [hb, Outcome.bind_ok] at h
    cases h
    refine ⟨?_, ?_⟩
    · rcases max_choice (max (eps w) (eps (precisionOf w (p.ty .globalSumReal)))) (eps (precisionOf w (p.ty .broadcastReal))) with h | h
      · rw [h]
        rcases max_choice (eps w) (eps (precisionOf w (p.ty .globalSumReal))) with h | h
        · rw [h]; exact Or.inl rfl
        · rw [h]; exact Or.inr (Or.inl ⟨hn, rfl⟩)
      · rw [h]; exact Or.inr (Or.inr ⟨hn, hm, rfl⟩)
    · rintro x (rfl | ⟨_, rfl⟩ | ⟨_, _, rfl⟩)
      · exact le_max_of_le_left (le_max_left _ _)
      · exact le_max_of_le_left (le_max_right _ _)
      · exact le_max_right _ _
  · rw [if_neg (fun h => hm h.2), Outcome.bind_ok] at h
    cases h
    refine ⟨?_, ?_⟩
    · rw [max_eq_left (le_max_left _ _)]
      rcases max_choice (eps w) (eps (precisionOf w (p.ty .globalSumReal))) with h | h
      · rw [h]; exact Or.inl rfl
      · rw [h]; exact Or.inr (Or.inl ⟨hn, rfl⟩)
    · rintro x (rfl | ⟨_, rfl⟩ | ⟨_, h, rfl⟩)
      · exact le_max_right _ _
      · exact le_max_of_le_left (le_max_right _ _)
      · exact absurd h hm

open Classical in
/-- **C71**, failures: there is a level exactly when the library was compiled with the precisions in use; otherwise the code is -44. -/
theorem C71_available (B : Build) (eps : Ty → K) (w : Ty) (p : P) :
    (if Compiled B w (p.ty .matrixMatvec) ∧ (p.has .massMatrixMatvec = true → Compiled B w (p.ty .massMatrixMatvec)) then
      ∃ v, epsMatrix B eps w p = .ok v else epsMatrix B eps w p = .err (-44)) ∧
    (if 1 < p.numProcs → Compiled B w (p.ty .globalSumReal) ∧ (p.has .broadcastReal = true → Compiled B w (p.ty .broadcastReal)) then
      ∃ v, epsOrth B eps w p = .ok v else epsOrth B eps w p = .err (-44)) := by
  have g : ∀ x, (Outcome.err x >>= fun (a : K) => (Outcome.ok a : Outcome K)) = .err x := fun _ => rfl
  constructor
  · unfold epsMatrix
    rcases machEps_total B eps w (p.ty .matrixMatvec) with ⟨ca, ha⟩ | ⟨ca, ha⟩
    · by_cases hm : p.has .massMatrixMatvec = true
      · rcases machEps_total B eps w (p.ty .massMatrixMatvec) with ⟨cb, hb⟩ | ⟨cb, hb⟩
        · rw [if_pos ⟨ca, fun _ => cb⟩, ha, Outcome.bind_ok, if_pos hm, hb]
          exact ⟨_, rfl⟩
        · rw [if_neg (fun h => cb (h.2 hm)), ha, Outcome.bind_ok, if_pos hm, hb]
          rfl
      · rw [if_pos ⟨ca, fun h => absurd h hm⟩, ha, Outcome.bind_ok, if_neg hm]
        exact ⟨_, rfl⟩
    · rw [if_neg (fun h => ca h.1), ha]
      rfl
  · unfold epsOrth
    by_cases hn : 1 < p.numProcs
    · rcases machEps_total B eps w (p.ty .globalSumReal) with ⟨ca, ha⟩ | ⟨ca, ha⟩
      · by_cases hm : p.has .broadcastReal = true
        · rcases machEps_total B eps w (p.ty .broadcastReal) with ⟨cb, hb⟩ | ⟨cb, hb⟩
          · rw [if_pos (fun _ => ⟨ca, fun _ => cb⟩), if_pos hn, ha, Outcome.bind_ok, if_pos ⟨hn, hm⟩, hb]
            exact ⟨_, rfl⟩
          · rw [if_neg (fun h => cb ((h hn).2 hm)), if_pos hn, ha, Outcome.bind_ok, if_pos ⟨hn, hm⟩, hb]
            rfl
        · rw [if_pos (fun _ => ⟨ca, fun h => absurd h hm⟩), if_pos hn, ha, Outcome.bind_ok, if_neg (fun h => hm h.2)]
          exact ⟨_, rfl⟩
      · rw [if_neg (fun h => ca (h hn).1), if_pos hn, ha]
        rfl
    · rw [if_pos (fun h => absurd h hn), if_neg hn, if_neg (fun h => hn h.1)]
      exact ⟨_, rfl⟩

/-- **C71**, the working precision: that of `internalPrecision`, or of the call by default, if the library was compiled with it; otherwise
the code is -44. -/
theorem C71_working (B : Build) (c : Ty) (p : P) :
    (∀ t, working B c p = .ok t ↔ B.has t = true ∧ (p.internalPrecision = .ty t ∨ (p.internalPrecision = .default ∧ t = c))) ∧
    ((∃ t, working B c p = .ok t) ∨ working B c p = .err (-44)) := by
  unfold working
  cases p.internalPrecision with
  | default =>
    by_cases h : B.has c = true
    · simp [h]
      intro t
      constructor
      · rintro rfl; exact ⟨h, rfl⟩
      · rintro ⟨_, rfl⟩; rfl
    · simp [h]
      intro t ht hc
      subst hc
      exact h ht
  | int => simp
  | ty u =>
    by_cases h : B.has u = true
    · refine ⟨fun t => ?_, Or.inl ⟨u, by simp [h]⟩⟩
      simp only [reduceCtorEq, if_false, h, if_true, Outcome.ok.injEq, Op.ty.injEq, false_and, or_false]
      constructor
      · rintro rfl; exact ⟨h, rfl⟩
      · rintro ⟨_, rfl⟩; rfl
    · simp [h]
      intro t ht hc
      subst hc
      exact h ht

/-! ## The driver of C12 sets the same types -/

/-- The member that holds the function, and the one that holds its type. -/
def C71_ptr : Fn → Eigs.PF
  | .matrixMatvec => .matrixMatvec | .massMatrixMatvec => .massMatrixMatvec | .applyPreconditioner => .applyPreconditioner
  | .globalSumReal => .globalSumReal | .broadcastReal => .broadcastReal | .convTestFun => .convTestFun | .monitorFun => .monitorFun

def C71_typ : Fn → Eigs.IF
  | .matrixMatvec => .matrixMatvec_type | .massMatrixMatvec => .massMatrixMatvec_type
  | .applyPreconditioner => .applyPreconditioner_type | .globalSumReal => .globalSumReal_type
  | .broadcastReal => .broadcastReal_type | .convTestFun => .convTestFun_type | .monitorFun => .monitorFun_type

/-- The values of the enumeration. -/
def C71_op (z : Int) : Op :=
  if z = 0 then .default else if z = 1 then .ty .half else if z = 2 then .ty .float else if z = 3 then .ty .double
  else if z = 4 then .ty .quad else .int

def C71_code : Ty → Int
  | .half => 1 | .float => 2 | .double => 3 | .quad => 4

/-- A structure seen as one of this file. -/
def C71_view {D : Type} (s : Members.Store Eigs.IF Eigs.DF Eigs.PF D) : P where
  has := fun f => decide (s.p (C71_ptr f) ≠ 0)
  ty := fun f => C71_op (s.i (C71_typ f))
  internalPrecision := C71_op (s.i .internalPrecision)
  numProcs := s.i .numProcs

theorem C71_op_default (z : Int) : C71_op z = .default ↔ z = 0 := by
  unfold C71_op
  split_ifs <;> simp_all

theorem C71_op_code (c : Ty) : C71_op (C71_code c) = .ty c := by cases c <;> rfl

private def one {D : Type} (z : Int) (s : Eigs.EP D) (q : Eigs.PF) (t : Eigs.IF) : Eigs.EP D :=
  if s.p q ≠ 0 ∧ s.i t = 0 then s.setI t z else s

private theorem one_p {D : Type} (z : Int) (s : Eigs.EP D) (q : Eigs.PF) (t : Eigs.IF) : (one z s q t).p = s.p := by
  unfold one; split <;> rfl

private theorem one_i {D : Type} (z : Int) (s : Eigs.EP D) (q : Eigs.PF) (t g : Eigs.IF) :
    (one z s q t).i g = if g = t ∧ s.p q ≠ 0 ∧ s.i t = 0 then z else s.i g := by
  unfold one
  by_cases h : s.p q ≠ 0 ∧ s.i t = 0
  · rw [if_pos h]
    by_cases hg : g = t
    · rw [if_pos ⟨hg, h⟩]; exact if_pos hg
    · rw [if_neg (fun h => hg h.1)]; exact if_neg hg
  · rw [if_neg h, if_neg (fun h' => h h'.2)]

private theorem driver_one {D : Type} (z : Int) (s : Eigs.EP D) : Eigs.defaultTypes z s =
    one z (one z (one z (one z (one z (one z (one z s .matrixMatvec .matrixMatvec_type) .massMatrixMatvec .massMatrixMatvec_type)
      .applyPreconditioner .applyPreconditioner_type) .globalSumReal .globalSumReal_type)
      .broadcastReal .broadcastReal_type) .convTestFun .convTestFun_type) .monitorFun .monitorFun_type := by
  unfold Eigs.defaultTypes one
  congr!

/-- **C71**: what the model of the driver does to a structure is what `setTypes` does to its view. -/
theorem C71_driver {D : Type} (c : Ty) (s : Eigs.EP D) :
    C71_view (Eigs.defaultTypes (C71_code c) s) = setTypes c (C71_view s) := by
  have hi : ∀ f, (Eigs.defaultTypes (C71_code c) s).i (C71_typ f) =
      if s.p (C71_ptr f) ≠ 0 ∧ s.i (C71_typ f) = 0 then C71_code c else s.i (C71_typ f) := by
    intro f
    rw [driver_one]
    cases f <;> simp [one_i, one_p, C71_typ, C71_ptr] <;> congr
  have ho : ∀ g, g ∉ [Eigs.IF.matrixMatvec_type, .massMatrixMatvec_type, .applyPreconditioner_type, .globalSumReal_type,
      .broadcastReal_type, .convTestFun_type, .monitorFun_type] → (Eigs.defaultTypes (C71_code c) s).i g = s.i g := by
    intro g hg
    simp only [List.mem_cons, not_or] at hg
    obtain ⟨h1, h2, h3, h4, h5, h6, h7, _⟩ := hg
    rw [driver_one]
    simp [one_i, h1, h2, h3, h4, h5, h6, h7]
  have hP : (Eigs.defaultTypes (C71_code c) s).p = s.p := by
    rw [driver_one]
    simp only [one_p]
  unfold C71_view setTypes
  rw [hP, ho _ (by decide), ho _ (by decide)]
  congr 1
  funext f
  rw [hi]
  dsimp only
  by_cases h : s.p (C71_ptr f) ≠ 0 ∧ s.i (C71_typ f) = 0
  · rw [if_pos h, if_pos ⟨decide_eq_true h.1, (C71_op_default _).2 h.2⟩, C71_op_code]
  · rw [if_neg h, if_neg]
    rintro ⟨h1, h2⟩
    exact h ⟨of_decide_eq_true h1, (C71_op_default _).1 h2⟩

/-! ## The hypotheses are met -/

/-- A program that calls the solver twice, with a product in single precision and a preconditioner in that of the calls. -/
example : let l2 : List Ev := [.set .applyPreconditioner true .default, .call .double]
    (∀ h' t', Ev.set .matrixMatvec h' t' ∉ l2) ∧
    (after fresh ([] ++ .set .matrixMatvec true (.ty .float) :: l2 ++ [.call .double])).ty .matrixMatvec = .ty .float ∧
    (after fresh ([] ++ .set .matrixMatvec true (.ty .float) :: l2 ++ [.call .double])).ty .applyPreconditioner = .ty .double := by
  refine ⟨?_, rfl, rfl⟩
  intro h' t' h
  simp at h

/-- A level: products in single precision, work in double precision. -/
example : epsMatrix ⟨false, true, false⟩ (fun t => match t with
    | .half => 1000 | .float => 100 | .double => 10 | .quad => 1 : Ty → ℕ) .double
    { fresh with has := fun _ => true, ty := fun f => if f = .matrixMatvec then .ty .float else .default } = .ok 100 := by
  decide

end Verif.Props
