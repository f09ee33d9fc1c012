import Verif.Proofs.PyEigsh
import Verif.Props.C07_DefaultsAccepted
import Mathlib.Algebra.Field.Rat
import Mathlib.Algebra.Order.Ring.Rat
import Mathlib.Tactic.NormNum

set_option linter.unusedSectionVars false
set_option linter.unusedVariables false

/-!
# C53: the Python function `eigsh` asks the library for what its arguments say

The theorems are about `prepare`, the state in which `eigsh` calls the library, and `finish`, what it makes of the
answer.  The names of parameters and what they stand for are those of the manual (`Doc.eigsMembers`), the meaning of
`which` is the table of the documentation string (`Doc.which`).
-/

namespace Verif.Props
open Verif.Members Verif.Py

variable {K V : Type} [Field K] [LinearOrder K] [IsStrictOrderedRing K]
variable {E : Py.Env K} {B : Addrs} {zero : V} {s : Eigs.EP K} {a : EigshArgs K V} {c : Call K V}

/-- The parameters that `eigsh` sets before it stores the extra keyword arguments. -/
def C53_early : List String :=
  ["matrix", "n", "massMatrix", "numEvals", "target", "numTargetShifts", "eps", "maxBasisSize", "maxMatvecs",
   "correction_precondition", "preconditioner", "numOrthoConst", "convtest"]

private theorem not_extra {nm : String} (hk : ∀ e ∈ a.kargs, e.1 ∉ C53_early) (hn : nm ∈ C53_early) :
    nm ∉ a.kargs.map Prod.fst := by
  intro h
  obtain ⟨e, he, rfl⟩ := List.mem_map.1 h
  exact hk e he hn

/-- **The problem.**  Whatever else is asked for (including a preset method), when the library is called the structure
holds the dimension and the operator, the number of values, the tolerance, the constraints and the limit on products
that the arguments say, as long as no extra keyword argument renames them. -/
theorem C53_problem (h : prepare E B zero s a = .ok c) (hk : ∀ e ∈ a.kargs, e.1 ∉ C53_early) :
    a.A.rows = a.A.cols ∧ c.params.i .n = a.A.rows ∧ c.params.p .matrix = a.A.addr ∧
    0 < a.k ∧ a.k ≤ a.A.rows ∧ c.params.i .numEvals = a.k ∧ c.params.d .eps = a.tol ∧
    (∀ M, a.M = some M → M.rows = a.A.rows ∧ c.params.p .massMatrix = M.addr) ∧
    (∀ l, a.lock = some l → l.rows = a.A.rows ∧ c.params.i .numOrthoConst = min l.cols a.A.rows) ∧
    (∀ P, a.OPinv = some P → P.rows = a.A.rows ∧ P.cols = a.A.rows ∧ c.params.p .preconditioner = P.addr) ∧
    (∀ f, a.convtest = some f → c.params.p .convtest = f) ∧
    (∀ x, a.maxiter = some x → -2 ^ 31 ≤ x → c.params.i .maxMatvecs = x) := by
  have get : ∀ (i : Nat) (seg : List (Step K (Eigs.EP K))), (eigshGroups B a)[i]? = some seg →
      ∃ u v, run (eigsSetters E) seg u = .ok v ∧ ∀ nm m, (nm, m) ∈ Py.Doc.eigsMembers → nm ∈ C53_early →
        (∀ L ∈ fixedNames.drop (i + 1), nm ∉ L) → OutOfMethod m → reads c.params m = reads v m := by
    intro i seg hi
    obtain ⟨u, v, h1, h2⟩ := call_at h i seg hi
    refine ⟨u, v, h1, fun nm m hm hn hL ho => ?_⟩
    have hx : nm ∉ a.kargs.map Prod.fst := not_extra hk hn
    have hy := later_names hx hL
    exact h2 nm m hm hy (.inr ho)
  obtain ⟨u0, v0, r0, k0⟩ := get 0 _ rfl
  obtain ⟨w0, q0, z0⟩ := run_cons_ok r0
  obtain ⟨hsq, rfl⟩ := need_ok q0
  have hmat := set_obj (f := .matrix) (by decide +kernel) (exec_set (run_one z0))
  have kmat := k0 "matrix" (.p .matrix) (by decide +kernel) (by decide) (by decide) trivial
  obtain ⟨u1, v1, r1, k1⟩ := get 1 _ rfl
  have hn := set_int (f := .n) (by decide +kernel) (by decide) (by omega) (exec_set (run_one r1))
  have kn := k1 "n" (.i .n) (by decide +kernel) (by decide) (by decide) (by unfold OutOfMethod; decide)
  obtain ⟨u3, v3, r3, k3⟩ := get 3 _ rfl
  obtain ⟨w3, q3, z3⟩ := run_cons_ok r3
  obtain ⟨hkk, rfl⟩ := need_ok q3
  have hkk : ¬ (a.k ≤ 0 ∨ a.k > a.A.rows) := by simpa using hkk
  have hne := set_int (f := .numEvals) (by decide +kernel) (by decide) (by omega) (exec_set (run_one z3))
  have kne := k3 "numEvals" (.i .numEvals) (by decide +kernel) (by decide) (by decide) (by unfold OutOfMethod; decide)
  obtain ⟨u6, v6, r6, k6⟩ := get 6 _ rfl
  have hep := set_flt (f := .eps) (by decide +kernel) (exec_set (run_one r6))
  have kep := k6 "eps" (.d .eps) (by decide +kernel) (by decide) (by decide) (by unfold OutOfMethod; decide)
  simp only [reads, Val.int.injEq, Val.dbl.injEq, Val.ptr.injEq] at kmat kn kne kep
  refine ⟨by simpa using hsq, kn.trans hn, kmat.trans hmat, by omega, by omega, kne.trans hne, kep.trans hep,
    ?_, ?_, ?_, ?_, ?_⟩
  · intro M hM
    obtain ⟨u, v, r, k⟩ := get 2 _ rfl
    simp only [hM] at r
    obtain ⟨w, q, z⟩ := run_cons_ok r
    obtain ⟨hx, rfl⟩ := need_ok q
    have h1 := set_obj (f := .massMatrix) (by decide +kernel) (exec_set (run_one z))
    have h2 := k "massMatrix" (.p .massMatrix) (by decide +kernel) (by decide) (by decide) trivial
    simp only [reads, Val.ptr.injEq] at h2
    exact ⟨by simpa [eq_comm] using hx, h2.trans h1⟩
  · intro l hl
    obtain ⟨u, v, r, k⟩ := get 10 _ rfl
    simp only [hl] at r
    obtain ⟨w, q, z⟩ := run_cons_ok r
    obtain ⟨hx, rfl⟩ := need_ok q
    have h1 := set_int (f := .numOrthoConst) (by decide +kernel) (by decide) (by omega) (exec_set (run_one z))
    have h2 := k "numOrthoConst" (.i .numOrthoConst) (by decide +kernel) (by decide) (by decide)
      (by unfold OutOfMethod; decide)
    simp only [reads, Val.int.injEq] at h2
    refine ⟨by simpa using hx, ?_⟩
    rw [h2, h1]
    simp [orthoCount, hl]
  · intro P hP
    obtain ⟨u, v, r, k⟩ := get 9 _ rfl
    simp only [hP] at r
    obtain ⟨w, q, z'⟩ := run_cons_ok r
    obtain ⟨hx, rfl⟩ := need_ok q
    obtain ⟨w', q', z⟩ := run_cons_ok z'
    have h1 := set_obj (f := .preconditioner) (by decide +kernel) (exec_set (run_one z))
    have h2 := k "preconditioner" (.p .preconditioner) (by decide +kernel) (by decide) (by decide) trivial
    simp only [reads, Val.ptr.injEq] at h2
    have hx : P.rows = P.cols ∧ P.rows = a.A.rows := by simpa using hx
    exact ⟨hx.2, hx.1 ▸ hx.2, h2.trans h1⟩
  · intro f hf
    obtain ⟨u, v, r, k⟩ := get 11 _ rfl
    simp only [hf] at r
    have h1 := set_obj (f := .convtest) (by decide +kernel) (exec_set (run_one r))
    have h2 := k "convtest" (.p .convtest) (by decide +kernel) (by decide) (by decide) trivial
    simp only [reads, Val.ptr.injEq] at h2
    exact h2.trans h1
  · intro x hx hlow
    obtain ⟨u, v, r, k⟩ := get 8 _ rfl
    simp only [hx] at r
    have h1 := set_int (f := .maxMatvecs) (by decide +kernel) (by decide) hlow (exec_set (run_one r))
    have h2 := k "maxMatvecs" (.i .maxMatvecs) (by decide +kernel) (by decide) (by decide) (by unfold OutOfMethod; decide)
    simp only [reads, Val.int.injEq] at h2
    exact h2.trans h1

/-- **Which eigenvalues.**  The target the library is given is the one of the documentation string for the name asked
for, and with a name relative to a point the library is given exactly one point, `sigma` (0 when it is not given);
for a number, the eigenvalues closest to that number. -/
theorem C53_which (h : prepare E B zero s a = .ok c) (hk : ∀ e ∈ a.kargs, e.1 ∉ C53_early ∧ e.1 ≠ "targetShifts") :
    (∀ w, a.which = .name w → ∃ t rel, (w, t, rel) ∈ Py.Doc.which ∧ c.params.i .target = t ∧
      if rel then c.params.i .numTargetShifts = 1 ∧ c.params.p .targetShifts = B.sigma ∧ c.sigma = some (a.sigma.getD 0)
      else c.params.i .numTargetShifts = s.i .numTargetShifts ∧ c.params.p .targetShifts = s.p .targetShifts) ∧
    (∀ x, a.which = .num x → a.sigma = none ∧ c.params.i .target = 4 ∧ c.params.i .numTargetShifts = 1 ∧
      c.params.p .targetShifts = B.sigma ∧ c.sigma = some x) := by
  have hk1 : ∀ e ∈ a.kargs, e.1 ∉ C53_early := fun e he => (hk e he).1
  have hk2 : "targetShifts" ∉ a.kargs.map Prod.fst := by
    intro h'
    obtain ⟨e, he, h''⟩ := List.mem_map.1 h'
    exact (hk e he).2 h''
  obtain ⟨u, v, r, k⟩ := call_at h 4 _ rfl
  have kt := k "target" (.i .target) (by decide +kernel) (later_names (not_extra hk1 (by decide)) (by decide))
    (.inr (by unfold OutOfMethod; decide))
  simp only [reads, Val.int.injEq] at kt
  obtain ⟨u', v', r', k'⟩ := call_at h 5 _ rfl
  have kn := k' "numTargetShifts" (.i .numTargetShifts) (by decide +kernel)
    (later_names (not_extra hk1 (by decide)) (by decide)) (.inr (by unfold OutOfMethod; decide))
  have kp := k' "targetShifts" (.p .targetShifts) (by decide +kernel) (later_names hk2 (by decide)) (.inr trivial)
  simp only [reads, Val.int.injEq, Val.ptr.injEq] at kn kp
  have hsig : c.sigma = shift a := by
    obtain ⟨_, _, _, _, _, rfl⟩ := prepare_ok h; rfl
  have shifted : ∀ x, shift a = some x → c.params.i .numTargetShifts = 1 ∧ c.params.p .targetShifts = B.sigma ∧
      c.sigma = some x := by
    intro x hx
    unfold shiftSteps at r'
    rw [hx] at r'
    obtain ⟨w, q, r'⟩ := run_cons_ok r'
    have h1 := set_int (f := .numTargetShifts) (by decide +kernel) (by decide) (by omega) (exec_set q)
    have h2 := exec_raw (run_one r')
    have h3 : reads v' (.i .numTargetShifts) = reads w (.i .numTargetShifts) :=
      paramsRaw_keeps eigs_good (name := "numTargetShifts") (by decide +kernel) (by decide) h2
    simp only [reads, Val.int.injEq] at h3
    have h4 := raw_ptr (l := 19) (f := .targetShifts) (by decide +kernel) (by decide +kernel) (by decide +kernel) h2
    exact ⟨by rw [kn, h3, h1], by rw [kp, h4], by rw [hsig, hx]⟩
  have constants : constantInfo Eigs.constTable "primme_largest_abs" = .ok 5 ∧
      constantInfo Eigs.constTable "primme_largest" = .ok 1 ∧ constantInfo Eigs.constTable "primme_smallest" = .ok 0 ∧
      constantInfo Eigs.constTable "primme_closest_abs" = .ok 4 ∧
      constantInfo Eigs.constTable "primme_closest_leq" = .ok 3 ∧
      constantInfo Eigs.constTable "primme_closest_geq" = .ok 2 := by decide +kernel
  obtain ⟨c1, c2, c3, c4, c5, c6⟩ := constants
  constructor
  · intro w hw
    unfold whichSteps at r
    rw [hw] at r
    simp only at r
    have hsh : shift a = if w = "LA" ∨ w = "SA" then none else some (a.sigma.getD 0) := by unfold shift; rw [hw]
    have plain : shift a = none → c.params.i .numTargetShifts = s.i .numTargetShifts ∧
        c.params.p .targetShifts = s.p .targetShifts := by
      intro hx
      have he : (eigshGroups B a)[5]? = some [] := by
        have : shiftSteps B a = [] := by unfold shiftSteps; rw [hx]
        show some (shiftSteps B a) = _
        rw [this]
      have h1 := call_unset h 5 he (nm := "numTargetShifts") (m := .i .numTargetShifts) (by decide +kernel)
        (not_extra hk1 (by decide)) (by decide) (.inr (by unfold OutOfMethod; decide))
      have h2 := call_unset h 5 he (nm := "targetShifts") (m := .p .targetShifts) (by decide +kernel)
        hk2 (by decide) (.inr trivial)
      simpa only [reads, Val.int.injEq, Val.ptr.injEq] using And.intro h1 h2
    split_ifs at r with w1 w2 w3 w4 w5 w6
    · subst w1
      refine ⟨5, true, by decide, by rw [kt, set_target c1 (by omega) (exec_set (run_one r))], ?_⟩
      simpa using shifted _ (by rw [hsh]; simp)
    · subst w2
      refine ⟨1, false, by decide, by rw [kt, set_target c2 (by omega) (exec_set (run_one r))], ?_⟩
      simpa using plain (by rw [hsh]; simp)
    · subst w3
      refine ⟨0, false, by decide, by rw [kt, set_target c3 (by omega) (exec_set (run_one r))], ?_⟩
      simpa using plain (by rw [hsh]; simp)
    · subst w4
      refine ⟨4, true, by decide, by rw [kt, set_target c4 (by omega) (exec_set (run_one r))], ?_⟩
      simpa using shifted _ (by rw [hsh]; simp)
    · subst w5
      refine ⟨3, true, by decide, by rw [kt, set_target c5 (by omega) (exec_set (run_one r))], ?_⟩
      simpa using shifted _ (by rw [hsh]; simp)
    · subst w6
      refine ⟨2, true, by decide, by rw [kt, set_target c6 (by omega) (exec_set (run_one r))], ?_⟩
      simpa using shifted _ (by rw [hsh]; simp)
    · obtain ⟨w', q, -⟩ := run_cons_ok r
      simpa using (need_ok q).1
  · intro x hw
    unfold whichSteps at r
    rw [hw] at r
    simp only at r
    obtain ⟨w', q, z⟩ := run_cons_ok r
    obtain ⟨hx, rfl⟩ := need_ok q
    refine ⟨by simpa using hx, by rw [kt, set_target c4 (by omega) (exec_set (run_one z))], ?_⟩
    exact shifted x (by unfold shift; rw [hw])


/-- **How to look for them.**  Without a preset method, the sizes asked for reach the library, and a preconditioner is
used exactly when one is given. -/
theorem C53_tuning (h : prepare E B zero s a = .ok c) (hk : ∀ e ∈ a.kargs, e.1 ∉ C53_early) (hm : a.method = none) :
    (∀ x, a.ncv = some x → -2 ^ 31 ≤ x → c.params.i .maxBasisSize = x) ∧
    (a.ncv = none → c.params.i .maxBasisSize = s.i .maxBasisSize) ∧
    (a.maxBlockSize ≠ 0 → -2 ^ 31 ≤ a.maxBlockSize → c.params.i .maxBlockSize = a.maxBlockSize) ∧
    (a.minRestartSize ≠ 0 → -2 ^ 31 ≤ a.minRestartSize → c.params.i .minRestartSize = a.minRestartSize) ∧
    (a.maxPrevRetain ≠ 0 → -2 ^ 31 ≤ a.maxPrevRetain →
      c.params.i .restartingParams_maxPrevRetain = a.maxPrevRetain) ∧
    c.params.i .correctionParams_precondition = (if a.OPinv.isSome then 1 else 0) ∧
    (∀ v, a.v0 = some v → c.params.i .initSize = min v.cols a.k.toNat) := by
  refine ⟨?_, ?_, ?_, ?_, ?_, ?_, ?_⟩
  · intro x hx hlow
    obtain ⟨u, v, r, k⟩ := call_at h 7 _ rfl
    simp only [hx] at r
    have h1 := set_int (f := .maxBasisSize) (by decide +kernel) (by decide) hlow (exec_set (run_one r))
    have h2 := k "maxBasisSize" (.i .maxBasisSize) (by decide +kernel)
      (later_names (not_extra hk (by decide)) (by decide)) (.inl hm)
    simp only [reads, Val.int.injEq] at h2
    exact h2.trans h1
  · intro hx
    have he : (eigshGroups B a)[7]? = some [] := by
      have e : ∃ seg, (eigshGroups B a)[7]? = some seg ∧ (a.ncv = none → seg = []) :=
        ⟨_, rfl, fun h => by simp only [h]⟩
      obtain ⟨seg, e1, e2⟩ := e
      rw [e1, e2 hx]
    have h2 := call_unset h 7 he (nm := "maxBasisSize") (m := .i .maxBasisSize) (by decide +kernel)
      (not_extra hk (by decide)) (by decide) (.inl hm)
    simpa only [reads, Val.int.injEq] using h2
  · intro hx hlow
    obtain ⟨u, v, r, k⟩ := call_at h 16 _ rfl
    rw [if_pos hx] at r
    have h1 := set_int (f := .maxBlockSize) (by decide +kernel) (by decide) hlow (exec_set (run_one r))
    have h2 := k "maxBlockSize" (.i .maxBlockSize) (by decide +kernel) (last_names (by decide) (by decide)) (.inl hm)
    simp only [reads, Val.int.injEq] at h2
    exact h2.trans h1
  · intro hx hlow
    obtain ⟨u, v, r, k⟩ := call_at h 17 _ rfl
    rw [if_pos hx] at r
    have h1 := set_int (f := .minRestartSize) (by decide +kernel) (by decide) hlow (exec_set (run_one r))
    have h2 := k "minRestartSize" (.i .minRestartSize) (by decide +kernel) (last_names (by decide) (by decide)) (.inl hm)
    simp only [reads, Val.int.injEq] at h2
    exact h2.trans h1
  · intro hx hlow
    obtain ⟨u, v, r, k⟩ := call_at h 18 _ rfl
    rw [if_pos hx] at r
    have h1 := set_int (f := .restartingParams_maxPrevRetain) (by decide +kernel) (by decide) hlow (exec_set (run_one r))
    have h2 := k "restarting_maxPrevRetain" (.i .restartingParams_maxPrevRetain) (by decide +kernel)
      (last_names (by decide) (by decide)) (.inl hm)
    simp only [reads, Val.int.injEq] at h2
    exact h2.trans h1
  · obtain ⟨u, v, r, k⟩ := call_at h 9 _ rfl
    have h2 := k "correction_precondition" (.i .correctionParams_precondition) (by decide +kernel)
      (later_names (not_extra hk (by decide)) (by decide)) (.inl hm)
    simp only [reads, Val.int.injEq] at h2
    rw [h2]
    cases hP : a.OPinv with
    | none =>
      simp only [hP] at r
      exact set_int (f := .correctionParams_precondition) (by decide +kernel) (by decide) (by omega)
        (exec_set (run_one r))
    | some P =>
      simp only [hP] at r
      obtain ⟨w, q, z⟩ := run_cons_ok r
      obtain ⟨w', q', z'⟩ := run_cons_ok z
      have h1 := set_int (f := .correctionParams_precondition) (by decide +kernel) (by decide) (by omega) (exec_set q')
      have h3 := paramsSet_keeps eigs_good (name := "correction_precondition") (m := .i .correctionParams_precondition)
        (by decide +kernel) (by decide) (exec_set (run_one z'))
      simp only [reads, Val.int.injEq] at h3
      rw [h3, h1]; rfl
  · intro v0 hx
    obtain ⟨u, v, r, k⟩ := call_at h 15 _ rfl
    simp only [hx] at r
    obtain ⟨w, q, z⟩ := run_cons_ok r
    have h1 := set_int (f := .initSize) (by decide +kernel) (by decide) (by omega) (exec_set q)
    obtain ⟨-, h3⟩ := need_ok (run_one z)
    have h2 := k "initSize" (.i .initSize) (by decide +kernel) (last_names (by decide) (by decide)) (.inl hm)
    simp only [reads, Val.int.injEq] at h2
    rw [h2, h3, h1]
    simp [guessCount, hx]

/-- **The preset.**  A preset method is applied by the library itself to the structure of the same call without it. -/
theorem C53_method {name : String} (h : prepare E B zero s a = .ok c) (hm : a.method = some name) :
    ∃ v c', constantInfo Eigs.constTable name = .ok v ∧ prepare E B zero s { a with method := none } = .ok c' ∧
      c = { c' with params := (Eigs.setMethod v c'.params).2 } := by
  obtain ⟨t, u, h1, h2, hd, rfl⟩ := prepare_ok h
  rw [hm] at h2
  unfold methodSteps at h2
  simp only at h2
  split at h2
  · rename_i v hv
    obtain ⟨w, q, z⟩ := run_cons_ok h2
    obtain ⟨-, hw⟩ := need_ok q
    have z' := run_one z
    simp only [Step.exec, Res.ok.injEq] at z'
    subst hw
    refine ⟨v, ⟨if workType a.dtype = .complex64 ∨ workType a.dtype = .float32 then 2 else 3,
        workType a.dtype, w, shift a, a.k.toNat, a.A.rows, orthoCount a + a.k.toNat, firstVecs zero a⟩, hv, ?_, ?_⟩
    rotate_left 1
    · rw [← z']
      unfold presetAct
      rw [Eigs.callMethod_total 0 v w]
    · have e : eigshSteps B { a with method := none } = (eigshGroups B a).flatten ++
          ([] ++ [.need (workType a.dtype ≠ .other) .unbound]) := by
        unfold eigshSteps; rw [List.append_assoc]; rfl
      have hb : (decide (workType a.dtype ≠ .other)) = true := by simpa using hd
      have e2 : run (eigsSetters E) (eigshSteps B { a with method := none }) s = .ok w := by
        rw [e, run_append, h1]
        simp only [Res.bind, run, Step.exec, List.nil_append, hb, if_true]
      unfold prepare
      rw [e2]
      rfl
  · obtain ⟨w, q, -⟩ := run_cons_ok h2
    simpa using (need_ok q).1

/-- **The callbacks.**  The library calls back functions compiled for the element type of the arrays it is given, in
single precision exactly when the library function called is the single precision one; a function is given for `M`,
`convtest` and the history exactly when they are asked for, and otherwise the structure keeps what it had. -/
theorem C53_callbacks (h : prepare E B zero s a = .ok c)
    (hk : ∀ e ∈ a.kargs, e.1 ∉ ["massMatrixMatvec", "convTestFun", "monitorFun"]) :
    c.params.p .matrixMatvec = B.fn .matvec c.elem ∧ c.params.p .applyPreconditioner = B.fn .precond c.elem ∧
    c.params.p .massMatrixMatvec = (if a.M.isSome then B.fn .massmatvec c.elem else s.p .massMatrixMatvec) ∧
    c.params.p .convTestFun = (if a.convtest.isSome then B.fn .convtest c.elem else s.p .convTestFun) ∧
    c.params.p .monitorFun = (if a.return_history then
      B.fn .monitor (if c.op = 2 then .float32 else .float64) else s.p .monitorFun) ∧
    c.elem ∈ [.float32, .float64, .complex64, .complex128] ∧
    c.op = (if c.elem = .float32 ∨ c.elem = .complex64 then 2 else 3) := by
  obtain ⟨u, v, r, k⟩ := call_at h 14 _ rfl
  have get : ∀ nm f, (nm, .p f) ∈ Py.Doc.eigsMembers → (∀ L ∈ fixedNames.drop 15, nm ∉ L) →
      c.params.p f = v.p f := by
    intro nm f hm hf
    have := k nm (.p f) hm (last_names (by decide) hf) (.inr trivial)
    simpa only [reads, Val.ptr.injEq] using this
  obtain ⟨c1, c2, c3, c4, c5⟩ := callbacks_run r
  have hel : c.elem = workType a.dtype ∧ workType a.dtype ≠ .other ∧
      c.op = if workType a.dtype = .complex64 ∨ workType a.dtype = .float32 then 2 else 3 := by
    obtain ⟨t, w, h1, h2, hd, rfl⟩ := prepare_ok h
    exact ⟨rfl, hd, rfl⟩
  obtain ⟨he, hd, ho⟩ := hel
  have hv : variant a.dtype = workType a.dtype := by
    clear he ho c1 c2 c3 c4 c5 r k get h hk
    revert hd; unfold variant workType; generalize a.dtype = d; cases d <;> decide
  have hw : realVariant a.dtype = if c.op = 2 then .float32 else .float64 := by
    rw [ho]; unfold realVariant; rw [hv]
    clear he ho hv c1 c2 c3 c4 c5 r k get h hk
    revert hd; generalize a.dtype = d; cases d <;> decide
  have kept : ∀ nm f, (nm, .p f) ∈ Py.Doc.eigsMembers → nm ∈ ["massMatrixMatvec", "convTestFun", "monitorFun"] →
      (∀ L' ∈ fixedNames.set 14 [], nm ∉ L') → ∀ L, (∀ x ∈ callbackSteps B a, Writes L x) → nm ∉ L →
      c.params.p f = s.p f := by
    intro nm f hm hnm hf L hL hnL
    have hx : nm ∉ a.kargs.map Prod.fst := by
      intro h'
      obtain ⟨e, he, rfl⟩ := List.mem_map.1 h'
      exact hk e he hnm
    have := call_unset' h 14 L rfl hL (nm := nm) (m := .p f) hm hx (by
      intro L' hL'
      have : L' = L ∨ L' ∈ fixedNames.set 14 [] := by
        rcases List.mem_or_eq_of_mem_set hL' with h' | h'
        · obtain ⟨i, hi, hi'⟩ := List.mem_iff_getElem.1 hL'
          rw [List.getElem_set] at hi'
          split at hi'
          · exact .inl hi'.symm
          · right
            refine List.mem_iff_getElem.2 ⟨i, by simpa using hi, ?_⟩
            rw [List.getElem_set, if_neg (by assumption)]
            exact hi'
        · exact .inl h'
      rcases this with rfl | h'
      · exact hnL
      · exact hf L' h') (.inr trivial)
    simpa only [reads, Val.ptr.injEq] using this
  rw [hv, ← he] at c1 c2 c3 c4
  rw [hw] at c5
  refine ⟨?_, ?_, ?_, ?_, ?_, ?_, ?_⟩
  · rw [get "matrixMatvec" _ (by decide +kernel) (by decide), c1]
  · rw [get "applyPreconditioner" _ (by decide +kernel) (by decide), c2]
  · split_ifs with hM
    · rw [get "massMatrixMatvec" _ (by decide +kernel) (by decide), c3 hM]
    · refine kept "massMatrixMatvec" _ (by decide +kernel) (by decide) (by decide)
        ["matrixMatvec", "applyPreconditioner", "convTestFun", "monitorFun"] ?_ (by decide)
      unfold callbackSteps; rw [if_neg hM]; repeat' split
      all_goals simp [Writes]
  · split_ifs with hM
    · rw [get "convTestFun" _ (by decide +kernel) (by decide), c4 hM]
    · refine kept "convTestFun" _ (by decide +kernel) (by decide) (by decide)
        ["matrixMatvec", "applyPreconditioner", "massMatrixMatvec", "monitorFun"] ?_ (by decide)
      unfold callbackSteps; rw [if_neg hM]; repeat' split
      all_goals simp [Writes]
  · split_ifs with hM
    · rw [get "monitorFun" _ (by decide +kernel) (by decide), c5 hM, if_pos (by assumption)]
    · rw [get "monitorFun" _ (by decide +kernel) (by decide), c5 hM, if_neg (by assumption)]
    · refine kept "monitorFun" _ (by decide +kernel) (by decide) (by decide)
        ["matrixMatvec", "applyPreconditioner", "convTestFun", "massMatrixMatvec"] ?_ (by decide)
      unfold callbackSteps; rw [if_neg hM]; repeat' split
      all_goals simp [Writes]
  · rw [he]
    clear he ho hv hw c1 c2 c3 c4 c5 r k get kept h hk
    revert hd; generalize a.dtype = d; cases d <;> decide
  · rw [ho, he]
    simp only [or_comm]

/-- **Nothing else.**  Every other parameter that has a name keeps the value `primme_initialize` gave it, unless an extra
keyword argument names it or a preset method sets it. -/
theorem C53_nothing_else (h : prepare E B zero s a = .ok c) {nm : String} {m : Member Eigs.IF Eigs.DF Eigs.PF}
    (hm : (nm, m) ∈ Py.Doc.eigsMembers)
    (hn : nm ∉ C53_early ++ ["targetShifts", "monitor", "matrixMatvec", "massMatrixMatvec", "applyPreconditioner",
      "convTestFun", "monitorFun", "initSize", "maxBlockSize", "minRestartSize", "restarting_maxPrevRetain"])
    (hk : ∀ e ∈ a.kargs, e.1 ≠ nm)
    (ho : a.method = none ∨ match m with
      | .i f => f ∉ Eigs.Doc.methodParameters
      | .d f => f ≠ .correctionParams_relTolBase
      | _ => True) : reads c.params m = reads s m := by
  refine call_keeps h hm ?_ (ho.imp_right (fun h => by cases m <;> exact h))
  have := later_names (a := a) (nm := nm) (j := 0) (by
    intro h'
    obtain ⟨e, he, h''⟩ := List.mem_map.1 h'
    exact hk e he h'') (by
    intro L hL hin
    apply hn
    have : ∀ L ∈ fixedNames, ∀ x ∈ L, x ∈ C53_early ++ ["targetShifts", "monitor", "matrixMatvec", "massMatrixMatvec",
      "applyPreconditioner", "convTestFun", "monitorFun", "initSize", "maxBlockSize", "minRestartSize",
      "restarting_maxPrevRetain"] := by decide
    exact this L hL nm hin)
  exact this

/-- **Extra keyword arguments.**  Parameters set by name hold the value given, the last one if there are several: an
integer or the number of a named constant, a double, or the address of an object. -/
theorem C53_extra (h : prepare E B zero s a = .ok c) {nm : String} {v : PVal K} {l₁ l₂ : List (String × PVal K)}
    (hk : a.kargs = l₁ ++ (nm, v) :: l₂) (hlast : ∀ e ∈ l₂, e.1 ≠ nm) (hm : a.method = none)
    (hn : nm ∉ ["monitor", "matrixMatvec", "massMatrixMatvec", "applyPreconditioner", "convTestFun", "monitorFun",
      "initSize", "maxBlockSize", "minRestartSize", "restarting_maxPrevRetain"]) :
    (∀ f x, (nm, .i f) ∈ Py.Doc.eigsMembers → v = .int x → (Eigs.ctype f).holds x → c.params.i f = x) ∧
    (∀ f w x, (nm, .i f) ∈ Py.Doc.eigsMembers → v = .str w → constantInfo Eigs.constTable w = .ok x →
      (Eigs.ctype f).holds x → c.params.i f = x) ∧
    (∀ f x, (nm, .d f) ∈ Py.Doc.eigsMembers → v = .flt x → c.params.d f = x) ∧
    (∀ f x, (nm, .p f) ∈ Py.Doc.eigsMembers → v = .obj x → c.params.p f = x) := by
  obtain ⟨u, t, r, k⟩ := call_at h 12 _ rfl
  rw [hk, List.map_append, List.map_cons] at r
  obtain ⟨u1, -, r⟩ := run_append_ok r
  obtain ⟨u2, q, z⟩ := run_cons_ok r
  have q' : paramsSet eigsTables E u1 nm v = .ok u2 := by rw [← eigs_set]; exact extra_ok q
  have key : ∀ m x, (nm, m) ∈ Py.Doc.eigsMembers → meant E eigsTables.consts m v = some x → fits Eigs.ctype m x →
      reads c.params m = reads (put u1 m x) m := by
    intro m x hmm hx hf
    rw [← paramsSet_means eigs_good hmm q' hx hf]
    have hlater : ∀ L ∈ (groupNames a).drop 13, nm ∉ L := last_names (by decide) (by
      intro L hL hin
      apply hn
      have : ∀ L ∈ fixedNames.drop 13, ∀ x ∈ L, x ∈ ["monitor", "matrixMatvec", "massMatrixMatvec",
        "applyPreconditioner", "convTestFun", "monitorFun", "initSize", "maxBlockSize", "minRestartSize",
        "restarting_maxPrevRetain"] := by decide
      exact this L hL nm hin)
    rw [k nm m hmm hlater (.inl hm)]
    refine run_keeps (g := fun s => reads s m) (fun x hx => ?_) z
    obtain ⟨e, he, rfl⟩ := List.mem_map.1 hx
    exact keeps_eigs (L := l₂.map Prod.fst) hmm (by
      intro h'
      obtain ⟨e', he', h''⟩ := List.mem_map.1 h'
      exact hlast e' he' h'') (List.mem_map.2 ⟨e, he, rfl⟩)
  refine ⟨?_, ?_, ?_, ?_⟩
  · rintro f x hmm rfl hf
    simpa [reads, put] using key (.i f) (.int x) hmm rfl hf
  · rintro f w x hmm rfl hc hf
    simpa [reads, put] using key (.i f) (.int x) hmm (by unfold meant; simp only [eigsTables, hc]) hf
  · rintro f x hmm rfl
    simpa [reads, put] using key (.d f) (.dbl x) hmm rfl trivial
  · rintro f x hmm rfl
    simpa [reads, put] using key (.p f) (.ptr x) hmm rfl trivial


/-- Arguments that ask for nothing sensible: shapes that do not match, a number of values that is not between 1 and the
dimension, a name of eigenvalues that is not documented, a point given twice, a parameter or a preset that does not
exist, or an element type the library has no function for. -/
inductive C53_Bad (a : EigshArgs K V) : Prop
  | square (h : a.A.rows ≠ a.A.cols)
  | mass (M : Operator) (h : a.M = some M) (h' : M.rows ≠ a.A.rows)
  | count (h : a.k ≤ 0 ∨ a.A.rows < a.k)
  | name (w : String) (h : a.which = .name w) (h' : ∀ e ∈ Py.Doc.which, e.1 ≠ w)
  | twice (x : K) (h : a.which = .num x) (h' : a.sigma ≠ none)
  | inverse (P : Operator) (h : a.OPinv = some P) (h' : P.rows ≠ a.A.rows ∨ P.cols ≠ a.A.rows)
  | lock (l : Arr V) (h : a.lock = some l) (h' : l.rows ≠ a.A.rows)
  | guess (v : Arr V) (h : a.v0 = some v) (h' : v.rows ≠ a.A.rows) (h'' : v.rows ≠ 1)
  | parameter (e : String × PVal K) (h : e ∈ a.kargs) (h' : ∀ p ∈ Py.Doc.eigsMembers, p.1 ≠ e.1)
  | preset (m : String) (h : a.method = some m) (h' : ∀ v, constantInfo Eigs.constTable m ≠ .ok v)
  | type (h : a.dtype = .other)

/-- Preparing the call never has undefined behaviour, whatever the arguments. -/
theorem C53_defined (E : Py.Env K) (B : Addrs) (zero : V) (s : Eigs.EP K) (a : EigshArgs K V) :
    prepare E B zero s a ≠ .ub := by
  unfold prepare
  have := run_no_ub (steps_no_ub E B a) s
  cases h : run (eigsSetters E) (eigshSteps B a) s with
  | ok t => simp [Res.bind]
  | raise e => simp [Res.bind]
  | ub => exact absurd h this

/-- **Bad arguments raise** before the library is called. -/
theorem C53_rejects (h : C53_Bad a) : ∃ e, prepare E B zero s a = .raise e := by
  cases hp : prepare E B zero s a with
  | raise e => exact ⟨e, rfl⟩
  | ub => exact absurd hp (C53_defined E B zero s a)
  | ok c =>
    exfalso
    cases h with
    | square h =>
      obtain ⟨u, v, r, -⟩ := call_at hp 0 _ rfl
      obtain ⟨w, q, -⟩ := run_cons_ok r
      exact h (by simpa using (need_ok q).1)
    | mass M h h' =>
      obtain ⟨u, v, r, -⟩ := call_at hp 2 _ rfl
      simp only [h] at r
      obtain ⟨w, q, -⟩ := run_cons_ok r
      exact h' (by simpa [eq_comm] using (need_ok q).1)
    | count h =>
      obtain ⟨u, v, r, -⟩ := call_at hp 3 _ rfl
      obtain ⟨w, q, -⟩ := run_cons_ok r
      have := (need_ok q).1
      have : ¬ (a.k ≤ 0 ∨ a.k > a.A.rows) := by simpa using this
      omega
    | name w h h' =>
      obtain ⟨u, v, r, -⟩ := call_at hp 4 _ rfl
      unfold whichSteps at r
      rw [h] at r
      simp only [Py.Doc.which, List.forall_mem_cons] at h'
      obtain ⟨h1, h2, h3, h4, h5, h6, -⟩ := h'
      simp only [h1.symm, h2.symm, h3.symm, h4.symm, h5.symm, h6.symm, if_false] at r
      obtain ⟨w', q, -⟩ := run_cons_ok r
      simpa using (need_ok q).1
    | twice x h h' =>
      obtain ⟨u, v, r, -⟩ := call_at hp 4 _ rfl
      unfold whichSteps at r
      rw [h] at r
      obtain ⟨w', q, -⟩ := run_cons_ok r
      exact h' (by simpa using (need_ok q).1)
    | inverse P h h' =>
      obtain ⟨u, v, r, -⟩ := call_at hp 9 _ rfl
      simp only [h] at r
      obtain ⟨w, q, -⟩ := run_cons_ok r
      have : P.rows = P.cols ∧ P.rows = a.A.rows := by simpa using (need_ok q).1
      omega
    | lock l h h' =>
      obtain ⟨u, v, r, -⟩ := call_at hp 10 _ rfl
      simp only [h] at r
      obtain ⟨w, q, -⟩ := run_cons_ok r
      exact h' (by simpa using (need_ok q).1)
    | guess v0 h h' h'' =>
      obtain ⟨u, v, r, -⟩ := call_at hp 15 _ rfl
      simp only [h] at r
      obtain ⟨w, -, z⟩ := run_cons_ok r
      have : v0.rows = a.A.rows ∨ v0.rows = 1 := by simpa using (need_ok (run_one z)).1
      omega
    | parameter e h h' =>
      obtain ⟨u, v, r, -⟩ := call_at hp 12 _ rfl
      obtain ⟨l₁, l₂, hl⟩ := List.append_of_mem h
      rw [hl, List.map_append, List.map_cons] at r
      obtain ⟨u1, -, r⟩ := run_append_ok r
      obtain ⟨u2, q, -⟩ := run_cons_ok r
      have q' : paramsSet eigsTables E u1 e.1 e.2 = .ok u2 := by rw [← eigs_set]; exact extra_ok q
      obtain ⟨m, x, hm, -⟩ := paramsSet_ok eigs_good q'
      exact h' _ hm rfl
    | preset m h h' =>
      obtain ⟨v, c', hv, -⟩ := C53_method hp h
      exact h' v hv
    | type h =>
      obtain ⟨t, w, h1, h2, hd, rfl⟩ := prepare_ok hp
      exact hd (by rw [h]; rfl)

/-- Arguments as documented, with the ranges of the C types. -/
structure C53_Good (E : Py.Env K) (a : EigshArgs K V) : Prop where
  square : a.A.rows = a.A.cols
  size : (a.A.rows : Int) < 2 ^ 63
  mass : ∀ M, a.M = some M → M.rows = a.A.rows
  count : 0 < a.k ∧ a.k ≤ a.A.rows ∧ a.k < 2 ^ 31
  which : (∃ e ∈ Py.Doc.which, a.which = .name e.1) ∨ (∃ x, a.which = .num x ∧ a.sigma = none)
  basis : ∀ x, a.ncv = some x → -2 ^ 31 ≤ x ∧ x < 2 ^ 31
  limit : ∀ x, a.maxiter = some x → -2 ^ 63 ≤ x ∧ x < 2 ^ 63
  inverse : ∀ P, a.OPinv = some P → P.rows = a.A.rows ∧ P.cols = a.A.rows
  lock : ∀ l, a.lock = some l → l.rows = a.A.rows ∧ (l.cols : Int) < 2 ^ 31
  guess : ∀ v, a.v0 = some v → v.rows = a.A.rows
  sizes : ∀ x ∈ [a.maxBlockSize, a.minRestartSize, a.maxPrevRetain], -2 ^ 31 ≤ x ∧ x < 2 ^ 31
  extra : ∀ e ∈ a.kargs, ∃ m x, (e.1, m) ∈ Py.Doc.eigsMembers ∧
    e.1 ∉ ["targetShifts", "iseed", "ShiftsForPreconditioner", "profile", "stats_numGlobalSum", "stats_numBroadcast"] ∧
    meant E Eigs.constTable m e.2 = some x ∧ fits Eigs.ctype m x
  preset : ∀ m, a.method = some m → ∃ v, constantInfo Eigs.constTable m = .ok v ∧ 0 ≤ v
  type : a.dtype ≠ .other

/-- **Good arguments reach the library.** -/
theorem C53_accepts (s : Eigs.EP K) (g : C53_Good E a) : ∃ c, prepare E B zero s a = .ok c := by
  have set_int : ∀ (f : Eigs.IF) (nm : String) (x : Int) (t : Eigs.EP K), (nm, .i f) ∈ Py.Doc.eigsMembers →
      nm ∉ unsettable → (Eigs.ctype f).holds x →
      ∃ t', (Step.set nm (.int x) : Step K (Eigs.EP K)).exec (eigsSetters E) t = .ok t' := by
    intro f nm x t hm hn hx
    simp only [Step.exec, eigs_set]
    exact ⟨_, eigs_set_total E t hm hn (x := .int x) rfl hx⟩
  have set_obj : ∀ (f : Eigs.PF) (nm : String) (x : Nat) (t : Eigs.EP K), (nm, .p f) ∈ Py.Doc.eigsMembers →
      nm ∉ unsettable → ∃ t', (Step.set nm (.obj x) : Step K (Eigs.EP K)).exec (eigsSetters E) t = .ok t' := by
    intro f nm x t hm hn
    simp only [Step.exec, eigs_set]
    exact ⟨_, eigs_set_total E t hm hn (x := .ptr x) rfl trivial⟩
  have need : ∀ (b : Bool) (e : Exc) (t : Eigs.EP K), b = true →
      ∃ t', (Step.need b e : Step K (Eigs.EP K)).exec (eigsSetters E) t = .ok t' := by
    rintro b e t rfl; exact ⟨t, rfl⟩
  have set_target : ∀ (w : String) (v : Int) (t : Eigs.EP K), constantInfo Eigs.constTable w = .ok v → 0 ≤ v → v < 2 ^ 32 →
      ∃ t', (Step.set "target" (.str w) : Step K (Eigs.EP K)).exec (eigsSetters E) t = .ok t' := by
    intro w v t hc h0 h1
    simp only [Step.exec, eigs_set]
    exact ⟨_, eigs_set_total E t (m := .i .target) (by decide +kernel) (by decide) (x := .int v)
      (by unfold meant; simp only [hc]) ⟨h0, h1⟩⟩
  have key : ∀ x ∈ eigshSteps B a, ∀ t, ∃ t', x.exec (eigsSetters E) t = .ok t' := by
    unfold eigshSteps
    intro x hx
    rw [List.mem_append, List.mem_append] at hx
    rcases hx with (hx | hx) | hx
    · obtain ⟨seg, hseg, hx⟩ := List.mem_flatten.1 hx
      have groups : ∀ seg ∈ eigshGroups B a, ∀ x ∈ seg, ∀ t, ∃ t', x.exec (eigsSetters E) t = .ok t' := by
        have hk := g.count
        have hsz := g.size
        have hsizes := g.sizes
        simp only [List.forall_mem_cons] at hsizes
        obtain ⟨s1, s2, s3, -⟩ := hsizes
        have hcon : constantInfo Eigs.constTable "primme_largest_abs" = .ok 5 ∧
          constantInfo Eigs.constTable "primme_largest" = .ok 1 ∧ constantInfo Eigs.constTable "primme_smallest" = .ok 0 ∧
          constantInfo Eigs.constTable "primme_closest_abs" = .ok 4 ∧
          constantInfo Eigs.constTable "primme_closest_leq" = .ok 3 ∧
          constantInfo Eigs.constTable "primme_closest_geq" = .ok 2 := by decide +kernel
        obtain ⟨c1, c2, c3, c4, c5, c6⟩ := hcon
        unfold eigshGroups
        simp only [List.forall_mem_cons]
        refine ⟨?_, ?_, ?_, ?_, ?_, ?_, ?_, ?_, ?_, ?_, ?_, ?_, ?_, ?_, ?_, ?_, ?_, ?_, ?_, by simp⟩
        · exact ⟨fun t => need _ _ t (by simp [g.square]),
            fun t => set_obj .matrix _ _ t (by decide +kernel) (by decide), by simp⟩
        · exact ⟨fun t => set_int .n _ _ t (by decide +kernel) (by decide) ⟨by omega, by omega⟩, by simp⟩
        · cases hM : a.M with
          | none => simp
          | some M =>
            simp only [List.forall_mem_cons]
            exact ⟨fun t => need _ _ t (by simp [g.mass M hM]),
              fun t => set_obj .massMatrix _ _ t (by decide +kernel) (by decide), by simp⟩
        · exact ⟨fun t => need _ _ t (by simp; omega),
            fun t => set_int .numEvals _ _ t (by decide +kernel) (by decide) ⟨by omega, by omega⟩, by simp⟩
        · unfold whichSteps
          rcases g.which with ⟨e, he, hw⟩ | ⟨x, hw, hs⟩
          · rw [hw]
            simp only [Py.Doc.which, List.mem_cons, List.not_mem_nil, or_false] at he
            rcases he with rfl | rfl | rfl | rfl | rfl | rfl
            · simpa using fun t => set_target _ _ t c1 (by omega) (by omega)
            · simpa using fun t => set_target _ _ t c4 (by omega) (by omega)
            · simpa using fun t => set_target _ _ t c2 (by omega) (by omega)
            · simpa using fun t => set_target _ _ t c3 (by omega) (by omega)
            · simpa using fun t => set_target _ _ t c5 (by omega) (by omega)
            · simpa using fun t => set_target _ _ t c6 (by omega) (by omega)
          · rw [hw]
            simp only [List.forall_mem_cons]
            exact ⟨fun t => need _ _ t (by simp [hs]), fun t => set_target _ _ t c4 (by omega) (by omega), by simp⟩
        · unfold shiftSteps
          split
          · simp
          · simp only [List.forall_mem_cons]
            exact ⟨fun t => set_int .numTargetShifts _ _ t (by decide +kernel) (by decide) ⟨by omega, by omega⟩,
              fun t => exec_raw_ok E t (by decide) _, by simp⟩
        · refine ⟨fun t => ?_, by simp⟩
          simp only [Step.exec, eigs_set]
          exact ⟨_, eigs_set_total E t (m := .d .eps) (by decide +kernel) (by decide) (x := .dbl a.tol) rfl trivial⟩
        · cases hx : a.ncv with
          | none => simp
          | some x =>
            simp only [List.forall_mem_cons]
            exact ⟨fun t => set_int .maxBasisSize _ _ t (by decide +kernel) (by decide) (g.basis x hx), by simp⟩
        · cases hx : a.maxiter with
          | none => simp
          | some x =>
            simp only [List.forall_mem_cons]
            exact ⟨fun t => set_int .maxMatvecs _ _ t (by decide +kernel) (by decide) (g.limit x hx), by simp⟩
        · cases hP : a.OPinv with
          | none =>
            simp only [List.forall_mem_cons]
            exact ⟨fun t => set_int .correctionParams_precondition _ _ t (by decide +kernel) (by decide)
              ⟨by omega, by omega⟩, by simp⟩
          | some P =>
            have hp := g.inverse P hP
            simp only [List.forall_mem_cons]
            exact ⟨fun t => need _ _ t (by simp; omega),
              fun t => set_int .correctionParams_precondition _ _ t (by decide +kernel) (by decide)
              ⟨by omega, by omega⟩, fun t => set_obj .preconditioner _ _ t (by decide +kernel) (by decide), by simp⟩
        · cases hl : a.lock with
          | none => simp
          | some l =>
            have hp := g.lock l hl
            have ho : orthoCount a = min l.cols a.A.rows := by simp [orthoCount, hl]
            simp only [List.forall_mem_cons]
            exact ⟨fun t => need _ _ t (by simp; omega),
              fun t => set_int .numOrthoConst _ _ t (by decide +kernel) (by decide) ⟨by omega, by omega⟩, by simp⟩
        · cases hf : a.convtest with
          | none => simp
          | some f =>
            simp only [List.forall_mem_cons]
            exact ⟨fun t => set_obj .convtest _ _ t (by decide +kernel) (by decide), by simp⟩
        · intro x hx t
          obtain ⟨e, he, rfl⟩ := List.mem_map.1 hx
          obtain ⟨m, y, hm, hn, hv, hy⟩ := g.extra e he
          refine ⟨put t m y, ?_⟩
          simp only [Step.exec, eigs_set]
          rw [eigs_set_total E t hm hn hv hy]
        · split
          · simp only [List.forall_mem_cons]
            exact ⟨fun t => set_obj .monitor _ _ t (by decide +kernel) (by decide), by simp⟩
          · simp
        · intro x hx t
          have hs := groups_safe B a (callbackSteps B a) (by unfold eigshGroups; simp) x hx
          have hr : ∃ f b, x = .raw f b := by
            revert hx
            unfold callbackSteps
            repeat' split
            all_goals simp
            all_goals rintro h
            all_goals first
              | (rcases h with rfl | rfl | rfl | rfl | rfl) | (rcases h with rfl | rfl | rfl | rfl)
              | (rcases h with rfl | rfl | rfl) | (rcases h with rfl | rfl)
            all_goals exact ⟨_, _, rfl⟩
          obtain ⟨f, b, rfl⟩ := hr
          exact exec_raw_ok E t hs b
        · cases hv : a.v0 with
          | none => simp
          | some v =>
            have ho : guessCount a = min v.cols a.k.toNat := by simp [guessCount, hv]
            simp only [List.forall_mem_cons]
            exact ⟨fun t => set_int .initSize _ _ t (by decide +kernel) (by decide) ⟨by omega, by omega⟩,
              fun t => need _ _ t (by simp [g.guess v hv]), by simp⟩
        · split
          · simp only [List.forall_mem_cons]
            exact ⟨fun t => set_int .maxBlockSize _ _ t (by decide +kernel) (by decide) s1, by simp⟩
          · simp
        · split
          · simp only [List.forall_mem_cons]
            exact ⟨fun t => set_int .minRestartSize _ _ t (by decide +kernel) (by decide) s2, by simp⟩
          · simp
        · split
          · simp only [List.forall_mem_cons]
            exact ⟨fun t => set_int .restartingParams_maxPrevRetain _ _ t (by decide +kernel) (by decide) s3, by simp⟩
          · simp
      exact groups seg hseg x hx
    · revert x
      unfold methodSteps
      cases hm : a.method with
      | none => simp
      | some m =>
        obtain ⟨v, hv, h0⟩ := g.preset m hm
        simp only [hv, List.forall_mem_cons]
        exact ⟨fun t => need _ _ t (by simpa using h0), fun t => ⟨_, rfl⟩, by simp⟩
    · rw [List.mem_singleton] at hx
      rw [hx]
      have : workType a.dtype ≠ .other := by
        have := g.type
        revert this
        generalize a.dtype = d
        cases d <;> decide
      exact fun t => need _ _ t (by simpa using this)
  obtain ⟨t, ht⟩ := run_total key s
  unfold prepare
  rw [ht]
  exact ⟨_, rfl⟩


/-! ## The arrays -/

/-- Number of constraints: the columns of `lock`, at most as many as the dimension. -/
def C53_constraints (a : EigshArgs K V) : Nat :=
  match a.lock with
  | none => 0
  | some l => min l.cols a.A.rows

/-- **The vectors the library starts from**: first the constraints, then the guesses, then zeros, in an array of as
many rows as the operator and as many columns as constraints and values. -/
theorem C53_vectors (h : prepare E B zero s a = .ok c) :
    c.height = a.A.rows ∧ (c.values : Int) = a.k ∧
    (c.width : Int) = C53_constraints a + a.k ∧
    (∀ l, a.lock = some l → ∀ j < min l.cols a.A.rows, ∀ i, c.evecs j i = l.at' i j) ∧
    (∀ v, a.v0 = some v → v.rows = a.A.rows → ∀ j : Nat, (j : Int) < min (v.cols : Int) a.k → ∀ i < a.A.rows,
      c.evecs (C53_constraints a + j) i = v.at' i j) ∧
    (∀ j : Nat, (C53_constraints a : Int) + (match a.v0 with | none => 0 | some v => min (v.cols : Int) a.k) ≤ j → ∀ i, c.evecs j i = zero) := by
  obtain ⟨u, v, r, -⟩ := call_at h 3 _ rfl
  obtain ⟨w, q, -⟩ := run_cons_ok r
  have hk : ¬ (a.k ≤ 0 ∨ a.k > a.A.rows) := by simpa using (need_ok q).1
  obtain ⟨t, w, h1, h2, hd, rfl⟩ := prepare_ok h
  have ho : C53_constraints a = orthoCount a := rfl
  rw [ho]
  refine ⟨rfl, by show (a.k.toNat : Int) = _; omega, by show ((orthoCount a + a.k.toNat : Nat) : Int) = _; omega, ?_, ?_, ?_⟩
  · intro l hl j hj i
    have hc : j < orthoCount a := by unfold orthoCount; rw [hl]; exact hj
    simp [firstVecs, hl, hc]
  · intro v hv hrow j hj i hi
    have hg : j < guessCount a := by unfold guessCount; rw [hv]; simp only; omega
    have hi' : (if v.rows = 1 then 0 else i) = i := by split <;> omega
    simp [firstVecs, hv, hg, hi']
  · intro j hj i
    have hl : ¬ j < orthoCount a := by
      cases hv : a.v0 with
      | none => rw [hv] at hj; simp only at hj; omega
      | some v => rw [hv] at hj; simp only at hj; omega
    simp only [firstVecs, hl, if_false]
    cases hv : a.v0 with
    | none => rfl
    | some v =>
      rw [hv] at hj
      simp only at hj ⊢
      rw [if_neg]
      unfold guessCount
      rw [hv]
      simp only
      omega

/-- **Room for what the library writes.**  The manual asks for `numEvals` values and norms and for vectors of leading
dimension `ldevecs` (the dimension when it is -1) with `numOrthoConst + max(numEvals, initSize)` columns; the arrays
have that size when no extra keyword argument changes the numbers. -/
theorem C53_arrays_partial {inf : K} {out : Nat} {addr : Nat → Nat}
    (h : prepare E B zero (Eigs.initParams inf out addr) a = .ok c)
    (hk : ∀ e ∈ a.kargs, e.1 ∉ C53_early ++ ["initSize", "ldevecs", "nLocal", "numProcs"]) (hm : a.method = none) :
    (c.values : Int) = c.params.i .numEvals ∧ (c.height : Int) = c.params.i .n ∧ c.params.i .ldevecs = -1 ∧
    c.params.i .nLocal = -1 ∧ c.params.i .numProcs = 1 ∧
    (c.width : Int) = c.params.i .numOrthoConst + max (c.params.i .numEvals) (c.params.i .initSize) ∧
    0 ≤ c.params.i .initSize := by
  have hk1 : ∀ e ∈ a.kargs, e.1 ∉ C53_early := fun e he h' => hk e he (by simp [h'])
  obtain ⟨-, p2, -, p4, p5, p6, -, -, p9, -⟩ := C53_problem h hk1
  obtain ⟨-, -, -, -, -, -, t7⟩ := C53_tuning h hk1 hm
  obtain ⟨v1, v2, v3, -⟩ := C53_vectors h
  have kept : ∀ nm f, (nm, .i f) ∈ Py.Doc.eigsMembers → nm ∈ ["initSize", "ldevecs", "nLocal", "numProcs"] →
      nm ≠ "initSize" → c.params.i f = (Eigs.initParams inf out addr).i f := by
    intro nm f hmm hn hne
    have := C53_nothing_else h hmm (by
      simp only [List.mem_cons, List.not_mem_nil, or_false] at hn
      rcases hn with rfl | rfl | rfl | rfl
      · exact absurd rfl hne
      · decide
      · decide
      · decide) (fun e he h' => hk e he (by rw [h']; exact List.mem_append_right _ hn)) (.inl hm)
    simpa only [reads, Val.int.injEq] using this
  have hnoc : (C53_constraints a : Int) = c.params.i .numOrthoConst := by
    unfold C53_constraints
    cases hl : a.lock with
    | some l => rw [(p9 l hl).2]
    | none =>
      have he : (eigshGroups B a)[10]? = some [] := by
        have e : ∃ seg, (eigshGroups B a)[10]? = some seg ∧ (a.lock = none → seg = []) :=
          ⟨_, rfl, fun h => by simp only [h]⟩
        obtain ⟨seg, e1, e2⟩ := e
        rw [e1, e2 hl]
      have := call_unset h 10 he (nm := "numOrthoConst") (m := .i .numOrthoConst) (by decide +kernel)
        (not_extra hk1 (by decide)) (by decide) (.inl hm)
      simp only [reads, Val.int.injEq] at this
      rw [this]; rfl
  have hini : 0 ≤ c.params.i .initSize ∧ c.params.i .initSize ≤ a.k := by
    cases hv : a.v0 with
    | some v => rw [t7 v hv]; omega
    | none =>
      have he : (eigshGroups B a)[15]? = some [] := by
        have e : ∃ seg, (eigshGroups B a)[15]? = some seg ∧ (a.v0 = none → seg = []) :=
          ⟨_, rfl, fun h => by simp only [h]⟩
        obtain ⟨seg, e1, e2⟩ := e
        rw [e1, e2 hv]
      have hx : "initSize" ∉ a.kargs.map Prod.fst := by
        intro h'
        obtain ⟨e, he, h''⟩ := List.mem_map.1 h'
        exact hk e he (by rw [h'']; simp)
      have := call_unset h 15 he (nm := "initSize") (m := .i .initSize) (by decide +kernel) hx (by decide) (.inl hm)
      simp only [reads, Val.int.injEq] at this
      rw [this]
      show (0 : Int) ≤ 0 ∧ (0 : Int) ≤ a.k
      omega
  refine ⟨by rw [v2, p6], by rw [v1, p2], kept "ldevecs" .ldevecs (by decide +kernel) (by decide) (by decide),
    kept "nLocal" .nLocal (by decide +kernel) (by decide) (by decide),
    kept "numProcs" .numProcs (by decide +kernel) (by decide) (by decide), ?_, hini.1⟩
  rw [v3, p6, hnoc]
  omega

/-! ## The answer -/

/-- **The result.**  When the call succeeded and pairs were found, what is returned is those pairs: as many values as the
library says, in its order, the vector of each after the constraints, and its residual norm. -/
theorem C53_result {a : EigshArgs K V} {o : CallOut K V} {r : EigshOut K V} (h : finish a o = .ok r)
    (hu : a.return_unconverged = false) (m : Nat) (hm : o.params.i .initSize = m) (hle : (m : Int) ≤ a.k) :
    r.w.length = m ∧ (∀ j < m, r.w[j]? = some (o.evals j)) ∧
    (a.return_eigenvectors = true → ∃ vs, r.v = some vs ∧ vs.length = m ∧
      ∀ j < m, vs[j]? = some (o.evecs (C53_constraints a + j))) ∧
    (a.return_stats = true → ∃ ns, r.rnorms = some ns ∧ ns.length = m ∧ ∀ j < m, ns[j]? = some (o.norms j)) := by
  have hr : r = give a o := by
    unfold finish at h
    split_ifs at h <;> first | (simp [raisePrimme] at h; split_ifs at h) | simpa using h.symm
  subst hr
  have hl1 : sliceLen a.k.toNat (o.params.i .initSize) = m := by
    unfold sliceLen; rw [hm]; simp; omega
  have hl2 : sliceLen (orthoCount a + a.k.toNat) ((orthoCount a : Int) + o.params.i .initSize) - orthoCount a = m := by
    unfold sliceLen; rw [hm, if_pos (by omega)]; omega
  unfold give
  simp only [hu, hl1, hl2, Bool.false_eq_true, if_false]
  refine ⟨by simp, fun j hj => by simp [hj], fun hv => ?_, fun hs => ?_⟩
  · refine ⟨_, by rw [if_pos hv], by simp, fun j hj => ?_⟩
    simp [hj]
    rfl
  · exact ⟨_, by rw [if_pos hs], by simp, fun j hj => by simp [hj]⟩

/-- With `return_unconverged` all `k` pairs are handed out. -/
theorem C53_unconverged {a : EigshArgs K V} {o : CallOut K V} {r : EigshOut K V} (h : finish a o = .ok r)
    (hu : a.return_unconverged = true) (hk : 0 ≤ a.k) :
    (r.w.length : Int) = a.k ∧ ∀ j : Nat, (j : Int) < a.k → r.w[j]? = some (o.evals j) := by
  have hr : r = give a o := by
    unfold finish at h
    split_ifs at h <;> first | (simp [raisePrimme] at h; split_ifs at h) | simpa using h.symm
  subst hr
  have hl1 : sliceLen a.k.toNat a.k = a.k.toNat := by
    unfold sliceLen; rw [if_pos hk]; omega
  unfold give
  simp only [hu, hl1, if_true]
  refine ⟨by simp; omega, fun j hj => ?_⟩
  have : j < a.k.toNat := by omega
  simp [this]

/-- **Errors**, as far as they are reported: a call that succeeded returns, a failed call whose callback raised an
exception and (unless unconverged pairs are wanted) one that ran out of products raise `PrimmeError` with the code of
the library, whenever the code has a message; one that ran out of products returns when unconverged pairs are wanted or no
exception is. -/
theorem C53_errors_partial {a : EigshArgs K V} {o : CallOut K V} :
    (o.code = 0 → ∃ r, finish a o = .ok r) ∧
    (o.code ≠ 0 → o.exc = true → o.code ∈ messageCodes → finish a o = .raise (.primme o.code)) ∧
    (o.code = -3 → a.return_unconverged = false → a.raise_for_unconverged = true →
      finish a o = .raise (.primme (-3))) ∧
    (o.exc = false → o.code = -3 → a.return_unconverged = true ∨ a.raise_for_unconverged = false →
      ∃ r, finish a o = .ok r) := by
  refine ⟨fun h => ⟨give a o, by simp [finish, h]⟩, fun h h1 h2 => by simp [finish, h, h1, raisePrimme, h2],
    fun h h1 h2 => ?_, fun h h1 h2 => ⟨give a o, ?_⟩⟩
  · have hm : (-3 : Int) ∈ messageCodes := by decide
    cases hx : o.exc <;> simp [finish, h, h1, h2, raisePrimme, hm, hx]
  · rcases h2 with h2 | h2 <;> simp [finish, h, h2]


/-! ## Reading parameters -/

/-- The names that the documentation string of `get_eigsh_param` gives and the function does not know. -/
def C53_unknown : List String :=
  ["projectionParams_projection", "restartingParams_maxPrevRetain", "correctionParams_precondition",
   "correctionParams_robustShifts", "correctionParams_maxInnerIterations", "correctionParams_projectors_LeftQ",
   "correctionParams_projectors_LeftX", "correctionParams_projectors_RightQ", "correctionParams_projectors_RightX",
   "correctionParams_projectors_SkewQ", "correctionParams_projectors_SkewX", "correctionParams_convTest",
   "correctionParams_relTolBase"]

/-- Reading a parameter inside a call gives its value, for the documented names that exist: numbers always, objects when
there is one.  Missing: the thirteen names of `C53_unknown`, and objects that are not set. -/
theorem C53_get_partial {isObj : Nat → Bool} {block : Int} {nm : String} {m : Member Eigs.IF Eigs.DF Eigs.PF}
    (hn : nm ∈ Py.Doc.getNames) (hm : (nm, m) ∈ Py.Doc.eigsMembers) :
    (∀ f, m = .i f → getEigshParam isObj block (some s) nm = .ok (.int (s.i f))) ∧
    (∀ f, m = .d f → getEigshParam isObj block (some s) nm = .ok (.flt (s.d f))) ∧
    (∀ f, m = .p f → isObj (s.p f) = true → getEigshParam isObj block (some s) nm = .ok (.obj (s.p f))) := by
  have table : ∀ e ∈ Eigs.infoNames, e.1 ∈ Py.Doc.getNames → ∀ p ∈ Py.Doc.eigsMembers, p.1 = e.1 →
      select Eigs.getTable e.2 = some (getEntryFor p.2) ∧ (Py.Doc.eigsType p.2).2 = 1 ∧
      (match p.2 with | .p _ => (Py.Doc.eigsType p.2).1 == .pointer | _ => true) = true ∧
      e.1 ≠ "ShiftsForPreconditioner" := by decide +kernel
  rcases info_cases eigs_good nm with ⟨l, m', hl, hm', -, hi⟩ | ⟨hno, -⟩
  · obtain rfl := member_unique eigs_good hm hm'
    obtain ⟨h1, h2, h3, h4⟩ := table _ hl hn _ hm rfl
    simp only at h1 h2 h3 h4
    have base : ∀ v, getMember eigsTables.getter s l = .ok v →
        getEigshParam isObj block (some s) nm = match (Py.Doc.eigsType m).1, v with
          | .int, .int v => .ok (.int v)
          | .double, .dbl x => .ok (.flt x)
          | .pointer, .ptr a => if isObj a then .ok (.obj a) else .ub
          | .string, _ => .raise .value
          | _, _ => .ub := by
      intro v hv
      unfold getEigshParam paramsGet
      simp only [hi, h4, h2, hv, if_false, ne_eq, not_true]
      cases (Py.Doc.eigsType m).1 <;> cases v <;> rfl
    have hget := get_of_entry (s := s) h1
    refine ⟨?_, ?_, ?_⟩
    · rintro f rfl
      rw [base _ hget]; rfl
    · rintro f rfl
      rw [base _ hget]; rfl
    · rintro f rfl ho
      rw [base _ hget]
      have h3 : (Py.Doc.eigsType (.p f)).1 = .pointer := by simpa using h3
      simp only [h3, reads]
      rw [if_pos ho]
  · exfalso
    have : ∀ p ∈ Py.Doc.eigsMembers, ∃ e ∈ Eigs.infoNames, e.1 = p.1 := by decide +kernel
    obtain ⟨e, he, h'⟩ := this _ hm
    exact hno e he h'

/-- Thirteen of the documented names are rejected, on every structure and at any time. -/
theorem C53_get_names_violated : C53_unknown.length = 13 ∧ (∀ nm ∈ C53_unknown, nm ∈ Py.Doc.getNames) ∧
    ∀ nm ∈ C53_unknown, ∀ (isObj : Nat → Bool) (block : Int) (s : Eigs.EP K),
      getEigshParam isObj block (some s) nm = .raise .value := by
  refine ⟨by decide, by decide, ?_⟩
  intro nm hn isObj block s
  have h : ∀ e ∈ Eigs.infoNames, e.1 ∉ C53_unknown := by decide +kernel
  rcases info_cases eigs_good nm with ⟨l, m', hl, -⟩ | ⟨-, hi⟩
  · exact absurd hn (h _ hl)
  · unfold getEigshParam paramsGet
    rw [hi]

/-- Asking for the mass matrix, the preconditioner, the convergence test or the monitor of a call that has none is
undefined: a null pointer is taken for an object. -/
theorem C53_get_null_violated {nm : String} {f : Eigs.PF} (hn : (nm, f) ∈ [("massMatrix", Eigs.PF.massMatrix),
      ("preconditioner", .preconditioner), ("convtest", .convtest), ("monitor", .monitor)])
    {isObj : Nat → Bool} (h0 : isObj 0 = false) (block : Int) (hz : s.p f = 0) :
    nm ∈ Py.Doc.getNames ∧ getEigshParam isObj block (some s) nm = .ub := by
  have key : ∀ l : Int, (nm, l) ∈ Eigs.infoNames → select Eigs.infoTypes l = some (.pointer, 1) →
      select Eigs.getTable l = some (.ptr f) → nm ≠ "ShiftsForPreconditioner" →
      getEigshParam isObj block (some s) nm = .ub := by
    intro l hl ht hg hne
    rcases info_cases eigs_good nm with ⟨l', m', hl', -, -, hi⟩ | ⟨hno, -⟩
    · have hll : l' = l := by
        have hd := eigs_good.distinct
        have := memberInfo_finds hd hl ht (name := some (some nm)) (lab := 0) (by simp [eq_comm])
          (Or.inr ⟨rfl, fun e he => eigs_good.labels e he⟩)
        have h2 := hi.symm.trans this
        simp only [Outcome.ok.injEq, Prod.mk.injEq, Option.some.injEq] at h2
        exact h2.1
      have ht' := hi
      have := memberInfo_finds eigs_good.distinct hl ht (name := some (some nm)) (lab := 0) (by simp [eq_comm])
          (Or.inr ⟨rfl, fun e he => eigs_good.labels e he⟩)
      unfold getEigshParam paramsGet
      have e : memberInfo eigsTables.names eigsTables.types (some 0) (some (some nm)) =
          .ok (some l, some (some nm), .pointer, 1) := this
      simp only [e, hne, if_false, ne_eq, not_true]
      have hgm : getMember eigsTables.getter s l = .ok (.ptr 0) := by
        unfold getMember
        have : select eigsTables.getter l = some (.ptr f) := hg
        rw [this]
        simp only [hz]
      rw [hgm]
      simp [h0]
    · exact absurd rfl (hno _ hl)
  simp only [List.mem_cons, List.not_mem_nil, or_false, Prod.mk.injEq] at hn
  rcases hn with ⟨rfl, rfl⟩ | ⟨rfl, rfl⟩ | ⟨rfl, rfl⟩ | ⟨rfl, rfl⟩
  · exact ⟨by decide, key 38 (by decide +kernel) (by decide +kernel) (by decide +kernel) (by decide)⟩
  · exact ⟨by decide, key 39 (by decide +kernel) (by decide +kernel) (by decide +kernel) (by decide)⟩
  · exact ⟨by decide, key 82 (by decide +kernel) (by decide +kernel) (by decide +kernel) (by decide)⟩
  · exact ⟨by decide, key 87 (by decide +kernel) (by decide +kernel) (by decide +kernel) (by decide)⟩

/-! ## The operator callback -/

/-- **The operator is applied to the block** the library passes and its result lands where the library expects it, and
nothing else is written; an exception of the operator is reported as a failure and leaves the memory alone. -/
theorem C53_callback {f : (Nat → Nat → V) → Option (Nat → Nat → V)} {n bs x ldx y ldy : Nat} (m : PMem V)
    (hld : n ≤ ldy) (hb : 0 < bs) :
    (∀ r, f (fun i j => m (x + i + j * ldx)) = some r →
      (matvecCallback f n bs x ldx y ldy m).1 = 0 ∧
      (∀ i < n, ∀ j < bs, (matvecCallback f n bs x ldx y ldy m).2 (y + i + j * ldy) = r i j) ∧
      ∀ p, (∀ i < n, ∀ j < bs, p ≠ y + i + j * ldy) → (matvecCallback f n bs x ldx y ldy m).2 p = m p) ∧
    (f (fun i j => m (x + i + j * ldx)) = none → matvecCallback f n bs x ldx y ldy m = (1, m)) := by
  have hb' : ¬ ((bs : Int) ≤ 0) := by omega
  refine ⟨fun r hr => ?_, fun hr => ?_⟩
  · simp only [matvecCallback, if_neg hb', hr, Int.toNat_natCast]
    refine ⟨trivial, ?_, ?_⟩
    · intro i hi j hj
      have hl : 0 < ldy := by omega
      have e1 : (y + i + j * ldy - y) / ldy = j := by
        rw [show y + i + j * ldy - y = i + ldy * j by rw [Nat.mul_comm]; omega,
          Nat.add_mul_div_left _ _ hl, Nat.div_eq_of_lt (by omega)]; omega
      have e2 : (y + i + j * ldy - y) % ldy = i := by
        rw [show y + i + j * ldy - y = i + ldy * j by rw [Nat.mul_comm]; omega, Nat.add_mul_mod_self_left,
          Nat.mod_eq_of_lt (by omega)]
      rw [e1, e2, if_pos ⟨by omega, hj, hi⟩]
    · intro p hp
      rw [if_neg]
      rintro ⟨h1, h2, h3⟩
      refine hp _ h3 _ h2 ?_
      have := Nat.mod_add_div (p - y) ldy
      rw [Nat.mul_comm] at this
      omega
  · simp only [matvecCallback, if_neg hb', hr]


/-! ## A call, and what goes wrong -/

/-- Two largest eigenvalues of an operator of order 10 with a guess and a constraint. -/
def C53_call : EigshArgs Rat Rat where
  A := ⟨10, 10, 100⟩
  dtype := .float64
  k := 2
  M := none
  sigma := none
  which := .name "LA"
  v0 := some ⟨10, 1, fun i _ => i⟩
  ncv := none
  maxiter := some 500
  tol := 1 / 1000000
  OPinv := some ⟨10, 10, 101⟩
  lock := some ⟨10, 1, fun i _ => 2 * i⟩
  return_eigenvectors := true
  return_stats := true
  maxBlockSize := 1
  minRestartSize := 0
  maxPrevRetain := 0
  method := none
  return_unconverged := false
  return_history := true
  convtest := none
  raise_for_unconverged := true
  kargs := [("printLevel", .int 3), ("orth", .str "primme_orth_explicit_I"), ("aNorm", .flt 2)]

/-- A Python level and addresses. -/
def C53_env : Py.Env Rat := ⟨fun x => x.num, fun _ => 77⟩

/-- Addresses of the compiled functions. -/
def C53_addrs : Addrs := ⟨fun _ _ => 5, 6, 7⟩

/-- The fresh structure. -/
def C53_fresh : Eigs.EP Rat := Eigs.initParams 1000 1 id

/-- The library: the driver on the structure, with a solver that finds all it is asked for. -/
def C53_library (c : Call Rat Rat) : CallOut Rat Rat :=
  match Eigs.driver c.op (fun _ => some C07_env) (fun _ => 0) (fun s => ⟨0, 0, s.setI .initSize (s.i .numEvals)⟩)
      ⟨false, false, false, false⟩ c.params with
  | some r => ⟨r.code, r.params, fun j => 10 - j, c.evecs, fun _ => 0, false⟩
  | none => ⟨-1, c.params, fun _ => 0, c.evecs, fun _ => 0, false⟩

/-- Code of the library and values `eigsh` returns. -/
def C53_run (a : EigshArgs Rat Rat) : Option (Int × Res (List Rat)) :=
  match prepare C53_env C53_addrs 0 C53_fresh a with
  | .ok c => some ((C53_library c).code, (eigsh C53_env C53_addrs 0 C53_fresh C53_library a).bind fun r => .ok r.w)
  | _ => none

theorem C53_call_good : C53_Good C53_env C53_call where
  square := rfl
  size := by decide
  mass := by simp [C53_call]
  count := by decide
  which := .inl ⟨("LA", 1, false), by decide, rfl⟩
  basis := by simp [C53_call]
  limit := by simp [C53_call]
  inverse := by simp [C53_call]
  lock := by simp [C53_call]
  guess := by simp [C53_call]
  sizes := by decide
  extra := by
    intro e he
    simp only [C53_call, List.mem_cons, List.not_mem_nil, or_false] at he
    rcases he with rfl | rfl | rfl
    · exact ⟨.i .printLevel, .int 3, by decide +kernel, by decide, rfl, ⟨by decide, by decide⟩⟩
    · have hc : constantInfo Eigs.constTable "primme_orth_explicit_I" = .ok 2 := by decide +kernel
      exact ⟨.i .orth, .int 2, by decide +kernel, by decide, by simp only [meant, hc], ⟨by decide, by decide⟩⟩
    · exact ⟨.d .aNorm, .dbl 2, by decide +kernel, by decide, rfl, trivial⟩
  preset := by simp [C53_call]
  type := by decide

example : C53_run C53_call = some (0, .ok [10, 9]) := by decide +kernel

example : ∃ c, prepare C53_env C53_addrs 0 C53_fresh C53_call = .ok c ∧ c.params.i .target = 1 ∧ c.params.i .orth = 2 ∧
    c.params.i .maxMatvecs = 500 ∧ c.width = 3 ∧ c.evecs 0 4 = 8 ∧ c.evecs 1 4 = 4 ∧ c.evecs 2 4 = 0 ∧
    c.params.p .massMatrix = 0 := by
  obtain ⟨c, hc⟩ := C53_accepts (B := C53_addrs) (zero := 0) C53_fresh C53_call_good
  have hk : ∀ e ∈ C53_call.kargs, e.1 ∉ C53_early := by decide
  obtain ⟨t, rel, h1, h2, -⟩ := (C53_which hc (by decide)).1 "LA" rfl
  have h3 := (C53_extra hc (nm := "orth") (v := .str "primme_orth_explicit_I") (l₁ := [("printLevel", .int 3)])
    (l₂ := [("aNorm", .flt 2)]) rfl (by decide) rfl (by decide)).2.1 .orth _ 2 (by decide +kernel) rfl
    (by decide +kernel) ⟨by decide, by decide⟩
  have h4 := (C53_problem hc hk).2.2.2.2.2.2.2.2.2.2.2 500 rfl (by decide)
  obtain ⟨v1, v2, v3, v4, v5, v6⟩ := C53_vectors hc
  have ht : t = 1 := by
    simp only [Py.Doc.which, List.mem_cons, Prod.mk.injEq, List.not_mem_nil, or_false] at h1
    rcases h1 with h1 | h1 | h1 | h1 | h1 | h1
    all_goals first | exact h1.2.1 | (exact absurd h1.1 (by decide))
  have hw : (c.width : Int) = 3 := v3
  have hm := call_unset hc 2 rfl (nm := "massMatrix") (m := .p .massMatrix) (by decide +kernel) (by decide) (by decide)
    (.inr trivial)
  simp only [reads, Val.ptr.injEq] at hm
  refine ⟨c, hc, by rw [h2, ht], h3, h4, by omega, ?_, ?_, ?_, hm⟩
  · rw [v4 _ rfl 0 (by decide)]; norm_num
  · have h5 := v5 _ rfl rfl 0 (by decide) 4 (by decide)
    have e : C53_constraints C53_call + 0 = 1 := rfl
    rw [e] at h5
    rw [h5]; norm_num
  · exact v6 2 (by decide) 4

/-- The documentation string promises an error when the request is invalid; when the library rejects the parameters
nothing is raised: an `ncv` of 1 (or blocks of 9 vectors) gives code -17 (or -18) and `eigsh` returns no values at all. -/
theorem C53_errors_violated :
    C53_run { C53_call with ncv := some 1 } = some (-17, .ok []) ∧
    C53_run { C53_call with maxBlockSize := 9 } = some (-18, .ok []) ∧
    C53_Good C53_env { C53_call with ncv := some 1 } ∧
    ∀ (o : CallOut Rat Rat), o.code ≠ 0 → o.code ≠ -3 → o.exc = false → ∃ r, finish C53_call o = .ok r := by
  refine ⟨by decide +kernel, by decide +kernel,
    { C53_call_good with basis := by simp }, ?_⟩
  intro o h0 h3 he
  exact ⟨_, by simp [finish, h0, h3, he]; rfl⟩

/-- With a convergence test of the user, `tol` is documented to be ignored; a small one makes the library reject the call
(-12), and `eigsh` returns no values. -/
theorem C53_tol_violated :
    C53_run { C53_call with convtest := some 9, tol := 1 / 10 ^ 20 } = some (-12, .ok []) ∧
    C53_run { C53_call with convtest := some 9 } = some (0, .ok [10, 9]) := by
  refine ⟨by decide +kernel, by decide +kernel⟩

/-- An extra keyword argument may change the numbers the arrays were made for: the library is told to return five values
in arrays of two, and accepts. -/
theorem C53_arrays_violated : ∃ a : EigshArgs Rat Rat, C53_Good C53_env a ∧
    (C53_run a).map Prod.fst = some 0 ∧
    ∀ c, prepare C53_env C53_addrs 0 C53_fresh a = .ok c → c.values = 2 ∧ c.params.i .numEvals = 5 := by
  refine ⟨{ C53_call with kargs := [("numEvals", .int 5)] }, ?_, by decide +kernel, ?_⟩
  · have hx : ∀ e ∈ [("numEvals", (.int 5 : PVal Rat))], ∃ m x, (e.1, m) ∈ Py.Doc.eigsMembers ∧ e.1 ∉ ["targetShifts",
        "iseed", "ShiftsForPreconditioner", "profile", "stats_numGlobalSum", "stats_numBroadcast"] ∧
        meant C53_env Eigs.constTable m e.2 = some x ∧ fits Eigs.ctype m x := by
      intro e he
      simp only [List.mem_cons, List.not_mem_nil, or_false] at he
      subst he
      exact ⟨.i .numEvals, .int 5, by decide +kernel, by decide, rfl, ⟨by decide, by decide⟩⟩
    exact { C53_call_good with extra := hx }
  · intro c hc
    refine ⟨?_, ?_⟩
    · have := (C53_vectors hc).2.1
      have h2 : (c.values : Int) = 2 := this
      omega
    · exact (C53_extra hc (nm := "numEvals") (v := .int 5) (l₁ := []) (l₂ := []) rfl (by simp) rfl (by decide)).1
        .numEvals 5 (by decide +kernel) rfl ⟨by decide, by decide⟩

/-- None of the documented names of methods is accepted, and any constant is: `primme_largest` as a method selects one. -/
theorem C53_method_violated :
    (∀ m ∈ Py.Doc.methodNames, ∀ a : EigshArgs K V, a.method = some m → ∃ e, prepare E B zero s a = .raise e) ∧
    (C53_run { C53_call with method := some "primme_largest" }).map Prod.fst = some 0 := by
  refine ⟨?_, by decide +kernel⟩
  intro m hm a ha
  refine C53_rejects (.preset m ha ?_)
  intro v hv
  have : ∀ m ∈ Py.Doc.methodNames, constantInfo Eigs.constTable m = .err 1 := by decide +kernel
  rw [this m hm] at hv
  simp at hv

/-- A guess with one row is accepted whatever the dimension, and every component of the initial vector is that number. -/
theorem C53_guess_violated : ∃ a : EigshArgs Rat Rat, a.A.rows = 10 ∧ (∀ v, a.v0 = some v → v.rows = 1) ∧
    (C53_run a).map Prod.fst = some 0 ∧ ∀ c, prepare C53_env C53_addrs 0 C53_fresh a = .ok c →
      ∀ i < 10, c.evecs 1 i = 3 := by
  refine ⟨{ C53_call with v0 := some ⟨1, 1, fun _ _ => 3⟩ }, rfl, by simp, by decide +kernel, ?_⟩
  intro c hc i hi
  obtain ⟨t, w, h1, h2, hd, rfl⟩ := prepare_ok hc
  rfl


example : C53_run { C53_call with method := some "PRIMME_DYNAMIC" } = some (0, .ok [10, 9]) := by decide +kernel

example : C53_Bad { C53_call with k := 11 } := .count (by decide)

example : C53_Bad { C53_call with kargs := [("eps_", .flt 1)] } :=
  .parameter ("eps_", .flt 1) (by simp) (by decide +kernel)

example : ("eps", .d .eps) ∈ Py.Doc.eigsMembers ∧ "eps" ∈ Py.Doc.getNames := by decide +kernel

/-- Twice the identity on two columns of two rows, with leading dimensions 3. -/
example : (matvecCallback (fun x => some fun i j => 2 * x i j) 2 2 0 3 6 3 (fun p => if p < 6 then (p : Int) else -1)).2 =
    fun p : Nat => if p = 6 then 0 else if p = 7 then 2 else if p = 9 then 6 else if p = 10 then 8
      else if p < 6 then (p : Int) else -1 := by
  obtain ⟨-, h2, h3⟩ := (C53_callback (f := fun x => some fun i j => 2 * x i j) (n := 2) (bs := 2) (x := 0) (ldx := 3) (y := 6)
    (ldy := 3) (fun p => if p < 6 then (p : Int) else -1) (by decide) (by decide)).1 _ rfl
  funext p
  by_cases a1 : p = 6
  · subst a1; exact h2 0 (by decide) 0 (by decide)
  by_cases a2 : p = 7
  · subst a2; exact h2 1 (by decide) 0 (by decide)
  by_cases a3 : p = 9
  · subst a3; exact h2 0 (by decide) 1 (by decide)
  by_cases a4 : p = 10
  · subst a4; exact h2 1 (by decide) 1 (by decide)
  have := h3 p (by
    intro i hi j hj
    have hi : i = 0 ∨ i = 1 := by omega
    have hj : j = 0 ∨ j = 1 := by omega
    rcases hi with rfl | rfl <;> rcases hj with rfl | rfl <;> omega)
  simp only [a1, a2, a3, a4, if_false]
  exact this

end Verif.Props
