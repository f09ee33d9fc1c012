import Verif.Proofs.EigsParams
import Verif.Model.Driver

/-!
# C12: the call with all arrays `NULL`, and what every call reports when it does not reach the solver
-/

set_option linter.unusedSimpArgs false
set_option linter.unusedSectionVars false

namespace Verif.Props
open Verif.Eigs Verif.Members

variable {K : Type} [Field K] [LinearOrder K] [IsStrictOrderedRing K]

theorem C12_prelude (e : Env K) (b : Bool) (s : EP K) : ∃ t, preludeDefaults e b s = some t := by
  unfold preludeDefaults
  dsimp only
  generalize (if s.i .numProcs ≤ 1 ∧ b = false then
    (s.setI .nLocal (s.i .n)).setI .procID 0 else s) = s'
  rw [callDefaults_total 0 s']
  exact ⟨_, rfl⟩

/-- A call with `evals`, `evecs` and `resNorms` all `NULL` returns 0, never enters the solver (so no
user operator is called), reports no converged pair, whatever the structure holds — no check is made —
provided the working precision is compiled in. -/
theorem C12_query (op : Int) (env : Int → Option (Env K)) (coh : EP K → Int)
    (solve : EP K → SolveResult K) (s : EP K) (u : Bool)
    (hsup : (env (if (defaultTypes op s).i .internalPrecision = 0 then op
      else (defaultTypes op s).i .internalPrecision)).isSome) :
    ∃ r, driver op env coh solve ⟨true, true, true, u⟩ s = some r ∧ r.code = 0 ∧
      r.solved = false ∧ r.params.i .initSize = 0 := by
  obtain ⟨e, he⟩ := Option.isSome_iff_exists.1 hsup
  unfold driver
  dsimp only
  rw [he]
  unfold wrapper
  obtain ⟨t, ht⟩ := C12_prelude e (true || true || true) (defaultTypes op s)
  dsimp only
  rw [ht]
  exact ⟨_, rfl, rfl, rfl, by simp [setI_i]⟩

/-- Any call that does not enter the solver reports zero converged pairs and leaves the output arrays
alone (only the solver writes them); and a call that enters the solver reports zero pairs as well if it
fails there. -/
theorem C12_failed_call_reports_none (op : Int) (env : Int → Option (Env K)) (coh : EP K → Int)
    (solve : EP K → SolveResult K) (a : Args) (s : EP K) (r : CallResult K)
    (h : driver op env coh solve a s = some r) :
    (r.solved = false → r.params.i .initSize = 0) ∧
    (r.solved = true → ∃ t, (solve t).err = 0 ∧ r.code = (solve t).ret ∧
        r.params.i .initSize = (solve t).params.i .initSize ∨
      (solve t).err ≠ 0 ∧ r.code = (solve t).err ∧ r.params.i .initSize = 0) := by
  unfold driver at h
  dsimp only at h
  split at h
  · obtain rfl := Option.some.inj h
    exact ⟨fun _ => by simp [setI_i], by simp⟩
  · split at h
    · exact absurd h (by simp)
    · rename_i q out hw
      obtain rfl := Option.some.inj h
      unfold wrapper at hw
      split at hw
      · exact absurd hw (by simp)
      · dsimp only at hw
        split_ifs at hw with h1 h2 h3 h4 <;>
          (obtain ⟨rfl, rfl⟩ := Prod.mk.inj (Option.some.inj hw)) <;>
          simp only [setI_i, if_true, Bool.false_eq_true, false_imp_iff, true_imp_iff, and_true,
            reduceCtorEq, true_and]
        · exact ⟨_, Or.inr ⟨h4, rfl⟩⟩
        · exact ⟨_, Or.inl ⟨not_not.1 h4, rfl, rfl⟩⟩

/-- The driver enters the solver only with a structure its input check accepts, and with none of the
arrays missing. -/
theorem C12_solver_sees_checked_input (op : Int) (env : Int → Option (Env K)) (coh : EP K → Int)
    (solve : EP K → SolveResult K) (a : Args) (s : EP K) (r : CallResult K)
    (h : driver op env coh solve a s = some r) (hs : r.solved = true) :
    ∃ prec e t, env prec = some e ∧ checkInput e.meps a.arrays t = 0 ∧ coh t = 0 ∧
      (∀ f, f ≠ .initSize → r.params.i f = (solve t).params.i f) ∧
      r.params.d = (solve t).params.d ∧ r.params.p = (solve t).params.p := by
  unfold driver at h
  dsimp only at h
  split at h
  · obtain rfl := Option.some.inj h; exact absurd hs (by simp)
  · rename_i e he
    split at h
    · exact absurd h (by simp)
    · rename_i q out hw
      obtain rfl := Option.some.inj h
      unfold wrapper at hw
      split at hw
      · exact absurd hw (by simp)
      · dsimp only at hw
        split_ifs at hw with h1 h2 h3 h4 <;>
          (obtain ⟨rfl, rfl⟩ := Prod.mk.inj (Option.some.inj hw)) <;>
          first
          | exact ⟨_, e, _, he, not_not.1 h3, not_not.1 h2, fun f hf => by rw [setI_i, if_neg hf], rfl, rfl⟩
          | exact absurd hs Bool.false_ne_true

/-- One of the assignments (proof device). -/
def C12_setType (op : Int) (s : EP K) (p : PF) (t : IF) : EP K :=
  if s.p p ≠ 0 ∧ s.i t = 0 then s.setI t op else s

theorem C12_setType_i (op : Int) (s : EP K) (q : PF) (t f : IF) : (C12_setType op s q t).i f
    = if f = t then (if s.p q ≠ 0 ∧ s.i t = 0 then op else s.i t) else s.i f := by
  unfold C12_setType
  by_cases h : s.p q ≠ 0 ∧ s.i t = 0
  · rw [if_pos h, if_pos h, setI_i]
  · rw [if_neg h, if_neg h]
    split_ifs with hf
    · rw [hf]
    · rfl

theorem C12_setType_p (op : Int) (s : EP K) (q : PF) (t : IF) : (C12_setType op s q t).p = s.p := by
  unfold C12_setType; split_ifs <;> rfl

theorem C12_setType_d (op : Int) (s : EP K) (q : PF) (t : IF) : (C12_setType op s q t).d = s.d := by
  unfold C12_setType; split_ifs <;> rfl

/-- Before anything else a call gives every callback that is present and has no type the precision of the
called function, keeps the types the user gave, and changes no other member. -/
theorem C12_callback_types (op : Int) (s : EP K) :
    (∀ c ∈ [(PF.matrixMatvec, IF.matrixMatvec_type), (.massMatrixMatvec, .massMatrixMatvec_type),
        (.applyPreconditioner, .applyPreconditioner_type), (.globalSumReal, .globalSumReal_type),
        (.broadcastReal, .broadcastReal_type), (.convTestFun, .convTestFun_type),
        (.monitorFun, .monitorFun_type)],
      (defaultTypes op s).i c.2 = if s.p c.1 ≠ 0 ∧ s.i c.2 = 0 then op else s.i c.2)
    ∧ (∀ f, f ∉ [IF.matrixMatvec_type, .massMatrixMatvec_type, .applyPreconditioner_type,
        .globalSumReal_type, .broadcastReal_type, .convTestFun_type, .monitorFun_type] →
      (defaultTypes op s).i f = s.i f)
    ∧ (defaultTypes op s).d = s.d ∧ (defaultTypes op s).p = s.p := by
  have h : defaultTypes op s = C12_setType op (C12_setType op (C12_setType op (C12_setType op
      (C12_setType op (C12_setType op (C12_setType op s .matrixMatvec .matrixMatvec_type)
      .massMatrixMatvec .massMatrixMatvec_type) .applyPreconditioner .applyPreconditioner_type)
      .globalSumReal .globalSumReal_type) .broadcastReal .broadcastReal_type)
      .convTestFun .convTestFun_type) .monitorFun .monitorFun_type := rfl
  rw [h]
  refine ⟨?_, ?_, ?_, ?_⟩
  · intro c hc
    simp only [List.mem_cons, List.not_mem_nil, or_false] at hc
    rcases hc with rfl | rfl | rfl | rfl | rfl | rfl | rfl <;>
      simp only [C12_setType_i, C12_setType_p, reduceCtorEq, if_false, if_true]
  · intro f hf
    simp only [List.mem_cons, List.not_mem_nil, or_false, not_or] at hf
    obtain ⟨h1, h2, h3, h4, h5, h6, h7⟩ := hf
    simp only [C12_setType_i, h1, h2, h3, h4, h5, h6, h7, if_false]
  · simp only [C12_setType_d]
  · simp only [C12_setType_p]

/-- A case: double precision build, fresh structure. -/
def C12_env : Int → Option (Env Rat) := fun t =>
  if t = 3 then some ⟨3, some 8, 1, 2, 1 / 4503599627370496, 10000 / 4503599627370496⟩ else none

example : ((C12_env (if (defaultTypes 3 (initParams (0 : Rat) 0 id)).i .internalPrecision = 0 then 3
    else (defaultTypes 3 (initParams (0 : Rat) 0 id)).i .internalPrecision)).isSome) := by
  decide +kernel

/-- The solver is reached on a well-formed problem. -/
example : (driver 3 C12_env (fun _ => 0) (fun s => ⟨0, 0, s.setI .initSize 1⟩)
    ⟨false, false, false, false⟩
    (setP ((initParams (0 : Rat) 0 id).setI .n 100) .matrixMatvec 1)).map
    (fun r => (r.code, r.solved, r.params.i .initSize)) = some (0, true, 1) := by decide +kernel

/-- The query forgets the number of initial guesses: whatever the user stored in `initSize` is 0
afterwards (a consequence of `C12_query`, with a concrete structure). -/
theorem C12_query_drops_guesses_violated : ∃ s : EP Rat, s.i .initSize = 3 ∧
    (driver 3 C12_env (fun _ => 0) (fun s => ⟨0, 0, s⟩) ⟨true, true, true, false⟩ s).map
      (fun r => r.params.i .initSize) = some 0 :=
  ⟨(initParams (0 : Rat) 0 id).setI .initSize 3, by decide +kernel, by decide +kernel⟩

end Verif.Props
