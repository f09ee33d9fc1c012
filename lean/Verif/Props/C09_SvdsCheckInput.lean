import Verif.Model.SvdsParams
import Verif.Spec.SvdsDoc
import Verif.Props.C08_CheckInput

/-!
# C09 — the input check of the singular value solver against the documented error list
-/

namespace Verif.Props
open Verif.Members Verif.Svds

set_option linter.unusedSectionVars false
variable {K : Type}

/-- The documented list for the given array arguments. -/
def C09_list (a : SArrays) (v : SV K) : List (Int × Prop) :=
  Doc.errors (a.svalsNull = true) (a.svecsNull = true) (a.resNormsNull = true) v

theorem C09_fv_cons {c : Int} {P Q : Prop} [Decidable Q] (hPQ : Q ↔ P) {l : List (Int × Prop)}
    {x : Int} (h : ¬ P → Eigs.Doc.FirstViolated l x) :
    Eigs.Doc.FirstViolated ((c, P) :: l) (if Q then c else x) := by
  by_cases hp : P
  · rw [if_pos (hPQ.mpr hp)]
    exact Or.inr ⟨[], c, P, l, rfl, by simp, hp, rfl⟩
  · exact C08_fv_cons hPQ (h hp)

/-- The check returns 0 if no documented constraint is violated and otherwise the code of the first
violated one, for every structure and every combination of arrays. -/
theorem C09_check_is_first_violated (a : SArrays) (v : SV K) :
    Eigs.Doc.FirstViolated (C09_list a v) (svdsCheckInput a v) := by
  unfold svdsCheckInput C09_list Doc.errors
  refine C08_fv_cons (by omega) ?_
  iterate 4 refine C08_fv_cons Iff.rfl ?_
  refine C08_fv_cons (by omega) ?_
  refine C08_fv_cons Iff.rfl ?_
  refine C08_fv_cons (by omega) ?_
  refine C09_fv_cons (by omega) ?_
  intro hm
  refine C08_fv_cons (by unfold Doc.Supported; omega) ?_
  refine C08_fv_cons (by omega) ?_
  iterate 3 refine C08_fv_cons Iff.rfl ?_
  exact Or.inl ⟨rfl, by simp⟩

theorem C09_codes_negative (a : SArrays) (v : SV K) : ∀ e ∈ C09_list a v, e.1 < 0 := by
  simp [C09_list, Doc.errors]

/-- Exactness: 0 if and only if no documented constraint is violated. -/
theorem C09_accepts_iff (a : SArrays) (v : SV K) :
    svdsCheckInput a v = 0 ↔ ∀ e ∈ C09_list a v, ¬ e.2 := by
  rcases C09_check_is_first_violated a v with ⟨h0, hall⟩ | ⟨pre, c, P, post, hl, _, hP, hx⟩
  · exact ⟨fun _ => hall, fun _ => h0⟩
  · have hmem : (c, P) ∈ C09_list a v := by rw [hl]; simp
    have hneg := C09_codes_negative a v _ hmem
    constructor
    · intro h; rw [hx] at h; simp only at hneg; omega
    · intro h; exact absurd hP (h _ hmem)

/-- Accepted inputs in the caller's terms: consistent sizes, between 1 and `min(m, n)` values wanted, a
known target, a supported pair of operators, the callbacks that are needed, and all arrays. -/
theorem C09_accepted_inputs (a : SArrays) (v : SV K) :
    svdsCheckInput a v = 0 ↔
      (0 ≤ v.i .mLocal ∧ v.i .mLocal ≤ v.i .m ∧ 0 ≤ v.i .nLocal ∧ v.i .nLocal ≤ v.i .n) ∧
      (1 ≤ v.i .numSvals ∧ v.i .numSvals ≤ v.i .m ∧ v.i .numSvals ≤ v.i .n) ∧
      (v.i .target = 0 ∨ v.i .target = 1 ∨ v.i .target = 2) ∧
      Doc.Supported (v.i .method) (v.i .methodStage2) ∧
      1 ≤ v.i .numProcs ∧ v.p .matrixMatvec ≠ 0 ∧
      (v.i .precondition = 1 → v.p .applyPreconditioner ≠ 0) ∧
      (1 < v.i .numProcs → v.p .globalSumReal ≠ 0) ∧
      (0 ≤ v.i .printLevel ∧ v.i .printLevel ≤ 5) ∧
      a = ⟨false, false, false⟩ := by
  rw [C09_accepts_iff]
  have ha : a = ⟨false, false, false⟩ ↔
      ¬ a.svalsNull = true ∧ ¬ a.svecsNull = true ∧ ¬ a.resNormsNull = true := by
    cases a; simp
  rw [ha]
  simp only [C09_list, Doc.errors, List.forall_mem_cons, List.not_mem_nil, false_implies,
    implies_true, and_true, Doc.Supported, not_and, ne_eq]
  constructor
  · rintro ⟨h1, h2, h3, h4, h5, h6, h7, h8, h9, h10, h11, h12, h13, h14⟩
    refine ⟨by omega, by omega, by omega, by omega, by omega, h3, ?_, ?_, by omega, h12, h13, h14⟩
    · intro hp hz; exact h4 hz hp
    · intro hp; exact h5 hp
  · rintro ⟨h1, h2, h3, h4, h5, h6, h7, h8, h9, h12, h13, h14⟩
    refine ⟨by omega, by omega, h6, ?_, h8, by omega, by omega, by omega, by omega, by omega,
      by omega, h12, h13, h14⟩
    intro hz hp; exact h7 hp hz

/-- Non-vacuity: an input that is accepted, and two that violate several constraints and are reported
with the first. -/
def C09_demo (method stage2 numSvals : Int) : SV ℚ where
  i := fun f => match f with
    | .m | .mLocal => 100
    | .n | .nLocal => 50
    | .numProcs => 1
    | .numSvals => numSvals
    | .method => method
    | .methodStage2 => stage2
    | _ => 0
  d := fun _ => 0
  p := fun _ => 1
  seed := fun _ => 0
  addr := fun _ => 0

example : svdsCheckInput ⟨false, false, false⟩ (C09_demo 1 3 50) = 0 := by decide +kernel
example : svdsCheckInput ⟨true, false, false⟩ (C09_demo 3 3 50) = -15 := by decide +kernel
example : svdsCheckInput ⟨true, false, false⟩ (C09_demo 0 3 51) = -10 := by decide +kernel

end Verif.Props
