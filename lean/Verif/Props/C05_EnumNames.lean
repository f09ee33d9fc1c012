import Verif.Model.EigsTables
import Verif.Model.SvdsTables
import Verif.Proofs.Members

/-!
# C05 — enum constant names and values are mutually inverse

For `primme_enum_member_info` / `primme_constant_info` and their `primme_svds_` counterparts.
`C05_lookup_*` follow one call; the constants are those listed for the member.
-/

namespace Verif.Props
open Verif.Members

/-- What the enumeration tables must satisfy. -/
def C05_good (t : List (Int × List (String × Int))) (c : List (String × Int)) : Prop :=
  (∀ e ∈ t, Distinct e.2 ∧ ∀ x ∈ e.2, 0 ≤ x.2 ∧ x ∈ c) ∧ (c.map Prod.fst).Nodup

instance (t : List (Int × List (String × Int))) (c : List (String × Int)) :
    Decidable (C05_good t c) := by unfold C05_good; infer_instance

theorem C05_eigs_good : C05_good Eigs.enumTable Eigs.constTable := by decide +kernel
theorem C05_svds_good : C05_good Svds.enumTable Svds.constTable := by decide +kernel

theorem C05_generic {t : List (Int × List (String × Int))} {c : List (String × Int)}
    (hg : C05_good t c) (label : Int) (l : List (String × Int)) (hl : select t label = some l)
    (s : String) (v : Int) (hm : (s, v) ∈ l) :
    enumMemberInfo t label v none = (0, v, some s) ∧
    (∀ x < 0, enumMemberInfo t label x (some s) = (0, v, some s)) ∧
    constantInfo c s = .ok v := by
  have h1 := hg.1 _ (select_mem hl)
  have hv := (h1.2 _ hm).1
  simp only at h1 hv
  refine ⟨?_, ?_, constantInfo_ok hg.2 (h1.2 _ hm).2⟩
  · unfold enumMemberInfo
    rw [if_neg (by rintro (h | h) <;> simp_all <;> omega), hl]
    simp only [enumScan_value h1.1 hm]
  · intro x hx
    unfold enumMemberInfo
    rw [if_neg (by rintro (h | h) <;> simp_all; omega), hl]
    simp only
    rw [enumScan_name h1.1 (fun e he => by have := (h1.2 e he).1; omega) hm]

/-- A successful answer is always one of the constants listed for that member and agrees with what
was asked; an unsuccessful one leaves both arguments as they were. -/
theorem C05_generic_sound (t : List (Int × List (String × Int))) (label x : Int)
    (name : Option String) :
    (∃ l s v, select t label = some l ∧ (s, v) ∈ l ∧ (x = v ∨ name = some s) ∧
      enumMemberInfo t label x name = (0, v, some s)) ∨
    (∃ rc, rc < 0 ∧ enumMemberInfo t label x name = (rc, x, name)) := by
  unfold enumMemberInfo
  split_ifs
  · exact Or.inr ⟨-1, by omega, rfl⟩
  · cases hl : select t label with
    | none => exact Or.inr ⟨-2, by omega, rfl⟩
    | some l =>
      simp only
      cases hs : enumScan l x name with
      | none => exact Or.inr ⟨-2, by omega, rfl⟩
      | some r =>
        obtain ⟨v, s⟩ := r
        have := enumScan_sound hs
        exact Or.inl ⟨l, s, v, rfl, this.1, this.2, rfl⟩

/-- Eigenproblem: value to name, name to value, and agreement with `primme_constant_info`. -/
theorem C05_eigs_enum_inverse (label : Int) (l : List (String × Int))
    (hl : select Eigs.enumTable label = some l) (s : String) (v : Int) (hm : (s, v) ∈ l) :
    enumMemberInfo Eigs.enumTable label v none = (0, v, some s) ∧
    (∀ x < 0, enumMemberInfo Eigs.enumTable label x (some s) = (0, v, some s)) ∧
    constantInfo Eigs.constTable s = .ok v := C05_generic C05_eigs_good label l hl s v hm

/-- Singular value problem: the same. -/
theorem C05_svds_enum_inverse (label : Int) (l : List (String × Int))
    (hl : select Svds.enumTable label = some l) (s : String) (v : Int) (hm : (s, v) ∈ l) :
    enumMemberInfo Svds.enumTable label v none = (0, v, some s) ∧
    (∀ x < 0, enumMemberInfo Svds.enumTable label x (some s) = (0, v, some s)) ∧
    constantInfo Svds.constTable s = .ok v := C05_generic C05_svds_good label l hl s v hm

/-- A call that fails leaves its arguments alone; a call that succeeds answers the question asked. -/
theorem C05_eigs_enum_sound (label x : Int) (name : Option String) :
    (∃ l s v, select Eigs.enumTable label = some l ∧ (s, v) ∈ l ∧ (x = v ∨ name = some s) ∧
      enumMemberInfo Eigs.enumTable label x name = (0, v, some s)) ∨
    (∃ rc, rc < 0 ∧ enumMemberInfo Eigs.enumTable label x name = (rc, x, name)) :=
  C05_generic_sound _ _ _ _

theorem C05_svds_enum_sound (label x : Int) (name : Option String) :
    (∃ l s v, select Svds.enumTable label = some l ∧ (s, v) ∈ l ∧ (x = v ∨ name = some s) ∧
      enumMemberInfo Svds.enumTable label x name = (0, v, some s)) ∨
    (∃ rc, rc < 0 ∧ enumMemberInfo Svds.enumTable label x name = (rc, x, name)) :=
  C05_generic_sound _ _ _ _

/-- The enumeration constants listed for a member are exactly those of the member's type in the
header: `primme_target` has the six constants 0..5. -/
theorem C05_target_constants :
    select Eigs.enumTable 17 = some [("primme_smallest", 0), ("primme_largest", 1),
      ("primme_closest_geq", 2), ("primme_closest_leq", 3), ("primme_closest_abs", 4),
      ("primme_largest_abs", 5)] := by decide +kernel

/-- Refutation of completeness: three enumeration members of `primme_params` (internalPrecision,
convTestFun_type, monitorFun_type) have no constants listed, so every translation fails. -/
theorem C05_untranslated_members_violated (label : Int) (h : label = 34 ∨ label = 81 ∨ label = 86)
    (x : Int) (name : Option String) :
    (∃ nm f, (label, nm, Member.i f) ∈ Eigs.labels ∧ Eigs.ctype f = .cenum) ∧
    (enumMemberInfo Eigs.enumTable label x name).1 < 0 := by
  constructor
  · rcases h with rfl | rfl | rfl
    · exact ⟨"internalPrecision", .internalPrecision, by decide +kernel, rfl⟩
    · exact ⟨"convTestFun_type", .convTestFun_type, by decide +kernel, rfl⟩
    · exact ⟨"monitorFun_type", .monitorFun_type, by decide +kernel, rfl⟩
  · have : select Eigs.enumTable label = none := by rcases h with rfl | rfl | rfl <;> decide +kernel
    unfold enumMemberInfo
    split_ifs
    · simp
    · simp [this]

/-- Non-vacuity. -/
example : enumMemberInfo Eigs.enumTable 17 3 none = (0, 3, some "primme_closest_leq") ∧
    enumMemberInfo Eigs.enumTable 17 (-1) (some "primme_closest_leq") =
      (0, 3, some "primme_closest_leq") ∧
    enumMemberInfo Eigs.enumTable 17 9 none = (-2, 9, none) := by decide +kernel

end Verif.Props
