import Verif.Model.EigsTables
import Verif.Proofs.Members

/-!
# C03 — `primme_member_info`: names and labels are a bijection, types agree with access

`C03_ptype` is the type and arity under which a member is accessed by `primme_get_member` and
`primme_set_member`; the two arrays are announced as arrays of doubles of unknown length.
-/

namespace Verif.Props
open Verif.Members Verif.Eigs

/-- Type and arity of a member as seen by a caller. -/
def C03_ptype : Member IF DF PF → PType × Nat
  | .i _ => (.int, 1)
  | .d _ => (.double, 1)
  | .p .targetShifts => (.double, 0)
  | .p .ShiftsForPreconditioner => (.double, 0)
  | .p .profile => (.string, 1)
  | .p _ => (.pointer, 1)
  | .seed => (.int, 4)
  | .sub _ => (.pointer, 1)

/-- Labels without a name in the implementation. -/
def C03_unnamed : List Int := [13, 15]

theorem C03_names_distinct : Distinct infoNames := by decide +kernel

theorem C03_name_lines : ∀ e ∈ apiNames, e.1 ∉ C03_unnamed → (e.2, e.1) ∈ infoNames := by
  decide +kernel

theorem C03_name_lines_sound : ∀ e ∈ infoNames, (e.2, e.1) ∈ apiNames := by decide +kernel

theorem C03_type_lines : ∀ e ∈ labels, select infoTypes e.1 = some (C03_ptype e.2.2) := by
  decide +kernel

/-- From a label to its name, with type and arity.  Missing: the two labels of
`C03_unnamed_labels_violated`. -/
theorem C03_label_to_name_partial (l : Int) (nm fld : String) (m : Member IF DF PF)
    (hn : (l, nm) ∈ apiNames) (hl : (l, fld, m) ∈ labels) (hu : l ∉ C03_unnamed) :
    memberInfo infoNames infoTypes (some l) (some none) =
      .ok (some l, some (some nm), (C03_ptype m).1, (C03_ptype m).2) :=
  memberInfo_finds C03_names_distinct (C03_name_lines _ hn hu) (C03_type_lines _ hl)
    (name := some none) (by simp) (Or.inl rfl)

/-- From a name to its label: the caller's label variable may hold any number that is not itself a
label (or the right one). -/
theorem C03_name_to_label_partial (l l0 : Int) (nm fld : String) (m : Member IF DF PF)
    (hn : (l, nm) ∈ apiNames) (hl : (l, fld, m) ∈ labels) (hu : l ∉ C03_unnamed)
    (h0 : l0 = l ∨ ∀ e ∈ labels, e.1 ≠ l0) :
    memberInfo infoNames infoTypes (some l0) (some (some nm)) =
      .ok (some l, some (some nm), (C03_ptype m).1, (C03_ptype m).2) := by
  refine memberInfo_finds C03_names_distinct (C03_name_lines _ hn hu) (C03_type_lines _ hl)
    (name := some (some nm)) (by simp [eq_comm]) ?_
  rcases h0 with h0 | h0
  · exact Or.inl h0
  · refine Or.inr ⟨rfl, ?_⟩
    have key : ∀ e ∈ infoNames, ∃ y ∈ labels, y.1 = e.2 := by decide +kernel
    intro e he hc
    obtain ⟨y, hy, hye⟩ := key e he
    exact h0 y hy (hye.trans hc)

/-- The two directions are inverse to each other, so the correspondence is one to one: two labels
with the same name are the same label. -/
theorem C03_names_injective (l l' : Int) (nm : String)
    (h : ∃ ty, memberInfo infoNames infoTypes (some l) (some none) = .ok (some l, some (some nm), ty))
    (h' : ∃ ty, memberInfo infoNames infoTypes (some l') (some none) =
      .ok (some l', some (some nm), ty)) : l = l' := by
  have inv : ∀ (x : Int) (y : String) (ty : PType × Nat),
      memberInfo infoNames infoTypes (some x) (some none) = .ok (some x, some (some y), ty) →
      (y, x) ∈ infoNames := by
    intro x y ty hx
    by_cases hx0 : ∃ e ∈ infoNames, e.2 = x
    · obtain ⟨⟨s, k⟩, he, rfl⟩ := hx0
      have key : ∀ e ∈ infoNames, (select infoTypes e.2).isSome = true := by decide +kernel
      obtain ⟨⟨t, a⟩, hta⟩ := Option.isSome_iff_exists.mp (key _ he)
      have := memberInfo_finds C03_names_distinct he hta (name := some none) (by simp) (Or.inl rfl)
      rw [this] at hx
      simp at hx
      rw [← hx.1]; exact he
    · push Not at hx0
      exfalso
      unfold memberInfo at hx
      rw [info_fold_no_match _ _ (by intro e he; simp; exact fun c => hx0 e he c.symm)] at hx
      simp at hx
  obtain ⟨ty, h⟩ := h
  obtain ⟨ty', h'⟩ := h'
  have h1 := inv _ _ _ h
  have h2 := inv _ _ _ h'
  have key : infoNames.Pairwise (fun a b => a.1 ≠ b.1) := by decide +kernel
  obtain ⟨pre, post, hsp, hne⟩ := distinct_split C03_names_distinct h1
  rw [hsp] at h2
  by_contra hll
  have : (nm, l') ∈ pre ++ post := by
    rcases List.mem_append.mp h2 with h | h
    · exact List.mem_append.mpr (Or.inl h)
    · rcases List.mem_cons.mp h with h | h
      · cases h; exact absurd rfl hll
      · exact List.mem_append.mpr (Or.inr h)
  exact (hne _ this).1 rfl

/-- Anything else is an error: an unknown name with an unknown label. -/
theorem C03_unknown_is_error (l0 : Int) (nm : String) (hl : ∀ e ∈ labels, e.1 ≠ l0)
    (hn : ∀ e ∈ apiNames, e.2 ≠ nm) :
    memberInfo infoNames infoTypes (some l0) (some (some nm)) = .err 1 := by
  unfold memberInfo
  rw [info_fold_no_match]
  · simp
  · intro e he hc
    have h1 := C03_name_lines_sound e he
    have key : ∀ e ∈ apiNames, ∃ y ∈ labels, y.1 = e.1 := by decide +kernel
    obtain ⟨y, hy, hye⟩ := key _ h1
    rcases hc with hc | hc
    · simp only [Option.some.injEq] at hc; exact hn _ h1 hc.symm
    · simp only [Option.some.injEq] at hc; exact hl y hy (hye.trans hc.symm)

/-- Refutation: two published labels have no name, and their names are not recognised. -/
theorem C03_unnamed_labels_violated :
    (13, "globalSumReal_type") ∈ apiNames ∧ (15, "broadcastReal_type") ∈ apiNames ∧
    memberInfo infoNames infoTypes (some 13) (some none) = .err 1 ∧
    memberInfo infoNames infoTypes (some 15) (some none) = .err 1 ∧
    memberInfo infoNames infoTypes (some 0) (some (some "globalSumReal_type")) = .err 1 :=
  ⟨by decide +kernel, by decide +kernel, by decide +kernel, by decide +kernel, by decide +kernel⟩

/-- Refutation: asking only for the type of a named member (label pointer `NULL`, which the guard at
the top accepts) dereferences the null pointer, for every recognised name. -/
theorem C03_null_label_violated (nm : String) (l : Int) (h : (nm, l) ∈ infoNames) :
    memberInfo infoNames infoTypes none (some (some nm)) = .ub := by
  obtain ⟨pre, post, hsp, hne⟩ := distinct_split C03_names_distinct h
  unfold memberInfo
  rw [if_neg (by simp)]
  rw [hsp, info_fold_finds pre post nm l _ (by simp [eq_comm]) (by simp) (Or.inl rfl) hne]
  simp

/-- Non-vacuity. -/
example : memberInfo infoNames infoTypes (some 44) (some none) =
    .ok (some 44, some (some "correction_precondition"), .int, 1) := by decide +kernel
example : ((44 : Int), "correction_precondition") ∈ apiNames ∧
    ((44 : Int), "correctionParams_precondition",
      (Member.i .correctionParams_precondition : Member IF DF PF)) ∈ labels ∧
    (44 : Int) ∉ C03_unnamed := by decide +kernel

end Verif.Props
