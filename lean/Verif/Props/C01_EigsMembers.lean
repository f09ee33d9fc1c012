import Verif.Model.EigsTables
import Verif.Proofs.Members

/-!
# C01 — `primme_set_member` followed by `primme_get_member`

For every published label (include/primme_eigs.h), except the four the implementation forgets, and
every value the member can hold: the write succeeds, reading the label gives the value back, and
every other member of the structure is unchanged.  The four exceptions are refuted.
-/

namespace Verif.Props
open Verif.Members Verif.Eigs

/-- Labels without a case in the setter. -/
def C01_noSetter : List String := ["stats_numGlobalSum", "stats_numBroadcast"]

/-- Labels without a case in the getter. -/
def C01_noGetter : List String := ["globalSumReal_type", "broadcastReal_type"]

theorem C01_set_entries : ∀ e ∈ labels, e.2.1 ∉ C01_noSetter →
    select setTable e.1 = some (setEntryFor ctype e.2.2) := by decide +kernel

theorem C01_get_entries : ∀ e ∈ labels, e.2.1 ∉ C01_noGetter →
    select getTable e.1 = some (getEntryFor e.2.2) := by decide +kernel

/-- Distinct labels name distinct members, and labels are not repeated. -/
theorem C01_labels_distinct :
    labels.Pairwise (fun a b => a.1 ≠ b.1 ∧ a.2.1 ≠ b.2.1 ∧ a.2.2 ≠ b.2.2) := by decide +kernel

/-- Reading a label returns the current value of the member it names. -/
theorem C01_get_reads_member_partial {D : Type} (s : Store IF DF PF D) (l : Int) (nm : String)
    (m : Member IF DF PF) (hl : (l, nm, m) ∈ labels) (hg : nm ∉ C01_noGetter) :
    getMember getTable s l = .ok (reads s m) :=
  get_of_entry (C01_get_entries _ hl hg) s

/-- Round trip and independence. -/
theorem C01_set_then_get_partial {D : Type} (s : Store IF DF PF D) (l : Int) (nm : String)
    (m : Member IF DF PF) (v : Val D) (hl : (l, nm, m) ∈ labels)
    (hs : nm ∉ C01_noSetter) (hg : nm ∉ C01_noGetter) (hv : fits ctype m v) :
    ∃ s', setMember setTable s l v = .ok (0, s') ∧
      getMember getTable s' l = .ok v ∧
      (∀ m', m' ≠ m → reads s' m' = reads s m') ∧
      (∀ l', l' ≠ l → getMember getTable s' l' = getMember getTable s l') := by
  refine ⟨put s m v, set_of_entry (C01_set_entries _ hl hs) s hv, ?_, ?_, ?_⟩
  · rw [get_of_entry (C01_get_entries _ hl hg), reads_put_self hv]
  · intro m' hm'; exact reads_put_other v hm' s
  · intro l' hl'
    cases hsel : select getTable l' with
    | none => unfold getMember; rw [hsel]
    | some e =>
      have key : ∀ x ∈ getTable, ∀ y ∈ labels, x.1 ≠ y.1 → x.2 ≠ getEntryFor y.2.2 := by
        decide +kernel
      have hne := key _ (select_mem hsel) _ hl hl'
      have : ∀ x ∈ getTable, ∃ m' : Member IF DF PF, x.2 = getEntryFor m' := by
        intro x _
        cases hx : x.2 with
        | int f => exact ⟨.i f, rfl⟩
        | dbl f => exact ⟨.d f, rfl⟩
        | ptr f => exact ⟨.p f, rfl⟩
        | seed => exact ⟨.seed, rfl⟩
        | sub k => exact ⟨.sub k, rfl⟩
      obtain ⟨m', hm'⟩ := this _ (select_mem hsel)
      simp only at hm' hne
      have hmm : m' ≠ m := by rintro rfl; exact hne hm'
      rw [hm'] at hsel
      rw [get_of_entry hsel, get_of_entry hsel, reads_put_other v hmm]

/-- Writes to the two members without a getter still reach the member. -/
theorem C01_set_reaches_member_partial {D : Type} (s : Store IF DF PF D) (l : Int) (nm : String)
    (m : Member IF DF PF) (v : Val D) (hl : (l, nm, m) ∈ labels)
    (hs : nm ∉ C01_noSetter) (hv : fits ctype m v) :
    setMember setTable s l v = .ok (0, put s m v) :=
  set_of_entry (C01_set_entries _ hl hs) s hv

/-- Refutation: the datatypes of the reduction and broadcast callbacks can be written but never
read back, for any structure. -/
theorem C01_type_members_unreadable_violated :
    ∀ l : Int, l = 13 ∨ l = 15 →
      (∃ nm m, (l, nm, m) ∈ labels ∧ m ≠ .seed) ∧
      ∀ {D : Type} (s : Store IF DF PF D), ∃ s', setMember setTable s l (.int 2) = .ok (0, s') ∧
        getMember getTable s' l = .err 1 := by
  rintro l (rfl | rfl)
  · exact ⟨⟨"globalSumReal_type", .i .globalSumReal_type, by decide +kernel, by decide⟩,
      fun s => ⟨s.setI .globalSumReal_type 2, rfl, rfl⟩⟩
  · exact ⟨⟨"broadcastReal_type", .i .broadcastReal_type, by decide +kernel, by decide⟩,
      fun s => ⟨s.setI .broadcastReal_type 2, rfl, rfl⟩⟩

/-- Refutation: two counters have a published label but cannot be written. -/
theorem C01_counters_unsettable_violated :
    ∀ l : Int, l = 59 ∨ l = 61 → (∃ nm f, (l, nm, .i f) ∈ labels ∧ ctype f = .clong) ∧
      ∀ {D : Type} (s : Store IF DF PF D) (v : Val D), setMember setTable s l v = .ok (1, s) := by
  rintro l (rfl | rfl)
  · exact ⟨⟨"stats_numGlobalSum", .stats_numGlobalSum, by decide +kernel, rfl⟩, fun s v => rfl⟩
  · exact ⟨⟨"stats_numBroadcast", .stats_numBroadcast, by decide +kernel, rfl⟩, fun s v => rfl⟩

/-- Non-vacuity: label 23 is `maxBasisSize`, an `int`, and 40 fits; label 32 is `eps`. -/
example : ((23 : Int), "maxBasisSize", (Member.i .maxBasisSize : Member IF DF PF)) ∈ labels ∧
    "maxBasisSize" ∉ C01_noSetter ∧ "maxBasisSize" ∉ C01_noGetter ∧
    fits (D := Int) ctype (.i .maxBasisSize : Member IF DF PF) (.int 40) :=
  ⟨by decide +kernel, by decide, by decide, by show (-2^31 : Int) ≤ 40 ∧ (40:Int) < 2^31; omega⟩
example : ((32 : Int), "eps", (Member.d .eps : Member IF DF PF)) ∈ labels ∧
    fits (D := Int) ctype (.d .eps : Member IF DF PF) (.dbl 7) :=
  ⟨by decide +kernel, trivial⟩

end Verif.Props
