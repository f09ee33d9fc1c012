import Verif.Model.SvdsTables
import Verif.Proofs.Members

/-!
# C04 — `primme_svds_set_member` / `primme_svds_get_member` / `primme_svds_member_info`

The laws of C01, C02 and C03 for the parameters of the singular value solver.
-/

namespace Verif.Props
open Verif.Members Verif.Svds

/-- Published labels without a case in the setter. -/
def C04_noSetter : List String := ["stats_numGlobalSum", "stats_numBroadcast", "stats_lockingIssue"]

theorem C04_set_entries : ∀ e ∈ labels, e.2.1 ∉ C04_noSetter →
    select setTable e.1 = some (setEntryFor ctype e.2.2) := by decide +kernel

theorem C04_get_entries : ∀ e ∈ labels, select getTable e.1 = some (getEntryFor e.2.2) := by
  decide +kernel

theorem C04_labels_distinct :
    labels.Pairwise (fun a b => a.1 ≠ b.1 ∧ a.2.1 ≠ b.2.1 ∧ a.2.2 ≠ b.2.2) := by decide +kernel

/-- Every published label can be read and gives the current value of its member (for the two
embedded structures: their address). -/
theorem C04_get_reads_member {D : Type} (s : Store IF DF PF D) (l : Int) (nm : String)
    (m : Member IF DF PF) (hl : (l, nm, m) ∈ labels) :
    getMember getTable s l = .ok (reads s m) :=
  get_of_entry (C04_get_entries _ hl) s

/-- Round trip and independence.  Missing for the full property: the three counters of
`C04_counters_unsettable_violated`. -/
theorem C04_set_then_get_partial {D : Type} (s : Store IF DF PF D) (l : Int) (nm : String)
    (m : Member IF DF PF) (v : Val D) (hl : (l, nm, m) ∈ labels)
    (hs : nm ∉ C04_noSetter) (hv : fits ctype m v) :
    ∃ s', setMember setTable s l v = .ok (0, s') ∧
      getMember getTable s' l = .ok v ∧
      (∀ m', m' ≠ m → reads s' m' = reads s m') ∧
      (∀ l' nm' m', (l', nm', m') ∈ labels → l' ≠ l →
        getMember getTable s' l' = getMember getTable s l') := by
  refine ⟨put s m v, set_of_entry (C04_set_entries _ hl hs) s hv, ?_, ?_, ?_⟩
  · rw [get_of_entry (C04_get_entries _ hl), reads_put_self hv]
  · intro m' hm'; exact reads_put_other v hm' s
  · intro l' nm' m' hl' hne
    rw [get_of_entry (C04_get_entries _ hl'), get_of_entry (C04_get_entries _ hl')]
    have key : ∀ x ∈ labels, ∀ y ∈ labels, x.1 ≠ y.1 → x.2.2 ≠ y.2.2 := by decide +kernel
    simp only
    rw [reads_put_other v (key _ hl' _ hl hne)]

/-- A non-zero return code means the structure is exactly as before. -/
theorem C04_rejected_write_changes_nothing {D : Type} (s s' : Store IF DF PF D) (l rc : Int)
    (v : Val D) (h : setMember setTable s l v = .ok (rc, s')) (hrc : rc ≠ 0) : s' = s :=
  set_reject h hrc

/-- Numbers that are not published labels are rejected. -/
theorem C04_unknown_label_rejected {D : Type} (s : Store IF DF PF D) (l : Int) (v : Val D)
    (h : ∀ e ∈ labels, e.1 ≠ l) :
    setMember setTable s l v = .ok (1, s) ∧ getMember getTable s l = .err 1 := by
  have key : ∀ x ∈ setTable, ∃ y ∈ labels, y.1 = x.1 := by decide +kernel
  have key' : ∀ x ∈ getTable, ∃ y ∈ labels, y.1 = x.1 := by decide +kernel
  have h1 : select setTable l = none := by
    apply select_none
    intro e he hc
    obtain ⟨y, hy, hye⟩ := key e he
    exact h y hy (hye.trans hc)
  have h2 : select getTable l = none := by
    apply select_none
    intro e he hc
    obtain ⟨y, hy, hye⟩ := key' e he
    exact h y hy (hye.trans hc)
  constructor
  · unfold setMember; rw [h1]
  · unfold getMember; rw [h2]

/-- The embedded eigensolver structures cannot be overwritten through their label. -/
theorem C04_embedded_structures_readonly {D : Type} (s : Store IF DF PF D) (v : Val D) :
    setMember setTable s 1 v = .ok (1, s) ∧ setMember setTable s 2 v = .ok (1, s) := ⟨rfl, rfl⟩

/-- Refutation: three members have a published label but every write to them is rejected. -/
theorem C04_counters_unsettable_violated {D : Type} (s : Store IF DF PF D) (l : Int) (nm : String)
    (m : Member IF DF PF) (v : Val D) (hl : (l, nm, m) ∈ labels) (hn : nm ∈ C04_noSetter) :
    (∃ f, m = .i f ∧ ctype f = .clong) ∧ setMember setTable s l v = .ok (1, s) := by
  have k1 : ∀ e ∈ labels, e.2.1 ∈ C04_noSetter → select setTable e.1 = none := by decide +kernel
  have k2 : ∀ e ∈ labels, e.2.1 ∈ C04_noSetter →
      (e.2.2 = .i .stats_numGlobalSum ∨ e.2.2 = .i .stats_numBroadcast ∨
        e.2.2 = .i .stats_lockingIssue) := by decide +kernel
  constructor
  · rcases k2 _ hl hn with h | h | h
    · exact ⟨.stats_numGlobalSum, h, rfl⟩
    · exact ⟨.stats_numBroadcast, h, rfl⟩
    · exact ⟨.stats_lockingIssue, h, rfl⟩
  · have := k1 _ hl hn
    simp only at this
    unfold setMember; rw [this]

/-- Refutation: for every `int` member, values below `INT_MIN` are accepted and another value is
stored. -/
theorem C04_too_small_int_accepted_violated {D : Type} (s : Store IF DF PF D) (l : Int)
    (nm : String) (f : IF) (x : Int) (hl : (l, nm, .i f) ∈ labels) (ht : ctype f = .cint)
    (hx : x < -2 ^ 31) :
    ∃ s', setMember setTable s l (.int x) = .ok (0, s') ∧ s'.i f ≠ x := by
  have hns : nm ∉ C04_noSetter := by
    intro hc
    obtain ⟨g, hg, hg'⟩ := (C04_counters_unsettable_violated s l nm _ (.int x) hl hc).1
    cases hg; rw [ht] at hg'; cases hg'
  refine ⟨s.setI f (castInt x), ?_, ?_⟩
  · unfold setMember
    rw [C04_set_entries _ hl hns]
    simp only [setEntryFor, ht]
    rw [if_neg (by unfold INT_MAX; omega)]
  · simp only [Store.setI, if_true]
    exact castInt_ne hx

/-- Values above `INT_MAX` are rejected for every `int` member. -/
theorem C04_too_large_int_rejected {D : Type} (s : Store IF DF PF D) (l : Int) (nm : String)
    (f : IF) (x : Int) (hl : (l, nm, .i f) ∈ labels) (ht : ctype f = .cint) (hx : 2 ^ 31 ≤ x) :
    setMember setTable s l (.int x) = .ok (1, s) := by
  have hns : nm ∉ C04_noSetter := by
    intro hc
    obtain ⟨g, hg, hg'⟩ := (C04_counters_unsettable_violated s l nm _ (.int x) hl hc).1
    cases hg; rw [ht] at hg'; cases hg'
  unfold setMember
  rw [C04_set_entries _ hl hns]
  simp only [setEntryFor, ht]
  rw [if_pos (by unfold INT_MAX; omega)]

/-! ## `primme_svds_member_info` -/

/-- Type and arity reported for a member; the seed is reported with arity 1 although four words are
read and written. -/
def C04_ptype : Member IF DF PF → PType × Nat
  | .i _ => (.int, 1)
  | .d _ => (.double, 1)
  | .p .targetShifts => (.double, 0)
  | .p .profile => (.string, 1)
  | .p _ => (.pointer, 1)
  | .seed => (.int, 4)
  | .sub _ => (.pointer, 1)

theorem C04_names_distinct : Distinct infoNames := by decide +kernel

theorem C04_name_lines : ∀ e ∈ apiNames, (e.2, e.1) ∈ infoNames := by decide +kernel

theorem C04_type_lines : ∀ e ∈ labels, e.2.2 ≠ .seed →
    select infoTypes e.1 = some (C04_ptype e.2.2) := by decide +kernel

/-- From label to name and from name to label, with the type and arity of the member.  Missing: the
arity of the seed. -/
theorem C04_names_and_labels_partial (l l0 : Int) (nm fld : String) (m : Member IF DF PF)
    (hn : (l, nm) ∈ apiNames) (hl : (l, fld, m) ∈ labels) (hs : m ≠ .seed)
    (h0 : ∀ e ∈ labels, e.1 ≠ l0) :
    memberInfo infoNames infoTypes (some l) (some none) =
      .ok (some l, some (some nm), (C04_ptype m).1, (C04_ptype m).2) ∧
    memberInfo infoNames infoTypes (some l0) (some (some nm)) =
      .ok (some l, some (some nm), (C04_ptype m).1, (C04_ptype m).2) := by
  constructor
  · exact memberInfo_finds C04_names_distinct (C04_name_lines _ hn) (C04_type_lines _ hl hs)
      (name := some none) (by simp) (Or.inl rfl)
  · refine memberInfo_finds C04_names_distinct (C04_name_lines _ hn) (C04_type_lines _ hl hs)
      (name := some (some nm)) (by simp [eq_comm]) (Or.inr ⟨rfl, ?_⟩)
    have key : ∀ e ∈ infoNames, ∃ y ∈ labels, y.1 = e.2 := by decide +kernel
    intro e he hc
    obtain ⟨y, hy, hye⟩ := key e he
    exact h0 y hy (hye.trans hc)

/-- Refutation: the seed is announced as one integer while reading it writes four. -/
theorem C04_seed_arity_violated {D : Type} (s : Store IF DF PF D) :
    memberInfo infoNames infoTypes (some 35) (some none) = .ok (some 35, some (some "iseed"), .int, 1) ∧
    getMember getTable s 35 = .ok (.seed s.seed) :=
  ⟨by decide +kernel, rfl⟩

/-- Refutation: a `NULL` label pointer with a recognised name is dereferenced. -/
theorem C04_null_label_violated (nm : String) (l : Int) (h : (nm, l) ∈ infoNames) :
    memberInfo infoNames infoTypes none (some (some nm)) = .ub := by
  obtain ⟨pre, post, hsp, hne⟩ := distinct_split C04_names_distinct h
  unfold memberInfo
  rw [if_neg (by simp)]
  rw [hsp, info_fold_finds pre post nm l _ (by simp [eq_comm]) (by simp) (Or.inl rfl) hne]
  simp

/-- Non-vacuity. -/
example : ((18 : Int), "numSvals", (Member.i .numSvals : Member IF DF PF)) ∈ labels ∧
    "numSvals" ∉ C04_noSetter ∧ fits (D := Int) ctype (.i .numSvals : Member IF DF PF) (.int 3) :=
  ⟨by decide +kernel, by decide, by show (-2^31 : Int) ≤ 3 ∧ (3:Int) < 2^31; omega⟩

end Verif.Props
