import Verif.Model.EigsTables
import Verif.Proofs.Members
import Verif.Props.C01_EigsMembers

/-!
# C02 — rejected writes change nothing, accepted writes are exact
-/

namespace Verif.Props
open Verif.Members Verif.Eigs

/-- A non-zero return code means the structure is exactly as before. -/
theorem C02_rejected_write_changes_nothing {D : Type} (s s' : Store IF DF PF D) (l rc : Int)
    (v : Val D) (h : setMember setTable s l v = .ok (rc, s')) (hrc : rc ≠ 0) : s' = s :=
  set_reject h hrc

/-- Numbers that are not published labels are rejected. -/
theorem C02_unknown_label_rejected {D : Type} (s : Store IF DF PF D) (l : Int) (v : Val D)
    (h : ∀ e ∈ labels, e.1 ≠ l) : setMember setTable s l v = .ok (1, s) := by
  have key : ∀ x ∈ setTable, ∃ y ∈ labels, y.1 = x.1 := by decide +kernel
  have : select setTable l = none := by
    apply select_none
    intro e he hc
    obtain ⟨y, hy, hye⟩ := key e he
    exact h y hy (hye.trans hc)
  unfold setMember
  rw [this]

/-- Values above `INT_MAX` are rejected for every `int` member. -/
theorem C02_too_large_int_rejected {D : Type} (s : Store IF DF PF D) (l : Int) (nm : String)
    (f : IF) (x : Int) (hl : (l, nm, .i f) ∈ labels) (ht : ctype f = .cint) (hx : 2 ^ 31 ≤ x) :
    setMember setTable s l (.int x) = .ok (1, s) := by
  have hns : nm ∉ C01_noSetter := by
    have key : ∀ e ∈ labels, ∀ f, e.2.2 = .i f → ctype f = .cint → e.2.1 ∉ C01_noSetter := by
      intro e he f hf ht
      have k2 : ∀ e ∈ labels, e.2.1 ∈ C01_noSetter → (e.2.2 = .i .stats_numGlobalSum ∨ e.2.2 = .i .stats_numBroadcast) := by
        decide +kernel
      intro hc
      rcases k2 e he hc with h | h <;> · rw [hf] at h; cases h; cases ht
    exact key _ hl f rfl ht
  unfold setMember
  rw [C01_set_entries _ hl hns]
  simp only [setEntryFor, ht]
  rw [if_pos (by unfold INT_MAX; omega)]

/-- An accepted write of a value that is not below `INT_MIN` (for `int` members) and within the
enumeration's representation (for enumerations) stores exactly that value and changes nothing else.
Missing for the full property: the values covered by the two refutations below. -/
theorem C02_accepted_write_exact_partial {D : Type} (s s' : Store IF DF PF D) (l : Int)
    (nm : String) (m : Member IF DF PF) (v : Val D) (hl : (l, nm, m) ∈ labels)
    (h : setMember setTable s l v = .ok (0, s'))
    (hr : ∀ f x, m = .i f → v = .int x →
      (ctype f = .cint → -2 ^ 31 ≤ x) ∧ (ctype f = .cenum → 0 ≤ x ∧ x < 2 ^ 32)) :
    s' = put s m v := by
  by_cases hns : nm ∈ C01_noSetter
  · have k2 : ∀ e ∈ labels, e.2.1 ∈ C01_noSetter → select setTable e.1 = none := by decide +kernel
    have := k2 _ hl hns
    simp only at this
    unfold setMember at h
    rw [this] at h
    simp at h
  · have he := C01_set_entries _ hl hns
    simp only at he
    unfold setMember at h
    rw [he] at h
    cases m with
    | i f =>
      simp only [setEntryFor] at h
      cases hc : ctype f with
      | clong =>
        rw [hc] at h
        cases v <;> simp [Store.setI] at h
        subst h; rfl
      | cint =>
        rw [hc] at h
        cases v with
        | int x =>
          simp only at h
          split_ifs at h with hx
          · simp at h
          · simp only [Outcome.ok.injEq, Prod.mk.injEq, true_and] at h
            have h1 := (hr f x rfl rfl).1 hc
            rw [castInt_id (by unfold INT_MAX at hx; omega)] at h
            exact h.symm
        | _ => simp at h
      | cenum =>
        rw [hc] at h
        cases v with
        | int x =>
          simp only [Outcome.ok.injEq, Prod.mk.injEq, true_and] at h
          rw [castEnum_id ((hr f x rfl rfl).2 hc)] at h
          exact h.symm
        | _ => simp at h
    | d f => cases v <;> simp [setEntryFor] at h; subst h; rfl
    | p f => cases v <;> simp [setEntryFor] at h; subst h; rfl
    | seed => cases v <;> simp [setEntryFor] at h; subst h; rfl
    | sub k =>
      have k3 : ∀ e ∈ labels, ∀ k, e.2.2 ≠ .sub k := by
        intro e he k hk
        have : ∀ e ∈ labels, (match e.2.2 with | .sub _ => false | _ => true) = true := by decide +kernel
        have := this e he
        rw [hk] at this
        simp at this
      exact absurd rfl (k3 _ hl k)

/-- Refutation: for every `int` member, every value below `INT_MIN` is accepted and a different
value is stored. -/
theorem C02_too_small_int_accepted_violated {D : Type} (s : Store IF DF PF D) (l : Int)
    (nm : String) (f : IF) (x : Int) (hl : (l, nm, .i f) ∈ labels) (ht : ctype f = .cint)
    (hx : x < -2 ^ 31) :
    ∃ s', setMember setTable s l (.int x) = .ok (0, s') ∧ s'.i f ≠ x := by
  have hns : nm ∉ C01_noSetter := by
    have k2 : ∀ e ∈ labels, e.2.1 ∈ C01_noSetter → (e.2.2 = .i .stats_numGlobalSum ∨ e.2.2 = .i .stats_numBroadcast) := by
      decide +kernel
    intro hc
    rcases k2 _ hl hc with h | h <;> · cases h; cases ht
  refine ⟨s.setI f (castInt x), ?_, ?_⟩
  · unfold setMember
    rw [C01_set_entries _ hl hns]
    simp only [setEntryFor, ht]
    rw [if_neg (by unfold INT_MAX; omega)]
  · simp only [Store.setI, if_true]
    exact castInt_ne hx

/-- Refutation: for every enumeration member, every value outside the unsigned 32-bit range is
accepted and a different value is stored. -/
theorem C02_enum_truncated_violated {D : Type} (s : Store IF DF PF D) (l : Int)
    (nm : String) (f : IF) (x : Int) (hl : (l, nm, .i f) ∈ labels) (ht : ctype f = .cenum)
    (hx : ¬ (0 ≤ x ∧ x < 2 ^ 32)) :
    ∃ s', setMember setTable s l (.int x) = .ok (0, s') ∧ s'.i f ≠ x := by
  have hns : nm ∉ C01_noSetter := by
    have k2 : ∀ e ∈ labels, e.2.1 ∈ C01_noSetter → (e.2.2 = .i .stats_numGlobalSum ∨ e.2.2 = .i .stats_numBroadcast) := by
      decide +kernel
    intro hc
    rcases k2 _ hl hc with h | h <;> · cases h; cases ht
  refine ⟨s.setI f (castEnum x), ?_, ?_⟩
  · unfold setMember
    rw [C01_set_entries _ hl hns]
    simp only [setEntryFor, ht]
  · simp only [Store.setI, if_true]
    exact castEnum_ne hx

/-- Non-vacuity of the refutations: numEvals (label 16) and -2^32+5, which is stored as 5; target
(label 17) and 2^32+3, stored as 3. -/
example {D : Type} (s : Store IF DF PF D) :
    setMember setTable s 16 (.int (-2 ^ 32 + 5)) = .ok (0, s.setI .numEvals 5) ∧
    setMember setTable s 17 (.int (2 ^ 32 + 3)) = .ok (0, s.setI .target 3) := ⟨rfl, rfl⟩
/-- Non-vacuity of the unknown label theorem: 0 and 90 are not labels. -/
example : (∀ e ∈ labels, e.1 ≠ (0 : Int)) ∧ ∀ e ∈ labels, e.1 ≠ (90 : Int) := by decide +kernel

end Verif.Props
