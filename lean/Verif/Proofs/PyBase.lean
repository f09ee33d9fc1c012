import Verif.Model.PyBase
import Verif.Proofs.Members
import Mathlib.Data.List.Nodup

set_option linter.unusedSectionVars false

/-!
# Setting parameters from Python: which member a name reaches
-/

namespace Verif.Py
open Verif.Members

variable {K : Type} [Field K] {IF DF PF : Type} [DecidableEq IF] [DecidableEq DF] [DecidableEq PF]

/-- The tables serve the named members `mem` (`ptype` is how a member is accessed): every name is the name of exactly
one member, reached under its type, and each member has at most one name. -/
structure Good (T : Tables IF DF PF) (ct : IF → CType) (ptype : Member IF DF PF → PType × Nat)
    (mem : List (String × Member IF DF PF)) : Prop where
  distinct : Distinct T.names
  labels : ∀ e ∈ T.names, e.2 ≠ 0
  named : ∀ e ∈ T.names, ∃ m, (e.1, m) ∈ mem ∧ select T.types e.2 = some (ptype m) ∧
    (select T.setter e.2 = some (setEntryFor ct m) ∨ select T.setter e.2 = none ∨ select T.setter e.2 = some .reject)
  names : (mem.map Prod.fst).Nodup
  members : (mem.map Prod.snd).Nodup
  access : ∀ e ∈ mem, match e.2 with
    | .i _ => ptype e.2 = (.int, 1)
    | .d _ => ptype e.2 = (.double, 1)
    | .p _ => ptype e.2 = (.pointer, 1) ∨ (ptype e.2).2 = 0 ∨ (ptype e.2).1 = .string
    | _ => True

variable {T : Tables IF DF PF} {ct : IF → CType} {ptype : Member IF DF PF → PType × Nat}
  {mem : List (String × Member IF DF PF)}

theorem info_cases (g : Good T ct ptype mem) (field : String) :
    (∃ l m, (field, l) ∈ T.names ∧ (field, m) ∈ mem ∧
      (select T.setter l = some (setEntryFor ct m) ∨ select T.setter l = none ∨ select T.setter l = some .reject) ∧
      memberInfo T.names T.types (some 0) (some (some field)) =
        .ok (some l, some (some field), (ptype m).1, (ptype m).2)) ∨
    ((∀ e ∈ T.names, e.1 ≠ field) ∧ memberInfo T.names T.types (some 0) (some (some field)) = .err 1) := by
  by_cases h : ∃ e ∈ T.names, e.1 = field
  · obtain ⟨⟨nm, l⟩, he, rfl⟩ := h
    obtain ⟨m, hm, ht, hs⟩ := g.named _ he
    refine Or.inl ⟨l, m, he, hm, hs, ?_⟩
    exact memberInfo_finds g.distinct he ht (name := some (some nm)) (by simp [eq_comm])
      (Or.inr ⟨rfl, fun e he => g.labels e he⟩)
  · refine Or.inr ⟨fun e he hc => h ⟨e, he, hc⟩, ?_⟩
    unfold memberInfo
    rw [info_fold_no_match]
    · simp
    · intro e he hc
      rcases hc with hc | hc
      · simp only [Option.some.injEq] at hc; exact h ⟨e, he, hc.symm⟩
      · simp only [Option.some.injEq] at hc; exact g.labels e he hc.symm

theorem name_unique (g : Good T ct ptype mem) {f f' : String} {m : Member IF DF PF} (h : (f, m) ∈ mem)
    (h' : (f', m) ∈ mem) : f = f' := by
  have := List.inj_on_of_nodup_map g.members h h' rfl
  exact congrArg Prod.fst this

theorem member_unique (g : Good T ct ptype mem) {f : String} {m m' : Member IF DF PF} (h : (f, m) ∈ mem)
    (h' : (f, m') ∈ mem) : m = m' := by
  have := List.inj_on_of_nodup_map g.names h h' rfl
  exact congrArg Prod.snd this

/-- A successful write of a member is an assignment to that member. -/
theorem store_ok {s t : Store IF DF PF K} {l : Int} {m : Member IF DF PF} {v : Val K}
    (he : select T.setter l = some (setEntryFor ct m) ∨ select T.setter l = none ∨ select T.setter l = some .reject)
    (h : store T s l v = .ok t) : ∃ x, t = put s m x := by
  unfold store at h
  rcases he with he | he | he
  · unfold setMember at h
    rw [he] at h
    cases m with
    | i f =>
      cases hc : ct f <;> simp only [setEntryFor, hc] at h <;> cases v <;> simp at h
      · exact ⟨.int _, h.symm⟩
      · split at h
        · rename_i hx; split at hx <;> simp at hx <;> obtain ⟨rfl, rfl⟩ := hx <;> simp at h
          exact ⟨.int _, h.symm⟩
        · simp at h
        · simp at h
      · exact ⟨.int _, h.symm⟩
    | d f => simp only [setEntryFor] at h; cases v <;> simp at h; exact ⟨.dbl _, h.symm⟩
    | p f => simp only [setEntryFor] at h; cases v <;> simp at h; exact ⟨.ptr _, h.symm⟩
    | seed => simp only [setEntryFor] at h; cases v <;> simp at h; exact ⟨.seed _, h.symm⟩
    | sub k => simp only [setEntryFor] at h; simp at h
  · unfold setMember at h; rw [he] at h; simp at h
  · unfold setMember at h; rw [he] at h; simp at h

theorem paramsSet_ok (g : Good T ct ptype mem) {E : Env K} {s t : Store IF DF PF K} {field : String} {v : PVal K}
    (h : paramsSet T E s field v = .ok t) : ∃ m x, (field, m) ∈ mem ∧ t = put s m x := by
  unfold paramsSet at h
  rcases info_cases g field with ⟨l, m, -, hm, hs, hi⟩ | ⟨-, hi⟩
  · rw [hi] at h
    refine ⟨m, ?_⟩
    simp only at h
    split at h
    · simp at h
    · generalize ptype m = pm at h
      obtain ⟨ty, ar⟩ := pm
      cases ty with
      | pointer => simp only at h; obtain ⟨x, hx⟩ := store_ok hs h; exact ⟨x, hm, hx⟩
      | int =>
        simp only [Res.bind] at h
        split at h
        · obtain ⟨x, hx⟩ := store_ok hs h; exact ⟨x, hm, hx⟩
        · simp at h
        · simp at h
      | double =>
        simp only [Res.bind] at h
        split at h
        · obtain ⟨x, hx⟩ := store_ok hs h; exact ⟨x, hm, hx⟩
        · simp at h
        · simp at h
      | string => simp at h
  · rw [hi] at h; simp at h

/-- A name that is not a parameter raises `ValueError`. -/
theorem paramsSet_unknown (g : Good T ct ptype mem) (E : Env K) (s : Store IF DF PF K) {field : String}
    (h : ∀ e ∈ T.names, e.1 ≠ field) (v : PVal K) : paramsSet T E s field v = .raise .value := by
  rcases info_cases g field with ⟨l, m, hl, -⟩ | ⟨-, hi⟩
  · exact absurd rfl (h _ hl)
  · unfold paramsSet; rw [hi]

theorem paramsRaw_ok (g : Good T ct ptype mem) {s t : Store IF DF PF K} {field : String} {a : Nat}
    (h : paramsRaw T s field a = .ok t) : t = s ∨ ∃ m x, (field, m) ∈ mem ∧ t = put s m x := by
  unfold paramsRaw at h
  rcases info_cases g field with ⟨l, m, -, hm, hs, hi⟩ | ⟨-, hi⟩
  · rw [hi] at h
    simp only at h
    rcases hs with he | he | he
    · unfold setMember at h
      rw [he] at h
      cases m with
      | i f => cases hc : ct f <;> simp only [setEntryFor, hc] at h <;> simp at h
      | d f => simp only [setEntryFor] at h; simp at h
      | p f => simp only [setEntryFor] at h; simp at h; exact Or.inr ⟨_, .ptr a, hm, h.symm⟩
      | seed => simp only [setEntryFor] at h; simp at h
      | sub k => simp only [setEntryFor] at h; simp at h; exact Or.inl h.symm
    · unfold setMember at h; rw [he] at h; simp at h; exact Or.inl h.symm
    · unfold setMember at h; rw [he] at h; simp at h; exact Or.inl h.symm
  · rw [hi] at h; simp at h; exact Or.inl h.symm

/-! ## Sequences of statements -/

variable {S : Type} {P : Setters K S}

theorem run_append (a b : List (Step K S)) (s : S) : run P (a ++ b) s = (run P a s).bind (run P b) := by
  induction a generalizing s with
  | nil => rfl
  | cons x r ih =>
    simp only [List.cons_append, run]
    cases x.exec P s with
    | ok t => exact ih t
    | raise e => rfl
    | ub => rfl

theorem bind_ok {α β : Type} {x : Res α} {f : α → Res β} {b : β} (h : x.bind f = .ok b) :
    ∃ a, x = .ok a ∧ f a = .ok b := by
  cases x with
  | ok a => exact ⟨a, rfl, h⟩
  | raise e => simp [Res.bind] at h
  | ub => simp [Res.bind] at h

theorem run_append_ok {a b : List (Step K S)} {s t : S} (h : run P (a ++ b) s = .ok t) :
    ∃ u, run P a s = .ok u ∧ run P b u = .ok t := by
  rw [run_append] at h; exact bind_ok h

theorem run_cons_ok {x : Step K S} {r : List (Step K S)} {s t : S} (h : run P (x :: r) s = .ok t) :
    ∃ u, x.exec P s = .ok u ∧ run P r u = .ok t := bind_ok h

/-- A statement that does not change what `g` observes. -/
def Keeps {α : Type} (P : Setters K S) (g : S → α) (x : Step K S) : Prop := ∀ s t, x.exec P s = .ok t → g t = g s

theorem run_keeps {α : Type} {g : S → α} {l : List (Step K S)} (h : ∀ x ∈ l, Keeps P g x) {s t : S}
    (hr : run P l s = .ok t) : g t = g s := by
  induction l generalizing s with
  | nil => simp [run] at hr; rw [hr]
  | cons x r ih =>
    obtain ⟨u, h1, h2⟩ := run_cons_ok hr
    rw [ih (fun y hy => h y (by simp [hy])) h2, h x (by simp) s u h1]

theorem keeps_need {α : Type} (g : S → α) (b : Bool) (e : Exc) : Keeps P g (.need b e : Step K S) := by
  intro s t h
  simp only [Step.exec] at h
  split at h
  · simp at h; rw [h]
  · simp at h

theorem need_ok {b : Bool} {e : Exc} {s t : S} (h : (Step.need b e : Step K S).exec P s = .ok t) : b = true ∧ t = s := by
  simp only [Step.exec] at h
  split at h
  · rename_i hb; simp at h; exact ⟨hb, h.symm⟩
  · simp at h

theorem extra_ok {f : String} {v : PVal K} {s t : S} (h : (Step.extra f v : Step K S).exec P s = .ok t) :
    P.set s f v = .ok t := by
  simp only [Step.exec] at h
  split at h
  · rename_i x hx; simp at h; rw [hx, h]
  · simp at h
  · simp at h

/-- The value the caller means when giving `v` to member `m`; none when `v` is of another kind. -/
def meant (E : Env K) (consts : List (String × Int)) : Member IF DF PF → PVal K → Option (Val K)
  | .i _, .int v => some (.int v)
  | .i _, .flt x => some (.int (E.trunc x))
  | .i _, .str s => match constantInfo consts s with
    | .ok v => some (.int v)
    | _ => none
  | .d _, .flt x => some (.dbl x)
  | .d _, .int v => some (.dbl (v : K))
  | .p _, v => some (.ptr (addrOf E v))
  | _, _ => none

theorem toInt_meant {E : Env K} {consts : List (String × Int)} {f : IF} {v : PVal K} {x : Int}
    (hm : meant E consts (.i f : Member IF DF PF) v = some (.int x)) (hx : (ct f).holds x) : toInt E consts v = .ok x := by
  have hl : -2 ^ 63 ≤ x ∧ x < 2 ^ 63 := by
    unfold CType.holds isLong at hx
    split at hx <;> omega
  cases v with
  | int y => simp [meant] at hm; subst hm; unfold toInt; exact if_pos hl
  | flt y => simp [meant] at hm; subst hm; unfold toInt; exact if_pos hl
  | str y =>
    unfold meant at hm; unfold toInt
    simp only at hm ⊢
    split at hm
    · rename_i w hw; simp at hm; subst hm; rw [hw]
    · simp at hm
  | obj y => simp [meant] at hm

theorem setEntry_settable {m : Member IF DF PF} (hs : ∀ k, m ≠ .sub k) : setEntryFor ct m ≠ .reject := by
  cases m with
  | i f => cases h : ct f <;> simp [setEntryFor, h]
  | d f => simp [setEntryFor]
  | p f => simp [setEntryFor]
  | seed => simp [setEntryFor]
  | sub k => exact absurd rfl (hs k)

/-- Giving a settable member a value it can hold assigns that value and nothing else. -/
theorem paramsSet_eq (g : Good T ct ptype mem) (E : Env K) (s : Store IF DF PF K) {field : String} {l : Int}
    {m : Member IF DF PF} {v : PVal K} {x : Val K} (hl : (field, l) ∈ T.names) (hm : (field, m) ∈ mem)
    (he : select T.setter l = some (setEntryFor ct m))
    (hp : ∀ f, m = .p f → ptype m = (.pointer, 1))
    (hv : meant E T.consts m v = some x) (hx : fits ct m x) : paramsSet T E s field v = .ok (put s m x) := by
  obtain ⟨m', hm', ht, hs⟩ := g.named _ hl
  obtain rfl := member_unique g hm hm'
  have hi : memberInfo T.names T.types (some 0) (some (some field)) =
        .ok (some l, some (some field), (ptype m).1, (ptype m).2) :=
    memberInfo_finds g.distinct hl ht (name := some (some field)) (by simp [eq_comm])
      (Or.inr ⟨rfl, fun e he => g.labels e he⟩)
  have ha := g.access _ hm
  have hst : store T s l x = .ok (put s m x) := by
    unfold store; rw [set_of_entry he s hx]; simp
  unfold paramsSet
  rw [hi]
  cases m with
  | i f =>
    simp only at ha
    rw [ha]
    cases x with
    | int y =>
      simp only [ne_eq, not_true, if_false]
      rw [toInt_meant hv hx]
      exact hst
    | dbl y => exact absurd hx (by simp [fits])
    | ptr y => exact absurd hx (by simp [fits])
    | seed y => exact absurd hx (by simp [fits])
  | d f =>
    simp only at ha
    rw [ha]
    simp only [ne_eq, not_true, if_false]
    cases v with
    | int y => simp [meant] at hv; subst hv; exact hst
    | flt y => simp [meant] at hv; subst hv; exact hst
    | str y => simp [meant] at hv
    | obj y => simp [meant] at hv
  | p f =>
    rw [hp f rfl]
    simp only [ne_eq, not_true, if_false]
    simp [meant] at hv
    subst hv
    exact hst
  | seed => simp [meant] at hv
  | sub k => simp [meant] at hv

/-- The same for a write that is known to have succeeded. -/
theorem paramsSet_means (g : Good T ct ptype mem) {E : Env K} {s t : Store IF DF PF K} {field : String}
    {m : Member IF DF PF} {v : PVal K} {x : Val K} (hm : (field, m) ∈ mem) (h : paramsSet T E s field v = .ok t)
    (hv : meant E T.consts m v = some x) (hx : fits ct m x) : t = put s m x := by
  rcases info_cases g field with ⟨l, m', hl, hm', hs, hi⟩ | ⟨-, hi⟩
  · obtain rfl := member_unique g hm hm'
    have hstore : ∀ {t y}, store T s l y = .ok t → select T.setter l = some (setEntryFor ct m) := by
      intro t y hy
      rcases hs with hs | hs | hs
      · exact hs
      · unfold store setMember at hy; rw [hs] at hy; simp at hy
      · unfold store setMember at hy; rw [hs] at hy; simp at hy
    have h0 := h
    unfold paramsSet at h
    rw [hi] at h
    simp only at h
    have ha := g.access _ hm
    have hp : ∀ f, m = .p f → ptype m = (.pointer, 1) := by
      rintro f rfl
      rcases ha with ha | ha | ha
      · exact ha
      · rw [ha] at h; simp at h
      · rw [ha] at h; simp at h
    have he : select T.setter l = some (setEntryFor ct m) := by
      split at h
      · simp at h
      · split at h
        · exact hstore h
        · obtain ⟨a, -, h2⟩ := bind_ok h; exact hstore h2
        · obtain ⟨a, -, h2⟩ := bind_ok h; exact hstore h2
        · simp at h
    have := paramsSet_eq g E s hl hm he hp hv hx
    rw [h0] at this
    simpa using this
  · unfold paramsSet at h; rw [hi] at h; simp at h

/-- A write through a name leaves every member with another name alone. -/
theorem paramsSet_keeps (g : Good T ct ptype mem) {E : Env K} {s t : Store IF DF PF K} {field name : String}
    {m : Member IF DF PF} {v : PVal K} (hm : (name, m) ∈ mem) (hne : field ≠ name)
    (h : paramsSet T E s field v = .ok t) : reads t m = reads s m := by
  obtain ⟨m', x, hm', rfl⟩ := paramsSet_ok g h
  exact reads_put_other x (by rintro rfl; exact hne (name_unique g hm' hm)) s

theorem paramsRaw_keeps (g : Good T ct ptype mem) {s t : Store IF DF PF K} {field name : String}
    {m : Member IF DF PF} {a : Nat} (hm : (name, m) ∈ mem) (hne : field ≠ name)
    (h : paramsRaw T s field a = .ok t) : reads t m = reads s m := by
  rcases paramsRaw_ok g h with rfl | ⟨m', x, hm', rfl⟩
  · rfl
  · exact reads_put_other x (by rintro rfl; exact hne (name_unique g hm' hm)) s

/-- The pointer members reached by `primme_params_set_pointer`. -/
theorem paramsRaw_eq (g : Good T ct ptype mem) (s : Store IF DF PF K) {field : String} {l : Int} {f : PF} (a : Nat)
    (hl : (field, l) ∈ T.names) (hm : (field, .p f) ∈ mem)
    (he : select T.setter l = some (.ptr f)) : paramsRaw T s field a = .ok (put s (.p f) (.ptr a)) := by
  obtain ⟨m', hm', ht, hs⟩ := g.named _ hl
  obtain rfl := member_unique g hm hm'
  have hi := memberInfo_finds g.distinct hl ht (name := some (some field)) (lab := 0) (by simp [eq_comm])
      (Or.inr ⟨rfl, fun e he => g.labels e he⟩)
  unfold paramsRaw
  rw [hi]
  simp only [setMember, he]
  rfl


/-- Setting a parameter by name is never undefined (as long as the seed is not taken for one number): a bad name or
value raises. -/
theorem paramsSet_no_ub (g : Good T ct ptype mem) (E : Env K) (s : Store IF DF PF K) (field : String) (v : PVal K)
    (hseed : (field, .seed) ∈ mem → (ptype .seed).2 ≠ 1) : paramsSet T E s field v ≠ .ub := by
  have bad : ∀ l y, (select T.setter l = none ∨ select T.setter l = some .reject) → store T s l y ≠ .ub := by
    intro l y h
    unfold store setMember
    rcases h with h | h <;> rw [h] <;> simp
  have bnd : ∀ {α β : Type} (x : Res α) (f : α → Res β), x ≠ .ub → (∀ a, f a ≠ .ub) → x.bind f ≠ .ub := by
    intro α β x f hx hf
    cases x with
    | ok a => exact hf a
    | raise e => simp [Res.bind]
    | ub => exact absurd rfl hx
  have hti : toInt E T.consts v ≠ .ub := by
    unfold toInt
    repeat' split
    all_goals simp
  have htd : toDouble v ≠ .ub := by
    unfold toDouble
    split <;> simp
  unfold paramsSet
  rcases info_cases g field with ⟨l, m, -, hm, hs, hi⟩ | ⟨-, hi⟩
  · rw [hi]
    simp only
    split
    · simp
    · rename_i ha
      have ha : (ptype m).2 = 1 := by simpa using ha
      have hacc := g.access _ hm
      rcases hs with he | he
      · cases m with
        | i f =>
          simp only at hacc
          simp only [hacc]
          refine bnd _ _ hti (fun x => ?_)
          unfold store setMember
          rw [he]
          cases hc : ct f with
          | clong => simp [setEntryFor, hc]
          | cint =>
            by_cases hx : x > INT_MAX
            · simp [setEntryFor, hc, hx]
            · simp [setEntryFor, hc, hx]
          | cenum => simp [setEntryFor, hc]
        | d f =>
          simp only at hacc
          simp only [hacc]
          refine bnd _ _ htd (fun x => ?_)
          unfold store setMember
          rw [he]
          simp [setEntryFor]
        | p f =>
          simp only at hacc
          rcases hacc with h | h | h
          · simp only [h]
            unfold store setMember
            rw [he]
            simp [setEntryFor]
          · omega
          · simp [h]
        | seed => exact absurd ha (hseed hm)
        | sub k =>
          have hb : ∀ y, store T s l y ≠ .ub := fun y => bad l y (.inr (by rw [he]; rfl))
          split
          · exact hb _
          · exact bnd _ _ hti (fun x => hb _)
          · exact bnd _ _ htd (fun x => hb _)
          · simp
      · have hb : ∀ y, store T s l y ≠ .ub := fun y => bad l y he
        split
        · exact hb _
        · exact bnd _ _ hti (fun x => hb _)
        · exact bnd _ _ htd (fun x => hb _)
        · simp
  · rw [hi]; simp

theorem run_no_ub {P : Setters K S} {l : List (Step K S)} (h : ∀ x ∈ l, ∀ s, x.exec P s ≠ .ub) (s : S) :
    run P l s ≠ .ub := by
  induction l generalizing s with
  | nil => simp [run]
  | cons x r ih =>
    unfold run
    cases hx : x.exec P s with
    | ok t => exact ih (fun y hy => h y (by simp [hy])) t
    | raise e => simp [Res.bind]
    | ub => exact absurd hx (h x (by simp) s)

theorem run_total {P : Setters K S} {l : List (Step K S)} (h : ∀ x ∈ l, ∀ s, ∃ t, x.exec P s = .ok t) (s : S) :
    ∃ t, run P l s = .ok t := by
  induction l generalizing s with
  | nil => exact ⟨s, rfl⟩
  | cons x r ih =>
    obtain ⟨t, ht⟩ := h x (by simp) s
    obtain ⟨u, hu⟩ := ih (fun y hy => h y (by simp [hy])) t
    exact ⟨u, by unfold run; rw [ht]; exact hu⟩


/-! ## Single statements -/

theorem store_int_ok (g : Good T ct ptype mem) {E : Env K} {s t : Store IF DF PF K} {nm : String} {f : IF} {v : Int}
    (hm : (nm, .i f) ∈ mem) (h : paramsSet T E s nm (.int v) = .ok t) :
    (-2 ^ 63 ≤ v ∧ v < 2 ^ 63) ∧ (ct f = .cint → v < 2 ^ 31) := by
  unfold paramsSet at h
  rcases info_cases g nm with ⟨l, m, -, hm', hs, hi⟩ | ⟨-, hi⟩
  · obtain rfl := member_unique g hm hm'
    rw [hi] at h
    have ha : ptype (.i f) = (.int, 1) := g.access _ hm
    simp only [ha, ne_eq, not_true, if_false] at h
    obtain ⟨x, h1, h2⟩ := bind_ok h
    unfold toInt at h1
    simp only at h1
    split at h1
    · rename_i hr
      simp at h1
      subst h1
      refine ⟨hr, fun hc => ?_⟩
      by_contra hge
      rcases hs with he | he | he
      · unfold store setMember at h2
        rw [he] at h2
        simp only [setEntryFor, hc] at h2
        rw [if_pos (by unfold INT_MAX; omega)] at h2
        simp at h2
      · unfold store setMember at h2; rw [he] at h2; simp at h2
      · unfold store setMember at h2; rw [he] at h2; simp at h2
    · simp at h1
  · rw [hi] at h; simp at h

/-- An integer given to an integer parameter, when the statement succeeds. -/
theorem store_int (g : Good T ct ptype mem) {E : Env K} {s t : Store IF DF PF K} {nm : String} {f : IF} {v : Int}
    (hm : (nm, .i f) ∈ mem) (hc : ct f ≠ .cenum) (hv : -2 ^ 31 ≤ v) (h : paramsSet T E s nm (.int v) = .ok t) :
    t.i f = v := by
  obtain ⟨h1, h2⟩ := store_int_ok g hm h
  have hf : fits ct (.i f : Member IF DF PF) (.int v : Val K) := by
    show (ct f).holds v
    cases hcf : ct f with
    | clong => exact h1
    | cint => exact ⟨hv, h2 hcf⟩
    | cenum => exact absurd hcf hc
  rw [paramsSet_means g hm h rfl hf]
  simp [put]

theorem store_obj (g : Good T ct ptype mem) {E : Env K} {s t : Store IF DF PF K} {nm : String} {f : PF} {a : Nat}
    (hm : (nm, .p f) ∈ mem) (h : paramsSet T E s nm (.obj a) = .ok t) : t.p f = a := by
  rw [paramsSet_means g hm h (x := .ptr a) rfl trivial]
  simp [put]

theorem store_flt (g : Good T ct ptype mem) {E : Env K} {s t : Store IF DF PF K} {nm : String} {f : DF} {x : K}
    (hm : (nm, .d f) ∈ mem) (h : paramsSet T E s nm (.flt x) = .ok t) : t.d f = x := by
  rw [paramsSet_means g hm h (x := .dbl x) rfl trivial]
  simp [put]

/-- The name of a constant given to an integer parameter. -/
theorem store_const (g : Good T ct ptype mem) {E : Env K} {s t : Store IF DF PF K} {nm : String} {f : IF} {c : String}
    {v : Int} (hm : (nm, .i f) ∈ mem) (hc : constantInfo T.consts c = .ok v) (hv : (ct f).holds v)
    (h : paramsSet T E s nm (.str c) = .ok t) : t.i f = v := by
  have hx : meant E T.consts (.i f : Member IF DF PF) (.str c) = some (.int v) := by
    unfold meant; simp only [hc]
  rw [paramsSet_means g hm h hx hv]
  simp [put]

end Verif.Py
