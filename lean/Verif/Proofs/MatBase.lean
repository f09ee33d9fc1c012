import Verif.Model.MatBase
import Verif.Proofs.RBase
import Verif.Spec.Mat

set_option linter.unusedSectionVars false

/-!
# Structs of options and the setter of the MATLAB interface
-/

namespace Verif.Mat
open Verif.Members Verif.Py

/-! ## Structs -/

section
variable {α : Type}

theorem get_set (l : Fields α) (nm nm' : String) (v : α) :
    (l.set nm v).get nm' = if nm' = nm then some v else l.get nm' := by
  induction l with
  | nil =>
    simp only [Fields.set, Fields.get]
    by_cases h : nm' = nm
    · simp [h]
    · simp [h, Ne.symm h]
  | cons e r ih =>
    by_cases he : e.1 = nm
    · simp only [Fields.set, he, if_true, Fields.get]
      by_cases h : nm' = nm
      · simp [h]
      · simp [h, Ne.symm h]
    · simp only [Fields.set, he, if_false, Fields.get, ih]
      by_cases h : nm' = nm
      · subst h; simp [he]
      · simp [h]

theorem get_del (l : Fields α) (nm nm' : String) : (l.del nm).get nm' = if nm' = nm then none else l.get nm' := by
  induction l with
  | nil => simp [Fields.del, Fields.get]
  | cons e r ih =>
    unfold Fields.del at ih ⊢
    by_cases he : e.1 = nm
    · rw [List.filter_cons_of_neg (by simp [he]), ih]
      by_cases h : nm' = nm
      · simp [h]
      · rw [if_neg h, if_neg h, Fields.get, if_neg (by rw [he]; exact Ne.symm h)]
    · rw [List.filter_cons_of_pos (by simp [he]), Fields.get, ih, Fields.get]
      by_cases h : nm' = nm
      · subst h; simp [he]
      · simp [h]

/-- The names of the fields. -/
def Fields.names (l : Fields α) : List String := l.map Prod.fst

theorem names_set (l : Fields α) (nm : String) (v : α) :
    (l.set nm v).names = if nm ∈ l.names then l.names else l.names ++ [nm] := by
  induction l with
  | nil => simp [Fields.set, Fields.names]
  | cons e r ih =>
    unfold Fields.names at ih ⊢
    by_cases he : e.1 = nm
    · simp [Fields.set, he]
    · simp only [Fields.set, he, if_false, List.map_cons, ih, List.mem_cons, Ne.symm he, false_or]
      split <;> simp

theorem nodup_set {l : Fields α} (h : l.names.Nodup) (nm : String) (v : α) : (l.set nm v).names.Nodup := by
  rw [names_set]
  split
  · exact h
  · rename_i hn
    rw [List.nodup_append]
    refine ⟨h, by simp, ?_⟩
    intro x hx y hy
    simp only [List.mem_singleton] at hy
    subst hy
    rintro rfl
    exact hn hx

theorem nodup_del {l : Fields α} (h : l.names.Nodup) (nm : String) : (l.del nm).names.Nodup :=
  List.Nodup.sublist (List.Sublist.map _ List.filter_sublist) h

theorem get_none {l : Fields α} {nm : String} : l.get nm = none ↔ nm ∉ l.names := by
  induction l with
  | nil => simp [Fields.get, Fields.names]
  | cons e r ih =>
    unfold Fields.names at ih ⊢
    by_cases he : e.1 = nm
    · simp [Fields.get, he]
    · simp only [Fields.get, he, if_false, ih, List.map_cons, List.mem_cons, Ne.symm he, false_or]

theorem mem_of_get {l : Fields α} {nm : String} {v : α} (h : l.get nm = some v) : (nm, v) ∈ l := by
  induction l with
  | nil => simp [Fields.get] at h
  | cons e r ih =>
    by_cases he : e.1 = nm
    · simp only [Fields.get, he, if_true, Option.some.injEq] at h
      subst h he
      exact List.mem_cons_self
    · simp only [Fields.get, he, if_false] at h
      exact List.mem_cons_of_mem _ (ih h)

theorem get_of_mem {l : Fields α} (hl : l.names.Nodup) {nm : String} {v : α} (h : (nm, v) ∈ l) : l.get nm = some v := by
  induction l with
  | nil => simp at h
  | cons e r ih =>
    simp only [Fields.names, List.map_cons, List.nodup_cons] at hl
    rcases List.mem_cons.1 h with rfl | h
    · simp [Fields.get]
    · have : e.1 ≠ nm := by
        rintro rfl
        exact hl.1 (List.mem_map.2 ⟨_, h, rfl⟩)
      simp only [Fields.get, this, if_false]
      exact ih hl.2 h

theorem nodup_merge {l o : Fields α} (h : l.names.Nodup) : (l.merge o).names.Nodup := by
  unfold Fields.merge
  induction o generalizing l with
  | nil => exact h
  | cons e r ih => exact ih (nodup_set h _ _)

theorem get_merge (l : Fields α) {o : Fields α} (ho : o.names.Nodup) (nm : String) :
    (l.merge o).get nm = (o.get nm).or (l.get nm) := by
  unfold Fields.merge
  induction o generalizing l with
  | nil => simp [Fields.get]
  | cons e r ih =>
    simp only [Fields.names, List.map_cons, List.nodup_cons] at ho
    rw [List.foldl_cons, ih _ ho.2, get_set, Fields.get]
    by_cases he : e.1 = nm
    · subst he
      have : Fields.get r e.1 = none := get_none.2 ho.1
      simp [this]
    · simp [he, Ne.symm he]

end

/-! ## Settings -/

section
variable {K : Type}

/-- The values that are not structs. -/
def plain : MVal K → Prop
  | .struct _ => False
  | _ => True

theorem mem_settings (o : Fields (MVal K)) (nm : String) (v : MVal K) : (nm, v) ∈ settings o ↔
    ((nm, v) ∈ o ∧ plain v) ∨ ∃ k l e, (k, .struct l) ∈ o ∧ e ∈ l ∧ nm = k ++ "_" ++ e.1 ∧ v = .one e.2 := by
  induction o with
  | nil => simp [settings]
  | cons x r ih =>
    obtain ⟨k, w⟩ := x
    cases w with
    | struct l =>
      simp only [settings, List.mem_append, List.mem_map, ih, List.mem_cons, Prod.mk.injEq, MVal.struct.injEq]
      constructor
      · rintro (⟨e, he, h1, h2⟩ | h | ⟨k', l', e, h1, h2⟩)
        · exact .inr ⟨k, l, e, .inl ⟨rfl, rfl⟩, he, h1.symm, h2.symm⟩
        · exact .inl ⟨.inr h.1, h.2⟩
        · exact .inr ⟨k', l', e, .inr h1, h2⟩
      · rintro (⟨⟨rfl, rfl⟩ | h, h2⟩ | ⟨k', l', e, ⟨rfl, rfl⟩ | h1, h2, h3, h4⟩)
        · exact absurd h2 (by simp [plain])
        · exact .inr (.inl ⟨h, h2⟩)
        · exact .inl ⟨e, h2, h3.symm, h4.symm⟩
        · exact .inr (.inr ⟨k', l', e, h1, h2, h3, h4⟩)
    | num a b c =>
      simp only [settings, List.mem_cons, ih, Prod.mk.injEq, reduceCtorEq, and_false, false_or]
      constructor
      · rintro (⟨rfl, rfl⟩ | h | h)
        · exact .inl ⟨.inl ⟨rfl, rfl⟩, trivial⟩
        · exact .inl ⟨.inr h.1, h.2⟩
        · exact .inr h
      · rintro (⟨⟨rfl, rfl⟩ | h, h2⟩ | h)
        · exact .inl ⟨rfl, rfl⟩
        · exact .inr (.inl ⟨h, h2⟩)
        · exact .inr (.inr h)
    | complex a b c =>
      simp only [settings, List.mem_cons, ih, Prod.mk.injEq, reduceCtorEq, and_false, false_or]
      constructor
      · rintro (⟨rfl, rfl⟩ | h | h)
        · exact .inl ⟨.inl ⟨rfl, rfl⟩, trivial⟩
        · exact .inl ⟨.inr h.1, h.2⟩
        · exact .inr h
      · rintro (⟨⟨rfl, rfl⟩ | h, h2⟩ | h)
        · exact .inl ⟨rfl, rfl⟩
        · exact .inr (.inl ⟨h, h2⟩)
        · exact .inr (.inr h)
    | str a =>
      simp only [settings, List.mem_cons, ih, Prod.mk.injEq, reduceCtorEq, and_false, false_or]
      constructor
      · rintro (⟨rfl, rfl⟩ | h | h)
        · exact .inl ⟨.inl ⟨rfl, rfl⟩, trivial⟩
        · exact .inl ⟨.inr h.1, h.2⟩
        · exact .inr h
      · rintro (⟨⟨rfl, rfl⟩ | h, h2⟩ | h)
        · exact .inl ⟨rfl, rfl⟩
        · exact .inr (.inl ⟨h, h2⟩)
        · exact .inr (.inr h)
    | fn a =>
      simp only [settings, List.mem_cons, ih, Prod.mk.injEq, reduceCtorEq, and_false, false_or]
      constructor
      · rintro (⟨rfl, rfl⟩ | h | h)
        · exact .inl ⟨.inl ⟨rfl, rfl⟩, trivial⟩
        · exact .inl ⟨.inr h.1, h.2⟩
        · exact .inr h
      · rintro (⟨⟨rfl, rfl⟩ | h, h2⟩ | h)
        · exact .inl ⟨rfl, rfl⟩
        · exact .inr (.inl ⟨h, h2⟩)
        · exact .inr (.inr h)
    | other =>
      simp only [settings, List.mem_cons, ih, Prod.mk.injEq, reduceCtorEq, and_false, false_or]
      constructor
      · rintro (⟨rfl, rfl⟩ | h | h)
        · exact .inl ⟨.inl ⟨rfl, rfl⟩, trivial⟩
        · exact .inl ⟨.inr h.1, h.2⟩
        · exact .inr h
      · rintro (⟨⟨rfl, rfl⟩ | h, h2⟩ | h)
        · exact .inl ⟨rfl, rfl⟩
        · exact .inr (.inl ⟨h, h2⟩)
        · exact .inr (.inr h)

end

/-! ## Setting parameters -/

variable {K : Type} [Field K] [LinearOrder K] [IsStrictOrderedRing K] [FloorRing K]
variable {IF DF PF : Type} [DecidableEq IF] [DecidableEq DF] [DecidableEq PF]

/-- The labels of the setter are those of the seed, of the shifts, of functions, and of members that are not reached
otherwise. -/
structure GoodM (P : MKind IF DF PF) (ct : IF → CType) (ptype : Member IF DF PF → PType × Nat)
    (mem : List (String × Member IF DF PF)) : Prop where
  tables : Good P.T ct ptype mem
  seed : ∀ nm m, (nm, P.seed) ∈ P.T.names → (nm, m) ∈ mem → m = .seed
  shifts : ∀ nm m, (nm, P.shifts) ∈ P.T.names → (nm, m) ∈ mem → m = .p P.array
  comm : ∀ nm m, (nm, P.comm) ∈ P.T.names → (nm, m) ∈ mem → m = .p P.commInfo
  label : ∀ nm l l', (nm, l) ∈ P.T.names → (nm, l') ∈ P.T.names → l = l'

/-- The members that are written under the name of another: the handles, the number of shifts and the device. -/
def aliased (P : MKind IF DF PF) : List (Member IF DF PF) :=
  .i P.count :: .p P.commInfo :: P.handles.map fun e => .p e.2

variable {P : MKind IF DF PF} {ct : IF → CType} {ptype : Member IF DF PF → PType × Nat}
  {mem : List (String × Member IF DF PF)}

/-- What a successful assignment did: the seed, the shifts, a handle, the device, or one member through the table. -/
theorem setMemberM_ok (g : GoodM P ct ptype mem) {s t : R.RState IF DF PF K} {nm : String} {v : MVal K}
    (h : setMemberM P s nm v = .ok t) : ∃ l m, (nm, l) ∈ P.T.names ∧ (nm, m) ∈ mem ∧
    ((m = .seed ∧ l = P.seed ∧ ∃ w, asSeed v = .ok w ∧ ∃ hw : w.length = 4,
        t = { s with params := put s.params .seed (.seed fun k => w[k]) }) ∨
     (m = .p P.array ∧ l = P.shifts ∧ ∃ w, asShifts v = .ok w ∧
        t = ⟨put (put s.params (.p P.array) (.ptr P.heap)) (.i P.count) (.int w.length), w⟩) ∨
     (l ≠ P.seed ∧ l ≠ P.shifts ∧ ∃ f a, P.handles.lookup l = some f ∧ v = .fn a ∧
        t = { s with params := put s.params (.p f) (.ptr a) }) ∨
     (l ≠ P.seed ∧ l ≠ P.shifts ∧ P.handles.lookup l = none ∧ l = P.comm ∧
        t = { s with params := put s.params (.p P.commInfo) (.ptr P.device) }) ∨
     (l ≠ P.seed ∧ l ≠ P.shifts ∧ P.handles.lookup l = none ∧ l ≠ P.comm ∧ l ∉ P.forbidden ∧ (ptype m).2 = 1 ∧
        t.shifts = s.shifts ∧
        ((∃ x, (ptype m).1 = .int ∧ asInt P.T.consts v = .ok x ∧ store P.T s.params l (.int x) = .ok t.params) ∨
         (∃ x, (ptype m).1 = .double ∧ asDouble v = .ok x ∧ store P.T s.params l (.dbl x) = .ok t.params) ∨
         (∃ x, (ptype m).1 = .string ∧ store P.T s.params l (.ptr x) = .ok t.params)))) := by
  unfold setMemberM at h
  rcases info_cases g.tables nm with ⟨l, m, hl, hm, hs, hi⟩ | ⟨-, hi⟩
  · rw [hi] at h
    refine ⟨l, m, hl, hm, ?_⟩
    simp only at h
    by_cases h1 : l = P.seed
    · rw [if_pos h1] at h
      subst h1
      obtain ⟨w, h1, h2⟩ := bind_ok h
      split at h2
      · rename_i hw
        exact .inl ⟨g.seed nm m hl hm, rfl, w, h1, hw, by simpa using h2.symm⟩
      · simp at h2
    rw [if_neg h1] at h
    by_cases h2 : l = P.shifts
    · rw [if_pos h2] at h
      subst h2
      obtain ⟨w, h1, h2⟩ := bind_ok h
      exact .inr (.inl ⟨g.shifts nm m hl hm, rfl, w, h1, by simpa using h2.symm⟩)
    rw [if_neg h2] at h
    cases h3 : P.handles.lookup l with
    | some f =>
      rw [h3] at h
      simp only at h
      split at h
      · rename_i a
        exact .inr (.inr (.inl ⟨h1, h2, f, a, rfl, rfl, by simpa using h.symm⟩))
      · simp at h
    | none =>
      rw [h3] at h
      simp only at h
      by_cases h4 : l = P.comm
      · rw [if_pos h4] at h
        refine .inr (.inr (.inr (.inl ⟨h1, h2, rfl, h4, ?_⟩)))
        split at h <;> simp at h <;> exact h.symm
      rw [if_neg h4] at h
      by_cases h5 : l ∈ P.forbidden
      · rw [if_pos h5] at h; simp at h
      rw [if_neg h5] at h
      by_cases h6 : (ptype m).2 ≠ 1
      · rw [if_pos h6] at h; simp at h
      rw [if_neg h6] at h
      refine .inr (.inr (.inr (.inr ⟨h1, h2, rfl, h4, h5, by simpa using h6, ?_⟩)))
      split at h
      · rename_i ht
        obtain ⟨x, h1, h2⟩ := bind_ok h
        obtain ⟨y, h3, h4⟩ := bind_ok h2
        simp at h4
        subst h4
        exact ⟨rfl, .inl ⟨x, ht, h1, h3⟩⟩
      · rename_i ht
        obtain ⟨x, h1, h2⟩ := bind_ok h
        obtain ⟨y, h3, h4⟩ := bind_ok h2
        simp at h4
        subst h4
        exact ⟨rfl, .inr (.inl ⟨x, ht, h1, h3⟩)⟩
      · rename_i ht
        split at h
        · obtain ⟨y, h3, h4⟩ := bind_ok h
          simp at h4
          subst h4
          exact ⟨rfl, .inr (.inr ⟨_, ht, h3⟩)⟩
        · obtain ⟨y, h3, h4⟩ := bind_ok h
          simp at h4
          subst h4
          exact ⟨rfl, .inr (.inr ⟨_, ht, h3⟩)⟩
      · simp at h
  · rw [hi] at h; simp at h

theorem store_okM (g : Good P.T ct ptype mem) {s t : Store IF DF PF K} {l : Int} {nm : String} {m : Member IF DF PF}
    {v : Val K} (hl : (nm, l) ∈ P.T.names) (hm : (nm, m) ∈ mem) (h : store P.T s l v = .ok t) :
    ∃ x, t = put s m x := by
  obtain ⟨m', hm', ht, hs⟩ := g.named _ hl
  obtain rfl := member_unique g hm hm'
  exact store_ok (ct := ct) hs h

theorem lookup_mem {β : Type} {l : List (Int × β)} {k : Int} {f : β} (h : l.lookup k = some f) : (k, f) ∈ l := by
  induction l with
  | nil => simp at h
  | cons e r ih =>
    obtain ⟨a, b⟩ := e
    by_cases he : k = a
    · subst he
      simp at h
      subst h
      exact List.mem_cons_self
    · rw [List.lookup_cons] at h
      have : (k == a) = false := by simpa using he
      rw [this] at h
      exact List.mem_cons_of_mem _ (ih h)

/-- A member keeps its value when another name is set, unless it is written under other names. -/
theorem setMemberM_keeps (g : GoodM P ct ptype mem) {s t : R.RState IF DF PF K} {nm nm' : String} {v : MVal K}
    {m : Member IF DF PF} (hm : (nm', m) ∈ mem) (hn : nm ≠ nm') (hc : m ∉ aliased P)
    (h : setMemberM P s nm v = .ok t) : reads t.params m = reads s.params m := by
  obtain ⟨l, m', hl, hm', h⟩ := setMemberM_ok g h
  have hne : m ≠ m' := by rintro rfl; exact hn (name_unique g.tables hm' hm)
  have hcount : m ≠ .i P.count := fun h => hc (h ▸ List.mem_cons_self)
  have hcomm : m ≠ .p P.commInfo := fun h => hc (h ▸ List.mem_cons_of_mem _ List.mem_cons_self)
  rcases h with ⟨rfl, -, w, -, hw, rfl⟩ | ⟨rfl, -, w, -, rfl⟩ | ⟨-, -, f, a, hf, -, rfl⟩ | ⟨-, -, -, -, rfl⟩ |
    ⟨-, -, -, -, -, -, -, h⟩
  · dsimp only
    exact reads_put_other _ hne _
  · dsimp only
    rw [reads_put_other _ hcount, reads_put_other _ hne]
  · dsimp only
    refine reads_put_other _ ?_ _
    rintro rfl
    exact hc (List.mem_cons_of_mem _ (List.mem_cons_of_mem _ (List.mem_map.2 ⟨_, lookup_mem hf, rfl⟩)))
  · dsimp only
    exact reads_put_other _ hcomm _
  · rcases h with ⟨x, -, -, h⟩ | ⟨x, -, -, h⟩ | ⟨x, -, h⟩ <;>
    · obtain ⟨y, hy⟩ := store_okM g.tables hl hm' h
      rw [hy]; exact reads_put_other _ hne _

/-- The loop over the settings: when all values given under a name are the same, what depends on that name alone is what
that value left. -/
theorem setAllM_last {β : Type} (obs : R.RState IF DF PF K → β) {nm : String}
    (keep : ∀ s t nm' v, nm' ≠ nm → setMemberM P s nm' v = .ok t → obs t = obs s) {L : List (String × MVal K)}
    {s t : R.RState IF DF PF K} (h : setAllM P L s = .ok t) :
    (∀ v, (nm, v) ∈ L → (∀ w, (nm, w) ∈ L → w = v) → ∃ u w, setMemberM P u nm v = .ok w ∧ obs t = obs w) ∧
    (nm ∉ L.map Prod.fst → obs t = obs s) := by
  induction L generalizing s with
  | nil =>
    simp only [setAllM, Res.ok.injEq] at h
    subst h
    exact ⟨by simp, fun _ => rfl⟩
  | cons x r ih =>
    obtain ⟨u, h1, h2⟩ := bind_ok h
    obtain ⟨i1, i2⟩ := ih h2
    refine ⟨fun v hmem hall => ?_, fun hn => ?_⟩
    · by_cases hr : nm ∈ r.map Prod.fst
      · obtain ⟨⟨a, w⟩, hw, rfl⟩ := List.mem_map.1 hr
        have := hall w (List.mem_cons_of_mem _ hw)
        subst this
        exact i1 w hw fun w' h' => hall w' (List.mem_cons_of_mem _ h')
      · have hx : x = (nm, v) := by
          rcases List.mem_cons.1 hmem with h' | h'
          · exact h'.symm
          · exact absurd (List.mem_map_of_mem h') hr
        subst hx
        exact ⟨s, u, h1, i2 hr⟩
    · rw [List.map_cons, List.mem_cons, not_or] at hn
      rw [i2 hn.2]
      exact keep _ _ _ _ (Ne.symm hn.1) h1

theorem p_put_other {f f' : PF} (h : f' ≠ f) (s : Store IF DF PF K) (a : Nat) :
    (put s (.p f) (.ptr a)).p f' = s.p f' := by
  have := reads_put_other (.ptr a) (m := .p f) (m' := .p f') (by simpa using h) s
  simpa only [reads, Val.ptr.injEq] using this

theorem p_put_int (f : IF) (f' : PF) (s : Store IF DF PF K) (v : Int) : (put s (.i f) (.int v)).p f' = s.p f' := by
  have := reads_put_other (.int v) (m := .i f) (m' := .p f') (by simp) s
  simpa only [reads, Val.ptr.injEq] using this

/-- The shifts change under their name alone. -/
theorem setMemberM_keeps_shifts (g : GoodM P ct ptype mem) {s t : R.RState IF DF PF K} {nm nm' : String} {v : MVal K}
    (hnm : ∀ nm l, (nm, l) ∈ P.T.names → l = P.shifts → nm = nm')
    (hcount : ∀ nm l, (nm, l) ∈ P.T.names → (nm, .i P.count) ∈ mem → l ∈ P.forbidden)
    (harr : (ptype (.p P.array)).2 ≠ 1 ∨ (ptype (.p P.array)).1 = .pointer ∨
      ∀ nm l, (nm, l) ∈ P.T.names → (nm, .p P.array) ∈ mem → l = P.shifts)
    (hh : ∀ e ∈ P.handles, e.2 ≠ P.array) (hc : P.commInfo ≠ P.array) (hn : nm ≠ nm')
    (h : setMemberM P s nm v = .ok t) :
    t.shifts = s.shifts ∧ t.params.i P.count = s.params.i P.count ∧ t.params.p P.array = s.params.p P.array := by
  obtain ⟨l, m, hl, hm, h⟩ := setMemberM_ok g h
  rcases h with ⟨rfl, -, w, -, hw, rfl⟩ | ⟨rfl, rfl, w, -, rfl⟩ | ⟨-, -, f, a, hf, -, rfl⟩ | ⟨-, -, -, -, rfl⟩ |
    ⟨-, h2, -, -, h5, h6, h7, h⟩
  · exact ⟨rfl, rfl, rfl⟩
  · exact absurd (hnm _ _ hl rfl) hn
  · refine ⟨rfl, rfl, ?_⟩
    have := hh _ (lookup_mem hf)
    exact p_put_other (Ne.symm this) _ _
  · refine ⟨rfl, rfl, ?_⟩
    exact p_put_other (Ne.symm hc) _ _
  · have c1 : m ≠ .i P.count := by rintro rfl; exact h5 (hcount _ _ hl hm)
    have c2 : m ≠ .p P.array := by
      rintro rfl
      rcases harr with h' | h' | h'
      · exact h' h6
      · rcases h with ⟨x, h, -⟩ | ⟨x, h, -⟩ | ⟨x, h, -⟩ <;> rw [h'] at h <;> simp at h
      · exact h2 (h' _ _ hl hm)
    have key : ∃ x, t.params = put s.params m x := by
      rcases h with ⟨x, -, -, h⟩ | ⟨x, -, -, h⟩ | ⟨x, -, h⟩ <;> exact store_okM g.tables hl hm h
    obtain ⟨x, hx⟩ := key
    have r1 := reads_put_other x (Ne.symm c1) s.params
    have r2 := reads_put_other x (Ne.symm c2) s.params
    rw [← hx] at r1 r2
    simp only [reads, Val.int.injEq, Val.ptr.injEq] at r1 r2
    exact ⟨h7, r1, r2⟩

/-- The handle of a function changes under the name of the function alone. -/
theorem setMemberM_keeps_handle (g : GoodM P ct ptype mem) {s t : R.RState IF DF PF K} {nm nm' : String} {v : MVal K}
    {f : PF} (hnm : ∀ nm l, (nm, l) ∈ P.T.names → (l, f) ∈ P.handles → nm = nm')
    (hty : (ptype (.p f)).1 = .pointer) (hc : P.commInfo ≠ f) (ha : P.array ≠ f) (hn : nm ≠ nm')
    (h : setMemberM P s nm v = .ok t) : t.params.p f = s.params.p f := by
  obtain ⟨l, m, hl, hm, h⟩ := setMemberM_ok g h
  rcases h with ⟨rfl, -, w, -, hw, rfl⟩ | ⟨rfl, rfl, w, -, rfl⟩ | ⟨-, -, f', a, hf, -, rfl⟩ | ⟨-, -, -, -, rfl⟩ |
    ⟨-, h2, -, -, h5, h6, h7, h⟩
  · rfl
  · dsimp only
    rw [p_put_int, p_put_other (Ne.symm ha)]
  · by_cases hq : f' = f
    · subst hq
      exact absurd (hnm _ _ hl (lookup_mem hf)) hn
    · exact p_put_other (Ne.symm hq) _ _
  · exact p_put_other (Ne.symm hc) _ _
  · have c2 : m ≠ .p f := by
      rintro rfl
      rcases h with ⟨x, h, -⟩ | ⟨x, h, -⟩ | ⟨x, h, -⟩ <;> rw [hty] at h <;> simp at h
    have key : ∃ x, t.params = put s.params m x := by
      rcases h with ⟨x, -, -, h⟩ | ⟨x, -, -, h⟩ | ⟨x, -, h⟩ <;> exact store_okM g.tables hl hm h
    obtain ⟨x, hx⟩ := key
    have r2 := reads_put_other x (Ne.symm c2) s.params
    rw [← hx] at r2
    simpa only [reads, Val.ptr.injEq] using r2

/-- All names that are set are names of parameters. -/
theorem setAllM_names (g : GoodM P ct ptype mem) {L : List (String × MVal K)} {s t : R.RState IF DF PF K}
    (h : setAllM P L s = .ok t) {nm : String} {v : MVal K} (hL : (nm, v) ∈ L) :
    (∃ m, (nm, m) ∈ mem) ∧ ∃ u w, setMemberM P u nm v = .ok w := by
  induction L generalizing s with
  | nil => simp at hL
  | cons x r ih =>
    obtain ⟨u, h1, h2⟩ := bind_ok h
    rcases List.mem_cons.1 hL with rfl | hL
    · obtain ⟨l, m, -, hm, -⟩ := setMemberM_ok g h1
      exact ⟨⟨m, hm⟩, _, _, h1⟩
    · exact ih h2 hL

theorem trunc_int (v : Int) : R.trunc (v : K) = v := by
  unfold R.trunc
  split
  · exact Int.floor_intCast v
  · exact Int.ceil_intCast v

/-- A value that means something for a member is what the member holds after the assignment. -/
theorem setMemberM_means (g : GoodM P ct ptype mem) {s t : R.RState IF DF PF K} {nm : String} {v : MVal K}
    {m : Member IF DF PF} {y : Val K} (hm : (nm, m) ∈ mem) (h : setMemberM P s nm v = .ok t)
    (hv : Doc.Means P.T.consts m v y) (hy : fits ct m y) : reads t.params m = y := by
  obtain ⟨l, m', hl, hm', h⟩ := setMemberM_ok g h
  obtain rfl := member_unique g.tables hm hm'
  obtain ⟨m2, hm2, ht, hs⟩ := g.tables.named _ hl
  obtain rfl := member_unique g.tables hm hm2
  have ha := g.tables.access _ hm
  have fin : ∀ {z}, store P.T s.params l y = .ok z → reads z m = y := by
    intro z hz
    have he : select P.T.setter l = some (setEntryFor ct m) := by
      rcases hs with hs | hs | hs
      · exact hs
      · unfold store setMember at hz; rw [hs] at hz; simp at hz
      · unfold store setMember at hz; rw [hs] at hz; simp at hz
    unfold store at hz
    rw [set_of_entry he s.params hy] at hz
    simp at hz
    subst hz
    exact reads_put_self hy _
  rcases h with ⟨rfl, -, w, h1, hw, rfl⟩ | ⟨rfl, -⟩ | ⟨-, -, f, a, hf, rfl, -⟩ | ⟨-, -, -, rfl, -⟩ |
    ⟨-, -, -, -, -, -, -, h⟩
  · cases hv with
    | seed r c w' hw' hrc =>
      have hvec : isVector r c 4 = true := by
        unfold isVector
        rcases hrc with ⟨rfl, rfl⟩ | ⟨rfl, rfl⟩ <;> simp
      unfold asSeed at h1
      simp only [hvec, if_true] at h1
      split at h1
      · simp only [List.map_map, Res.ok.injEq] at h1
        have : w = w' := by
          rw [← h1]
          conv_rhs => rw [← List.map_id w']
          refine List.map_congr_left ?_
          intro x _
          exact trunc_int x
        subst this
        exact reads_put_self hy _
      · simp at h1
  · cases hv
  · cases hv
  · have := g.comm _ _ hl hm
    subst this
    cases hv
  · cases hv with
    | whole f k =>
      simp only at ha
      rcases h with ⟨x, -, h1, h2⟩ | ⟨x, h1, -⟩ | ⟨x, h1, -⟩
      · unfold asInt firstInt at h1
        simp only at h1
        split at h1
        · simp only [Res.ok.injEq, trunc_int] at h1
          subst h1
          exact fin h2
        · simp at h1
      · rw [ha] at h1; simp at h1
      · rw [ha] at h1; simp at h1
    | name f q k hk =>
      simp only at ha
      rcases h with ⟨x, -, h1, h2⟩ | ⟨x, h1, -⟩ | ⟨x, h1, -⟩
      · unfold asInt at h1
        simp only [hk] at h1
        simp only [Res.ok.injEq] at h1
        subst h1
        exact fin h2
      · rw [ha] at h1; simp at h1
      · rw [ha] at h1; simp at h1
    | real f x =>
      simp only at ha
      rcases h with ⟨x, h1, -⟩ | ⟨x, -, h1, h2⟩ | ⟨x, h1, -⟩
      · rw [ha] at h1; simp at h1
      · simp only [asDouble, Res.ok.injEq] at h1
        subst h1
        exact fin h2
      · rw [ha] at h1; simp at h1
    | seed r c w hw hrc =>
      rcases h with ⟨x, -, h1, h2⟩ | ⟨x, -, h1, h2⟩ | ⟨x, -, h2⟩
      all_goals
        obtain ⟨z, hz⟩ := store_okM g.tables hl hm h2
        exfalso
        unfold store setMember at h2
        rcases hs with hs | hs | hs <;> rw [hs] at h2 <;> simp [setEntryFor] at h2

end Verif.Mat
