import Verif.Model.RBase
import Verif.Proofs.PyBase
import Mathlib.Tactic.NormNum

set_option linter.unusedSectionVars false

/-!
# Lists of options, and setting parameters from R
-/

namespace Verif.R
open Verif.Members Verif.Py

variable {K : Type}

/-! ## Lists of options -/

theorem exact_put_self (l : Opts K) (nm : String) (v : RVal K) : (l.put nm v).exact nm = v := by
  induction l with
  | nil => simp [Opts.put, Opts.exact]
  | cons e r ih =>
    by_cases h : e.1 = nm
    · simp [Opts.put, Opts.exact, h]
    · simp [Opts.put, Opts.exact, h, ih]

theorem exact_put_other (l : Opts K) {nm nm' : String} (hn : nm' ≠ nm) (v : RVal K) :
    (l.put nm v).exact nm' = l.exact nm' := by
  induction l with
  | nil => simp [Opts.put, Opts.exact, Ne.symm hn]
  | cons e r ih =>
    by_cases h : e.1 = nm
    · subst h
      simp [Opts.put, Opts.exact, Ne.symm hn]
    · simp only [Opts.put, h, if_false, Opts.exact, ih]

theorem mem_put (l : Opts K) (nm : String) (v : RVal K) (x : String) :
    x ∈ (l.put nm v).map Prod.fst ↔ x = nm ∨ x ∈ l.map Prod.fst := by
  induction l with
  | nil => simp [Opts.put]
  | cons e r ih =>
    by_cases h : e.1 = nm
    · subst h
      simp [Opts.put]
    · simp only [Opts.put, h, if_false, List.map_cons, List.mem_cons, ih]
      tauto

theorem exact_drop_other (l : Opts K) {nm nm' : String} (hn : nm' ≠ nm) : (l.drop nm).exact nm' = l.exact nm' := by
  induction l with
  | nil => simp [Opts.drop]
  | cons e r ih =>
    by_cases h : e.1 = nm
    · subst h
      simp [Opts.drop, Opts.exact, Ne.symm hn]
    · simp only [Opts.drop, h, if_false, Opts.exact, ih]

theorem mem_drop_other (l : Opts K) {nm x : String} (hn : x ≠ nm) :
    x ∈ (l.drop nm).map Prod.fst ↔ x ∈ l.map Prod.fst := by
  induction l with
  | nil => simp [Opts.drop]
  | cons e r ih =>
    by_cases h : e.1 = nm
    · subst h
      simp [Opts.drop, hn]
    · simp only [Opts.drop, h, if_false, List.map_cons, List.mem_cons, ih]

theorem mem_drop_of (l : Opts K) {nm x : String} (h : x ∈ (l.drop nm).map Prod.fst) : x ∈ l.map Prod.fst := by
  induction l with
  | nil => simpa [Opts.drop] using h
  | cons e r ih =>
    by_cases he : e.1 = nm
    · simp only [Opts.drop, he, if_true] at h
      exact List.mem_cons_of_mem _ h
    · simp only [Opts.drop, he, if_false, List.map_cons, List.mem_cons] at h ⊢
      rcases h with h | h
      · exact .inl h
      · exact .inr (ih h)

theorem drop_absent (l : Opts K) {nm : String} (h : nm ∉ l.map Prod.fst) : l.drop nm = l := by
  induction l with
  | nil => rfl
  | cons e r ih =>
    simp only [List.map_cons, List.mem_cons, not_or] at h
    simp only [Opts.drop, Ne.symm h.1, if_false, ih h.2]

theorem count_put_other (l : Opts K) {nm x : String} (hn : x ≠ nm) (v : RVal K) :
    ((l.put nm v).map Prod.fst).count x = (l.map Prod.fst).count x := by
  induction l with
  | nil => simp [Opts.put, List.count_cons, hn.symm]
  | cons e r ih =>
    unfold Opts.put
    split
    · rename_i he
      simp [List.count_cons, he]
    · simp [List.count_cons, ih]

theorem count_drop_other (l : Opts K) {nm x : String} (hn : x ≠ nm) :
    ((l.drop nm).map Prod.fst).count x = (l.map Prod.fst).count x := by
  induction l with
  | nil => simp [Opts.drop]
  | cons e r ih =>
    unfold Opts.drop
    split
    · rename_i he
      simp [List.count_cons, he, hn.symm]
    · simp [List.count_cons, ih]

theorem drop_gone (l : Opts K) {nm : String} (h : (l.map Prod.fst).count nm ≤ 1) : nm ∉ (l.drop nm).map Prod.fst := by
  induction l with
  | nil => simp [Opts.drop]
  | cons e r ih =>
    unfold Opts.drop
    split
    · rename_i he
      rw [List.map_cons, List.count_cons] at h
      simp only [he, beq_self_eq_true, if_true] at h
      exact List.count_eq_zero.1 (by omega)
    · rename_i he
      rw [List.map_cons, List.mem_cons, not_or]
      refine ⟨fun hh => he hh.symm, ih ?_⟩
      rw [List.map_cons, List.count_cons] at h
      omega

theorem dollar_mem (l : Opts K) {nm : String} (h : nm ∈ l.map Prod.fst) : l.dollar nm = l.exact nm := by
  unfold Opts.dollar; rw [if_pos h]

theorem exact_absent (l : Opts K) {nm : String} (h : nm ∉ l.map Prod.fst) : l.exact nm = .null := by
  induction l with
  | nil => rfl
  | cons e r ih =>
    simp only [List.map_cons, List.mem_cons, not_or] at h
    simp only [Opts.exact, Ne.symm h.1, if_false, ih h.2]

theorem mem_of_exact (l : Opts K) {nm : String} (h : l.exact nm ≠ .null) : nm ∈ l.map Prod.fst := by
  by_contra hc
  exact h (exact_absent l hc)

/-! ## Numbers -/

section
variable [Field K] [LinearOrder K] [IsStrictOrderedRing K] [FloorRing K]

theorem toRInt_int {v : Int} (h : -2 ^ 31 < v) (h' : v < 2 ^ 31) : toRInt (v : K) = v := by
  unfold toRInt trunc
  have h1 : -(2 ^ 31 : K) < (v : K) := by
    have : ((-2 ^ 31 : Int) : K) < (v : K) := Int.cast_lt.2 h
    norm_num at this ⊢
    exact this
  have h2 : (v : K) < 2 ^ 31 := by
    have : (v : K) < ((2 ^ 31 : Int) : K) := Int.cast_lt.2 h'
    norm_num at this ⊢
    exact this
  rw [if_pos ⟨h1, h2⟩]
  split <;> simp

theorem toRInt_range (x : K) : -2 ^ 31 ≤ toRInt x ∧ toRInt x < 2 ^ 31 := by
  unfold toRInt
  split
  · rename_i h
    obtain ⟨h1, h2⟩ := h
    unfold trunc
    split
    · rename_i h0
      have : ⌊x⌋ < (2 ^ 31 : Int) := by rw [Int.floor_lt]; norm_num at h2 ⊢; exact h2
      have : 0 ≤ ⌊x⌋ := Int.floor_nonneg.2 h0
      omega
    · rename_i h0
      have hx : x ≤ 0 := le_of_lt (not_le.1 h0)
      have : (-2 ^ 31 : Int) < ⌈x⌉ := by rw [Int.lt_ceil]; norm_num at h1 ⊢; exact h1
      have : ⌈x⌉ ≤ 0 := by rw [Int.ceil_le]; simpa using hx
      omega
  · omega

theorem whole_int (v : Int) : whole (.real [(v : K)]) = true := by
  simp [whole]

end

/-! ## Setting parameters -/

variable [Field K] [LinearOrder K] [IsStrictOrderedRing K] [FloorRing K]
variable {IF DF PF : Type} [DecidableEq IF] [DecidableEq DF] [DecidableEq PF]

/-- The labels of the setter are those of the seed, of the shifts and of members that are not reached otherwise. -/
structure GoodKind (P : Kind IF DF PF) (ct : IF → CType) (ptype : Member IF DF PF → PType × Nat)
    (mem : List (String × Member IF DF PF)) : Prop where
  tables : Good P.T ct ptype mem
  seed : ∀ nm m, (nm, P.seed) ∈ P.T.names → (nm, m) ∈ mem → m = .seed
  shifts : ∀ nm m, (nm, P.shifts) ∈ P.T.names → (nm, m) ∈ mem → m = .p P.array
  count : ∀ nm l, (nm, l) ∈ P.T.names → (nm, .i P.count) ∈ mem → l ∈ P.forbidden
  countNum : ∃ nm l, (nm, l) ∈ P.T.names ∧ (nm, .i P.count) ∈ mem
  apart : P.seed ∉ P.forbidden ∧ P.shifts ∉ P.forbidden ∧ P.seed ≠ P.shifts
  shiftsNum : (ptype (.p P.array)).1 = .double
  kinds : ∀ nm l m, (nm, l) ∈ P.T.names → (nm, m) ∈ mem → l ≠ P.seed → l ≠ P.shifts → (ptype m).2 = 1 →
    ((ptype m).1 = .int → ∃ f, m = .i f) ∧ ((ptype m).1 = .double → ∃ f, m = .d f)
  label : ∀ nm l l', (nm, l) ∈ P.T.names → (nm, l') ∈ P.T.names → l = l'

variable {P : Kind IF DF PF} {ct : IF → CType} {ptype : Member IF DF PF → PType × Nat}
  {mem : List (String × Member IF DF PF)}

/-- What a successful assignment did: the seed, the shifts, or one member through the table. -/
theorem setMemberR_ok (g : GoodKind P ct ptype mem) {s t : RState IF DF PF K} {nm : String} {v : RVal K}
    (h : setMemberR P s nm v = .ok t) : ∃ l m, (nm, l) ∈ P.T.names ∧ (nm, m) ∈ mem ∧
    ((m = .seed ∧ l = P.seed ∧ ∃ w, asInts v = .ok w ∧ ∃ hw : w.length = 4,
        t = { s with params := put s.params .seed (.seed fun k => w[k]) }) ∨
     (m = .p P.array ∧ l = P.shifts ∧ ∃ w, asDoubles v = .ok w ∧
        t = ⟨put (put s.params (.p P.array) (.ptr P.heap)) (.i P.count) (.int w.length), w⟩) ∨
     (l ≠ P.seed ∧ l ≠ P.shifts ∧ l ∉ P.forbidden ∧ (ptype m).2 = 1 ∧ t.shifts = s.shifts ∧
        ((∃ x, (ptype m).1 = .int ∧ asInt P.T.consts v = .ok x ∧ store P.T s.params l (.int x) = .ok t.params) ∨
         (∃ x, (ptype m).1 = .double ∧ asDouble v = .ok x ∧ store P.T s.params l (.dbl x) = .ok t.params)))) := by
  unfold setMemberR at h
  rcases info_cases g.tables nm with ⟨l, m, hl, hm, hs, hi⟩ | ⟨-, hi⟩
  · rw [hi] at h
    refine ⟨l, m, hl, hm, ?_⟩
    simp only at h
    split at h
    · rename_i he
      subst he
      obtain ⟨w, h1, h2⟩ := bind_ok h
      split at h2
      · rename_i hw
        exact .inl ⟨g.seed nm m hl hm, rfl, w, h1, hw, by simpa using h2.symm⟩
      · simp at h2
    · rename_i hseed
      split at h
      · rename_i he
        subst he
        obtain ⟨w, h1, h2⟩ := bind_ok h
        exact .inr (.inl ⟨g.shifts nm m hl hm, rfl, w, h1, by simpa using h2.symm⟩)
      · rename_i hsh
        split at h
        · simp at h
        · rename_i hf
          split at h
          · simp at h
          · rename_i har
            refine .inr (.inr ⟨hseed, hsh, hf, by simpa using har, ?_⟩)
            split at h
            · rename_i ht
              obtain ⟨x, h1, h2⟩ := bind_ok h
              obtain ⟨y, h3, h4⟩ := bind_ok h2
              simp at h4
              subst h4
              exact ⟨rfl, .inl ⟨x, ht, h1, h3⟩⟩
            · rename_i ht
              obtain ⟨x, h1, h2⟩ := bind_ok h
              obtain ⟨y, h3, h4⟩ := bind_ok h2
              simp at h4
              subst h4
              exact ⟨rfl, .inr ⟨x, ht, h1, h3⟩⟩
            · simp at h
  · rw [hi] at h; simp at h

theorem store_ok' (g : Good P.T ct ptype mem) {s t : Store IF DF PF K} {l : Int} {nm : String} {m : Member IF DF PF}
    {v : Val K} (hl : (nm, l) ∈ P.T.names) (hm : (nm, m) ∈ mem) (h : store P.T s l v = .ok t) :
    ∃ x, t = put s m x := by
  obtain ⟨m', hm', ht, hs⟩ := g.named _ hl
  obtain rfl := member_unique g hm hm'
  exact store_ok (ct := ct) hs h

/-- A member keeps its value when another name is set, except that the shifts bring their number. -/
theorem setMemberR_keeps (g : GoodKind P ct ptype mem) {s t : RState IF DF PF K} {nm nm' : String} {v : RVal K}
    {m : Member IF DF PF} (hm : (nm', m) ∈ mem) (hn : nm ≠ nm') (hc : m ≠ .i P.count)
    (h : setMemberR P s nm v = .ok t) : reads t.params m = reads s.params m := by
  obtain ⟨l, m', hl, hm', h⟩ := setMemberR_ok g h
  have hne : m ≠ m' := by rintro rfl; exact hn (name_unique g.tables hm' hm)
  rcases h with ⟨rfl, -, w, -, hw, rfl⟩ | ⟨rfl, -, w, -, rfl⟩ | ⟨-, -, -, -, -, h⟩
  · dsimp only
    exact reads_put_other _ hne _
  · dsimp only
    rw [reads_put_other _ hc, reads_put_other _ hne]
  · rcases h with ⟨x, -, -, h⟩ | ⟨x, -, -, h⟩
    · obtain ⟨y, hy⟩ := store_ok' g.tables hl hm' h
      rw [hy]; exact reads_put_other _ hne _
    · obtain ⟨y, hy⟩ := store_ok' g.tables hl hm' h
      rw [hy]; exact reads_put_other _ hne _

/-- The shifts and their number change only when the shifts are set. -/
theorem setMemberR_shifts (g : GoodKind P ct ptype mem) {s t : RState IF DF PF K} {nm nm' : String} {v : RVal K}
    (hm : (nm', .p P.array) ∈ mem) (hn : nm ≠ nm')
    (h : setMemberR P s nm v = .ok t) :
    t.shifts = s.shifts ∧ t.params.i P.count = s.params.i P.count := by
  obtain ⟨l, m', hl, hm', h⟩ := setMemberR_ok g h
  rcases h with ⟨rfl, -, w, -, hw, rfl⟩ | ⟨rfl, -, w, -, rfl⟩ | ⟨-, -, hf, -, hsh, h⟩
  · exact ⟨rfl, rfl⟩
  · exact absurd (name_unique g.tables hm' hm) hn
  · refine ⟨hsh, ?_⟩
    have hc : m' ≠ .i P.count := by
      rintro rfl
      exact hf (g.count nm l hl hm')
    have key : reads t.params (.i P.count) = reads s.params (.i P.count) := by
      rcases h with ⟨x, -, -, h⟩ | ⟨x, -, -, h⟩
      · obtain ⟨y, hy⟩ := store_ok' g.tables hl hm' h
        rw [hy]; exact reads_put_other _ (Ne.symm hc) _
      · obtain ⟨y, hy⟩ := store_ok' g.tables hl hm' h
        rw [hy]; exact reads_put_other _ (Ne.symm hc) _
    simpa only [reads, Val.int.injEq] using key

/-- The loop over the options: a name that occurs was set to its value, and nothing later changed it. -/
theorem setAll_at (g : GoodKind P ct ptype mem) {o : Opts K} {L : List String} {s t : RState IF DF PF K}
    (h : setAll P o L s = .ok t) {nm : String} {m : Member IF DF PF} (hm : (nm, m) ∈ mem) (hc : m ≠ .i P.count) :
    (nm ∈ L → ∃ u v, setMemberR P u nm (o.exact nm) = .ok v ∧ reads t.params m = reads v.params m) ∧
    (nm ∉ L → reads t.params m = reads s.params m) := by
  induction L generalizing s with
  | nil =>
    simp only [setAll, Res.ok.injEq] at h
    subst h
    exact ⟨by simp, fun _ => rfl⟩
  | cons x r ih =>
    obtain ⟨u, h1, h2⟩ := bind_ok h
    obtain ⟨i1, i2⟩ := ih h2
    refine ⟨fun hmem => ?_, fun hn => ?_⟩
    · by_cases hr : nm ∈ r
      · exact i1 hr
      · have hx : x = nm := by
          rcases List.mem_cons.1 hmem with h' | h'
          · exact h'.symm
          · exact absurd h' hr
        subst hx
        exact ⟨s, u, h1, i2 hr⟩
    · rw [List.mem_cons, not_or] at hn
      rw [i2 hn.2]
      exact setMemberR_keeps g hm (Ne.symm hn.1) hc h1

theorem setAll_shifts (g : GoodKind P ct ptype mem) {o : Opts K} {L : List String} {s t : RState IF DF PF K}
    (h : setAll P o L s = .ok t) {nm : String} (hm : (nm, .p P.array) ∈ mem) :
    (nm ∈ L → ∃ w, asDoubles (o.exact nm) = .ok w ∧ t.shifts = w ∧ t.params.i P.count = w.length ∧
      t.params.p P.array = P.heap) ∧
    (nm ∉ L → t.shifts = s.shifts ∧ t.params.i P.count = s.params.i P.count) := by
  induction L generalizing s with
  | nil =>
    simp only [setAll, Res.ok.injEq] at h
    subst h
    exact ⟨by simp, fun _ => ⟨rfl, rfl⟩⟩
  | cons x r ih =>
    obtain ⟨u, h1, h2⟩ := bind_ok h
    obtain ⟨i1, i2⟩ := ih h2
    refine ⟨fun hmem => ?_, fun hn => ?_⟩
    · by_cases hr : nm ∈ r
      · exact i1 hr
      · have hx : x = nm := by
          rcases List.mem_cons.1 hmem with h' | h'
          · exact h'.symm
          · exact absurd h' hr
        subst hx
        obtain ⟨e1, e2⟩ := i2 hr
        have e3 := (setAll_at g h2 hm (by simp)).2 hr
        simp only [reads, Val.ptr.injEq] at e3
        obtain ⟨l, m', hl, hm', hh⟩ := setMemberR_ok g h1
        obtain rfl := member_unique g.tables hm hm'
        rcases hh with ⟨hh, -⟩ | ⟨-, -, w, hw, rfl⟩ | ⟨-, -, -, -, -, hh⟩
        · simp at hh
        · exact ⟨w, hw, e1, by rw [e2]; simp [put], by rw [e3]; simp [put]⟩
        · rcases hh with ⟨y, hy, -⟩ | ⟨y, -, -, hy⟩
          · rw [g.shiftsNum] at hy; simp at hy
          · exfalso
            obtain ⟨m2, hm2, ht, hs⟩ := g.tables.named _ hl
            obtain rfl := member_unique g.tables hm hm2
            unfold store setMember at hy
            rcases hs with hs | hs | hs <;> rw [hs] at hy <;> simp [setEntryFor] at hy
    · rw [List.mem_cons, not_or] at hn
      obtain ⟨e1, e2⟩ := i2 hn.2
      obtain ⟨f1, f2⟩ := setMemberR_shifts g hm (Ne.symm hn.1) h1
      exact ⟨e1.trans f1, e2.trans f2⟩

/-- The value meant by an R value given to a member. -/
def meantR (consts : List (String × Int)) : Member IF DF PF → RVal K → Option (Val K)
  | .i _, .int [v] => some (.int v)
  | .i _, .real [x] => some (.int (toRInt x))
  | .i _, .str [s] => match constantInfo consts s with
    | .ok v => some (.int v)
    | _ => none
  | .d _, .real [x] => some (.dbl x)
  | .d _, .int [v] => some (.dbl (v : K))
  | _, _ => none

theorem setMemberR_means (g : GoodKind P ct ptype mem) {s t : RState IF DF PF K} {nm : String} {v : RVal K}
    {m : Member IF DF PF} {x : Val K} (hm : (nm, m) ∈ mem) (h : setMemberR P s nm v = .ok t)
    (hv : meantR P.T.consts m v = some x) (hx : fits ct m x) : reads t.params m = x := by
  obtain ⟨l, m', hl, hm', h⟩ := setMemberR_ok g h
  obtain rfl := member_unique g.tables hm hm'
  obtain ⟨m2, hm2, ht, hs⟩ := g.tables.named _ hl
  obtain rfl := member_unique g.tables hm hm2
  have ha := g.tables.access _ hm
  have entry : ∀ {y z}, store P.T s.params l y = .ok z → select P.T.setter l = some (setEntryFor ct m) := by
    intro y z hy
    rcases hs with hs | hs | hs
    · exact hs
    · unfold store setMember at hy; rw [hs] at hy; simp at hy
    · unfold store setMember at hy; rw [hs] at hy; simp at hy
  have fin : ∀ {z}, store P.T s.params l x = .ok z → reads z m = x := by
    intro z hz
    have he := entry hz
    unfold store at hz
    rw [set_of_entry he s.params hx] at hz
    simp at hz
    subst hz
    exact reads_put_self hx _
  rcases h with ⟨rfl, -⟩ | ⟨rfl, -⟩ | ⟨-, -, -, -, -, h⟩
  · simp [meantR] at hv
  · simp [meantR] at hv
  · cases m with
    | i f =>
      simp only at ha
      rcases h with ⟨y, -, h1, h2⟩ | ⟨y, h1, -⟩
      · have : x = .int y := by
          cases v with
          | null => simp [meantR] at hv
          | other => simp [meantR] at hv
          | int w =>
            rcases w with _ | ⟨b, _ | _⟩ <;> simp [meantR] at hv
            simp [asInt] at h1; rw [← hv, h1]
          | real w =>
            rcases w with _ | ⟨b, _ | _⟩ <;> simp [meantR] at hv
            simp [asInt] at h1; rw [← hv, h1]
          | str w =>
            rcases w with _ | ⟨b, _ | _⟩ <;> simp [meantR] at hv
            unfold asInt at h1
            simp only at h1
            split at h1
            · rename_i z hz
              rw [hz] at hv
              simp at hv h1
              rw [← hv, h1]
            · simp at h1
        subst this
        exact fin h2
      · rw [ha] at h1; simp at h1
    | d f =>
      simp only at ha
      rcases h with ⟨y, h1, -⟩ | ⟨y, -, h1, h2⟩
      · rw [ha] at h1; simp at h1
      · have : x = .dbl y := by
          cases v with
          | null => simp [meantR] at hv
          | other => simp [meantR] at hv
          | str w => simp [meantR] at hv
          | int w =>
            rcases w with _ | ⟨b, _ | _⟩ <;> simp [meantR] at hv
            simp [asDouble] at h1; rw [← hv, h1]
          | real w =>
            rcases w with _ | ⟨b, _ | _⟩ <;> simp [meantR] at hv
            simp [asDouble] at h1; rw [← hv, h1]
        subst this
        exact fin h2
    | p f => simp [meantR] at hv
    | seed => simp [meantR] at hv
    | sub k => simp [meantR] at hv

/-- An assignment that can be made is made, whatever the state. -/
theorem setMemberR_can (g : GoodKind P ct ptype mem) (s : RState IF DF PF K) {nm : String} {l : Int} {v : RVal K}
    {m : Member IF DF PF} {x : Val K} (hl : (nm, l) ∈ P.T.names) (hm : (nm, m) ∈ mem)
    (he : select P.T.setter l = some (setEntryFor ct m)) (hf : l ∉ P.forbidden)
    (hv : meantR P.T.consts m v = some x) (hx : fits ct m x) : ∃ t, setMemberR P s nm v = .ok t := by
  obtain ⟨m2, hm2, ht, hs⟩ := g.tables.named _ hl
  obtain rfl := member_unique g.tables hm hm2
  have hi : memberInfo P.T.names P.T.types (some 0) (some (some nm)) =
        .ok (some l, some (some nm), (ptype m).1, (ptype m).2) :=
    memberInfo_finds g.tables.distinct hl ht (name := some (some nm)) (by simp [eq_comm])
      (Or.inr ⟨rfl, fun e he => g.tables.labels e he⟩)
  have ha := g.tables.access _ hm
  have h1 : l ≠ P.seed := by rintro rfl; have := g.seed nm m hl hm; subst this; simp [meantR] at hv
  have h2 : l ≠ P.shifts := by rintro rfl; have := g.shifts nm m hl hm; subst this; simp [meantR] at hv
  have hst : store P.T s.params l x = .ok (put s.params m x) := by
    unfold store; rw [set_of_entry he s.params hx]; simp
  unfold setMemberR
  rw [hi]
  simp only [if_neg h1, if_neg h2, if_neg hf]
  cases m with
  | i f =>
    simp only at ha
    rw [ha]
    simp only [ne_eq, not_true, if_false]
    cases x with
    | int y =>
      have : asInt P.T.consts v = .ok y := by
        cases v with
        | null => simp [meantR] at hv
        | other => simp [meantR] at hv
        | int w => rcases w with _ | ⟨b, _ | _⟩ <;> simp [meantR] at hv; simp [asInt, hv]
        | real w => rcases w with _ | ⟨b, _ | _⟩ <;> simp [meantR] at hv; simp [asInt, hv]
        | str w =>
          rcases w with _ | ⟨b, _ | _⟩ <;> simp [meantR] at hv
          unfold asInt
          split at hv
          · rename_i z hz; simp at hv; subst hv; simp only [hz]
          · simp at hv
      rw [this]
      exact ⟨_, by simp only [Res.bind]; rw [hst]⟩
    | dbl y => exact absurd hx (by simp [fits])
    | ptr y => exact absurd hx (by simp [fits])
    | seed y => exact absurd hx (by simp [fits])
  | d f =>
    simp only at ha
    rw [ha]
    simp only [ne_eq, not_true, if_false]
    cases x with
    | dbl y =>
      have : asDouble v = .ok y := by
        cases v with
        | null => simp [meantR] at hv
        | other => simp [meantR] at hv
        | str w => simp [meantR] at hv
        | int w => rcases w with _ | ⟨b, _ | _⟩ <;> simp [meantR] at hv; simp [asDouble, hv]
        | real w => rcases w with _ | ⟨b, _ | _⟩ <;> simp [meantR] at hv; simp [asDouble, hv]
      rw [this]
      exact ⟨_, by simp only [Res.bind]; rw [hst]⟩
    | int y => exact absurd hx (by simp [fits])
    | ptr y => exact absurd hx (by simp [fits])
    | seed y => exact absurd hx (by simp [fits])
  | p f => simp [meantR] at hv
  | seed => simp [meantR] at hv
  | sub k => simp [meantR] at hv

theorem setAll_can {o : Opts K} {L : List String}
    (h : ∀ nm ∈ L, ∀ s : RState IF DF PF K, ∃ t, setMemberR P s nm (o.exact nm) = .ok t) (s : RState IF DF PF K) :
    ∃ t, setAll P o L s = .ok t := by
  induction L generalizing s with
  | nil => exact ⟨s, rfl⟩
  | cons x r ih =>
    obtain ⟨u, hu⟩ := h x (by simp) s
    obtain ⟨t, ht⟩ := ih (fun nm hn => h nm (by simp [hn])) u
    exact ⟨t, by simp [setAll, hu, Res.bind, ht]⟩

/-- Setting never has undefined behaviour. -/
theorem setMemberR_no_ub (g : GoodKind P ct ptype mem) (s : RState IF DF PF K) (nm : String) (v : RVal K) :
    setMemberR P s nm v ≠ .ub := by
  rcases info_cases g.tables nm with ⟨l, m, hl, hm, hs, hi⟩ | ⟨-, hi⟩
  · unfold setMemberR
    rw [hi]
    simp only
    have e1 : asInts v ≠ .ub := by cases v <;> simp [asInts]
    have e2 : asDoubles v ≠ .ub := by cases v <;> simp [asDoubles]
    have e3 : asInt P.T.consts v ≠ .ub := by unfold asInt; split <;> (try split) <;> simp
    have e4 : asDouble v ≠ .ub := by unfold asDouble; split <;> simp
    split
    · cases h : asInts v with
      | ok w => simp only [Res.bind]; split <;> simp
      | raise e => simp [Res.bind]
      | ub => exact absurd h e1
    · rename_i h1
      split
      · cases h : asDoubles v with
        | ok w => simp [Res.bind]
        | raise e => simp [Res.bind]
        | ub => exact absurd h e2
      · rename_i h2
        split
        · simp
        · split
          · simp
          · rename_i h4
            obtain ⟨k1, k2⟩ := g.kinds nm l m hl hm h1 h2 (by simpa using h4)
            split
            · rename_i ht
              obtain ⟨f, rfl⟩ := k1 ht
              cases h : asInt P.T.consts v with
              | ok w =>
                simp only [Res.bind]
                have : store P.T s.params l (.int w) ≠ .ub := by
                  unfold store setMember
                  rcases hs with hs | hs | hs
                  · rw [hs]
                    cases hc : ct f
                    · simp [setEntryFor, hc]
                    · simp only [setEntryFor, hc]
                      by_cases hw : w > INT_MAX
                      · simp [hw]
                      · simp [hw]
                    · simp [setEntryFor, hc]
                  · rw [hs]; simp
                  · rw [hs]; simp
                cases h' : store P.T s.params l (.int w) with
                | ok u => simp
                | raise e => simp
                | ub => exact absurd h' this
              | raise e => simp [Res.bind]
              | ub => exact absurd h e3
            · rename_i ht
              obtain ⟨f, rfl⟩ := k2 ht
              cases h : asDouble v with
              | ok w =>
                simp only [Res.bind]
                have : store P.T s.params l (.dbl w) ≠ .ub := by
                  unfold store setMember
                  rcases hs with hs | hs | hs
                  · rw [hs]; simp [setEntryFor]
                  · rw [hs]; simp
                  · rw [hs]; simp
                cases h' : store P.T s.params l (.dbl w) with
                | ok u => simp
                | raise e => simp
                | ub => exact absurd h' this
              | raise e => simp [Res.bind]
              | ub => exact absurd h e4
            · simp
  · unfold setMemberR
    rw [hi]
    simp

theorem setAll_no_ub (g : GoodKind P ct ptype mem) (o : Opts K) (L : List String) (s : RState IF DF PF K) :
    setAll P o L s ≠ .ub := by
  induction L generalizing s with
  | nil => simp [setAll]
  | cons x r ih =>
    unfold setAll
    cases h : setMemberR P s x (o.exact x) with
    | ok t => simp only [Res.bind]; exact ih t
    | raise e => simp [Res.bind]
    | ub => exact absurd h (setMemberR_no_ub g s x _)

/-- A name that the library does not know is refused. -/
theorem setMemberR_unknown (g : GoodKind P ct ptype mem) (s : RState IF DF PF K) {nm : String} (v : RVal K)
    (hn : ∀ m, (nm, m) ∉ mem) : setMemberR P s nm v = .raise .value := by
  rcases info_cases g.tables nm with ⟨l, m, hl, hm, hs, hi⟩ | ⟨-, hi⟩
  · exact absurd hm (hn m)
  · unfold setMemberR; rw [hi]

end Verif.R
