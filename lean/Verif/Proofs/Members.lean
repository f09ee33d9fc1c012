import Verif.Model.Members
import Mathlib.Tactic.Ring
import Mathlib.Tactic.SplitIfs

/-!
# Generic facts about the label tables
-/

namespace Verif.Members
set_option linter.unusedSectionVars false

variable {IF DF PF D : Type} [DecidableEq IF] [DecidableEq DF] [DecidableEq PF]

theorem castInt_id {v : Int} (h : -2 ^ 31 ≤ v ∧ v < 2 ^ 31) : castInt v = v := by
  unfold castInt; omega

theorem castEnum_id {v : Int} (h : 0 ≤ v ∧ v < 2 ^ 32) : castEnum v = v := by
  unfold castEnum; omega

theorem castInt_ne {v : Int} (h : v < -2 ^ 31) : castInt v ≠ v := by
  unfold castInt; omega

theorem castEnum_ne {v : Int} (h : ¬ (0 ≤ v ∧ v < 2 ^ 32)) : castEnum v ≠ v := by
  unfold castEnum; omega

/-- The case a correct setter has for member `m`. -/
def setEntryFor (ct : IF → CType) : Member IF DF PF → SetEntry IF DF PF
  | .i f => match ct f with
    | .clong => .long f
    | .cint => .intChecked f
    | .cenum => .enum f
  | .d f => .dbl f
  | .p f => .ptr f
  | .seed => .seed
  | .sub _ => .reject

/-- The case a correct getter has for member `m`. -/
def getEntryFor : Member IF DF PF → GetEntry IF DF PF
  | .i f => .int f
  | .d f => .dbl f
  | .p f => .ptr f
  | .seed => .seed
  | .sub k => .sub k

theorem set_of_entry {t : List (Int × SetEntry IF DF PF)} {ct : IF → CType} {l : Int}
    {m : Member IF DF PF} (h : select t l = some (setEntryFor ct m)) (s : Store IF DF PF D)
    {v : Val D} (hv : fits ct m v) : setMember t s l v = .ok (0, put s m v) := by
  cases m with
  | i f =>
    cases v with
    | int x =>
      have hx : (ct f).holds x := hv
      unfold setMember
      rw [h]
      simp only [setEntryFor]
      cases hc : ct f with
      | clong => rfl
      | cint =>
        rw [hc] at hx
        have hr : -2 ^ 31 ≤ x ∧ x < 2 ^ 31 := hx
        have : ¬ x > INT_MAX := by unfold INT_MAX; omega
        simp only [this, if_false, castInt_id hr]
        rfl
      | cenum =>
        rw [hc] at hx
        have hr : 0 ≤ x ∧ x < 2 ^ 32 := hx
        simp only [castEnum_id hr]
        rfl
    | _ => exact hv.elim
  | d f => cases v <;> first | exact hv.elim | (unfold setMember; rw [h]; rfl)
  | p f => cases v <;> first | exact hv.elim | (unfold setMember; rw [h]; rfl)
  | seed => cases v <;> first | exact hv.elim | (unfold setMember; rw [h]; rfl)
  | sub k => exact absurd hv (by cases v <;> simp [fits])

theorem get_of_entry {t : List (Int × GetEntry IF DF PF)} {l : Int}
    {m : Member IF DF PF} (h : select t l = some (getEntryFor m)) (s : Store IF DF PF D) :
    getMember t s l = .ok (reads s m) := by
  unfold getMember; rw [h]; cases m <;> rfl

theorem reads_put_self {ct : IF → CType} {m : Member IF DF PF} {v : Val D} (hv : fits ct m v)
    (s : Store IF DF PF D) : reads (put s m v) m = v := by
  cases m <;> cases v <;> simp_all [fits, reads, put]

theorem reads_put_other {m m' : Member IF DF PF} (v : Val D) (hm : m' ≠ m)
    (s : Store IF DF PF D) : reads (put s m v) m' = reads s m' := by
  cases m <;> cases v <;> cases m' <;> simp_all [reads, put]

theorem set_reject {t : List (Int × SetEntry IF DF PF)} {s s' : Store IF DF PF D} {l rc : Int}
    {v : Val D} (h : setMember t s l v = .ok (rc, s')) (hrc : rc ≠ 0) : s' = s := by
  unfold setMember at h
  split at h <;> (try split at h) <;> (try split_ifs at h) <;> simp_all

theorem select_none {α : Type} {t : List (Int × α)} {l : Int} (h : ∀ e ∈ t, e.1 ≠ l) :
    select t l = none := by
  induction t with
  | nil => rfl
  | cons e r ih =>
    obtain ⟨k, a⟩ := e
    have := h (k, a) (by simp)
    unfold select
    simp only at this
    rw [if_neg this]
    exact ih (fun e he => h e (by simp [he]))

theorem select_mem {α : Type} {t : List (Int × α)} {l : Int} {a : α} (h : select t l = some a) :
    (l, a) ∈ t := by
  induction t with
  | nil => simp [select] at h
  | cons e r ih =>
    obtain ⟨k, b⟩ := e
    unfold select at h
    split_ifs at h with hk
    · simp at h; subst h; subst hk; simp
    · exact List.mem_cons_of_mem _ (ih h)

/-! ## `primme_member_info` -/

theorem info_fold_no_match (l : List (String × Int)) (st : InfoSt)
    (h : ∀ e ∈ l, ¬ (st.name = some (some e.1) ∨ st.label = some e.2)) :
    l.foldl infoStep st = st := by
  induction l with
  | nil => rfl
  | cons e r ih =>
    rw [List.foldl_cons]
    have : infoStep st e = st := by unfold infoStep; rw [if_neg (h e (by simp))]
    rw [this]
    exact ih (fun e he => h e (by simp [he]))

/-- Once the state agrees with a table line, lines with both another name and another label do not
change it. -/
theorem info_fold_fixed (l : List (String × Int)) (st : InfoSt) (s : String) (k : Int)
    (hn : ∀ x, st.name = some (some x) → x = s) (hl : ∀ x, st.label = some x → x = k)
    (h : ∀ e ∈ l, e.1 ≠ s ∧ e.2 ≠ k) : l.foldl infoStep st = st := by
  apply info_fold_no_match
  intro e he hc
  rcases hc with hc | hc
  · exact (h e he).1 (hn _ hc)
  · exact (h e he).2 (hl _ hc)

/-- Looking a line up by its label, its name, or both: for a table without repeated names or
labels, the state ends up agreeing with that line. -/
theorem info_fold_finds (pre post : List (String × Int)) (s : String) (k : Int) (st : InfoSt)
    (hn : ∀ x, st.name = some (some x) → x = s) (hl : ∀ x, st.label = some x → x = k)
    (hm : st.name = some (some s) ∨ st.label = some k)
    (h : ∀ e ∈ pre ++ post, e.1 ≠ s ∧ e.2 ≠ k) :
    (pre ++ (s, k) :: post).foldl infoStep st =
      { label := st.label.map (fun _ => k), name := st.name.map (fun _ => some s), set := true } := by
  rw [List.foldl_append, List.foldl_cons]
  rw [info_fold_fixed pre st s k hn hl (fun e he => h e (by simp [he]))]
  have : infoStep st (s, k) =
      { label := st.label.map (fun _ => k), name := st.name.map (fun _ => some s), set := true } := by
    unfold infoStep; rw [if_pos hm]
  rw [this]
  apply info_fold_fixed post _ s k
  · intro x hx
    simp only at hx
    cases hname : st.name with
    | none => simp [hname] at hx
    | some o => simp [hname] at hx; exact hx.symm
  · intro x hx
    simp only at hx
    cases hlab : st.label with
    | none => simp [hlab] at hx
    | some o => simp [hlab] at hx; exact hx.symm
  · intro e he; exact h e (by simp [he])

/-- No two lines share a name or a label. -/
def Distinct (t : List (String × Int)) : Prop :=
  t.Pairwise (fun a b => a.1 ≠ b.1 ∧ a.2 ≠ b.2)

instance (t : List (String × Int)) : Decidable (Distinct t) := by unfold Distinct; infer_instance

theorem distinct_split {t : List (String × Int)} (h : Distinct t) {s : String} {k : Int}
    (hm : (s, k) ∈ t) : ∃ pre post, t = pre ++ (s, k) :: post ∧
      ∀ e ∈ pre ++ post, e.1 ≠ s ∧ e.2 ≠ k := by
  obtain ⟨pre, post, rfl⟩ := List.append_of_mem hm
  refine ⟨pre, post, rfl, ?_⟩
  unfold Distinct at h
  rw [List.pairwise_append] at h
  obtain ⟨_, h2, h3⟩ := h
  rw [List.pairwise_cons] at h2
  intro e he
  rcases List.mem_append.mp he with he | he
  · exact h3 e he (s, k) (by simp)
  · have := h2.1 e he; exact ⟨fun c => this.1 c.symm, fun c => this.2 c.symm⟩

theorem memberInfo_finds {names : List (String × Int)} {types : List (Int × PType × Nat)}
    (hd : Distinct names) {s : String} {k : Int} (hm : (s, k) ∈ names) {ty : PType} {ar : Nat}
    (ht : select types k = some (ty, ar)) {name : Option (Option String)} {lab : Int}
    (hn : ∀ x, name = some (some x) → x = s) (hl : lab = k ∨ (name = some (some s) ∧
      ∀ e ∈ names, e.2 ≠ lab)) :
    memberInfo names types (some lab) name =
      .ok (some k, name.map (fun _ => some s), ty, ar) := by
  obtain ⟨pre, post, rfl, hpp⟩ := distinct_split hd hm
  have key : (pre ++ (s, k) :: post).foldl infoStep { label := some lab, name := name, set := false }
      = { label := some k, name := name.map (fun _ => some s), set := true } := by
    rcases hl with rfl | ⟨hs, hlab⟩
    · exact info_fold_finds pre post s lab _ hn (by rintro x ⟨⟩; rfl) (Or.inr rfl) hpp
    · rw [List.foldl_append, List.foldl_cons]
      rw [info_fold_no_match pre]
      · have hst : infoStep { label := some lab, name := name, set := false } (s, k) =
            { label := some k, name := name.map (fun _ => some s), set := true } := by
          unfold infoStep; rw [if_pos (Or.inl hs)]; rfl
        rw [hst, info_fold_fixed post _ s k]
        · intro x hx; simp [hs] at hx; exact hx.symm
        · intro x hx; simp at hx; exact hx.symm
        · intro e he; exact hpp e (by simp [he])
      · intro e he hc
        have h1 := hpp e (by simp [he])
        have h2 := hlab e (by simp [he])
        rcases hc with hc | hc
        · simp only [hs, Option.some.injEq] at hc; exact h1.1 hc.symm
        · simp only [Option.some.injEq] at hc; exact h2 hc.symm
  unfold memberInfo
  rw [if_neg (by simp)]
  simp only [key]
  simp [ht]

/-! ## Enum names -/

theorem enumScan_value {l : List (String × Int)} (hd : Distinct l) {s : String} {v : Int}
    (hm : (s, v) ∈ l) : enumScan l v none = some (v, s) := by
  induction l with
  | nil => simp at hm
  | cons e r ih =>
    obtain ⟨t, w⟩ := e
    unfold Distinct at hd
    rw [List.pairwise_cons] at hd
    unfold enumScan
    rcases List.mem_cons.mp hm with h | h
    · cases h; simp
    · have := hd.1 _ h
      rw [if_neg (by simp; exact fun c => this.2 c.symm)]
      exact ih hd.2 h

theorem enumScan_name {l : List (String × Int)} (hd : Distinct l) {s : String} {v x : Int}
    (hx : ∀ e ∈ l, e.2 ≠ x) (hm : (s, v) ∈ l) : enumScan l x (some s) = some (v, s) := by
  induction l with
  | nil => simp at hm
  | cons e r ih =>
    obtain ⟨t, w⟩ := e
    unfold Distinct at hd
    rw [List.pairwise_cons] at hd
    unfold enumScan
    have hw : ¬ x = w := fun c => hx (t, w) (by simp) c.symm
    rcases List.mem_cons.mp hm with h | h
    · cases h; simp
    · have := hd.1 _ h
      rw [if_neg (by simp [hw]; exact fun c => this.1 c.symm)]
      exact ih hd.2 (fun e he => hx e (by simp [he])) h

theorem enumScan_sound {l : List (String × Int)} {x : Int} {name : Option String} {v : Int}
    {s : String} (h : enumScan l x name = some (v, s)) : (s, v) ∈ l ∧ (x = v ∨ name = some s) := by
  induction l with
  | nil => simp [enumScan] at h
  | cons e r ih =>
    obtain ⟨t, w⟩ := e
    unfold enumScan at h
    split_ifs at h with hc
    · simp at h; obtain ⟨rfl, rfl⟩ := h; exact ⟨by simp, hc⟩
    · have := ih h; exact ⟨by simp [this.1], this.2⟩

theorem constantInfo_ok {l : List (String × Int)} (hd : (l.map Prod.fst).Nodup) {s : String} {v : Int}
    (hm : (s, v) ∈ l) : constantInfo l s = .ok v := by
  induction l with
  | nil => simp at hm
  | cons e r ih =>
    obtain ⟨t, w⟩ := e
    simp only [List.map_cons, List.nodup_cons] at hd
    unfold constantInfo
    rcases List.mem_cons.mp hm with h | h
    · cases h; simp
    · rw [if_neg (by rintro rfl; exact hd.1 (List.mem_map.mpr ⟨_, h, rfl⟩))]
      exact ih hd.2 h

theorem constantInfo_err {l : List (String × Int)} {s : String} (h : ∀ e ∈ l, e.1 ≠ s) :
    constantInfo l s = .err 1 := by
  induction l with
  | nil => rfl
  | cons e r ih =>
    obtain ⟨t, w⟩ := e
    unfold constantInfo
    rw [if_neg (h (t, w) (by simp))]
    exact ih (fun e he => h e (by simp [he]))

end Verif.Members
