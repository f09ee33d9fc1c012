import Verif.Model.MatEigs
import Verif.Proofs.MatBase
import Verif.Proofs.REigs

set_option linter.unusedSectionVars false

/-!
# The options of `primme_eigs`: what each parameter holds when the library is called
-/

namespace Verif.Mat
open Verif.Members Verif.Py Verif.Eigs

variable {K V : Type} [Field K] [LinearOrder K] [IsStrictOrderedRing K] [FloorRing K]

theorem eigs_kind (heap device text : Nat) :
    GoodM (eigsKind heap device text) Eigs.ctype Py.Doc.eigsType Py.Doc.eigsMembers where
  tables := eigs_good
  seed := by
    have : ∀ e ∈ Eigs.infoNames, e.2 = 28 → ∀ p ∈ Py.Doc.eigsMembers, p.1 = e.1 → p.2 = .seed := by decide +kernel
    exact fun nm m h1 h2 => this _ h1 rfl _ h2 rfl
  shifts := by
    have : ∀ e ∈ Eigs.infoNames, e.2 = 19 → ∀ p ∈ Py.Doc.eigsMembers, p.1 = e.1 → p.2 = .p .targetShifts := by
      decide +kernel
    exact fun nm m h1 h2 => this _ h1 rfl _ h2 rfl
  comm := by
    have : ∀ e ∈ Eigs.infoNames, e.2 = 10 → ∀ p ∈ Py.Doc.eigsMembers, p.1 = e.1 → p.2 = .p .commInfo := by
      decide +kernel
    exact fun nm m h1 h2 => this _ h1 rfl _ h2 rfl
  label := by
    have : ∀ e ∈ Eigs.infoNames, ∀ e' ∈ Eigs.infoNames, e.1 = e'.1 → e.2 = e'.2 := by decide +kernel
    exact fun nm l l' h1 h2 => this _ h1 _ h2 rfl

/-! ## Renaming -/

theorem get_rename {α : Type} (o : Fields α) {c : String × String} (hc : c.1 ≠ c.2) (nm : String) :
    (rename o c).get nm = if nm = c.1 then none else if nm = c.2 then (o.get c.1).or (o.get nm) else o.get nm := by
  unfold rename
  cases h : o.get c.1 with
  | none =>
    by_cases h1 : nm = c.1
    · subst h1; simp [h]
    · by_cases h2 : nm = c.2
      · simp [h1]
      · simp [h1]
  | some v =>
    simp only [get_del, get_set]
    by_cases h1 : nm = c.1
    · simp [h1]
    · by_cases h2 : nm = c.2
      · subst h2; simp [h1]
      · simp [h1, h2]

/-- Where the value of a name comes from after the renamings. -/
def renamed {α : Type} (L : List (String × String)) (o : Fields α) (nm : String) : Option α :=
  if nm ∈ L.map Prod.fst then none else match L.find? (fun c => c.2 = nm) with
    | some c => (o.get c.1).or (o.get nm)
    | none => o.get nm

theorem find_none {L : List (String × String)} {nm : String} (h : nm ∉ L.map Prod.snd) :
    L.find? (fun c => decide (c.2 = nm)) = none := by
  rw [List.find?_eq_none]
  intro x hx
  simp only [decide_eq_true_eq]
  rintro rfl
  exact h (List.mem_map_of_mem hx)

theorem get_renames {α : Type} {L : List (String × String)} (hL : (L.map Prod.fst ++ L.map Prod.snd).Nodup) (o : Fields α)
    (nm : String) : (L.foldl rename o).get nm = renamed L o nm := by
  induction L generalizing o with
  | nil => simp [renamed]
  | cons c r ih =>
    have hr : (r.map Prod.fst ++ r.map Prod.snd).Nodup := by
      refine List.Nodup.sublist ?_ hL
      rw [List.map_cons, List.map_cons]
      exact (List.sublist_cons_self _ _).append (List.sublist_cons_self _ _)
    rw [List.nodup_append] at hL
    obtain ⟨n1, n2, n3⟩ := hL
    rw [List.map_cons, List.nodup_cons] at n1 n2
    have hc : c.1 ≠ c.2 := n3 _ (by simp) _ (by simp)
    have c1 : c.1 ∉ r.map Prod.snd := fun h => n3 c.1 (by simp) c.1 (by rw [List.map_cons]; exact List.mem_cons_of_mem _ h) rfl
    have c2 : c.2 ∉ r.map Prod.fst := fun h => n3 c.2 (by rw [List.map_cons]; exact List.mem_cons_of_mem _ h) c.2 (by simp) rfl
    rw [List.foldl_cons, ih hr]
    unfold renamed
    by_cases h1 : nm = c.1
    · subst h1
      rw [if_neg n1.1, find_none c1, get_rename _ hc]
      simp
    · by_cases h2 : nm ∈ r.map Prod.fst
      · rw [if_pos h2, if_pos (by rw [List.map_cons]; exact List.mem_cons_of_mem _ h2)]
      · rw [if_neg h2, if_neg (by rw [List.map_cons, List.mem_cons, not_or]; exact ⟨h1, h2⟩)]
        by_cases h3 : nm = c.2
        · subst h3
          rw [find_none n2.1, List.find?_cons_of_pos (by simp)]
          simp only [get_rename _ hc, if_neg h1, if_true]
        · rw [List.find?_cons_of_neg (by simpa using Ne.symm h3)]
          cases hf : r.find? (fun c => decide (c.2 = nm)) with
          | none => simp only [get_rename _ hc, if_neg h1, if_neg h3]
          | some d =>
            have hd := List.mem_of_find?_eq_some hf
            have d1 : d.1 ≠ c.1 := by rintro h; exact n1.1 (h ▸ List.mem_map_of_mem hd)
            have d2 : d.1 ≠ c.2 := by rintro h; exact c2 (h ▸ List.mem_map_of_mem hd)
            simp only [get_rename _ hc, if_neg h1, if_neg h3, if_neg d1, if_neg d2]

theorem nodup_rename {α : Type} {o : Fields α} (h : o.names.Nodup) (c : String × String) : (rename o c).names.Nodup := by
  unfold rename
  split
  · exact nodup_del (nodup_set h _ _) _
  · exact h

theorem nodup_renames {α : Type} {o : Fields α} (h : o.names.Nodup) (L : List (String × String)) :
    (L.foldl rename o).names.Nodup := by
  induction L generalizing o with
  | nil => exact h
  | cons c r ih => exact ih (nodup_rename h c)

theorem renames_nodup : (renames.map Prod.fst ++ renames.map Prod.snd).Nodup := by decide +kernel

/-! ## The struct of options -/

/-- The value the user gives to a parameter, under its name or under the short one. -/
def given (a : EigsArgs K V) (nm : String) : Option (MVal K) := renamed renames a.opts.rest nm

/-- The fields before the options of the user. -/
def baseNames : List String := ["n", "matrixMatvec", "massMatrixMatvec", "numEvals", "target", "targetShifts"]

/-- The address of the handle of an operator. -/
def opAddr : MOp → Option Nat
  | .mat _ a => some a
  | .fn a => some a
  | .other => none

/-- The fields before the options of the user. -/
structure Based (a : EigsArgs K V) (o : Fields (MVal K)) : Prop where
  nodup : o.names.Nodup
  others : ∀ nm, nm ∉ baseNames → o.get nm = none
  flat : ∀ e ∈ o, ∀ l, e.2 ≠ .struct l
  mat : ∃ x, opAddr a.A = some x ∧ o.get "matrixMatvec" = some (.fn x)
  mass : o.get "massMatrixMatvec" = (a.B.bind opAddr).map .fn
  massOk : ∀ b, a.B = some b → (opAddr b).isSome
  massMat : ∀ m x, a.B = some (.mat m x) → m.rows = m.cols ∧ (m.rows < 10000 → m.hermitian = true) ∧
    ∀ mA y, a.A = .mat mA y → m.rows = mA.cols
  dimMat : hasFn a.A a.B = false → ∃ m x, a.A = .mat m x ∧ o.get "n" = some (.one (m.cols : K))
  dimFn : hasFn a.A a.B = true → ∃ v w, a.dim = some v ∧ roundArg v = .ok w ∧ o.get "n" = some w
  count : ∀ v, a.count = some v → ∃ w, roundArg v = .ok w ∧ o.get "numEvals" = some w
  countNone : a.count = none → ∃ x, (o.get "n").bind scalar = some x ∧ o.get "numEvals" = some (.one (min 6 x))
  target : ∃ t, o.get "target" = some (.str t) ∧ (a.target = none → t = "primme_largest_abs") ∧
    (∀ w, a.target = some (.str w) → (w, t) ∈ targetNames) ∧
    (∀ v, a.target = some v → isNumeric v = true → t = "primme_closest_abs")
  points : (a.target = none → o.get "targetShifts" = some (.one 0)) ∧
    (∀ w, a.target = some (.str w) → o.get "targetShifts" = if w = "SM" ∨ w = "LM" then some (.one 0) else none) ∧
    (∀ v, a.target = some v → isNumeric v = true → o.get "targetShifts" = some v)
  targetOk : ∀ v, a.target = some v → isNumeric v = true ∨ ∃ w, v = .str w

theorem roundArg_ok {v w : MVal K} (h : roundArg v = .ok w) :
    ∃ x : K, 0 ≤ x ∧ ((v = .num 1 1 [x] ∧ w = .one ((round x : Int) : K)) ∨
      (v = .complex 1 1 [x] ∧ w = .complex 1 1 [((round x : Int) : K)])) := by
  unfold roundArg at h
  split at h
  · rename_i x
    split at h
    · simp at h
    · rename_i hx
      simp only [Res.ok.injEq] at h
      exact ⟨x, not_lt.1 hx, .inl ⟨rfl, h.symm⟩⟩
  · rename_i x
    split at h
    · simp at h
    · rename_i hx
      simp only [Res.ok.injEq] at h
      exact ⟨x, not_lt.1 hx, .inr ⟨rfl, h.symm⟩⟩
  · simp at h

theorem mem_set {α : Type} {l : Fields α} {nm : String} {v : α} {e : String × α} (h : e ∈ l.set nm v) :
    e ∈ l ∨ e = (nm, v) := by
  induction l with
  | nil => simp only [Fields.set, List.mem_singleton] at h; exact .inr h
  | cons x r ih =>
    simp only [Fields.set] at h
    split at h
    · rcases List.mem_cons.1 h with h | h
      · exact .inr h
      · exact .inl (List.mem_cons_of_mem _ h)
    · rcases List.mem_cons.1 h with h | h
      · exact .inl (h ▸ List.mem_cons_self)
      · exact (ih h).imp_left (List.mem_cons_of_mem _)

theorem mem_merge {α : Type} {l o : Fields α} {e : String × α} (h : e ∈ l.merge o) : e ∈ l ∨ e ∈ o := by
  unfold Fields.merge at h
  induction o generalizing l with
  | nil => exact .inl h
  | cons x r ih =>
    rcases ih h with h | h
    · rcases mem_set h with h | h
      · exact .inl h
      · exact .inr (h ▸ List.mem_cons_self)
    · exact .inr (List.mem_cons_of_mem _ h)

/-- No struct among the values. -/
def Flat (o : Fields (MVal K)) : Prop := ∀ e ∈ o, ∀ l, e.2 ≠ .struct l

theorem flat_set {o : Fields (MVal K)} (h : Flat o) (nm : String) {v : MVal K} (hv : ∀ l, v ≠ .struct l) :
    Flat (o.set nm v) := by
  intro e he l
  rcases mem_set he with he | rfl
  · exact h e he l
  · exact hv l

theorem base_ok {a : EigsArgs K V} {o0 o1 o2 o3 o4 : Fields (MVal K)} (h0 : startA a.A = .ok o0)
    (h1 : addB a.A a.B o0 = .ok o1) (h2 : addDim a o1 = .ok o2) (h3 : addCount a o2 = .ok o3)
    (h4 : addTarget a o3 = .ok o4) : Based a o4 := by
  -- the operator
  have s0 : o0.names.Nodup ∧ Flat o0 ∧ (∀ nm, nm ∉ ["n", "matrixMatvec"] → o0.get nm = none) ∧
      (∃ x, opAddr a.A = some x ∧ o0.get "matrixMatvec" = some (.fn x)) ∧
      (∀ m x, a.A = .mat m x → o0.get "n" = some (.one (m.cols : K))) := by
    unfold startA at h0
    split at h0
    · rename_i m x hA
      simp only [Res.ok.injEq] at h0
      subst h0
      rw [hA]
      refine ⟨by simp [Fields.names], by simp [Flat, MVal.one], ?_, ⟨x, rfl, by simp [Fields.get]⟩, ?_⟩
      · intro nm hn
        simp only [List.mem_cons, List.not_mem_nil, or_false, not_or] at hn
        simp [Fields.get, Ne.symm hn.1, Ne.symm hn.2]
      · intro m' x' h
        simp only [MOp.mat.injEq] at h
        simp [Fields.get, h.1]
    · rename_i x hA
      simp only [Res.ok.injEq] at h0
      subst h0
      rw [hA]
      refine ⟨by simp [Fields.names], by simp [Flat], ?_, ⟨x, rfl, by simp [Fields.get]⟩, by simp⟩
      intro nm hn
      simp only [List.mem_cons, List.not_mem_nil, or_false, not_or] at hn
      simp [Fields.get, Ne.symm hn.2]
    · simp at h0
  obtain ⟨p1, p2, p3, ⟨x, p4, p5⟩, p6⟩ := s0
  -- the mass matrix
  have s1 : (a.B = none ∧ o1 = o0 ∨ ∃ b y, a.B = some b ∧ opAddr b = some y ∧ o1 = o0.set "massMatrixMatvec" (.fn y)) ∧
      (∀ m x, a.B = some (.mat m x) → m.rows = m.cols ∧ (m.rows < 10000 → m.hermitian = true) ∧
        ∀ mA y, a.A = .mat mA y → m.rows = mA.cols) := by
    unfold addB at h1
    split at h1
    · rename_i hB
      simp only [Res.ok.injEq] at h1
      exact ⟨.inl ⟨hB, h1.symm⟩, by simp [hB]⟩
    · rename_i y hB
      simp only [Res.ok.injEq] at h1
      exact ⟨.inr ⟨_, y, hB, rfl, h1.symm⟩, by simp [hB]⟩
    · simp at h1
    · rename_i m y hB
      split at h1
      · simp at h1
      · rename_i hc
        simp only [not_or, not_and, not_not, Bool.not_eq_false] at hc
        have mk : (∀ mA z, a.A = .mat mA z → m.rows = mA.cols) → ∀ m' x, a.B = some (.mat m' x) → m'.rows = m'.cols ∧
            (m'.rows < 10000 → m'.hermitian = true) ∧ ∀ mA y, a.A = .mat mA y → m'.rows = mA.cols := by
          intro h m' x' h'
          rw [hB] at h'
          simp only [Option.some.injEq, MOp.mat.injEq] at h'
          obtain ⟨rfl, -⟩ := h'
          exact ⟨hc.1, hc.2, h⟩
        split at h1
        · rename_i mA z hA
          split at h1
          · simp at h1
          · rename_i hr
            simp only [not_not] at hr
            simp only [Res.ok.injEq] at h1
            refine ⟨.inr ⟨_, y, hB, rfl, h1.symm⟩, mk ?_⟩
            intro mA' z' h'
            rw [hA] at h'
            simp only [MOp.mat.injEq] at h'
            rw [← h'.1]
            exact hr
        · rename_i hA
          simp only [Res.ok.injEq] at h1
          exact ⟨.inr ⟨_, y, hB, rfl, h1.symm⟩, mk fun mA z h' => absurd h' (hA mA z)⟩
  obtain ⟨s1, s1'⟩ := s1
  have t1 : o1.names.Nodup ∧ Flat o1 ∧ (∀ nm, nm ≠ "massMatrixMatvec" → o1.get nm = o0.get nm) ∧
      o1.get "massMatrixMatvec" = (a.B.bind opAddr).map .fn ∧ (∀ b, a.B = some b → (opAddr b).isSome) := by
    rcases s1 with ⟨hB, rfl⟩ | ⟨b, y, hB, hy, rfl⟩
    · exact ⟨p1, p2, fun _ _ => rfl, by rw [hB, p3 _ (by decide)]; rfl, by simp [hB]⟩
    · refine ⟨nodup_set p1 _ _, flat_set p2 _ (by simp), fun nm hn => by rw [get_set, if_neg hn], ?_, ?_⟩
      · rw [get_set, hB]; simp [hy]
      · intro b' hb'
        rw [hB] at hb'
        simp only [Option.some.injEq] at hb'
        subst hb'
        simp [hy]
  obtain ⟨q1, q2, q3, q4, q5⟩ := t1
  -- the dimension
  have t2 : o2.names.Nodup ∧ Flat o2 ∧ (∀ nm, nm ≠ "n" → o2.get nm = o1.get nm) ∧
      (hasFn a.A a.B = false → o2 = o1) ∧
      (hasFn a.A a.B = true → ∃ v w, a.dim = some v ∧ roundArg v = .ok w ∧ o2.get "n" = some w) := by
    unfold addDim at h2
    split at h2
    · rename_i hf
      split at h2
      · simp at h2
      · rename_i v hv
        obtain ⟨w, hw, h2⟩ := bind_ok h2
        simp only [Res.ok.injEq] at h2
        subst h2
        have hflat : ∀ l, w ≠ .struct l := by
          obtain ⟨x, -, ⟨-, rfl⟩ | ⟨-, rfl⟩⟩ := roundArg_ok hw <;> simp [MVal.one]
        exact ⟨nodup_set q1 _ _, flat_set q2 _ hflat, fun nm hn => by rw [get_set, if_neg hn], by simp [hf],
          fun _ => ⟨v, w, hv, hw, by rw [get_set, if_pos rfl]⟩⟩
    · rename_i hf
      simp only [Res.ok.injEq] at h2
      subst h2
      exact ⟨q1, q2, fun _ _ => rfl, fun _ => rfl, fun h => absurd h hf⟩
  obtain ⟨r1, r2, r3, r4, r5⟩ := t2
  -- the number of values
  have t3 : o3.names.Nodup ∧ Flat o3 ∧ (∀ nm, nm ≠ "numEvals" → o3.get nm = o2.get nm) ∧
      (∀ v, a.count = some v → ∃ w, roundArg v = .ok w ∧ o3.get "numEvals" = some w) ∧
      (a.count = none → ∃ x, (o2.get "n").bind scalar = some x ∧ o3.get "numEvals" = some (.one (min 6 x))) := by
    unfold addCount at h3
    split at h3
    · rename_i v hv
      obtain ⟨w, hw, h3⟩ := bind_ok h3
      simp only [Res.ok.injEq] at h3
      subst h3
      have hflat : ∀ l, w ≠ .struct l := by
        obtain ⟨x, -, ⟨-, rfl⟩ | ⟨-, rfl⟩⟩ := roundArg_ok hw <;> simp [MVal.one]
      refine ⟨nodup_set r1 _ _, flat_set r2 _ hflat, fun nm hn => by rw [get_set, if_neg hn], ?_, by simp [hv]⟩
      intro v' hv'
      rw [hv] at hv'
      simp only [Option.some.injEq] at hv'
      subst hv'
      exact ⟨w, hw, by rw [get_set, if_pos rfl]⟩
    · rename_i hv
      split at h3
      · rename_i x hx
        simp only [Res.ok.injEq] at h3
        subst h3
        exact ⟨nodup_set r1 _ _, flat_set r2 _ (by simp [MVal.one]), fun nm hn => by rw [get_set, if_neg hn], by simp [hv],
          fun _ => ⟨x, hx, by rw [get_set, if_pos rfl]⟩⟩
      · simp at h3
  obtain ⟨u1, u2, u3, u4, u5⟩ := t3
  have z3 : o3.get "targetShifts" = none := by
    rw [u3 _ (by decide), r3 _ (by decide), q3 _ (by decide), p3 _ (by decide)]
  -- the target
  have t4 : o4.names.Nodup ∧ Flat o4 ∧ (∀ nm, nm ≠ "target" → nm ≠ "targetShifts" → o4.get nm = o3.get nm) ∧
      (∃ t, o4.get "target" = some (.str t) ∧ (a.target = none → t = "primme_largest_abs") ∧
        (∀ w, a.target = some (.str w) → (w, t) ∈ targetNames) ∧
        (∀ v, a.target = some v → isNumeric v = true → t = "primme_closest_abs")) ∧
      (a.target = none → o4.get "targetShifts" = some (.one 0)) ∧
      (∀ w, a.target = some (.str w) → o4.get "targetShifts" = if w = "SM" ∨ w = "LM" then some (.one 0) else none) ∧
      (∀ v, a.target = some v → isNumeric v = true → o4.get "targetShifts" = some v) ∧
      (∀ v, a.target = some v → isNumeric v = true ∨ ∃ w, v = .str w) := by
    have two : ∀ (t : String) (v : MVal K), (∀ l, v ≠ .struct l) →
        ((o3.set "target" (.str t)).set "targetShifts" v).names.Nodup ∧
        Flat ((o3.set "target" (.str t)).set "targetShifts" v) ∧
        (∀ nm, nm ≠ "target" → nm ≠ "targetShifts" →
          ((o3.set "target" (.str t)).set "targetShifts" v).get nm = o3.get nm) ∧
        ((o3.set "target" (.str t)).set "targetShifts" v).get "target" = some (.str t) ∧
        ((o3.set "target" (.str t)).set "targetShifts" v).get "targetShifts" = some v := by
      intro t v hv
      refine ⟨nodup_set (nodup_set u1 _ _) _ _, flat_set (flat_set u2 _ (by simp)) _ hv, ?_, ?_, ?_⟩
      · intro nm h1 h2
        rw [get_set, if_neg h2, get_set, if_neg h1]
      · rw [get_set, if_neg (by decide), get_set, if_pos rfl]
      · rw [get_set, if_pos rfl]
    unfold addTarget at h4
    split at h4
    · rename_i hT
      simp only [Res.ok.injEq] at h4
      subst h4
      obtain ⟨w1, w2, w3, w4, w5⟩ := two "primme_largest_abs" (.one 0) (by simp [MVal.one])
      exact ⟨w1, w2, w3, ⟨_, w4, by simp, by simp [hT], by simp [hT]⟩, fun _ => w5, by simp [hT], by simp [hT], by simp [hT]⟩
    · rename_i t hT
      split at h4
      · simp at h4
      · rename_i e he
        have hm := List.mem_of_find?_eq_some he
        have het : e.1 = t := by simpa using List.find?_some he
        subst het
        simp only [Res.ok.injEq] at h4
        have common : (∀ w, a.target = some (.str w) → (w, e.2) ∈ targetNames) := by
          intro w hw
          rw [hT] at hw
          simp only [Option.some.injEq, MVal.str.injEq] at hw
          subst hw
          exact hm
        by_cases hs : e.1 = "SM" ∨ e.1 = "LM"
        · rw [if_pos hs] at h4
          subst h4
          obtain ⟨w1, w2, w3, w4, w5⟩ := two e.2 (.one 0) (by simp [MVal.one])
          refine ⟨w1, w2, w3, ⟨_, w4, by simp [hT], common, by simp [hT, isNumeric]⟩, by simp [hT], ?_,
            by simp [hT, isNumeric], ?_⟩
          · intro w hw
            rw [hT] at hw
            simp only [Option.some.injEq, MVal.str.injEq] at hw
            subst hw
            rw [if_pos hs]; exact w5
          · intro v hv
            rw [hT] at hv
            simp only [Option.some.injEq] at hv
            exact .inr ⟨_, hv.symm⟩
        · rw [if_neg hs] at h4
          subst h4
          refine ⟨nodup_set u1 _ _, flat_set u2 _ (by simp), fun nm h1 h2 => by rw [get_set, if_neg h1],
            ⟨e.2, by rw [get_set, if_pos rfl], by simp [hT], common, by simp [hT, isNumeric]⟩, by simp [hT], ?_,
            by simp [hT, isNumeric], ?_⟩
          · intro w hw
            rw [hT] at hw
            simp only [Option.some.injEq, MVal.str.injEq] at hw
            subst hw
            rw [if_neg hs, get_set, if_neg (by decide), z3]
          · intro v hv
            rw [hT] at hv
            simp only [Option.some.injEq] at hv
            exact .inr ⟨_, hv.symm⟩
    · rename_i r c l hT
      simp only [Res.ok.injEq] at h4
      subst h4
      obtain ⟨w1, w2, w3, w4, w5⟩ := two "primme_closest_abs" (.num r c l) (by simp)
      refine ⟨w1, w2, w3, ⟨_, w4, by simp [hT], by simp [hT], by simp⟩, by simp [hT], by simp [hT], ?_, ?_⟩
      · intro v hv _
        rw [hT] at hv
        simp only [Option.some.injEq] at hv
        rw [w5, hv]
      · intro v hv
        rw [hT] at hv
        simp only [Option.some.injEq] at hv
        subst hv
        exact .inl rfl
    · rename_i r c l hT
      simp only [Res.ok.injEq] at h4
      subst h4
      obtain ⟨w1, w2, w3, w4, w5⟩ := two "primme_closest_abs" (.complex r c l) (by simp)
      refine ⟨w1, w2, w3, ⟨_, w4, by simp [hT], by simp [hT], by simp⟩, by simp [hT], by simp [hT], ?_, ?_⟩
      · intro v hv _
        rw [hT] at hv
        simp only [Option.some.injEq] at hv
        rw [w5, hv]
      · intro v hv
        rw [hT] at hv
        simp only [Option.some.injEq] at hv
        subst hv
        exact .inl rfl
    · simp at h4
  obtain ⟨v1, v2, v3, v4, v5, v6, v7, v8⟩ := t4
  have hn4 : o4.get "n" = o2.get "n" := by rw [v3 _ (by decide) (by decide), u3 _ (by decide)]
  refine
    { nodup := v1
      others := ?_
      flat := v2
      mat := ⟨x, p4, ?_⟩
      mass := ?_
      massOk := q5
      massMat := s1'
      dimMat := ?_
      dimFn := ?_
      count := ?_
      countNone := ?_
      target := v4
      points := ⟨v5, v6, v7⟩
      targetOk := v8 }
  · intro nm hn
    simp only [baseNames, List.mem_cons, List.not_mem_nil, or_false, not_or] at hn
    rw [v3 _ hn.2.2.2.2.1 hn.2.2.2.2.2, u3 _ hn.2.2.2.1, r3 _ hn.1, q3 _ hn.2.2.1, p3 _ (by simp [hn.1, hn.2.1])]
  · rw [v3 _ (by decide) (by decide), u3 _ (by decide), r3 _ (by decide), q3 _ (by decide), p5]
  · rw [v3 _ (by decide) (by decide), u3 _ (by decide), r3 _ (by decide), q4]
  · intro hf
    cases hA : a.A with
    | mat m x' =>
      refine ⟨m, x', rfl, ?_⟩
      rw [hn4, r4 hf, q3 _ (by decide), p6 m x' hA]
    | fn x' => rw [hA] at hf; simp [hasFn] at hf
    | other => rw [hA] at p4; simp [opAddr] at p4
  · intro hf
    rw [hn4]
    exact r5 hf
  · intro v hv
    obtain ⟨w, h1, h2⟩ := u4 v hv
    exact ⟨w, h1, by rw [v3 _ (by decide) (by decide), h2]⟩
  · intro hv
    rw [hn4]
    obtain ⟨w, h1, h2⟩ := u5 hv
    exact ⟨w, h1, by rw [v3 _ (by decide) (by decide), h2]⟩

/-- The fields `primme_eigs` makes. -/
def problemNames : List String :=
  baseNames ++ ["applyPreconditioner", "correction", "matrixMatvec_type", "numOrthoConst", "initSize", "eps"]

/-- The number of columns of an option of vectors, or the field the user gave. -/
def widthField (v : Option (MVecs V)) (d : Option (MVal K)) : Option (MVal K) :=
  match v with
  | some x => some (.one (x.arr.cols : K))
  | none => d

/-- The facts behind a struct of options that was made. -/
structure Made (h : Nat) (a : EigsArgs K V) (o b : Fields (MVal K)) (n : Nat) : Prop where
  based : Based a b
  nodup : o.names.Nodup
  structs : ∀ k l, (k, .struct l) ∈ o → k = "correction" ∧ l = [("precondition", 1)] ∧ hasPrec a = true
  prec : hasPrec a = true → o.get "correction" = some (.struct [("precondition", 1)]) ∧
    o.get "applyPreconditioner" = some (.fn h)
  noPrec : hasPrec a = false → o.get "applyPreconditioner" = a.opts.rest.get "applyPreconditioner"
  others : ∀ nm, nm ∉ problemNames → o.get nm = given a nm
  bases : ∀ nm, nm ∈ baseNames → o.get nm = (a.opts.rest.get nm).or (b.get nm)
  dim : dimOf o = some n
  tested : testOperators a n = true
  type : o.get "matrixMatvec_type" =
    if sparseSingle a then some (.str "primme_op_double") else a.opts.rest.get "matrixMatvec_type"
  ortho : o.get "numOrthoConst" = widthField a.opts.orthoConst (a.opts.rest.get "numOrthoConst")
  orthoRows : ∀ x, a.opts.orthoConst = some x → x.arr.rows = n
  init : o.get "initSize" = widthField a.opts.v0 (a.opts.rest.get "initSize")
  initRows : ∀ x, a.opts.v0 = some x → x.arr.rows = n
  eps : o.get "eps" = some ((given a "eps").getD (.one (defaultTol a)))
  herm : badHermitian a = false

theorem renamed_plain {α : Type} {L : List (String × String)} {o : Fields α} {nm : String}
    (h1 : nm ∉ L.map Prod.fst) (h2 : nm ∉ L.map Prod.snd) : renamed L o nm = o.get nm := by
  unfold renamed
  rw [if_neg h1, find_none h2]

theorem renamed_congr {α : Type} {L : List (String × String)} {o o' : Fields α} {nm : String}
    (h1 : ∀ c ∈ L, o.get c.1 = o'.get c.1) (h2 : o.get nm = o'.get nm) : renamed L o nm = renamed L o' nm := by
  unfold renamed
  split
  · rfl
  · split
    · rename_i c hc
      rw [h1 c (List.mem_of_find?_eq_some hc), h2]
    · exact h2

theorem addVecs_ok {n : Nat} {what : String} {v : Option (MVecs V)} {o o' : Fields (MVal K)}
    (h : addVecs n what v o = .ok o') :
    (o.names.Nodup → o'.names.Nodup) ∧ (∀ nm, nm ≠ what → o'.get nm = o.get nm) ∧
    (∀ k l, (k, .struct l) ∈ o' → (k, .struct l) ∈ o) ∧
    o'.get what = widthField v (o.get what) ∧
    (∀ x, v = some x → x.arr.rows = n) := by
  unfold addVecs at h
  cases v with
  | none =>
    simp only [Res.ok.injEq] at h
    subst h
    exact ⟨id, fun _ _ => rfl, fun _ _ h => h, rfl, by simp⟩
  | some x =>
    simp only at h
    split at h
    · simp at h
    · rename_i hr
      simp only [not_not] at hr
      simp only [Res.ok.injEq] at h
      subst h
      refine ⟨fun h => nodup_set h _ _, fun nm hn => by rw [get_set, if_neg hn], ?_, by rw [get_set, if_pos rfl]; rfl, ?_⟩
      · intro k l hk
        rcases mem_set hk with h | h
        · exact h
        · simp [MVal.one] at h
      · intro y hy
        simp only [Option.some.injEq] at hy
        subst hy
        exact hr

theorem mem_rename {α : Type} {o : Fields α} {c : String × String} {e : String × α} (h : e ∈ rename o c) :
    e ∈ o ∨ ∃ x, o.get c.1 = some x ∧ e = (c.2, x) := by
  unfold rename at h
  split at h
  · rename_i v hv
    have : e ∈ o.set c.2 v := (List.mem_filter.1 h).1
    rcases mem_set this with h | h
    · exact .inl h
    · exact .inr ⟨v, hv, h⟩
  · exact .inl h

theorem structs_renames {o : Fields (MVal K)} {P : String → List (String × K) → Prop} (L : List (String × String))
    (hL : ∀ c ∈ L, ∀ l, ¬ P c.1 l) (h : ∀ k l, (k, .struct l) ∈ o → P k l) :
    ∀ k l, (k, .struct l) ∈ L.foldl rename o → P k l := by
  induction L generalizing o with
  | nil => exact h
  | cons c r ih =>
    refine ih (fun c' hc' => hL c' (List.mem_cons_of_mem _ hc')) ?_
    intro k l hk
    rcases mem_rename hk with hk | ⟨x, hx, hk⟩
    · exact h k l hk
    · simp only [Prod.mk.injEq] at hk
      obtain ⟨rfl, rfl⟩ := hk
      exact absurd (h _ _ (mem_of_get hx)) (hL c List.mem_cons_self l)

theorem options_made {h : Nat} {a : EigsArgs K V} {o : Fields (MVal K)} (ha : Doc.Ordinary a) (ho : options h a = .ok o) :
    ∃ b n, Made h a o b n := by
  unfold options at ho
  obtain ⟨o0, h0, ho⟩ := bind_ok ho
  obtain ⟨o1, h1, ho⟩ := bind_ok ho
  obtain ⟨o2, h2, ho⟩ := bind_ok ho
  obtain ⟨o3, h3, ho⟩ := bind_ok ho
  obtain ⟨b, h4, ho⟩ := bind_ok ho
  have based := base_ok h0 h1 h2 h3 h4
  clear h0 h1 h2 h3 h4
  obtain ⟨o5, h5, ho⟩ := bind_ok ho
  by_cases hh : badHermitian a = true
  · rw [if_pos hh] at ho; simp at ho
  rw [if_neg hh] at ho
  cases hd : dimOf o5 with
  | none => rw [hd] at ho; simp at ho
  | some n =>
  rw [hd] at ho
  simp only at ho
  by_cases ht : testOperators a n = false
  · rw [if_pos ht] at ho; simp at ho
  rw [if_neg ht] at ho
  simp only [Bool.not_eq_false] at ht
  obtain ⟨o6, h6, ho⟩ := bind_ok ho
  obtain ⟨o7, h7, ho⟩ := bind_ok ho
  simp only [Res.ok.injEq] at ho
  refine ⟨b, n, ?_⟩
  have hr : Fields.names a.opts.rest |>.Nodup := ha.nodup
  have mget : ∀ nm, (b.merge a.opts.rest).get nm = (a.opts.rest.get nm).or (b.get nm) := get_merge b hr
  have mdup : (b.merge a.opts.rest).names.Nodup := nodup_merge based.nodup
  have mflat : ∀ e ∈ b.merge a.opts.rest, ∀ l, e.2 ≠ .struct l := by
    intro e he
    rcases mem_merge he with he | he
    · exact based.flat e he
    · exact ha.flat e he
  -- the preconditioner
  have s5 : o5.names.Nodup ∧ (∀ k l, (k, .struct l) ∈ o5 → k = "correction" ∧ l = [("precondition", 1)] ∧ hasPrec a = true) ∧
      (hasPrec a = true → o5.get "correction" = some (.struct [("precondition", 1)]) ∧
        o5.get "applyPreconditioner" = some (.fn h)) ∧
      (∀ nm, (nm ≠ "correction" ∧ nm ≠ "applyPreconditioner") ∨ hasPrec a = false →
        o5.get nm = (a.opts.rest.get nm).or (b.get nm)) := by
    unfold addPrec at h5
    split at h5
    · rename_i hp
      simp only at h5
      split at h5
      · rename_i hc
        simp only [Res.ok.injEq] at h5
        subst h5
        refine ⟨nodup_set (nodup_set mdup _ _) _ _, ?_, ?_, ?_⟩
        · intro k l hk
          rcases mem_set hk with hk | hk
          · rcases mem_set hk with hk | hk
            · exact absurd rfl (mflat _ hk l)
            · simp at hk
          · simp only [Prod.mk.injEq, MVal.struct.injEq] at hk
            exact ⟨hk.1, hk.2, hp⟩
        · intro _
          exact ⟨by rw [get_set, if_pos rfl], by rw [get_set, if_neg (by decide), get_set, if_pos rfl]⟩
        · intro nm hn
          rw [hp] at hn
          simp only [Bool.true_eq_false, or_false] at hn
          rw [get_set, if_neg hn.1, get_set, if_neg hn.2, mget]
      · rename_i l hc
        rw [get_set, if_neg (by decide)] at hc
        exact absurd rfl (mflat _ (mem_of_get hc) l)
      · simp at h5
    · rename_i hp
      simp only [Res.ok.injEq] at h5
      subst h5
      simp only [Bool.not_eq_true] at hp
      exact ⟨mdup, fun k l hk => absurd rfl (mflat _ hk l), by simp [hp], fun nm _ => mget nm⟩
  obtain ⟨p1, p2, p3, p4⟩ := s5
  -- the type
  have s6 : (addType a o5).names.Nodup ∧ (∀ k l, (k, .struct l) ∈ addType a o5 → (k, .struct l) ∈ o5) ∧
      (∀ nm, nm ≠ "matrixMatvec_type" → (addType a o5).get nm = o5.get nm) ∧
      (addType a o5).get "matrixMatvec_type" =
        if sparseSingle a then some (.str "primme_op_double") else a.opts.rest.get "matrixMatvec_type" := by
    have hb : o5.get "matrixMatvec_type" = a.opts.rest.get "matrixMatvec_type" := by
      rw [p4 _ (.inl (by decide)), based.others _ (by decide), Option.or_none]
    unfold addType
    split
    · refine ⟨nodup_set p1 _ _, ?_, fun nm hn => by rw [get_set, if_neg hn], by rw [get_set, if_pos rfl]⟩
      intro k l hk
      rcases mem_set hk with h | h
      · exact h
      · simp at h
    · exact ⟨p1, fun _ _ h => h, fun _ _ => rfl, hb⟩
  obtain ⟨q1, q2, q3, q4⟩ := s6
  generalize addType a o5 = o5' at q1 q2 q3 q4 h6
  have olds : ∀ c ∈ renames, c.1 ∉ problemNames ∧ c.1 ≠ "correction" ∧ c.1 ≠ "applyPreconditioner" ∧
      c.1 ≠ "matrixMatvec_type" := by decide +kernel
  have oldb : ∀ c ∈ renames, c.1 ∉ baseNames := by decide +kernel
  have r1 : (renames.foldl rename o5').names.Nodup := nodup_renames q1 _
  have r2 := structs_renames (P := fun k l => k = "correction" ∧ l = [("precondition", 1)] ∧ hasPrec a = true) renames
    (fun c hc l hl => (olds c hc).2.1 hl.1) (fun k l hk => p2 k l (q2 k l hk))
  have r3 : ∀ nm, (renames.foldl rename o5').get nm = renamed renames o5' nm := get_renames renames_nodup o5'
  generalize renames.foldl rename o5' = o5'' at r1 r2 r3 h6
  obtain ⟨v1, v2, v3, v4, v5⟩ := addVecs_ok h6
  obtain ⟨w1, w2, w3, w4, w5⟩ := addVecs_ok h7
  have short : ∀ c ∈ renames, o5'.get c.1 = a.opts.rest.get c.1 := by
    intro c hc
    obtain ⟨-, c2, c3, c4⟩ := olds c hc
    rw [q3 _ c4, p4 _ (.inl ⟨c2, c3⟩), based.others _ (oldb c hc), Option.or_none]
  have tol : o.names.Nodup ∧ (∀ nm, nm ≠ "eps" → o.get nm = o7.get nm) ∧
      (∀ k l, (k, .struct l) ∈ o → (k, .struct l) ∈ o7) ∧
      o.get "eps" = some ((o7.get "eps").getD (.one (defaultTol a))) := by
    rw [← ho]
    unfold addTol
    split
    · rename_i v hv
      exact ⟨w1 (v1 r1), fun _ _ => rfl, fun _ _ h => h, by rw [hv]; rfl⟩
    · rename_i hv
      refine ⟨nodup_set (w1 (v1 r1)) _ _, fun nm hn => by rw [get_set, if_neg hn], ?_, by rw [get_set, if_pos rfl, hv]; rfl⟩
      intro k l hk
      rcases mem_set hk with h | h
      · exact h
      · simp [MVal.one] at h
  obtain ⟨x1, x2, x3, x4⟩ := tol
  have base_free : ∀ nm ∈ problemNames, nm ≠ "eps" → nm ∉ renames.map Prod.fst ∧ nm ∉ renames.map Prod.snd := by
    decide +kernel
  -- a name that is not renamed
  have pass : ∀ nm, nm ∈ problemNames → nm ≠ "eps" → nm ≠ "numOrthoConst" → nm ≠ "initSize" → o.get nm = o5'.get nm := by
    intro nm hn h1 h2 h3
    obtain ⟨g1, g2⟩ := base_free nm hn h1
    rw [x2 _ h1, w2 _ h3, v2 _ h2, r3, renamed_plain g1 g2]
  have giv : ∀ nm, nm ∉ baseNames → nm ≠ "correction" → nm ≠ "applyPreconditioner" → nm ≠ "matrixMatvec_type" →
      o5''.get nm = given a nm := by
    intro nm n1 n2 n3 n4
    rw [r3]
    unfold given
    refine renamed_congr short ?_
    rw [q3 _ n4, p4 _ (.inl ⟨n2, n3⟩), based.others _ n1, Option.or_none]
  refine
    { based := based
      nodup := x1
      structs := fun k l hk => r2 k l (v3 k l (w3 k l (x3 k l hk)))
      prec := fun hp => ?_
      noPrec := fun hp => ?_
      others := fun nm hn => ?_
      bases := fun nm hn => ?_
      dim := ?_
      tested := ht
      type := ?_
      ortho := ?_
      orthoRows := v5
      init := ?_
      initRows := w5
      eps := ?_
      herm := by simpa using hh }
  · obtain ⟨e1, e2⟩ := p3 hp
    exact ⟨by rw [pass _ (by decide) (by decide) (by decide) (by decide), q3 _ (by decide), e1],
      by rw [pass _ (by decide) (by decide) (by decide) (by decide), q3 _ (by decide), e2]⟩
  · rw [pass _ (by decide) (by decide) (by decide) (by decide), q3 _ (by decide), p4 _ (.inr hp),
      based.others _ (by decide), Option.or_none]
  · simp only [problemNames, List.mem_append, not_or] at hn
    obtain ⟨n0, hn⟩ := hn
    simp only [List.mem_cons, List.not_mem_nil, or_false, not_or] at hn
    rw [x2 _ hn.2.2.2.2.2, w2 _ hn.2.2.2.2.1, v2 _ hn.2.2.2.1]
    exact giv nm n0 hn.2.1 hn.1 hn.2.2.1
  · have hb : ∀ nm ∈ baseNames, nm ∈ problemNames ∧ nm ≠ "eps" ∧ nm ≠ "numOrthoConst" ∧ nm ≠ "initSize" ∧
        nm ≠ "correction" ∧ nm ≠ "applyPreconditioner" ∧ nm ≠ "matrixMatvec_type" := by decide +kernel
    obtain ⟨b1, b2, b3, b4, b5, b6, b7⟩ := hb nm hn
    rw [pass nm b1 b2 b3 b4, q3 _ b7, p4 _ (.inl ⟨b5, b6⟩)]
  · unfold dimOf at hd ⊢
    rw [pass "n" (by decide) (by decide) (by decide) (by decide), q3 _ (by decide), hd]
  · rw [pass _ (by decide) (by decide) (by decide) (by decide), q4]
  · have e : o5''.get "numOrthoConst" = a.opts.rest.get "numOrthoConst" := by
      rw [giv _ (by decide) (by decide) (by decide) (by decide)]
      obtain ⟨g1, g2⟩ := base_free "numOrthoConst" (by decide) (by decide)
      exact renamed_plain g1 g2
    rw [x2 _ (by decide), w2 _ (by decide), v4, e]
  · have e : o6.get "initSize" = a.opts.rest.get "initSize" := by
      rw [v2 _ (by decide), giv _ (by decide) (by decide) (by decide) (by decide)]
      obtain ⟨g1, g2⟩ := base_free "initSize" (by decide) (by decide)
      exact renamed_plain g1 g2
    rw [x2 _ (by decide), w4, e]
  · rw [x4, w2 _ (by decide), v2 _ (by decide), giv _ (by decide) (by decide) (by decide) (by decide)]

/-! ## From the options to the call -/

theorem prepareM_ok {D : MAddrs} {zero : V} {start : EP K} {a : EigsArgs K V} {c : MCall K V}
    (h : prepareM D zero start a = .ok c) :
    ∃ o s t u, options D.objPrec a = .ok o ∧
      setAllM (eigsKind D.heap D.device D.text) (settings o) ⟨start, []⟩ = .ok s ∧ setMethodM a.method s = .ok t ∧
      addMonitor D a t = .ok u ∧ enter D zero a (sortsResult o) u = .ok c := by
  unfold prepareM at h
  obtain ⟨o, h1, h⟩ := bind_ok h
  obtain ⟨s, h2, h⟩ := bind_ok h
  obtain ⟨t, h3, h⟩ := bind_ok h
  obtain ⟨u, h4, h⟩ := bind_ok h
  exact ⟨o, s, t, u, h1, h2, h3, h4, h⟩

theorem setMethodM_ok {m : Option (MVal K)} {s t : ES K} (h : setMethodM m s = .ok t) :
    t.shifts = s.shifts ∧ (∃ v, asInt Eigs.constTable (methodArg m) = .ok v ∧ Eigs.Doc.Published v ∧
      t.params = (setMethod v s.params).2) ∧ ∀ x, OutOfMethod x → reads t.params x = reads s.params x := by
  unfold setMethodM at h
  obtain ⟨v, hv, h⟩ := bind_ok h
  split at h
  · rename_i t' hc
    simp only [Res.ok.injEq] at h
    subst h
    obtain ⟨h1, h2, h3, h4, h5⟩ := Verif.Props.C06_problem_untouched hc
    refine ⟨rfl, ⟨v, hv, (Verif.Props.C06_return_code hc).1.1 rfl, ?_⟩, ?_⟩
    · rw [← Verif.Props.C06_result hc]
    · intro x hx
      cases x with
      | i f => simp only [reads]; rw [h1 f hx]
      | d f => simp only [reads]; rw [h2 f hx]
      | p f => simp only [reads]; rw [h3]
      | seed => simp only [reads]; rw [h4]
      | sub k => simp only [reads]; rw [h5]
  · simp at h

theorem addMonitor_ok {D : MAddrs} {a : EigsArgs K V} {t u : ES K} (h : addMonitor D a t = .ok u) :
    u.shifts = t.shifts ∧ (∀ x, x ≠ .p .monitor → reads u.params x = reads t.params x) ∧
    u.params.p .monitor = if a.opts.report then D.objMonitor else t.params.p .monitor := by
  unfold addMonitor at h
  split at h
  · obtain ⟨l, m, hl, hm, h⟩ := setMemberM_ok (eigs_kind D.heap D.device D.text) h
    have hl85 : l = 85 := (eigs_kind D.heap D.device D.text).label _ _ _ hl
      (show ("monitorFun", (85 : Int)) ∈ Eigs.infoNames by decide +kernel)
    subst hl85
    have hlook : (eigsKind D.heap D.device D.text).handles.lookup 85 = some .monitor := rfl
    rcases h with ⟨-, h, -⟩ | ⟨-, h, -⟩ | ⟨-, -, f, x, hf, hv, rfl⟩ | ⟨-, -, h, -⟩ | ⟨-, -, h, -⟩
    · simp [eigsKind] at h
    · simp [eigsKind] at h
    · rw [hlook] at hf
      simp only [Option.some.injEq] at hf
      subst hf
      simp only [MVal.fn.injEq] at hv
      subst hv
      refine ⟨rfl, fun x hx => ?_, ?_⟩
      · dsimp only
        exact reads_put_other _ hx _
      · rename_i hr
        rw [if_pos hr]
        have := reads_put_self (ct := Eigs.ctype) (m := .p .monitor) (v := .ptr D.objMonitor) trivial t.params
        simpa only [reads, Val.ptr.injEq] using this
    · rw [hlook] at h; simp at h
    · rw [hlook] at h; simp at h
  · rename_i hr
    simp only [Res.ok.injEq] at h
    subst h
    exact ⟨rfl, fun _ _ => rfl, by simp [hr]⟩

/-- The members `mexFunction_xprimme` sets. -/
def entered : List (Member Eigs.IF Eigs.DF Eigs.PF) :=
  [.p .matrixMatvec, .p .massMatrixMatvec, .p .applyPreconditioner, .p .monitorFun, .p .convTestFun]

theorem solvers_lookup {s : String} {b : Bool} (h : solvers.lookup s = some b) : (s, b) ∈ solvers := by
  revert h
  unfold solvers
  simp only [List.lookup_cons]
  intro h
  repeat' split at h
  all_goals simp_all

theorem enter_ok {D : MAddrs} {zero : V} {a : EigsArgs K V} {so : Bool} {u : ES K} {c : MCall K V}
    (h : enter D zero a so u = .ok c) :
    (∀ x, x ∉ entered → reads c.params x = reads u.params x) ∧
    c.params.p .matrixMatvec = selectFun D.matvec (u.params.i .matrixMatvec_type) ∧
    c.params.p .massMatrixMatvec = (if u.params.p .massMatrix = 0 then u.params.p .massMatrixMatvec
      else selectFun D.mass (u.params.i .massMatrixMatvec_type)) ∧
    c.params.p .applyPreconditioner = (if u.params.i .correctionParams_precondition = 0 then
      u.params.p .applyPreconditioner else selectFun D.prec (u.params.i .applyPreconditioner_type)) ∧
    c.params.p .monitorFun = (if u.params.p .monitor = 0 then u.params.p .monitorFun else D.monitor) ∧
    c.params.p .convTestFun = (if u.params.p .convtest = 0 then u.params.p .convTestFun else D.conv) ∧
    c.solver = solverName a ∧ (solverName a, c.complex) ∈ solvers ∧ c.shifts = u.shifts ∧ c.sorted = so ∧
    0 ≤ u.params.i .numEvals ∧ 0 ≤ u.params.i .n ∧
    0 ≤ u.params.i .numOrthoConst + max (u.params.i .numEvals) (u.params.i .initSize) ∧
    c.values = (u.params.i .numEvals).toNat ∧ c.height = (u.params.i .n).toNat ∧
    c.width = (u.params.i .numOrthoConst + max (u.params.i .numEvals) (u.params.i .initSize)).toNat ∧
    (0 < u.params.i .numOrthoConst + u.params.i .initSize → (initRows a : Int) = u.params.i .n ∧
      (colsOf a.opts.orthoConst + colsOf a.opts.v0 : Int) = u.params.i .numOrthoConst + u.params.i .initSize ∧
      (initComplex a = true → c.complex = true)) ∧
    c.evecs = fun j i => if j < colsOf a.opts.orthoConst then entry zero a.opts.orthoConst i j
      else if j < colsOf a.opts.orthoConst + colsOf a.opts.v0 then
        entry zero a.opts.v0 i (j - colsOf a.opts.orthoConst) else zero := by
  unfold enter at h
  cases hl : solvers.lookup (solverName a) with
  | none => rw [hl] at h; simp at h
  | some cx =>
  rw [hl] at h
  simp only at h
  split at h
  · simp at h
  rename_i q1
  simp only [not_or, not_lt] at q1
  split at h
  · simp at h
  rename_i q2
  simp only [Res.ok.injEq] at h
  have other : ∀ (s : EP K) (f : Eigs.PF) (x : Nat) (y : Member Eigs.IF Eigs.DF Eigs.PF), y ≠ .p f →
      reads (put s (.p f) (.ptr x)) y = reads s y := fun s f x y hy => reads_put_other _ hy _
  have self : ∀ (s : EP K) (f : Eigs.PF) (x : Nat), (put s (.p f) (.ptr x)).p f = x := by
    intro s f x
    have := reads_put_self (ct := Eigs.ctype) (m := .p f) (v := .ptr x) trivial s
    simpa only [reads, Val.ptr.injEq] using this
  have po : ∀ {f f' : Eigs.PF}, f' ≠ f → ∀ (s : EP K) (x : Nat), (put s (.p f) (.ptr x)).p f' = s.p f' :=
    fun hf s x => p_put_other hf s x
  subst h
  refine ⟨?_, ?_, ?_, ?_, ?_, ?_, rfl, solvers_lookup hl, rfl, rfl, q1.1, q1.2.1, q1.2.2, rfl, rfl, rfl, ?_, rfl⟩
  · intro x hx
    simp only [entered, List.mem_cons, List.not_mem_nil, or_false, not_or] at hx
    dsimp only
    split <;> split <;> split <;> split <;> simp only [other _ _ _ _ hx.1, other _ _ _ _ hx.2.1, other _ _ _ _ hx.2.2.1,
      other _ _ _ _ hx.2.2.2.1, other _ _ _ _ hx.2.2.2.2]
  · dsimp only
    split <;> split <;> split <;> split <;> simp only [po (show Eigs.PF.matrixMatvec ≠ .massMatrixMatvec by decide),
      po (show Eigs.PF.matrixMatvec ≠ .applyPreconditioner by decide), po (show Eigs.PF.matrixMatvec ≠ .monitorFun by decide),
      po (show Eigs.PF.matrixMatvec ≠ .convTestFun by decide), self]
  · dsimp only
    split <;> split <;> split <;> split <;> simp only [po (show Eigs.PF.massMatrixMatvec ≠ .matrixMatvec by decide),
      po (show Eigs.PF.massMatrixMatvec ≠ .applyPreconditioner by decide),
      po (show Eigs.PF.massMatrixMatvec ≠ .monitorFun by decide),
      po (show Eigs.PF.massMatrixMatvec ≠ .convTestFun by decide), self]
  · dsimp only
    split <;> split <;> split <;> split <;> simp only [po (show Eigs.PF.applyPreconditioner ≠ .matrixMatvec by decide),
      po (show Eigs.PF.applyPreconditioner ≠ .massMatrixMatvec by decide),
      po (show Eigs.PF.applyPreconditioner ≠ .monitorFun by decide),
      po (show Eigs.PF.applyPreconditioner ≠ .convTestFun by decide), self]
  · dsimp only
    split <;> split <;> split <;> split <;> simp only [po (show Eigs.PF.monitorFun ≠ .matrixMatvec by decide),
      po (show Eigs.PF.monitorFun ≠ .massMatrixMatvec by decide),
      po (show Eigs.PF.monitorFun ≠ .applyPreconditioner by decide),
      po (show Eigs.PF.monitorFun ≠ .convTestFun by decide), self]
  · dsimp only
    split <;> split <;> split <;> split <;> simp only [po (show Eigs.PF.convTestFun ≠ .matrixMatvec by decide),
      po (show Eigs.PF.convTestFun ≠ .massMatrixMatvec by decide),
      po (show Eigs.PF.convTestFun ≠ .applyPreconditioner by decide),
      po (show Eigs.PF.convTestFun ≠ .monitorFun by decide), self]
  · intro hp
    rw [not_and] at q2
    have q3 := q2 hp
    simp only [not_or, ne_eq, not_not, not_and, Bool.not_eq_true] at q3
    refine ⟨q3.1, q3.2.1, fun hi => ?_⟩
    cases hcx : cx with
    | true => rfl
    | false => have := q3.2.2 hcx; rw [hi] at this; simp at this

section seen
variable {h : Nat} {a : EigsArgs K V} {o b : Fields (MVal K)} {n : Nat} {start s : EP K}

/-- What depends on one name alone, after the settings. -/
theorem seen {D : MAddrs} {s : ES K} (made : Made h a o b n)
    (hs : setAllM (eigsKind D.heap D.device D.text) (settings o) ⟨start, []⟩ = .ok s) {β : Type} (obs : ES K → β)
    {nm : String} (keep : ∀ s t nm' v, nm' ≠ nm → setMemberM (eigsKind D.heap D.device D.text) s nm' v = .ok t →
      obs t = obs s) (hc : nm ≠ "correction") (hp : nm ≠ "correction_precondition" ∨ hasPrec a = false) :
    (∀ v, o.get nm = some v → ∃ u w, setMemberM (eigsKind D.heap D.device D.text) u nm v = .ok w ∧ obs s = obs w) ∧
    (o.get nm = none → obs s = obs ⟨start, []⟩) := by
  obtain ⟨l1, l2⟩ := setAllM_last obs keep hs
  have split : ∀ w, (nm, w) ∈ settings o → o.get nm = some w := by
    intro w hw
    rcases (mem_settings o nm w).1 hw with ⟨hw, -⟩ | ⟨k, l, e, hk, he, hnm, -⟩
    · exact get_of_mem made.nodup hw
    · obtain ⟨rfl, rfl, h3⟩ := made.structs k l hk
      simp only [List.mem_singleton] at he
      subst he
      rcases hp with hp | hp
      · exact absurd hnm (by rw [show "correction" ++ "_" ++ "precondition" = "correction_precondition" by decide]; exact hp)
      · rw [hp] at h3; simp at h3
  constructor
  · intro v hv
    have hplain : plain v := by
      cases v with
      | struct l => exact absurd (made.structs nm l (mem_of_get hv)).1 hc
      | _ => trivial
    refine l1 v ((mem_settings o nm v).2 (.inl ⟨mem_of_get hv, hplain⟩)) ?_
    intro w hw
    have := split w hw
    rw [hv] at this
    simpa using this.symm
  · intro hv
    refine l2 ?_
    intro hmem
    obtain ⟨⟨nm', w⟩, hw, rfl⟩ := List.mem_map.1 hmem
    have := split w hw
    rw [hv] at this
    simp at this

/-- A member that only its name writes. -/
theorem seen_member {D : MAddrs} {s : ES K} (made : Made h a o b n)
    (hs : setAllM (eigsKind D.heap D.device D.text) (settings o) ⟨start, []⟩ = .ok s) {nm : String}
    {m : Member Eigs.IF Eigs.DF Eigs.PF} (hm : (nm, m) ∈ Py.Doc.eigsMembers)
    (hc : m ∉ aliased (eigsKind D.heap D.device D.text)) (hp : nm ≠ "correction_precondition" ∨ hasPrec a = false) :
    (∀ v, o.get nm = some v → ∃ u w, setMemberM (eigsKind D.heap D.device D.text) u nm v = .ok w ∧
      reads s.params m = reads w.params m) ∧
    (o.get nm = none → reads s.params m = reads start m) := by
  have hne : nm ≠ "correction" := by
    have : ∀ e ∈ Py.Doc.eigsMembers, e.1 ≠ "correction" := by decide +kernel
    exact this _ hm
  refine seen made hs (fun s => reads s.params m) ?_ hne hp
  intro s t nm' v hn ht
  exact setMemberM_keeps (eigs_kind _ _ _) hm hn hc ht

/-- The shifts. -/
theorem seen_shifts {D : MAddrs} {s : ES K} (made : Made h a o b n)
    (hs : setAllM (eigsKind D.heap D.device D.text) (settings o) ⟨start, []⟩ = .ok s) :
    (∀ v, o.get "targetShifts" = some v → ∃ w, asShifts v = .ok w ∧ s.shifts = w ∧
      s.params.i .numTargetShifts = (w.length : Int) ∧ s.params.p .targetShifts = D.heap) ∧
    (o.get "targetShifts" = none → s.shifts = [] ∧ s.params.i .numTargetShifts = start.i .numTargetShifts ∧
      s.params.p .targetShifts = start.p .targetShifts) := by
  have keep : ∀ (s t : ES K) nm' v, nm' ≠ "targetShifts" →
      setMemberM (eigsKind D.heap D.device D.text) s nm' v = .ok t →
      (t.shifts, t.params.i .numTargetShifts, t.params.p .targetShifts) =
        (s.shifts, s.params.i .numTargetShifts, s.params.p .targetShifts) := by
    intro s t nm' v hn ht
    have h1 : ∀ e ∈ Eigs.infoNames, e.2 = 19 → e.1 = "targetShifts" := by decide +kernel
    have h2 : ∀ e ∈ Eigs.infoNames, ∀ p ∈ Py.Doc.eigsMembers, p.1 = e.1 → p.2 = .i .numTargetShifts →
        e.2 ∈ [8, 9, 11, 12, 18, 36, 37, 39, 83, 84, 87, (82 : Int)] := by decide +kernel
    obtain ⟨r1, r2, r3⟩ := setMemberM_keeps_shifts (eigs_kind D.heap D.device D.text) (nm' := "targetShifts")
      (fun nm l hl hq => h1 _ hl hq) (fun nm l hl hm => h2 _ hl _ hm rfl rfl) (.inl (by simp [eigsKind, Py.Doc.eigsType]))
      (by simp [eigsKind]) (by simp [eigsKind]) hn ht
    rw [r1]
    exact Prod.ext rfl (Prod.ext r2 r3)
  obtain ⟨l1, l2⟩ := seen made hs (fun s : ES K => (s.shifts, s.params.i .numTargetShifts, s.params.p .targetShifts)) keep
    (by decide) (.inl (by decide))
  constructor
  · intro v hv
    obtain ⟨u, w, hu, hw⟩ := l1 v hv
    simp only [Prod.mk.injEq] at hw
    obtain ⟨l, m, hl, hm, ht⟩ := setMemberM_ok (eigs_kind D.heap D.device D.text) hu
    have hl19 : l = 19 := (eigs_kind D.heap D.device D.text).label _ _ _ hl
      (show ("targetShifts", (19 : Int)) ∈ Eigs.infoNames by decide +kernel)
    rcases ht with ⟨-, h, -⟩ | ⟨-, -, z, h1, h2⟩ | ⟨-, h, -⟩ | ⟨-, h, -⟩ | ⟨-, h, -⟩
    · rw [hl19] at h; simp [eigsKind] at h
    · refine ⟨z, h1, ?_, ?_, ?_⟩
      · rw [hw.1, h2]
      · rw [hw.2.1, h2]
        exact rfl
      · rw [hw.2.2, h2]
        exact rfl
    · exact absurd hl19 h
    · exact absurd hl19 h
    · exact absurd hl19 h
  · intro hv
    have := l2 hv
    simpa only [Prod.mk.injEq] using this

/-- The functions of the user and the member with their handle. -/
def handleNames : List (String × Int × Eigs.PF) :=
  [("matrixMatvec", 2, .matrix), ("applyPreconditioner", 4, .preconditioner), ("massMatrixMatvec", 6, .massMatrix),
   ("convTestFun", 80, .convtest), ("monitorFun", 85, .monitor)]

/-- The handles. -/
theorem seen_handle {D : MAddrs} {s : ES K} (made : Made h a o b n)
    (hs : setAllM (eigsKind D.heap D.device D.text) (settings o) ⟨start, []⟩ = .ok s) {nm : String} {l : Int} {f : Eigs.PF}
    (hh : (nm, l, f) ∈ handleNames) :
    (∀ v, o.get nm = some v → ∃ x, v = .fn x ∧ s.params.p f = x) ∧
    (o.get nm = none → s.params.p f = start.p f) := by
  have tab : ∀ e ∈ handleNames, (e.1, e.2.1) ∈ Eigs.infoNames ∧ Py.Doc.eigsType (.p e.2.2) = (.pointer, 1) ∧
      e.2.2 ≠ .commInfo ∧ e.2.2 ≠ .targetShifts ∧ e.1 ≠ "correction" ∧ e.1 ≠ "correction_precondition" ∧
      e.2.1 ≠ 28 ∧ e.2.1 ≠ 19 ∧ (eigsKind 0 0 0).handles.lookup e.2.1 = some e.2.2 := by decide +kernel
  obtain ⟨t1, t2, t3, t4, t5, t6, t7, t8, t9⟩ := tab _ hh
  simp only at t1 t2 t3 t4 t5 t6 t7 t8 t9
  have uniq : ∀ e ∈ handleNames, ∀ p ∈ Eigs.infoNames, ∀ q ∈ (eigsKind 0 0 0).handles, q.1 = p.2 → q.2 = e.2.2 →
      p.1 = e.1 := by decide +kernel
  have keep : ∀ (s t : ES K) nm' v, nm' ≠ nm → setMemberM (eigsKind D.heap D.device D.text) s nm' v = .ok t →
      t.params.p f = s.params.p f := by
    intro s t nm' v hn ht
    refine setMemberM_keeps_handle (eigs_kind D.heap D.device D.text) (nm' := nm) ?_ (by rw [t2]) (Ne.symm t3)
      (Ne.symm t4) hn ht
    intro nm2 l2 h1 h2
    exact uniq _ hh _ h1 _ h2 rfl rfl
  obtain ⟨l1, l2⟩ := seen made hs (fun s : ES K => s.params.p f) keep t5 (.inl t6)
  constructor
  · intro v hv
    obtain ⟨u, w, hu, hw⟩ := l1 v hv
    obtain ⟨l', m, hl, hm, ht⟩ := setMemberM_ok (eigs_kind D.heap D.device D.text) hu
    have hle : l' = l := (eigs_kind D.heap D.device D.text).label _ _ _ hl t1
    subst hle
    have hlook : (eigsKind D.heap D.device D.text).handles.lookup l' = some f := t9
    rcases ht with ⟨-, h, -⟩ | ⟨-, h, -⟩ | ⟨-, -, f', x, hf, hv', ht⟩ | ⟨-, -, h, -⟩ | ⟨-, -, h, -⟩
    · exact absurd h t7
    · exact absurd h t8
    · rw [hlook] at hf
      simp only [Option.some.injEq] at hf
      subst hf
      refine ⟨x, hv', ?_⟩
      rw [hw, ht]
      have := reads_put_self (ct := Eigs.ctype) (m := .p f) (v := .ptr x) trivial u.params
      simpa only [reads, Val.ptr.injEq] using this
    · rw [hlook] at h; simp at h
    · rw [hlook] at h; simp at h
  · exact l2

/-- With a preconditioner, its use is asked for, unless the user says something about it. -/
theorem seen_prec {D : MAddrs} {s : ES K} (made : Made h a o b n)
    (hs : setAllM (eigsKind D.heap D.device D.text) (settings o) ⟨start, []⟩ = .ok s) (hp : hasPrec a = true)
    (hn : o.get "correction_precondition" = none) : s.params.i .correctionParams_precondition = 1 := by
  have hm : ("correction_precondition", .i .correctionParams_precondition) ∈ Py.Doc.eigsMembers := by decide +kernel
  have hc : (.i .correctionParams_precondition : Member Eigs.IF Eigs.DF Eigs.PF) ∉
      aliased (eigsKind D.heap D.device D.text) := by simp [aliased, eigsKind]
  have name : "correction" ++ "_" ++ "precondition" = "correction_precondition" := by decide
  obtain ⟨l1, -⟩ := setAllM_last (fun s : ES K => reads s.params (.i .correctionParams_precondition))
    (nm := "correction_precondition") (fun s t nm' v hn ht => setMemberM_keeps (eigs_kind _ _ _) hm hn hc ht) hs
  obtain ⟨u, w, hu, hw⟩ := l1 (.one 1) ((mem_settings _ _ _).2 (.inr ⟨"correction", _, ("precondition", 1),
    mem_of_get (made.prec hp).1, by simp, name.symm, rfl⟩)) (by
      intro w hw
      rcases (mem_settings _ _ _).1 hw with ⟨hw, -⟩ | ⟨k, l, e, hk, he, -, rfl⟩
      · rw [get_of_mem made.nodup hw] at hn; simp at hn
      · obtain ⟨-, rfl, -⟩ := made.structs k l hk
        simp only [List.mem_singleton] at he
        rw [he])
  have hone : (MVal.one 1 : MVal K) = .num 1 1 [((1 : Int) : K)] := by simp [MVal.one]
  have := setMemberM_means (eigs_kind _ _ _) hm hu (y := .int 1)
    (by rw [hone]; exact Doc.Means.whole _ 1) ⟨by norm_num, by norm_num⟩
  rw [← hw] at this
  simpa only [reads, Val.int.injEq] using this

end seen

/-- The steps of a call. -/
theorem call_holds {D : MAddrs} {zero : V} {start : EP K} {a : EigsArgs K V} {c : MCall K V}
    (h : prepareM D zero start a = .ok c) (ha : Doc.Ordinary a) :
    ∃ o b n s u, Made D.objPrec a o b n ∧
      setAllM (eigsKind D.heap D.device D.text) (settings o) ⟨start, []⟩ = .ok s ∧
      enter D zero a (sortsResult o) u = .ok c ∧ u.shifts = s.shifts ∧
      (∃ v, asInt Eigs.constTable (methodArg a.method) = .ok v ∧ Eigs.Doc.Published v ∧
        ∀ x, x ≠ .p .monitor → reads u.params x = reads (setMethod v s.params).2 x) ∧
      (∀ x, x ≠ .p .monitor → OutOfMethod x → reads u.params x = reads s.params x) ∧
      u.params.p .monitor = (if a.opts.report then D.objMonitor else s.params.p .monitor) := by
  obtain ⟨o, s, t, u, h1, h2, h3, h4, h5⟩ := prepareM_ok h
  obtain ⟨b, n, made⟩ := options_made ha h1
  obtain ⟨m1, ⟨v, m2, m3, m4⟩, m5⟩ := setMethodM_ok h3
  obtain ⟨a1, a2, a3⟩ := addMonitor_ok h4
  refine ⟨o, b, n, s, u, made, h2, h5, by rw [a1, m1], ⟨v, m2, m3, ?_⟩, ?_, ?_⟩
  · intro x hx
    rw [a2 x hx, m4]
  · intro x hx ho
    rw [a2 x hx, m5 x ho]
  · have := m5 (.p .monitor) trivial
    simp only [reads, Val.ptr.injEq] at this
    rw [a3, this]

theorem rest_none {a : EigsArgs K V} {nm : String} (h : nm ∉ a.opts.rest.map Prod.fst) : a.opts.rest.get nm = none :=
  get_none.2 h

theorem given_none {a : EigsArgs K V} {nm : String} (h : nm ∉ a.opts.rest.map Prod.fst)
    (h' : ∀ c ∈ renames, c.2 = nm → c.1 ∉ a.opts.rest.map Prod.fst) : given a nm = none := by
  unfold given renamed
  split
  · rfl
  · split
    · rename_i c hc
      have h1 := List.mem_of_find?_eq_some hc
      have h2 : c.2 = nm := by simpa using List.find?_some hc
      rw [rest_none (h' c h1 h2), rest_none h]; rfl
    · exact rest_none h

end Verif.Mat
