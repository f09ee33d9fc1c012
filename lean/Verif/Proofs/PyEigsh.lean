import Verif.Model.PyEigsh
import Verif.Proofs.PyBase
import Verif.Proofs.EigsParams
import Verif.Spec.Python
import Verif.Props.C06_SetMethod

set_option linter.unusedSectionVars false

/-!
# The statements of `eigsh`: what each parameter holds afterwards
-/

namespace Verif.Py
open Verif.Members Verif.Eigs

variable {K V : Type} [Field K]

theorem eigs_good : Good eigsTables Eigs.ctype Doc.eigsType Doc.eigsMembers where
  distinct := by decide +kernel
  labels := by decide +kernel
  named := by
    have : ∀ e ∈ Eigs.infoNames, ∃ p ∈ Doc.eigsMembers, p.1 = e.1 ∧
      select Eigs.infoTypes e.2 = some (Doc.eigsType p.2) ∧
      (select Eigs.setTable e.2 = some (setEntryFor Eigs.ctype p.2) ∨ select Eigs.setTable e.2 = none ∨
        select Eigs.setTable e.2 = some .reject) := by decide +kernel
    intro e he
    obtain ⟨⟨nm, m⟩, hp, rfl, h⟩ := this e he
    exact ⟨m, hp, h⟩
  names := by decide +kernel
  members := by decide +kernel
  access := by
    rintro ⟨nm, m⟩ -
    cases m with
    | i f => rfl
    | d f => rfl
    | p f => cases f <;> simp [Doc.eigsType]
    | seed => trivial
    | sub k => trivial

/-- The statement writes no other parameter than those of `L`. -/
def Writes {S : Type} (L : List String) : Step K S → Prop
  | .need _ _ => True
  | .set f _ => f ∈ L
  | .extra f _ => f ∈ L
  | .raw f _ => f ∈ L
  | .act _ => False

theorem eigs_set (E : Env K) (s : EP K) (f : String) (v : PVal K) :
    (eigsSetters E).set s f v = paramsSet eigsTables E s f v := by simp only [eigsSetters]

theorem eigs_raw (E : Env K) (s : EP K) (f : String) (a : Nat) :
    (eigsSetters E).raw s f a = paramsRaw eigsTables s f a := by simp only [eigsSetters]

theorem keeps_eigs {E : Env K} {L : List String} {nm : String} {m : Member Eigs.IF Eigs.DF Eigs.PF}
    (hm : (nm, m) ∈ Doc.eigsMembers) (hn : nm ∉ L) {x : Step K (EP K)} (hx : Writes L x) :
    Keeps (eigsSetters E) (fun s => reads s m) x := by
  cases x with
  | need b e => exact keeps_need _ b e
  | set f v =>
    intro s t h
    have hf : f ≠ nm := by rintro rfl; exact hn hx
    have h' : paramsSet eigsTables E s f v = .ok t := by rw [← eigs_set]; simpa only [Step.exec] using h
    exact paramsSet_keeps eigs_good hm hf h'
  | extra f v =>
    intro s t h
    have hf : f ≠ nm := by rintro rfl; exact hn hx
    have h' : paramsSet eigsTables E s f v = .ok t := by rw [← eigs_set]; exact extra_ok h
    exact paramsSet_keeps eigs_good hm hf h'
  | raw f a =>
    intro s t h
    have hf : f ≠ nm := by rintro rfl; exact hn hx
    have h' : paramsRaw eigsTables s f a = .ok t := by rw [← eigs_raw (E := E)]; simpa only [Step.exec] using h
    exact paramsRaw_keeps eigs_good hm hf h'
  | act g => exact absurd hx (by simp [Writes])

/-- The parameters each group may write. -/
def groupNames (a : EigshArgs K V) : List (List String) :=
  [["matrix"], ["n"], ["massMatrix"], ["numEvals"], ["target"], ["numTargetShifts", "targetShifts"], ["eps"],
   ["maxBasisSize"], ["maxMatvecs"], ["correction_precondition", "preconditioner"], ["numOrthoConst"], ["convtest"],
   a.kargs.map Prod.fst, ["monitor"],
   ["matrixMatvec", "massMatrixMatvec", "applyPreconditioner", "convTestFun", "monitorFun"], ["initSize"],
   ["maxBlockSize"], ["minRestartSize"], ["restarting_maxPrevRetain"]]

theorem groups_write (B : Addrs) (a : EigshArgs K V) :
    List.Forall₂ (fun L seg => ∀ x ∈ seg, Writes L x) (groupNames a) (eigshGroups B a) := by
  unfold groupNames eigshGroups
  repeat' apply List.Forall₂.cons
  all_goals try exact List.Forall₂.nil
  · simp [Writes]
  · simp [Writes]
  · cases a.M <;> simp [Writes]
  · simp [Writes]
  · unfold whichSteps; repeat' split
    all_goals simp [Writes]
  · unfold shiftSteps; split <;> simp [Writes]
  · simp [Writes]
  · cases a.ncv <;> simp [Writes]
  · cases a.maxiter <;> simp [Writes]
  · cases a.OPinv <;> simp [Writes]
  · cases a.lock <;> simp [Writes]
  · cases a.convtest <;> simp [Writes]
  · intro x hx
    obtain ⟨e, he, rfl⟩ := List.mem_map.1 hx
    exact List.mem_map.2 ⟨e, he, rfl⟩
  · split <;> simp [Writes]
  · unfold callbackSteps; repeat' split
    all_goals simp [Writes]
  · cases a.v0 <;> simp [Writes]
  · split <;> simp [Writes]
  · split <;> simp [Writes]
  · split <;> simp [Writes]

theorem flat_keeps {E : Env K} {Ls : List (List String)} {segs : List (List (Step K (EP K)))}
    (h : List.Forall₂ (fun L seg => ∀ x ∈ seg, Writes L x) Ls segs) {s t : EP K}
    (hr : run (eigsSetters E) segs.flatten s = .ok t) {nm : String} {m : Member Eigs.IF Eigs.DF Eigs.PF}
    (hm : (nm, m) ∈ Doc.eigsMembers) (hn : ∀ L ∈ Ls, nm ∉ L) : reads t m = reads s m := by
  induction h generalizing s with
  | nil => simp [run] at hr; rw [hr]
  | cons hx hrest ih =>
    rw [List.flatten_cons] at hr
    obtain ⟨u, h1, h2⟩ := run_append_ok hr
    rw [ih h2 (fun L hL => hn L (by simp [hL]))]
    exact run_keeps (g := fun s => reads s m) (fun x hx' => keeps_eigs hm (hn _ (by simp)) (hx x hx')) h1

theorem forall₂_drop {α β : Type} {R : α → β → Prop} {l : List α} {r : List β} (h : List.Forall₂ R l r) (i : Nat) :
    List.Forall₂ R (l.drop i) (r.drop i) := by
  induction i generalizing l r with
  | zero => exact h
  | succ i ih =>
    cases h with
    | nil => simp
    | cons _ h => exact ih h

/-- Group `i` was executed, and a parameter that no later group may write keeps its value from there on. -/
theorem groups_at {E : Env K} {B : Addrs} {a : EigshArgs K V} {s t : EP K}
    (h : run (eigsSetters E) (eigshGroups B a).flatten s = .ok t) (i : Nat) (seg : List (Step K (EP K)))
    (hi : (eigshGroups B a)[i]? = some seg) :
    ∃ u v, run (eigsSetters E) seg u = .ok v ∧ ∀ nm m, (nm, m) ∈ Doc.eigsMembers →
      (∀ L ∈ (groupNames a).drop (i + 1), nm ∉ L) → reads t m = reads v m := by
  have hs : eigshGroups B a = (eigshGroups B a).take i ++ seg :: (eigshGroups B a).drop (i + 1) := by
    rw [List.getElem?_eq_some_iff] at hi
    obtain ⟨hl, rfl⟩ := hi
    rw [List.getElem_cons_drop, List.take_append_drop]
  rw [hs, List.flatten_append, List.flatten_cons] at h
  obtain ⟨u, -, h2⟩ := run_append_ok h
  obtain ⟨v, h3, h4⟩ := run_append_ok h2
  exact ⟨u, v, h3, fun nm m hm hn => flat_keeps (forall₂_drop (groups_write B a) (i + 1)) h4 hm hn⟩


/-! ## The preset method -/

theorem method_frame [LinearOrder K] {E : Env K} {m : Option String} {u v : EP K}
    (h : run (eigsSetters E) (methodSteps m) u = .ok v) :
    (∀ f, f ∉ Eigs.Doc.methodParameters → v.i f = u.i f) ∧ (∀ f, f ≠ .correctionParams_relTolBase → v.d f = u.d f) ∧
    v.p = u.p ∧ v.seed = u.seed ∧ v.addr = u.addr ∧ (m = none → v = u) := by
  unfold methodSteps at h
  split at h
  · simp [run] at h; subst h; exact ⟨fun _ _ => rfl, fun _ _ => rfl, rfl, rfl, rfl, fun _ => rfl⟩
  · split at h
    · obtain ⟨w, h1, h2⟩ := run_cons_ok h
      obtain ⟨-, rfl⟩ := need_ok h1
      obtain ⟨w', h3, h4⟩ := run_cons_ok h2
      simp [run] at h4
      subst h4
      simp only [Step.exec, Res.ok.injEq] at h3
      unfold presetAct at h3
      split at h3
      · rename_i rc t hc
        subst h3
        obtain ⟨a, b, c, d, e⟩ := Verif.Props.C06_problem_untouched hc
        exact ⟨a, b, c, d, e, fun h => by simp at h⟩
      · subst h3; exact ⟨fun _ _ => rfl, fun _ _ => rfl, rfl, rfl, rfl, fun _ => rfl⟩
    · obtain ⟨w, h1, h2⟩ := run_cons_ok h
      obtain ⟨h1, -⟩ := need_ok h1
      simp at h1

/-- The three stages of `prepare`. -/
theorem prepare_ok [LinearOrder K] {E : Env K} {B : Addrs} {zero : V} {s : EP K} {a : EigshArgs K V} {c : Call K V}
    (h : prepare E B zero s a = .ok c) :
    ∃ t u, run (eigsSetters E) (eigshGroups B a).flatten s = .ok t ∧ run (eigsSetters E) (methodSteps a.method) t = .ok u ∧
      workType a.dtype ≠ .other ∧ c = ⟨if workType a.dtype = .complex64 ∨ workType a.dtype = .float32 then 2 else 3,
        workType a.dtype, u, shift a, a.k.toNat, a.A.rows, orthoCount a + a.k.toNat, firstVecs zero a⟩ := by
  unfold prepare at h
  obtain ⟨u, h1, h2⟩ := bind_ok h
  unfold eigshSteps at h1
  obtain ⟨u', h3, h4⟩ := run_append_ok h1
  obtain ⟨t, h5, h6⟩ := run_append_ok h3
  obtain ⟨w, h7, h8⟩ := run_cons_ok h4
  obtain ⟨h9, rfl⟩ := need_ok h7
  simp [run] at h8
  subst h8
  simp at h2
  exact ⟨t, _, h5, h6, by simpa using h9, h2.symm⟩

/-! ## Single statements -/

theorem set_int_ok {E : Env K} {s t : EP K} {nm : String} {f : Eigs.IF} {v : Int}
    (hm : (nm, .i f) ∈ Doc.eigsMembers) (h : paramsSet eigsTables E s nm (.int v) = .ok t) :
    (-2 ^ 63 ≤ v ∧ v < 2 ^ 63) ∧ (Eigs.ctype f = .cint → v < 2 ^ 31) := by
  unfold paramsSet at h
  rcases info_cases eigs_good nm with ⟨l, m, -, hm', hs, hi⟩ | ⟨-, hi⟩
  · obtain rfl := member_unique eigs_good hm hm'
    rw [hi] at h
    simp only [Doc.eigsType, ne_eq, not_true, if_false] at h
    obtain ⟨x, h1, h2⟩ := bind_ok h
    unfold toInt at h1
    simp only at h1
    split at h1
    · rename_i hr
      simp at h1
      subst h1
      refine ⟨hr, fun hc => ?_⟩
      by_contra hge
      rcases hs with he | he | he
      · unfold store setMember at h2
        rw [he] at h2
        simp only [setEntryFor, hc] at h2
        rw [if_pos (by unfold INT_MAX; omega)] at h2
        simp at h2
      · unfold store setMember at h2; rw [he] at h2; simp at h2
      · unfold store setMember at h2; rw [he] at h2; simp at h2
    · simp at h1
  · rw [hi] at h; simp at h

/-- An integer given to an integer parameter, when the statement succeeds. -/
theorem set_int {E : Env K} {s t : EP K} {nm : String} {f : Eigs.IF} {v : Int}
    (hm : (nm, .i f) ∈ Doc.eigsMembers) (hc : Eigs.ctype f ≠ .cenum) (hv : -2 ^ 31 ≤ v)
    (h : paramsSet eigsTables E s nm (.int v) = .ok t) : t.i f = v := by
  obtain ⟨h1, h2⟩ := set_int_ok hm h
  have hf : fits Eigs.ctype (.i f : Member Eigs.IF Eigs.DF Eigs.PF) (.int v : Val K) := by
    show (Eigs.ctype f).holds v
    cases hcf : Eigs.ctype f with
    | clong => exact h1
    | cint => exact ⟨hv, h2 hcf⟩
    | cenum => exact absurd hcf hc
  rw [paramsSet_means eigs_good hm h rfl hf]
  simp [put]

theorem set_obj {E : Env K} {s t : EP K} {nm : String} {f : Eigs.PF} {a : Nat}
    (hm : (nm, .p f) ∈ Doc.eigsMembers) (h : paramsSet eigsTables E s nm (.obj a) = .ok t) : t.p f = a := by
  rw [paramsSet_means eigs_good hm h (x := .ptr a) rfl trivial]
  simp [put]

theorem set_flt {E : Env K} {s t : EP K} {nm : String} {f : Eigs.DF} {x : K}
    (hm : (nm, .d f) ∈ Doc.eigsMembers) (h : paramsSet eigsTables E s nm (.flt x) = .ok t) : t.d f = x := by
  rw [paramsSet_means eigs_good hm h (x := .dbl x) rfl trivial]
  simp [put]

theorem set_target {E : Env K} {s t : EP K} {c : String} {v : Int} (hc : constantInfo Eigs.constTable c = .ok v)
    (hv : 0 ≤ v ∧ v < 2 ^ 32) (h : paramsSet eigsTables E s "target" (.str c) = .ok t) : t.i .target = v := by
  have hm : ("target", (.i .target : Member Eigs.IF Eigs.DF Eigs.PF)) ∈ Doc.eigsMembers := by decide +kernel
  have hx : meant E eigsTables.consts (.i .target : Member Eigs.IF Eigs.DF Eigs.PF) (.str c) = some (.int v) := by
    unfold meant; simp only [eigsTables, hc]
  rw [paramsSet_means eigs_good hm h hx hv]
  simp [put]

theorem raw_ptr {s t : EP K} {nm : String} {l : Int} {f : Eigs.PF} {a : Nat} (hl : (nm, l) ∈ Eigs.infoNames)
    (hm : (nm, .p f) ∈ Doc.eigsMembers) (he : select Eigs.setTable l = some (.ptr f))
    (h : paramsRaw eigsTables s nm a = .ok t) : t.p f = a := by
  have := paramsRaw_eq eigs_good s a (T := eigsTables) hl hm he
  rw [h] at this
  simp at this
  rw [this]
  simp [put]

theorem exec_set {E : Env K} {s t : EP K} {f : String} {v : PVal K}
    (h : (Step.set f v : Step K (EP K)).exec (eigsSetters E) s = .ok t) : paramsSet eigsTables E s f v = .ok t := by
  rw [← eigs_set]; simpa only [Step.exec] using h

theorem exec_raw {E : Env K} {s t : EP K} {f : String} {a : Nat}
    (h : (Step.raw f a : Step K (EP K)).exec (eigsSetters E) s = .ok t) : paramsRaw eigsTables s f a = .ok t := by
  rw [← eigs_raw (E := E)]; simpa only [Step.exec] using h

theorem run_one {E : Env K} {x : Step K (EP K)} {s t : EP K} (h : run (eigsSetters E) [x] s = .ok t) :
    x.exec (eigsSetters E) s = .ok t := by
  obtain ⟨u, h1, h2⟩ := run_cons_ok h
  simp [run] at h2
  rw [h1, h2]


/-- The member is not one that a preset method may set. -/
def OutOfMethod : Member Eigs.IF Eigs.DF Eigs.PF → Prop
  | .i f => f ∉ Eigs.Doc.methodParameters
  | .d f => f ≠ .correctionParams_relTolBase
  | _ => True

theorem method_reads [LinearOrder K] {E : Env K} {m : Option String} {u v : EP K}
    (h : run (eigsSetters E) (methodSteps m) u = .ok v) {x : Member Eigs.IF Eigs.DF Eigs.PF}
    (hx : m = none ∨ OutOfMethod x) : reads v x = reads u x := by
  obtain ⟨hi, hd, hp, hs, ha, hn⟩ := method_frame h
  rcases hx with hx | hx
  · rw [hn hx]
  · cases x with
    | i f => simp only [reads]; rw [hi f hx]
    | d f => simp only [reads]; rw [hd f hx]
    | p f => simp only [reads]; rw [hp]
    | seed => simp only [reads]; rw [hs]
    | sub k => simp only [reads]; rw [ha]

/-- Group `i` was executed, and a parameter nothing later writes still has its value when the library is called. -/
theorem call_at [LinearOrder K] {E : Env K} {B : Addrs} {zero : V} {s : EP K} {a : EigshArgs K V} {c : Call K V}
    (h : prepare E B zero s a = .ok c) (i : Nat) (seg : List (Step K (EP K))) (hi : (eigshGroups B a)[i]? = some seg) :
    ∃ u v, run (eigsSetters E) seg u = .ok v ∧ ∀ nm m, (nm, m) ∈ Doc.eigsMembers →
      (∀ L ∈ (groupNames a).drop (i + 1), nm ∉ L) → (a.method = none ∨ OutOfMethod m) →
      reads c.params m = reads v m := by
  obtain ⟨t, w, h1, h2, -, rfl⟩ := prepare_ok h
  obtain ⟨u, v, h3, h4⟩ := groups_at h1 i seg hi
  exact ⟨u, v, h3, fun nm m hm hn ho => (method_reads h2 ho).trans (h4 nm m hm hn)⟩

/-- A parameter that nothing writes has its first value when the library is called. -/
theorem call_keeps [LinearOrder K] {E : Env K} {B : Addrs} {zero : V} {s : EP K} {a : EigshArgs K V} {c : Call K V}
    (h : prepare E B zero s a = .ok c) {nm : String} {m : Member Eigs.IF Eigs.DF Eigs.PF}
    (hm : (nm, m) ∈ Doc.eigsMembers) (hn : ∀ L ∈ groupNames a, nm ∉ L) (ho : a.method = none ∨ OutOfMethod m) :
    reads c.params m = reads s m := by
  obtain ⟨t, w, h1, h2, -, rfl⟩ := prepare_ok h
  exact (method_reads h2 ho).trans (flat_keeps (groups_write B a) h1 hm hn)

theorem reads_i {s : EP K} {f : Eigs.IF} {v : Int} (h : reads s (.i f) = .int v) : s.i f = v := by
  simpa [reads] using h

theorem run_zero {E : Env K} {s t : EP K} (h : run (eigsSetters E) [] s = .ok t) : t = s := by
  simpa [run] using h.symm


/-- The names of `groupNames` without the extra keyword arguments. -/
def fixedNames : List (List String) :=
  [["matrix"], ["n"], ["massMatrix"], ["numEvals"], ["target"], ["numTargetShifts", "targetShifts"], ["eps"],
   ["maxBasisSize"], ["maxMatvecs"], ["correction_precondition", "preconditioner"], ["numOrthoConst"], ["convtest"],
   [], ["monitor"],
   ["matrixMatvec", "massMatrixMatvec", "applyPreconditioner", "convTestFun", "monitorFun"], ["initSize"],
   ["maxBlockSize"], ["minRestartSize"], ["restarting_maxPrevRetain"]]

theorem later_names {a : EigshArgs K V} {nm : String} (hk : nm ∉ a.kargs.map Prod.fst) {j : Nat}
    (hf : ∀ L ∈ fixedNames.drop j, nm ∉ L) : ∀ L ∈ (groupNames a).drop j, nm ∉ L := by
  intro L hL
  have e : groupNames a = fixedNames.set 12 (a.kargs.map Prod.fst) := rfl
  rw [e, List.drop_set] at hL
  split at hL
  · exact hf L hL
  · rcases List.mem_or_eq_of_mem_set hL with h | rfl
    · exact hf L h
    · exact hk

theorem last_names {a : EigshArgs K V} {nm : String} {j : Nat} (hj : 12 < j)
    (hf : ∀ L ∈ fixedNames.drop j, nm ∉ L) : ∀ L ∈ (groupNames a).drop j, nm ∉ L := by
  intro L hL
  have e : groupNames a = fixedNames.set 12 (a.kargs.map Prod.fst) := rfl
  rw [e, List.drop_set, if_pos hj] at hL
  exact hf L hL


theorem forall₂_set {α β : Type} {R : α → β → Prop} {l : List α} {r : List β} (h : List.Forall₂ R l r) (i : Nat)
    (x : α) {y : β} (hy : r[i]? = some y) (hx : R x y) : List.Forall₂ R (l.set i x) r := by
  induction i generalizing l r with
  | zero => cases h with
    | nil => simp at hy
    | cons h1 h2 => simp at hy; subst hy; exact .cons hx h2
  | succ i ih => cases h with
    | nil => simp at hy
    | cons h1 h2 => exact .cons h1 (ih h2 (by simpa using hy))

/-- A parameter that group `i` does not write (it writes at most `L`), nor any other group, has its first value when the
library is called. -/
theorem call_unset' [LinearOrder K] {E : Env K} {B : Addrs} {zero : V} {s : EP K} {a : EigshArgs K V} {c : Call K V}
    (h : prepare E B zero s a = .ok c) (i : Nat) (L : List String) {seg : List (Step K (EP K))}
    (hi : (eigshGroups B a)[i]? = some seg) (hseg : ∀ x ∈ seg, Writes L x) {nm : String}
    {m : Member Eigs.IF Eigs.DF Eigs.PF} (hm : (nm, m) ∈ Doc.eigsMembers) (hk : nm ∉ a.kargs.map Prod.fst)
    (hn : ∀ L' ∈ fixedNames.set i L, nm ∉ L') (ho : a.method = none ∨ OutOfMethod m) :
    reads c.params m = reads s m := by
  obtain ⟨t, w, h1, h2, -, rfl⟩ := prepare_ok h
  refine (method_reads h2 ho).trans (flat_keeps (forall₂_set (groups_write B a) i L hi hseg) h1 hm ?_)
  intro L' hL
  have e : groupNames a = fixedNames.set 12 (a.kargs.map Prod.fst) := rfl
  rw [e] at hL
  by_cases h12 : i = 12
  · subst h12
    rw [List.set_set] at hL
    exact hn L' hL
  · rw [List.set_comm _ _ (by omega)] at hL
    rcases List.mem_or_eq_of_mem_set hL with h | rfl
    · exact hn L' h
    · exact hk

/-- A parameter written only by group `i`, which is empty, has its first value when the library is called. -/
theorem call_unset [LinearOrder K] {E : Env K} {B : Addrs} {zero : V} {s : EP K} {a : EigshArgs K V} {c : Call K V}
    (h : prepare E B zero s a = .ok c) (i : Nat) (hi : (eigshGroups B a)[i]? = some []) {nm : String}
    {m : Member Eigs.IF Eigs.DF Eigs.PF} (hm : (nm, m) ∈ Doc.eigsMembers) (hk : nm ∉ a.kargs.map Prod.fst)
    (hn : ∀ L ∈ fixedNames.set i [], nm ∉ L) (ho : a.method = none ∨ OutOfMethod m) :
    reads c.params m = reads s m :=
  call_unset' h i [] hi (by simp) hm hk hn ho

/-! ## Statements that succeed -/

theorem exec_set_no_ub (E : Env K) (s : EP K) (f : String) (v : PVal K) :
    (Step.set f v : Step K (EP K)).exec (eigsSetters E) s ≠ .ub := by
  simp only [Step.exec, eigs_set]
  exact paramsSet_no_ub eigs_good E s f v (fun _ => by simp [Doc.eigsType])

theorem exec_extra_no_ub (E : Env K) (s : EP K) (f : String) (v : PVal K) :
    (Step.extra f v : Step K (EP K)).exec (eigsSetters E) s ≠ .ub := by
  simp only [Step.exec, eigs_set]
  have := paramsSet_no_ub eigs_good E s f v (fun _ => by simp [Doc.eigsType])
  cases h : paramsSet eigsTables E s f v with
  | ok t => simp
  | raise e => simp
  | ub => exact absurd h this

theorem exec_need_no_ub (E : Env K) (s : EP K) (b : Bool) (e : Exc) :
    (Step.need b e : Step K (EP K)).exec (eigsSetters E) s ≠ .ub := by
  simp only [Step.exec]
  split <;> simp

/-- The names that are given addresses without further tests. -/
def rawNames : List String :=
  ["targetShifts", "matrixMatvec", "massMatrixMatvec", "applyPreconditioner", "convTestFun", "monitorFun"]

theorem exec_raw_ok (E : Env K) (s : EP K) {f : String} (hf : f ∈ rawNames) (a : Nat) :
    ∃ t, (Step.raw f a : Step K (EP K)).exec (eigsSetters E) s = .ok t := by
  simp only [Step.exec, eigs_raw]
  have : ∀ f ∈ rawNames, ∃ p : Eigs.PF × Int, (f, p.2) ∈ Eigs.infoNames ∧ (f, .p p.1) ∈ Doc.eigsMembers ∧
      select Eigs.setTable p.2 = some (.ptr p.1) := by
    intro f hf
    simp only [rawNames, List.mem_cons, List.not_mem_nil, or_false] at hf
    rcases hf with rfl | rfl | rfl | rfl | rfl | rfl
    · exact ⟨(.targetShifts, 19), by decide +kernel⟩
    · exact ⟨(.matrixMatvec, 2), by decide +kernel⟩
    · exact ⟨(.massMatrixMatvec, 6), by decide +kernel⟩
    · exact ⟨(.applyPreconditioner, 4), by decide +kernel⟩
    · exact ⟨(.convTestFun, 80), by decide +kernel⟩
    · exact ⟨(.monitorFun, 85), by decide +kernel⟩
  obtain ⟨⟨p, l⟩, h1, h2, h3⟩ := this f hf
  exact ⟨_, paramsRaw_eq eigs_good s a (T := eigsTables) h1 h2 h3⟩


/-- Statements other than raw stores under unknown names. -/
def Safe {S : Type} : Step K S → Prop
  | .raw f _ => f ∈ rawNames
  | _ => True

theorem method_safe [LinearOrder K] (m : Option String) : ∀ x ∈ methodSteps (K := K) m, Safe x := by
  unfold methodSteps
  repeat' split
  all_goals simp [Safe]

theorem groups_safe (B : Addrs) (a : EigshArgs K V) : ∀ seg ∈ eigshGroups B a, ∀ x ∈ seg, Safe x := by
  unfold eigshGroups
  simp only [List.forall_mem_cons]
  refine ⟨?_, ?_, ?_, ?_, ?_, ?_, ?_, ?_, ?_, ?_, ?_, ?_, ?_, ?_, ?_, ?_, ?_, ?_, ?_, by simp⟩
  · simp [Safe]
  · simp [Safe]
  · cases a.M <;> simp [Safe]
  · simp [Safe]
  · unfold whichSteps; repeat' split
    all_goals simp [Safe]
  · unfold shiftSteps; split <;> simp [Safe, rawNames]
  · simp [Safe]
  · cases a.ncv <;> simp [Safe]
  · cases a.maxiter <;> simp [Safe]
  · cases a.OPinv <;> simp [Safe]
  · cases a.lock <;> simp [Safe]
  · cases a.convtest <;> simp [Safe]
  · intro x hx
    obtain ⟨e, he, rfl⟩ := List.mem_map.1 hx
    trivial
  · split <;> simp [Safe]
  · unfold callbackSteps; repeat' split
    all_goals simp [Safe, rawNames]
  · cases a.v0 <;> simp [Safe]
  · split <;> simp [Safe]
  · split <;> simp [Safe]
  · split <;> simp [Safe]

theorem steps_no_ub [LinearOrder K] (E : Env K) (B : Addrs) (a : EigshArgs K V) :
    ∀ x ∈ eigshSteps B a, ∀ s, x.exec (eigsSetters E) s ≠ .ub := by
  have key : ∀ x ∈ eigshSteps B a, Safe x := by
    intro x hx
    unfold eigshSteps at hx
    rw [List.mem_append, List.mem_append] at hx
    rcases hx with (hx | hx) | hx
    · obtain ⟨seg, hseg, hx⟩ := List.mem_flatten.1 hx
      exact groups_safe B a seg hseg x hx
    · exact method_safe _ x hx
    · rw [List.mem_singleton] at hx; rw [hx]; trivial
  intro x hx s
  have := key x hx
  cases x with
  | need b e => exact exec_need_no_ub E s b e
  | set f v => exact exec_set_no_ub E s f v
  | extra f v => exact exec_extra_no_ub E s f v
  | raw f b =>
    obtain ⟨t, ht⟩ := exec_raw_ok E s this b
    rw [ht]; simp
  | act g => simp [Step.exec]

/-- The parameters that cannot be set by name. -/
def unsettable : List String :=
  ["targetShifts", "iseed", "ShiftsForPreconditioner", "profile", "stats_numGlobalSum", "stats_numBroadcast"]

/-- A parameter set to a value of its kind and range. -/
theorem eigs_set_total (E : Env K) (s : EP K) {f : String} {m : Member Eigs.IF Eigs.DF Eigs.PF} {v : PVal K} {x : Val K}
    (hm : (f, m) ∈ Doc.eigsMembers) (hf : f ∉ unsettable) (hv : meant E Eigs.constTable m v = some x)
    (hx : fits Eigs.ctype m x) : paramsSet eigsTables E s f v = .ok (put s m x) := by
  have table : ∀ e ∈ Doc.eigsMembers, e.1 ∉ unsettable → (∃ l ∈ Eigs.infoNames, l.1 = e.1 ∧
      select Eigs.setTable l.2 = some (setEntryFor Eigs.ctype e.2)) := by decide +kernel
  have table2 : ∀ e ∈ Doc.eigsMembers, e.1 ∉ unsettable → 
      (match e.2 with | .p _ => true | _ => false) = true → Doc.eigsType e.2 = (.pointer, 1) := by decide +kernel
  obtain ⟨⟨g, l⟩, hl, rfl, he⟩ := table _ hm hf
  exact paramsSet_eq eigs_good E s (T := eigsTables) hl hm he
    (fun p hp => table2 _ hm hf (by simp [hp])) hv hx


theorem raw_eq (E : Env K) (s : EP K) (nm : String) (l : Int) (f : Eigs.PF) (a : Nat) (hl : (nm, l) ∈ Eigs.infoNames)
    (hm : (nm, .p f) ∈ Doc.eigsMembers) (he : select Eigs.setTable l = some (.ptr f)) :
    (Step.raw nm a : Step K (EP K)).exec (eigsSetters E) s = .ok (put s (.p f) (.ptr a)) := by
  simp only [Step.exec, eigs_raw]
  exact paramsRaw_eq eigs_good s a (T := eigsTables) hl hm he

/-- The stored callbacks. -/
theorem callbacks_run {E : Env K} {B : Addrs} {a : EigshArgs K V} {s t : EP K}
    (h : run (eigsSetters E) (callbackSteps B a) s = .ok t) :
    t.p .matrixMatvec = B.fn .matvec (variant a.dtype) ∧ t.p .applyPreconditioner = B.fn .precond (variant a.dtype) ∧
    (a.M.isSome → t.p .massMatrixMatvec = B.fn .massmatvec (variant a.dtype)) ∧
    (a.convtest.isSome → t.p .convTestFun = B.fn .convtest (variant a.dtype)) ∧
    (a.return_history → t.p .monitorFun = B.fn .monitor (realVariant a.dtype)) := by
  have e1 := fun s a => raw_eq E s "matrixMatvec" 2 .matrixMatvec a (by decide +kernel) (by decide +kernel) (by decide +kernel)
  have e2 := fun s a => raw_eq E s "massMatrixMatvec" 6 .massMatrixMatvec a (by decide +kernel) (by decide +kernel) (by decide +kernel)
  have e3 := fun s a => raw_eq E s "applyPreconditioner" 4 .applyPreconditioner a (by decide +kernel) (by decide +kernel) (by decide +kernel)
  have e4 := fun s a => raw_eq E s "convTestFun" 80 .convTestFun a (by decide +kernel) (by decide +kernel) (by decide +kernel)
  have e5 := fun s a => raw_eq E s "monitorFun" 85 .monitorFun a (by decide +kernel) (by decide +kernel) (by decide +kernel)
  unfold callbackSteps at h
  cases hM : a.M.isSome <;> cases hC : a.convtest.isSome <;> cases hH : a.return_history <;>
    simp [hM, hC, hH, run, e1, e2, e3, e4, e5, Res.bind] at h <;> subst h <;> simp [put]

end Verif.Py
