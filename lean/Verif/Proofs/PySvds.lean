import Verif.Model.PySvds
import Verif.Proofs.PyEigsh
import Verif.Proofs.SvdsParams

set_option linter.unusedSectionVars false

/-!
# The statements of `svds`: what each parameter holds afterwards
-/

namespace Verif.Py
open Verif.Members

variable {K V : Type} [Field K]

theorem svds_good : Good svdsTables Svds.ctype Doc.svdsType Doc.svdsMembers where
  distinct := by decide +kernel
  labels := by decide +kernel
  named := by
    have : ∀ e ∈ Svds.infoNames, ∃ p ∈ Doc.svdsMembers, p.1 = e.1 ∧
      select Svds.infoTypes e.2 = some (Doc.svdsType p.2) ∧
      (select Svds.setTable e.2 = some (setEntryFor Svds.ctype p.2) ∨ select Svds.setTable e.2 = none ∨
        select Svds.setTable e.2 = some .reject) := by decide +kernel
    intro e he
    obtain ⟨⟨nm, m⟩, hp, rfl, h⟩ := this e he
    exact ⟨m, hp, h⟩
  names := by decide +kernel
  members := by decide +kernel
  access := by
    rintro ⟨nm, m⟩ -
    cases m with
    | i f => rfl
    | d f => rfl
    | p f => cases f <;> simp [Doc.svdsType]
    | seed => trivial
    | sub k => trivial

/-- The statement writes no other parameter than those of `L`; a preset method writes the two operators. -/
def WritesS [LinearOrder K] (S : Svds.SEnv K) (L : List String) : Step K (Svds.SP K) → Prop
  | .need _ _ => True
  | .set f _ => f ∈ L
  | .extra f _ => f ∈ L
  | .raw f _ => f ∈ L
  | .act g => "method" ∈ L ∧ "methodStage2" ∈ L ∧ ∃ m m1 m2, g = svdsPreset S m m1 m2

theorem svds_set_eq (E : Env K) (s : Svds.SP K) (f : String) (v : PVal K) :
    (svdsSetters E).set s f v = (paramsSet svdsTables E s.sv f v).bind fun t => .ok { s with sv := t } := by
  simp only [svdsSetters]

theorem svds_raw_eq (E : Env K) (s : Svds.SP K) (f : String) (a : Nat) :
    (svdsSetters E).raw s f a = (paramsRaw svdsTables s.sv f a).bind fun t => .ok { s with sv := t } := by
  simp only [svdsSetters]

theorem svds_set {E : Env K} {s t : Svds.SP K} {f : String} {v : PVal K} (h : (svdsSetters E).set s f v = .ok t) :
    paramsSet svdsTables E s.sv f v = .ok t.sv ∧ t.st1 = s.st1 ∧ t.st2 = s.st2 := by
  rw [svds_set_eq] at h
  obtain ⟨u, h1, h2⟩ := bind_ok h
  simp only [Res.ok.injEq] at h2
  subst h2
  exact ⟨h1, rfl, rfl⟩

theorem svds_raw {E : Env K} {s t : Svds.SP K} {f : String} {a : Nat} (h : (svdsSetters E).raw s f a = .ok t) :
    paramsRaw svdsTables s.sv f a = .ok t.sv ∧ t.st1 = s.st1 ∧ t.st2 = s.st2 := by
  rw [svds_raw_eq] at h
  obtain ⟨u, h1, h2⟩ := bind_ok h
  simp only [Res.ok.injEq] at h2
  subst h2
  exact ⟨h1, rfl, rfl⟩

theorem sexec_set {E : Env K} {s t : Svds.SP K} {f : String} {v : PVal K}
    (h : (Step.set f v : Step K (Svds.SP K)).exec (svdsSetters E) s = .ok t) :
    paramsSet svdsTables E s.sv f v = .ok t.sv := (svds_set (by simpa only [Step.exec] using h)).1

theorem sexec_raw {E : Env K} {s t : Svds.SP K} {f : String} {a : Nat}
    (h : (Step.raw f a : Step K (Svds.SP K)).exec (svdsSetters E) s = .ok t) :
    paramsRaw svdsTables s.sv f a = .ok t.sv := (svds_raw (by simpa only [Step.exec] using h)).1

theorem sexec_extra {E : Env K} {s t : Svds.SP K} {f : String} {v : PVal K}
    (h : (Step.extra f v : Step K (Svds.SP K)).exec (svdsSetters E) s = .ok t) :
    paramsSet svdsTables E s.sv f v = .ok t.sv := (svds_set (extra_ok h)).1

theorem srun_one {E : Env K} {x : Step K (Svds.SP K)} {s t : Svds.SP K} (h : run (svdsSetters E) [x] s = .ok t) :
    x.exec (svdsSetters E) s = .ok t := by
  obtain ⟨u, h1, h2⟩ := run_cons_ok h
  simp [run] at h2
  rw [h1, h2]

theorem srun_set {E : Env K} {s t : Svds.SP K} {f : String} {v : PVal K}
    (h : run (svdsSetters E) [.set f v] s = .ok t) : paramsSet svdsTables E s.sv f v = .ok t.sv :=
  sexec_set (srun_one h)

/-- A preset method leaves every parameter but the two operators alone. -/
theorem preset_reads [LinearOrder K] (S : Svds.SEnv K) (m m1 m2 : Int) (s : Svds.SP K)
    {x : Member Svds.IF Svds.DF Svds.PF} (h1 : x ≠ .i .method) (h2 : x ≠ .i .methodStage2) :
    reads (svdsPreset S m m1 m2 s).sv x = reads s.sv x := by
  unfold svdsPreset
  rw [Svds.callMethod_total' S 0 m m1 m2 s]
  unfold Svds.svdsMethod
  have key : ∀ c (v : Svds.SV K), reads (Svds.chooseOps c v) x = reads v x := by
    intro c v
    unfold Svds.chooseOps
    cases x with
    | i f =>
      have h1 : f ≠ .method := by rintro rfl; exact h1 rfl
      have h2 : f ≠ .methodStage2 := by rintro rfl; exact h2 rfl
      simp only
      split_ifs <;> simp [reads, h1, h2]
    | d f => simp only; split_ifs <;> rfl
    | p f => simp only; split_ifs <;> rfl
    | seed => simp only; split_ifs <;> rfl
    | sub k => simp only; split_ifs <;> rfl
  rw [Svds.presetStages_sv, Svds.svdsDefaults_sv]
  split_ifs <;> simp only [key]

theorem keeps_svds [LinearOrder K] {S : Svds.SEnv K} {E : Env K} {L : List String} {nm : String}
    {m : Member Svds.IF Svds.DF Svds.PF} (hm : (nm, m) ∈ Doc.svdsMembers) (hn : nm ∉ L) {x : Step K (Svds.SP K)}
    (hx : WritesS S L x) : Keeps (svdsSetters E) (fun s => reads s.sv m) x := by
  cases x with
  | need b e => exact keeps_need _ b e
  | set f v =>
    intro s t h
    have hf : f ≠ nm := by rintro rfl; exact hn hx
    exact paramsSet_keeps svds_good hm hf (sexec_set h)
  | extra f v =>
    intro s t h
    have hf : f ≠ nm := by rintro rfl; exact hn hx
    exact paramsSet_keeps svds_good hm hf (sexec_extra h)
  | raw f a =>
    intro s t h
    have hf : f ≠ nm := by rintro rfl; exact hn hx
    exact paramsRaw_keeps svds_good hm hf (sexec_raw h)
  | act g =>
    intro s t h
    obtain ⟨h1, h2, m', m1, m2, rfl⟩ := hx
    simp only [Step.exec, Res.ok.injEq] at h
    subst h
    have a1 : ("method", (.i .method : Member Svds.IF Svds.DF Svds.PF)) ∈ Doc.svdsMembers := by decide +kernel
    have a2 : ("methodStage2", (.i .methodStage2 : Member Svds.IF Svds.DF Svds.PF)) ∈ Doc.svdsMembers := by
      decide +kernel
    refine preset_reads S m' m1 m2 s ?_ ?_
    · rintro rfl; exact hn (name_unique svds_good hm a1 ▸ h1)
    · rintro rfl; exact hn (name_unique svds_good hm a2 ▸ h2)

/-- The parameters each group may write, without the extra keyword arguments. -/
def svdsFixed : List (List String) :=
  [["matrix"], ["m"], ["n"], ["numSvals"], ["precondition", "preconditioner"], ["monitor"],
   ["target", "numTargetShifts", "targetShifts"], ["eps"], ["maxBasisSize"], ["maxMatvecs"], ["maxBlockSize"],
   ["numOrthoConst"], ["convtest"], [], ["matrixMatvec", "applyPreconditioner", "convTestFun", "monitorFun"], [],
   ["method", "methodStage2"], ["initSize"], [], []]

/-- The parameters each group may write. -/
def svdsNames (a : SvdsArgs K V) : List (List String) := svdsFixed.set 13 (a.kargs.map Prod.fst)

theorem svds_groups_write [LinearOrder K] (S : Svds.SEnv K) (B : SvdsAddrs) (a : SvdsArgs K V) :
    List.Forall₂ (fun L seg => ∀ x ∈ seg, WritesS S L x) (svdsNames a) (svdsGroups S B a) := by
  have prec : ∀ (P : Option Operator) n L, ∀ x ∈ precSteps (K := K) P n, WritesS S L x := by
    intro P n L
    unfold precSteps
    split <;> simp [WritesS]
  have pair : ∀ m n (u v : Option (Arr V)) L, ∀ x ∈ pairSteps (K := K) m n u v, WritesS S L x := by
    intro m n u v L
    unfold pairSteps
    simp [WritesS]
  unfold svdsNames svdsFixed svdsGroups
  simp only [List.set]
  repeat' apply List.Forall₂.cons
  all_goals try exact List.Forall₂.nil
  · simp [WritesS]
  · simp [WritesS]
  · simp [WritesS]
  · simp [WritesS]
  · unfold precGroup
    intro x hx
    simp only [List.mem_append, or_assoc] at hx
    rcases hx with h | h | h | h
    · exact prec _ _ _ x h
    · exact prec _ _ _ x h
    · exact prec _ _ _ x h
    · revert x
      split <;> simp [WritesS]
  · split <;> simp [WritesS]
  · unfold svdsWhich; repeat' split
    all_goals simp [WritesS]
  · simp [WritesS]
  · repeat' split
    all_goals simp [WritesS]
  · repeat' split
    all_goals simp [WritesS]
  · split <;> simp [WritesS]
  · intro x hx
    rcases List.mem_append.1 hx with h | h
    · exact pair _ _ _ _ _ x h
    · clear hx
      revert x
      split <;> simp [WritesS]
  · cases a.convtest <;> simp [WritesS]
  · intro x hx
    obtain ⟨e, he, rfl⟩ := List.mem_map.1 hx
    exact List.mem_map.2 ⟨e, he, rfl⟩
  · unfold svdsCallbacks; repeat' split
    all_goals simp [WritesS]
  · exact pair _ _ _ _ _
  · unfold svdsMethodSteps
    split
    · intro x hx
      simp only [List.mem_cons, List.not_mem_nil, or_false] at hx
      rcases hx with rfl | rfl | rfl | rfl
      · trivial
      · trivial
      · trivial
      · exact ⟨by simp, by simp, _, _, _, rfl⟩
    · simp
  · split <;> simp [WritesS]
  · unfold orthoSteps; split <;> simp [WritesS]
  · simp [WritesS]

theorem sflat_keeps [LinearOrder K] {S : Svds.SEnv K} {E : Env K} {Ls : List (List String)}
    {segs : List (List (Step K (Svds.SP K)))} (h : List.Forall₂ (fun L seg => ∀ x ∈ seg, WritesS S L x) Ls segs)
    {s t : Svds.SP K} (hr : run (svdsSetters E) segs.flatten s = .ok t) {nm : String}
    {m : Member Svds.IF Svds.DF Svds.PF} (hm : (nm, m) ∈ Doc.svdsMembers) (hn : ∀ L ∈ Ls, nm ∉ L) :
    reads t.sv m = reads s.sv m := by
  induction h generalizing s with
  | nil => simp [run] at hr; rw [hr]
  | cons hx hrest ih =>
    rw [List.flatten_cons] at hr
    obtain ⟨u, h1, h2⟩ := run_append_ok hr
    rw [ih h2 (fun L hL => hn L (by simp [hL]))]
    exact run_keeps (g := fun s => reads s.sv m) (fun x hx' => keeps_svds hm (hn _ (by simp)) (hx x hx')) h1

theorem prepareSvds_ok [LinearOrder K] {E : Env K} {S : Svds.SEnv K} {B : SvdsAddrs} {junk : Nat → V} {s : Svds.SP K}
    {a : SvdsArgs K V} {c : SvdsCall K V} (h : prepareSvds E S B junk s a = .ok c) :
    run (svdsSetters E) (svdsGroups S B a).flatten s = .ok c.params ∧
      c = ⟨if workType a.dtype = .complex64 ∨ workType a.dtype = .float32 then 2 else 3, workType a.dtype, c.params,
        svdsShift a, a.k.toNat, (a.A.rows + a.A.cols) * (svdsOrtho a + a.k.toNat), svdsFirst junk a⟩ := by
  unfold prepareSvds at h
  obtain ⟨u, h1, h2⟩ := bind_ok h
  simp only [Res.ok.injEq] at h2
  subst h2
  exact ⟨h1, rfl⟩

/-- Group `i` was executed, and a parameter nothing later writes still has its value when the library is called. -/
theorem scall_at [LinearOrder K] {E : Env K} {S : Svds.SEnv K} {B : SvdsAddrs} {junk : Nat → V} {s : Svds.SP K}
    {a : SvdsArgs K V} {c : SvdsCall K V} (h : prepareSvds E S B junk s a = .ok c) (i : Nat)
    (seg : List (Step K (Svds.SP K))) (hi : (svdsGroups S B a)[i]? = some seg) :
    ∃ u v, run (svdsSetters E) seg u = .ok v ∧ ∀ nm m, (nm, m) ∈ Doc.svdsMembers →
      (∀ L ∈ (svdsNames a).drop (i + 1), nm ∉ L) → reads c.params.sv m = reads v.sv m := by
  obtain ⟨h, -⟩ := prepareSvds_ok h
  have hs : svdsGroups S B a = (svdsGroups S B a).take i ++ seg :: (svdsGroups S B a).drop (i + 1) := by
    rw [List.getElem?_eq_some_iff] at hi
    obtain ⟨hl, rfl⟩ := hi
    rw [List.getElem_cons_drop, List.take_append_drop]
  rw [hs, List.flatten_append, List.flatten_cons] at h
  obtain ⟨u, -, h2⟩ := run_append_ok h
  obtain ⟨v, h3, h4⟩ := run_append_ok h2
  exact ⟨u, v, h3, fun nm m hm hn => sflat_keeps (forall₂_drop (svds_groups_write S B a) (i + 1)) h4 hm hn⟩

/-- The same with the structure after the rest of the groups. -/
theorem scall_split [LinearOrder K] {E : Env K} {S : Svds.SEnv K} {B : SvdsAddrs} {junk : Nat → V} {s : Svds.SP K}
    {a : SvdsArgs K V} {c : SvdsCall K V} (h : prepareSvds E S B junk s a = .ok c) (i : Nat)
    (seg : List (Step K (Svds.SP K))) (hi : (svdsGroups S B a)[i]? = some seg) :
    ∃ u v, run (svdsSetters E) ((svdsGroups S B a).take i).flatten s = .ok u ∧ run (svdsSetters E) seg u = .ok v ∧
      run (svdsSetters E) ((svdsGroups S B a).drop (i + 1)).flatten v = .ok c.params ∧
      ∀ nm m, (nm, m) ∈ Doc.svdsMembers →
      (∀ L ∈ (svdsNames a).drop (i + 1), nm ∉ L) → reads c.params.sv m = reads v.sv m := by
  obtain ⟨h, -⟩ := prepareSvds_ok h
  have hs : svdsGroups S B a = (svdsGroups S B a).take i ++ seg :: (svdsGroups S B a).drop (i + 1) := by
    rw [List.getElem?_eq_some_iff] at hi
    obtain ⟨hl, rfl⟩ := hi
    rw [List.getElem_cons_drop, List.take_append_drop]
  rw [hs, List.flatten_append, List.flatten_cons] at h
  obtain ⟨u, h1, h2⟩ := run_append_ok h
  obtain ⟨v, h3, h4⟩ := run_append_ok h2
  exact ⟨u, v, h1, h3, h4, fun nm m hm hn => sflat_keeps (forall₂_drop (svds_groups_write S B a) (i + 1)) h4 hm hn⟩

/-- Statements other than preset methods. -/
def Plain : Step K (Svds.SP K) → Prop
  | .act _ => False
  | _ => True

/-- Only preset methods write the structures of the stages. -/
theorem plain_stages {E : Env K} {l : List (Step K (Svds.SP K))} (hl : ∀ x ∈ l, Plain x) {s t : Svds.SP K}
    (h : run (svdsSetters E) l s = .ok t) : t.st1 = s.st1 ∧ t.st2 = s.st2 := by
  have key : ∀ x ∈ l, Keeps (svdsSetters E) (fun s : Svds.SP K => (s.st1, s.st2)) x := by
    intro x hx s t h
    have := hl x hx
    cases x with
    | need b e => rw [(need_ok h).2]
    | set f v =>
      obtain ⟨-, h1, h2⟩ := svds_set (by simpa only [Step.exec] using h)
      simp [h1, h2]
    | extra f v =>
      obtain ⟨-, h1, h2⟩ := svds_set (extra_ok h)
      simp [h1, h2]
    | raw f a =>
      obtain ⟨-, h1, h2⟩ := svds_raw (by simpa only [Step.exec] using h)
      simp [h1, h2]
    | act g => exact absurd this (by simp [Plain])
  have := run_keeps key h
  simpa using this

theorem sgroups_plain [LinearOrder K] (S : Svds.SEnv K) (B : SvdsAddrs) (a : SvdsArgs K V) :
    (∀ seg ∈ (svdsGroups S B a).take 16, ∀ x ∈ seg, Plain x) ∧
    (∀ seg ∈ (svdsGroups S B a).drop 17, ∀ x ∈ seg, Plain x) := by
  have prec : ∀ (P : Option Operator) n, ∀ x ∈ precSteps (K := K) P n, Plain x := by
    intro P n
    unfold precSteps
    split <;> simp [Plain]
  have pair : ∀ m n (u v : Option (Arr V)), ∀ x ∈ pairSteps (K := K) m n u v, Plain x := by
    intro m n u v
    unfold pairSteps
    simp [Plain]
  unfold svdsGroups
  simp only [List.take_succ_cons, List.take_zero, List.drop_succ_cons, List.drop_zero, List.forall_mem_cons]
  refine ⟨⟨?_, ?_, ?_, ?_, ?_, ?_, ?_, ?_, ?_, ?_, ?_, ?_, ?_, ?_, ?_, ?_, by simp⟩, ⟨?_, ?_, ?_, by simp⟩⟩
  · simp [Plain]
  · simp [Plain]
  · simp [Plain]
  · simp [Plain]
  · unfold precGroup
    intro x hx
    simp only [List.mem_append, or_assoc] at hx
    rcases hx with h | h | h | h
    · exact prec _ _ x h
    · exact prec _ _ x h
    · exact prec _ _ x h
    · revert x
      split <;> simp [Plain]
  · split <;> simp [Plain]
  · unfold svdsWhich; repeat' split
    all_goals simp [Plain]
  · simp [Plain]
  · repeat' split
    all_goals simp [Plain]
  · repeat' split
    all_goals simp [Plain]
  · split <;> simp [Plain]
  · intro x hx
    rcases List.mem_append.1 hx with h | h
    · exact pair _ _ _ _ x h
    · clear hx
      revert x
      split <;> simp [Plain]
  · cases a.convtest <;> simp [Plain]
  · intro x hx
    obtain ⟨e, he, rfl⟩ := List.mem_map.1 hx
    trivial
  · unfold svdsCallbacks; repeat' split
    all_goals simp [Plain]
  · exact pair _ _ _ _
  · split <;> simp [Plain]
  · unfold orthoSteps; split <;> simp [Plain]
  · simp [Plain]

theorem slater {a : SvdsArgs K V} {nm : String} (hk : nm ∉ a.kargs.map Prod.fst) {j : Nat}
    (hf : ∀ L ∈ svdsFixed.drop j, nm ∉ L) : ∀ L ∈ (svdsNames a).drop j, nm ∉ L := by
  intro L hL
  rw [svdsNames, List.drop_set] at hL
  split at hL
  · exact hf L hL
  · rcases List.mem_or_eq_of_mem_set hL with h | rfl
    · exact hf L h
    · exact hk

theorem slast {a : SvdsArgs K V} {nm : String} {j : Nat} (hj : 13 < j)
    (hf : ∀ L ∈ svdsFixed.drop j, nm ∉ L) : ∀ L ∈ (svdsNames a).drop j, nm ∉ L := by
  intro L hL
  rw [svdsNames, List.drop_set, if_pos hj] at hL
  exact hf L hL

/-- A parameter that group `i` does not write (it writes at most `L`), nor any other group, has its first value when the
library is called. -/
theorem scall_unset [LinearOrder K] {E : Env K} {S : Svds.SEnv K} {B : SvdsAddrs} {junk : Nat → V} {s : Svds.SP K}
    {a : SvdsArgs K V} {c : SvdsCall K V} (h : prepareSvds E S B junk s a = .ok c) (i : Nat) (L : List String)
    {seg : List (Step K (Svds.SP K))} (hi : (svdsGroups S B a)[i]? = some seg) (hseg : ∀ x ∈ seg, WritesS S L x)
    {nm : String} {m : Member Svds.IF Svds.DF Svds.PF} (hm : (nm, m) ∈ Doc.svdsMembers)
    (hk : nm ∉ a.kargs.map Prod.fst) (hn : ∀ L' ∈ svdsFixed.set i L, nm ∉ L') :
    reads c.params.sv m = reads s.sv m := by
  obtain ⟨h, -⟩ := prepareSvds_ok h
  refine sflat_keeps (forall₂_set (svds_groups_write S B a) i L hi hseg) h hm ?_
  intro L' hL
  rw [svdsNames] at hL
  by_cases h13 : i = 13
  · subst h13
    rw [List.set_set] at hL
    exact hn L' hL
  · rw [List.set_comm _ _ (by omega)] at hL
    rcases List.mem_or_eq_of_mem_set hL with h | rfl
    · exact hn L' h
    · exact hk

/-- A parameter that nothing writes has its first value when the library is called. -/
theorem scall_keeps [LinearOrder K] {E : Env K} {S : Svds.SEnv K} {B : SvdsAddrs} {junk : Nat → V} {s : Svds.SP K}
    {a : SvdsArgs K V} {c : SvdsCall K V} (h : prepareSvds E S B junk s a = .ok c) {nm : String}
    {m : Member Svds.IF Svds.DF Svds.PF} (hm : (nm, m) ∈ Doc.svdsMembers) (hk : nm ∉ a.kargs.map Prod.fst)
    (hn : ∀ L ∈ svdsFixed, nm ∉ L) : reads c.params.sv m = reads s.sv m := by
  obtain ⟨h, -⟩ := prepareSvds_ok h
  exact sflat_keeps (svds_groups_write S B a) h hm (slater (j := 0) hk hn)

/-- An array pointer stored without further tests. -/
theorem sraw_ptr {E : Env K} {s t : Svds.SP K} {nm : String} {l : Int} {f : Svds.PF} {a : Nat}
    (hl : (nm, l) ∈ Svds.infoNames) (hm : (nm, .p f) ∈ Doc.svdsMembers) (he : select Svds.setTable l = some (.ptr f))
    (h : (Step.raw nm a : Step K (Svds.SP K)).exec (svdsSetters E) s = .ok t) :
    t.sv = put s.sv (.p f) (.ptr a) := by
  have h1 := paramsRaw_eq svds_good s.sv a (T := svdsTables) hl hm he
  rw [sexec_raw h] at h1
  simpa using h1

/-- The tests of `check_pair`. -/
theorem pair_run {E : Env K} {m n : Nat} {u v : Option (Arr V)} {r : List (Step K (Svds.SP K))} {s t : Svds.SP K}
    (h : run (svdsSetters E) (pairSteps m n u v ++ r) s = .ok t) :
    (rowsAre m (swapPair m n u v).1 ∧ rowsAre n (swapPair m n u v).2) ∧
    sameCols (swapPair m n u v).1 (swapPair m n u v).2 ∧
    (swapPair m n u v).1.isSome = (swapPair m n u v).2.isSome ∧ run (svdsSetters E) r s = .ok t := by
  unfold pairSteps at h
  simp only [List.cons_append, List.nil_append] at h
  obtain ⟨s1, q1, z1⟩ := run_cons_ok h
  obtain ⟨h1, e1⟩ := need_ok q1
  obtain ⟨s2, q2, z2⟩ := run_cons_ok z1
  obtain ⟨h2, e2⟩ := need_ok q2
  obtain ⟨s3, q3, z3⟩ := run_cons_ok z2
  obtain ⟨h3, e3⟩ := need_ok q3
  subst e1 e2 e3
  exact ⟨by simpa using h1, h2, by simpa using h3, z3⟩


theorem sset_no_ub (E : Env K) (s : Svds.SP K) {f : String} (hf : f ≠ "iseed") (v : PVal K) :
    (svdsSetters E).set s f v ≠ .ub := by
  rw [svds_set_eq]
  have hd : ∀ e ∈ Doc.svdsMembers, e.2 = .seed → e.1 = "iseed" := by decide +kernel
  have := paramsSet_no_ub svds_good E s.sv f v (fun h => absurd (hd _ h rfl) hf)
  cases h : paramsSet svdsTables E s.sv f v with
  | ok t => simp [Res.bind]
  | raise e => simp [Res.bind]
  | ub => exact absurd h this

/-- The names that are given addresses without further tests. -/
def srawNames : List String :=
  ["targetShifts", "matrixMatvec", "applyPreconditioner", "convTestFun", "monitorFun"]

theorem sraw_eq (E : Env K) (s : Svds.SP K) (nm : String) (l : Int) (f : Svds.PF) (a : Nat) (hl : (nm, l) ∈ Svds.infoNames)
    (hm : (nm, .p f) ∈ Doc.svdsMembers) (he : select Svds.setTable l = some (.ptr f)) :
    (Step.raw nm a : Step K (Svds.SP K)).exec (svdsSetters E) s = .ok { s with sv := put s.sv (.p f) (.ptr a) } := by
  simp only [Step.exec, svds_raw_eq]
  rw [paramsRaw_eq svds_good s.sv a (T := svdsTables) hl hm he]
  rfl

theorem sexec_raw_ok (E : Env K) (s : Svds.SP K) {f : String} (hf : f ∈ srawNames) (a : Nat) :
    ∃ t, (Step.raw f a : Step K (Svds.SP K)).exec (svdsSetters E) s = .ok t := by
  have : ∀ f ∈ srawNames, ∃ p : Svds.PF × Int, (f, p.2) ∈ Svds.infoNames ∧ (f, .p p.1) ∈ Doc.svdsMembers ∧
      select Svds.setTable p.2 = some (.ptr p.1) := by
    intro f hf
    simp only [srawNames, List.mem_cons, List.not_mem_nil, or_false] at hf
    rcases hf with rfl | rfl | rfl | rfl | rfl
    · exact ⟨(.targetShifts, 21), by decide +kernel⟩
    · exact ⟨(.matrixMatvec, 5), by decide +kernel⟩
    · exact ⟨(.applyPreconditioner, 7), by decide +kernel⟩
    · exact ⟨(.convTestFun, 55), by decide +kernel⟩
    · exact ⟨(.monitorFun, 58), by decide +kernel⟩
  obtain ⟨⟨p, l⟩, h1, h2, h3⟩ := this f hf
  exact ⟨_, sraw_eq E s f l p a h1 h2 h3⟩

/-- Statements that have no undefined behaviour. -/
def SafeS (a : SvdsArgs K V) : Step K (Svds.SP K) → Prop
  | .raw f _ => f ∈ srawNames
  | .set f _ => f ≠ "iseed"
  | .extra f _ => f ∈ a.kargs.map Prod.fst
  | _ => True

theorem sgroups_safe [LinearOrder K] (S : Svds.SEnv K) (B : SvdsAddrs) (a : SvdsArgs K V) :
    ∀ seg ∈ svdsGroups S B a, ∀ x ∈ seg, SafeS a x := by
  have prec : ∀ (P : Option Operator) n, ∀ x ∈ precSteps (K := K) P n, SafeS a x := by
    intro P n
    unfold precSteps
    split <;> simp [SafeS]
  have pair : ∀ m n (u v : Option (Arr V)), ∀ x ∈ pairSteps (K := K) m n u v, SafeS a x := by
    intro m n u v
    unfold pairSteps
    simp [SafeS]
  unfold svdsGroups
  simp only [List.forall_mem_cons]
  refine ⟨?_, ?_, ?_, ?_, ?_, ?_, ?_, ?_, ?_, ?_, ?_, ?_, ?_, ?_, ?_, ?_, ?_, ?_, ?_, ?_, by simp⟩
  · simp [SafeS]
  · simp [SafeS]
  · simp [SafeS]
  · simp [SafeS]
  · unfold precGroup
    intro x hx
    simp only [List.mem_append, or_assoc] at hx
    rcases hx with h | h | h | h
    · exact prec _ _ x h
    · exact prec _ _ x h
    · exact prec _ _ x h
    · revert x
      split <;> simp [SafeS]
  · split <;> simp [SafeS]
  · unfold svdsWhich; repeat' split
    all_goals simp [SafeS, srawNames]
  · simp [SafeS]
  · repeat' split
    all_goals simp [SafeS]
  · repeat' split
    all_goals simp [SafeS]
  · split <;> simp [SafeS]
  · intro x hx
    rcases List.mem_append.1 hx with h | h
    · exact pair _ _ _ _ x h
    · clear hx
      revert x
      split <;> simp [SafeS]
  · cases a.convtest <;> simp [SafeS]
  · intro x hx
    obtain ⟨e, he, rfl⟩ := List.mem_map.1 hx
    exact List.mem_map.2 ⟨e, he, rfl⟩
  · unfold svdsCallbacks; repeat' split
    all_goals simp [SafeS, srawNames]
  · exact pair _ _ _ _
  · unfold svdsMethodSteps
    split <;> simp [SafeS]
  · split <;> simp [SafeS]
  · unfold orthoSteps; split <;> simp [SafeS]
  · simp [SafeS]

theorem ssteps_no_ub [LinearOrder K] (E : Env K) (S : Svds.SEnv K) (B : SvdsAddrs) (a : SvdsArgs K V)
    (hk : ∀ e ∈ a.kargs, e.1 ≠ "iseed") :
    ∀ x ∈ (svdsGroups S B a).flatten, ∀ s, x.exec (svdsSetters E) s ≠ .ub := by
  intro x hx s
  obtain ⟨seg, hseg, hx⟩ := List.mem_flatten.1 hx
  have := sgroups_safe S B a seg hseg x hx
  cases x with
  | need b e => simp only [Step.exec]; split <;> simp
  | set f v => exact sset_no_ub E s this v
  | extra f v =>
    obtain ⟨e, he, rfl⟩ := List.mem_map.1 this
    have := sset_no_ub E s (hk e he) v
    simp only [Step.exec]
    cases h : (svdsSetters E).set s e.1 v with
    | ok t => simp
    | raise e => simp
    | ub => exact absurd h this
  | raw f b =>
    obtain ⟨t, ht⟩ := sexec_raw_ok E s this b
    rw [ht]; simp
  | act g => simp [Step.exec]

/-- The parameters that cannot be set by name. -/
def sunsettable : List String :=
  ["targetShifts", "iseed", "profile", "stats_numGlobalSum", "stats_numBroadcast", "stats_lockingIssue"]

/-- A parameter set to a value of its kind and range. -/
theorem svds_set_total (E : Env K) (s : Svds.SP K) {f : String} {m : Member Svds.IF Svds.DF Svds.PF} {v : PVal K}
    {x : Val K} (hm : (f, m) ∈ Doc.svdsMembers) (hf : f ∉ sunsettable) (hv : meant E Svds.constTable m v = some x)
    (hx : fits Svds.ctype m x) : (svdsSetters E).set s f v = .ok { s with sv := put s.sv m x } := by
  have table : ∀ e ∈ Doc.svdsMembers, e.1 ∉ sunsettable → (∃ l ∈ Svds.infoNames, l.1 = e.1 ∧
      select Svds.setTable l.2 = some (setEntryFor Svds.ctype e.2)) := by decide +kernel
  have table2 : ∀ e ∈ Doc.svdsMembers, e.1 ∉ sunsettable →
      (match e.2 with | .p _ => true | _ => false) = true → Doc.svdsType e.2 = (.pointer, 1) := by decide +kernel
  obtain ⟨⟨g, l⟩, hl, rfl, he⟩ := table _ hm hf
  rw [svds_set_eq, paramsSet_eq svds_good E s.sv (T := svdsTables) hl hm he
    (fun p hp => table2 _ hm hf (by simp [hp])) hv hx]
  rfl

/-- The stored callbacks. -/
theorem scallbacks_run {E : Env K} {B : SvdsAddrs} {a : SvdsArgs K V} {s t : Svds.SP K}
    (h : run (svdsSetters E) (svdsCallbacks B a) s = .ok t) :
    t.sv.p .matrixMatvec = B.fn .matvec (variant a.dtype) ∧
    t.sv.p .applyPreconditioner = B.fn .precond (variant a.dtype) ∧
    (a.convtest.isSome → t.sv.p .convTestFun = B.fn .convtest (variant a.dtype)) ∧
    (a.return_history → t.sv.p .monitorFun = B.fn .monitor (realVariant a.dtype)) := by
  have e1 := fun s a => sraw_eq E s "matrixMatvec" 5 .matrixMatvec a (by decide +kernel) (by decide +kernel) (by decide +kernel)
  have e3 := fun s a => sraw_eq E s "applyPreconditioner" 7 .applyPreconditioner a (by decide +kernel) (by decide +kernel) (by decide +kernel)
  have e4 := fun s a => sraw_eq E s "convTestFun" 55 .convTestFun a (by decide +kernel) (by decide +kernel) (by decide +kernel)
  have e5 := fun s a => sraw_eq E s "monitorFun" 58 .monitorFun a (by decide +kernel) (by decide +kernel) (by decide +kernel)
  unfold svdsCallbacks at h
  cases hC : a.convtest.isSome <;> cases hH : a.return_history <;>
    simp [hC, hH, run, e1, e3, e4, e5, Res.bind] at h <;> subst h <;> simp [put]

end Verif.Py
