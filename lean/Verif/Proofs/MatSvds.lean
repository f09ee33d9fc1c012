import Verif.Proofs.MatEigs
import Verif.Proofs.RSvds
import Verif.Spec.MatSvds

/-!
# Lemmas about the MATLAB function `primme_svds`
-/

set_option linter.unusedSectionVars false

namespace Verif.Mat
open Verif.Members Verif.Py Verif.Eigs

variable {K V : Type} [Field K] [LinearOrder K] [IsStrictOrderedRing K] [FloorRing K]

theorem svds_kind (heap device text : Nat) :
    GoodM (svdsKind heap device text) Svds.ctype Py.Doc.svdsType Py.Doc.svdsMembers where
  tables := svds_good
  seed := by
    have : ∀ e ∈ Svds.infoNames, e.2 = 35 → ∀ p ∈ Py.Doc.svdsMembers, p.1 = e.1 → p.2 = .seed := by decide +kernel
    exact fun nm m h1 h2 => this _ h1 rfl _ h2 rfl
  shifts := by
    have : ∀ e ∈ Svds.infoNames, e.2 = 21 → ∀ p ∈ Py.Doc.svdsMembers, p.1 = e.1 → p.2 = .p .targetShifts := by
      decide +kernel
    exact fun nm m h1 h2 => this _ h1 rfl _ h2 rfl
  comm := by
    have : ∀ e ∈ Svds.infoNames, e.2 = 13 → ∀ p ∈ Py.Doc.svdsMembers, p.1 = e.1 → p.2 = .p .commInfo := by
      decide +kernel
    exact fun nm m h1 h2 => this _ h1 rfl _ h2 rfl
  label := by
    have : ∀ e ∈ Svds.infoNames, ∀ e' ∈ Svds.infoNames, e.1 = e'.1 → e.2 = e'.2 := by decide +kernel
    exact fun nm l l' h1 h2 => this _ h1 _ h2 rfl

/-! ## Settings of a flat struct -/

section flat
variable {IF DF PF : Type} [DecidableEq IF] [DecidableEq DF] [DecidableEq PF] {P : MKind IF DF PF}
  {ct : IF → CType} {ptype : Member IF DF PF → PType × Nat} {mem : List (String × Member IF DF PF)}
  {o : Fields (MVal K)} {s0 s : R.RState IF DF PF K}

theorem settings_flat (hf : Flat o) {nm : String} {v : MVal K} (h : (nm, v) ∈ settings o) : (nm, v) ∈ o := by
  rcases (mem_settings o nm v).1 h with ⟨h, -⟩ | ⟨k, l, e, hk, -, -, -⟩
  · exact h
  · exact absurd rfl (hf _ hk l)

/-- What depends on one name alone, after the settings. -/
theorem flat_seen (hd : o.names.Nodup) (hf : Flat o) (hs : setAllM P (settings o) s0 = .ok s) {β : Type}
    (obs : R.RState IF DF PF K → β) {nm : String}
    (keep : ∀ s t nm' v, nm' ≠ nm → setMemberM P s nm' v = .ok t → obs t = obs s) :
    (∀ v, o.get nm = some v → ∃ u w, setMemberM P u nm v = .ok w ∧ obs s = obs w) ∧
    (o.get nm = none → obs s = obs s0) := by
  obtain ⟨l1, l2⟩ := setAllM_last obs keep hs
  constructor
  · intro v hv
    have hplain : plain v := by
      cases v with
      | struct l => exact absurd rfl (hf _ (mem_of_get hv) l)
      | _ => trivial
    refine l1 v ((mem_settings o nm v).2 (.inl ⟨mem_of_get hv, hplain⟩)) ?_
    intro w hw
    have := get_of_mem hd (settings_flat hf hw)
    rw [hv] at this
    simpa using this.symm
  · intro hv
    refine l2 ?_
    intro hmem
    obtain ⟨⟨nm', w⟩, hw, rfl⟩ := List.mem_map.1 hmem
    have := get_of_mem hd (settings_flat hf hw)
    rw [hv] at this
    simp at this

/-- A member that only its name writes. -/
theorem flat_member (g : GoodM P ct ptype mem) (hd : o.names.Nodup) (hf : Flat o)
    (hs : setAllM P (settings o) s0 = .ok s) {nm : String} {m : Member IF DF PF} (hm : (nm, m) ∈ mem) (hc : m ∉ aliased P) :
    (∀ v, o.get nm = some v → ∃ u w, setMemberM P u nm v = .ok w ∧ reads s.params m = reads w.params m) ∧
    (o.get nm = none → reads s.params m = reads s0.params m) :=
  flat_seen hd hf hs (fun s => reads s.params m) fun _ _ _ _ hn ht => setMemberM_keeps g hm hn hc ht

/-- A member that has been given a value with a meaning. -/
theorem flat_means (g : GoodM P ct ptype mem) (hd : o.names.Nodup) (hf : Flat o)
    (hs : setAllM P (settings o) s0 = .ok s) {nm : String} {m : Member IF DF PF} (hm : (nm, m) ∈ mem) (hc : m ∉ aliased P)
    {v : MVal K} (hv : o.get nm = some v) {y : Val K} (hy : Doc.Means P.T.consts m v y) (hfit : fits ct m y) :
    reads s.params m = y := by
  obtain ⟨u, w, h1, h2⟩ := (flat_member g hd hf hs hm hc).1 v hv
  rw [h2, setMemberM_means g hm h1 hy hfit]

/-- Every name is that of a parameter. -/
theorem flat_names (g : GoodM P ct ptype mem) (hf : Flat o) (hs : setAllM P (settings o) s0 = .ok s) {nm : String}
    {v : MVal K} (hv : o.get nm = some v) : (∃ m, (nm, m) ∈ mem) ∧ ∃ u w, setMemberM P u nm v = .ok w := by
  have hplain : plain v := by
    cases v with
    | struct l => exact absurd rfl (hf _ (mem_of_get hv) l)
    | _ => trivial
  exact setAllM_names g hs ((mem_settings o nm v).2 (.inl ⟨mem_of_get hv, hplain⟩))

end flat

theorem flat_renames {o : Fields (MVal K)} (h : Flat o) (L : List (String × String)) : Flat (L.foldl rename o) := by
  intro e he l hl
  obtain ⟨k, v⟩ := e
  simp only at hl
  subst hl
  exact structs_renames (P := fun _ _ => False) L (fun _ _ _ => id) (fun k l hk => absurd rfl (h _ hk l)) k l he

/-! ## The struct of options -/

/-- The fields the arguments make. -/
def baseS : List String := ["m", "n", "matrixMatvec", "numSvals", "target", "targetShifts"]

/-- The fields `primme_svds` makes. -/
def problemNamesS : List String :=
  baseS ++ ["applyPreconditioner", "precondition", "matrixMatvec_type", "numOrthoConst", "initSize", "eps"]

structure BasedS (a : SvdsArgs K V) (b : Fields (MVal K)) : Prop where
  nodup : b.names.Nodup
  flat : Flat b
  others : ∀ nm, nm ∉ baseS → b.get nm = none
  matvec : ∃ x, opAddr a.A = some x ∧ b.get "matrixMatvec" = some (.fn x)
  dims : ∀ M N, Doc.DimsS a M N → b.get "m" = some (.one (M : K)) ∧ b.get "n" = some (.one (N : K))
  count : ∀ v, a.count = some v → ∃ k, roundAll v = .ok k ∧ b.get "numSvals" = some k
  noCount : a.count = none → ∀ M N, Doc.DimsS a M N → b.get "numSvals" = some (.one (min 6 (min (M : K) (N : K))))
  sigma : ∃ t sh, sigmaS a.target = .ok (t, sh) ∧ b.get "target" = some (.str t) ∧ b.get "targetShifts" = sh

theorem round_natCast (k : Nat) : round ((k : Nat) : K) = (k : Int) := by
  rw [← Int.cast_natCast (R := K)]
  unfold round
  simp

theorem dimArg_nat (k : Nat) : dimArg (some (.num 1 1 [((k : Nat) : K)])) = .ok (.one (k : K)) := by
  simp only [dimArg, round_natCast]
  simp

theorem dimArg_flat {v : Option (MVal K)} {w : MVal K} (h : dimArg v = .ok w) : ∃ k : Int, 0 ≤ k ∧ w = .one (k : K) := by
  unfold dimArg at h
  split at h
  · split at h
    · simp at h
    · simp only [Res.ok.injEq] at h
      exact ⟨_, by omega, h.symm⟩
  · simp at h

theorem startS_ok {a : SvdsArgs K V} {o : Fields (MVal K)} (h : startS a = .ok o) :
    o.names.Nodup ∧ Flat o ∧ (∀ nm, nm ∉ ["m", "n", "matrixMatvec"] → o.get nm = none) ∧
    (∃ x, opAddr a.A = some x ∧ o.get "matrixMatvec" = some (.fn x)) ∧
    (∀ M N, Doc.DimsS a M N → o.get "m" = some (.one (M : K)) ∧ o.get "n" = some (.one (N : K))) := by
  unfold startS at h
  cases hA : a.A with
  | mat x f =>
    rw [hA] at h
    simp only [Res.ok.injEq] at h
    subst h
    refine ⟨by simp [Fields.names], ?_, ?_, ⟨f, rfl, by simp [Fields.get]⟩, ?_⟩
    · intro e he l
      simp only [List.mem_cons, List.not_mem_nil, or_false] at he
      rcases he with rfl | rfl | rfl <;> simp [MVal.one]
    · intro nm hn
      simp only [List.mem_cons, List.not_mem_nil, or_false, not_or] at hn
      rw [get_none]
      simp [Fields.names, hn.1, hn.2.1, hn.2.2]
    · rintro M N (⟨y, f', h1, h2, h3⟩ | ⟨⟨f', h1⟩, -⟩)
      · rw [hA] at h1
        simp only [MOp.mat.injEq] at h1
        rw [← h1.1] at h2 h3
        rw [h2, h3]
        simp [Fields.get]
      · rw [hA] at h1; simp at h1
  | fn f =>
    rw [hA] at h
    simp only at h
    obtain ⟨m, hm, h⟩ := bind_ok h
    obtain ⟨n, hn, h⟩ := bind_ok h
    simp only [Res.ok.injEq] at h
    subst h
    obtain ⟨km, -, rfl⟩ := dimArg_flat hm
    obtain ⟨kn, -, rfl⟩ := dimArg_flat hn
    refine ⟨by simp [Fields.names], ?_, ?_, ⟨f, rfl, by simp [Fields.get]⟩, ?_⟩
    · intro e he l
      simp only [List.mem_cons, List.not_mem_nil, or_false] at he
      rcases he with rfl | rfl | rfl <;> simp [MVal.one]
    · intro nm hn
      simp only [List.mem_cons, List.not_mem_nil, or_false, not_or] at hn
      rw [get_none]
      simp [Fields.names, hn.1, hn.2.1, hn.2.2]
    · rintro M N (⟨y, f', h1, -⟩ | ⟨-, h1, h2⟩)
      · rw [hA] at h1; simp at h1
      · rw [h1, dimArg_nat] at hm
        rw [h2, dimArg_nat] at hn
        simp only [Res.ok.injEq] at hm hn
        simp [Fields.get, hm, hn]
  | other => rw [hA] at h; simp at h

theorem roundAll_flat {v w : MVal K} (h : roundAll v = .ok w) (l : List (String × K)) : w ≠ .struct l := by
  unfold roundAll at h
  split at h <;> simp only [Res.ok.injEq, reduceCtorEq] at h
  · subst h; simp
  · subst h; simp

theorem sigmaS_flat {v : Option (MVal K)} {t : String} {w : MVal K} (h : sigmaS v = .ok (t, some w)) :
    v = some w ∧ t = "primme_svds_closest_abs" ∧ ∀ l, w ≠ .struct l := by
  unfold sigmaS at h
  split at h
  · simp at h
  · split at h <;> simp at h
  · split_ifs at h
    · simp at h
    · simp only [Res.ok.injEq, Prod.mk.injEq, Option.some.injEq] at h
      obtain ⟨rfl, rfl⟩ := h
      simp
  · split_ifs at h
    simp only [Res.ok.injEq, Prod.mk.injEq, Option.some.injEq] at h
    obtain ⟨rfl, rfl⟩ := h
    simp
  · simp at h

theorem based_ok {a : SvdsArgs K V} {o0 o1 b : Fields (MVal K)} (h0 : startS a = .ok o0) (h1 : addSvals a o0 = .ok o1)
    (h2 : addSigma a o1 = .ok b) : BasedS a b := by
  obtain ⟨p1, p2, p3, p4, p5⟩ := startS_ok h0
  have s1 : ∃ k, o1 = o0.set "numSvals" k ∧ (∀ l, k ≠ .struct l) ∧ (∀ v, a.count = some v → roundAll v = .ok k) ∧
      (a.count = none → ∀ M N, Doc.DimsS a M N → k = .one (min 6 (min (M : K) (N : K)))) := by
    unfold addSvals at h1
    cases hc : a.count with
    | some v =>
      rw [hc] at h1
      simp only at h1
      obtain ⟨k, hk, h1⟩ := bind_ok h1
      simp only [Res.ok.injEq] at h1
      refine ⟨k, h1.symm, roundAll_flat hk, ?_, by simp⟩
      intro w hw
      simp only [Option.some.injEq] at hw
      rw [← hw]; exact hk
    | none =>
      rw [hc] at h1
      simp only at h1
      split at h1
      · rename_i m n hm hn
        simp only [Res.ok.injEq] at h1
        refine ⟨_, h1.symm, by simp [MVal.one], by simp, ?_⟩
        intro _ M N hd
        obtain ⟨q1, q2⟩ := p5 M N hd
        rw [q1] at hm
        rw [q2] at hn
        simp only [MVal.one, scalar, Option.bind_some, Option.some.injEq] at hm hn
        rw [hm, hn]
      · simp at h1
  obtain ⟨k, e1, k1, k2, k3⟩ := s1
  unfold addSigma at h2
  obtain ⟨⟨t, sh⟩, ht, h2⟩ := bind_ok h2
  simp only [Res.ok.injEq] at h2
  have s2 : ∃ o2, b = o2.set "target" (.str t) ∧ o2.names.Nodup ∧ Flat o2 ∧
      (∀ nm, nm ≠ "targetShifts" → o2.get nm = o1.get nm) ∧ o2.get "targetShifts" = sh := by
    have d1 : o1.names.Nodup := by rw [e1]; exact nodup_set p1 _ _
    have f1 : Flat o1 := by rw [e1]; exact flat_set p2 _ k1
    cases sh with
    | none =>
      refine ⟨o1, h2.symm, d1, f1, fun _ _ => rfl, ?_⟩
      rw [e1, get_set, if_neg (by decide), p3 _ (by decide)]
    | some w =>
      obtain ⟨-, -, hw⟩ := sigmaS_flat ht
      refine ⟨_, h2.symm, nodup_set d1 _ _, flat_set f1 _ hw, fun nm hn => by rw [get_set, if_neg hn], ?_⟩
      rw [get_set, if_pos rfl]
  obtain ⟨o2, e2, d2, f2, g2, sh2⟩ := s2
  have gb : ∀ nm, nm ≠ "target" → nm ≠ "targetShifts" → nm ≠ "numSvals" → b.get nm = o0.get nm := by
    intro nm n1 n2 n3
    rw [e2, get_set, if_neg n1, g2 nm n2, e1, get_set, if_neg n3]
  have gk : b.get "numSvals" = some k := by
    rw [e2, get_set, if_neg (by decide), g2 _ (by decide), e1, get_set, if_pos rfl]
  refine
    { nodup := by rw [e2]; exact nodup_set d2 _ _
      flat := by rw [e2]; exact flat_set f2 _ (by simp)
      others := ?_
      matvec := ?_
      dims := ?_
      count := fun v hv => ⟨k, k2 v hv, gk⟩
      noCount := fun hc M N hd => by rw [gk, k3 hc M N hd]
      sigma := ⟨t, sh, ht, by rw [e2, get_set, if_pos rfl], by rw [e2, get_set, if_neg (by decide), sh2]⟩ }
  · intro nm hn
    simp only [baseS, List.mem_cons, List.not_mem_nil, or_false, not_or] at hn
    rw [gb nm hn.2.2.2.2.1 hn.2.2.2.2.2 hn.2.2.2.1, p3 nm (by simp [hn.1, hn.2.1, hn.2.2.1])]
  · rw [gb _ (by decide) (by decide) (by decide)]
    exact p4
  · intro M N hd
    rw [gb _ (by decide) (by decide) (by decide), gb _ (by decide) (by decide) (by decide)]
    exact p5 M N hd

theorem renamesS_nodup : (renamesS.map Prod.fst ++ renamesS.map Prod.snd).Nodup := by decide +kernel
theorem renamesStage_nodup : (renamesStage.map Prod.fst ++ renamesStage.map Prod.snd).Nodup := by decide +kernel

/-- The number of columns of an option of vectors, or the field the user gave. -/
def widthS (v : Option (VPair V)) (d : Option (MVal K)) : Option (MVal K) :=
  match v with
  | some x => some (.one (x.1.arr.cols : K))
  | none => d

/-- What the user says about a parameter. -/
def givenS (a : SvdsArgs K V) (nm : String) : Option (MVal K) := renamed renamesS a.opts.rest nm

/-- The facts behind a struct of options that was made. -/
structure MadeS (h : Nat) (a : SvdsArgs K V) (x : Prepared K V) (b : Fields (MVal K)) (p : Option (HeldP V)) (m n : Nat) :
    Prop where
  based : BasedS a b
  nodup : x.fields.names.Nodup
  flat : Flat x.fields
  chosen : choosePrec a.P1 a.P2 = .ok p
  prec : p ≠ none → x.fields.get "applyPreconditioner" = some (.fn h) ∧ x.fields.get "precondition" = some (.one 1)
  noPrec : p = none → x.fields.get "applyPreconditioner" = a.opts.rest.get "applyPreconditioner" ∧
    x.fields.get "precondition" = a.opts.rest.get "precondition"
  others : ∀ nm, nm ∉ problemNamesS → x.fields.get nm = givenS a nm
  bases : ∀ nm, nm ∈ baseS → x.fields.get nm = (a.opts.rest.get nm).or (b.get nm)
  dimM : dimIn x.fields "m" = some m
  dimN : dimIn x.fields "n" = some n
  tested : testSvds a p m n = true
  type : x.fields.get "matrixMatvec_type" =
    if sparseSingleS a then some (.str "primme_op_double") else a.opts.rest.get "matrixMatvec_type"
  hortho : constraintsS a m n = .ok x.ortho
  hinit : guessesS a m n = .ok x.init
  ortho : x.fields.get "numOrthoConst" = widthS x.ortho (a.opts.rest.get "numOrthoConst")
  init : x.fields.get "initSize" = widthS x.init (a.opts.rest.get "initSize")
  eps : x.fields.get "eps" = some ((givenS a "eps").getD (.one (tolS a)))

theorem addWidth_ok (what : String) (p : Option (VPair V)) (o : Fields (MVal K)) :
    (o.names.Nodup → (addWidth what p o).names.Nodup) ∧ (Flat o → Flat (addWidth what p o)) ∧
    (∀ nm, nm ≠ what → (addWidth what p o).get nm = o.get nm) ∧ (addWidth what p o).get what = widthS p (o.get what) := by
  cases p with
  | none => exact ⟨id, id, fun _ _ => rfl, rfl⟩
  | some x =>
    exact ⟨fun h => nodup_set h _ _, fun h => flat_set h _ (by simp [MVal.one]),
      fun nm hn => by simp only [addWidth]; rw [get_set, if_neg hn], by simp only [addWidth]; rw [get_set, if_pos rfl]; rfl⟩

theorem optionsS_made {h : Nat} {a : SvdsArgs K V} {x : Prepared K V} (ha : Doc.OrdinaryS a) (ho : optionsS h a = .ok x) :
    ∃ b p m n, MadeS h a x b p m n := by
  unfold optionsS at ho
  obtain ⟨o0, h0, ho⟩ := bind_ok ho
  obtain ⟨o1, h1, ho⟩ := bind_ok ho
  obtain ⟨b, h2, ho⟩ := bind_ok ho
  obtain ⟨p, hp, ho⟩ := bind_ok ho
  have based := based_ok h0 h1 h2
  clear h0 h1 h2
  dsimp only at ho
  have hr : Fields.names a.opts.rest |>.Nodup := ha.nodup
  have mget : ∀ nm, (b.merge a.opts.rest).get nm = (a.opts.rest.get nm).or (b.get nm) := get_merge b hr
  have mdup : (b.merge a.opts.rest).names.Nodup := nodup_merge based.nodup
  have mflat : Flat (b.merge a.opts.rest) := by
    intro e he
    rcases mem_merge he with he | he
    · exact based.flat e he
    · exact ha.flat e he
  generalize b.merge a.opts.rest = o2 at mget mdup mflat ho
  have s3 : (addPrecS h p o2).names.Nodup ∧ Flat (addPrecS h p o2) ∧
      (∀ nm, nm ≠ "applyPreconditioner" → nm ≠ "precondition" → (addPrecS h p o2).get nm = o2.get nm) ∧
      (p ≠ none → (addPrecS h p o2).get "applyPreconditioner" = some (.fn h) ∧
        (addPrecS h p o2).get "precondition" = some (.one 1)) ∧
      (p = none → addPrecS h p o2 = o2) := by
    unfold addPrecS
    cases p with
    | none => exact ⟨mdup, mflat, fun _ _ _ => rfl, by simp, fun _ => rfl⟩
    | some q =>
      refine ⟨nodup_set (nodup_set mdup _ _) _ _, flat_set (flat_set mflat _ (by simp)) _ (by simp [MVal.one]), ?_, ?_,
        by simp⟩
      · intro nm n1 n2
        rw [get_set, if_neg n2, get_set, if_neg n1]
      · intro _
        exact ⟨by rw [get_set, if_neg (by decide), get_set, if_pos rfl], by rw [get_set, if_pos rfl]⟩
  obtain ⟨p1, p2, p3, p4, p5⟩ := s3
  generalize addPrecS h p o2 = o3 at p1 p2 p3 p4 p5 ho
  have s4 : (addTypeS a o3).names.Nodup ∧ Flat (addTypeS a o3) ∧
      (∀ nm, nm ≠ "matrixMatvec_type" → (addTypeS a o3).get nm = o3.get nm) ∧
      (addTypeS a o3).get "matrixMatvec_type" =
        if sparseSingleS a then some (.str "primme_op_double") else a.opts.rest.get "matrixMatvec_type" := by
    unfold addTypeS
    split
    · exact ⟨nodup_set p1 _ _, flat_set p2 _ (by simp), fun nm hn => by rw [get_set, if_neg hn],
        by rw [get_set, if_pos rfl]⟩
    · refine ⟨p1, p2, fun _ _ => rfl, ?_⟩
      rw [p3 _ (by decide) (by decide), mget, based.others _ (by decide), Option.or_none]
  obtain ⟨q1, q2, q3, q4⟩ := s4
  generalize addTypeS a o3 = o4 at q1 q2 q3 q4 ho
  cases hm : dimIn o4 "m" with
  | none => rw [hm] at ho; simp at ho
  | some m =>
  cases hn : dimIn o4 "n" with
  | none => rw [hm, hn] at ho; simp at ho
  | some n =>
  rw [hm, hn] at ho
  simp only at ho
  by_cases ht : testSvds a p m n = false
  · rw [if_pos ht] at ho; simp at ho
  rw [if_neg ht] at ho
  simp only [Bool.not_eq_false] at ht
  obtain ⟨c, hc, ho⟩ := bind_ok ho
  obtain ⟨g, hg, ho⟩ := bind_ok ho
  simp only [Res.ok.injEq] at ho
  subst ho
  have r1 : (renamesS.foldl rename o4).names.Nodup := nodup_renames q1 _
  have r2 : Flat (renamesS.foldl rename o4) := flat_renames q2 _
  have r3 : ∀ nm, (renamesS.foldl rename o4).get nm = renamed renamesS o4 nm := get_renames renamesS_nodup o4
  generalize renamesS.foldl rename o4 = o5 at r1 r2 r3
  have s6 : (addTolS a o5).names.Nodup ∧ Flat (addTolS a o5) ∧
      (∀ nm, nm ≠ "eps" → (addTolS a o5).get nm = o5.get nm) ∧
      (addTolS a o5).get "eps" = some ((o5.get "eps").getD (.one (tolS a))) := by
    unfold addTolS
    split
    · rename_i v hv
      exact ⟨r1, r2, fun _ _ => rfl, by rw [hv]; rfl⟩
    · rename_i hv
      exact ⟨nodup_set r1 _ _, flat_set r2 _ (by simp [MVal.one]), fun nm hn => by rw [get_set, if_neg hn],
        by rw [get_set, if_pos rfl, hv]; rfl⟩
  obtain ⟨x1, x2, x3, x4⟩ := s6
  generalize addTolS a o5 = o6 at x1 x2 x3 x4
  obtain ⟨v1, v2, v3, v4⟩ := addWidth_ok "numOrthoConst" c o6
  generalize addWidth "numOrthoConst" c o6 = o7 at v1 v2 v3 v4
  obtain ⟨w1, w2, w3, w4⟩ := addWidth_ok "initSize" g o7
  generalize addWidth "initSize" g o7 = o8 at w1 w2 w3 w4
  have olds : ∀ c ∈ renamesS, c.1 ∉ baseS ∧ c.1 ≠ "precondition" ∧ c.1 ≠ "applyPreconditioner" ∧
      c.1 ≠ "matrixMatvec_type" := by decide +kernel
  have short : ∀ c ∈ renamesS, o4.get c.1 = a.opts.rest.get c.1 := by
    intro c hc
    obtain ⟨c1, c2, c3, c4⟩ := olds c hc
    rw [q3 _ c4, p3 _ c3 c2, mget, based.others _ c1, Option.or_none]
  have base_free : ∀ nm ∈ problemNamesS, nm ≠ "eps" → nm ∉ renamesS.map Prod.fst ∧ nm ∉ renamesS.map Prod.snd := by
    decide +kernel
  have pass : ∀ nm, nm ∈ problemNamesS → nm ≠ "eps" → nm ≠ "numOrthoConst" → nm ≠ "initSize" → o8.get nm = o4.get nm := by
    intro nm hn h1 h2 h3
    obtain ⟨g1, g2⟩ := base_free nm hn h1
    rw [w3 _ h3, v3 _ h2, x3 _ h1, r3, renamed_plain g1 g2]
  have giv : ∀ nm, nm ∉ baseS → nm ≠ "precondition" → nm ≠ "applyPreconditioner" → nm ≠ "matrixMatvec_type" →
      o5.get nm = givenS a nm := by
    intro nm n1 n2 n3 n4
    rw [r3]
    unfold givenS
    refine renamed_congr short ?_
    rw [q3 _ n4, p3 _ n3 n2, mget, based.others _ n1, Option.or_none]
  refine ⟨b, p, m, n,
    { based := based
      nodup := w1 (v1 x1)
      flat := w2 (v2 x2)
      chosen := hp
      prec := fun hp' => ?_
      noPrec := fun hp' => ?_
      others := fun nm hn' => ?_
      bases := fun nm hn' => ?_
      dimM := ?_
      dimN := ?_
      tested := ht
      type := ?_
      hortho := hc
      hinit := hg
      ortho := ?_
      init := ?_
      eps := ?_ }⟩
  · obtain ⟨e1, e2⟩ := p4 hp'
    dsimp only
    exact ⟨by rw [pass _ (by decide) (by decide) (by decide) (by decide), q3 _ (by decide), e1],
      by rw [pass _ (by decide) (by decide) (by decide) (by decide), q3 _ (by decide), e2]⟩
  · dsimp only
    constructor <;>
    rw [pass _ (by decide) (by decide) (by decide) (by decide), q3 _ (by decide), p5 hp', mget,
      based.others _ (by decide), Option.or_none]
  · simp only [problemNamesS, List.mem_append, not_or] at hn'
    obtain ⟨n0, hn'⟩ := hn'
    simp only [List.mem_cons, List.not_mem_nil, or_false, not_or] at hn'
    dsimp only
    rw [w3 _ hn'.2.2.2.2.1, v3 _ hn'.2.2.2.1, x3 _ hn'.2.2.2.2.2]
    exact giv nm n0 hn'.2.1 hn'.1 hn'.2.2.1
  · have hb : ∀ nm ∈ baseS, nm ∈ problemNamesS ∧ nm ≠ "eps" ∧ nm ≠ "numOrthoConst" ∧ nm ≠ "initSize" ∧
        nm ≠ "precondition" ∧ nm ≠ "applyPreconditioner" ∧ nm ≠ "matrixMatvec_type" := by decide +kernel
    obtain ⟨b1, b2, b3, b4, b5, b6, b7⟩ := hb nm hn'
    dsimp only
    rw [pass nm b1 b2 b3 b4, q3 _ b7, p3 _ b6 b5, mget]
  · unfold dimIn at hm ⊢
    dsimp only
    rw [pass "m" (by decide) (by decide) (by decide) (by decide), hm]
  · unfold dimIn at hn ⊢
    dsimp only
    rw [pass "n" (by decide) (by decide) (by decide) (by decide), hn]
  · dsimp only
    rw [pass _ (by decide) (by decide) (by decide) (by decide), q4]
  · dsimp only
    have e : o5.get "numOrthoConst" = a.opts.rest.get "numOrthoConst" := by
      rw [giv _ (by decide) (by decide) (by decide) (by decide)]
      obtain ⟨g1, g2⟩ := base_free "numOrthoConst" (by decide) (by decide)
      exact renamed_plain g1 g2
    rw [w3 _ (by decide), v4, x3 _ (by decide), e]
  · dsimp only
    have e : o5.get "initSize" = a.opts.rest.get "initSize" := by
      rw [giv _ (by decide) (by decide) (by decide) (by decide)]
      obtain ⟨g1, g2⟩ := base_free "initSize" (by decide) (by decide)
      exact renamed_plain g1 g2
    rw [w4, v3 _ (by decide), x3 _ (by decide), e]
  · dsimp only
    rw [w3 _ (by decide), v3 _ (by decide), x4, giv _ (by decide) (by decide) (by decide) (by decide)]

/-! ## From the options to the call -/

/-- The shifts. -/
theorem seenS_shifts {D : SAddrs} {o : Fields (MVal K)} {start : Svds.SV K} {s : R.RState Svds.IF Svds.DF Svds.PF K}
    (hd : o.names.Nodup) (hf : Flat o)
    (hs : setAllM (svdsKind D.heap D.device D.text) (settings o) ⟨start, []⟩ = .ok s) :
    (∀ v, o.get "targetShifts" = some v → ∃ w, asShifts v = .ok w ∧ s.shifts = w ∧
      s.params.i .numTargetShifts = (w.length : Int) ∧ s.params.p .targetShifts = D.heap) ∧
    (o.get "targetShifts" = none → s.shifts = [] ∧ s.params.i .numTargetShifts = start.i .numTargetShifts ∧
      s.params.p .targetShifts = start.p .targetShifts) := by
  have keep : ∀ (s t : R.RState Svds.IF Svds.DF Svds.PF K) nm' v, nm' ≠ "targetShifts" →
      setMemberM (svdsKind D.heap D.device D.text) s nm' v = .ok t →
      (t.shifts, t.params.i .numTargetShifts, t.params.p .targetShifts) =
        (s.shifts, s.params.i .numTargetShifts, s.params.p .targetShifts) := by
    intro s t nm' v hn ht
    have h1 : ∀ e ∈ Svds.infoNames, e.2 = 21 → e.1 = "targetShifts" := by decide +kernel
    have h2 : ∀ e ∈ Svds.infoNames, ∀ p ∈ Py.Doc.svdsMembers, p.1 = e.1 → p.2 = .i .numTargetShifts →
        e.2 ∈ [1, 2, 9, 10, 11, 12, 14, 20, 24, 25, 38, 57, (60 : Int)] := by decide +kernel
    obtain ⟨r1, r2, r3⟩ := setMemberM_keeps_shifts (svds_kind D.heap D.device D.text) (nm' := "targetShifts")
      (fun nm l hl hq => h1 _ hl hq) (fun nm l hl hm => h2 _ hl _ hm rfl rfl) (.inl (by simp [svdsKind, Py.Doc.svdsType]))
      (by simp [svdsKind]) (by simp [svdsKind]) hn ht
    rw [r1]
    exact Prod.ext rfl (Prod.ext r2 r3)
  obtain ⟨l1, l2⟩ := flat_seen hd hf hs (fun s : R.RState Svds.IF Svds.DF Svds.PF K =>
    (s.shifts, s.params.i .numTargetShifts, s.params.p .targetShifts)) keep
  constructor
  · intro v hv
    obtain ⟨u, w, hu, hw⟩ := l1 v hv
    simp only [Prod.mk.injEq] at hw
    obtain ⟨l, m, hl, hm, ht⟩ := setMemberM_ok (svds_kind D.heap D.device D.text) hu
    have hl21 : l = 21 := (svds_kind D.heap D.device D.text).label _ _ _ hl
      (show ("targetShifts", (21 : Int)) ∈ Svds.infoNames by decide +kernel)
    rcases ht with ⟨-, h, -⟩ | ⟨-, -, z, h1, h2⟩ | ⟨-, h, -⟩ | ⟨-, h, -⟩ | ⟨-, h, -⟩
    · rw [hl21] at h; simp [svdsKind] at h
    · refine ⟨z, h1, ?_, ?_, ?_⟩
      · rw [hw.1, h2]
      · rw [hw.2.1, h2]
        exact rfl
      · rw [hw.2.2, h2]
        exact rfl
    · exact absurd hl21 h
    · exact absurd hl21 h
    · exact absurd hl21 h
  · intro hv
    have := l2 hv
    simpa only [Prod.mk.injEq] using this

/-- The functions of the user and the member with their handle. -/
def handleNamesS : List (String × Int × Svds.PF) :=
  [("matrixMatvec", 5, .matrix), ("applyPreconditioner", 7, .preconditioner), ("convTestFun", 55, .convtest),
   ("monitorFun", 58, .monitor)]

/-- The handles. -/
theorem seenS_handle {D : SAddrs} {o : Fields (MVal K)} {start : Svds.SV K} {s : R.RState Svds.IF Svds.DF Svds.PF K}
    (hd : o.names.Nodup) (hf : Flat o)
    (hs : setAllM (svdsKind D.heap D.device D.text) (settings o) ⟨start, []⟩ = .ok s) {nm : String} {l : Int} {f : Svds.PF}
    (hh : (nm, l, f) ∈ handleNamesS) :
    (∀ v, o.get nm = some v → ∃ x, v = .fn x ∧ s.params.p f = x) ∧
    (o.get nm = none → s.params.p f = start.p f) := by
  have tab : ∀ e ∈ handleNamesS, (e.1, e.2.1) ∈ Svds.infoNames ∧ Py.Doc.svdsType (.p e.2.2) = (.pointer, 1) ∧
      e.2.2 ≠ .commInfo ∧ e.2.2 ≠ .targetShifts ∧
      e.2.1 ≠ 35 ∧ e.2.1 ≠ 21 ∧ (svdsKind 0 0 0).handles.lookup e.2.1 = some e.2.2 := by decide +kernel
  obtain ⟨t1, t2, t3, t4, t7, t8, t9⟩ := tab _ hh
  simp only at t1 t2 t3 t4 t7 t8 t9
  have uniq : ∀ e ∈ handleNamesS, ∀ p ∈ Svds.infoNames, ∀ q ∈ (svdsKind 0 0 0).handles, q.1 = p.2 → q.2 = e.2.2 →
      p.1 = e.1 := by decide +kernel
  have keep : ∀ (s t : R.RState Svds.IF Svds.DF Svds.PF K) nm' v, nm' ≠ nm →
      setMemberM (svdsKind D.heap D.device D.text) s nm' v = .ok t → t.params.p f = s.params.p f := by
    intro s t nm' v hn ht
    refine setMemberM_keeps_handle (svds_kind D.heap D.device D.text) (nm' := nm) ?_ (by rw [t2]) (Ne.symm t3)
      (Ne.symm t4) hn ht
    intro nm2 l2 h1 h2
    exact uniq _ hh _ h1 _ h2 rfl rfl
  obtain ⟨l1, l2⟩ := flat_seen hd hf hs (fun s : R.RState Svds.IF Svds.DF Svds.PF K => s.params.p f) keep
  constructor
  · intro v hv
    obtain ⟨u, w, hu, hw⟩ := l1 v hv
    obtain ⟨l', m, hl, hm, ht⟩ := setMemberM_ok (svds_kind D.heap D.device D.text) hu
    have hle : l' = l := (svds_kind D.heap D.device D.text).label _ _ _ hl t1
    subst hle
    have hlook : (svdsKind D.heap D.device D.text).handles.lookup l' = some f := t9
    rcases ht with ⟨-, h, -⟩ | ⟨-, h, -⟩ | ⟨-, -, f', x, hf, hv', ht⟩ | ⟨-, -, h, -⟩ | ⟨-, -, h, -⟩
    · exact absurd h t7
    · exact absurd h t8
    · rw [hlook] at hf
      simp only [Option.some.injEq] at hf
      subst hf
      refine ⟨x, hv', ?_⟩
      rw [hw, ht]
      have := reads_put_self (ct := Svds.ctype) (m := .p f) (v := .ptr x) trivial u.params
      simpa only [reads, Val.ptr.injEq] using this
    · rw [hlook] at h; simp at h
    · rw [hlook] at h; simp at h
  · exact l2

theorem setMethodsS_ok {S : Svds.SEnv K} {a : SvdsArgs K V} {s t : SState K} (h : setMethodsS S a s = .ok t) :
    t.sv.shifts = s.sv.shifts ∧
    (∀ x, x ≠ .i .method → x ≠ .i .methodStage2 → reads t.sv.params x = reads s.sv.params x) ∧
    ∃ w w1 w2, asInt Svds.constTable (a.opts.method.getD (.str "primme_svds_default")) = .ok w ∧
      asInt Eigs.constTable (stageMethod a.opts.primme) = .ok w1 ∧
      asInt Eigs.constTable (stageMethod a.opts.primmeStage2) = .ok w2 ∧
      Svds.callSvdsMethod S 5 w w1 w2 s.params = some t.params := by
  unfold setMethodsS at h
  obtain ⟨w, h0, h⟩ := bind_ok h
  obtain ⟨w1, h1, h⟩ := bind_ok h
  obtain ⟨w2, h2, h⟩ := bind_ok h
  simp only [Res.ok.injEq] at h
  subst h
  refine ⟨rfl, fun x hx hx' => preset_reads S w w1 w2 s.params hx hx', w, w1, w2, h0, h1, h2, ?_⟩
  unfold svdsPreset
  rw [Svds.callMethod_total' S 0 w w1 w2 s.params]
  rfl

theorem addMonitorS_ok {D : SAddrs} {a : SvdsArgs K V} {t u : SState K} (h : addMonitorS D a t = .ok u) :
    u.st1 = t.st1 ∧ u.st2 = t.st2 ∧ u.sv.shifts = t.sv.shifts ∧
    (∀ x, x ≠ .p .monitor → reads u.sv.params x = reads t.sv.params x) ∧
    u.sv.params.p .monitor = if a.opts.report then D.objMonitor else t.sv.params.p .monitor := by
  unfold addMonitorS at h
  split at h
  · rename_i hr
    obtain ⟨v, hv, h⟩ := bind_ok h
    simp only [Res.ok.injEq] at h
    subst h
    obtain ⟨l, m, hl, hm, h⟩ := setMemberM_ok (svds_kind D.heap D.device D.text) hv
    have hl58 : l = 58 := (svds_kind D.heap D.device D.text).label _ _ _ hl
      (show ("monitorFun", (58 : Int)) ∈ Svds.infoNames by decide +kernel)
    subst hl58
    have hlook : (svdsKind D.heap D.device D.text).handles.lookup 58 = some .monitor := rfl
    rcases h with ⟨-, h, -⟩ | ⟨-, h, -⟩ | ⟨-, -, f, x, hf, hq, rfl⟩ | ⟨-, -, h, -⟩ | ⟨-, -, h, -⟩
    · simp [svdsKind] at h
    · simp [svdsKind] at h
    · rw [hlook] at hf
      simp only [Option.some.injEq] at hf
      subst hf
      simp only [MVal.fn.injEq] at hq
      subst hq
      refine ⟨rfl, rfl, rfl, fun x hx => ?_, ?_⟩
      · dsimp only
        exact reads_put_other _ hx _
      · rw [if_pos hr]
        have := reads_put_self (ct := Svds.ctype) (m := .p .monitor) (v := .ptr D.objMonitor) trivial t.sv.params
        simpa only [reads, Val.ptr.injEq] using this
    · rw [hlook] at h; simp at h
    · rw [hlook] at h; simp at h
  · rename_i hr
    simp only [Res.ok.injEq] at h
    subst h
    exact ⟨rfl, rfl, rfl, fun _ _ => rfl, by simp [hr]⟩

/-- The members `mexFunction_xprimme_svds` sets. -/
def enteredM : List (Member Svds.IF Svds.DF Svds.PF) :=
  [.p .matrixMatvec, .p .applyPreconditioner, .p .monitorFun, .p .convTestFun]

/-- What `mexFunction_xprimme_svds` did. -/
structure EnteredS (D : SAddrs) (junk : Nat → V) (a : SvdsArgs K V) (x : Prepared K V) (so : Bool) (u : SState K)
    (c : SCall K V) : Prop where
  kept : ∀ y, y ∉ enteredM → reads c.params.sv y = reads u.sv.params y
  st1 : c.params.st1 = u.st1.params
  st2 : c.params.st2 = u.st2.params
  matvec : c.params.sv.p .matrixMatvec = selectFun D.matvec (u.sv.params.i .matrixMatvec_type)
  prec : c.params.sv.p .applyPreconditioner = if u.sv.params.p .preconditioner = 0 then
    u.sv.params.p .applyPreconditioner else selectFun D.prec (u.sv.params.i .applyPreconditioner_type)
  monitor : c.params.sv.p .monitorFun = if u.sv.params.p .monitor = 0 then u.sv.params.p .monitorFun else D.monitor
  conv : c.params.sv.p .convTestFun = if u.sv.params.p .convtest = 0 then u.sv.params.p .convTestFun else D.conv
  solver : c.solver = solverS a
  shifts : c.shifts = u.sv.shifts
  sorted : c.sorted = so
  complex : c.complex = isComplexS a
  nonneg : 0 ≤ u.sv.params.i .numSvals ∧ 0 ≤ u.sv.params.i .m ∧ 0 ≤ u.sv.params.i .n ∧
    0 ≤ u.sv.params.i .numOrthoConst + max (u.sv.params.i .initSize) (u.sv.params.i .numSvals)
  values : c.values = (u.sv.params.i .numSvals).toNat
  size : c.size = (u.sv.params.i .numOrthoConst + max (u.sv.params.i .initSize) (u.sv.params.i .numSvals)).toNat *
    ((u.sv.params.i .m).toNat + (u.sv.params.i .n).toNat)
  real : 0 < u.sv.params.i .numOrthoConst + u.sv.params.i .initSize → isComplexS a = false →
    joinedComplex x.ortho x.init = false
  svecs : c.svecs = fun p =>
    if p < (u.sv.params.i .m).toNat * (u.sv.params.i .numOrthoConst + u.sv.params.i .initSize).toNat then
      joined (junk p) Prod.fst x.ortho x.init (p % (u.sv.params.i .m).toNat) (p / (u.sv.params.i .m).toNat)
    else if p < (u.sv.params.i .m).toNat * (u.sv.params.i .numOrthoConst + u.sv.params.i .initSize).toNat +
        (u.sv.params.i .n).toNat * (u.sv.params.i .numOrthoConst + u.sv.params.i .initSize).toNat then
      joined (junk p) Prod.snd x.ortho x.init
        ((p - (u.sv.params.i .m).toNat * (u.sv.params.i .numOrthoConst + u.sv.params.i .initSize).toNat) %
          (u.sv.params.i .n).toNat)
        ((p - (u.sv.params.i .m).toNat * (u.sv.params.i .numOrthoConst + u.sv.params.i .initSize).toNat) /
          (u.sv.params.i .n).toNat)
    else junk p

theorem enterS_ok {D : SAddrs} {junk : Nat → V} {a : SvdsArgs K V} {x : Prepared K V} {so : Bool} {u : SState K}
    {c : SCall K V} (h : enterS D junk a x so u = .ok c) : EnteredS D junk a x so u c := by
  unfold enterS at h
  dsimp only at h
  split at h
  · simp at h
  rename_i q1
  simp only [not_or, not_lt] at q1
  split at h
  · simp at h
  rename_i q2
  simp only [Res.ok.injEq] at h
  have other : ∀ (s : Svds.SV K) (f : Svds.PF) (x : Nat) (y : Member Svds.IF Svds.DF Svds.PF), y ≠ .p f →
      reads (put s (.p f) (.ptr x)) y = reads s y := fun s f x y hy => reads_put_other _ hy _
  have self : ∀ (s : Svds.SV K) (f : Svds.PF) (x : Nat), (put s (.p f) (.ptr x)).p f = x := by
    intro s f x
    have := reads_put_self (ct := Svds.ctype) (m := .p f) (v := .ptr x) trivial s
    simpa only [reads, Val.ptr.injEq] using this
  have po : ∀ {f f' : Svds.PF}, f' ≠ f → ∀ (s : Svds.SV K) (x : Nat), (put s (.p f) (.ptr x)).p f' = s.p f' :=
    fun hf s x => p_put_other hf s x
  subst h
  refine
    { kept := ?_, st1 := rfl, st2 := rfl, matvec := ?_, prec := ?_, monitor := ?_, conv := ?_, solver := rfl,
      shifts := rfl, sorted := rfl, complex := rfl, nonneg := q1, values := rfl, size := rfl, real := ?_, svecs := rfl }
  · intro x hx
    simp only [enteredM, List.mem_cons, List.not_mem_nil, or_false, not_or] at hx
    dsimp only
    split <;> split <;> split <;> simp only [other _ _ _ _ hx.1, other _ _ _ _ hx.2.1, other _ _ _ _ hx.2.2.1,
      other _ _ _ _ hx.2.2.2]
  · dsimp only
    split <;> split <;> split <;> simp only [po (show Svds.PF.matrixMatvec ≠ .applyPreconditioner by decide),
      po (show Svds.PF.matrixMatvec ≠ .monitorFun by decide),
      po (show Svds.PF.matrixMatvec ≠ .convTestFun by decide), self]
  · dsimp only
    split <;> split <;> split <;> simp only [po (show Svds.PF.applyPreconditioner ≠ .matrixMatvec by decide),
      po (show Svds.PF.applyPreconditioner ≠ .monitorFun by decide),
      po (show Svds.PF.applyPreconditioner ≠ .convTestFun by decide), self]
  · dsimp only
    split <;> split <;> split <;> simp only [po (show Svds.PF.monitorFun ≠ .matrixMatvec by decide),
      po (show Svds.PF.monitorFun ≠ .applyPreconditioner by decide),
      po (show Svds.PF.monitorFun ≠ .convTestFun by decide), self]
  · dsimp only
    split <;> split <;> split <;> simp only [po (show Svds.PF.convTestFun ≠ .matrixMatvec by decide),
      po (show Svds.PF.convTestFun ≠ .applyPreconditioner by decide),
      po (show Svds.PF.convTestFun ≠ .monitorFun by decide), self]
  · intro hp hx
    rw [not_and] at q2
    have q3 := q2 hp
    simp only [not_or, not_and, Bool.not_eq_true] at q3
    exact q3.2.2.2 hx

/-- The steps of a call. -/
structure CalledS (S : Svds.SEnv K) (D : SAddrs) (junk : Nat → V) (start : Svds.SP K) (a : SvdsArgs K V) (c : SCall K V)
    (x : Prepared K V) (b : Fields (MVal K)) (p : Option (HeldP V)) (m n : Nat) (s t u : SState K) : Prop where
  made : MadeS D.objPrec a x b p m n
  set : setAllM (svdsKind D.heap D.device D.text) (settings x.fields) ⟨start.sv, []⟩ = .ok s.sv
  set1 : setStage (eigsKind D.heap1 D.device D.text) a.opts.primme ⟨start.st1, []⟩ = .ok s.st1
  set2 : setStage (eigsKind D.heap2 D.device D.text) a.opts.primmeStage2 ⟨start.st2, []⟩ = .ok s.st2
  methods : setMethodsS S a s = .ok t
  monitor : addMonitorS D a t = .ok u
  entered : EnteredS D junk a x (sortsSvds x.fields) u c

theorem calledS {S : Svds.SEnv K} {D : SAddrs} {junk : Nat → V} {start : Svds.SP K} {a : SvdsArgs K V} {c : SCall K V}
    (h : prepareSvdsM S D junk start a = .ok c) (ha : Doc.OrdinaryS a) :
    ∃ x b p m n s t u, CalledS S D junk start a c x b p m n s t u := by
  unfold prepareSvdsM at h
  obtain ⟨x, h1, h⟩ := bind_ok h
  obtain ⟨v, h2, h⟩ := bind_ok h
  obtain ⟨s1, h3, h⟩ := bind_ok h
  obtain ⟨s2, h4, h⟩ := bind_ok h
  obtain ⟨t, h5, h⟩ := bind_ok h
  obtain ⟨u, h6, h⟩ := bind_ok h
  obtain ⟨b, p, m, n, made⟩ := optionsS_made ha h1
  exact ⟨x, b, p, m, n, ⟨v, s1, s2⟩, t, u, ⟨made, h2, h3, h4, h5, h6, enterS_ok h⟩⟩

section called
variable {S : Svds.SEnv K} {D : SAddrs} {junk : Nat → V} {start : Svds.SP K} {a : SvdsArgs K V} {c : SCall K V}
  {x : Prepared K V} {b : Fields (MVal K)} {p : Option (HeldP V)} {m n : Nat} {s t u : SState K}

/-- A member the methods, the monitor and the mex function leave. -/
theorem CalledS.kept (ca : CalledS S D junk start a c x b p m n s t u) {y : Member Svds.IF Svds.DF Svds.PF}
    (h1 : y ∉ enteredM) (h2 : y ≠ .i .method) (h3 : y ≠ .i .methodStage2) (h4 : y ≠ .p .monitor) :
    reads c.params.sv y = reads s.sv.params y := by
  rw [ca.entered.kept y h1, (addMonitorS_ok ca.monitor).2.2.2.1 y h4, (setMethodsS_ok ca.methods).2.1 y h2 h3]

/-- The same without the mex function. -/
theorem CalledS.mid (ca : CalledS S D junk start a c x b p m n s t u) {y : Member Svds.IF Svds.DF Svds.PF}
    (h2 : y ≠ .i .method) (h3 : y ≠ .i .methodStage2) (h4 : y ≠ .p .monitor) :
    reads u.sv.params y = reads s.sv.params y := by
  rw [(addMonitorS_ok ca.monitor).2.2.2.1 y h4, (setMethodsS_ok ca.methods).2.1 y h2 h3]

/-- A member with a value from the fields. -/
theorem CalledS.means (ca : CalledS S D junk start a c x b p m n s t u) {nm : String}
    {y : Member Svds.IF Svds.DF Svds.PF} (hm : (nm, y) ∈ Py.Doc.svdsMembers)
    (hc : y ∉ aliased (svdsKind D.heap D.device D.text)) {v : MVal K} (hv : x.fields.get nm = some v) {z : Val K}
    (hz : Doc.Means Svds.constTable y v z) (hf : fits Svds.ctype y z) : reads s.sv.params y = z :=
  flat_means (svds_kind D.heap D.device D.text) ca.made.nodup ca.made.flat ca.set hm hc hv hz hf

end called

theorem givenS_none {a : SvdsArgs K V} {nm : String} (h : nm ∉ a.opts.rest.map Prod.fst)
    (h' : ∀ c ∈ renamesS, c.2 = nm → c.1 ∉ a.opts.rest.map Prod.fst) : givenS a nm = none := by
  unfold givenS renamed
  split
  · rfl
  · split
    · rename_i c hc
      have h1 := List.mem_of_find?_eq_some hc
      have h2 : c.2 = nm := by simpa using List.find?_some hc
      have e : ∀ {k}, k ∉ a.opts.rest.map Prod.fst → a.opts.rest.get k = none := fun hk => get_none.2 hk
      rw [e (h' c h1 h2), e h]; rfl
    · exact get_none.2 h

end Verif.Mat
