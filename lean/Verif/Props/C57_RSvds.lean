import Verif.Proofs.RSvds
import Verif.Props.C54_PySvds
import Verif.Props.C56_REigs

set_option linter.unusedSectionVars false
set_option linter.unusedVariables false

/-!
# C57: the R function `svds` asks the library for what its arguments say

The theorems are about `prepareSvdsR`, the state in which `svds` calls the library, `svdsR`, the whole function, and the
compiled callbacks.  The names and their meaning are those of the documentation comments of `svds` (`Verif.R.Doc`) and of
the manual (`Py.Doc.svdsMembers`, `Py.Doc.eigsMembers`).
-/

namespace Verif.Props
open Verif.Members Verif.Py Verif.R

variable {K V : Type} [Field K] [LinearOrder K] [IsStrictOrderedRing K] [FloorRing K]
variable {S : Svds.SEnv K} {D : RSvdsAddrs} {junk : Nat → V} {start : Svds.SP K} {a : RSvdsArgs K V} {c : RSvdsCall K V}

/-- Whatever sets an integer member of the singular value solver by an option, as seen by the library. -/
private theorem get_int {o : Opts K} {x : Vectors V} {m m1 m2 : RVal K} {v : RState Svds.IF Svds.DF Svds.PF K}
    {s t : SState K} (ca : Called S D junk start a c o x m m1 m2 v s t) {nm : String} {f : Svds.IF}
    (hm : (nm, .i f) ∈ Py.Doc.svdsMembers) (hent : (.i f : Member Svds.IF Svds.DF Svds.PF) ∉ enteredS)
    (hc : f ≠ .numTargetShifts) (hk : KeptByPreset (.i f)) (hn : nm ∈ o.map Prod.fst) {k : Int}
    (hv : R.Doc.SvdsMeans (.i f) (o.exact nm) (.int k)) (hf : (Svds.ctype f).holds k) : c.params.sv.i f = k := by
  obtain ⟨u, w, h1, h2⟩ := (ca.at' nm _ hm (by simpa using hc)).1 hn
  have h3 := sset_means hm h1 hv hf
  have h4 := ca.entered.kept _ hent
  have h5 := ca.kept.2 (.i f) (.inl hk)
  rw [h5, h2, h3] at h4
  simpa only [reads, Val.int.injEq] using h4

private theorem means_nat {w : RVal K} {f : Svds.IF} {k : Nat} (h : w = .int [(k : Int)] ∨ w = .real [(k : K)])
    (hk : (k : Int) < 2 ^ 31) : R.Doc.SvdsMeans (.i f) w (.int k) := by
  rcases h with rfl | rfl
  · exact .int f k
  · have := R.Doc.SvdsMeans.whole (K := K) f (k : Int) ⟨by omega, hk⟩
    rwa [Int.cast_natCast] at this

/-- **The problem.**  When the library is called the structure holds the dimensions, the number of values, the tolerance
and the operators the arguments say, whatever the other options and the preset methods; the sizes of the preconditioners
are those of `A'A`, `AA'` and the augmented matrix. -/
theorem C57_problem {M N : Nat} (h : prepareSvdsR S D junk start a = .ok c) (hs : start.sv.i .mLocal = -1)
    (hs' : start.sv.i .nLocal = -1) (hd : R.Doc.Dims a M N) (hM : (M : Int) < 2 ^ 31) (hN : (N : Int) < 2 ^ 31) :
    c.params.sv.i .m = M ∧ c.params.sv.i .n = N ∧ c.params.sv.i .mLocal = M ∧ c.params.sv.i .nLocal = N ∧
    (∀ k : Nat, number a.NSvals = some (k : K) → k ≤ M ∧ k ≤ N ∧ c.params.sv.i .numSvals = k) ∧
    (∃ x, a.tol = .num x ∧ 0 ≤ x ∧ x < 1 ∧ c.params.sv.d .eps = x) ∧
    c.params.sv.p .matrix = D.objA ∧ c.params.sv.p .matrixMatvec = D.matvec ∧
    (a.prec ≠ .null → c.params.sv.p .preconditioner = D.objPrec ∧ c.params.sv.p .applyPreconditioner = D.prec ∧
      c.params.st1.i .correctionParams_precondition = 1 ∧ c.params.st2.i .correctionParams_precondition = 1) ∧
    (a.prec = .null → c.params.sv.p .preconditioner = start.sv.p .preconditioner ∧
      c.params.sv.p .applyPreconditioner = start.sv.p .applyPreconditioner) ∧
    (∀ p q r, a.prec = .list p q r → (∀ i j, p = .mat i j → i = N ∧ j = N) ∧ (∀ i j, q = .mat i j → i = M ∧ j = M) ∧
      ∀ i j, r = .mat i j → i = M + N ∧ j = M + N) := by
  obtain ⟨o, x, m, m1, m2, v, s, t, ca⟩ := svds_called h
  have made := ca.made
  have en := ca.entered
  have dims : ("m" ∈ o.map Prod.fst ∧ (o.exact "m" = .int [(M : Int)] ∨ o.exact "m" = .real [(M : K)])) ∧
      "n" ∈ o.map Prod.fst ∧ (o.exact "n" = .int [(N : Int)] ∨ o.exact "n" = .real [(N : K)]) := by
    rcases hd with ⟨y, hy, rfl, rfl⟩ | ⟨hA, h1, h2⟩
    · obtain ⟨⟨q1, q2⟩, q3, q4⟩ := made.dimMat y hy
      exact ⟨⟨q2, .inl q1⟩, q4, .inl q3⟩
    · obtain ⟨⟨q1, q2⟩, q3, q4⟩ := made.dim hA
      refine ⟨⟨q2.2 ?_, by rw [q1]; exact h1⟩, q4.2 ?_, by rw [q3]; exact h2⟩
      · rcases h1 with h | h <;> exact mem_of_exact _ (by rw [h]; simp)
      · rcases h2 with h | h <;> exact mem_of_exact _ (by rw [h]; simp)
  have hm : c.params.sv.i .m = M := get_int ca (nm := "m") (by decide +kernel) (by decide) (by decide)
    ⟨by decide, by decide⟩ dims.1.1 (means_nat dims.1.2 hM) ⟨by omega, by omega⟩
  have hn : c.params.sv.i .n = N := get_int ca (nm := "n") (by decide +kernel) (by decide) (by decide)
    ⟨by decide, by decide⟩ dims.2.1 (means_nat dims.2.2 hN) ⟨by omega, by omega⟩
  have hml : t.sv.params.i .mLocal = -1 := by
    have := ca.kept.2 (.i .mLocal) (.inl ⟨by decide, by decide⟩)
    simp only [reads, Val.int.injEq] at this
    rw [this, ca.local'.1, hs]
  have hnl : t.sv.params.i .nLocal = -1 := by
    have := ca.kept.2 (.i .nLocal) (.inl ⟨by decide, by decide⟩)
    simp only [reads, Val.int.injEq] at this
    rw [this, ca.local'.2, hs']
  obtain ⟨-, -, s3, s4⟩ := made.sizes M N hd
  refine ⟨hm, hn, ?_, ?_, ?_, ?_, en.matrix.1, en.matrix.2, ?_, ?_, s3⟩
  · have := en.kept (.i .m) (by decide)
    simp only [reads, Val.int.injEq] at this
    rw [en.mLocal, if_pos hml, ← this, hm]
  · have := en.kept (.i .n) (by decide)
    simp only [reads, Val.int.injEq] at this
    rw [en.nLocal, if_pos hnl, ← this, hn]
  · intro k hk
    obtain ⟨l1, l2⟩ := s4 _ hk
    have l1 : k ≤ M := by exact_mod_cast l1
    have l2 : k ≤ N := by exact_mod_cast l2
    obtain ⟨-, q1, q2⟩ := made.count
    refine ⟨l1, l2, get_int ca (nm := "numSvals") (by decide +kernel) (by decide) (by decide) ⟨by decide, by decide⟩ q2
      (means_nat ?_ (by omega)) ⟨by omega, by omega⟩⟩
    rw [q1]
    have := number_nat hk
    simpa using this
  · obtain ⟨e, q1, q2, q3, q4, q5⟩ := made.tol
    refine ⟨e, q1, q2, q3, ?_⟩
    obtain ⟨u, w, h5, h6⟩ := (ca.at' "eps" (.d .eps) (by decide +kernel) (by simp)).1 q5
    rw [q4] at h5
    have h7 := sset_means (x := .d .eps) (y := .dbl e) (by decide +kernel) h5 (.real _ _) trivial
    have h8 := en.kept (.d .eps) (by decide)
    have h9 := ca.kept.2 (.d .eps) (.inl ⟨by decide, by decide⟩)
    rw [h9, h6, h7] at h8
    simpa only [reads, Val.dbl.injEq] using h8
  · intro hp
    refine en.prec ?_
    have h1 := made.precBad
    cases hq : a.prec with
    | null => exact absurd hq hp
    | other => exact absurd hq h1
    | fn => simp [heldSvdsPrec]
    | list p q r => simp [heldSvdsPrec]
  · intro hp
    obtain ⟨q1, q2, -⟩ := en.noPrec (by rw [hp]; rfl)
    have name : ∀ nm f, (nm, (.p f : Member Svds.IF Svds.DF Svds.PF)) ∈ Py.Doc.svdsMembers → nm ∉ svdsTaken →
        (.p f : Member Svds.IF Svds.DF Svds.PF) ≠ .p .targetShifts →
        (Py.Doc.svdsType (.p f)).1 = .pointer → v.params.p f = start.sv.p f := by
      intro nm f hmem htk hne ht
      have hat := ca.at' nm (.p f) hmem (by simp)
      by_cases hin : nm ∈ o.map Prod.fst
      · obtain ⟨u, w, h1, -⟩ := hat.1 hin
        obtain ⟨l, y, hl, hy, hx⟩ := setMemberR_ok (svds_kind D.heap) h1
        have := member_unique svds_good hmem hy
        subst this
        rcases hx with ⟨h, -⟩ | ⟨h, -⟩ | ⟨-, -, -, -, -, ⟨z, h, -⟩ | ⟨z, h, -⟩⟩
        · simp at h
        · exact absurd h hne
        · rw [ht] at h; simp at h
        · rw [ht] at h; simp at h
      · have := hat.2 hin
        simpa only [reads, Val.ptr.injEq] using this
    have k1 := ca.kept.2 (.p .preconditioner) (.inl ⟨by decide, by decide⟩)
    have k2 := ca.kept.2 (.p .applyPreconditioner) (.inl ⟨by decide, by decide⟩)
    simp only [reads, Val.ptr.injEq] at k1 k2
    rw [q1, q2, k1, k2]
    exact ⟨name "preconditioner" _ (by decide +kernel) (by decide) (by decide) rfl,
      name "applyPreconditioner" _ (by decide +kernel) (by decide) (by decide) rfl⟩

/-- **Which singular values.**  "L" and "S" give the library the target of the documentation; numbers give the values
closest to those numbers, in their order.  No points are given to the library unless numbers are. -/
theorem C57_which (h : prepareSvdsR S D junk start a = .ok c) :
    (∀ w, a.which = .name w → ∃ t, (w, t) ∈ R.Doc.svdsWhich ∧ c.params.sv.i .target = t ∧
      ("targetShifts" ∉ a.opts.map Prod.fst → c.shifts = [] ∧
        c.params.sv.i .numTargetShifts = start.sv.i .numTargetShifts ∧
        c.params.sv.p .targetShifts = start.sv.p .targetShifts)) ∧
    (∀ l, a.which = .nums l → c.params.sv.i .target = 2 ∧ c.shifts = l ∧
      c.params.sv.i .numTargetShifts = (l.length : Int) ∧ c.params.sv.p .targetShifts = D.heap) := by
  obtain ⟨o, x, m, m1, m2, v, s, t, ca⟩ := svds_called h
  have made := ca.made
  have en := ca.entered
  have hcs : c.shifts = v.shifts := by rw [en.shifts, ca.kept.1]
  have hnum : c.params.sv.i .numTargetShifts = v.params.i .numTargetShifts := by
    have h1 := en.kept (.i .numTargetShifts) (by decide)
    rw [ca.kept.2 (.i .numTargetShifts) (.inl ⟨by decide, by decide⟩)] at h1
    simpa only [reads, Val.int.injEq] using h1
  have hptr : c.params.sv.p .targetShifts = v.params.p .targetShifts := by
    have h1 := en.kept (.p .targetShifts) (by decide)
    rw [ca.kept.2 (.p .targetShifts) (.inl ⟨by decide, by decide⟩)] at h1
    simpa only [reads, Val.ptr.injEq] using h1
  obtain ⟨tn, t1, t2, t3, t4⟩ := made.target
  have htgt : ∀ k : Int, constantInfo Svds.constTable tn = .ok k → 0 ≤ k ∧ k < 2 ^ 32 → c.params.sv.i .target = k := by
    intro k hk hr
    exact get_int ca (nm := "target") (by decide +kernel) (by decide) (by decide) ⟨by decide, by decide⟩ t2
      (by rw [t1]; exact .name _ _ _ hk) hr
  have constants : constantInfo Svds.constTable "primme_svds_largest" = .ok 0 ∧
      constantInfo Svds.constTable "primme_svds_smallest" = .ok 1 ∧
      constantInfo Svds.constTable "primme_svds_closest_abs" = .ok 2 := by decide +kernel
  obtain ⟨c1, c2, c3⟩ := constants
  constructor
  · intro w hw
    have rest : "targetShifts" ∉ a.opts.map Prod.fst → c.shifts = [] ∧
        c.params.sv.i .numTargetShifts = start.sv.i .numTargetShifts ∧
        c.params.sv.p .targetShifts = start.sv.p .targetShifts := by
      intro ho
      have hno : "targetShifts" ∉ o.map Prod.fst := fun hh => ho ((made.noPoints w hw).2.1 hh)
      obtain ⟨q1, q2⟩ := ca.shiftsOut hno
      have q3 := (ca.at' "targetShifts" (.p .targetShifts) (by decide +kernel) (by simp)).2 hno
      simp only [reads, Val.ptr.injEq] at q3
      exact ⟨by rw [hcs, q1], by rw [hnum, q2], by rw [hptr, q3]⟩
    rcases t3 w hw with ⟨rfl, rfl⟩ | ⟨rfl, rfl⟩
    · exact ⟨0, by decide, htgt 0 c1 (by omega), rest⟩
    · exact ⟨1, by decide, htgt 1 c2 (by omega), rest⟩
  · intro l hl
    have htn := t4 l hl
    subst htn
    obtain ⟨h1, h2⟩ := made.points l hl
    obtain ⟨w, h3, h4, h5, h6⟩ := ca.shiftsIn h2
    rw [h1] at h3
    simp only [asDoubles, Res.ok.injEq] at h3
    subst h3
    exact ⟨htgt 2 c3 (by omega), by rw [hcs, h4], by rw [hnum, h5], by rw [hptr, h6]⟩

/-- The names of parameters whose value comes from the other arguments, or is not a parameter. -/
def C57_own : List String :=
  ["m", "n", "numSvals", "target", "targetShifts", "eps", "method", "methodStage1", "methodStage2", "initSize",
   "numOrthoConst", "mLocal", "nLocal", "matrix", "matrixMatvec", "preconditioner", "applyPreconditioner",
   "numTargetShifts"]

private theorem own_out : ∀ e ∈ Py.Doc.svdsMembers, e.1 ∉ C57_own → e.2 ≠ .i .numTargetShifts ∧ e.2 ∉ enteredS ∧
    e.1 ∉ svdsTaken ∧ e.2 ≠ .i .method ∧ e.2 ≠ .i .methodStage2 := by decide +kernel

/-- **Options.**  An option with the name of a parameter of the manual gives that parameter the value, whatever the
preset methods. -/
theorem C57_options (h : prepareSvdsR S D junk start a = .ok c) {nm : String} {x : Member Svds.IF Svds.DF Svds.PF}
    {y : Val K} (hm : (nm, x) ∈ Py.Doc.svdsMembers) (hn : nm ∉ C57_own)
    (hv : R.Doc.SvdsMeans x (a.opts.exact nm) y) (hy : fits Svds.ctype x y) : reads c.params.sv x = y := by
  obtain ⟨o, xs, m, m1, m2, v, s, t, ca⟩ := svds_called h
  obtain ⟨q1, q2, q3, q4, q5⟩ := own_out _ hm hn
  have hmem : nm ∈ a.opts.map Prod.fst := mem_of_exact _ (by rintro hx; rw [hx] at hv; cases hv)
  obtain ⟨h1, h2⟩ := ca.made.others nm q3
  obtain ⟨u, w, hu, hr⟩ := (ca.at' nm x hm q1).1 (h2.2 hmem)
  rw [h1] at hu
  rw [ca.entered.kept x q2, ca.kept.2 x (.inl ⟨q4, q5⟩), hr, sset_means hm hu hv hy]

/-- **Nothing else.**  A parameter of the singular value solver that no argument names keeps the value of the fresh
structure. -/
theorem C57_nothing_else (h : prepareSvdsR S D junk start a = .ok c) {nm : String} {x : Member Svds.IF Svds.DF Svds.PF}
    (hm : (nm, x) ∈ Py.Doc.svdsMembers) (hn : nm ∉ C57_own) (hno : nm ∉ a.opts.map Prod.fst) :
    reads c.params.sv x = reads start.sv x := by
  obtain ⟨o, xs, m, m1, m2, v, s, t, ca⟩ := svds_called h
  obtain ⟨q1, q2, q3, q4, q5⟩ := own_out _ hm hn
  obtain ⟨h1, h2⟩ := ca.made.others nm q3
  rw [ca.entered.kept x q2, ca.kept.2 x (.inl ⟨q4, q5⟩), (ca.at' nm x hm q1).2 (fun hh => hno (h2.1 hh))]

/-! ## The stages and the preset methods -/

private theorem setAll_names {IF DF PF : Type} [DecidableEq IF] [DecidableEq DF] [DecidableEq PF] {P : Kind IF DF PF}
    {ct : IF → CType} {ptype : Member IF DF PF → PType × Nat} {mem : List (String × Member IF DF PF)}
    (g : GoodKind P ct ptype mem) {o : Opts K} (L : List String) (u w : RState IF DF PF K)
    (h : setAll P o L u = .ok w) : ∀ nm ∈ L, ∃ y, (nm, y) ∈ mem := by
  induction L generalizing u with
  | nil => simp
  | cons y r ih =>
    intro nm hn
    unfold setAll at h
    obtain ⟨z, hz, h⟩ := bind_ok h
    rcases List.mem_cons.1 hn with rfl | hn
    · obtain ⟨l, y, -, hy, -⟩ := setMemberR_ok g hz
      exact ⟨y, hy⟩
    · exact ih _ h nm hn

private theorem stages_names {l : List (String × Opts K)} {s t : SState K} (h : setStages D l s = .ok t) :
    ∀ e ∈ l, (e.1 = "primme" ∨ e.1 = "primmeStage2") ∧ ∀ nm ∈ e.2.map Prod.fst, ∃ y, (nm, y) ∈ Py.Doc.eigsMembers := by
  induction l generalizing s with
  | nil => simp
  | cons e r ih =>
    unfold setStages at h
    intro f hf
    split at h
    · rename_i he
      obtain ⟨u, hu, h⟩ := bind_ok h
      rcases List.mem_cons.1 hf with rfl | hf
      · exact ⟨.inl he, setAll_names (eigs_kind D.heap1) _ _ _ hu⟩
      · exact ih h f hf
    · split at h
      · rename_i he
        obtain ⟨u, hu, h⟩ := bind_ok h
        rcases List.mem_cons.1 hf with rfl | hf
        · exact ⟨.inr he, setAll_names (eigs_kind D.heap2) _ _ _ hu⟩
        · exact ih h f hf
      · simp at h

private theorem stages_first {l : List (String × Opts K)} {s t : SState K} (h : setStages D l s = .ok t) :
    ("primme" ∉ l.map Prod.fst → t.st1 = s.st1) ∧
    ((l.map Prod.fst).Nodup → ∀ o, ("primme", o) ∈ l → setAll (eigsKind D.heap1) o (o.map Prod.fst) s.st1 = .ok t.st1) := by
  induction l generalizing s with
  | nil => simp only [setStages, Res.ok.injEq] at h; subst h; simp
  | cons e r ih =>
    unfold setStages at h
    split at h
    · rename_i he
      obtain ⟨u, hu, h⟩ := bind_ok h
      have hi := ih h
      refine ⟨by simp [he], ?_⟩
      intro hd o ho
      rw [List.map_cons, List.nodup_cons] at hd
      rcases List.mem_cons.1 ho with rfl | ho
      · rw [hi.1 (by rw [← he]; exact hd.1)]
        exact hu
      · exact absurd (List.mem_map_of_mem (f := Prod.fst) ho) (by rw [← he]; exact hd.1)
    · rename_i he
      split at h
      · obtain ⟨u, hu, h⟩ := bind_ok h
        have hi := ih h
        constructor
        · intro hn
          exact hi.1 (fun hh => hn (by simp [hh]))
        · intro hd o ho
          rw [List.map_cons, List.nodup_cons] at hd
          rcases List.mem_cons.1 ho with rfl | ho
          · exact absurd rfl he
          · exact hi.2 hd.2 o ho
      · simp at h

private theorem stages_second {l : List (String × Opts K)} {s t : SState K} (h : setStages D l s = .ok t) :
    ("primmeStage2" ∉ l.map Prod.fst → t.st2 = s.st2) ∧
    ((l.map Prod.fst).Nodup → ∀ o, ("primmeStage2", o) ∈ l →
      setAll (eigsKind D.heap2) o (o.map Prod.fst) s.st2 = .ok t.st2) := by
  induction l generalizing s with
  | nil => simp only [setStages, Res.ok.injEq] at h; subst h; simp
  | cons e r ih =>
    unfold setStages at h
    split at h
    · rename_i he
      obtain ⟨u, hu, h⟩ := bind_ok h
      have hi := ih h
      constructor
      · intro hn
        exact hi.1 (fun hh => hn (by simp [hh]))
      · intro hd o ho
        rw [List.map_cons, List.nodup_cons] at hd
        rcases List.mem_cons.1 ho with rfl | ho
        · exact absurd he (by simp)
        · exact hi.2 hd.2 o ho
    · split at h
      · rename_i he
        obtain ⟨u, hu, h⟩ := bind_ok h
        have hi := ih h
        refine ⟨by simp [he], ?_⟩
        intro hd o ho
        rw [List.map_cons, List.nodup_cons] at hd
        rcases List.mem_cons.1 ho with rfl | ho
        · rw [hi.1 (by rw [← he]; exact hd.1)]
          exact hu
        · exact absurd (List.mem_map_of_mem (f := Prod.fst) ho) (by rw [← he]; exact hd.1)
      · simp at h

/-- The structure `p` of the solver of a stage is `fresh` with the options of the list under the name `stage`: members
the list names have the value given there, the others keep theirs. -/
def C57_Stage (fresh : Eigs.EP K) (lists : List (String × Opts K)) (stage : String) (p : Eigs.EP K) : Prop :=
  (stage ∉ lists.map Prod.fst → p = fresh) ∧
  ∀ l, (stage, l) ∈ lists → ∀ nm x, (nm, x) ∈ Py.Doc.eigsMembers → nm ≠ "numTargetShifts" →
    (nm ∉ l.map Prod.fst → reads p x = reads fresh x) ∧
    ∀ y, R.Doc.Means x (l.exact nm) y → fits Eigs.ctype x y → reads p x = y

private theorem stage_holds {heap : Nat} {fresh : Eigs.EP K} {lists : List (String × Opts K)} {stage : String} {q : ES K}
    (h1 : stage ∉ lists.map Prod.fst → q = ⟨fresh, []⟩)
    (h2 : ∀ o, (stage, o) ∈ lists → setAll (eigsKind heap) o (o.map Prod.fst) ⟨fresh, []⟩ = .ok q) :
    C57_Stage fresh lists stage q.params := by
  refine ⟨fun hn => by rw [h1 hn], ?_⟩
  intro l hl nm x hx hn
  have hc : ∀ e ∈ Py.Doc.eigsMembers, e.1 ≠ "numTargetShifts" → e.2 ≠ .i .numTargetShifts := by decide +kernel
  obtain ⟨q1, q2⟩ := setAll_at (eigs_kind heap) (h2 l hl) hx (hc _ hx hn)
  refine ⟨q2, ?_⟩
  intro y hy hf
  obtain ⟨u, w, hu, hr⟩ := q1 (mem_of_exact _ (by rintro hz; rw [hz] at hy; cases hy))
  rw [hr, eset_means hx hu hy hf]

/-- A name given by an option, or the default. -/
def C57_Named (o : Opts K) (nm default : String) (name : String) : Prop :=
  o.exact nm = .str [name] ∨ o.exact nm = .null ∧ name = default

private theorem named {consts : List (String × Int)} {o : Opts K} {nm default : String} {v : Int}
    (h : constOf consts (methodName (o.exact nm) default) = some v) :
    ∃ name, C57_Named o nm default name ∧ constantInfo consts name = .ok v := by
  cases hq : o.exact nm with
  | null =>
    rw [hq] at h
    simp only [methodName, constOf] at h
    split at h
    · rename_i w hw
      simp only [Option.some.injEq] at h
      exact ⟨default, .inr ⟨hq, rfl⟩, by rw [hw, h]⟩
    · simp at h
  | str l =>
    rw [hq] at h
    simp only [methodName] at h
    unfold constOf at h
    split at h
    · rename_i w hw
      split at h
      · rename_i z hz
        simp only [Option.some.injEq] at h
        simp only [RVal.str.injEq] at hw
        subst hw
        exact ⟨w, .inl hq, by rw [hz, h]⟩
      · simp at h
    · simp at h
  | int l => rw [hq] at h; simp [methodName, constOf] at h
  | real l => rw [hq] at h; simp [methodName, constOf] at h
  | other => rw [hq] at h; simp [methodName, constOf] at h

/-- **The stages and the preset methods.**  The solver of each stage is set by the options of its list (`primme` and
`primmeStage2`).  When no preset method is asked for, it is that; otherwise the three methods (those not given count as the
default ones) are names of constants and the library's own function is applied to the structure `u` with all the
options; the operators are those the manual lists for the method and the dimensions.  After that only the use of the
preconditioner may change. -/
theorem C57_method {M N : Nat} (h : prepareSvdsR S D junk start a = .ok c) (hs : start.sv.i .mLocal = -1)
    (hs' : start.sv.i .nLocal = -1) (hd : R.Doc.Dims a M N) (hM : (M : Int) < 2 ^ 31) (hN : (N : Int) < 2 ^ 31)
    (once : (a.stages.map Prod.fst).Nodup) :
    ∃ u t : Svds.SP K, C57_Stage start.st1 a.stages "primme" u.st1 ∧ C57_Stage start.st2 a.stages "primmeStage2" u.st2 ∧
      (∀ x, x ∉ enteredS → x ≠ .i .method → x ≠ .i .methodStage2 → reads u.sv x = reads c.params.sv x) ∧
      (∀ x, x ≠ .i .correctionParams_precondition ∨ a.prec = .null →
        reads c.params.st1 x = reads t.st1 x ∧ reads c.params.st2 x = reads t.st2 x) ∧
      c.params.sv.i .method = t.sv.i .method ∧ c.params.sv.i .methodStage2 = t.sv.i .methodStage2 ∧
      ((∀ nm ∈ ["method", "methodStage1", "methodStage2"], a.opts.exact nm = .null) → t = u) ∧
      ((∃ nm ∈ ["method", "methodStage1", "methodStage2"], a.opts.exact nm ≠ .null) → ∃ m m1 m2 w w1 w2,
        C57_Named a.opts "method" "primme_svds_default" m ∧ constantInfo Svds.constTable m = .ok w ∧
        C57_Named a.opts "methodStage1" "PRIMME_DEFAULT_METHOD" m1 ∧ constantInfo Eigs.constTable m1 = .ok w1 ∧
        C57_Named a.opts "methodStage2" "PRIMME_DEFAULT_METHOD" m2 ∧ constantInfo Eigs.constTable m2 = .ok w2 ∧
        Svds.callSvdsMethod S 5 w w1 w2 u = some t ∧
        (0 ≤ w ∧ w ≤ 3 → (c.params.sv.i .method, c.params.sv.i .methodStage2) = Svds.Doc.presetOps w M N)) := by
  obtain ⟨p1, p2, -⟩ := C57_problem h hs hs' hd hM hN
  obtain ⟨o, x, m, m1, m2, v, s, t, ca⟩ := svds_called h
  have en := ca.entered
  have f1 := stages_first ca.stages
  have f2 := stages_second ca.stages
  have fv := setStages_sv ca.stages
  dsimp only at f1 f2 fv
  obtain ⟨e1, e2, e3⟩ := ca.made.methods
  have hm1 : c.params.sv.i .method = t.params.sv.i .method := by
    have := en.kept (.i .method) (by decide)
    simp only [reads, Val.int.injEq] at this
    exact this
  have hm2 : c.params.sv.i .methodStage2 = t.params.sv.i .methodStage2 := by
    have := en.kept (.i .methodStage2) (by decide)
    simp only [reads, Val.int.injEq] at this
    exact this
  refine ⟨s.params, t.params, ?_, ?_, ?_, ?_, hm1, hm2, ?_, ?_⟩
  · exact stage_holds f1.1 (f1.2 once)
  · exact stage_holds f2.1 (f2.2 once)
  · intro y h1 h2 h3
    show reads s.sv.params y = _
    rw [en.kept y h1, ca.kept.2 y (.inl ⟨h2, h3⟩), fv]
  · intro y hy
    rcases hy with hy | hy
    · exact en.stages y hy
    · obtain ⟨-, -, q1, q2⟩ := en.noPrec (by rw [hy]; rfl)
      rw [q1, q2]
      exact ⟨rfl, rfl⟩
  · intro hn
    have q1 := hn "method" (by decide)
    have q2 := hn "methodStage1" (by decide)
    have q3 := hn "methodStage2" (by decide)
    have := (setMethods_ok ca.methods).2.1 (by rw [e1, q1]) (by rw [e2, q2]) (by rw [e3, q3])
    rw [this]
  · intro hex
    have hq := ca.methods
    unfold setMethods at hq
    rw [if_neg] at hq
    · split at hq
      · rename_i w w1 w2 h0 h1 h2
        simp only [Res.ok.injEq] at hq
        rw [e1] at h0
        rw [e2] at h1
        rw [e3] at h2
        obtain ⟨n0, k0, c0⟩ := named h0
        obtain ⟨n1, k1, c1⟩ := named h1
        obtain ⟨n2, k2, c2⟩ := named h2
        have hcall : Svds.callSvdsMethod S 5 w w1 w2 s.params = some t.params := by
          rw [← hq]
          unfold svdsPreset
          rw [Svds.callMethod_total' S 0 w w1 w2 s.params]
          rfl
        refine ⟨n0, n1, n2, w, w1, w2, k0, c0, k1, c1, k2, c2, hcall, ?_⟩
        intro hw
        rw [hm1, hm2, (C10_documented_operators hcall hw).1]
        have r1 := en.kept (.i .m) (by decide)
        have r2 := en.kept (.i .n) (by decide)
        rw [ca.kept.2 (.i .m) (.inl ⟨by decide, by decide⟩), ← fv] at r1
        rw [ca.kept.2 (.i .n) (.inl ⟨by decide, by decide⟩), ← fv] at r2
        simp only [reads, Val.int.injEq] at r1 r2
        show Svds.Doc.presetOps w (s.sv.params.i .m) (s.sv.params.i .n) = _
        rw [← r1, ← r2, p1, p2]
      · simp at hq
    · rintro ⟨q1, q2, q3⟩
      obtain ⟨nm, hn, hx⟩ := hex
      simp only [List.mem_cons, List.not_mem_nil, or_false] at hn
      rcases hn with rfl | rfl | rfl
      · exact hx (e1 ▸ q1)
      · exact hx (e2 ▸ q2)
      · exact hx (e3 ▸ q3)

/-- **Always defined.**  Whatever the arguments, getting to the call of the library is not undefined. -/
theorem C57_defined (S : Svds.SEnv K) (D : RSvdsAddrs) (junk : Nat → V) (start : Svds.SP K) (a : RSvdsArgs K V) :
    prepareSvdsR S D junk start a ≠ .ub := by
  have bind_ub : ∀ {α β : Type} {r : Res α} {f : α → Res β}, r ≠ .ub → (∀ x, r = .ok x → f x ≠ .ub) → r.bind f ≠ .ub := by
    intro α β r f h1 h2
    cases r with
    | ok x => exact h2 x rfl
    | raise e => simp [Res.bind]
    | ub => exact absurd rfl h1
  have huv : ∀ o u v, checkUV a o u v ≠ .ub := by
    intro o u v
    unfold checkUV
    split
    · simp
    · dsimp only
      repeat' split
      all_goals simp
  have hopt : svdsOptions a ≠ .ub := by
    unfold svdsOptions
    refine bind_ub ?_ fun o1 _ => bind_ub ?_ fun o2 _ => bind_ub ?_ fun o3 _ => bind_ub ?_ fun o4 _ =>
      bind_ub (huv _ _ _) fun _ _ => bind_ub (huv _ _ _) fun _ _ => ?_
    · unfold setDims; split <;> (try split) <;> simp
    · unfold setSvals; split <;> (try split) <;> simp
    · unfold setSvdsWhich; split <;> (try split) <;> (try split) <;> simp
    · unfold setSvdsTol; split <;> (try split) <;> simp
    · split
      · simp
      · split <;> simp
  have hst : ∀ (l : List (String × Opts K)) s, setStages D l s ≠ .ub := by
    intro l
    induction l with
    | nil => simp [setStages]
    | cons e r ih =>
      intro s
      unfold setStages
      split
      · exact bind_ub (setAll_no_ub (eigs_kind _) _ _ _) fun _ _ => ih _
      · split
        · exact bind_ub (setAll_no_ub (eigs_kind _) _ _ _) fun _ _ => ih _
        · simp
  unfold prepareSvdsR
  refine bind_ub hopt fun p _ => bind_ub (setAll_no_ub (svds_kind _) _ _ _) fun _ _ => bind_ub (hst _ _) fun _ _ =>
    bind_ub ?_ fun t _ => ?_
  · unfold setMethods
    split
    · simp
    · split <;> simp
  · unfold enterSvds
    dsimp only
    generalize localDims t.sv.params = v0
    repeat' split
    all_goals simp

/-- Arguments that say nothing sensible. -/
inductive C57_Bad (a : RSvdsArgs K V) : Prop where
  | operator (h : a.A = .bad)
  | noRows (h : a.A = .fn) (h' : whole (a.opts.dollar "m") = false)
  | noColumns (h : a.A = .fn) (h' : whole (a.opts.dollar "n") = false)
  | fraction (h : whole a.NSvals = false)
  | count (M N : Nat) (hN : R.Doc.Dims a M N) (k : K) (h : number a.NSvals = some k) (h' : (M : K) < k ∨ (N : K) < k)
  | name (w : String) (h : a.which = .name w) (h' : ∀ e ∈ R.Doc.svdsWhich, e.1 ≠ w)
  | whichOther (h : a.which = .other)
  | tolerance (x : K) (h : a.tol = .num x) (h' : x < 0 ∨ 1 ≤ x)
  | tolOther (h : ∀ x, a.tol ≠ .num x)
  | left (M N : Nat) (hN : R.Doc.Dims a M N) (v : Arr V) (h : a.u0 = .mat v ∨ a.orthou = .mat v) (h' : v.rows ≠ M)
  | right (M N : Nat) (hN : R.Doc.Dims a M N) (v : Arr V) (h : a.v0 = .mat v ∨ a.orthov = .mat v) (h' : v.rows ≠ N)
  | guesses (u v : Arr V) (h : a.u0 = .mat u ∧ a.v0 = .mat v) (h' : u.cols ≠ v.cols)
  | constraints (u v : Arr V) (h : a.orthou = .mat u ∧ a.orthov = .mat v) (h' : u.cols ≠ v.cols)
  | vectors (h : a.u0 = .other ∨ a.v0 = .other ∨ a.orthou = .other ∨ a.orthov = .other)
  | prec (M N : Nat) (hN : R.Doc.Dims a M N) (p q r : RPrec) (h : a.prec = .list p q r) (i j : Nat)
      (h' : p = .mat i j ∧ (i ≠ N ∨ j ≠ N) ∨ q = .mat i j ∧ (i ≠ M ∨ j ≠ M) ∨ r = .mat i j ∧ (i ≠ M + N ∨ j ≠ M + N))
  | precModes (p q r : RPrec) (h : a.prec = .list p q r) (h' : p = .other ∨ q = .other ∨ r = .other)
  | precOther (h : a.prec = .other)
  | isreal (h : a.isreal = .other)
  | option (e : String × RVal K) (h : e ∈ a.opts) (h' : ∀ p ∈ Py.Doc.svdsMembers, p.1 ≠ e.1)
      (h'' : e.1 ∉ ["method", "methodStage1", "methodStage2"])
  | stage (e : String × Opts K) (h : e ∈ a.stages) (h' : e.1 ≠ "primme" ∧ e.1 ≠ "primmeStage2")
  | nested (e : String × Opts K) (h : e ∈ a.stages) (f : String × RVal K) (hf : f ∈ e.2)
      (h' : ∀ p ∈ Py.Doc.eigsMembers, p.1 ≠ f.1)
  | preset (nm : String) (h : a.opts.exact "method" = .str [nm]) (h' : ∀ v, constantInfo Svds.constTable nm ≠ .ok v)
  | presetStage (w nm : String) (hw : w = "methodStage1" ∨ w = "methodStage2") (h : a.opts.exact w = .str [nm])
      (h' : ∀ v, constantInfo Eigs.constTable nm ≠ .ok v)

private theorem presets_named {m m1 m2 : RVal K} {s t : SState K} (h : setMethods S m m1 m2 s = .ok t) :
    (∀ nm, m = .str [nm] → ∃ v, constantInfo Svds.constTable nm = .ok v) ∧
    (∀ nm, m1 = .str [nm] → ∃ v, constantInfo Eigs.constTable nm = .ok v) ∧
    (∀ nm, m2 = .str [nm] → ∃ v, constantInfo Eigs.constTable nm = .ok v) := by
  have one : ∀ (consts : List (String × Int)) d nm v, constOf consts (methodName (.str [nm] : RVal K) d) = some v →
      ∃ v, constantInfo consts nm = .ok v := by
    intro consts d nm v hv
    simp only [methodName, constOf] at hv
    split at hv
    · rename_i w hw; exact ⟨w, hw⟩
    · simp at hv
  unfold setMethods at h
  split at h
  · rename_i hn
    refine ⟨?_, ?_, ?_⟩ <;> intro nm hx
    · rw [hn.1] at hx; simp at hx
    · rw [hn.2.1] at hx; simp at hx
    · rw [hn.2.2] at hx; simp at hx
  · split at h
    · rename_i c c1 c2 h0 h1 h2
      refine ⟨?_, ?_, ?_⟩ <;> rintro nm rfl
      · exact one _ _ _ _ h0
      · exact one _ _ _ _ h1
      · exact one _ _ _ _ h2
    · simp at h

/-- **Bad arguments raise an error before the library is called.** -/
theorem C57_rejects (h : C57_Bad a) : ∃ e, prepareSvdsR S D junk start a = .raise e := by
  cases hp : prepareSvdsR S D junk start a with
  | raise e => exact ⟨e, rfl⟩
  | ub => exact absurd hp (C57_defined _ _ _ _ _)
  | ok c =>
    exfalso
    obtain ⟨o, x, m, m1, m2, v, s, t, ca⟩ := svds_called hp
    have made := ca.made
    cases h with
    | operator h => exact made.dimBad h
    | noRows h h' => have := (made.dimFn h).1; rw [h'] at this; simp at this
    | noColumns h h' => have := (made.dimFn h).2; rw [h'] at this; simp at this
    | fraction h => have := made.count.1; rw [h] at this; simp at this
    | count M N hN k h h' =>
      obtain ⟨q1, q2⟩ := (made.sizes M N hN).2.2.2 k h
      rcases h' with h' | h'
      · exact absurd q1 (not_le.2 h')
      · exact absurd q2 (not_le.2 h')
    | name w h h' =>
      obtain ⟨tn, -, -, h3, -⟩ := made.target
      rcases h3 w h with ⟨rfl, -⟩ | ⟨rfl, -⟩
      · exact h' ("L", 0) (by decide) rfl
      · exact h' ("S", 1) (by decide) rfl
    | whichOther h => exact made.whichBad h
    | tolerance y h h' =>
      obtain ⟨e, h0, h1, h2, -⟩ := made.tol
      rw [h] at h0
      simp only [RTol.num.injEq] at h0
      subst h0
      rcases h' with h' | h'
      · exact absurd h1 (not_le.2 h')
      · exact absurd h2 (not_lt.2 h')
    | tolOther h =>
      obtain ⟨e, h0, -⟩ := made.tol
      exact h e h0
    | left M N hN w h h' =>
      obtain ⟨q1, q2, -⟩ := made.sizes M N hN
      rcases h with h | h
      · exact h' (q2.left w h)
      · exact h' (q1.left w h)
    | right M N hN w h h' =>
      obtain ⟨q1, q2, -⟩ := made.sizes M N hN
      have key : ∀ {u v u' v' : RVecs V}, Checked a M N u v u' v' → v = .mat w → w.rows = N := by
        intro u v u' v' hc hv
        subst hv
        have hr := hc.right
        cases hc.pairs with
        | both _ _ => exact hr w rfl
        | right _ _ _ => exact hr w rfl
      rcases h with h | h
      · exact h' (key q2 h)
      · exact h' (key q1 h)
    | guesses u w h h' =>
      have hg := made.guessPairs
      have hc := ca.entered.sameGuess
      rw [h.1, h.2] at hg
      generalize x.u0 = xu at hg hc
      generalize x.v0 = xv at hg hc
      cases hg with
      | both _ _ => exact h' hc
    | constraints u w h h' =>
      have hg := made.orthoPairs
      have hc := ca.entered.sameOrtho
      rw [h.1, h.2] at hg
      generalize x.orthou = xu at hg hc
      generalize x.orthov = xv at hg hc
      cases hg with
      | both _ _ => exact h' hc
    | vectors h =>
      rcases h with h | h | h | h
      · exact made.guessBad.1 h
      · exact made.guessBad.2 h
      · exact made.orthoBad.1 h
      · exact made.orthoBad.2 h
    | prec M N hN p q r h i j h' =>
      obtain ⟨q1, q2, q3⟩ := (made.sizes M N hN).2.2.1 p q r h
      rcases h' with ⟨e, h'⟩ | ⟨e, h'⟩ | ⟨e, h'⟩
      · have := q1 i j e; omega
      · have := q2 i j e; omega
      · have := q3 i j e; omega
    | precModes p q r h h' =>
      obtain ⟨q1, q2, q3⟩ := made.precModes p q r h
      rcases h' with h' | h' | h'
      · exact q1 h'
      · exact q2 h'
      · exact q3 h'
    | precOther h => exact made.precBad h
    | isreal h => exact made.isreal h
    | option e h h' h'' =>
      have hin : e.1 ∈ a.opts.map Prod.fst := List.mem_map_of_mem h
      have known : ∀ x ∈ svdsTaken, x ∈ ["method", "methodStage1", "methodStage2"] ∨
          ∃ p ∈ Py.Doc.svdsMembers, p.1 = x := by decide +kernel
      have hno : e.1 ∉ svdsTaken := by
        intro hx
        rcases known _ hx with hx | ⟨p, hp, hp'⟩
        · exact h'' hx
        · exact h' p hp hp'
      obtain ⟨y, hy⟩ := ca.names e.1 ((made.others e.1 hno).2.2 hin)
      exact h' _ hy rfl
    | stage e h h' =>
      rcases (stages_names ca.stages e h).1 with q | q
      · exact h'.1 q
      · exact h'.2 q
    | nested e h f hf h' =>
      obtain ⟨y, hy⟩ := (stages_names ca.stages e h).2 f.1 (List.mem_map_of_mem hf)
      exact h' _ hy rfl
    | preset nm h h' =>
      obtain ⟨e1, -, -⟩ := made.methods
      obtain ⟨w, hw⟩ := (presets_named ca.methods).1 nm (by rw [e1, h])
      exact h' w hw
    | presetStage w nm hw h h' =>
      obtain ⟨-, e2, e3⟩ := made.methods
      rcases hw with rfl | rfl
      · obtain ⟨w, hw⟩ := (presets_named ca.methods).2.1 nm (by rw [e2, h])
        exact h' w hw
      · obtain ⟨w, hw⟩ := (presets_named ca.methods).2.2 nm (by rw [e3, h])
        exact h' w hw

/-! ## The vectors -/

private theorem cell {n i j c : Nat} (hi : i < n) (hj : j < c) : n * j + i < n * c ∧ (n * j + i) % n = i ∧ (n * j + i) / n = j := by
  have h0 : 0 < n := by omega
  refine ⟨?_, ?_, ?_⟩
  · have : n * (j + 1) ≤ n * c := Nat.mul_le_mul_left _ hj
    rw [Nat.mul_add] at this
    omega
  · rw [Nat.mul_add_mod, Nat.mod_eq_of_lt hi]
  · rw [Nat.mul_add_div h0, Nat.div_eq_of_lt hi]; rfl

private theorem svecs_at (junk : Nat → V) (x : Vectors V) (M N : Nat) (h1 : colsOf x.orthou = colsOf x.orthov)
    (h2 : colsOf x.u0 = colsOf x.v0) {cc g : Nat} (hc : cc = colsOf x.orthou) (hg : g = colsOf x.u0) :
    (∀ i < M, ∀ j < cc, firstSvecs junk x M N (Py.Doc.leftConstraint M i j) =
      R.entry (junk (Py.Doc.leftConstraint M i j)) x.orthou i j) ∧
    (∀ i < M, ∀ j < g, firstSvecs junk x M N (Py.Doc.leftVector M cc i j) =
      R.entry (junk (Py.Doc.leftVector M cc i j)) x.u0 i j) ∧
    (∀ i < N, ∀ j < cc, firstSvecs junk x M N (Py.Doc.rightConstraint M N cc g i j) =
      R.entry (junk (Py.Doc.rightConstraint M N cc g i j)) x.orthov i j) ∧
    (∀ i < N, ∀ j < g, firstSvecs junk x M N (Py.Doc.rightVector M N cc g i j) =
      R.entry (junk (Py.Doc.rightVector M N cc g i j)) x.v0 i j) := by
  refine ⟨?_, ?_, ?_, ?_⟩
  · intro i hi j hj
    obtain ⟨e1, e2, e3⟩ := cell hi hj
    unfold firstSvecs Py.Doc.leftConstraint
    dsimp only
    rw [← hc, if_pos e1, e2, e3]
  · intro i hi j hj
    obtain ⟨e1, e2, e3⟩ := cell hi hj
    have hp : Py.Doc.leftVector M cc i j = M * cc + (M * j + i) := by
      unfold Py.Doc.leftVector; rw [Nat.mul_comm, Nat.mul_add]; omega
    unfold firstSvecs
    dsimp only
    rw [hp, ← hc, ← hg, if_neg (by omega), if_pos (by rw [Nat.mul_add]; omega), Nat.add_sub_cancel_left, e2, e3]
  · intro i hi j hj
    obtain ⟨e1, e2, e3⟩ := cell hi hj
    have hp : Py.Doc.rightConstraint M N cc g i j = M * (cc + g) + (N * j + i) := by
      unfold Py.Doc.rightConstraint; rw [Nat.mul_comm M, Nat.mul_comm N]; omega
    have hle : M * cc ≤ M * (cc + g) := Nat.mul_le_mul_left _ (by omega)
    unfold firstSvecs
    dsimp only
    rw [hp, ← hc, ← hg, if_neg (by omega), if_neg (by omega), if_pos (by omega), Nat.add_sub_cancel_left, e2, e3]
  · intro i hi j hj
    obtain ⟨e1, e2, e3⟩ := cell hi hj
    have hp : Py.Doc.rightVector M N cc g i j = M * (cc + g) + (N * cc + (N * j + i)) := by
      unfold Py.Doc.rightVector; rw [Nat.mul_comm M, Nat.mul_comm (cc + j) N, Nat.mul_add N]; omega
    have hle : M * cc ≤ M * (cc + g) := Nat.mul_le_mul_left _ (by omega)
    unfold firstSvecs
    dsimp only
    rw [hp, ← hc, ← hg, if_neg (by omega), if_neg (by omega), if_neg (by omega),
      if_pos (by rw [Nat.mul_add N]; omega), show M * (cc + g) + (N * cc + (N * j + i)) - M * (cc + g) - N * cc =
        N * j + i by omega, e2, e3]

/-- **The vectors.**  The constraints and the guesses are pairs of left and right vectors, as given or, when only one side
is given, completed with the products with the operator; they stand in the array of the library where the manual says: left
constraints, left guesses, right constraints, right guesses.  The array has room for as many vectors as guesses or wanted
values. -/
theorem C57_vectors {M N k : Nat} (h : prepareSvdsR S D junk start a = .ok c) (hs : start.sv.i .mLocal = -1)
    (hs' : start.sv.i .nLocal = -1) (hd : R.Doc.Dims a M N) (hM : (M : Int) < 2 ^ 31) (hN : (N : Int) < 2 ^ 31)
    (hk : number a.NSvals = some (k : K)) :
    ∃ ou ov gu gv : RVecs V, ∃ cc g : Nat,
      R.Doc.Pairs (a.apply false) (a.apply true) a.orthou a.orthov ou ov ∧
      R.Doc.Pairs (a.apply false) (a.apply true) a.u0 a.v0 gu gv ∧
      c.params.sv.i .numOrthoConst = cc ∧ c.params.sv.i .initSize = g ∧ c.values = k ∧ c.size = (M + N) * (cc + max g k) ∧
      (a.orthou = .null → a.orthov = .null → cc = 0) ∧ (a.u0 = .null → a.v0 = .null → g = 0) ∧
      (∀ A B, ou = .mat A → ov = .mat B → A.cols = cc ∧ B.cols = cc ∧ (A.rows ≠ 0 → A.rows = M) ∧ B.rows = N ∧
        (∀ i < M, ∀ j < cc, c.svecs (Py.Doc.leftConstraint M i j) = A.at' i j) ∧
        ∀ i < N, ∀ j < cc, c.svecs (Py.Doc.rightConstraint M N cc g i j) = B.at' i j) ∧
      (∀ A B, gu = .mat A → gv = .mat B → A.cols = g ∧ B.cols = g ∧ (A.rows ≠ 0 → A.rows = M) ∧ B.rows = N ∧
        (∀ i < M, ∀ j < g, c.svecs (Py.Doc.leftVector M cc i j) = A.at' i j) ∧
        ∀ i < N, ∀ j < g, c.svecs (Py.Doc.rightVector M N cc g i j) = B.at' i j) := by
  obtain ⟨p1, p2, p3, p4, p5, -⟩ := C57_problem h hs hs' hd hM hN
  obtain ⟨o, x, m, m1, m2, v, s, t, ca⟩ := svds_called h
  have made := ca.made
  have en := ca.entered
  obtain ⟨s1, s2, -⟩ := made.sizes M N hd
  obtain ⟨-, -, hkk⟩ := p5 k hk
  obtain ⟨v1, v2, v3, v4⟩ := svecs_at junk x M N en.sameOrtho en.sameGuess rfl rfl
  have hsv : c.svecs = firstSvecs junk x M N := by rw [en.svecs, p3, p4]; simp
  have none_of : ∀ {u v u' v' : RVecs V}, R.Doc.Pairs (a.apply false) (a.apply true) u v u' v' → u = .null → v = .null →
      colsOf u' = 0 := by
    intro u v u' v' hp hu hv
    subst hu
    subst hv
    cases hp
    rfl
  refine ⟨x.orthou, x.orthov, x.u0, x.v0, colsOf x.orthou, colsOf x.u0, made.orthoPairs, made.guessPairs, en.ortho,
    en.guess, ?_, ?_, none_of made.orthoPairs, none_of made.guessPairs, ?_, ?_⟩
  · have := en.values
    rw [hkk] at this
    exact_mod_cast this
  · have := en.size
    rw [p3, p4, hkk, en.ortho, en.guess] at this
    have h2 : (max (colsOf x.u0 : Int) (k : Int)) = ((max (colsOf x.u0) k : Nat) : Int) := by push_cast; rfl
    rw [h2] at this
    exact_mod_cast this
  · intro A B hA hB
    have e1 : colsOf x.orthov = B.cols := by rw [hB]; rfl
    refine ⟨by rw [hA]; rfl, by rw [en.sameOrtho, e1], ?_, s1.right B hB, ?_, ?_⟩
    · intro hr
      have := en.orthou (by rw [hA]; exact hr)
      rw [hA, p3] at this
      exact_mod_cast this
    · intro i hi j hj
      rw [hsv, v1 i hi j hj, hA]; rfl
    · intro i hi j hj
      rw [hsv, v3 i hi j hj, hB]; rfl
  · intro A B hA hB
    have e1 : colsOf x.v0 = B.cols := by rw [hB]; rfl
    refine ⟨by rw [hA]; rfl, by rw [en.sameGuess, e1], ?_, s2.right B hB, ?_, ?_⟩
    · intro hr
      have := en.u0 (by rw [hA]; exact hr)
      rw [hA, p3] at this
      exact_mod_cast this
    · intro i hi j hj
      rw [hsv, v2 i hi j hj, hA]; rfl
    · intro i hi j hj
      rw [hsv, v4 i hi j hj, hB]; rfl

/-- **Which arithmetic, and which operators.**  The answer of `isreal` decides whether the real or the complex solver is
called; when it is not given, a function is taken for complex, and a matrix for what its entries are.  A function is called
as it is; a matrix is used as a matrix or through its products, the first only when the arithmetic is that of its
entries. -/
theorem C57_arithmetic (h : prepareSvdsR S D junk start a = .ok c) :
    (∀ b, a.isreal = .val b → c.real = b) ∧ (a.isreal = .null → a.A = .fn → c.real = false) ∧
    (∀ x, a.isreal = .null → a.A = .mat x → x.cls ∈ [.double, .integral, .dge, .dgC, .dsC, .dtC, .otherD] →
      c.real = true) ∧
    (∀ x, a.isreal = .null → a.A = .mat x → x.cls = .complex → c.real = false) ∧
    (a.A = .fn → c.A = .user) ∧ (∀ x, a.A = .mat x → c.A = .product ∨ c.A = .direct (asStored x.cls)) ∧
    (∀ cls, c.A = .direct cls → c.real = !isComplexClass cls) ∧
    (a.prec = .null → c.prec = .nothing) ∧ (a.prec = .fn → c.prec = .user) ∧
    (∀ p q r, a.prec = .list p q r → c.prec = .modes p q r) := by
  obtain ⟨o, x, m, m1, m2, v, s, t, ca⟩ := svds_called h
  have made := ca.made
  have f1 := ca.entered.real
  have f3 := ca.entered.A
  have f5 := ca.entered.held
  refine ⟨?_, ?_, ?_, ?_, ?_, ?_, ?_, ?_, ?_, ?_⟩
  · intro b hb; rw [f1]; simp [svdsReal, hb]
  · intro hr hA; rw [f1]; simp [svdsReal, hr, hA, suggestion]
  · intro y hr hA hx
    rw [f1]
    simp only [svdsReal, hr, hA, suggestion]
    have : ∀ q ∈ ([.double, .integral, .dge, .dgC, .dsC, .dtC, .otherD] : List MClass), suggests q = true := by decide
    exact this _ hx
  · intro y hr hA hx
    rw [f1]
    simp only [svdsReal, hr, hA, suggestion, hx]
    decide
  · intro hA; rw [f3, hA]; rfl
  · intro y hA
    rw [f3, hA]
    simp only [heldSvds]
    split <;> simp
  · intro cls hA
    rw [f3] at hA
    cases hq : a.A with
    | fn => rw [hq] at hA; simp [heldSvds] at hA
    | bad => rw [hq] at hA; simp [heldSvds] at hA
    | mat y =>
      rw [hq] at hA
      simp only [heldSvds] at hA
      split at hA
      · rename_i hcond
        simp only [Held.direct.injEq] at hA
        have hr : c.real = suggests y.cls := by
          rw [f1]
          unfold svdsReal
          cases hi : a.isreal with
          | null => simp [hq, suggestion]
          | val b =>
            have := hcond.1
            rw [hi] at this
            simpa [agrees] using this
          | other => exact absurd hi made.isreal
        rw [hr, ← hA]
        have : ∀ q : MClass, asStored q ∈ ([.double, .complex, .dge, .dgC, .dsC] : List MClass) →
            suggests q = !isComplexClass (asStored q) := by intro q; cases q <;> decide
        exact this _ hcond.2
      · simp at hA
  · intro hp; rw [f5, hp]; rfl
  · intro hp; rw [f5, hp]; rfl
  · intro p q r hp; rw [f5, hp]; rfl

/-! ## What is returned -/

private theorem sstat_int {p : Svds.SV K} {nm : String} {l : Int} {f : Svds.IF}
    (hi : memberInfo svdsTables.names svdsTables.types (some 0) (some (some nm)) = .ok (some l, some (some nm), .int, 1))
    (hl : l ≠ 35 ∧ l ≠ 21 ∧ l ∉ [1, 2, 9, 10, 11, 12, 13, 14, 20, 24, 25, 38, 5, (7 : Int)])
    (hg : select Svds.getTable l = some (.int f)) : getNumber (svdsKind 0) p nm = .ok (.int (castInt (p.i f))) := by
  have hi' : memberInfo (svdsKind 0).T.names (svdsKind 0).T.types (some 0) (some (some nm)) =
    .ok (some l, some (some nm), .int, 1) := hi
  have hg' : getMember (svdsKind 0).T.getter p l = .ok (.int (p.i f)) := by
    show getMember Svds.getTable p l = _
    unfold getMember
    rw [hg]
  simp only [getNumber, hi', hg']
  rw [if_neg]
  rintro (h | h | h | h)
  · exact hl.1 h
  · exact hl.2.1 h
  · exact hl.2.2 h
  · exact h rfl

private theorem sstat_dbl {p : Svds.SV K} {nm : String} {l : Int} {f : Svds.DF}
    (hi : memberInfo svdsTables.names svdsTables.types (some 0) (some (some nm)) = .ok (some l, some (some nm), .double, 1))
    (hl : l ≠ 35 ∧ l ≠ 21 ∧ l ∉ [1, 2, 9, 10, 11, 12, 13, 14, 20, 24, 25, 38, 5, (7 : Int)])
    (hg : select Svds.getTable l = some (.dbl f)) : getNumber (svdsKind 0) p nm = .ok (.real (p.d f)) := by
  have hi' : memberInfo (svdsKind 0).T.names (svdsKind 0).T.types (some 0) (some (some nm)) =
    .ok (some l, some (some nm), .double, 1) := hi
  have hg' : getMember (svdsKind 0).T.getter p l = .ok (.dbl (p.d f)) := by
    show getMember Svds.getTable p l = _
    unfold getMember
    rw [hg]
  simp only [getNumber, hi', hg']
  rw [if_neg]
  rintro (h | h | h | h)
  · exact hl.1 h
  · exact hl.2.1 h
  · exact hl.2.2 h
  · exact h rfl

private theorem sstats_read (p : Svds.SV K) : readSvdsStats (svdsKind 0) p svdsStatNames = .ok
    [("numMatvecs", .int (castInt (p.i .stats_numMatvecs))), ("numPreconds", .int (castInt (p.i .stats_numPreconds))),
     ("elapsedTime", .real (p.d .stats_elapsedTime)), ("estimateANorm", .real (p.d .aNorm)),
     ("timeMatvec", .real (p.d .stats_timeMatvec)), ("timePrecond", .real (p.d .stats_timePrecond)),
     ("timeOrtho", .real (p.d .stats_timeOrtho))] := by
  have e1 := sstat_int (p := p) (nm := "stats_numMatvecs") (l := 41) (f := .stats_numMatvecs) (by decide +kernel)
    (by decide) (by decide +kernel)
  have e2 := sstat_int (p := p) (nm := "stats_numPreconds") (l := 42) (f := .stats_numPreconds) (by decide +kernel)
    (by decide) (by decide +kernel)
  have e3 := sstat_dbl (p := p) (nm := "stats_elapsedTime") (l := 48) (f := .stats_elapsedTime) (by decide +kernel)
    (by decide) (by decide +kernel)
  have e4 := sstat_dbl (p := p) (nm := "aNorm") (l := 28) (f := .aNorm) (by decide +kernel)
    (by decide) (by decide +kernel)
  have e5 := sstat_dbl (p := p) (nm := "stats_timeMatvec") (l := 49) (f := .stats_timeMatvec) (by decide +kernel)
    (by decide) (by decide +kernel)
  have e6 := sstat_dbl (p := p) (nm := "stats_timePrecond") (l := 50) (f := .stats_timePrecond) (by decide +kernel)
    (by decide) (by decide +kernel)
  have e7 := sstat_dbl (p := p) (nm := "stats_timeOrtho") (l := 51) (f := .stats_timeOrtho) (by decide +kernel)
    (by decide) (by decide +kernel)
  simp only [svdsStatNames, readSvdsStats, e1, e2, e3, e4, e5, e6, e7, Res.bind]

private theorem svdsR_ok {lib : RSvdsCall K V → RSvdsCallOut K V} {r : RSvdsOut K V}
    (h : svdsR S D junk start lib a = .ok r) : ∃ o x m m1 m2 c, svdsOptions a = .ok (o, x, m, m1, m2) ∧
      prepareSvdsR S D junk start a = .ok c ∧ finishSvdsR x c (lib c) = .ok r := by
  unfold svdsR at h
  obtain ⟨⟨o, x, m, m1, m2⟩, h1, h⟩ := bind_ok h
  obtain ⟨c, h2, h⟩ := bind_ok h
  exact ⟨o, x, m, m1, m2, c, h1, h2, h⟩

private theorem svdsR_eq {lib : RSvdsCall K V → RSvdsCallOut K V} (h : prepareSvdsR S D junk start a = .ok c) :
    ∃ o x m m1 m2, svdsOptions a = .ok (o, x, m, m1, m2) ∧ svdsR S D junk start lib a = finishSvdsR x c (lib c) := by
  obtain ⟨o, x, m, m1, m2, v, s, t, h1, -⟩ := prepareSvdsR_ok h
  refine ⟨o, x, m, m1, m2, h1, ?_⟩
  unfold svdsR
  rw [h1]
  simp only [Res.bind]
  rw [h]

/-- **The result.**  A result is returned only when the library was called and reports success; it holds the values and
residual norms the library left, as many as asked for, and as vectors the columns of the library's array after the
constraints, at the places of the manual (`g` vectors, and `cc` constraints, as the library leaves their number). -/
theorem C57_result {lib : RSvdsCall K V → RSvdsCallOut K V} {r : RSvdsOut K V}
    (h : svdsR S D junk start lib a = .ok r) :
    ∃ c, prepareSvdsR S D junk start a = .ok c ∧ (lib c).code = 0 ∧ 0 ≤ (lib c).params.sv.i .initSize ∧
    r.d.length = c.values ∧ r.rnorms.length = c.values ∧
    (∀ j < c.values, r.d[j]? = some ((lib c).svals j) ∧ r.rnorms[j]? = some ((lib c).norms j)) ∧
    ∀ M N cc g : Nat, (lib c).params.sv.i .mLocal = M → (lib c).params.sv.i .nLocal = N →
      c.params.sv.i .numOrthoConst = cc → (lib c).params.sv.i .initSize = g →
      r.u.length = g ∧ r.v.length = g ∧ ∀ j < g, ∃ cu cv, r.u[j]? = some cu ∧ r.v[j]? = some cv ∧
        (∀ i, cu i = (lib c).svecs (Py.Doc.leftVector M cc i j)) ∧
        ∀ i, cv i = (lib c).svecs (Py.Doc.rightVector M N cc g i j) := by
  obtain ⟨o, x, m, m1, m2, c, h1, h2, h⟩ := svdsR_ok h
  obtain ⟨o', x', m', m1', m2', v, s, t, ca⟩ := svds_called h2
  have hx : x' = x := by
    have := ca.opts
    rw [h1] at this
    simp only [Res.ok.injEq, Prod.mk.injEq] at this
    exact this.2.1.symm
  subst hx
  unfold finishSvdsR at h
  dsimp only at h
  by_cases q1 : (lib c).params.sv.i .initSize < 0
  · rw [if_pos q1] at h; simp at h
  rw [if_neg q1] at h
  obtain ⟨st, q2, h⟩ := bind_ok h
  by_cases q3 : (lib c).code ≠ 0
  · rw [if_pos q3] at h; simp at h
  rw [if_neg q3] at h
  simp only [Res.ok.injEq] at h
  subst h
  refine ⟨c, h2, by simpa using q3, by omega, by simp, by simp, ?_, ?_⟩
  · intro j hj
    simp [hj]
  · intro M N cc g e1 e2 e3 e4
    have hcc : colsOf x'.orthou = cc := by
      have := ca.entered.ortho
      rw [e3] at this
      exact_mod_cast this.symm
    have hcc' : colsOf x'.orthov = cc := by rw [← ca.entered.sameOrtho, hcc]
    simp only [e1, e2, e4, Int.toNat_natCast, hcc, hcc', List.length_map, List.length_range, true_and]
    intro j hj
    refine ⟨_, _, by simp [hj]; rfl, by simp [hj]; rfl, ?_, ?_⟩
    · intro i
      have : M * cc + (i + M * j) = Py.Doc.leftVector M cc i j := by
        unfold Py.Doc.leftVector
        rw [Nat.mul_comm (cc + j), Nat.mul_add]
        omega
      exact congrArg (lib c).svecs this
    · intro i
      have : M * (cc + g) + N * cc + (i + N * j) = Py.Doc.rightVector M N cc g i j := by
        unfold Py.Doc.rightVector
        rw [Nat.mul_comm (cc + g), Nat.mul_comm (cc + j), Nat.mul_add N]
        omega
      exact congrArg (lib c).svecs this

/-- **Failures raise.**  When the library reports an error nothing is returned; when it reports success the result is
returned; nothing is undefined. -/
theorem C57_errors (lib : RSvdsCall K V → RSvdsCallOut K V) (h : prepareSvdsR S D junk start a = .ok c) :
    ((lib c).code ≠ 0 → ∃ e, svdsR S D junk start lib a = .raise e) ∧
    ((lib c).code ≠ 0 → 0 ≤ (lib c).params.sv.i .initSize → svdsR S D junk start lib a = .raise (.primme (lib c).code)) ∧
    ((lib c).code = 0 → 0 ≤ (lib c).params.sv.i .initSize → ∃ r, svdsR S D junk start lib a = .ok r) ∧
    svdsR S D junk start lib a ≠ .ub := by
  obtain ⟨o, x, m, m1, m2, h1, h2⟩ := svdsR_eq (lib := lib) h
  rw [h2]
  unfold finishSvdsR
  rw [sstats_read]
  simp only [Res.bind]
  by_cases q1 : (lib c).params.sv.i .initSize < 0
  · simp [q1]
  · by_cases q2 : (lib c).code = 0 <;> simp [q1, q2]

/-- **Statistics.**  Each documented element of `stats` is the member of the structure the library left; the numbers of
products are right when they fit 32 bits. -/
theorem C57_stats_partial {lib : RSvdsCall K V → RSvdsCallOut K V} {r : RSvdsOut K V}
    (h : svdsR S D junk start lib a = .ok r) {nm : String} {x : Member Svds.IF Svds.DF Svds.PF}
    (hx : (nm, x) ∈ R.Doc.svdsStats) : ∃ c, prepareSvdsR S D junk start a = .ok c ∧
    (∀ f, x = .i f → -2 ^ 31 ≤ (lib c).params.sv.i f → (lib c).params.sv.i f < 2 ^ 31 →
      (nm, .int ((lib c).params.sv.i f)) ∈ r.stats) ∧
    (∀ f, x = .d f → (nm, .real ((lib c).params.sv.d f)) ∈ r.stats) ∧ (r.stats.map Prod.fst).Nodup := by
  obtain ⟨o, xs, m, m1, m2, c, h1, h2, h⟩ := svdsR_ok h
  have hst : readSvdsStats (svdsKind 0) (lib c).params.sv svdsStatNames = .ok r.stats := by
    unfold finishSvdsR at h
    dsimp only at h
    by_cases q1 : (lib c).params.sv.i .initSize < 0
    · rw [if_pos q1] at h; simp at h
    rw [if_neg q1] at h
    obtain ⟨st, q2, h⟩ := bind_ok h
    by_cases q3 : (lib c).code ≠ 0
    · rw [if_pos q3] at h; simp at h
    rw [if_neg q3] at h
    simp only [Res.ok.injEq] at h
    subst h
    exact q2
  rw [sstats_read] at hst
  simp only [Res.ok.injEq] at hst
  refine ⟨c, h2, ?_⟩
  rw [← hst]
  have cast : ∀ v : Int, -2 ^ 31 ≤ v → v < 2 ^ 31 → castInt v = v := by
    intro v h1 h2
    unfold castInt
    omega
  refine ⟨?_, ?_, ?_⟩
  · intro f hf h1 h2
    subst hf
    simp only [R.Doc.svdsStats, List.mem_cons, Prod.mk.injEq, List.not_mem_nil, or_false, Member.i.injEq, reduceCtorEq,
      and_false, false_or] at hx
    rcases hx with ⟨rfl, rfl⟩ | ⟨rfl, rfl⟩
    · rw [cast _ h1 h2]; simp
    · rw [cast _ h1 h2]; simp
  · intro f hf
    subst hf
    simp only [R.Doc.svdsStats, List.mem_cons, Prod.mk.injEq, List.not_mem_nil, or_false, Member.d.injEq, reduceCtorEq,
      and_false, false_or] at hx
    rcases hx with ⟨rfl, rfl⟩ | ⟨rfl, rfl⟩ | ⟨rfl, rfl⟩ | ⟨rfl, rfl⟩ | ⟨rfl, rfl⟩ <;> simp
  · simp

/-! ## The operators -/

/-- **Functions of the user.**  The function is given the block the library passes, with the rows the direction asks for,
and the string "n" or "c" (for preconditioners the name of the operator); its result, which must have the size of the
output, lands where the library expects it, and nothing else is written. -/
theorem C57_function {f : (Nat → Nat → V) → String → Nat × Nat × (Nat → Nat → V)} {mode : Nat × Nat × String}
    {bs x ldx y ldy : Nat} (m : PMem V) (hld : mode.2.1 ≤ ldy) :
    (∀ r, f (fun i j => m (x + i + j * ldx)) mode.2.2 = (mode.2.1, bs, r) → ∃ m', svdsCallback f mode bs x ldx y ldy m = .ok m' ∧
      (∀ i < mode.2.1, ∀ j < bs, m' (y + i + j * ldy) = r i j) ∧
      ∀ p, (∀ i < mode.2.1, ∀ j < bs, p ≠ y + i + j * ldy) → m' p = m p) ∧
    (∀ n' bs' r, f (fun i j => m (x + i + j * ldx)) mode.2.2 = (n', bs', r) → n' ≠ mode.2.1 ∨ bs' ≠ bs →
      ∃ e, svdsCallback f mode bs x ldx y ldy m = .raise e) :=
  C56_function (f := fun z => f z mode.2.2) (bs := bs) (x := x) (ldx := ldx) (y := y) m hld

/-- The directions and the preconditioners the library asks for: `A x` takes `n` rows to `m`, `A' x` takes `m` rows to `n`,
and the operators the preconditioners stand for. -/
theorem C57_modes (t : Int) (m n : Nat) :
    (t = 0 → matrixMode t m n = (n, m, "n")) ∧ (t ≠ 0 → matrixMode t m n = (m, n, "c")) ∧
    (∀ r, precMode t m n = some r ↔ t = 1 ∧ r = (n, n, "AHA") ∨ t = 2 ∧ r = (m, m, "AAH") ∨
      t = 3 ∧ r = (m + n, m + n, "aug")) := by
  refine ⟨fun h => by simp [matrixMode, h], fun h => by simp [matrixMode, h], ?_⟩
  intro r
  unfold precMode
  by_cases h1 : t = 1
  · subst h1; simp [eq_comm]
  · by_cases h2 : t = 2
    · subst h2; simp [eq_comm]
    · by_cases h3 : t = 3
      · subst h3; simp [eq_comm]
      · simp [h1, h2, h3]

/-- The doubles of the `m` by `n` matrix in the memory of R, column by column; for complex entries real and imaginary
parts alternate. -/
def C57_Stored (complex : Bool) (m n : Nat) (M : Nat → Nat → K × K) (mem : Nat → K) : Prop :=
  ∀ i < m, ∀ j < n, if complex then mem (2 * (i + j * m)) = (M i j).1 ∧ mem (2 * (i + j * m) + 1) = (M i j).2
    else mem (i + j * m) = (M i j).1 ∧ (M i j).2 = 0

private theorem allSome_map' {α : Type} (g : Nat → α) (L : List Nat) :
    allSome (L.map fun j => some (g j)) = some (L.map g) := by
  induction L with
  | nil => rfl
  | cons j r ih => simp [allSome, ih]

/-- **Products with a dense matrix.**  When the arithmetic is that of the entries, the products are `A x`, and with the
conjugate transpose `A' x`. -/
theorem C57_products {m n : Nat} {M : Nat → Nat → K × K} {mem : Nat → K} {cls : MClass} {real : Bool}
    (hS : C57_Stored (isComplexClass cls) m n M mem) (hr : real = !isComplexClass cls) (x : Nat → K × K) :
    (∀ i < m, denseRow real cls m n mem false x i = .row ((List.range n).map fun j => cmul (M i j) (x j)).sum) ∧
    (∀ i < n, denseRow real cls m n mem true x i = .row ((List.range m).map fun j => cmul (R.conj (M j i)) (x j)).sum) := by
  have elem : ∀ p q, p < m → q < n →
      elemAt real (if isComplexClass cls then 2 * (m * n) else m * n) mem (p + q * m) = some (M p q) := by
    intro p q hp hq
    have h1 := hS p hp q hq
    have h2 : p + q * m < m * n := by
      have : (q + 1) * m ≤ n * m := Nat.mul_le_mul_right _ hq
      rw [Nat.add_mul, Nat.mul_comm n] at this
      omega
    cases hc : isComplexClass cls with
    | true =>
      rw [hc] at h1 hr
      simp only [if_true] at h1
      subst hr
      simp only [elemAt, Bool.not_true, Bool.false_eq_true, if_false, if_true]
      rw [if_pos (by omega), h1.1, h1.2]
    | false =>
      rw [hc] at h1 hr
      simp only [Bool.false_eq_true, if_false] at h1
      subst hr
      simp only [elemAt, Bool.not_false, if_true, Bool.false_eq_true, if_false]
      rw [if_pos h2, h1.1, ← h1.2]
  have hstop : ¬ (cls = .dge ∧ real = false) := by
    rintro ⟨h1, h2⟩
    subst h1
    subst h2
    simp [isComplexClass] at hr
  constructor
  · intro i hi
    have : ((List.range n).map fun j => (elemAt real (if isComplexClass cls then 2 * (m * n) else m * n) mem (i + j * m)).map
        fun z => cmul z (x j)) = (List.range n).map fun j => some (cmul (M i j) (x j)) := by
      apply List.map_congr_left
      intro j hj
      rw [elem i j hi (List.mem_range.1 hj)]
      rfl
    unfold denseRow
    dsimp only
    rw [if_neg hstop, if_neg (by simp), this, allSome_map']
  · intro i hi
    have : ((List.range m).map fun j => (elemAt real (if isComplexClass cls then 2 * (m * n) else m * n) mem (j + i * m)).map
        fun z => cmul (R.conj z) (x j)) = (List.range m).map fun j => some (cmul (R.conj (M j i)) (x j)) := by
      apply List.map_congr_left
      intro j hj
      rw [elem j i (List.mem_range.1 hj) hi]
      rfl
    unfold denseRow
    dsimp only
    rw [if_neg hstop, if_pos rfl, this, allSome_map']

/-- **Products through R functions.**  `Afc`, which serves complex matrices, multiplies by `A` and by its conjugate
transpose; `Af`, which completes pairs of guesses and constraints and serves real matrices, multiplies by the transpose,
which is the same for real entries. -/
theorem C57_partner_partial (m n : Nat) (M : Nat → Nat → K × K) (x : Nat → K × K) :
    (∀ i, afcRow m n M false x i = ((List.range n).map fun j => cmul (M i j) (x j)).sum) ∧
    (∀ i, afcRow m n M true x i = ((List.range m).map fun j => cmul (R.conj (M j i)) (x j)).sum) ∧
    (∀ i, afRow m n M false x i = ((List.range n).map fun j => cmul (M i j) (x j)).sum) ∧
    ((∀ i < m, ∀ j < n, (M i j).2 = 0) → ∀ i < n,
      afRow m n M true x i = ((List.range m).map fun j => cmul (R.conj (M j i)) (x j)).sum) := by
  refine ⟨fun i => rfl, ?_, fun i => rfl, ?_⟩
  · intro i
    have conj_sum : ∀ L : List (K × K), R.conj L.sum = (L.map R.conj).sum := by
      intro L
      induction L with
      | nil => simp [R.conj]
      | cons y r ih =>
        rw [List.sum_cons, List.map_cons, List.sum_cons, ← ih]
        ext
        · rfl
        · simp only [R.conj, Prod.snd_add]; ring
    unfold afcRow
    rw [if_pos rfl, conj_sum, List.map_map]
    congr 1
    apply List.map_congr_left
    intro j hj
    simp only [Function.comp_apply, R.conj, cmul]
    ext <;> simp only <;> ring
  · intro hz i hi
    unfold afRow
    rw [if_pos rfl]
    congr 1
    apply List.map_congr_left
    intro j hj
    have := hz j (List.mem_range.1 hj) i hi
    have hc : R.conj (M j i) = M j i := by
      ext
      · rfl
      · simp [R.conj, this]
    rw [hc]

/-! ## Good arguments -/

/-- Left and right vectors as documented, with `M` and `N` rows and as many columns. -/
inductive C57_Pair (mul adj : Arr V → Option (Arr V)) (M N : Nat) : RVecs V → RVecs V → Prop where
  | none : C57_Pair mul adj M N .null .null
  | both (A B : Arr V) (h : A.rows = M ∧ B.rows = N ∧ A.cols = B.cols) : C57_Pair mul adj M N (.mat A) (.mat B)
  | left (A B : Arr V) (h : A.rows = M ∧ B.rows = N ∧ A.cols = B.cols) (h' : adj A = some B) :
      C57_Pair mul adj M N (.mat A) .null
  | right (A B : Arr V) (h : A.rows = M ∧ B.rows = N ∧ A.cols = B.cols) (h' : mul B = some A) :
      C57_Pair mul adj M N .null (.mat B)

/-- A preconditioner of order `n`. -/
def C57_Mode (p : RPrec) (n : Nat) : Prop := p = .null ∨ p = .fn ∨ p = .mat n n

/-- Names that options cannot have. -/
def C57_closed : List String :=
  ["targetShifts", "numProcs", "procID", "mLocal", "nLocal", "numTargetShifts", "stats_numGlobalSum", "stats_numBroadcast",
   "stats_lockingIssue"]

/-- Arguments as documented, with the ranges of R integers. -/
structure C57_Good (a : RSvdsArgs K V) (M N k : Nat) : Prop where
  dims : R.Doc.Dims a M N
  sizes : (M : Int) < 2 ^ 31 ∧ (N : Int) < 2 ^ 31
  count : number a.NSvals = some (k : K)
  few : k ≤ M ∧ k ≤ N
  which : (∃ e ∈ R.Doc.svdsWhich, a.which = .name e.1) ∨ ∃ l, a.which = .nums l
  tol : ∃ x, a.tol = .num x ∧ 0 ≤ x ∧ x < 1
  guess : C57_Pair (a.apply false) (a.apply true) M N a.u0 a.v0
  ortho : C57_Pair (a.apply false) (a.apply true) M N a.orthou a.orthov
  prec : a.prec = .null ∨ a.prec = .fn ∨
    ∃ p q r, a.prec = .list p q r ∧ C57_Mode p N ∧ C57_Mode q M ∧ C57_Mode r (M + N)
  isreal : a.isreal ≠ .other
  options : ∀ e ∈ a.opts, e.1 ∈ ["method", "methodStage1", "methodStage2"] ∨ ∃ x y, (e.1, x) ∈ Py.Doc.svdsMembers ∧
    e.1 ∉ C57_closed ∧ R.Doc.SvdsMeans x e.2 y ∧ fits Svds.ctype x y
  once : ∀ nm ∈ ["method", "methodStage1", "methodStage2"], (a.opts.map Prod.fst).count nm ≤ 1
  preset : a.opts.exact "method" = .null ∨
    ∃ nm v, a.opts.exact "method" = .str [nm] ∧ constantInfo Svds.constTable nm = .ok v
  presets : ∀ o ∈ ["methodStage1", "methodStage2"], a.opts.exact o = .null ∨
    ∃ nm v, a.opts.exact o = .str [nm] ∧ constantInfo Eigs.constTable nm = .ok v
  stages : ∀ e ∈ a.stages, (e.1 = "primme" ∨ e.1 = "primmeStage2") ∧ ∀ f ∈ e.2, ∃ x y, (f.1, x) ∈ Py.Doc.eigsMembers ∧
    f.1 ∉ ["targetShifts", "ShiftsForPreconditioner", "profile", "stats_numGlobalSum", "stats_numBroadcast", "nLocal",
      "numProcs", "procID", "numTargetShifts", "ldevecs", "ldOPs"] ∧ R.Doc.Means x f.2 y ∧ fits Eigs.ctype x y

private theorem exact_mem' {o : Opts K} {nm : String} (h : nm ∈ o.map Prod.fst) : (nm, o.exact nm) ∈ o := by
  induction o with
  | nil => simp at h
  | cons e r ih =>
    unfold Opts.exact
    by_cases he : e.1 = nm
    · rw [if_pos he, ← he]; simp
    · rw [if_neg he]
      rw [List.map_cons, List.mem_cons] at h
      rcases h with h | h
      · exact absurd h.symm he
      · exact List.mem_cons_of_mem _ (ih h)

private theorem whole_nat' {w : RVal K} {k : Nat} (h : number w = some (k : K)) : whole w = true := by
  rcases number_nat h with rfl | rfl
  · rfl
  · exact whole_int (k : Int)

/-- What `check_uv` makes of a good pair. -/
private def Fits (M N : Nat) (p : RVecs V × RVecs V) : Prop :=
  (rowsOf p.1 ≠ 0 → rowsOf p.1 = M) ∧ (rowsOf p.2 ≠ 0 → rowsOf p.2 = N) ∧ colsOf p.1 = colsOf p.2

private theorem checkUV_can {o : Opts K} {M N : Nat} (hM : number (o.dollar "m") = some (M : K))
    (hN : number (o.dollar "n") = some (N : K)) {u v : RVecs V} (h : C57_Pair (a.apply false) (a.apply true) M N u v) :
    ∃ p, checkUV a o u v = .ok p ∧ Fits M N p := by
  have fm : ∀ A : Arr V, A.rows = M → fitsRows o "m" (.mat A) = true := by
    intro A hA
    rw [fitsRows_iff hM]
    exact ⟨by simp, by intro x hx; simp only [RVecs.mat.injEq] at hx; subst hx; exact hA⟩
  have fn : ∀ A : Arr V, A.rows = N → fitsRows o "n" (.mat A) = true := by
    intro A hA
    rw [fitsRows_iff hN]
    exact ⟨by simp, by intro x hx; simp only [RVecs.mat.injEq] at hx; subst hx; exact hA⟩
  cases h with
  | none =>
    refine ⟨(.null, .null), ?_, by unfold Fits; simp [rowsOf, colsOf]⟩
    simp [checkUV, fitsRows]
  | both A B h =>
    refine ⟨(.mat A, .mat B), ?_, ?_⟩
    · simp [checkUV, fm A h.1, fn B h.2.1]
    · unfold Fits; simp only [rowsOf, colsOf]; exact ⟨fun _ => h.1, fun _ => h.2.1, h.2.2⟩
  | left A B h h' =>
    refine ⟨(.mat A, .mat B), ?_, ?_⟩
    · simp [checkUV, fm A h.1, h', derived, fn B h.2.1]
    · unfold Fits; simp only [rowsOf, colsOf]; exact ⟨fun _ => h.1, fun _ => h.2.1, h.2.2⟩
  | right A B h h' =>
    refine ⟨(.mat A, .mat B), ?_, ?_⟩
    · have : fitsRows o "m" (.null : RVecs V) = true := rfl
      simp [checkUV, this, h', derived, fn B h.2.1]
    · unfold Fits; simp only [rowsOf, colsOf]; exact ⟨fun _ => h.1, fun _ => h.2.1, h.2.2⟩

/-- Good arguments make a list of options. -/
private theorem soptions_can {M N k : Nat} (g : C57_Good a M N k) : ∃ o x m m1 m2, svdsOptions a = .ok (o, x, m, m1, m2) ∧
    Fits M N (x.orthou, x.orthov) ∧ Fits M N (x.u0, x.v0) := by
  have h1 : ∃ o1, setDims a = .ok o1 ∧ (number (o1.exact "m") = some (M : K) ∧ "m" ∈ o1.map Prod.fst) ∧
      number (o1.exact "n") = some (N : K) ∧ "n" ∈ o1.map Prod.fst := by
    rcases dims_number g.dims with ⟨x, hx, rfl, rfl⟩ | ⟨hA, ⟨hm, hm'⟩, hn, hn'⟩
    · refine ⟨(a.opts.put "m" (.int [(x.rows : Int)])).put "n" (.int [(x.cols : Int)]), ?_, ⟨?_, ?_⟩, ?_, ?_⟩
      · unfold setDims; rw [hx]
      · rw [exact_put_other _ (by decide), exact_put_self]; simp [number]
      · rw [mem_put, mem_put]; simp
      · rw [exact_put_self]; simp [number]
      · rw [mem_put]; simp
    · refine ⟨a.opts, ?_, ⟨hm', hm⟩, hn', hn⟩
      unfold setDims
      rw [hA]
      simp only
      rw [dollar_mem _ hm, dollar_mem _ hn, if_pos ⟨whole_nat' hn', whole_nat' hm'⟩]
  obtain ⟨o1, d1, ⟨d2, d3⟩, d4, d5⟩ := h1
  have h2 : setSvals a o1 = .ok (o1.put "numSvals" a.NSvals) := by
    unfold setSvals
    rw [g.count, dollar_mem _ d3, dollar_mem _ d5, d2, d4]
    simp only
    rw [if_neg]
    rw [whole_nat' g.count, not_or]
    exact ⟨by simp, not_lt.2 (le_min (by exact_mod_cast g.few.1) (by exact_mod_cast g.few.2))⟩
  have h3 : ∃ o3, setSvdsWhich a (o1.put "numSvals" a.NSvals) = .ok o3 := by
    rcases g.which with ⟨e, he, hw⟩ | ⟨l, hw⟩
    · unfold setSvdsWhich
      rw [hw]
      simp only [R.Doc.svdsWhich, List.mem_cons, List.not_mem_nil, or_false] at he
      rcases he with rfl | rfl
      · exact ⟨_, rfl⟩
      · exact ⟨_, rfl⟩
    · unfold setSvdsWhich
      rw [hw]
      exact ⟨_, rfl⟩
  obtain ⟨o3, h3⟩ := h3
  have h4 : ∃ o4, setSvdsTol a o3 = .ok o4 := by
    obtain ⟨x, h, hx, hx'⟩ := g.tol
    unfold setSvdsTol
    rw [h]
    simp only
    rw [if_neg (by rw [not_or]; exact ⟨not_lt.2 hx, not_le.2 hx'⟩)]
    exact ⟨_, rfl⟩
  obtain ⟨o4, h4⟩ := h4
  have hn4 : number (o4.dollar "m") = some (M : K) ∧ number (o4.dollar "n") = some (N : K) := by
    obtain ⟨-, -, -, w4, -⟩ := setSvdsWhich_ok h3
    obtain ⟨t, -, -, -, rfl⟩ := setSvdsTol_ok h4
    have one : ∀ nm, nm ≠ "eps" → nm ≠ "target" → nm ≠ "targetShifts" → nm ≠ "numSvals" → nm ∈ o1.map Prod.fst →
        (o3.put "eps" (.real [t])).dollar nm = o1.exact nm := by
      intro nm q1 q2 q3 q4 q5
      obtain ⟨r1, r2⟩ := w4 nm q2 (.inl q3)
      rw [dollar_mem _ (by rw [mem_put, r2, mem_put]; simp only [q5, or_true]), exact_put_other _ q1, r1,
        exact_put_other _ q4]
    rw [one "m" (by decide) (by decide) (by decide) (by decide) d3, one "n" (by decide) (by decide) (by decide) (by decide) d5]
    exact ⟨d2, d4⟩
  obtain ⟨c, hc, hcf⟩ := checkUV_can hn4.1 hn4.2 g.ortho
  obtain ⟨q, hq, hqf⟩ := checkUV_can hn4.1 hn4.2 g.guess
  have hmode : ∀ p n, C57_Mode p n → testMode (some ((n : Nat) : K)) p = true := by
    rintro p n (rfl | rfl | rfl) <;> simp [testMode]
  have hp : testSvdsPrec o4 a.prec = true := by
    rcases g.prec with h | h | ⟨p, q, r, h, b1, b2, b3⟩ <;> rw [h]
    · rfl
    · rfl
    · simp only [testSvdsPrec, hn4.1, hn4.2, addSize, hmode _ _ b1, hmode _ _ b2, Bool.true_and]
      have := hmode _ _ b3
      rwa [Nat.cast_add] at this
  refine ⟨((o4.drop "methodStage1").drop "methodStage2").drop "method", ⟨c.1, c.2, q.1, q.2⟩,
    ((o4.drop "methodStage1").drop "methodStage2").exact "method", o4.exact "methodStage1",
    (o4.drop "methodStage1").exact "methodStage2", ?_, hcf, hqf⟩
  unfold svdsOptions
  rw [d1]
  simp only [Res.bind]
  rw [h2]
  simp only
  rw [h3]
  simp only
  rw [h4]
  simp only
  rw [hc]
  simp only
  rw [hq]
  simp only
  rw [if_neg (by rw [hp]; simp), if_neg g.isreal]

private theorem siseed_info : memberInfo svdsTables.names svdsTables.types (some 0) (some (some "iseed")) =
    .ok (some 35, some (some "iseed"), .int, 1) := by decide +kernel

private theorem sshifts_info : memberInfo svdsTables.names svdsTables.types (some 0) (some (some "targetShifts")) =
    .ok (some 21, some (some "targetShifts"), .double, 0) := by decide +kernel

/-- A good option can be set. -/
private theorem sset_can (heap : Nat) {nm : String} {x : Member Svds.IF Svds.DF Svds.PF} {w : RVal K} {y : Val K}
    (hm : (nm, x) ∈ Py.Doc.svdsMembers) (hn : nm ∉ C57_closed)
    (hw : R.Doc.SvdsMeans x w y) (hy : fits Svds.ctype x y) (u : RState Svds.IF Svds.DF Svds.PF K) :
    ∃ t, setMemberR (svdsKind heap) u nm w = .ok t := by
  have table : ∀ e ∈ Py.Doc.svdsMembers, e.1 ∉ C57_closed →
      (match e.2 with
        | .i _ => true
        | .d _ => true
        | _ => false) = true → ∃ l ∈ Svds.infoNames, l.1 = e.1 ∧
      select Svds.setTable l.2 = some (setEntryFor Svds.ctype e.2) ∧
      l.2 ∉ [1, 2, 9, 10, 11, 12, 13, 14, 20, 24, 25, 38, 5, (7 : Int)] := by decide +kernel
  have can : ∀ {x : Member Svds.IF Svds.DF Svds.PF} {w : RVal K} {y : Val K}, (nm, x) ∈ Py.Doc.svdsMembers → (match x with
        | .i _ => true
        | .d _ => true
        | _ => false) = true → fits Svds.ctype x y → meantR Svds.constTable x w = some y →
        ∃ t, setMemberR (svdsKind heap) u nm w = .ok t := by
    intro x w y hm hq hy hv
    obtain ⟨⟨nm', l⟩, hl, rfl, he, hf⟩ := table _ hm hn hq
    exact setMemberR_can (svds_kind heap) u hl hm he hf hv hy
  cases hw with
  | int f k => exact can hm rfl hy rfl
  | whole f k hk =>
    refine can hm rfl hy ?_
    show some (Val.int (toRInt (k : K))) = some (.int k)
    rw [toRInt_int hk.1 hk.2]
  | name f q k hk =>
    refine can hm rfl hy ?_
    simp only [meantR, hk]
  | real f q => exact can hm rfl hy rfl
  | fromInt f k => exact can hm rfl hy rfl
  | seed w hw =>
    have : ∀ e ∈ Py.Doc.svdsMembers, e.2 = .seed → e.1 = "iseed" := by decide +kernel
    have hnm : nm = "iseed" := this _ hm rfl
    subst hnm
    have hi : memberInfo (svdsKind heap).T.names (svdsKind heap).T.types (some 0) (some (some "iseed")) =
      .ok (some 35, some (some "iseed"), .int, 1) := siseed_info
    simp only [setMemberR, hi]
    rw [if_pos (show (35 : Int) = (svdsKind heap).seed from rfl)]
    simp only [asInts, Res.bind, hw, dif_pos]
    exact ⟨_, rfl⟩

private theorem sshifts_can (heap : Nat) (l : List K) (u : RState Svds.IF Svds.DF Svds.PF K) :
    ∃ t, setMemberR (svdsKind heap) u "targetShifts" (.real l) = .ok t := by
  have hi : memberInfo (svdsKind heap).T.names (svdsKind heap).T.types (some 0) (some (some "targetShifts")) =
    .ok (some 21, some (some "targetShifts"), .double, 0) := sshifts_info
  simp only [setMemberR, hi]
  rw [if_neg (show ¬ (21 : Int) = (svdsKind heap).seed from show ¬ (21 : Int) = 35 by decide),
    if_pos (show (21 : Int) = (svdsKind heap).shifts from rfl)]
  simp only [asDoubles, Res.bind]
  exact ⟨_, rfl⟩

private theorem stages_can {l : List (String × Opts K)}
    (h : ∀ e ∈ l, (e.1 = "primme" ∨ e.1 = "primmeStage2") ∧ ∀ f ∈ e.2, ∃ x y, (f.1, x) ∈ Py.Doc.eigsMembers ∧
      f.1 ∉ ["targetShifts", "ShiftsForPreconditioner", "profile", "stats_numGlobalSum", "stats_numBroadcast", "nLocal",
        "numProcs", "procID", "numTargetShifts", "ldevecs", "ldOPs"] ∧ R.Doc.Means x f.2 y ∧ fits Eigs.ctype x y)
    (s : SState K) : ∃ t, setStages D l s = .ok t := by
  have all : ∀ heap (o : Opts K), (∀ f ∈ o, ∃ x y, (f.1, x) ∈ Py.Doc.eigsMembers ∧
      f.1 ∉ ["targetShifts", "ShiftsForPreconditioner", "profile", "stats_numGlobalSum", "stats_numBroadcast", "nLocal",
        "numProcs", "procID", "numTargetShifts", "ldevecs", "ldOPs"] ∧ R.Doc.Means x f.2 y ∧ fits Eigs.ctype x y) →
      ∀ u : ES K, ∃ t, setAll (eigsKind heap) o (o.map Prod.fst) u = .ok t := by
    intro heap o ho u
    refine setAll_can (fun nm hnm s => ?_) u
    obtain ⟨x, y, b1, b2, b3, b4⟩ := ho _ (exact_mem' hnm)
    exact C56_set_can heap b1 b2 b3 b4 s
  induction l generalizing s with
  | nil => exact ⟨s, rfl⟩
  | cons e r ih =>
    obtain ⟨h1, h2⟩ := h e List.mem_cons_self
    have ih := ih (fun e he => h e (List.mem_cons_of_mem _ he))
    unfold setStages
    rcases h1 with h1 | h1
    · obtain ⟨u, hu⟩ := all D.heap1 e.2 h2 s.st1
      rw [if_pos h1, hu]
      exact ih _
    · obtain ⟨u, hu⟩ := all D.heap2 e.2 h2 s.st2
      rw [if_neg (by rw [h1]; decide), if_pos h1, hu]
      exact ih _

/-- **Good arguments reach the library.** -/
theorem C57_accepts {M N k : Nat} (hs : start.sv.i .mLocal = -1) (hs' : start.sv.i .nLocal = -1) (g : C57_Good a M N k) :
    ∃ c, prepareSvdsR S D junk start a = .ok c := by
  obtain ⟨o, x, m, m1, m2, h1, hf1, hf2⟩ := soptions_can g
  have made := svdsOptions_made h1
  obtain ⟨hM, hN⟩ := g.sizes
  have hk : (k : Int) < 2 ^ 31 := by have := g.few; omega
  have dims : ("m" ∈ o.map Prod.fst ∧ (o.exact "m" = .int [(M : Int)] ∨ o.exact "m" = .real [(M : K)])) ∧
      "n" ∈ o.map Prod.fst ∧ (o.exact "n" = .int [(N : Int)] ∨ o.exact "n" = .real [(N : K)]) := by
    rcases g.dims with ⟨y, hy, rfl, rfl⟩ | ⟨hA, h1, h2⟩
    · obtain ⟨⟨q1, q2⟩, q3, q4⟩ := made.dimMat y hy
      exact ⟨⟨q2, .inl q1⟩, q4, .inl q3⟩
    · obtain ⟨⟨q1, q2⟩, q3, q4⟩ := made.dim hA
      refine ⟨⟨q2.2 ?_, by rw [q1]; exact h1⟩, q4.2 ?_, by rw [q3]; exact h2⟩
      · rcases h1 with h | h <;> exact mem_of_exact _ (by rw [h]; simp)
      · rcases h2 with h | h <;> exact mem_of_exact _ (by rw [h]; simp)
  have hcount : o.exact "numSvals" = .int [(k : Int)] ∨ o.exact "numSvals" = .real [(k : K)] := by
    rw [made.count.2.1]
    have := number_nat g.count
    simpa using this
  have consts : constantInfo Svds.constTable "primme_svds_largest" = .ok 0 ∧
      constantInfo Svds.constTable "primme_svds_smallest" = .ok 1 ∧
      constantInfo Svds.constTable "primme_svds_closest_abs" = .ok 2 := by decide +kernel
  have each : ∀ nm ∈ o.map Prod.fst, ∀ s, ∃ t, setMemberR (svdsKind D.heap) s nm (o.exact nm) = .ok t := by
    intro nm hnm s
    by_cases hf : nm ∈ svdsTaken
    · simp only [svdsTaken, List.mem_cons, List.not_mem_nil, or_false] at hf
      rcases hf with rfl | rfl | rfl | rfl | rfl | rfl | rfl | rfl | rfl
      · exact sset_can D.heap (x := .i .m) (by decide +kernel) (by decide) (means_nat dims.1.2 hM) ⟨by omega, by omega⟩ s
      · exact sset_can D.heap (x := .i .n) (by decide +kernel) (by decide) (means_nat dims.2.2 hN) ⟨by omega, by omega⟩ s
      · exact sset_can D.heap (x := .i .numSvals) (by decide +kernel) (by decide) (means_nat hcount hk)
          ⟨by omega, by omega⟩ s
      · obtain ⟨tn, q1, -, q3, q4⟩ := made.target
        have can : ∀ v : Int, constantInfo Svds.constTable tn = .ok v → 0 ≤ v ∧ v < 2 ^ 32 →
            ∃ t, setMemberR (svdsKind D.heap) s "target" (o.exact "target") = .ok t := by
          intro v hv hr
          rw [q1]
          exact sset_can D.heap (x := .i .target) (by decide +kernel) (by decide) (.name _ _ _ hv) hr s
        rcases g.which with ⟨e, he, hw⟩ | ⟨l, hw⟩
        · rcases q3 _ hw with ⟨-, rfl⟩ | ⟨-, rfl⟩
          · exact can 0 consts.1 (by omega)
          · exact can 1 consts.2.1 (by omega)
        · have := q4 l hw
          subst this
          exact can 2 consts.2.2 (by omega)
      · rcases g.which with ⟨e, he, hw⟩ | ⟨l, hw⟩
        · obtain ⟨-, q2⟩ := made.noPoints _ hw
          rcases g.options _ (exact_mem' (q2.1 hnm)) with h | ⟨x, y, -, h, -⟩
          · simp at h
          · simp [C57_closed] at h
        · rw [(made.points l hw).1]
          exact sshifts_can D.heap l s
      · obtain ⟨t, -, -, -, q, -⟩ := made.tol
        rw [q]
        exact sset_can D.heap (x := .d .eps) (by decide +kernel) (by decide) (.real _ _) trivial s
      · exact absurd hnm (made.methodsGone _ (by decide) (g.once _ (by decide)))
      · exact absurd hnm (made.methodsGone _ (by decide) (g.once _ (by decide)))
      · exact absurd hnm (made.methodsGone _ (by decide) (g.once _ (by decide)))
    · obtain ⟨q1, q2⟩ := made.others nm hf
      rcases g.options _ (exact_mem' (q2.1 hnm)) with h' | ⟨x, y, b1, b2, b3, b4⟩
      · have : ∀ z ∈ ["method", "methodStage1", "methodStage2"], z ∈ svdsTaken := by decide
        exact absurd (this _ h') hf
      · rw [q1]
        exact sset_can D.heap b1 b2 b3 b4 s
  obtain ⟨v, h2⟩ := setAll_can each ⟨start.sv, []⟩
  obtain ⟨s, h3⟩ := stages_can (D := D) g.stages ⟨v, ⟨start.st1, []⟩, ⟨start.st2, []⟩⟩
  have h4 : ∃ t, setMethods S m m1 m2 s = .ok t := by
    obtain ⟨e1, e2, e3⟩ := made.methods
    have one : ∀ (consts : List (String × Int)) d (w : RVal K), (∃ v, constantInfo consts d = .ok v) → (w = .null ∨
        ∃ nm v, w = .str [nm] ∧ constantInfo consts nm = .ok v) → ∃ v, constOf consts (methodName w d) = some v := by
      rintro consts d w ⟨v, hv⟩ (rfl | ⟨nm, v', rfl, hv'⟩)
      · exact ⟨v, by simp [methodName, constOf, hv]⟩
      · exact ⟨v', by simp [methodName, constOf, hv']⟩
    have d0 : constantInfo Svds.constTable "primme_svds_default" = .ok 0 := by decide +kernel
    have d1 : constantInfo Eigs.constTable "PRIMME_DEFAULT_METHOD" = .ok 0 := by decide +kernel
    obtain ⟨v0, q0⟩ := one _ "primme_svds_default" _ ⟨_, d0⟩ g.preset
    obtain ⟨v1, q1⟩ := one _ "PRIMME_DEFAULT_METHOD" _ ⟨_, d1⟩ (g.presets "methodStage1" (by decide))
    obtain ⟨v2, q2⟩ := one _ "PRIMME_DEFAULT_METHOD" _ ⟨_, d1⟩ (g.presets "methodStage2" (by decide))
    unfold setMethods
    split
    · exact ⟨_, rfl⟩
    · rw [e1, e2, e3, q0, q1, q2]
      exact ⟨_, rfl⟩
  obtain ⟨t, h4⟩ := h4
  obtain ⟨-, -, frame⟩ := setMethods_ok h4
  have fv := setStages_sv h3
  dsimp only at fv
  have get : ∀ nm f, (nm, .i f) ∈ Py.Doc.svdsMembers → f ≠ .numTargetShifts → KeptByPreset (.i f) → nm ∈ o.map Prod.fst →
      ∀ q : Nat, (o.exact nm = .int [(q : Int)] ∨ o.exact nm = .real [(q : K)]) → (q : Int) < 2 ^ 31 →
      (Svds.ctype f).holds q → t.sv.params.i f = q := by
    intro nm f hm hc hk hn q hq hr hf
    obtain ⟨u, w, b1, b2⟩ := (setAll_at (svds_kind D.heap) h2 hm
      (show (Member.i f : Member Svds.IF Svds.DF Svds.PF) ≠ .i .numTargetShifts by simpa using hc)).1 hn
    have b3 := sset_means hm b1 (means_nat hq hr) hf
    have b5 := frame (.i f) hk
    rw [fv, b2, b3] at b5
    simpa only [reads, Val.int.injEq] using b5
  have tm := get "m" .m (by decide +kernel) (by decide) ⟨by decide, by decide⟩ dims.1.1 M dims.1.2 hM ⟨by omega, by omega⟩
  have tn := get "n" .n (by decide +kernel) (by decide) ⟨by decide, by decide⟩ dims.2.1 N dims.2.2 hN ⟨by omega, by omega⟩
  have tk := get "numSvals" .numSvals (by decide +kernel) (by decide) ⟨by decide, by decide⟩ made.count.2.2 k hcount hk
    ⟨by omega, by omega⟩
  have loc := local_kept h2
  have tl : t.sv.params.i .mLocal = -1 ∧ t.sv.params.i .nLocal = -1 := by
    have b1 := frame (.i .mLocal) ⟨by decide, by decide⟩
    have b2 := frame (.i .nLocal) ⟨by decide, by decide⟩
    rw [fv] at b1 b2
    simp only [reads, Val.int.injEq] at b1 b2
    rw [b1, b2, loc.1, loc.2]
    exact ⟨hs, hs'⟩
  obtain ⟨r1, r2, r3⟩ := localDims_reads t.sv.params
  rw [if_pos tl.1, tm] at r2
  rw [if_pos tl.2, tn] at r3
  have r4 := r1 (.i .numSvals) (by decide) (by decide)
  simp only [reads, Val.int.injEq, tk] at r4
  unfold prepareSvdsR
  rw [h1]
  simp only [Res.bind]
  rw [h2]
  simp only
  rw [h3]
  simp only
  rw [h4]
  simp only
  unfold enterSvds
  dsimp only
  have rows : ∀ {p : RVecs V × RVecs V}, Fits M N p → ¬ (rowsOf p.1 ≠ 0 ∧ (rowsOf p.1 : Int) ≠ M) ∧
      ¬ (rowsOf p.2 ≠ 0 ∧ (rowsOf p.2 : Int) ≠ N) ∧ ¬ colsOf p.1 ≠ colsOf p.2 := by
    rintro p ⟨f1, f2, f3⟩
    refine ⟨?_, ?_, by simpa using f3⟩
    · rintro ⟨b1, b2⟩
      exact b2 (by exact_mod_cast f1 b1)
    · rintro ⟨b1, b2⟩
      exact b2 (by exact_mod_cast f2 b1)
  obtain ⟨a1, a2, a3⟩ := rows hf1
  obtain ⟨b1, b2, b3⟩ := rows hf2
  rw [r2, r3, r4, if_neg a1, if_neg a2, if_neg a3, if_neg b1, if_neg b2, if_neg b3, if_neg (by omega)]
  exact ⟨_, rfl⟩

/-! ## Examples, and where the documentation is not met -/

/-- **Documented methods.**  The name `primme_svds_normalequation` of the documentation is no constant of the library:
every call with it raises. -/
theorem C57_methods_violated (h : a.opts.exact "method" = .str ["primme_svds_normalequation"]) :
    "primme_svds_normalequation" ∈ R.Doc.svdsMethods ∧ ∃ e, prepareSvdsR S D junk start a = .raise e := by
  have hn : ∀ nm ∈ ["primme_svds_normalequation"], (match constantInfo Svds.constTable nm with
      | .ok _ => false
      | _ => true) = true := by decide +kernel
  refine ⟨by decide, C57_rejects (.preset _ h ?_)⟩
  intro v hv
  have := hn _ (List.mem_cons_self)
  rw [hv] at this
  simp at this

/-- **Documented options.**  Every call with the option `minRestartSize` of the documentation raises: the structure has no
such member. -/
theorem C57_options_violated {w : RVal K} (h : ("minRestartSize", w) ∈ a.opts) :
    "minRestartSize" ∈ R.Doc.svdsOptions.map Prod.fst ∧ ∃ e, prepareSvdsR S D junk start a = .raise e := by
  have h1 : ∀ p ∈ Py.Doc.svdsMembers, p.1 ≠ "minRestartSize" := by decide +kernel
  exact ⟨by decide, C57_rejects (.option _ h h1 (by simp))⟩

/-- **Options of the first stage.**  Every call with the option `primmeStage1` of the documentation raises; the name that
works is `primme`. -/
theorem C57_stageName_violated {l : Opts K} (h : ("primmeStage1", l) ∈ a.stages) :
    "primmeStage1" ∈ R.Doc.svdsStages ∧ ∃ e, prepareSvdsR S D junk start a = .raise e :=
  ⟨by decide, C57_rejects (.stage _ h (by simp))⟩

/-- **The other vectors of a complex matrix.**  With left vectors only, the right ones are made with `t(A)`, and not with
the conjugate transpose: for the matrix `[i]` and the vector `1` they are `i` and not `-i`. -/
theorem C57_partner_violated : ∃ (M : Nat → Nat → K × K) (x : Nat → K × K),
    afRow 1 1 M true x 0 ≠ ((List.range 1).map fun j => cmul (R.conj (M j 0)) (x j)).sum := by
  refine ⟨fun _ _ => (0, 1), fun _ => (1, 0), ?_⟩
  simp only [afRow, cmul, R.conj, if_true, List.range_one, List.map_cons, List.map_nil, List.sum_cons, List.sum_nil, add_zero]
  intro h
  have := congrArg Prod.snd h
  norm_num at this

/-- **Vectors of one side with a matrix of the package Matrix.**  When the product is of another class than `matrix`, left
or right vectors alone are refused. -/
theorem C57_matrixClass_violated (hA : ∀ adj x, a.apply adj x = none) :
    (∀ u, a.u0 = .mat u → a.v0 = .null → ∃ e, prepareSvdsR S D junk start a = .raise e) ∧
    ∀ v, a.u0 = .null → a.v0 = .mat v → ∃ e, prepareSvdsR S D junk start a = .raise e := by
  have key : ∀ u v : RVecs V, (∃ x, u = .mat x ∧ v = .null ∨ u = .null ∧ v = .mat x) → ∀ (o : Opts K) p,
      checkUV a o u v ≠ .ok p := by
    rintro u v ⟨x, ⟨rfl, rfl⟩ | ⟨rfl, rfl⟩⟩ o p h
    · unfold checkUV at h
      simp only [hA, derived, fitsRows] at h
      split at h
      · simp at h
      · simp at h
    · unfold checkUV at h
      have : fitsRows o "m" (.null : RVecs V) = true := rfl
      simp only [hA, derived, this, Bool.true_eq_false, if_false] at h
      split at h
      · simp at h
      · simp at h
  have main : (∃ x, a.u0 = .mat x ∧ a.v0 = .null ∨ a.u0 = .null ∧ a.v0 = .mat x) →
      ∃ e, prepareSvdsR S D junk start a = .raise e := by
    intro hx
    cases hp : prepareSvdsR S D junk start a with
    | raise e => exact ⟨e, rfl⟩
    | ub => exact absurd hp (C57_defined _ _ _ _ _)
    | ok c =>
      exfalso
      unfold prepareSvdsR at hp
      obtain ⟨q, h1, -⟩ := bind_ok hp
      unfold svdsOptions at h1
      obtain ⟨o1, -, h1⟩ := bind_ok h1
      obtain ⟨o2, -, h1⟩ := bind_ok h1
      obtain ⟨o3, -, h1⟩ := bind_ok h1
      obtain ⟨o4, -, h1⟩ := bind_ok h1
      obtain ⟨c1, -, h1⟩ := bind_ok h1
      obtain ⟨g1, h2, -⟩ := bind_ok h1
      exact key _ _ hx _ _ h2
  exact ⟨fun u h1 h2 => main ⟨u, .inl ⟨h1, h2⟩⟩, fun v h1 h2 => main ⟨v, .inr ⟨h1, h2⟩⟩⟩

/-- The two smallest singular values of a dense 6 by 4 matrix, with a constraint, left guesses alone, options of both
stages and a preconditioner of the product with the adjoint. -/
def C57_call : RSvdsArgs Rat Rat where
  A := .mat ⟨.double, 6, 4⟩
  apply := fun adj x => some ⟨if adj then 4 else 6, x.cols, fun i j => 7 * x.at' i j⟩
  NSvals := .real [2]
  which := .name "S"
  tol := .num (1 / 1000000)
  u0 := .mat ⟨6, 2, fun i j => 200 + 10 * i + j⟩
  v0 := .null
  orthou := .mat ⟨6, 1, fun i j => 300 + 10 * i + j⟩
  orthov := .mat ⟨4, 1, fun i j => 400 + 10 * i + j⟩
  prec := .list (.mat 4 4) .null .fn
  isreal := .null
  opts := [("printLevel", .real [3]), ("aNorm", .int [2]), ("method", .str ["primme_svds_hybrid"]),
    ("iseed", .int [1, 2, 3, 5])]
  stages := [("primmeStage2", [("maxBlockSize", .real [2])]), ("primme", [("maxBlockSize", .int [1])])]

/-- Addresses. -/
def C57_addrs : RSvdsAddrs := ⟨100, 101, 102, 1, 2, 11, 12⟩

/-- The library: the driver on the structure, with the numerical kernels `o`.  The singular vectors are not touched. -/
def C57_library (o : SvdsRun.Sys ℚ) (c : RSvdsCall ℚ ℚ) : RSvdsCallOut ℚ ℚ :=
  match SvdsRun.driver 3 (fun _ => some o) 5 ⟨false, false, false⟩
      ⟨c.params, fun _ => 0, fun _ => 0, fun _ _ => 0, 0, []⟩ with
  | some r => ⟨r.code, r.w.s, r.w.svals, c.svecs, r.w.rnorms⟩
  | none => ⟨-1, c.params, fun _ => 0, c.svecs, fun _ => 0⟩

/-- Code of the library and singular values `svds` returns. -/
def C57_run (o : SvdsRun.Sys ℚ) (a : RSvdsArgs ℚ ℚ) : Option (Int × Res (List ℚ)) :=
  match prepareSvdsR o.toSEnv C57_addrs (fun _ => 0) C54_fresh a with
  | .ok c => some ((C57_library o c).code,
      (svdsR o.toSEnv C57_addrs (fun _ => 0) C54_fresh (C57_library o) a).bind fun r => .ok r.d)
  | _ => none

theorem C57_call_good : C57_Good C57_call 6 4 2 where
  dims := .inl ⟨_, rfl, rfl, rfl⟩
  sizes := by decide
  count := by decide +kernel
  few := by decide
  which := .inl ⟨("S", 1), by decide, rfl⟩
  tol := ⟨_, rfl, by norm_num, by norm_num⟩
  guess := .left _ ⟨4, 2, fun i j => 7 * (200 + 10 * i + j)⟩ ⟨rfl, rfl, rfl⟩ rfl
  ortho := .both _ _ ⟨rfl, rfl, rfl⟩
  prec := .inr (.inr ⟨_, _, _, rfl, .inr (.inr rfl), .inl rfl, .inr (.inl rfl)⟩)
  isreal := by simp [C57_call]
  options := by
    intro e he
    simp only [C57_call, List.mem_cons, List.not_mem_nil, or_false] at he
    rcases he with rfl | rfl | rfl | rfl
    · exact .inr ⟨.i .printLevel, .int 3, by decide +kernel, by decide, R.Doc.SvdsMeans.whole (K := Rat) .printLevel 3
        (by decide), ⟨by decide, by decide⟩⟩
    · exact .inr ⟨.d .aNorm, .dbl ((2 : Int) : Rat), by decide +kernel, by decide, .fromInt _ _, trivial⟩
    · exact .inl (by decide)
    · exact .inr ⟨.seed, .seed fun k => [1, 2, 3, 5][k], by decide +kernel, by decide, .seed [1, 2, 3, 5] rfl, by
      intro k; fin_cases k <;> exact ⟨by decide, by decide⟩⟩
  once := by decide
  preset := .inr ⟨"primme_svds_hybrid", 1, by decide +kernel, by decide +kernel⟩
  presets := by
    intro o ho
    simp only [List.mem_cons, List.not_mem_nil, or_false] at ho
    rcases ho with rfl | rfl
    · exact .inl (by decide +kernel)
    · exact .inl (by decide +kernel)
  stages := by
    intro e he
    simp only [C57_call, List.mem_cons, List.not_mem_nil, or_false] at he
    rcases he with rfl | rfl
    · refine ⟨.inr rfl, ?_⟩
      intro f hf
      simp only [List.mem_cons, List.not_mem_nil, or_false] at hf
      subst hf
      exact ⟨.i .maxBlockSize, .int 2, by decide +kernel, by decide, R.Doc.Means.whole (K := Rat) .maxBlockSize 2
        (by decide), ⟨by decide, by decide⟩⟩
    · refine ⟨.inl rfl, ?_⟩
      intro f hf
      simp only [List.mem_cons, List.not_mem_nil, or_false] at hf
      subst hf
      exact ⟨.i .maxBlockSize, .int 1, by decide +kernel, by decide, .int _ _, ⟨by decide, by decide⟩⟩

example : C57_run C28_sys C57_call = some (0, .ok [1, 2]) := by decide +kernel

example : ∃ c, prepareSvdsR C28_sys.toSEnv C57_addrs (fun _ => 0) C54_fresh C57_call = .ok c ∧
    c.params.sv.i .m = 6 ∧ c.params.sv.i .n = 4 ∧ c.params.sv.i .numSvals = 2 ∧ c.params.sv.d .eps = 1 / 1000000 ∧
    c.params.sv.p .applyPreconditioner = 2 ∧ c.params.sv.i .printLevel = 3 ∧ c.params.sv.d .aNorm = 2 ∧
    (c.params.sv.i .method, c.params.sv.i .methodStage2) = Svds.Doc.presetOps 1 6 4 := by
  obtain ⟨c, hc⟩ := C57_accepts (S := C28_sys.toSEnv) (D := C57_addrs) (junk := fun _ => 0) (start := C54_fresh) rfl rfl
    C57_call_good
  obtain ⟨p1, p2, -, -, p3, ⟨x, q1, -, -, q2⟩, -, -, p4, -⟩ := C57_problem hc rfl rfl C57_call_good.dims (by decide) (by decide)
  obtain ⟨u, t, -, -, -, -, -, -, -, m1⟩ := C57_method hc rfl rfl C57_call_good.dims (by decide) (by decide) (by decide)
  obtain ⟨m, m1', m2', w, w1, w2, n1, n2, -, -, -, -, -, n3⟩ := m1 ⟨"method", by decide, by decide +kernel⟩
  have hm : C57_call.opts.exact "method" = .str ["primme_svds_hybrid"] := by decide +kernel
  have hw : w = 1 := by
    rcases n1 with n1 | n1
    · rw [hm] at n1
      simp only [RVal.str.injEq, List.cons.injEq, and_true] at n1
      rw [← n1] at n2
      have : constantInfo Svds.constTable "primme_svds_hybrid" = .ok 1 := by decide +kernel
      rw [this] at n2
      simpa using n2.symm
    · rw [hm] at n1
      simp at n1
  subst hw
  have ht : x = 1 / 1000000 := by
    have : C57_call.tol = .num (1 / 1000000) := rfl
    rw [this] at q1
    simpa using q1.symm
  refine ⟨c, hc, p1, p2, (p3 2 (by decide +kernel)).2.2, by rw [q2, ht], (p4 (by simp [C57_call])).2.1, ?_, ?_, n3 (by decide)⟩
  · have := C57_options hc (nm := "printLevel") (x := .i .printLevel) (y := .int 3) (by decide +kernel) (by decide)
      (R.Doc.SvdsMeans.whole (K := Rat) .printLevel 3 (by decide)) ⟨by decide, by decide⟩
    simpa [reads] using this
  · have := C57_options hc (nm := "aNorm") (x := .d .aNorm) (y := .dbl ((2 : Int) : Rat)) (by decide +kernel)
      (by decide) (.fromInt _ _) trivial
    simpa [reads] using this

/-- **A number of values slightly below a whole number** passes the test of whole numbers and is then cut. -/
theorem C57_count_violated : whole (.real [(3 - 1 / 2 ^ 30 : Rat)]) = true ∧
    ∃ c, prepareSvdsR C28_sys.toSEnv C57_addrs (fun _ => 0) C54_fresh { C57_call with NSvals := .real [3 - 1 / 2 ^ 30] } = .ok c ∧
      c.params.sv.i .numSvals = 2 := by
  refine ⟨by decide +kernel, ?_⟩
  have : (match prepareSvdsR C28_sys.toSEnv C57_addrs (fun _ => 0) C54_fresh { C57_call with NSvals := .real [3 - 1 / 2 ^ 30] } with
      | .ok c => decide (c.params.sv.i .numSvals = 2)
      | _ => false) = true := by decide +kernel
  split at this
  · rename_i c hc
    exact ⟨c, hc, by simpa using this⟩
  · simp at this

/-- **Large limits**: a whole number that is no R integer becomes the smallest `int`: `maxMatvecs = 1e10` asks for
`-2^31` products at most. -/
theorem C57_limit_violated : ∃ c, prepareSvdsR C28_sys.toSEnv C57_addrs (fun _ => 0) C54_fresh
      { C57_call with opts := [("maxMatvecs", .real [10000000000])] } = .ok c ∧ c.params.sv.i .maxMatvecs = -2 ^ 31 := by
  have : (match prepareSvdsR C28_sys.toSEnv C57_addrs (fun _ => 0) C54_fresh
        { C57_call with opts := [("maxMatvecs", .real [10000000000])] } with
      | .ok c => decide (c.params.sv.i .maxMatvecs = -2 ^ 31)
      | _ => false) = true := by decide +kernel
  split at this
  · rename_i c hc
    exact ⟨c, hc, by simpa using this⟩
  · simp at this

/-- A library that made `2^31` products. -/
def C57_busy (c : RSvdsCall Rat Rat) : RSvdsCallOut Rat Rat :=
  ⟨0, ⟨c.params.sv.setI .stats_numMatvecs (2 ^ 31), c.params.st1, c.params.st2⟩, fun _ => 0, c.svecs, fun _ => 0⟩

/-- **The statistics are cut to 32 bits.** -/
theorem C57_stats_violated : ∃ r, svdsR C28_sys.toSEnv C57_addrs (fun _ => 0) C54_fresh C57_busy C57_call = .ok r ∧
    (∀ c, (C57_busy c).params.sv.i .stats_numMatvecs = 2 ^ 31) ∧ ("numMatvecs", .int (-2 ^ 31)) ∈ r.stats := by
  have : (match svdsR C28_sys.toSEnv C57_addrs (fun _ => 0) C54_fresh C57_busy C57_call with
      | .ok r => decide (("numMatvecs", R.Got.int (-2 ^ 31)) ∈ r.stats)
      | _ => false) = true := by decide +kernel
  split at this
  · rename_i r hr
    exact ⟨r, hr, fun _ => rfl, by simpa using this⟩
  · simp at this

/-- The problem with a function for `A` and without vectors. -/
def C57_bare (o : Opts Rat) : RSvdsArgs Rat Rat :=
  { C57_call with A := .fn, u0 := .null, orthou := .null, orthov := .null, prec := .null, opts := o }

/-- **Partial names**: for a function without the option `m`, the number of rows is read from any single option whose name
begins with `m`, here `maxMatvecs`; the call then asks for a problem without rows. -/
theorem C57_dimension_violated :
    C57_run C28_sys (C57_bare [("n", .real [4]), ("maxMatvecs", .real [7])]) = some (-10, .raise (.primme (-10))) ∧
    C57_run C28_sys (C57_bare [("n", .real [4])]) = none := by decide +kernel

example : C57_Bad { C57_call with NSvals := .real [5] } :=
  .count 6 4 (.inl ⟨_, rfl, rfl, rfl⟩) 5 (by decide +kernel) (.inr (by norm_num))

example : C57_Bad { C57_call with v0 := .mat ⟨4, 1, fun _ _ => 0⟩ } :=
  .guesses ⟨6, 2, _⟩ ⟨4, 1, _⟩ ⟨rfl, rfl⟩ (by decide)

/-- The 1 by 2 matrix `(2, i)` and the vector `i`. -/
example : denseRow false .complex 1 2 (fun p => if p = 0 then (2 : Rat) else if p = 3 then 1 else 0) true
    (fun _ => (0, 1)) 1 = .row (1, 0) := by decide +kernel

end Verif.Props
