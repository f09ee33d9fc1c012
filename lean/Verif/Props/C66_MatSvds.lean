import Verif.Proofs.MatSvds
import Verif.Props.C65_MatEigs
import Verif.Props.C57_RSvds

set_option linter.unusedSectionVars false
set_option linter.unusedVariables false

/-!
# C66: the MATLAB function `primme_svds` asks the library for what its arguments say

The theorems are about `prepareSvdsM`, the state in which `primme_svds` calls the library, `finishSvdsM`, what it makes of
the answer, and `applyHeld`, the preconditioner it makes of its arguments.  The names and their meaning are those of the
help text of `primme_svds` (`Verif.Mat.Doc`) and of the manual (`Py.Doc.svdsMembers`).
-/

namespace Verif.Props
open Verif.Members Verif.Py Verif.Mat

variable {K V : Type} [Field K] [LinearOrder K] [IsStrictOrderedRing K] [FloorRing K]
variable {S : Svds.SEnv K} {D : SAddrs} {junk : Nat → V} {start : Svds.SP K} {a : Mat.SvdsArgs K V} {c : SCall K V}
variable {x : Prepared K V} {b : Fields (MVal K)} {p : Option (HeldP V)} {m n : Nat} {s t u : Mat.SState K}

/-! ## From the fields to the structure -/

/-- A name that is not an option. -/
private theorem none_of {nm : String} (h : nm ∉ a.opts.rest.map Prod.fst) : a.opts.rest.get nm = none := get_none.2 h

/-- Integers of the structure. -/
private theorem ints (ca : CalledS S D junk start a c x b p m n s t u) {nm : String} {f : Svds.IF}
    (hm : (nm, .i f) ∈ Py.Doc.svdsMembers) (h1 : f ≠ .numTargetShifts) (h2 : f ≠ .method) (h3 : f ≠ .methodStage2) :
    (∀ k : Int, x.fields.get nm = some (.one (k : K)) → (Svds.ctype f).holds k → c.params.sv.i f = k) ∧
    (x.fields.get nm = none → c.params.sv.i f = start.sv.i f) := by
  have hal : (.i f : Member Svds.IF Svds.DF Svds.PF) ∉ aliased (Mat.svdsKind D.heap D.device D.text) := by
    simp [aliased, Mat.svdsKind, h1]
  have e := ca.kept (y := .i f) (by simp [enteredM]) (by simpa using h2) (by simpa using h3) (by simp)
  simp only [reads, Val.int.injEq] at e
  refine ⟨fun k hk hf => ?_, fun hk => ?_⟩
  · have := ca.means hm hal hk (z := .int k) (Mat.Doc.Means.whole f k) hf
    simp only [reads, Val.int.injEq] at this
    rw [e, this]
  · have := (flat_member (Mat.svds_kind D.heap D.device D.text) ca.made.nodup ca.made.flat ca.set hm hal).2 hk
    simp only [reads, Val.int.injEq] at this
    rw [e, this]

/-- A whole number that was set is in the range of `int`. -/
private theorem range (ca : CalledS S D junk start a c x b p m n s t u) {nm : String} {f : Svds.IF}
    (hm : (nm, .i f) ∈ Py.Doc.svdsMembers) (h1 : f ≠ .numTargetShifts) {k : Nat}
    (hk : x.fields.get nm = some (.one ((k : Int) : K))) : (k : Int) < 2 ^ 31 := by
  have hal : (.i f : Member Svds.IF Svds.DF Svds.PF) ∉ aliased (Mat.svdsKind D.heap D.device D.text) := by
    simp [aliased, Mat.svdsKind, h1]
  obtain ⟨z, w, hz, -⟩ :=
    (flat_member (Mat.svds_kind D.heap D.device D.text) ca.made.nodup ca.made.flat ca.set hm hal).1 _ hk
  obtain ⟨l, m', hl, hm', hx⟩ := setMemberM_ok (Mat.svds_kind _ _ _) hz
  have := member_unique svds_good hm hm'
  subst this
  rcases hx with ⟨hx, -⟩ | ⟨hx, -⟩ | ⟨-, -, f', x, -, hx, -⟩ | ⟨-, -, -, hx, -⟩ | ⟨-, -, -, -, -, -, -, hx⟩
  · simp at hx
  · simp at hx
  · simp [MVal.one] at hx
  · have := (Mat.svds_kind D.heap D.device D.text).comm nm (.i f) (hx ▸ hl) hm
    simp at this
  · rcases hx with ⟨x, -, hx, -⟩ | ⟨x, hx, -⟩ | ⟨x, hx, -⟩
    · simp only [MVal.one, Mat.asInt, firstInt] at hx
      split at hx
      · rename_i hr
        have := hr.2
        exact_mod_cast this
      · simp at hx
    · simp [Py.Doc.svdsType] at hx
    · simp [Py.Doc.svdsType] at hx

/-- Pointers of the structure. -/
private theorem ptrs (ca : CalledS S D junk start a c x b p m n s t u) {f : Svds.PF}
    (h1 : (.p f : Member Svds.IF Svds.DF Svds.PF) ∉ enteredM) (h2 : f ≠ .monitor) : c.params.sv.p f = s.sv.params.p f := by
  have e := ca.kept (y := .p f) h1 (by simp) (by simp) (by simpa using h2)
  simpa only [reads, Val.ptr.injEq] using e

/-- A field that comes from the arguments. -/
private theorem basisM {h : Nat} (made : MadeS h a x b p m n) {nm : String} (h1 : nm ∈ baseS)
    (h2 : nm ∉ a.opts.rest.map Prod.fst) : x.fields.get nm = b.get nm := by
  rw [made.bases nm h1, none_of h2]; rfl

private theorem basis (ca : CalledS S D junk start a c x b p m n s t u) {nm : String} (h1 : nm ∈ baseS)
    (h2 : nm ∉ a.opts.rest.map Prod.fst) : x.fields.get nm = b.get nm := basisM ca.made h1 h2

/-- The dimensions the operators were tested with. -/
private theorem dimsM {h : Nat} (made : MadeS h a x b p m n) {M N : Nat} (hd : Mat.Doc.DimsS a M N)
    (o1 : "m" ∉ a.opts.rest.map Prod.fst) (o2 : "n" ∉ a.opts.rest.map Prod.fst) :
    m = M ∧ n = N ∧ x.fields.get "m" = some (.one ((M : Int) : K)) ∧ x.fields.get "n" = some (.one ((N : Int) : K)) := by
  obtain ⟨d1, d2⟩ := made.based.dims M N hd
  have e1 : x.fields.get "m" = some (.one ((M : Int) : K)) := by
    rw [basisM made (by decide) o1, d1]; push_cast; rfl
  have e2 : x.fields.get "n" = some (.one ((N : Int) : K)) := by
    rw [basisM made (by decide) o2, d2]; push_cast; rfl
  have key : ∀ {nm : String} {k j : Nat}, dimIn x.fields nm = some k → x.fields.get nm = some (.one ((j : Int) : K)) →
      k = j := by
    intro nm k j h1 h2
    unfold dimIn at h1
    rw [h2] at h1
    simp only [Option.bind_some, MVal.one, scalar, asNat, Int.floor_intCast, and_true] at h1
    rw [if_pos (by exact_mod_cast Nat.zero_le j)] at h1
    simpa using h1.symm
  exact ⟨key made.dimM e1, key made.dimN e2, e1, e2⟩

private theorem dims (ca : CalledS S D junk start a c x b p m n s t u) {M N : Nat} (hd : Mat.Doc.DimsS a M N)
    (o1 : "m" ∉ a.opts.rest.map Prod.fst) (o2 : "n" ∉ a.opts.rest.map Prod.fst) :
    m = M ∧ n = N ∧ x.fields.get "m" = some (.one ((M : Int) : K)) ∧ x.fields.get "n" = some (.one ((N : Int) : K)) :=
  dimsM ca.made hd o1 o2

/-- **The problem.**  When the library is called the structure holds the dimensions, the number of values, the operator and
the preconditioner the arguments say, whatever the options and the methods, unless the user gives those parameters among the
options. -/
theorem C66_problem {M N : Nat} (h : prepareSvdsM S D junk start a = .ok c) (ha : Mat.Doc.OrdinaryS a)
    (hd : Mat.Doc.DimsS a M N) (own : ∀ nm ∈ Mat.Doc.problemS, nm ∉ a.opts.rest.map Prod.fst) :
    c.params.sv.i .m = M ∧ c.params.sv.i .n = N ∧ (M : Int) < 2 ^ 31 ∧ (N : Int) < 2 ^ 31 ∧
    (∀ k : Nat, a.count = some (.num 1 1 [(k : K)]) → c.params.sv.i .numSvals = k) ∧
    (a.count = none → c.params.sv.i .numSvals = min 6 (min M N)) ∧
    (∃ y, Mat.Doc.Handle a.A y ∧ c.params.sv.p .matrix = y) ∧
    (∀ q, choosePrec a.P1 a.P2 = .ok (some q) →
      c.params.sv.p .preconditioner = D.objPrec ∧ c.params.sv.i .precondition = 1) ∧
    (choosePrec a.P1 a.P2 = .ok none → c.params.sv.p .preconditioner = start.sv.p .preconditioner ∧
      c.params.sv.i .precondition = start.sv.i .precondition) := by
  obtain ⟨x, b, p, m, n, s, t, u, ca⟩ := calledS h ha
  obtain ⟨-, -, e1, e2⟩ := dims ca hd (own _ (by decide)) (own _ (by decide))
  have r1 := range ca (f := .m) (by decide +kernel) (by decide) e1
  have r2 := range ca (f := .n) (by decide +kernel) (by decide) e2
  refine ⟨(ints ca (by decide +kernel) (by decide) (by decide) (by decide)).1 _ e1 ⟨by omega, by omega⟩,
    (ints ca (by decide +kernel) (by decide) (by decide) (by decide)).1 _ e2 ⟨by omega, by omega⟩, r1, r2, ?_, ?_, ?_, ?_, ?_⟩
  · intro k hk
    obtain ⟨w, h1, h2⟩ := ca.made.based.count _ hk
    have hw : w = .one ((k : Int) : K) := by
      simp only [roundAll, List.map_cons, List.map_nil, round_nat, Res.ok.injEq] at h1
      exact h1.symm
    rw [hw, ← basis ca (by decide) (own _ (by decide))] at h2
    have := range ca (f := .numSvals) (by decide +kernel) (by decide) h2
    exact (ints ca (by decide +kernel) (by decide) (by decide) (by decide)).1 _ h2 ⟨by omega, by omega⟩
  · intro hk
    have h2 := ca.made.based.noCount hk M N hd
    rw [← basis ca (by decide) (own _ (by decide))] at h2
    have h3 : x.fields.get "numSvals" = some (.one ((((min 6 (min M N) : Nat) : Int)) : K)) := by
      rw [h2]; push_cast; rfl
    exact (ints ca (by decide +kernel) (by decide) (by decide) (by decide)).1 _ h3 ⟨by omega, by omega⟩
  · obtain ⟨y, h1, h2⟩ := ca.made.based.matvec
    rw [← basis ca (by decide) (own _ (by decide))] at h2
    obtain ⟨z, h3, h4⟩ := (seenS_handle ca.made.nodup ca.made.flat ca.set (nm := "matrixMatvec") (l := 5) (f := .matrix)
      (by decide)).1 _ h2
    simp only [MVal.fn.injEq] at h3
    subst h3
    exact ⟨y, handle_addr h1, by rw [ptrs ca (by decide) (by decide), h4]⟩
  · intro q hq
    have hp : p = some q := by have := ca.made.chosen; rw [hq] at this; simpa using this.symm
    obtain ⟨h1, h2⟩ := ca.made.prec (by rw [hp]; simp)
    obtain ⟨z, h3, h4⟩ := (seenS_handle ca.made.nodup ca.made.flat ca.set (nm := "applyPreconditioner") (l := 7)
      (f := .preconditioner) (by decide)).1 _ h1
    simp only [MVal.fn.injEq] at h3
    subst h3
    refine ⟨by rw [ptrs ca (by decide) (by decide), h4], ?_⟩
    exact (ints ca (nm := "precondition") (by decide +kernel) (by decide) (by decide) (by decide)).1 1
      (by rw [h2]; simp) ⟨by decide, by decide⟩
  · intro hq
    have hp : p = none := by have := ca.made.chosen; rw [hq] at this; simpa using this.symm
    obtain ⟨h1, h2⟩ := ca.made.noPrec hp
    rw [none_of (own _ (by decide))] at h1 h2
    exact ⟨by rw [ptrs ca (by decide) (by decide), (seenS_handle ca.made.nodup ca.made.flat ca.set
        (nm := "applyPreconditioner") (l := 7) (f := .preconditioner) (by decide)).2 h1],
      (ints ca (nm := "precondition") (by decide +kernel) (by decide) (by decide) (by decide)).2 h2⟩

/-! ## Options -/

private theorem out_of : ∀ e ∈ Py.Doc.svdsMembers, e.1 ∉ Mat.Doc.problemS → e.1 ∉ Mat.Doc.keptS →
    e.2 ∉ aliased (Mat.svdsKind 0 0 0) ∧ e.2 ∉ enteredM ∧ e.2 ≠ .i .method ∧ e.2 ≠ .i .methodStage2 ∧ e.2 ≠ .p .monitor ∧
    e.1 ∉ renamesS.map Prod.fst ∧ (e.1 ∈ problemNamesS → e.1 = "eps") ∧
    ∀ q ∈ renamesS, q.2 = e.1 → (q.1, e.2) ∈ Mat.Doc.optionsS ∧ q.1 ≠ e.1 := by decide +kernel

/-- **Options.**  The value of each option of the help text is that of the parameter of the manual it names, whatever the
methods. -/
theorem C66_options (h : prepareSvdsM S D junk start a = .ok c) (ha : Mat.Doc.OrdinaryS a) {nm : String}
    {y : Member Svds.IF Svds.DF Svds.PF} {v : MVal K} {z : Val K} (hm : (nm, y) ∈ Mat.Doc.optionsS)
    (hv : a.opts.rest.get nm = some v) (hmean : Mat.Doc.Means Svds.constTable y v z) (hz : fits Svds.ctype y z) :
    reads c.params.sv y = z := by
  obtain ⟨x, b, p, m, n, s, t, u, ca⟩ := calledS h ha
  have tab : ∀ e ∈ Mat.Doc.optionsS, ∃ full, (full, e.2) ∈ Py.Doc.svdsMembers ∧ full ∉ Mat.Doc.problemS ∧
      full ∉ Mat.Doc.keptS ∧ full ∉ renamesS.map Prod.fst ∧
      (renamesS.find? (fun c => c.2 = full) = some (e.1, full) ∨
        full = e.1 ∧ renamesS.find? (fun c => c.2 = full) = none) := by
    intro e he
    simp only [Mat.Doc.optionsS, List.mem_cons, List.not_mem_nil, or_false] at he
    rcases he with rfl | rfl | rfl | rfl | rfl | rfl | rfl
    · exact ⟨"aNorm", by decide +kernel, by decide, by decide, by decide, .inr (by decide)⟩
    · exact ⟨"eps", by decide +kernel, by decide, by decide, by decide, .inl (by decide)⟩
    · exact ⟨"maxMatvecs", by decide +kernel, by decide, by decide, by decide, .inl (by decide)⟩
    · exact ⟨"maxBasisSize", by decide +kernel, by decide, by decide, by decide, .inl (by decide)⟩
    · exact ⟨"locking", by decide +kernel, by decide, by decide, by decide, .inr (by decide)⟩
    · exact ⟨"maxBlockSize", by decide +kernel, by decide, by decide, by decide, .inr (by decide)⟩
    · exact ⟨"iseed", by decide +kernel, by decide, by decide, by decide, .inr (by decide)⟩
  obtain ⟨full, f1, f2, f3, f4, f5⟩ := tab _ hm
  simp only at f1 f5
  obtain ⟨t0, t1, t2, t3, t4, t5, t6, t7⟩ := out_of _ f1 f2 f3
  have hg : givenS a full = some v := by
    unfold givenS renamed
    rw [if_neg f4]
    rcases f5 with f5 | ⟨rfl, f5⟩
    · rw [f5]
      dsimp only
      rw [hv]; rfl
    · rw [f5]; exact hv
  have hx : x.fields.get full = some v := by
    by_cases hq : full ∈ problemNamesS
    · have := t6 hq
      simp only at this
      subst this
      rw [ca.made.eps, hg]; rfl
    · rw [ca.made.others _ hq, hg]
  rw [ca.kept t1 t2 t3 t4]
  exact ca.means f1 t0 hx hmean hz

/-- **Parameters of the manual.**  The same for an option with the name of a parameter of the manual, when its short name is
not used too. -/
theorem C66_parameters (h : prepareSvdsM S D junk start a = .ok c) (ha : Mat.Doc.OrdinaryS a) {nm : String}
    {y : Member Svds.IF Svds.DF Svds.PF} {v : MVal K} {z : Val K} (hm : (nm, y) ∈ Py.Doc.svdsMembers)
    (h1 : nm ∉ Mat.Doc.problemS) (h2 : nm ∉ Mat.Doc.keptS)
    (hshort : ∀ short, (short, y) ∈ Mat.Doc.optionsS → short ≠ nm → short ∉ a.opts.rest.map Prod.fst)
    (hv : a.opts.rest.get nm = some v) (hmean : Mat.Doc.Means Svds.constTable y v z) (hz : fits Svds.ctype y z) :
    reads c.params.sv y = z := by
  obtain ⟨x, b, p, m, n, s, t, u, ca⟩ := calledS h ha
  obtain ⟨t0, t1, t2, t3, t4, t5, t6, t7⟩ := out_of _ hm h1 h2
  have hg : givenS a nm = some v := by
    unfold givenS renamed
    rw [if_neg t5]
    split
    · rename_i q hq
      have q1 := List.mem_of_find?_eq_some hq
      have q2 : q.2 = nm := by simpa using List.find?_some hq
      obtain ⟨r1, r2⟩ := t7 q q1 q2
      rw [none_of (hshort _ r1 r2), hv]; rfl
    · exact hv
  have hx : x.fields.get nm = some v := by
    by_cases hq : nm ∈ problemNamesS
    · have := t6 hq
      simp only at this
      subst this
      rw [ca.made.eps, hg]; rfl
    · rw [ca.made.others _ hq, hg]
  rw [ca.kept t1 t2 t3 t4]
  exact ca.means hm t0 hx hmean hz

/-- **Nothing else.**  A parameter that is not mentioned keeps the value `primme_svds_initialize` gave it. -/
theorem C66_nothing_else (h : prepareSvdsM S D junk start a = .ok c) (ha : Mat.Doc.OrdinaryS a) {nm : String}
    {y : Member Svds.IF Svds.DF Svds.PF} (hm : (nm, y) ∈ Py.Doc.svdsMembers)
    (h1 : nm ∉ Mat.Doc.problemS) (h2 : nm ∉ Mat.Doc.keptS) (heps : nm ≠ "eps")
    (hshort : ∀ short, (short, y) ∈ Mat.Doc.optionsS → short ∉ a.opts.rest.map Prod.fst)
    (hn : nm ∉ a.opts.rest.map Prod.fst) : reads c.params.sv y = reads start.sv y := by
  obtain ⟨x, b, p, m, n, s, t, u, ca⟩ := calledS h ha
  obtain ⟨t0, t1, t2, t3, t4, t5, t6, t7⟩ := out_of _ hm h1 h2
  rw [ca.kept t1 t2 t3 t4]
  refine (flat_member (Mat.svds_kind D.heap D.device D.text) ca.made.nodup ca.made.flat ca.set hm t0).2 ?_
  rw [ca.made.others _ (fun hq => heps (t6 hq))]
  exact givenS_none hn fun q hq hq2 => hshort _ (t7 q hq hq2).1

/-- **Tolerance.**  When no tolerance is given it is `1e-10`, or `eps*1e4` for a problem in single precision. -/
theorem C66_tolerance_partial (h : prepareSvdsM S D junk start a = .ok c) (ha : Mat.Doc.OrdinaryS a)
    (h1 : "tol" ∉ a.opts.rest.map Prod.fst) (h2 : "eps" ∉ a.opts.rest.map Prod.fst) (h3 : sparseSingleS a = false) :
    c.params.sv.d .eps = if isDoubleS a = true then 1 / 10 ^ 10 else 10 ^ 4 / 2 ^ 23 := by
  obtain ⟨x, b, p, m, n, s, t, u, ca⟩ := calledS h ha
  have hg : givenS a "eps" = none := by
    refine givenS_none h2 ?_
    have : ∀ q ∈ renamesS, q.2 = "eps" → q.1 = "tol" := by decide
    intro q hq hq2
    rw [this q hq hq2]
    exact h1
  have heps := ca.made.eps
  rw [hg] at heps
  have q1 := ca.means (nm := "eps") (y := .d .eps) (by decide +kernel) (by simp [aliased, Mat.svdsKind]) heps
    (z := .dbl (tolS a)) (Mat.Doc.Means.real (Svds.DF.eps) (tolS a)) trivial
  rw [← ca.kept (y := .d .eps) (by decide) (by simp) (by simp) (by simp)] at q1
  simp only [reads, Val.dbl.injEq] at q1
  rw [q1]
  unfold tolS
  rw [h3]
  split
  · rfl
  · norm_num

/-! ## Which singular values -/

/-- **Which singular values.**  The largest ones by default and for 'L', the smallest ones for 'S' and for zero, and those
closest to the given numbers otherwise: exactly these numbers are the points of the library. -/
theorem C66_which (h : prepareSvdsM S D junk start a = .ok c) (ha : Mat.Doc.OrdinaryS a)
    (h1 : "target" ∉ a.opts.rest.map Prod.fst) (h2 : "targetShifts" ∉ a.opts.rest.map Prod.fst) :
    ((a.target = none ∨ a.target = some (.str "L")) → c.params.sv.i .target = 0 ∧ c.shifts = []) ∧
    ((a.target = some (.str "S") ∨ a.target = some (.num 1 1 [0])) → c.params.sv.i .target = 1 ∧ c.shifts = []) ∧
    (∀ r k l, a.target = some (.num r k l) → (∃ y ∈ l, y ≠ 0) → (∀ y ∈ l, 0 ≤ y) ∧ c.params.sv.i .target = 2 ∧
      c.shifts = l ∧ c.params.sv.i .numTargetShifts = (l.length : Int) ∧ c.params.sv.p .targetShifts = D.heap) ∧
    ((∀ r k l, a.target = some (.num r k l) → ∀ y ∈ l, y = 0) → c.params.sv.i .numTargetShifts = start.sv.i .numTargetShifts ∧
      c.params.sv.p .targetShifts = start.sv.p .targetShifts) := by
  obtain ⟨x, b, p, m, n, s, t, u, ca⟩ := calledS h ha
  obtain ⟨tg, sh, k1, k2, k3⟩ := ca.made.based.sigma
  rw [← basis ca (by decide) h1] at k2
  rw [← basis ca (by decide) h2] at k3
  have hcs : c.shifts = s.sv.shifts := by
    rw [ca.entered.shifts, (addMonitorS_ok ca.monitor).2.2.1, (setMethodsS_ok ca.methods).1]
  have hnum : c.params.sv.i .numTargetShifts = s.sv.params.i .numTargetShifts := by
    have e := ca.kept (y := .i .numTargetShifts) (by decide) (by simp) (by simp) (by simp)
    simpa only [reads, Val.int.injEq] using e
  have hptr := ptrs ca (f := .targetShifts) (by decide) (by decide)
  obtain ⟨s1, s2⟩ := seenS_shifts (D := D) ca.made.nodup ca.made.flat ca.set
  have tgt : ∀ z : Int, constantInfo Svds.constTable tg = .ok z → 0 ≤ z ∧ z < 2 ^ 31 → c.params.sv.i .target = z := by
    intro z hz hr
    have q1 := ca.means (nm := "target") (y := .i .target) (by decide +kernel) (by simp [aliased, Mat.svdsKind]) k2
      (z := .int z) (Mat.Doc.Means.name (Svds.IF.target) tg z hz) ⟨by omega, by omega⟩
    rw [← ca.kept (y := .i .target) (by decide) (by simp) (by simp) (by simp)] at q1
    simpa only [reads, Val.int.injEq] using q1
  have c0 : constantInfo Svds.constTable "primme_svds_largest" = .ok 0 := by decide +kernel
  have c1 : constantInfo Svds.constTable "primme_svds_smallest" = .ok 1 := by decide +kernel
  have c2 : constantInfo Svds.constTable "primme_svds_closest_abs" = .ok 2 := by decide +kernel
  have lL : letterTarget "L" = some "primme_svds_largest" := by decide +kernel
  have lS : letterTarget "S" = some "primme_svds_smallest" := by decide +kernel
  refine ⟨?_, ?_, ?_, ?_⟩
  · intro ht
    have : tg = "primme_svds_largest" ∧ sh = none := by
      rcases ht with ht | ht <;> rw [ht] at k1
      · simp only [sigmaS, Res.ok.injEq, Prod.mk.injEq] at k1
        exact ⟨k1.1.symm, k1.2.symm⟩
      · simp only [sigmaS, lL, Res.ok.injEq, Prod.mk.injEq] at k1
        exact ⟨k1.1.symm, k1.2.symm⟩
    exact ⟨tgt 0 (by rw [this.1, c0]) (by omega), by rw [hcs, (s2 (by rw [k3, this.2])).1]⟩
  · intro ht
    have : tg = "primme_svds_smallest" ∧ sh = none := by
      rcases ht with ht | ht <;> rw [ht] at k1
      · simp only [sigmaS, lS, Res.ok.injEq, Prod.mk.injEq] at k1
        exact ⟨k1.1.symm, k1.2.symm⟩
      · simp only [sigmaS, List.mem_singleton, forall_eq, lt_self_iff_false, and_self, if_false, if_true, Res.ok.injEq,
          Prod.mk.injEq] at k1
        exact ⟨k1.1.symm, k1.2.symm⟩
    exact ⟨tgt 1 (by rw [this.1, c1]) (by omega), by rw [hcs, (s2 (by rw [k3, this.2])).1]⟩
  · intro r k l ht ⟨y, hy, hy0⟩
    rw [ht] at k1
    have hnz : ¬ ∀ x ∈ l, x = 0 := fun hz => hy0 (hz y hy)
    by_cases hrk : 1 < r ∧ 1 < k
    · simp [sigmaS, hrk] at k1
    simp only [sigmaS, if_neg hrk, if_neg hnz] at k1
    split at k1
    · rename_i hpos
      simp only [Res.ok.injEq, Prod.mk.injEq] at k1
      obtain ⟨w, w1, w2, w3, w4⟩ := s1 (.num r k l) (by rw [k3, ← k1.2])
      have hw : w = l := by
        simp only [asShifts] at w1
        split at w1
        · simpa using w1.symm
        · simp at w1
      subst hw
      exact ⟨hpos, tgt 2 (by rw [← k1.1, c2]) (by omega), by rw [hcs, w2], by rw [hnum, w3], by rw [hptr, w4]⟩
    · simp at k1
  · intro he
    have : sh = none := by
      cases ht : a.target with
      | none =>
        rw [ht] at k1
        simp only [sigmaS, Res.ok.injEq, Prod.mk.injEq] at k1
        exact k1.2.symm
      | some v =>
        rw [ht] at k1
        cases v with
        | num r k l =>
          by_cases hrk : 1 < r ∧ 1 < k
          · simp [sigmaS, hrk] at k1
          simp only [sigmaS, if_neg hrk, if_pos (he r k l ht), Res.ok.injEq, Prod.mk.injEq] at k1
          exact k1.2.symm
        | str w =>
          unfold sigmaS at k1
          dsimp only at k1
          split at k1
          · simp only [Res.ok.injEq, Prod.mk.injEq] at k1
            exact k1.2.symm
          · simp at k1
        | complex r k l =>
          cases hsh : sh with
          | none => rfl
          | some v =>
            exfalso
            obtain ⟨w, w1, -⟩ := s1 v (by rw [k3, hsh])
            simp only [sigmaS] at k1
            split at k1
            · simp at k1
            split at k1
            · simp only [Res.ok.injEq, Prod.mk.injEq, hsh, Option.some.injEq] at k1
              rw [← k1.2] at w1
              simp [asShifts] at w1
            · simp at k1
        | _ => simp [sigmaS] at k1
    obtain ⟨q1, q2, q3⟩ := s2 (by rw [k3, this])
    exact ⟨by rw [hnum, q2], by rw [hptr, q3]⟩

/-! ## The methods and the stages -/

/-- What the options of a stage make of its structure `fresh`: the value of each option of the help text is that of the
parameter it names, and a parameter that is not mentioned is that of `fresh`. -/
def C66_Stage (fresh : Eigs.EP K) (st : Option (MStage K)) (p : Eigs.EP K) : Prop :=
  (st = none → p = fresh) ∧ ∀ x, st = some x →
    (∀ nm y v z, (nm, y) ∈ Mat.Doc.stageOptions → x.rest.get nm = some v → Mat.Doc.Means Eigs.constTable y v z →
      fits Eigs.ctype y z → reads p y = z) ∧
    (∀ nm y, (nm, y) ∈ Py.Doc.eigsMembers → nm ∉ Mat.Doc.problem → nm ∉ Mat.Doc.kept → nm ∉ x.rest.map Prod.fst →
      (∀ short, (short, y) ∈ Mat.Doc.options ++ Mat.Doc.moreOptions → short ∉ x.rest.map Prod.fst) →
      reads p y = reads fresh y)

private theorem stage_table : ∀ e ∈ Py.Doc.eigsMembers, e.1 ∉ Mat.Doc.problem → e.1 ∉ Mat.Doc.kept →
    e.2 ∉ aliased (eigsKind 0 0 0) ∧ ∀ q ∈ renamesStage, q.2 = e.1 →
      (q.1, e.2) ∈ Mat.Doc.options ++ Mat.Doc.moreOptions := by decide +kernel

private theorem stage_options : ∀ e ∈ Mat.Doc.stageOptions, ∃ f ∈ Py.Doc.eigsMembers, f.2 = e.2 ∧
    e.2 ∉ aliased (eigsKind 0 0 0) ∧ f.1 ∉ renamesStage.map Prod.fst ∧
    (renamesStage.find? (fun c => c.2 = f.1) = some (e.1, f.1) ∨
      f.1 = e.1 ∧ renamesStage.find? (fun c => c.2 = f.1) = none) := by decide +kernel

private theorem stage_holds {h d t : Nat} {fresh : Eigs.EP K} {st : Option (MStage K)} {s : ES K}
    (hs : setStage (eigsKind h d t) st ⟨fresh, []⟩ = .ok s) (h1 : ∀ x, st = some x → x.rest.names.Nodup)
    (h2 : ∀ x, st = some x → Flat x.rest) : C66_Stage fresh st s.params := by
  refine ⟨?_, ?_⟩
  · rintro rfl
    simp only [setStage, Res.ok.injEq] at hs
    rw [← hs]
  · rintro x rfl
    simp only [setStage] at hs
    have hn : (renamesStage.foldl rename x.rest).names.Nodup := nodup_renames (h1 x rfl) _
    have hf := flat_renames (h2 x rfl) renamesStage
    have hg := fun nm => get_renames renamesStage_nodup x.rest nm
    refine ⟨?_, ?_⟩
    · intro nm y v z hm hv hz hfit
      obtain ⟨⟨full, y'⟩, f1, f2, f3, f4, f5⟩ := stage_options _ hm
      simp only at f2 f3 f4 f5
      subst f2
      have hx : (renamesStage.foldl rename x.rest).get full = some v := by
        rw [hg]
        unfold renamed
        rw [if_neg f4]
        rcases f5 with f5 | ⟨rfl, f5⟩
        · rw [f5]
          dsimp only
          rw [hv]; rfl
        · rw [f5]; exact hv
      exact flat_means (eigs_kind h d t) hn hf hs f1 f3 hx hz hfit
    · intro nm y hm q1 q2 q3 q4
      obtain ⟨t1, t2⟩ := stage_table _ hm q1 q2
      refine (flat_member (eigs_kind h d t) hn hf hs hm t1).2 ?_
      rw [hg]
      unfold renamed
      split
      · rfl
      split
      · rename_i q hq
        have r1 := List.mem_of_find?_eq_some hq
        have r2 : q.2 = nm := by simpa using List.find?_some hq
        rw [get_none.2 q3, get_none.2 (q4 _ (t2 q r1 r2))]; rfl
      · exact get_none.2 q3

/-- The method a stage names. -/
def C66_Named (st : Option (MStage K)) (w : Int) : Prop :=
  (st.bind MStage.method = none → constantInfo Eigs.constTable "PRIMME_DEFAULT_METHOD" = .ok w) ∧
  ∀ nm, st.bind MStage.method = some (.str nm) → constantInfo Eigs.constTable ("PRIMME_" ++ nm) = .ok w

private theorem asInt_str {consts : List (String × Int)} {nm : String} {w : Int}
    (h : Mat.asInt consts (.str nm : MVal K) = .ok w) : constantInfo consts nm = .ok w := by
  simp only [Mat.asInt] at h
  split at h
  · rename_i q hq
    simp only [Res.ok.injEq] at h
    rw [hq, h]
  · simp at h

private theorem stage_named {st : Option (MStage K)} {w : Int}
    (h : Mat.asInt Eigs.constTable (stageMethod st) = .ok w) : C66_Named st w := by
  unfold stageMethod at h
  refine ⟨fun hn => ?_, fun nm hn => ?_⟩
  · rw [hn] at h
    exact asInt_str h
  · rw [hn] at h
    exact asInt_str h

/-- **Methods and stages.**  The method and those of the two stages are the ones named, or the default ones, and the
library's own function is applied to the structure `v` with all the options, in which those of each stage hold.  The
operators are those the manual lists for the method and the dimensions. -/
theorem C66_method {M N : Nat} (h : prepareSvdsM S D junk start a = .ok c) (ha : Mat.Doc.OrdinaryS a)
    (hd : Mat.Doc.DimsS a M N) (own : ∀ nm ∈ Mat.Doc.problemS, nm ∉ a.opts.rest.map Prod.fst) :
    ∃ (v t : Svds.SP K) (w w1 w2 : Int),
      C66_Stage start.st1 a.opts.primme v.st1 ∧ C66_Stage start.st2 a.opts.primmeStage2 v.st2 ∧
      (∀ y, y ∉ enteredM → y ≠ .i .method → y ≠ .i .methodStage2 → y ≠ .p .monitor →
        reads v.sv y = reads c.params.sv y) ∧
      (a.opts.method = none → constantInfo Svds.constTable "primme_svds_default" = .ok w) ∧
      (∀ nm, a.opts.method = some (.str nm) → constantInfo Svds.constTable nm = .ok w) ∧
      C66_Named a.opts.primme w1 ∧ C66_Named a.opts.primmeStage2 w2 ∧
      Svds.callSvdsMethod S 5 w w1 w2 v = some t ∧ c.params.st1 = t.st1 ∧ c.params.st2 = t.st2 ∧
      c.params.sv.i .method = t.sv.i .method ∧ c.params.sv.i .methodStage2 = t.sv.i .methodStage2 ∧
      (0 ≤ w ∧ w ≤ 3 → (c.params.sv.i .method, c.params.sv.i .methodStage2) = Svds.Doc.presetOps w M N) := by
  obtain ⟨p1, p2, -⟩ := C66_problem h ha hd own
  obtain ⟨x, b, p, m, n, s, t, u, ca⟩ := calledS h ha
  obtain ⟨-, -, w, w1, w2, k0, k1, k2, hcall⟩ := setMethodsS_ok ca.methods
  obtain ⟨u1, u2, -, u3, -⟩ := addMonitorS_ok ca.monitor
  have eq : ∀ f : Svds.IF, c.params.sv.i f = t.sv.params.i f := by
    intro f
    have e1 := ca.entered.kept (.i f) (by simp [enteredM])
    rw [u3 (.i f) (by simp)] at e1
    simpa only [reads, Val.int.injEq] using e1
  refine ⟨s.params, t.params, w, w1, w2, stage_holds ca.set1 ha.nodup1 ha.flat1, stage_holds ca.set2 ha.nodup2 ha.flat2, ?_,
    ?_, ?_, stage_named k1, stage_named k2, hcall, by rw [ca.entered.st1, u1]; rfl, by rw [ca.entered.st2, u2]; rfl,
    eq _, eq _, ?_⟩
  · intro y h1 h2 h3 h4
    exact (ca.kept h1 h2 h3 h4).symm
  · intro hn
    rw [hn] at k0
    exact asInt_str k0
  · intro nm hn
    rw [hn] at k0
    exact asInt_str k0
  · intro hw
    rw [eq, eq]
    have := (C10_documented_operators hcall hw).1
    have r1 := ca.kept (y := .i .m) (by decide) (by simp) (by simp) (by simp)
    have r2 := ca.kept (y := .i .n) (by decide) (by simp) (by simp) (by simp)
    simp only [reads, Val.int.injEq] at r1 r2
    show (t.params.sv.i .method, t.params.sv.i .methodStage2) = _
    rw [this]
    show Svds.Doc.presetOps w (s.sv.params.i .m) (s.sv.params.i .n) = _
    rw [← r1, ← r2, p1, p2]

/-- **Documented methods.**  Each name of the help text is a method, the default one is the hybrid method, and the default
method of a stage is the dynamic one's alias. -/
theorem C66_methods : (∀ nm ∈ Mat.Doc.methodsS, ∃ w, constantInfo Svds.constTable nm = .ok w ∧ 0 ≤ w ∧ w ≤ 3) ∧
    constantInfo Svds.constTable "primme_svds_default" = .ok 0 ∧
    constantInfo Eigs.constTable "PRIMME_DEFAULT_METHOD" = .ok 0 := by
  refine ⟨?_, by decide +kernel, by decide +kernel⟩
  intro nm hn
  simp only [Mat.Doc.methodsS, List.mem_cons, List.not_mem_nil, or_false] at hn
  rcases hn with rfl | rfl | rfl
  · exact ⟨2, by decide +kernel, by omega, by omega⟩
  · exact ⟨3, by decide +kernel, by omega, by omega⟩
  · exact ⟨1, by decide +kernel, by omega, by omega⟩

/-- **Functions.**  The compiled functions given to the library are those for the operators of the user, in the arithmetic
of the solver (in double precision for the products with a sparse matrix used in single precision), and the handles of the
user's own functions are kept for them. -/
theorem C66_functions (h : prepareSvdsM S D junk start a = .ok c) (ha : Mat.Doc.OrdinaryS a)
    (own : ∀ nm ∈ Mat.Doc.problemS, nm ≠ "convTestFun" → nm ∉ a.opts.rest.map Prod.fst)
    (h0 : start.sv.i .matrixMatvec_type = 0 ∧ start.sv.i .applyPreconditioner_type = 0) :
    c.params.sv.p .matrixMatvec = D.matvec (if sparseSingleS a then 3 else 0) ∧
    (∀ q, choosePrec a.P1 a.P2 = .ok (some q) → D.objPrec ≠ 0 → c.params.sv.p .applyPreconditioner = D.prec 0) ∧
    (choosePrec a.P1 a.P2 = .ok none → start.sv.p .preconditioner = 0 →
      c.params.sv.p .applyPreconditioner = start.sv.p .applyPreconditioner) ∧
    (∀ x, a.opts.rest.get "convTestFun" = some (.fn x) → x ≠ 0 →
      c.params.sv.p .convTestFun = D.conv ∧ c.params.sv.p .convtest = x) ∧
    (a.opts.report = true → D.objMonitor ≠ 0 →
      c.params.sv.p .monitorFun = D.monitor ∧ c.params.sv.p .monitor = D.objMonitor) ∧
    c.solver = (if isDoubleS a then (if isComplexS a then "z" else "d") else (if isComplexS a then "c" else "s")) ++
      "primme_svds" ∧ c.complex = isComplexS a := by
  obtain ⟨x, b, p, m, n, s, t, u, ca⟩ := calledS h ha
  have en := ca.entered
  have uint : ∀ {nm : String} {f : Svds.IF}, (nm, .i f) ∈ Py.Doc.svdsMembers → f ≠ .numTargetShifts → f ≠ .method →
      f ≠ .methodStage2 → x.fields.get nm = none → u.sv.params.i f = start.sv.i f := by
    intro nm f hm h1 h2 h3 hk
    have e := ca.mid (y := .i f) (by simpa using h2) (by simpa using h3) (by simp)
    have := (flat_member (Mat.svds_kind D.heap D.device D.text) ca.made.nodup ca.made.flat ca.set hm
      (by simp [aliased, Mat.svdsKind, h1])).2 hk
    simp only [reads, Val.int.injEq] at e this
    rw [e, this]
  have uptr : ∀ {f : Svds.PF}, f ≠ .monitor → u.sv.params.p f = s.sv.params.p f := by
    intro f hf
    have e := ca.mid (y := .p f) (by simp) (by simp) (by simpa using hf)
    simpa only [reads, Val.ptr.injEq] using e
  have cptr : ∀ {f : Svds.PF}, (.p f : Member Svds.IF Svds.DF Svds.PF) ∉ enteredM → c.params.sv.p f = u.sv.params.p f := by
    intro f hf
    have e := en.kept (.p f) hf
    simpa only [reads, Val.ptr.injEq] using e
  have ptype : x.fields.get "applyPreconditioner_type" = none := by
    rw [ca.made.others _ (by decide)]
    refine givenS_none (own _ (by decide) (by decide)) ?_
    have : ∀ q ∈ renamesS, q.2 ≠ "applyPreconditioner_type" := by decide
    exact fun q hq hq2 => absurd hq2 (this q hq)
  refine ⟨?_, ?_, ?_, ?_, ?_, en.solver, en.complex⟩
  · rw [en.matvec]
    by_cases hss : sparseSingleS a = true
    · have ht := ca.made.type
      rw [if_pos hss] at ht
      have hcon : constantInfo Svds.constTable "primme_op_double" = .ok 3 := by decide +kernel
      have q := ca.means (nm := "matrixMatvec_type") (y := .i .matrixMatvec_type) (by decide +kernel)
        (by simp [aliased, Mat.svdsKind]) ht (z := .int 3)
        (Mat.Doc.Means.name (Svds.IF.matrixMatvec_type) "primme_op_double" 3 hcon) ⟨by decide, by decide⟩
      rw [← ca.mid (y := .i .matrixMatvec_type) (by simp) (by simp) (by simp)] at q
      simp only [reads, Val.int.injEq] at q
      rw [q, if_pos hss]
      rfl
    · have ht := ca.made.type
      rw [if_neg hss, none_of (own _ (by decide) (by decide))] at ht
      rw [uint (by decide +kernel) (by decide) (by decide) (by decide) ht, h0.1, if_neg hss]
      rfl
  · intro q hq hq0
    have hp : p = some q := by have := ca.made.chosen; rw [hq] at this; simpa using this.symm
    obtain ⟨z, z1, z2⟩ := (seenS_handle ca.made.nodup ca.made.flat ca.set (nm := "applyPreconditioner") (l := 7)
      (f := .preconditioner) (by decide)).1 _ (ca.made.prec (by rw [hp]; simp)).1
    simp only [MVal.fn.injEq] at z1
    rw [en.prec, uptr (by decide), z2, ← z1, if_neg hq0, uint (by decide +kernel) (by decide) (by decide) (by decide) ptype,
      h0.2]
    rfl
  · intro hq hq0
    have hp : p = none := by have := ca.made.chosen; rw [hq] at this; simpa using this.symm
    have h1 := (ca.made.noPrec hp).1
    rw [none_of (own _ (by decide) (by decide))] at h1
    have z2 := (seenS_handle ca.made.nodup ca.made.flat ca.set (nm := "applyPreconditioner") (l := 7)
      (f := .preconditioner) (by decide)).2 h1
    have e := (flat_member (Mat.svds_kind D.heap D.device D.text) ca.made.nodup ca.made.flat ca.set
      (nm := "applyPreconditioner") (m := .p .applyPreconditioner) (by decide +kernel)
      (by simp [aliased, Mat.svdsKind])).2 h1
    simp only [reads, Val.ptr.injEq] at e
    rw [en.prec, uptr (by decide), z2, hq0, if_pos rfl, uptr (by decide), e]
  · intro y hy hy0
    have h1 : x.fields.get "convTestFun" = some (.fn y) := by
      rw [ca.made.others _ (by decide)]
      have : renamesS.find? (fun c => c.2 = "convTestFun") = none := by decide
      unfold givenS renamed
      rw [if_neg (by decide), this]
      exact hy
    obtain ⟨z, z1, z2⟩ := (seenS_handle ca.made.nodup ca.made.flat ca.set (nm := "convTestFun") (l := 55)
      (f := .convtest) (by decide)).1 _ h1
    simp only [MVal.fn.injEq] at z1
    refine ⟨?_, ?_⟩
    · rw [en.conv, uptr (by decide), z2, ← z1, if_neg hy0]
    · rw [cptr (by decide), uptr (by decide), z2, z1]
  · intro hr hm0
    have := (addMonitorS_ok ca.monitor).2.2.2.2
    rw [if_pos hr] at this
    exact ⟨by rw [en.monitor, this, if_neg hm0], by rw [cptr (by decide), this]⟩

/-! ## The vectors -/

private theorem cell {n i j c : Nat} (hi : i < n) (hj : j < c) : n * j + i < n * c ∧ (n * j + i) % n = i ∧ (n * j + i) / n = j := by
  have h0 : 0 < n := by omega
  refine ⟨?_, ?_, ?_⟩
  · have : n * (j + 1) ≤ n * c := Nat.mul_le_mul_left _ hj
    rw [Nat.mul_add] at this
    omega
  · rw [Nat.mul_add_mod, Nat.mod_eq_of_lt hi]
  · rw [Nat.mul_add_div h0, Nat.div_eq_of_lt hi]; rfl

private theorem pairUp_ok {redo : Bool} {l r : Option (MVecs V)} {q : VPair V} (h : pairUp a m n redo l r = .ok q) :
    q.1.arr.rows = m ∧ q.2.arr.rows = n ∧ q.1.arr.cols = q.2.arr.cols ∧
    (nonEmpty l = none ∨ redo = (nonEmpty r).isNone →
      Mat.Doc.Pairs (a.apply false) (a.apply true) (nonEmpty l) (nonEmpty r) q.1 q.2) ∧
    (∀ y, nonEmpty l = some y → redo = true → q.1 = y ∧ a.apply true y = some q.2) := by
  have chk : ∀ {p q : VPair V}, checkPair m n p = .ok q → q = p ∧ q.1.arr.rows = m ∧ q.2.arr.rows = n ∧
      q.1.arr.cols = q.2.arr.cols := by
    intro p q hq
    unfold checkPair at hq
    split at hq
    · simp at hq
    · rename_i hn
      simp only [Res.ok.injEq] at hq
      subst hq
      simp only [not_or, ne_eq, not_not] at hn
      exact ⟨rfl, hn⟩
  unfold pairUp at h
  cases hl : nonEmpty l with
  | none =>
    rw [hl] at h
    cases hr : nonEmpty r with
    | none => simp [hr] at h
    | some y =>
      rw [hr] at h
      dsimp only at h
      split at h
      · rename_i z hz
        obtain ⟨rfl, c1, c2, c3⟩ := chk h
        exact ⟨c1, c2, c3, fun _ => .right _ _ hz, by simp⟩
      · simp at h
  | some y =>
    rw [hl] at h
    dsimp only at h
    split at h
    · rename_i hredo
      split at h
      · rename_i z hz
        obtain ⟨rfl, c1, c2, c3⟩ := chk h
        refine ⟨c1, c2, c3, ?_, ?_⟩
        · intro hq
          rcases hq with hq | hq
          · simp at hq
          · rw [hredo] at hq
            have : nonEmpty r = none := by simpa using hq.symm
            rw [this]
            exact .left _ _ hz
        · intro y' hy _
          simp only [Option.some.injEq] at hy
          subst hy
          exact ⟨rfl, hz⟩
      · simp at h
    · rename_i hredo
      split at h
      · rename_i z hz
        obtain ⟨rfl, c1, c2, c3⟩ := chk h
        exact ⟨c1, c2, c3, fun _ => hz ▸ .both _ _, fun _ _ hh => absurd hh hredo⟩
      · simp at h

private theorem joined_at (f : VPair V → MVecs V) {o g : Option (VPair V)} (z : V) (i j : Nat) :
    (∀ q, o = some q → j < q.1.arr.cols → joined z f o g i j = (f q).arr.at' i j) ∧
    (∀ q, g = some q → joined z f o g i (widthOf o + j) = (f q).arr.at' i j) := by
  refine ⟨?_, ?_⟩
  · rintro q rfl hj
    unfold joined
    rw [if_pos (by simpa [widthOf] using hj)]
  · rintro q rfl
    unfold joined
    rw [if_neg (by omega), Nat.add_sub_cancel_left]

/-- Positions of the vectors. -/
private theorem vectors_at (h : prepareSvdsM S D junk start a = .ok c) (ha : Mat.Doc.OrdinaryS a) {M N : Nat}
    (hd : Mat.Doc.DimsS a M N) (own : ∀ nm ∈ Mat.Doc.problemS, nm ∉ a.opts.rest.map Prod.fst)
    (h0 : start.sv.i .numOrthoConst = 0 ∧ start.sv.i .initSize = 0) :
    ∃ o g : Option (VPair V), constraintsS a M N = .ok o ∧ guessesS a M N = .ok g ∧
      c.params.sv.i .numOrthoConst = (widthOf o : Int) ∧ c.params.sv.i .initSize = (widthOf g : Int) ∧
      (∀ i < M, ∀ j < widthOf o + widthOf g, c.svecs (M * j + i) = joined (junk (M * j + i)) Prod.fst o g i j) ∧
      (∀ i < N, ∀ j < widthOf o + widthOf g, c.svecs (M * (widthOf o + widthOf g) + (N * j + i)) =
        joined (junk (M * (widthOf o + widthOf g) + (N * j + i))) Prod.snd o g i j) ∧
      (0 < widthOf o + widthOf g → isComplexS a = false → joinedComplex o g = false) := by
  obtain ⟨p1, p2, -⟩ := C66_problem h ha hd own
  obtain ⟨x, b, p, m, n, s, t, u, ca⟩ := calledS h ha
  obtain ⟨rfl, rfl, -⟩ := dims ca hd (own _ (by decide)) (own _ (by decide))
  have en := ca.entered
  have uc : ∀ f : Svds.IF, c.params.sv.i f = u.sv.params.i f := by
    intro f
    have e := en.kept (.i f) (by simp [enteredM])
    simpa only [reads, Val.int.injEq] using e
  have wid : ∀ {nm : String} {f : Svds.IF} (o : Option (VPair V)), (nm, .i f) ∈ Py.Doc.svdsMembers → f ≠ .numTargetShifts →
      f ≠ .method → f ≠ .methodStage2 → x.fields.get nm = widthS o (a.opts.rest.get nm) → nm ∉ a.opts.rest.map Prod.fst →
      start.sv.i f = 0 → Svds.ctype f = .cint → c.params.sv.i f = (widthOf o : Int) := by
    intro nm f o hm h1 h2 h3 hw hn hs hct
    cases o with
    | none =>
      rw [none_of hn] at hw
      rw [(ints ca hm h1 h2 h3).2 hw, hs]; rfl
    | some q =>
      have hw' : x.fields.get nm = some (.one ((q.1.arr.cols : Int) : K)) := by
        rw [hw]; simp [widthS]
      have := range ca hm h1 hw'
      exact (ints ca hm h1 h2 h3).1 (q.1.arr.cols : Int) hw' (by rw [hct]; exact ⟨by omega, by omega⟩)
  have w1 := wid x.ortho (by decide +kernel) (by decide) (by decide) (by decide) ca.made.ortho (own _ (by decide)) h0.1 rfl
  have w2 := wid x.init (by decide +kernel) (by decide) (by decide) (by decide) ca.made.init (own _ (by decide)) h0.2 rfl
  have hsv := en.svecs
  have hre := en.real
  rw [← uc, ← uc, ← uc, ← uc, p1, p2, w1, w2] at hsv
  rw [← uc, ← uc, w1, w2] at hre
  have e0 : ((widthOf x.ortho : Int) + (widthOf x.init : Int)).toNat = widthOf x.ortho + widthOf x.init := by omega
  simp only [e0, Int.toNat_natCast] at hsv
  refine ⟨x.ortho, x.init, ca.made.hortho, ca.made.hinit, w1, w2, ?_, ?_, fun hw hc => hre (by omega) hc⟩
  · intro i hi j hj
    obtain ⟨e1, e2, e3⟩ := cell hi hj
    rw [hsv]
    dsimp only
    rw [if_pos e1, e2, e3]
  · intro i hi j hj
    obtain ⟨e1, e2, e3⟩ := cell hi hj
    rw [hsv]
    dsimp only
    rw [if_neg (by omega), if_pos (by omega), Nat.add_sub_cancel_left, e2, e3]

private theorem layout (h : prepareSvdsM S D junk start a = .ok c) (ha : Mat.Doc.OrdinaryS a) {M N : Nat}
    (hd : Mat.Doc.DimsS a M N) (own : ∀ nm ∈ Mat.Doc.problemS, nm ∉ a.opts.rest.map Prod.fst)
    (h0 : start.sv.i .numOrthoConst = 0 ∧ start.sv.i .initSize = 0) :
    ∃ (o g : Option (VPair V)) (cc gg : Nat), constraintsS a M N = .ok o ∧ guessesS a M N = .ok g ∧
      cc = widthOf o ∧ gg = widthOf g ∧
      c.params.sv.i .numOrthoConst = (cc : Int) ∧ c.params.sv.i .initSize = (gg : Int) ∧
      (∀ q, o = some q → (∀ i < M, ∀ j < cc, c.svecs (Py.Doc.leftConstraint M i j) = q.1.arr.at' i j) ∧
        ∀ i < N, ∀ j < cc, c.svecs (Py.Doc.rightConstraint M N cc gg i j) = q.2.arr.at' i j) ∧
      (∀ q, g = some q → (∀ i < M, ∀ j < gg, c.svecs (Py.Doc.leftVector M cc i j) = q.1.arr.at' i j) ∧
        ∀ i < N, ∀ j < gg, c.svecs (Py.Doc.rightVector M N cc gg i j) = q.2.arr.at' i j) := by
  obtain ⟨o, g, k1, k2, k3, k4, k5, k6, -⟩ := vectors_at h ha hd own h0
  refine ⟨o, g, widthOf o, widthOf g, k1, k2, rfl, rfl, k3, k4, ?_, ?_⟩
  · rintro q rfl
    refine ⟨?_, ?_⟩
    · intro i hi j hj
      have hp : Py.Doc.leftConstraint M i j = M * j + i := rfl
      rw [hp, k5 i hi j (by omega)]
      exact (joined_at Prod.fst _ i j).1 q rfl hj
    · intro i hi j hj
      have hp : Py.Doc.rightConstraint M N (widthOf (some q)) (widthOf g) i j =
          M * (widthOf (some q) + widthOf g) + (N * j + i) := by
        unfold Py.Doc.rightConstraint; rw [Nat.mul_comm M, Nat.mul_comm N]; omega
      rw [hp, k6 i hi j (by omega)]
      exact (joined_at Prod.snd _ i j).1 q rfl hj
  · rintro q rfl
    refine ⟨?_, ?_⟩
    · intro i hi j hj
      have hp : Py.Doc.leftVector M (widthOf o) i j = M * (widthOf o + j) + i := by
        unfold Py.Doc.leftVector; rw [Nat.mul_comm]
      rw [hp, k5 i hi _ (by omega)]
      exact (joined_at Prod.fst _ i j).2 q rfl
    · intro i hi j hj
      have hp : Py.Doc.rightVector M N (widthOf o) (widthOf (some q)) i j =
          M * (widthOf o + widthOf (some q)) + (N * (widthOf o + j) + i) := by
        unfold Py.Doc.rightVector; rw [Nat.mul_comm M, Nat.mul_comm (widthOf o + j) N]; omega
      rw [hp, k6 i hi _ (by omega)]
      exact (joined_at Prod.snd _ i j).2 q rfl

/-- **Constraints.**  The constraints are on both sides: as given, or with `A*V` or `A'*U` for the side that is not given.
They are where the library looks for them, and their number is the one of the structure. -/
theorem C66_constraints {M N : Nat} (h : prepareSvdsM S D junk start a = .ok c) (ha : Mat.Doc.OrdinaryS a)
    (hd : Mat.Doc.DimsS a M N) (own : ∀ nm ∈ Mat.Doc.problemS, nm ∉ a.opts.rest.map Prod.fst)
    (h0 : start.sv.i .numOrthoConst = 0 ∧ start.sv.i .initSize = 0) :
    (a.opts.orthoConst = none → c.params.sv.i .numOrthoConst = 0) ∧
    ∀ l r, a.opts.orthoConst = some (l, r) → ∃ (X Y : MVecs V) (g : Nat),
      Mat.Doc.Pairs (a.apply false) (a.apply true) (nonEmpty l) (nonEmpty r) X Y ∧
      X.arr.rows = M ∧ Y.arr.rows = N ∧ X.arr.cols = Y.arr.cols ∧
      c.params.sv.i .numOrthoConst = (X.arr.cols : Int) ∧ c.params.sv.i .initSize = (g : Int) ∧
      (∀ i < M, ∀ j < X.arr.cols, c.svecs (Py.Doc.leftConstraint M i j) = X.arr.at' i j) ∧
      (∀ i < N, ∀ j < X.arr.cols, c.svecs (Py.Doc.rightConstraint M N X.arr.cols g i j) = Y.arr.at' i j) := by
  obtain ⟨o, g, cc, gg, k1, k2, e1, e2, k3, k4, k5, k6⟩ := layout h ha hd own h0
  refine ⟨?_, ?_⟩
  · intro hn
    unfold constraintsS at k1
    rw [hn] at k1
    simp only [Res.ok.injEq] at k1
    rw [k3, e1, ← k1]; rfl
  · intro l r hl
    unfold constraintsS at k1
    rw [hl] at k1
    obtain ⟨q, q1, q2⟩ := bind_ok k1
    simp only [Res.ok.injEq] at q2
    obtain ⟨r1, r2, r3, r4, -⟩ := pairUp_ok q1
    have hcc : cc = q.1.arr.cols := by rw [e1, ← q2]; rfl
    subst hcc
    obtain ⟨s1, s2⟩ := k5 q q2.symm
    exact ⟨q.1, q.2, gg, r4 (.inr rfl), r1, r2, r3, k3, k4, s1, s2⟩

/-- **Initial guesses.**  The same for the guesses `u0` and `v0`, when only one of them is given without constraints, or
only `v0` or both with constraints.  *Missing:* the other cases, which are `C66_guesses_violated`. -/
theorem C66_guesses_partial {M N : Nat} (h : prepareSvdsM S D junk start a = .ok c) (ha : Mat.Doc.OrdinaryS a)
    (hd : Mat.Doc.DimsS a M N) (own : ∀ nm ∈ Mat.Doc.problemS, nm ∉ a.opts.rest.map Prod.fst)
    (h0 : start.sv.i .numOrthoConst = 0 ∧ start.sv.i .initSize = 0) :
    (a.opts.u0 = none → a.opts.v0 = none → c.params.sv.i .initSize = 0) ∧
    ((a.opts.u0 ≠ none ∨ a.opts.v0 ≠ none) →
      (nonEmpty a.opts.u0 = none ∨ (a.opts.orthoConst = none ↔ nonEmpty a.opts.v0 = none)) →
      ∃ (X Y : MVecs V) (cc : Nat),
      Mat.Doc.Pairs (a.apply false) (a.apply true) (nonEmpty a.opts.u0) (nonEmpty a.opts.v0) X Y ∧
      X.arr.rows = M ∧ Y.arr.rows = N ∧ X.arr.cols = Y.arr.cols ∧
      c.params.sv.i .initSize = (X.arr.cols : Int) ∧ c.params.sv.i .numOrthoConst = (cc : Int) ∧
      (∀ i < M, ∀ j < X.arr.cols, c.svecs (Py.Doc.leftVector M cc i j) = X.arr.at' i j) ∧
      (∀ i < N, ∀ j < X.arr.cols, c.svecs (Py.Doc.rightVector M N cc X.arr.cols i j) = Y.arr.at' i j)) := by
  obtain ⟨o, g, cc, gg, k1, k2, e1, e2, k3, k4, k5, k6⟩ := layout h ha hd own h0
  refine ⟨?_, ?_⟩
  · intro h1 h2
    unfold guessesS at k2
    rw [h1, h2] at k2
    simp only [Res.ok.injEq] at k2
    rw [k4, e2, ← k2]; rfl
  · intro hs hc
    have hk : (pairUp a M N a.opts.orthoConst.isNone a.opts.u0 a.opts.v0).bind (fun p => .ok (some p)) = .ok g := by
      unfold guessesS at k2
      split at k2
      · rename_i q1 q2
        simp [q1, q2] at hs
      · exact k2
    obtain ⟨q, q1, q2⟩ := bind_ok hk
    simp only [Res.ok.injEq] at q2
    obtain ⟨r1, r2, r3, r4, -⟩ := pairUp_ok q1
    have hcc : gg = q.1.arr.cols := by rw [e2, ← q2]; rfl
    subst hcc
    obtain ⟨s1, s2⟩ := k6 q q2.symm
    refine ⟨q.1, q.2, cc, r4 ?_, r1, r2, r3, k4, k3, s1, s2⟩
    rcases hc with hc | hc
    · exact .inl hc
    · right
      rw [Bool.eq_iff_iff, Option.isNone_iff_eq_none, Option.isNone_iff_eq_none]
      exact hc

/-- **Both guesses.**  When both `u0` and `v0` are given and there are no constraints, `v0` is not used: the library gets
`A'*u0` in its place.  With constraints, `u0` alone is an error. -/
theorem C66_guesses_violated {M N : Nat} (ha : Mat.Doc.OrdinaryS a)
    (hd : Mat.Doc.DimsS a M N) (own : ∀ nm ∈ Mat.Doc.problemS, nm ∉ a.opts.rest.map Prod.fst)
    (h0 : start.sv.i .numOrthoConst = 0 ∧ start.sv.i .initSize = 0) {u0 : MVecs V} (hu : nonEmpty a.opts.u0 = some u0) :
    (a.opts.orthoConst = none → prepareSvdsM S D junk start a = .ok c → ∃ Y, a.apply true u0 = some Y ∧
      ∀ i < N, ∀ j < u0.arr.cols, c.svecs (Py.Doc.rightVector M N 0 u0.arr.cols i j) = Y.arr.at' i j) ∧
    (a.opts.orthoConst ≠ none → nonEmpty a.opts.v0 = none → prepareSvdsM S D junk start a ≠ .ok c) := by
  have hne : a.opts.u0 ≠ none := by
    intro hn
    rw [hn] at hu
    simp [nonEmpty] at hu
  have gs : ∀ {M N : Nat} {g}, guessesS a M N = .ok g → ∃ q, g = some q ∧
      pairUp a M N a.opts.orthoConst.isNone a.opts.u0 a.opts.v0 = .ok q := by
    intro M N g hg
    unfold guessesS at hg
    split at hg
    · rename_i q1 q2
      exact absurd q1 hne
    · obtain ⟨q, q1, q2⟩ := bind_ok hg
      simp only [Res.ok.injEq] at q2
      exact ⟨q, q2.symm, q1⟩
  refine ⟨?_, ?_⟩
  · intro hn h
    obtain ⟨o, g, cc, gg, k1, k2, e1, e2, k3, k4, k5, k6⟩ := layout h ha hd own h0
    obtain ⟨q, q1, q2⟩ := gs k2
    obtain ⟨-, -, -, -, r5⟩ := pairUp_ok q2
    obtain ⟨t1, t2⟩ := r5 u0 hu (by rw [hn]; rfl)
    have ho : o = none := by
      unfold constraintsS at k1
      rw [hn] at k1
      simpa using k1.symm
    have hc0 : cc = 0 := by rw [e1, ho]; rfl
    have hg0 : gg = u0.arr.cols := by rw [e2, q1, ← t1]; rfl
    subst hc0
    subst hg0
    exact ⟨q.2, t2, (k6 q q1).2⟩
  · intro hn hv h
    obtain ⟨o, g, cc, gg, k1, k2, -⟩ := layout h ha hd own h0
    obtain ⟨q, q1, q2⟩ := gs k2
    have hne' : a.opts.orthoConst.isNone = false := by
      cases hc : a.opts.orthoConst with
      | none => exact absurd hc hn
      | some _ => rfl
    unfold pairUp at q2
    rw [hu, hv, hne'] at q2
    simp at q2

/-- **Arrays.**  The arrays given to the library hold `numSvals` values and `m + n` rows of
`numOrthoConst + max(initSize, numSvals)` vectors. -/
theorem C66_arrays (h : prepareSvdsM S D junk start a = .ok c) (ha : Mat.Doc.OrdinaryS a) :
    (c.values : Int) = c.params.sv.i .numSvals ∧
    (c.size : Int) = (c.params.sv.i .numOrthoConst + max (c.params.sv.i .initSize) (c.params.sv.i .numSvals)) *
      (c.params.sv.i .m + c.params.sv.i .n) := by
  obtain ⟨x, b, p, m, n, s, t, u, ca⟩ := calledS h ha
  have en := ca.entered
  have uc : ∀ f : Svds.IF, u.sv.params.i f = c.params.sv.i f := by
    intro f
    have e := en.kept (.i f) (by simp [enteredM])
    simpa only [reads, Val.int.injEq] using e.symm
  obtain ⟨n1, n2, n3, n4⟩ := en.nonneg
  have v1 := en.values
  have v2 := en.size
  simp only [uc] at n1 n2 n3 n4 v1 v2
  refine ⟨by rw [v1]; omega, ?_⟩
  rw [v2]
  push_cast
  rw [Int.toNat_of_nonneg n4, Int.toNat_of_nonneg n2, Int.toNat_of_nonneg n3]

/-! ## The result -/

private theorem sorted_desc (l : List K) : (descending l).Perm (List.range l.length) ∧
    (descending l).Pairwise fun i j => l.getD j 0 ≤ l.getD i 0 := by
  unfold descending
  have : Std.Total (fun i j : Nat => l.getD j 0 ≤ l.getD i 0) := ⟨fun i j => le_total _ _⟩
  have : IsTrans Nat (fun i j : Nat => l.getD j 0 ≤ l.getD i 0) := ⟨fun i j k h1 h2 => le_trans h2 h1⟩
  exact ⟨List.perm_insertionSort _ _, List.pairwise_insertionSort _ _⟩

/-- **Result.**  `primme_svds` returns only after success or when a stage was exhausted.  Each value comes with its own left
and right vectors, which are those after the constraints, all values returned by the library come back once, and when the
result is sorted the values are in descending order; otherwise values, vectors and norms are in the order of the library. -/
theorem C66_result {o : SCallOut K V} {r : Mat.SvdsOut K V} (h : finishSvdsM c o = .ok r) {M N cc k : Nat}
    (hM : o.params.sv.i .m = M) (hN : o.params.sv.i .n = N) (hc : o.params.sv.i .numOrthoConst = cc)
    (hk : o.params.sv.i .initSize = k) :
    (o.code = 0 ∨ ∃ z : Int, o.code = -3 + 100 * z) ∧ r.values.length = k ∧ r.rnorms.length = k ∧
    ∃ ind : List Nat, ind.Perm (List.range k) ∧
      (∀ j i : Nat, ind[j]? = some i → r.values[j]? = some (o.svals i) ∧
        (∃ u v, r.left[j]? = some u ∧ r.right[j]? = some v ∧
          (∀ e, u e = o.svecs (Py.Doc.leftVector M cc e i)) ∧ ∀ e, v e = o.svecs (Py.Doc.rightVector M N cc k e i))) ∧
      (c.sorted = true → r.values.Pairwise (· ≥ ·)) ∧
      (c.sorted = false → ind = List.range k ∧ ∀ j < k, r.rnorms[j]? = some (o.norms j)) := by
  unfold finishSvdsM at h
  split at h
  swap
  · simp at h
  rename_i hcode
  simp only [Res.ok.injEq] at h
  have hL : ∀ i e, M * cc + (e + M * i) = Py.Doc.leftVector M cc e i := by
    intro i e
    unfold Py.Doc.leftVector
    rw [Nat.mul_comm (cc + i) M, Nat.mul_add]; omega
  have hR : ∀ i e, M * (cc + k) + N * cc + (e + N * i) = Py.Doc.rightVector M N cc k e i := by
    intro i e
    unfold Py.Doc.rightVector
    rw [Nat.mul_comm (cc + k) M, Nat.mul_comm (cc + i) N, Nat.mul_add N]; omega
  have hcode' : o.code = 0 ∨ ∃ z : Int, o.code = -3 + 100 * z := by
    rcases hcode with hcode | hcode
    · right
      refine ⟨-(o.code.fdiv (-100)), ?_⟩
      have := Int.fmod_add_mul_fdiv o.code (-100)
      omega
    · exact .inl hcode
  have hmex : mexReturnsS o = ⟨(List.range k).map o.svals,
      (List.range k).map fun j i => o.svecs (Py.Doc.leftVector M cc i j),
      (List.range k).map fun j i => o.svecs (Py.Doc.rightVector M N cc k i j), (List.range k).map o.norms⟩ := by
    unfold mexReturnsS
    simp only [hM, hN, hc, hk, Int.toNat_natCast, hL, hR]
  rw [hmex] at h
  refine ⟨hcode', ?_⟩
  by_cases hs : c.sorted = true
  · rw [if_pos hs] at h
    subst h
    obtain ⟨s1, s2⟩ := sorted_desc ((List.range k).map o.svals)
    simp only [List.length_map, List.length_range] at s1
    have hin : ∀ i ∈ descending ((List.range k).map o.svals), i < k := fun i hi => by simpa using s1.mem_iff.1 hi
    have hcol : ∀ f : Nat → Nat → V, (descending ((List.range k).map o.svals)).filterMap
        (fun i => ((List.range k).map f)[i]?) = (descending ((List.range k).map o.svals)).map f := by
      intro f
      rw [← List.filterMap_eq_map]
      exact List.filterMap_congr fun i hi => by simp [hin i hi]
    refine ⟨?_, by simp [sortSvds], descending ((List.range k).map o.svals), s1, ?_, ?_,
      fun hn => absurd hn (by simp [hs])⟩
    · have := s1.length_eq
      simpa [sortSvds] using this
    · intro j i hj
      have hi := hin i (List.mem_of_getElem? hj)
      refine ⟨?_, _, _, ?_, ?_, fun e => rfl, fun e => rfl⟩
      · simp [sortSvds, hj, List.getD_eq_getElem?_getD, hi]
      · simp only [sortSvds, hcol]
        rw [List.getElem?_map, hj]
        rfl
      · simp only [sortSvds, hcol]
        rw [List.getElem?_map, hj]
        rfl
    · intro _
      simp only [sortSvds, List.pairwise_map]
      exact s2
  · rw [if_neg hs] at h
    subst h
    refine ⟨by simp, by simp, List.range k, List.Perm.refl _, ?_, fun hn => absurd hn hs, fun _ => ⟨rfl, ?_⟩⟩
    · intro j i hj
      have hj' : j < k := by
        by_contra hn
        rw [List.getElem?_eq_none (by simpa using hn)] at hj
        simp at hj
      have : j = i := by simpa [hj'] using hj
      subst this
      exact ⟨by simp [hj'], _, _, by simp [hj'], by simp [hj'], fun e => rfl, fun e => rfl⟩
    · intro j hj
      simp [hj]

/-- **Order.**  The values are sorted when those asked for are not the largest ones. -/
theorem C66_order (h : prepareSvdsM S D junk start a = .ok c) (ha : Mat.Doc.OrdinaryS a)
    (h1 : "target" ∉ a.opts.rest.map Prod.fst) :
    c.sorted = true ↔ c.params.sv.i .target = 1 ∨ c.params.sv.i .target = 2 := by
  obtain ⟨x, b, p, m, n, s, t, u, ca⟩ := calledS h ha
  obtain ⟨tg, sh, k1, k2, -⟩ := ca.made.based.sigma
  rw [← basis ca (by decide) h1] at k2
  have tgt : ∀ z : Int, constantInfo Svds.constTable tg = .ok z → 0 ≤ z ∧ z < 2 ^ 31 → c.params.sv.i .target = z := by
    intro z hz hr
    have q1 := ca.means (nm := "target") (y := .i .target) (by decide +kernel) (by simp [aliased, Mat.svdsKind]) k2
      (z := .int z) (Mat.Doc.Means.name (Svds.IF.target) tg z hz) ⟨by omega, by omega⟩
    rw [← ca.kept (y := .i .target) (by decide) (by simp) (by simp) (by simp)] at q1
    simpa only [reads, Val.int.injEq] using q1
  have c0 : constantInfo Svds.constTable "primme_svds_largest" = .ok 0 := by decide +kernel
  have c1 : constantInfo Svds.constTable "primme_svds_smallest" = .ok 1 := by decide +kernel
  have c2 : constantInfo Svds.constTable "primme_svds_closest_abs" = .ok 2 := by decide +kernel
  have hcases : tg = "primme_svds_largest" ∨ tg = "primme_svds_smallest" ∨ tg = "primme_svds_closest_abs" := by
    have lt : ∀ w e, letterTarget w = some e → e = "primme_svds_largest" ∨ e = "primme_svds_smallest" := by
      intro w e he
      unfold letterTarget at he
      split at he <;> simp at he
      · exact .inl he.symm
      · exact .inr he.symm
    unfold sigmaS at k1
    repeat' split at k1
    all_goals simp only [Res.ok.injEq, Prod.mk.injEq, reduceCtorEq] at k1
    · exact .inl k1.1.symm
    · rename_i e he
      rcases lt _ _ he with q | q
      · exact .inl (k1.1 ▸ q)
      · exact .inr (.inl (k1.1 ▸ q))
    · exact .inr (.inl k1.1.symm)
    · exact .inr (.inr k1.1.symm)
    · exact .inr (.inr k1.1.symm)
  rw [ca.entered.sorted]
  unfold sortsSvds
  rw [k2]
  rcases hcases with rfl | rfl | rfl
  · rw [tgt 0 c0 (by omega)]; simp
  · rw [tgt 1 c1 (by omega)]; simp
  · rw [tgt 2 c2 (by omega)]; simp

/-- **Errors.**  Success and the exhaustion of either stage return; every other code of the library is raised. -/
theorem C66_errors (c : SCall K V) (o : SCallOut K V) :
    ((o.code = 0 ∨ o.code = -3 ∨ o.code = -103 ∨ o.code = -203) → ∃ r, finishSvdsM c o = .ok r) ∧
    (o.code ≠ 0 → (∀ z : Int, o.code ≠ -3 + 100 * z) → finishSvdsM c o = .raise (.primme o.code)) := by
  refine ⟨?_, ?_⟩
  · intro h
    unfold finishSvdsM
    refine ⟨_, if_pos ?_⟩
    rcases h with h | h | h | h <;> rw [h] <;> decide
  · intro h1 h2
    unfold finishSvdsM
    rw [if_neg]
    rintro (h | h)
    · refine h2 (-(o.code.fdiv (-100))) ?_
      have := Int.fmod_add_mul_fdiv o.code (-100)
      omega
    · exact h1 h

/-! ## Preconditioners -/

/-- `f` solves linear systems with the operator `A` from `cols` to `rows` numbers. -/
def C66_Solves (A : List V → List V) (rows cols : Nat) (f : List V → Option (List V)) : Prop :=
  ∀ y, y.length = rows → ∃ z, f y = some z ∧ z.length = cols ∧ A z = y

/-- A preconditioner for the operator `A` from `n` to `m` numbers and its adjoint `At`: a function that solves systems with
them, a matrix `P`, or the product of two matrices. -/
inductive C66_Inverse (A At : List V → List V) (m n : Nat) : HeldP V → Prop where
  | fn (f) (h1 : C66_Solves A m n (f false)) (h2 : C66_Solves At n m (f true)) : C66_Inverse A At m n (.one (.fn f))
  | mat (i j : List V → List V) (h1 : C66_Solves A m n fun y => some (i y)) (h2 : C66_Solves At n m fun y => some (j y)) :
      C66_Inverse A At m n (.one (.mat m n i j))
  | two (k : Nat) (B Bt C Ct : List V → List V) (i1 j1 i2 j2 : List V → List V)
      (hA : ∀ z, A z = B (C z)) (hAt : ∀ z, At z = Ct (Bt z))
      (h1 : C66_Solves B m k fun y => some (i1 y)) (h2 : C66_Solves Bt k m fun y => some (j1 y))
      (h3 : C66_Solves C k n fun y => some (i2 y)) (h4 : C66_Solves Ct n k fun y => some (j2 y)) :
      C66_Inverse A At m n (.two m k i1 j1 k n i2 j2)

/-- The operators whose systems the library wants solved: `A'A`, `AA'` and `[0 A'; A 0]`. -/
def C66_Op (A At : List V → List V) (n : Nat) (mode : Int) (z : List V) : List V :=
  if mode = 1 then At (A z) else if mode = 2 then A (At z) else At (z.drop n) ++ A (z.take n)

private theorem byMode_solves {A At : List V → List V} {m n : Nat} {no tr : List V → Option (List V)}
    (h1 : C66_Solves A m n no) (h2 : C66_Solves At n m tr) :
    (∀ x, x.length = n → ∃ z, byMode m no tr "AHA" x = some z ∧ z.length = n ∧ At (A z) = x) ∧
    (∀ x, x.length = m → ∃ z, byMode m no tr "AAH" x = some z ∧ z.length = m ∧ A (At z) = x) ∧
    (m = n → ∀ x, x.length = m + n → ∃ z, byMode m no tr "aug" x = some z ∧ z.length = m + n ∧
      At (z.drop n) ++ A (z.take n) = x) := by
  refine ⟨?_, ?_, ?_⟩
  · intro x hx
    obtain ⟨y, y1, y2, y3⟩ := h2 x hx
    obtain ⟨z, z1, z2, z3⟩ := h1 y y2
    exact ⟨z, by simp [byMode, y1, z1], z2, by rw [z3, y3]⟩
  · intro x hx
    obtain ⟨y, y1, y2, y3⟩ := h1 x hx
    obtain ⟨z, z1, z2, z3⟩ := h2 y y2
    exact ⟨z, by simp [byMode, y1, z1], z2, by rw [z3, y3]⟩
  · rintro rfl x hx
    obtain ⟨y, y1, y2, y3⟩ := h1 (x.drop m) (by rw [List.length_drop]; omega)
    obtain ⟨z, z1, z2, z3⟩ := h2 (x.take m) (by rw [List.length_take]; omega)
    refine ⟨y ++ z, ?_, by rw [List.length_append, y2, z2], ?_⟩
    · unfold byMode
      rw [if_neg (by decide), if_neg (by decide), if_neg (by omega), y1, z1]
      rfl
    · rw [← y2, List.drop_left, List.take_left, y3, z3, List.take_append_drop]

/-- **Preconditioner.**  Given a function, a matrix or two matrices that solve systems with the matrix of the problem and
with its adjoint, the preconditioner solves systems with each of the operators the library uses it for: vectors of the right
length go in and out.  For the augmented operator the matrix must be square.  *Missing:* the augmented operator of other
matrices, see `C66_rectangular_violated`. -/
theorem C66_preconditioner_partial {A At : List V → List V} {m n : Nat} {q : HeldP V} (h : C66_Inverse A At m n q)
    {mode : Int} (hm : mode = 1 ∨ mode = 2 ∨ mode = 3 ∧ m = n) :
    ∃ din dout str, precModeM mode m n = some (din, dout, str) ∧
      ∀ x : List V, x.length = din → ∃ z, applyHeld m q str x = some z ∧ z.length = dout ∧ C66_Op A At n mode z = x := by
  have key : ∃ no tr, C66_Solves A m n no ∧ C66_Solves At n m tr ∧
      ∀ str x, applyHeld m q str x = byMode m no tr str x := by
    cases h with
    | fn f h1 h2 => exact ⟨f false, f true, h1, h2, fun _ _ => rfl⟩
    | mat i j h1 h2 =>
      refine ⟨backslash m i, backslash n j, ?_, ?_, fun _ _ => rfl⟩
      · intro y hy
        obtain ⟨z, z1, z2⟩ := h1 y hy
        exact ⟨z, by unfold backslash; rw [if_pos hy]; exact z1, z2⟩
      · intro y hy
        obtain ⟨z, z1, z2⟩ := h2 y hy
        exact ⟨z, by unfold backslash; rw [if_pos hy]; exact z1, z2⟩
    | two k B Bt C Ct i1 j1 i2 j2 hA hAt h1 h2 h3 h4 =>
      refine ⟨_, _, ?_, ?_, fun _ _ => rfl⟩
      · intro y hy
        obtain ⟨w, w1, w2, w3⟩ := h1 y hy
        obtain ⟨z, z1, z2, z3⟩ := h3 w w2
        simp only [Option.some.injEq] at w1 z1
        refine ⟨z, ?_, z2, by rw [hA, z3, w3]⟩
        simp only [backslash, hy, if_true, Option.bind_some, w1, w2, z1]
      · intro y hy
        obtain ⟨w, w1, w2, w3⟩ := h4 y hy
        obtain ⟨z, z1, z2, z3⟩ := h2 w w2
        simp only [Option.some.injEq] at w1 z1
        refine ⟨z, ?_, z2, by rw [hAt, z3, w3]⟩
        simp only [backslash, hy, if_true, Option.bind_some, w1, w2, z1]
  obtain ⟨no, tr, k1, k2, k3⟩ := key
  obtain ⟨b1, b2, b3⟩ := byMode_solves k1 k2
  rcases hm with rfl | rfl | ⟨rfl, hm⟩
  · refine ⟨n, n, "AHA", rfl, fun x hx => ?_⟩
    obtain ⟨z, z1, z2, z3⟩ := b1 x hx
    exact ⟨z, by rw [k3, z1], z2, by simpa [C66_Op] using z3⟩
  · refine ⟨m, m, "AAH", rfl, fun x hx => ?_⟩
    obtain ⟨z, z1, z2, z3⟩ := b2 x hx
    exact ⟨z, by rw [k3, z1], z2, by simpa [C66_Op] using z3⟩
  · refine ⟨m + n, m + n, "aug", rfl, fun x hx => ?_⟩
    obtain ⟨z, z1, z2, z3⟩ := b3 hm x hx
    exact ⟨z, by rw [k3, z1], z2, by simpa [C66_Op] using z3⟩

/-- **A factor of `A'A`.**  Given `[]` and a matrix `R`, the preconditioner for `A'A` solves systems with `R'R`, and the one for
the augmented operator does nothing. -/
theorem C66_factor {R Rt : List V → List V} {m k n : Nat} {i j : List V → List V}
    (h1 : C66_Solves R k n fun y => some (i y)) (h2 : C66_Solves Rt n k fun y => some (j y)) :
    (∀ x : List V, x.length = n → ∃ z, applyHeld m (.right k n i j) "AHA" x = some z ∧ z.length = n ∧ Rt (R z) = x) ∧
    ∀ x : List V, applyHeld m (.right k n i j) "aug" x = some x := by
  refine ⟨?_, fun x => rfl⟩
  intro x hx
  obtain ⟨w, w1, w2, w3⟩ := h2 x hx
  obtain ⟨z, z1, z2, z3⟩ := h1 w w2
  simp only [Option.some.injEq] at w1 z1
  refine ⟨z, ?_, z2, by rw [z3, w3]⟩
  simp only [applyHeld, backslash, hx, if_true, Option.bind_some, w1, w2, z1]

/-- **A structure of functions.**  Each field is the preconditioner for its operator, and without it there is none. -/
theorem C66_struct {m : Nat} {f : String → Option (List V → Option (List V))} (str : String) (x : List V) :
    (∀ g, f str = some g → applyHeld m (.one (.struct f)) str x = g x) ∧
    (f str = none → applyHeld m (.one (.struct f)) str x = some x) := by
  refine ⟨fun g hg => ?_, fun hn => ?_⟩
  · simp only [applyHeld, hg]
  · simp only [applyHeld, hn]

/-- **The product.**  For a product with the matrix the function gets `n` rows and 'notransp' and has to make `m` rows; for one
with its adjoint it gets `m` rows and 'transp' and has to make `n`. -/
theorem C66_modes (t : Int) (m n : Nat) :
    (t = 0 ↔ (matrixModeM t m n).2.2 = "notransp") ∧ (t ≠ 0 ↔ (matrixModeM t m n).2.2 = "transp") ∧
    (t = 0 → (matrixModeM t m n).1 = n ∧ (matrixModeM t m n).2.1 = m) ∧
    (t ≠ 0 → (matrixModeM t m n).1 = m ∧ (matrixModeM t m n).2.1 = n) := by
  unfold matrixModeM
  by_cases h : t = 0 <;> simp [h]

/-- **Preconditioners of rectangular matrices.**  When the matrix is not square, a matrix, two matrices, or a function that
takes vectors of the right length only, is refused, whatever its size: the test of the augmented operator splits the vector
in the wrong place.  So is a square factor of `A'A`. -/
theorem C66_rectangular_violated {M N : Nat} (ha : Mat.Doc.OrdinaryS a) (hd : Mat.Doc.DimsS a M N)
    (o1 : "m" ∉ a.opts.rest.map Prod.fst) (o2 : "n" ∉ a.opts.rest.map Prod.fst) (hMN : M ≠ N) {q : HeldP V}
    (hq : choosePrec a.P1 a.P2 = .ok (some q))
    (hk : (∃ r c i j, q = .one (.mat r c i j)) ∨ (∃ r1 c1 i1 j1 r2 c2 i2 j2, q = .two r1 c1 i1 j1 r2 c2 i2 j2) ∨
      (∃ k i j, q = .right k k i j) ∨
      ∃ f, q = .one (.fn f) ∧ (∀ x : List V, x.length ≠ M → f false x = none) ∧ ∀ x : List V, x.length ≠ N → f true x = none)
    (c : SCall K V) : prepareSvdsM S D junk start a ≠ .ok c := by
  intro h
  obtain ⟨x, b, p, m, n, s, t, u, ca⟩ := calledS h ha
  obtain ⟨rfl, rfl, -⟩ := dims ca hd o1 o2
  have hp : p = some q := by have := ca.made.chosen; rw [hq] at this; simpa using this.symm
  have ht := ca.made.tested
  rw [hp] at ht
  unfold testSvds at ht
  simp only [Bool.and_eq_true] at ht
  obtain ⟨-, ⟨t1, t2⟩, t3⟩ := ht
  have bs : ∀ {r : Nat} {f : List V → List V} {y : List V}, (backslash r f y).isSome = true → y.length = r := by
    intro r f y hy
    unfold backslash at hy
    split at hy
    · assumption
    · simp at hy
  have left : ∀ {y : Option (List V)} {g : List V → Option (List V)}, (y.bind g).isSome = true → y.isSome = true := by
    intro y g hy
    cases y with
    | none => simp at hy
    | some _ => rfl
  have am : ∀ {k : Nat} {no tr : List V → Option (List V)}, (byMode k no tr "aug" (List.replicate (m + n) a.one)).isSome = true →
      (no (List.replicate (m + n - k) a.one)).isSome = true := by
    intro k no tr hy
    unfold byMode at hy
    rw [if_neg (by decide), if_neg (by decide)] at hy
    split at hy
    · simp at hy
    · have := left hy
      rwa [List.drop_replicate] at this
  rcases hk with ⟨r, k, i, j, rfl⟩ | ⟨r1, c1, i1, j1, r2, c2, i2, j2, rfl⟩ | ⟨k, i, j, rfl⟩ | ⟨f, rfl, f1, f2⟩
  · have e1 : m = r := by
      have := bs (left (y := backslash r i (List.replicate m a.one)) (by simpa [applyHeld, byMode] using t2))
      simpa using this
    have e2 := bs (am (by simpa [applyHeld] using t3))
    simp only [List.length_replicate] at e2
    omega
  · have e1 : m = r1 := by
      have := bs (left (left (y := (backslash r1 i1 (List.replicate m a.one)).bind (backslash r2 i2))
        (by simpa [applyHeld, byMode] using t2)))
      simpa using this
    have e2 := bs (left (am (by simpa [applyHeld] using t3)))
    simp only [List.length_replicate] at e2
    omega
  · have e1 : m = k := by
      have := bs (left (y := backslash k i (List.replicate m a.one)) (by simpa [applyHeld] using t2))
      simpa using this
    have e2 : n = k := by
      have := bs (left (y := backslash k j (List.replicate n a.one)) (by simpa [applyHeld] using t1))
      simpa using this
    omega
  · have e2 := am (k := m) (no := f false) (tr := f true) (by simpa [applyHeld] using t3)
    rw [f1 _ (by simp; omega)] at e2
    simp at e2

/-! ## Wrong arguments -/

private theorem bind_raise {α β : Type} {x : Res α} {f : α → Res β} (hx : x ≠ .ub) (hf : ∀ y, x = .ok y → f y ≠ .ub) :
    x.bind f ≠ .ub := by
  cases x with
  | ok y => exact hf y rfl
  | raise e => simp [Res.bind]
  | ub => exact absurd rfl hx

private theorem optionsS_ub (h : Nat) (a : Mat.SvdsArgs K V) : Mat.optionsS h a ≠ .ub := by
  have dim : ∀ v : Option (MVal K), dimArg v ≠ .ub := by
    intro v
    unfold dimArg
    split
    · split <;> simp
    · simp
  have pu : ∀ m n redo (l r : Option (MVecs V)), pairUp a m n redo l r ≠ .ub := by
    intro m n redo l r
    unfold pairUp checkPair
    split <;> (try split) <;> (try split) <;> (try split) <;> simp
  unfold Mat.optionsS
  refine bind_raise ?_ fun o0 _ => ?_
  · unfold startS
    split
    · simp
    · exact bind_raise (dim _) fun _ _ => bind_raise (dim _) fun _ _ => by simp
    · simp
  refine bind_raise ?_ fun o1 _ => ?_
  · unfold addSvals
    split
    · refine bind_raise ?_ fun _ _ => by simp
      unfold roundAll
      split <;> simp
    · split <;> simp
  refine bind_raise ?_ fun o2 _ => ?_
  · unfold addSigma
    refine bind_raise ?_ fun _ _ => by simp
    unfold sigmaS
    repeat' split
    all_goals simp
  refine bind_raise ?_ fun o3 _ => ?_
  · unfold choosePrec
    repeat' split
    all_goals simp
  dsimp only
  split
  · split
    · simp
    refine bind_raise ?_ fun _ _ => bind_raise ?_ fun _ _ => by simp
    · unfold constraintsS
      split
      · simp
      · exact bind_raise (pu _ _ _ _ _) fun _ _ => by simp
    · unfold guessesS
      split
      · simp
      · exact bind_raise (pu _ _ _ _ _) fun _ _ => by simp
  · simp

/-- Wrong arguments. -/
inductive C66_Bad (a : Mat.SvdsArgs K V) : Prop where
  | operator (h : a.A = .other)
  | noDims (x : Nat) (hf : a.A = .fn x) (hd : a.rows = none ∨ a.cols = none)
  | dims (x : Nat) (y : K) (hf : a.A = .fn x) (hd : a.rows = some (.num 1 1 [y]) ∨ a.cols = some (.num 1 1 [y])) (hy : y ≤ -1)
  | count (w : String) (h : a.count = some (.str w))
  | target (w : String) (h : a.target = some (.str w)) (h1 : w.toList.head? ≠ some 'L') (h2 : w.toList.head? ≠ some 'S')
  | shift (r k : Nat) (l : List K) (y : K) (h : a.target = some (.num r k l)) (hy : y ∈ l) (h0 : y < 0)
  | second (f : Bool → List V → Option (List V)) (h : a.P2 = some (.fn f))
  | constraints (M N : Nat) (l r : Option (MVecs V)) (v : MVecs V) (h : Mat.Doc.DimsS a M N)
      (o1 : "m" ∉ a.opts.rest.map Prod.fst) (o2 : "n" ∉ a.opts.rest.map Prod.fst) (hc : a.opts.orthoConst = some (l, r))
      (hv : nonEmpty l = some v ∧ v.arr.rows ≠ M ∨ nonEmpty r = some v ∧ v.arr.rows ≠ N)
  | guesses (M N : Nat) (v : MVecs V) (h : Mat.Doc.DimsS a M N)
      (o1 : "m" ∉ a.opts.rest.map Prod.fst) (o2 : "n" ∉ a.opts.rest.map Prod.fst) (hu : nonEmpty a.opts.u0 = some v)
      (hr : v.arr.rows ≠ M)

/-- **Wrong arguments are errors**, before the library is touched. -/
theorem C66_rejects (ha : Mat.Doc.OrdinaryS a) (h : C66_Bad a) : ∃ e, prepareSvdsM S D junk start a = .raise e := by
  have key : ∀ x, Mat.optionsS D.objPrec a ≠ .ok x := by
    intro x hx
    obtain ⟨b, p, m, n, made⟩ := optionsS_made ha hx
    cases h with
    | operator h =>
      obtain ⟨y, hy, -⟩ := made.based.matvec
      rw [h] at hy
      simp [opAddr] at hy
    | noDims f hf hd =>
      unfold Mat.optionsS at hx
      obtain ⟨o0, h0, -⟩ := bind_ok hx
      unfold startS at h0
      rw [hf] at h0
      obtain ⟨v, v1, h0⟩ := bind_ok h0
      obtain ⟨w, w1, -⟩ := bind_ok h0
      rcases hd with hd | hd
      · rw [hd] at v1; simp [dimArg] at v1
      · rw [hd] at w1; simp [dimArg] at w1
    | dims f y hf hd hy =>
      have hr : round y < 0 := by
        have h1 : (⌊y + 1 / 2⌋ : Int) < 0 := by
          rw [Int.floor_lt]
          push_cast
          have : (1 : K) / 2 < 1 := by norm_num
          linarith
        rw [round_eq]; exact h1
      unfold Mat.optionsS at hx
      obtain ⟨o0, h0, -⟩ := bind_ok hx
      unfold startS at h0
      rw [hf] at h0
      obtain ⟨v, v1, h0⟩ := bind_ok h0
      obtain ⟨w, w1, -⟩ := bind_ok h0
      rcases hd with hd | hd
      · rw [hd] at v1; simp [dimArg, hr] at v1
      · rw [hd] at w1; simp [dimArg, hr] at w1
    | count w h =>
      obtain ⟨k, h2, -⟩ := made.based.count _ h
      simp [roundAll] at h2
    | target w h h1 h2 =>
      obtain ⟨t, sh, h3, -⟩ := made.based.sigma
      rw [h] at h3
      have : letterTarget w = none := by
        unfold letterTarget
        split
        · rename_i q; rw [q] at h1; simp at h1
        · rename_i q; rw [q] at h2; simp at h2
        · rfl
      simp [sigmaS, this] at h3
    | shift r k l y h hy h0 =>
      obtain ⟨t, sh, h3, -⟩ := made.based.sigma
      rw [h] at h3
      have n1 : ¬ ∀ x ∈ l, x = 0 := fun hz => h0.ne (hz y hy)
      have n2 : ¬ ∀ x ∈ l, 0 ≤ x := fun hz => absurd (hz y hy) (not_le.2 h0)
      simp only [sigmaS, if_neg n1, if_neg n2] at h3
      split at h3 <;> simp at h3
    | second f h =>
      have := made.chosen
      unfold choosePrec at this
      rw [h] at this
      simp [present] at this
    | constraints M N l r v h o1 o2 hc hv =>
      obtain ⟨rfl, rfl, -⟩ := dimsM made h o1 o2
      have := made.hortho
      unfold constraintsS at this
      rw [hc] at this
      obtain ⟨q, q1, -⟩ := bind_ok this
      obtain ⟨r1, r2, -, r4, -⟩ := pairUp_ok q1
      have hp := r4 (.inr rfl)
      rcases hv with ⟨hv, hne⟩ | ⟨hv, hne⟩
      · rw [hv] at hp
        have hq : q.1 = v := by
          generalize nonEmpty r = r' at hp
          cases hp <;> rfl
        exact hne (hq ▸ r1)
      · rw [hv] at hp
        have hq : q.2 = v := by
          generalize nonEmpty l = l' at hp
          cases hp <;> rfl
        exact hne (hq ▸ r2)
    | guesses M N v h o1 o2 hu hr =>
      obtain ⟨rfl, rfl, -⟩ := dimsM made h o1 o2
      have := made.hinit
      unfold guessesS at this
      split at this
      · rename_i q1 q2
        rw [q1] at hu
        simp [nonEmpty] at hu
      · obtain ⟨q, q1, -⟩ := bind_ok this
        obtain ⟨r1, r2, -, r4, r5⟩ := pairUp_ok q1
        by_cases hred : a.opts.orthoConst.isNone = true
        · exact hr ((r5 v hu hred).1 ▸ r1)
        · cases hv : nonEmpty a.opts.v0 with
          | none =>
            unfold pairUp at q1
            rw [hu, hv] at q1
            simp [hred] at q1
          | some w =>
            have hp := r4 (.inr (by rw [hv]; exact Bool.eq_false_iff.2 hred))
            rw [hu, hv] at hp
            have hq : q.1 = v := by cases hp; rfl
            exact hr (hq ▸ r1)
  unfold prepareSvdsM
  cases ho : Mat.optionsS D.objPrec a with
  | ok o => exact absurd ho (key o)
  | raise e => exact ⟨e, rfl⟩
  | ub => exact absurd ho (optionsS_ub _ _)

/-- **Unknown options.**  With an option whose name is neither that of a parameter of the manual nor one of the short names, the
library is not called. -/
theorem C66_unknown (ha : Mat.Doc.OrdinaryS a) {nm : String} {v : MVal K} (hv : a.opts.rest.get nm = some v)
    (h1 : nm ∉ Py.Doc.svdsMembers.map Prod.fst) (h2 : nm ∉ Mat.Doc.optionsS.map Prod.fst) (c : SCall K V) :
    prepareSvdsM S D junk start a ≠ .ok c := by
  intro h
  obtain ⟨x, b, p, m, n, s, t, u, ca⟩ := calledS h ha
  have t1 : ∀ e ∈ renamesS, e.1 ∈ Mat.Doc.optionsS.map Prod.fst := by decide
  have t2 : ∀ e ∈ renamesS, e.2 ∈ Py.Doc.svdsMembers.map Prod.fst := by decide +kernel
  have t3 : ∀ e ∈ problemNamesS, e ∈ Py.Doc.svdsMembers.map Prod.fst := by decide +kernel
  have hx : x.fields.get nm = some v := by
    rw [ca.made.others nm (fun hp => h1 (t3 nm hp))]
    unfold givenS
    rw [renamed_plain (fun hm => by
      obtain ⟨e, he, rfl⟩ := List.mem_map.1 hm
      exact h2 (t1 e he)) (fun hm => by
      obtain ⟨e, he, rfl⟩ := List.mem_map.1 hm
      exact h1 (t2 e he)), hv]
  obtain ⟨⟨y, hy⟩, -⟩ := flat_names (Mat.svds_kind D.heap D.device D.text) ca.made.flat ca.set hx
  exact h1 (List.mem_map.2 ⟨_, hy, rfl⟩)

/-- **Unknown options of a stage.** -/
theorem C66_unknownStage (ha : Mat.Doc.OrdinaryS a) {st : MStage K} (hst : a.opts.primme = some st ∨ a.opts.primmeStage2 = some st)
    {nm : String} {v : MVal K} (hv : st.rest.get nm = some v) (h1 : nm ∉ Py.Doc.eigsMembers.map Prod.fst)
    (h2 : nm ∉ Mat.Doc.stageOptions.map Prod.fst) (h3 : nm ≠ "projection" ∧ nm ≠ "precondition") (c : SCall K V) :
    prepareSvdsM S D junk start a ≠ .ok c := by
  intro h
  obtain ⟨x, b, p, m, n, s, t, u, ca⟩ := calledS h ha
  have key : ∀ {h' d' t' : Nat} {s0 s1 : ES K}, Flat st.rest →
      setStage (eigsKind h' d' t') (some st) s0 = .ok s1 → False := by
    intro h' d' t' s0 s1 hf hs
    simp only [setStage] at hs
    have hg := fun nm => get_renames renamesStage_nodup st.rest nm
    have known : ∀ {e w}, (renamesStage.foldl rename st.rest).get e = some w → e ∈ Py.Doc.eigsMembers.map Prod.fst := by
      intro e w hw
      obtain ⟨⟨y, hy⟩, -⟩ := flat_names (eigs_kind h' d' t') (flat_renames hf _) hs hw
      exact List.mem_map.2 ⟨_, hy, rfl⟩
    have tn : "restarting_scheme" ∉ Py.Doc.eigsMembers.map Prod.fst := by decide +kernel
    have hor : (st.rest.get "scheme").or (st.rest.get "restarting_scheme") = none := by
      cases hq : (renamesStage.foldl rename st.rest).get "restarting_scheme" with
      | some w => exact absurd (known hq) tn
      | none =>
        rw [hg] at hq
        unfold renamed at hq
        rw [if_neg (by decide)] at hq
        have : renamesStage.find? (fun c => c.2 = "restarting_scheme") = some ("scheme", "restarting_scheme") := by decide
        rw [this] at hq
        exact hq
    have hno : nm ≠ "scheme" ∧ nm ≠ "restarting_scheme" := by
      constructor <;> rintro rfl
      · rw [hv] at hor; simp at hor
      · rw [hv] at hor
        cases hq : st.rest.get "scheme" <;> rw [hq] at hor <;> simp at hor
    have t1 : ∀ e ∈ renamesStage, e.1 = "scheme" ∨ e.1 = "projection" ∨ e.1 = "precondition" ∨
        e.1 ∈ Mat.Doc.stageOptions.map Prod.fst := by decide
    have t2 : ∀ e ∈ renamesStage, e.2 = "restarting_scheme" ∨ e.2 ∈ Py.Doc.eigsMembers.map Prod.fst := by decide +kernel
    have r1 : nm ∉ renamesStage.map Prod.fst := by
      intro hm
      obtain ⟨e, he, rfl⟩ := List.mem_map.1 hm
      rcases t1 e he with q | q | q | q
      · exact hno.1 q
      · exact h3.1 q
      · exact h3.2 q
      · exact h2 q
    have r2 : nm ∉ renamesStage.map Prod.snd := by
      intro hm
      obtain ⟨e, he, rfl⟩ := List.mem_map.1 hm
      exact (t2 e he).elim hno.2 h1
    exact h1 (known (e := nm) (w := v) (by rw [hg, renamed_plain r1 r2, hv]))
  rcases hst with hst | hst
  · have := ca.set1
    rw [hst] at this
    exact key (ha.flat1 st hst) this
  · have := ca.set2
    rw [hst] at this
    exact key (ha.flat2 st hst) this

/-- **Options of a stage.**  The options of a stage are documented as those of `primme_eigs`, but with `tol`, `maxit` or `p`
among them the library is not called. -/
theorem C66_stageOptions_violated (ha : Mat.Doc.OrdinaryS a) {st : MStage K}
    (hst : a.opts.primme = some st ∨ a.opts.primmeStage2 = some st) {nm : String} (hn : nm ∈ ["tol", "maxit", "p"]) {v : MVal K}
    (hv : st.rest.get nm = some v) (c : SCall K V) :
    nm ∈ Mat.Doc.options.map Prod.fst ∧ prepareSvdsM S D junk start a ≠ .ok c := by
  have t1 : ∀ e ∈ ["tol", "maxit", "p"], e ∈ Mat.Doc.options.map Prod.fst ∧ e ∉ Py.Doc.eigsMembers.map Prod.fst ∧
      e ∉ Mat.Doc.stageOptions.map Prod.fst ∧ e ≠ "projection" ∧ e ≠ "precondition" := by decide +kernel
  obtain ⟨q1, q2, q3, q4⟩ := t1 nm hn
  exact ⟨q1, C66_unknownStage ha hst hv q2 q3 q4 c⟩

/-- **The option `profiler`** of the help text is an error. -/
theorem C66_profiler_violated (ha : Mat.Doc.OrdinaryS a) {v : MVal K} (hv : a.opts.rest.get "profiler" = some v)
    (c : SCall K V) : prepareSvdsM S D junk start a ≠ .ok c :=
  C66_unknown ha hv (by decide +kernel) (by decide) c

/-- **Tolerance of a sparse matrix in single precision.**  It is `1e4` times the `eps` of double precision, far below what single
precision can reach. -/
theorem C66_tolerance_violated (h : prepareSvdsM S D junk start a = .ok c) (ha : Mat.Doc.OrdinaryS a)
    (h1 : "tol" ∉ a.opts.rest.map Prod.fst) (h2 : "eps" ∉ a.opts.rest.map Prod.fst) (h3 : sparseSingleS a = true) :
    c.params.sv.d .eps = 10 ^ 4 / 2 ^ 52 ∧ c.params.sv.d .eps < (1 / 2 ^ 23 : K) := by
  obtain ⟨x, b, p, m, n, s, t, u, ca⟩ := calledS h ha
  have hg : givenS a "eps" = none := by
    refine givenS_none h2 ?_
    have : ∀ q ∈ renamesS, q.2 = "eps" → q.1 = "tol" := by decide
    intro q hq hq2
    rw [this q hq hq2]
    exact h1
  have heps := ca.made.eps
  rw [hg] at heps
  have q1 := ca.means (nm := "eps") (y := .d .eps) (by decide +kernel) (by simp [aliased, Mat.svdsKind]) heps
    (z := .dbl (tolS a)) (Mat.Doc.Means.real (Svds.DF.eps) (tolS a)) trivial
  rw [← ca.kept (y := .d .eps) (by decide) (by simp) (by simp) (by simp)] at q1
  simp only [reads, Val.dbl.injEq] at q1
  have hdb : isDoubleS a = false := by
    unfold sparseSingleS at h3
    split at h3
    · simp only [Bool.and_eq_true, Bool.not_eq_true'] at h3
      exact h3.2
    · simp at h3
  have : c.params.sv.d .eps = 10 ^ 4 / 2 ^ 52 := by
    rw [q1]
    unfold tolS
    rw [h3, hdb]
    norm_num
  refine ⟨this, ?_⟩
  rw [this, div_lt_div_iff₀ (by positivity) (by positivity)]
  norm_num

/-! ## A call -/

/-- Two smallest singular values of a real dense matrix of 6 rows and 4 columns (the numbers 1 to 4 on its diagonal), with a
constraint on the right, a guess on both sides, a preconditioner for each operator, and options for the first stage. -/
def C66_call : Mat.SvdsArgs Rat Rat where
  A := .mat ⟨6, 4, false, true, false, false⟩ 21
  apply := fun adj x => if adj then (if x.arr.rows = 6 then some ⟨⟨4, x.arr.cols, fun i j => (i + 1) * x.arr.at' i j⟩, x.complex⟩ else none)
    else if x.arr.rows = 4 then
      some ⟨⟨6, x.arr.cols, fun i j => if i < 4 then (i + 1) * x.arr.at' i j else 0⟩, x.complex⟩ else none
  one := 1
  rows := none
  cols := none
  count := some (.num 1 1 [2])
  target := some (.str "S")
  opts :=
    { isreal := none
      isdouble := none
      u0 := some ⟨⟨6, 1, fun i _ => i⟩, false⟩
      v0 := some ⟨⟨4, 1, fun i _ => 7 * i⟩, false⟩
      orthoConst := some (none, some ⟨⟨4, 1, fun i _ => 2 * i⟩, false⟩)
      method := some (.str "primme_svds_hybrid")
      primme := some ⟨some (.str "DEFAULT_MIN_TIME"), [("maxBlockSize", .num 1 1 [3]), ("relTolBase", .num 1 1 [2])]⟩
      primmeStage2 := none
      report := false
      rest := [("tol", .num 1 1 [1 / 1000000]), ("maxit", .num 1 1 [500]), ("locking", .num 1 1 [1])] }
  P1 := some (.struct fun str => if str = "AHA" then some (fun x => some (x.map (· / 2))) else none)
  P2 := none

/-- Addresses. -/
def C66_addrs : SAddrs := ⟨100, 101, 102, 1, 2, 3, 4, fun t => 10 + t.toNat, fun t => 20 + t.toNat, 40, 41⟩

/-- What a call of the library holds. -/
def C66_run {β : Type} (a : Mat.SvdsArgs Rat Rat) (f : SCall Rat Rat → β) : Res β :=
  (prepareSvdsM C28_sys.toSEnv C66_addrs (fun _ => 0) C54_fresh a).bind fun c => .ok (f c)

theorem C66_run_ok {β : Type} {a : Mat.SvdsArgs Rat Rat} {f : SCall Rat Rat → β} {y : β} (h : C66_run a f = .ok y) :
    ∃ c, prepareSvdsM C28_sys.toSEnv C66_addrs (fun _ => 0) C54_fresh a = .ok c ∧ f c = y := by
  obtain ⟨c, h1, h2⟩ := bind_ok h
  exact ⟨c, h1, by simpa using h2⟩

/-- The call is prepared, and the theorems apply to it. -/
theorem C66_call_holds : ∃ c, prepareSvdsM C28_sys.toSEnv C66_addrs (fun _ => 0) C54_fresh C66_call = .ok c ∧
    Mat.Doc.OrdinaryS C66_call ∧ Mat.Doc.DimsS C66_call 6 4 ∧
    (∀ nm ∈ Mat.Doc.problemS, nm ∉ C66_call.opts.rest.map Prod.fst) ∧ c.solver = "dprimme_svds" ∧ c.size = 30 := by
  have h : C66_run C66_call (fun c => (c.solver, c.size)) = .ok ("dprimme_svds", 30) := by decide +kernel
  obtain ⟨c, h1, h2⟩ := C66_run_ok h
  simp only [Prod.mk.injEq] at h2
  refine ⟨c, h1, ⟨by decide, ?_, ?_, ?_, ?_, ?_⟩, .inl ⟨_, _, rfl, rfl, rfl⟩, by decide, h2.1, h2.2⟩
  · intro e he l
    simp only [C66_call, List.mem_cons, List.not_mem_nil, or_false] at he
    rcases he with rfl | rfl | rfl <;> simp
  · intro st hst
    simp only [C66_call, Option.some.injEq] at hst
    subst hst
    decide
  · intro st hst e he l
    simp only [C66_call, Option.some.injEq] at hst
    subst hst
    simp only [List.mem_cons, List.not_mem_nil, or_false] at he
    rcases he with rfl | rfl <;> simp
  · intro st hst
    simp [C66_call] at hst
  · intro st hst
    simp [C66_call] at hst

example : ∃ c, prepareSvdsM C28_sys.toSEnv C66_addrs (fun _ => 0) C54_fresh C66_call = .ok c ∧ c.params.sv.i .m = 6 ∧
    c.params.sv.i .n = 4 ∧ c.params.sv.i .numSvals = 2 ∧ c.params.sv.i .target = 1 ∧ c.params.sv.p .preconditioner = 3 ∧
    c.params.sv.p .matrixMatvec = 10 ∧ c.params.sv.d .eps = 1 / 1000000 ∧ c.params.sv.i .maxMatvecs = 500 ∧
    c.sorted = true := by
  obtain ⟨c, hc, ord, dim, own, -⟩ := C66_call_holds
  obtain ⟨p1, p2, -, -, p3, -, -, p4, -⟩ := C66_problem hc ord dim own
  obtain ⟨-, w1, -⟩ := C66_which hc ord (by decide) (by decide)
  have w2 := (w1 (.inl rfl)).1
  refine ⟨c, hc, p1, p2, p3 2 rfl, w2, (p4 _ rfl).1, (C66_functions hc ord (fun nm h1 _ => own nm h1) ⟨rfl, rfl⟩).1, ?_, ?_,
    (C66_order hc ord (by decide)).2 (.inl w2)⟩
  · have := C66_options hc ord (nm := "tol") (y := .d .eps) (z := .dbl (1 / 1000000)) (by decide) rfl (.real _ _) trivial
    simpa [reads] using this
  · have := C66_options hc ord (nm := "maxit") (y := .i .maxMatvecs) (z := .int 500) (by decide) rfl (.whole _ 500)
      ⟨by decide, by decide⟩
    simpa [reads] using this

/-- The vectors the library gets: the constraint on the left is `A*v`. -/
example : C66_run C66_call (fun c => (List.range 20).map c.svecs) =
    .ok [0, 4, 12, 24, 0, 0, 0, 1, 2, 3, 4, 5, 0, 2, 4, 6, 0, 7, 14, 21] := by decide +kernel

example : C66_run { C66_call with target := some (.num 1 1 [5 / 2]) } (fun c => (c.sorted, c.shifts,
    c.params.sv.i .target, c.params.sv.i .numTargetShifts)) = .ok (true, [5 / 2], 2, 1) := by decide +kernel

example : C66_run C66_call (fun c => (c.params.st1.i .maxBlockSize, c.params.st1.d .correctionParams_relTolBase,
    c.params.sv.i .method, c.params.sv.i .methodStage2)) = .ok (3, 2, 1, 3) := by decide +kernel

example : C66_Bad { C66_call with target := some (.num 1 1 [-1]) } := .shift 1 1 [-1] (-1) rfl (by decide) (by decide)

/-- A preconditioner for the matrix `[2]`. -/
example : C66_Inverse (fun x : List Rat => x.map (2 * ·)) (fun x => x.map (2 * ·)) 1 1
    (.one (.fn fun _ x => some (x.map (· / 2)))) := by
  have : ∀ y : List Rat, y.map ((fun x => 2 * x) ∘ fun x => x / 2) = y := by
    intro y
    conv_rhs => rw [← List.map_id y]
    refine List.map_congr_left fun x _ => ?_
    simp only [Function.comp, id]
    ring
  refine .fn _ ?_ ?_ <;>
  · intro y hy
    exact ⟨_, rfl, by simpa using hy, by dsimp only; rw [List.map_map, this]⟩

/-- An answer of the library to a call for the two values closest to a point. -/
def C66_answer : SCallOut Rat Rat where
  code := 0
  params := { C54_fresh with sv := ((((C54_fresh.sv.setI .m 6).setI .n 4).setI .initSize 2).setI .numOrthoConst 0) }
  svals := fun j => [2, 3].getD j 0
  svecs := fun j => j
  norms := fun j => [1 / 10, 2 / 10].getD j 0

/-- The values, the first entries of the vectors, and the norms `primme_svds` returns. -/
def C66_returned (a : Mat.SvdsArgs Rat Rat) (o : SCallOut Rat Rat) : Res (List Rat × List Rat × List Rat × List Rat) :=
  (prepareSvdsM C28_sys.toSEnv C66_addrs (fun _ => 0) C54_fresh a).bind fun c => (finishSvdsM c o).bind fun r =>
    .ok (r.values, r.left.map (fun v => v 0), r.right.map (fun v => v 0), r.rnorms)

/-- **Norms of the values around a point.**  Values and vectors are sorted but the norms are not: the norm returned with the
value 3 is the one of the value 2. -/
theorem C66_norms_violated : C66_returned { C66_call with target := some (.num 1 1 [2]) } C66_answer =
    .ok ([3, 2], [6, 0], [16, 12], [1 / 10, 2 / 10]) := by decide +kernel

/-- **The preconditioner switched off.**  `OPTIONS.precondition = 0` has no effect when a preconditioner is given. -/
theorem C66_precondition_violated : C66_run
    { C66_call with opts := { C66_call.opts with rest := [("precondition", .num 1 1 [0])] } }
    (fun c => (c.params.sv.i .precondition, c.params.sv.p .applyPreconditioner)) = .ok (1, 20) := by decide +kernel

/-- The outcome: a call of the library, an error, or undefined. -/
def C66_outcome (a : Mat.SvdsArgs Rat Rat) : Nat :=
  match prepareSvdsM C28_sys.toSEnv C66_addrs (fun _ => 0) C54_fresh a with | .ok _ => 0 | .raise _ => 1 | .ub => 2

/-- **Limits.**  A number of products that `int` cannot hold is undefined, although the parameter of the library is a 64-bit
integer. -/
theorem C66_limit_violated : C66_outcome { C66_call with opts := { C66_call.opts with rest := [("maxit", .num 1 1 [10000000000])] } } = 2 ∧
    (Svds.ctype .maxMatvecs).holds 10000000000 := by
  refine ⟨by decide +kernel, ⟨by decide, by decide⟩⟩

end Verif.Props
