import Verif.Proofs.MatEigs
import Verif.Props.C07_DefaultsAccepted
import Mathlib.Algebra.Field.Rat
import Mathlib.Algebra.Order.Ring.Rat
import Mathlib.Data.Rat.Floor
import Mathlib.Tactic.NormNum

set_option linter.unusedSectionVars false
set_option linter.unusedVariables false

/-!
# C65: the MATLAB function `primme_eigs` asks the library for what its arguments say

The theorems are about `prepareM`, the state in which `primme_eigs` calls the library, and `finishM`, what it makes of the
answer.  The names and their meaning are those of the help text of `primme_eigs` (`Verif.Mat.Doc`) and of the manual
(`Py.Doc.eigsMembers`).
-/

namespace Verif.Props
open Verif.Members Verif.Py Verif.Mat

variable {K V : Type} [Field K] [LinearOrder K] [IsStrictOrderedRing K] [FloorRing K]
variable {D : MAddrs} {zero : V} {start : Eigs.EP K} {a : EigsArgs K V} {c : MCall K V}

theorem round_nat (k : Nat) : round ((k : Nat) : K) = (k : Int) := by
  have : round (((k : Int) : K)) = (k : Int) := round_intCast (k : Int)
  simpa using this

theorem handle_addr {b : MOp} {x : Nat} (h : opAddr b = some x) : Mat.Doc.Handle b x := by
  cases b with
  | mat m y => simp only [opAddr, Option.some.injEq] at h; subst h; exact .mat m y
  | fn y => simp only [opAddr, Option.some.injEq] at h; subst h; exact .fn y
  | other => simp [opAddr] at h

/-- **The problem.**  When the library is called the structure holds the dimension, the number of values, the operators,
the constraints, the guesses and the preconditioner the arguments say, whatever the options and the method, unless the user
gives those parameters among the options. -/
theorem C65_problem {N : Nat} (h : prepareM D zero start a = .ok c) (ha : Mat.Doc.Ordinary a) (hN : Mat.Doc.Dim a N)
    (own : ∀ nm ∈ Mat.Doc.problem, nm ∉ a.opts.rest.map Prod.fst) :
    c.params.i .n = N ∧ (N : Int) < 2 ^ 31 ∧ (∀ m x, a.A = .mat m x → m.cols = N) ∧
    (∀ k : Nat, a.count = some (.num 1 1 [(k : K)]) → c.params.i .numEvals = k) ∧
    (a.count = none → c.params.i .numEvals = min 6 N) ∧
    (∃ x, Mat.Doc.Handle a.A x ∧ c.params.p .matrix = x) ∧
    (∀ b, a.B = some b → ∃ x, Mat.Doc.Handle b x ∧ c.params.p .massMatrix = x) ∧
    (a.B = none → c.params.p .massMatrix = start.p .massMatrix) ∧
    (∀ m x, a.B = some (.mat m x) → m.rows = m.cols ∧ ∀ mA y, a.A = .mat mA y → m.rows = N) ∧
    (∀ v, a.opts.orthoConst = some v → v.arr.rows = N ∧ c.params.i .numOrthoConst = v.arr.cols) ∧
    (a.opts.orthoConst = none → c.params.i .numOrthoConst = start.i .numOrthoConst) ∧
    (∀ v, a.opts.v0 = some v → v.arr.rows = N ∧ c.params.i .initSize = v.arr.cols) ∧
    (a.opts.v0 = none → c.params.i .initSize = start.i .initSize) ∧
    (a.P1 ≠ none → c.params.p .preconditioner = D.objPrec) ∧
    (a.P1 = none → c.params.p .preconditioner = start.p .preconditioner) := by
  obtain ⟨o, b, n, s, u, made, hs, he, hsh, ⟨mv, hmv, hpub, hset⟩, hout, hmon⟩ := call_holds h ha
  have en := enter_ok he
  have none_of : ∀ nm ∈ Mat.Doc.problem, a.opts.rest.get nm = none := fun nm hn => rest_none (own nm hn)
  have ints : ∀ nm f, (nm, .i f) ∈ Py.Doc.eigsMembers → f ≠ .numTargetShifts → f ∉ Eigs.Doc.methodParameters →
      nm ≠ "correction_precondition" →
      (∀ k : Int, o.get nm = some (.one (k : K)) → (Eigs.ctype f).holds k → c.params.i f = k) ∧
      (o.get nm = none → c.params.i f = start.i f) := by
    intro nm f hm hc hpar hp
    have hal : (.i f : Member Eigs.IF Eigs.DF Eigs.PF) ∉ aliased (eigsKind D.heap D.device D.text) := by
      simp [aliased, eigsKind, hc]
    obtain ⟨g1, g2⟩ := seen_member made hs hm hal (.inl hp)
    have e1 := en.1 (.i f) (by simp [Mat.entered])
    have e2 := hout (.i f) (by simp) hpar
    simp only [reads, Val.int.injEq] at e1 e2 g2
    refine ⟨fun k hk hf => ?_, fun hk => by rw [e1, e2, g2 hk]⟩
    obtain ⟨z, w, hz, hw⟩ := g1 _ hk
    have := setMemberM_means (eigs_kind _ _ _) hm hz (y := .int k) (Mat.Doc.Means.whole f k) hf
    rw [← hw] at this
    simp only [reads, Val.int.injEq] at this
    rw [e1, e2, this]
  -- a value that was set is in the range of `int`
  have range : ∀ nm f, (nm, .i f) ∈ Py.Doc.eigsMembers → f ≠ .numTargetShifts → nm ≠ "correction_precondition" →
      ∀ k : Nat, o.get nm = some (.one ((k : Int) : K)) → (k : Int) < 2 ^ 31 := by
    intro nm f hm hc hp k hk
    have hal : (.i f : Member Eigs.IF Eigs.DF Eigs.PF) ∉ aliased (eigsKind D.heap D.device D.text) := by
      simp [aliased, eigsKind, hc]
    obtain ⟨z, w, hz, -⟩ := (seen_member made hs hm hal (.inl hp)).1 _ hk
    obtain ⟨l, m', hl, hm', hx⟩ := setMemberM_ok (eigs_kind _ _ _) hz
    have := member_unique eigs_good hm hm'
    subst this
    rcases hx with ⟨hx, -⟩ | ⟨hx, -⟩ | ⟨-, -, f', x, -, hx, -⟩ | ⟨-, -, -, hx, -⟩ | ⟨-, -, -, -, -, -, -, hx⟩
    · simp at hx
    · simp at hx
    · simp [MVal.one] at hx
    · have := (eigs_kind D.heap D.device D.text).comm nm (.i f) (hx ▸ hl) hm
      simp at this
    · rcases hx with ⟨x, -, hx, -⟩ | ⟨x, hx, -⟩ | ⟨x, hx, -⟩
      · simp only [MVal.one, asInt, firstInt] at hx
        split at hx
        · rename_i hr
          have := hr.2
          exact_mod_cast this
        · simp at hx
      · simp [Py.Doc.eigsType] at hx
      · simp [Py.Doc.eigsType] at hx
  have based : ∀ nm, nm ∈ baseNames → nm ∈ Mat.Doc.problem → o.get nm = b.get nm := by
    intro nm h1 h2
    rw [made.bases nm h1, none_of nm h2]; rfl
  have hdim : o.get "n" = some (.one ((N : Int) : K)) := by
    rw [based "n" (by decide) (by decide)]
    rcases hN with ⟨⟨m, x, hA, rfl⟩, hB⟩ | ⟨hf, hd⟩
    · obtain ⟨m', x', hA', h'⟩ := made.based.dimMat (by
        unfold hasFn
        rw [hA]
        cases hb : a.B with
        | none => rfl
        | some y => cases y with
          | fn z => exact absurd trivial (hB _ hb)
          | mat _ _ => rfl
          | other => rfl)
      rw [hA] at hA'
      simp only [MOp.mat.injEq] at hA'
      rw [h', ← hA'.1]
      push_cast; rfl
    · obtain ⟨v, w, h1, h2, h3⟩ := made.based.dimFn (by
        unfold hasFn
        rcases hf with hf | ⟨y, hy, hf⟩
        · cases hA : a.A with
          | fn z => rfl
          | mat _ _ => rw [hA] at hf; exact absurd hf (by simp [Mat.Doc.Function])
          | other => rw [hA] at hf; exact absurd hf (by simp [Mat.Doc.Function])
        · cases y with
          | fn z => rw [hy]; simp
          | mat _ _ => exact absurd hf (by simp [Mat.Doc.Function])
          | other => exact absurd hf (by simp [Mat.Doc.Function]))
      rw [hd] at h1
      simp only [Option.some.injEq] at h1
      subst h1
      unfold roundArg at h2
      simp only at h2
      split at h2
      · simp at h2
      · simp only [Res.ok.injEq] at h2
        rw [h3, ← h2, round_nat]
  have hn : n = N := by
    have := made.dim
    unfold dimOf at this
    rw [hdim] at this
    simp only [Option.bind_some, MVal.one, scalar, asNat, Int.floor_intCast, and_true] at this
    rw [if_pos (by exact_mod_cast Nat.zero_le N)] at this
    simpa using this.symm
  have hNr : (N : Int) < 2 ^ 31 := range "n" .n (by decide +kernel) (by decide) (by decide) N hdim
  have hcols : ∀ m x, a.A = .mat m x → m.cols = N := by
    intro m x hA
    have := made.tested
    unfold testOperators at this
    rw [hA] at this
    simp only [Bool.and_eq_true, decide_eq_true_eq] at this
    rw [this.1, hn]
  have hptr : ∀ f : Eigs.PF, (.p f : Member Eigs.IF Eigs.DF Eigs.PF) ∉ Mat.entered → f ≠ .monitor →
      c.params.p f = s.params.p f := by
    intro f h1 h2
    have e1 := en.1 (.p f) h1
    have e2 := hout (.p f) (by simpa using h2) trivial
    simp only [reads, Val.ptr.injEq] at e1 e2
    rw [e1, e2]
  refine ⟨?_, hNr, hcols, ?_, ?_, ?_, ?_, ?_, ?_, ?_, ?_, ?_, ?_, ?_, ?_⟩
  · exact (ints "n" .n (by decide +kernel) (by decide) (by decide) (by decide)).1 N hdim ⟨by omega, by omega⟩
  · intro k hk
    obtain ⟨w, h1, h2⟩ := made.based.count _ hk
    have hw : w = .one ((k : Int) : K) := by
      unfold roundArg at h1
      simp only at h1
      split at h1
      · simp at h1
      · simp only [Res.ok.injEq] at h1
        rw [← h1, round_nat]
    rw [hw, ← based "numEvals" (by decide) (by decide)] at h2
    have := range "numEvals" .numEvals (by decide +kernel) (by decide) (by decide) k h2
    exact (ints "numEvals" .numEvals (by decide +kernel) (by decide) (by decide) (by decide)).1 k h2
      ⟨by omega, by omega⟩
  · intro hk
    obtain ⟨x, h1, h2⟩ := made.based.countNone hk
    rw [← based "n" (by decide) (by decide), hdim] at h1
    simp only [Option.bind_some, MVal.one, scalar, Option.some.injEq] at h1
    rw [← based "numEvals" (by decide) (by decide), ← h1] at h2
    have h3 : o.get "numEvals" = some (.one ((((min 6 N : Nat) : Int)) : K)) := by
      rw [h2]; push_cast; rfl
    exact (ints "numEvals" .numEvals (by decide +kernel) (by decide) (by decide) (by decide)).1 _ h3
      ⟨by omega, by omega⟩
  · obtain ⟨x, h1, h2⟩ := made.based.mat
    rw [← based "matrixMatvec" (by decide) (by decide)] at h2
    obtain ⟨y, h3, h4⟩ := (seen_handle made hs (nm := "matrixMatvec") (l := 2) (f := .matrix) (by decide)).1 _ h2
    simp only [MVal.fn.injEq] at h3
    subst h3
    exact ⟨x, handle_addr h1, by rw [hptr _ (by decide) (by decide), h4]⟩
  · intro y hy
    have h1 := made.based.mass
    have h2 := made.based.massOk y hy
    obtain ⟨x, hx⟩ := Option.isSome_iff_exists.1 h2
    rw [hy, ← based "massMatrixMatvec" (by decide) (by decide)] at h1
    simp only [Option.bind_some, hx, Option.map_some] at h1
    obtain ⟨z, h3, h4⟩ := (seen_handle made hs (nm := "massMatrixMatvec") (l := 6) (f := .massMatrix) (by decide)).1 _ h1
    simp only [MVal.fn.injEq] at h3
    subst h3
    exact ⟨x, handle_addr hx, by rw [hptr _ (by decide) (by decide), h4]⟩
  · intro hy
    have h1 := made.based.mass
    rw [hy, ← based "massMatrixMatvec" (by decide) (by decide)] at h1
    rw [hptr _ (by decide) (by decide)]
    exact (seen_handle made hs (nm := "massMatrixMatvec") (l := 6) (f := .massMatrix) (by decide)).2 h1
  · intro m x hB
    obtain ⟨h1, h2, h3⟩ := made.based.massMat m x hB
    exact ⟨h1, fun mA y hA => by rw [h3 mA y hA]; exact hcols mA y hA⟩
  · intro v hv
    have h1 := made.ortho
    rw [hv] at h1
    have h1 : o.get "numOrthoConst" = some (.one ((v.arr.cols : Int) : K)) := by rw [h1]; simp [widthField]
    have := range "numOrthoConst" .numOrthoConst (by decide +kernel) (by decide) (by decide) _ h1
    refine ⟨by rw [made.orthoRows v hv, hn], ?_⟩
    exact (ints "numOrthoConst" .numOrthoConst (by decide +kernel) (by decide) (by decide) (by decide)).1 _ h1
      ⟨by omega, by omega⟩
  · intro hv
    have h1 := made.ortho
    rw [hv, none_of _ (by decide)] at h1
    exact (ints "numOrthoConst" .numOrthoConst (by decide +kernel) (by decide) (by decide) (by decide)).2 h1
  · intro v hv
    have h1 := made.init
    rw [hv] at h1
    have h1 : o.get "initSize" = some (.one ((v.arr.cols : Int) : K)) := by rw [h1]; simp [widthField]
    have := range "initSize" .initSize (by decide +kernel) (by decide) (by decide) _ h1
    refine ⟨by rw [made.initRows v hv, hn], ?_⟩
    exact (ints "initSize" .initSize (by decide +kernel) (by decide) (by decide) (by decide)).1 _ h1
      ⟨by omega, by omega⟩
  · intro hv
    have h1 := made.init
    rw [hv, none_of _ (by decide)] at h1
    exact (ints "initSize" .initSize (by decide +kernel) (by decide) (by decide) (by decide)).2 h1
  · intro hp
    have hp' : hasPrec a = true := by
      unfold hasPrec
      cases hq : a.P1 with
      | none => exact absurd hq hp
      | some _ => rfl
    obtain ⟨z, h3, h4⟩ := (seen_handle made hs (nm := "applyPreconditioner") (l := 4) (f := .preconditioner)
      (by decide)).1 _ (made.prec hp').2
    simp only [MVal.fn.injEq] at h3
    subst h3
    rw [hptr _ (by decide) (by decide), h4]
  · intro hp
    have h1 := made.noPrec (by simp [hasPrec, hp])
    rw [none_of _ (by decide)] at h1
    rw [hptr _ (by decide) (by decide)]
    exact (seen_handle made hs (nm := "applyPreconditioner") (l := 4) (f := .preconditioner) (by decide)).2 h1

/-- What the members hold before the method is applied: the options, and the initial values of what is not mentioned. -/
theorem options_hold {h : Nat} {o b : Fields (MVal K)} {n : Nat} {s : ES K} (made : Made h a o b n)
    (hs : setAllM (eigsKind D.heap D.device D.text) (settings o) ⟨start, []⟩ = .ok s) :
    (∀ nm x v y, (nm, x) ∈ Mat.Doc.options → a.opts.rest.get nm = some v → Mat.Doc.Means Eigs.constTable x v y →
      fits Eigs.ctype x y → reads s.params x = y) ∧
    (∀ nm x v y, (nm, x) ∈ Py.Doc.eigsMembers → nm ∉ Mat.Doc.problem → nm ∉ Mat.Doc.kept →
      (∀ short, (short, x) ∈ Mat.Doc.options ++ Mat.Doc.moreOptions → short ≠ nm → short ∉ a.opts.rest.map Prod.fst) →
      a.opts.rest.get nm = some v → Mat.Doc.Means Eigs.constTable x v y → fits Eigs.ctype x y → reads s.params x = y) ∧
    (∀ nm x, (nm, x) ∈ Py.Doc.eigsMembers → nm ∉ Mat.Doc.problem → nm ∉ Mat.Doc.kept → nm ≠ "eps" →
      (∀ short, (short, x) ∈ Mat.Doc.options ++ Mat.Doc.moreOptions → short ∉ a.opts.rest.map Prod.fst) →
      nm ∉ a.opts.rest.map Prod.fst → reads s.params x = reads start x) := by
  have al : ∀ m : Member Eigs.IF Eigs.DF Eigs.PF, m ∈ aliased (eigsKind D.heap D.device D.text) ↔
      m ∈ aliased (eigsKind 0 0 0) := fun m => Iff.rfl
  have fin : ∀ nm x v y, (nm, x) ∈ Py.Doc.eigsMembers → x ∉ aliased (eigsKind 0 0 0) → nm ≠ "correction_precondition" →
      o.get nm = some v → Mat.Doc.Means Eigs.constTable x v y → fits Eigs.ctype x y → reads s.params x = y := by
    intro nm x v y hm hal hp hv hmean hy
    obtain ⟨z, w, hz, hw⟩ := (seen_member made hs hm (fun hq => hal ((al x).1 hq)) (.inl hp)).1 _ hv
    rw [hw]
    exact setMemberM_means (eigs_kind _ _ _) hm hz hmean hy
  refine ⟨?_, ?_, ?_⟩
  · have tab : ∀ e ∈ Mat.Doc.options, e.2 ∉ aliased (eigsKind 0 0 0) ∧
        ((e.1 ∉ renames.map Prod.fst ∧ e.1 ∉ renames.map Prod.snd ∧ e ∈ Py.Doc.eigsMembers ∧ e.1 ∉ problemNames ∧
          e.1 ≠ "correction_precondition") ∨
        (∃ q ∈ renames, q.1 = e.1 ∧ q.2 ∉ renames.map Prod.fst ∧ (q.2, e.2) ∈ Py.Doc.eigsMembers ∧
          (q.2 ∈ problemNames → q.2 = "eps") ∧ q.2 ≠ "correction_precondition" ∧
          renames.find? (fun c => c.2 = q.2) = some q)) := by decide +kernel
    intro nm x v y hm hv hmean hy
    obtain ⟨t0, ⟨t1, t2, t3, t4, t5⟩ | ⟨q, -, t1, t2, t3, t4, t5, t6⟩⟩ := tab _ hm
    · refine fin nm x v y t3 t0 t5 ?_ hmean hy
      rw [made.others nm t4]
      unfold given
      rw [renamed_plain t1 t2, hv]
    · simp only at t1
      have hg : given a q.2 = some v := by
        unfold given renamed
        rw [if_neg t2, t6]
        simp only [t1, hv, Option.some_or]
      refine fin q.2 x v y t3 t0 t5 ?_ hmean hy
      by_cases hq : q.2 ∈ problemNames
      · have := t4 hq
        rw [this] at hg ⊢
        rw [made.eps, hg]; rfl
      · rw [made.others _ hq, hg]
  · have tab : ∀ e ∈ Py.Doc.eigsMembers, e.1 ∉ Mat.Doc.problem → e.1 ∉ Mat.Doc.kept → e.2 ∉ aliased (eigsKind 0 0 0) ∧
        e.1 ∉ renames.map Prod.fst ∧ (e.1 ∈ problemNames → e.1 = "eps") ∧ e.1 ≠ "correction_precondition" ∧
        ∀ q ∈ renames, q.2 = e.1 → (q.1, e.2) ∈ Mat.Doc.options ++ Mat.Doc.moreOptions ∧ q.1 ≠ e.1 := by decide +kernel
    intro nm x v y hm h1 h2 hshort hv hmean hy
    obtain ⟨t0, t1, t2, t3, t4⟩ := tab _ hm h1 h2
    have hg : given a nm = some v := by
      unfold given renamed
      rw [if_neg t1]
      split
      · rename_i q hq
        have q1 := List.mem_of_find?_eq_some hq
        have q2 : q.2 = nm := by simpa using List.find?_some hq
        obtain ⟨r1, r2⟩ := t4 q q1 q2
        rw [rest_none (hshort _ r1 r2), hv]; rfl
      · exact hv
    refine fin nm x v y hm t0 t3 ?_ hmean hy
    by_cases hq : nm ∈ problemNames
    · have := t2 hq
      simp only at this
      rw [this] at hg ⊢
      rw [made.eps, hg]; rfl
    · rw [made.others _ hq, hg]
  · have tab : ∀ e ∈ Py.Doc.eigsMembers, e.1 ∉ Mat.Doc.problem → e.1 ∉ Mat.Doc.kept → e.2 ∉ aliased (eigsKind 0 0 0) ∧
        e.1 ∉ renames.map Prod.fst ∧ (e.1 ∈ problemNames → e.1 = "eps") ∧ e.1 ≠ "correction_precondition" ∧
        ∀ q ∈ renames, q.2 = e.1 → (q.1, e.2) ∈ Mat.Doc.options ++ Mat.Doc.moreOptions := by decide +kernel
    intro nm x hm h1 h2 heps hshort hn
    obtain ⟨t0, t1, t2, t3, t4⟩ := tab _ hm h1 h2
    refine (seen_member made hs hm (fun hq => t0 ((al x).1 hq)) (.inl t3)).2 ?_
    rw [made.others _ (fun hq => heps (t2 hq))]
    exact given_none hn fun q hq hq2 => hshort _ (t4 q hq hq2)

/-- **Options.**  The value of each option of the help text is that of the parameter of the manual it names, unless the
method decides that parameter (see `C65_method`). -/
theorem C65_options (h : prepareM D zero start a = .ok c) (ha : Mat.Doc.Ordinary a) {nm : String}
    {x : Member Eigs.IF Eigs.DF Eigs.PF} {v : MVal K} {y : Val K} (hm : (nm, x) ∈ Mat.Doc.options)
    (hv : a.opts.rest.get nm = some v) (hmean : Mat.Doc.Means Eigs.constTable x v y) (hy : fits Eigs.ctype x y)
    (hout : OutOfMethod x) : reads c.params x = y := by
  obtain ⟨o, b, n, s, u, made, hs, he, hsh, -, hkeep, hmon⟩ := call_holds h ha
  have ne : x ∉ Mat.entered ∧ x ≠ .p .monitor := by
    cases hmean <;> exact ⟨by simp [Mat.entered], by simp⟩
  rw [(enter_ok he).1 x ne.1, hkeep x ne.2 hout]
  exact (options_hold made hs).1 nm x v y hm hv hmean hy

/-- **Parameters of the manual.**  The same for an option with the name of a parameter of the manual, when its short name is
not used too. -/
theorem C65_parameters (h : prepareM D zero start a = .ok c) (ha : Mat.Doc.Ordinary a) {nm : String}
    {x : Member Eigs.IF Eigs.DF Eigs.PF} {v : MVal K} {y : Val K} (hm : (nm, x) ∈ Py.Doc.eigsMembers)
    (h1 : nm ∉ Mat.Doc.problem) (h2 : nm ∉ Mat.Doc.kept)
    (hshort : ∀ short, (short, x) ∈ Mat.Doc.options ++ Mat.Doc.moreOptions → short ≠ nm →
      short ∉ a.opts.rest.map Prod.fst)
    (hv : a.opts.rest.get nm = some v) (hmean : Mat.Doc.Means Eigs.constTable x v y) (hy : fits Eigs.ctype x y)
    (hout : OutOfMethod x) : reads c.params x = y := by
  obtain ⟨o, b, n, s, u, made, hs, he, hsh, -, hkeep, hmon⟩ := call_holds h ha
  have ne : x ∉ Mat.entered ∧ x ≠ .p .monitor := by
    cases hmean <;> exact ⟨by simp [Mat.entered], by simp⟩
  rw [(enter_ok he).1 x ne.1, hkeep x ne.2 hout]
  exact (options_hold made hs).2.1 nm x v y hm h1 h2 hshort hv hmean hy

/-- **Nothing else.**  A parameter that is not mentioned keeps the value `primme_initialize` gave it, unless the method
decides it. -/
theorem C65_nothing_else (h : prepareM D zero start a = .ok c) (ha : Mat.Doc.Ordinary a) {nm : String}
    {x : Member Eigs.IF Eigs.DF Eigs.PF} (hm : (nm, x) ∈ Py.Doc.eigsMembers)
    (h1 : nm ∉ Mat.Doc.problem) (h2 : nm ∉ Mat.Doc.kept) (heps : nm ≠ "eps")
    (hshort : ∀ short, (short, x) ∈ Mat.Doc.options ++ Mat.Doc.moreOptions → short ∉ a.opts.rest.map Prod.fst)
    (hn : nm ∉ a.opts.rest.map Prod.fst) (hout : OutOfMethod x) : reads c.params x = reads start x := by
  obtain ⟨o, b, n, s, u, made, hs, he, hsh, -, hkeep, hmon⟩ := call_holds h ha
  have tab : ∀ e ∈ Py.Doc.eigsMembers, e.1 ∉ Mat.Doc.problem → e.1 ∉ Mat.Doc.kept → e.2 ∉ Mat.entered ∧
      e.2 ≠ .p .monitor := by decide +kernel
  obtain ⟨n1, n2⟩ := tab _ hm h1 h2
  rw [(enter_ok he).1 x n1, hkeep x n2 hout]
  exact (options_hold made hs).2.2 nm x hm h1 h2 heps hshort hn

/-- **Method.**  The method named, or the default one, is applied by the library itself after the options: the structure is
the one of the options (`s`, in which they hold) with the preset applied, and then the callbacks.  With a preconditioner,
its use is asked for before the preset. -/
theorem C65_method (h : prepareM D zero start a = .ok c) (ha : Mat.Doc.Ordinary a) :
    ∃ (v : Int) (s : Eigs.EP K), (a.method = none → v = 0) ∧
      (∀ name, a.method = some (.str name) → constantInfo Eigs.constTable ("PRIMME_" ++ name) = .ok v) ∧
      Eigs.Doc.Published v ∧
      (∀ x, x ∉ Mat.entered → x ≠ .p .monitor → reads c.params x = reads (Eigs.setMethod v s).2 x) ∧
      (∀ nm x w y, (nm, x) ∈ Mat.Doc.options → a.opts.rest.get nm = some w → Mat.Doc.Means Eigs.constTable x w y →
        fits Eigs.ctype x y → reads s x = y) ∧
      (∀ nm x, (nm, x) ∈ Py.Doc.eigsMembers → nm ∉ Mat.Doc.problem → nm ∉ Mat.Doc.kept → nm ≠ "eps" →
        (∀ short, (short, x) ∈ Mat.Doc.options ++ Mat.Doc.moreOptions → short ∉ a.opts.rest.map Prod.fst) →
        nm ∉ a.opts.rest.map Prod.fst → reads s x = reads start x) ∧
      ("correction_precondition" ∉ a.opts.rest.map Prod.fst → "precondition" ∉ a.opts.rest.map Prod.fst →
        s.i .correctionParams_precondition = if a.P1 = none then start.i .correctionParams_precondition else 1) := by
  obtain ⟨o, b, n, s, u, made, hs, he, hsh, ⟨v, hv, hpub, hset⟩, hkeep, hmon⟩ := call_holds h ha
  refine ⟨v, s.params, ?_, ?_, hpub, ?_, (options_hold made hs).1, (options_hold made hs).2.2, ?_⟩
  · intro hm
    rw [hm] at hv
    have : constantInfo Eigs.constTable "PRIMME_DEFAULT_METHOD" = .ok 0 := by decide +kernel
    simp only [methodArg, Mat.asInt, this, Res.ok.injEq] at hv
    exact hv.symm
  · intro name hm
    rw [hm] at hv
    simp only [methodArg, Mat.asInt] at hv
    split at hv
    · rename_i w hw
      simp only [Res.ok.injEq] at hv
      rw [hw, hv]
    · simp at hv
  · intro x h1 h2
    rw [(enter_ok he).1 x h1, hset x h2]
  · intro n1 n2
    have hnone : o.get "correction_precondition" = none := by
      rw [made.others _ (by decide)]
      refine given_none n1 ?_
      have : ∀ q ∈ renames, q.2 = "correction_precondition" → q.1 = "precondition" := by decide
      intro q hq hq2
      rw [this q hq hq2]
      exact n2
    by_cases hp : a.P1 = none
    · rw [if_pos hp]
      have := (seen_member made hs (nm := "correction_precondition") (m := .i .correctionParams_precondition)
        (by decide +kernel) (by simp [aliased, eigsKind]) (.inr (by simp [hasPrec, hp]))).2 hnone
      simpa only [reads, Val.int.injEq] using this
    · rw [if_neg hp]
      refine seen_prec made hs ?_ hnone
      unfold hasPrec
      cases hq : a.P1 with
      | none => exact absurd hq hp
      | some _ => rfl

/-- **Tolerance.**  When no tolerance is given it is `eps*1e4`, with the `eps` of the arithmetic of the problem (that of
double precision also for a sparse matrix used in single precision). -/
theorem C65_tolerance (h : prepareM D zero start a = .ok c) (ha : Mat.Doc.Ordinary a)
    (h1 : "tol" ∉ a.opts.rest.map Prod.fst) (h2 : "eps" ∉ a.opts.rest.map Prod.fst) :
    c.params.d .eps = if isDoubleProblem a = true ∨ sparseSingle a = true then 10 ^ 4 / 2 ^ 52 else 10 ^ 4 / 2 ^ 23 := by
  obtain ⟨o, b, n, s, u, made, hs, he, hsh, -, hkeep, hmon⟩ := call_holds h ha
  have hg : given a "eps" = none := by
    refine given_none h2 ?_
    have : ∀ q ∈ renames, q.2 = "eps" → q.1 = "tol" := by decide
    intro q hq hq2
    rw [this q hq hq2]
    exact h1
  have heps := made.eps
  rw [hg] at heps
  obtain ⟨z, w, hz, hw⟩ := (seen_member made hs (nm := "eps") (m := .d .eps) (by decide +kernel)
    (by simp [aliased, eigsKind]) (.inl (by decide))).1 _ heps
  have h3 := setMemberM_means (eigs_kind _ _ _) (by decide +kernel) hz (y := .dbl (defaultTol a))
    (Mat.Doc.Means.real .eps (defaultTol a)) trivial
  rw [← hw, ← hkeep (.d .eps) (by simp) (by unfold OutOfMethod; decide), ← (enter_ok he).1 (.d .eps) (by decide)] at h3
  simp only [reads, Val.dbl.injEq] at h3
  rw [h3]
  unfold defaultTol
  split <;> norm_num

/-- **Which eigenvalues.**  The library is given the target of the help text and exactly the points of `OPTS.targetShifts`;
without them, the default, "LM" and "SM" use the point 0, and a number is the point itself. -/
theorem C65_which (h : prepareM D zero start a = .ok c) (ha : Mat.Doc.Ordinary a)
    (hn : "target" ∉ a.opts.rest.map Prod.fst) :
    (∀ w, a.target = some (.str w) → ∃ t rel, (w, t, rel) ∈ Mat.Doc.targets ∧ c.params.i .target = t) ∧
    (a.target = none → c.params.i .target = 5) ∧
    (∀ r k l, a.target = some (.num r k l) → c.params.i .target = 4) ∧
    (∀ r k l, a.opts.rest.get "targetShifts" = some (.num r k l) → c.shifts = l ∧
      c.params.i .numTargetShifts = (l.length : Int) ∧ c.params.p .targetShifts = D.heap) ∧
    ("targetShifts" ∉ a.opts.rest.map Prod.fst →
      ((a.target = none ∨ a.target = some (.str "LM") ∨ a.target = some (.str "SM")) → c.shifts = [0] ∧
        c.params.i .numTargetShifts = 1 ∧ c.params.p .targetShifts = D.heap) ∧
      (∀ x, a.target = some (.num 1 1 [x]) → c.shifts = [x] ∧ c.params.i .numTargetShifts = 1 ∧
        c.params.p .targetShifts = D.heap) ∧
      (∀ w, a.target = some (.str w) → w ≠ "LM" → w ≠ "SM" → c.shifts = [] ∧
        c.params.i .numTargetShifts = start.i .numTargetShifts ∧ c.params.p .targetShifts = start.p .targetShifts)) := by
  obtain ⟨o, b, n, s, u, made, hs, he, hsh, -, hkeep, hmon⟩ := call_holds h ha
  have en := enter_ok he
  have hcs : c.shifts = s.shifts := by rw [en.2.2.2.2.2.2.2.2.1, hsh]
  have hnum : c.params.i .numTargetShifts = s.params.i .numTargetShifts := by
    have h1 := en.1 (.i .numTargetShifts) (by decide)
    have h2 := hkeep (.i .numTargetShifts) (by simp) (by unfold OutOfMethod; decide)
    simp only [reads, Val.int.injEq] at h1 h2
    rw [h1, h2]
  have hptr : c.params.p .targetShifts = s.params.p .targetShifts := by
    have h1 := en.1 (.p .targetShifts) (by decide)
    have h2 := hkeep (.p .targetShifts) (by simp) trivial
    simp only [reads, Val.ptr.injEq] at h1 h2
    rw [h1, h2]
  obtain ⟨s1, s2⟩ := seen_shifts made hs
  have points : ∀ r k l, o.get "targetShifts" = some (.num r k l) → c.shifts = l ∧
      c.params.i .numTargetShifts = (l.length : Int) ∧ c.params.p .targetShifts = D.heap := by
    intro r k l hv
    obtain ⟨w, h1, h2, h3, h4⟩ := s1 _ hv
    unfold asShifts at h1
    simp only at h1
    split at h1
    · simp only [Res.ok.injEq] at h1
      subst h1
      exact ⟨by rw [hcs, h2], by rw [hnum, h3], by rw [hptr, h4]⟩
    · simp at h1
  obtain ⟨t, t1, t2, t3, t4⟩ := made.based.target
  have ht : o.get "target" = some (.str t) := by
    rw [made.bases _ (by decide), rest_none hn, t1]; rfl
  obtain ⟨z, w, hz, hw⟩ := (seen_member made hs (nm := "target") (m := .i .target) (by decide +kernel)
    (by simp [aliased, eigsKind]) (.inl (by decide))).1 _ ht
  have htgt : ∀ k : Int, constantInfo Eigs.constTable t = .ok k → 0 ≤ k ∧ k < 2 ^ 32 → c.params.i .target = k := by
    intro k hk hr
    have hr' : fits Eigs.ctype (Member.i Eigs.IF.target : Member Eigs.IF Eigs.DF Eigs.PF) (Val.int k : Val K) := hr
    have h0 := setMemberM_means (eigs_kind _ _ _) (by decide +kernel) hz (y := .int k)
      (Mat.Doc.Means.name .target t k hk) hr'
    rw [← hw, ← hkeep (.i .target) (by simp) (by unfold OutOfMethod; decide), ← en.1 (.i .target) (by decide)] at h0
    simpa only [reads, Val.int.injEq] using h0
  have constants : constantInfo Eigs.constTable "primme_largest_abs" = .ok 5 ∧
      constantInfo Eigs.constTable "primme_largest" = .ok 1 ∧ constantInfo Eigs.constTable "primme_smallest" = .ok 0 ∧
      constantInfo Eigs.constTable "primme_closest_abs" = .ok 4 ∧
      constantInfo Eigs.constTable "primme_closest_leq" = .ok 3 ∧
      constantInfo Eigs.constTable "primme_closest_geq" = .ok 2 := by decide +kernel
  obtain ⟨c1, c2, c3, c4, c5, c6⟩ := constants
  obtain ⟨p1, p2, p3⟩ := made.based.points
  refine ⟨?_, ?_, ?_, ?_, ?_⟩
  · intro w hw
    have hmem := t3 w hw
    simp only [targetNames, List.mem_cons, Prod.mk.injEq, List.not_mem_nil, or_false] at hmem
    rcases hmem with ⟨rfl, rfl⟩ | ⟨rfl, rfl⟩ | ⟨rfl, rfl⟩ | ⟨rfl, rfl⟩ | ⟨rfl, rfl⟩ | ⟨rfl, rfl⟩
    · exact ⟨1, false, by decide, htgt 1 c2 (by omega)⟩
    · exact ⟨5, true, by decide, htgt 5 c1 (by omega)⟩
    · exact ⟨0, false, by decide, htgt 0 c3 (by omega)⟩
    · exact ⟨2, true, by decide, htgt 2 c6 (by omega)⟩
    · exact ⟨3, true, by decide, htgt 3 c5 (by omega)⟩
    · exact ⟨4, true, by decide, htgt 4 c4 (by omega)⟩
  · intro hx
    rw [t2 hx] at htgt
    exact htgt 5 c1 (by omega)
  · intro r k l hx
    rw [t4 _ hx rfl] at htgt
    exact htgt 4 c4 (by omega)
  · intro r k l hx
    exact points r k l (by rw [made.bases _ (by decide), hx]; rfl)
  · intro hno
    have hb : o.get "targetShifts" = b.get "targetShifts" := by
      rw [made.bases _ (by decide), rest_none hno]; rfl
    refine ⟨?_, ?_, ?_⟩
    · rintro (hx | hx | hx)
      · simpa using points 1 1 [0] (by rw [hb, p1 hx]; rfl)
      · simpa using points 1 1 [0] (by rw [hb, p2 _ hx]; rfl)
      · simpa using points 1 1 [0] (by rw [hb, p2 _ hx]; rfl)
    · intro x hx
      simpa using points 1 1 [x] (by rw [hb, p3 _ hx rfl])
    · intro w hx w1 w2
      obtain ⟨q1, q2, q3⟩ := s2 (by rw [hb, p2 _ hx, if_neg (by simp [w1, w2])])
      exact ⟨by rw [hcs, q1], by rw [hnum, q2], by rw [hptr, q3]⟩

/-- The pointers to the compiled functions are not options. -/
theorem C65_ptr_kept {h : Nat} {o b : Fields (MVal K)} {n : Nat} {s : ES K} (made : Made h a o b n)
    (hs : setAllM (eigsKind D.heap D.device D.text) (settings o) ⟨start, []⟩ = .ok s) (f : Eigs.PF)
    (hf : f ∈ [Eigs.PF.matrixMatvec, .massMatrixMatvec, .applyPreconditioner, .convTestFun, .monitorFun]) :
    s.params.p f = start.p f := by
  have tab : ∀ f ∈ [Eigs.PF.matrixMatvec, .massMatrixMatvec, .applyPreconditioner, .convTestFun, .monitorFun],
      (∀ e ∈ (eigsKind 0 0 0).handles, e.2 ≠ f) ∧ (Py.Doc.eigsType (.p f)).1 = .pointer ∧
      (eigsKind 0 0 0).commInfo ≠ f ∧ (eigsKind 0 0 0).array ≠ f := by decide +kernel
  obtain ⟨t1, t2, t3, t4⟩ := tab f hf
  have names : ∀ e ∈ Py.Doc.eigsMembers, e.1 ≠ "" := by decide +kernel
  have keep : ∀ (s t : ES K) nm v, nm ≠ "" → setMemberM (eigsKind D.heap D.device D.text) s nm v = .ok t →
      t.params.p f = s.params.p f := by
    intro s t nm v hn ht
    refine setMemberM_keeps_handle (eigs_kind D.heap D.device D.text) (nm' := "") (f := f) ?_ t2 t3 t4 hn ht
    intro nm l _ hl
    exact absurd rfl (t1 (l, f) hl)
  obtain ⟨g1, g2⟩ := seen made hs (fun s => s.params.p f) (nm := "") keep (by decide) (.inl (by decide))
  cases hg : o.get "" with
  | none => exact g2 hg
  | some v =>
    obtain ⟨u, w, hw, -⟩ := g1 v hg
    obtain ⟨l, m, -, hm, -⟩ := setMemberM_ok (eigs_kind _ _ _) hw
    exact absurd rfl (names _ hm)

/-- **Functions.**  The compiled functions given to the library are those for the operators of the user, in the arithmetic
of the solver (in double precision for the products with a sparse matrix used in single precision), and the handles of the
user's own functions are kept for them. -/
theorem C65_functions (h : prepareM D zero start a = .ok c) (ha : Mat.Doc.Ordinary a)
    (own : ∀ nm ∈ Mat.Doc.problem, nm ≠ "convTestFun" → nm ∉ a.opts.rest.map Prod.fst)
    (h0 : start.i .matrixMatvec_type = 0 ∧ start.i .massMatrixMatvec_type = 0 ∧ start.i .applyPreconditioner_type = 0) :
    c.params.p .matrixMatvec = D.matvec (if sparseSingle a then 3 else 0) ∧
    (∀ b x, a.B = some b → Mat.Doc.Handle b x → x ≠ 0 → c.params.p .massMatrixMatvec = D.mass 0) ∧
    (a.B = none → start.p .massMatrix = 0 → c.params.p .massMatrixMatvec = start.p .massMatrixMatvec) ∧
    (c.params.i .correctionParams_precondition ≠ 0 → c.params.p .applyPreconditioner = D.prec 0) ∧
    (c.params.i .correctionParams_precondition = 0 → c.params.p .applyPreconditioner = start.p .applyPreconditioner) ∧
    (∀ x, a.opts.rest.get "convTestFun" = some (.fn x) → x ≠ 0 →
      c.params.p .convTestFun = D.conv ∧ c.params.p .convtest = x) ∧
    (a.opts.report = true → D.objMonitor ≠ 0 → c.params.p .monitorFun = D.monitor ∧ c.params.p .monitor = D.objMonitor) := by
  obtain ⟨o, b, n, s, u, made, hs, he, hsh, -, hout, hmon⟩ := call_holds h ha
  have en := enter_ok he
  obtain ⟨e0, e1, e2, e3, e4, e5, -⟩ := en
  have uptr : ∀ f : Eigs.PF, f ≠ .monitor → u.params.p f = s.params.p f := by
    intro f h2
    have e2 := hout (.p f) (by simpa using h2) trivial
    simpa only [reads, Val.ptr.injEq] using e2
  have cptr : ∀ f : Eigs.PF, (.p f : Member Eigs.IF Eigs.DF Eigs.PF) ∉ Mat.entered → c.params.p f = u.params.p f := by
    intro f h1
    have e1 := e0 (.p f) h1
    simpa only [reads, Val.ptr.injEq] using e1
  have cint : ∀ f : Eigs.IF, c.params.i f = u.params.i f := by
    intro f
    have e1 := e0 (.i f) (by simp [Mat.entered])
    simpa only [reads, Val.int.injEq] using e1
  have kept : ∀ nm m, (nm, m) ∈ Py.Doc.eigsMembers → nm ≠ "correction_precondition" →
      m ∉ aliased (eigsKind 0 0 0) → o.get nm = none → reads s.params m = reads start m := by
    intro nm m hm h1 h2 h3
    exact (seen_member made hs hm h2 (.inl h1)).2 h3
  have rest : ∀ nm, nm ∈ Mat.Doc.problem → nm ≠ "convTestFun" → a.opts.rest.get nm = none :=
    fun nm h1 h2 => rest_none (own nm h1 h2)
  have plain : ∀ nm, nm ∉ problemNames → nm ∉ renames.map Prod.fst → nm ∉ renames.map Prod.snd →
      o.get nm = a.opts.rest.get nm := by
    intro nm h1 h2 h3
    rw [made.others _ h1]
    unfold given
    rw [renamed_plain h2 h3]
  have type0 : ∀ nm f, (nm, .i f) ∈ Py.Doc.eigsMembers → nm ≠ "correction_precondition" → f ≠ .numTargetShifts →
      f ∉ Eigs.Doc.methodParameters → o.get nm = none → u.params.i f = start.i f := by
    intro nm f hm h1 h2 h3 h4
    have q1 := kept nm (.i f) hm h1 (by simp [aliased, eigsKind, h2]) h4
    have q2 := hout (.i f) (by simp) h3
    simp only [reads, Val.int.injEq] at q1 q2
    rw [q2, q1]
  have handle : ∀ nm l f x, (nm, l, f) ∈ handleNames → o.get nm = some (.fn x) → s.params.p f = x := by
    intro nm l f x hh hv
    obtain ⟨y, h3, h4⟩ := (seen_handle made hs hh).1 _ hv
    simp only [MVal.fn.injEq] at h3
    rw [h4, h3]
  refine ⟨?_, ?_, ?_, ?_, ?_, ?_, ?_⟩
  · rw [e1]
    by_cases hss : sparseSingle a = true
    · have ht := made.type
      rw [if_pos hss] at ht
      obtain ⟨z, w, hz, hw⟩ := (seen_member made hs (nm := "matrixMatvec_type") (m := .i .matrixMatvec_type)
        (by decide +kernel) (by simp [aliased, eigsKind]) (.inl (by decide))).1 _ ht
      have hr : fits Eigs.ctype (Member.i Eigs.IF.matrixMatvec_type : Member Eigs.IF Eigs.DF Eigs.PF)
          (Val.int 3 : Val K) := by
        show (Eigs.ctype .matrixMatvec_type).holds 3
        exact ⟨by decide, by decide⟩
      have hcon : constantInfo Eigs.constTable "primme_op_double" = .ok 3 := by decide +kernel
      have q := setMemberM_means (eigs_kind _ _ _) (by decide +kernel) hz (y := .int 3)
        (Mat.Doc.Means.name .matrixMatvec_type "primme_op_double" 3 hcon) hr
      have q2 := hout (.i .matrixMatvec_type) (by simp) (by unfold OutOfMethod; decide)
      rw [← hw, ← q2] at q
      simp only [reads, Val.int.injEq] at q
      rw [q, if_pos hss]
      rfl
    · have ht := made.type
      rw [if_neg hss, rest _ (by decide) (by decide)] at ht
      rw [type0 "matrixMatvec_type" .matrixMatvec_type (by decide +kernel) (by decide) (by decide) (by decide) ht, h0.1,
        if_neg hss]
      rfl
  · intro y x hy hx hx0
    have h1 := made.based.mass
    have hopaddr : opAddr y = some x := by cases hx <;> rfl
    have hb : o.get "massMatrixMatvec" = b.get "massMatrixMatvec" := by
      rw [made.bases _ (by decide), rest _ (by decide) (by decide)]; rfl
    rw [hy, ← hb] at h1
    simp only [Option.bind_some, hopaddr, Option.map_some] at h1
    have q := handle "massMatrixMatvec" 6 .massMatrix x (by decide) h1
    rw [e2, uptr _ (by decide), q, if_neg hx0,
      type0 "massMatrixMatvec_type" .massMatrixMatvec_type (by decide +kernel) (by decide) (by decide) (by decide)
        (by rw [plain _ (by decide) (by decide) (by decide), rest _ (by decide) (by decide)]), h0.2.1]
    rfl
  · intro hy hz
    have h1 := made.based.mass
    have hb : o.get "massMatrixMatvec" = b.get "massMatrixMatvec" := by
      rw [made.bases _ (by decide), rest _ (by decide) (by decide)]; rfl
    rw [hy, ← hb] at h1
    have h2 := (seen_handle made hs (nm := "massMatrixMatvec") (l := 6) (f := .massMatrix) (by decide)).2 h1
    have h3 := C65_ptr_kept made hs .massMatrixMatvec (by decide)
    rw [e2, uptr _ (by decide), h2, if_pos hz, uptr _ (by decide), h3]
  · intro hc
    rw [cint] at hc
    rw [e3, if_neg hc, type0 "applyPreconditioner_type" .applyPreconditioner_type (by decide +kernel) (by decide)
      (by decide) (by decide) (by rw [plain _ (by decide) (by decide) (by decide), rest _ (by decide) (by decide)]), h0.2.2]
    rfl
  · intro hc
    rw [cint] at hc
    rw [e3, if_pos hc, uptr _ (by decide), C65_ptr_kept made hs .applyPreconditioner (by decide)]
  · intro x hx hx0
    have q := handle "convTestFun" 80 .convtest x (by decide)
      (by rw [plain _ (by decide) (by decide) (by decide), hx])
    exact ⟨by rw [e5, uptr _ (by decide), q, if_neg hx0], by rw [cptr _ (by decide), uptr _ (by decide), q]⟩
  · intro hr hm
    rw [if_pos hr] at hmon
    exact ⟨by rw [e4, hmon, if_neg hm], by rw [cptr _ (by decide), hmon]⟩

/-- **Arithmetic and arrays.**  The solver is the one for the class of the problem; `evals` and `resNorms` have an element
for each value asked for, and `evecs` has the constraints first, then the guesses, in columns of the dimension. -/
theorem C65_arrays {N k : Nat} (h : prepareM D zero start a = .ok c) (ha : Mat.Doc.Ordinary a) (hN : Mat.Doc.Dim a N)
    (own : ∀ nm ∈ Mat.Doc.problem, nm ∉ a.opts.rest.map Prod.fst)
    (h0 : start.i .numOrthoConst = 0 ∧ start.i .initSize = 0)
    (hk : a.count = some (.num 1 1 [(k : K)])) :
    c.solver = (match isDoubleProblem a, isComplexProblem a with
      | true, true => "zprimme" | true, false => "dprimme" | false, true => "cprimme" | false, false => "sprimme") ++
      (if a.opts.ishermitian = some false then "_normal" else "") ∧
    c.complex = isComplexProblem a ∧ c.values = k ∧ c.height = N ∧
    c.width = colsOf a.opts.orthoConst + max k (colsOf a.opts.v0) ∧
    (∀ v, a.opts.orthoConst = some v → ∀ i j, j < v.arr.cols → c.evecs j i = v.arr.at' i j) ∧
    (∀ v, a.opts.v0 = some v → ∀ i j, j < v.arr.cols → c.evecs (colsOf a.opts.orthoConst + j) i = v.arr.at' i j) ∧
    (∀ v, a.opts.orthoConst = some v ∨ a.opts.v0 = some v → 0 < v.arr.cols → v.complex = true → c.complex = true) := by
  obtain ⟨p1, -, -, p2, -, -, -, -, -, p3, p4, p5, p6, -⟩ := C65_problem h ha hN own
  obtain ⟨o, b, n, s, u, made, hs, he, -⟩ := call_holds h ha
  obtain ⟨e0, -, -, -, -, -, e1, e2, -, -, e3, e4, e5, e6, e7, e8, e9, e10⟩ := enter_ok he
  have cint : ∀ f : Eigs.IF, u.params.i f = c.params.i f := by
    intro f
    have e1 := e0 (.i f) (by simp [Mat.entered])
    simpa only [reads, Val.int.injEq] using e1.symm
  have hc : c.params.i .numOrthoConst = colsOf a.opts.orthoConst := by
    cases hv : a.opts.orthoConst with
    | none => rw [p4 hv, h0.1]; rfl
    | some v => exact (p3 v hv).2
  have hg : c.params.i .initSize = colsOf a.opts.v0 := by
    cases hv : a.opts.v0 with
    | none => rw [p6 hv, h0.2]; rfl
    | some v => exact (p5 v hv).2
  have hkk := p2 k hk
  rw [cint, cint, cint, hkk, hc, hg] at e8
  rw [cint, hkk] at e6
  rw [cint, p1] at e7
  rw [cint, cint, hc, hg] at e9
  have hcx : c.complex = isComplexProblem a := by
    have tab : ∀ d z f : Bool, ∀ cx, (((if d then (if z then "z" else "d") else (if z then "c" else "s")) ++ "primme" ++
        (if f then "" else "_normal")), cx) ∈ solvers → cx = z := by decide
    exact tab _ _ _ _ e2
  refine ⟨?_, hcx, e6, by simpa using e7, by omega, ?_, ?_, ?_⟩
  · have : isHermitianProblem a = !decide (a.opts.ishermitian = some false) := by
      unfold isHermitianProblem
      cases a.opts.ishermitian with
      | none => simp
      | some t => cases t <;> simp
    rw [e1]
    unfold solverName
    rw [this]
    cases isDoubleProblem a <;> cases isComplexProblem a <;> by_cases hh : a.opts.ishermitian = some false <;> simp [hh]
  · intro v hv i j hj
    rw [e10]
    simp only [hv, colsOf, hj, if_true, entry]
  · intro v hv i j hj
    rw [e10]
    dsimp only
    have : ¬ (colsOf a.opts.orthoConst + j < colsOf a.opts.orthoConst) := by omega
    rw [if_neg this, if_pos (by rw [hv]; simp only [colsOf]; omega), hv, Nat.add_sub_cancel_left]
    rfl
  · intro v hv hpos hx
    have hcols : 0 < colsOf a.opts.orthoConst + colsOf a.opts.v0 := by
      rcases hv with hv | hv <;> · rw [hv]; simp only [colsOf]; omega
    refine (e9 (by exact_mod_cast hcols)).2.2 ?_
    unfold initComplex
    rcases hv with hv | hv <;> simp [hv, hx]

/-- How many pairs are returned: those before the first negative norm, or `initSize` when the library did not converge and
the unconverged are not asked for. -/
def C65_count (a : EigsArgs K V) (o : MCallOut K V) : Nat :=
  if o.code = -3 ∧ a.opts.returnUnconverged = false then (o.params.i .initSize).toNat
  else leading o.norms (o.params.i .numEvals).toNat

private theorem firstOf_ok {α : Type} {n : Int} {l r : List α} (h : firstOf n l = .ok r) :
    n ≤ l.length ∧ r = l.take n.toNat := by
  unfold firstOf at h
  split at h
  · rename_i h1
    simp only [Res.ok.injEq] at h
    exact ⟨h1, h.symm⟩
  · simp at h

private theorem leading_le (f : Nat → K) (k : Nat) : leading f k ≤ k := by
  unfold leading
  exact (List.takeWhile_prefix _).length_le.trans (by simp)

private theorem sorted_desc (l : List K) : (descending l).Perm (List.range l.length) ∧
    (descending l).Pairwise fun i j => l.getD j 0 ≤ l.getD i 0 := by
  unfold descending
  haveI : Std.Total (fun i j : Nat => l.getD j 0 ≤ l.getD i 0) := ⟨fun i j => le_total _ _⟩
  haveI : IsTrans Nat (fun i j : Nat => l.getD j 0 ≤ l.getD i 0) := ⟨fun i j k h1 h2 => le_trans h2 h1⟩
  exact ⟨List.perm_insertionSort _ _, List.pairwise_insertionSort _ _⟩

private theorem finishM_ok {o : MCallOut K V} {r : EigsOut K V} (h : finishM a c o = .ok r)
    (hw : leading o.norms (o.params.i .numEvals).toNat ≤ c.width)
    (hp : 0 < c.params.i .numOrthoConst ∨ o.params.i .numOrthoConst ≤ 0) :
    (o.code = 0 ∨ o.code = -3) ∧ C65_count a o ≤ leading o.norms (o.params.i .numEvals).toNat ∧
    ∃ q : EigsOut K V, q.values = (List.range (C65_count a o)).map o.evals ∧
      q.rnorms = (List.range (C65_count a o)).map o.norms ∧
      (∀ j < C65_count a o, q.vectors[j]? = some (o.evecs ((o.params.i .numOrthoConst).toNat + j))) ∧
      r = if c.sorted then sortResult q else q := by
  unfold finishM at h
  obtain ⟨q, hq, h⟩ := bind_ok h
  split at h
  · simp at h
  rename_i hcode
  simp only [Res.ok.injEq] at h
  have hcode' : o.code = 0 ∨ o.code = -3 := by
    by_contra hc
    simp only [not_or] at hc
    exact hcode ⟨hc.2, hc.1⟩
  have mex : ∀ j < leading o.norms (o.params.i .numEvals).toNat,
      (mexReturns c o).vectors[j]? = some (o.evecs ((o.params.i .numOrthoConst).toNat + j)) := by
    intro j hj
    unfold mexReturns
    dsimp only
    split
    · simp [hj]
    · rename_i hn
      simp only [not_or, not_lt] at hn
      have hz : (o.params.i .numOrthoConst).toNat = 0 := by omega
      have : j < c.width := by omega
      simp [this, hz]
  by_cases ht : o.code = -3 ∧ a.opts.returnUnconverged = false
  · rw [if_pos ht] at hq
    unfold trimmed at hq
    obtain ⟨v, hv, hq⟩ := bind_ok hq
    obtain ⟨w, hw', hq⟩ := bind_ok hq
    obtain ⟨x, hx, hq⟩ := bind_ok hq
    simp only [Res.ok.injEq] at hq
    obtain ⟨v1, v2⟩ := firstOf_ok hv
    obtain ⟨w1, w2⟩ := firstOf_ok hw'
    obtain ⟨x1, x2⟩ := firstOf_ok hx
    have hlen : (mexReturns c o).values.length = leading o.norms (o.params.i .numEvals).toNat := by
      simp [mexReturns]
    have hC : C65_count a o = (o.params.i .initSize).toNat := by unfold C65_count; rw [if_pos ht]
    have hle : C65_count a o ≤ leading o.norms (o.params.i .numEvals).toNat := by rw [hC]; omega
    refine ⟨hcode', hle, q, ?_, ?_, ?_, h.symm⟩
    · rw [← hq]
      dsimp only
      rw [v2, ← hC]
      simp only [mexReturns, ← List.map_take, List.take_range, Nat.min_eq_left hle]
    · rw [← hq]
      dsimp only
      rw [w2, ← hC]
      simp only [mexReturns, ← List.map_take, List.take_range, Nat.min_eq_left hle]
    · intro j hj
      rw [← hq]
      dsimp only
      rw [x2, ← hC, List.getElem?_take_of_lt hj]
      exact mex j (by omega)
  · rw [if_neg ht] at hq
    simp only [Res.ok.injEq] at hq
    have hC : C65_count a o = leading o.norms (o.params.i .numEvals).toNat := by unfold C65_count; rw [if_neg ht]
    refine ⟨hcode', hC.le, q, ?_, ?_, ?_, h.symm⟩
    · rw [← hq, hC]; rfl
    · rw [← hq, hC]; rfl
    · rw [← hq, hC]; exact mex

/-- **Result.**  `primme_eigs` returns only after success or exhaustion.  Each value comes with its own vector (the columns
after the constraints), all values returned by the library come back once, and when the result is sorted the values are in
descending order; otherwise values, vectors and norms are in the order of the library. -/
theorem C65_result {o : MCallOut K V} {r : EigsOut K V} (h : finishM a c o = .ok r)
    (hw : leading o.norms (o.params.i .numEvals).toNat ≤ c.width)
    (hp : 0 < c.params.i .numOrthoConst ∨ o.params.i .numOrthoConst ≤ 0) :
    (o.code = 0 ∨ o.code = -3) ∧ r.values.length = C65_count a o ∧ r.rnorms.length = C65_count a o ∧
    ∃ ind : List Nat, ind.Perm (List.range (C65_count a o)) ∧
      (∀ j k : Nat, ind[j]? = some k → r.values[j]? = some (o.evals k) ∧
        r.vectors[j]? = some (o.evecs ((o.params.i .numOrthoConst).toNat + k))) ∧
      (c.sorted = true → r.values.Pairwise (· ≥ ·)) ∧
      (c.sorted = false → ind = List.range (C65_count a o) ∧ ∀ j < C65_count a o, r.rnorms[j]? = some (o.norms j)) := by
  obtain ⟨hc, hle, q, q1, q2, q3, rfl⟩ := finishM_ok h hw hp
  refine ⟨hc, ?_, ?_, ?_⟩
  · split
    · have := (sorted_desc q.values).1.length_eq
      rw [List.length_range] at this
      simp only [sortResult, List.length_map]
      rw [this, q1]
      simp
    · simp [q1]
  · split <;> simp [sortResult, q2]
  · by_cases hs : c.sorted = true
    · obtain ⟨s1, s2⟩ := sorted_desc q.values
      have hl : q.values.length = C65_count a o := by simp [q1]
      have hget : ∀ k < C65_count a o, q.values.getD k 0 = o.evals k := by
        intro k hk
        rw [q1]
        simp [List.getD_eq_getElem?_getD, hk]
      rw [if_pos hs]
      have hin : ∀ k ∈ descending q.values, k < C65_count a o := by
        intro k hk
        have := s1.mem_iff.1 hk
        rw [hl] at this
        simpa using this
      refine ⟨descending q.values, by rw [← hl]; exact s1, ?_, ?_, fun hn => absurd hn (by simp [hs])⟩
      · intro j k hj
        have hk := hin k (List.mem_of_getElem? hj)
        refine ⟨?_, ?_⟩
        · simp only [sortResult, List.getElem?_map, hj, Option.map_some, hget k hk]
        · simp only [sortResult]
          have : (descending q.values).filterMap (fun i => q.vectors[i]?) = (descending q.values).map
              (fun i => o.evecs ((o.params.i .numOrthoConst).toNat + i)) := by
            rw [← List.filterMap_eq_map]
            exact List.filterMap_congr fun i hi => q3 i (hin i hi)
          rw [this, List.getElem?_map, hj]
          rfl
      · intro _
        simp only [sortResult, List.pairwise_map]
        exact s2.imp (fun h => h)
    · have hs' : c.sorted = false := by simpa using hs
      rw [if_neg hs]
      refine ⟨List.range (C65_count a o), List.Perm.refl _, ?_, fun hn => absurd hn hs, fun _ => ⟨rfl, ?_⟩⟩
      · intro j k hj
        have hj' : j < C65_count a o := by
          by_contra hn
          rw [List.getElem?_eq_none (by simpa using hn)] at hj
          simp at hj
        have : j = k := by simpa [hj'] using hj
        subst this
        exact ⟨by rw [q1]; simp [hj'], q3 j hj'⟩
      · intro j hj
        rw [q2]; simp [hj]

/-- **Order.**  The values are sorted for the interior targets only. -/
theorem C65_order (h : prepareM D zero start a = .ok c) (ha : Mat.Doc.Ordinary a)
    (hn : "target" ∉ a.opts.rest.map Prod.fst) :
    c.sorted = true ↔ ((∃ v, a.target = some v ∧ isNumeric v = true) ∨ a.target = some (.str "SM") ∨
      a.target = some (.str "CGT") ∨ a.target = some (.str "CLT")) := by
  obtain ⟨o, b, n, s, u, made, hs, he, -⟩ := call_holds h ha
  obtain ⟨-, -, -, -, -, -, -, -, -, e1, -⟩ := enter_ok he
  obtain ⟨t, t1, t2, t3, t4⟩ := made.based.target
  have ht : o.get "target" = some (.str t) := by
    rw [made.bases _ (by decide), rest_none hn, t1]; rfl
  have key : c.sorted = !unsortedTargets.contains t := by
    rw [e1]; unfold sortsResult; rw [ht]
  rw [key]
  cases htg : a.target with
  | none =>
    rw [t2 htg]
    simp [unsortedTargets]
  | some v =>
    rcases made.based.targetOk v htg with hv | ⟨w, rfl⟩
    · rw [t4 v htg hv]
      constructor
      · intro _; exact .inl ⟨v, rfl, hv⟩
      · intro _; decide
    · have hmem := t3 w htg
      have hstr : ∀ v : MVal K, some (MVal.str w) = some v → isNumeric v ≠ true := by
        intro v hv
        simp only [Option.some.injEq] at hv
        subst hv
        simp [isNumeric]
      simp only [targetNames, List.mem_cons, Prod.mk.injEq, List.not_mem_nil, or_false] at hmem
      rcases hmem with ⟨rfl, rfl⟩ | ⟨rfl, rfl⟩ | ⟨rfl, rfl⟩ | ⟨rfl, rfl⟩ | ⟨rfl, rfl⟩ | ⟨rfl, rfl⟩ <;>
        simp [unsortedTargets, isNumeric]

/-- **Errors.**  Codes other than success and exhaustion are raised, and these two are not. -/
theorem C65_errors (a : EigsArgs K V) (c : MCall K V) (o : MCallOut K V) :
    (o.code ≠ 0 → o.code ≠ -3 → finishM a c o = .raise (.primme o.code)) ∧
    (o.code = 0 → ∃ r, finishM a c o = .ok r) ∧
    (o.code = -3 → a.opts.returnUnconverged = true → ∃ r, finishM a c o = .ok r) ∧
    (o.code = -3 → (o.params.i .initSize ≤ leading o.norms (o.params.i .numEvals).toNat) →
      leading o.norms (o.params.i .numEvals).toNat ≤ c.width → ∃ r, finishM a c o = .ok r) := by
  refine ⟨?_, ?_, ?_, ?_⟩
  · intro h1 h2
    unfold finishM
    simp [h1, h2, Res.bind]
  · intro h1
    unfold finishM
    simp [h1, Res.bind]
  · intro h1 h2
    unfold finishM
    simp [h1, h2, Res.bind]
  · intro h1 h2 h3
    by_cases hr : a.opts.returnUnconverged = true
    · unfold finishM
      simp [h1, hr, Res.bind]
    · have h4 : o.params.i .initSize ≤ (mexReturns c o).values.length := by simpa [mexReturns] using h2
      have h5 : o.params.i .initSize ≤ (mexReturns c o).rnorms.length := by simpa [mexReturns] using h2
      have h6 : o.params.i .initSize ≤ (mexReturns c o).vectors.length := by
        unfold mexReturns
        dsimp only
        split
        · simpa using h2
        · simp only [List.length_map, List.length_range]; omega
      unfold finishM
      rw [if_pos ⟨h1, by simpa using hr⟩]
      unfold trimmed firstOf
      rw [if_pos h4, if_pos h5, if_pos h6]
      simp [h1, Res.bind]

private theorem bind_raise {α β : Type} {x : Res α} {f : α → Res β} (hx : x ≠ .ub) (hf : ∀ y, x = .ok y → f y ≠ .ub) :
    x.bind f ≠ .ub := by
  cases x with
  | ok y => exact hf y rfl
  | raise e => simp [Res.bind]
  | ub => exact absurd rfl hx

private theorem roundArg_ub (v : MVal K) : roundArg v ≠ .ub := by
  unfold roundArg
  split <;> (try split) <;> simp

private theorem options_ub (h : Nat) (a : EigsArgs K V) : Mat.options h a ≠ .ub := by
  unfold Mat.options
  refine bind_raise (by unfold startA; split <;> simp) fun o0 _ => ?_
  refine bind_raise ?_ fun o1 _ => ?_
  · unfold addB
    split <;> (try split) <;> (try split) <;> (try split) <;> simp
  refine bind_raise ?_ fun o2 _ => ?_
  · unfold addDim
    split
    · split
      · simp
      · exact bind_raise (roundArg_ub _) fun _ _ => by simp
    · simp
  refine bind_raise ?_ fun o3 _ => ?_
  · unfold addCount
    split
    · exact bind_raise (roundArg_ub _) fun _ _ => by simp
    · split <;> simp
  refine bind_raise ?_ fun o4 _ => ?_
  · unfold addTarget
    split <;> (try split) <;> simp
  refine bind_raise ?_ fun o5 _ => ?_
  · unfold addPrec
    split
    · dsimp only
      split <;> simp
    · simp
  split
  · simp
  split
  · simp
  split
  · simp
  refine bind_raise ?_ fun o6 _ => ?_
  · unfold addVecs
    split <;> (try split) <;> simp
  refine bind_raise ?_ fun o7 _ => by simp
  unfold addVecs
  split <;> (try split) <;> simp

/-- The dimension of the vectors. -/
theorem C65_dim {h : Nat} {o b : Fields (MVal K)} {n N : Nat} (made : Made h a o b n) (hN : Mat.Doc.Dim a N)
    (own : "n" ∉ a.opts.rest.map Prod.fst) : n = N := by
  have hdim : o.get "n" = some (.one ((N : Int) : K)) := by
    rw [made.bases "n" (by decide), rest_none own, Option.none_or]
    rcases hN with ⟨⟨m, x, hA, rfl⟩, hB⟩ | ⟨hf, hd⟩
    · obtain ⟨m', x', hA', h'⟩ := made.based.dimMat (by
        unfold hasFn
        rw [hA]
        cases hb : a.B with
        | none => rfl
        | some y => cases y with
          | fn z => exact absurd trivial (hB _ hb)
          | mat _ _ => rfl
          | other => rfl)
      rw [hA] at hA'
      simp only [MOp.mat.injEq] at hA'
      rw [h', ← hA'.1]
      push_cast; rfl
    · obtain ⟨v, w, h1, h2, h3⟩ := made.based.dimFn (by
        unfold hasFn
        rcases hf with hf | ⟨y, hy, hf⟩
        · cases hA : a.A with
          | fn z => rfl
          | mat _ _ => rw [hA] at hf; exact absurd hf (by simp [Mat.Doc.Function])
          | other => rw [hA] at hf; exact absurd hf (by simp [Mat.Doc.Function])
        · cases y with
          | fn z => rw [hy]; simp
          | mat _ _ => exact absurd hf (by simp [Mat.Doc.Function])
          | other => exact absurd hf (by simp [Mat.Doc.Function]))
      rw [hd] at h1
      simp only [Option.some.injEq] at h1
      subst h1
      unfold roundArg at h2
      simp only at h2
      split at h2
      · simp at h2
      · simp only [Res.ok.injEq] at h2
        rw [h3, ← h2, round_nat]
  have := made.dim
  unfold dimOf at this
  rw [hdim] at this
  simp only [Option.bind_some, MVal.one, scalar, asNat, Int.floor_intCast, and_true] at this
  rw [if_pos (by exact_mod_cast Nat.zero_le N)] at this
  simpa using this.symm

/-- Wrong arguments. -/
inductive C65_Bad (a : EigsArgs K V) : Prop where
  | operator (h : a.A = .other)
  | mass (h : a.B = some .other)
  | massShape (m x) (h : a.B = some (.mat m x)) (hm : m.rows ≠ m.cols)
  | massHermitian (m x) (h : a.B = some (.mat m x)) (h1 : m.rows < 10000) (h2 : m.hermitian = false)
  | massSize (m x mA y) (h : a.B = some (.mat m x)) (hA : a.A = .mat mA y) (hm : m.rows ≠ mA.cols)
  | hermitian (m x) (h : a.A = .mat m x) (h1 : m.rows < 10000) (h2 : m.hermitian = false)
      (h3 : a.opts.ishermitian ≠ some false)
  | noDim (h : Mat.Doc.Function a.A) (hd : a.dim = none)
  | dim (x : K) (h : Mat.Doc.Function a.A) (hd : a.dim = some (.num 1 1 [x])) (hx : x < 0)
  | count (x : K) (h : a.count = some (.num 1 1 [x])) (hx : x < 0)
  | target (w : String) (h : a.target = some (.str w)) (hw : w ∉ Mat.Doc.targets.map Prod.fst)
  | rows (N : Nat) (v : MVecs V) (h : Mat.Doc.Dim a N) (own : "n" ∉ a.opts.rest.map Prod.fst)
      (hv : a.opts.v0 = some v ∨ a.opts.orthoConst = some v) (hr : v.arr.rows ≠ N)

/-- **Wrong arguments are errors**, before the library is touched. -/
theorem C65_rejects (ha : Mat.Doc.Ordinary a) (h : C65_Bad a) : ∃ e, prepareM D zero start a = .raise e := by
  have key : (∀ o, Mat.options D.objPrec a ≠ .ok o) := by
    intro o ho
    obtain ⟨b, n, made⟩ := options_made ha ho
    cases h with
    | operator h =>
      obtain ⟨x, hx, -⟩ := made.based.mat
      rw [h] at hx
      simp [opAddr] at hx
    | mass h =>
      have := made.based.massOk _ h
      simp [opAddr] at this
    | massShape m x h hm => exact hm (made.based.massMat m x h).1
    | massHermitian m x h h1 h2 =>
      have := (made.based.massMat m x h).2.1 h1
      rw [h2] at this
      simp at this
    | massSize m x mA y h hA hm => exact hm ((made.based.massMat m x h).2.2 mA y hA)
    | hermitian m x h h1 h2 h3 =>
      have := made.herm
      unfold badHermitian isHermitianProblem at this
      rw [h] at this
      cases hh : a.opts.ishermitian with
      | none => simp [hh, h1, h2] at this
      | some t => cases t with
        | false => exact h3 hh
        | true => simp [hh, h1, h2] at this
    | noDim h hd =>
      obtain ⟨v, w, h1, -⟩ := made.based.dimFn (by
        cases hA : a.A <;> rw [hA] at h <;> simp [Mat.Doc.Function] at h; simp [hasFn])
      rw [hd] at h1
      simp at h1
    | dim x h hd hx =>
      obtain ⟨v, w, h1, h2, -⟩ := made.based.dimFn (by
        cases hA : a.A <;> rw [hA] at h <;> simp [Mat.Doc.Function] at h; simp [hasFn])
      rw [hd] at h1
      simp only [Option.some.injEq] at h1
      subst h1
      simp [roundArg, hx] at h2
    | count x h hx =>
      obtain ⟨w, h2, -⟩ := made.based.count _ h
      simp [roundArg, hx] at h2
    | target w h hw =>
      obtain ⟨t, -, -, h3, -⟩ := made.based.target
      have h4 := h3 w h
      have tab : ∀ e ∈ targetNames, e.1 ∈ Mat.Doc.targets.map Prod.fst := by decide
      exact hw (tab _ h4)
    | rows N v h own hv hr =>
      have hn : n = N := C65_dim made h own
      rcases hv with hv | hv
      · exact hr (by rw [made.initRows v hv, hn])
      · exact hr (by rw [made.orthoRows v hv, hn])
  unfold prepareM
  cases ho : Mat.options D.objPrec a with
  | ok o => exact absurd ho (key o)
  | raise e => exact ⟨e, rfl⟩
  | ub => exact absurd ho (options_ub _ _)

/-- **Unknown options.**  With an option whose name is neither that of a parameter of the manual nor one of the short
names, the library is not called. -/
theorem C65_unknown (ha : Mat.Doc.Ordinary a) {nm : String} {v : MVal K} (hv : a.opts.rest.get nm = some v)
    (h1 : nm ∉ Py.Doc.eigsMembers.map Prod.fst)
    (h2 : nm ∉ (Mat.Doc.options ++ Mat.Doc.moreOptions).map Prod.fst) (h3 : nm ≠ "correction") (c : MCall K V) :
    prepareM D zero start a ≠ .ok c := by
  intro h
  obtain ⟨o, b, n, s, u, made, hs, -⟩ := call_holds h ha
  have known : ∀ x w, o.get x = some w → x ≠ "correction" → x ∈ Py.Doc.eigsMembers.map Prod.fst := by
    intro x w hw hc
    have hplain : plain w := by
      cases w with
      | struct l => exact absurd (made.structs x l (mem_of_get hw)).1 hc
      | _ => trivial
    obtain ⟨⟨m, hm⟩, -⟩ := setAllM_names (eigs_kind D.heap D.device D.text) hs (nm := x) (v := w)
      ((mem_settings o x w).2 (.inl ⟨mem_of_get hw, hplain⟩))
    exact List.mem_map.2 ⟨_, hm, rfl⟩
  have tab : ∀ e ∈ problemNames, e ∈ Py.Doc.eigsMembers.map Prod.fst ∨ e = "correction" := by decide +kernel
  have hscheme : o.get "restarting_scheme" = none := by
    cases hg : o.get "restarting_scheme" with
    | none => rfl
    | some w =>
      have t : "restarting_scheme" ∉ Py.Doc.eigsMembers.map Prod.fst := by decide +kernel
      exact absurd (known _ w hg (by decide)) t
  have hor : (a.opts.rest.get "scheme").or (a.opts.rest.get "restarting_scheme") = none := by
    rw [made.others _ (by decide)] at hscheme
    unfold given renamed at hscheme
    rw [if_neg (by decide)] at hscheme
    have : renames.find? (fun c => c.2 = "restarting_scheme") = some ("scheme", "restarting_scheme") := by decide
    rw [this] at hscheme
    exact hscheme
  have hno : nm ≠ "scheme" ∧ nm ≠ "restarting_scheme" := by
    constructor <;> rintro rfl
    · rw [hv] at hor; simp at hor
    · rw [hv] at hor
      cases hg : a.opts.rest.get "scheme" <;> rw [hg] at hor <;> simp at hor
  have t1 : ∀ e ∈ renames, e.1 = "scheme" ∨ e.1 ∈ (Mat.Doc.options ++ Mat.Doc.moreOptions).map Prod.fst := by decide
  have t2 : ∀ e ∈ renames, e.2 = "restarting_scheme" ∨ e.2 ∈ Py.Doc.eigsMembers.map Prod.fst := by decide +kernel
  have r1 : nm ∉ renames.map Prod.fst := by
    intro hm
    obtain ⟨e, he, rfl⟩ := List.mem_map.1 hm
    exact (t1 e he).elim hno.1 h2
  have r2 : nm ∉ renames.map Prod.snd := by
    intro hm
    obtain ⟨e, he, rfl⟩ := List.mem_map.1 hm
    exact (t2 e he).elim hno.2 h1
  refine h1 (known nm v ?_ h3)
  rw [made.others nm (fun hp => (tab nm hp).elim h1 h3)]
  unfold given
  rw [renamed_plain r1 r2, hv]

/-- **Methods.**  Every method of the help text is a preset of the library. -/
theorem C65_methods {nm : String} (hn : nm ∈ Mat.Doc.methods) :
    ∃ v, constantInfo Eigs.constTable ("PRIMME_" ++ nm) = .ok v ∧ Eigs.Doc.Published v := by
  have : ∀ nm ∈ Mat.Doc.methods, ∃ v ∈ List.range 16, constantInfo Eigs.constTable ("PRIMME_" ++ nm) = .ok (v : Int) := by
    decide +kernel
  obtain ⟨v, hv, h⟩ := this nm hn
  refine ⟨v, h, ?_⟩
  simp only [List.mem_range] at hv
  unfold Eigs.Doc.Published
  omega

/-- Three largest eigenvalues of a real dense matrix of order 10, with a guess, a constraint and a preconditioner. -/
def C65_call : EigsArgs Rat Rat where
  A := .mat ⟨10, 10, false, true, false, true⟩ 21
  B := none
  dim := none
  count := some (.num 1 1 [3])
  target := some (.str "LA")
  opts :=
    { isreal := none
      isdouble := none
      ishermitian := none
      v0 := some ⟨⟨10, 1, fun i _ => i⟩, false⟩
      orthoConst := some ⟨⟨10, 1, fun i _ => 2 * i⟩, false⟩
      returnUnconverged := false
      report := false
      rest := [("tol", .num 1 1 [1 / 1000000]), ("maxBlockSize", .num 1 1 [2]), ("orth", .str "primme_orth_explicit_I"),
        ("aNorm", .num 1 1 [2]), ("iseed", .num 1 4 [1, 2, 3, 5])] }
  method := some (.str "DEFAULT_MIN_TIME")
  P1 := some .fn
  P2 := none

/-- Addresses. -/
def C65_addrs : MAddrs := ⟨100, 1, 2, 3, 4, fun t => 10 + t.toNat, fun t => 20 + t.toNat, fun t => 30 + t.toNat, 40, 41⟩

/-- The fresh structure. -/
def C65_fresh : Eigs.EP Rat := Eigs.initParams 1000 1 id

/-- What a call of the library holds. -/
def C65_run {β : Type} (a : EigsArgs Rat Rat) (f : MCall Rat Rat → β) : Res β := (prepareM C65_addrs 0 C65_fresh a).bind fun c => .ok (f c)

theorem C65_run_ok {β : Type} {a : EigsArgs Rat Rat} {f : MCall Rat Rat → β} {y : β} (h : C65_run a f = .ok y) :
    ∃ c, prepareM C65_addrs 0 C65_fresh a = .ok c ∧ f c = y := by
  obtain ⟨c, h1, h2⟩ := bind_ok h
  exact ⟨c, h1, by simpa using h2⟩

/-- The call is prepared, and the theorems apply to it. -/
theorem C65_call_holds : ∃ c, prepareM C65_addrs 0 C65_fresh C65_call = .ok c ∧ Mat.Doc.Ordinary C65_call ∧
    Mat.Doc.Dim C65_call 10 ∧ (∀ nm ∈ Mat.Doc.problem, nm ∉ C65_call.opts.rest.map Prod.fst) ∧ c.solver = "dprimme" ∧
    c.width = 4 := by
  have h : C65_run C65_call (fun c => (c.solver, c.width)) = .ok ("dprimme", 4) := by decide +kernel
  obtain ⟨c, h1, h2⟩ := C65_run_ok h
  simp only [Prod.mk.injEq] at h2
  refine ⟨c, h1, ⟨by decide, ?_⟩, .inl ⟨⟨_, _, rfl, rfl⟩, by simp [C65_call]⟩, by decide, h2.1, h2.2⟩
  intro e he l
  simp only [C65_call, List.mem_cons, List.not_mem_nil, or_false] at he
  rcases he with rfl | rfl | rfl | rfl | rfl <;> simp

example : ∃ c, prepareM C65_addrs 0 C65_fresh C65_call = .ok c ∧ c.params.i .n = 10 ∧ c.params.i .numEvals = 3 ∧
    c.params.i .target = 1 ∧ c.params.i .orth = 2 ∧ c.params.d .eps = 1 / 1000000 ∧ c.params.i .initSize = 1 ∧
    c.params.i .numOrthoConst = 1 ∧ c.params.p .preconditioner = 3 ∧ c.params.p .matrixMatvec = 10 ∧ c.shifts = [] := by
  obtain ⟨c, hc, ord, dim, own, -, -⟩ := C65_call_holds
  obtain ⟨p1, -, -, p2, -, -, -, -, -, p3, -, p4, -, p5, -⟩ := C65_problem hc ord dim own
  obtain ⟨w1, -, -, -, w2⟩ := C65_which hc ord (by decide)
  obtain ⟨t, rel, w3, w4⟩ := w1 _ rfl
  have ht : t = 1 := by
    have : ∀ e ∈ Mat.Doc.targets, e.1 = "LA" → e.2.1 = 1 := by decide
    exact this _ w3 rfl
  refine ⟨c, hc, p1, p2 3 rfl, by rw [w4, ht], ?_, ?_, (p4 _ rfl).2, (p3 _ rfl).2, p5 (by simp [C65_call]), ?_, ?_⟩
  · have := C65_parameters hc ord (nm := "orth") (x := .i .orth) (v := .str "primme_orth_explicit_I") (y := .int 2)
      (by decide +kernel) (by decide) (by decide) (fun sh hsh => by
        have : ∀ e ∈ Mat.Doc.options ++ Mat.Doc.moreOptions, e.2 ≠ .i .orth := by decide
        exact absurd rfl (this _ hsh)) rfl (.name _ _ _ (by decide +kernel))
      ⟨by decide, by decide⟩ (by unfold OutOfMethod; decide)
    simpa [reads] using this
  · have := C65_options hc ord (nm := "tol") (x := .d .eps) (y := .dbl (1 / 1000000)) (by decide) rfl (.real _ _) trivial
      (by unfold OutOfMethod; decide)
    simpa [reads] using this
  · exact (C65_functions hc ord (fun nm h1 _ => own nm h1) ⟨rfl, rfl, rfl⟩).1
  · exact ((w2 (by decide)).2.2 "LA" rfl (by decide) (by decide)).1

example : C65_run { C65_call with target := some (.num 1 1 [5 / 2]), method := none } (fun c => (c.sorted, c.shifts,
    c.params.i .target, c.params.i .numTargetShifts)) = .ok (true, [5 / 2], 4, 1) := by decide +kernel

example : C65_Bad { C65_call with count := some (.num 1 1 [-1]) } := .count (-1) rfl (by decide)

/-- An answer of the library to a call for three values around a point: all converged, in the order of distance. -/
def C65_answer : MCallOut Rat Rat where
  code := 0
  params := C65_fresh.setI .numEvals 3
  evals := fun j => [2, 3, 1].getD j 0
  evecs := fun j _ => [20, 30, 10].getD j 0
  norms := fun j => [1 / 10, 2 / 10, 3 / 10].getD j 0

/-- A call around a point, without constraints. -/
def C65_interior : EigsArgs Rat Rat :=
  { C65_call with target := some (.num 1 1 [2]), opts := { C65_call.opts with orthoConst := none } }

/-- The values, the first entry of each vector, and the norms `primme_eigs` returns. -/
def C65_returned (a : EigsArgs Rat Rat) (o : MCallOut Rat Rat) : Res (List Rat × List Rat × List Rat) :=
  (prepareM C65_addrs 0 C65_fresh a).bind fun c => (finishM a c o).bind fun r =>
    .ok (r.values, r.vectors.map (fun v => v 0), r.rnorms)

/-- **Norms of interior eigenvalues.**  Values and vectors are sorted but the norms are not: the norm returned with the value
3 is the one of the value 2. -/
theorem C65_norms_violated : C65_returned C65_interior C65_answer =
    .ok ([3, 2, 1], [30, 20, 10], [1 / 10, 2 / 10, 3 / 10]) := by decide +kernel

/-- **More guesses than values.**  With real vectors, no constraints and five guesses for three values, five vectors are
returned with the three values. -/
theorem C65_guesses_violated : C65_returned
    { C65_call with opts := { C65_call.opts with orthoConst := none, v0 := some ⟨⟨10, 5, fun i _ => i⟩, false⟩ } }
    C65_answer = .ok ([2, 3, 1], [20, 30, 10, 0, 0], [1 / 10, 2 / 10, 3 / 10]) := by decide +kernel

/-- **Real normal matrices.**  With `ishermitian = false` a real problem asks for the solver `dprimme_normal` (or
`sprimme_normal`), which does not exist: the library is never called. -/
theorem C65_normal_violated (ha : Mat.Doc.Ordinary a) (h1 : a.opts.ishermitian = some false)
    (h2 : isComplexProblem a = false) (c : MCall K V) : prepareM D zero start a ≠ .ok c := by
  intro h
  obtain ⟨o, b, n, s, u, made, hs, he, -⟩ := call_holds h ha
  obtain ⟨-, -, -, -, -, -, -, e2, -⟩ := enter_ok he
  have tab : ∀ d : Bool, ∀ cx, (((if d then "d" else "s") ++ "primme" ++ "_normal"), cx) ∉ solvers := by decide
  unfold solverName isHermitianProblem at e2
  rw [h1, h2] at e2
  exact tab _ _ (by simpa using e2)

/-- **The preconditioner switched off.**  With `OPTS.precondition = 0` the preconditioner given is not used. -/
theorem C65_switchedOff_violated : C65_run
    { C65_call with opts := { C65_call.opts with rest := [("precondition", .num 1 1 [0])] } }
    (fun c => (c.params.i .correctionParams_precondition, c.params.p .preconditioner, c.params.p .applyPreconditioner)) =
    .ok (0, 3, 0) := by decide +kernel

/-- The outcome: a call of the library, an error, or undefined. -/
def C65_outcome (a : EigsArgs Rat Rat) : Nat :=
  match prepareM C65_addrs 0 C65_fresh a with | .ok _ => 0 | .raise _ => 1 | .ub => 2

/-- The call with other options. -/
def C65_with (rest : Fields (MVal Rat)) : EigsArgs Rat Rat := { C65_call with opts := { C65_call.opts with rest := rest } }

/-- **No target shifts.**  `OPTS.targetShifts = []`, which the help text gives as the default, is an error; so is a
logical value for an option. -/
theorem C65_values_violated : C65_outcome (C65_with []) = 0 ∧ C65_outcome (C65_with [("targetShifts", .num 0 0 [])]) = 1 ∧
    C65_outcome (C65_with [("locking", .other)]) = 1 ∧ C65_outcome (C65_with [("locking", .num 1 1 [1])]) = 0 := by
  decide +kernel

/-- **`[]` for the preconditioner** is an error when the operator is tested. -/
theorem C65_noPrec_violated : C65_outcome { C65_call with P1 := some (.mat 0 0) } = 1 ∧
    C65_outcome { C65_call with P1 := none } = 0 := by decide +kernel

/-- **The option `profiler`** of the help text is an error. -/
theorem C65_profiler_violated (ha : Mat.Doc.Ordinary a) {v : MVal K} (hv : a.opts.rest.get "profiler" = some v)
    (c : MCall K V) : prepareM D zero start a ≠ .ok c :=
  C65_unknown ha hv (by decide +kernel) (by decide) (by decide) c

/-- **Limits.**  A number of products that `int` cannot hold is undefined, although the parameter of the library is a 64-bit
integer. -/
theorem C65_limit_violated : C65_outcome (C65_with [("maxMatvecs", .num 1 1 [10000000000])]) = 2 ∧
    (Eigs.ctype .maxMatvecs).holds 10000000000 := by
  refine ⟨by decide +kernel, ⟨by decide, by decide⟩⟩

/-- **A matrix `B` with a function `A`.**  Its order is not compared with the dimension. -/
theorem C65_massSize_violated : C65_run { C65_call with A := .fn 21, dim := some (.num 1 1 [10]), B := some (.mat ⟨7, 7, false, true, false, true⟩ 22) }
    (fun c => (c.params.i .n, c.params.p .massMatrix)) = .ok (10, 22) := by decide +kernel

/-- **Rectangular matrices.**  With `ishermitian = false` a matrix with other than ten rows and ten columns is taken as a
problem of order ten. -/
theorem C65_square_violated : C65_run { C65_call with A := .mat ⟨7, 10, true, true, false, false⟩ 21, opts := { C65_call.opts with ishermitian := some false } }
    (fun c => (c.params.i .n, c.solver)) = .ok (10, "zprimme_normal") := by decide +kernel

/-- **Default method.**  Without METHOD the preset is `DYNAMIC`, as the help text says. -/
theorem C65_default (h : prepareM D zero start a = .ok c) (ha : Mat.Doc.Ordinary a) (hm : a.method = none) :
    ∃ v, constantInfo Eigs.constTable "PRIMME_DYNAMIC" = .ok v ∧
      ∃ s, ∀ x, x ∉ Mat.entered → x ≠ .p .monitor → reads c.params x = reads (Eigs.setMethod v s).2 x := by
  obtain ⟨v, s, h1, -, -, h2, -⟩ := C65_method h ha
  rw [h1 hm] at h2
  exact ⟨1, by decide +kernel, s, h2⟩

end Verif.Props
