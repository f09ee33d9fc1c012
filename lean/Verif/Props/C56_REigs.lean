import Verif.Proofs.REigs
import Verif.Props.C07_DefaultsAccepted
import Mathlib.Algebra.Field.Rat
import Mathlib.Algebra.Order.Ring.Rat
import Mathlib.Data.Rat.Floor
import Mathlib.Tactic.NormNum
import Mathlib.Tactic.FinCases

set_option linter.unusedSectionVars false
set_option linter.unusedVariables false

/-!
# C56: the R function `eigs_sym` asks the library for what its arguments say

The theorems are about `prepareR`, the state in which `eigs_sym` calls the library, and `finishR`, what it makes of the
answer.  The names and their meaning are those of the documentation comments of `eigs_sym` (`Verif.R.Doc`) and of the
manual (`Py.Doc.eigsMembers`).
-/

namespace Verif.Props
open Verif.Members Verif.Py Verif.R

variable {K V : Type} [Field K] [LinearOrder K] [IsStrictOrderedRing K] [FloorRing K]
variable {D : RAddrs} {zero : V} {start : Eigs.EP K} {a : EigsArgs K V} {c : RCall K V}

/-- **The problem.**  When the library is called the structure holds the dimension, the number of values, the tolerance
(or the test of convergence), the operators, the constraints and the guesses the arguments say, whatever the other options
and the preset method. -/
theorem C56_problem {N : Nat} (h : prepareR D zero start a = .ok c) (hs : start.i .nLocal = -1)
    (hN : R.Doc.Dim a N) (hN' : (N : Int) < 2 ^ 31) :
    c.params.i .n = N ∧ c.params.i .nLocal = N ∧ (∀ x, a.A = .mat x → x.rows = N ∧ x.cols = N) ∧
    (∀ k : Nat, number a.NEig = some (k : K) → k ≤ N ∧ c.params.i .numEvals = k) ∧
    (∀ x, a.tol = .num x → 0 ≤ x ∧ x < 1 ∧ c.params.d .eps = x) ∧
    (a.tol = .fn → c.params.p .convtest = D.objConv ∧ c.params.p .convTestFun = D.conv) ∧
    (∀ v, a.ortho = .mat v → v.rows = N ∧ c.params.i .numOrthoConst = v.cols) ∧
    (a.ortho = .null → c.params.i .numOrthoConst = 0) ∧
    (∀ v, a.x0 = .mat v → v.rows = N ∧ c.params.i .initSize = v.cols) ∧ (a.x0 = .null → c.params.i .initSize = 0) ∧
    c.params.p .matrix = D.objA ∧ c.params.p .matrixMatvec = D.matvec ∧
    (a.B ≠ none → c.params.p .massMatrix = D.objB ∧ c.params.p .massMatrixMatvec = D.mass) ∧
    (∀ x, a.B = some (.mat x) → x.rows = N ∧ x.cols = N) ∧
    (a.prec ≠ .null → c.params.p .preconditioner = D.objPrec ∧ c.params.p .applyPreconditioner = D.prec ∧
      c.params.i .correctionParams_precondition = 1) ∧
    (∀ r k, a.prec = .mat r k → r = N ∧ k = N) := by
  obtain ⟨o, m, s, t, made, he, names, hat, -, -, hloc, -, -, hmeth, -⟩ := call_holds h
  obtain ⟨e1, e2, e3, e4, e5, e6, e7, e8, e9, e10, e11, e12, e13, e14, -⟩ := enter_ok he
  have hdim : number (a.opts.exact "n") = some (N : K) ∧ "n" ∈ a.opts.map Prod.fst ∨ ∃ x, a.A = .mat x ∧ x.rows = N := by
    rcases hN with h | ⟨-, h⟩
    · exact .inr h
    · left
      rcases h with h | h
      · exact ⟨by rw [h]; simp [number], mem_of_exact _ (by rw [h]; simp)⟩
      · exact ⟨by rw [h]; simp [number], mem_of_exact _ (by rw [h]; simp)⟩
  have hrows := made.rows N (by
    rcases hN with h | ⟨hA, h⟩
    · exact .inl h
    · right
      rcases h with h | h
      · exact ⟨hA, mem_of_exact _ (by rw [h]; simp), by rw [h]; simp [number]⟩
      · exact ⟨hA, mem_of_exact _ (by rw [h]; simp), by rw [h]; simp [number]⟩)
  obtain ⟨r1, r2, r3, r4, r5⟩ := hrows
  have get : ∀ nm f, (nm, .i f) ∈ Py.Doc.eigsMembers → (.i f : Member Eigs.IF Eigs.DF Eigs.PF) ∉ entered →
      f ≠ .numTargetShifts → f ∉ Eigs.Doc.methodParameters → nm ∈ o.map Prod.fst → ∀ k : Int,
      (o.exact nm = .int [k] ∨ o.exact nm = .real [(k : K)]) → -2 ^ 31 < k ∧ k < 2 ^ 31 → (Eigs.ctype f).holds k →
      c.params.i f = k := by
    intro nm f hm hent hc ho hn k hk hr hf
    obtain ⟨u, v, h1, h2⟩ := (hat nm _ hm (by simpa using hc)).1 hn
    have h3 := set_number hm h1 hk hr hf
    have h4 := e1 _ hent
    have h5 := hmeth (.i f) (.inr ho)
    simp only [reads, Val.int.injEq] at h2 h4 h5
    rw [h4, h5, h2, h3]
  have hn : c.params.i .n = N := by
    have hmem : "n" ∈ o.map Prod.fst ∧ (o.exact "n" = .int [(N : Int)] ∨ o.exact "n" = .real [((N : Int) : K)]) := by
      rcases hN with ⟨x, hx, rfl⟩ | ⟨hA, h⟩
      · obtain ⟨-, h1, h2⟩ := made.dimMat x hx
        exact ⟨h2, .inl h1⟩
      · obtain ⟨h1, h2⟩ := made.dim hA
        refine ⟨h2.2 ?_, ?_⟩
        · rcases h with h | h <;> exact mem_of_exact _ (by rw [h]; simp)
        · rw [h1]; push_cast; exact h
    exact get "n" .n (by decide +kernel) (by decide) (by decide) (by decide) hmem.1 N hmem.2 ⟨by omega, hN'⟩
      ⟨by omega, by omega⟩
  have hnloc : c.params.i .nLocal = N := by
    have h1 := hmeth (.i .nLocal) (.inr (by unfold OutOfMethod; decide))
    have h2 := e1 (.i .n) (by decide)
    simp only [reads, Val.int.injEq] at h1 h2
    rw [e2, if_pos (by rw [h1, hloc, hs]), ← h2, hn]
  refine ⟨hn, hnloc, ?_, ?_, ?_, ?_, ?_, ?_, ?_, ?_, e10, e11, ?_, ?_, ?_, r4⟩
  · intro x hx
    rcases hN with ⟨y, hy, rfl⟩ | ⟨hA, -⟩
    · rw [hx] at hy
      simp only [ROp.mat.injEq] at hy
      subst hy
      exact ⟨rfl, (made.dimMat x hx).1.symm⟩
    · rw [hx] at hA; simp at hA
  · intro k hk
    have hle : k ≤ N := by exact_mod_cast r5 _ hk
    obtain ⟨-, h1, h2⟩ := made.count
    refine ⟨hle, get "numEvals" .numEvals (by decide +kernel) (by decide) (by decide) (by decide) h2 k ?_
      ⟨by omega, by omega⟩ ⟨by omega, by omega⟩⟩
    rw [h1]
    exact number_nat hk
  · intro x hx
    obtain ⟨h1, h2, h3, h4⟩ := made.tol x hx
    obtain ⟨u, v, h5, h6⟩ := (hat "eps" (.d .eps) (by decide +kernel) (by simp)).1 h4
    have h7 := set_real (f := .eps) (by decide +kernel) h5 h3
    have h8 := e1 (.d .eps) (by decide)
    have h9 := hmeth (.d .eps) (.inr (by unfold OutOfMethod; decide))
    simp only [reads, Val.dbl.injEq] at h6 h8 h9
    exact ⟨h1, h2, by rw [h8, h9, h6, h7]⟩
  · intro hx
    rw [if_pos hx] at e14
    exact e14
  · intro v hv
    exact ⟨r3 v hv, by rw [e7, hv]; rfl⟩
  · intro hv
    rw [e7, hv]; rfl
  · intro v hv
    exact ⟨r2 v hv, by rw [e8, hv]; rfl⟩
  · intro hv
    rw [e8, hv]; rfl
  · intro hB
    rwa [if_neg ?_] at e12
    have hbad := made.massBad
    cases hb : a.B with
    | none => exact absurd hb hB
    | some y =>
      cases y with
      | fn => simp [heldB]
      | mat x => simp only [heldB]; split <;> simp
      | bad => exact absurd hb hbad
  · intro x hx
    have h1 := made.mass x hx
    have h2 := r1 x hx
    exact ⟨h2, by omega⟩
  · intro hp
    have hne : heldPrec a.prec ≠ .nothing := by
      have := made.precBad
      unfold heldPrec
      split
      · simp
      · simp
      · rename_i h1 h2
        cases hq : a.prec with
        | null => exact absurd hq hp
        | other => exact absurd hq this
        | fn => exact absurd hq (by simpa using h1)
        | mat r k => exact absurd hq (by simpa using h2 r k)
    rw [if_neg hne] at e13 e9
    exact ⟨e13.1, e13.2, e9⟩

/-- **Which eigenvalues.**  The library is given the target of the documentation for the name and exactly the points of
`targetShifts`; without them, the names relative to a point (except "LM", see `C56_LM_violated`) use the point 0.  For
numbers, the eigenvalues closest to those numbers. -/
theorem C56_which (h : prepareR D zero start a = .ok c) (ho : "targetShifts" ∉ a.opts.map Prod.fst) :
    (∀ w, a.which = .name w → ∃ t rel, (w, t, rel) ∈ R.Doc.which ∧ c.params.i .target = t ∧
      (∀ l, a.targetShifts = some l → c.shifts = l ∧ c.params.i .numTargetShifts = (l.length : Int) ∧
        c.params.p .targetShifts = D.heap) ∧
      (a.targetShifts = none → rel = true → w ≠ "LM" → c.shifts = [0] ∧ c.params.i .numTargetShifts = 1 ∧
        c.params.p .targetShifts = D.heap) ∧
      (a.targetShifts = none → rel = false ∨ w = "LM" → c.shifts = [] ∧
        c.params.i .numTargetShifts = start.i .numTargetShifts ∧ c.params.p .targetShifts = start.p .targetShifts)) ∧
    (∀ l, a.which = .nums l → c.params.i .target = 4 ∧ c.shifts = l ∧
      c.params.i .numTargetShifts = (l.length : Int) ∧ c.params.p .targetShifts = D.heap) := by
  obtain ⟨o, m, s, t, made, he, names, hat, hin, hout, hloc, -, hsh, hmeth, -⟩ := call_holds h
  have en := enter_ok he
  have e1 := en.1
  have hcs : c.shifts = s.shifts := by rw [en.2.2.2.2.2.2.2.2.2.2.2.2.2.2.2.1, hsh]
  have hnum : c.params.i .numTargetShifts = s.params.i .numTargetShifts := by
    have h1 := e1 (.i .numTargetShifts) (by decide)
    have h2 := hmeth (.i .numTargetShifts) (.inr (by unfold OutOfMethod; decide))
    simp only [reads, Val.int.injEq] at h1 h2
    rw [h1, h2]
  have hptr : c.params.p .targetShifts = s.params.p .targetShifts := by
    have h1 := e1 (.p .targetShifts) (by decide)
    have h2 := hmeth (.p .targetShifts) (.inr trivial)
    simp only [reads, Val.ptr.injEq] at h1 h2
    rw [h1, h2]
  have points : ∀ l, o.exact "targetShifts" = .real l ∧ "targetShifts" ∈ o.map Prod.fst → c.shifts = l ∧
      c.params.i .numTargetShifts = (l.length : Int) ∧ c.params.p .targetShifts = D.heap := by
    rintro l ⟨h1, h2⟩
    obtain ⟨w, h3, h4, h5, h6⟩ := hin h2
    rw [h1] at h3
    simp only [asDoubles, Res.ok.injEq] at h3
    subst h3
    exact ⟨by rw [hcs, h4], by rw [hnum, h5], by rw [hptr, h6]⟩
  obtain ⟨tn, t1, t2, t3, t4⟩ := made.target
  obtain ⟨u, v, hu, hv⟩ := (hat "target" (.i .target) (by decide +kernel) (by simp)).1 t2
  rw [t1] at hu
  have htgt : ∀ k : Int, constantInfo Eigs.constTable tn = .ok k → 0 ≤ k ∧ k < 2 ^ 32 → c.params.i .target = k := by
    intro k hk hr
    have h0 := set_const (f := .target) (by decide +kernel) hu hk hr
    have h1 := e1 (.i .target) (by decide)
    have h2 := hmeth (.i .target) (.inr (by unfold OutOfMethod; decide))
    simp only [reads, Val.int.injEq] at h1 h2 hv
    rw [h1, h2, hv, h0]
  have constants : constantInfo Eigs.constTable "primme_largest_abs" = .ok 5 ∧
      constantInfo Eigs.constTable "primme_largest" = .ok 1 ∧ constantInfo Eigs.constTable "primme_smallest" = .ok 0 ∧
      constantInfo Eigs.constTable "primme_closest_abs" = .ok 4 ∧
      constantInfo Eigs.constTable "primme_closest_leq" = .ok 3 ∧
      constantInfo Eigs.constTable "primme_closest_geq" = .ok 2 := by decide +kernel
  obtain ⟨c1, c2, c3, c4, c5, c6⟩ := constants
  constructor
  · intro w hw
    have key : ∀ k rel, (w, k, rel) ∈ R.Doc.which → constantInfo Eigs.constTable tn = .ok k → 0 ≤ k ∧ k < 2 ^ 32 →
        ((rel = true ∧ w ≠ "LM") → (w = "CGT" ∨ w = "CLT" ∨ w = "SM")) →
        ((rel = false ∨ w = "LM") → (w ≠ "CGT" ∧ w ≠ "CLT" ∧ w ≠ "SM")) →
        ∃ t rel, (w, t, rel) ∈ R.Doc.which ∧ c.params.i .target = t ∧
      (∀ l, a.targetShifts = some l → c.shifts = l ∧ c.params.i .numTargetShifts = (l.length : Int) ∧
        c.params.p .targetShifts = D.heap) ∧
      (a.targetShifts = none → rel = true → w ≠ "LM" → c.shifts = [0] ∧ c.params.i .numTargetShifts = 1 ∧
        c.params.p .targetShifts = D.heap) ∧
      (a.targetShifts = none → rel = false ∨ w = "LM" → c.shifts = [] ∧
        c.params.i .numTargetShifts = start.i .numTargetShifts ∧ c.params.p .targetShifts = start.p .targetShifts) := by
      intro k rel hk hc hr h1 h2
      refine ⟨k, rel, hk, htgt k hc hr, ?_, ?_, ?_⟩
      · intro l hl
        exact points l (made.points l (.inr (.inl ⟨w, hw, hl⟩)))
      · intro hn hrel hlm
        simpa using points [0] (made.points [0] (.inr (.inr ⟨w, hw, h1 ⟨hrel, hlm⟩, hn, rfl⟩)))
      · intro hn hrel
        obtain ⟨w1, w2, w3⟩ := h2 hrel
        have hno := made.noPoints w hw w1 w2 w3 hn ho
        obtain ⟨q1, q2⟩ := hout hno
        have q3 := (hat "targetShifts" (.p .targetShifts) (by decide +kernel) (by simp)).2 hno
        simp only [reads, Val.ptr.injEq] at q3
        exact ⟨by rw [hcs, q1], by rw [hnum, q2], by rw [hptr, q3]⟩
    have hmem := t3 w hw
    simp only [targetNames, List.mem_cons, Prod.mk.injEq, List.not_mem_nil, or_false] at hmem
    rcases hmem with ⟨rfl, rfl⟩ | ⟨rfl, rfl⟩ | ⟨rfl, rfl⟩ | ⟨rfl, rfl⟩ | ⟨rfl, rfl⟩ | ⟨rfl, rfl⟩
    · exact key 1 false (by decide) c2 (by omega) (by decide) (by decide)
    · exact key 5 true (by decide) c1 (by omega) (by decide) (by decide)
    · exact key 0 false (by decide) c3 (by omega) (by decide) (by decide)
    · exact key 2 true (by decide) c6 (by omega) (by decide) (by decide)
    · exact key 3 true (by decide) c5 (by omega) (by decide) (by decide)
    · exact key 4 true (by decide) c4 (by omega) (by decide) (by decide)
  · intro l hl
    have htn := t4 l hl
    subst htn
    exact ⟨htgt 4 c4 (by omega), points l (made.points l (.inl hl))⟩

/-- The names of parameters whose value comes from the other arguments, or is not a parameter. -/
def C56_own : List String :=
  ["n", "numEvals", "target", "targetShifts", "method", "initSize", "numOrthoConst", "nLocal", "matrix", "matrixMatvec",
   "massMatrix", "massMatrixMatvec", "preconditioner", "applyPreconditioner", "convtest", "convTestFun",
   "numTargetShifts"]

/-- **Options.**  An option with the name of a parameter of the manual gives that parameter the value, when no preset
method is asked for; with one, unless it is one of those the preset decides. -/
theorem C56_options (h : prepareR D zero start a = .ok c) {nm : String} {x : Member Eigs.IF Eigs.DF Eigs.PF} {y : Val K}
    (hm : (nm, x) ∈ Py.Doc.eigsMembers) (hn : nm ∉ C56_own) (heps : nm = "eps" → a.tol = .fn)
    (hprec : nm = "correction_precondition" → a.prec = .null)
    (hv : R.Doc.Means x (a.opts.exact nm) y) (hy : fits Eigs.ctype x y)
    (hmeth : "method" ∉ a.opts.map Prod.fst ∨ OutOfMethod x) : reads c.params x = y := by
  obtain ⟨o, m, s, t, made, he, names, hat, hin, hout, hloc, -, hsh, hmth, hnone⟩ := call_holds h
  have en := enter_ok he
  have hmem : nm ∈ a.opts.map Prod.fst := mem_of_exact _ (by rintro hx; rw [hx] at hv; cases hv)
  have hex : o.exact nm = a.opts.exact nm ∧ nm ∈ o.map Prod.fst := by
    by_cases hq : nm = "eps"
    · subst hq
      obtain ⟨h1, h2⟩ := made.tolFn (heps rfl)
      exact ⟨h1, h2.2 hmem⟩
    · obtain ⟨h1, h2⟩ := made.others nm (by
        intro hx
        simp only [List.mem_cons, List.not_mem_nil, or_false] at hx
        rcases hx with rfl | rfl | rfl | rfl | rfl | rfl
        · exact hn (by decide)
        · exact hn (by decide)
        · exact hn (by decide)
        · exact hn (by decide)
        · exact hq rfl
        · exact hn (by decide))
      exact ⟨h1, h2.2 hmem⟩
  have own : ∀ e ∈ Py.Doc.eigsMembers, e.1 ∉ C56_own → e.2 ≠ .i .numTargetShifts ∧
      (e.2 ∈ entered → e.1 = "correction_precondition" ∧ e.2 = .i .correctionParams_precondition) := by decide +kernel
  obtain ⟨hnt, hent⟩ := own _ hm hn
  obtain ⟨u, v, hu, hr⟩ := (hat nm x hm hnt).1 hex.2
  rw [hex.1] at hu
  have hset : reads v.params x = y := by
    generalize a.opts.exact nm = w at hu hv
    cases hv with
    | int f k =>
      exact setMemberR_means (eigs_kind D.heap) hm hu rfl hy
    | whole f k hk =>
      have := set_number hm hu (.inr rfl) hk hy
      simp only [reads, this]
    | name f q k hk =>
      have := set_const hm hu hk hy
      simp only [reads, this]
    | real f q =>
      have := set_real hm hu rfl
      simp only [reads, this]
    | fromInt f k => exact setMemberR_means (eigs_kind D.heap) hm hu rfl hy
    | seed w hw =>
      have := set_seed hw hm hu
      simp only [reads, this]
  have hkeep : reads c.params x = reads t.params x := by
    by_cases hq : x ∈ entered
    · obtain ⟨h1, h2⟩ := hent hq
      simp only at h2
      subst h2
      have h3 := en.2.2.2.2.2.2.2.2.1
      rw [hprec h1] at h3
      simp only [reads, h3, heldPrec, if_true]
    · exact en.1 x hq
  rw [hkeep, hmth x (hmeth.imp_left hnone), hr, hset]

/-- **Preset.**  A preset is applied by the library itself, after the options: the structure is the one of the options
(`s`, in which the options hold) with the preset applied, and then what `C56_problem` says of the operators, the guesses
and the constraints. -/
theorem C56_method (h : prepareR D zero start a = .ok c) {name : String} (hm : a.opts.exact "method" = .str [name]) :
    ∃ v, constantInfo Eigs.constTable name = .ok v ∧ ∃ s : Eigs.EP K,
      (∀ x, x ∉ entered → reads c.params x = reads (Eigs.setMethod v s).2 x) ∧
      (a.prec = .null → c.params.i .correctionParams_precondition =
        (Eigs.setMethod v s).2.i .correctionParams_precondition) ∧
      (∀ nm x y, (nm, x) ∈ Py.Doc.eigsMembers → nm ∉ C56_own → nm ≠ "eps" → R.Doc.Means x (a.opts.exact nm) y →
        fits Eigs.ctype x y → reads s x = y) ∧
      (∀ nm x, (nm, x) ∈ Py.Doc.eigsMembers → nm ∉ C56_own → nm ≠ "eps" → nm ∉ a.opts.map Prod.fst →
        reads s x = reads start x) := by
  obtain ⟨o, m, s, t, made, he, names, hat, hin, hout, hloc, hset, hsh, hmth, hnone⟩ := call_holds h
  have en := enter_ok he
  have hmm := made.method (mem_of_exact _ (by rw [hm]; simp))
  rw [hmm, hm] at hset
  unfold setMethodR at hset
  simp only at hset
  split at hset
  · rename_i v hv
    simp only [Res.ok.injEq] at hset
    subst hset
    have hpre : presetAct v s.params = (Eigs.setMethod v s.params).2 := by
      unfold presetAct
      rw [Eigs.callMethod_total 0 v s.params]
    have own : ∀ e ∈ Py.Doc.eigsMembers, e.1 ∉ C56_own → e.2 ≠ .i .numTargetShifts := by decide +kernel
    have hoth : ∀ nm, nm ∉ C56_own → nm ≠ "eps" → o.exact nm = a.opts.exact nm ∧
        (nm ∈ o.map Prod.fst ↔ nm ∈ a.opts.map Prod.fst) := by
      intro nm hn hq
      refine made.others nm ?_
      intro hx
      simp only [List.mem_cons, List.not_mem_nil, or_false] at hx
      rcases hx with rfl | rfl | rfl | rfl | rfl | rfl
      · exact hn (by decide)
      · exact hn (by decide)
      · exact hn (by decide)
      · exact hn (by decide)
      · exact hq rfl
      · exact hn (by decide)
    refine ⟨v, hv, s.params, ?_, ?_, ?_, ?_⟩
    · intro x hx
      rw [en.1 x hx, ← hpre]
    · intro hp
      have h3 := en.2.2.2.2.2.2.2.2.1
      rw [hp] at h3
      rw [h3, ← hpre]
      simp [heldPrec]
    · intro nm x y hx hn hq hv' hy
      obtain ⟨q1, q2⟩ := hoth nm hn hq
      have hmem : nm ∈ a.opts.map Prod.fst := mem_of_exact _ (by rintro hx; rw [hx] at hv'; cases hv')
      obtain ⟨u, w, hu, hr⟩ := (hat nm x hx (own _ hx hn)).1 (q2.2 hmem)
      rw [q1] at hu
      rw [hr]
      generalize a.opts.exact nm = z at hu hv'
      cases hv' with
      | int f k => exact setMemberR_means (eigs_kind D.heap) hx hu rfl hy
      | whole f k hk =>
        have := set_number hx hu (.inr rfl) hk hy
        simp only [reads, this]
      | name f q k hk =>
        have := set_const hx hu hk hy
        simp only [reads, this]
      | real f q =>
        have := set_real hx hu rfl
        simp only [reads, this]
      | fromInt f k => exact setMemberR_means (eigs_kind D.heap) hx hu rfl hy
      | seed w hw =>
        have := set_seed hw hx hu
        simp only [reads, this]
    · intro nm x hx hn hq hno
      exact (hat nm x hx (own _ hx hn)).2 (fun hh => hno ((hoth nm hn hq).2.1 hh))
  · simp at hset

/-- **Nothing else.**  A parameter that no argument names keeps the value of the fresh structure, unless a preset decides
it. -/
theorem C56_nothing_else (h : prepareR D zero start a = .ok c) {nm : String} {x : Member Eigs.IF Eigs.DF Eigs.PF}
    (hm : (nm, x) ∈ Py.Doc.eigsMembers) (hn : nm ∉ C56_own) (heps : nm = "eps" → a.tol = .fn)
    (hprec : nm = "correction_precondition" → a.prec = .null) (hno : nm ∉ a.opts.map Prod.fst)
    (hmeth : "method" ∉ a.opts.map Prod.fst ∨ OutOfMethod x) : reads c.params x = reads start x := by
  obtain ⟨o, m, s, t, made, he, names, hat, hin, hout, hloc, -, hsh, hmth, hnone⟩ := call_holds h
  have en := enter_ok he
  have hnot : nm ∉ o.map Prod.fst := by
    by_cases hq : nm = "eps"
    · subst hq
      exact fun hh => hno ((made.tolFn (heps rfl)).2.1 hh)
    · obtain ⟨h1, h2⟩ := made.others nm (by
        intro hx
        simp only [List.mem_cons, List.not_mem_nil, or_false] at hx
        rcases hx with rfl | rfl | rfl | rfl | rfl | rfl
        · exact hn (by decide)
        · exact hn (by decide)
        · exact hn (by decide)
        · exact hn (by decide)
        · exact hq rfl
        · exact hn (by decide))
      exact fun hh => hno (h2.1 hh)
  have own : ∀ e ∈ Py.Doc.eigsMembers, e.1 ∉ C56_own → e.2 ≠ .i .numTargetShifts ∧
      (e.2 ∈ entered → e.1 = "correction_precondition" ∧ e.2 = .i .correctionParams_precondition) := by decide +kernel
  obtain ⟨hnt, hent⟩ := own _ hm hn
  have hr := (hat nm x hm hnt).2 hnot
  have hkeep : reads c.params x = reads t.params x := by
    by_cases hq : x ∈ entered
    · obtain ⟨h1, h2⟩ := hent hq
      simp only at h2
      subst h2
      have h3 := en.2.2.2.2.2.2.2.2.1
      rw [hprec h1] at h3
      simp only [reads, h3, heldPrec, if_true]
    · exact en.1 x hq
  rw [hkeep, hmth x (hmeth.imp_left hnone), hr]

/-- **Always defined.**  Whatever the arguments, getting to the call of the library is not undefined. -/
theorem C56_defined (D : RAddrs) (zero : V) (start : Eigs.EP K) (a : EigsArgs K V) : prepareR D zero start a ≠ .ub := by
  intro h
  unfold prepareR at h
  cases h1 : options a with
  | ub =>
    unfold options at h1
    cases q1 : setDim a with
    | ub =>
      unfold setDim at q1
      split at q1 <;> first | (split at q1 <;> simp at q1) | simp at q1
    | raise e => rw [q1] at h1; simp [Res.bind] at h1
    | ok o1 =>
      rw [q1] at h1
      simp only [Res.bind] at h1
      split at h1
      · simp at h1
      · cases q2 : setCount a o1 with
        | ub =>
          unfold setCount at q2
          split at q2
          · split at q2 <;> simp at q2
          · simp at q2
        | raise e => rw [q2] at h1; simp at h1
        | ok o2 =>
          rw [q2] at h1
          simp only at h1
          cases q3 : setWhich a o2 with
          | ub =>
            unfold setWhich at q3
            split at q3
            · split at q3 <;> simp at q3
            · simp at q3
            · simp at q3
          | raise e => rw [q3] at h1; simp at h1
          | ok o3 =>
            rw [q3] at h1
            simp only at h1
            cases q4 : setTol a o3 with
            | ub =>
              unfold setTol at q4
              split at q4
              · simp at q4
              · split at q4 <;> simp at q4
              · simp at q4
            | raise e => rw [q4] at h1; simp at h1
            | ok o4 =>
              rw [q4] at h1
              simp only at h1
              split at h1
              · simp at h1
              · split at h1 <;> simp at h1
  | raise e => rw [h1] at h; simp [Res.bind] at h
  | ok om =>
    obtain ⟨o, m⟩ := om
    rw [h1] at h
    simp only [Res.bind] at h
    cases h2 : setAll (eigsKind D.heap) o (o.map Prod.fst) ⟨start, []⟩ with
    | ub => exact setAll_no_ub (eigs_kind D.heap) _ _ _ h2
    | raise e => rw [h2] at h; simp at h
    | ok s =>
      rw [h2] at h
      simp only at h
      cases h3 : setMethodR m s with
      | ub =>
        unfold setMethodR at h3
        split at h3
        · simp at h3
        · split at h3 <;> simp at h3
        · simp at h3
      | raise e => rw [h3] at h; simp at h
      | ok t =>
        rw [h3] at h
        simp only at h
        unfold enter at h
        generalize (if t.params.i .nLocal = -1 then t.params.setI .nLocal (t.params.i .n) else t.params) = p0 at h
        dsimp only at h
        by_cases q1 : rowsOf a.ortho ≠ 0 ∧ (rowsOf a.ortho : Int) ≠ p0.i .nLocal
        · rw [if_pos q1] at h; simp at h
        rw [if_neg q1] at h
        by_cases q2 : rowsOf a.x0 ≠ 0 ∧ (rowsOf a.x0 : Int) ≠ p0.i .nLocal
        · rw [if_pos q2] at h; simp at h
        rw [if_neg q2] at h
        by_cases q3 : p0.i .numEvals < 0 ∨ p0.i .nLocal < 0
        · rw [if_pos q3] at h; simp at h
        rw [if_neg q3] at h
        simp at h

/-- Arguments that say nothing sensible. -/
inductive C56_Bad (a : EigsArgs K V) : Prop where
  | operator (h : a.A = .bad)
  | square (m : RMatrix) (h : a.A = .mat m) (h' : m.rows ≠ m.cols)
  | noDimension (h : a.A = .fn) (h' : whole (a.opts.dollar "n") = false)
  | mass (m : RMatrix) (h : a.B = some (.mat m)) (h' : m.rows ≠ m.cols)
  | massSize (N : Nat) (hN : R.Doc.Dim a N) (m : RMatrix) (h : a.B = some (.mat m)) (h' : m.rows ≠ N)
  | massOther (h : a.B = some .bad)
  | fraction (h : whole a.NEig = false)
  | count (N : Nat) (hN : R.Doc.Dim a N) (k : K) (h : number a.NEig = some k) (h' : (N : K) < k)
  | name (w : String) (h : a.which = .name w) (h' : ∀ e ∈ R.Doc.which, e.1 ≠ w)
  | whichOther (h : a.which = .other)
  | tolerance (x : K) (h : a.tol = .num x) (h' : x < 0 ∨ 1 ≤ x)
  | tolOther (h : a.tol = .other)
  | guess (N : Nat) (hN : R.Doc.Dim a N) (v : Arr V) (h : a.x0 = .mat v) (h' : v.rows ≠ N)
  | guessOther (h : a.x0 = .other)
  | ortho (N : Nat) (hN : R.Doc.Dim a N) (v : Arr V) (h : a.ortho = .mat v) (h' : v.rows ≠ N)
  | orthoOther (h : a.ortho = .other)
  | prec (N : Nat) (hN : R.Doc.Dim a N) (r k : Nat) (h : a.prec = .mat r k) (h' : r ≠ N ∨ k ≠ N)
  | precOther (h : a.prec = .other)
  | isreal (h : a.isreal = .other)
  | option (e : String × RVal K) (h : e ∈ a.opts) (h' : ∀ p ∈ Py.Doc.eigsMembers, p.1 ≠ e.1) (h'' : e.1 ≠ "method")
  | preset (nm : String) (h : a.opts.exact "method" = .str [nm]) (h' : ∀ v, constantInfo Eigs.constTable nm ≠ .ok v)

private theorem dim_rows {N : Nat} (hN : R.Doc.Dim a N) : (∃ x, a.A = .mat x ∧ x.rows = N) ∨
    (a.A = .fn ∧ "n" ∈ a.opts.map Prod.fst ∧ number (a.opts.exact "n") = some (N : K)) := by
  rcases hN with h | ⟨hA, h⟩
  · exact .inl h
  · right
    rcases h with h | h
    · exact ⟨hA, mem_of_exact _ (by rw [h]; simp), by rw [h]; simp [number]⟩
    · exact ⟨hA, mem_of_exact _ (by rw [h]; simp), by rw [h]; simp [number]⟩

/-- **Bad arguments raise an error before the library is called.** -/
theorem C56_rejects (h : C56_Bad a) : ∃ e, prepareR D zero start a = .raise e := by
  cases hp : prepareR D zero start a with
  | raise e => exact ⟨e, rfl⟩
  | ub => exact absurd hp (C56_defined _ _ _ _)
  | ok c =>
    exfalso
    obtain ⟨o, m, s, t, made, he, names, hat, hin, hout, hloc, hset, hsh, hmth, hnone⟩ := call_holds hp
    cases h with
    | operator h => exact made.dimBad h
    | square x h h' => exact h' (made.dimMat x h).1
    | noDimension h h' => have := made.dimFn h; rw [h'] at this; simp at this
    | mass x h h' => exact h' (made.mass x h)
    | massSize N hN x h h' => exact h' ((made.rows N (dim_rows hN)).1 x h)
    | massOther h => exact made.massBad h
    | fraction h => have := made.count.1; rw [h] at this; simp at this
    | count N hN k h h' => exact absurd ((made.rows N (dim_rows hN)).2.2.2.2 k h) (not_le.2 h')
    | name w h h' =>
      obtain ⟨tn, -, -, h3, -⟩ := made.target
      have h4 := h3 w h
      have : ∀ e ∈ targetNames, ∃ d ∈ R.Doc.which, d.1 = e.1 := by decide
      obtain ⟨d, hd, hd'⟩ := this _ h4
      exact h' d hd hd'
    | whichOther h => exact made.whichBad h
    | tolerance x h h' =>
      obtain ⟨h1, h2, -⟩ := made.tol x h
      rcases h' with h' | h'
      · exact absurd h1 (not_le.2 h')
      · exact absurd h2 (not_lt.2 h')
    | tolOther h => exact made.tolBad h
    | guess N hN v h h' => exact h' ((made.rows N (dim_rows hN)).2.1 v h)
    | guessOther h => exact made.x0Bad h
    | ortho N hN v h h' => exact h' ((made.rows N (dim_rows hN)).2.2.1 v h)
    | orthoOther h => exact made.orthoBad h
    | prec N hN r k h h' =>
      have := (made.rows N (dim_rows hN)).2.2.2.1 r k h
      rcases h' with h' | h'
      · exact h' this.1
      · exact h' this.2
    | precOther h => exact made.precBad h
    | isreal h => exact made.isreal h
    | option e h h' h'' =>
      have hin : e.1 ∈ a.opts.map Prod.fst := List.mem_map_of_mem h
      have known : ∀ x ∈ ["n", "numEvals", "target", "targetShifts", "eps"], ∃ p ∈ Py.Doc.eigsMembers, p.1 = x := by
        decide +kernel
      have hno : e.1 ∉ ["n", "numEvals", "target", "targetShifts", "eps", "method"] := by
        intro hx
        have : e.1 ∈ ["n", "numEvals", "target", "targetShifts", "eps"] ∨ e.1 = "method" := by
          simp only [List.mem_cons, List.not_mem_nil, or_false] at hx ⊢
          tauto
        rcases this with hx | hx
        · obtain ⟨p, hp, hp'⟩ := known _ hx
          exact h' p hp hp'
        · exact h'' hx
      obtain ⟨x, hx⟩ := names e.1 ((made.others e.1 hno).2.2 hin)
      exact h' _ hx rfl
    | preset nm h h' =>
      have hmm := made.method (mem_of_exact _ (by rw [h]; simp))
      rw [hmm, h] at hset
      simp only [setMethodR] at hset
      cases hc : constantInfo Eigs.constTable nm with
      | ok v => exact h' v hc
      | _ => simp at hset

/-- **The vectors.**  The array given to the library has as many rows as the problem and room for the constraints and for
as many vectors as guesses or wanted values; the constraints come first, then the guesses, then zeros. -/
theorem C56_vectors {N k : Nat} (h : prepareR D zero start a = .ok c) (hs : start.i .nLocal = -1)
    (hN : R.Doc.Dim a N) (hN' : (N : Int) < 2 ^ 31) (hk : number a.NEig = some (k : K)) :
    c.height = N ∧ c.values = k ∧ (c.width : Int) = c.params.i .numOrthoConst +
      max (c.params.i .initSize) (c.params.i .numEvals) ∧
    (∀ v, a.ortho = .mat v → ∀ j < v.cols, ∀ i < N, c.evecs j i = v.at' i j) ∧
    (∀ v, a.x0 = .mat v → ∀ j < v.cols, ∀ i < N, c.evecs ((c.params.i .numOrthoConst).toNat + j) i = v.at' i j) ∧
    (∀ j : Nat, c.params.i .numOrthoConst + c.params.i .initSize ≤ (j : Int) → ∀ i, c.evecs j i = zero) := by
  obtain ⟨p1, p2, -, p4, -, -, p7, p8, p9, p10, -⟩ := C56_problem h hs hN hN'
  obtain ⟨o, m, s, t, made, he, -⟩ := call_holds h
  obtain ⟨e1, e2, e3, e4, e5, e6, e7, e8, e9, e10, e11, e12, e13, e14, f1, f2, f3, f4, f5, f6, f7, f8, f9, f10⟩ := enter_ok he
  obtain ⟨hle, hne⟩ := p4 k hk
  have hte := e1 (.i .numEvals) (by decide)
  simp only [reads, Val.int.injEq] at hte
  have hval : c.values = k := by rw [f7, ← hte, hne]; simp
  refine ⟨by rw [f8, p2]; simp, hval, ?_, ?_, ?_, ?_⟩
  · rw [f9, e7, e8, hne, hval]; push_cast; rfl
  · intro v hv j hj i hi
    have : j < colsOf a.ortho := by rw [hv]; exact hj
    simp only [f10]
    rw [if_pos this, hv]
    rfl
  · intro v hv j hj i hi
    rw [f10]
    have h1 : (c.params.i .numOrthoConst).toNat = colsOf a.ortho := by rw [e7]; simp
    have h2 : j < colsOf a.x0 := by rw [hv]; exact hj
    rw [h1]
    simp only [show ¬ (colsOf a.ortho + j < colsOf a.ortho) by omega,
      show colsOf a.ortho + j < colsOf a.ortho + colsOf a.x0 by omega, if_true, if_false, Nat.add_sub_cancel_left]
    rw [hv]
    rfl
  · intro j hj i
    rw [f10]
    rw [e7, e8] at hj
    simp only [show ¬ (j < colsOf a.ortho) by omega, show ¬ (j < colsOf a.ortho + colsOf a.x0) by omega, if_false]

/-- **Which arithmetic, and which operators.**  The answer of `isreal` decides whether the real or the complex solver is
called; when it is not given, a function is taken for complex, and a matrix for what its entries are.  A function is called
as it is; a matrix is used as a matrix or through its products. -/
theorem C56_arithmetic (h : prepareR D zero start a = .ok c) :
    (∀ b, a.isreal = .val b → c.real = b) ∧ (a.isreal = .null → a.A = .fn → c.real = false) ∧
    (∀ x, a.isreal = .null → a.A = .mat x → x.cls ∈ [.double, .integral, .dge, .dgC, .dsC, .dtC, .otherD] →
      c.real = true) ∧
    (∀ x, a.isreal = .null → a.A = .mat x → x.cls = .complex → c.real = false) ∧
    (a.A = .fn → c.A = .user) ∧ (∀ x, a.A = .mat x → c.A = .product ∨ c.A = .direct (asStored x.cls)) ∧
    (a.B = none → c.B = .nothing) ∧ (a.B = some .fn → c.B = .user) ∧
    (∀ x, a.B = some (.mat x) → c.B = .product ∨ c.B = .direct (asStored x.cls)) ∧
    (a.prec = .null → c.prec = .nothing) ∧ (a.prec = .fn → c.prec = .user) ∧
    c.convTest = decide (a.tol = .fn) := by
  obtain ⟨o, m, s, t, made, he, -⟩ := call_holds h
  obtain ⟨-, -, -, -, -, -, -, -, -, -, -, -, -, -, f1, f2, f3, f4, f5, f6, -⟩ := enter_ok he
  refine ⟨?_, ?_, ?_, ?_, ?_, ?_, ?_, ?_, ?_, ?_, ?_, f6⟩
  · intro b hb; rw [f1]; simp [computesReal, hb]
  · intro hr hA; rw [f1]; simp [computesReal, hr, hA, suggestion]
  · intro x hr hA hx
    rw [f1]
    simp only [computesReal, hr, hA, suggestion]
    have : ∀ q ∈ ([.double, .integral, .dge, .dgC, .dsC, .dtC, .otherD] : List MClass), suggests q = true := by decide
    exact this _ hx
  · intro x hr hA hx
    rw [f1]
    simp only [computesReal, hr, hA, suggestion, hx]
    decide
  · intro hA; rw [f3, hA]; rfl
  · intro x hA
    rw [f3, hA]
    simp only [heldA]
    split <;> simp
  · intro hB; rw [f4, hB]; rfl
  · intro hB; rw [f4, hB]; rfl
  · intro x hA
    rw [f4, hA]
    simp only [heldB]
    split <;> simp
  · intro hp; rw [f5, hp]; rfl
  · intro hp; rw [f5, hp]; rfl

/-- Arguments as documented, with the ranges of R integers. -/
structure C56_Good (a : EigsArgs K V) (N k : Nat) : Prop where
  dim : R.Doc.Dim a N
  square : ∀ x, a.A = .mat x → x.rows = x.cols
  size : (N : Int) < 2 ^ 31
  mass : a.B = none ∨ a.B = some .fn ∨ ∃ x, a.B = some (.mat x) ∧ x.rows = N ∧ x.cols = N
  count : number a.NEig = some (k : K)
  few : k ≤ N
  which : (∃ e ∈ R.Doc.which, a.which = .name e.1) ∨ ∃ l, a.which = .nums l
  tol : a.tol = .fn ∨ ∃ x, a.tol = .num x ∧ 0 ≤ x ∧ x < 1
  guess : a.x0 = .null ∨ ∃ v, a.x0 = .mat v ∧ v.rows = N
  ortho : a.ortho = .null ∨ ∃ v, a.ortho = .mat v ∧ v.rows = N
  prec : a.prec = .null ∨ a.prec = .fn ∨ a.prec = .mat N N
  isreal : a.isreal ≠ .other
  options : ∀ e ∈ a.opts, e.1 = "method" ∨ ∃ x y, (e.1, x) ∈ Py.Doc.eigsMembers ∧
    e.1 ∉ ["targetShifts", "ShiftsForPreconditioner", "profile", "stats_numGlobalSum", "stats_numBroadcast", "nLocal",
      "numProcs", "procID", "numTargetShifts", "ldevecs", "ldOPs"] ∧ R.Doc.Means x e.2 y ∧ fits Eigs.ctype x y
  once : (a.opts.map Prod.fst).count "method" ≤ 1
  preset : "method" ∈ a.opts.map Prod.fst → ∃ nm v, a.opts.exact "method" = .str [nm] ∧
    constantInfo Eigs.constTable nm = .ok v

private theorem exact_mem {o : Opts K} {nm : String} (h : nm ∈ o.map Prod.fst) : (nm, o.exact nm) ∈ o := by
  induction o with
  | nil => simp at h
  | cons e r ih =>
    unfold Opts.exact
    by_cases he : e.1 = nm
    · rw [if_pos he, ← he]; simp
    · rw [if_neg he]
      rw [List.map_cons, List.mem_cons] at h
      rcases h with h | h
      · exact absurd h.symm he
      · exact List.mem_cons_of_mem _ (ih h)

private theorem whole_nat {w : RVal K} {k : Nat} (h : number w = some (k : K)) : whole w = true := by
  rcases number_nat h with rfl | rfl
  · rfl
  · exact whole_int (k : Int)

/-- Good arguments make a list of options. -/
private theorem options_can {N k : Nat} (g : C56_Good a N k) : ∃ o m, options a = .ok (o, m) := by
  have h1 : ∃ o1, setDim a = .ok o1 ∧ number (o1.dollar "n") = some (N : K) ∧ "n" ∈ o1.map Prod.fst := by
    rcases g.dim with ⟨x, hx, rfl⟩ | ⟨hA, hn⟩
    · refine ⟨a.opts.put "n" (.int [(x.rows : Int)]), ?_, ?_, ?_⟩
      · unfold setDim; rw [hx]; simp only [g.square x hx, if_true]
      · rw [dollar_mem _ (by rw [mem_put]; simp), exact_put_self]; simp [number]
      · rw [mem_put]; simp
    · have hm : "n" ∈ a.opts.map Prod.fst := by
        rcases hn with h | h <;> exact mem_of_exact _ (by rw [h]; simp)
      have hnum : number (a.opts.exact "n") = some (N : K) := by
        rcases hn with h | h <;> (rw [h]; simp [number])
      refine ⟨a.opts, ?_, by rw [dollar_mem _ hm, hnum], hm⟩
      unfold setDim
      rw [hA]
      simp only
      rw [dollar_mem _ hm, if_pos (whole_nat hnum)]
  obtain ⟨o1, d1, d2, d3⟩ := h1
  have rows : ∀ (o : Opts K), number (o.dollar "n") = some (N : K) → rowsAre o N = true := by
    intro o ho; unfold rowsAre; rw [ho]; simp
  have hB : testB o1 a.B = true := by
    rcases g.mass with h | h | ⟨x, h, hr, hc⟩
    · rw [h]; rfl
    · rw [h]; rfl
    · rw [h]; simp only [testB, hr, hc, rows o1 d2]; simp
  have h2 : setCount a o1 = .ok (o1.put "numEvals" a.NEig) := by
    unfold setCount
    rw [g.count, d2]
    simp only
    rw [if_neg]
    rw [whole_nat g.count, not_or]
    exact ⟨by simp, not_lt.2 (by exact_mod_cast g.few)⟩
  have h3 : ∃ o3, setWhich a (o1.put "numEvals" a.NEig) = .ok o3 := by
    rcases g.which with ⟨e, he, hw⟩ | ⟨l, hw⟩
    · unfold setWhich
      rw [hw]
      simp only
      have : ∀ e ∈ R.Doc.which, (targetNames.find? (fun p => p.1 = e.1)).isSome = true := by decide
      obtain ⟨q, hq⟩ := Option.isSome_iff_exists.1 (this e he)
      rw [hq]
      exact ⟨_, rfl⟩
    · unfold setWhich
      rw [hw]
      exact ⟨_, rfl⟩
  obtain ⟨o3, h3⟩ := h3
  have h4 : ∃ o4, setTol a o3 = .ok o4 := by
    rcases g.tol with h | ⟨x, h, hx, hx'⟩
    · unfold setTol; rw [h]; exact ⟨_, rfl⟩
    · unfold setTol
      rw [h]
      simp only
      rw [if_neg (by rw [not_or]; exact ⟨not_lt.2 hx, not_le.2 hx'⟩)]
      exact ⟨_, rfl⟩
  obtain ⟨o4, h4⟩ := h4
  have hn4 : number (o4.dollar "n") = some (N : K) := by
    obtain ⟨-, -, -, t4⟩ := setTol_ok h4
    obtain ⟨-, -, -, -, w5⟩ := setWhich_ok h3
    have e1 := t4 "n" (by decide)
    have e2 := w5 "n" (by decide) (by decide)
    have hm : "n" ∈ o4.map Prod.fst := by rw [e1.2, e2.2, mem_put]; exact .inr d3
    rw [dollar_mem _ hm, e1.1, e2.1, exact_put_other _ (by decide), ← dollar_mem _ d3, d2]
  have hv : ∀ v : RVecs V, (v = .null ∨ ∃ x, v = .mat x ∧ x.rows = N) → testVecs o4 v = true := by
    rintro v (rfl | ⟨x, rfl, hx⟩)
    · rfl
    · simp only [testVecs, hx, rows o4 hn4]
  have hp : testPrec o4 a.prec = true := by
    rcases g.prec with h | h | h <;> rw [h]
    · rfl
    · rfl
    · simp only [testPrec, rows o4 hn4]; rfl
  refine ⟨o4.drop "method", o4.dollar "method", ?_⟩
  unfold options
  rw [d1]
  simp only [Res.bind]
  rw [if_neg (by rw [hB]; simp), h2]
  simp only
  rw [h3]
  simp only
  rw [h4]
  simp only
  rw [if_neg (by rw [hv _ g.guess, hv _ g.ortho, hp]; simp), if_neg g.isreal]

private theorem iseed_info : memberInfo eigsTables.names eigsTables.types (some 0) (some (some "iseed")) =
    .ok (some 28, some (some "iseed"), .int, 4) := by decide +kernel

private theorem shifts_info : memberInfo eigsTables.names eigsTables.types (some 0) (some (some "targetShifts")) =
    .ok (some 19, some (some "targetShifts"), .double, 0) := by decide +kernel

/-- A good option can be set. -/
theorem C56_set_can (heap : Nat) {nm : String} {x : Member Eigs.IF Eigs.DF Eigs.PF} {w : RVal K} {y : Val K}
    (hm : (nm, x) ∈ Py.Doc.eigsMembers)
    (hn : nm ∉ ["targetShifts", "ShiftsForPreconditioner", "profile", "stats_numGlobalSum", "stats_numBroadcast", "nLocal",
      "numProcs", "procID", "numTargetShifts", "ldevecs", "ldOPs"])
    (hw : R.Doc.Means x w y) (hy : fits Eigs.ctype x y) (u : ES K) : ∃ t, setMemberR (eigsKind heap) u nm w = .ok t := by
  have table : ∀ e ∈ Py.Doc.eigsMembers, e.1 ∉ ["targetShifts", "ShiftsForPreconditioner", "profile", "stats_numGlobalSum",
      "stats_numBroadcast", "nLocal", "numProcs", "procID", "numTargetShifts", "ldevecs", "ldOPs"] →
      (match e.2 with
        | .i _ => true
        | .d _ => true
        | _ => false) = true → ∃ l ∈ Eigs.infoNames, l.1 = e.1 ∧
      select Eigs.setTable l.2 = some (setEntryFor Eigs.ctype e.2) ∧
      l.2 ∉ [8, 9, 10, 11, 12, 18, 36, 37, 39, 80, 83, 84, 6, 2, (4 : Int)] := by decide +kernel
  have can : ∀ {x : Member Eigs.IF Eigs.DF Eigs.PF} {w : RVal K} {y : Val K}, (nm, x) ∈ Py.Doc.eigsMembers → (match x with
        | .i _ => true
        | .d _ => true
        | _ => false) = true → fits Eigs.ctype x y → meantR Eigs.constTable x w = some y →
        ∃ t, setMemberR (eigsKind heap) u nm w = .ok t := by
    intro x w y hm hq hy hv
    obtain ⟨⟨nm', l⟩, hl, rfl, he, hf⟩ := table _ hm hn hq
    exact setMemberR_can (eigs_kind heap) u hl hm he hf hv hy
  cases hw with
  | int f k => exact can hm rfl hy rfl
  | whole f k hk =>
    refine can hm rfl hy ?_
    show some (Val.int (toRInt (k : K))) = some (.int k)
    rw [toRInt_int hk.1 hk.2]
  | name f q k hk =>
    refine can hm rfl hy ?_
    simp only [meantR, hk]
  | real f q => exact can hm rfl hy rfl
  | fromInt f k => exact can hm rfl hy rfl
  | seed w hw =>
    have : ∀ e ∈ Py.Doc.eigsMembers, e.2 = .seed → e.1 = "iseed" := by decide +kernel
    have hnm : nm = "iseed" := this _ hm rfl
    subst hnm
    have hi : memberInfo (eigsKind heap).T.names (eigsKind heap).T.types (some 0) (some (some "iseed")) =
      .ok (some 28, some (some "iseed"), .int, 4) := iseed_info
    simp only [setMemberR, hi]
    rw [if_pos (show (28 : Int) = (eigsKind heap).seed from rfl)]
    simp only [asInts, Res.bind, hw, dif_pos]
    exact ⟨_, rfl⟩

private theorem shifts_can (heap : Nat) (l : List K) (u : ES K) :
    ∃ t, setMemberR (eigsKind heap) u "targetShifts" (.real l) = .ok t := by
  have hi : memberInfo (eigsKind heap).T.names (eigsKind heap).T.types (some 0) (some (some "targetShifts")) =
    .ok (some 19, some (some "targetShifts"), .double, 0) := shifts_info
  simp only [setMemberR, hi]
  rw [if_neg (show ¬ (19 : Int) = (eigsKind heap).seed from show ¬ (19 : Int) = 28 by decide),
    if_pos (show (19 : Int) = (eigsKind heap).shifts from rfl)]
  simp only [asDoubles, Res.bind]
  exact ⟨_, rfl⟩

/-- **Good arguments reach the library.** -/
theorem C56_accepts {N k : Nat} (hs : start.i .nLocal = -1) (g : C56_Good a N k) :
    ∃ c, prepareR D zero start a = .ok c := by
  obtain ⟨o, m, h1⟩ := options_can g
  have made := options_made h1
  have consts : ∀ e ∈ targetNames, ∃ v : Int, constantInfo Eigs.constTable e.2 = .ok v ∧ 0 ≤ v ∧ v < 2 ^ 32 := by
    have : ∀ e ∈ targetNames, (match constantInfo Eigs.constTable e.2 with
      | .ok v => decide (0 ≤ v ∧ v < 2 ^ 32)
      | _ => false) = true := by decide +kernel
    intro e he
    have h := this e he
    split at h
    · rename_i v hv
      exact ⟨v, hv, by simpa using h⟩
    · simp at h
  have hdim : (o.exact "n" = .int [(N : Int)] ∨ o.exact "n" = .real [((N : Int) : K)]) ∧ "n" ∈ o.map Prod.fst := by
    rcases g.dim with ⟨x, hx, rfl⟩ | ⟨hA, hn⟩
    · obtain ⟨-, q1, q2⟩ := made.dimMat x hx
      exact ⟨.inl q1, q2⟩
    · obtain ⟨q1, q2⟩ := made.dim hA
      refine ⟨by rw [q1]; push_cast; exact hn, q2.2 ?_⟩
      rcases hn with h | h <;> exact mem_of_exact _ (by rw [h]; simp)
  have hN := g.size
  have hk : (k : Int) < 2 ^ 31 := by have := g.few; omega
  have each : ∀ nm ∈ o.map Prod.fst, ∀ s : ES K, ∃ t, setMemberR (eigsKind D.heap) s nm (o.exact nm) = .ok t := by
    intro nm hnm s
    by_cases hf : nm ∈ ["n", "numEvals", "target", "targetShifts", "eps", "method"]
    · simp only [List.mem_cons, List.not_mem_nil, or_false] at hf
      rcases hf with rfl | rfl | rfl | rfl | rfl | rfl
      · have hm : R.Doc.Means (.i .n) (o.exact "n") (.int N) := by
          rcases hdim.1 with h | h <;> rw [h]
          · exact .int _ _
          · exact .whole _ _ ⟨by omega, hN⟩
        exact C56_set_can D.heap (by decide +kernel) (by decide) hm ⟨by omega, by omega⟩ s
      · have hm : R.Doc.Means (.i .numEvals) (o.exact "numEvals") (.int k) := by
          rw [made.count.2.1]
          rcases number_nat g.count with h | h <;> rw [h]
          · exact .int _ _
          · exact .whole _ _ ⟨by omega, hk⟩
        exact C56_set_can D.heap (by decide +kernel) (by decide) hm ⟨by omega, by omega⟩ s
      · obtain ⟨tn, q1, -, q3, q4⟩ := made.target
        have : ∃ w, (w, tn) ∈ targetNames := by
          rcases g.which with ⟨e, he, hw⟩ | ⟨l, hw⟩
          · exact ⟨_, q3 _ hw⟩
          · rw [q4 l hw]; exact ⟨"SM", by decide⟩
        obtain ⟨w, hw⟩ := this
        obtain ⟨v, hv, hv'⟩ := consts _ hw
        rw [q1]
        exact C56_set_can D.heap (x := .i .target) (by decide +kernel) (by decide) (.name _ _ _ hv) hv' s
      · have : ∃ l, o.exact "targetShifts" = .real l := by
          rcases g.which with ⟨e, he, hw⟩ | ⟨l, hw⟩
          · cases ht : a.targetShifts with
            | some l => exact ⟨l, (made.points l (.inr (.inl ⟨_, hw, ht⟩))).1⟩
            | none =>
              by_cases q : e.1 = "CGT" ∨ e.1 = "CLT" ∨ e.1 = "SM"
              · exact ⟨[0], (made.points [0] (.inr (.inr ⟨_, hw, q, ht, rfl⟩))).1⟩
              · simp only [not_or] at q
                refine absurd hnm (made.noPoints _ hw q.1 q.2.1 q.2.2 ht ?_)
                intro hx
                rcases g.options _ (exact_mem hx) with h | ⟨x, y, -, h, -⟩
                · simp at h
                · simp at h
          · exact ⟨l, (made.points l (.inl hw)).1⟩
        obtain ⟨l, hl⟩ := this
        rw [hl]
        exact shifts_can D.heap l s
      · rcases g.tol with h | ⟨x, h, -, -⟩
        · obtain ⟨q1, q2⟩ := made.tolFn h
          rcases g.options _ (exact_mem (q2.1 hnm)) with h' | ⟨x, y, b1, b2, b3, b4⟩
          · simp at h'
          · rw [q1]
            exact C56_set_can D.heap b1 b2 b3 b4 s
        · rw [(made.tol x h).2.2.1]
          exact C56_set_can D.heap (x := .d .eps) (by decide +kernel) (by decide) (.real _ _) trivial s
      · exact absurd hnm (made.methodGone g.once)
    · obtain ⟨q1, q2⟩ := made.others nm hf
      rcases g.options _ (exact_mem (q2.1 hnm)) with h' | ⟨x, y, b1, b2, b3, b4⟩
      · simp only at h'
        subst h'
        exact absurd (by decide) hf
      · rw [q1]
        exact C56_set_can D.heap b1 b2 b3 b4 s
  obtain ⟨s, h2⟩ := setAll_can each ⟨start, []⟩
  have names : ∀ nm ∈ o.map Prod.fst, ∃ x, (nm, x) ∈ Py.Doc.eigsMembers := by
    intro nm hnm
    obtain ⟨t, ht⟩ := each nm hnm ⟨start, []⟩
    obtain ⟨l, x, -, hx, -⟩ := setMemberR_ok (eigs_kind D.heap) ht
    exact ⟨x, hx⟩
  have h3 : ∃ t, setMethodR m s = .ok t := by
    by_cases hq : "method" ∈ a.opts.map Prod.fst
    · obtain ⟨nm, v, q1, q2⟩ := g.preset hq
      rw [made.method hq, q1]
      simp only [setMethodR, q2]
      exact ⟨_, rfl⟩
    · have : m = .null := by
        rcases made.methodNone hq with h | ⟨nm, h, h'⟩
        · exact h
        · obtain ⟨x, hx⟩ := names nm h
          have : ∀ e ∈ Py.Doc.eigsMembers, isPartial "method" e.1 = false := by decide +kernel
          rw [this _ hx] at h'
          simp at h'
      rw [this]
      exact ⟨s, rfl⟩
  obtain ⟨t, h3⟩ := h3
  have frame := (setMethodR_ok h3).2.2
  have get : ∀ nm f, (nm, .i f) ∈ Py.Doc.eigsMembers → f ≠ .numTargetShifts → f ∉ Eigs.Doc.methodParameters →
      nm ∈ o.map Prod.fst → ∀ q : Int, (o.exact nm = .int [q] ∨ o.exact nm = .real [(q : K)]) → -2 ^ 31 < q ∧ q < 2 ^ 31 →
      (Eigs.ctype f).holds q → t.params.i f = q := by
    intro nm f hm hc ho hn q hq hr hf
    obtain ⟨u, v, b1, b2⟩ := (setAll_at (eigs_kind D.heap) h2 hm
      (show (Member.i f : Member Eigs.IF Eigs.DF Eigs.PF) ≠ .i .numTargetShifts by simpa using hc)).1 hn
    have b3 := set_number hm b1 hq hr hf
    have b5 := frame (.i f) (.inr ho)
    simp only [reads, Val.int.injEq] at b2 b5
    rw [b5, b2, b3]
  have tn := get "n" .n (by decide +kernel) (by decide) (by decide) hdim.2 N hdim.1 ⟨by omega, hN⟩ ⟨by omega, by omega⟩
  have tk := get "numEvals" .numEvals (by decide +kernel) (by decide) (by decide) made.count.2.2 k
    (by rw [made.count.2.1]; exact number_nat g.count) ⟨by omega, hk⟩ ⟨by omega, by omega⟩
  have tl : t.params.i .nLocal = -1 := by
    have b := frame (.i .nLocal) (.inr (by unfold OutOfMethod; decide))
    simp only [reads, Val.int.injEq] at b
    rw [b, nLocal_kept h2]
    exact hs
  have rows : ∀ v : RVecs V, (v = .null ∨ ∃ x, v = .mat x ∧ x.rows = N) → ¬ (rowsOf v ≠ 0 ∧ (rowsOf v : Int) ≠ N) := by
    rintro v (rfl | ⟨x, rfl, hx⟩) ⟨b1, b2⟩
    · exact b1 rfl
    · exact b2 (by simp [rowsOf, hx])
  unfold prepareR
  rw [h1]
  simp only [Res.bind]
  rw [h2]
  simp only
  rw [h3]
  simp only
  unfold enter
  rw [if_pos tl]
  dsimp only [Store.setI]
  simp only [reduceCtorEq, if_false, if_true, tn, tk]
  rw [if_neg (rows _ g.ortho), if_neg (rows _ g.guess), if_neg (by omega)]
  exact ⟨_, rfl⟩

/-! ## What is returned -/

/-- **The result.**  A result is returned only when the library reports success; it holds the values and residual norms
the library left, as many as asked for, and as vectors the columns after the constraints. -/
theorem C56_result {o : RCallOut K V} {r : EigsOut K V} (h : finishR a c o = .ok r) :
    o.code = 0 ∧ r.values.length = c.values ∧ r.rnorms.length = c.values ∧
    (r.vectors.length : Int) = o.params.i .initSize ∧
    (∀ j < c.values, r.values[j]? = some (o.evals j) ∧ r.rnorms[j]? = some (o.norms j)) ∧
    (∀ j : Nat, (j : Int) < o.params.i .initSize → r.vectors[j]? = some (o.evecs (colsOf a.ortho + j))) := by
  unfold finishR at h
  by_cases h1 : o.params.i .initSize ≤ 0
  · rw [if_pos h1] at h; simp at h
  rw [if_neg h1] at h
  obtain ⟨st, h2, h⟩ := bind_ok h
  by_cases h3 : o.code ≠ 0
  · rw [if_pos h3] at h; simp at h
  rw [if_neg h3] at h
  simp only [Res.ok.injEq] at h
  subst h
  refine ⟨by simpa using h3, by simp, by simp, by simp; omega, ?_, ?_⟩
  · intro j hj
    simp [hj]
  · intro j hj
    have : j < (o.params.i .initSize).toNat := by omega
    simp [this]

private theorem stat_int {p : Eigs.EP K} {nm : String} {l : Int} {f : Eigs.IF}
    (hi : memberInfo eigsTables.names eigsTables.types (some 0) (some (some nm)) = .ok (some l, some (some nm), .int, 1))
    (hl : l ≠ 28 ∧ l ≠ 19 ∧ l ∉ [8, 9, 10, 11, 12, 18, 36, 37, 39, 80, 83, 84, 6, 2, (4 : Int)])
    (hg : select Eigs.getTable l = some (.int f)) : getNumber (eigsKind 0) p nm = .ok (.int (castInt (p.i f))) := by
  have hi' : memberInfo (eigsKind 0).T.names (eigsKind 0).T.types (some 0) (some (some nm)) =
    .ok (some l, some (some nm), .int, 1) := hi
  have hg' : getMember (eigsKind 0).T.getter p l = .ok (.int (p.i f)) := by
    show getMember Eigs.getTable p l = _
    unfold getMember
    rw [hg]
  simp only [getNumber, hi', hg']
  rw [if_neg]
  rintro (h | h | h | h)
  · exact hl.1 h
  · exact hl.2.1 h
  · exact hl.2.2 h
  · exact h rfl

private theorem stat_dbl {p : Eigs.EP K} {nm : String} {l : Int} {f : Eigs.DF}
    (hi : memberInfo eigsTables.names eigsTables.types (some 0) (some (some nm)) = .ok (some l, some (some nm), .double, 1))
    (hl : l ≠ 28 ∧ l ≠ 19 ∧ l ∉ [8, 9, 10, 11, 12, 18, 36, 37, 39, 80, 83, 84, 6, 2, (4 : Int)])
    (hg : select Eigs.getTable l = some (.dbl f)) : getNumber (eigsKind 0) p nm = .ok (.real (p.d f)) := by
  have hi' : memberInfo (eigsKind 0).T.names (eigsKind 0).T.types (some 0) (some (some nm)) =
    .ok (some l, some (some nm), .double, 1) := hi
  have hg' : getMember (eigsKind 0).T.getter p l = .ok (.dbl (p.d f)) := by
    show getMember Eigs.getTable p l = _
    unfold getMember
    rw [hg]
  simp only [getNumber, hi', hg']
  rw [if_neg]
  rintro (h | h | h | h)
  · exact hl.1 h
  · exact hl.2.1 h
  · exact hl.2.2 h
  · exact h rfl

private theorem stats_read (p : Eigs.EP K) : readStats (eigsKind 0) p statNames = .ok
    [("numMatvecs", .int (castInt (p.i .stats_numMatvecs))), ("numPreconds", .int (castInt (p.i .stats_numPreconds))),
     ("elapsedTime", .real (p.d .stats_elapsedTime)), ("estimateMinEval", .real (p.d .stats_estimateMinEVal)),
     ("estimateMaxEval", .real (p.d .stats_estimateMaxEVal)), ("estimateANorm", .real (p.d .stats_estimateLargestSVal)),
     ("timeMatvec", .real (p.d .stats_timeMatvec)), ("timeOrtho", .real (p.d .stats_timeOrtho)),
     ("timePrecond", .real (p.d .stats_timePrecond))] := by
  have e1 := stat_int (p := p) (nm := "stats_numMatvecs") (l := 57) (f := .stats_numMatvecs) (by decide +kernel)
    (by decide) (by decide +kernel)
  have e2 := stat_int (p := p) (nm := "stats_numPreconds") (l := 58) (f := .stats_numPreconds) (by decide +kernel)
    (by decide) (by decide +kernel)
  have e3 := stat_dbl (p := p) (nm := "stats_elapsedTime") (l := 65) (f := .stats_elapsedTime) (by decide +kernel)
    (by decide) (by decide +kernel)
  have e4 := stat_dbl (p := p) (nm := "stats_estimateMinEVal") (l := 72) (f := .stats_estimateMinEVal) (by decide +kernel)
    (by decide) (by decide +kernel)
  have e5 := stat_dbl (p := p) (nm := "stats_estimateMaxEVal") (l := 73) (f := .stats_estimateMaxEVal) (by decide +kernel)
    (by decide) (by decide +kernel)
  have e6 := stat_dbl (p := p) (nm := "stats_estimateLargestSVal") (l := 74) (f := .stats_estimateLargestSVal)
    (by decide +kernel) (by decide) (by decide +kernel)
  have e7 := stat_dbl (p := p) (nm := "stats_timeMatvec") (l := 66) (f := .stats_timeMatvec) (by decide +kernel)
    (by decide) (by decide +kernel)
  have e8 := stat_dbl (p := p) (nm := "stats_timeOrtho") (l := 68) (f := .stats_timeOrtho) (by decide +kernel)
    (by decide) (by decide +kernel)
  have e9 := stat_dbl (p := p) (nm := "stats_timePrecond") (l := 67) (f := .stats_timePrecond) (by decide +kernel)
    (by decide) (by decide +kernel)
  simp only [statNames, readStats, e1, e2, e3, e4, e5, e6, e7, e8, e9, Res.bind]

/-- **Failures raise.**  When the library reports an error nothing is returned; when it reports success and left at least
one vector, the result is returned. -/
theorem C56_errors (a : EigsArgs K V) (c : RCall K V) (o : RCallOut K V) :
    (o.code ≠ 0 → ∃ e, finishR a c o = .raise e) ∧
    (o.code ≠ 0 → 0 < o.params.i .initSize → finishR a c o = .raise (.primme o.code)) ∧
    (o.code = 0 → 0 < o.params.i .initSize → ∃ r, finishR a c o = .ok r) ∧ finishR a c o ≠ .ub := by
  unfold finishR
  rw [stats_read]
  simp only [Res.bind]
  by_cases h1 : o.params.i .initSize ≤ 0
  · simp [h1]
  · by_cases h2 : o.code = 0 <;> simp [h1, h2]

/-- **Statistics.**  Each documented element of `stats` is the member of the structure the library left; the numbers of
products are right when they fit 32 bits. -/
theorem C56_stats_partial {o : RCallOut K V} {r : EigsOut K V} (h : finishR a c o = .ok r) {nm : String}
    {x : Member Eigs.IF Eigs.DF Eigs.PF} (hx : (nm, x) ∈ R.Doc.stats) :
    (∀ f, x = .i f → -2 ^ 31 ≤ o.params.i f → o.params.i f < 2 ^ 31 → (nm, .int (o.params.i f)) ∈ r.stats) ∧
    (∀ f, x = .d f → (nm, .real (o.params.d f)) ∈ r.stats) ∧ (r.stats.map Prod.fst).Nodup := by
  have hst : readStats (eigsKind 0) o.params statNames = .ok r.stats := by
    unfold finishR at h
    by_cases h1 : o.params.i .initSize ≤ 0
    · rw [if_pos h1] at h; simp at h
    rw [if_neg h1] at h
    obtain ⟨st, h2, h⟩ := bind_ok h
    by_cases h3 : o.code ≠ 0
    · rw [if_pos h3] at h; simp at h
    rw [if_neg h3] at h
    simp only [Res.ok.injEq] at h
    subst h
    exact h2
  rw [stats_read] at hst
  simp only [Res.ok.injEq] at hst
  rw [← hst]
  have cast : ∀ v : Int, -2 ^ 31 ≤ v → v < 2 ^ 31 → castInt v = v := by
    intro v h1 h2
    unfold castInt
    omega
  refine ⟨?_, ?_, ?_⟩
  · intro f hf h1 h2
    subst hf
    simp only [R.Doc.stats, List.mem_cons, Prod.mk.injEq, List.not_mem_nil, or_false, Member.i.injEq, reduceCtorEq,
      and_false, false_or] at hx
    rcases hx with ⟨rfl, rfl⟩ | ⟨rfl, rfl⟩
    · rw [cast _ h1 h2]; simp
    · rw [cast _ h1 h2]; simp
  · intro f hf
    subst hf
    simp only [R.Doc.stats, List.mem_cons, Prod.mk.injEq, List.not_mem_nil, or_false, Member.d.injEq, reduceCtorEq,
      and_false, false_or] at hx
    rcases hx with ⟨rfl, rfl⟩ | ⟨rfl, rfl⟩ | ⟨rfl, rfl⟩ | ⟨rfl, rfl⟩ | ⟨rfl, rfl⟩ | ⟨rfl, rfl⟩ | ⟨rfl, rfl⟩ <;> simp
  · simp

/-! ## The operators -/

/-- **Functions of the user.**  The function is given the block the library passes; its result, which must have the size
of the block, lands where the library expects it, and nothing else is written. -/
theorem C56_function {f : (Nat → Nat → V) → Nat × Nat × (Nat → Nat → V)} {n bs x ldx y ldy : Nat} (m : PMem V)
    (hld : n ≤ ldy) :
    (∀ r, f (fun i j => m (x + i + j * ldx)) = (n, bs, r) → ∃ m', functionCallback f n bs x ldx y ldy m = .ok m' ∧
      (∀ i < n, ∀ j < bs, m' (y + i + j * ldy) = r i j) ∧
      ∀ p, (∀ i < n, ∀ j < bs, p ≠ y + i + j * ldy) → m' p = m p) ∧
    (∀ n' bs' r, f (fun i j => m (x + i + j * ldx)) = (n', bs', r) → n' ≠ n ∨ bs' ≠ bs →
      ∃ e, functionCallback f n bs x ldx y ldy m = .raise e) := by
  refine ⟨?_, ?_⟩
  · intro r hr
    refine ⟨_, by simp only [functionCallback, hr]; rw [if_neg (by simp)], ?_, ?_⟩
    · intro i hi j hj
      have hl : 0 < ldy := by omega
      have e1 : (y + i + j * ldy - y) / ldy = j := by
        rw [show y + i + j * ldy - y = i + ldy * j by rw [Nat.mul_comm]; omega,
          Nat.add_mul_div_left _ _ hl, Nat.div_eq_of_lt (by omega)]; omega
      have e2 : (y + i + j * ldy - y) % ldy = i := by
        rw [show y + i + j * ldy - y = i + ldy * j by rw [Nat.mul_comm]; omega, Nat.add_mul_mod_self_left,
          Nat.mod_eq_of_lt (by omega)]
      rw [if_pos ⟨by omega, by rw [e1]; exact hj, by rw [e2]; exact hi⟩, e1, e2]
    · intro p hp
      rw [if_neg]
      rintro ⟨h1, h2, h3⟩
      refine hp _ h3 _ h2 ?_
      have := Nat.mod_add_div (p - y) ldy
      rw [Nat.mul_comm] at this
      omega
  · intro n' bs' r hr hne
    exact ⟨.value, by simp only [functionCallback, hr]; rw [if_pos hne]⟩

/-- A Hermitian matrix of pairs. -/
def C56_Hermitian (n : Nat) (M : Nat → Nat → K × K) : Prop := ∀ i < n, ∀ j < n, M i j = R.conj (M j i)

/-- The doubles of the matrix of `n` columns in the memory of R, column by column; for complex entries real and imaginary
parts alternate. -/
def C56_Stored (complex : Bool) (n : Nat) (M : Nat → Nat → K × K) (mem : Nat → K) : Prop :=
  ∀ i < n, ∀ j < n, if complex then mem (2 * (i + j * n)) = (M i j).1 ∧ mem (2 * (i + j * n) + 1) = (M i j).2
    else mem (i + j * n) = (M i j).1 ∧ (M i j).2 = 0

private theorem allSome_map {α : Type} (g : Nat → α) (L : List Nat) : allSome (L.map fun j => some (g j)) = some (L.map g) := by
  induction L with
  | nil => rfl
  | cons j r ih => simp [allSome, ih]

/-- **Products with a dense Hermitian matrix.**  When the arithmetic is that of the entries, the product is `A x`. -/
theorem C56_products {n : Nat} {M : Nat → Nat → K × K} {mem : Nat → K} {cls : MClass} {real : Bool}
    (hM : C56_Hermitian n M) (hS : C56_Stored (isComplexClass cls) n M mem) (hr : real = !isComplexClass cls)
    (x : Nat → K × K) {i : Nat} (hi : i < n) :
    directRow real cls n mem x i = .row ((List.range n).map fun j => cmul (M i j) (x j)).sum := by
  have pos : ∀ p q, p < n → q < n → p + q * n < n * n := by
    intro p q hp hq
    have : (q + 1) * n ≤ n * n := Nat.mul_le_mul_right _ hq
    rw [Nat.add_mul] at this
    omega
  have elem : ∀ p q, p < n → q < n →
      elemAt real (if isComplexClass cls then 2 * (n * n) else n * n) mem (p + q * n) = some (M p q) := by
    intro p q hp hq
    have h1 := hS p hp q hq
    have h2 := pos p q hp hq
    cases hc : isComplexClass cls with
    | true =>
      rw [hc] at h1 hr
      simp only [if_true] at h1
      subst hr
      simp only [elemAt, Bool.not_true, Bool.false_eq_true, if_false, if_true]
      rw [if_pos (by omega), h1.1, h1.2]
    | false =>
      rw [hc] at h1 hr
      simp only [Bool.false_eq_true, if_false] at h1
      subst hr
      simp only [elemAt, Bool.not_false, if_true, Bool.false_eq_true, if_false]
      rw [if_pos h2, h1.1, ← h1.2]
  have low : ∀ j < n, lowerAt real (if isComplexClass cls then 2 * (n * n) else n * n) n mem i j = some (M i j) := by
    intro j hj
    unfold lowerAt
    split
    · exact elem i j hi hj
    · split
      · rw [elem j i hj hi]
        simp only [Option.map_some, Option.some.injEq]
        exact (hM i hi j hj).symm
      · have : j = i := by omega
        subst this
        rw [elem j j hj hj]
        simp only [Option.map_some, Option.some.injEq]
        have h := hM j hj j hj
        have h2 : (M j j).2 = -(M j j).2 := by
          conv_lhs => rw [h]
          rfl
        have h3 : (M j j).2 = 0 := by linarith
        ext
        · rfl
        · exact h3.symm
  have row : hemmRow real (if isComplexClass cls then 2 * (n * n) else n * n) n mem x i =
      some ((List.range n).map fun j => cmul (M i j) (x j)).sum := by
    unfold hemmRow
    have : ((List.range n).map fun j => (lowerAt real (if isComplexClass cls then 2 * (n * n) else n * n) n mem i j).map
        fun z => cmul z (x j)) = (List.range n).map fun j => some (cmul (M i j) (x j)) := by
      apply List.map_congr_left
      intro j hj
      rw [low j (List.mem_range.1 hj)]
      rfl
    rw [this, allSome_map]
    rfl
  unfold directRow
  dsimp only
  rw [if_neg, row]
  rintro ⟨h1, h2⟩
  subst h1
  subst h2
  simp [isComplexClass] at hr

/-- The matrix `A` is handed over directly only when the arithmetic is that of its entries. -/
theorem C56_matching (h : prepareR D zero start a = .ok c) {cls : MClass} (hA : c.A = .direct cls) :
    c.real = !isComplexClass cls := by
  obtain ⟨o, m, s, t, made, he, -⟩ := call_holds h
  obtain ⟨-, -, -, -, -, -, -, -, -, -, -, -, -, -, f1, f2, f3, -⟩ := enter_ok he
  rw [f3] at hA
  cases hq : a.A with
  | fn => rw [hq] at hA; simp [heldA] at hA
  | bad => rw [hq] at hA; simp [heldA] at hA
  | mat x =>
    rw [hq] at hA
    simp only [heldA] at hA
    split at hA
    · rename_i hcond
      simp only [Held.direct.injEq] at hA
      have hr : c.real = suggests x.cls := by
        rw [f1]
        unfold computesReal
        cases hi : a.isreal with
        | null => simp [hq, suggestion]
        | val b =>
          have := hcond.1
          rw [hi] at this
          simpa [agrees] using this
        | other => exact absurd hi made.isreal
      rw [hr, ← hA]
      have : ∀ q : MClass, asStored q ∈ ([.double, .complex, .dge, .dgC, .dsC, .dtC] : List MClass) →
          suggests q = !isComplexClass (asStored q) := by intro q; cases q <;> decide
      exact this _ hcond.2
    · simp at hA

/-- The same for `B` when `isreal` is given, or when the entries of `B` are of the same kind as those of `A`. -/
theorem C56_matching_B_partial (h : prepareR D zero start a = .ok c) {cls : MClass} (hB : c.B = .direct cls)
    (hr : a.isreal ≠ .null ∨ ∃ x y, a.A = .mat x ∧ a.B = some (.mat y) ∧ suggests x.cls = suggests y.cls) :
    c.real = !isComplexClass cls := by
  obtain ⟨o, m, s, t, made, he, -⟩ := call_holds h
  obtain ⟨-, -, -, -, -, -, -, -, -, -, -, -, -, -, f1, f2, f3, f4, -⟩ := enter_ok he
  rw [f4] at hB
  cases hq : a.B with
  | none => rw [hq] at hB; simp [heldB] at hB
  | some y =>
    cases y with
    | fn => rw [hq] at hB; simp [heldB] at hB
    | bad => rw [hq] at hB; simp [heldB] at hB
    | mat x =>
      rw [hq] at hB
      simp only [heldB] at hB
      split at hB
      · rename_i hcond
        simp only [Held.direct.injEq] at hB
        have hr : c.real = suggests x.cls := by
          rw [f1]
          unfold computesReal
          cases hi : a.isreal with
          | null =>
            rcases hr with hr | ⟨x', y', h1, h2, h3⟩
            · exact absurd hi hr
            · rw [hq] at h2
              simp only [Option.some.injEq, ROp.mat.injEq] at h2
              subst h2
              simp only [h1, suggestion, h3]
          | val b =>
            have := hcond.1
            rw [hi] at this
            simpa [agrees] using this
          | other => exact absurd hi made.isreal
        rw [hr, ← hB]
        have : ∀ q : MClass, asStored q ∈ ([.double, .complex, .dge, .dgC, .dsC] : List MClass) →
            suggests q = !isComplexClass (asStored q) := by intro q; cases q <;> decide
        exact this _ hcond.2
      · simp at hB

/-! ## Where the code departs from its documentation -/

/-- **None of the documented names of `method` is accepted**: every call with one of them raises an error (the names the
compiled code knows begin with `PRIMME_`). -/
theorem C56_methods_violated {nm : String} (hn : nm ∈ R.Doc.methods) (h : a.opts.exact "method" = .str [nm]) :
    ∃ e, prepareR D zero start a = .raise e := by
  refine C56_rejects (.preset nm h ?_)
  have : ∀ x ∈ R.Doc.methods, (match constantInfo Eigs.constTable x with | .ok _ => true | _ => false) = false := by
    decide +kernel
  intro v hv
  have := this nm hn
  rw [hv] at this
  simp at this

/-- The documented options whose names the compiled code does not know. -/
def C56_unknown : List String :=
  ["maxit", "scheme", "maxPrevRetain", "robustShifts", "maxInnerIterations", "LeftQ", "LeftX", "RightQ", "RightX", "SkewQ",
   "SkewX", "relTolBase"]

/-- **Twelve of the twenty documented options are errors.**  All but `scheme` name a parameter of the manual. -/
theorem C56_options_violated {e : String × RVal K} (he : e ∈ a.opts) (hn : e.1 ∈ C56_unknown) :
    (∃ x, prepareR D zero start a = .raise x) ∧ (e.1 ≠ "scheme" → e.1 ∈ R.Doc.options.map Prod.fst) := by
  have h1 : ∀ x ∈ C56_unknown, x ≠ "method" ∧ ∀ p ∈ Py.Doc.eigsMembers, p.1 ≠ x := by decide +kernel
  have h2 : ∀ x ∈ C56_unknown, x ≠ "scheme" → x ∈ R.Doc.options.map Prod.fst := by decide +kernel
  exact ⟨C56_rejects (.option e he (h1 _ hn).2 (h1 _ hn).1), h2 _ hn⟩

/-- Three largest eigenvalues of a dense matrix of order 10, with a guess, a constraint and a preconditioner. -/
def C56_call : EigsArgs Rat Rat where
  A := .mat ⟨.double, 10, 10⟩
  NEig := .real [3]
  which := .name "LA"
  targetShifts := none
  tol := .num (1 / 1000000)
  x0 := .mat ⟨10, 1, fun i _ => i⟩
  ortho := .mat ⟨10, 1, fun i _ => 2 * i⟩
  prec := .fn
  isreal := .null
  B := none
  opts := [("printLevel", .real [1]), ("orth", .str ["primme_orth_explicit_I"]), ("aNorm", .int [2]),
    ("method", .str ["PRIMME_DEFAULT_MIN_TIME"]), ("iseed", .int [1, 2, 3, 5])]

/-- Addresses of the compiled functions and of the objects. -/
def C56_addrs : RAddrs := ⟨100, 1, 2, 3, 4, 11, 12, 13, 14⟩

/-- The fresh structure. -/
def C56_fresh : Eigs.EP Rat := Eigs.initParams 1000 1 id

/-- The library: the driver on the structure, with a solver that finds all it is asked for. -/
def C56_library (c : RCall Rat Rat) : RCallOut Rat Rat :=
  match Eigs.driver 3 (fun _ => some C07_env) (fun _ => 0) (fun s => ⟨0, 0, s.setI .initSize (s.i .numEvals)⟩)
      ⟨false, false, false, false⟩ c.params with
  | some r => ⟨r.code, r.params, fun j => 10 - j, c.evecs, fun _ => 0⟩
  | none => ⟨-1, c.params, fun _ => 0, c.evecs, fun _ => 0⟩

/-- Code of the library and values `eigs_sym` returns. -/
def C56_run (a : EigsArgs Rat Rat) : Option (Int × Res (List Rat)) :=
  match prepareR C56_addrs 0 C56_fresh a with
  | .ok c => some ((C56_library c).code, (eigsSym C56_addrs 0 C56_fresh C56_library a).bind fun r => .ok r.values)
  | _ => none

theorem C56_call_good : C56_Good C56_call 10 3 where
  dim := .inl ⟨_, rfl, rfl⟩
  square := by intro x hx; simp only [C56_call, ROp.mat.injEq] at hx; subst hx; rfl
  size := by decide
  mass := .inl rfl
  count := by decide +kernel
  few := by decide
  which := .inl ⟨("LA", 1, false), by decide, rfl⟩
  tol := .inr ⟨_, rfl, by norm_num, by norm_num⟩
  guess := .inr ⟨_, rfl, rfl⟩
  ortho := .inr ⟨_, rfl, rfl⟩
  prec := .inr (.inl rfl)
  isreal := by simp [C56_call]
  options := by
    intro e he
    simp only [C56_call, List.mem_cons, List.not_mem_nil, or_false] at he
    rcases he with rfl | rfl | rfl | rfl | rfl
    · exact .inr ⟨.i .printLevel, .int 1, by decide, by decide, R.Doc.Means.whole (K := Rat) .printLevel 1
        (by decide), ⟨by decide, by decide⟩⟩
    · exact .inr ⟨.i .orth, .int 2, by decide, by decide, .name _ _ _ (by decide +kernel), ⟨by decide, by decide⟩⟩
    · exact .inr ⟨.d .aNorm, .dbl ((2 : Int) : Rat), by decide, by decide, .fromInt _ _, by unfold fits; decide +kernel⟩
    · exact .inl rfl
    · exact .inr ⟨.seed, .seed fun k => [1, 2, 3, 5][k], by decide, by decide, .seed [1, 2, 3, 5] rfl, by
      intro k; fin_cases k <;> exact ⟨by decide, by decide⟩⟩
  once := by decide
  preset := fun _ => ⟨"PRIMME_DEFAULT_MIN_TIME", 2, rfl, by decide +kernel⟩

example : C56_run C56_call = some (0, .ok [10, 9, 8]) := by decide +kernel

example : ∃ c, prepareR C56_addrs 0 C56_fresh C56_call = .ok c ∧ c.params.i .n = 10 ∧ c.params.i .numEvals = 3 ∧
    c.params.i .target = 1 ∧ c.params.i .orth = 2 ∧ c.params.d .aNorm = 2 ∧ c.params.d .eps = 1 / 1000000 ∧
    c.params.i .initSize = 1 ∧ c.params.i .numOrthoConst = 1 ∧ c.params.p .applyPreconditioner = 3 := by
  obtain ⟨c, hc⟩ := C56_accepts (D := C56_addrs) (zero := 0) (start := C56_fresh) rfl C56_call_good
  obtain ⟨p1, -, -, p2, p3, -, p4, -, p5, -, -, -, -, -, p6, -⟩ := C56_problem hc rfl C56_call_good.dim C56_call_good.size
  obtain ⟨t, rel, w1, w2, -⟩ := (C56_which hc (by decide)).1 _ rfl
  have ht : t = 1 := by
    have : ∀ e ∈ R.Doc.which, e.1 = "LA" → e.2.1 = 1 := by decide
    exact this _ w1 rfl
  refine ⟨c, hc, p1, (p2 3 (by decide +kernel)).2, by rw [w2, ht], ?_, ?_, (p3 _ rfl).2.2, ?_, ?_, (p6 (by simp [C56_call])).2.1⟩
  · have := C56_options hc (nm := "orth") (x := .i .orth) (y := .int 2) (by decide) (by decide) (by decide) (by decide)
      (.name _ _ _ (by decide +kernel)) ⟨by decide, by decide⟩ (.inr (by unfold OutOfMethod; decide))
    simpa [reads] using this
  · have := C56_options hc (nm := "aNorm") (x := .d .aNorm) (y := .dbl ((2 : Int) : Rat)) (by decide) (by decide)
      (by decide) (by decide) (.fromInt _ _) trivial (.inr (by unfold OutOfMethod; decide))
    simpa [reads] using this
  · exact (p5 _ rfl).2
  · exact (p4 _ rfl).2

/-- **"LM" without `targetShifts`**: no point is given to the library, which refuses the call with code -14. -/
theorem C56_LM_violated : C56_Good { C56_call with which := .name "LM" } 10 3 ∧
    C56_run { C56_call with which := .name "LM" } = some (-14, .raise .value) ∧
    C56_run { C56_call with which := .name "SM" } = some (0, .ok [10, 9, 8]) ∧
    C56_run { C56_call with which := .name "LM", targetShifts := some [0] } = some (0, .ok [10, 9, 8]) :=
  ⟨{ C56_call_good with which := .inl ⟨("LM", 5, true), by decide, rfl⟩ }, by decide +kernel, by decide +kernel,
    by decide +kernel⟩

/-- **`prec`**: the documentation says that a matrix is used as `prec %*% x`; it is used as `solve(prec, x)`, which for the
matrix `diag(2, 2, …)` is another vector. -/
theorem C56_prec_violated : (∀ (c : RCall K V) n m, a.prec = .mat n m → prepareR D zero start a = .ok c → c.prec = .solve) ∧
    ∃ d x : Nat → K, solveDiagonal d x 0 ≠ d 0 * x 0 := by
  refine ⟨?_, fun _ => 2, fun _ => 1, by simp only [solveDiagonal]; norm_num⟩
  intro c n m hp h
  obtain ⟨o, m', s, t, made, he, -⟩ := call_holds h
  obtain ⟨-, -, -, -, -, -, -, -, -, -, -, -, -, -, f1, f2, f3, f4, f5, f6, -⟩ := enter_ok he
  rw [f5, hp]
  rfl

/-- The problem with a function for `A` and a matrix of doubles for `B`. -/
def C56_mixed : EigsArgs Rat Rat :=
  { C56_call with A := .fn, B := some (.mat ⟨.double, 10, 10⟩), opts := ("n", .real [10]) :: C56_call.opts }

/-- **A real matrix `B` with a function `A`**: without `isreal` the call is complex and the doubles of `B` are taken for
pairs.  The product reads past the end of the matrix. -/
theorem C56_massType_violated :
    (∃ c, prepareR C56_addrs 0 C56_fresh C56_mixed = .ok c ∧ c.B = .direct .double ∧ c.real = false) ∧
    ∀ (mem : Nat → Rat) x, directRow false .double 10 mem x 9 = .ub := by
  refine ⟨?_, ?_⟩
  · have : (match prepareR C56_addrs 0 C56_fresh C56_mixed with
      | .ok c => decide (c.B = .direct .double) && !c.real
      | _ => false) = true := by decide +kernel
    split at this
    · rename_i c hc
      simp at this
      exact ⟨c, hc, this⟩
    · simp at this
  · intro mem x
    simp only [directRow, hemmRow, lowerAt, elemAt, isComplexClass]
    simp [List.range_succ, allSome]

/-- **A complex matrix `B` with a real matrix `A`**: the call is real, and the real and imaginary parts of `B` are taken
for consecutive entries. -/
theorem C56_massParts_violated :
    (∃ c, prepareR C56_addrs 0 C56_fresh { C56_call with B := some (.mat ⟨.complex, 10, 10⟩) } = .ok c ∧
      c.B = .direct .complex ∧ c.real = true) ∧
    ∃ (M : Nat → Nat → Rat × Rat) (mem : Nat → Rat), C56_Hermitian 2 M ∧ C56_Stored true 2 M mem ∧
      directRow true .complex 2 mem (fun _ => (1, 0)) 1 ≠ .row ((List.range 2).map fun j => cmul (M 1 j) (1, 0)).sum := by
  refine ⟨?_, ?_⟩
  · have : (match prepareR C56_addrs 0 C56_fresh { C56_call with B := some (.mat ⟨.complex, 10, 10⟩) } with
      | .ok c => decide (c.B = .direct .complex) && c.real
      | _ => false) = true := by decide +kernel
    split at this
    · rename_i c hc
      simp at this
      exact ⟨c, hc, this⟩
    · simp at this
  · refine ⟨fun i j => if i = j then (3, 0) else (0, 0), fun p => if p = 0 ∨ p = 6 then 3 else 0, ?_, ?_, by decide +kernel⟩
    · unfold C56_Hermitian; decide +kernel
    · unfold C56_Stored; decide +kernel

/-- **The user's test of convergence is not given the vector**: it gets as many copies of the first entry; and when the
library passes no vector, a null pointer is read. -/
theorem C56_convTest_violated : (∃ (m : PMem Int), convTestVector 2 (some 0) m ≠ .ok [m 0, m 1]) ∧
    ∀ m : PMem V, convTestVector 2 none m = .ub :=
  ⟨⟨fun p => p, by decide⟩, fun _ => rfl⟩

/-- **A number of values slightly below a whole number** passes the test of whole numbers and is then cut. -/
theorem C56_count_violated : whole (.real [(3 - 1 / 2 ^ 30 : Rat)]) = true ∧
    C56_run { C56_call with NEig := .real [3 - 1 / 2 ^ 30] } = some (0, .ok [10, 9]) := by decide +kernel

/-- **Large limits**: a whole number that is no R integer becomes the smallest `int`: `maxMatvecs = 1e10` asks for
`-2^31` products at most. -/
theorem C56_limit_violated : ∃ c, prepareR C56_addrs 0 C56_fresh { C56_call with opts := [("maxMatvecs", .real [10000000000])] }
      = .ok c ∧ c.params.i .maxMatvecs = -2 ^ 31 := by
  have : (match prepareR C56_addrs 0 C56_fresh { C56_call with opts := [("maxMatvecs", .real [10000000000])] } with
      | .ok c => decide (c.params.i .maxMatvecs = -2 ^ 31)
      | _ => false) = true := by decide +kernel
  split at this
  · rename_i c hc
    exact ⟨c, hc, by simpa using this⟩
  · simp at this

/-- **The statistics are cut to 32 bits.** -/
theorem C56_stats_violated (c : RCall Rat Rat) : ∃ (o : RCallOut Rat Rat) (r : EigsOut Rat Rat),
    finishR C56_call c o = .ok r ∧ o.params.i .stats_numMatvecs = 2 ^ 31 ∧ ("numMatvecs", .int (-2 ^ 31)) ∈ r.stats := by
  refine ⟨⟨0, (C56_fresh.setI .initSize 1).setI .stats_numMatvecs (2 ^ 31), fun _ => 0, fun _ _ => 0, fun _ => 0⟩, ?_⟩
  have hi : ((C56_fresh.setI .initSize 1).setI .stats_numMatvecs (2 ^ 31)).i .initSize = 1 := rfl
  have hm : ((C56_fresh.setI .initSize 1).setI .stats_numMatvecs (2 ^ 31)).i .stats_numMatvecs = 2 ^ 31 := rfl
  simp only [finishR, stats_read, Res.bind, hi, hm]
  exact ⟨_, rfl, trivial, List.mem_cons_self⟩

/-- The problem with a function for `A` and without vectors. -/
def C56_bare (o : Opts Rat) : EigsArgs Rat Rat := { C56_call with A := .fn, x0 := .null, ortho := .null, opts := o }

/-- **Partial names**: for a function without the option `n`, the dimension is read from any single option whose name
begins with `n`, here `numOrthoConst`; the call then asks for an empty problem. -/
theorem C56_dimension_violated : C56_run (C56_bare [("numOrthoConst", .real [7])]) = some (-10, .raise .value) ∧
    C56_run (C56_bare []) = none := by decide +kernel

example : C56_Bad { C56_call with NEig := .real [11] } := .count 10 (.inl ⟨_, rfl, rfl⟩) 11 (by decide +kernel) (by norm_num)

example : C56_Bad { C56_call with opts := [("eps_", .real [1])] } :=
  .option ("eps_", .real [1]) (by simp) (by decide +kernel) (by decide)

/-- The matrix with rows `(2, i)` and `(-i, 5)`, stored column by column. -/
example : directRow false .complex 2 (fun p => if p = 0 then (2 : Rat) else if p = 3 then -1 else if p = 5 then 1
    else if p = 6 then 5 else 0) (fun j => if j = 0 then (1, 0) else (0, 1)) 0 = .row (1, 0) := by decide +kernel

end Verif.Props
