import Verif.Proofs.PrintMonitor
import Verif.Props.C36_Monitor
import Mathlib.Algebra.Order.Field.Rat
import Mathlib.Tactic.NormNum

/-!
# C68: what the default monitors print is what the manual says

Specification: `Spec/PrintMonitor.lean` (the lines of the manual) and `Spec/Monitor.lean` (`about`: which
pairs a report is about).
-/

set_option linter.unusedSectionVars false
set_option linter.unusedSimpArgs false
set_option linter.unusedVariables false

namespace Verif.Props
open Verif.Mon Verif.Spec Verif.Print

section
variable {K : Type} [Field K] [LinearOrder K] [IsStrictOrderedRing K]

/-- **C68**, silence: at level 0, and also without an output file, nothing is printed whatever the report,
and no pointer of the report is read. -/
theorem C68_silent (ev : K → Line K) (p : Par K) (h : p.printLevel ≤ 0 ∨ p.outputFile = false)
    (a : EigReport K) (b : SvReport K) : eigs ev p a = .ok [] ∧ svds p b = .ok [] := by
  rcases h with h | h
  · have h1 : ¬ p.printLevel ≥ 2 := by omega
    have h2 : ¬ p.printLevel ≥ 3 := by omega
    have h3 : ¬ p.printLevel ≥ 4 := by omega
    have h4 : ¬ p.printLevel ≥ 5 := by omega
    constructor
    · unfold eigs onOuter onInner onConverged onLocked onMessage onProfile
      simp only [h1, h2, h3, h4, and_false, or_self, if_false]
      split
      · split <;> rfl
      · rfl
    · unfold svds svdsOuter svdsInner svdsConverged svdsLocked onMessage svdsProfile
      simp only [h1, h2, h3, h4, and_false, false_and, or_self, if_false]
      split
      · split <;> rfl
      · rfl
  · constructor
    · unfold eigs; rw [if_neg (by simp [h])]
    · unfold svds; rw [if_neg (by simp [h])]

/-- **C68**, errors: from level 2 the message of a failed call is printed by process 0, on a line of its own,
and nothing is printed for a call that succeeds.  Missing: level 1, which is the level the parameters
are initialised with (`C68_errors_violated`). -/
theorem C68_errors_partial (ev : K → Line K) (p : Par K) (hf : p.outputFile = true) (h0 : p.procID = 0)
    (h2 : 2 ≤ p.printLevel) (code : Int) (text : String) :
    onError ev p code text = .ok (if code = 0 then [] else [[.word text]]) := by
  unfold onError printAll report
  by_cases h : code = 0
  · simp [h]
  · rw [if_pos h, if_neg h, if_pos (by omega)]
    have e : eigs ev p (textOnly text .message) = onMessage p (some text) := if_pos ⟨hf, Or.inl h0⟩
    dsimp only
    rw [e]
    unfold onMessage
    rw [if_pos h2]
    rfl

/-- **C68** fails for errors at level 1.  The manual: "1: print some error messages when these occur".  No
message is printed at this level, whatever the code, by any process. -/
theorem C68_errors_violated (ev : K → Line K) (p : Par K) (h1 : p.printLevel = 1) (code : Int)
    (text : String) : onError ev p code text = .ok [] ∧
      ∀ (a : EigReport K) (b : SvReport K), eigs ev p a = .ok [] ∧ svds p b = .ok [] := by
  have key : ∀ (a : EigReport K) (b : SvReport K), eigs ev p a = .ok [] ∧ svds p b = .ok [] := by
    intro a b
    have h1 : ¬ p.printLevel ≥ 2 := by omega
    have h2 : ¬ p.printLevel ≥ 3 := by omega
    have h3 : ¬ p.printLevel ≥ 4 := by omega
    have h4 : ¬ p.printLevel ≥ 5 := by omega
    constructor
    · unfold eigs onOuter onInner onConverged onLocked onMessage onProfile
      simp only [h1, h2, h3, h4, and_false, or_self, if_false]
      split
      · split <;> rfl
      · rfl
    · unfold svds svdsOuter svdsInner svdsConverged svdsLocked onMessage svdsProfile
      simp only [h1, h2, h3, h4, and_false, false_and, or_self, if_false]
      split
      · split <;> rfl
      · rfl
  refine ⟨?_, key⟩
  unfold onError printAll report
  split
  · split
    · exact (key _ ⟨[], 0, none, none, 0, [], 0, [], 0, none, [], none, none, none, 0, .outer, 0⟩).1
    · rfl
  · rfl

/-- **C68**, outer iterations: from level 3 one line per member of the block, in order, with the value and the
norm of its own pair of the basis; below level 3 nothing. -/
theorem C68_outer (p : Par K) (r : Run K) (hv : Valid r .outer) (hf : p.outputFile = true)
    (h0 : p.procID = 0) :
    (3 ≤ p.printLevel → ∃ ls, eigs plain p (r.report .outer) = .ok ls ∧
      ls.length = (about r .outer).block.length ∧
      ∀ (i : Nat) (x : Int), (about r .outer).block[i]? = some x → ∃ q,
        (about r .outer).basis[x.toNat]? = some q ∧
        ls[i]? = some (outText
          { converged := if p.locking then (about r .outer).locked.length else r.numConverged,
            index := x, value := q.1, norm := q.2, matvecs := p.numMatvecs,
            outerIts := p.numOuterIterations, time := p.elapsedTime, blockIndex := i, linear := 0,
            stage := 0 })) ∧
    (p.printLevel < 3 → eigs plain p (r.report .outer) = .ok []) := by
  refine ⟨?_, ?_⟩
  · intro h3
    obtain ⟨ls, h1, h2, h4⟩ := outer_lines plain hv hf h0 h3
    have hl : ((about r .outer).locked.length : Int) = r.numLocked := by
      simp [about, leading_length hv.evals, leading_length hv.resNorms]
    refine ⟨ls, h1, ?_, ?_⟩
    · have := hv.block
      rw [h2]; simp [about]; omega
    · intro i x hx
      obtain ⟨q, hq, hls⟩ := h4 i x hx
      refine ⟨q, hq, ?_⟩
      rw [hls, hl]
      rfl
  · intro h3
    have e : eigs plain p (r.report .outer) = onOuter plain p (r.report .outer) := if_pos ⟨hf, Or.inl h0⟩
    rw [e]
    exact if_neg (by omega)

/-- **C68**, inner iterations: from level 4 one line with the value and the norm of the pair being improved and
the norm of the linear system; below level 4 nothing. -/
theorem C68_inner (p : Par K) (r : Run K) (site : Site) (hs : site = .inner ∨ site = .innerAdaptive)
    (hv : Valid r site) (hf : p.outputFile = true) (h0 : p.procID = 0) :
    eigs plain p (r.report site) = .ok (if 4 ≤ p.printLevel then
      [innText
          { converged := 0, index := 0, value := r.evalr, norm := r.resr, matvecs := p.numMatvecs,
            outerIts := 0, time := p.elapsedTime, blockIndex := 0, linear := r.tau, stage := 0 }] else []) := by
  have e : eigs plain p (r.report site) = onInner plain p (r.report site) := by
    rcases hs with rfl | rfl <;> exact if_pos ⟨hf, Or.inl h0⟩
  rw [e]
  unfold onInner
  by_cases h4 : p.printLevel ≥ 4
  · rw [if_pos h4, if_pos h4]
    have hl : (r.report site).lsRes = some r.tau := by
      rcases hs with rfl | rfl <;> exact if_pos hv.tau
    rw [hl]
    rcases hs with rfl | rfl <;> rfl
  · rw [if_neg h4, if_neg h4]

/-- **C68**, converged pairs: without locking from level 2, and with locking from level 5, one line with the
number of converged pairs, the position of the pair in the basis and its value and norm; otherwise
nothing. -/
theorem C68_converged (p : Par K) (r : Run K) (b : Nat) (hv : Valid r (.converged b))
    (hf : p.outputFile = true) (h0 : p.procID = 0) :
    ((if p.locking then 5 else 2) ≤ p.printLevel → ∃ x q, r.iev[b]? = some x ∧
      (r.hVals.zip r.basisNorms)[x.toNat]? = some q ∧
      eigs plain p (r.report (.converged b)) = .ok [convergedText
          { converged := r.numConverged, index := x, value := q.1, norm := q.2,
            matvecs := p.numMatvecs, outerIts := 0, time := p.elapsedTime, blockIndex := 0,
            linear := 0, stage := 0 }]) ∧
    (p.printLevel < (if p.locking then 5 else 2) → eigs plain p (r.report (.converged b)) = .ok []) := by
  have e : eigs plain p (r.report (.converged b)) = onConverged plain p (r.report (.converged b)) :=
    if_pos ⟨hf, Or.inl h0⟩
  rw [e]
  refine ⟨?_, ?_⟩
  · intro h2
    have ht := eigTells hv
    have hb : b < r.iev.length := by have := hv.member b rfl; have := hv.block; omega
    have hx : (about r (.converged b)).block[0]? = some (r.iev[b]) := by
      show ((r.iev.drop b).take 1)[0]? = _
      rw [List.getElem?_take_of_lt (by omega), List.getElem?_drop]
      simp [hb]
    have hm := List.mem_of_getElem? hx
    obtain ⟨q, hq⟩ := block_pair hv hm
    obtain ⟨e1, e2⟩ := read_pair hv hm hq
    refine ⟨r.iev[b], q, List.getElem?_eq_getElem hb, ?_, ?_⟩
    · obtain ⟨z1, z2⟩ := zip_get hq
      rw [List.getElem?_zip_eq_some]
      rw [List.getElem?_take] at z1 z2
      split at z1 <;> simp_all
    · unfold onConverged
      have hc : (¬ p.locking = true ∧ p.printLevel ≥ 2) ∨ (p.locking = true ∧ p.printLevel ≥ 5) := by
        by_cases hL : p.locking = true
        · rw [if_pos hL] at h2; exact Or.inr ⟨hL, h2⟩
        · rw [if_neg hL] at h2; exact Or.inl ⟨hL, h2⟩
      have ex : deref (r.report (.converged b)).iblock 0 = .ok r.iev[b] := gives_deref ht.block hx
      rw [if_pos hc, show get (r.report (.converged b)).numConverged = .ok r.numConverged from rfl,
        Outcome.bind_ok, ex, Outcome.bind_ok, e1, Outcome.bind_ok, e2, Outcome.bind_ok]
      rfl
  · intro h2
    unfold onConverged
    apply if_neg
    rintro (⟨hL, h⟩ | ⟨hL, h⟩)
    · rw [if_neg hL] at h2; omega
    · rw [if_pos hL] at h2; omega

/-- **C68**, locked pairs: from level 2 one line with the value and the norm of the pair locked last, the number of
products and the time as in the manual, and then the state of the pair.  Missing: the beginning of the
line (`C68_lock_line_violated`). -/
theorem C68_locked_partial (p : Par K) (r : Run K) (hv : Valid r .locked) (hf : p.outputFile = true)
    (h0 : p.procID = 0) :
    (2 ≤ p.printLevel → ∃ q f, (about r .locked).locked.getLast? = some q ∧
      (about r .locked).lockedFlags.getLast? = some f ∧
      eigs plain p (r.report .locked) = .ok [[.word "Lock", .word "epair[", .int ((r.numLocked : Int) - 1)] ++
        (lockText
          { converged := r.numLocked, index := 0, value := q.1, norm := q.2,
            matvecs := p.numMatvecs, outerIts := 0, time := p.elapsedTime, blockIndex := 0,
            linear := 0, stage := 0 }).drop 3 ++
        [.word "Flag", .int f]]) ∧
    (p.printLevel < 2 → eigs plain p (r.report .locked) = .ok []) := by
  have e : eigs plain p (r.report .locked) = onLocked plain p (r.report .locked) := if_pos ⟨hf, Or.inl h0⟩
  rw [e]
  refine ⟨?_, ?_⟩
  · intro h2
    have ht := eigTells hv
    have hn := hv.newest rfl
    have hl : (about r .locked).locked.length = r.numLocked := by
      simp [about, leading_length hv.evals, leading_length hv.resNorms]
    have hlf : (about r .locked).lockedFlags.length = r.numLocked := by
      have := hv.lockedFlags
      simp [about]; omega
    have hq : (about r .locked).locked[r.numLocked - 1]? = some _ :=
      List.getElem?_eq_getElem (by omega)
    have hf' : (about r .locked).lockedFlags[r.numLocked - 1]? = some _ :=
      List.getElem?_eq_getElem (by omega)
    obtain ⟨e1, e2⟩ := deref_pair ht.locked hq
    have e3 := gives_deref ht.lockedFlags hf'
    have ec : ((r.numLocked - 1 : Nat) : Int) = (r.numLocked : Int) - 1 := by omega
    rw [ec] at e1 e2 e3
    refine ⟨_, _, by rw [List.getLast?_eq_getElem?, hl]; exact hq,
      by rw [List.getLast?_eq_getElem?, hlf]; exact hf', ?_⟩
    unfold onLocked
    rw [if_pos h2, show get (r.report .locked).numLocked = .ok (r.numLocked : Int) from rfl,
      Outcome.bind_ok, e1, Outcome.bind_ok, e2, Outcome.bind_ok, e3, Outcome.bind_ok]
    rfl
  · intro h2
    unfold onLocked
    exact if_neg (by omega)

/-- **C68** fails for the line of a locked pair: whatever the number of converged pairs, it is not the line of the
manual, which begins with `#Lock` (so that tools skip it as a comment) and has the number of converged
pairs in its third field, not one less. -/
theorem C68_lock_line_violated (p : Par K) (r : Run K) (hv : Valid r .locked) (hf : p.outputFile = true)
    (h0 : p.procID = 0) (h2 : 2 ≤ p.printLevel) :
    ∃ l, eigs plain p (r.report .locked) = .ok [l] ∧ field 1 l ≠ some (.word "#Lock") ∧
      field 3 l = some (.int ((r.numLocked : Int) - 1)) ∧ ∀ k, l ≠ lockText k := by
  obtain ⟨q, f, _, _, h⟩ := (C68_locked_partial p r hv hf h0).1 h2
  refine ⟨_, h, ?_, rfl, ?_⟩
  · intro hc
    have := Option.some.inj hc
    exact absurd (Tok.word.inj this) (by decide)
  · intro k hc
    have := (List.cons.inj hc).1
    exact absurd (Tok.word.inj this) (by decide)

/-- **C68**, parallel programs: only process 0 prints the progress of the solver and the messages, at every level. -/
theorem C68_process (ev : K → Line K) (p : Par K) (h : p.procID ≠ 0) (a : EigReport K) (b : SvReport K)
    (ha : a.event ≠ .profile) (hb : b.event ≠ .profile) (level : Int) (text : String) :
    eigs ev p a = .ok [] ∧ svds p b = .ok [] ∧ printAll ev p level text = .ok [] := by
  have key : ∀ c : EigReport K, c.event ≠ .profile → eigs ev p c = .ok [] := by
    intro c hc
    exact if_neg (by tauto)
  refine ⟨key a ha, if_neg (by tauto), ?_⟩
  unfold printAll report
  split
  · exact key _ (by simp [textOnly])
  · rfl

/-- **C68** fails for the profile: the manual says that only process 0 produces output up to level 4, and every
other process prints the time of every routine from level 2. -/
theorem C68_process_violated (ev : K → Line K) (p : Par K) (hf : p.outputFile = true) (h : p.procID ≠ 0)
    (h2 : 2 ≤ p.printLevel) (h4 : p.printLevel ≤ 4) (text : String) (t : K) (ht : 0 ≤ t) :
    report ev p text (some t) =
      .ok [[.word "time", .num t, .word "for", .word text, .word "proc", .int p.procID]] := by
  unfold report
  have e : eigs ev p { textOnly text .profile with time := some t } = onProfile p (some text) (some t) :=
    if_pos ⟨hf, Or.inr rfl⟩
  dsimp only
  rw [e]
  unfold onProfile
  rw [if_pos h2]
  show (if t < 0 then _ else _) = _
  rw [if_neg (not_lt.2 ht)]
  rfl

/-- A report of a run: the parameters at that moment, the solver's data and the place. -/
structure C68_Moment (K : Type) where
  par : Par K
  run : Run K
  site : Site

/-- The points of the convergence history of the outer iterations: for each outer iteration and each member of the
block, the number of products and the norm of the pair. -/
def C68_outHistory (ms : List (C68_Moment K)) : List (Tok K × Tok K) :=
  ms.flatMap (fun m => if m.site = .outer then
    (about m.run .outer).block.filterMap (fun x =>
      ((about m.run .outer).basis[x.toNat]?).map (fun q => (Tok.int m.par.numMatvecs, Tok.num q.2)))
    else [])

/-- The same for the inner iterations. -/
def C68_innHistory (ms : List (C68_Moment K)) : List (Tok K × Tok K) :=
  ms.flatMap (fun m => if m.site = .inner ∨ m.site = .innerAdaptive then
    [(Tok.int m.par.numMatvecs, Tok.num m.run.resr)] else [])

/-- The output file after a sequence of reports to the default monitor. -/
def C68_file : List (C68_Moment K) → Outcome (List (Line K))
  | [] => .ok []
  | m :: ms => do
    let x ← eigs plain m.par (m.run.report m.site)
    let y ← C68_file ms
    .ok (x ++ y)

/-- Two fields of every line that begins with a word: `grep w file | awk '{print $a" "$b}'`. -/
def C68_awk (w : String) (a b : Nat) (file : List (Line K)) : List (Option (Tok K) × Option (Tok K)) :=
  (beginning w file).map (fun l => (field a l, field b l))

/-- The lines of one report that begin with a word, seen through two fields. -/
private theorem awk_append (w : String) (a b : Nat) (x y : List (Line K)) :
    C68_awk w a b (x ++ y) = C68_awk w a b x ++ C68_awk w a b y := by
  simp [C68_awk, beginning]

private theorem awk_outer {p : Par K} {r : Run K} (hv : Valid r .outer) (hf : p.outputFile = true)
    (h0 : p.procID = 0) (h3 : 3 ≤ p.printLevel) :
    ∃ ls, eigs plain p (r.report .outer) = .ok ls ∧
      C68_awk "OUT" 8 14 ls = (C68_outHistory [⟨p, r, .outer⟩]).map (fun q => (some q.1, some q.2)) ∧
      C68_awk "INN" 3 11 ls = [] := by
  obtain ⟨ls, h1, h2, h4⟩ := outer_lines plain hv hf h0 h3
  have hlen : (about r .outer).block.length = r.blockSize := by
    have := hv.block
    simp [about]; omega
  have hall : ∀ l ∈ ls, ∃ i q, l = outOf plain p (foundOf p r) i q := by
    intro l hl
    obtain ⟨i, hi, rfl⟩ := List.mem_iff_getElem.1 hl
    obtain ⟨q, _, hq⟩ := h4 i _ (List.getElem?_eq_getElem (by omega))
    rw [List.getElem?_eq_getElem hi] at hq
    exact ⟨i, q, Option.some.inj hq⟩
  refine ⟨ls, h1, ?_, ?_⟩
  · have hb : beginning "OUT" ls = ls := by
      unfold beginning
      rw [List.filter_eq_self]
      intro l hl
      obtain ⟨i, q, rfl⟩ := hall l hl
      rfl
    unfold C68_awk
    rw [hb]
    have hh : ∀ (b : List Int) (m : List (Line K)), m.length = b.length →
        (∀ (i : Nat) (x : Int), b[i]? = some x → ∃ q k, (about r .outer).basis[x.toNat]? = some q ∧
          m[i]? = some (outOf plain p (foundOf p r) k q)) →
        m.map (fun l => (field 8 l, field 14 l)) = (b.filterMap (fun x =>
          ((about r .outer).basis[x.toNat]?).map (fun q => (Tok.int p.numMatvecs, Tok.num q.2)))).map
            (fun q => (some q.1, some q.2)) := by
      intro b
      induction b with
      | nil => intro m hm _; simp at hm; subst hm; rfl
      | cons x b ih =>
        intro m hm hstep
        cases m with
        | nil => simp at hm
        | cons l m =>
          obtain ⟨q, k, hq, hl⟩ := hstep 0 x rfl
          have hl : l = outOf plain p (foundOf p r) k q := Option.some.inj hl
          have hrec := ih m (by simpa using hm) (by
            intro i y hy
            exact hstep (i + 1) y hy)
          rw [List.map_cons, hrec, List.filterMap_cons, hq, hl]
          rfl
    have := hh (about r .outer).block ls (by omega) (by
      intro i x hx
      obtain ⟨q, hq, hl⟩ := h4 i x hx
      exact ⟨q, i, hq, hl⟩)
    rw [this]
    simp [C68_outHistory]
  · have hb : beginning "INN" ls = [] := by
      unfold beginning
      rw [List.filter_eq_nil_iff]
      intro l hl
      obtain ⟨i, q, rfl⟩ := hall l hl
      simp [outOf]
    unfold C68_awk
    rw [hb]
    rfl

private theorem awk_one (m : C68_Moment K) (hv : Valid m.run m.site) (hf : m.par.outputFile = true)
    (h0 : m.par.procID = 0) (h4 : 4 ≤ m.par.printLevel)
    (hw : ∀ t, m.site = .message t → t ≠ "OUT" ∧ t ≠ "INN") :
    ∃ ls, eigs plain m.par (m.run.report m.site) = .ok ls ∧
      C68_awk "OUT" 8 14 ls = (C68_outHistory [m]).map (fun q => (some q.1, some q.2)) ∧
      C68_awk "INN" 3 11 ls = (C68_innHistory [m]).map (fun q => (some q.1, some q.2)) := by
  obtain ⟨p, r, site⟩ := m
  dsimp only at *
  have inner : ∀ s, s = Site.inner ∨ s = Site.innerAdaptive → Valid r s →
      ∃ ls, eigs plain p (r.report s) = .ok ls ∧
      C68_awk "OUT" 8 14 ls = (C68_outHistory [(⟨p, r, s⟩ : C68_Moment K)]).map (fun q => (some q.1, some q.2)) ∧
      C68_awk "INN" 3 11 ls = (C68_innHistory [(⟨p, r, s⟩ : C68_Moment K)]).map (fun q => (some q.1, some q.2)) := by
    intro s hs hv
    refine ⟨_, C68_inner p r s hs hv hf h0, ?_, ?_⟩
    · rw [if_pos h4]
      rcases hs with rfl | rfl <;> simp [C68_awk, beginning, C68_outHistory, innText]
    · rw [if_pos h4]
      rcases hs with rfl | rfl <;> simp [C68_awk, beginning, C68_innHistory, innText, field]
  cases site with
  | outer =>
    obtain ⟨ls, h1, h2, h3⟩ := awk_outer hv hf h0 (by omega)
    exact ⟨ls, h1, h2, by rw [h3]; simp [C68_innHistory]⟩
  | inner => exact inner _ (Or.inl rfl) hv
  | innerAdaptive => exact inner _ (Or.inr rfl) hv
  | converged b =>
    obtain ⟨h1, h2⟩ := C68_converged p r b hv hf h0
    rcases Int.lt_or_le p.printLevel (if p.locking = true then 5 else 2) with h | h
    · exact ⟨_, h2 h, by simp [C68_awk, beginning, C68_outHistory],
        by simp [C68_awk, beginning, C68_innHistory]⟩
    · obtain ⟨x, q, _, _, h⟩ := h1 h
      exact ⟨_, h, by simp [C68_awk, beginning, C68_outHistory, convergedText],
        by simp [C68_awk, beginning, C68_innHistory, convergedText]⟩
  | locked =>
    obtain ⟨q, f, _, _, h⟩ := (C68_locked_partial p r hv hf h0).1 (by omega)
    exact ⟨_, h, by simp [C68_awk, beginning, C68_outHistory],
      by simp [C68_awk, beginning, C68_innHistory]⟩
  | message t =>
    obtain ⟨w1, w2⟩ := hw t rfl
    refine ⟨[[.word t]], ?_, by simp [C68_awk, beginning, C68_outHistory, w1],
      by simp [C68_awk, beginning, C68_innHistory, w2]⟩
    have e : eigs plain p (r.report (.message t)) = onMessage p (some t) := if_pos ⟨hf, Or.inl h0⟩
    rw [e]
    exact if_pos (by omega)
  | profile t =>
    refine ⟨[[.word "time", .num 0, .word "for", .word t, .word "proc", .int p.procID]], ?_,
      by simp [C68_awk, beginning, C68_outHistory], by simp [C68_awk, beginning, C68_innHistory]⟩
    have e : eigs plain p (r.report (.profile t)) = onProfile p (some t) (some 0) := if_pos ⟨hf, Or.inl h0⟩
    rw [e]
    unfold onProfile
    rw [if_pos (by omega)]
    show (if (0 : K) < 0 then _ else _) = _
    rw [if_neg (lt_irrefl _)]
    rfl

/-- **C68**, convergence history: for every sequence of reports of a run on a Hermitian problem at level 4 or 5, the
two commands of the manual applied to the output file give the history of the outer and of the inner
iterations: the number of products and the residual norm, one point per member of the block and per
inner iteration, in order. -/
theorem C68_history_partial (ms : List (C68_Moment K))
    (h : ∀ m ∈ ms, Valid m.run m.site ∧ m.par.outputFile = true ∧ m.par.procID = 0 ∧ 4 ≤ m.par.printLevel ∧
      ∀ t, m.site = .message t → t ≠ "OUT" ∧ t ≠ "INN") :
    ∃ file, C68_file ms = .ok file ∧
      C68_awk "OUT" 8 14 file = (C68_outHistory ms).map (fun q => (some q.1, some q.2)) ∧
      C68_awk "INN" 3 11 file = (C68_innHistory ms).map (fun q => (some q.1, some q.2)) := by
  induction ms with
  | nil => exact ⟨[], rfl, rfl, rfl⟩
  | cons m ms ih =>
    obtain ⟨hv, hf, h0, h4, hw⟩ := h m (List.mem_cons_self ..)
    obtain ⟨ls, a1, a2, a3⟩ := awk_one m hv hf h0 h4 hw
    obtain ⟨file, b1, b2, b3⟩ := ih (fun x hx => h x (List.mem_cons_of_mem _ hx))
    refine ⟨ls ++ file, ?_, ?_, ?_⟩
    · unfold C68_file; rw [a1, Outcome.bind_ok, b1]; rfl
    · rw [awk_append, a2, b2, ← List.map_append]
      simp [C68_outHistory]
    · rw [awk_append, a3, b3, ← List.map_append]
      simp [C68_innHistory]

/-- **C68** fails for the history of normal problems, whose eigenvalues are printed in three fields: in every line
the field 14 that the manual plots is the letter `i`. -/
theorem C68_history_out_violated (re im : K → K) (p : Par K) (r : Run K) (hv : Valid r .outer)
    (hf : p.outputFile = true) (h0 : p.procID = 0) (h3 : 3 ≤ p.printLevel) :
    ∃ ls, eigs (cartesian re im) p (r.report .outer) = .ok ls ∧ ls.length = r.blockSize ∧
      ∀ l ∈ ls, field 1 l = some (.word "OUT") ∧ field 14 l = some (.word "i") := by
  obtain ⟨ls, h1, h2, h4⟩ := outer_lines (cartesian re im) hv hf h0 h3
  have hlen : (about r .outer).block.length = r.blockSize := by
    have := hv.block
    simp [about]; omega
  refine ⟨ls, h1, h2, ?_⟩
  intro l hl
  obtain ⟨i, hi, rfl⟩ := List.mem_iff_getElem.1 hl
  obtain ⟨q, _, hq⟩ := h4 i _ (List.getElem?_eq_getElem (by omega))
  rw [List.getElem?_eq_getElem hi] at hq
  rw [Option.some.inj hq]
  exact ⟨rfl, rfl⟩

/-- And in the lines of the inner iterations the field 11 that the manual plots is the norm of the linear system,
not that of the eigenpair, which is in the field 13. -/
theorem C68_history_inn_violated (re im : K → K) (p : Par K) (r : Run K) (hv : Valid r .inner)
    (hf : p.outputFile = true) (h0 : p.procID = 0) (h4 : 4 ≤ p.printLevel) :
    ∃ l, eigs (cartesian re im) p (r.report .inner) = .ok [l] ∧ field 1 l = some (.word "INN") ∧
      field 11 l = some (.num r.tau) ∧ field 13 l = some (.num r.resr) := by
  have e : eigs (cartesian re im) p (r.report .inner) = onInner (cartesian re im) p (r.report .inner) :=
    if_pos ⟨hf, Or.inl h0⟩
  rw [e]
  unfold onInner
  rw [if_pos h4]
  have hl : (r.report .inner).lsRes = some r.tau := if_pos hv.tau
  rw [hl]
  exact ⟨_, rfl, rfl, rfl, rfl⟩

/-- The parameters that the default monitor of the singular value solver sees. -/
def C68_seen (out : Bool) (procID level : Int) (v : Sv K) : Par K where
  outputFile := out
  procID := procID
  printLevel := level
  locking := false
  numOuterIterations := v.stats.numOuterIterations
  numMatvecs := v.stats.numMatvecs
  elapsedTime := v.stats.elapsedTime

/-- **C68**, singular values in one stage with the normal equations, outer iterations: the default monitor is called
with a report for which, from level 3, it prints one line per member of the block, with the singular
value and the norm of its triplet, the products with the matrix and with its transpose, and stage 1. -/
theorem C68_svds_outer (env : Env K) (hs : IsSqrt env.sqrt) (ha : ∀ k, env.alloc k = true) (r : Run K)
    (hv : Valid r .outer) (e : Eig K) (v : Sv K) (hop : v.method = .AtA ∨ v.method = .AAt) (level : Int)
    (h3 : 3 ≤ level) :
    ∃ R ls, Reports (fun u => single env u (r.report .outer) e v) R
        { v with stats := running v.stats e.stats } v.stats ∧
      svds (C68_seen true 0 level { v with stats := running v.stats e.stats }) R = .ok ls ∧
      ls.length = (about r .outer).block.length ∧
      ∀ (i : Nat) (x : Int), (about r .outer).block[i]? = some x → ∃ q σ ρ,
        (about r .outer).basis[x.toNat]? = some q ∧ IsSvalOf v.method σ q.1 ∧
        (σ ≠ 0 → IsNormOf v.method σ q.2 ρ) ∧
        ls[i]? = some (svdsOutText
          { converged := r.numConverged, index := x, value := env.cast σ, norm := env.cast ρ,
            matvecs := v.stats.numMatvecs + 2 * e.stats.numMatvecs,
            outerIts := v.stats.numOuterIterations + e.stats.numOuterIterations,
            time := v.stats.elapsedTime + e.stats.elapsedTime, blockIndex := i, linear := 0, stage := 1 }) := by
  obtain ⟨R, hR, ht, hd, _, hst⟩ := C36_single_partial env hs ha r .outer hv (by simp) e v hop
  obtain ⟨ls, h1, h2, h4⟩ := svds_outer_lines
    (p := C68_seen true 0 level { v with stats := running v.stats e.stats }) ht hd rfl rfl rfl h3
  refine ⟨R, ls, hR, h1, h2, ?_⟩
  intro i x hx
  obtain ⟨q, σ, ρ, hq, d1, d2, hl⟩ := h4 i x hx
  refine ⟨q, σ, ρ, hq, d1, d2, ?_⟩
  rw [hl, hst, ht.numConverged _ rfl]
  rfl

/-- **C68**, singular values in one stage with the normal equations, converged triplets: from level 2 one line. -/
theorem C68_svds_converged (env : Env K) (hs : IsSqrt env.sqrt) (ha : ∀ k, env.alloc k = true) (r : Run K)
    (b : Nat) (hv : Valid r (.converged b)) (e : Eig K) (v : Sv K) (hop : v.method = .AtA ∨ v.method = .AAt)
    (level : Int) (h2 : 2 ≤ level) :
    ∃ R x q σ ρ, Reports (fun u => single env u (r.report (.converged b)) e v) R
        { v with stats := running v.stats e.stats } v.stats ∧
      r.iev[b]? = some x ∧ (about r (.converged b)).basis[x.toNat]? = some q ∧ IsSvalOf v.method σ q.1 ∧
      (σ ≠ 0 → IsNormOf v.method σ q.2 ρ) ∧
      svds (C68_seen true 0 level { v with stats := running v.stats e.stats }) R = .ok [svdsConvergedText
          { converged := r.numConverged, index := x, value := env.cast σ, norm := env.cast ρ,
            matvecs := v.stats.numMatvecs + 2 * e.stats.numMatvecs,
            outerIts := v.stats.numOuterIterations + e.stats.numOuterIterations,
            time := v.stats.elapsedTime + e.stats.elapsedTime, blockIndex := 0, linear := 0, stage := 1 }] := by
  obtain ⟨R, hR, ht, hd, _, hst⟩ := C36_single_partial env hs ha r (.converged b) hv (by simp) e v hop
  have hb : b < r.iev.length := by have := hv.member b rfl; have := hv.block; omega
  have hx : (about r (.converged b)).block[0]? = some (r.iev[b]) := by
    show ((r.iev.drop b).take 1)[0]? = _
    rw [List.getElem?_take_of_lt (by omega), List.getElem?_drop]
    simp [hb]
  obtain ⟨q, σ, ρ, hq, d1, d2, hl⟩ := svds_converged_line
    (p := C68_seen true 0 level { v with stats := running v.stats e.stats }) ht hd rfl rfl rfl
    (Or.inl ⟨hst, h2⟩) hx
  refine ⟨R, r.iev[b], q, σ, ρ, hR, List.getElem?_eq_getElem hb, hq, d1, d2, ?_⟩
  rw [hl, hst, ht.numConverged _ rfl]
  rfl

/-- **C68**, singular values in one stage with the normal equations, locked triplets: from level 2 one line with the
value, the norm and the state of the triplet locked last. -/
theorem C68_svds_locked_partial (env : Env K) (hs : IsSqrt env.sqrt) (ha : ∀ k, env.alloc k = true) (r : Run K)
    (hv : Valid r .locked) (e : Eig K) (v : Sv K) (hop : v.method = .AtA ∨ v.method = .AAt) (level : Int)
    (h2 : 2 ≤ level) :
    ∃ R q f σ ρ, Reports (fun u => single env u (r.report .locked) e v) R
        { v with stats := running v.stats e.stats } v.stats ∧
      (about r .locked).locked.getLast? = some q ∧ (about r .locked).lockedFlags.getLast? = some f ∧
      IsSvalOf v.method σ q.1 ∧ (σ ≠ 0 → IsNormOf v.method σ q.2 ρ) ∧
      svds (C68_seen true 0 level { v with stats := running v.stats e.stats }) R = .ok [
        [.word "Lock", .word "striplet[", .int ((r.numLocked : Int) - 1), .word "]=", .num (env.cast σ),
          .word "norm", .num (env.cast ρ), .word "Mvecs",
          .int (v.stats.numMatvecs + 2 * e.stats.numMatvecs), .word "Time",
          .num (v.stats.elapsedTime + e.stats.elapsedTime), .word "Flag", .int f, .word "stage", .int 1]] := by
  obtain ⟨R, hR, ht, _, hd, hst⟩ := C36_single_partial env hs ha r .locked hv (by simp) e v hop
  have hn := hv.newest rfl
  have hl : (about r .locked).locked.length = r.numLocked := by
    simp [about, leading_length hv.evals, leading_length hv.resNorms]
  have hlf : (about r .locked).lockedFlags.length = r.numLocked := by
    have := hv.lockedFlags
    simp [about]; omega
  obtain ⟨q, hq⟩ : ∃ q, (about r .locked).locked[r.numLocked - 1]? = some q :=
    ⟨_, List.getElem?_eq_getElem (by omega)⟩
  obtain ⟨f, hf'⟩ : ∃ f, (about r .locked).lockedFlags[r.numLocked - 1]? = some f :=
    ⟨_, List.getElem?_eq_getElem (by omega)⟩
  have e3 := gives_deref ht.lockedFlags hf'
  have ec : ((r.numLocked - 1 : Nat) : Int) = (r.numLocked : Int) - 1 := by omega
  have et : ((r.numLocked : Int) - 1).toNat = r.numLocked - 1 := by omega
  rw [ec] at e3
  obtain ⟨σ, ρ, d1, d2, d3, d4⟩ := hd _ _ hq
  rw [← et] at d1 d2
  have c1 := cell_some (by omega) d1
  have c2 := cell_some (by omega) d2
  have hnl : R.numLocked = r.numLocked := by rw [ht.numLocked, hl]
  refine ⟨R, q, f, σ, ρ, hR, by rw [List.getLast?_eq_getElem?, hl]; exact hq,
    by rw [List.getLast?_eq_getElem?, hlf]; exact hf', d3, d4, ?_⟩
  unfold svds
  rw [if_pos ⟨rfl, Or.inl rfl⟩, show R.event = .locked from ht.event]
  dsimp only
  unfold svdsLocked
  rw [if_pos (show (C68_seen true 0 level { v with stats := running v.stats e.stats }).printLevel ≥ 2 from h2),
    hnl, c1, Outcome.bind_ok, c2, Outcome.bind_ok, e3, Outcome.bind_ok, hst]
  rfl

/-- **C68**, singular values in one stage with the normal equations, inner iterations: from level 4 one line with the
value and the norm of the triplet being improved and the norm of the linear system. -/
theorem C68_svds_inner (env : Env K) (hs : IsSqrt env.sqrt) (ha : ∀ k, env.alloc k = true) (r : Run K)
    (hv : Valid r .inner) (e : Eig K) (v : Sv K) (hop : v.method = .AtA ∨ v.method = .AAt) (level : Int)
    (h4 : 4 ≤ level) :
    ∃ R σ ρ, Reports (fun u => single env u (r.report .inner) e v) R
        { v with stats := running v.stats e.stats } v.stats ∧
      IsSvalOf v.method σ r.evalr ∧ (σ ≠ 0 → IsNormOf v.method σ r.resr ρ) ∧
      svds (C68_seen true 0 level { v with stats := running v.stats e.stats }) R = .ok [svdsInnText
          { converged := 0, index := 0, value := env.cast σ, norm := env.cast ρ,
            matvecs := v.stats.numMatvecs + 2 * e.stats.numMatvecs, outerIts := 0,
            time := v.stats.elapsedTime + e.stats.elapsedTime, blockIndex := 0, linear := env.cast r.tau,
            stage := 1 }] := by
  obtain ⟨R, hR, ht, hd, _, hst⟩ := C36_single_partial env hs ha r .inner hv (by simp) e v hop
  have hls : R.lsRes = some (env.cast r.tau) := by
    have hR' := hR
    rw [single_eq ha (eigTells hv) hop] at hR'
    have hu := reports_unique hR' (deliver_reports env _ _ _ e v)
    have e1 : (r.report .inner).lsRes.getD 0 = r.tau := by
      have : (r.report .inner).lsRes = some r.tau := if_pos hv.tau
      rw [this]; rfl
    rw [hu]
    show (if 0 ≤ (r.report .inner).lsRes.getD 0 then some (env.cast ((r.report .inner).lsRes.getD 0)) else none) = _
    rw [e1, if_pos hv.tau]
  have hx : (about r .inner).block[0]? = some 0 := rfl
  have hq : (about r .inner).basis[(0 : Int).toNat]? = some (r.evalr, r.resr) := rfl
  obtain ⟨σ, ρ, d1, d2, d3, d4⟩ := hd _ _ hq
  have ex : deref R.iblock 0 = .ok 0 := gives_deref ht.block hx
  refine ⟨R, σ, ρ, hR, d3, d4, ?_⟩
  unfold svds
  rw [if_pos ⟨rfl, Or.inl rfl⟩, show R.event = .inner from ht.event]
  dsimp only
  unfold svdsInner
  rw [if_pos (show (C68_seen true 0 level { v with stats := running v.stats e.stats }).printLevel ≥ 4 from h4),
    ex, Outcome.bind_ok, cell_some le_rfl d1, Outcome.bind_ok, hls, show get (some (env.cast r.tau)) = .ok (env.cast r.tau) from rfl,
    Outcome.bind_ok, cell_some le_rfl d2, Outcome.bind_ok, hst]
  rfl

/-- **C68** fails for singular values from the augmented operator alone: with any pair in the block, the default
monitor prints from level 3 a number that was never written. -/
theorem C68_augmented_violated (env : Env K) (ha : ∀ k, env.alloc k = true) (r : Run K)
    (hv : Valid r .outer) (hb : 0 < r.blockSize) (e : Eig K) (v : Sv K) (hop : v.method = .augmented)
    (R : SvReport K) (seen : Sv K) (st : Stats K)
    (hR : Reports (fun u => single env u (r.report .outer) e v) R seen st) (level : Int) (h3 : 3 ≤ level) :
    svds (C68_seen true 0 level seen) R = .ub := by
  obtain ⟨hn, _, _⟩ := C36_augmented_values_violated env ha r .outer hv e v hop R seen st hR
  have hE : R.event = .outer ∧ R.blockSize = r.blockSize ∧ R.iblock = some ⟨r.iev, 0⟩ := by
    rw [single_aug_eq ha (eigTells hv) hop] at hR
    have hu := reports_unique hR (deliver_reports env _ _ _ e v)
    rw [hu]
    exact ⟨rfl, rfl, rfl⟩
  obtain ⟨e1, e2, e3⟩ := hE
  unfold svds
  rw [if_pos ⟨rfl, Or.inl rfl⟩, e1]
  dsimp only
  unfold svdsOuter
  rw [if_pos (show (C68_seen true 0 level seen).printLevel ≥ 3 from h3), e2]
  have hline : ∀ i, i < r.blockSize → svdsOutLine (C68_seen true 0 level seen) R i = .ub := by
    intro i hi
    unfold svdsOutLine
    have hr : Readable (⟨r.iev, 0⟩ : Ptr Int) r.blockSize := readable_zero hv.block
    obtain ⟨k, hk, _⟩ := deref_leading hr hi
    rw [e3, hk, Outcome.bind_ok, cell_none hn]
    rfl
  have hc : ∀ n, 0 < n → n ≤ r.blockSize → collect n (svdsOutLine (C68_seen true 0 level seen) R) = .ub := by
    intro n
    induction n with
    | zero => intro h; omega
    | succ n ih =>
      intro _ hn
      rcases Nat.eq_zero_or_pos n with rfl | hp
      · simp [collect, hline 0 hb]
      · simp [collect, ih hp (by omega)]
  simpa using hc r.blockSize hb le_rfl

end

/-! ## The hypotheses are met -/

/-- Parameters of process 0 at a level. -/
def C68_par (level : Int) (locking : Bool) : Par ℚ := ⟨true, 0, level, locking, 7, 30, 2⟩

/-- A run with two pairs in the block, out of order, and one locked pair. -/
def C68_run : Run ℚ :=
  { hVals := [5, 6, 7], basisNorms := [1/2, 1/3, 1/4], flags := [0, 0, 0], iev := [2, 0], basisSize := 3,
    blockSize := 2, numConverged := 1, evals := ⟨[4, 0], 0⟩, resNorms := ⟨[1, 0], 0⟩, lockedFlags := [2, 0],
    numLocked := 1, evalr := 1, resr := 1/5, numIts := 3, tau := 1/6 }

theorem C68_run_valid (site : Site) (h : ∀ b, site ≠ .converged (b + 2)) : Valid C68_run site where
  vals := by simp [C68_run]
  norms := by simp [C68_run]
  flags := by simp [C68_run]
  block := by simp [C68_run]
  inBasis := by simp [C68_run]
  evals := by simp [C68_run, Readable]
  resNorms := by simp [C68_run, Readable]
  lockedFlags := by simp [C68_run]
  newest := by simp [C68_run]
  member := by
    intro b hb
    match b with
    | 0 => simp [C68_run]
    | 1 => simp [C68_run]
    | b + 2 => exact absurd hb (h b)
  tau := by norm_num [C68_run]

/-- The lines of the two members of the block. -/
example : eigs plain (C68_par 3 false) (C68_run.report .outer) = .ok [
    [.word "OUT", .int 7, .word "conv", .int 1, .word "blk", .int 0, .word "MV", .int 30, .word "Sec", .num 2,
      .word "EV", .num 7, .word "|r|", .num (1/4)],
    [.word "OUT", .int 7, .word "conv", .int 1, .word "blk", .int 1, .word "MV", .int 30, .word "Sec", .num 2,
      .word "EV", .num 5, .word "|r|", .num (1/2)]] := by decide +kernel

example : eigs plain (C68_par 2 false) (C68_run.report (.converged 1)) = .ok [
    [.word "#Converged", .int 1, .word "eval[", .int 0, .word "]=", .num 5, .word "norm", .num (1/2),
      .word "Mvecs", .int 30, .word "Time", .num 2]] := by decide +kernel

example : eigs plain (C68_par 2 true) (C68_run.report .locked) = .ok [
    [.word "Lock", .word "epair[", .int 0, .word "]=", .num 4, .word "norm", .num 1, .word "Mvecs", .int 30,
      .word "Time", .num 2, .word "Flag", .int 2]] := by decide +kernel

/-- A sequence of reports and its history. -/
def C68_moments : List (C68_Moment ℚ) :=
  [⟨C68_par 4 false, C68_run, .outer⟩, ⟨C68_par 4 false, C68_run, .inner⟩,
    ⟨C68_par 4 false, C68_run, .message "note"⟩, ⟨C68_par 4 false, C68_run, .converged 1⟩]

example : ∀ m ∈ C68_moments, Valid m.run m.site ∧ m.par.outputFile = true ∧ m.par.procID = 0 ∧
    4 ≤ m.par.printLevel ∧ ∀ t, m.site = .message t → t ≠ "OUT" ∧ t ≠ "INN" := by
  intro m hm
  simp only [C68_moments, List.mem_cons, List.not_mem_nil, or_false] at hm
  rcases hm with rfl | rfl | rfl | rfl <;>
    exact ⟨C68_run_valid _ (by simp), rfl, rfl, by decide, by simp⟩

example : C68_outHistory C68_moments = [(.int 30, .num (1/4)), (.int 30, .num (1/2))] ∧
    C68_innHistory C68_moments = [(.int 30, .num (1/5))] := by
  constructor <;> simp [C68_outHistory, C68_innHistory, C68_moments, about, C68_run, C68_par] <;> norm_num

/-- The error of a failed call, which the manual says is printed at level 1. -/
example : onError plain (C68_par 1 false) (-3) "PRIMME: Error -3" = .ok [] ∧
    onError plain (C68_par 2 false) (-3) "PRIMME: Error -3" = .ok [[.word "PRIMME: Error -3"]] := by
  decide +kernel

end Verif.Props
