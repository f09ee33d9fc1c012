import Verif.Proofs.SvdsRun
import Verif.Props.C10_SvdsStages

/-!
# C28: the two stages of a singular value computation
-/

set_option linter.unusedSectionVars false
set_option linter.unusedSimpArgs false

namespace Verif.Props
open Verif.Members Verif.Eigs Verif.Svds Verif.Spec Verif.SvdsRun

variable {K : Type} [Field K] [LinearOrder K]

/-- What is reported for the return value `c` of the eigensolver in the given stage. -/
def C28_translated (second : Bool) (c : Int) : Int := if c = 0 then 0 else if second then c - 200 else c - 100

/-- **C28, sequence and codes.** During a run the eigensolver is called not at all, once for the first stage, or
once for each stage.  The second stage runs only if it is configured and the first returned 0; it does run in
that case unless the driver itself fails (product, test or monitor of the user, unsupported type).  The returned
code is 0 for success, the first stage's code minus 100, the second stage's code minus 200, or the code of the
failure of the driver, in which case no triplet is reported. -/
theorem C28_sequence_and_codes (o : Sys K) (hc : SolverContract o) (w : World K) (r : Ret K)
    (hm : w.s.sv.i .method ≠ 0) (h : stages o w = some r) :
    ∃ new, r.w.log = w.log ++ new ∧
      ((solverCalls new = [] ∧ driverFailure r.code ∧ r.out = 0) ∨
      (∃ c ≤ 0, solverCalls new = [(false, c)] ∧
        ((r.code = C28_translated false c ∧ (w.s.sv.i .methodStage2 = 0 ∨ c ≠ 0)) ∨
          (driverFailure r.code ∧ r.out = 0))) ∨
      (∃ c ≤ 0, solverCalls new = [(false, 0), (true, c)] ∧ w.s.sv.i .methodStage2 ≠ 0 ∧
        (r.code = C28_translated true c ∨ (driverFailure r.code ∧ r.out = 0)))) := by
  have hret : ∀ c : Int, c ≤ 0 → (if c ≠ 0 then c - 100 else c) = C28_translated false c := by
    intro c _; unfold C28_translated; by_cases hz : c = 0 <;> simp [hz]
  have hret2 : ∀ c : Int, (if c ≠ 0 then c - 200 else c) = C28_translated true c := by
    intro c; unfold C28_translated; by_cases hz : c = 0 <;> simp [hz]
  obtain ⟨st, hst, hcase⟩ := stages_inv o w r h
  obtain ⟨hcode, new1, hl1, hs1, hok1⟩ := copyFrom_spec o false w st hst hm
  rcases hcase with ⟨hne, rfl⟩ | ⟨h0, c, t, rfl, rfl, hcase⟩
  · exact ⟨new1, hl1, Or.inl ⟨hs1, hcode.resolve_left hne, rfl⟩⟩
  · obtain ⟨hr1, _, _, hlog1, _, _, _, hsv1, _⟩ := callSolver_spec o false 0 st.w
    obtain ⟨_, _, q1, _⟩ := hok1 h0
    set q := o.solve false (stage false st.w.s) (fun i => st.w.svals (0 + i)) (fun i => st.w.rnorms (0 + i))
      (st.w.heap ((stage false st.w.s).p .targetShifts)) with hq
    have hle : q.ret ≤ 0 := (hc _ _ _ _ _).2.2.2.2.2
    obtain ⟨ht1, ht2⟩ := copyTo_log o false st.alloc (callSolver o false 0 st.w).2
    have hlogt : (copyTo o false st.alloc (callSolver o false 0 st.w).2).2.log = w.log ++
        (new1 ++ [.solve false (stage false st.w.s) 0 (st.w.heap ((stage false st.w.s).p .targetShifts)) q.ret]) := by
      rw [ht1, hlog1, hl1, List.append_assoc]
    have hcalls : ∀ rest : List (Ev K), solverCalls ((new1 ++ [.solve false (stage false st.w.s) 0
        (st.w.heap ((stage false st.w.s).p .targetShifts)) q.ret]) ++ rest)
        = (false, q.ret) :: solverCalls rest := by
      intro rest; rw [calls_append, calls_append, hs1, calls_solve]; rfl
    have hm1 : (callSolver o false 0 st.w).2.s.sv.i .method ≠ 0 := by
      rw [hsv1 _ (by simp), q1.i _ (by simp)]; exact hm
    rcases hcase with ⟨hne, rfl⟩ | ⟨h1, hcase⟩
    · refine ⟨_, hlogt, Or.inr (Or.inl ⟨q.ret, hle, ?_, Or.inr ⟨Or.inr (Or.inl (ht2.resolve_left hne)), rfl⟩⟩)⟩
      have := hcalls []; simpa [solverCalls] using this
    · obtain ⟨_, _, _, hfol, _⟩ := copyTo_ok o false st.alloc (callSolver o false 0 st.w).2 hm1 h1
      have hm2 : (copyTo o false st.alloc (callSolver o false 0 st.w).2).2.s.sv.i .methodStage2
          = w.s.sv.i .methodStage2 := by
        rw [hfol _ (by simp [svFollowed]), hsv1 _ (by simp), q1.i _ (by simp)]
      rcases hcase with ⟨hno, rfl⟩ | ⟨hs2, hz, st2, hst2, hcase⟩
      · refine ⟨_, hlogt, Or.inr (Or.inl ⟨q.ret, hle, ?_, Or.inl ⟨?_, ?_⟩⟩)⟩
        · have := hcalls []; simpa [solverCalls] using this
        · rw [hr1]; exact hret _ hle
        · rw [hr1, hm2] at hno
          by_cases hz : w.s.sv.i .methodStage2 = 0
          · exact Or.inl hz
          · refine Or.inr (fun hz' => hno ⟨hz, ?_⟩)
            rw [hz']; rfl
      · have hz0 : q.ret = 0 := by
          rw [hr1] at hz
          split_ifs at hz <;> omega
        rw [hm2] at hs2
        have hop2 : opOf true (copyTo o false st.alloc (callSolver o false 0 st.w).2).2.s ≠ 0 := by
          show (copyTo o false st.alloc (callSolver o false 0 st.w).2).2.s.sv.i .methodStage2 ≠ 0
          rw [hm2]; exact hs2
        obtain ⟨hcode2, new2, hl2, hsc2, hok2⟩ := copyFrom_spec o true _ st2 hst2 hop2
        rcases hcase with ⟨hne, rfl⟩ | ⟨h2, c2, t2, rfl, rfl, hcase⟩
        · refine ⟨_, by rw [hl2, hlogt, List.append_assoc], Or.inr (Or.inl ⟨q.ret, hle, ?_, Or.inr
            ⟨hcode2.resolve_left hne, rfl⟩⟩)⟩
          rw [hcalls, hsc2]
        · set off := (st2.w.s.sv.i .numSvals - st2.w.s.st2.i .numEvals).toNat
          obtain ⟨hr2, _, _, hlog2, _⟩ := callSolver_spec o true off st2.w
          obtain ⟨ht3, ht4⟩ := copyTo_log o true st2.alloc (callSolver o true off st2.w).2
          set q2 := o.solve true (stage true st2.w.s) (fun i => st2.w.svals (off + i))
            (fun i => st2.w.rnorms (off + i)) (st2.w.heap ((stage true st2.w.s).p .targetShifts)) with hq2
          have hle2 : q2.ret ≤ 0 := (hc _ _ _ _ _).2.2.2.2.2
          have hlogt2 : (copyTo o true st2.alloc (callSolver o true off st2.w).2).2.log = w.log ++
              ((new1 ++ [.solve false (stage false st.w.s) 0 (st.w.heap ((stage false st.w.s).p .targetShifts))
                q.ret]) ++ (new2 ++ [.solve true (stage true st2.w.s) off
                (st2.w.heap ((stage true st2.w.s).p .targetShifts)) q2.ret])) := by
            rw [ht3, hlog2, hl2, hlogt]; simp only [List.append_assoc]
          have hc2 : solverCalls ((new1 ++ [.solve false (stage false st.w.s) 0
              (st.w.heap ((stage false st.w.s).p .targetShifts)) q.ret]) ++ (new2 ++ [.solve true
              (stage true st2.w.s) off (st2.w.heap ((stage true st2.w.s).p .targetShifts)) q2.ret]))
              = [(false, 0), (true, q2.ret)] := by
            rw [hcalls, calls_append, hsc2, calls_solve, hz0]; rfl
          rcases hcase with ⟨hne, rfl⟩ | ⟨h3, rfl⟩
          · exact ⟨_, hlogt2, Or.inr (Or.inr ⟨q2.ret, hle2, hc2, hs2, Or.inr
              ⟨Or.inr (Or.inl (ht4.resolve_left hne)), rfl⟩⟩)⟩
          · refine ⟨_, hlogt2, Or.inr (Or.inr ⟨q2.ret, hle2, hc2, hs2, Or.inl ?_⟩)⟩
            rw [hr2]; exact hret2 _

/-! ## The whole call -/

/-- Working precision of a call made with precision `t`. -/
def C28_precision (t : Int) (w : World K) : Int :=
  if w.s.sv.i .internalPrecision = 0 then t else w.s.sv.i .internalPrecision

theorem defaultTypes_keeps (t : Int) (v : SV K) (g : Svds.IF)
    (hg : g ∉ [Svds.IF.matrixMatvec_type, .applyPreconditioner_type, .globalSumReal_type, .broadcastReal_type,
      .convTestFun_type, .monitorFun_type]) : (SvdsRun.defaultTypes t v).i g = v.i g := by
  simp only [List.mem_cons, List.not_mem_nil, or_false, not_or] at hg
  obtain ⟨h1, h2, h3, h4, h5, h6⟩ := hg
  have key : ∀ (v : SV K) (q : Svds.PF) (f : Svds.IF), g ≠ f →
      (if v.p q ≠ 0 ∧ v.i f = 0 then v.setI f t else v).i g = v.i g := by
    intro v q f hf
    split_ifs
    · rw [svI, if_neg hf]
    · rfl
  unfold SvdsRun.defaultTypes
  dsimp only
  rw [key _ _ _ h6, key _ _ _ h5, key _ _ _ h4, key _ _ _ h3, key _ _ _ h2, key _ _ _ h1]

theorem runDefaults_keeps (o : Sys K) (v : SV K) (g : Svds.IF)
    (hg : g ∉ [Svds.IF.convTestFun_type, .monitorFun_type]) : (runDefaults o v).i g = v.i g := by
  simp only [List.mem_cons, List.not_mem_nil, or_false, not_or] at hg
  unfold runDefaults
  dsimp only
  split_ifs <;> simp [svI, hg.1, hg.2]

theorem resetStats_keeps (v : SV K) (g : Svds.IF)
    (hg : g ∉ [Svds.IF.stats_numOuterIterations, .stats_numRestarts, .stats_numMatvecs, .stats_numPreconds,
      .stats_numGlobalSum, .stats_volumeGlobalSum, .stats_lockingIssue]) : (resetStats v).i g = v.i g := by
  simp only [List.mem_cons, List.not_mem_nil, or_false, not_or] at hg
  obtain ⟨h1, h2, h3, h4, h5, h6, h7⟩ := hg
  simp [resetStats, svI, h1, h2, h3, h4, h5, h6, h7]

theorem prelude_sv {e : SEnv K} {s t : SP K} {k : ℕ} {a : SArrays} (h : svdsPrelude e k a s = some t)
    (g : Svds.IF) (hg : g ∈ [Svds.IF.numSvals, .numOrthoConst, .maxMatvecs, .target, .numTargetShifts,
      .initSize]) : t.sv.i g = s.sv.i g := by
  unfold svdsPrelude at h
  dsimp only at h
  have ht := (C10_depth k).2 h
  have hs := congrArg SP.sv ht
  rw [svdsDefaults_sv] at hs
  have h1 : ∀ v : SV K, (chooseOps 0 v).i g = v.i g := by
    intro v
    apply chooseOps_frame <;> (rintro rfl; simp at hg)
  have hgi := congrFun (congrArg (fun v : SV K => v.i) hs) g
  rw [hgi]
  simp only [List.mem_cons, List.not_mem_nil, or_false] at hg
  rcases hg with rfl | rfl | rfl | rfl | rfl | rfl <;> (split_ifs <;> simp [h1])

/-- How a call can end: before the stages, or by running them on an accepted configuration. -/
theorem driver_inv (t : Int) (sys : Int → Option (Sys K)) (k : ℕ) (a : SArrays) (w : World K) (r : Ret K)
    (h : SvdsRun.driver t sys k a w = some r) :
    r.w.s.sv.i .initSize = r.out ∧
    ((r.out = 0 ∧ r.w.log = w.log ∧ r.w.products = w.products) ∨
    ∃ o u r', sys (C28_precision t w) = some o ∧ stages o u = some r' ∧ r.code = r'.code ∧ r.out = r'.out ∧
      r.w.log = r'.w.log ∧ r.w.svals = r'.w.svals ∧ r.w.rnorms = r'.w.rnorms ∧ r.w.products = r'.w.products ∧
      r.w.s.st1 = r'.w.s.st1 ∧ r.w.s.st2 = r'.w.s.st2 ∧ r.w.s.sv.d = r'.w.s.sv.d ∧
      (∀ g, g ≠ .initSize → r.w.s.sv.i g = r'.w.s.sv.i g) ∧
      u.log = w.log ∧ u.products = w.products ∧ u.s.sv.i .stats_numMatvecs = 0 ∧
      Doc.Supported (u.s.sv.i .method) (u.s.sv.i .methodStage2) ∧ u.s.st1.i .numEvals = w.s.sv.i .numSvals ∧
      (u.s.sv.i .methodStage2 ≠ 0 → u.s.st2.i .numEvals = w.s.sv.i .numSvals) ∧ 1 ≤ w.s.sv.i .numSvals ∧
      ∀ g ∈ [Svds.IF.numSvals, .numOrthoConst, .maxMatvecs, .target, .numTargetShifts, .initSize],
        u.s.sv.i g = w.s.sv.i g) := by
  unfold SvdsRun.driver at h
  dsimp only at h
  have hprec : (if (SvdsRun.defaultTypes t w.s.sv).i .internalPrecision = 0 then t
      else (SvdsRun.defaultTypes t w.s.sv).i .internalPrecision) = C28_precision t w := by
    unfold C28_precision; rw [defaultTypes_keeps _ _ _ (by simp)]
  rw [hprec] at h
  rcases hs : sys (C28_precision t w) with _ | o
  · rw [hs] at h
    obtain rfl := Option.some.inj h
    exact ⟨by simp [svI], Or.inl ⟨rfl, rfl, rfl⟩⟩
  · rw [hs] at h
    dsimp only at h
    set w1 : World K := { w with s := { w.s with sv := SvdsRun.defaultTypes t w.s.sv } } with hw1
    rcases hw : SvdsRun.wrapper o k a w1 with _ | r'
    · rw [hw] at h; exact absurd h (by simp)
    · rw [hw] at h
      dsimp only at h
      obtain rfl := Option.some.inj h
      refine ⟨by simp [svI], ?_⟩
      unfold SvdsRun.wrapper at hw
      rcases hp : svdsPrelude o.toSEnv k a w1.s with _ | s
      · rw [hp] at hw; exact absurd hw (by simp)
      · rw [hp] at hw
        dsimp only at hw
        by_cases h1 : a.svalsNull = true ∧ a.svecsNull = true ∧ a.resNormsNull = true
        · rw [if_pos h1] at hw
          obtain rfl := Option.some.inj hw
          exact Or.inl ⟨rfl, rfl, rfl⟩
        · rw [if_neg h1] at hw
          by_cases h2 : svdsCheckInput a s.sv ≠ 0
          · rw [if_pos h2] at hw
            obtain rfl := Option.some.inj hw
            exact Or.inl ⟨rfl, rfl, rfl⟩
          · rw [if_neg h2] at hw
            have h2' := not_not.1 h2
            obtain ⟨sp1, sp2⟩ := C10_stage_problems hp h2'
            have hacc := (C09_accepted_inputs _ _).1 h2'
            have hsvn : ∀ g ∈ [Svds.IF.numSvals, .numOrthoConst, .maxMatvecs, .target, .numTargetShifts, .initSize],
                s.sv.i g = w.s.sv.i g := by
              intro g hg
              rw [prelude_sv hp g hg, hw1]
              show (SvdsRun.defaultTypes t w.s.sv).i g = _
              apply defaultTypes_keeps
              simp only [List.mem_cons, List.not_mem_nil, or_false] at hg
              rcases hg with rfl | rfl | rfl | rfl | rfl | rfl <;> simp
            have hku : ∀ g, g ∉ [Svds.IF.stats_numOuterIterations, .stats_numRestarts, .stats_numMatvecs,
                .stats_numPreconds, .stats_numGlobalSum, .stats_volumeGlobalSum, .stats_lockingIssue] →
                g ∉ [Svds.IF.convTestFun_type, .monitorFun_type] →
                (resetStats (runDefaults o s.sv)).i g = s.sv.i g := by
              intro g hg hg'
              rw [resetStats_keeps _ _ hg, runDefaults_keeps _ _ _ hg']
            refine Or.inr ⟨o, _, r', rfl, hw, rfl, rfl, rfl, rfl, rfl, rfl, rfl, rfl, rfl, ?_, rfl, rfl, ?_, ?_, ?_, ?_,
              ?_, ?_⟩
            · intro g hg
              show (r'.w.s.sv.setI .initSize r'.out).i g = _
              rw [svI, if_neg hg]
            · show (resetStats (runDefaults o s.sv)).i .stats_numMatvecs = 0
              simp [resetStats, svI]
            · show Doc.Supported ((resetStats (runDefaults o s.sv)).i .method)
                ((resetStats (runDefaults o s.sv)).i .methodStage2)
              rw [hku _ (by simp) (by simp), hku _ (by simp) (by simp)]
              exact hacc.2.2.2.1
            · show s.st1.i .numEvals = _
              rw [sp1.2.1, hsvn _ (by simp)]
            · intro hne
              have hne' : s.sv.i .methodStage2 ≠ 0 := by
                rw [← hku .methodStage2 (by simp) (by simp)]; exact hne
              show s.st2.i .numEvals = _
              rw [(sp2 hne').2.2.1, hsvn _ (by simp)]
            · rw [← hsvn .numSvals (by simp)]
              exact hacc.2.1.1
            · intro g hg
              show (resetStats (runDefaults o s.sv)).i g = _
              rw [← hsvn g hg]
              simp only [List.mem_cons, List.not_mem_nil, or_false] at hg
              rcases hg with rfl | rfl | rfl | rfl | rfl | rfl <;> exact hku _ (by simp) (by simp)

theorem translated_not_failure (b : Bool) (c : Int) (h : c ≤ 0) : ¬ driverFailure (C28_translated b c) := by
  unfold driverFailure C28_translated
  by_cases hz : c = 0
  · rw [if_pos hz]; decide
  · rw [if_neg hz]
    cases b
    · rw [if_neg (by simp)]; omega
    · rw [if_pos rfl]; omega

theorem new_unique {a b c l : List (Ev K)} (h1 : l = a ++ b) (h2 : l = a ++ c) : b = c :=
  List.append_cancel_left (h1.symm.trans h2)

/-- **C28, the call.** The number of triplets reported is what `initSize` holds afterwards.  Either the
eigensolver is not called and no triplet is reported; or it is called once, for the first stage, and the call
returns 0 or its code minus 100, where 0 means that no second stage is configured; or it is called for both
stages, the first returning 0, and the call returns 0 or the code of the second minus 200; or the driver itself
fails and no triplet is reported. -/
theorem C28_call (t : Int) (sys : Int → Option (Sys K)) (hc : ∀ q o, sys q = some o → SolverContract o) (k : ℕ)
    (a : SArrays) (w : World K) (r : Ret K) (h : SvdsRun.driver t sys k a w = some r) :
    r.w.s.sv.i .initSize = r.out ∧
    ∃ new, r.w.log = w.log ++ new ∧
      ((solverCalls new = [] ∧ r.out = 0) ∨
      (∃ c, solverCalls new = [(false, c)] ∧ r.code = C28_translated false c ∧
        (r.w.s.sv.i .methodStage2 = 0 ∨ c ≠ 0)) ∨
      (∃ c, solverCalls new = [(false, 0), (true, c)] ∧ r.code = C28_translated true c ∧
        r.w.s.sv.i .methodStage2 ≠ 0) ∨
      (∃ c l, solverCalls new = (false, c) :: l ∧ (l ≠ [] → c = 0) ∧ driverFailure r.code ∧ r.out = 0)) := by
  obtain ⟨hi, hcase⟩ := driver_inv t sys k a w r h
  refine ⟨hi, ?_⟩
  rcases hcase with ⟨h0, hl, _⟩ | ⟨o, u, r', hs, hst, hcode, hout, hlog, _, _, _, _, _, _, hsv, hul, _, _, hsup, _⟩
  · exact ⟨[], by simp [hl], Or.inl ⟨rfl, h0⟩⟩
  · have hm : u.s.sv.i .method ≠ 0 := by unfold Doc.Supported at hsup; omega
    obtain ⟨new, hn, hx⟩ := C28_sequence_and_codes o (hc _ _ hs) u r' hm hst
    refine ⟨new, by rw [hlog, hn, hul], ?_⟩
    have hfin : ¬ driverFailure r'.code → r.w.s.sv.i .methodStage2 = u.s.sv.i .methodStage2 := by
      intro hnd
      obtain ⟨_, _, _, _, _, _, _, _, hf, _⟩ := run_facts o (hc _ _ hs) u r' hm hst hnd
      rw [hsv _ (by simp), hf _ (by simp [svFollowed])]
    rw [hcode, hout]
    rcases hx with ⟨h1, _, h3⟩ | ⟨c, hle, h1, ⟨h2, h3⟩ | ⟨h2, h3⟩⟩ | ⟨c, hle, h1, h2, h3 | ⟨h3, h4⟩⟩
    · exact Or.inl ⟨h1, h3⟩
    · refine Or.inr (Or.inl ⟨c, h1, h2, ?_⟩)
      rw [hfin (by rw [h2]; exact translated_not_failure _ _ hle)]
      exact h3
    · exact Or.inr (Or.inr (Or.inr ⟨c, [], h1, fun hne => absurd rfl hne, h2, h3⟩))
    · refine Or.inr (Or.inr (Or.inl ⟨c, h1, h3, ?_⟩))
      rw [hfin (by rw [h3]; exact translated_not_failure _ _ hle)]
      exact h2
    · exact Or.inr (Or.inr (Or.inr ⟨0, [(true, c)], h1, fun _ => rfl, h3, h4⟩))

/-- A failure of the driver during the stages reports no triplet. -/
theorem failure_reports_none (o : Sys K) (hc : SolverContract o) (w : World K) (r : Ret K)
    (hm : w.s.sv.i .method ≠ 0) (h : stages o w = some r) (hf : driverFailure r.code) : r.out = 0 := by
  obtain ⟨new, _, hx⟩ := C28_sequence_and_codes o hc w r hm h
  rcases hx with ⟨_, _, h3⟩ | ⟨c, hle, _, ⟨h2, _⟩ | ⟨_, h3⟩⟩ | ⟨c, hle, _, _, h3 | ⟨_, h4⟩⟩
  · exact h3
  · rw [h2] at hf; exact absurd hf (translated_not_failure _ _ hle)
  · exact h3
  · rw [h3] at hf; exact absurd hf (translated_not_failure _ _ hle)
  · exact h4

/-- **C28, reported triplets.** A call reports between none and `numSvals` triplets, never more. -/
theorem C28_reported_range (t : Int) (sys : Int → Option (Sys K)) (hc : ∀ q o, sys q = some o → SolverContract o)
    (k : ℕ) (a : SArrays) (w : World K) (r : Ret K) (h : SvdsRun.driver t sys k a w = some r)
    (hn : 0 ≤ w.s.sv.i .numSvals) :
    0 ≤ r.w.s.sv.i .initSize ∧ r.w.s.sv.i .initSize ≤ w.s.sv.i .numSvals := by
  obtain ⟨hi, hcase⟩ := driver_inv t sys k a w r h
  rw [hi]
  rcases hcase with ⟨h0, _, _⟩ | ⟨o, u, r', hs, hst, hcode, hout, hlog, _, _, _, _, _, _, hsv, hul, _, _, hsup, hn1, hn2,
    hn3, hsame⟩
  · omega
  · have hm : u.s.sv.i .method ≠ 0 := by unfold Doc.Supported at hsup; omega
    rw [hout]
    by_cases hf : driverFailure r'.code
    · rw [failure_reports_none o (hc _ _ hs) u r' hm hst hf]; omega
    · obtain ⟨p, sh, x, y, q, hq, _, _, _, _, hx⟩ := run_facts o (hc _ _ hs) u r' hm hst hf
      have hc1 := hc _ _ hs false p x y sh
      rw [← hq.call] at hc1
      rcases hx with ⟨_, ho, _⟩ | ⟨k', p2, sh2, x2, y2, q2, mid, h2, hne, _, _, hx⟩
      · rw [ho]
        have := hq.requested
        omega
      · have hc2 := hc _ _ hs true p2 x2 y2 sh2
        rw [← h2.call] at hc2
        obtain ⟨_, _, _, _, _, ho, _⟩ := hx (by rw [hn2 hne, hsame _ (by simp)])
        rw [ho]
        have h3 := h2.requested
        have h4 := hn2 hne
        have h5 := h2.atMost
        have h6 := hq.requested
        have h7 : (k' : Int) ≤ w.s.sv.i .numSvals := by
          split_ifs at h5 <;> omega
        omega

/-- **C28, kept triplets.** If the second stage runs and the driver does not fail, the triplets kept are exactly
the leading ones of the first stage that passed the test, they are reported as locked, and each is a constraint
of the second stage.  Kept plus requested triplets are `numSvals`, and kept plus found triplets are reported.  The
singular value of a kept triplet is the one that was tested.  The counts of the stage are restored. -/
theorem C28_kept_triplets (t : Int) (sys : Int → Option (Sys K)) (hc : ∀ q o, sys q = some o → SolverContract o)
    (k : ℕ) (a : SArrays) (w : World K) (r : Ret K) (h : SvdsRun.driver t sys k a w = some r)
    (hnd : ¬ driverFailure r.code) (new : List (Ev K)) (hl : r.w.log = w.log ++ new)
    (p2 : EP K) (off : ℕ) (sh : ℕ → K) (c : Int) (hev : Ev.solve true p2 off sh c ∈ new) :
    acceptedTriplets new = List.range off ∧ lockedTriplets new = List.range off ∧
    p2.i .numEvals + off = w.s.sv.i .numSvals ∧
    p2.i .numOrthoConst = w.s.sv.i .numOrthoConst + off ∧
    (∃ o x y, sys (C28_precision t w) = some o ∧
      r.w.s.sv.i .initSize = off + (o.solve true p2 x y sh).p.i .initSize) ∧
    r.w.s.st2.i .numEvals = w.s.sv.i .numSvals ∧ r.w.s.st2.i .numOrthoConst = w.s.sv.i .numOrthoConst ∧
    (∀ j col s n e, Ev.test j col s n e true ∈ new → e = 0 → r.w.svals j = s ∧ col = w.s.sv.i .numOrthoConst + j) := by
  obtain ⟨hi, hcase⟩ := driver_inv t sys k a w r h
  rcases hcase with ⟨h0, hl', _⟩ | ⟨o, u, r', hs, hst, hcode, hout, hlog, hsv', hrn', _, hst1, hst2, _, hsv, hul, _, _,
    hsup, hn1, hn2, _, hsame⟩
  · rw [hl'] at hl
    have : new = [] := by simpa using hl
    rw [this] at hev; simp at hev
  · have hm : u.s.sv.i .method ≠ 0 := by unfold Doc.Supported at hsup; omega
    rw [hcode] at hnd
    obtain ⟨p, sh', x, y, q, hq, _, _, _, _, hx⟩ := run_facts o (hc _ _ hs) u r' hm hst hnd
    rw [hlog] at hl
    rw [← hul] at hl
    rcases hx with ⟨hl2, _⟩ | ⟨k', p2', sh2, x2, y2, q2, mid, h2, hne, _, _, hx⟩
    · have := new_unique hl hl2
      rw [this] at hev
      simp at hev
    · obtain ⟨hlg, hsc, hacc, hlk, _, ho, _, hne2, hoc2, rn, hsvals, hrnorms, htst⟩ :=
        hx (by rw [hn2 hne, hsame _ (by simp)])
      have hnew := new_unique hl hlg
      have hev' : Ev.solve true p2 off sh c = Ev.solve true p2' k' sh2 q2.ret := by
        rw [hnew] at hev
        simp only [List.mem_cons, List.mem_append, List.not_mem_nil, or_false, List.cons_append] at hev
        rcases hev with hev | hev | hev
        · simp at hev
        · have : (true, c) ∈ solverCalls mid := by
            unfold solverCalls
            exact List.mem_filterMap.2 ⟨_, hev, rfl⟩
          rw [hsc] at this; simp at this
        · exact hev
      simp only [Ev.solve.injEq, true_and] at hev'
      obtain ⟨rfl, rfl, rfl, rfl⟩ := hev'
      have hop3 : u.s.sv.i .methodStage2 = 3 := by unfold Doc.Supported at hsup; omega
      have hc2 := hc _ _ hs true p2 x2 y2 sh
      rw [← h2.call] at hc2
      have hmem : ∀ e, e ∈ new → (∃ j col s n er ok, e = Ev.test j col s n er ok) → e ∈ mid := by
        rintro e he ⟨j, col, s, n, er, ok, rfl⟩
        rw [hnew] at he
        simpa using he
      have hev1 : ∀ (f : Ev K → Option ℕ), f (.solve false p 0 sh' q.ret) = none →
          f (.solve true p2 off sh q2.ret) = none → new.filterMap f = mid.filterMap f := by
        intro f hf1 hf2
        rw [hnew]; simp [List.filterMap_append, hf1, hf2]
      refine ⟨?_, ?_, ?_, ?_, ⟨o, x2, y2, hs, ?_⟩, ?_, ?_, ?_⟩
      · rw [← hacc]; exact hev1 _ rfl rfl
      · rw [← hlk]; exact hev1 _ rfl rfl
      · rw [h2.requested, hn2 hne]; omega
      · rw [h2.constraints, hsame _ (by simp)]
      · rw [hi, hout, ho, h2.call]
      · rw [hst2, hne2, hsame _ (by simp)]
      · rw [hst2, hoc2, hsame _ (by simp)]
      · intro j col s n e ht he
        obtain ⟨e1, e2, e3⟩ := htst j col s n e true (hmem _ ht ⟨j, col, s, n, e, true, rfl⟩)
        have hj : j < off := by
          have : j ∈ acceptedTriplets mid := by
            unfold acceptedTriplets
            refine List.mem_filterMap.2 ⟨_, hmem _ ht ⟨j, col, s, n, e, true, rfl⟩, ?_⟩
            simp [he]
          rw [hacc] at this
          exact List.mem_range.1 this
        refine ⟨?_, by rw [e3, hsame _ (by simp)]⟩
        rw [hsv', hsvals, hop3]
        unfold valuesBack
        rw [if_neg (by omega)]
        dsimp only
        rw [if_pos hj]
        exact e1.symm

/-- Refutation for the residual norms: the norm reported for a kept triplet is `√2` times the norm that was
tested and accepted, although the second stage does not touch the triplet. -/
theorem C28_kept_norms_violated (t : Int) (sys : Int → Option (Sys K))
    (hc : ∀ q o, sys q = some o → SolverContract o) (k : ℕ) (a : SArrays) (w : World K) (r : Ret K)
    (h : SvdsRun.driver t sys k a w = some r) (hnd : ¬ driverFailure r.code) (new : List (Ev K))
    (hl : r.w.log = w.log ++ new) (p2 : EP K) (off : ℕ) (sh : ℕ → K) (c : Int)
    (hev : Ev.solve true p2 off sh c ∈ new) :
    ∃ o, sys (C28_precision t w) = some o ∧
      ∀ j col s n, Ev.test j col s n 0 true ∈ new → r.w.rnorms j = n * o.sqrt2 := by
  obtain ⟨hi, hcase⟩ := driver_inv t sys k a w r h
  rcases hcase with ⟨h0, hl', _⟩ | ⟨o, u, r', hs, hst, hcode, hout, hlog, hsv', hrn', _, hst1, hst2, _, hsv, hul, _, _,
    hsup, hn1, hn2, _, hsame⟩
  · rw [hl'] at hl
    have : new = [] := by simpa using hl
    rw [this] at hev; simp at hev
  · refine ⟨o, hs, ?_⟩
    have hm : u.s.sv.i .method ≠ 0 := by unfold Doc.Supported at hsup; omega
    rw [hcode] at hnd
    obtain ⟨p, sh', x, y, q, hq, _, _, _, _, hx⟩ := run_facts o (hc _ _ hs) u r' hm hst hnd
    rw [hlog] at hl
    rw [← hul] at hl
    rcases hx with ⟨hl2, _⟩ | ⟨k', p2', sh2, x2, y2, q2, mid, h2, hne, _, _, hx⟩
    · have := new_unique hl hl2
      rw [this] at hev
      simp at hev
    · obtain ⟨hlg, hsc, hacc, hlk, _, ho, _, hne2, hoc2, rn, hsvals, hrnorms, htst⟩ :=
        hx (by rw [hn2 hne, hsame _ (by simp)])
      have hnew := new_unique hl hlg
      have hop3 : u.s.sv.i .methodStage2 = 3 := by unfold Doc.Supported at hsup; omega
      have hc2 := hc _ _ hs true p2' x2 y2 sh2
      rw [← h2.call] at hc2
      intro j col s n ht
      have htm : Ev.test j col s n 0 true ∈ mid := by rw [hnew] at ht; simpa using ht
      obtain ⟨e1, e2, e3⟩ := htst j col s n 0 true htm
      have hj : j < k' := by
        have : j ∈ acceptedTriplets mid := by
          unfold acceptedTriplets
          exact List.mem_filterMap.2 ⟨_, htm, by simp⟩
        rw [hacc] at this
        exact List.mem_range.1 this
      rw [hrn', hrnorms, hop3]
      unfold normsBack
      rw [if_pos (by rw [ho]; omega), if_neg (by omega), if_pos rfl]
      dsimp only
      rw [if_pos hj, e2]

/-- Singular value for an eigenvalue `l` of the matrix of the stage: `A'A` (1), `AA'` (2) have the squares. -/
def C28_value (o : Sys K) (op : Int) (l : K) : K := if op = 1 ∨ op = 2 then o.sqrt (max 0 l) else l

/-- Residual norm of a triplet with singular value `s` for a residual norm `x` of the eigenproblem of the stage. -/
def C28_norm (o : Sys K) (op : Int) (aNorm s x : K) : K :=
  if op = 1 ∨ op = 2 then (if s = 0 then aNorm else min (x / s) aNorm) else if op = 3 then x * o.sqrt2 else x

/-- **C28, reported values.** If the driver does not fail, every reported triplet that is not kept from the first
stage carries the value and the norm that the last call of the eigensolver returned for it, converted from the
eigenproblem of that stage to the singular value problem. -/
theorem C28_reported_values (t : Int) (sys : Int → Option (Sys K)) (hc : ∀ q o, sys q = some o → SolverContract o)
    (k : ℕ) (a : SArrays) (w : World K) (r : Ret K) (h : SvdsRun.driver t sys k a w = some r)
    (hnd : ¬ driverFailure r.code) (new : List (Ev K)) (hl : r.w.log = w.log ++ new) :
    (∀ c, solverCalls new = [(false, c)] → ∃ o p x y sh, sys (C28_precision t w) = some o ∧
      Ev.solve false p 0 sh c ∈ new ∧ ∀ i : ℕ, (i : Int) < r.w.s.sv.i .initSize →
        r.w.svals i = C28_value o (r.w.s.sv.i .method) ((o.solve false p x y sh).vals i) ∧
        r.w.rnorms i = C28_norm o (r.w.s.sv.i .method) (r.w.s.sv.d .aNorm) (r.w.svals i)
          ((o.solve false p x y sh).norms i)) ∧
    (∀ c1 c2, solverCalls new = [(false, c1), (true, c2)] → ∃ o p x y sh off, sys (C28_precision t w) = some o ∧
      Ev.solve true p off sh c2 ∈ new ∧ ∀ i : ℕ, off ≤ i → (i : Int) < r.w.s.sv.i .initSize →
        r.w.svals i = C28_value o (r.w.s.sv.i .methodStage2) ((o.solve true p x y sh).vals (i - off)) ∧
        r.w.rnorms i = C28_norm o (r.w.s.sv.i .methodStage2) (r.w.s.sv.d .aNorm) (r.w.svals i)
          ((o.solve true p x y sh).norms (i - off))) := by
  obtain ⟨hi, hcase⟩ := driver_inv t sys k a w r h
  rcases hcase with ⟨h0, hl', _⟩ | ⟨o, u, r', hs, hst, hcode, hout, hlog, hsv', hrn', _, hst1, hst2, hd', hsv, hul, _, _,
    hsup, hn1, hn2, _, hsame⟩
  · rw [hl'] at hl
    have : new = [] := by simpa using hl
    rw [this]
    exact ⟨fun c hcc => by simp [solverCalls] at hcc, fun c1 c2 hcc => by simp [solverCalls] at hcc⟩
  · have hm : u.s.sv.i .method ≠ 0 := by unfold Doc.Supported at hsup; omega
    rw [hcode] at hnd
    obtain ⟨p, sh', x, y, q, hq, _, _, hfol, hstat1, hx⟩ := run_facts o (hc _ _ hs) u r' hm hst hnd
    have hm1 : r.w.s.sv.i .method = u.s.sv.i .method := by
      rw [hsv _ (by simp), hfol _ (by simp [svFollowed])]
    have hm2 : r.w.s.sv.i .methodStage2 = u.s.sv.i .methodStage2 := by
      rw [hsv _ (by simp), hfol _ (by simp [svFollowed])]
    rw [hlog] at hl
    rw [← hul] at hl
    rw [hm1, hm2, hi, hout, hsv', hrn', hd']
    rcases hx with ⟨hl2, ho, _, hv, hr⟩ | ⟨k', p2', sh2, x2, y2, q2, mid, h2, hne, _, hstat2, hx⟩
    · have hnew := new_unique hl hl2
      constructor
      · intro c hcc
        have hcq : c = q.ret := by rw [hnew] at hcc; simp [solverCalls] at hcc; exact hcc.symm
        refine ⟨o, p, x, y, sh', hs, by rw [hnew, hcq]; simp, ?_⟩
        intro i hilt
        rw [← hq.call]
        constructor
        · rw [hv]; unfold valuesBack C28_value
          by_cases hop : u.s.sv.i .method = 1 ∨ u.s.sv.i .method = 2
          · rw [if_pos ⟨hop, hilt⟩, if_pos hop]
          · rw [if_neg (fun hh => hop hh.1), if_neg hop]
        · conv_lhs => rw [hr]
          unfold normsBack C28_norm
          rw [if_pos hilt]
      · intro c1 c2 hcc
        rw [hnew] at hcc
        simp [solverCalls] at hcc
    · obtain ⟨hlg, hsc, hacc, hlk, _, ho, _, hne2, hoc2, rn, hsvals, hrnorms, htst⟩ :=
        hx (by rw [hn2 hne, hsame _ (by simp)])
      have hnew := new_unique hl hlg
      have hcalls : solverCalls new = [(false, q.ret), (true, q2.ret)] := by
        rw [hnew]
        have h1 : solverCalls (Ev.solve false p 0 sh' q.ret :: mid ++ [Ev.solve true p2' k' sh2 q2.ret])
          = (false, q.ret) :: (solverCalls mid ++ [(true, q2.ret)]) := by
          simp [solverCalls, List.filterMap_append, List.filterMap_cons]
        rw [h1, hsc]; rfl
      constructor
      · intro c hcc
        rw [hcalls] at hcc
        simp at hcc
      · intro c1 c2 hcc
        have hcq : c2 = q2.ret := by rw [hcalls] at hcc; simp at hcc; exact hcc.2.symm
        refine ⟨o, p2', x2, y2, sh2, k', hs, by rw [hnew, hcq]; simp, ?_⟩
        intro i hki hilt
        rw [← h2.call]
        have hnk : ¬ i < k' := by omega
        constructor
        · rw [hsvals]; unfold valuesBack C28_value
          by_cases hop : u.s.sv.i .methodStage2 = 1 ∨ u.s.sv.i .methodStage2 = 2
          · rw [if_pos ⟨hop, hilt⟩, if_pos hop]; dsimp only; rw [if_neg hnk]
          · rw [if_neg (fun hh => hop hh.1), if_neg hop]; dsimp only; rw [if_neg hnk]
        · conv_lhs => rw [hrnorms]
          unfold normsBack C28_norm
          rw [if_pos hilt]; dsimp only; rw [if_neg hnk]

/-- The eigensolver exceeds its budget of products by at most `W` (the last outer iteration). -/
def C28_overshoot (o : Sys K) (W : Int) : Prop :=
  ∀ b p x y z, (o.solve b p x y z).p.i .stats_numMatvecs ≤ max (p.i .maxMatvecs) 0 + W

/-- **C28, budget (partial).** With an eigensolver that exceeds its budget by at most `W` products, the products
with `A` and its adjoint made by the eigensolver exceed `maxMatvecs` by at most `2 W` if one stage runs and `4 W`
if both do.  Missing: the products the driver makes itself (conversion of vectors between the stages, a random
initial guess, tests of the first stage's triplets) are not covered by any budget, see
`C28_budget_violated`. -/
theorem C28_budget_partial (t : Int) (sys : Int → Option (Sys K)) (hc : ∀ q o, sys q = some o → SolverContract o)
    (W : Int) (hW0 : 0 ≤ W) (hW : ∀ q o, sys q = some o → C28_overshoot o W) (k : ℕ) (a : SArrays) (w : World K) (r : Ret K)
    (h : SvdsRun.driver t sys k a w = some r) (hnd : ¬ driverFailure r.code) (hmax : 0 ≤ w.s.sv.i .maxMatvecs)
    (new : List (Ev K)) (hl : r.w.log = w.log ++ new) :
    (∀ c, solverCalls new = [(false, c)] → 2 * r.w.s.st1.i .stats_numMatvecs ≤ w.s.sv.i .maxMatvecs + 2 * W) ∧
    (∀ c1 c2, solverCalls new = [(false, c1), (true, c2)] →
      2 * (r.w.s.st1.i .stats_numMatvecs + r.w.s.st2.i .stats_numMatvecs) ≤ w.s.sv.i .maxMatvecs + 4 * W) := by
  obtain ⟨hi, hcase⟩ := driver_inv t sys k a w r h
  rcases hcase with ⟨h0, hl', _⟩ | ⟨o, u, r', hs, hst, hcode, hout, hlog, hsv', hrn', _, hst1, hst2, _, hsv, hul, _, _,
    hsup, hn1, hn2, _, hsame⟩
  · rw [hl'] at hl
    have : new = [] := by simpa using hl
    rw [this]
    exact ⟨fun c hcc => by simp [solverCalls] at hcc, fun c1 c2 hcc => by simp [solverCalls] at hcc⟩
  · have hm : u.s.sv.i .method ≠ 0 := by unfold Doc.Supported at hsup; omega
    rw [hcode] at hnd
    obtain ⟨p, sh', x, y, q, hq, _, _, _, hstat1, hx⟩ := run_facts o (hc _ _ hs) u r' hm hst hnd
    have hb1 := hq.budget
    rw [hsame _ (by simp), Int.tdiv_eq_ediv_of_nonneg hmax] at hb1
    have ho1 := hW _ _ hs false p x y sh'
    rw [← hq.call] at ho1
    have hc1 := (hc _ _ hs false p x y sh').2.2.2.2.1
    rw [← hq.call] at hc1
    rw [hst1, hst2, hstat1]
    constructor
    · intro c _
      omega
    · intro c1 c2 hcc
      rw [hlog] at hl
      rw [← hul] at hl
      rcases hx with ⟨hl2, _⟩ | ⟨k', p2', sh2, x2, y2, q2, mid, h2, hne, _, hstat2, hx⟩
      · have := new_unique hl hl2
        rw [this] at hcc
        simp [solverCalls] at hcc
      · have hb2 := h2.budget
        rw [hsame _ (by simp), Int.tdiv_eq_ediv_of_nonneg hmax] at hb2
        have ho2 := hW _ _ hs true p2' x2 y2 sh2
        rw [← h2.call] at ho2
        rw [hstat2]
        omega

/-- **C28, count.** After a call in which the eigensolver was called and the driver did not fail,
`stats.numMatvecs` is the number of columns given to the user's product during the call, whatever the statistics
were before. -/
theorem C28_products_counted (t : Int) (sys : Int → Option (Sys K))
    (hc : ∀ q o, sys q = some o → SolverContract o) (k : ℕ) (a : SArrays) (w : World K) (r : Ret K)
    (h : SvdsRun.driver t sys k a w = some r) (hnd : ¬ driverFailure r.code) (new : List (Ev K))
    (hl : r.w.log = w.log ++ new) (hcall : solverCalls new ≠ []) :
    w.products ≤ r.w.products ∧
      r.w.s.sv.i .stats_numMatvecs = ((r.w.products - w.products : ℕ) : Int) := by
  obtain ⟨hi, hcase⟩ := driver_inv t sys k a w r h
  rcases hcase with ⟨h0, hl', _⟩ | ⟨o, u, r', hs, hst, hcode, hout, hlog, hsv', hrn', hpr, hst1, hst2, _, hsv, hul, hup,
    hu0, hsup, hn1, hn2, _, hsame⟩
  · rw [hl'] at hl
    have : new = [] := by simpa using hl
    rw [this] at hcall; exact absurd rfl hcall
  · have hm : u.s.sv.i .method ≠ 0 := by unfold Doc.Supported at hsup; omega
    rw [hcode] at hnd
    obtain ⟨p, sh', x, y, q, hq, hmono, hcnt, _, _, hx⟩ := run_facts o (hc _ _ hs) u r' hm hst hnd
    rw [hpr, hsv _ (by simp), hcnt, hu0, ← hup]
    exact ⟨hmono, by simp⟩

/-! ## A run with both stages

A 3 by 2 matrix with singular values 2 and 1, both requested, smallest first: the first stage finds both (as
eigenvalues 1 and 4 of the normal equations), the test accepts the first only, the second stage finds the other. -/

def C28_sys : Sys ℚ where
  sumFn := 7
  bcastFn := 8
  sqrt2 := 3 / 2
  supports := fun _ => true
  sqrt := fun x => if x = 4 then 2 else x
  meps := 1 / 1000
  hugeNorm := 1000000
  matvecFn := fun _ => 11
  precFn := fun _ => 12
  convFn := fun _ => 13
  monFn := fun _ => 14
  shiftsAddr := fun b => if b then 22 else 21
  testDefault := 15
  monDefault := 16
  opType := 3
  self := 17
  prod := fun _ => 0
  test := fun _ s _ => ⟨0, decide (s = 1), 2⟩
  mon := fun _ => 0
  solve := fun b p _ _ _ =>
    ⟨0, setD ((p.setI .initSize (max 0 (p.i .numEvals))).setI .stats_numMatvecs 3) .aNorm (if b then 2 else 4),
      fun i => if b then 2 else if i = 0 then 1 else 4, fun _ => 1 / 10, 0⟩

def C28_world : World ℚ where
  s := { initSvds 0 1 id with
    sv := { ((((initSvds 0 1 id).sv.setI .m 3).setI .n 2).setI .numSvals 2).setI .target 1 |>.setI .maxMatvecs 10
      with p := fun f => if f = .matrixMatvec then 5 else 0 } }
  svals := fun _ => 0
  rnorms := fun _ => 0
  heap := fun _ _ => 0
  products := 0
  log := []

theorem C28_sys_contract : SolverContract C28_sys := by
  intro b p x y z
  refine ⟨rfl, rfl, ?_, ?_, ?_, le_refl _⟩
  · show (0 : Int) ≤ max 0 _
    omega
  · exact le_refl (max 0 (p.i .numEvals))
  · show (0 : Int) ≤ 3
    decide

theorem C28_sys_overshoot : C28_overshoot C28_sys 3 := by
  intro b p x y z
  show (3 : Int) ≤ max (p.i .maxMatvecs) 0 + 3
  omega

example : (SvdsRun.driver 3 (fun _ => some C28_sys) 5 ⟨false, false, false⟩ C28_world).map
    (fun r => (r.code, r.out, solverCalls r.w.log)) = some (0, 2, [(false, 0), (true, 0)]) := by decide +kernel

example : (SvdsRun.driver 3 (fun _ => some C28_sys) 5 ⟨false, false, false⟩ C28_world).map
    (fun r => (acceptedTriplets r.w.log, lockedTriplets r.w.log, testedTriplets r.w.log))
    = some ([0], [0], [0, 1]) := by decide +kernel

/-- The singular values reported are 1 and 2, and the residual norm of the first, tested as 1/10, is reported
multiplied by the value of `√2`. -/
example : (SvdsRun.driver 3 (fun _ => some C28_sys) 5 ⟨false, false, false⟩ C28_world).map
    (fun r => (r.w.svals 0, r.w.svals 1, r.w.rnorms 0)) = some (1, 2, 1 / 10 * (3 / 2)) := by decide +kernel

/-- Refutation of the budget for all products: with `maxMatvecs = 10` and an eigensolver that stops exactly when its
budget is spent (three products of the first stage, two of the second), the call makes more than 10 products. -/
theorem C28_budget_violated : ∃ (o : Sys ℚ) (r : Ret ℚ), SolverContract o ∧ C28_overshoot o 0 ∧
    SvdsRun.driver 3 (fun _ => some o) 5 ⟨false, false, false⟩ C28_world = some r ∧ r.code = 0 ∧
    C28_world.s.sv.i .maxMatvecs = 10 ∧ r.w.products = 16 := by
  let o : Sys ℚ := { C28_sys with solve := fun b p _ _ _ =>
    ⟨0, (p.setI .initSize (max 0 (p.i .numEvals))).setI .stats_numMatvecs (min 3 (max (p.i .maxMatvecs) 0)),
      fun i => if b then 2 else if i = 0 then 1 else 4, fun _ => 1 / 10, 0⟩ }
  have h : ((SvdsRun.driver 3 (fun _ => some o) 5 ⟨false, false, false⟩ C28_world).map
    (fun r => (r.code, r.w.products))) = some (0, 16) := by decide +kernel
  rcases hd : SvdsRun.driver 3 (fun _ => some o) 5 ⟨false, false, false⟩ C28_world with _ | r
  · rw [hd] at h; exact absurd h (by simp)
  · rw [hd] at h
    simp only [Option.map_some, Option.some.injEq, Prod.mk.injEq] at h
    refine ⟨o, r, ?_, ?_, hd, h.1, by decide, h.2⟩
    · intro b p x y z
      refine ⟨rfl, rfl, ?_, le_refl (max 0 (p.i .numEvals)), ?_, le_refl _⟩
      · show (0 : Int) ≤ max 0 _
        omega
      · show (0 : Int) ≤ min 3 (max (p.i .maxMatvecs) 0)
        omega
    · intro b p x y z
      show min 3 (max (p.i .maxMatvecs) 0) ≤ max (p.i .maxMatvecs) 0 + 0
      omega

end Verif.Props
