import Verif.Proofs.EigsAccept
import Verif.Props.C06_SetMethod

/-!
# C07: defaulted parameters are accepted

The sequence of the manual: `primme_initialize`, description of the problem, `primme_set_method`, call
of the solver.  `preludeDefaults` and `preludeCallbacks` are what the solver does to the structure
before its input check `checkInput`.
-/

namespace Verif.Props
open Verif.Members Verif.Eigs

set_option linter.unusedSectionVars false
variable {K : Type} [Field K] [LinearOrder K] [IsStrictOrderedRing K]

/-- A structure as the user has it before choosing a method: every method parameter other than the
block size is as `primme_initialize` left it. -/
def Untuned (s : EP K) : Prop :=
  (∀ f ∈ Doc.methodParameters, f ≠ .maxBlockSize → s.i f = (initParams (0 : K) 0 id).i f) ∧
  s.i .ldOPs = -1 ∧ s.i .printLevel = 1

/-- A well-posed problem: order at least 1, between 1 and `n` values wanted, an operator, a known
target with its shifts if it needs some, a tolerance that is 0 (choose for me) or not below machine
precision, at most `numEvals` initial vectors, and a sane distribution of the rows over the
processes. -/
def WellPosed (meps : K) (s : EP K) : Prop :=
  1 ≤ s.i .n ∧ 1 ≤ s.i .numEvals ∧ s.i .numEvals ≤ s.i .n ∧ s.p .matrixMatvec ≠ 0 ∧
  0 ≤ s.i .initSize ∧ s.i .initSize ≤ s.i .numEvals ∧
  (s.d .eps = 0 ∨ meps ≤ s.d .eps) ∧
  ((s.i .target = 0 ∨ s.i .target = 1) ∨
    ((s.i .target = 2 ∨ s.i .target = 3 ∨ s.i .target = 4 ∨ s.i .target = 5) ∧
      1 ≤ s.i .numTargetShifts ∧ s.p .targetShifts ≠ 0)) ∧
  ((s.i .numProcs = 1 ∧ (s.i .nLocal = -1 ∨ s.i .nLocal = s.i .n)) ∨
    (1 < s.i .numProcs ∧ 0 ≤ s.i .nLocal ∧ s.i .nLocal ≤ s.i .n))

/-- A sane build of the library: the machine precision is positive and below 1/10, the default
tolerance is 10⁴ times it, vectors are padded to a positive multiple if at all. -/
def SaneEnv (e : Env K) : Prop :=
  0 < e.meps ∧ e.meps ≤ 1 / 10 ∧ e.defEps = 10000 * e.meps ∧ ∀ b, e.bs = some b → 1 ≤ b

theorem C07_good {m : Int} {s t : EP K} {k : Nat} (h : callMethod k m s = some (0, t))
    (hs : Untuned s) {meps : K} (hw : WellPosed meps s)
    (hr : Roomy (s.i .n) (s.i .numOrthoConst) (Doc.block s.i)) : Good t := by
  have e := C06_result h
  obtain ⟨hf, -, -⟩ := hs
  obtain ⟨w1, w2, w3, -⟩ := hw
  rw [setMethod_eq m s rfl] at e
  obtain ⟨p1, p2, p3, p4, p5, p6⟩ := prelude_facts (resolveMethod m s) s
  generalize resolveMethod m s = r at *
  cases hc : methodCase r (methodPrelude r s) with
  | none => rw [hc] at e; simp at e
  | some v =>
    rw [hc] at e
    simp only [Prod.mk.injEq, true_and] at e
    rw [e]
    refine case_good hc (by rw [p1]; split_ifs <;> omega) ?_ ?_ ?_ ?_ ?_ ?_ ?_ ?_ ?_ ?_ ?_ ?_
    · rw [p4 _ (by decide) (by decide) (by decide)]; exact hf _ (by decide) (by decide)
    · rw [p4 _ (by decide) (by decide) (by decide)]; exact hf _ (by decide) (by decide)
    · rw [p4 _ (by decide) (by decide) (by decide)]; exact hf _ (by decide) (by decide)
    · rw [p4 _ (by decide) (by decide) (by decide)]; exact hf _ (by decide) (by decide)
    · rw [p3, p6, if_pos (show s.i .correctionParams_precondition = -1 from
        hf _ (by decide) (by decide))]
      split_ifs with c
      · intro _; exact c
      · intro c; omega
    · rw [p4 _ (by decide) (by decide) (by decide)]; exact hf _ (by decide) (by decide)
    · rw [p4 _ (by decide) (by decide) (by decide)]; exact hf _ (by decide) (by decide)
    · rw [p4 _ (by decide) (by decide) (by decide)]; exact hf _ (by decide) (by decide)
    · rw [p4 _ (by decide) (by decide) (by decide)]; exact w1
    · rw [p4 _ (by decide) (by decide) (by decide)]; exact w2
    · rw [p4 _ (by decide) (by decide) (by decide), p4 _ (by decide) (by decide) (by decide)]
      exact w3
    · rw [p4 _ (by decide) (by decide) (by decide), p4 _ (by decide) (by decide) (by decide), p2]
      exact hr

/-- The prelude of the solver on a structure whose method has been chosen. -/
theorem C07_prelude {e : Env K} {t u : EP K} (hg : Good t)
    (h : preludeDefaults e false t = some u) :
    Good u ∧ (∀ f, f ≠ .nLocal → f ≠ .procID → f ≠ .orth → f ≠ .ldOPs → f ≠ .ldevecs →
      u.i f = t.i f) ∧ u.d = t.d ∧ u.p = t.p ∧
    u.i .nLocal = (if t.i .numProcs ≤ 1 then t.i .n else t.i .nLocal) ∧
    (u.i .nLocal ≠ -1 → t.i .ldevecs = -1 → u.i .ldevecs = u.i .nLocal) ∧
    (t.i .ldevecs ≠ -1 → u.i .ldevecs = t.i .ldevecs) ∧
    (t.i .ldOPs = -1 → (∀ b, e.bs = some b → 1 ≤ b) → 0 ≤ u.i .nLocal →
      u.i .ldOPs = u.i .nLocal) := by
  unfold preludeDefaults at h
  have e1 : (if t.i .numProcs ≤ 1 ∧ false = false then
      (t.setI .nLocal (t.i .n)).setI .procID 0 else t) =
      (t.setI .nLocal (if t.i .numProcs ≤ 1 then t.i .n else t.i .nLocal)).setI .procID
        (if t.i .numProcs ≤ 1 then 0 else t.i .procID) := by
    by_cases c : t.i .numProcs ≤ 1
    · simp [c]
    · simp only [c, false_and, if_false]
      rw [setI_self t .nLocal _ rfl, setI_self t .procID _ rfl]
  rw [e1] at h
  simp only at h
  generalize hL : (if t.i .numProcs ≤ 1 then t.i .n else t.i .nLocal) = L at *
  generalize (if t.i .numProcs ≤ 1 then 0 else t.i .procID) = P at *
  obtain ⟨g1, g2, g3, g4, g5, g6, g7, g8, g9, g10, g11, g12, g13, g14⟩ := hg
  rw [callDefaults_of_nonneg 2 ((t.setI .nLocal L).setI .procID P) g14] at h
  simp only at h
  generalize hw : (t.setI .nLocal L).setI .procID P = w at h
  have wi : ∀ f, f ≠ .nLocal → f ≠ .procID → w.i f = t.i f := by
    intro f a b; rw [← hw]; simp [a, b]
  have wL : w.i .nLocal = L := by rw [← hw]; rfl
  have wd : w.d = t.d := by rw [← hw]; rfl
  have wp : w.p = t.p := by rw [← hw]; rfl
  clear hw
  have x1 := d_max_keep w (by rw [wi _ (by decide) (by decide)]; omega)
  have x2 := d_min_keep w (by rw [wi _ (by decide) (by decide)]; omega)
  have x3 := d_lock_keep w (by rw [wi _ (by decide) (by decide)]; omega)
  have x4 := d_init_keep w (by rw [wi _ (by decide) (by decide)]; omega)
  have x5 : (defaultsBody w).i .projectionParams_projection = w.i .projectionParams_projection := by
    rw [d_proj]; unfold vProj; rw [if_neg (by rw [wi _ (by decide) (by decide)]; omega)]
  have x6 := d_ld w
  have xi : ∀ f, f ∉ defaultMembers → (defaultsBody w).i f = w.i f := fun f hf => defaults_i w hf
  have xd := defaults_d w
  have xp := defaults_p w
  generalize defaultsBody w = x at *
  have all : ∀ f, f ≠ .nLocal → f ≠ .procID → f ≠ .ldevecs → x.i f = t.i f := by
    intro f a b c
    by_cases c1 : f = .maxBasisSize
    · rw [c1, x1, wi _ (by decide) (by decide)]
    by_cases c2 : f = .minRestartSize
    · rw [c2, x2, wi _ (by decide) (by decide)]
    by_cases c3 : f = .locking
    · rw [c3, x3, wi _ (by decide) (by decide)]
    by_cases c4 : f = .initBasisMode
    · rw [c4, x4, wi _ (by decide) (by decide)]
    by_cases c5 : f = .projectionParams_projection
    · rw [c5, x5, wi _ (by decide) (by decide)]
    rw [xi f (by simp [defaultMembers, c, c1, c2, c3, c4, c5]), wi f a b]
  have xL : x.i .nLocal = L := by rw [xi _ (by decide), wL]
  -- the two remaining writes
  have hO : ∃ o l : Int, u = (x.setI .orth o).setI .ldOPs l ∧
      (x.i .ldOPs = -1 → (∀ b, e.bs = some b → 1 ≤ b) → 0 ≤ L → l = L) := by
    have e2 : ∃ o, (if x.i .orth = 0 then (if e.op ≤ 2 ∨ x.i .maxBlockSize > 1 then
        x.setI .orth 2 else x.setI .orth 1) else x) = x.setI .orth o := by
      split_ifs
      · exact ⟨_, rfl⟩
      · exact ⟨_, rfl⟩
      · exact ⟨x.i .orth, (setI_self x _ _ rfl).symm⟩
    obtain ⟨o, eo⟩ := e2
    rw [eo] at h
    have ho1 : (x.setI .orth o).i .ldOPs = x.i .ldOPs := rfl
    have ho2 : (x.setI .orth o).i .nLocal = L := xL
    by_cases c : (x.setI .orth o).i .ldOPs = -1
    · rw [if_pos c] at h
      cases hbs : e.bs with
      | none =>
        rw [hbs] at h
        simp only [Option.some.injEq] at h
        exact ⟨o, _, h.symm, fun _ _ _ => ho2⟩
      | some b =>
        rw [hbs] at h
        simp only [Option.some.injEq] at h
        refine ⟨o, _, h.symm, fun _ hb hL0 => ?_⟩
        have hb := hb b rfl
        rw [ho2, Int.tdiv_eq_ediv_of_nonneg (by omega)]
        have q1 := Int.mul_ediv_add_emod (L + b - 1) b
        have q2 := Int.emod_lt_of_pos (L + b - 1) (by omega : 0 < b)
        rw [mul_comm] at q1
        generalize (L + b - 1) / b * b = Q at *
        omega
    · rw [if_neg c] at h
      simp only [Option.some.injEq] at h
      refine ⟨o, x.i .ldOPs, ?_, fun c' => absurd c' c⟩
      rw [← h]
      exact (setI_self _ _ _ rfl).symm
  obtain ⟨o, l, rfl, hl⟩ := hO
  clear h
  have ui : ∀ f, f ≠ .nLocal → f ≠ .procID → f ≠ .orth → f ≠ .ldOPs → f ≠ .ldevecs →
      ((x.setI .orth o).setI .ldOPs l).i f = t.i f := by
    intro f a b c d e'
    rw [setI_i, if_neg d, setI_i, if_neg c, all f a b e']
  have up : ((x.setI .orth o).setI .ldOPs l).p = t.p := xp.trans wp
  refine ⟨?_, ui, xd.trans wd, up, xL, ?_, ?_, ?_⟩
  · constructor
    all_goals simp only [ui _ (by decide : IF.maxBasisSize ≠ .nLocal) (by decide) (by decide) (by decide) (by decide),
      ui _ (by decide : IF.n ≠ .nLocal) (by decide) (by decide) (by decide) (by decide),
      ui _ (by decide : IF.minRestartSize ≠ .nLocal) (by decide) (by decide) (by decide) (by decide),
      ui _ (by decide : IF.maxBlockSize ≠ .nLocal) (by decide) (by decide) (by decide) (by decide),
      ui _ (by decide : IF.restartingParams_maxPrevRetain ≠ .nLocal) (by decide) (by decide) (by decide) (by decide),
      ui _ (by decide : IF.locking ≠ .nLocal) (by decide) (by decide) (by decide) (by decide),
      ui _ (by decide : IF.numEvals ≠ .nLocal) (by decide) (by decide) (by decide) (by decide),
      ui _ (by decide : IF.target ≠ .nLocal) (by decide) (by decide) (by decide) (by decide),
      ui _ (by decide : IF.correctionParams_convTest ≠ .nLocal) (by decide) (by decide) (by decide) (by decide),
      ui _ (by decide : IF.projectionParams_projection ≠ .nLocal) (by decide) (by decide) (by decide) (by decide),
      ui _ (by decide : IF.initBasisMode ≠ .nLocal) (by decide) (by decide) (by decide) (by decide),
      ui _ (by decide : IF.correctionParams_precondition ≠ .nLocal) (by decide) (by decide) (by decide) (by decide),
      ui _ (by decide : IF.dynamicMethodSwitch ≠ .nLocal) (by decide) (by decide) (by decide) (by decide), up]
    all_goals assumption
  · intro hne hld
    have hne : L ≠ -1 := fun c => hne (xL.trans c)
    show x.i .ldevecs = x.i .nLocal
    rw [x6, xL]; unfold vLd
    rw [if_pos ⟨by rw [wi _ (by decide) (by decide)]; exact hld, by rw [wL]; exact hne⟩, wL]
  · intro hld
    show x.i .ldevecs = _
    rw [x6]; unfold vLd
    rw [if_neg (by rw [wi _ (by decide) (by decide)]; exact fun c => hld c.1),
      wi _ (by decide) (by decide)]
  · intro hld hb hL0
    show l = x.i .nLocal
    rw [xL]
    exact hl (by rw [all _ (by decide) (by decide) (by decide)]; exact hld) hb
      (by have : (0 : Int) ≤ x.i .nLocal := hL0; omega)

theorem C07_callbacks (e : Env K) (u : EP K) :
    (∀ f, f ≠ .convTestFun_type → f ≠ .monitorFun_type → (preludeCallbacks e u).i f = u.i f) ∧
    (∀ f, f ≠ .convTestFun → f ≠ .monitorFun → (preludeCallbacks e u).p f = u.p f) ∧
    ((preludeCallbacks e u).d .eps = u.d .eps ∨
      (preludeCallbacks e u).d .eps = if e.defEps ≥ 1 then 1 / 10 else e.defEps) := by
  unfold preludeCallbacks
  simp only
  refine ⟨fun f a b => ?_, fun f a b => ?_, ?_⟩
  · split_ifs <;> simp [setP, Store.setI, setD, a, b]
  · split_ifs <;> simp [setP, Store.setI, setD, a, b]
  · split_ifs <;> simp [setP, Store.setI, setD]

/-- The input check on a structure with acceptable method parameters. -/
theorem C07_check {meps : K} {u w : EP K} (hg : Good u)
    (ci : ∀ f, f ≠ .convTestFun_type → f ≠ .monitorFun_type → w.i f = u.i f)
    (pm : w.p .matrixMatvec ≠ 0)
    (pq : w.p .applyPreconditioner = 0 → ¬ u.i .correctionParams_precondition > 0)
    (pe : ¬ (w.p .convTestFun ≠ 0 ∧ w.d .eps ≠ 0 ∧ w.d .eps < meps))
    (pt : (u.i .target = 5 ∨ u.i .target = 2 ∨ u.i .target = 3 ∨ u.i .target = 4) →
      1 ≤ u.i .numTargetShifts ∧ w.p .targetShifts ≠ 0)
    (ht : 0 ≤ u.i .target ∧ u.i .target ≤ 5)
    (hno : 0 ≤ u.i .numOrthoConst ∧ u.i .numOrthoConst ≤ u.i .n)
    (L0 : 0 ≤ u.i .nLocal ∧ u.i .nLocal ≤ u.i .n) (hn : 1 ≤ u.i .n) (hP : 1 ≤ u.i .numProcs)
    (hk : 1 ≤ u.i .numEvals ∧ u.i .numEvals ≤ u.i .n)
    (hi : 0 ≤ u.i .initSize ∧ u.i .initSize ≤ u.i .numEvals) (hpl : u.i .printLevel = 1)
    (hld : u.i .nLocal ≤ u.i .ldevecs) (hop : u.i .ldOPs = u.i .nLocal) :
    checkInput meps ⟨false, false, false⟩ w = 0 := by
  obtain ⟨g1, g2, g3, g4, g5, g6, g7, g8, g9, g10, g11, g12, g13, g14⟩ := hg
  unfold checkInput
  simp only [ci _ (by decide : IF.n ≠ .convTestFun_type) (by decide),
    ci _ (by decide : IF.nLocal ≠ .convTestFun_type) (by decide),
    ci _ (by decide : IF.numProcs ≠ .convTestFun_type) (by decide),
    ci _ (by decide : IF.correctionParams_precondition ≠ .convTestFun_type) (by decide),
    ci _ (by decide : IF.numEvals ≠ .convTestFun_type) (by decide),
    ci _ (by decide : IF.target ≠ .convTestFun_type) (by decide),
    ci _ (by decide : IF.numOrthoConst ≠ .convTestFun_type) (by decide),
    ci _ (by decide : IF.maxBasisSize ≠ .convTestFun_type) (by decide),
    ci _ (by decide : IF.minRestartSize ≠ .convTestFun_type) (by decide),
    ci _ (by decide : IF.maxBlockSize ≠ .convTestFun_type) (by decide),
    ci _ (by decide : IF.restartingParams_maxPrevRetain ≠ .convTestFun_type) (by decide),
    ci _ (by decide : IF.initSize ≠ .convTestFun_type) (by decide),
    ci _ (by decide : IF.locking ≠ .convTestFun_type) (by decide),
    ci _ (by decide : IF.printLevel ≠ .convTestFun_type) (by decide),
    ci _ (by decide : IF.correctionParams_convTest ≠ .convTestFun_type) (by decide),
    ci _ (by decide : IF.ldevecs ≠ .convTestFun_type) (by decide),
    ci _ (by decide : IF.ldOPs ≠ .convTestFun_type) (by decide),
    ci _ (by decide : IF.projectionParams_projection ≠ .convTestFun_type) (by decide),
    ci _ (by decide : IF.numTargetShifts ≠ .convTestFun_type) (by decide)]
  rw [if_neg (by omega), if_neg (by omega), if_neg pm, if_neg (fun c => pq c.1 c.2),
    if_neg (by omega), if_neg (by omega), if_neg pe, if_neg (by omega), if_neg (by omega),
    if_neg (by omega), if_neg (by omega), if_neg (by omega), if_neg (by omega), if_neg (by omega),
    if_neg (by omega), if_neg (by omega), if_neg (by omega), if_neg (by omega), if_neg (by omega),
    if_neg (by omega), if_neg (fun c => by omega), if_neg (by simp), if_neg (by simp),
    if_neg (by simp), if_neg (by omega), if_neg (by omega), if_neg (by omega), if_neg (by omega),
    if_neg (fun c => c.2 g11)]
  by_cases c : u.i .target = 5 ∨ u.i .target = 2 ∨ u.i .target = 3 ∨ u.i .target = 4
  · rw [if_pos c, if_neg (by have := (pt c).1; omega), if_neg (pt c).2]
  · rw [if_neg c]

theorem C07_ldevecs {m : Int} {s t : EP K} {k : Nat} (hcall : callMethod k m s = some (0, t))
    (hs1 : s.i .ldevecs = -1) : t.i .ldevecs = -1 ∨ t.i .ldevecs = s.i .nLocal := by
  have ee := C06_result hcall
  rw [setMethod_eq m s rfl] at ee
  have p4 := (prelude_facts (resolveMethod m s) s).2.2.2.1
  generalize resolveMethod m s = r at *
  cases hc : methodCase r (methodPrelude r s) with
  | none => rw [hc] at ee; simp at ee
  | some v =>
    rw [hc] at ee
    simp only [Prod.mk.injEq, true_and] at ee
    have vL : v.i .nLocal = s.i .nLocal := by
      rw [(case_within _ _ _ hc).1 _ (by decide), p4 _ (by decide) (by decide) (by decide)]
    rw [ee, d_ld]; unfold vLd
    split_ifs with c
    · right; exact vL
    · left
      rcases case_cases hc with ⟨rfl, rfl⟩ | ⟨rfl, rfl⟩ | ⟨rfl, rfl⟩ | ⟨rfl, rfl⟩ | ⟨rfl, rfl⟩ |
        ⟨rfl, rfl⟩ | ⟨rfl, rfl⟩ | ⟨rfl, rfl⟩ | ⟨rfl, rfl⟩ | ⟨rfl, rfl⟩ | ⟨rfl, rfl⟩ |
        ⟨rfl, rfl⟩ | ⟨rfl, rfl⟩
      all_goals
        rw [← hs1, ← p4 .ldevecs (by decide) (by decide) (by decide)]
        first
          | rfl
          | exact plusK_i _ (f := .ldevecs) (by decide)
          | (unfold jdqr; simp only [ite_setI]; rfl)
          | (unfold jdqmr; simp only [ite_setI]; rfl)
          | (unfold jdqmrETol; simp only [ite_setI]; rfl)
          | (unfold lobpcgWindow; simp only; split_ifs <;> rfl)

/-- Full claim: for every well-posed problem, every number of orthogonal constraints leaving enough
room for the wanted values, every block size and every published method, the structure built by
`primme_initialize` + problem description + `primme_set_method` is accepted by the solver.

Proved for the sizes `Roomy`; the witnesses below show that outside of them the claim fails. -/
theorem C07_defaults_accepted_partial (e : Env K) (he : SaneEnv e) (m : Int) (s : EP K)
    (hm : Doc.Published m) (hs : Untuned s) (hw : WellPosed e.meps s)
    (hr : Roomy (s.i .n) (s.i .numOrthoConst) (Doc.block s.i)) :
    ∃ t u, callMethod 2 m s = some (0, t) ∧ preludeDefaults e false t = some u ∧
      checkInput e.meps ⟨false, false, false⟩ (preludeCallbacks e u) = 0 := by
  obtain ⟨r, hr'⟩ := C06_terminates m s
  have hcall := hr' 2 (by omega)
  obtain ⟨rc, t⟩ := r
  have hrc : rc = 0 := ((C06_return_code hcall).1).2 hm
  subst hrc
  have hg := C07_good hcall hs hw hr
  have hu : ∃ u, preludeDefaults e false t = some u := by
    unfold preludeDefaults
    dsimp only
    have : 0 ≤ ((if t.i .numProcs ≤ 1 ∧ false = false then
      (t.setI .nLocal (t.i .n)).setI .procID 0 else t)).i .dynamicMethodSwitch := by
      split_ifs
      · exact hg.dms
      · exact hg.dms
    rw [callDefaults_of_nonneg 2 _ this]
    exact ⟨_, rfl⟩
  obtain ⟨u, hu⟩ := hu
  refine ⟨t, u, hcall, hu, ?_⟩
  obtain ⟨gu, ui, ud, up, uL, uld, uld', uop⟩ := C07_prelude hg hu
  obtain ⟨ti, td, tp, -, -⟩ := C06_problem_untouched hcall
  obtain ⟨w1, w2, w3, w4, w5, w6, w7, w8, w9⟩ := hw
  obtain ⟨s1, s2, s3⟩ := hs
  obtain ⟨e1, e2, e3, e4⟩ := he
  have keep : ∀ f, f ∉ Doc.methodParameters → f ≠ .nLocal → f ≠ .procID → f ≠ .orth →
      f ≠ .ldOPs → f ≠ .ldevecs → u.i f = s.i f := by
    intro f a b c d g h
    rw [ui f b c d g h, ti f a]
  have k1 := keep .n (by decide) (by decide) (by decide) (by decide) (by decide) (by decide)
  have k2 := keep .numProcs (by decide) (by decide) (by decide) (by decide) (by decide) (by decide)
  have k3 := keep .numEvals (by decide) (by decide) (by decide) (by decide) (by decide) (by decide)
  have k4 := keep .target (by decide) (by decide) (by decide) (by decide) (by decide) (by decide)
  have k5 := keep .numOrthoConst (by decide) (by decide) (by decide) (by decide) (by decide)
    (by decide)
  have k6 := keep .initSize (by decide) (by decide) (by decide) (by decide) (by decide) (by decide)
  have k7 := keep .printLevel (by decide) (by decide) (by decide) (by decide) (by decide) (by decide)
  have k8 := keep .numTargetShifts (by decide) (by decide) (by decide) (by decide) (by decide)
    (by decide)
  have tn := ti .n (by decide)
  have tL := ti .nLocal (by decide)
  have tP := ti .numProcs (by decide)
  have tO := ti .ldOPs (by decide)
  rw [tn, tL, tP] at uL
  have L0 : 0 ≤ u.i .nLocal ∧ u.i .nLocal ≤ u.i .n := by
    rw [uL, k1]; split_ifs <;> omega
  have hld : u.i .nLocal ≤ u.i .ldevecs := by
    -- `primme_set_method` may already have taken `nLocal` as leading dimension
    have hl := C07_ldevecs hcall (s1 _ (by decide) (by decide))
    rcases hl with hl | hl
    · rw [uld (by omega) hl]
    · by_cases c : t.i .ldevecs = -1
      · rw [uld (by omega) c]
      · rw [uld' c, hl, uL]
        split_ifs <;> omega
  have hop : u.i .ldOPs = u.i .nLocal := uop (by rw [tO]; exact s2) e4 L0.1
  obtain ⟨ci, cp, ce⟩ := C07_callbacks e u
  have pm : (preludeCallbacks e u).p .matrixMatvec ≠ 0 := by
    rw [cp _ (by decide) (by decide), up, tp]; exact w4
  have pq : (preludeCallbacks e u).p .applyPreconditioner = 0 →
      ¬ u.i .correctionParams_precondition > 0 := by
    rw [cp _ (by decide) (by decide)]
    intro h c; exact gu.prec c h
  have pe : ¬ ((preludeCallbacks e u).p .convTestFun ≠ 0 ∧ (preludeCallbacks e u).d .eps ≠ 0 ∧
      (preludeCallbacks e u).d .eps < e.meps) := by
    rintro ⟨-, a, b⟩
    rcases ce with ce | ce
    · rw [ce, ud, td _ (by decide)] at a b
      rcases w7 with w7 | w7
      · exact a w7
      · exact absurd b (not_lt.2 w7)
    · rw [ce, e3] at b
      split_ifs at b
      · exact absurd b (not_lt.2 e2)
      · clear * - b e1; linarith
  have pt : (u.i .target = 5 ∨ u.i .target = 2 ∨ u.i .target = 3 ∨ u.i .target = 4) →
      1 ≤ u.i .numTargetShifts ∧ (preludeCallbacks e u).p .targetShifts ≠ 0 := by
    rw [cp _ (by decide) (by decide), up, tp, k4, k8]
    intro h
    rcases w8 with w8 | ⟨-, w8⟩
    · omega
    · exact w8
  have hno : 0 ≤ u.i .numOrthoConst ∧ u.i .numOrthoConst ≤ u.i .n := by
    rw [k5, k1]
    obtain ⟨r1, r2, r3⟩ := hr
    omega
  exact C07_check gu ci pm pq pe pt
    (by omega) hno L0 (by omega) (by omega) (by omega) (by omega) (by omega) hld hop

/-! ## A concrete case, and the limits of the claim -/

/-- A build with double precision. -/
def C07_env : Env Rat := ⟨3, some 8, 1, 2, 1 / 4503599627370496, 10000 / 4503599627370496⟩

/-- A fresh structure with the problem described: order, number of values, constraints, block size. -/
def C07_problem (n k noc b : Int) : EP Rat :=
  setP (((((initParams (0 : Rat) 0 id).setI .n n).setI .numEvals k).setI .numOrthoConst noc).setI
    .maxBlockSize b) .matrixMatvec 1

theorem C07_env_sane : SaneEnv C07_env := by
  refine ⟨by decide +kernel, by decide +kernel, by decide +kernel, ?_⟩
  intro b hb
  simp only [C07_env, Option.some.injEq] at hb
  omega

theorem C07_problem_untuned (n k noc b : Int) : Untuned (C07_problem n k noc b) := by
  refine ⟨?_, rfl, rfl⟩
  intro f hf hb
  simp only [Doc.methodParameters, List.mem_cons, List.not_mem_nil, or_false] at hf
  rcases hf with rfl | rfl | rfl | rfl | rfl | rfl | rfl | rfl | rfl | rfl | rfl | rfl | rfl | rfl |
    rfl | rfl | rfl | rfl | rfl <;> first | rfl | exact absurd rfl hb

theorem C07_problem_wellPosed (n k noc b : Int) (h1 : 1 ≤ n) (h2 : 1 ≤ k) (h3 : k ≤ n) :
    WellPosed C07_env.meps (C07_problem n k noc b) :=
  ⟨h1, h2, h3, Nat.one_ne_zero, le_refl _, by show (0 : Int) ≤ k; omega, Or.inl rfl,
    Or.inl (Or.inl rfl), Or.inl ⟨rfl, Or.inl rfl⟩⟩

/-- A problem of order 1000, ten values, three constraints and blocks of four vectors. -/
example : Roomy ((C07_problem 1000 10 3 4).i .n) ((C07_problem 1000 10 3 4).i .numOrthoConst)
    (Doc.block (C07_problem 1000 10 3 4).i) ∧ Untuned (C07_problem 1000 10 3 4) ∧
    WellPosed C07_env.meps (C07_problem 1000 10 3 4) :=
  ⟨by unfold Roomy; decide +kernel, C07_problem_untuned _ _ _ _,
    C07_problem_wellPosed _ _ _ _ (by decide) (by decide) (by decide)⟩

/-- What the documented sequence answers. -/
def C07_answer (m : Int) (s : EP Rat) : Option Int :=
  match callMethod 2 m s with
  | none => none
  | some (_, t) => match preludeDefaults C07_env false t with
    | none => none
    | some u => some (checkInput C07_env.meps ⟨false, false, false⟩ (preludeCallbacks C07_env u))

/-- Order 10 with blocks of five vectors: the default restart size comes out as 0 and the solver
rejects its own default with code -18 (`PRIMME_GD`). -/
theorem C07_block_violated : ∃ s : EP Rat, Untuned s ∧ WellPosed C07_env.meps s ∧
    s.i .numOrthoConst = 0 ∧ s.i .maxBlockSize ≤ s.i .n ∧ C07_answer 5 s = some (-18) :=
  ⟨C07_problem 10 1 0 5, C07_problem_untuned _ _ _ _,
    C07_problem_wellPosed _ _ _ _ (by decide) (by decide) (by decide), rfl, by decide +kernel,
    by decide +kernel⟩

/-- Order 3 with two orthogonal constraints and one value: rejected with -17 for every preset that
takes its sizes from the defaults (here `PRIMME_DEFAULT_MIN_MATVECS`). -/
theorem C07_constraints_violated : ∃ s : EP Rat, Untuned s ∧ WellPosed C07_env.meps s ∧
    s.i .n - s.i .numOrthoConst ≥ s.i .numEvals ∧ C07_answer 3 s = some (-17) :=
  ⟨C07_problem 3 1 2 0, C07_problem_untuned _ _ _ _,
    C07_problem_wellPosed _ _ _ _ (by decide) (by decide) (by decide), by decide +kernel,
    by decide +kernel⟩

/-- Order 5 with three constraints: the defaults leave no room for the retained vectors, -25. -/
theorem C07_constraints_room_violated : ∃ s : EP Rat, Untuned s ∧ WellPosed C07_env.meps s ∧
    s.i .n - s.i .numOrthoConst ≥ s.i .numEvals ∧ C07_answer 1 s = some (-25) :=
  ⟨C07_problem 5 1 3 0, C07_problem_untuned _ _ _ _,
    C07_problem_wellPosed _ _ _ _ (by decide) (by decide) (by decide), by decide +kernel,
    by decide +kernel⟩

/-- The order of the calls matters: choosing the method before the number of processes is known, with
`nLocal` set, freezes the leading dimension, and the solver then rejects it with -34. -/
theorem C07_ldevecs_frozen_violated : ∃ s : EP Rat, s.i .numProcs = 1 ∧ s.i .nLocal = 5 ∧
    s.i .n = 10 ∧ Untuned s ∧ C07_answer 1 s = some (-34) :=
  ⟨(C07_problem 10 1 0 0).setI .nLocal 5, rfl, rfl, rfl, by
    obtain ⟨h1, h2, h3⟩ := C07_problem_untuned 10 1 0 0
    refine ⟨fun f hf hb => ?_, h2, h3⟩
    rw [setI_i, if_neg (by rintro rfl; revert hf; decide)]
    exact h1 f hf hb, by decide +kernel⟩

end Verif.Props
