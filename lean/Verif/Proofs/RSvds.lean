import Verif.Model.RSvds
import Verif.Proofs.REigs
import Verif.Proofs.PySvds
import Verif.Spec.RSvds

set_option linter.unusedSectionVars false

/-!
# The options of `svds` of the R package: what each parameter holds when the library is called
-/

namespace Verif.R
open Verif.Members Verif.Py Verif.Eigs

variable {K V : Type} [Field K] [LinearOrder K] [IsStrictOrderedRing K] [FloorRing K]

theorem svds_kind (heap : Nat) : GoodKind (svdsKind heap) Svds.ctype Py.Doc.svdsType Py.Doc.svdsMembers where
  tables := svds_good
  seed := by
    have : ∀ e ∈ Svds.infoNames, e.2 = 35 → ∀ p ∈ Py.Doc.svdsMembers, p.1 = e.1 → p.2 = .seed := by decide +kernel
    exact fun nm m h1 h2 => this _ h1 rfl _ h2 rfl
  shifts := by
    have : ∀ e ∈ Svds.infoNames, e.2 = 21 → ∀ p ∈ Py.Doc.svdsMembers, p.1 = e.1 → p.2 = .p .targetShifts := by
      decide +kernel
    exact fun nm m h1 h2 => this _ h1 rfl _ h2 rfl
  count := by
    have : ∀ e ∈ Svds.infoNames, ∀ p ∈ Py.Doc.svdsMembers, p.1 = e.1 → p.2 = .i .numTargetShifts →
        e.2 ∈ [1, 2, 9, 10, 11, 12, 13, 14, 20, 24, 25, 38, 5, (7 : Int)] := by decide +kernel
    exact fun nm l h1 h2 => this _ h1 _ h2 rfl rfl
  countNum := ⟨"numTargetShifts", 20, show ("numTargetShifts", (20 : Int)) ∈ Svds.infoNames by decide +kernel,
    show ("numTargetShifts", .i .numTargetShifts) ∈ Py.Doc.svdsMembers by decide +kernel⟩
  apart := show (35 : Int) ∉ [1, 2, 9, 10, 11, 12, 13, 14, 20, 24, 25, 38, 5, (7 : Int)] ∧
    (21 : Int) ∉ [1, 2, 9, 10, 11, 12, 13, 14, 20, 24, 25, 38, 5, (7 : Int)] ∧ (35 : Int) ≠ 21 by decide
  shiftsNum := rfl
  kinds := by
    intro nm l m h1 h2 h3 h4 h5
    cases m with
    | i f => exact ⟨fun _ => ⟨f, rfl⟩, fun h => by simp [Py.Doc.svdsType] at h⟩
    | d f => exact ⟨fun h => by simp [Py.Doc.svdsType] at h, fun _ => ⟨f, rfl⟩⟩
    | p f => cases f <;> simp [Py.Doc.svdsType] at h5 ⊢
    | seed =>
      have : ∀ e ∈ Svds.infoNames, ∀ p ∈ Py.Doc.svdsMembers, p.1 = e.1 → p.2 = .seed → e.2 = 35 := by decide +kernel
      exact absurd (this _ h1 _ h2 rfl rfl) h3
    | sub k => simp [Py.Doc.svdsType]
  label := by
    have : ∀ e ∈ Svds.infoNames, ∀ e' ∈ Svds.infoNames, e.1 = e'.1 → e.2 = e'.2 := by decide +kernel
    exact fun nm l l' h1 h2 => this _ h1 _ h2 rfl

/-- What `check_uv` makes of a pair when the dimensions are `M` and `N`. -/
structure Checked (a : RSvdsArgs K V) (M N : Nat) (u v u' v' : RVecs V) : Prop where
  pairs : R.Doc.Pairs (a.apply false) (a.apply true) u v u' v'
  left : ∀ x, u = .mat x → x.rows = M
  right : ∀ y, v' = .mat y → y.rows = N

theorem fitsRows_iff {o : Opts K} {nm : String} {M : Nat} (h : number (o.dollar nm) = some (M : K)) (v : RVecs V) :
    fitsRows o nm v = true ↔ v ≠ .other ∧ ∀ x, v = .mat x → x.rows = M := by
  cases v with
  | null => simp [fitsRows]
  | other => simp [fitsRows]
  | mat x =>
    simp only [fitsRows, rowsMatch, h, decide_eq_true_eq, Option.some.injEq, Nat.cast_inj, ne_eq, reduceCtorEq,
      not_false_eq_true, RVecs.mat.injEq, true_and]
    constructor
    · rintro rfl y rfl; rfl
    · intro h; exact (h x rfl).symm

theorem checkUV_ok {a : RSvdsArgs K V} {o : Opts K} {u v : RVecs V} {r : RVecs V × RVecs V}
    (h : checkUV a o u v = .ok r) :
    u ≠ .other ∧ v ≠ .other ∧ r.1 ≠ .other ∧ r.2 ≠ .other ∧
    R.Doc.Pairs (a.apply false) (a.apply true) u v r.1 r.2 ∧
    ∀ M N : Nat, number (o.dollar "m") = some (M : K) → number (o.dollar "n") = some (N : K) →
      Checked a M N u v r.1 r.2 := by
  unfold checkUV at h
  by_cases h1 : fitsRows o "m" u = false
  · rw [if_pos h1] at h; simp at h
  rw [if_neg h1] at h
  rw [Bool.not_eq_false] at h1
  have hu : u ≠ .other := by rintro rfl; simp [fitsRows] at h1
  dsimp only at h
  cases u with
  | other => exact absurd rfl hu
  | mat x =>
    cases v with
    | other => simp [fitsRows] at h
    | mat y =>
      simp only at h
      by_cases h2 : fitsRows o "n" (.mat y) = false
      · rw [if_pos h2] at h; simp at h
      rw [if_neg h2, Res.ok.injEq] at h
      rw [Bool.not_eq_false] at h2
      subst h
      refine ⟨by simp, by simp, by simp, by simp, .both x y, fun M N hM hN => ⟨.both x y, ?_, ?_⟩⟩
      · exact ((fitsRows_iff hM _).1 h1).2
      · exact ((fitsRows_iff hN _).1 h2).2
    | null =>
      simp only at h
      cases hd : a.apply true x with
      | none => rw [hd] at h; simp [derived, fitsRows] at h
      | some y =>
        rw [hd, show derived (some y) = .mat y from rfl] at h
        by_cases h2 : fitsRows o "n" (.mat y) = false
        · rw [if_pos h2] at h; simp at h
        rw [if_neg h2, Res.ok.injEq] at h
        rw [Bool.not_eq_false] at h2
        subst h
        refine ⟨by simp, by simp, by simp, by simp, .left x y hd, fun M N hM hN => ⟨.left x y hd, ?_, ?_⟩⟩
        · exact ((fitsRows_iff hM _).1 h1).2
        · exact ((fitsRows_iff hN _).1 h2).2
  | null =>
    cases v with
    | other => simp [fitsRows] at h
    | null =>
      simp only [fitsRows, Bool.true_eq_false, if_false, Res.ok.injEq] at h
      subst h
      refine ⟨by simp, by simp, by simp, by simp, .none, fun M N hM hN => ⟨.none, by simp, by simp⟩⟩
    | mat y =>
      simp only at h
      by_cases h2 : fitsRows o "n" (.mat y) = false
      · rw [if_pos h2] at h; simp at h
      rw [if_neg h2] at h
      rw [Bool.not_eq_false] at h2
      cases hd : a.apply false y with
      | none => rw [hd] at h; simp [derived] at h
      | some x =>
        rw [hd] at h
        simp only [derived, Res.ok.injEq] at h
        subst h
        refine ⟨by simp, by simp, by simp, by simp, .right x y hd, fun M N hM hN => ⟨.right x y hd, by simp, ?_⟩⟩
        exact ((fitsRows_iff hN _).1 h2).2

/-- The names of the options that do not come from the user as they are. -/
def svdsTaken : List String :=
  ["m", "n", "numSvals", "target", "targetShifts", "eps", "method", "methodStage1", "methodStage2"]

/-- The facts behind a list of options that was made. -/
structure MadeS (a : RSvdsArgs K V) (o : Opts K) (x : Vectors V) (m m1 m2 : RVal K) : Prop where
  dimFn : a.A = .fn → whole (a.opts.dollar "m") = true ∧ whole (a.opts.dollar "n") = true
  dimMat : ∀ y, a.A = .mat y → (o.exact "m" = .int [(y.rows : Int)] ∧ "m" ∈ o.map Prod.fst) ∧
    o.exact "n" = .int [(y.cols : Int)] ∧ "n" ∈ o.map Prod.fst
  dimBad : a.A ≠ .bad
  count : whole a.NSvals = true ∧ o.exact "numSvals" = a.NSvals ∧ "numSvals" ∈ o.map Prod.fst
  tol : ∃ t, a.tol = .num t ∧ 0 ≤ t ∧ t < 1 ∧ o.exact "eps" = .real [t] ∧ "eps" ∈ o.map Prod.fst
  target : ∃ t, o.exact "target" = .str [t] ∧ "target" ∈ o.map Prod.fst ∧
    (∀ w, a.which = .name w → w = "L" ∧ t = "primme_svds_largest" ∨ w = "S" ∧ t = "primme_svds_smallest") ∧
    (∀ l, a.which = .nums l → t = "primme_svds_closest_abs")
  whichBad : a.which ≠ .other
  points : ∀ l, a.which = .nums l → o.exact "targetShifts" = .real l ∧ "targetShifts" ∈ o.map Prod.fst
  noPoints : ∀ w, a.which = .name w → o.exact "targetShifts" = a.opts.exact "targetShifts" ∧
    ("targetShifts" ∈ o.map Prod.fst ↔ "targetShifts" ∈ a.opts.map Prod.fst)
  isreal : a.isreal ≠ .other
  precBad : a.prec ≠ .other
  precModes : ∀ p q r, a.prec = .list p q r → p ≠ .other ∧ q ≠ .other ∧ r ≠ .other
  orthoBad : a.orthou ≠ .other ∧ a.orthov ≠ .other
  guessBad : a.u0 ≠ .other ∧ a.v0 ≠ .other
  orthoPairs : R.Doc.Pairs (a.apply false) (a.apply true) a.orthou a.orthov x.orthou x.orthov
  guessPairs : R.Doc.Pairs (a.apply false) (a.apply true) a.u0 a.v0 x.u0 x.v0
  sizes : ∀ M N : Nat, R.Doc.Dims a M N →
    Checked a M N a.orthou a.orthov x.orthou x.orthov ∧ Checked a M N a.u0 a.v0 x.u0 x.v0 ∧
    (∀ p q r, a.prec = .list p q r → (∀ i j, p = .mat i j → i = N ∧ j = N) ∧ (∀ i j, q = .mat i j → i = M ∧ j = M) ∧
      ∀ i j, r = .mat i j → i = M + N ∧ j = M + N) ∧
    (∀ k, number a.NSvals = some k → k ≤ (M : K) ∧ k ≤ (N : K))
  others : ∀ nm, nm ∉ svdsTaken → o.exact nm = a.opts.exact nm ∧ (nm ∈ o.map Prod.fst ↔ nm ∈ a.opts.map Prod.fst)
  dim : a.A = .fn → (o.exact "m" = a.opts.exact "m" ∧ ("m" ∈ o.map Prod.fst ↔ "m" ∈ a.opts.map Prod.fst)) ∧
    o.exact "n" = a.opts.exact "n" ∧ ("n" ∈ o.map Prod.fst ↔ "n" ∈ a.opts.map Prod.fst)
  methods : m = a.opts.exact "method" ∧ m1 = a.opts.exact "methodStage1" ∧ m2 = a.opts.exact "methodStage2"
  methodsGone : ∀ nm ∈ ["method", "methodStage1", "methodStage2"], (a.opts.map Prod.fst).count nm ≤ 1 →
    nm ∉ o.map Prod.fst

theorem setDims_ok {a : RSvdsArgs K V} {o : Opts K} (h : setDims a = .ok o) :
    a.A ≠ .bad ∧ (a.A = .fn → o = a.opts ∧ whole (a.opts.dollar "m") = true ∧ whole (a.opts.dollar "n") = true) ∧
    (∀ x, a.A = .mat x → o = (a.opts.put "m" (.int [(x.rows : Int)])).put "n" (.int [(x.cols : Int)])) := by
  unfold setDims at h
  cases hA : a.A with
  | fn =>
    rw [hA] at h
    simp only at h
    split at h
    · rename_i hw
      simp only [Res.ok.injEq] at h
      exact ⟨by simp, fun _ => ⟨h.symm, hw.2, hw.1⟩, by simp⟩
    · simp at h
  | mat x =>
    rw [hA] at h
    simp only [Res.ok.injEq] at h
    exact ⟨by simp, by simp, fun y hy => by simp only [ROp.mat.injEq] at hy; subst hy; exact h.symm⟩
  | bad => rw [hA] at h; simp at h

theorem setSvals_ok {a : RSvdsArgs K V} {o o' : Opts K} (h : setSvals a o = .ok o') :
    whole a.NSvals = true ∧ o' = o.put "numSvals" a.NSvals ∧ ∃ k m n, number a.NSvals = some k ∧
      number (o.dollar "m") = some m ∧ number (o.dollar "n") = some n ∧ k ≤ m ∧ k ≤ n := by
  unfold setSvals at h
  split at h
  · rename_i k m n hk hm hn
    split at h
    · simp at h
    · rename_i hc
      simp only [not_or, Bool.not_eq_false, gt_iff_lt, not_lt, le_min_iff] at hc
      simp only [Res.ok.injEq] at h
      exact ⟨hc.1, h.symm, k, m, n, hk, hm, hn, hc.2⟩
  · simp at h

theorem setSvdsWhich_ok {a : RSvdsArgs K V} {o o' : Opts K} (h : setSvdsWhich a o = .ok o') :
    (∃ t, o'.exact "target" = .str [t] ∧ "target" ∈ o'.map Prod.fst ∧
      (∀ w, a.which = .name w → w = "L" ∧ t = "primme_svds_largest" ∨ w = "S" ∧ t = "primme_svds_smallest") ∧
      (∀ l, a.which = .nums l → t = "primme_svds_closest_abs")) ∧
    a.which ≠ .other ∧
    (∀ l, a.which = .nums l → o'.exact "targetShifts" = .real l ∧ "targetShifts" ∈ o'.map Prod.fst) ∧
    (∀ nm, nm ≠ "target" → (nm ≠ "targetShifts" ∨ ∃ w, a.which = .name w) → o'.exact nm = o.exact nm ∧
      (nm ∈ o'.map Prod.fst ↔ nm ∈ o.map Prod.fst)) ∧
    (∀ nm, nm ≠ "target" → nm ≠ "targetShifts" → (o'.map Prod.fst).count nm = (o.map Prod.fst).count nm) := by
  have hne : ("target" : String) ≠ "targetShifts" := by decide
  unfold setSvdsWhich at h
  cases hw : a.which with
  | other => rw [hw] at h; simp at h
  | nums l =>
    rw [hw] at h
    simp only [Res.ok.injEq] at h
    subst h
    refine ⟨⟨"primme_svds_closest_abs", exact_put_self _ _ _, by rw [mem_put]; simp, by simp, by simp⟩, by simp, ?_, ?_, ?_⟩
    · intro l' h
      simp only [RWhich.nums.injEq] at h
      subst h
      exact ⟨by rw [exact_put_other _ hne.symm, exact_put_self], by rw [mem_put, mem_put]; simp⟩
    · intro nm h1 h2
      have h2 : nm ≠ "targetShifts" := by simpa using h2
      exact ⟨by rw [exact_put_other _ h1, exact_put_other _ h2], by rw [mem_put, mem_put]; simp [h1, h2]⟩
    · intro nm h1 h2
      rw [count_put_other _ h1, count_put_other _ h2]
  | name w =>
    rw [hw] at h
    simp only at h
    have key : ∀ t, (w = "L" ∧ t = "primme_svds_largest" ∨ w = "S" ∧ t = "primme_svds_smallest") →
        o' = o.put "target" (.str [t]) → _ := fun t ht ho =>
      show (∃ t, o'.exact "target" = .str [t] ∧ "target" ∈ o'.map Prod.fst ∧
      (∀ w', RWhich.name w = (.name w' : RWhich K) → w' = "L" ∧ t = "primme_svds_largest" ∨
        w' = "S" ∧ t = "primme_svds_smallest") ∧
      (∀ l, RWhich.name w = (.nums l : RWhich K) → t = "primme_svds_closest_abs")) ∧
      RWhich.name w ≠ (.other : RWhich K) ∧
      (∀ l, RWhich.name w = (.nums l : RWhich K) → o'.exact "targetShifts" = .real l ∧ "targetShifts" ∈ o'.map Prod.fst) ∧
      (∀ nm, nm ≠ "target" → (nm ≠ "targetShifts" ∨ ∃ w', RWhich.name w = (.name w' : RWhich K)) →
        o'.exact nm = o.exact nm ∧ (nm ∈ o'.map Prod.fst ↔ nm ∈ o.map Prod.fst)) ∧
      (∀ nm, nm ≠ "target" → nm ≠ "targetShifts" → (o'.map Prod.fst).count nm = (o.map Prod.fst).count nm) by
        subst ho
        refine ⟨⟨t, exact_put_self _ _ _, by rw [mem_put]; simp, ?_, by simp⟩, by simp, by simp, ?_, ?_⟩
        · rintro w' h
          simp only [RWhich.name.injEq] at h
          subst h
          exact ht
        · intro nm h1 _
          exact ⟨exact_put_other _ h1 _, by rw [mem_put]; simp [h1]⟩
        · intro nm h1 _
          rw [count_put_other _ h1]
    split at h
    · rename_i hw
      exact key _ (.inl ⟨hw, rfl⟩) (Res.ok.inj h).symm
    · split at h
      · rename_i hw
        exact key _ (.inr ⟨hw, rfl⟩) (Res.ok.inj h).symm
      · simp at h

theorem setSvdsTol_ok {a : RSvdsArgs K V} {o o' : Opts K} (h : setSvdsTol a o = .ok o') :
    ∃ t, a.tol = .num t ∧ 0 ≤ t ∧ t < 1 ∧ o' = o.put "eps" (.real [t]) := by
  unfold setSvdsTol at h
  split at h
  · rename_i x ht
    split at h
    · simp at h
    · rename_i hx
      simp only [not_or, not_lt, ge_iff_le, not_le] at hx
      exact ⟨x, ht, hx.1, hx.2, (Res.ok.inj h).symm⟩
  · simp at h

theorem dims_number {a : RSvdsArgs K V} {M N : Nat} (h : R.Doc.Dims a M N) :
    (∃ x, a.A = .mat x ∧ x.rows = M ∧ x.cols = N) ∨
    (a.A = .fn ∧ ("m" ∈ a.opts.map Prod.fst ∧ number (a.opts.exact "m") = some (M : K)) ∧
      "n" ∈ a.opts.map Prod.fst ∧ number (a.opts.exact "n") = some (N : K)) := by
  rcases h with h | ⟨hA, h1, h2⟩
  · exact .inl h
  · right
    refine ⟨hA, ?_, ?_⟩
    · rcases h1 with h | h
      · exact ⟨mem_of_exact _ (by rw [h]; simp), by rw [h]; simp [number]⟩
      · exact ⟨mem_of_exact _ (by rw [h]; simp), by rw [h]; simp [number]⟩
    · rcases h2 with h | h
      · exact ⟨mem_of_exact _ (by rw [h]; simp), by rw [h]; simp [number]⟩
      · exact ⟨mem_of_exact _ (by rw [h]; simp), by rw [h]; simp [number]⟩

theorem svdsOptions_made {a : RSvdsArgs K V} {o : Opts K} {x : Vectors V} {m m1 m2 : RVal K}
    (h : svdsOptions a = .ok (o, x, m, m1, m2)) : MadeS a o x m m1 m2 := by
  unfold svdsOptions at h
  obtain ⟨o1, h1, h⟩ := bind_ok h
  obtain ⟨o2, h2, h⟩ := bind_ok h
  obtain ⟨o3, h3, h⟩ := bind_ok h
  obtain ⟨o4, h4, h⟩ := bind_ok h
  obtain ⟨c, h5, h⟩ := bind_ok h
  obtain ⟨g, h6, h⟩ := bind_ok h
  by_cases hP : testSvdsPrec o4 a.prec = false
  · rw [if_pos hP] at h; simp at h
  rw [if_neg hP] at h
  rw [Bool.not_eq_false] at hP
  by_cases hR : a.isreal = .other
  · rw [if_pos hR] at h; simp at h
  rw [if_neg hR] at h
  simp only [Res.ok.injEq, Prod.mk.injEq] at h
  obtain ⟨rfl, rfl, rfl, rfl, rfl⟩ := h
  obtain ⟨d1, d2, d3⟩ := setDims_ok h1
  obtain ⟨c1, rfl, k, mm, nn, c2, c3, c4, c5, c6⟩ := setSvals_ok h2
  obtain ⟨w1, w2, w3, w4, w5⟩ := setSvdsWhich_ok h3
  obtain ⟨t, t1, t2, t3, rfl⟩ := setSvdsTol_ok h4
  obtain ⟨u1, u2, u3, u4, u5, u6⟩ := checkUV_ok h5
  obtain ⟨g1, g2, g3, g4, g5, g6⟩ := checkUV_ok h6
  generalize ho4 : o3.put "eps" (.real [t]) = o4 at *
  have dr : ∀ nm, nm ∉ ["method", "methodStage1", "methodStage2"] →
      (((o4.drop "methodStage1").drop "methodStage2").drop "method").exact nm = o4.exact nm ∧
      (nm ∈ (((o4.drop "methodStage1").drop "methodStage2").drop "method").map Prod.fst ↔ nm ∈ o4.map Prod.fst) := by
    intro nm hn
    simp only [List.mem_cons, List.not_mem_nil, or_false, not_or] at hn
    exact ⟨by rw [exact_drop_other _ hn.1, exact_drop_other _ hn.2.2, exact_drop_other _ hn.2.1],
      by rw [mem_drop_other _ hn.1, mem_drop_other _ hn.2.2, mem_drop_other _ hn.2.1]⟩
  have e4 : ∀ nm, nm ≠ "eps" → o4.exact nm = o3.exact nm ∧ (nm ∈ o4.map Prod.fst ↔ nm ∈ o3.map Prod.fst) := by
    intro nm hn
    rw [← ho4]
    exact ⟨exact_put_other _ hn _, by rw [mem_put]; simp [hn]⟩
  have e3 : ∀ nm, nm ≠ "eps" → nm ≠ "target" → (nm ≠ "targetShifts" ∨ ∃ w, a.which = .name w) → nm ≠ "numSvals" →
      o4.exact nm = o1.exact nm ∧ (nm ∈ o4.map Prod.fst ↔ nm ∈ o1.map Prod.fst) := by
    intro nm q1 q2 q3 q4
    obtain ⟨r1, r2⟩ := w4 nm q2 q3
    exact ⟨by rw [(e4 nm q1).1, r1, exact_put_other _ q4], by rw [(e4 nm q1).2, r2, mem_put]; simp [q4]⟩
  have e1 : ∀ nm, nm ≠ "m" → nm ≠ "n" → o1.exact nm = a.opts.exact nm ∧
      (nm ∈ o1.map Prod.fst ↔ nm ∈ a.opts.map Prod.fst) := by
    intro nm q1 q2
    cases hA : a.A with
    | bad => exact absurd hA d1
    | fn => rw [(d2 hA).1]; simp
    | mat y =>
      rw [d3 y hA]
      exact ⟨by rw [exact_put_other _ q2, exact_put_other _ q1], by rw [mem_put, mem_put]; simp [q1, q2]⟩
  have dims : ∀ M N : Nat, R.Doc.Dims a M N →
      (number (o1.dollar "m") = some (M : K) ∧ number (o1.dollar "n") = some (N : K)) ∧
      number (o4.dollar "m") = some (M : K) ∧ number (o4.dollar "n") = some (N : K) := by
    intro M N hD
    have key : ("m" ∈ o1.map Prod.fst ∧ number (o1.exact "m") = some (M : K)) ∧
        "n" ∈ o1.map Prod.fst ∧ number (o1.exact "n") = some (N : K) := by
      rcases dims_number hD with ⟨y, hy, rfl, rfl⟩ | ⟨hA, q⟩
      · rw [d3 y hy, exact_put_self, exact_put_other _ (by decide), exact_put_self, mem_put, mem_put, mem_put]
        simp [number]
      · rw [(d2 hA).1]; exact q
    obtain ⟨⟨k1, k2⟩, k3, k4⟩ := key
    obtain ⟨f1, f2⟩ := e3 "m" (by decide) (by decide) (.inl (by decide)) (by decide)
    obtain ⟨f3, f4⟩ := e3 "n" (by decide) (by decide) (.inl (by decide)) (by decide)
    exact ⟨⟨by rw [dollar_mem _ k1, k2], by rw [dollar_mem _ k3, k4]⟩,
      by rw [dollar_mem _ (f2.2 k1), f1, k2], by rw [dollar_mem _ (f4.2 k3), f3, k4]⟩
  refine
    { dimFn := fun hA => (d2 hA).2
      dimMat := fun y hy => ?_
      dimBad := d1
      count := ⟨c1, ?_, ?_⟩
      tol := ⟨t, t1, t2, t3, ?_, ?_⟩
      target := ?_
      whichBad := w2
      points := fun l hl => ?_
      noPoints := fun w hw => ?_
      isreal := hR
      precBad := ?_
      precModes := ?_
      orthoBad := ⟨u1, u2⟩
      guessBad := ⟨g1, g2⟩
      orthoPairs := u5
      guessPairs := g5
      sizes := fun M N hD => ?_
      others := fun nm hn => ?_
      dim := fun hA => ?_
      methods := ?_
      methodsGone := ?_ }
  · obtain ⟨f1, f2⟩ := e3 "m" (by decide) (by decide) (.inl (by decide)) (by decide)
    obtain ⟨f3, f4⟩ := e3 "n" (by decide) (by decide) (.inl (by decide)) (by decide)
    rw [(dr "m" (by decide)).1, (dr "m" (by decide)).2, (dr "n" (by decide)).1, (dr "n" (by decide)).2, f1, f2, f3, f4,
      d3 y hy, exact_put_self, exact_put_other _ (by decide), exact_put_self, mem_put, mem_put, mem_put]
    simp
  · rw [(dr _ (by decide)).1, (e4 _ (by decide)).1, (w4 _ (by decide) (.inl (by decide))).1, exact_put_self]
  · rw [(dr _ (by decide)).2, (e4 _ (by decide)).2, (w4 _ (by decide) (.inl (by decide))).2, mem_put]; simp
  · rw [(dr _ (by decide)).1, ← ho4, exact_put_self]
  · rw [(dr _ (by decide)).2, ← ho4, mem_put]; simp
  · obtain ⟨tn, q1, q2, q3, q4⟩ := w1
    exact ⟨tn, by rw [(dr _ (by decide)).1, (e4 _ (by decide)).1, q1],
      by rw [(dr _ (by decide)).2, (e4 _ (by decide)).2]; exact q2, q3, q4⟩
  · rw [(dr _ (by decide)).1, (dr _ (by decide)).2, (e4 _ (by decide)).1, (e4 _ (by decide)).2]
    exact w3 l hl
  · obtain ⟨f1, f2⟩ := e3 "targetShifts" (by decide) (by decide) (.inr ⟨w, hw⟩) (by decide)
    obtain ⟨f3, f4⟩ := e1 "targetShifts" (by decide) (by decide)
    rw [(dr _ (by decide)).1, (dr _ (by decide)).2, f1, f2, f3, f4]
    simp
  · intro hx
    rw [hx] at hP
    simp [testSvdsPrec] at hP
  · intro p q r hx
    rw [hx] at hP
    simp only [testSvdsPrec, Bool.and_eq_true] at hP
    refine ⟨?_, ?_, ?_⟩ <;> rintro rfl
    · simp [testMode] at hP
    · simp [testMode] at hP
    · simp [testMode] at hP
  · obtain ⟨⟨b1, b2⟩, b3, b4⟩ := dims M N hD
    refine ⟨u6 M N b3 b4, g6 M N b3 b4, ?_, ?_⟩
    · intro p q r hx
      rw [hx] at hP
      simp only [testSvdsPrec, Bool.and_eq_true] at hP
      obtain ⟨⟨p1, p2⟩, p3⟩ := hP
      rw [b4] at p1
      rw [b3] at p2
      rw [b3, b4] at p3
      refine ⟨?_, ?_, ?_⟩ <;> rintro i j rfl
      · simp only [testMode, Bool.and_eq_true, decide_eq_true_eq, Option.some.injEq, Nat.cast_inj] at p1
        exact ⟨p1.2.symm, p1.1.symm⟩
      · simp only [testMode, Bool.and_eq_true, decide_eq_true_eq, Option.some.injEq, Nat.cast_inj] at p2
        exact ⟨p2.2.symm, p2.1.symm⟩
      · simp only [testMode, addSize, Bool.and_eq_true, decide_eq_true_eq, Option.some.injEq] at p3
        constructor
        · have := p3.2; exact_mod_cast this.symm
        · have := p3.1; exact_mod_cast this.symm
    · intro k' hk'
      rw [c2] at hk'
      rw [b1] at c3
      rw [b2] at c4
      simp only [Option.some.injEq] at hk' c3 c4
      rw [← hk', c3, c4]
      exact ⟨c5, c6⟩
  · have hn' : nm ∉ ["method", "methodStage1", "methodStage2"] := by
      intro hh; exact hn (by simp only [svdsTaken, List.mem_cons, List.not_mem_nil, or_false] at hh ⊢; tauto)
    simp only [svdsTaken, List.mem_cons, List.not_mem_nil, or_false, not_or] at hn
    obtain ⟨f1, f2⟩ := e3 nm hn.2.2.2.2.2.1 hn.2.2.2.1 (.inl hn.2.2.2.2.1) hn.2.2.1
    obtain ⟨f3, f4⟩ := e1 nm hn.1 hn.2.1
    rw [(dr nm hn').1, (dr nm hn').2, f1, f2, f3, f4]
    simp
  · obtain ⟨f1, f2⟩ := e3 "m" (by decide) (by decide) (.inl (by decide)) (by decide)
    obtain ⟨f3, f4⟩ := e3 "n" (by decide) (by decide) (.inl (by decide)) (by decide)
    rw [(dr _ (by decide)).1, (dr _ (by decide)).2, (dr _ (by decide)).1, (dr _ (by decide)).2, f1, f2, f3, f4, (d2 hA).1]
    simp
  · have f := fun nm q1 q2 q3 q4 q5 q6 => (e3 nm q1 q2 (.inl q3) q4).1.trans (e1 nm q5 q6).1
    exact ⟨by rw [exact_drop_other _ (by decide), exact_drop_other _ (by decide),
        f "method" (by decide) (by decide) (by decide) (by decide) (by decide) (by decide)],
      f "methodStage1" (by decide) (by decide) (by decide) (by decide) (by decide) (by decide),
      by rw [exact_drop_other _ (by decide),
        f "methodStage2" (by decide) (by decide) (by decide) (by decide) (by decide) (by decide)]⟩
  · have cnt : ∀ nm, nm ≠ "eps" → nm ≠ "target" → nm ≠ "targetShifts" → nm ≠ "numSvals" → nm ≠ "m" → nm ≠ "n" →
        (o4.map Prod.fst).count nm = (a.opts.map Prod.fst).count nm := by
      intro nm q1 q2 q3 q4 q5 q6
      rw [← ho4, count_put_other _ q1, w5 nm q2 q3, count_put_other _ q4]
      cases hA : a.A with
      | bad => exact absurd hA d1
      | fn => rw [(d2 hA).1]
      | mat y => rw [d3 y hA, count_put_other _ q6, count_put_other _ q5]
    intro nm hn hc
    simp only [List.mem_cons, List.not_mem_nil, or_false] at hn
    rcases hn with rfl | rfl | rfl
    · refine drop_gone _ ?_
      rw [count_drop_other _ (by decide), count_drop_other _ (by decide),
        cnt _ (by decide) (by decide) (by decide) (by decide) (by decide) (by decide)]
      exact hc
    · rw [mem_drop_other _ (by decide), mem_drop_other _ (by decide)]
      refine drop_gone _ ?_
      rw [cnt _ (by decide) (by decide) (by decide) (by decide) (by decide) (by decide)]
      exact hc
    · rw [mem_drop_other _ (by decide)]
      refine drop_gone _ ?_
      rw [count_drop_other _ (by decide), cnt _ (by decide) (by decide) (by decide) (by decide) (by decide) (by decide)]
      exact hc

/-! ## From the options to the call -/

theorem prepareSvdsR_ok {S : Svds.SEnv K} {D : RSvdsAddrs} {junk : Nat → V} {start : Svds.SP K} {a : RSvdsArgs K V}
    {c : RSvdsCall K V} (h : prepareSvdsR S D junk start a = .ok c) :
    ∃ o x m m1 m2 v s t, svdsOptions a = .ok (o, x, m, m1, m2) ∧
      setAll (svdsKind D.heap) o (o.map Prod.fst) ⟨start.sv, []⟩ = .ok v ∧
      setStages D a.stages ⟨v, ⟨start.st1, []⟩, ⟨start.st2, []⟩⟩ = .ok s ∧ setMethods S m m1 m2 s = .ok t ∧
      enterSvds D junk a x t = .ok c := by
  unfold prepareSvdsR at h
  obtain ⟨⟨o, x, m, m1, m2⟩, h1, h⟩ := bind_ok h
  obtain ⟨v, h2, h⟩ := bind_ok h
  obtain ⟨s, h3, h⟩ := bind_ok h
  obtain ⟨t, h4, h⟩ := bind_ok h
  exact ⟨o, x, m, m1, m2, v, s, t, h1, h2, h3, h4, h⟩

theorem setStages_sv {D : RSvdsAddrs} {l : List (String × Opts K)} {s t : SState K} (h : setStages D l s = .ok t) :
    t.sv = s.sv := by
  induction l generalizing s with
  | nil => simp only [setStages, Res.ok.injEq] at h; rw [h]
  | cons e r ih =>
    unfold setStages at h
    split at h
    · obtain ⟨u, -, h⟩ := bind_ok h
      exact (ih h : t.sv = (⟨s.sv, u, s.st2⟩ : SState K).sv)
    · split at h
      · obtain ⟨u, -, h⟩ := bind_ok h
        exact (ih h : t.sv = (⟨s.sv, s.st1, u⟩ : SState K).sv)
      · simp at h

/-- Members of the singular value solver the preset methods leave. -/
def KeptByPreset (x : Member Svds.IF Svds.DF Svds.PF) : Prop := x ≠ .i .method ∧ x ≠ .i .methodStage2

theorem setMethods_ok {S : Svds.SEnv K} {m m1 m2 : RVal K} {s t : SState K} (h : setMethods S m m1 m2 s = .ok t) :
    t.sv.shifts = s.sv.shifts ∧ (m = .null → m1 = .null → m2 = .null → t = s) ∧
    ∀ x, KeptByPreset x → reads t.sv.params x = reads s.sv.params x := by
  unfold setMethods at h
  split at h
  · simp only [Res.ok.injEq] at h
    subst h
    simp
  · rename_i hne
    split at h
    · rename_i c c1 c2 h0 h1 h2
      simp only [Res.ok.injEq] at h
      subst h
      refine ⟨rfl, fun q1 q2 q3 => absurd ⟨q1, q2, q3⟩ hne, ?_⟩
      intro x hx
      exact preset_reads S c c1 c2 s.params hx.1 hx.2
    · simp at h

/-- The members `xprimme_svds` sets. -/
def enteredS : List (Member Svds.IF Svds.DF Svds.PF) :=
  [.i .mLocal, .i .nLocal, .i .numOrthoConst, .i .initSize, .p .matrix, .p .matrixMatvec, .p .preconditioner,
   .p .applyPreconditioner]

theorem localDims_reads (v : Svds.SV K) :
    (∀ x, x ≠ .i .mLocal → x ≠ .i .nLocal → reads (localDims v) x = reads v x) ∧
    (localDims v).i .mLocal = (if v.i .mLocal = -1 then v.i .m else v.i .mLocal) ∧
    (localDims v).i .nLocal = (if v.i .nLocal = -1 then v.i .n else v.i .nLocal) := by
  unfold localDims
  refine ⟨?_, ?_, ?_⟩
  · intro x h1 h2
    cases x with
    | i f =>
      have h1 : f ≠ .mLocal := by rintro rfl; exact h1 rfl
      have h2 : f ≠ .nLocal := by rintro rfl; exact h2 rfl
      by_cases q1 : v.i .mLocal = -1 <;> by_cases q2 : v.i .nLocal = -1 <;> simp [reads, q1, q2, h1, h2]
    | d f => by_cases q1 : v.i .mLocal = -1 <;> by_cases q2 : v.i .nLocal = -1 <;> simp [reads, q1, q2]
    | p f => by_cases q1 : v.i .mLocal = -1 <;> by_cases q2 : v.i .nLocal = -1 <;> simp [reads, q1, q2]
    | seed => by_cases q1 : v.i .mLocal = -1 <;> by_cases q2 : v.i .nLocal = -1 <;> simp [reads, q1, q2]
    | sub k => by_cases q1 : v.i .mLocal = -1 <;> by_cases q2 : v.i .nLocal = -1 <;> simp [reads, q1, q2] <;> rfl
  · by_cases q1 : v.i .mLocal = -1 <;> by_cases q2 : v.i .nLocal = -1 <;> simp [q1, q2]
  · by_cases q1 : v.i .mLocal = -1 <;> by_cases q2 : v.i .nLocal = -1 <;> simp [q1, q2]

/-- What the parameters and the arrays hold when the library is called. -/
structure Entered (D : RSvdsAddrs) (junk : Nat → V) (a : RSvdsArgs K V) (x : Vectors V) (t : SState K) (c : RSvdsCall K V) :
    Prop where
  kept : ∀ y, y ∉ enteredS → reads c.params.sv y = reads t.sv.params y
  mLocal : c.params.sv.i .mLocal = (if t.sv.params.i .mLocal = -1 then t.sv.params.i .m else t.sv.params.i .mLocal)
  nLocal : c.params.sv.i .nLocal = (if t.sv.params.i .nLocal = -1 then t.sv.params.i .n else t.sv.params.i .nLocal)
  orthou : rowsOf x.orthou ≠ 0 → (rowsOf x.orthou : Int) = c.params.sv.i .mLocal
  orthov : rowsOf x.orthov ≠ 0 → (rowsOf x.orthov : Int) = c.params.sv.i .nLocal
  u0 : rowsOf x.u0 ≠ 0 → (rowsOf x.u0 : Int) = c.params.sv.i .mLocal
  v0 : rowsOf x.v0 ≠ 0 → (rowsOf x.v0 : Int) = c.params.sv.i .nLocal
  sameOrtho : colsOf x.orthou = colsOf x.orthov
  sameGuess : colsOf x.u0 = colsOf x.v0
  nonneg : 0 ≤ c.params.sv.i .numSvals ∧ 0 ≤ c.params.sv.i .mLocal ∧ 0 ≤ c.params.sv.i .nLocal
  ortho : c.params.sv.i .numOrthoConst = colsOf x.orthou
  guess : c.params.sv.i .initSize = colsOf x.u0
  matrix : c.params.sv.p .matrix = D.objA ∧ c.params.sv.p .matrixMatvec = D.matvec
  prec : heldSvdsPrec a.prec ≠ .nothing → c.params.sv.p .preconditioner = D.objPrec ∧
    c.params.sv.p .applyPreconditioner = D.prec ∧ c.params.st1.i .correctionParams_precondition = 1 ∧
    c.params.st2.i .correctionParams_precondition = 1
  noPrec : heldSvdsPrec a.prec = .nothing → c.params.sv.p .preconditioner = t.sv.params.p .preconditioner ∧
    c.params.sv.p .applyPreconditioner = t.sv.params.p .applyPreconditioner ∧ c.params.st1 = t.st1.params ∧
    c.params.st2 = t.st2.params
  stages : ∀ y, y ≠ .i .correctionParams_precondition → reads c.params.st1 y = reads t.st1.params y ∧
    reads c.params.st2 y = reads t.st2.params y
  real : c.real = svdsReal a
  shifts : c.shifts = t.sv.shifts
  A : c.A = heldSvds a.isreal a.A
  held : c.prec = heldSvdsPrec a.prec
  values : (c.values : Int) = c.params.sv.i .numSvals
  size : (c.size : Int) = (c.params.sv.i .mLocal + c.params.sv.i .nLocal) *
    (c.params.sv.i .numOrthoConst + max (c.params.sv.i .initSize) (c.params.sv.i .numSvals))
  svecs : c.svecs = firstSvecs junk x (c.params.sv.i .mLocal).toNat (c.params.sv.i .nLocal).toNat

theorem enterSvds_ok {D : RSvdsAddrs} {junk : Nat → V} {a : RSvdsArgs K V} {x : Vectors V} {t : SState K}
    {c : RSvdsCall K V} (h : enterSvds D junk a x t = .ok c) : Entered D junk a x t c := by
  obtain ⟨l1, l2, l3⟩ := localDims_reads t.sv.params
  unfold enterSvds at h
  generalize localDims t.sv.params = v0 at h l1 l2 l3
  dsimp only at h
  by_cases q1 : rowsOf x.orthou ≠ 0 ∧ (rowsOf x.orthou : Int) ≠ v0.i .mLocal
  · rw [if_pos q1] at h; simp at h
  rw [if_neg q1] at h
  by_cases q2 : rowsOf x.orthov ≠ 0 ∧ (rowsOf x.orthov : Int) ≠ v0.i .nLocal
  · rw [if_pos q2] at h; simp at h
  rw [if_neg q2] at h
  by_cases q3 : colsOf x.orthou ≠ colsOf x.orthov
  · rw [if_pos q3] at h; simp at h
  rw [if_neg q3] at h
  by_cases q4 : rowsOf x.u0 ≠ 0 ∧ (rowsOf x.u0 : Int) ≠ v0.i .mLocal
  · rw [if_pos q4] at h; simp at h
  rw [if_neg q4] at h
  by_cases q5 : rowsOf x.v0 ≠ 0 ∧ (rowsOf x.v0 : Int) ≠ v0.i .nLocal
  · rw [if_pos q5] at h; simp at h
  rw [if_neg q5] at h
  by_cases q6 : colsOf x.u0 ≠ colsOf x.v0
  · rw [if_pos q6] at h; simp at h
  rw [if_neg q6] at h
  by_cases q7 : v0.i .numSvals < 0 ∨ v0.i .mLocal < 0 ∨ v0.i .nLocal < 0
  · rw [if_pos q7] at h; simp at h
  rw [if_neg q7] at h
  simp only [Res.ok.injEq] at h
  simp only [not_and, ne_eq, not_not, not_or, not_lt] at q1 q2 q3 q4 q5 q6 q7
  have keep : ∀ y, y ∉ enteredS → reads v0 y = reads t.sv.params y := by
    intro y hy
    refine l1 y ?_ ?_ <;> rintro rfl <;> exact hy (by decide)
  have lp : v0.p .preconditioner = t.sv.params.p .preconditioner ∧
      v0.p .applyPreconditioner = t.sv.params.p .applyPreconditioner := by
    have h1 := l1 (.p .preconditioner) (by simp) (by simp)
    have h2 := l1 (.p .applyPreconditioner) (by simp) (by simp)
    simpa only [reads, Val.ptr.injEq] using And.intro h1 h2
  by_cases hg : heldSvdsPrec a.prec = .nothing
  · simp only [hg, ne_eq, not_true_eq_false, if_false] at h
    subst h
    constructor
    case kept =>
      intro y hy
      rw [← keep y hy]
      cases y with
      | i f => simp [enteredS] at hy; simp [reads, put, hy]
      | d f => rfl
      | p f => simp [enteredS] at hy; simp [reads, put, hy]
      | seed => rfl
      | sub k => rfl
    case mLocal => simpa [put] using l2
    case nLocal => simpa [put] using l3
    case orthou => simpa [put] using q1
    case orthov => simpa [put] using q2
    case u0 => simpa [put] using q4
    case v0 => simpa [put] using q5
    case sameOrtho => exact q3
    case sameGuess => exact q6
    case nonneg => simpa [put] using q7
    case ortho => simp [put]
    case guess => simp [put]
    case matrix => simp [put]
    case prec => exact fun h => absurd hg h
    case noPrec => intro _; simp [put, lp]
    case stages => intro y hy; exact ⟨rfl, rfl⟩
    case real => rfl
    case shifts => rfl
    case A => rfl
    case held => exact hg.symm
    case values => simpa [put] using q7.1
    case size =>
      simp only [put, Store.setI]
      simp only [reduceCtorEq, if_false, if_true]
      push_cast
      rw [Int.toNat_of_nonneg q7.1, Int.toNat_of_nonneg q7.2.1, Int.toNat_of_nonneg q7.2.2]
    case svecs => simp [put]
  · simp only [hg, ne_eq, not_false_eq_true, if_true] at h
    subst h
    constructor
    case kept =>
      intro y hy
      rw [← keep y hy]
      cases y with
      | i f => simp [enteredS] at hy; simp [reads, put, hy]
      | d f => rfl
      | p f => simp [enteredS] at hy; simp [reads, put, hy]
      | seed => rfl
      | sub k => rfl
    case mLocal => simpa [put] using l2
    case nLocal => simpa [put] using l3
    case orthou => simpa [put] using q1
    case orthov => simpa [put] using q2
    case u0 => simpa [put] using q4
    case v0 => simpa [put] using q5
    case sameOrtho => exact q3
    case sameGuess => exact q6
    case nonneg => simpa [put] using q7
    case ortho => simp [put]
    case guess => simp [put]
    case matrix => simp [put]
    case prec => intro _; simp [put]
    case noPrec => exact fun h => absurd h hg
    case stages =>
      intro y hy
      cases y with
      | i f =>
        have : f ≠ .correctionParams_precondition := by rintro rfl; exact hy rfl
        simp [reads, this]
      | d f => exact ⟨rfl, rfl⟩
      | p f => exact ⟨rfl, rfl⟩
      | seed => exact ⟨rfl, rfl⟩
      | sub k => exact ⟨rfl, rfl⟩
    case real => rfl
    case shifts => rfl
    case A => rfl
    case held => rfl
    case values => simpa [put] using q7.1
    case size =>
      simp only [put, Store.setI]
      simp only [reduceCtorEq, if_false, if_true]
      push_cast
      rw [Int.toNat_of_nonneg q7.1, Int.toNat_of_nonneg q7.2.1, Int.toNat_of_nonneg q7.2.2]
    case svecs => simp [put]

theorem local_kept {heap : Nat} {o : Opts K} {start : Svds.SV K} {s : RState Svds.IF Svds.DF Svds.PF K}
    (h : setAll (svdsKind heap) o (o.map Prod.fst) ⟨start, []⟩ = .ok s) :
    s.params.i .mLocal = start.i .mLocal ∧ s.params.i .nLocal = start.i .nLocal := by
  have key : ∀ (nm : String) (f : Svds.IF) (l : Int), (nm, .i f) ∈ Py.Doc.svdsMembers → f ≠ .numTargetShifts →
      (nm, l) ∈ Svds.infoNames → l ≠ 35 → l ≠ 21 → l ∈ [1, 2, 9, 10, 11, 12, 13, 14, 20, 24, 25, 38, 5, (7 : Int)] →
      s.params.i f = start.i f := by
    intro nm f l hm hf hl n1 n2 n3
    obtain ⟨h1, h2⟩ := setAll_at (svds_kind heap) h (nm := nm) (m := .i f) hm
      (by show (Member.i f : Member Svds.IF Svds.DF Svds.PF) ≠ .i .numTargetShifts; simpa using hf)
    by_cases hn : nm ∈ o.map Prod.fst
    · obtain ⟨u, v, hu, -⟩ := h1 hn
      obtain ⟨l', m, hl', hm', hx⟩ := setMemberR_ok (svds_kind heap) hu
      have hll : l' = l := (svds_kind heap).label nm l' l hl' hl
      subst hll
      rcases hx with ⟨-, h, -⟩ | ⟨-, h, -⟩ | ⟨-, -, h, -⟩
      · exact absurd h n1
      · exact absurd h n2
      · exact absurd n3 h
    · have := h2 hn
      simpa only [reads, Val.int.injEq] using this
  exact ⟨key "mLocal" .mLocal 11 (by decide +kernel) (by decide) (by decide +kernel) (by decide) (by decide) (by decide),
    key "nLocal" .nLocal 12 (by decide +kernel) (by decide) (by decide +kernel) (by decide) (by decide) (by decide)⟩

/-- Everything about the call, with the list of options it was made from. -/
structure Called (S : Svds.SEnv K) (D : RSvdsAddrs) (junk : Nat → V) (start : Svds.SP K) (a : RSvdsArgs K V)
    (c : RSvdsCall K V) (o : Opts K) (x : Vectors V) (m m1 m2 : RVal K) (v : RState Svds.IF Svds.DF Svds.PF K)
    (s t : SState K) : Prop where
  made : MadeS a o x m m1 m2
  opts : svdsOptions a = .ok (o, x, m, m1, m2)
  entered : Entered D junk a x t c
  names : ∀ nm ∈ o.map Prod.fst, ∃ y, (nm, y) ∈ Py.Doc.svdsMembers
  at' : ∀ nm y, (nm, y) ∈ Py.Doc.svdsMembers → y ≠ .i .numTargetShifts →
      (nm ∈ o.map Prod.fst → ∃ u w, setMemberR (svdsKind D.heap) u nm (o.exact nm) = .ok w ∧
        reads v.params y = reads w.params y) ∧
      (nm ∉ o.map Prod.fst → reads v.params y = reads start.sv y)
  shiftsIn : "targetShifts" ∈ o.map Prod.fst → ∃ w, asDoubles (o.exact "targetShifts") = .ok w ∧ v.shifts = w ∧
      v.params.i .numTargetShifts = (w.length : Int) ∧ v.params.p .targetShifts = D.heap
  shiftsOut : "targetShifts" ∉ o.map Prod.fst → v.shifts = [] ∧
    v.params.i .numTargetShifts = start.sv.i .numTargetShifts
  local' : v.params.i .mLocal = start.sv.i .mLocal ∧ v.params.i .nLocal = start.sv.i .nLocal
  stages : setStages D a.stages ⟨v, ⟨start.st1, []⟩, ⟨start.st2, []⟩⟩ = .ok s
  methods : setMethods S m m1 m2 s = .ok t
  kept : t.sv.shifts = v.shifts ∧ ∀ y, KeptByPreset y ∨ (m = .null ∧ m1 = .null ∧ m2 = .null) →
    reads t.sv.params y = reads v.params y

theorem svds_called {S : Svds.SEnv K} {D : RSvdsAddrs} {junk : Nat → V} {start : Svds.SP K} {a : RSvdsArgs K V}
    {c : RSvdsCall K V} (h : prepareSvdsR S D junk start a = .ok c) :
    ∃ o x m m1 m2 v s t, Called S D junk start a c o x m m1 m2 v s t := by
  obtain ⟨o, x, m, m1, m2, v, s, t, h1, h2, h3, h4, h5⟩ := prepareSvdsR_ok h
  have hsh := setAll_shifts (svds_kind D.heap) h2 (nm := "targetShifts")
    (show ("targetShifts", Member.p Svds.PF.targetShifts) ∈ Py.Doc.svdsMembers by decide +kernel)
  obtain ⟨m1', m2', m3'⟩ := setMethods_ok h4
  have hsv := setStages_sv h3
  dsimp only at hsv
  refine ⟨o, x, m, m1, m2, v, s, t,
    { made := svdsOptions_made h1
      opts := h1
      entered := enterSvds_ok h5
      names := ?_
      at' := fun nm y hy hc => setAll_at (svds_kind D.heap) h2 hy hc
      shiftsIn := hsh.1
      shiftsOut := hsh.2
      local' := local_kept h2
      stages := h3
      methods := h4
      kept := ⟨by rw [m1', hsv], fun y hy => ?_⟩ }⟩
  · have key : ∀ (L : List String) (u w : RState Svds.IF Svds.DF Svds.PF K), setAll (svdsKind D.heap) o L u = .ok w →
        ∀ nm ∈ L, ∃ y, (nm, y) ∈ Py.Doc.svdsMembers := by
      intro L
      induction L with
      | nil => simp
      | cons y r ih =>
        intro u w hw nm hn
        unfold setAll at hw
        obtain ⟨z, hz, hw⟩ := bind_ok hw
        rcases List.mem_cons.1 hn with rfl | hn
        · obtain ⟨l, y, -, hy, -⟩ := setMemberR_ok (svds_kind D.heap) hz
          exact ⟨y, hy⟩
        · exact ih _ _ hw nm hn
    exact key _ _ _ h2
  · rcases hy with hy | ⟨q1, q2, q3⟩
    · rw [m3' y hy, hsv]
    · rw [m2' q1 q2 q3, hsv]

/-! ## Values of options -/

theorem sset_means {heap : Nat} {u v : RState Svds.IF Svds.DF Svds.PF K} {nm : String}
    {x : Member Svds.IF Svds.DF Svds.PF} {w : RVal K} {y : Val K} (hm : (nm, x) ∈ Py.Doc.svdsMembers)
    (h : setMemberR (svdsKind heap) u nm w = .ok v) (hw : R.Doc.SvdsMeans x w y) (hy : fits Svds.ctype x y) :
    reads v.params x = y := by
  cases hw with
  | int f k => exact setMemberR_means (svds_kind heap) hm h rfl hy
  | whole f k hk =>
    refine setMemberR_means (svds_kind heap) hm h ?_ hy
    show some (Val.int (toRInt (k : K))) = some (.int k)
    rw [toRInt_int hk.1 hk.2]
  | name f q k hk =>
    refine setMemberR_means (svds_kind heap) hm h ?_ hy
    show (match constantInfo Svds.constTable q with
      | .ok v => some (Val.int v)
      | _ => none) = some (.int k)
    rw [hk]
  | real f q => exact setMemberR_means (svds_kind heap) hm h rfl hy
  | fromInt f k => exact setMemberR_means (svds_kind heap) hm h rfl hy
  | seed w hw =>
    obtain ⟨l, m, hl, hm', hx⟩ := setMemberR_ok (svds_kind heap) h
    have := member_unique svds_good hm hm'
    subst this
    have hlab : l = 35 := by
      have : ∀ e ∈ Svds.infoNames, ∀ p ∈ Py.Doc.svdsMembers, p.1 = e.1 → p.2 = .seed → e.2 = 35 := by decide +kernel
      exact this _ hl _ hm rfl rfl
    rcases hx with ⟨-, -, w', h1, h2, rfl⟩ | ⟨h, -⟩ | ⟨h, -⟩
    · simp only [asInts, Res.ok.injEq] at h1
      subst h1
      rfl
    · simp at h
    · exact absurd hlab h

theorem eset_means {heap : Nat} {u v : ES K} {nm : String}
    {x : Member Eigs.IF Eigs.DF Eigs.PF} {w : RVal K} {y : Val K} (hm : (nm, x) ∈ Py.Doc.eigsMembers)
    (h : setMemberR (eigsKind heap) u nm w = .ok v) (hw : R.Doc.Means x w y) (hy : fits Eigs.ctype x y) :
    reads v.params x = y := by
  cases hw with
  | int f k => exact setMemberR_means (eigs_kind heap) hm h rfl hy
  | whole f k hk =>
    have := set_number hm h (.inr rfl) hk hy
    simp only [reads, this]
  | name f q k hk =>
    have := set_const hm h hk hy
    simp only [reads, this]
  | real f q =>
    have := set_real hm h rfl
    simp only [reads, this]
  | fromInt f k => exact setMemberR_means (eigs_kind heap) hm h rfl hy
  | seed w hw =>
    have := set_seed hw hm h
    simp only [reads, this]

end Verif.R
