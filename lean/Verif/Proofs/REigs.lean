import Verif.Model.REigs
import Verif.Proofs.RBase
import Verif.Proofs.PyEigsh
import Verif.Spec.R

set_option linter.unusedSectionVars false

/-!
# The options of `eigs_sym`: what each parameter holds when the library is called
-/

namespace Verif.R
open Verif.Members Verif.Py Verif.Eigs

variable {K V : Type} [Field K] [LinearOrder K] [IsStrictOrderedRing K] [FloorRing K]

theorem eigs_kind (heap : Nat) : GoodKind (eigsKind heap) Eigs.ctype Py.Doc.eigsType Py.Doc.eigsMembers where
  tables := eigs_good
  seed := by
    have : ∀ e ∈ Eigs.infoNames, e.2 = 28 → ∀ p ∈ Py.Doc.eigsMembers, p.1 = e.1 → p.2 = .seed := by decide +kernel
    exact fun nm m h1 h2 => this _ h1 rfl _ h2 rfl
  shifts := by
    have : ∀ e ∈ Eigs.infoNames, e.2 = 19 → ∀ p ∈ Py.Doc.eigsMembers, p.1 = e.1 → p.2 = .p .targetShifts := by
      decide +kernel
    exact fun nm m h1 h2 => this _ h1 rfl _ h2 rfl
  count := by
    have : ∀ e ∈ Eigs.infoNames, ∀ p ∈ Py.Doc.eigsMembers, p.1 = e.1 → p.2 = .i .numTargetShifts →
        e.2 ∈ [8, 9, 10, 11, 12, 18, 36, 37, 39, 80, 83, 84, 6, 2, (4 : Int)] := by decide +kernel
    exact fun nm l h1 h2 => this _ h1 _ h2 rfl rfl
  countNum := ⟨"numTargetShifts", 18, show ("numTargetShifts", (18 : Int)) ∈ Eigs.infoNames by decide +kernel,
    show ("numTargetShifts", .i .numTargetShifts) ∈ Py.Doc.eigsMembers by decide +kernel⟩
  apart := show (28 : Int) ∉ [8, 9, 10, 11, 12, 18, 36, 37, 39, 80, 83, 84, 6, 2, (4 : Int)] ∧
    (19 : Int) ∉ [8, 9, 10, 11, 12, 18, 36, 37, 39, 80, 83, 84, 6, 2, (4 : Int)] ∧ (28 : Int) ≠ 19 by decide
  shiftsNum := rfl
  kinds := by
    intro nm l m h1 h2 h3 h4 h5
    cases m with
    | i f => exact ⟨fun _ => ⟨f, rfl⟩, fun h => by simp [Py.Doc.eigsType] at h⟩
    | d f => exact ⟨fun h => by simp [Py.Doc.eigsType] at h, fun _ => ⟨f, rfl⟩⟩
    | p f => cases f <;> simp [Py.Doc.eigsType] at h5 ⊢
    | seed => simp [Py.Doc.eigsType] at h5
    | sub k => simp [Py.Doc.eigsType]
  label := by
    have : ∀ e ∈ Eigs.infoNames, ∀ e' ∈ Eigs.infoNames, e.1 = e'.1 → e.2 = e'.2 := by decide +kernel
    exact fun nm l l' h1 h2 => this _ h1 _ h2 rfl

/-- The facts behind a list of options that was made. -/
structure Made (a : EigsArgs K V) (o : Opts K) (m : RVal K) : Prop where
  dimFn : a.A = .fn → whole (a.opts.dollar "n") = true
  dimMat : ∀ x, a.A = .mat x → x.rows = x.cols ∧ o.exact "n" = .int [(x.rows : Int)] ∧ "n" ∈ o.map Prod.fst
  dimBad : a.A ≠ .bad
  mass : ∀ x, a.B = some (.mat x) → x.rows = x.cols
  massBad : a.B ≠ some .bad
  count : whole a.NEig = true ∧ o.exact "numEvals" = a.NEig ∧ "numEvals" ∈ o.map Prod.fst
  tol : ∀ x, a.tol = .num x → 0 ≤ x ∧ x < 1 ∧ o.exact "eps" = .real [x] ∧ "eps" ∈ o.map Prod.fst
  tolBad : a.tol ≠ .other
  target : ∃ t, o.exact "target" = .str [t] ∧ "target" ∈ o.map Prod.fst ∧
    (∀ w, a.which = .name w → (w, t) ∈ targetNames) ∧ (∀ l, a.which = .nums l → t = "primme_closest_abs")
  whichBad : a.which ≠ .other
  points : ∀ l, (a.which = .nums l ∨ (∃ w, a.which = .name w ∧ a.targetShifts = some l) ∨
      (∃ w, a.which = .name w ∧ (w = "CGT" ∨ w = "CLT" ∨ w = "SM") ∧ a.targetShifts = none ∧ l = [0])) →
    o.exact "targetShifts" = .real l ∧ "targetShifts" ∈ o.map Prod.fst
  noPoints : ∀ w, a.which = .name w → w ≠ "CGT" → w ≠ "CLT" → w ≠ "SM" → a.targetShifts = none →
    "targetShifts" ∉ a.opts.map Prod.fst → "targetShifts" ∉ o.map Prod.fst
  isreal : a.isreal ≠ .other
  precBad : a.prec ≠ .other
  x0Bad : a.x0 ≠ .other
  orthoBad : a.ortho ≠ .other
  rows : ∀ n : Nat, (∃ x, a.A = .mat x ∧ x.rows = n) ∨ (a.A = .fn ∧ "n" ∈ a.opts.map Prod.fst ∧
      number (a.opts.exact "n") = some (n : K)) →
    (∀ x, a.B = some (.mat x) → x.rows = n) ∧ (∀ x, a.x0 = .mat x → x.rows = n) ∧ (∀ x, a.ortho = .mat x → x.rows = n) ∧
    (∀ r c, a.prec = .mat r c → r = n ∧ c = n) ∧ (∀ k, number a.NEig = some k → k ≤ (n : K))
  others : ∀ nm, nm ∉ ["n", "numEvals", "target", "targetShifts", "eps", "method"] →
    o.exact nm = a.opts.exact nm ∧ (nm ∈ o.map Prod.fst ↔ nm ∈ a.opts.map Prod.fst)
  dim : a.A = .fn → o.exact "n" = a.opts.exact "n" ∧ ("n" ∈ o.map Prod.fst ↔ "n" ∈ a.opts.map Prod.fst)
  tolFn : a.tol = .fn → o.exact "eps" = a.opts.exact "eps" ∧ ("eps" ∈ o.map Prod.fst ↔ "eps" ∈ a.opts.map Prod.fst)
  method : "method" ∈ a.opts.map Prod.fst → m = a.opts.exact "method"
  methodGone : (a.opts.map Prod.fst).count "method" ≤ 1 → "method" ∉ o.map Prod.fst
  methodNone : "method" ∉ a.opts.map Prod.fst → m = .null ∨ ∃ nm ∈ o.map Prod.fst, isPartial "method" nm = true

theorem rowsAre_iff {o : Opts K} {n : Nat} {k : Nat} (h : number (o.dollar "n") = some (n : K)) (hr : rowsAre o k = true) :
    k = n := by
  unfold rowsAre at hr
  rw [h] at hr
  simp only [decide_eq_true_eq, Option.some.injEq, Nat.cast_inj] at hr
  exact hr.symm

/-- The list after `setWhich`. -/
theorem setWhich_ok {a : EigsArgs K V} {o o' : Opts K} (h : setWhich a o = .ok o') :
    (∃ t, o'.exact "target" = .str [t] ∧ "target" ∈ o'.map Prod.fst ∧
      (∀ w, a.which = .name w → (w, t) ∈ targetNames) ∧ (∀ l, a.which = .nums l → t = "primme_closest_abs")) ∧
    a.which ≠ .other ∧
    (∀ l, (a.which = .nums l ∨ (∃ w, a.which = .name w ∧ a.targetShifts = some l) ∨
      (∃ w, a.which = .name w ∧ (w = "CGT" ∨ w = "CLT" ∨ w = "SM") ∧ a.targetShifts = none ∧ l = [0])) →
      o'.exact "targetShifts" = .real l ∧ "targetShifts" ∈ o'.map Prod.fst) ∧
    (∀ w, a.which = .name w → w ≠ "CGT" → w ≠ "CLT" → w ≠ "SM" → a.targetShifts = none →
      "targetShifts" ∉ o.map Prod.fst → "targetShifts" ∉ o'.map Prod.fst) ∧
    (∀ nm, nm ≠ "target" → nm ≠ "targetShifts" → o'.exact nm = o.exact nm ∧
      (nm ∈ o'.map Prod.fst ↔ nm ∈ o.map Prod.fst)) := by
  have hne : ("target" : String) ≠ "targetShifts" := by decide
  unfold setWhich at h
  cases hw : a.which with
  | other => rw [hw] at h; simp at h
  | nums l =>
    rw [hw] at h
    simp only [Res.ok.injEq] at h
    subst h
    refine ⟨⟨"primme_closest_abs", exact_put_self _ _ _, by rw [mem_put]; simp, by simp, by simp⟩, by simp, ?_, by simp, ?_⟩
    · rintro l' (h | ⟨w, h, -⟩ | ⟨w, h, -⟩)
      · simp only [RWhich.nums.injEq] at h
        subst h
        exact ⟨by rw [exact_put_other _ hne.symm, exact_put_self], by rw [mem_put, mem_put]; simp⟩
      · simp at h
      · simp at h
    · intro nm h1 h2
      exact ⟨by rw [exact_put_other _ h1, exact_put_other _ h2], by rw [mem_put, mem_put]; simp [h1, h2]⟩
  | name w =>
    rw [hw] at h
    simp only at h
    cases hf : targetNames.find? (fun e => e.1 = w) with
    | none => rw [hf] at h; simp at h
    | some e =>
      rw [hf] at h
      simp only [Res.ok.injEq] at h
      have hmem := List.mem_of_find?_eq_some hf
      have hew : e.1 = w := by simpa using List.find?_some hf
      subst hew
      generalize hts : (if (e.1 = "CGT" ∨ e.1 = "CLT" ∨ e.1 = "SM") ∧ a.targetShifts = none then some [0]
        else a.targetShifts) = ts at h
      have hpts : ∀ l, ((∃ w, RWhich.name e.1 = (.name w : RWhich K) ∧ a.targetShifts = some l) ∨
          (∃ w, RWhich.name e.1 = (.name w : RWhich K) ∧ (w = "CGT" ∨ w = "CLT" ∨ w = "SM") ∧ a.targetShifts = none ∧
            l = [0])) → ts = some l := by
        rintro l (⟨w, -, h1⟩ | ⟨w, h0, h1, h2, rfl⟩)
        · rw [← hts, h1]; simp
        · simp only [RWhich.name.injEq] at h0
          subst h0
          rw [← hts, if_pos ⟨h1, h2⟩]
      have htarget : ∀ o'' : Opts K, o''.exact "target" = (o.put "target" (.str [e.2])).exact "target" →
          ("target" ∈ o''.map Prod.fst ↔ "target" ∈ (o.put "target" (.str [e.2])).map Prod.fst) →
          ∃ t, o''.exact "target" = .str [t] ∧ "target" ∈ o''.map Prod.fst ∧
            (∀ w, RWhich.name e.1 = (.name w : RWhich K) → (w, t) ∈ targetNames) ∧
            (∀ l, RWhich.name e.1 = (.nums l : RWhich K) → t = "primme_closest_abs") := by
        intro o'' h1 h2
        refine ⟨e.2, by rw [h1, exact_put_self], by rw [h2, mem_put]; simp, ?_, by simp⟩
        intro w hw
        simp only [RWhich.name.injEq] at hw
        subst hw
        exact hmem
      cases ts with
      | none =>
        simp only at h
        subst h
        refine ⟨htarget _ (exact_drop_other _ hne) (mem_drop_other _ hne), by simp, ?_, ?_, ?_⟩
        · rintro l (h | h)
          · simp at h
          · have := hpts l h; simp at this
        · intro w h0 h1 h2 h3 h4 h5 h6
          have := mem_drop_of _ h6
          rw [mem_put] at this
          rcases this with h | h
          · exact hne h.symm
          · exact h5 h
        · intro nm h1 h2
          exact ⟨by rw [exact_drop_other _ h2, exact_put_other _ h1], by rw [mem_drop_other _ h2, mem_put]; simp [h1]⟩
      | some l0 =>
        simp only at h
        subst h
        refine ⟨htarget _ (exact_put_other _ hne _) (by rw [mem_put]; simp [hne]), by simp, ?_, ?_, ?_⟩
        · rintro l (h | h)
          · simp at h
          · have := hpts l h
            simp only [Option.some.injEq] at this
            subst this
            exact ⟨exact_put_self _ _ _, by rw [mem_put]; simp⟩
        · intro w h0 h1 h2 h3 h4 h5
          simp only [RWhich.name.injEq] at h0
          subst h0
          rw [h4, if_neg (by simp [h1, h2, h3])] at hts
          simp at hts
        · intro nm h1 h2
          exact ⟨by rw [exact_put_other _ h2, exact_put_other _ h1], by rw [mem_put, mem_put]; simp [h1, h2]⟩

theorem setTol_ok {a : EigsArgs K V} {o o' : Opts K} (h : setTol a o = .ok o') :
    (∀ x, a.tol = .num x → 0 ≤ x ∧ x < 1 ∧ o'.exact "eps" = .real [x] ∧ "eps" ∈ o'.map Prod.fst) ∧ a.tol ≠ .other ∧
    (a.tol = .fn → o' = o) ∧
    (∀ nm, nm ≠ "eps" → o'.exact nm = o.exact nm ∧ (nm ∈ o'.map Prod.fst ↔ nm ∈ o.map Prod.fst)) := by
  unfold setTol at h
  cases ht : a.tol with
  | fn =>
    rw [ht] at h
    simp only [Res.ok.injEq] at h
    subst h
    simp
  | other => rw [ht] at h; simp at h
  | num x =>
    rw [ht] at h
    simp only at h
    split at h
    · simp at h
    · rename_i hx
      simp only [not_or, not_lt, ge_iff_le, not_le] at hx
      simp only [Res.ok.injEq] at h
      subst h
      refine ⟨?_, by simp, by simp, fun nm h1 => ⟨exact_put_other _ h1 _, by rw [mem_put]; simp [h1]⟩⟩
      intro y hy
      simp only [RTol.num.injEq] at hy
      subst hy
      exact ⟨hx.1, hx.2, exact_put_self _ _ _, by rw [mem_put]; simp⟩

theorem setWhich_count {a : EigsArgs K V} {o o' : Opts K} (h : setWhich a o = .ok o') :
    (o'.map Prod.fst).count "method" = (o.map Prod.fst).count "method" := by
  unfold setWhich at h
  split at h
  · split at h
    · simp at h
    · simp only [Res.ok.injEq] at h
      subst h
      split
      · rw [count_drop_other _ (by decide), count_put_other _ (by decide)]
      · rw [count_put_other _ (by decide), count_put_other _ (by decide)]
  · simp only [Res.ok.injEq] at h
    subst h
    rw [count_put_other _ (by decide), count_put_other _ (by decide)]
  · simp at h

theorem setTol_count {a : EigsArgs K V} {o o' : Opts K} (h : setTol a o = .ok o') :
    (o'.map Prod.fst).count "method" = (o.map Prod.fst).count "method" := by
  unfold setTol at h
  split at h
  · simp only [Res.ok.injEq] at h
    rw [h]
  · split at h
    · simp at h
    · simp only [Res.ok.injEq] at h
      subst h
      rw [count_put_other _ (by decide)]
  · simp at h

theorem setCount_ok {a : EigsArgs K V} {o o' : Opts K} (h : setCount a o = .ok o') :
    whole a.NEig = true ∧ o' = o.put "numEvals" a.NEig ∧ ∃ k n, number a.NEig = some k ∧ number (o.dollar "n") = some n ∧
      k ≤ n := by
  unfold setCount at h
  split at h
  · rename_i k n hk hn
    split at h
    · simp at h
    · rename_i hc
      simp only [not_or, Bool.not_eq_false, gt_iff_lt, not_lt] at hc
      simp only [Res.ok.injEq] at h
      exact ⟨hc.1, h.symm, k, n, hk, hn, hc.2⟩
  · simp at h

theorem setDim_ok {a : EigsArgs K V} {o : Opts K} (h : setDim a = .ok o) :
    a.A ≠ .bad ∧ (a.A = .fn → o = a.opts ∧ whole (a.opts.dollar "n") = true) ∧
    (∀ x, a.A = .mat x → x.rows = x.cols ∧ o = a.opts.put "n" (.int [(x.rows : Int)])) := by
  unfold setDim at h
  cases hA : a.A with
  | fn =>
    rw [hA] at h
    simp only at h
    split at h
    · rename_i hw
      simp only [Res.ok.injEq] at h
      exact ⟨by simp, fun _ => ⟨h.symm, hw⟩, by simp⟩
    · simp at h
  | mat x =>
    rw [hA] at h
    simp only at h
    split at h
    · rename_i hw
      simp only [Res.ok.injEq] at h
      exact ⟨by simp, by simp, fun y hy => by simp only [ROp.mat.injEq] at hy; subst hy; exact ⟨hw, h.symm⟩⟩
    · simp at h
  | bad => rw [hA] at h; simp at h

theorem options_made {a : EigsArgs K V} {o : Opts K} {m : RVal K} (h : options a = .ok (o, m)) : Made a o m := by
  unfold options at h
  obtain ⟨o1, h1, h⟩ := bind_ok h
  by_cases hB : testB o1 a.B = false
  · rw [if_pos hB] at h; simp at h
  rw [if_neg hB] at h
  simp only [Bool.not_eq_false] at hB
  obtain ⟨o2, h2, h⟩ := bind_ok h
  obtain ⟨o3, h3, h⟩ := bind_ok h
  obtain ⟨o4, h4, h⟩ := bind_ok h
  by_cases hT : testVecs o4 a.x0 = false ∨ testVecs o4 a.ortho = false ∨ testPrec o4 a.prec = false
  · rw [if_pos hT] at h; simp at h
  rw [if_neg hT] at h
  simp only [not_or, Bool.not_eq_false] at hT
  obtain ⟨hT1, hT2, hT3⟩ := hT
  by_cases hR : a.isreal = .other
  · rw [if_pos hR] at h; simp at h
  rw [if_neg hR] at h
  simp only [Res.ok.injEq, Prod.mk.injEq] at h
  obtain ⟨rfl, rfl⟩ := h
  obtain ⟨d1, d2, d3⟩ := setDim_ok h1
  obtain ⟨c1, rfl, k, n, c2, c3, c4⟩ := setCount_ok h2
  obtain ⟨w1, w2, w3, w4, w5⟩ := setWhich_ok h3
  obtain ⟨t1, t2, t3, t4⟩ := setTol_ok h4
  have dr : ∀ nm, nm ≠ "method" → (o4.drop "method").exact nm = o4.exact nm ∧
      (nm ∈ (o4.drop "method").map Prod.fst ↔ nm ∈ o4.map Prod.fst) :=
    fun nm hn => ⟨exact_drop_other _ hn, mem_drop_other _ hn⟩
  have chain : ∀ nm, nm ∉ ["numEvals", "target", "targetShifts", "eps"] → o4.exact nm = o1.exact nm ∧
      (nm ∈ o4.map Prod.fst ↔ nm ∈ o1.map Prod.fst) := by
    intro nm hn
    simp only [List.mem_cons, List.not_mem_nil, or_false, not_or] at hn
    obtain ⟨e1, e2⟩ := t4 nm hn.2.2.2
    obtain ⟨e3, e4⟩ := w5 nm hn.2.1 hn.2.2.1
    exact ⟨by rw [e1, e3, exact_put_other _ hn.1], by rw [e2, e4, mem_put]; simp [hn.1]⟩
  have chain1 : ∀ nm, nm ≠ "n" → o1.exact nm = a.opts.exact nm ∧ (nm ∈ o1.map Prod.fst ↔ nm ∈ a.opts.map Prod.fst) := by
    intro nm hn
    cases hA : a.A with
    | bad => exact absurd hA d1
    | fn => rw [(d2 hA).1]; simp
    | mat x => rw [(d3 x hA).2]; exact ⟨exact_put_other _ hn _, by rw [mem_put]; simp [hn]⟩
  have t5 : ∀ nm, nm ≠ "eps" → nm ≠ "method" → (o4.drop "method").exact nm = o3.exact nm ∧
      (nm ∈ (o4.drop "method").map Prod.fst ↔ nm ∈ o3.map Prod.fst) := by
    intro nm h1 h2
    exact ⟨by rw [(dr nm h2).1, (t4 nm h1).1], by rw [(dr nm h2).2, (t4 nm h1).2]⟩
  refine
    { dimFn := fun hA => (d2 hA).2
      dimMat := fun x hx => ⟨(d3 x hx).1, ?_, ?_⟩
      dimBad := d1
      mass := ?_
      massBad := ?_
      count := ⟨c1, ?_, ?_⟩
      tol := fun x hx => ?_
      tolBad := t2
      target := ?_
      whichBad := w2
      points := fun l hl => ?_
      noPoints := fun w a1 a2 a3 a4 a5 a6 => ?_
      isreal := hR
      precBad := ?_
      x0Bad := ?_
      orthoBad := ?_
      rows := ?_
      others := fun nm hn => ?_
      dim := fun hA => ?_
      tolFn := fun hA => ?_
      method := fun hm => ?_
      methodGone := fun hm => ?_
      methodNone := fun hm => ?_ }
  · rw [(dr "n" (by decide)).1, (chain "n" (by decide)).1, (d3 x hx).2, exact_put_self]
  · rw [(dr "n" (by decide)).2, (chain "n" (by decide)).2, (d3 x hx).2, mem_put]; simp
  · intro x hx
    rw [hx] at hB
    simp only [testB, Bool.and_eq_true, decide_eq_true_eq] at hB
    exact hB.1
  · intro hx
    rw [hx] at hB
    simp [testB] at hB
  · rw [(t5 _ (by decide) (by decide)).1, (w5 _ (by decide) (by decide)).1, exact_put_self]
  · rw [(t5 _ (by decide) (by decide)).2, (w5 _ (by decide) (by decide)).2, mem_put]; simp
  · obtain ⟨e1, e2, e3, e4⟩ := t1 x hx
    exact ⟨e1, e2, by rw [(dr _ (by decide)).1, e3], by rw [(dr _ (by decide)).2]; exact e4⟩
  · obtain ⟨t, e1, e2, e3, e4⟩ := w1
    exact ⟨t, by rw [(t5 _ (by decide) (by decide)).1, e1], by rw [(t5 _ (by decide) (by decide)).2]; exact e2, e3, e4⟩
  · obtain ⟨e1, e2⟩ := w3 l hl
    exact ⟨by rw [(t5 _ (by decide) (by decide)).1, e1], by rw [(t5 _ (by decide) (by decide)).2]; exact e2⟩
  · rw [(t5 _ (by decide) (by decide)).2]
    refine w4 w a1 a2 a3 a4 a5 ?_
    rw [mem_put, not_or]
    exact ⟨by decide, by rw [(chain1 _ (by decide)).2]; exact a6⟩
  · intro hx
    rw [hx] at hT3
    simp [testPrec] at hT3
  · intro hx
    rw [hx] at hT1
    simp [testVecs] at hT1
  · intro hx
    rw [hx] at hT2
    simp [testVecs] at hT2
  · intro N hN
    have hd1 : number (o1.dollar "n") = some (N : K) ∧ number (o4.dollar "n") = some (N : K) := by
      have key : "n" ∈ o1.map Prod.fst ∧ number (o1.exact "n") = some (N : K) := by
        rcases hN with ⟨x, hx, rfl⟩ | ⟨hA, h1, h2⟩
        · rw [(d3 x hx).2, exact_put_self, mem_put]
          simp [number]
        · rw [(d2 hA).1]
          exact ⟨h1, h2⟩
      obtain ⟨e3, e4⟩ := chain "n" (by decide)
      exact ⟨by rw [dollar_mem _ key.1, key.2], by rw [dollar_mem _ (e4.2 key.1), e3, key.2]⟩
    refine ⟨?_, ?_, ?_, ?_, ?_⟩
    · intro x hx
      rw [hx] at hB
      simp only [testB, Bool.and_eq_true, decide_eq_true_eq] at hB
      rw [hB.1]
      exact rowsAre_iff hd1.1 hB.2
    · intro x hx
      rw [hx] at hT1
      exact rowsAre_iff hd1.2 hT1
    · intro x hx
      rw [hx] at hT2
      exact rowsAre_iff hd1.2 hT2
    · intro r c hx
      rw [hx] at hT3
      simp only [testPrec, Bool.and_eq_true] at hT3
      exact ⟨rowsAre_iff hd1.2 hT3.2, rowsAre_iff hd1.2 hT3.1⟩
    · intro k' hk'
      rw [c2] at hk'
      rw [hd1.1] at c3
      simp only [Option.some.injEq] at hk' c3
      rw [← hk', c3]
      exact c4
  · simp only [List.mem_cons, List.not_mem_nil, or_false, not_or] at hn
    obtain ⟨e1, e2⟩ := dr nm hn.2.2.2.2.2
    obtain ⟨e3, e4⟩ := chain nm (by simp [hn])
    obtain ⟨e5, e6⟩ := chain1 nm hn.1
    exact ⟨by rw [e1, e3, e5], by rw [e2, e4, e6]⟩
  · obtain ⟨e1, e2⟩ := dr "n" (by decide)
    obtain ⟨e3, e4⟩ := chain "n" (by decide)
    rw [(d2 hA).1] at e3 e4
    exact ⟨by rw [e1, e3], by rw [e2, e4]⟩
  · obtain ⟨e1, e2⟩ := dr "eps" (by decide)
    rw [t3 hA] at e1 e2
    rw [t3 hA, e1, e2, (w5 _ (by decide) (by decide)).1, (w5 _ (by decide) (by decide)).2,
      exact_put_other _ (by decide), mem_put]
    obtain ⟨e5, e6⟩ := chain1 "eps" (by decide)
    exact ⟨e5, by rw [← e6]; simp⟩
  · obtain ⟨e3, e4⟩ := chain "method" (by decide)
    obtain ⟨e5, e6⟩ := chain1 "method" (by decide)
    rw [dollar_mem _ (by rw [e4, e6]; exact hm), e3, e5]
  · refine drop_gone _ ?_
    rw [setTol_count h4, setWhich_count h3, count_put_other _ (by decide)]
    cases hA : a.A with
    | bad => exact absurd hA d1
    | fn => rw [(d2 hA).1]; exact hm
    | mat x => rw [(d3 x hA).2, count_put_other _ (by decide)]; exact hm
  · obtain ⟨e3, e4⟩ := chain "method" (by decide)
    obtain ⟨e5, e6⟩ := chain1 "method" (by decide)
    have hm4 : "method" ∉ o4.map Prod.fst := by rw [e4, e6]; exact hm
    rw [drop_absent _ hm4]
    unfold Opts.dollar
    rw [if_neg hm4]
    split
    · rename_i e he
      have : e ∈ o4.filter (fun e => isPartial "method" e.1) := by rw [he]; simp
      rw [List.mem_filter] at this
      exact .inr ⟨e.1, List.mem_map_of_mem this.1, this.2⟩
    · exact .inl rfl

/-! ## From the options to the call -/

theorem prepareR_ok {D : RAddrs} {zero : V} {start : EP K} {a : EigsArgs K V} {c : RCall K V}
    (h : prepareR D zero start a = .ok c) :
    ∃ o m s t, options a = .ok (o, m) ∧ setAll (eigsKind D.heap) o (o.map Prod.fst) ⟨start, []⟩ = .ok s ∧
      setMethodR m s = .ok t ∧ enter D zero a t = .ok c := by
  unfold prepareR at h
  obtain ⟨⟨o, m⟩, h1, h⟩ := bind_ok h
  obtain ⟨s, h2, h⟩ := bind_ok h
  obtain ⟨t, h3, h⟩ := bind_ok h
  exact ⟨o, m, s, t, h1, h2, h3, h⟩

theorem presetAct_frame (v : Int) (s : EP K) :
    (∀ f, f ∉ Eigs.Doc.methodParameters → (presetAct v s).i f = s.i f) ∧
    (∀ f, f ≠ .correctionParams_relTolBase → (presetAct v s).d f = s.d f) ∧
    (presetAct v s).p = s.p ∧ (presetAct v s).seed = s.seed ∧ (presetAct v s).addr = s.addr := by
  unfold presetAct
  split
  · rename_i rc t hc
    exact Verif.Props.C06_problem_untouched hc
  · exact ⟨fun _ _ => rfl, fun _ _ => rfl, rfl, rfl, rfl⟩

theorem setMethodR_ok {m : RVal K} {s t : ES K} (h : setMethodR m s = .ok t) :
    t.shifts = s.shifts ∧ (m = .null → t = s) ∧ ∀ x, m = .null ∨ OutOfMethod x → reads t.params x = reads s.params x := by
  unfold setMethodR at h
  split at h
  · simp only [Res.ok.injEq] at h
    subst h
    simp
  · split at h
    · rename_i v hv
      simp only [Res.ok.injEq] at h
      subst h
      obtain ⟨h1, h2, h3, h4, h5⟩ := presetAct_frame v s.params
      refine ⟨rfl, by simp, ?_⟩
      intro x hx
      have hx : OutOfMethod x := by simpa using hx
      cases x with
      | i f => simp only [reads]; rw [h1 f hx]
      | d f => simp only [reads]; rw [h2 f hx]
      | p f => simp only [reads]; rw [h3]
      | seed => simp only [reads]; rw [h4]
      | sub k => simp only [reads]; rw [h5]
    · simp at h
  · simp at h

/-- The members `xprimme` sets. -/
def entered : List (Member Eigs.IF Eigs.DF Eigs.PF) :=
  [.i .nLocal, .i .numOrthoConst, .i .initSize, .i .correctionParams_precondition, .p .matrix, .p .matrixMatvec,
   .p .massMatrix, .p .massMatrixMatvec, .p .preconditioner, .p .applyPreconditioner, .p .convtest, .p .convTestFun]

/-- What the parameters hold when the library is called. -/
theorem enter_ok {D : RAddrs} {zero : V} {a : EigsArgs K V} {t : ES K} {c : RCall K V} (h : enter D zero a t = .ok c) :
    (∀ x, x ∉ entered → reads c.params x = reads t.params x) ∧
    c.params.i .nLocal = (if t.params.i .nLocal = -1 then t.params.i .n else t.params.i .nLocal) ∧
    (rowsOf a.ortho ≠ 0 → (rowsOf a.ortho : Int) = c.params.i .nLocal) ∧
    (rowsOf a.x0 ≠ 0 → (rowsOf a.x0 : Int) = c.params.i .nLocal) ∧ 0 ≤ t.params.i .numEvals ∧ 0 ≤ c.params.i .nLocal ∧
    c.params.i .numOrthoConst = colsOf a.ortho ∧ c.params.i .initSize = colsOf a.x0 ∧
    c.params.i .correctionParams_precondition = (if heldPrec a.prec = .nothing then
      t.params.i .correctionParams_precondition else 1) ∧
    c.params.p .matrix = D.objA ∧ c.params.p .matrixMatvec = D.matvec ∧
    (if heldB a.isreal a.B = .nothing then c.params.p .massMatrix = t.params.p .massMatrix ∧
      c.params.p .massMatrixMatvec = t.params.p .massMatrixMatvec
     else c.params.p .massMatrix = D.objB ∧ c.params.p .massMatrixMatvec = D.mass) ∧
    (if heldPrec a.prec = .nothing then c.params.p .preconditioner = t.params.p .preconditioner ∧
      c.params.p .applyPreconditioner = t.params.p .applyPreconditioner
     else c.params.p .preconditioner = D.objPrec ∧ c.params.p .applyPreconditioner = D.prec) ∧
    (if a.tol = .fn then c.params.p .convtest = D.objConv ∧ c.params.p .convTestFun = D.conv
     else c.params.p .convtest = t.params.p .convtest ∧ c.params.p .convTestFun = t.params.p .convTestFun) ∧
    c.real = computesReal a ∧ c.shifts = t.shifts ∧ c.A = heldA a.isreal a.A ∧ c.B = heldB a.isreal a.B ∧
    c.prec = heldPrec a.prec ∧ c.convTest = decide (a.tol = .fn) ∧ c.values = (t.params.i .numEvals).toNat ∧
    c.height = (c.params.i .nLocal).toNat ∧ c.width = colsOf a.ortho + max (colsOf a.x0) c.values ∧
    c.evecs = fun j i => if j < colsOf a.ortho then entry zero a.ortho i j
      else if j < colsOf a.ortho + colsOf a.x0 then entry zero a.x0 i (j - colsOf a.ortho) else zero := by
  unfold enter at h
  generalize hp0 : (if t.params.i .nLocal = -1 then t.params.setI .nLocal (t.params.i .n) else t.params) = p0 at h
  dsimp only at h
  by_cases q1 : rowsOf a.ortho ≠ 0 ∧ (rowsOf a.ortho : Int) ≠ p0.i .nLocal
  · rw [if_pos q1] at h; simp at h
  rw [if_neg q1] at h
  by_cases q2 : rowsOf a.x0 ≠ 0 ∧ (rowsOf a.x0 : Int) ≠ p0.i .nLocal
  · rw [if_pos q2] at h; simp at h
  rw [if_neg q2] at h
  by_cases q3 : p0.i .numEvals < 0 ∨ p0.i .nLocal < 0
  · rw [if_pos q3] at h; simp at h
  rw [if_neg q3] at h
  simp only [Res.ok.injEq] at h
  subst h
  subst hp0
  by_cases g1 : t.params.i .nLocal = -1 <;> by_cases g2 : heldB a.isreal a.B = .nothing <;>
    by_cases g3 : heldPrec a.prec = .nothing <;> by_cases g4 : a.tol = .fn <;>
    simp only [g1, g2, g3, g4, if_true, if_false, Store.setI, put, reduceCtorEq, reduceIte, not_and, not_or, not_lt,
      ne_eq, not_not] at q1 q2 q3 ⊢ <;>
    refine ⟨?_, by simp, q1, q2, q3.1, q3.2, by simp, by simp, by simp, by simp, by simp, by simp, by simp,
      by simp, by simp, by simp, by simp, by simp, by simp, by simp, by simp, by simp, by simp, by simp⟩ <;>
    (intro x hx
     cases x with
     | i f => simp [entered] at hx; simp [reads, hx]
     | d f => rfl
     | p f => simp [entered] at hx; simp [reads, hx]
     | seed => rfl
     | sub k => rfl)

theorem nLocal_kept {heap : Nat} {o : Opts K} {start : EP K} {s : ES K}
    (h : setAll (eigsKind heap) o (o.map Prod.fst) ⟨start, []⟩ = .ok s) : s.params.i .nLocal = start.i .nLocal := by
  obtain ⟨h1, h2⟩ := setAll_at (eigs_kind heap) h (nm := "nLocal") (m := .i .nLocal) (by decide +kernel)
    (by show (Member.i Eigs.IF.nLocal : Member Eigs.IF Eigs.DF Eigs.PF) ≠ .i .numTargetShifts; decide)
  by_cases hn : "nLocal" ∈ o.map Prod.fst
  · obtain ⟨u, v, hu, -⟩ := h1 hn
    obtain ⟨l, m, hl, hm, hx⟩ := setMemberR_ok (eigs_kind heap) hu
    have hl' : l = 11 := (eigs_kind heap).label "nLocal" l 11 hl
      (show ("nLocal", (11 : Int)) ∈ Eigs.infoNames by decide +kernel)
    subst hl'
    rcases hx with ⟨-, h, -⟩ | ⟨-, h, -⟩ | ⟨-, -, h, -⟩
    · exact absurd h (show (11 : Int) ≠ 28 by decide)
    · exact absurd h (show (11 : Int) ≠ 19 by decide)
    · exact absurd (show (11 : Int) ∈ [8, 9, 10, 11, 12, 18, 36, 37, 39, 80, 83, 84, 6, 2, (4 : Int)] by decide) h
  · have := h2 hn
    simpa only [reads, Val.int.injEq] using this

/-- Everything about the call, with the list of options it was made from. -/
theorem call_holds {D : RAddrs} {zero : V} {start : EP K} {a : EigsArgs K V} {c : RCall K V}
    (h : prepareR D zero start a = .ok c) : ∃ o m s t, Made a o m ∧ enter D zero a t = .ok c ∧
    (∀ nm ∈ o.map Prod.fst, ∃ x, (nm, x) ∈ Py.Doc.eigsMembers) ∧
    (∀ nm x, (nm, x) ∈ Py.Doc.eigsMembers → x ≠ .i .numTargetShifts →
      (nm ∈ o.map Prod.fst → ∃ u v, setMemberR (eigsKind D.heap) u nm (o.exact nm) = .ok v ∧
        reads s.params x = reads v.params x) ∧
      (nm ∉ o.map Prod.fst → reads s.params x = reads start x)) ∧
    ("targetShifts" ∈ o.map Prod.fst → ∃ w, asDoubles (o.exact "targetShifts") = .ok w ∧ s.shifts = w ∧
      s.params.i .numTargetShifts = (w.length : Int) ∧ s.params.p .targetShifts = D.heap) ∧
    ("targetShifts" ∉ o.map Prod.fst → s.shifts = [] ∧ s.params.i .numTargetShifts = start.i .numTargetShifts) ∧
    s.params.i .nLocal = start.i .nLocal ∧ setMethodR m s = .ok t ∧
    t.shifts = s.shifts ∧ (∀ x, m = .null ∨ OutOfMethod x → reads t.params x = reads s.params x) ∧
    ("method" ∉ a.opts.map Prod.fst → m = .null) := by
  obtain ⟨o, m, s, t, h1, h2, h3, h4⟩ := prepareR_ok h
  have hm := options_made h1
  have hat := fun nm x (hx : (nm, x) ∈ Py.Doc.eigsMembers) (hc : x ≠ .i .numTargetShifts) =>
    setAll_at (eigs_kind D.heap) h2 hx hc
  have hsh := setAll_shifts (eigs_kind D.heap) h2 (nm := "targetShifts")
    (show ("targetShifts", Member.p Eigs.PF.targetShifts) ∈ Py.Doc.eigsMembers by decide +kernel)
  obtain ⟨m1, m2, m3⟩ := setMethodR_ok h3
  have names : ∀ nm ∈ o.map Prod.fst, ∃ x, (nm, x) ∈ Py.Doc.eigsMembers := by
    have key : ∀ (L : List String) (u v : ES K), setAll (eigsKind D.heap) o L u = .ok v → ∀ nm ∈ L,
        ∃ x, (nm, x) ∈ Py.Doc.eigsMembers := by
      intro L
      induction L with
      | nil => simp
      | cons y r ih =>
        intro u v hv nm hn
        unfold setAll at hv
        obtain ⟨w, hw, hv⟩ := bind_ok hv
        rcases List.mem_cons.1 hn with rfl | hn
        · obtain ⟨l, x, -, hx, -⟩ := setMemberR_ok (eigs_kind D.heap) hw
          exact ⟨x, hx⟩
        · exact ih _ _ hv nm hn
    exact key _ _ _ h2
  refine ⟨o, m, s, t, hm, h4, names, hat, hsh.1, hsh.2, nLocal_kept h2, h3, m1, m3, ?_⟩
  intro hn
  rcases hm.methodNone hn with h | ⟨nm, h, h'⟩
  · exact h
  · obtain ⟨x, hx⟩ := names nm h
    have : ∀ e ∈ Py.Doc.eigsMembers, isPartial "method" e.1 = false := by decide +kernel
    rw [this _ hx] at h'
    simp at h'

/-- A number given for an integer member. -/
theorem set_number {heap : Nat} {u v : ES K} {nm : String} {f : Eigs.IF} {w : RVal K} {k : Int}
    (hm : (nm, .i f) ∈ Py.Doc.eigsMembers) (h : setMemberR (eigsKind heap) u nm w = .ok v)
    (hw : w = .int [k] ∨ w = .real [(k : K)]) (hk : -2 ^ 31 < k ∧ k < 2 ^ 31) (hf : (Eigs.ctype f).holds k) :
    v.params.i f = k := by
  have : reads v.params (.i f) = .int k := by
    refine setMemberR_means (eigs_kind heap) hm h ?_ hf
    rcases hw with rfl | rfl
    · rfl
    · show some (Val.int (toRInt (k : K))) = some (.int k)
      rw [toRInt_int hk.1 hk.2]
  simpa only [reads, Val.int.injEq] using this

theorem set_real {heap : Nat} {u v : ES K} {nm : String} {f : Eigs.DF} {w : RVal K} {x : K}
    (hm : (nm, .d f) ∈ Py.Doc.eigsMembers) (h : setMemberR (eigsKind heap) u nm w = .ok v)
    (hw : w = .real [x]) : v.params.d f = x := by
  have : reads v.params (.d f) = .dbl x := by
    refine setMemberR_means (eigs_kind heap) hm h ?_ trivial
    subst hw
    rfl
  simpa only [reads, Val.dbl.injEq] using this

theorem set_const {heap : Nat} {u v : ES K} {nm : String} {f : Eigs.IF} {w : String} {k : Int}
    (hm : (nm, .i f) ∈ Py.Doc.eigsMembers) (h : setMemberR (eigsKind heap) u nm (.str [w]) = .ok v)
    (hw : constantInfo Eigs.constTable w = .ok k) (hf : (Eigs.ctype f).holds k) : v.params.i f = k := by
  have : reads v.params (.i f) = .int k := by
    refine setMemberR_means (eigs_kind heap) hm h ?_ hf
    show (match constantInfo Eigs.constTable w with
      | .ok v => some (Val.int v)
      | _ => none) = some (.int k)
    rw [hw]
  simpa only [reads, Val.int.injEq] using this

theorem set_seed {heap : Nat} {u v : ES K} {nm : String} {w : List Int} (hw : w.length = 4)
    (hm : (nm, .seed) ∈ Py.Doc.eigsMembers) (h : setMemberR (eigsKind heap) u nm (.int w) = .ok v) :
    v.params.seed = fun k => w[k] := by
  obtain ⟨l, m, hl, hm', hx⟩ := setMemberR_ok (eigs_kind heap) h
  have := member_unique eigs_good hm hm'
  subst this
  rcases hx with ⟨-, -, w', h1, h2, rfl⟩ | ⟨h, -⟩ | ⟨-, -, -, h, -⟩
  · simp only [asInts, Res.ok.injEq] at h1
    subst h1
    rfl
  · simp at h
  · simp [Py.Doc.eigsType] at h

theorem number_nat {w : RVal K} {k : Nat} (h : number w = some (k : K)) : w = .int [(k : Int)] ∨ w = .real [((k : Int) : K)] := by
  unfold number at h
  split at h
  · rename_i v
    simp only [Option.some.injEq] at h
    left
    have : (v : K) = ((k : Int) : K) := by push_cast; exact h
    rw [Int.cast_injective this]
  · rename_i x
    simp only [Option.some.injEq] at h
    right
    subst h
    push_cast
    rfl
  · simp at h

end Verif.R
