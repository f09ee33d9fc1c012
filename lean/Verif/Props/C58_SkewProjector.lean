import Verif.Model.SkewRight
import Verif.Spec.SkewRight
import Verif.Proofs.EigsParams
import Mathlib.Analysis.InnerProductSpace.PiL2

/-!
# C58: the skew projector of the constraints and the converged vectors

With a preconditioner and the projectors `RightQ` and `SkewQ` (the preset `PRIMME_JDQR` has them) the solver keeps the vectors
`inv(K) B q`, their products with the vectors `q`, and a factorisation of those.
-/

set_option linter.unusedSectionVars false
set_option linter.unusedSimpArgs false
set_option linter.unusedVariables false

namespace Verif.Props
open Verif Verif.Skew Verif.Spec.Skew

variable {V : Type} [NormedAddCommGroup V] [InnerProductSpace ℝ V]

/-- The specification leaves no freedom: for a nonsingular `Q'KQ` there is at most one result. -/
theorem C58_unique (K : V → V) (Q : ℕ → V) (n : ℕ) (h : Regular K Q n) (v w w' : V) (hw : Right K Q n v w) (hw' : Right K Q n v w') : w = w' := by
  obtain ⟨⟨a, rfl⟩, h1⟩ := hw
  obtain ⟨⟨b, rfl⟩, h2⟩ := hw'
  have key : ∀ j < n, a j - b j = 0 := by
    refine h (fun j => a j - b j) ?_
    intro i hi
    have e1 := h1 i hi
    have e2 := h2 i hi
    rw [inner_sub_right, inner_sum] at e1 e2
    have : ∑ j ∈ Finset.range n, inner ℝ (Q i) (a j • K (Q j)) = ∑ j ∈ Finset.range n, inner ℝ (Q i) (b j • K (Q j)) := by linarith
    simp only [inner_smul_right] at this
    rw [← sub_eq_zero, ← Finset.sum_sub_distrib] at this
    rw [← this]
    exact Finset.sum_congr rfl (fun j _ => by ring)
  congr 1
  refine Finset.sum_congr rfl (fun j hj => ?_)
  rw [sub_eq_zero.mp (key j (Finset.mem_range.mp hj))]

/-- The data is right for the first `k` columns. -/
def C58_Upto (o : Cfg V) (Q : ℕ → V) (s : State V) (k : ℕ) : Prop :=
  (∀ j < k, s.hat j = o.prec (o.b (Q j))) ∧
    ∀ i < k, ∀ j < k, (o.mass = true ∨ i ≤ j) → s.M i j = inner ℝ (Q i) (o.prec (o.b (Q j)))

/-- The preconditioner is Hermitian, which the code assumes without a mass matrix. -/
def C58_Hermitian (o : Cfg V) : Prop := o.mass = false → ∀ u v, inner ℝ u (o.prec v) = inner ℝ (o.prec u) v

theorem C58_told (o : Cfg V) (ho : C58_Hermitian o) (Q : ℕ → V) (s : State V) (k : ℕ) (h : C58_Upto o Q s k) (i j : ℕ) (hi : i < k) (hj : j < k) :
    told (!o.mass) s.M i j = inner ℝ (Q i) (o.prec (o.b (Q j))) := by
  unfold told
  by_cases hm : o.mass = true
  · simp [hm, h.2 i hi j hj (Or.inl hm)]
  · have hm : o.mass = false := by simpa using hm
    by_cases hij : j < i
    · simp only [hm, Bool.not_false, Bool.true_and, decide_eq_true_eq, hij, if_true]
      rw [h.2 j hj i hi (Or.inr hij.le)]
      simp only [Cfg.b, hm]
      rw [ho hm]
      exact real_inner_comm _ _
    · simp only [hm, Bool.not_false, Bool.true_and, decide_eq_true_eq, hij, if_false]
      exact h.2 i hi j hj (Or.inr (by omega))

/-- Growing the data by a block keeps it right, whatever the sizes, and the call ends well unless the factorisation breaks down, provided
that the leading dimension given for the factors is the new dimension; then every possible result of the projector is the one of the
manual.  (The callers in the solver give another leading dimension: see the theorems `_violated`.) -/
theorem C58_update_partial (o : Cfg V) (ho : C58_Hermitian o) (Q : ℕ → V) (numCols blockSize : ℕ) (s : State V)
    (hs : C58_Upto o Q s numCols) (hat : ∀ j, numCols ≤ j → j < numCols + blockSize → s.hat j = o.prec (o.b (Q j)))
    (hreg : ∀ G, (∀ i < numCols + blockSize, ∀ j < numCols + blockSize, G i j = inner ℝ (Q i) (o.prec (o.b (Q j)))) → o.singular (numCols + blockSize) G = false) :
    ∃ s', updateXKinvBX o Q numCols blockSize (numCols + blockSize) s = .ok s' ∧ C58_Upto o Q s' (numCols + blockSize) ∧
      (Regular (fun q => o.prec (o.b q)) Q (numCols + blockSize) → o.c + s'.size = numCols + blockSize →
        ∀ v w, Projected o Q s' v w → Right (fun q => o.prec (o.b q)) Q (numCols + blockSize) v w) := by
  set n := numCols + blockSize with hn
  set M := updateM (!o.mass) Q s.hat numCols blockSize s.M with hM
  have hhat : ∀ j < n, s.hat j = o.prec (o.b (Q j)) := fun j hj => by
    by_cases h : j < numCols
    · exact hs.1 j h
    · exact hat j (by omega) hj
  have hup : ∀ f, C58_Upto o Q { s with M := M, fact := f } n := by
    intro f
    refine ⟨hhat, ?_⟩
    intro i hi j hj hij
    show M i j = _
    rw [hM]
    unfold updateM
    by_cases hm : o.mass = true
    · simp only [hm, Bool.not_true, Bool.false_eq_true, if_false]
      split_ifs with h
      · rw [hhat j hj]
      · exact hs.2 i (by omega) j (by omega) (Or.inl hm)
    · have hm' : o.mass = false := by simpa using hm
      have hij : i ≤ j := by rcases hij with h | h; exact absurd h hm; exact h
      simp only [hm', Bool.not_false, if_true]
      split_ifs with h
      · rw [hhat j hj]
      · exact hs.2 i (by omega) j (by omega) (Or.inr hij)
  have proj : ∀ s' : State V, C58_Upto o Q s' n → o.c + s'.size = n →
      (∀ rhs sol, Solved s'.fact n rhs sol → ∀ i < n, ∑ j ∈ Finset.range n, inner ℝ (Q i) (o.prec (o.b (Q j))) * sol j = rhs i) →
      ∀ v w, Projected o Q s' v w → Right (fun q => o.prec (o.b q)) Q n v w := by
    intro s' hs' hsz hsol v w ⟨sol, h1, h2⟩
    unfold projSize at h1 h2
    rw [hsz] at h1 h2
    have e := hsol _ _ h1
    have hw : w = v - ∑ j ∈ Finset.range n, sol j • o.prec (o.b (Q j)) := by
      rw [h2]
      unfold Verif.Inner.skewProject
      congr 1
      exact Finset.sum_congr rfl (fun j hj => by rw [hs'.1 j (Finset.mem_range.mp hj)])
    refine ⟨⟨sol, hw⟩, ?_⟩
    intro i hi
    rw [hw, inner_sub_right, inner_sum]
    simp only [inner_smul_right]
    rw [← e i hi, sub_eq_zero]
    exact Finset.sum_congr rfl (fun j _ => by ring)
  unfold updateXKinvBX
  simp only [← hn, ← hM]
  by_cases h0 : n = 0
  · rw [if_pos h0]
    refine ⟨_, rfl, hup _, ?_⟩
    intro _ hsz
    exact proj _ (hup _) hsz (fun _ _ _ i hi => by omega)
  rw [if_neg h0]
  by_cases h1 : n = 1
  · rw [if_pos h1]
    refine ⟨_, rfl, hup _, ?_⟩
    intro hr hsz
    refine proj _ (hup _) hsz ?_
    intro rhs sol hsol i hi
    have hi0 : i = 0 := by omega
    subst hi0
    rw [h1]
    simp only [Finset.sum_range_one]
    simp only [Solved, if_neg h0, if_pos h1] at hsol
    have hne : inner ℝ (Q 0) (o.prec (o.b (Q 0))) ≠ 0 := by
      intro hz
      have := hr (fun _ => 1) (fun i hi => by
        have : i = 0 := by omega
        subst this
        rw [h1]
        simp [hz]) 0 (by omega)
      norm_num at this
    have hM0 : M 0 0 = inner ℝ (Q 0) (o.prec (o.b (Q 0))) := (hup .junk).2 0 hi 0 hi (Or.inr le_rfl)
    rw [hsol, hM0]
    field_simp
  rw [if_neg h1]
  have hG : ∀ i < n, ∀ j < n, told (!o.mass) M i j = inner ℝ (Q i) (o.prec (o.b (Q j))) := fun i hi j hj =>
    C58_told o ho Q { s with M := M, fact := .junk } n (hup _) i j hi hj
  have hf : factorise o.singular n n (told (!o.mass) M) = .ok (.factors n n (told (!o.mass) M)) := by
    unfold factorise
    rw [if_neg (by omega), hreg _ hG]
    rfl
  rw [hf]
  refine ⟨_, rfl, hup _, ?_⟩
  intro _ hsz
  refine proj _ (hup _) hsz ?_
  intro rhs sol hsol i hi
  simp only [Solved, if_neg h0, if_neg h1] at hsol
  rw [← hsol trivial trivial i hi]
  exact Finset.sum_congr rfl (fun j hj => by rw [hG i hi j (Finset.mem_range.mp hj)])

/-! The run of the solver. -/

/-- With the preset `PRIMME_JDQR`, a preconditioner and inner iterations (the default is 10 of them) this data exists, and locking is on. -/
theorem C58_preset {K : Type} [Field K] [LinearOrder K] (s : Verif.Eigs.EP K) (hp : s.p .applyPreconditioner ≠ 0)
    (h1 : s.i .correctionParams_precondition = -1 ∨ s.i .correctionParams_precondition = 1) (h2 : s.i .correctionParams_maxInnerIterations ≠ 0) :
    hasHat (Verif.Eigs.setMethod 10 s).2 = true ∧ (Verif.Eigs.setMethod 10 s).2.i .locking = 1 := by
  have hr : Verif.Eigs.resolveMethod 10 s = 10 := by simp [Verif.Eigs.resolveMethod]
  obtain ⟨-, -, p3, p4, -, -⟩ := Verif.Eigs.prelude_facts 10 s
  rw [Verif.Eigs.setMethod_eq 10 s hr]
  have hc : ∀ u : Verif.Eigs.EP K, Verif.Eigs.methodCase 10 u = some (Verif.Eigs.jdqr u) := fun u => by simp [Verif.Eigs.methodCase]
  rw [hc]
  simp only
  generalize hu : Verif.Eigs.methodPrelude 10 s = u at *
  obtain ⟨a1, -, -, -, -, a6, -, a8, -, -, -⟩ := Verif.Eigs.jdqr_other u
  have ai := Verif.Eigs.jdqr_i u
  have ap : (Verif.Eigs.jdqr u).i .correctionParams_precondition = u.i .correctionParams_precondition := by
    unfold Verif.Eigs.jdqr
    simp only [Verif.Eigs.ite_setI]
    rfl
  constructor
  · unfold hasHat
    rw [Verif.Eigs.defaults_i _ (by decide), Verif.Eigs.defaults_i _ (by decide), Verif.Eigs.defaults_i _ (by decide), Verif.Eigs.defaults_i _ (by decide),
      a6, a8, ap, p3, ai, p4 _ (by decide) (by decide) (by decide)]
    simp only [Bool.and_eq_true, decide_eq_true_eq]
    refine ⟨⟨⟨?_, ?_⟩, by decide⟩, by decide⟩
    · split_ifs with e
      · decide
      · rcases h1 with h | h
        · exact absurd h e
        · rw [h]; decide
    · split_ifs with e
      · decide
      · exact h2
  · rw [Verif.Eigs.d_lock]
    unfold Verif.Eigs.vLock
    rw [if_pos (by omega), a1]

/-- The state when there is at most one vector in all. -/
def C58_Inv (o : Cfg V) (Q : ℕ → V) (s : State V) (k : ℕ) : Prop :=
  s.size = k ∧ (o.c + k = 1 → s.hat 0 = o.prec (o.b (Q 0)) ∧ s.M 0 0 = inner ℝ (Q 0) (o.prec (o.b (Q 0))) ∧
    s.fact = .one (inner ℝ (Q 0) (o.prec (o.b (Q 0)))))

theorem C58_inv_right (o : Cfg V) (Q : ℕ → V) (s : State V) (k : ℕ) (h : C58_Inv o Q s k) (hk : o.c + k ≤ 1)
    (hr : o.c + k = 1 → Regular (fun q => o.prec (o.b q)) Q 1) (v w : V) (hp : Projected o Q s v w) :
    Right (fun q => o.prec (o.b q)) Q (projSize o s) v w := by
  obtain ⟨sol, h1, h2⟩ := hp
  have hsz : projSize o s = o.c + k := by unfold projSize; rw [h.1]
  rw [hsz] at h1 h2 ⊢
  by_cases h0 : o.c + k = 0
  · rw [h0] at h2 ⊢
    exact ⟨⟨fun _ => 0, by rw [h2]; simp [Verif.Inner.skewProject]⟩, fun i hi => by omega⟩
  have e1 : o.c + k = 1 := by omega
  obtain ⟨a1, a2, a3⟩ := h.2 e1
  have hr := hr e1
  rw [e1] at h1 h2 ⊢
  have hne : inner ℝ (Q 0) (o.prec (o.b (Q 0))) ≠ 0 := by
    intro hz
    have := hr (fun _ => 1) (fun i hi => by
      have : i = 0 := by omega
      subst this
      simp [hz]) 0 (by omega)
    norm_num at this
  simp only [Solved, a3] at h1
  have h1 : sol 0 = inner ℝ (Q 0) v / inner ℝ (Q 0) (o.prec (o.b (Q 0))) := by simpa using h1
  have hw : w = v - ∑ j ∈ Finset.range 1, sol j • o.prec (o.b (Q j)) := by
    rw [h2]
    simp [Verif.Inner.skewProject, a1]
  refine ⟨⟨sol, hw⟩, ?_⟩
  intro i hi
  have hi0 : i = 0 := by omega
  subst hi0
  rw [hw]
  simp only [Finset.sum_range_one]
  rw [inner_sub_right, inner_smul_right, h1]
  field_simp
  ring

theorem C58_inv_restart (o : Cfg V) (Q Q' : ℕ → V) (s : State V) (k k' : ℕ) (h : C58_Inv o Q s k) (hk : k ≤ k') (hQ : ∀ j < o.c + k, Q' j = Q j)
    (h1 : o.c + k' ≤ 1) (hB : 0 < k' → o.mass = true ∧ o.locking = true) :
    ∃ s', restartSkew o Q' k' s = .ok s' ∧ C58_Inv o Q' s' k' := by
  by_cases h0 : k' = 0
  · subst h0
    have hk0 : k = 0 := by omega
    subst hk0
    have hsz : (if o.locking then s.size else 0) = 0 := by rw [h.1]; split_ifs <;> rfl
    unfold restartSkew
    simp only [hsz]
    rw [if_neg (by omega)]
    have e : ∀ t : State V, updateXKinvBX o Q' 0 (0 - 0) 0 t = .ok { t with M := updateM (!o.mass) Q' t.hat 0 (0 - 0) t.M } := fun t => by
      unfold updateXKinvBX
      simp
    rw [e]
    refine ⟨_, rfl, rfl, ?_⟩
    intro hc
    obtain ⟨a1, a2, a3⟩ := h.2 hc
    have hq : Q' 0 = Q 0 := hQ 0 (by omega)
    refine ⟨?_, ?_, ?_⟩
    · show (if _ then _ else _) = _
      rw [if_neg (by omega), a1, hq]
    · show updateM _ _ _ _ _ _ 0 0 = _
      unfold updateM
      rw [hq, ← a2]
      split_ifs <;> first | rfl | omega
    · show s.fact = _
      rw [a3, hq]
  have hk1 : k' = 1 := by omega
  subst hk1
  have hc0 : o.c = 0 := by omega
  obtain ⟨hm, hl⟩ := hB (by omega)
  have hb : o.hasBevecs = true := by simp [Cfg.hasBevecs, hm, hl]
  unfold restartSkew
  simp only [hl, if_true, h.1, hb]
  rw [if_neg (by simp)]
  rcases Nat.lt_or_ge k 1 with hk0 | hk1'
  · have hk0 : k = 0 := by omega
    subst hk0
    have e : ∀ t : State V, updateXKinvBX o Q' 0 (1 - 0) 0 t =
        .ok { t with M := updateM (!o.mass) Q' t.hat 0 1 t.M, fact := .one (updateM (!o.mass) Q' t.hat 0 1 t.M 0 0) } := fun t => by
      unfold updateXKinvBX
      simp
    rw [e]
    refine ⟨_, rfl, rfl, ?_⟩
    intro _
    refine ⟨?_, ?_, ?_⟩
    · show (if _ then _ else _) = _
      rw [if_pos (by omega)]
    · show updateM _ _ _ _ _ _ 0 0 = _
      simp [updateM, hm, hc0]
    · show Held.one _ = Held.one _
      simp [updateM, hm, hc0]
  · have hk1 : k = 1 := by omega
    subst hk1
    obtain ⟨a1, a2, a3⟩ := h.2 (by omega)
    have hq : Q' 0 = Q 0 := hQ 0 (by omega)
    have e : ∀ t : State V, updateXKinvBX o Q' 1 (1 - 1) 0 t =
        .ok { t with M := updateM (!o.mass) Q' t.hat 1 0 t.M, fact := .one (updateM (!o.mass) Q' t.hat 1 0 t.M 0 0) } := fun t => by
      unfold updateXKinvBX
      simp
    rw [e]
    have hM : ∀ f : ℕ → V, updateM (!o.mass) Q' f 1 0 s.M 0 0 = s.M 0 0 := fun f => by simp [updateM, hm]
    refine ⟨_, rfl, rfl, ?_⟩
    intro _
    refine ⟨?_, ?_, ?_⟩
    · show (if _ then _ else _) = _
      rw [if_neg (by omega), a1, hq]
    · show updateM _ _ _ _ _ _ 0 0 = _
      rw [hM, a2, hq]
    · show Held.one _ = Held.one _
      rw [hM, a2, hq]

theorem C58_inv_run (o : Cfg V) : ∀ (l : List ((ℕ → V) × ℕ)) (Q : ℕ → V) (s : State V) (k : ℕ), C58_Inv o Q s k → History o.c Q k l →
    (∀ e ∈ l, o.c + e.2 ≤ 1) → ((∃ e ∈ l, 0 < e.2) → o.mass = true ∧ o.locking = true) →
    ∃ r, run o l s = .ok r ∧ r.length = l.length ∧ ∀ (i : ℕ) (e : (ℕ → V) × State V), r[i]? = some e → ∃ f : (ℕ → V) × ℕ, l[i]? = some f ∧ e.1 = f.1 ∧ C58_Inv o f.1 e.2 f.2 := by
  intro l
  induction l with
  | nil => intro Q s k _ _ _ _; exact ⟨[], rfl, rfl, fun i e he => by simp at he⟩
  | cons a l ih =>
    intro Q s k h hist h1 hB
    obtain ⟨Q', k'⟩ := a
    obtain ⟨g1, g2, g3⟩ := hist
    obtain ⟨s', e1, e2⟩ := C58_inv_restart o Q Q' s k k' h g1 g2 (h1 (Q', k') (by simp)) (fun hp => hB ⟨(Q', k'), by simp, hp⟩)
    obtain ⟨r, f1, f2, f3⟩ := ih Q' s' k' e2 g3 (fun e he => h1 e (by simp [he])) (fun ⟨e, he, hp⟩ => hB ⟨e, by simp [he], hp⟩)
    refine ⟨(Q', s') :: r, ?_, by simp [f2], ?_⟩
    · simp only [run, e1, f1]
    · intro i e he
      cases i with
      | zero =>
        simp only [List.getElem?_cons_zero, Option.some.injEq] at he
        subst he
        exact ⟨(Q', k'), rfl, rfl, e2⟩
      | succ i =>
        simp only [List.getElem?_cons_succ] at he ⊢
        exact f3 i e he

/-- As long as there is one vector in all (a constraint, or a converged vector of a problem with a mass matrix and locking) no call fails, the preconditioner gets
only vectors of the solver, and at every correction equation every possible result of the projector is the one of the manual. -/
theorem C58_single_partial (o : Cfg V) (Q0 : ℕ → V) (l : List ((ℕ → V) × ℕ)) (s : State V) (h0 : s.size = 0)
    (hist : History o.c Q0 0 l) (hone : o.c ≤ 1 ∧ ∀ e ∈ l, o.c + e.2 ≤ 1) (hB : (∃ e ∈ l, 0 < e.2) → o.mass = true ∧ o.locking = true)
    (hreg : (o.c = 1 → Regular (fun q => o.prec (o.b q)) Q0 1) ∧ ∀ e ∈ l, o.c + e.2 = 1 → Regular (fun q => o.prec (o.b q)) e.1 1) :
    ∃ r, whole o Q0 l s = .ok r ∧ r.length = l.length + 1 ∧ (∀ i < l.length, ∀ e ∈ r[i + 1]?, ∀ f ∈ l[i]?, e.1 = f.1 ∧ projSize o e.2 = o.c + f.2) ∧
      ∀ e ∈ r, ∀ v w, Projected o e.1 e.2 v w → Right (fun q => o.prec (o.b q)) e.1 (projSize o e.2) v w := by
  have hinit : ∃ s', initSkew o Q0 s = .ok s' ∧ C58_Inv o Q0 s' 0 := by
    unfold initSkew
    by_cases hc : o.c = 0
    · rw [if_pos hc]
      exact ⟨s, rfl, h0, fun h => by omega⟩
    · have hc : o.c = 1 := by omega
      rw [if_neg (by omega)]
      simp only [hc]
      have e : ∀ f : ℕ → V, updateXKinvBX o Q0 0 1 0 { s with hat := f } =
          .ok { s with hat := f, M := updateM (!o.mass) Q0 f 0 1 s.M, fact := .one (updateM (!o.mass) Q0 f 0 1 s.M 0 0) } := fun f => by
        unfold updateXKinvBX
        simp
      rw [e]
      refine ⟨_, rfl, h0, fun _ => ⟨?_, ?_, ?_⟩⟩
      · simp
      · simp [updateM]
      · simp [updateM]
  obtain ⟨s', e1, e2⟩ := hinit
  obtain ⟨r, f1, f2, f3⟩ := C58_inv_run o l Q0 s' 0 e2 hist hone.2 hB
  refine ⟨(Q0, s') :: r, by simp only [whole, e1, f1], by simp [f2], ?_, ?_⟩
  · intro i hi e he f hf
    simp only [List.getElem?_cons_succ, Option.mem_def] at he hf
    obtain ⟨f', g1, g2, g3⟩ := f3 i e he
    rw [hf] at g1
    obtain rfl := Option.some.inj g1
    exact ⟨g2, by unfold projSize; rw [g3.1]⟩
  · intro e he v w hp
    rcases List.mem_cons.mp he with rfl | he
    · exact C58_inv_right o Q0 s' 0 e2 (by omega) (fun hc => hreg.1 (by omega)) v w hp
    · obtain ⟨i, hi, hie⟩ := List.mem_iff_getElem.mp he
      obtain ⟨f, g1, g2, g3⟩ := f3 i e (by rw [List.getElem?_eq_getElem hi, hie])
      have hf : f ∈ l := List.mem_of_getElem? g1
      rw [g2] at hp ⊢
      refine C58_inv_right o f.1 e.2 f.2 g3 (hone.2 f hf) ?_ v w hp
      exact fun hc => hreg.2 f hf hc

/-! Beyond one vector: what the manual promises does not hold. -/

theorem C58_lapack (o : Cfg V) (Q : ℕ → V) (numCols blockSize : ℕ) (s : State V) (h : 2 ≤ numCols + blockSize) :
    updateXKinvBX o Q numCols blockSize 0 s = .err (-40) := by
  unfold updateXKinvBX
  simp only
  rw [if_neg (by omega), if_neg (by omega)]
  unfold factorise
  rw [if_pos (by omega)]
  rfl

/-- Two or more constraints: every such run ends before the first iteration with the error "LAPACK failure" (-40), whatever the matrix, the preconditioner and the
constraints, although they are orthonormal and the factorisation exists: the leading dimension given to LAPACK is zero. -/
theorem C58_constraints_violated (o : Cfg V) (Q0 : ℕ → V) (l : List ((ℕ → V) × ℕ)) (s : State V) (hc : 2 ≤ o.c) : whole o Q0 l s = .err (-40) := by
  unfold whole initSkew
  rw [if_neg (by omega)]
  simp only
  rw [C58_lapack o Q0 0 o.c _ (by omega)]

/-- Without mass matrix, or without locking, the first restart with a converged pair calls the user's preconditioner with an address that is not one of a vector. -/
theorem C58_pointer_violated (o : Cfg V) (Q0 Q : ℕ → V) (k : ℕ) (l : List ((ℕ → V) × ℕ)) (s : State V) (h0 : s.size = 0) (hc : o.c ≤ 1)
    (hk : 0 < k) (hB : o.mass = false ∨ o.locking = false) : whole o Q0 ((Q, k) :: l) s = .wild := by
  have hi : ∃ s', initSkew o Q0 s = .ok s' ∧ s'.size = 0 := by
    unfold initSkew
    by_cases h : o.c = 0
    · rw [if_pos h]; exact ⟨s, rfl, h0⟩
    · have : o.c = 1 := by omega
      rw [if_neg h]
      simp only [this]
      unfold updateXKinvBX
      simp only [Nat.zero_add, one_ne_zero, if_false, if_true]
      exact ⟨_, rfl, h0⟩
  obtain ⟨s', e1, e2⟩ := hi
  have hb : o.hasBevecs = false := by unfold Cfg.hasBevecs; rcases hB with h | h <;> simp [h]
  have hr : restartSkew o Q k s' = .wild := by
    unfold restartSkew
    simp only [e2]
    rw [if_pos ⟨by split_ifs <;> omega, hb⟩]
  simp only [whole, e1, run, hr]

theorem C58_restart_many (o : Cfg V) (Q : ℕ → V) (k : ℕ) (s : State V) (hk : 2 ≤ k) : ∀ s', restartSkew o Q k s ≠ .ok s' := by
  intro s'
  unfold restartSkew
  simp only
  generalize (if o.locking = true then s.size else 0) = n
  by_cases hB : 0 < k - n ∧ o.hasBevecs = false
  · rw [if_pos hB]; simp
  · rw [if_neg hB, C58_lapack _ _ n (k - n) _ (by omega)]; simp

/-- No run gets past a restart with two or more converged pairs. -/
theorem C58_second_violated (o : Cfg V) (Q0 : ℕ → V) (l : List ((ℕ → V) × ℕ)) (s : State V) (h : ∃ e ∈ l, 2 ≤ e.2) :
    ∀ r, whole o Q0 l s ≠ .ok r := by
  have hrun : ∀ (l : List ((ℕ → V) × ℕ)), (∃ e ∈ l, 2 ≤ e.2) → ∀ s r, run o l s ≠ .ok r := by
    intro l
    induction l with
    | nil => rintro ⟨e, he, _⟩; simp at he
    | cons a l ih =>
      rintro ⟨e, he, hk⟩ s r
      obtain ⟨Q, k⟩ := a
      unfold run
      cases hr : restartSkew o Q k s with
      | err c => simp
      | wild => simp
      | ok s' =>
        rcases List.mem_cons.mp he with rfl | he
        · exact absurd hr (C58_restart_many o Q k s hk s')
        · simp only
          cases hl : run o l s' with
          | ok r' => exact absurd hl (ih ⟨e, he, hk⟩ s' r')
          | err c => simp
          | wild => simp
  intro r
  unfold whole
  cases hi : initSkew o Q0 s with
  | err c => simp
  | wild => simp
  | ok s' =>
    simp only
    cases hl : run o l s' with
    | ok r' => exact absurd hl (hrun l h s' r')
    | err c => simp
    | wild => simp

/-- One constraint and one converged pair (mass matrix, locking): no call fails, but the projector is not the one of the manual, since the data of the converged
vector takes the place of the constraint.  Whatever the vectors, the converged vector itself may be left as it is by the "projection" against it. -/
theorem C58_mixed_violated (o : Cfg V) (Q0 Q : ℕ → V) (s : State V) (h0 : s.size = 0) (hc : o.c = 1) (hm : o.mass = true) (hl : o.locking = true)
    (hq : Q 1 ≠ 0) : ∃ s0 s', whole o Q0 [(Q, 1)] s = .ok [(Q0, s0), (Q, s')] ∧ projSize o s' = 2 ∧
      Projected o Q s' (Q 1) (Q 1) ∧ ¬ Right (fun q => o.prec (o.b q)) Q 2 (Q 1) (Q 1) := by
  have e1 : ∀ (P : ℕ → V) (t : State V), updateXKinvBX o P 0 1 0 t =
      .ok { t with M := updateM (!o.mass) P t.hat 0 1 t.M, fact := .one (updateM (!o.mass) P t.hat 0 1 t.M 0 0) } := fun P t => by
    unfold updateXKinvBX
    simp
  have hi : ∃ s0, initSkew o Q0 s = .ok s0 ∧ s0.size = 0 := by
    unfold initSkew
    rw [if_neg (by omega)]
    simp only [hc]
    rw [e1]
    exact ⟨_, rfl, h0⟩
  obtain ⟨s0, i1, i2⟩ := hi
  have hr : ∃ s' a, restartSkew o Q 1 s0 = .ok s' ∧ s'.size = 1 ∧ s'.fact = .one a := by
    unfold restartSkew
    simp only [hl, if_true, i2]
    rw [if_neg (by simp [Cfg.hasBevecs, hm, hl])]
    rw [show (1 : ℕ) - 0 = 1 from rfl, e1]
    exact ⟨_, _, rfl, rfl, rfl⟩
  obtain ⟨s', a, r1, r2, r3⟩ := hr
  have hp : projSize o s' = 2 := by unfold projSize; omega
  refine ⟨s0, s', ?_, hp, ⟨fun _ => 0, ?_, ?_⟩, ?_⟩
  · simp only [whole, i1, run, r1]
  · rw [hp, r3]
    simp [Solved]
  · simp [Verif.Inner.skewProject]
  · intro h
    have := h.2 1 (by omega)
    exact hq (inner_self_eq_zero.mp this)

/-! Cases that meet the hypotheses. -/

/-- The plane with the identity as mass matrix and a positive definite preconditioner. -/
noncomputable def C58_cfg (mass locking : Bool) (c : ℕ) : Cfg (EuclideanSpace ℝ (Fin 2)) where
  mass := mass
  B := id
  prec := fun v => (2 : ℝ) • v
  locking := locking
  c := c
  singular := fun _ _ => false

noncomputable def C58_axes (j : ℕ) : EuclideanSpace ℝ (Fin 2) := if j = 0 then EuclideanSpace.single 0 1 else EuclideanSpace.single 1 1

noncomputable def C58_start : State (EuclideanSpace ℝ (Fin 2)) := ⟨fun _ => 0, fun _ _ => 0, .junk, 0⟩

theorem C58_axes_reg (mass locking : Bool) (c n : ℕ) (hn : n ≤ 2) :
    Regular (fun q => (C58_cfg mass locking c).prec ((C58_cfg mass locking c).b q)) C58_axes n := by
  have hb : ∀ q, (C58_cfg mass locking c).prec ((C58_cfg mass locking c).b q) = (2 : ℝ) • q := by
    intro q; cases mass <;> rfl
  intro a h j hj
  simp only [hb] at h
  have hj2 : j = 0 ∨ j = 1 := by omega
  have h00 : (inner ℝ (C58_axes 0) (C58_axes 0) : ℝ) = 1 := by simp [C58_axes]
  have h01 : (inner ℝ (C58_axes 0) (C58_axes 1) : ℝ) = 0 := by simp [C58_axes, EuclideanSpace.inner_single_left]
  have h10 : (inner ℝ (C58_axes 1) (C58_axes 0) : ℝ) = 0 := by simp [C58_axes, EuclideanSpace.inner_single_left]
  have h11 : (inner ℝ (C58_axes 1) (C58_axes 1) : ℝ) = 1 := by simp [C58_axes]
  have hj' := h j hj
  have hn' : n = 1 ∨ n = 2 := by omega
  rcases hn' with rfl | rfl
  · have : j = 0 := by omega
    subst this
    simp only [Finset.sum_range_one, inner_smul_right, h00] at hj'
    linarith
  · rcases hj2 with rfl | rfl
    · simp only [Finset.sum_range_succ, Finset.sum_range_zero, inner_smul_right, h00, h01] at hj'
      linarith
    · simp only [Finset.sum_range_succ, Finset.sum_range_zero, inner_smul_right, h10, h11] at hj'
      linarith

/-- `C58_update_partial` with two columns at once and with the second of two columns. -/
example : ∃ s', updateXKinvBX (C58_cfg false true 2) C58_axes 0 2 2 { C58_start with hat := fun j => (2 : ℝ) • C58_axes j } = .ok s' ∧
    ∀ v w, Projected (C58_cfg false true 2) C58_axes s' v w → Right (fun q => (2 : ℝ) • q) C58_axes 2 v w := by
  obtain ⟨s', h1, h2, h3⟩ := C58_update_partial (C58_cfg false true 2) (fun _ u v => by simp [C58_cfg, inner_smul_left, inner_smul_right]) C58_axes 0 2
    { C58_start with hat := fun j => (2 : ℝ) • C58_axes j } ⟨fun j hj => by omega, fun i hi => by omega⟩ (fun j _ _ => rfl) (fun _ _ => rfl)
  refine ⟨s', h1, h3 (C58_axes_reg false true 2 2 le_rfl) ?_⟩
  have : s'.size = 0 := by
    unfold updateXKinvBX at h1
    simp [factorise, C58_cfg] at h1
    rw [← h1]
    rfl
  show 2 + s'.size = 2
  omega

/-- `C58_single_partial`: one converged pair, at the second of three restarts. -/
example : ∃ r, whole (C58_cfg true true 0) C58_axes [(C58_axes, 0), (C58_axes, 1), (C58_axes, 1)] C58_start = .ok r ∧ r.length = 4 ∧
    ∀ e ∈ r, ∀ v w, Projected (C58_cfg true true 0) e.1 e.2 v w →
      Right (fun q => (C58_cfg true true 0).prec ((C58_cfg true true 0).b q)) e.1 (projSize (C58_cfg true true 0) e.2) v w := by
  obtain ⟨r, h1, h2, -, h4⟩ := C58_single_partial (C58_cfg true true 0) C58_axes [(C58_axes, 0), (C58_axes, 1), (C58_axes, 1)] C58_start rfl
    ⟨le_rfl, fun _ _ => rfl, Nat.zero_le _, fun _ _ => rfl, le_rfl, fun _ _ => rfl, trivial⟩
    ⟨by decide, by intro e he; simp at he; rcases he with rfl | rfl <;> decide⟩ (fun _ => ⟨rfl, rfl⟩)
    ⟨fun h => absurd h (by decide), by intro e he _; simp at he; rcases he with rfl | rfl <;> exact C58_axes_reg _ _ _ 1 (by decide)⟩
  exact ⟨r, h1, h2, h4⟩

/-- `C58_mixed_violated`. -/
example : ∃ s0 s', whole (C58_cfg true true 1) C58_axes [(C58_axes, 1)] C58_start = .ok [(C58_axes, s0), (C58_axes, s')] := by
  obtain ⟨s0, s', h, -⟩ := C58_mixed_violated (C58_cfg true true 1) C58_axes C58_axes C58_start rfl rfl rfl rfl (by
    intro h
    have := congrArg (fun v => v.ofLp 1) h
    simp [C58_axes] at this)
  exact ⟨s0, s', h⟩

/-- The three other violations: two orthonormal constraints; one converged pair of a standard problem; two converged pairs. -/
example : whole (C58_cfg false true 2) C58_axes [] C58_start = .err (-40) ∧
    whole (C58_cfg false true 0) C58_axes [(C58_axes, 1)] C58_start = .wild ∧
    (∀ r, whole (C58_cfg true true 0) C58_axes [(C58_axes, 1), (C58_axes, 2)] C58_start ≠ .ok r) :=
  ⟨C58_constraints_violated _ _ _ _ le_rfl, C58_pointer_violated _ _ _ _ _ _ rfl (Nat.zero_le _) (by decide) (Or.inl rfl),
    C58_second_violated _ _ _ _ ⟨(C58_axes, 2), by simp, le_rfl⟩⟩

end Verif.Props
