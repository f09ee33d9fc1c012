import Verif.Spec.Lapack
import Mathlib.Tactic.Ring
import Mathlib.Tactic.NormNum

/-!
# C72: failures of LAPACK are reported
-/

namespace Verif.Props
open Verif Verif.Lapack

/-- After a call and before its `info` is tested, nothing is done unless the call succeeded; every `info` is tested. -/
private def Tested : Bool → List Step → Prop
  | p, [] => p = false
  | p, .fit _ :: l => p = false ∧ Tested p l
  | p, .quick _ :: l => p = false ∧ Tested p l
  | p, .malloc g _ :: l => (p = true → g = true) ∧ Tested p l
  | p, .lapack g _ _ _ :: l => (p = true → g = true) ∧ Tested true l
  | _, .report :: l => Tested false l

private theorem honest_after {r : Res} {v : Ev} (h : Honest r) (hv : (∃ n, v = .alloc n) ∨ ∃ a b c, v = .call a b c 0) :
    Honest (r.after v) := by
  have hf : Failed (v :: r.trace) ↔ Failed r.trace := by
    constructor
    · rintro ⟨n, s, w, i, hm, hi⟩
      rcases List.mem_cons.1 hm with hm | hm
      · rcases hv with ⟨x, rfl⟩ | ⟨a, b, c, rfl⟩
        · cases hm
        · cases hm
          exact absurd rfl hi
      · exact ⟨n, s, w, i, hm, hi⟩
    · rintro ⟨n, s, w, i, hm, hi⟩
      exact ⟨n, s, w, i, List.mem_cons_of_mem _ hm, hi⟩
  have hn : Ev.noMem ∈ v :: r.trace ↔ Ev.noMem ∈ r.trace := by
    rw [List.mem_cons]
    refine or_iff_right ?_
    rcases hv with ⟨x, rfl⟩ | ⟨a, b, c, rfl⟩ <;> exact fun h => by cases h
  have ht : ∀ x, Ev.tooBig x ∈ v :: r.trace ↔ Ev.tooBig x ∈ r.trace := by
    intro x
    rw [List.mem_cons]
    refine or_iff_right ?_
    rcases hv with ⟨y, rfl⟩ | ⟨a, b, c, rfl⟩ <;> exact fun h => by cases h
  unfold Honest Res.after at *
  simp only [hf, hn, ht]
  exact h

private theorem not_failed_nil : ¬ Failed [] := by
  rintro ⟨n, s, w, i, hm, hi⟩
  cases hm

private theorem honest_run (e : Env) (l : List Step) : ∀ p k a linfo, Tested p l → (p = false → linfo = 0) →
    (linfo = 0 → Honest (run e l k a linfo)) ∧ (linfo ≠ 0 → run e l k a linfo = ⟨-40, linfo, []⟩) := by
  induction l with
  | nil =>
    intro p k a linfo hT hp
    refine ⟨fun _ => Or.inl ⟨rfl, not_failed_nil, by simp [run], by simp [run]⟩, fun h => absurd (hp hT) h⟩
  | cons s l ih =>
    intro p k a linfo hT hp
    cases s with
    | fit x =>
      obtain ⟨rfl, hT⟩ := hT
      refine ⟨fun h0 => ?_, fun h => absurd (hp rfl) h⟩
      unfold run
      by_cases hx : x > e.max
      · rw [if_pos hx]
        refine Or.inr (Or.inr (Or.inr ⟨rfl, ⟨x, by simp⟩, ?_⟩))
        rintro ⟨n, s, w, i, hm, hi⟩
        simp at hm
      · rw [if_neg hx]
        exact (ih false k a linfo hT hp).1 h0
    | quick c =>
      obtain ⟨rfl, hT⟩ := hT
      refine ⟨fun h0 => ?_, fun h => absurd (hp rfl) h⟩
      unfold run
      cases c with
      | true => exact Or.inl ⟨rfl, not_failed_nil, by simp, by simp⟩
      | false => exact (ih false k a linfo hT hp).1 h0
    | malloc g len =>
      obtain ⟨hg, hT⟩ := hT
      refine ⟨fun h0 => ?_, fun h => ?_⟩
      · unfold run
        rw [if_neg (fun hc => hc.2 h0)]
        by_cases hm : e.malloc a = true
        · rw [if_pos hm]
          exact honest_after ((ih p k (a + 1) linfo hT hp).1 h0) (Or.inl ⟨_, rfl⟩)
        · rw [if_neg hm]
          refine Or.inr (Or.inr (Or.inl ⟨rfl, by simp, ?_⟩))
          rintro ⟨n, s, w, i, hm, hi⟩
          simp at hm
      · have hpt : p = true := by
          cases p with
          | true => rfl
          | false => exact absurd (hp rfl) h
        unfold run
        rw [if_pos ⟨hg hpt, h⟩]
        exact (ih p k a linfo hT hp).2 h
    | lapack g name sizes lwork =>
      obtain ⟨hg, hT⟩ := hT
      refine ⟨fun h0 => ?_, fun h => ?_⟩
      · unfold run
        rw [if_neg (fun hc => hc.2 h0)]
        have := ih true (k + 1) a (e.info k) hT (fun h => by cases h)
        by_cases hi : e.info k = 0
        · have h1 := this.1 hi
          rw [hi] at h1 ⊢
          exact honest_after h1 (Or.inr ⟨_, _, _, rfl⟩)
        · rw [this.2 hi]
          exact Or.inr (Or.inl ⟨rfl, _, _, _, _, List.mem_cons_self .., hi⟩)
      · have hpt : p = true := by
          cases p with
          | true => rfl
          | false => exact absurd (hp rfl) h
        unfold run
        rw [if_pos ⟨hg hpt, h⟩]
        exact (ih true k a linfo hT (fun h => by cases h)).2 h
    | report =>
      refine ⟨fun h0 => ?_, fun h => ?_⟩
      · unfold run
        rw [if_neg (fun hc => hc h0)]
        exact (ih false k a linfo hT (fun _ => h0)).1 h0
      · unfold run
        rw [if_pos h]
        rfl

private theorem honest_exec (e : Env) (l : List Step) (h : Tested false l) : Honest (exec e l) :=
  (honest_run e l false 0 0 0 h (fun _ => rfl)).1 rfl

/-- **C72**, codes: whatever LAPACK, the allocations and the sizes do, the code returned tells what went wrong, and it is zero only if
nothing did.  Missing: the generalized problems of the R package (`C72_hegv_violated`). -/
theorem C72_reported_partial (e : Env) (complex same zgesv : Bool) (m n k lda ldb ldc : ℤ) :
    Honest (exec e (heevx complex n lda)) ∧ Honest (exec e (heev complex n lda)) ∧ Honest (exec e (hegvx complex n lda)) ∧
    Honest (exec e (gees n lda ldb)) ∧ Honest (exec e (gesvd complex m n lda ldb ldc)) ∧ Honest (exec e (hetrf same n lda)) ∧
    Honest (exec e (hetrs zgesv same n k lda ldb)) ∧ Honest (exec e (potrf false n lda)) ∧
    Honest (exec e (getrf same m n lda)) ∧ Honest (exec e (getrs same n k lda ldb)) := by
  refine ⟨?_, ?_, ?_, ?_, ?_, ?_, ?_, ?_, ?_, ?_⟩ <;> apply honest_exec <;> cases complex <;> cases same <;>
    simp [heevx, heev, hegvx, gees, gesvd, hetrf, hetrs, potrf, getrf, getrs, getMem, Tested]

/-- The Cholesky factorization with a pointer for the code stores there that of LAPACK. -/
theorem C72_potrf (e : Env) (n lda : ℤ) (h : (exec e (potrf true n lda)).ret = 0) :
    (Failed (exec e (potrf true n lda)).trace ↔ (exec e (potrf true n lda)).info ≠ 0) ∧
    (n ≠ 0 → (exec e (potrf true n lda)).info = e.info 0) := by
  by_cases h1 : n > e.max
  · simp [exec, potrf, run, h1, PRIMME_UNEXPECTED_FAILURE] at h
  by_cases h2 : lda > e.max
  · simp [exec, potrf, run, h1, h2, PRIMME_UNEXPECTED_FAILURE] at h
  by_cases h3 : n = 0
  · simp [exec, potrf, run, h1, h2, h3, Failed]
    split_ifs <;> simp
  · simp [exec, potrf, run, h1, h2, h3, Failed, Res.after]

/-- With the functions that the R package is compiled with, a failure in a generalized problem is not reported: zero is returned. -/
theorem C72_hegv_violated (complex : Bool) (n lda : ℤ) (hn : 0 < n) (b : ℕ) (hb : n ≤ 2 ^ b - 1) (hl : lda ≤ 2 ^ b - 1) (c : ℤ) (hc : c ≠ 0) :
    ∃ e : Env, e.b = b ∧ (exec e (hegv complex n lda)).ret = 0 ∧ Failed (exec e (hegv complex n lda)).trace := by
  refine ⟨⟨b, fun k => if k = 1 then c else 0, 1, fun _ => true⟩, rfl, ?_⟩
  have h1 : ¬ (2 ^ b - 1 < n) := by omega
  have h2 : ¬ (2 ^ b - 1 < lda) := by omega
  have h3 : n ≠ 0 := by omega
  refine ⟨?_, "hegv", [n, lda, n].map (Env.cast ⟨b, fun k => if k = 1 then c else 0, 1, fun _ => true⟩), some 1, c, ?_, hc⟩ <;>
    cases complex <;> simp [exec, hegv, getMem, run, Env.max, h1, h2, h3, Res.after]

/-! ## Sizes -/

private theorem cast_fit (e : Env) (x : ℤ) (h0 : 0 ≤ x) (h : ¬ x > e.max) : e.cast x = x := by
  unfold Env.cast Env.max at *
  have h2 : (2 : ℤ) ^ (e.b + 1) = 2 * 2 ^ e.b := by ring
  have h3 : ((2 ^ (e.b + 1) : ℕ) : ℤ) = 2 * 2 ^ e.b := by
    push_cast
    exact h2
  apply Int.bmod_eq_of_le <;> omega

private def Same (s : List ℤ) : List Step → Prop
  | [] => True
  | .lapack _ _ t _ :: l => t = s ∧ Same s l
  | _ :: l => Same s l

private theorem same_run (e : Env) (s : List ℤ) (l : List Step) (h : Same s l) : ∀ k a linfo,
    CalledWith (run e l k a linfo).trace (s.map e.cast) := by
  have hc : ∀ (v : Ev) (r : Res), CalledWith r.trace (s.map e.cast) →
      (∀ n t w i, v = .call n t w i → t = s.map e.cast) → CalledWith (r.after v).trace (s.map e.cast) := by
    intro v r hr hv n t w i hm
    rcases List.mem_cons.1 hm with hm | hm
    · exact hv n t w i hm.symm
    · exact hr n t w i hm
  induction l with
  | nil =>
    intro k a linfo n t w i hm
    simp [run] at hm
  | cons st l ih =>
    intro k a linfo
    cases st with
    | fit x =>
      unfold run
      split_ifs
      · intro n t w i hm
        simp at hm
      · exact ih h k a linfo
    | quick c =>
      unfold run
      split_ifs
      · intro n t w i hm
        simp at hm
      · exact ih h k a linfo
    | malloc g len =>
      unfold run
      split_ifs
      · exact ih h k a linfo
      · exact hc _ _ (ih h k (a + 1) linfo) (fun n t w i hv => by cases hv)
      · intro n t w i hm
        simp at hm
    | lapack g name sizes lwork =>
      obtain ⟨rfl, h⟩ := h
      unfold run
      split_ifs
      · exact ih h k a linfo
      · exact hc _ _ (ih h (k + 1) a _) (fun n t w i hv => by cases hv; rfl)
    | report =>
      unfold run
      split_ifs
      · intro n t w i hm
        simp at hm
      · exact ih h k a linfo

private theorem fits_run (e : Env) (xs : List ℤ) (l : List Step) (s : List ℤ) (hs : ∀ x ∈ s, x ∈ xs) (h0 : ∀ x ∈ s, 0 ≤ x)
    (h : Same s l) : CalledWith (exec e (xs.map Step.fit ++ l)).trace s := by
  have key : ∀ ys : List ℤ, (∃ x ∈ ys, x > e.max) → ∀ n t w i, Ev.call n t w i ∉ (exec e (ys.map Step.fit ++ l)).trace := by
    intro ys
    induction ys with
    | nil =>
      rintro ⟨x, hx, -⟩
      cases hx
    | cons y ys ih =>
      rintro ⟨x, hx, hxm⟩ n t w i
      simp only [exec, List.map_cons, List.cons_append, run]
      by_cases hy : y > e.max
      · rw [if_pos hy]
        simp
      · rw [if_neg hy]
        refine ih ⟨x, ?_, hxm⟩ n t w i
        rcases List.mem_cons.1 hx with rfl | hx
        · exact absurd hxm hy
        · exact hx
  by_cases hb : ∃ x ∈ xs, x > e.max
  · intro n t w i hm
    exact absurd hm (key xs hb n t w i)
  · push Not at hb
    have hcast : s.map e.cast = s := by
      conv_rhs => rw [← List.map_id s]
      refine List.map_congr_left (fun x hx => cast_fit e x (h0 x hx) ?_)
      have := hb x (hs x hx)
      omega
    have hS : Same s (xs.map Step.fit ++ l) := by
      clear hs hb key
      induction xs with
      | nil => exact h
      | cons y ys ih => exact ih
    have := same_run e s _ hS 0 0 0
    rwa [hcast] at this

/-- **C72**, sizes: LAPACK is called with the sizes of the matrices, never with what is left of them in a smaller integer.  Missing: LU
factorizations and triangular systems (`C72_sizes_violated`). -/
theorem C72_sizes_partial (e : Env) (complex same zgesv pointer : Bool) (m n k lda ldb ldc : ℤ) (hm : 0 ≤ m) (hn : 0 ≤ n) (hk : 0 ≤ k)
    (ha : 0 ≤ lda) (hb : 0 ≤ ldb) (hc : 0 ≤ ldc) :
    CalledWith (exec e (heevx complex n lda)).trace [n, lda, n] ∧ CalledWith (exec e (heev complex n lda)).trace [n, lda] ∧
    CalledWith (exec e (hegvx complex n lda)).trace [n, lda, n, n] ∧ CalledWith (exec e (hegv complex n lda)).trace [n, lda, n] ∧
    CalledWith (exec e (gees n lda ldb)).trace [n, lda, ldb] ∧
    CalledWith (exec e (gesvd complex m n lda ldb ldc)).trace [m, n, lda, ldb, ldc] ∧
    CalledWith (exec e (hetrf same n lda)).trace [n, lda] ∧ CalledWith (exec e (hetrs zgesv same n k lda ldb)).trace [n, k, lda, ldb] ∧
    CalledWith (exec e (potrf pointer n lda)).trace [n, lda] := by
  refine ⟨?_, ?_, ?_, ?_, ?_, ?_, ?_, ?_, ?_⟩
  · refine fits_run e [n, lda] _ _ (by simp) (by simp [hn, ha]) ?_
    cases complex <;> simp [Same, getMem]
  · refine fits_run e [n, lda] _ _ (by simp) (by simp [hn, ha]) ?_
    cases complex <;> simp [Same, getMem]
  · refine fits_run e [n, lda] _ _ (by simp) (by simp [hn, ha]) ?_
    cases complex <;> simp [Same, getMem]
  · refine fits_run e [n, lda] _ _ (by simp) (by simp [hn, ha]) ?_
    cases complex <;> simp [Same, getMem]
  · refine fits_run e [n, lda, ldb] _ _ (by simp) (by simp [hn, ha, hb]) ?_
    simp [Same, getMem]
  · refine fits_run e [m, n, lda, ldb, ldc] _ _ (by simp) (by simp [hm, hn, ha, hb, hc]) ?_
    cases complex <;> simp [Same]
  · refine fits_run e [n, lda] _ _ (by simp) (by simp [hn, ha]) ?_
    cases same <;> simp [Same, getMem]
  · refine fits_run e [n, k, lda, ldb] _ _ (by simp) (by simp [hn, hk, ha, hb]) ?_
    cases same <;> simp [Same, getMem]
  · refine fits_run e [n, lda] _ _ (by simp) (by simp [hn, ha]) ?_
    cases pointer <;> simp [Same]

/-- A leading dimension that does not fit is cut in LU factorizations and triangular systems, and zero is returned: with integers of 32
bits, LAPACK is called with 1 for `2^32 + 1`. -/
theorem C72_sizes_violated (e : Env) (hb : e.b = 31) (hi : e.info 0 = 0) :
    (exec e (getrf true 1 1 (2 ^ 32 + 1))).ret = 0 ∧
    (exec e (getrf true 1 1 (2 ^ 32 + 1))).trace = [.call "getrf" [1, 1, 1] none 0] ∧
    (exec e (getrs true 1 1 (2 ^ 32 + 1) 1)).trace = [.call "getrs" [1, 1, 1, 1] none 0] ∧
    (exec e (trsm 1 1 1 (2 ^ 32 + 1))).trace = [.call "trsm" [1, 1, 1, 1] none 0] := by
  have h1 : e.cast 1 = 1 := by unfold Env.cast; rw [hb]; decide
  have h2 : e.cast (2 ^ 32 + 1) = 1 := by unfold Env.cast; rw [hb]; decide
  norm_num at h2
  simp [exec, getrf, getrs, trsm, run, Res.after, hi, h1, h2]

/-- Empty matrices are not given to LAPACK. -/
theorem C72_empty (e : Env) (complex same zgesv pointer : Bool) (m k lda ldb ldc : ℤ) :
    ∀ l ∈ [heevx complex 0 lda, heev complex 0 lda, hegvx complex 0 lda, hegv complex 0 lda, gees 0 lda ldb,
      gesvd complex m 0 lda ldb ldc, gesvd complex 0 m lda ldb ldc, hetrf same 0 lda, hetrs zgesv same 0 k lda ldb,
      hetrs zgesv same m 0 lda ldb, potrf pointer 0 lda, getrf same m 0 lda, getrf same 0 m lda, getrs same 0 k lda ldb,
      getrs same m 0 lda ldb, trsm m 0 lda ldb, trsm 0 m lda ldb], ∀ n s w i, Ev.call n s w i ∉ (exec e l).trace := by
  intro l hl n s w i
  simp only [List.mem_cons, List.not_mem_nil, or_false] at hl
  rcases hl with h | h | h | h | h | h | h | h | h | h | h | h | h | h | h | h | h <;> subst h <;>
    simp only [exec, heevx, heev, hegvx, hegv, gees, gesvd, hetrf, hetrs, potrf, getrf, getrs, trsm, run, List.cons_append,
      List.nil_append, decide_true, or_true, true_or, if_true] <;> first | (split_ifs <;> simp) | simp

/-! ## Workspace -/

private def Guarded : List Step → Prop
  | [] => True
  | .lapack g _ _ _ :: l => g = true ∧ Guarded l
  | _ :: l => Guarded l

private def Given : List (ℤ → ℤ) → List Step → Prop
  | _, [] => True
  | fs, .malloc g len :: l => (g = true → Guarded l) ∧ Given (len :: fs) l
  | fs, .lapack _ _ _ (some f) :: l => ((∀ w, f w = -1) ∨ f ∈ fs ∧ ∀ w, w ≤ f w) ∧ Given fs l
  | fs, _ :: l => Given fs l

private theorem guarded_run (e : Env) (l : List Step) (h : Guarded l) : ∀ k a linfo, linfo ≠ 0 →
    ∀ n s w i, Ev.call n s w i ∉ (run e l k a linfo).trace := by
  induction l with
  | nil => intro k a linfo _ n s w i; simp [run]
  | cons st l ih =>
    intro k a linfo hl n s w i
    cases st with
    | fit x =>
      unfold run
      split_ifs
      · simp
      · exact ih h k a linfo hl n s w i
    | quick c =>
      unfold run
      split_ifs
      · simp
      · exact ih h k a linfo hl n s w i
    | malloc g len =>
      unfold run
      split_ifs
      · exact ih h k a linfo hl n s w i
      · simpa [Res.after] using ih h k (a + 1) linfo hl n s w i
      · simp
    | lapack g name sizes lwork =>
      unfold run
      rw [if_pos ⟨h.1, hl⟩]
      exact ih h.2 k a linfo hl n s w i
    | report =>
      unfold run
      rw [if_pos hl]
      simp

private theorem given_run (e : Env) (l : List Step) : ∀ (fs : List (ℤ → ℤ)) (pre : List Ev) (k a : ℕ) (linfo : ℤ), Given fs l →
    (∀ f ∈ fs, Ev.alloc (f e.work) ∈ pre) → ∀ t1 t2 n s w i, (run e l k a linfo).trace = t1 ++ Ev.call n s (some w) i :: t2 →
    w = -1 ∨ (Ev.alloc w ∈ pre ++ t1 ∧ e.work ≤ w) := by
  have none_of : ∀ {v : Ev} {t1 t2 : List Ev} {n s w i}, (∀ n s w i, v ≠ Ev.call n s w i) →
      [v] = t1 ++ Ev.call n s w i :: t2 → False := by
    intro v t1 t2 n s w i hv h
    have : Ev.call n s w i ∈ [v] := h ▸ (by simp)
    exact hv n s w i (List.mem_singleton.1 this).symm
  induction l with
  | nil =>
    intro fs pre k a linfo _ _ t1 t2 n s w i h
    simp [run] at h
  | cons st l ih =>
    intro fs pre k a linfo hG hpre t1 t2 n s w i h
    have tail : ∀ (v : Ev) fs' k' a' linfo', Given fs' l → (∀ f ∈ fs', Ev.alloc (f e.work) ∈ pre ++ [v]) → 
        v :: (run e l k' a' linfo').trace = t1 ++ Ev.call n s (some w) i :: t2 → t1 ≠ [] →
        w = -1 ∨ (Ev.alloc w ∈ pre ++ t1 ∧ e.work ≤ w) := by
      intro v fs' k' a' linfo' hG' hp' hv ht
      obtain ⟨u, t1', rfl⟩ := List.exists_cons_of_ne_nil ht
      rw [List.cons_append] at hv
      injection hv with hv1 hv2
      subst hv1
      have := ih fs' (pre ++ [v]) k' a' linfo' hG' hp' t1' t2 n s w i hv2
      rwa [List.append_assoc] at this
    cases st with
    | fit x =>
      unfold run at h
      split_ifs at h
      · exact (none_of (fun _ _ _ _ hc => by cases hc) h).elim
      · exact ih fs pre k a linfo hG hpre t1 t2 n s w i h
    | quick c =>
      unfold run at h
      split_ifs at h
      · simp at h
      · exact ih fs pre k a linfo hG hpre t1 t2 n s w i h
    | malloc g len =>
      unfold run at h
      split_ifs at h with hg hm
      · have := guarded_run e l (hG.1 hg.1) k a linfo hg.2 n s (some w) i
        rw [h] at this
        simp at this
      · refine tail _ (len :: fs) _ _ _ hG.2 ?_ h ?_
        · intro f hf
          rcases List.mem_cons.1 hf with rfl | hf
          · simp
          · exact List.mem_append_left _ (hpre f hf)
        · rintro rfl
          simp [Res.after] at h
      · exact (none_of (fun _ _ _ _ hc => by cases hc) h).elim
    | lapack g name sizes lwork =>
      have hG' : Given fs l := by
        cases lwork with
        | none => exact hG
        | some f => exact hG.2
      unfold run at h
      split_ifs at h with hg
      · exact ih fs pre k a linfo hG' hpre t1 t2 n s w i h
      · by_cases ht : t1 = []
        · subst ht
          simp only [Res.after, List.nil_append, List.cons.injEq, Ev.call.injEq] at h
          cases lwork with
          | none => simp at h
          | some f =>
            have hw : f e.work = w := by simpa using h.1.2.2.1
            rcases hG.1 with h1 | ⟨h1, h2⟩
            · left
              rw [← hw, h1]
            · right
              rw [List.append_nil, ← hw]
              exact ⟨hpre f h1, h2 _⟩
        · exact tail _ fs _ _ _ hG' (fun f hf => List.mem_append_left _ (hpre f hf)) h ht
    | report =>
      unfold run at h
      split_ifs at h
      · simp at h
      · exact ih fs pre k a linfo hG hpre t1 t2 n s w i h

/-- **C72**, workspace: each call is a query, or its workspace has the length that LAPACK is told, which is no less than it asked for. -/
theorem C72_workspace (e : Env) (complex same : Bool) (m n lda ldb ldc : ℤ) :
    ∀ l ∈ [heevx complex n lda, heev complex n lda, hegvx complex n lda, hegv complex n lda, gees n lda ldb,
      gesvd complex m n lda ldb ldc, hetrf same n lda], Workspace e.work (exec e l).trace := by
  intro l hl t1 t2 nm s w i h
  have key : Given [] l := by
    simp only [List.mem_cons, List.not_mem_nil, or_false] at hl
    rcases hl with h | h | h | h | h | h | h <;> subst h <;> cases complex <;> cases same <;>
      simp [heevx, heev, hegvx, hegv, gees, gesvd, hetrf, getMem, Given, Guarded]
    all_goals (right; intro w; split_ifs <;> omega)
  have := given_run e l [] [] 0 0 0 key (by simp) t1 t2 nm s w i h
  simpa using this

/-- A call that succeeds, and one whose second call of LAPACK fails. -/
example : let ok : Env := ⟨31, fun _ => 0, 26, fun _ => true⟩
    let bad : Env := ⟨31, fun k => if k = 1 then 3 else 0, 1, fun _ => true⟩
    (exec ok (hegvx false 2 5)).ret = 0 ∧ (exec bad (heevx true 2 5)).ret = -40 ∧
    (exec bad (heevx true 2 5)).trace = [.alloc 4, .alloc 14, .alloc 10, .alloc 2, .call "heevx" [2, 5, 2] (some (-1)) 0, .alloc 4,
      .call "heevx" [2, 5, 2] (some 4) 3] := by
  refine ⟨by decide, by decide, by decide⟩

end Verif.Props
