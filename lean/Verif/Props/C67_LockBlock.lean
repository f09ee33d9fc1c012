import Verif.Proofs.LockRestart
import Verif.Props.C60_Combine

/-!
# C67: after a restart with locking, basis, next block and norms belong to the pairs they are said to

Pairs that are not locked after all are back in the basis, with their values and with products with the matrices that are those of
the vectors.  Behind the basis are the vectors of the first pairs in the order of the targets, whether they failed the test
or were not tested, with their residual vectors and norms: the next block.  The products kept for the orthogonalization are those
of the new vectors.
-/

namespace Verif.Props
open Verif Verif.Comb Verif.Restart Verif.Spec
open Verif.Spec.Comb (comb Same)

variable {F : Type} [RCLike F]

private theorem same_trans {rows : ℕ → ℕ} {u v w : ℕ → ℕ → F} (h1 : Same rows u v) (h2 : Same rows v w) : Same rows u w :=
  fun p i hi => (h1 p i hi).trans (h2 p i hi)

private theorem same_symm {rows : ℕ → ℕ} {u v : ℕ → ℕ → F} (h1 : Same rows u v) : Same rows v u :=
  fun p i hi => (h1 p i hi).symm

private theorem same_norm {P : ℕ} {rows : ℕ → ℕ} {u v : ℕ → ℕ → F} (h : Same rows u v) :
    Spec.Pract.norm P rows u = Spec.Pract.norm P rows v :=
  Spec.Pract.norm_congr fun p _ i hi => h p i hi

private theorem same_ip {P : ℕ} {rows : ℕ → ℕ} {u u' v v' : ℕ → ℕ → F} (h1 : Same rows u u') (h2 : Same rows v v') :
    Spec.Pract.ip P rows u v = Spec.Pract.ip P rows u' v' := by
  unfold Spec.Pract.ip
  refine Finset.sum_congr rfl fun p _ => Finset.sum_congr rfl fun i hi => ?_
  rw [h1 p i (Finset.mem_range.1 hi), h2 p i (Finset.mem_range.1 hi)]

private theorem same_true {rows : ℕ → ℕ} {A B : (ℕ → ℕ → F) →ₗ[F] (ℕ → ℕ → F)} (hA : C60_Matrix rows A) (hB : C60_Matrix rows B)
    {x y : ℕ → ℕ → F} (h : Same rows x y) (v : F) : Same rows (C60_true A B v x) (C60_true A B v y) := by
  intro p i hi
  unfold C60_true
  rw [hA.same _ _ h p i hi, hB.same _ _ h p i hi]

/-- Where column `c` of the new basis was before the pairs that failed were moved. -/
private def src (left : ℕ) (f : List ℕ) (c : ℕ) : ℕ := if c < left then c else left + f.getD (c - left) 0

section
variable {P : Par} {o : Answers} {b nl : ℕ} {C : List ℕ} {a : Lock.Before F} {r : Lock.After F} {kept : List ℕ} {p : Restart.Arr}
  {rs ret n : ℕ} {u : AuxRes F}

private theorem failed_lt (f : Lock.Facts P o b nl C a r kept p rs ret n u) {j : ℕ} (hj : j < r.s.failed.length) :
    r.s.failed.getD j 0 < C.length := by
  have : ∀ x ∈ r.s.failed, x < C.length := by
    intro x hx
    rw [f.failed] at hx
    exact List.mem_range.1 (List.mem_filter.1 hx).1
  rw [Lock.getD_get hj]
  exact this _ (List.getElem_mem _)

private theorem src_lt (f : Lock.Facts P o b nl C a r kept p rs ret n u) {c : ℕ} (hc : c < rs + ret + r.s.failed.length) :
    src (rs + ret) r.s.failed c < rs + ret + C.length := by
  unfold src
  split_ifs with h
  · omega
  · have := failed_lt f (j := c - (rs + ret)) (by omega)
    omega

private theorem basis_col (f : Lock.Facts P o b nl C a r kept p rs ret n u) {c : ℕ} (hc : c < rs + ret + r.s.failed.length)
    (arr : Comb.Arr) (harr : arr = .V ∨ arr = .W ∨ (arr = .BV ∧ a.hasBV = true)) :
    Same a.rows (C60_col r.mem arr c) (C60_col u.toRes.mem arr (src (rs + ret) r.s.failed c)) := by
  intro q i hi
  unfold C60_col src
  rw [f.mem q arr c i hi]
  unfold Lock.fin Lock.Moved
  dsimp only
  by_cases h : c < rs + ret
  · rw [if_neg (by omega), if_neg (by omega), if_pos h]
  · rw [if_pos ⟨harr, by omega, by omega⟩, if_neg h]

private theorem src_perm (f : Lock.Facts P o b nl C a r kept p rs ret n u) {c : ℕ} (hc : c < rs + ret + r.s.failed.length) :
    p (src (rs + ret) r.s.failed c) = r.s.restartPerm c ∧ ∃ v, r.s.restartPerm c = some v := by
  unfold src
  by_cases h : c < rs + ret
  · rw [if_pos h, f.pO c h, f.rpO c h]
    exact ⟨rfl, _, rfl⟩
  · rw [if_neg h]
    have h2 := f.rpC (c - (rs + ret)) (by omega)
    rw [show rs + ret + (c - (rs + ret)) = c by omega] at h2
    rw [h2, f.pC _ (failed_lt f (by omega))]
    exact ⟨rfl, _, rfl⟩

end

/-- **The next block.**  After a restart with locking, the columns behind the basis have, in the order of the targets, the first
of the pairs that stay: those that were not tested and those that failed the test.  `W` has their residual vectors, `BV` the
products with the mass matrix, and the norms are those of the residuals, or the estimate of the error if that is larger for
pairs that failed the test. -/
theorem C67_block (P : Par) (o : Answers) (b nl : ℕ) (flags : List Conv.Flag) (g : Int) (h : C22_Hard P o b nl flags g)
    (a : Lock.Before F) (hM : 0 < a.M) (A B : (ℕ → ℕ → F) →ₗ[F] (ℕ → ℕ → F)) (hA : C60_Matrix a.rows A)
    (hB : C60_Matrix a.rows B) (hprod : C60_Products a.rows A B a.hasBV b a.mem) :
    ∃ (r : Lock.After F) (kept : List ℕ) (size block : ℕ), Lock.restart P o b nl flags g a = .ok r ∧ r.s.restartSize = size ∧ r.s.ievSize = block ∧
      kept.Pairwise (· < ·) ∧
      kept.Perm ((others b (C22_chosen P b nl flags)).take r.s.indexPrev.toNat ++ rejected (C22_chosen P b nl flags) o.check) ∧
      block ≤ kept.length ∧ size + block ≤ P.maxBasisSize ∧
      ∀ t i, t < block → kept[t]? = some i →
        Same a.rows (C60_col r.mem .V (size + t)) (comb b (C60_col a.mem .V) fun k => a.hVecs k i) ∧
        Same a.rows (C60_col r.mem .W (size + t)) (C60_true A B (a.hVals i) (C60_col r.mem .V (size + t))) ∧
        (a.hasBV = true → Same a.rows (C60_col r.mem .BV (size + t)) (B (C60_col r.mem .V (size + t)))) ∧
        r.blockNorms t =
          if i ∈ rejected (C22_chosen P b nl flags) o.check
          then max (Spec.Pract.norm a.procs a.rows (C60_col r.mem .W (size + t))) a.err
          else Spec.Pract.norm a.procs a.rows (C60_col r.mem .W (size + t)) := by
  obtain ⟨r, kept, p, rs, ret, n, u, e, -, f⟩ := Lock.restart_facts P o b nl flags g h a hM
  have hCsub : (C22_chosen P b nl flags).Sublist (List.range b) := accepted_sublist _ _ _ _
  generalize C22_chosen P b nl flags = C at *
  obtain ⟨block, hbl⟩ := Int.eq_ofNat_of_zero_le f.iev0
  obtain ⟨c1, c2, c3, c4⟩ := C60_restart_locking hM a.procs a.rows A B hA hB a.hasBV a.explicit b
    (fun k c => a.hVecs k ((p c).getD 0)) (fun c => a.hVals ((p c).getD 0)) (rs + ret) C.length n (nl + a.q) a.junk a.mem a.err
    a.VtBV hprod u f.u_eq
  have hfl : r.s.failed.length ≤ C.length := by
    rw [f.failed]
    have := List.length_filter_le (fun t => decide (o.check t = .unconverged)) (List.range C.length)
    simpa using this
  have hroom := f.room
  have hiev := f.iev
  refine ⟨r, kept, rs + ret + r.s.failed.length, block, e, f.size, hbl, f.sorted, by rw [f.ip]; exact f.perm, ?_, by omega, ?_⟩
  · by_contra hlt
    have := (f.pos kept.length (by omega)).1
    omega
  · intro t i ht hi
    obtain ⟨-, v, v1, v2, v3, v4, v5⟩ := f.pos t (by omega)
    rw [hi] at v2
    have hdis : ∀ x ∈ C, ∀ y ∈ others b C, x ≠ y := by
      have : (C ++ others b C).Nodup := (perm_of_sublist b C hCsub).nodup_iff.2 List.nodup_range
      exact (List.nodup_append.1 this).2.2
    have hmem : ∀ arr, (arr = .V ∨ arr = .W ∨ (arr = .BV ∧ a.hasBV = true)) → ∀ q row, row < a.rows q →
        C60_col r.mem arr (rs + ret + r.s.failed.length + t) q row =
          if v < rs + ret then u.toRes.mem q arr (rs + ret + C.length + v) row
          else if arr = .W then u.toRes.mem q .W (rs + ret + r.s.failed.getD (v - (rs + ret)) 0) row -
            a.hVals ((p (rs + ret + r.s.failed.getD (v - (rs + ret)) 0)).getD 0) *
              u.toRes.mem q (if a.hasBV then .BV else .V) (rs + ret + r.s.failed.getD (v - (rs + ret)) 0) row
          else u.toRes.mem q arr (rs + ret + r.s.failed.getD (v - (rs + ret)) 0) row := by
      intro arr harr q row hrow
      unfold C60_col
      rw [f.mem q arr _ row hrow]
      unfold Lock.fin Lock.Moved
      dsimp only
      rw [if_neg (by omega), if_pos ⟨harr, by omega, by omega⟩, Nat.add_sub_cancel_left]
      simp only [v1, Option.getD_some]
    by_cases hv : v < rs + ret
    · -- not tested
      obtain ⟨d1, d2, d3, d4⟩ := c4 v (v3 hv)
      have hi' : i = (others b C).getD v 0 := by
        have := f.rpO v hv
        rw [v2] at this
        exact Option.some.inj this
      have hpv : (p v).getD 0 = i := by rw [f.pO v hv, hi']; rfl
      have hnr : i ∉ rejected C o.check := by
        intro hir
        unfold rejected at hir
        obtain ⟨x, hx, hxi⟩ := List.mem_map.1 hir
        have hxl := List.mem_range.1 (List.mem_filter.1 hx).1
        have hvl : v < (others b C).length := by have := f.lenO; omega
        refine hdis i ?_ i ?_ rfl
        · rw [← hxi, getD_lt _ _ hxl]; exact List.getElem_mem _
        · rw [hi', getD_lt _ _ hvl]; exact List.getElem_mem _
      have hV : Same a.rows (C60_col r.mem .V (rs + ret + r.s.failed.length + t))
          (C60_col u.toRes.mem .V (rs + ret + C.length + v)) := by
        intro q row hrow; rw [hmem _ (.inl rfl) q row hrow, if_pos hv]; rfl
      have hW : Same a.rows (C60_col r.mem .W (rs + ret + r.s.failed.length + t))
          (C60_col u.toRes.mem .W (rs + ret + C.length + v)) := by
        intro q row hrow; rw [hmem _ (.inr (.inl rfl)) q row hrow, if_pos hv]; rfl
      rw [hpv] at d1 d2 d4
      refine ⟨same_trans hV d1, same_trans hW (same_trans d2 (same_true hA hB (same_symm hV) _)), ?_, ?_⟩
      · intro hb
        refine same_trans (fun q row hrow => ?_) (same_trans (d3 hb) (hB.same _ _ (same_symm hV)))
        rw [hmem _ (.inr (.inr ⟨rfl, hb⟩)) q row hrow, if_pos hv]; rfl
      · rw [v5, if_pos hv, if_neg hnr, d4]
        exact same_norm (same_symm (same_trans hW d2))
    · -- failed the test
      have hj : v - (rs + ret) < r.s.failed.length := by have := v4 (by omega); omega
      have hfj := failed_lt f hj
      have hrp := f.rpC _ hj
      rw [show rs + ret + (v - (rs + ret)) = v by omega, v2] at hrp
      have hi' : i = C.getD (r.s.failed.getD (v - (rs + ret)) 0) 0 := Option.some.inj hrp
      have hpv : (p (rs + ret + r.s.failed.getD (v - (rs + ret)) 0)).getD 0 = i := by rw [f.pC _ hfj, hi']; rfl
      have hin : i ∈ rejected C o.check := by
        unfold rejected
        rw [← f.failed]
        refine List.mem_map.2 ⟨r.s.failed.getD (v - (rs + ret)) 0, ?_, hi'.symm⟩
        rw [Lock.getD_get hj]
        exact List.getElem_mem _
      have d1 := c1 (rs + ret + r.s.failed.getD (v - (rs + ret)) 0) (by omega)
      have dW := c2.W (rs + ret + r.s.failed.getD (v - (rs + ret)) 0) (by omega)
      obtain ⟨d2, -, d4⟩ := c3 (rs + ret + r.s.failed.getD (v - (rs + ret)) 0) (by omega) (by omega)
      rw [hpv] at d1 d4
      rw [Nat.add_sub_cancel_left] at d2 d4
      have hV : Same a.rows (C60_col r.mem .V (rs + ret + r.s.failed.length + t))
          (C60_col u.toRes.mem .V (rs + ret + r.s.failed.getD (v - (rs + ret)) 0)) := by
        intro q row hrow; rw [hmem _ (.inl rfl) q row hrow, if_neg hv, if_neg (by simp)]; rfl
      have hW : Same a.rows (C60_col r.mem .W (rs + ret + r.s.failed.length + t))
          (C60_true A B (a.hVals i) (C60_col r.mem .V (rs + ret + r.s.failed.length + t))) := by
        intro q row hrow
        rw [hmem _ (.inr (.inl rfl)) q row hrow, if_neg hv, if_pos rfl, hpv]
        unfold C60_true
        rw [hA.same _ _ hV q row hrow, hB.same _ _ hV q row hrow, ← dW q row hrow]
        congr 2
        by_cases hb : a.hasBV = true
        · rw [if_pos hb]
          exact c2.BV hb _ (by omega) q row hrow
        · rw [if_neg hb]
          exact (c2.noB (by simpa using hb) (C60_col u.toRes.mem .V (rs + ret + r.s.failed.getD (v - (rs + ret)) 0)) q row hrow).symm
      refine ⟨same_trans hV d1, hW, ?_, ?_⟩
      · intro hb
        refine same_trans (fun q row hrow => ?_)
          (same_trans (c2.BV hb (rs + ret + r.s.failed.getD (v - (rs + ret)) 0) (by omega)) (hB.same _ _ (same_symm hV)))
        rw [hmem _ (.inr (.inr ⟨rfl, hb⟩)) q row hrow, if_neg hv, if_neg (by simp)]; rfl
      · rw [v5, if_neg hv, if_pos hin, d4]
        refine congrArg (max · a.err) (same_norm (same_trans ?_ (same_symm hW)))
        exact same_true hA hB (same_trans d2 (same_symm hV)) _

/-- **The basis.**  Every column of the new basis is the combination of the old basis that the order of the restart says, with
its value, and `W` and `BV` have the products of the new basis.  Every pair that failed the test is in it.  The vectors of all
the pairs tested are in the array of the results, behind the constraints and the pairs locked before. -/
theorem C67_basis (P : Par) (o : Answers) (b nl : ℕ) (flags : List Conv.Flag) (g : Int) (h : C22_Hard P o b nl flags g)
    (a : Lock.Before F) (hM : 0 < a.M) (A B : (ℕ → ℕ → F) →ₗ[F] (ℕ → ℕ → F)) (hA : C60_Matrix a.rows A)
    (hB : C60_Matrix a.rows B) (hprod : C60_Products a.rows A B a.hasBV b a.mem) :
    ∃ (r : Lock.After F) (size : ℕ), Lock.restart P o b nl flags g a = .ok r ∧ r.s.restartSize = size ∧
      (∀ c < size, ∃ v, r.s.restartPerm c = some v ∧ r.vals c = a.hVals v ∧
        Same a.rows (C60_col r.mem .V c) (comb b (C60_col a.mem .V) fun k => a.hVecs k v)) ∧
      C60_Products a.rows A B a.hasBV size r.mem ∧
      (∀ i ∈ rejected (C22_chosen P b nl flags) o.check, ∃ c < size, r.s.restartPerm c = some i) ∧
      (∀ j i, (C22_chosen P b nl flags)[j]? = some i →
        Same a.rows (C60_col r.mem .evecs (nl + a.q + j)) (comb b (C60_col a.mem .V) fun k => a.hVecs k i) ∧
        (a.hasBV = true → Same a.rows (C60_col r.mem .Bevecs (nl + a.q + j)) (B (C60_col r.mem .evecs (nl + a.q + j))))) := by
  obtain ⟨r, kept, p, rs, ret, n, u, e, -, f⟩ := Lock.restart_facts P o b nl flags g h a hM
  generalize C22_chosen P b nl flags = C at *
  obtain ⟨c1, c2, c3, c4⟩ := C60_restart_locking hM a.procs a.rows A B hA hB a.hasBV a.explicit b
    (fun k c => a.hVecs k ((p c).getD 0)) (fun c => a.hVals ((p c).getD 0)) (rs + ret) C.length n (nl + a.q) a.junk a.mem a.err
    a.VtBV hprod u f.u_eq
  refine ⟨r, rs + ret + r.s.failed.length, e, f.size, ?_, ⟨?_, ?_, hprod.noB⟩, ?_, ?_⟩
  · intro c hc
    obtain ⟨s1, v, s2⟩ := src_perm f hc
    refine ⟨v, s2, ?_, ?_⟩
    · rw [f.vals]
      unfold src at s1
      by_cases hl : c < rs + ret
      · rw [if_pos hl] at s1
        rw [if_neg (by omega), s1, s2]; rfl
      · rw [if_neg hl] at s1
        rw [if_pos ⟨by omega, hc⟩, s1, s2]; rfl
    · refine same_trans (basis_col f hc .V (.inl rfl)) ?_
      have := c1 _ (src_lt f hc)
      rwa [s1, s2] at this
  · intro c hc
    exact same_trans (basis_col f hc .W (.inr (.inl rfl)))
      (same_trans (c2.W _ (src_lt f hc)) (hA.same _ _ (same_symm (basis_col f hc .V (.inl rfl)))))
  · intro hb c hc
    exact same_trans (basis_col f hc .BV (.inr (.inr ⟨rfl, hb⟩)))
      (same_trans (c2.BV hb _ (src_lt f hc)) (hB.same _ _ (same_symm (basis_col f hc .V (.inl rfl)))))
  · intro i hi
    unfold rejected at hi
    rw [← f.failed] at hi
    obtain ⟨x, hx, hxi⟩ := List.mem_map.1 hi
    obtain ⟨j, hj, hjx⟩ := List.mem_iff_getElem.1 hx
    refine ⟨rs + ret + j, by omega, ?_⟩
    rw [f.rpC j hj, Lock.getD_get hj, hjx, hxi]
  · intro j i hji
    have hj : j < C.length := (List.getElem?_eq_some_iff.1 hji).1
    have hpj : (p (rs + ret + j)).getD 0 = i := by
      rw [f.pC j hj, getD_lt _ _ hj]
      rw [List.getElem?_eq_getElem hj] at hji
      exact Option.some.inj hji
    obtain ⟨d1, d2, -⟩ := c3 (rs + ret + j) (by omega) (by omega)
    rw [Nat.add_sub_cancel_left] at d1 d2
    have hother : ∀ arr, arr = .evecs ∨ arr = .Bevecs → ∀ col, Same a.rows (C60_col r.mem arr col) (C60_col u.toRes.mem arr col) := by
      intro arr harr col q row hrow
      unfold C60_col
      rw [f.mem q arr col row hrow]
      unfold Lock.fin Lock.Moved
      rcases harr with rfl | rfl <;> simp
    have hE := hother .evecs (.inl rfl) (nl + a.q + j)
    refine ⟨same_trans hE (same_trans d1 ?_), fun hb => ?_⟩
    · have := c1 (rs + ret + j) (by omega)
      rwa [hpj] at this
    · exact same_trans (hother .Bevecs (.inr rfl) _) (same_trans (d2 hb) (hB.same _ _ (same_symm hE)))

private theorem gather_cols (left np : ℕ) (f : List ℕ) (hf : f.Pairwise (· < ·)) (H : ℕ → ℕ → F) (m : ℕ) (hm : m ≤ f.length)
    (i c : ℕ) (hi : i < left + np) :
    (List.range m).foldl (fun H j => fun i c => if c = left + j ∧ i < left + np then H i (left + f.getD j 0) else H i c) H i c =
      if left ≤ c ∧ c < left + m then H i (left + f.getD (c - left) 0) else H i c := by
  induction m generalizing c with
  | zero => rw [if_neg (by omega)]; rfl
  | succ m ih =>
    rw [List.range_succ, List.foldl_append, List.foldl_cons, List.foldl_nil]
    have hge : m ≤ f.getD m 0 := by rw [Lock.getD_get (by omega)]; exact Lock.le_get hf (by omega)
    by_cases hc : c = left + m
    · rw [if_pos ⟨hc, hi⟩, ih (by omega), if_neg (by omega), if_pos (by omega), hc, Nat.add_sub_cancel_left]
    · rw [if_neg (by tauto), ih (by omega)]
      by_cases h2 : left ≤ c ∧ c < left + m
      · rw [if_pos h2, if_pos (by omega)]
      · rw [if_neg h2, if_neg (by omega)]

private theorem gather_rows (left k : ℕ) (f : List ℕ) (hf : f.Pairwise (· < ·)) (H : ℕ → ℕ → F) (m : ℕ) (hm : m ≤ f.length)
    (i c : ℕ) (hc : c < left + k) :
    (List.range m).foldl (fun H j => fun i c => if i = left + j ∧ c < left + k then H (left + f.getD j 0) c else H i c) H i c =
      if left ≤ i ∧ i < left + m then H (left + f.getD (i - left) 0) c else H i c := by
  induction m generalizing i with
  | zero => rw [if_neg (by omega)]; rfl
  | succ m ih =>
    rw [List.range_succ, List.foldl_append, List.foldl_cons, List.foldl_nil]
    have hge : m ≤ f.getD m 0 := by rw [Lock.getD_get (by omega)]; exact Lock.le_get hf (by omega)
    by_cases hi : i = left + m
    · rw [if_pos ⟨hi, hc⟩, ih (by omega), if_neg (by omega), if_pos (by omega), hi, Nat.add_sub_cancel_left]
    · rw [if_neg (by tauto), ih (by omega)]
      by_cases h2 : left ≤ i ∧ i < left + m
      · rw [if_pos h2, if_pos (by omega)]
      · rw [if_neg h2, if_neg (by omega)]

private theorem gatherH_eq (left np : ℕ) (f : List ℕ) (hf : f.Pairwise (· < ·)) (hlt : ∀ j < f.length, f.getD j 0 < np)
    (H : ℕ → ℕ → F) (i j : ℕ) (hi : i < left + f.length) (hj : j < left + f.length) :
    Lock.gatherH left np f H i j = H (src left f i) (src left f j) := by
  unfold Lock.gatherH
  rw [gather_rows left f.length f hf _ f.length le_rfl i j hj]
  unfold src
  by_cases h1 : i < left
  · rw [if_neg (by omega), if_pos h1, gather_cols left np f hf H f.length le_rfl i j (by omega)]
    by_cases h2 : j < left
    · rw [if_neg (by omega), if_pos h2]
    · rw [if_pos (by omega), if_neg h2]
  · have := hlt (i - left) (by omega)
    rw [if_pos (by omega), if_neg h1, gather_cols left np f hf H f.length le_rfl _ j (by omega)]
    by_cases h2 : j < left
    · rw [if_neg (by omega), if_pos h2]
    · rw [if_pos (by omega), if_neg h2]

private theorem order_get (left : ℕ) (l f : List ℕ) (j : ℕ) (hj : j < left + f.length) :
    (l.map (· + left) ++ List.range left ++ f.map (· + left)).getD (l.length + j) 0 = src left f j := by
  unfold src
  rw [List.getD_eq_getElem?_getD]
  by_cases h : j < left
  · rw [if_pos h, List.getElem?_append_left (by simp; omega), List.getElem?_append_right (by simp)]
    simp [h]
  · rw [if_neg h, List.getElem?_append_right (by simp; omega)]
    simp only [List.length_append, List.length_map, List.length_range, List.getElem?_map]
    rw [show l.length + j - (l.length + left) = j - left by omega, List.getElem?_eq_getElem (by omega), Lock.getD_get (by omega)]
    simp [Nat.add_comm]

private theorem order_front (left : ℕ) (l f : List ℕ) (j : ℕ) (hj : j < l.length) :
    (l.map (· + left) ++ List.range left ++ f.map (· + left)).getD j 0 = l.getD j 0 + left := by
  rw [List.getD_eq_getElem?_getD, List.append_assoc, List.getElem?_append_left (by simpa using hj)]
  simp [hj]

/-- **The products kept for the orthogonalization.**  With `primme_orth_explicit_I`, `H` is the projection of the matrix on the
new basis, and `VtBV` has the products of the new basis with itself, with the constraints and the pairs locked before, and with
the pairs that are locked now, the ones that passed the test, in that order. -/
theorem C67_products (P : Par) (o : Answers) (b nl : ℕ) (flags : List Conv.Flag) (g : Int) (h : C22_Hard P o b nl flags g)
    (a : Lock.Before F) (hM : 0 < a.M) (A B : (ℕ → ℕ → F) →ₗ[F] (ℕ → ℕ → F)) (hA : C60_Matrix a.rows A)
    (hB : C60_Matrix a.rows B) (hprod : C60_Products a.rows A B a.hasBV b a.mem) (hexp : a.explicit = true)
    (e : ℕ → ℕ → ℕ → F)
    (hG : ∀ i < nl + a.q, ∀ l < b, a.VtBV i (nl + a.q + l) = Spec.Pract.ip a.procs a.rows (e i) (B (C60_col a.mem .V l))) :
    ∃ (r : Lock.After F) (size : ℕ), Lock.restart P o b nl flags g a = .ok r ∧ r.s.restartSize = size ∧
      (∀ i < size, ∀ j < size,
        r.H i j = Spec.Pract.ip a.procs a.rows (C60_col r.mem .V i) (A (C60_col r.mem .V j)) ∧
        r.VtBV (r.s.numLocked + a.q + i) (r.s.numLocked + a.q + j) =
          Spec.Pract.ip a.procs a.rows (C60_col r.mem .V i) (B (C60_col r.mem .V j))) ∧
      (∀ i < nl + a.q, ∀ j < size,
        r.VtBV i (r.s.numLocked + a.q + j) = Spec.Pract.ip a.procs a.rows (e i) (B (C60_col r.mem .V j))) ∧
      (∀ i t, ((List.range (C22_chosen P b nl flags).length).filter fun t => decide (o.check t ≠ .unconverged))[i]? = some t →
        nl + i < r.s.numLocked ∧ ∀ j < size, r.VtBV (nl + a.q + i) (r.s.numLocked + a.q + j) =
          Spec.Pract.ip a.procs a.rows (C60_col r.mem .evecs (nl + a.q + t)) (B (C60_col r.mem .V j))) := by
  obtain ⟨r, kept, p, rs, ret, n, u, eq, -, f⟩ := Lock.restart_facts P o b nl flags g h a hM
  generalize C22_chosen P b nl flags = C at *
  have fu := f.u_eq
  rw [hexp] at fu
  obtain ⟨x1, x2, x3⟩ := C60_explicit hM a.procs a.rows A B hA hB a.hasBV b
    (fun k c => a.hVecs k ((p c).getD 0)) (fun c => a.hVals ((p c).getD 0)) (rs + ret) C.length n (nl + a.q) a.junk a.mem a.err
    a.VtBV e hprod hG u fu
  obtain ⟨-, -, c3, -⟩ := C60_restart_locking hM a.procs a.rows A B hA hB a.hasBV true b
    (fun k c => a.hVecs k ((p c).getD 0)) (fun c => a.hVals ((p c).getD 0)) (rs + ret) C.length n (nl + a.q) a.junk a.mem a.err
    a.VtBV hprod u fu
  have hinc : r.s.failed.Pairwise (· < ·) := by
    rw [f.failed]; exact List.Pairwise.sublist List.filter_sublist List.pairwise_lt_range
  set l := (List.range C.length).filter (fun t => decide (o.check t ≠ .unconverged)) with hl
  have hlen : l.length + r.s.failed.length = C.length := by
    have := List.length_eq_length_filter_add (l := List.range C.length) (fun t => decide (o.check t = .unconverged))
    rw [List.length_range] at this
    have h2 : l = (List.range C.length).filter (fun t => !decide (o.check t = .unconverged)) := by
      rw [hl]; exact List.filter_congr fun x _ => by simp
    rw [f.failed, h2]
    omega
  have hnum : r.s.numLocked = nl + l.length := by have := f.numLocked; omega
  have hV := fun {c : ℕ} (hc : c < rs + ret + r.s.failed.length) => basis_col f hc .V (.inl rfl)
  have hVt := f.VtBV
  rw [if_pos hexp, ← hl] at hVt
  have hH := f.H
  rw [if_pos hexp] at hH
  have hol : (l.map (· + (rs + ret)) ++ List.range (rs + ret) ++ r.s.failed.map (· + (rs + ret))).length =
      l.length + (rs + ret) + r.s.failed.length := by
    rw [List.length_append, List.length_append, List.length_map, List.length_map, List.length_range]
  refine ⟨r, rs + ret + r.s.failed.length, eq, f.size, ?_, ?_, ?_⟩
  · intro i hi j hj
    obtain ⟨y1, y2⟩ := x1 _ (src_lt f hi) _ (src_lt f hj)
    constructor
    · rw [hH, gatherH_eq _ _ _ hinc (fun j hj => failed_lt f hj) _ i j hi hj, y2]
      exact same_ip (same_symm (hV hi)) (hA.same _ _ (same_symm (hV hj)))
    · rw [hVt, hnum]
      unfold Lock.gatherG
      rw [if_pos (by omega), if_neg (by omega), if_pos (by omega),
        show nl + l.length + a.q + i - (nl + a.q) = l.length + i by omega,
        show nl + l.length + a.q + j - (nl + a.q) = l.length + j by omega, order_get _ _ _ _ hi, order_get _ _ _ _ hj, y1]
      exact same_ip (same_symm (hV hi)) (hB.same _ _ (same_symm (hV hj)))
  · intro i hi j hj
    rw [hVt, hnum]
    unfold Lock.gatherG
    rw [if_pos (by omega), if_pos hi, show nl + l.length + a.q + j - (nl + a.q) = l.length + j by omega, order_get _ _ _ _ hj,
      x2 i hi _ (src_lt f hj)]
    exact same_ip (fun _ _ _ => rfl) (hB.same _ _ (same_symm (hV hj)))
  · intro i t hit
    have hi : i < l.length := (List.getElem?_eq_some_iff.1 hit).1
    have hlt : l.getD i 0 = t := by
      rw [Lock.getD_get hi]
      rw [List.getElem?_eq_getElem hi] at hit
      exact Option.some.inj hit
    have ht : t < C.length := by
      rw [List.getElem?_eq_getElem hi] at hit
      have h1 : l[i] ∈ l := List.getElem_mem _
      rw [Option.some.inj hit, hl] at h1
      exact List.mem_range.1 (List.mem_filter.1 h1).1
    refine ⟨by omega, fun j hj => ?_⟩
    rw [hVt, hnum]
    unfold Lock.gatherG
    rw [if_pos (by omega), if_neg (by omega), if_pos (by omega),
      show nl + a.q + i - (nl + a.q) = i by omega,
      show nl + l.length + a.q + j - (nl + a.q) = l.length + j by omega, order_get _ _ _ _ hj, order_front _ _ _ _ hi, hlt,
      Nat.add_comm t, (x1 _ (show rs + ret + t < rs + ret + C.length by omega) _ (src_lt f hj)).1]
    obtain ⟨d1, -, -⟩ := c3 (rs + ret + t) (by omega) (by omega)
    rw [Nat.add_sub_cancel_left] at d1
    refine same_ip (same_trans (same_symm d1) ?_) (hB.same _ _ (same_symm (hV hj)))
    intro q row hrow
    unfold C60_col
    rw [f.mem q .evecs _ row hrow]
    unfold Lock.fin Lock.Moved
    simp

/-- The order of the pairs, the number of pairs locked and the sizes are those of C22. -/
theorem C67_order (P : Par) (o : Answers) (b nl : ℕ) (flags : List Conv.Flag) (g : Int) (h : C22_Hard P o b nl flags g)
    (a : Lock.Before F) (hM : 0 < a.M) (r : Lock.After F) (hr : Lock.restart P o b nl flags g a = .ok r) (ievSize : Int)
    (iev : Restart.Arr) :
    ∃ r0, restart P o b nl flags ievSize iev g = .ok r0 ∧ r0.numLocked = r.s.numLocked ∧ r0.basisSize = r.s.restartSize ∧
      r0.ievSize = r.s.ievSize ∧ r0.restartPerm = r.s.restartPerm ∧ r0.hVecsPerm = r.s.hVecsPerm ∧
      r0.indexPrev = r.s.indexPrev := by
  obtain ⟨r', kept, p, rs, ret, n, u, e, hs, -⟩ := Lock.restart_facts P o b nl flags g h a hM
  rw [hr] at e
  obtain rfl : r = r' := Outcome.ok.inj e
  exact hs ievSize iev

/-! ### The hypotheses are met -/

/-- Fifteen vectors; pairs 0, 1 and 2 are chosen, of which 1 fails the test; one vector is retained. -/
def C67_par : Par := { C22_lockPar with maxBasisSize := 16 }
def C67_flags : List Conv.Flag := C22_lockFlags ++ List.replicate 6 .unconverged

theorem C67_hard : C22_Hard C67_par C22_lockAns 15 1 C67_flags 0 :=
  ⟨rfl, by decide +kernel, by decide +kernel, by decide +kernel, by decide +kernel,
    by unfold Possible RetainOk; decide +kernel⟩

/-- One process with fifteen rows, the matrix is the identity and the basis the canonical one, in `V` and in `W`. -/
noncomputable def C67_before : Lock.Before ℝ where
  M := 4
  procs := 1
  rows := fun _ => 15
  hasBV := false
  explicit := true
  hVecs := fun k c => if k = c then 1 else 0
  hVals := fun c => c
  mem := fun _ arr c i => if (arr = .V ∨ arr = .W) ∧ c = i then 1 else 0
  q := 0
  err := 0
  VtBV := fun _ _ => 0
  junk := fun _ _ => 7
  blockNorms := fun _ => 0

private theorem ex_matrix : C60_Matrix C67_before.rows (LinearMap.id : (ℕ → ℕ → ℝ) →ₗ[ℝ] (ℕ → ℕ → ℝ)) := ⟨fun _ _ h => h⟩

private theorem ex_prod : C60_Products C67_before.rows (LinearMap.id : (ℕ → ℕ → ℝ) →ₗ[ℝ] (ℕ → ℕ → ℝ)) LinearMap.id
    C67_before.hasBV 15 C67_before.mem :=
  ⟨fun k _ p i _ => by simp [C60_col, C67_before], fun h => (Bool.false_ne_true h).elim, fun _ v p i _ => rfl⟩

private theorem ex_hG : ∀ i < 1 + C67_before.q, ∀ l < 15, C67_before.VtBV i (1 + C67_before.q + l) =
    Spec.Pract.ip C67_before.procs C67_before.rows (fun _ _ => (0 : ℝ)) ((LinearMap.id : (ℕ → ℕ → ℝ) →ₗ[ℝ] (ℕ → ℕ → ℝ)) (C60_col C67_before.mem .V l)) := by
  intro i _ l _
  simp [C67_before, Spec.Pract.ip]

private def seen (x : Outcome Result) : Option (Int × Int × Int) :=
  match x with
  | .ok r => some (r.basisSize, r.ievSize, r.indexPrev)
  | _ => none

/-- The block begins with pair 1, which failed the test: its vector is in column 6 of `V`, behind five vectors kept and itself,
and the residual with the value 1 is zero.  Then comes pair 3. -/
example : ∃ r : Lock.After ℝ, Lock.restart C67_par C22_lockAns 15 1 C67_flags 0 C67_before = .ok r ∧ r.s.restartSize = 6 ∧
    r.s.ievSize = 2 ∧ r.mem 0 .V 6 1 = 1 ∧ r.mem 0 .V 6 0 = 0 ∧ r.mem 0 .W 6 1 = 0 ∧ r.mem 0 .V 7 3 = 1 ∧ r.mem 0 .W 7 3 = -2 := by
  obtain ⟨r, kept, size, block, e, h1, h2, h3, h4, h5, h6, h7⟩ := C67_block C67_par C22_lockAns 15 1 C67_flags 0 C67_hard
    C67_before (by norm_num [C67_before]) LinearMap.id LinearMap.id ex_matrix ex_matrix ex_prod
  obtain ⟨r0, f1, -, f3, f4, -, -, f7⟩ := C67_order C67_par C22_lockAns 15 1 C67_flags 0 C67_hard C67_before
    (by norm_num [C67_before]) r e 0 (fun _ => none)
  have hs : seen (restart C67_par C22_lockAns 15 1 C67_flags 0 (fun _ => none) 0) = some (6, 2, 4) := by decide +kernel
  rw [f1] at hs
  simp only [seen, Option.some.injEq, Prod.mk.injEq] at hs
  obtain ⟨s1, s2, s3⟩ := hs
  have hk : kept = [1, 3, 4, 5, 6] := by
    have hp : ((others 15 (C22_chosen C67_par 15 1 C67_flags)).take 4 ++
        rejected (C22_chosen C67_par 15 1 C67_flags) C22_lockAns.check) = [3, 4, 5, 6, 1] := by decide +kernel
    rw [← f7, s3, show (4 : Int).toNat = 4 from rfl, hp] at h4
    refine List.Perm.eq_of_pairwise (le := (· < ·)) (fun a b _ _ h1 h2 => by omega) h3 (by decide) (h4.trans (by decide))
  have hsz : size = 6 := by omega
  have hbl : block = 2 := by omega
  subst hk hsz hbl
  obtain ⟨a1, a2, -⟩ := h7 0 1 (by norm_num) rfl
  obtain ⟨b1, b2, -⟩ := h7 1 3 (by norm_num) rfl
  have v61 := a1 0 1 (by norm_num [C67_before])
  have v60 := a1 0 0 (by norm_num [C67_before])
  have v73 := b1 0 3 (by norm_num [C67_before])
  have w61 := a2 0 1 (by norm_num [C67_before])
  have w73 := b2 0 3 (by norm_num [C67_before])
  simp only [C60_true, LinearMap.id_apply] at w61 w73
  rw [v61] at w61
  rw [v73] at w73
  refine ⟨r, e, h1, h2, v61.trans ?_, v60.trans ?_, w61.trans ?_, v73.trans ?_, w73.trans ?_⟩
  · simp [comb, C60_col, C67_before]
  · simp [comb, C60_col, C67_before]
  · simp [comb, C60_col, C67_before]
  · simp [comb, C60_col, C67_before]
  · simp [comb, C60_col, C67_before]
    norm_num

example := C67_basis C67_par C22_lockAns 15 1 C67_flags 0 C67_hard C67_before (by norm_num [C67_before]) LinearMap.id LinearMap.id
  ex_matrix ex_matrix ex_prod

example := C67_products C67_par C22_lockAns 15 1 C67_flags 0 C67_hard C67_before (by norm_num [C67_before]) LinearMap.id
  LinearMap.id ex_matrix ex_matrix ex_prod rfl (fun _ _ _ => 0) ex_hG

end Verif.Props
