import Verif.Proofs.Combine
import Mathlib.Algebra.Module.LinearMap.Basic
import Mathlib.Algebra.Module.Pi

/-!
# C60: new bases, residual vectors and residual norms are the exact ones

At a restart, when candidates are chosen and when the last pairs are copied, the vectors, their products with the matrices,
the residual vectors and the norms and products of these are those of the combinations asked for, whatever the number of
processes and rows and although the outputs are written over the inputs.
-/

open scoped ComplexConjugate

namespace Verif.Props
open Verif.Comb
open Verif.Spec.Comb (comb Same)

variable {F : Type} [RCLike F]

/-- Column `k` of an array, over all the processes. -/
def C60_col (mem : ℕ → Store F) (arr : Arr) (k : ℕ) : ℕ → ℕ → F := fun p i => mem p arr k i

/-- The output `o` has the vectors `v b`, …, `v (e-1)`. -/
def C60_Stored (rows : ℕ → ℕ) (mem : ℕ → Store F) (o : Out) (v : ℕ → ℕ → ℕ → F) : Prop :=
  ∀ arr c, o.loc = some (arr, c) → ∀ j, o.b ≤ j → j < o.e → Same rows (C60_col mem arr (c + (j - o.b))) (v j)

/-- The residual of the combination `j`: `W h - value BV h`, with `V` for `BV` without mass matrix. -/
def C60_residual (a : Args F) (mem : ℕ → Store F) (j : ℕ) : ℕ → ℕ → F := fun p i =>
  comb a.nV (C60_col mem .W) (fun k => a.h k j) p i -
    a.hVals j * comb a.nV (C60_col mem (if a.hasBV then .BV else .V)) (fun k => a.h k j) p i

private theorem norm_of {P : ℕ} {rows : ℕ → ℕ} {v : ℕ → ℕ → F} {f : ℕ → ℝ}
    (h : ∀ p < P, f p = ∑ r ∈ Finset.range (rows p), ‖v p r‖ ^ 2) :
    Real.sqrt (∑ p ∈ Finset.range P, f p) = Spec.Pract.norm P rows v := by
  unfold Spec.Pract.norm
  exact congrArg Real.sqrt (Finset.sum_congr rfl fun p hp => h p (Finset.mem_range.1 hp))

/-- **The routine.**  Every output wanted has the combinations, products and residual vectors; the norms and the products are
those over all the processes; nothing else is written. -/
theorem C60_update {M : ℕ} (hM : 0 < M) (P : ℕ) (rows : ℕ → ℕ) {a : Args F} (hp : Placed a) (junk : ℕ → ℕ → F)
    (mem : ℕ → Store F) :
    (∀ o ∈ [a.X0, a.X1, a.X2], C60_Stored rows (update M P rows a junk mem).mem o
      fun j => comb a.nV (C60_col mem .V) fun k => a.h k j) ∧
    C60_Stored rows (update M P rows a junk mem).mem a.Wo (fun j => comb a.nV (C60_col mem .W) fun k => a.h k j) ∧
    (∀ o ∈ [a.BX0, a.BX1, a.BX2], C60_Stored rows (update M P rows a junk mem).mem o
      fun j => comb a.nV (C60_col mem .BV) fun k => a.h k j) ∧
    C60_Stored rows (update M P rows a junk mem).mem a.R (C60_residual a mem) ∧
    (a.R.loc.isSome = true → a.Rnorms = true → ∀ j, a.R.b ≤ j → j < a.R.e →
      (update M P rows a junk mem).Rn (j - a.R.b) = Spec.Pract.norm P rows (C60_residual a mem j)) ∧
    (a.rnorms = true → ∀ j, a.nrb ≤ j → j < a.nre →
      (update M P rows a junk mem).rn (j - a.nrb) = Spec.Pract.norm P rows (C60_residual a mem j)) ∧
    (a.xnorms = true → ∀ j, a.nxb ≤ j → j < a.nxe → (update M P rows a junk mem).xn (j - a.nxb) =
      Spec.Pract.norm P rows (comb a.nV (C60_col mem .V) fun k => a.h k j)) ∧
    (∀ n, a.G = some n → ∀ i < n, ∀ j < n, (update M P rows a junk mem).G i j = Spec.Pract.ip P rows
      (comb a.nV (C60_col mem .V) fun k => a.h k i)
      (comb a.nV (C60_col mem (if a.hasBV then .BV else .V)) fun k => a.h k j)) ∧
    (∀ n, a.H = some n → ∀ i < n, ∀ j < n, (update M P rows a junk mem).H i j = Spec.Pract.ip P rows
      (comb a.nV (C60_col mem .V) fun k => a.h k i) (comb a.nV (C60_col mem .W) fun k => a.h k j)) ∧
    (∀ p arr col r, (rows p ≤ r ∨ ∀ o ∈ [a.X0, a.X1, a.X2, a.Wo, a.BX0, a.BX1, a.BX2, a.R], ∀ c, o.loc = some (arr, c) →
      col < c ∨ c + (o.e - o.b) ≤ col) → (update M P rows a junk mem).mem p arr col r = mem p arr col r) := by
  have hi := fun p => local_inv (mV := rows p) hM hp junk (mem p)
  have hmem : ∀ p arr col r, r < rows p →
      (update M P rows a junk mem).mem p arr col r = final (rows p) a (mem p) arr col r := by
    intro p arr col r hr
    refine ((hi p).arrays arr col r).trans ?_
    rw [if_pos hr]
  have hap := hp.apart
  simp only [List.pairwise_cons, List.mem_cons, List.not_mem_nil, or_false, forall_eq_or_imp, forall_eq, false_implies,
    implies_true, List.Pairwise.nil, and_true] at hap
  obtain ⟨⟨a01, a02, a03, a04, a05, a06, a07⟩, ⟨a12, a13, a14, a15, a16, a17⟩, ⟨a23, a24, a25, a26, a27⟩,
    ⟨a34, a35, a36, a37⟩, ⟨a45, a46, a47⟩, ⟨a56, a57⟩, a67⟩ := hap
  refine ⟨?_, ?_, ?_, ?_, ?_, ?_, ?_, ?_, ?_, ?_⟩
  · intro o ho arr c hl j h1 h2 p r hr
    refine (hmem p arr _ r hr).trans ?_
    unfold final
    simp only [List.mem_cons, List.not_mem_nil, or_false] at ho
    rcases ho with rfl | rfl | rfl
    · rw [put_apart a07 hl h1 h2, put_apart a06 hl h1 h2, put_apart a05 hl h1 h2, put_apart a04 hl h1 h2,
        put_apart a03 hl h1 h2, put_apart a02 hl h1 h2, put_apart a01 hl h1 h2, put_in hl h1 h2 hr]
      rfl
    · rw [put_apart a17 hl h1 h2, put_apart a16 hl h1 h2, put_apart a15 hl h1 h2, put_apart a14 hl h1 h2,
        put_apart a13 hl h1 h2, put_apart a12 hl h1 h2, put_in hl h1 h2 hr]
      rfl
    · rw [put_apart a27 hl h1 h2, put_apart a26 hl h1 h2, put_apart a25 hl h1 h2, put_apart a24 hl h1 h2,
        put_apart a23 hl h1 h2, put_in hl h1 h2 hr]
      rfl
  · intro arr c hl j h1 h2 p r hr
    refine (hmem p arr _ r hr).trans ?_
    unfold final
    rw [put_apart a37 hl h1 h2, put_apart a36 hl h1 h2, put_apart a35 hl h1 h2, put_apart a34 hl h1 h2, put_in hl h1 h2 hr]
    rfl
  · intro o ho arr c hl j h1 h2 p r hr
    refine (hmem p arr _ r hr).trans ?_
    unfold final
    simp only [List.mem_cons, List.not_mem_nil, or_false] at ho
    rcases ho with rfl | rfl | rfl
    · rw [put_apart a47 hl h1 h2, put_apart a46 hl h1 h2, put_apart a45 hl h1 h2, put_in hl h1 h2 hr]
      rfl
    · rw [put_apart a57 hl h1 h2, put_apart a56 hl h1 h2, put_in hl h1 h2 hr]
      rfl
    · rw [put_apart a67 hl h1 h2, put_in hl h1 h2 hr]
      rfl
  · intro arr c hl j h1 h2 p r hr
    refine (hmem p arr _ r hr).trans ?_
    unfold final
    rw [put_in hl h1 h2 hr]
    rfl
  · intro hl hn j h1 h2
    refine norm_of fun p _ => ?_
    rw [(hi p).Rn hl hn (j - a.R.b) (by omega), show a.R.b + (j - a.R.b) = j by omega]
    rfl
  · intro hn j h1 h2
    refine norm_of fun p _ => ?_
    rw [(hi p).rn hn (j - a.nrb) (by omega), show a.nrb + (j - a.nrb) = j by omega]
    rfl
  · intro hn j h1 h2
    refine norm_of fun p _ => ?_
    rw [(hi p).xn hn (j - a.nxb) (by omega), show a.nxb + (j - a.nxb) = j by omega]
    rfl
  · intro n hn i hin j hjn
    exact Finset.sum_congr (s₁ := Finset.range P) rfl fun p _ => (hi p).G n hn i hin j hjn
  · intro n hn i hin j hjn
    exact Finset.sum_congr (s₁ := Finset.range P) rfl fun p _ => (hi p).H n hn i hin j hjn
  · intro p arr col r h
    refine ((hi p).arrays arr col r).trans ?_
    split
    · rename_i hr
      rcases h with h | h
      · omega
      · have : ∀ (o : Out) (S : ℕ → ℕ → F) (A : Store F), (∀ c, o.loc = some (arr, c) → col < c ∨ c + (o.e - o.b) ≤ col) →
            put o 0 (rows p) S A arr col r = A arr col r := by
          intro o S A ho
          unfold put
          cases hl : o.loc with
          | none => rfl
          | some l =>
            dsimp only
            rw [if_neg]
            rintro ⟨rfl, h3, h4, -⟩
            have := ho l.2 (by rw [hl])
            omega
        unfold final
        rw [this _ _ _ (h _ (by simp)), this _ _ _ (h _ (by simp)), this _ _ _ (h _ (by simp)), this _ _ _ (h _ (by simp)),
          this _ _ _ (h _ (by simp)), this _ _ _ (h _ (by simp)), this _ _ _ (h _ (by simp)), this _ _ _ (h _ (by simp))]
    · rfl

/-! ## The calls of the solver -/

theorem C60_placed_soft (hasBV explicit : Bool) (b : ℕ) (h : ℕ → ℕ → F) (hVals : ℕ → F) (rs nc n q : ℕ) :
    Placed (softArgs hasBV explicit b h hVals rs nc n q) := by
  constructor
  · intro o ho c
    simp only [softArgs, List.mem_cons, List.not_mem_nil, or_false] at ho
    rcases ho with rfl | rfl | rfl <;> simp
  · intro _ o ho c
    simp only [softArgs, List.mem_cons, List.not_mem_nil, or_false] at ho
    rcases ho with rfl | rfl | rfl | rfl <;> simp
  · cases hasBV <;> simp [softArgs, Apart]
    all_goals (repeat' apply And.intro)
    all_goals (intro a c c' h1 h2 h3 h4; subst h1; first | omega | cases h3)
  · intro hB
    have : hasBV = false := hB
    subst this
    simp [softArgs]

theorem C60_placed_lock (hasBV explicit : Bool) (b : ℕ) (h : ℕ → ℕ → F) (hVals : ℕ → F) (left packed n q : ℕ) :
    Placed (lockArgs hasBV explicit b h hVals left packed n q) := by
  constructor
  · intro o ho c
    simp only [lockArgs, List.mem_cons, List.not_mem_nil, or_false] at ho
    rcases ho with rfl | rfl | rfl <;> simp
  · intro _ o ho c
    simp only [lockArgs, List.mem_cons, List.not_mem_nil, or_false] at ho
    rcases ho with rfl | rfl | rfl | rfl <;> simp
  · cases hasBV <;> simp [lockArgs, Apart]
    all_goals (repeat' apply And.intro)
    all_goals (intro a c c' h1 h2 h3 h4; subst h1; first | omega | cases h3)
  · intro hB
    have : hasBV = false := hB
    subst this
    simp [lockArgs]

theorem C60_placed_cand (hasBV computeXR : Bool) (b : ℕ) (h : ℕ → ℕ → F) (hVals : ℕ → F) (d n : ℕ) :
    Placed (candArgs hasBV computeXR b h hVals d n) := by
  constructor
  · intro o ho c
    simp only [candArgs, List.mem_cons, List.not_mem_nil, or_false] at ho
    cases computeXR <;> rcases ho with rfl | rfl | rfl <;> simp [Out.no]
  · intro _ o ho c
    simp only [candArgs, List.mem_cons, List.not_mem_nil, or_false] at ho
    cases computeXR <;> rcases ho with rfl | rfl | rfl | rfl <;> simp [Out.no]
  · cases hasBV <;> cases computeXR <;> simp [candArgs, Apart, Out.no]
    all_goals (repeat' apply And.intro)
    all_goals (intro a c c' h1 h2 h3 h4; subst h1; first | omega | cases h3)
  · intro hB
    have : hasBV = false := hB
    subst this
    simp [candArgs, Out.no]

theorem C60_placed_copy (hasBV : Bool) (b : ℕ) (h : ℕ → ℕ → F) (hVals : ℕ → F) (q n : ℕ) :
    Placed (copyArgs hasBV b h hVals q n) := by
  constructor
  · intro o ho c
    simp only [copyArgs, List.mem_cons, List.not_mem_nil, or_false] at ho
    rcases ho with rfl | rfl | rfl <;> simp [Out.no]
  · intro _ o ho c
    simp only [copyArgs, List.mem_cons, List.not_mem_nil, or_false] at ho
    rcases ho with rfl | rfl | rfl | rfl <;> simp [Out.no]
  · simp [copyArgs, Apart, Out.no]
  · intro hB
    simp [copyArgs, Out.no]

/-- A matrix: linear, and its product depends on the rows of the processes only. -/
structure C60_Matrix (rows : ℕ → ℕ) (A : (ℕ → ℕ → F) →ₗ[F] (ℕ → ℕ → F)) : Prop where
  same : ∀ u v, Same rows u v → Same rows (A u) (A v)

/-- The arrays `W` and `BV` have the products of the `n` vectors of the basis; without mass matrix `B` is the identity. -/
structure C60_Products (rows : ℕ → ℕ) (A B : (ℕ → ℕ → F) →ₗ[F] (ℕ → ℕ → F)) (hasBV : Bool) (n : ℕ) (mem : ℕ → Store F) :
    Prop where
  W : ∀ k < n, Same rows (C60_col mem .W k) (A (C60_col mem .V k))
  BV : hasBV = true → ∀ k < n, Same rows (C60_col mem .BV k) (B (C60_col mem .V k))
  noB : hasBV = false → ∀ v, Same rows (B v) v

/-- The residual vector of a value and a vector. -/
def C60_true (A B : (ℕ → ℕ → F) →ₗ[F] (ℕ → ℕ → F)) (value : F) (x : ℕ → ℕ → F) : ℕ → ℕ → F := fun p i =>
  A x p i - value * B x p i

private theorem comb_eq (n : ℕ) (v : ℕ → ℕ → ℕ → F) (h : ℕ → F) : comb n v h = ∑ k ∈ Finset.range n, h k • v k := by
  funext p i
  simp only [comb, Finset.sum_apply, Pi.smul_apply, smul_eq_mul]
  exact Finset.sum_congr rfl fun k _ => mul_comm _ _

private theorem comb_map {rows : ℕ → ℕ} {A : (ℕ → ℕ → F) →ₗ[F] (ℕ → ℕ → F)} {n : ℕ} {v w : ℕ → ℕ → ℕ → F}
    (h : ∀ k < n, Same rows (w k) (A (v k))) (c : ℕ → F) : Same rows (comb n w c) (A (comb n v c)) := by
  intro p i hi
  rw [comb_eq n v, map_sum]
  simp only [comb, Finset.sum_apply, map_smul, Pi.smul_apply, smul_eq_mul]
  exact Finset.sum_congr rfl fun k hk => by rw [h k (Finset.mem_range.1 hk) p i hi, mul_comm]

private theorem Same.trans {rows : ℕ → ℕ} {u v w : ℕ → ℕ → F} (h1 : Same rows u v) (h2 : Same rows v w) : Same rows u w :=
  fun p i hi => (h1 p i hi).trans (h2 p i hi)

private theorem Same.symm {rows : ℕ → ℕ} {u v : ℕ → ℕ → F} (h1 : Same rows u v) : Same rows v u :=
  fun p i hi => (h1 p i hi).symm

/-- The residual computed is that of the vector. -/
private theorem residual_true {rows : ℕ → ℕ} {A B : (ℕ → ℕ → F) →ₗ[F] (ℕ → ℕ → F)} {a : Args F} {mem : ℕ → Store F}
    (hA : C60_Matrix rows A) (hB : C60_Matrix rows B) (h : C60_Products rows A B a.hasBV a.nV mem) (j : ℕ)
    {x : ℕ → ℕ → F} (hx : Same rows x (comb a.nV (C60_col mem .V) fun k => a.h k j)) :
    Same rows (C60_residual a mem j) (C60_true A B (a.hVals j) x) := by
  intro p i hi
  unfold C60_residual C60_true
  rw [comb_map h.W _ p i hi, hA.same _ _ hx p i hi]
  congr 2
  rw [hB.same _ _ hx p i hi]
  by_cases hb : a.hasBV = true
  · rw [if_pos hb]
    exact comb_map (h.BV hb) _ p i hi
  · rw [if_neg hb]
    exact (h.noB (by simpa using hb) _ p i hi).symm

private theorem norm_same {P : ℕ} {rows : ℕ → ℕ} {u v : ℕ → ℕ → F} (h : Same rows u v) :
    Spec.Pract.norm P rows u = Spec.Pract.norm P rows v :=
  Spec.Pract.norm_congr fun p _ i hi => h p i hi

/-- **Restart with locking.**  The new basis has the combinations asked for, and `W` and `BV` again its products with the
matrices; the vectors to be locked are columns of the new basis, with norms of their residuals (or the error estimate if that
is larger); the next candidates are combinations too, with their residual vectors and the norms of these. -/
theorem C60_restart_locking {M : ℕ} (hM : 0 < M) (P : ℕ) (rows : ℕ → ℕ) (A B : (ℕ → ℕ → F) →ₗ[F] (ℕ → ℕ → F))
    (hA : C60_Matrix rows A) (hB : C60_Matrix rows B) (hasBV explicit : Bool) (b : ℕ) (h : ℕ → ℕ → F) (hVals : ℕ → F)
    (left packed n q : ℕ) (junk : ℕ → ℕ → F) (mem : ℕ → Store F) (err : ℝ) (VtBV : ℕ → ℕ → F)
    (hprod : C60_Products rows A B hasBV b mem) (u : AuxRes F)
    (hu : u = auxUpdate M P rows (lockArgs hasBV explicit b h hVals left packed n q) junk mem err q VtBV) :
    (∀ c < left + packed, Same rows (C60_col u.toRes.mem .V c) (comb b (C60_col mem .V) fun k => h k c)) ∧
    C60_Products rows A B hasBV (left + packed) u.toRes.mem ∧
    (∀ j, left ≤ j → j < left + packed →
      Same rows (C60_col u.toRes.mem .evecs (q + (j - left))) (C60_col u.toRes.mem .V j) ∧
      (hasBV = true → Same rows (C60_col u.toRes.mem .Bevecs (q + (j - left)))
        (B (C60_col u.toRes.mem .evecs (q + (j - left))))) ∧
      u.norms (j - left) = max (Spec.Pract.norm P rows
        (C60_true A B (hVals j) (C60_col u.toRes.mem .evecs (q + (j - left))))) err) ∧
    (∀ j < n, Same rows (C60_col u.toRes.mem .V (left + packed + j)) (comb b (C60_col mem .V) fun k => h k j) ∧
      Same rows (C60_col u.toRes.mem .W (left + packed + j))
        (C60_true A B (hVals j) (C60_col u.toRes.mem .V (left + packed + j))) ∧
      (hasBV = true → Same rows (C60_col u.toRes.mem .BV (left + packed + j))
        (B (C60_col u.toRes.mem .V (left + packed + j)))) ∧
      u.toRes.Rn j = Spec.Pract.norm P rows
        (C60_true A B (hVals j) (C60_col u.toRes.mem .V (left + packed + j)))) := by
  subst hu
  have hpl := C60_placed_lock hasBV explicit b h hVals left packed n q
  obtain ⟨hX, hW, hBX, hR, hRn, hrn, -, -, -, -⟩ := C60_update hM P rows hpl junk mem
  have hV0 := hX (lockArgs hasBV explicit b h hVals left packed n q).X0 (by simp) .V 0 rfl
  have hV1 := hX (lockArgs hasBV explicit b h hVals left packed n q).X1 (by simp) .V (left + packed) rfl
  have hV2 := hX (lockArgs hasBV explicit b h hVals left packed n q).X2 (by simp) .evecs q rfl
  have hW0 := hW .W 0 rfl
  have hR0 := hR .W (left + packed) rfl
  have hres := fun j {x : ℕ → ℕ → F} => residual_true (a := lockArgs hasBV explicit b h hVals left packed n q) (mem := mem)
    hA hB hprod j (x := x)
  have hBV : ∀ o ∈ [(lockArgs hasBV explicit b h hVals left packed n q).BX0,
      (lockArgs hasBV explicit b h hVals left packed n q).BX1, (lockArgs hasBV explicit b h hVals left packed n q).BX2],
      ∀ arr c, o.loc = some (arr, c) → ∀ j, o.b ≤ j → j < o.e → ∀ {x : ℕ → ℕ → F},
      Same rows x (comb b (C60_col mem .V) fun k => h k j) → hasBV = true →
      Same rows (C60_col (update M P rows (lockArgs hasBV explicit b h hVals left packed n q) junk mem).mem arr
        (c + (j - o.b))) (B x) := by
    intro o ho arr c hl j h1 h2 x hx hb
    refine Same.trans (hBX o ho arr c hl j h1 h2) ?_
    exact Same.trans (comb_map (hprod.BV hb) _) (Same.symm (hB.same _ _ hx))
  set m' := (update M P rows (lockArgs hasBV explicit b h hVals left packed n q) junk mem).mem with hm'
  have e0 : ∀ c < left + packed, Same rows (C60_col m' .V c) (comb b (C60_col mem .V) fun k => h k c) := by
    intro c hc
    have := hV0 c (Nat.zero_le _) hc
    rwa [show 0 + (c - (lockArgs hasBV explicit b h hVals left packed n q).X0.b) = c by
      show 0 + (c - 0) = c; omega] at this
  refine ⟨e0, ⟨?_, ?_, hprod.noB⟩, ?_, ?_⟩
  · intro c hc
    have := hW0 c (Nat.zero_le _) hc
    rw [show 0 + (c - (lockArgs hasBV explicit b h hVals left packed n q).Wo.b) = c by
      show 0 + (c - 0) = c; omega] at this
    exact Same.trans this (Same.trans (comb_map hprod.W _) (Same.symm (hA.same _ _ (e0 c hc))))
  · intro hb c hc
    subst hb
    have := hBV _ (List.mem_cons_self) .BV 0 rfl c (Nat.zero_le _) hc (e0 c hc) rfl
    rwa [show 0 + (c - (lockArgs true explicit b h hVals left packed n q).BX0.b) = c by
      show 0 + (c - 0) = c; omega] at this
  · intro j h1 h2
    have e2 : Same rows (C60_col m' .evecs (q + (j - left))) (comb b (C60_col mem .V) fun k => h k j) := hV2 j h1 h2
    refine ⟨Same.trans e2 (Same.symm (e0 j h2)), ?_, ?_⟩
    · intro hb
      subst hb
      exact hBV (lockArgs true explicit b h hVals left packed n q).BX2 (by simp) .Bevecs q rfl j h1 h2 e2 rfl
    · show (if j - left < left + packed - left then max _ err else _) = _
      rw [if_pos (by omega)]
      congr 1
      exact (hrn rfl j h1 h2).trans (norm_same (hres j e2))
  · intro j hj
    have e1 : Same rows (C60_col m' .V (left + packed + j)) (comb b (C60_col mem .V) fun k => h k j) :=
      hV1 j (Nat.zero_le _) hj
    refine ⟨e1, ?_, ?_, ?_⟩
    · exact Same.trans (hR0 j (Nat.zero_le _) hj) (hres j e1)
    · intro hb
      subst hb
      exact hBV (lockArgs true explicit b h hVals left packed n q).BX1 (by simp) .BV (left + packed) rfl j (Nat.zero_le _) hj e1 rfl
    · exact (hRn rfl rfl j (Nat.zero_le _) hj).trans (norm_same (hres j e1))

/-- **Restart without locking.**  The same; the converged vectors, the first `nc` of the new basis, are copied to the
user's array, and the candidates are the combinations from `nc` on. -/
theorem C60_restart_soft {M : ℕ} (hM : 0 < M) (P : ℕ) (rows : ℕ → ℕ) (A B : (ℕ → ℕ → F) →ₗ[F] (ℕ → ℕ → F))
    (hA : C60_Matrix rows A) (hB : C60_Matrix rows B) (hasBV explicit : Bool) (b : ℕ) (h : ℕ → ℕ → F) (hVals : ℕ → F)
    (rs nc n q : ℕ) (hnc : nc ≤ rs) (junk : ℕ → ℕ → F) (mem : ℕ → Store F) (err : ℝ) (VtBV : ℕ → ℕ → F)
    (hprod : C60_Products rows A B hasBV b mem) (u : AuxRes F)
    (hu : u = auxUpdate M P rows (softArgs hasBV explicit b h hVals rs nc n q) junk mem err q VtBV) :
    (∀ c < rs, Same rows (C60_col u.toRes.mem .V c) (comb b (C60_col mem .V) fun k => h k c)) ∧
    C60_Products rows A B hasBV rs u.toRes.mem ∧
    (∀ j < nc, Same rows (C60_col u.toRes.mem .evecs (q + j)) (C60_col u.toRes.mem .V j) ∧
      (hasBV = true → Same rows (C60_col u.toRes.mem .Bevecs (q + j)) (B (C60_col u.toRes.mem .evecs (q + j))))) ∧
    (∀ j < n, Same rows (C60_col u.toRes.mem .V (rs + j)) (comb b (C60_col mem .V) fun k => h k (nc + j)) ∧
      Same rows (C60_col u.toRes.mem .W (rs + j))
        (C60_true A B (hVals (nc + j)) (C60_col u.toRes.mem .V (rs + j))) ∧
      (hasBV = true → Same rows (C60_col u.toRes.mem .BV (rs + j))
        (B (C60_col u.toRes.mem .V (rs + j)))) ∧
      u.toRes.Rn j = Spec.Pract.norm P rows
        (C60_true A B (hVals (nc + j)) (C60_col u.toRes.mem .V (rs + j)))) := by
  subst hu
  have hpl := C60_placed_soft hasBV explicit b h hVals rs nc n q
  obtain ⟨hX, hW, hBX, hR, hRn, -, -, -, -, -⟩ := C60_update hM P rows hpl junk mem
  have hV0 := hX (softArgs hasBV explicit b h hVals rs nc n q).X0 (by simp) .V 0 rfl
  have hV1 := hX (softArgs hasBV explicit b h hVals rs nc n q).X1 (by simp) .V rs rfl
  have hV2 := hX (softArgs hasBV explicit b h hVals rs nc n q).X2 (by simp) .evecs q rfl
  have hW0 := hW .W 0 rfl
  have hR0 := hR .W rs rfl
  have hres := fun j {x : ℕ → ℕ → F} => residual_true (a := softArgs hasBV explicit b h hVals rs nc n q) (mem := mem)
    hA hB hprod j (x := x)
  have hBV : ∀ o ∈ [(softArgs hasBV explicit b h hVals rs nc n q).BX0,
      (softArgs hasBV explicit b h hVals rs nc n q).BX1, (softArgs hasBV explicit b h hVals rs nc n q).BX2],
      ∀ arr c, o.loc = some (arr, c) → ∀ j, o.b ≤ j → j < o.e → ∀ {x : ℕ → ℕ → F},
      Same rows x (comb b (C60_col mem .V) fun k => h k j) → hasBV = true →
      Same rows (C60_col (update M P rows (softArgs hasBV explicit b h hVals rs nc n q) junk mem).mem arr
        (c + (j - o.b))) (B x) := by
    intro o ho arr c hl j h1 h2 x hx hb
    refine Same.trans (hBX o ho arr c hl j h1 h2) ?_
    exact Same.trans (comb_map (hprod.BV hb) _) (Same.symm (hB.same _ _ hx))
  set m' := (update M P rows (softArgs hasBV explicit b h hVals rs nc n q) junk mem).mem with hm'
  have e0 : ∀ c < rs, Same rows (C60_col m' .V c) (comb b (C60_col mem .V) fun k => h k c) := by
    intro c hc
    have := hV0 c (Nat.zero_le _) hc
    rwa [show 0 + (c - (softArgs hasBV explicit b h hVals rs nc n q).X0.b) = c by
      show 0 + (c - 0) = c; omega] at this
  refine ⟨e0, ⟨?_, ?_, hprod.noB⟩, ?_, ?_⟩
  · intro c hc
    have := hW0 c (Nat.zero_le _) hc
    rw [show 0 + (c - (softArgs hasBV explicit b h hVals rs nc n q).Wo.b) = c by
      show 0 + (c - 0) = c; omega] at this
    exact Same.trans this (Same.trans (comb_map hprod.W _) (Same.symm (hA.same _ _ (e0 c hc))))
  · intro hb c hc
    subst hb
    have := hBV _ (List.mem_cons_self) .BV 0 rfl c (Nat.zero_le _) hc (e0 c hc) rfl
    rwa [show 0 + (c - (softArgs true explicit b h hVals rs nc n q).BX0.b) = c by
      show 0 + (c - 0) = c; omega] at this
  · intro j hj
    have e2 : Same rows (C60_col m' .evecs (q + j)) (comb b (C60_col mem .V) fun k => h k j) := hV2 j (Nat.zero_le _) hj
    refine ⟨Same.trans e2 (Same.symm (e0 j (by omega))), ?_⟩
    intro hb
    subst hb
    exact hBV (softArgs true explicit b h hVals rs nc n q).BX2 (by simp) .Bevecs q rfl j (Nat.zero_le _) hj e2 rfl
  · intro j hj
    have hj2 : nc + j < nc + n := by omega
    have hidx : nc + j - nc = j := by omega
    have e1 : Same rows (C60_col m' .V (rs + j)) (comb b (C60_col mem .V) fun k => h k (nc + j)) := by
      have := hV1 (nc + j) (Nat.le_add_right _ _) hj2
      rwa [show nc + j - (softArgs hasBV explicit b h hVals rs nc n q).X1.b = j from hidx] at this
    refine ⟨e1, ?_, ?_, ?_⟩
    · have := hR0 (nc + j) (Nat.le_add_right _ _) hj2
      rw [show nc + j - (softArgs hasBV explicit b h hVals rs nc n q).R.b = j from hidx] at this
      exact Same.trans this (hres (nc + j) e1)
    · intro hb
      subst hb
      have := hBV (softArgs true explicit b h hVals rs nc n q).BX1 (by simp) .BV rs rfl (nc + j) (Nat.le_add_right _ _) hj2
        e1 rfl
      rwa [show nc + j - (softArgs true explicit b h hVals rs nc n q).BX1.b = j from hidx] at this
    · have := (hRn rfl rfl (nc + j) (Nat.le_add_right _ _) hj2).trans (norm_same (hres (nc + j) e1))
      rwa [show nc + j - (softArgs hasBV explicit b h hVals rs nc n q).R.b = j from hidx] at this

/-- **Candidates.**  Those chosen next to the basis are the combinations, with their residual vectors; the norms recorded, with
these vectors or without them, are those of the residuals. -/
theorem C60_candidates {M : ℕ} (hM : 0 < M) (P : ℕ) (rows : ℕ → ℕ) (A B : (ℕ → ℕ → F) →ₗ[F] (ℕ → ℕ → F))
    (hA : C60_Matrix rows A) (hB : C60_Matrix rows B) (hasBV : Bool) (b : ℕ) (h : ℕ → ℕ → F) (hVals : ℕ → F)
    (d n : ℕ) (junk : ℕ → ℕ → F) (mem : ℕ → Store F) (hprod : C60_Products rows A B hasBV b mem) (u v : Res F)
    (hu : u = update M P rows (candArgs hasBV true b h hVals d n) junk mem)
    (hv : v = update M P rows (candArgs hasBV false b h hVals d n) junk mem) :
    (∀ j < n, Same rows (C60_col u.mem .V (b + d + j)) (comb b (C60_col mem .V) fun k => h k j) ∧
      Same rows (C60_col u.mem .W (b + d + j)) (C60_true A B (hVals j) (C60_col u.mem .V (b + d + j))) ∧
      (hasBV = true → Same rows (C60_col u.mem .BV (b + d + j)) (B (C60_col u.mem .V (b + d + j))) ∧
        u.xn j = Spec.Pract.norm P rows (C60_col u.mem .V (b + d + j))) ∧
      u.Rn j = Spec.Pract.norm P rows (C60_true A B (hVals j) (C60_col u.mem .V (b + d + j))) ∧ v.rn j = u.Rn j) ∧
    C60_Products rows A B hasBV b u.mem ∧ (∀ k < b, ∀ p i, u.mem p .V k i = mem p .V k i) ∧
    (∀ p arr k i, v.mem p arr k i = mem p arr k i) := by
  subst hu hv
  obtain ⟨hX, -, hBX, hR, hRn, -, hxn, -, -, hsame⟩ :=
    C60_update hM P rows (C60_placed_cand hasBV true b h hVals d n) junk mem
  obtain ⟨-, -, -, -, -, hrn, -, -, -, hsame'⟩ :=
    C60_update hM P rows (C60_placed_cand hasBV false b h hVals d n) junk mem
  have hV0 := hX (candArgs hasBV true b h hVals d n).X0 (by simp) .V (b + d) rfl
  have hR0 := hR .W (b + d) rfl
  have hres := fun j {x : ℕ → ℕ → F} => residual_true (a := candArgs hasBV true b h hVals d n) (mem := mem)
    hA hB hprod j (x := x)
  have hold : ∀ arr k, k < b → ∀ p i, (update M P rows (candArgs hasBV true b h hVals d n) junk mem).mem p arr k i =
      mem p arr k i := by
    intro arr k hk p i
    refine hsame p arr k i (.inr ?_)
    intro o ho c hl
    left
    simp only [candArgs, List.mem_cons, List.not_mem_nil, or_false] at ho
    cases hasBV <;> rcases ho with rfl | rfl | rfl | rfl | rfl | rfl | rfl | rfl <;>
      simp [Out.no] at hl <;> omega
  refine ⟨?_, ⟨?_, ?_, hprod.noB⟩, hold .V, ?_⟩
  · intro j hj
    have e1 := hV0 j (Nat.zero_le _) hj
    refine ⟨e1, Same.trans (hR0 j (Nat.zero_le _) hj) (hres j e1), ?_,
      (hRn rfl rfl j (Nat.zero_le _) hj).trans (norm_same (hres j e1)), ?_⟩
    · intro hb
      subst hb
      refine ⟨Same.trans (hBX (candArgs true true b h hVals d n).BX0 (by simp) .BV (b + d) rfl j (Nat.zero_le _) hj)
        (Same.trans (comb_map (hprod.BV rfl) _) (Same.symm (hB.same _ _ e1))), ?_⟩
      exact (hxn rfl j (Nat.zero_le _) hj).trans (norm_same (Same.symm e1))
    · exact (hrn rfl j (Nat.zero_le _) hj).trans (hRn rfl rfl j (Nat.zero_le _) hj).symm
  · intro k hk p i hi
    have hVk : Same rows (C60_col (update M P rows (candArgs hasBV true b h hVals d n) junk mem).mem .V k)
        (C60_col mem .V k) := fun p i _ => hold .V k hk p i
    exact (hold .W k hk p i).trans ((hprod.W k hk p i hi).trans (hA.same _ _ hVk p i hi).symm)
  · intro hb k hk p i hi
    have hVk : Same rows (C60_col (update M P rows (candArgs hasBV true b h hVals d n) junk mem).mem .V k)
        (C60_col mem .V k) := fun p i _ => hold .V k hk p i
    exact (hold .BV k hk p i).trans ((hprod.BV hb k hk p i hi).trans (hB.same _ _ hVk p i hi).symm)
  · intro p arr k i
    refine hsame' p arr k i (.inr ?_)
    intro o ho c hl
    simp only [candArgs, List.mem_cons, List.not_mem_nil, or_false] at ho
    rcases ho with rfl | rfl | rfl | rfl | rfl | rfl | rfl | rfl <;> simp [Out.no] at hl

/-- **The last candidates.**  The vectors copied to the user's array have the norms recorded, and the vectors already there
stay. -/
theorem C60_last {M : ℕ} (hM : 0 < M) (P : ℕ) (rows : ℕ → ℕ) (A B : (ℕ → ℕ → F) →ₗ[F] (ℕ → ℕ → F))
    (hA : C60_Matrix rows A) (hB : C60_Matrix rows B) (hasBV : Bool) (b : ℕ) (h : ℕ → ℕ → F) (hVals : ℕ → F)
    (q n : ℕ) (junk : ℕ → ℕ → F) (mem : ℕ → Store F) (hprod : C60_Products rows A B hasBV b mem) (u : Res F)
    (hu : u = update M P rows (copyArgs hasBV b h hVals q n) junk mem) :
    (∀ j < n, Same rows (C60_col u.mem .evecs (q + j)) (comb b (C60_col mem .V) fun k => h k j) ∧
      u.rn j = Spec.Pract.norm P rows (C60_true A B (hVals j) (C60_col u.mem .evecs (q + j)))) ∧
    (∀ k < q, ∀ p i, u.mem p .evecs k i = mem p .evecs k i) := by
  subst hu
  obtain ⟨hX, -, -, -, -, hrn, -, -, -, hsame⟩ := C60_update hM P rows (C60_placed_copy hasBV b h hVals q n) junk mem
  have hV0 := hX (copyArgs hasBV b h hVals q n).X0 (by simp) .evecs q rfl
  constructor
  · intro j hj
    have e1 := hV0 j (Nat.zero_le _) hj
    exact ⟨e1, (hrn rfl j (Nat.zero_le _) hj).trans (norm_same (residual_true (a := copyArgs hasBV b h hVals q n) hA hB hprod j e1))⟩
  · intro k hk p i
    refine hsame p .evecs k i (.inr ?_)
    intro o ho c hl
    simp only [copyArgs, List.mem_cons, List.not_mem_nil, or_false] at ho
    rcases ho with rfl | rfl | rfl | rfl | rfl | rfl | rfl | rfl <;> simp [Out.no] at hl
    omega

private theorem ip_same {P : ℕ} {rows : ℕ → ℕ} {u u' v v' : ℕ → ℕ → F} (h1 : Same rows u u') (h2 : Same rows v v') :
    Spec.Pract.ip P rows u v = Spec.Pract.ip P rows u' v' := by
  unfold Spec.Pract.ip
  refine Finset.sum_congr rfl fun p _ => Finset.sum_congr rfl fun i hi => ?_
  rw [h1 p i (Finset.mem_range.1 hi), h2 p i (Finset.mem_range.1 hi)]

private theorem ip_comb (P : ℕ) (rows : ℕ → ℕ) (u : ℕ → ℕ → F) (n : ℕ) (v : ℕ → ℕ → ℕ → F) (h : ℕ → F) :
    Spec.Pract.ip P rows u (comb n v h) = ∑ l ∈ Finset.range n, Spec.Pract.ip P rows u (v l) * h l := by
  unfold Spec.Pract.ip comb
  simp only [Finset.mul_sum, Finset.sum_mul]
  rw [Finset.sum_comm (s := Finset.range n)]
  refine Finset.sum_congr rfl fun p _ => ?_
  rw [Finset.sum_comm (s := Finset.range n)]
  exact Finset.sum_congr rfl fun i _ => Finset.sum_congr rfl fun l _ => by ring

/-- **The matrices of products** kept with `primme_orth_explicit_I` are those of the new vectors: among themselves (`VtBV`
and `H`), and with the constraints and locked vectors `e`. -/
theorem C60_explicit {M : ℕ} (hM : 0 < M) (P : ℕ) (rows : ℕ → ℕ) (A B : (ℕ → ℕ → F) →ₗ[F] (ℕ → ℕ → F))
    (hA : C60_Matrix rows A) (hB : C60_Matrix rows B) (hasBV : Bool) (b : ℕ) (h : ℕ → ℕ → F) (hVals : ℕ → F)
    (left packed n q : ℕ) (junk : ℕ → ℕ → F) (mem : ℕ → Store F) (err : ℝ)
    (VtBV : ℕ → ℕ → F) (e : ℕ → ℕ → ℕ → F) (hprod : C60_Products rows A B hasBV b mem)
    (hG : ∀ i < q, ∀ l < b, VtBV i (q + l) = Spec.Pract.ip P rows (e i) (B (C60_col mem .V l)))
    (u : AuxRes F) (hu : u = auxUpdate M P rows (lockArgs hasBV true b h hVals left packed n q) junk mem err q VtBV) :
    (∀ i < left + packed, ∀ j < left + packed,
      u.VtBV (q + i) (q + j) = Spec.Pract.ip P rows (C60_col u.toRes.mem .V i) (B (C60_col u.toRes.mem .V j)) ∧
      u.toRes.H i j = Spec.Pract.ip P rows (C60_col u.toRes.mem .V i) (A (C60_col u.toRes.mem .V j))) ∧
    (∀ i < q, ∀ j < left + packed,
      u.VtBV i (q + j) = Spec.Pract.ip P rows (e i) (B (C60_col u.toRes.mem .V j))) ∧
    (∀ i < q, ∀ j < q, u.VtBV i j = VtBV i j) := by
  obtain ⟨e0, -, -, -⟩ := C60_restart_locking hM P rows A B hA hB hasBV true b h hVals left packed n q junk mem err VtBV
    hprod u hu
  subst hu
  obtain ⟨-, -, -, -, -, -, -, hGG, hHH, -⟩ :=
    C60_update hM P rows (C60_placed_lock hasBV true b h hVals left packed n q) junk mem
  have hBx : ∀ j < left + packed, Same rows
      (comb b (C60_col mem (if hasBV then .BV else .V)) fun k => h k j)
      (B (C60_col (auxUpdate M P rows (lockArgs hasBV true b h hVals left packed n q) junk mem err q VtBV).toRes.mem .V j)) := by
    intro j hj
    refine Same.trans (comb_map (A := B) ?_ _) (Same.symm (hB.same _ _ (e0 j hj)))
    intro k hk
    cases hasBV with
    | true => exact hprod.BV rfl k hk
    | false => intro p i hi; exact (hprod.noB rfl _ p i hi).symm
  refine ⟨?_, ?_, ?_⟩
  · intro i hi j hj
    constructor
    · have := hGG (left + packed) rfl i hi j hj
      refine Eq.trans ?_ (this.trans (ip_same (Same.symm (e0 i hi)) (hBx j hj)))
      show (if q + i < q ∧ _ then _ else (if q ≤ q + i ∧ q + i < q + (left + packed) ∧ q ≤ q + j ∧ q + j < q + (left + packed) then
        (update M P rows (lockArgs hasBV true b h hVals left packed n q) junk mem).G (q + i - q) (q + j - q) else _)) = _
      rw [if_neg (by omega), if_pos (by omega), Nat.add_sub_cancel_left, Nat.add_sub_cancel_left]
    · refine (hHH (left + packed) rfl i hi j hj).trans (ip_same (Same.symm (e0 i hi)) ?_)
      exact Same.trans (comb_map hprod.W _) (Same.symm (hA.same _ _ (e0 j hj)))
  · intro i hi j hj
    show (if i < q ∧ q ≤ q + j ∧ q + j < q + (left + packed - 0) then
      ∑ l ∈ Finset.range b, (if q ≤ i ∧ _ then _ else VtBV i (q + l)) * h l (q + j - q) else _) = _
    rw [if_pos (by omega), Nat.add_sub_cancel_left]
    refine Eq.trans ?_ (ip_same (fun _ _ _ => rfl) (Same.trans (comb_map (A := B) (v := C60_col mem .V) (w := fun l => B (C60_col mem .V l))
      (fun k hk p i hi => rfl) fun k => h k j) (Same.symm (hB.same _ _ (e0 j hj)))))
    rw [ip_comb]
    refine Finset.sum_congr rfl fun l hl => ?_
    rw [if_neg (by omega), hG i hi l (Finset.mem_range.1 hl)]
  · intro i hi j hj
    show (if i < q ∧ q ≤ j ∧ _ then _ else (if q ≤ i ∧ _ then _ else VtBV i j)) = _
    rw [if_neg (by omega), if_neg (by omega)]

/-- **Norms not trusted.**  The norm recorded for a candidate, behind the `d` chosen before, is that of its residual or the
estimate of its error when that is larger, provided that `d + j < n`: when no candidate was chosen before, always. -/
theorem C60_recorded_partial {M : ℕ} (hM : 0 < M) (P : ℕ) (rows : ℕ → ℕ) (A B : (ℕ → ℕ → F) →ₗ[F] (ℕ → ℕ → F))
    (hA : C60_Matrix rows A) (hB : C60_Matrix rows B) (hasBV : Bool) (b : ℕ) (h : ℕ → ℕ → F) (hVals : ℕ → F)
    (d n : ℕ) (junk : ℕ → ℕ → F) (mem : ℕ → Store F) (hprod : C60_Products rows A B hasBV b mem) (err : ℝ) (u v : Res F)
    (hu : u = update M P rows (candArgs hasBV true b h hVals d n) junk mem)
    (hv : v = update M P rows (candArgs hasBV false b h hVals d n) junk mem) (j : ℕ) (hj : d + j < n) :
    Comb.raise d n err (fun i => u.Rn (i - d)) (d + j) =
      max (Spec.Pract.norm P rows (C60_true A B (hVals j) (C60_col u.mem .V (b + d + j)))) err ∧
    Comb.raise d n err (fun i => v.rn (i - d)) (d + j) = Comb.raise d n err (fun i => u.Rn (i - d)) (d + j) := by
  obtain ⟨-, -, -, h4, h5⟩ := (C60_candidates hM P rows A B hA hB hasBV b h hVals d n junk mem hprod u v hu hv).1 j (by omega)
  unfold Comb.raise
  simp only [if_pos (show d ≤ d + j ∧ d + j < n from ⟨Nat.le_add_right _ _, hj⟩), Nat.add_sub_cancel_left]
  rw [h5, h4]
  exact ⟨rfl, rfl⟩

/-- When candidates were chosen before, the loop runs from `d` to `n`, not to `d + n`, and leaves norms below the estimate:
with one candidate chosen and one more to look at, the norm recorded is `0` although the estimate is `1`. -/
theorem C60_recorded_violated : ¬∀ (d n : ℕ) (err : ℝ) (norms : ℕ → ℝ) (i : ℕ), d ≤ i → i < d + n →
    Comb.raise d n err norms i = max (norms i) err := by
  intro h
  have := h 1 1 1 (fun _ => 0) 1 le_rfl (by norm_num)
  norm_num [Comb.raise] at this

private theorem estimates_succ (n : ℕ) (xn : ℕ → ℝ) (e : WithBot ℝ × WithBot ℝ) : estimates (n + 1) xn e =
    (max (estimates n xn e).1 ((1 / xn n : ℝ) : WithBot ℝ), max (estimates n xn e).2 ((xn n : ℝ) : WithBot ℝ)) := by
  unfold estimates
  rw [List.range_succ, List.foldl_append]
  rfl

/-- **Estimates of the norms of the mass matrix and of its inverse.**  They are the largest `1 / ‖x‖` and `‖x‖` of the
candidates seen.  For candidates with `(x, B x) = 1` these are the *square roots* of what the manual says, the largest
`(x, B x) / (x, x)` and the inverse of the smallest. -/
theorem C60_estimates_partial (P : ℕ) (rows : ℕ → ℕ) (n : ℕ) (x bx : ℕ → ℕ → ℕ → F) (xn : ℕ → ℝ)
    (hxn : ∀ j < n, xn j = Spec.Pract.norm P rows (x j)) (h1 : ∀ j < n, Spec.Pract.ip P rows (x j) (bx j) = 1)
    (e r : WithBot ℝ × WithBot ℝ) (hr : r = estimates n xn e) :
    (∀ j < n, ((xn j : ℝ) : WithBot ℝ) ≤ r.2 ∧ ((1 / xn j : ℝ) : WithBot ℝ) ≤ r.1 ∧
      (((1 / xn j) ^ 2 : ℝ) : F) = Spec.Pract.ip P rows (x j) (bx j) / Spec.Pract.ip P rows (x j) (x j) ∧
      (((xn j) ^ 2 : ℝ) : F) = Spec.Pract.ip P rows (x j) (x j) / Spec.Pract.ip P rows (x j) (bx j)) ∧
    (r.1 = e.1 ∨ ∃ j < n, r.1 = ((1 / xn j : ℝ) : WithBot ℝ)) ∧ (r.2 = e.2 ∨ ∃ j < n, r.2 = ((xn j : ℝ) : WithBot ℝ)) ∧
    e.1 ≤ r.1 ∧ e.2 ≤ r.2 := by
  subst hr
  have hip : ∀ v : ℕ → ℕ → F, Spec.Pract.ip P rows v v = (((Spec.Pract.norm P rows v) ^ 2 : ℝ) : F) := by
    intro v
    unfold Spec.Pract.ip Spec.Pract.norm
    rw [Real.sq_sqrt (Finset.sum_nonneg fun p _ => Finset.sum_nonneg fun i _ => sq_nonneg _)]
    push_cast
    exact Finset.sum_congr rfl fun p _ => Finset.sum_congr rfl fun i _ => RCLike.conj_mul _
  have main : ∀ m, (∀ j < m, ((xn j : ℝ) : WithBot ℝ) ≤ (estimates m xn e).2 ∧
      ((1 / xn j : ℝ) : WithBot ℝ) ≤ (estimates m xn e).1) ∧
      ((estimates m xn e).1 = e.1 ∨ ∃ j < m, (estimates m xn e).1 = ((1 / xn j : ℝ) : WithBot ℝ)) ∧
      ((estimates m xn e).2 = e.2 ∨ ∃ j < m, (estimates m xn e).2 = ((xn j : ℝ) : WithBot ℝ)) ∧
      e.1 ≤ (estimates m xn e).1 ∧ e.2 ≤ (estimates m xn e).2 := by
    intro m
    induction m with
    | zero => exact ⟨fun j hj => absurd hj (Nat.not_lt_zero _), .inl rfl, .inl rfl, le_rfl, le_rfl⟩
    | succ m ih =>
      obtain ⟨i1, i2, i3, i4, i5⟩ := ih
      rw [estimates_succ]
      refine ⟨?_, ?_, ?_, le_max_of_le_left i4, le_max_of_le_left i5⟩
      · intro j hj
        rcases Nat.lt_succ_iff_lt_or_eq.1 hj with h | h
        · exact ⟨le_max_of_le_left (i1 j h).1, le_max_of_le_left (i1 j h).2⟩
        · subst h
          exact ⟨le_max_right _ _, le_max_right _ _⟩
      · rcases max_choice (estimates m xn e).1 ((1 / xn m : ℝ) : WithBot ℝ) with h | h
        · simp only [h]
          exact i2.imp id fun ⟨j, hj, h⟩ => ⟨j, by omega, h⟩
        · simp only [h]
          exact .inr ⟨m, by omega, rfl⟩
      · rcases max_choice (estimates m xn e).2 ((xn m : ℝ) : WithBot ℝ) with h | h
        · simp only [h]
          exact i3.imp id fun ⟨j, hj, h⟩ => ⟨j, by omega, h⟩
        · simp only [h]
          exact .inr ⟨m, by omega, rfl⟩
  obtain ⟨m1, m2, m3, m4, m5⟩ := main n
  refine ⟨?_, m2, m3, m4, m5⟩
  intro j hj
  refine ⟨(m1 j hj).1, (m1 j hj).2, ?_, ?_⟩
  · rw [h1 j hj, hip, ← hxn j hj]
    push_cast
    rw [div_pow, one_pow]
  · rw [h1 j hj, hip, ← hxn j hj, div_one]

/-- The estimates are not what the manual says: with `B = 1/100`, the only candidate `x = 10` has `(x, B x) = 1` and
`(x, B x) / (x, x) = 1 / 100 = ‖B‖`, and the estimate of the norm of `B` is `1 / 10`. -/
theorem C60_estimates_violated : ∃ (x bx : ℕ → ℕ → ℝ) (B : ℝ),
    (∀ p i, bx p i = B * x p i) ∧ B = 1 / 100 ∧ Spec.Pract.ip 1 (fun _ => 1) x bx = 1 ∧
    Spec.Pract.ip 1 (fun _ => 1) x bx / Spec.Pract.ip 1 (fun _ => 1) x x = B ∧
    (estimates 1 (fun _ => Spec.Pract.norm 1 (fun _ => 1) x) (⊥, ⊥)).1 = ((1 / 10 : ℝ) : WithBot ℝ) := by
  refine ⟨fun _ _ => 10, fun _ _ => 1 / 10, 1 / 100, fun _ _ => by norm_num, rfl, ?_, ?_, ?_⟩
  · norm_num [Spec.Pract.ip]
  · norm_num [Spec.Pract.ip]
  · have : Spec.Pract.norm 1 (fun _ => 1) (fun _ _ => (10 : ℝ)) = 10 := by
      norm_num [Spec.Pract.norm]
      rw [show (100 : ℝ) = 10 ^ 2 by norm_num, Real.sqrt_sq (by norm_num)]
    rw [this]
    simp [estimates]

/-! ### The hypotheses are met -/

/-- `A = diag(1, 2)`, one row in each of two processes. -/
private def exA : (ℕ → ℕ → ℝ) →ₗ[ℝ] (ℕ → ℕ → ℝ) where
  toFun v p i := ((p : ℝ) + 1) * v p i
  map_add' u v := by funext p i; simp only [Pi.add_apply]; ring
  map_smul' c v := by funext p i; simp only [Pi.smul_apply, smul_eq_mul, RingHom.id_apply]; ring

private def exB : (ℕ → ℕ → ℝ) →ₗ[ℝ] (ℕ → ℕ → ℝ) := LinearMap.id

/-- The basis is the canonical one. -/
private def exMem : ℕ → Store ℝ := fun p a c i =>
  match a with
  | .V => if c = p then 1 else 0
  | .W => if c = p then (p : ℝ) + 1 else 0
  | _ => 0

private theorem exA_matrix : C60_Matrix (fun _ => 1) exA :=
  ⟨fun u v h p i hi => by show ((p : ℝ) + 1) * u p i = ((p : ℝ) + 1) * v p i; rw [h p i hi]⟩

private theorem exB_matrix : C60_Matrix (fun _ => 1) exB := ⟨fun _ _ h => h⟩

private theorem ex_products : C60_Products (fun _ => 1) exA exB false 2 exMem := by
  refine ⟨?_, fun h => (Bool.false_ne_true h).elim, fun _ v p i _ => rfl⟩
  intro k _ p i _
  show (if k = p then (p : ℝ) + 1 else 0) = ((p : ℝ) + 1) * (if k = p then 1 else 0)
  split_ifs <;> simp

/-- Restart with locking of two vectors with one row in each of two processes, in place: the first vector is kept, the second
is locked behind one vector locked before. -/
example : ∃ u : AuxRes ℝ,
    u = auxUpdate 1 2 (fun _ => 1) (lockArgs false false 2 (fun k j => if k = j then 3 / 5 else if k < j then -4 / 5 else 4 / 5)
      (fun _ => 1) 1 1 0 1) (fun _ _ => 7) exMem (1 / 100) 1 (fun _ _ => 0) ∧
    u.toRes.mem 0 .V 0 0 = 3 / 5 ∧ u.toRes.mem 1 .V 0 0 = 4 / 5 ∧ u.toRes.mem 0 .evecs 1 0 = -4 / 5 ∧
    u.toRes.mem 1 .evecs 1 0 = 3 / 5 ∧ u.toRes.mem 1 .W 0 0 = 8 / 5 := by
  refine ⟨_, rfl, ?_⟩
  obtain ⟨h1, h2, h3, -⟩ := C60_restart_locking (M := 1) (by norm_num) 2 (fun _ => 1) exA exB exA_matrix exB_matrix false false 2
    (fun k j => if k = j then (3 / 5 : ℝ) else if k < j then -4 / 5 else 4 / 5) (fun _ => 1) 1 1 0 1 (fun _ _ => 7) exMem
    (1 / 100) (fun _ _ => 0) ex_products _ rfl
  have e0 := h1 0 (by norm_num) 0 0 (by norm_num)
  have e1 := h1 0 (by norm_num) 1 0 (by norm_num)
  have f0 := (h3 1 le_rfl (by norm_num)).1 0 0 (by norm_num)
  have f1 := (h3 1 le_rfl (by norm_num)).1 1 0 (by norm_num)
  have g0 := h1 1 (by norm_num) 0 0 (by norm_num)
  have g1 := h1 1 (by norm_num) 1 0 (by norm_num)
  have w := h2.W 0 (by norm_num) 1 0 (by norm_num)
  refine ⟨e0.trans ?_, e1.trans ?_, (f0.trans g0).trans ?_, (f1.trans g1).trans ?_, w.trans ?_⟩
  · simp [comb, Finset.sum_range_succ, C60_col, exMem]
  · simp [comb, Finset.sum_range_succ, C60_col, exMem]
  · simp [comb, Finset.sum_range_succ, C60_col, exMem]
  · simp [comb, Finset.sum_range_succ, C60_col, exMem]
  · refine Eq.trans (b := (((1 : ℕ) : ℝ) + 1) * _) rfl ?_
    rw [e1]
    simp [comb, Finset.sum_range_succ, C60_col, exMem]
    norm_num

end Verif.Props
