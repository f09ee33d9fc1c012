import Verif.Model.Combine
import Verif.Spec.Combine
import Verif.Proofs.PractProj

/-! Lemmas about the model of `Num_update_VWXR`. -/

open scoped ComplexConjugate

namespace Verif.Comb
open Verif.Pract

variable {F : Type} [RCLike F]

private theorem fold_columns (l : List (Bool × ℕ × ℕ)) : ∀ r : ℕ × ℕ,
    (l.foldl (fun r x => if x.1 && x.2.1 < x.2.2 then (min r.1 x.2.1, max r.2 x.2.2) else r) r).1 ≤ r.1 ∧
    r.2 ≤ (l.foldl (fun r x => if x.1 && x.2.1 < x.2.2 then (min r.1 x.2.1, max r.2 x.2.2) else r) r).2 ∧
    ∀ x ∈ l, x.1 = true → x.2.1 < x.2.2 →
      (l.foldl (fun r x => if x.1 && x.2.1 < x.2.2 then (min r.1 x.2.1, max r.2 x.2.2) else r) r).1 ≤ x.2.1 ∧
      x.2.2 ≤ (l.foldl (fun r x => if x.1 && x.2.1 < x.2.2 then (min r.1 x.2.1, max r.2 x.2.2) else r) r).2 := by
  induction l with
  | nil => intro r; simp
  | cons y l ih =>
    intro r
    rw [List.foldl_cons]
    obtain ⟨h1, h2, h3⟩ := ih (if y.1 && y.2.1 < y.2.2 then (min r.1 y.2.1, max r.2 y.2.2) else r)
    refine ⟨?_, ?_, ?_⟩
    · refine h1.trans ?_
      split
      · exact min_le_left _ _
      · exact le_refl _
    · refine le_trans ?_ h2
      split
      · exact le_max_left _ _
      · exact le_refl _
    · intro x hx ht hlt
      rcases List.mem_cons.1 hx with rfl | hx
      · have hc : (x.1 && decide (x.2.1 < x.2.2)) = true := by simp [ht, hlt]
        rw [if_pos hc] at h1 h2 ⊢
        exact ⟨h1.trans (min_le_right _ _), (le_max_right _ _).trans h2⟩
      · exact h3 x hx ht hlt

/-- The workspace has the columns of every wanted range. -/
theorem columns_covers {l : List (Bool × ℕ × ℕ)} {b e : ℕ} (h : (true, b, e) ∈ l) {j : ℕ} (h1 : b ≤ j) (h2 : j < e) :
    (columns l).1 ≤ j ∧ j < (columns l).2 := by
  obtain ⟨a1, a2⟩ := (fold_columns l (intMax, 0)).2.2 _ h rfl (by dsimp only; omega)
  unfold columns
  dsimp only at a1 a2 ⊢
  refine ⟨by omega, ?_⟩
  rw [lt_max_iff]
  left
  omega

/-- A range from zero on makes the workspace begin with column zero. -/
theorem columns_zero {l : List (Bool × ℕ × ℕ)} {e : ℕ} (h : (true, 0, e) ∈ l) (he : 0 < e) : (columns l).1 = 0 := by
  have := (columns_covers h (le_refl 0) he).1
  omega

theorem work_in {c : ℕ × ℕ} {junk f : ℕ → ℕ → F} {j r : ℕ} (h : c.1 ≤ j ∧ j < c.2) : work c junk f j r = f j r := by
  unfold work; rw [if_pos h]

theorem residual_eq {M m : ℕ} (hM : 0 < M) (ev : F) (Bx Ax r0 : ℕ → F) {r : ℕ} (hr : r < m) :
    residual M m ev Bx Ax r0 r = Ax r - ev * Bx r := by
  have := turns_inv (mQ := m) hM (fun (r : ℕ → F) (b : ℕ × ℕ) i => if b.1 ≤ i ∧ i < b.1 + b.2 then Ax i + -ev * Bx i else r i)
    (fun i (s : ℕ → F) => ∀ r < i, s r = Ax r - ev * Bx r) ?_ r0 (by intro r hr; omega)
  · exact this r hr
  · intro i m' s _ h r hr
    dsimp only
    split
    · ring
    · exact h r (by omega)

theorem square_eq (m : ℕ) (x : ℕ → F) : square m x = ∑ r ∈ Finset.range m, ‖x r‖ ^ 2 := by
  unfold square
  refine Finset.sum_congr rfl fun r _ => ?_
  rw [RCLike.conj_mul]
  norm_cast

theorem square_congr {m : ℕ} {x y : ℕ → F} (h : ∀ r < m, x r = y r) : square m x = square m y := by
  unfold square
  exact Finset.sum_congr rfl fun r hr => by rw [h r (Finset.mem_range.1 hr)]

/-- A block of rows of an output is a block of rows of the whole output. -/
theorem put_block {o : Out} {i m mV : ℕ} {src S : ℕ → ℕ → F} {A B C : Store F} (hm : i + m ≤ mV)
    (hs : o.loc.isSome = true → ∀ j, o.b ≤ j → j < o.e → ∀ r < m, src j r = S j (i + r))
    (h : ∀ arr col r, A arr col r = if i ≤ r ∧ r < i + m then B arr col r else C arr col r) :
    ∀ arr col r, put o i m src A arr col r = if i ≤ r ∧ r < i + m then put o 0 mV S B arr col r else C arr col r := by
  intro arr col r
  unfold put
  cases hl : o.loc with
  | none => simpa using h arr col r
  | some l =>
    dsimp only
    by_cases hr : i ≤ r ∧ r < i + m
    · rw [if_pos hr]
      by_cases hc : arr = l.1 ∧ l.2 ≤ col ∧ col < l.2 + (o.e - o.b)
      · rw [if_pos ⟨hc.1, hc.2.1, hc.2.2, hr⟩, if_pos ⟨hc.1, hc.2.1, hc.2.2, Nat.zero_le _, by omega⟩,
          hs (by simp [hl]) _ (by omega) (by omega) _ (by omega)]
        congr 1
        omega
      · rw [if_neg (fun hh => hc ⟨hh.1, hh.2.1, hh.2.2.1⟩), if_neg (fun hh => hc ⟨hh.1, hh.2.1, hh.2.2.1⟩), h, if_pos hr]
    · rw [if_neg (fun hh => hr hh.2.2.2), if_neg hr, h, if_neg hr]

/-- An output does not touch the other arrays. -/
theorem put_other {o : Out} {i m : ℕ} {src : ℕ → ℕ → F} {A : Store F} {arr : Arr} (h : ∀ c, o.loc ≠ some (arr, c))
    (col r : ℕ) : put o i m src A arr col r = A arr col r := by
  unfold put
  cases hl : o.loc with
  | none => rfl
  | some l =>
    dsimp only
    rw [if_neg]
    rintro ⟨rfl, -⟩
    exact h l.2 (by rw [hl])

/-- What an output leaves. -/
theorem put_in {o : Out} {mV : ℕ} {S : ℕ → ℕ → F} {A : Store F} {arr : Arr} {c : ℕ} (hl : o.loc = some (arr, c)) {j r : ℕ}
    (h1 : o.b ≤ j) (h2 : j < o.e) (hr : r < mV) : put o 0 mV S A arr (c + (j - o.b)) r = S j r := by
  unfold put
  rw [hl]
  dsimp only
  rw [if_pos ⟨rfl, by omega, by omega, Nat.zero_le _, by omega⟩]
  congr 1
  omega

/-- Outputs that do not overlap. -/
def Apart (o o' : Out) : Prop := ∀ a c c', o.loc = some (a, c) → o'.loc = some (a, c') →
  c + (o.e - o.b) ≤ c' ∨ c' + (o'.e - o'.b) ≤ c

theorem put_apart {o o' : Out} (h : Apart o o') {i m : ℕ} {S : ℕ → ℕ → F} {A : Store F} {arr : Arr} {c : ℕ}
    (hl : o.loc = some (arr, c)) {j r : ℕ} (h1 : o.b ≤ j) (h2 : j < o.e) :
    put o' i m S A arr (c + (j - o.b)) r = A arr (c + (j - o.b)) r := by
  unfold put
  cases hl' : o'.loc with
  | none => rfl
  | some l =>
    dsimp only
    rw [if_neg]
    rintro ⟨rfl, h3, h4, -⟩
    have := h l.1 c l.2 hl (by rw [hl'])
    omega

/-- Where the outputs are: those of the first kind are not written over `W` and `BV` before these are read, the outputs do not
overlap, and products with the mass matrix are wanted only if `BV` is given. -/
structure Placed (a : Args F) : Prop where
  notW : ∀ o ∈ [a.X0, a.X1, a.X2], ∀ c, o.loc ≠ some (.W, c)
  notBV : a.hasBV = true → ∀ o ∈ [a.X0, a.X1, a.X2, a.Wo], ∀ c, o.loc ≠ some (.BV, c)
  apart : [a.X0, a.X1, a.X2, a.Wo, a.BX0, a.BX1, a.BX2, a.R].Pairwise Apart
  needBV : a.hasBV = false → ∀ o ∈ [a.BX0, a.BX1, a.BX2], o.loc = none

/-- Column `j` of `V*h`, and of the products. -/
def vh (a : Args F) (mem : Store F) (arr : Arr) (j r : ℕ) : F := ∑ k ∈ Finset.range a.nV, mem arr k r * a.h k j

/-- The residual of column `j`. -/
def res (a : Args F) (mem : Store F) (j r : ℕ) : F :=
  vh a mem .W j r - a.hVals j * vh a mem (if a.hasBV then .BV else .V) j r

/-- The arrays after the call. -/
def final (mV : ℕ) (a : Args F) (mem : Store F) : Store F :=
  put a.R 0 mV (res a mem) (put a.BX2 0 mV (vh a mem .BV) (put a.BX1 0 mV (vh a mem .BV) (put a.BX0 0 mV (vh a mem .BV)
    (put a.Wo 0 mV (vh a mem .W) (put a.X2 0 mV (vh a mem .V) (put a.X1 0 mV (vh a mem .V) (put a.X0 0 mV (vh a mem .V) mem)))))))

/-- What a process has after the first `i` rows. -/
structure Inv (mV : ℕ) (a : Args F) (mem : Store F) (i : ℕ) (s : St F) : Prop where
  arrays : ∀ arr col r, s.mem arr col r = if r < i then final mV a mem arr col r else mem arr col r
  Rn : a.R.loc.isSome = true → a.Rnorms = true → ∀ c < a.R.e - a.R.b,
    s.Rn c = ∑ r ∈ Finset.range i, ‖res a mem (a.R.b + c) r‖ ^ 2
  rn : a.rnorms = true → ∀ c < a.nre - a.nrb, s.rn c = ∑ r ∈ Finset.range i, ‖res a mem (a.nrb + c) r‖ ^ 2
  xn : a.xnorms = true → ∀ c < a.nxe - a.nxb, s.xn c = ∑ r ∈ Finset.range i, ‖vh a mem .V (a.nxb + c) r‖ ^ 2
  G : ∀ n, a.G = some n → ∀ p < n, ∀ q < n,
    s.G p q = ∑ r ∈ Finset.range i, conj (vh a mem .V p r) * vh a mem (if a.hasBV then .BV else .V) q r
  H : ∀ n, a.H = some n → ∀ p < n, ∀ q < n, s.H p q = ∑ r ∈ Finset.range i, conj (vh a mem .V p r) * vh a mem .W q r

theorem step_inv {M mV : ℕ} (hM : 0 < M) {a : Args F} (hp : Placed a) (junk : ℕ → ℕ → F) (mem : Store F) (i m : ℕ)
    (s : St F) (hm : i + m ≤ mV) (h : Inv mV a mem i s) : Inv mV a mem (i + m) (step M a junk s (i, m)) := by
  have hx : ∀ j, (columnsX a).1 ≤ j ∧ j < (columnsX a).2 → ∀ r < m,
      work (columnsX a) junk (fun j r => ∑ k ∈ Finset.range a.nV, s.mem .V k (i + r) * a.h k j) j r =
        vh a mem .V j (i + r) := by
    intro j hj r _
    rw [work_in hj]
    unfold vh
    refine Finset.sum_congr rfl fun k _ => ?_
    rw [h.arrays, if_neg (by omega)]
  set X := work (columnsX a) junk (fun j r => ∑ k ∈ Finset.range a.nV, s.mem .V k (i + r) * a.h k j) with hX
  have c0 : ∀ arr col r, s.mem arr col r = if i ≤ r ∧ r < i + m then mem arr col r else s.mem arr col r := by
    intro arr col r
    split
    · rw [h.arrays, if_neg (by omega)]
    · rfl
  have c1 := put_block hm (o := a.X0) (src := X) (S := vh a mem .V)
    (fun hs j h1 h2 => hx j (columns_covers (b := a.X0.b) (e := a.X0.e) (by simp [← hs]) h1 h2)) c0
  have c2 := put_block hm (o := a.X1) (src := X) (S := vh a mem .V)
    (fun hs j h1 h2 => hx j (columns_covers (b := a.X1.b) (e := a.X1.e) (by simp [← hs]) h1 h2)) c1
  have c3 := put_block hm (o := a.X2) (src := X) (S := vh a mem .V)
    (fun hs j h1 h2 => hx j (columns_covers (b := a.X2.b) (e := a.X2.e) (by simp [← hs]) h1 h2)) c2
  set mem1 := put a.X2 i m X (put a.X1 i m X (put a.X0 i m X s.mem)) with hmem1
  have hy : ∀ j, (columnsY a).1 ≤ j ∧ j < (columnsY a).2 → ∀ r < m,
      work (columnsY a) junk (fun j r => ∑ k ∈ Finset.range a.nV, mem1 .W k (i + r) * a.h k j) j r =
        vh a mem .W j (i + r) := by
    intro j hj r hr
    rw [work_in hj]
    unfold vh
    refine Finset.sum_congr rfl fun k _ => ?_
    rw [c3, if_pos (by omega), put_other (hp.notW _ (by simp)), put_other (hp.notW _ (by simp)), put_other (hp.notW _ (by simp))]
  set Y := work (columnsY a) junk (fun j r => ∑ k ∈ Finset.range a.nV, mem1 .W k (i + r) * a.h k j) with hY
  have c4 := put_block hm (o := a.Wo) (src := Y) (S := vh a mem .W)
    (fun hs j h1 h2 => hy j (columns_covers (b := a.Wo.b) (e := a.Wo.e) (by simp [← hs]) h1 h2)) c3
  set mem2 := put a.Wo i m Y mem1 with hmem2
  have hb : a.hasBV = true → ∀ j, (columnsBX a).1 ≤ j ∧ j < (columnsBX a).2 → ∀ r < m,
      (if a.hasBV then work (columnsBX a) junk (fun j r => ∑ k ∈ Finset.range a.nV, mem2 .BV k (i + r) * a.h k j)
        else junk) j r = vh a mem .BV j (i + r) := by
    intro hB j hj r hr
    rw [if_pos hB, work_in hj]
    unfold vh
    refine Finset.sum_congr rfl fun k _ => ?_
    rw [c4, if_pos (by omega), put_other (hp.notBV hB _ (by simp)), put_other (hp.notBV hB _ (by simp)),
      put_other (hp.notBV hB _ (by simp)), put_other (hp.notBV hB _ (by simp))]
  set BX := (if a.hasBV then work (columnsBX a) junk (fun j r => ∑ k ∈ Finset.range a.nV, mem2 .BV k (i + r) * a.h k j)
        else junk) with hBX
  have hBof : ∀ o ∈ [a.BX0, a.BX1, a.BX2], o.loc.isSome = true → a.hasBV = true := by
    intro o ho hs
    by_contra hne
    rw [hp.needBV (by simpa using hne) o ho] at hs
    simp at hs
  have c5 := put_block hm (o := a.BX0) (src := BX) (S := vh a mem .BV)
    (fun hs j h1 h2 => hb (hBof _ (by simp) hs) j (columns_covers (b := a.BX0.b) (e := a.BX0.e)
      (by simp [← hs, hBof _ (by simp) hs]) h1 h2)) c4
  have c6 := put_block hm (o := a.BX1) (src := BX) (S := vh a mem .BV)
    (fun hs j h1 h2 => hb (hBof _ (by simp) hs) j (columns_covers (b := a.BX1.b) (e := a.BX1.e)
      (by simp [← hs, hBof _ (by simp) hs]) h1 h2)) c5
  have c7 := put_block hm (o := a.BX2) (src := BX) (S := vh a mem .BV)
    (fun hs j h1 h2 => hb (hBof _ (by simp) hs) j (columns_covers (b := a.BX2.b) (e := a.BX2.e)
      (by simp [← hs, hBof _ (by simp) hs]) h1 h2)) c6
  -- the vectors the residuals are made of
  have hBx : ∀ b e, (true, b, e) ∈ [(a.R.loc.isSome, a.R.b, a.R.e), (a.G.isSome, 0, a.G.getD 0), (a.rnorms, a.nrb, a.nre)] →
      ∀ j, b ≤ j → j < e → ∀ r < m, (if a.hasBV then BX else X) j r = vh a mem (if a.hasBV then .BV else .V) j (i + r) := by
    intro b e hbe j h1 h2 r hr
    by_cases hB : a.hasBV = true
    · rw [if_pos hB, if_pos hB]
      refine hb hB j (columns_covers (b := b) (e := e) ?_ h1 h2) r hr
      rw [if_pos hB]
      simp only [List.mem_cons, List.not_mem_nil, or_false] at hbe ⊢
      tauto
    · rw [if_neg hB, if_neg hB]
      refine hx j (columns_covers (b := b) (e := e) ?_ h1 h2) r hr
      have hB' : a.hasBV = false := by simpa using hB
      simp only [hB', List.mem_cons, List.not_mem_nil, or_false, Bool.not_false, Bool.and_true] at hbe ⊢
      tauto
  have hYy : ∀ b e, (true, b, e) ∈ [(a.R.loc.isSome, a.R.b, a.R.e), (a.rnorms, a.nrb, a.nre)] →
      ∀ j, b ≤ j → j < e → ∀ r < m, Y j r = vh a mem .W j (i + r) := by
    intro b e hbe j h1 h2
    refine hy j (columns_covers (b := b) (e := e) ?_ h1 h2)
    simp only [List.mem_cons, List.not_mem_nil, or_false] at hbe ⊢
    tauto
  have hres : ∀ b e, (true, b, e) ∈ [(a.R.loc.isSome, a.R.b, a.R.e), (a.rnorms, a.nrb, a.nre)] →
      ∀ j, b ≤ j → j < e → ∀ r0 : ℕ → F, ∀ r < m,
        residual M m (a.hVals j) ((if a.hasBV then BX else X) j) (Y j) r0 r = res a mem j (i + r) := by
    intro b e hbe j h1 h2 r0 r hr
    rw [residual_eq hM _ _ _ _ hr, hYy b e hbe j h1 h2 r hr, hBx b e (by
      simp only [List.mem_cons, List.not_mem_nil, or_false] at hbe ⊢; tauto) j h1 h2 r hr]
    rfl
  have c8 := put_block hm (o := a.R) (S := res a mem)
    (src := fun j => residual M m (a.hVals j) ((if a.hasBV then BX else X) j) (Y j) (junk j))
    (fun hs j h1 h2 => hres a.R.b a.R.e (by simp [← hs]) j h1 h2 _) c7
  refine ⟨?_, ?_, ?_, ?_, ?_, ?_⟩
  · intro arr col r
    refine (c8 arr col r).trans ?_
    by_cases hr : r < i
    · rw [if_neg (by omega), if_pos (by omega), h.arrays, if_pos hr]
    · by_cases hr2 : r < i + m
      · rw [if_pos (by omega), if_pos hr2]
        rfl
      · rw [if_neg (by omega), if_neg hr2, h.arrays, if_neg hr]
  · intro hl hn c hc
    show (if a.R.loc.isSome && a.Rnorms then _ else _) = _
    rw [if_pos (by simp [hl, hn]), h.Rn hl hn c hc, Finset.sum_range_add]
    congr 1
    refine (square_congr (fun r hr => hres a.R.b a.R.e (by simp [← hl]) _ (by omega) (by omega) _ r hr)).trans (square_eq _ _)
  · intro hn c hc
    show (if a.rnorms then _ else _) = _
    rw [if_pos hn, h.rn hn c hc, Finset.sum_range_add]
    congr 1
    refine (square_congr (fun r hr => hres a.nrb a.nre (by simp [← hn]) _ (by omega) (by omega) _ r hr)).trans (square_eq _ _)
  · intro hn c hc
    show (if a.xnorms then _ else _) = _
    rw [if_pos hn, h.xn hn c hc, Finset.sum_range_add]
    congr 1
    refine (square_congr (fun r hr => hx _ (columns_covers (b := a.nxb) (e := a.nxe) (by simp [← hn]) (by omega) (by omega)) r hr)).trans
      (square_eq _ _)
  · intro n hn p hpn q hqn
    have hz : (columnsX a).1 = 0 := columns_zero (e := n) (by simp [hn]) (by omega)
    have hfirst : (if a.hasBV then (columnsBX a).1 else (columnsX a).1) = 0 := by
      by_cases hB : a.hasBV = true
      · rw [if_pos hB]
        exact columns_zero (e := n) (by simp [hn, hB]) (by omega)
      · rw [if_neg hB, hz]
    show (if a.G.isSome then (∑ r ∈ Finset.range m, conj (X ((columnsX a).1 + p) r) *
      (if a.hasBV then BX else X) ((if a.hasBV then (columnsBX a).1 else (columnsX a).1) + q) r) +
        (if i = 0 then (0 : F) else 1) * s.G p q else s.G p q) = _
    rw [if_pos (by simp [hn]), hfirst, hz, Finset.sum_range_add, h.G n hn p hpn q hqn, add_comm]
    congr 1
    · by_cases hi : i = 0
      · subst hi; simp
      · rw [if_neg hi, one_mul]
    · refine Finset.sum_congr rfl fun r hr => ?_
      have hr' := Finset.mem_range.1 hr
      rw [zero_add, zero_add, hBx 0 n (by simp [hn]) q (by omega) hqn r hr', hx p (columns_covers (b := 0) (e := n)
        (by simp [hn]) (by omega) hpn) r hr']
  · intro n hn p hpn q hqn
    have hz : (columnsX a).1 = 0 := columns_zero (e := n) (by simp [hn]) (by omega)
    have hzy : (columnsY a).1 = 0 := columns_zero (e := n) (by simp [hn]) (by omega)
    show (if a.H.isSome then (∑ r ∈ Finset.range m, conj (X ((columnsX a).1 + p) r) * Y ((columnsY a).1 + q) r) +
        (if i = 0 then (0 : F) else 1) * s.H p q else s.H p q) = _
    rw [if_pos (by simp [hn]), hz, hzy, Finset.sum_range_add, h.H n hn p hpn q hqn, add_comm]
    congr 1
    · by_cases hi : i = 0
      · subst hi; simp
      · rw [if_neg hi, one_mul]
    · refine Finset.sum_congr rfl fun r hr => ?_
      have hr' := Finset.mem_range.1 hr
      rw [zero_add, zero_add, hy q (columns_covers (b := 0) (e := n) (by simp [hn]) (by omega) hqn) r hr',
        hx p (columns_covers (b := 0) (e := n) (by simp [hn]) (by omega) hpn) r hr']

/-- A process after the call. -/
theorem local_inv {M mV : ℕ} (hM : 0 < M) {a : Args F} (hp : Placed a) (junk : ℕ → ℕ → F) (mem : Store F) :
    Inv mV a mem mV (local' M mV a junk mem) := by
  refine turns_inv (mQ := mV) hM _ (Inv mV a mem) (fun i m s hm h => step_inv hM hp junk mem i m s hm h) _ ?_
  constructor <;> intros <;> simp

end Verif.Comb
