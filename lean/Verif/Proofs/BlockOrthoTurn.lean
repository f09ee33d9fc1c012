import Verif.Proofs.BlockOrtho
import Mathlib.Algebra.Module.BigOperators

set_option linter.unusedSectionVars false
set_option linter.unusedSimpArgs false

/-! # Block orthogonalisation: what one turn of the loop does -/

namespace Verif.BlockOrtho
open Verif Finset

variable {K X : Type} [Field K] [LinearOrder K] [IsStrictOrderedRing K] [AddCommGroup X] [Module K X]

theorem basis_lt (p : Par K) (locked V : ℕ → X) {j : ℕ} (h : j < p.numLocked) : basis p locked V j = locked j :=
  if_pos h

theorem basis_add (p : Par K) (locked V : ℕ → X) (j : ℕ) : basis p locked V (p.numLocked + j) = V j := by
  rw [basis, if_neg (by omega), Nat.add_sub_cancel_left]

theorem basis_congr (p : Par K) (locked V V' : ℕ → X) (h : ∀ j < p.b1, V j = V' j) {j : ℕ} (hj : j < p.nVL) :
    basis p locked V j = basis p locked V' j := by
  unfold basis
  split_ifs with c
  · rfl
  · exact h _ (by unfold Par.nVL at hj; omega)

theorem project_eq (p : Par K) (locked : ℕ → X) (s : St K X) (c : ℕ) :
    project p locked s c = s.V (p.b1 + c) - ∑ j ∈ range p.nVL, s.a j c • basis p locked s.V j := by
  rw [project, Par.nVL, sum_range_add, sub_sub]
  congr 2
  · exact sum_congr rfl fun j hj => by rw [basis_lt p locked s.V (mem_range.1 hj)]
  · exact sum_congr rfl fun j _ => by rw [basis_add]

/-- Nothing to clear. -/
theorem overflow_none (p : Par K) (G : ℕ → ℕ → K) (n : ℕ) (h : ∀ i < n, G i (p.nVL + i) < p.top) :
    overflow p G n = G := by
  induction n with
  | zero => rfl
  | succ n ih =>
    rw [overflow, ih fun i hi => h i (by omega), overflow1, if_pos (h n (Nat.lt_succ_self n))]

/-- New columns against the old ones and among themselves: orthogonal, not longer than one, and those that are not
zero come first. -/
structure Orth (o : Kern K X) (k n : ℕ) (P Z : ℕ → X) : Prop where
  old : ∀ j < n, ∀ c < k, o.ip (P j) (Z c) = 0
  new : ∀ c < k, ∀ d < k, c ≠ d → o.ip (Z c) (Z d) = 0
  le : ∀ c < k, o.ip (Z c) (Z c) ≤ 1
  lead : ∃ m ≤ k, (∀ c < m, 0 < o.ip (Z c) (Z c)) ∧ ∀ c, m ≤ c → c < k → o.ip (Z c) (Z c) = 0

/-- State at the end of the first part of a turn. -/
structure Mid (o : Kern K X) (p : Par K) (locked : ℕ → X) (f : ℕ → ℕ → K) (s : St K X) : Prop where
  fac : ∀ i < p.nVL, ∀ j < p.nVL,
    ∑ l ∈ range p.nVL, up f l i * up f l j = o.ip (basis p locked s.V i) (basis p locked s.V j)
  diag : ∀ i < p.nVL, f i i ≠ 0
  gram : ∀ j < p.nVL + p.k, ∀ c < p.k, s.G j (p.nVL + c) = o.ip (basis p locked s.V j) (s.V (p.b1 + c))
  room : ∀ i < p.k, s.G i (p.nVL + i) < p.top

section
variable {o : Kern K X} (h : Contract o) {p : Par K} (he : 0 < p.eps) (hs : p.eps * (p.k : K) ≤ 1)
  {locked : ℕ → X} {f : ℕ → ℕ → K} {s : St K X} (hm : Mid o p locked f s)

section
include hm

theorem overflow_mid : overflow p s.G p.k = s.G := overflow_none p s.G p.k hm.room

theorem half_mid (c : ℕ) (hc : c < p.k) :
    half p f s.G c = fwd f (fun j => o.ip (basis p locked s.V j) (s.V (p.b1 + c))) p.nVL := by
  have aux : ∀ n ≤ p.nVL, fwd f (fun j => s.G j (p.nVL + c)) n =
      fwd f (fun j => o.ip (basis p locked s.V j) (s.V (p.b1 + c))) n := by
    intro n hn
    induction n with
    | zero => rfl
    | succ n ih =>
      funext i
      show (if i = n then _ else _) = if i = n then _ else _
      rw [ih (by omega)]
      simp only [hm.gram n (by omega) c hc]
  exact aux _ (Nat.le_refl _)

theorem project_reduce (c : ℕ) (hc : c < p.k) :
    project p locked (reduce o p f s) c = s.V (p.b1 + c) - ∑ j ∈ range p.nVL,
      back f p.nVL (fwd f (fun j => o.ip (basis p locked s.V j) (s.V (p.b1 + c))) p.nVL) j •
        basis p locked s.V j := by
  rw [project_eq]
  show s.V (p.b1 + c) - ∑ j ∈ range p.nVL,
    back f p.nVL (half p f (overflow p s.G p.k) c) j • basis p locked s.V j = _
  rw [overflow_mid hm, half_mid hm c hc]

include h in
theorem project_old (c : ℕ) (hc : c < p.k) (i : ℕ) (hi : i < p.nVL) :
    o.ip (basis p locked s.V i) (project p locked (reduce o p f s) c) = 0 := by
  rw [project_reduce hm c hc]
  exact solve_orth h p.nVL f _ _ hm.diag hm.fac i hi

include h in
theorem schur_mid (c : ℕ) (hc : c < p.k) (d : ℕ) (hd : d < p.k) :
    schur p f s.G c d =
      o.ip (project p locked (reduce o p f s) c) (project p locked (reduce o p f s) d) := by
  rw [project_reduce hm c hc, project_reduce hm d hd, solve_gram h p.nVL f _ _ _ hm.diag hm.fac, schur,
    hm.gram _ (by omega) d hd, half_mid hm c hc, half_mid hm d hd]
  congr 2
  rw [Par.nVL, Nat.add_assoc, basis_add]

end

include h he in
theorem scale_pos (G : ℕ → ℕ → K) (i : ℕ) : 0 < scale o p f G i := sqrt_pos h (lt_max_of_lt_right he)

include hm h he in
/-- The matrix that is decomposed is the scaled Gram matrix of the projected columns. -/
theorem scaled_mid (i : ℕ) (hi : i < p.k) (j : ℕ) (hj : j < p.k) :
    sym (scaled o p f s.G) i j =
      o.ip (project p locked (reduce o p f s) i) (project p locked (reduce o p f s) j) /
        (scale o p f s.G i * scale o p f s.G j) := by
  unfold sym
  by_cases c : i ≤ j
  · rw [if_pos c, scaled, if_pos c, schur_mid h hm i hi j hj]
  · rw [if_neg c, scaled, if_pos (by omega), schur_mid h hm j hj i hi, h.symm, mul_comm (scale o p f s.G i)]


include hs in
theorem max_one (h : Contract o) : o.sqrt (max 1 (p.eps * (p.k : K))) = 1 := by
  rw [max_eq_left hs, sqrt_one h]

/-- What a turn leaves after a successful Cholesky factorisation. -/
structure ByChol (o : Kern K X) (p : Par K) (f : ℕ → ℕ → K) (s : St K X) (U : ℕ → ℕ → K) : Prop where
  yortho : (reduce o p f s).yortho = false
  Y : ∀ i j, (reduce o p f s).Y i j = U i j * scale o p f s.G j
  D : ∀ i, (reduce o p f s).D i = 1
  r : ∀ i c, (reduce o p f s).r i c = ∑ l ∈ range p.k, up U i l * (s.r l c * scale o p f s.G l)

/-- What a turn leaves after an eigendecomposition. -/
structure ByEig (o : Kern K X) (p : Par K) (f : ℕ → ℕ → K) (s : St K X) (E : ℕ → ℕ → K) (d : ℕ → K) : Prop where
  yortho : (reduce o p f s).yortho = true
  Y : ∀ i j, (reduce o p f s).Y i j = E i j / scale o p f s.G i
  D : ∀ i, (reduce o p f s).D i = o.sqrt (max (d i) (p.eps * (p.k : K)))
  r : ∀ i c, (reduce o p f s).r i c = (reduce o p f s).D i *
    ∑ l ∈ range p.k, E l i * (s.r l c * scale o p f s.G l)

include hs hm h in
theorem reduce_cases :
    (∃ U, o.chol p.k (scaled o p f s.G) = some U ∧ ByChol o p f s U) ∨
      ByEig o p f s (o.eig p.k (scaled o p f s.G)).1 (o.eig p.k (scaled o p f s.G)).2 := by
  have hov := overflow_mid hm
  cases hc : o.chol p.k (scaled o p f s.G) with
  | some U =>
    left
    refine ⟨U, rfl, ?_, ?_, ?_, ?_⟩
    · simp only [reduce, hov, decomp, hc]
    · intro i j
      simp only [reduce, hov, decomp, hc, Bool.false_eq_true, if_false]
    · intro i
      simp only [reduce, hov, decomp, hc, max_one hs h]
    · intro i c
      simp only [reduce, hov, decomp, hc, Bool.false_eq_true, if_false]
      rw [max_one hs h, one_mul]
      exact sum_congr rfl fun l _ => by rw [up, ite_mul, zero_mul]
  | none =>
    right
    refine ⟨?_, ?_, ?_, ?_⟩
    · simp only [reduce, hov, decomp, hc]
    · intro i j
      simp only [reduce, hov, decomp, hc, if_true]
    · intro i
      simp only [reduce, hov, decomp, hc]
    · intro i c
      simp only [reduce, hov, decomp, hc, if_true]

section
variable {U : ℕ → ℕ → K} (hu : o.chol p.k (scaled o p f s.G) = some U) (hb : ByChol o p f s U)
include hu hb h he

/-- `X = Z * Y * N`. -/
theorem chol_undo (i : ℕ) (hi : i < p.k) :
    ∑ l ∈ range p.k, (up U l i * scale o p f s.G i) • columns p locked (reduce o p f s) l =
      project p locked (reduce o p f s) i := by
  have hU := (h.chol _ _ _ hu).1
  have hN := fun i => (scale_pos (p := p) (f := f) h he s.G i).ne'
  by_cases hk : p.k = 1
  · have hi0 : i = 0 := by omega
    subst hi0
    rw [hk, sum_range_one, up, if_pos (Nat.le_refl _), columns, hb.yortho, if_neg (by simp), if_pos hk, hb.Y, hb.D,
      smul_smul]
    have : U 0 0 * scale o p f s.G 0 * (1 / (U 0 0 * scale o p f s.G 0) * (1 / 1)) = 1 := by
      have := hU 0 (by omega)
      have := hN 0
      field_simp
    rw [this, one_smul]
  · have e := fwd_spec (reduce o p f s).Y (project p locked (reduce o p f s)) hi
      (by rw [hb.Y]; exact mul_ne_zero (hU i hi) (hN i))
    rw [← e]
    refine sum_congr rfl fun l _ => ?_
    rw [columns, hb.yortho, if_neg (by simp), if_neg hk]
    congr 1
    unfold up
    split_ifs
    · rw [hb.Y]
    · rw [zero_mul]

theorem chol_r (c : ℕ) :
    ∑ i ∈ range p.k, (reduce o p f s).r i c • columns p locked (reduce o p f s) i =
      ∑ i ∈ range p.k, s.r i c • project p locked (reduce o p f s) i := by
  have e : ∀ l ∈ range p.k, s.r l c • project p locked (reduce o p f s) l =
      ∑ i ∈ range p.k, (up U i l * (s.r l c * scale o p f s.G l)) • columns p locked (reduce o p f s) i := by
    intro l hl
    rw [← chol_undo h he hu hb l (mem_range.1 hl), smul_sum]
    refine sum_congr rfl fun i _ => ?_
    rw [smul_smul]; congr 1; ring
  rw [sum_congr rfl e, sum_comm]
  refine sum_congr rfl fun i _ => ?_
  rw [hb.r, sum_smul]

end

section
variable {Y : ℕ → ℕ → K} {d : ℕ → K} (hb : ByEig o p f s Y d)
include hb

theorem eig_cols (i : ℕ) :
    columns p locked (reduce o p f s) i = ∑ l ∈ range p.k,
      (Y l i / scale o p f s.G l * (1 / (reduce o p f s).D i)) • project p locked (reduce o p f s) l := by
  rw [columns, hb.yortho, if_pos rfl]
  exact sum_congr rfl fun l _ => by rw [hb.Y]

include h he in
theorem eig_D (hk : 0 < p.k) (i : ℕ) : 0 < (reduce o p f s).D i := by
  rw [hb.D]
  have : (0 : K) < (p.k : K) := by exact_mod_cast hk
  exact sqrt_pos h (lt_max_of_lt_right (mul_pos he this))

include h he in
theorem eig_sum {H : ℕ → ℕ → K} (hY : IsEig p.k H Y d) (w : ℕ → K) :
    ∑ i ∈ range p.k, ((reduce o p f s).D i * ∑ l ∈ range p.k, Y l i * (w l * scale o p f s.G l)) •
        columns p locked (reduce o p f s) i =
      ∑ i ∈ range p.k, w i • project p locked (reduce o p f s) i := by
  have hN := fun i => (scale_pos (p := p) (f := f) h he s.G i).ne'
  have e : ∀ i ∈ range p.k, ((reduce o p f s).D i * ∑ l ∈ range p.k, Y l i * (w l * scale o p f s.G l)) •
        columns p locked (reduce o p f s) i =
      ∑ m ∈ range p.k, (∑ l ∈ range p.k, Y l i * Y m i * (w l * scale o p f s.G l / scale o p f s.G m)) •
        project p locked (reduce o p f s) m := by
    intro i hi
    have hD := (eig_D h he hb (by have := mem_range.1 hi; omega) i).ne'
    rw [eig_cols hb, smul_sum]
    refine sum_congr rfl fun m _ => ?_
    rw [smul_smul]
    congr 1
    rw [mul_sum, sum_mul]
    refine sum_congr rfl fun l _ => ?_
    have := hN m
    field_simp
  rw [sum_congr rfl e, sum_comm]
  refine sum_congr rfl fun m hmm => ?_
  rw [← sum_smul, sum_comm]
  congr 1
  have e2 : ∀ l ∈ range p.k, ∑ i ∈ range p.k, Y l i * Y m i * (w l * scale o p f s.G l / scale o p f s.G m) =
      if l = m then w m else 0 := by
    intro l hl
    rw [← sum_mul, hY.rows l (mem_range.1 hl) m (mem_range.1 hmm)]
    by_cases c : l = m
    · subst c
      rw [if_pos rfl, if_pos rfl, one_mul, mul_div_assoc, div_self (hN l), mul_one]
    · rw [if_neg c, if_neg c, zero_mul]
  rw [sum_congr rfl e2, sum_ite_eq' (range p.k) m, if_pos hmm]

end

include h he hs hm

/-- The diagonal block of `R` takes in what the next turn will do. -/
theorem turn_r (c : ℕ) :
    ∑ i ∈ range p.k, (reduce o p f s).r i c • columns p locked (reduce o p f s) i =
      ∑ i ∈ range p.k, s.r i c • project p locked (reduce o p f s) i := by
  rcases reduce_cases h hs hm with ⟨U, hu, hb⟩ | hb
  · exact chol_r h he hu hb c
  · rw [← eig_sum h he hb (h.eig _ _) (fun i => s.r i c)]
    exact sum_congr rfl fun i _ => by rw [hb.r]

/-- The projected columns can be had back from the new ones. -/
theorem turn_undo (i : ℕ) (hi : i < p.k) : ∃ t : ℕ → K,
    project p locked (reduce o p f s) i = ∑ l ∈ range p.k, t l • columns p locked (reduce o p f s) l := by
  rcases reduce_cases h hs hm with ⟨U, hu, hb⟩ | hb
  · exact ⟨_, (chol_undo h he hu hb i hi).symm⟩
  · refine ⟨_, ((eig_sum h he hb (h.eig _ _) (fun l => if l = i then 1 else 0)).trans ?_).symm⟩
    simp only [ite_smul, one_smul, zero_smul]
    rw [sum_ite_eq' (range p.k) i, if_pos (mem_range.2 hi)]

/-- The new columns against the old ones and among themselves. -/
theorem turn_orth : Orth o p.k p.nVL (basis p locked s.V) (columns p locked (reduce o p f s)) := by
  have hN := fun i => scale_pos (p := p) (f := f) h he s.G i
  rcases reduce_cases h hs hm with ⟨U, hu, hb⟩ | hb
  · have hU := h.chol _ _ _ hu
    have g := chol_orth h p.k U (scale o p f s.G) (project p locked (reduce o p f s))
      (columns p locked (reduce o p f s)) (fun i _ => (hN i).ne') hU.1
      (fun i hi => chol_undo h he hu hb i hi) (fun i hi j hj => by
        rw [← scaled_mid h he hm i hi j hj]
        unfold sym
        split_ifs with c
        · exact hU.2 i j c hj
        · rw [← hU.2 j i (by omega) hi]
          exact sum_congr rfl fun l _ => mul_comm _ _)
    refine ⟨fun j hj => ?_, ?_, ?_, p.k, Nat.le_refl _, ?_, ?_⟩
    · -- triangular system with zero right hand side
      have z := tri_unique U (fun l => o.ip (basis p locked s.V j) (columns p locked (reduce o p f s) l)) (fun _ => 0) p.k
        hU.1 (fun i hi => by
          have e := project_old h hm i hi j hj
          rw [← chol_undo h he hu hb i hi, ip_sum h] at e
          simp only [mul_zero, sum_const_zero]
          have e2 : ∑ l ∈ range p.k, up U l i * scale o p f s.G i *
              o.ip (basis p locked s.V j) (columns p locked (reduce o p f s) l) = scale o p f s.G i *
              ∑ l ∈ range p.k, up U l i * o.ip (basis p locked s.V j) (columns p locked (reduce o p f s) l) := by
            rw [mul_sum]; exact sum_congr rfl fun l _ => by ring
          rw [e2] at e
          exact (mul_eq_zero.1 e).resolve_left (hN i).ne')
      exact z
    · intro c hc d hd hcd
      rw [g c hc d hd, if_neg hcd]
    · intro c hc
      rw [g c hc c hc, if_pos rfl]
    · intro c hc
      rw [g c hc c hc, if_pos rfl]; exact zero_lt_one
    · intro c h1 h2; omega
  · have hY := h.eig p.k (scaled o p f s.G)
    have g := eig_orth h p.k _ (scale o p f s.G) (reduce o p f s).D _ (project p locked (reduce o p f s))
      (columns p locked (reduce o p f s)) _ hY (fun i _ => eig_cols hb i)
      (fun i hi j hj => scaled_mid h he hm i hi j hj)
    have hD : ∀ i < p.k, 0 < (reduce o p f s).D i := fun i hi => eig_D h he hb (by omega) i
    have hd0 : ∀ i < p.k, 0 ≤ (o.eig p.k (scaled o p f s.G)).2 i := by
      intro i hi
      have e := g i hi i hi
      rw [if_pos rfl, eq_div_iff (mul_pos (hD i hi) (hD i hi)).ne'] at e
      rw [← e]
      exact mul_nonneg (ip_nonneg h _) (mul_pos (hD i hi) (hD i hi)).le
    refine ⟨fun j hj c hc => ?_, ?_, ?_, ?_⟩
    · rw [eig_cols hb, ip_sum h]
      exact sum_eq_zero fun l hl => by rw [project_old h hm l (mem_range.1 hl) j hj, mul_zero]
    · intro c hc d hd hcd
      rw [g c hc d hd, if_neg hcd]
    · intro c hc
      rw [g c hc c hc, if_pos rfl, div_le_one (mul_pos (hD c hc) (hD c hc)), hb.D]
      have hk : (0 : K) < (p.k : K) := by exact_mod_cast (by omega : 0 < p.k)
      rw [(h.sqrt _ ((mul_pos he hk).le.trans (le_max_right _ _))).2]
      exact le_max_left _ _
    · classical
      have pos_iff : ∀ c < p.k, 0 < o.ip (columns p locked (reduce o p f s) c) (columns p locked (reduce o p f s) c) ↔
          0 < (o.eig p.k (scaled o p f s.G)).2 c := by
        intro c hc
        rw [g c hc c hc, if_pos rfl, div_pos_iff_of_pos_right (mul_pos (hD c hc) (hD c hc))]
      by_cases hall : ∀ c < p.k, 0 < (o.eig p.k (scaled o p f s.G)).2 c
      · exact ⟨p.k, Nat.le_refl _, fun c hc => (pos_iff c hc).2 (hall c hc), fun c h1 h2 => by omega⟩
      · have hex : ∃ c, c < p.k ∧ ¬ 0 < (o.eig p.k (scaled o p f s.G)).2 c := by
          by_contra hno
          exact hall fun c hc => by
            by_contra hc'
            exact hno ⟨c, hc, hc'⟩
        have hf := Nat.find_spec hex
        refine ⟨Nat.find hex, hf.1.le, fun c hc => ?_, fun c h1 h2 => ?_⟩
        · have hck : c < p.k := lt_trans hc hf.1
          rw [pos_iff c hck]
          by_contra hc'
          exact Nat.find_min hex hc ⟨hck, hc'⟩
        · rw [g c h2 c h2, if_pos rfl]
          have h3 := hY.anti _ _ h1 h2
          have h4 : (o.eig p.k (scaled o p f s.G)).2 c = 0 :=
            le_antisymm (h3.trans (not_lt.1 hf.2)) (hd0 c h2)
          rw [h4, zero_div]

end
end Verif.BlockOrtho
