import Verif.Spec.InnerSolve
import Verif.Spec.Perm
import Mathlib.Tactic.SplitIfs
import Mathlib.Data.Fintype.Card
import Mathlib.Data.Fintype.EquivFin

/-! Proofs about the inner solver. -/

set_option linter.unusedSectionVars false
set_option linter.unusedSimpArgs false
set_option linter.unusedVariables false

namespace Verif.Inner
open Verif.Spec

section
variable {α : Type}

theorem put_same (a : ℕ → α) (i : ℕ) (v : α) : put a i v i = v := by simp [put]

theorem put_other (a : ℕ → α) (i k : ℕ) (v : α) (h : k ≠ i) : put a i v k = a k := by simp [put, h]

theorem findPos_some (p : ℕ → ℕ) (v j : ℕ) : ∀ n, findPos p v n = some j → j < n ∧ p j = v := by
  intro n
  induction n with
  | zero => intro h; simp [findPos] at h
  | succ n ih =>
    intro h
    unfold findPos at h
    split at h
    · rename_i j' hj
      obtain ⟨h1, h2⟩ := ih (hj.trans h)
      exact ⟨by omega, h2⟩
    · split at h
      · injection h with h
        subst h
        exact ⟨by omega, by assumption⟩
      · cases h

theorem findPos_none (p : ℕ → ℕ) (v : ℕ) : ∀ n, findPos p v n = none → ∀ j < n, p j ≠ v := by
  intro n
  induction n with
  | zero => intro _ j hj; omega
  | succ n ih =>
    intro h j hj
    unfold findPos at h
    split at h
    · cases h
    · rename_i hn
      split at h
      · cases h
      · by_cases e : j = n
        · subst e; assumption
        · exact ih hn j (by omega)

theorem perm_onto (n : ℕ) (p : ℕ → ℕ) (h : IsPermOn n p) (v : ℕ) (hv : v < n) : ∃ j < n, p j = v := by
  have hinj : Function.Injective (fun i : Fin n => (⟨p i.1, h.1 i.1 i.2⟩ : Fin n)) := by
    intro i j e
    have := h.2 i.1 j.1 i.2 j.2 (by simpa using e)
    exact Fin.ext this
  obtain ⟨j, hj⟩ := Finite.surjective_of_injective hinj ⟨v, hv⟩
  exact ⟨j.1, j.2, by simpa using congrArg Fin.val hj⟩

/-- State of `mark` after `k` columns. -/
structure Marked (stop : ℕ → Bool) (n k : ℕ) (p0 : ℕ → ℕ) (conv : ℕ) : Prop where
  perm : IsPermOn n p0
  le : conv ≤ k
  back : ∀ i, n - conv ≤ i → i < n → p0 i < k ∧ stop (p0 i) = true
  front : ∀ i, i < n - conv → p0 i < k → stop (p0 i) = false

theorem mark_spec (stop : ℕ → Bool) (n : ℕ) : ∀ k ≤ n, ∃ p0 conv, mark stop n k = some (p0, conv) ∧ Marked stop n k p0 conv := by
  intro k
  induction k with
  | zero =>
    intro _
    exact ⟨id, 0, rfl, ⟨⟨fun i hi => hi, fun i j _ _ h => h⟩, le_refl _, fun i h1 h2 => by omega, fun i _ h => by simp at h⟩⟩
  | succ k ih =>
    intro hk
    obtain ⟨p0, conv, he, hm⟩ := ih (by omega)
    by_cases hs : stop k = true
    · have hle := hm.le
      obtain ⟨j0, hj0, hv0⟩ := perm_onto n p0 hm.perm k (by omega)
      cases hf : findPos p0 k n with
      | none => exact absurd hv0 (findPos_none _ _ _ hf j0 hj0)
      | some j =>
        obtain ⟨hj, hv⟩ := findPos_some _ _ _ _ hf
        refine ⟨put (put p0 j (p0 (n - (conv + 1)))) (n - (conv + 1)) k, conv + 1, ?_, ?_⟩
        · unfold mark
          rw [he]
          simp only [hs, if_true, setPos, hf, Option.map_some]
        · have hpos : n - (conv + 1) < n := by omega
          have hjb : j < n - conv := by
            by_contra h
            have := hm.back j (by omega) hj
            omega
          generalize hq : n - (conv + 1) = pos at *
          refine ⟨⟨?_, ?_⟩, by omega, ?_, ?_⟩
          · intro i hi
            unfold put
            split_ifs
            · omega
            · exact hm.perm.1 _ (by omega)
            · exact hm.perm.1 _ hi
          · intro i i' hi hi' e
            have inj := hm.perm.2
            unfold put at e
            split_ifs at e with a1 a2 a3 a4 a5 a6 a7
            · omega
            · have := inj j pos hj (by omega) (by omega); omega
            · have := inj i' j hi' hj (by omega); omega
            · have := inj j pos hj (by omega) (by omega); omega
            · omega
            · have := inj pos i' (by omega) hi' e; omega
            · have := inj i j hi hj (by omega); omega
            · have := inj i pos hi (by omega) e; omega
            · exact inj i i' hi hi' e
          · intro i h1 h2
            unfold put
            split_ifs with a1 a2
            · exact ⟨by omega, hs⟩
            · omega
            · have := hm.back i (by omega) h2
              exact ⟨by omega, this.2⟩
          · intro i h1 h2
            unfold put at h2 ⊢
            split_ifs at h2 ⊢ with a1 a2
            · omega
            · have hne : p0 pos ≠ k := by
                intro e
                have := hm.perm.2 pos j (by omega) hj (by omega)
                omega
              exact hm.front pos (by omega) (by omega)
            · have hne : p0 i ≠ k := by
                intro e
                have := hm.perm.2 i j (by omega) hj (by omega)
                omega
              exact hm.front i (by omega) (by omega)
    · refine ⟨p0, conv, ?_, ?_⟩
      · unfold mark
        rw [he]
        simp only [hs, Bool.false_eq_true, if_false]
      · refine ⟨hm.perm, by have := hm.le; omega, fun i h1 h2 => ?_, fun i h1 h2 => ?_⟩
        · have := hm.back i h1 h2
          exact ⟨by omega, this.2⟩
        · by_cases e : p0 i = k
          · rw [e]; simpa using hs
          · exact hm.front i h1 (by omega)

/-- If the columns that stop are the last ones, the others stay where they are. -/
theorem mark_suffix (stop : ℕ → Bool) (n c : ℕ) (hc : c ≤ n) (hs : ∀ i < n, stop i = true ↔ c ≤ i) :
    ∀ k ≤ n, ∀ p0 conv, mark stop n k = some (p0, conv) → conv = k - c ∧ ∀ i < c, p0 i = i := by
  intro k
  induction k with
  | zero =>
    intro _ p0 conv h
    unfold mark at h
    simp only [Option.some.injEq, Prod.mk.injEq] at h
    obtain ⟨rfl, rfl⟩ := h
    exact ⟨by omega, fun i _ => rfl⟩
  | succ k ih =>
    intro hk p0 conv h
    obtain ⟨q0, cv, he, hm⟩ := mark_spec stop n k (by omega)
    obtain ⟨h1, h2⟩ := ih (by omega) q0 cv he
    unfold mark at h
    rw [he] at h
    dsimp only at h
    by_cases hk' : stop k = true
    · have hck := (hs k (by omega)).mp hk'
      simp only [hk', if_true, setPos] at h
      cases hf : findPos q0 k n with
      | none => rw [hf] at h; simp at h
      | some j =>
        rw [hf] at h
        simp only [Option.map_some, Option.some.injEq, Prod.mk.injEq] at h
        obtain ⟨rfl, rfl⟩ := h
        obtain ⟨hj, hv⟩ := findPos_some _ _ _ _ hf
        refine ⟨by omega, fun i hi => ?_⟩
        have hji : j ≠ i := by
          intro e
          rw [e, h2 i hi] at hv
          omega
        rw [put_other _ _ _ _ (by omega), put_other _ _ _ _ (by omega)]
        exact h2 i hi
    · have hck : ¬ c ≤ k := fun h => hk' ((hs k (by omega)).mpr h)
      simp only [hk', Bool.false_eq_true, if_false, Option.some.injEq, Prod.mk.injEq] at h
      obtain ⟨rfl, rfl⟩ := h
      exact ⟨by omega, h2⟩

theorem permuted_lt (p0 : ℕ → ℕ) (n : ℕ) (a : ℕ → α) (i : ℕ) (h : i < n) : permuted p0 n a i = a (p0 i) := by simp [permuted, h]

theorem permuted_ge (p0 : ℕ → ℕ) (n : ℕ) (a : ℕ → α) (i : ℕ) (h : ¬ i < n) : permuted p0 n a i = a i := by simp [permuted, h]

theorem permutedTimes_fix (p0 : ℕ → ℕ) (n : ℕ) (a : ℕ → α) (i : ℕ) (h : p0 i = i) : ∀ k, permutedTimes p0 n k a i = a i := by
  intro k
  induction k with
  | zero => rfl
  | succ k ih =>
    unfold permutedTimes permuted
    split_ifs
    · rw [h, ih]
    · exact ih

theorem forCols_at (p : ℕ → ℕ) (f : ℕ → α → α) (a : ℕ → α) : ∀ n, (∀ i j, i < n → j < n → p i = p j → i = j) →
    (∀ i < n, forCols p f n a (p i) = f i (a (p i))) ∧ ∀ k, (∀ i < n, p i ≠ k) → forCols p f n a k = a k := by
  intro n
  induction n with
  | zero => intro _; exact ⟨fun i hi => by omega, fun k _ => rfl⟩
  | succ n ih =>
    intro hp
    obtain ⟨h1, h2⟩ := ih (fun i j hi hj => hp i j (by omega) (by omega))
    have hn : forCols p f n a (p n) = a (p n) := h2 _ (fun i hi e => by
      have := hp i n (by omega) (by omega) e; omega)
    refine ⟨fun i hi => ?_, fun k hk => ?_⟩
    · unfold forCols
      by_cases e : i = n
      · subst e
        rw [put_same, hn]
      · rw [put_other _ _ _ _ (fun h => e (hp i n hi (by omega) h))]
        exact h1 i (by omega)
    · unfold forCols
      rw [put_other _ _ _ _ (fun h => hk n (by omega) h.symm)]
      exact h2 k (fun i hi => hk i (by omega))

end

variable {K V M : Type} [Field K] [AddCommGroup V] [Module K V]
open Verif.Spec.Qmr

/-- The block state shows the columns `col`: the active ones are the first, unmoved, the others hold their solutions somewhere behind them. -/
structure Shows (B : ℕ) (c : Cfg) (a : ℕ → Input K V M) (col : ℕ → Column K V M) (s : St K V M) : Prop where
  le : s.b ≤ B
  perm : IsPermOn B s.p
  same : ∀ i < s.b, s.p i = i
  act : ∀ i < s.b, (col i).done = false ∧ s.vec i = (col i).vec ∧ s.loc i = (col i).loc ∧ s.sigma i = (col i).sigma ∧
    s.theta i = (col i).theta ∧ s.x i = (a i).x ∧ s.rx i = (a i).rx
  rest : ∀ k, s.b ≤ k → k < B → (col (s.p k)).done = true ∧ (s.vec k).sol = (col (s.p k)).vec.sol

/-- After the columns have been advanced and before they are moved. -/
structure Pending (B : ℕ) (a : ℕ → Input K V M) (col : ℕ → Column K V M) (s : St K V M) : Prop where
  le : s.b ≤ B
  perm : IsPermOn B s.p
  same : ∀ i < s.b, s.p i = i
  sol : ∀ i < s.b, (s.vec i).sol = (col i).vec.sol
  act : ∀ i < s.b, (col i).done = false → s.vec i = (col i).vec ∧ s.loc i = (col i).loc ∧ s.sigma i = (col i).sigma ∧
    s.theta i = (col i).theta
  x : ∀ i < s.b, s.x i = (a i).x ∧ s.rx i = (a i).rx
  rest : ∀ k, s.b ≤ k → k < B → (col (s.p k)).done = true ∧ (s.vec k).sol = (col (s.p k)).vec.sol

/-- Columns stop from the last to the first. -/
def Orderly (B : ℕ) (col : ℕ → Column K V M) : Prop := ∀ i i', i < i' → i' < B → (col i).done = true → (col i').done = true

theorem suffix_of (n : ℕ) (d : ℕ → Bool) (h : ∀ i i', i < i' → i' < n → d i = true → d i' = true) :
    ∃ c ≤ n, ∀ i < n, d i = true ↔ c ≤ i := by
  induction n with
  | zero => exact ⟨0, le_refl _, fun i hi => by omega⟩
  | succ n ih =>
    obtain ⟨c, hc, hi⟩ := ih (fun i i' h1 h2 => h i i' h1 (by omega))
    by_cases e : d n = true
    · refine ⟨c, by omega, fun i hi' => ?_⟩
      by_cases e' : i = n
      · subst e'; exact ⟨fun _ => hc, fun _ => e⟩
      · exact hi i (by omega)
    · refine ⟨n + 1, le_refl _, fun i hi' => ⟨fun hd => ?_, fun h => by omega⟩⟩
      by_cases e' : i = n
      · subst e'; exact absurd hd e
      · exact absurd (h i n (by omega) (by omega) hd) e

theorem shrink_shows (B : ℕ) (c : Cfg) (a : ℕ → Input K V M) (col : ℕ → Column K V M) (s : St K V M) (h : Pending B a col s)
    (ho : Orderly B col) (stop : ℕ → Bool) (hstop : ∀ i < s.b, stop i = (col i).done) :
    ∃ q, mark stop s.b s.b = some q ∧ Shows B c a col (shrink c q.1 q.2 s) := by
  obtain ⟨n, hn, hd⟩ := suffix_of s.b (fun i => (col i).done) (fun i i' h1 h2 h3 => ho i i' h1 (by have := h.le; omega) h3)
  obtain ⟨p0, conv, he, hm⟩ := mark_spec stop s.b s.b (le_refl _)
  obtain ⟨h1, h2⟩ := mark_suffix stop s.b n hn (fun i hi => by rw [hstop i hi]; exact hd i hi) s.b (le_refl _) p0 conv he
  have hle := h.le
  have hb : s.b - conv = n := by omega
  have hp0 : ∀ i < s.b, p0 i < s.b := hm.perm.1
  refine ⟨(p0, conv), he, ?_⟩
  have hback : ∀ k, n ≤ k → k < s.b → n ≤ p0 k := by
    intro k k1 k2
    have := hm.back k (by omega) k2
    rw [hstop _ (hp0 k k2)] at this
    exact (hd _ (hp0 k k2)).mp this.2
  refine ⟨?_, ⟨?_, ?_⟩, ?_, ?_, ?_⟩
  · show s.b - conv ≤ B; omega
  · intro i hi
    show permuted p0 s.b s.p i < B
    by_cases e : i < s.b
    · rw [permuted_lt _ _ _ _ e]
      exact h.perm.1 _ (by have := hp0 i e; omega)
    · rw [permuted_ge _ _ _ _ e]
      exact h.perm.1 _ hi
  · intro i j hi hj e
    have e' : permuted p0 s.b s.p i = permuted p0 s.b s.p j := e
    by_cases ei : i < s.b <;> by_cases ej : j < s.b
    · rw [permuted_lt _ _ _ _ ei, permuted_lt _ _ _ _ ej] at e'
      exact hm.perm.2 i j ei ej (h.perm.2 _ _ (by have := hp0 i ei; omega) (by have := hp0 j ej; omega) e')
    · rw [permuted_lt _ _ _ _ ei, permuted_ge _ _ _ _ ej] at e'
      have := h.perm.2 _ _ (by have := hp0 i ei; omega) hj e'
      have := hp0 i ei
      omega
    · rw [permuted_ge _ _ _ _ ei, permuted_lt _ _ _ _ ej] at e'
      have := h.perm.2 _ _ hi (by have := hp0 j ej; omega) e'
      have := hp0 j ej
      omega
    · rw [permuted_ge _ _ _ _ ei, permuted_ge _ _ _ _ ej] at e'
      exact h.perm.2 _ _ hi hj e'
  · intro i hi
    have hi' : i < n := by have : i < s.b - conv := hi; omega
    show permuted p0 s.b s.p i = i
    rw [permuted_lt _ _ _ _ (by omega), h2 i hi']
    exact h.same i (by omega)
  · intro i hi
    have hi' : i < n := by have : i < s.b - conv := hi; omega
    have hib : i < s.b := by omega
    have hnd : (col i).done = false := by
      cases e : (col i).done with
      | false => rfl
      | true => have := (hd i hib).mp e; omega
    obtain ⟨a1, a2, a3, a4⟩ := h.act i hib hnd
    refine ⟨hnd, ?_, a2, a3, a4, ?_, ?_⟩
    · show permuted p0 s.b s.vec i = _
      rw [permuted_lt _ _ _ _ hib, h2 i hi', a1]
    · show permutedTimes p0 s.b (timesX c) s.x i = _
      rw [permutedTimes_fix _ _ _ _ (h2 i hi')]
      exact (h.x i hib).1
    · show (if c.right = .kinv then permuted p0 s.b s.rx else s.rx) i = _
      split_ifs
      · rw [permuted_lt _ _ _ _ hib, h2 i hi']
        exact (h.x i hib).2
      · exact (h.x i hib).2
  · intro k hk hkB
    have hk' : n ≤ k := by have : s.b - conv ≤ k := hk; omega
    show (col (permuted p0 s.b s.p k)).done = true ∧ (permuted p0 s.b s.vec k).sol = (col (permuted p0 s.b s.p k)).vec.sol
    by_cases e : k < s.b
    · rw [permuted_lt _ _ _ _ e, permuted_lt _ _ _ _ e, h.same _ (hp0 k e)]
      exact ⟨(hd _ (hp0 k e)).mpr (hback k hk' e), h.sol _ (hp0 k e)⟩
    · rw [permuted_ge _ _ _ _ e, permuted_ge _ _ _ _ e]
      exact h.rest k (by omega) hkB

/-! ### The three parts of an iteration -/

theorem first_done (o : Ops K V M) (c : Cfg) (t : ℕ) (a : Input K V M) (s : Column K V M) (h : s.done = true) : first o c t a s = s := by
  unfold first; rw [if_pos h]

theorem second_done (o : Ops K V M) (t : ℕ) (s : Column K V M) (h : s.done = true) : second o t s = s := by
  unfold second; rw [if_pos h]

theorem third_done (o : Ops K V M) (c : Cfg) (a : Input K V M) (s : Column K V M) (h : s.done = true) : third o c a s = s := by
  unfold third; rw [if_pos h]

theorem id_inj {n : ℕ} {p : ℕ → ℕ} (h : ∀ i < n, p i = i) : ∀ i j, i < n → j < n → p i = p j → i = j := by
  intro i j hi hj e
  rw [h i hi, h j hj] at e
  exact e

theorem half1_pending (B : ℕ) (o : Ops K V M) (c : Cfg) (t : ℕ) (a : ℕ → Input K V M) (col : ℕ → Column K V M) (s : St K V M)
    (h : Shows B c a col s) : Pending B a (fun i => first o c t (a i) (col i)) (half1 o c t s) ∧
      ∀ i < s.b, stop1 o c s i = (first o c t (a i) (col i)).done := by
  have hloc : ∀ i < s.b, (half1 o c t s).loc i = { s.loc i with alpha := (s.loc i).rhoPrev / sigmaOf o c s (s.p i) } := by
    intro i hi
    have := (forCols_at s.p (fun i l => { l with alpha := l.rhoPrev / sigmaOf o c s (s.p i) }) s.loc s.b (id_inj h.same)).1 i hi
    rw [h.same i hi] at this
    show forCols s.p _ s.b s.loc i = _
    rw [this, h.same i hi]
  have hprod : ∀ i < s.b, product o c s i = o.mul (col i).vec.shift (if c.leftX then some (a i).x else none) (col i).vec.d := by
    intro i hi
    obtain ⟨_, a1, _, _, _, a5, _⟩ := h.act i hi
    unfold product left
    rw [a1, a5]
  have hsig : ∀ i < s.b, sigmaOf o c s (s.p i) = o.dot (col i).vec.d
      (o.mul (col i).vec.shift (if c.leftX then some (a i).x else none) (col i).vec.d) := by
    intro i hi
    obtain ⟨_, a1, _⟩ := h.act i hi
    unfold sigmaOf
    rw [h.same i hi, if_pos hi, hprod i hi, a1]
  have hstop : ∀ i < s.b, stop1 o c s i = (first o c t (a i) (col i)).done := by
    intro i hi
    obtain ⟨a0, a1, a2, _⟩ := h.act i hi
    unfold stop1 first
    rw [hsig i hi, h.same i hi, a2, a0]
    simp only [Bool.false_eq_true, if_false]
    cases hb : o.broken _ (col i).loc.rhoPrev
    · simp [a0]
    · simp
  refine ⟨⟨h.le, h.perm, h.same, ?_, ?_, ?_, ?_⟩, hstop⟩
  · intro i hi
    have hi : i < s.b := hi
    obtain ⟨a0, a1, a2, _⟩ := h.act i hi
    have hs := hstop i hi
    show (if i < s.b then _ else _ : Vecs K V).sol = _
    rw [if_pos hi]
    unfold first at hs ⊢
    rw [a0] at hs ⊢
    simp only [Bool.false_eq_true, if_false] at hs ⊢
    split_ifs at hs ⊢ <;> simp_all
  · intro i hi hnd
    have hi : i < s.b := hi
    obtain ⟨a0, a1, a2, a3, a4, _⟩ := h.act i hi
    have hs := (hstop i hi).trans hnd
    have hbr : o.broken (o.dot (col i).vec.d (o.mul (col i).vec.shift (if c.leftX then some (a i).x else none) (col i).vec.d))
        (col i).loc.rhoPrev = false := by
      unfold stop1 at hs
      rw [hsig i hi, h.same i hi, a2] at hs
      exact hs
    unfold first
    simp only [a0, Bool.false_eq_true, if_false, hbr]
    refine ⟨?_, ?_, ?_, a4⟩
    · show (if i < s.b then _ else _ : Vecs K V) = _
      rw [if_pos hi, hs]
      simp only [Bool.false_eq_true, if_false]
      rw [hsig i hi, hprod i hi, h.same i hi, a1, a2]
    · rw [hloc i hi, hsig i hi, a2]
    · show sigmaOf o c s i = _
      have := hsig i hi
      rw [h.same i hi] at this
      exact this
  · intro i hi
    have hi : i < s.b := hi
    obtain ⟨_, _, _, _, _, a5, a6⟩ := h.act i hi
    exact ⟨a5, a6⟩
  · intro k hk hkB
    have hk : s.b ≤ k := hk
    obtain ⟨r1, r2⟩ := h.rest k hk hkB
    show (first o c t (a (s.p k)) (col (s.p k))).done = true ∧ (if k < s.b then _ else s.vec k : Vecs K V).sol = _
    rw [if_neg (by omega)]
    have := first_done o c t (a (s.p k)) (col (s.p k)) r1
    rw [show first o c t (a ((half1 o c t s).p k)) (col ((half1 o c t s).p k)) = _ from this, this]
    exact ⟨r1, r2⟩

theorem half2_pending (B : ℕ) (o : Ops K V M) (c : Cfg) (t : ℕ) (a : ℕ → Input K V M) (col : ℕ → Column K V M) (s : St K V M)
    (h : Shows B c a col s) : Pending B a (fun i => second o t (col i)) (half2 o t s) ∧
      ∀ i < s.b, stop2 o t s i = (second o t (col i)).done := by
  have hth : ∀ i < s.b, thetaNew o s i = o.sqrt (o.dot (col i).vec.g (col i).vec.g) / (col i).loc.tauPrev := by
    intro i hi
    obtain ⟨_, a1, a2, _⟩ := h.act i hi
    unfold thetaNew thetaOf
    rw [h.same i hi, if_pos hi, a1, a2]
  have hlh : ∀ i < s.b, locHalf o s i = scalars o (o.sqrt (o.dot (col i).vec.g (col i).vec.g) / (col i).loc.tauPrev) (col i).loc := by
    intro i hi
    obtain ⟨_, a1, a2, _⟩ := h.act i hi
    unfold locHalf
    rw [hth i hi, h.same i hi, a2]
  have hvh : ∀ i < s.b, vecHalf o s i =
      advance (scalars o (o.sqrt (o.dot (col i).vec.g (col i).vec.g) / (col i).loc.tauPrev) (col i).loc) (col i).vec := by
    intro i hi
    obtain ⟨_, a1, _⟩ := h.act i hi
    unfold vecHalf
    rw [hlh i hi, a1]
  have hsec : ∀ i < s.b, second o t (col i) = { col i with
      theta := thetaNew o s i
      loc := { locHalf o s i with mem := (test2 o t (vecHalf o s i) (s.sigma (s.p i)) (locHalf o s i)).2 }
      vec := vecHalf o s i
      done := (test2 o t (vecHalf o s i) (s.sigma (s.p i)) (locHalf o s i)).1 } := by
    intro i hi
    obtain ⟨a0, a1, a2, a3, _⟩ := h.act i hi
    rw [hth i hi, hvh i hi, hlh i hi, h.same i hi, a3]
    unfold second
    rw [a0]
    rfl
  refine ⟨⟨h.le, h.perm, h.same, ?_, ?_, ?_, ?_⟩, ?_⟩
  · intro i hi
    have hi : i < s.b := hi
    rw [hsec i hi]
    show (if i < s.b then _ else _ : Vecs K V).sol = _
    rw [if_pos hi]
  · intro i hi _
    have hi : i < s.b := hi
    obtain ⟨a0, a1, a2, a3, _⟩ := h.act i hi
    rw [hsec i hi]
    refine ⟨?_, ?_, a3, ?_⟩
    · show (if i < s.b then _ else _ : Vecs K V) = _
      rw [if_pos hi]
    · have := (forCols_at s.p (fun i _ => { locHalf o s i with
        mem := (test2 o t (vecHalf o s i) (s.sigma (s.p i)) (locHalf o s i)).2 }) s.loc s.b (id_inj h.same)).1 i hi
      rw [h.same i hi] at this
      show forCols s.p _ s.b s.loc i = _
      rw [this, h.same i hi]
    · have := (forCols_at s.p (fun i _ => thetaNew o s i) (thetaOf o s) s.b (id_inj h.same)).1 i hi
      rw [h.same i hi] at this
      exact this
  · intro i hi
    have hi : i < s.b := hi
    obtain ⟨_, _, _, _, _, a5, a6⟩ := h.act i hi
    exact ⟨a5, a6⟩
  · intro k hk hkB
    have hk : s.b ≤ k := hk
    obtain ⟨r1, r2⟩ := h.rest k hk hkB
    have := second_done o t (col (s.p k)) r1
    rw [show second o t (col ((half2 o t s).p k)) = _ from this]
    refine ⟨r1, ?_⟩
    show (if k < s.b then _ else s.vec k : Vecs K V).sol = _
    rw [if_neg (by omega)]
    exact r2
  · intro i hi
    rw [hsec i hi]
    rfl

theorem half3_shows (B : ℕ) (o : Ops K V M) (c : Cfg) (a : ℕ → Input K V M) (col : ℕ → Column K V M) (s : St K V M)
    (h : Shows B c a col s) : Shows B c a (fun i => third o c (a i) (col i)) (half3 o c s) := by
  have hpre : ∀ i < s.b, precond o c s i = o.prec (col i).vec.xk (right c (a i).x (a i).rx) (col i).vec.g := by
    intro i hi
    obtain ⟨_, a1, _, _, _, a5, a6⟩ := h.act i hi
    unfold precond
    rw [a1, a5, a6]
  have hrho : ∀ i < s.b, rhoOf o c s (s.p i) = o.dot (col i).vec.g (o.prec (col i).vec.xk (right c (a i).x (a i).rx) (col i).vec.g) := by
    intro i hi
    obtain ⟨_, a1, _⟩ := h.act i hi
    unfold rhoOf
    rw [h.same i hi, if_pos hi, hpre i hi, a1]
  refine ⟨h.le, h.perm, h.same, ?_, ?_⟩
  · intro i hi
    have hi : i < s.b := hi
    obtain ⟨a0, a1, a2, a3, a4, a5, a6⟩ := h.act i hi
    unfold third
    rw [a0]
    simp only [Bool.false_eq_true, if_false]
    refine ⟨trivial, ?_, ?_, a3, a4, a5, a6⟩
    · show (if i < s.b then _ else _ : Vecs K V) = _
      rw [if_pos hi, hpre i hi, hrho i hi, h.same i hi, a1, a2]
    · have := (forCols_at s.p (fun i l => { l with rhoPrev := rhoOf o c s (s.p i), tauPrev := l.tau, thetaPrev := s.theta (s.p i) })
        s.loc s.b (id_inj h.same)).1 i hi
      rw [h.same i hi] at this
      show forCols s.p _ s.b s.loc i = _
      have hr := hrho i hi
      rw [h.same i hi] at hr
      rw [this, hr, a2, a4]
  · intro k hk hkB
    have hk : s.b ≤ k := hk
    obtain ⟨r1, r2⟩ := h.rest k hk hkB
    have := third_done o c (a (s.p k)) (col (s.p k)) r1
    rw [show third o c (a ((half3 o c s).p k)) (col ((half3 o c s).p k)) = _ from this]
    refine ⟨r1, ?_⟩
    show (if k < s.b then _ else s.vec k : Vecs K V).sol = _
    rw [if_neg (by omega)]
    exact r2

theorem third_mono (o : Ops K V M) (c : Cfg) (a : Input K V M) (s : Column K V M) : (third o c a s).done = s.done := by
  unfold third; split_ifs <;> rfl

/-- With no column active, nothing is left to do. -/
theorem shows_idle (B : ℕ) (c : Cfg) (a : ℕ → Input K V M) (col : ℕ → Column K V M) (f : ℕ → Column K V M → Column K V M)
    (hf : ∀ i s, s.done = true → f i s = s) (s : St K V M) (h : Shows B c a col s) (hb : s.b = 0) :
    Shows B c a (fun i => f i (col i)) s := by
  refine ⟨h.le, h.perm, h.same, fun i hi => by omega, fun k hk hkB => ?_⟩
  obtain ⟨r1, r2⟩ := h.rest k hk hkB
  rw [hf _ _ r1]
  exact ⟨r1, r2⟩

/-- The block at every iteration, when the columns stop from the last to the first. -/
theorem run_shows (B : ℕ) (o : Ops K V M) (c : Cfg) (junk : K) (maxIts : ℕ) (a : ℕ → Input K V M)
    (ho1 : ∀ t, Orderly B fun i => amid o c junk maxIts (a i) t) (ho2 : ∀ t, Orderly B fun i => before o c junk maxIts (a i) t) :
    ∀ t, ∃ s, runAt o c maxIts (init o c junk B a) t = some s ∧ Shows B c a (fun i => before o c junk maxIts (a i) t) s := by
  intro t
  induction t with
  | zero =>
    refine ⟨_, rfl, ⟨le_refl _, ⟨fun i hi => hi, fun i j _ _ h => h⟩, fun i _ => rfl, fun i _ => ⟨rfl, rfl, rfl, rfl, rfl, rfl, rfl⟩,
      fun k hk hkB => ?_⟩⟩
    have hk : B ≤ k := hk
    omega
  | succ t ih =>
    obtain ⟨s, hs, h⟩ := ih
    have hord2 : Orderly B fun i => second o t (amid o c junk maxIts (a i) t) := by
      intro i i' h1 h2 h3
      have := ho2 (t + 1) i i' h1 h2
      simp only [before] at this
      split_ifs at this
      · rw [third_mono, third_mono] at this
        exact this h3
      · exact this h3
    unfold runAt
    rw [hs]
    dsimp only
    by_cases hb : s.b = 0
    · rw [if_pos hb]
      refine ⟨s, rfl, ?_⟩
      have h1 := shows_idle B c a _ (fun i x => first o c t (a i) x) (fun i x hx => first_done _ _ _ _ _ hx) s h hb
      have h2 := shows_idle B c a _ (fun i x => second o t x) (fun i x hx => second_done _ _ _ hx) s h1 hb
      have h3 := shows_idle B c a _ (fun i x => third o c (a i) x) (fun i x hx => third_done _ _ _ _ hx) s h2 hb
      simp only [before]
      split_ifs
      · exact h3
      · exact h2
    · rw [if_neg hb]
      obtain ⟨hp, hstop⟩ := half1_pending B o c t a _ s h
      obtain ⟨q, hq, hs1⟩ := shrink_shows B c a _ _ hp (ho1 t) (stop1 o c s) hstop
      unfold body
      rw [show mark (stop1 o c s) s.b s.b = some q from hq]
      dsimp only
      have hs1 : Shows B c a (fun i => amid o c junk maxIts (a i) t) (shrink c q.1 q.2 (half1 o c t s)) := hs1
      generalize shrink c q.1 q.2 (half1 o c t s) = s1 at hs1 ⊢
      by_cases hb1 : s1.b = 0
      · rw [if_pos hb1]
        refine ⟨s1, rfl, ?_⟩
        have h2 := shows_idle B c a _ (fun i x => second o t x) (fun i x hx => second_done _ _ _ hx) s1 hs1 hb1
        have h3 := shows_idle B c a _ (fun i x => third o c (a i) x) (fun i x hx => third_done _ _ _ _ hx) s1 h2 hb1
        simp only [before]
        split_ifs
        · exact h3
        · exact h2
      · rw [if_neg hb1]
        obtain ⟨hp2, hstop2⟩ := half2_pending B o c t a _ s1 hs1
        obtain ⟨q2, hq2, hs2⟩ := shrink_shows B c a _ _ hp2 hord2 (stop2 o t s1) hstop2
        unfold finish2
        rw [show mark (stop2 o t s1) s1.b s1.b = some q2 from hq2]
        simp only [Option.map_some]
        refine ⟨_, rfl, ?_⟩
        generalize shrink c q2.1 q2.2 (half2 o t s1) = s2 at hs2 ⊢
        by_cases hb2 : s2.b = 0
        · rw [if_pos hb2]
          have h3 := shows_idle B c a _ (fun i x => third o c (a i) x) (fun i x hx => third_done _ _ _ _ hx) s2 hs2 hb2
          simp only [before]
          split_ifs
          · exact h3
          · exact hs2
        · rw [if_neg hb2]
          simp only [before]
          split_ifs
          · exact half3_shows B o c a _ s2 hs2
          · exact hs2

end Verif.Inner

namespace Verif.Inner
open Verif.Spec

variable {K V M : Type} [Field K] [AddCommGroup V] [Module K V]

theorem permuted_perm (B n : ℕ) (p p0 : ℕ → ℕ) (hn : n ≤ B) (h : IsPermOn B p) (h0 : IsPermOn n p0) : IsPermOn B (permuted p0 n p) := by
  refine ⟨fun i hi => ?_, fun i j hi hj e' => ?_⟩
  · by_cases e : i < n
    · rw [permuted_lt _ _ _ _ e]
      exact h.1 _ (by have := h0.1 i e; omega)
    · rw [permuted_ge _ _ _ _ e]
      exact h.1 _ hi
  · by_cases ei : i < n <;> by_cases ej : j < n
    · rw [permuted_lt _ _ _ _ ei, permuted_lt _ _ _ _ ej] at e'
      exact h0.2 i j ei ej (h.2 _ _ (by have := h0.1 i ei; omega) (by have := h0.1 j ej; omega) e')
    · rw [permuted_lt _ _ _ _ ei, permuted_ge _ _ _ _ ej] at e'
      have := h.2 _ _ (by have := h0.1 i ei; omega) hj e'
      have := h0.1 i ei
      omega
    · rw [permuted_ge _ _ _ _ ei, permuted_lt _ _ _ _ ej] at e'
      have := h.2 _ _ hi (by have := h0.1 j ej; omega) e'
      have := h0.1 j ej
      omega
    · rw [permuted_ge _ _ _ _ ei, permuted_ge _ _ _ _ ej] at e'
      exact h.2 _ _ hi hj e'

/-- A family of sets of vectors, one for each column, that the operators do not leave. -/
structure Closed (o : Ops K V M) (P : ℕ → V → Prop) : Prop where
  zero : ∀ j, P j 0
  add : ∀ j u v, P j u → P j v → P j (u + v)
  smul : ∀ j (k : K) v, P j v → P j (k • v)
  mul : ∀ j s l v, P j v → P j (o.mul s l v)
  prec : ∀ j k r v, P j v → P j (o.prec k r v)

/-- The vectors of a position lie in the set of the column `j`. -/
def Within (P : ℕ → V → Prop) (j : ℕ) (v : Vecs K V) : Prop := P j v.g ∧ P j v.d ∧ P j v.delta ∧ P j v.r ∧ P j v.sol

/-- What holds of the block whatever the order in which columns stop. -/
structure Tidy (B : ℕ) (a : ℕ → Input K V M) (P : ℕ → V → Prop) (s : St K V M) : Prop where
  le : s.b ≤ B
  perm : IsPermOn B s.p
  mine : ∀ k < B, (s.vec k).shift = (a (s.p k)).shift ∧ (s.vec k).xk = (a (s.p k)).xk ∧ (s.vec k).r = (a (s.p k)).r ∧
    Within P (s.p k) (s.vec k)

theorem shrink_tidy (B : ℕ) (c : Cfg) (a : ℕ → Input K V M) (P : ℕ → V → Prop) (s : St K V M) (h : Tidy B a P s) (stop : ℕ → Bool) :
    ∃ q, mark stop s.b s.b = some q ∧ Tidy B a P (shrink c q.1 q.2 s) ∧
      (∀ k, s.b ≤ k → (shrink c q.1 q.2 s).p k = s.p k ∧ (shrink c q.1 q.2 s).vec k = s.vec k) ∧ (shrink c q.1 q.2 s).b ≤ s.b ∧
      (shrink c q.1 q.2 s).prods = s.prods := by
  obtain ⟨p0, conv, he, hm⟩ := mark_spec stop s.b s.b (le_refl _)
  have hle := h.le
  refine ⟨(p0, conv), he, ⟨?_, ?_, ?_⟩, ?_, ?_, rfl⟩
  · show s.b - conv ≤ B; omega
  · exact permuted_perm B s.b s.p p0 h.le h.perm hm.perm
  · intro k hk
    show (permuted p0 s.b s.vec k).shift = (a (permuted p0 s.b s.p k)).shift ∧ (permuted p0 s.b s.vec k).xk = (a (permuted p0 s.b s.p k)).xk ∧
      (permuted p0 s.b s.vec k).r = (a (permuted p0 s.b s.p k)).r ∧ Within P (permuted p0 s.b s.p k) (permuted p0 s.b s.vec k)
    by_cases e : k < s.b
    · rw [permuted_lt _ _ _ _ e, permuted_lt _ _ _ _ e]
      exact h.mine _ (by have := hm.perm.1 k e; omega)
    · rw [permuted_ge _ _ _ _ e, permuted_ge _ _ _ _ e]
      exact h.mine k hk
  · intro k hk
    exact ⟨permuted_ge _ _ _ _ (by omega), permuted_ge _ _ _ _ (by omega)⟩
  · show s.b - conv ≤ s.b; omega

theorem closed_sub {o : Ops K V M} {P : ℕ → V → Prop} (h : Closed o P) (j : ℕ) (u v : V) (hu : P j u) (hv : P j v) : P j (u - v) := by
  rw [sub_eq_add_neg, ← neg_one_smul K v]
  exact h.add _ _ _ hu (h.smul _ _ _ hv)

theorem half1_tidy (B : ℕ) (o : Ops K V M) (c : Cfg) (t : ℕ) (a : ℕ → Input K V M) (P : ℕ → V → Prop) (hP : Closed o P) (s : St K V M)
    (h : Tidy B a P s) : Tidy B a P (half1 o c t s) := by
  refine ⟨h.le, h.perm, fun k hk => ?_⟩
  obtain ⟨m1, m2, m3, w1, w2, w3, w4, w5⟩ := h.mine k hk
  have he : (half1 o c t s).vec k = if k < s.b then
        if stop1 o c s k then (if t = 0 then { s.vec k with sol := (s.vec k).r } else s.vec k)
        else { s.vec k with g := (s.vec k).g - ((s.loc (s.p k)).rhoPrev / sigmaOf o c s (s.p k)) • product o c s k }
      else s.vec k := rfl
  have hp : (half1 o c t s).p = s.p := rfl
  rw [he, hp]
  split_ifs
  · exact ⟨m1, m2, m3, w1, w2, w3, w4, w4⟩
  · exact ⟨m1, m2, m3, w1, w2, w3, w4, w5⟩
  · exact ⟨m1, m2, m3, closed_sub hP _ _ _ w1 (hP.smul _ _ _ (hP.mul _ _ _ _ w2)), w2, w3, w4, w5⟩
  · exact ⟨m1, m2, m3, w1, w2, w3, w4, w5⟩

theorem half2_tidy (B : ℕ) (o : Ops K V M) (t : ℕ) (a : ℕ → Input K V M) (P : ℕ → V → Prop) (hP : Closed o P) (s : St K V M)
    (h : Tidy B a P s) : Tidy B a P (half2 o t s) := by
  refine ⟨h.le, h.perm, fun k hk => ?_⟩
  obtain ⟨m1, m2, m3, w1, w2, w3, w4, w5⟩ := h.mine k hk
  have he : (half2 o t s).vec k = if k < s.b then vecHalf o s k else s.vec k := rfl
  have hp : (half2 o t s).p = s.p := rfl
  rw [he, hp]
  have hd : P (s.p k) ((locHalf o s k).gamma • (s.vec k).delta + (locHalf o s k).eta • (s.vec k).d) :=
    hP.add _ _ _ (hP.smul _ _ _ w3) (hP.smul _ _ _ w2)
  split_ifs
  · exact ⟨m1, m2, m3, w1, w2, hd, w4, hP.add _ _ _ hd w5⟩
  · exact ⟨m1, m2, m3, w1, w2, w3, w4, w5⟩

theorem half3_tidy (B : ℕ) (o : Ops K V M) (c : Cfg) (a : ℕ → Input K V M) (P : ℕ → V → Prop) (hP : Closed o P) (s : St K V M)
    (h : Tidy B a P s) : Tidy B a P (half3 o c s) := by
  refine ⟨h.le, h.perm, fun k hk => ?_⟩
  obtain ⟨m1, m2, m3, w1, w2, w3, w4, w5⟩ := h.mine k hk
  have he : (half3 o c s).vec k = if k < s.b then
        { s.vec k with d := precond o c s k + (rhoOf o c s (s.p k) / (s.loc (s.p k)).rhoPrev) • (s.vec k).d }
      else s.vec k := rfl
  have hp : (half3 o c s).p = s.p := rfl
  rw [he, hp]
  split_ifs
  · exact ⟨m1, m2, m3, w1, hP.add _ _ _ (hP.prec _ _ _ _ w1) (hP.smul _ _ _ w2), w3, w4, w5⟩
  · exact ⟨m1, m2, m3, w1, w2, w3, w4, w5⟩

/-- What an iteration does to the positions behind the active ones, and how many products it makes. -/
structure Settled (s s' : St K V M) : Prop where
  le : s'.b ≤ s.b
  keep : ∀ k, s.b ≤ k → s'.p k = s.p k ∧ (s'.vec k).sol = (s.vec k).sol
  prods : s'.prods ≤ s.prods + s.b

theorem body_tidy (B : ℕ) (o : Ops K V M) (c : Cfg) (maxIts t : ℕ) (a : ℕ → Input K V M) (P : ℕ → V → Prop) (hP : Closed o P)
    (s : St K V M) (h : Tidy B a P s) : ∃ s', body o c maxIts t s = some s' ∧ Tidy B a P s' ∧ Settled s s' := by
  obtain ⟨q, hq, t1, k1, b1, r1⟩ := shrink_tidy B c a P _ (half1_tidy B o c t a P hP s h) (stop1 o c s)
  have hk1 : ∀ k, s.b ≤ k → (shrink c q.1 q.2 (half1 o c t s)).p k = s.p k ∧ (shrink c q.1 q.2 (half1 o c t s)).vec k = s.vec k := by
    intro k hk
    obtain ⟨e1, e2⟩ := k1 k hk
    refine ⟨e1, e2.trans ?_⟩
    show (if k < s.b then _ else s.vec k : Vecs K V) = _
    rw [if_neg (by omega)]
  have hr1 : (shrink c q.1 q.2 (half1 o c t s)).prods = s.prods + s.b := r1
  have hb1 : (shrink c q.1 q.2 (half1 o c t s)).b ≤ s.b := b1
  unfold body
  rw [show mark (stop1 o c s) s.b s.b = some q from hq]
  dsimp only
  generalize shrink c q.1 q.2 (half1 o c t s) = s1 at *
  split_ifs with hb
  · exact ⟨s1, rfl, t1, ⟨hb1, fun k hk => ⟨(hk1 k hk).1, by rw [(hk1 k hk).2]⟩, by omega⟩⟩
  · obtain ⟨q2, hq2, t2, k2, b2, r2⟩ := shrink_tidy B c a P _ (half2_tidy B o t a P hP s1 t1) (stop2 o t s1)
    have hk2 : ∀ k, s1.b ≤ k → (shrink c q2.1 q2.2 (half2 o t s1)).p k = s1.p k ∧
        (shrink c q2.1 q2.2 (half2 o t s1)).vec k = s1.vec k := by
      intro k hk
      obtain ⟨e1, e2⟩ := k2 k hk
      refine ⟨e1, e2.trans ?_⟩
      show (if k < s1.b then _ else s1.vec k : Vecs K V) = _
      rw [if_neg (by omega)]
    have hr2 : (shrink c q2.1 q2.2 (half2 o t s1)).prods = s1.prods := r2
    have hb2 : (shrink c q2.1 q2.2 (half2 o t s1)).b ≤ s1.b := b2
    unfold finish2
    rw [show mark (stop2 o t s1) s1.b s1.b = some q2 from hq2]
    simp only [Option.map_some]
    refine ⟨_, rfl, ?_⟩
    generalize shrink c q2.1 q2.2 (half2 o t s1) = s2 at *
    have hk : ∀ k, s.b ≤ k → s2.p k = s.p k ∧ s2.vec k = s.vec k := by
      intro k hk
      obtain ⟨x1, x2⟩ := hk1 k hk
      obtain ⟨y1, y2⟩ := hk2 k (by omega)
      exact ⟨y1.trans x1, y2.trans x2⟩
    have hset : Settled s s2 := ⟨by omega, fun k hk' => ⟨(hk k hk').1, by rw [(hk k hk').2]⟩, by omega⟩
    split_ifs
    · exact ⟨t2, hset⟩
    · refine ⟨half3_tidy B o c a P hP s2 t2, ⟨by show s2.b ≤ _; omega, fun k hk' => ?_, by show s2.prods ≤ _; omega⟩⟩
      refine ⟨(hk k hk').1, ?_⟩
      show (if k < s2.b then _ else s2.vec k : Vecs K V).sol = _
      rw [if_neg (by omega), (hk k hk').2]
    · exact ⟨t2, hset⟩

/-- The block at every iteration, whatever the order in which columns stop. -/
theorem run_tidy (B : ℕ) (o : Ops K V M) (c : Cfg) (junk : K) (maxIts : ℕ) (a : ℕ → Input K V M) (P : ℕ → V → Prop) (hP : Closed o P)
    (hr : ∀ j < B, P j (a j).r) : ∀ t, ∃ s, runAt o c maxIts (init o c junk B a) t = some s ∧ Tidy B a P s ∧ s.prods ≤ B * t := by
  intro t
  induction t with
  | zero =>
    refine ⟨_, rfl, ⟨le_refl _, ⟨fun i hi => hi, fun i j _ _ h => h⟩, fun k hk => ⟨rfl, rfl, rfl, hr k hk, hP.prec _ _ _ _ (hr k hk),
      hP.zero k, hr k hk, hP.zero k⟩⟩, Nat.zero_le _⟩
  | succ t ih =>
    obtain ⟨s, hs, h, hp⟩ := ih
    unfold runAt
    rw [hs]
    dsimp only
    split_ifs
    · exact ⟨s, rfl, h, by rw [Nat.mul_succ]; omega⟩
    · obtain ⟨s', e, h', st⟩ := body_tidy B o c maxIts t a P hP s h
      refine ⟨s', e, h', ?_⟩
      have := st.prods
      have := h.le
      rw [Nat.mul_succ]
      omega

/-- From one iteration to a later one. -/
theorem run_settled (B : ℕ) (o : Ops K V M) (c : Cfg) (junk : K) (maxIts : ℕ) (a : ℕ → Input K V M) (t : ℕ) (s : St K V M)
    (hs : runAt o c maxIts (init o c junk B a) t = some s) : ∀ u s', runAt o c maxIts (init o c junk B a) (t + u) = some s' →
      s'.b ≤ s.b ∧ ∀ k, s.b ≤ k → s'.p k = s.p k ∧ (s'.vec k).sol = (s.vec k).sol := by
  intro u
  have hP : Closed o (fun _ _ => True) := ⟨fun _ => trivial, fun _ _ _ _ _ => trivial, fun _ _ _ _ => trivial,
    fun _ _ _ _ _ => trivial, fun _ _ _ _ _ => trivial⟩
  induction u with
  | zero =>
    intro s' h
    rw [Nat.add_zero, hs] at h
    injection h with h
    subst h
    exact ⟨le_refl _, fun k _ => ⟨rfl, rfl⟩⟩
  | succ u ih =>
    intro s' h
    obtain ⟨s1, e1, h1, _⟩ := run_tidy B o c junk maxIts a _ hP (fun _ _ => trivial) (t + u)
    obtain ⟨g1, g2⟩ := ih s1 e1
    rw [← Nat.add_assoc] at h
    unfold runAt at h
    rw [e1] at h
    dsimp only at h
    split_ifs at h
    · injection h with h
      subst h
      exact ⟨g1, g2⟩
    · obtain ⟨s2, e2, h2, st⟩ := body_tidy B o c maxIts (t + u) a _ hP s1 h1
      rw [e2] at h
      injection h with h
      subst h
      refine ⟨le_trans st.le g1, fun k hk => ?_⟩
      obtain ⟨x1, x2⟩ := g2 k hk
      obtain ⟨y1, y2⟩ := st.keep k (by omega)
      exact ⟨y1.trans x1, y2.trans x2⟩

end Verif.Inner
