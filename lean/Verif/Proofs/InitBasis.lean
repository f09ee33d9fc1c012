import Verif.Model.InitBasis
import Mathlib.Tactic.Linarith

/-! Lemmas for C33. -/

set_option linter.unusedVariables false
set_option linter.unusedSimpArgs false

namespace Verif.Init
open Verif

/-- Partial correctness with absence of undefined behaviour. -/
def Holds {α : Type} (x : Outcome α) (Q : α → Prop) : Prop :=
  match x with
  | .ok a => Q a
  | .err _ => True
  | .ub => False

theorem Holds.bind {α β : Type} {x : Outcome α} {f : α → Outcome β} {Q : α → Prop} {R : β → Prop}
    (h : Holds x Q) (hf : ∀ a, Q a → Holds (f a) R) : Holds (x >>= f) R := by
  cases x with
  | ok a => exact hf a h
  | err c => trivial
  | ub => exact h.elim

theorem Holds.mono {α : Type} {x : Outcome α} {Q R : α → Prop} (h : Holds x Q) (hQ : ∀ a, Q a → R a) : Holds x R := by
  cases x with
  | ok a => exact hQ a h
  | err c => trivial
  | ub => exact h.elim

variable {X : Type} {P : Par} {o : Kernels X} {G : Cols X → ℕ → Prop}

theorem larnv_holds : ∀ (cnt i : ℕ) (s : St X), i + cnt ≤ P.maxBasisSize →
    Holds (larnv P o cnt i s) (fun t => t.W = s.W ∧ t.wlog = s.wlog ∧ t.seed = s.seed + cnt ∧
      (∀ j, j < i ∨ i + cnt ≤ j → t.V j = s.V j) ∧ (∀ k, k < cnt → t.V (i + k) = some (o.rnd (s.seed + k))))
  | 0, i, s, h => ⟨rfl, rfl, rfl, fun _ _ => rfl, fun k hk => absurd hk (by omega)⟩
  | cnt + 1, i, s, h => by
    unfold larnv
    rw [if_pos (by omega)]
    refine (larnv_holds cnt (i + 1) _ (by omega)).mono ?_
    rintro t ⟨h1, h2, h3, h4, h5⟩
    refine ⟨h1, h2, ?_, ?_, ?_⟩
    · rw [h3]; dsimp only; omega
    · intro j hj
      rw [h4 j (by omega)]
      dsimp only
      rw [if_neg (by omega)]
    · intro k hk
      rcases k with _ | k
      · rw [h4 _ (by omega)]; simp
      · have := h5 k (by omega)
        rw [show i + (k + 1) = i + 1 + k by omega, this]
        dsimp only
        rw [show s.seed + 1 + k = s.seed + (k + 1) by omega]

theorem ortho_holds (ho : OrtOk o G) (b1 e : ℕ) (s : St X) (h1 : b1 ≤ e) (h2 : e ≤ P.maxBasisSize)
    (hf : ∀ j, j < e → (s.V j).isSome) (hG : G s.V b1) :
    Holds (ortho P o b1 e s) (fun t => t.1.W = s.W ∧ t.1.wlog = s.wlog ∧ t.1.seed = s.seed ∧ b1 ≤ t.2 ∧ t.2 ≤ e ∧
      (∀ j, j < b1 ∨ e ≤ j → t.1.V j = s.V j) ∧ (∀ j, j < e → (t.1.V j).isSome) ∧ G t.1.V t.2 ∧
      (b1 < e → o.ort s.V b1 e = some (t.1.V, t.2)) ∧ (b1 = e → t = (s, e))) := by
  unfold ortho
  by_cases h : e ≤ b1
  · rw [if_pos h]
    have : b1 = e := by omega
    subst this
    exact ⟨rfl, rfl, rfl, le_refl _, le_refl _, fun _ _ => rfl, hf, hG, fun h => absurd h (by omega), fun _ => rfl⟩
  · rw [if_neg h, if_neg]
    · cases hr : o.ort s.V b1 e with
      | none => trivial
      | some q =>
        obtain ⟨V', r⟩ := q
        obtain ⟨a, b, c, d, g⟩ := ho.spec _ _ _ _ _ (by omega) hf hr
        exact ⟨rfl, rfl, rfl, a, b, c, d, g hG, fun _ => rfl, fun h' => absurd h' (by omega)⟩
    · rintro (h' | ⟨j, hj, h'⟩)
      · omega
      · have := hf j (by simpa using hj)
        rw [h'] at this
        simp at this

theorem matvec_holds : ∀ (cnt lo : ℕ) (s : St X), lo + cnt ≤ P.maxBasisSize →
    (∀ j, j < lo + cnt → (s.V j).isSome) →
    Holds (matvec P o cnt lo s) (fun t => t.V = s.V ∧ t.seed = s.seed ∧ t.wlog = s.wlog ++ (List.range cnt).map (lo + ·) ∧
      (∀ j, j < lo ∨ lo + cnt ≤ j → t.W j = s.W j) ∧ (∀ j, lo ≤ j → j < lo + cnt → t.W j = (s.V j).map o.A))
  | 0, lo, s, h, hf => ⟨rfl, rfl, by simp, fun _ _ => rfl, fun j _ _ => absurd ‹_› (by omega)⟩
  | cnt + 1, lo, s, h, hf => by
    unfold matvec
    have := hf lo (by omega)
    obtain ⟨x, hx⟩ := Option.isSome_iff_exists.mp this
    rw [hx]
    dsimp only
    rw [if_pos (by omega)]
    refine (matvec_holds cnt (lo + 1) _ (by omega) (by intro j hj; exact hf j (by omega))).mono ?_
    rintro t ⟨h1, h1', h2, h3, h4⟩
    refine ⟨h1, h1', ?_, ?_, ?_⟩
    · rw [h2]
      dsimp only
      rw [List.range_succ_eq_map]
      simp [Nat.add_comm, Nat.add_left_comm, Function.comp_def]
    · intro j hj
      rw [h3 j (by omega)]
      dsimp only
      rw [if_neg (by omega)]
    · intro j hj hj'
      by_cases hjl : j = lo
      · subst hjl
        rw [h3 j (by omega), hx]; simp
      · exact h4 j (by omega) (by omega)

theorem shiftMatvec_holds : ∀ (cnt src dst : ℕ) (s : St X), src + cnt ≤ dst → dst + cnt ≤ P.maxBasisSize →
    (∀ j, j < dst → (s.V j).isSome) →
    Holds (shiftMatvec P o cnt src dst s) (fun t => t.seed = s.seed ∧ t.wlog = s.wlog ++ (List.range cnt).map (src + ·) ∧
      (∀ j, j < dst ∨ dst + cnt ≤ j → t.V j = s.V j) ∧ (∀ j, j < dst + cnt → (t.V j).isSome) ∧
      (∀ j, j < src ∨ src + cnt ≤ j → t.W j = s.W j) ∧ (∀ j, src ≤ j → j < src + cnt → t.W j = (s.V j).map o.A) ∧
      (∀ k, k < cnt → t.V (dst + k) = (s.V (src + k)).map o.A))
  | 0, src, dst, s, h, h', hf => ⟨rfl, by simp, fun _ _ => rfl, fun j hj => hf j (by omega), fun _ _ => rfl,
      fun j _ _ => absurd ‹_› (by omega), fun k hk => absurd hk (by omega)⟩
  | cnt + 1, src, dst, s, h, h', hf => by
    unfold shiftMatvec
    obtain ⟨x, hx⟩ := Option.isSome_iff_exists.mp (hf src (by omega))
    rw [hx]
    dsimp only
    rw [if_pos (by omega)]
    refine (shiftMatvec_holds cnt (src + 1) (dst + 1) _ (by omega) (by omega) ?_).mono ?_
    · intro j hj
      dsimp only
      by_cases hjd : j = dst
      · simp [hjd]
      · rw [if_neg hjd]; exact hf j (by omega)
    rintro t ⟨h1, h2, h3, h4, h5, h6, h7⟩
    refine ⟨h1, ?_, ?_, ?_, ?_, ?_, ?_⟩
    · rw [h2]
      dsimp only
      rw [List.range_succ_eq_map]
      simp [Nat.add_comm, Nat.add_left_comm, Function.comp_def]
    · intro j hj
      rw [h3 j (by omega)]
      dsimp only
      rw [if_neg (by omega)]
    · intro j hj
      exact h4 j (by omega)
    · intro j hj
      rw [h5 j (by omega)]
      dsimp only
      rw [if_neg (by omega)]
    · intro j hj hj'
      by_cases hjl : j = src
      · subst hjl
        rw [h5 j (by omega), hx]; simp
      · rw [h6 j (by omega) (by omega)]
        dsimp only
        rw [if_neg (by omega)]
    · intro k hk
      rcases k with _ | k
      · rw [h3 _ (by omega)]; simp [hx]
      · rw [show dst + (k + 1) = dst + 1 + k by omega, h7 k (by omega)]
        dsimp only
        rw [if_neg (by omega), show src + 1 + k = src + (k + 1) by omega]

theorem range_append_map (a b : ℕ) : List.range a ++ (List.range b).map (a + ·) = List.range (a + b) := by
  rw [List.range_add]

/-- Invariant of the Krylov loop at column `i`. -/
structure KInv (P : Par) (o : Kernels X) (G : Cols X → ℕ → Prop) (V0 : Cols X) (dv1 bs i : ℕ) (s : St X) : Prop where
  lo : dv1 + bs ≤ i
  full : ∀ j, j < i → (s.V j).isSome
  good : G s.V i
  prod : ∀ j, j < i - bs → s.W j = (s.V j).map o.A
  log : s.wlog = List.range (i - bs)
  keep : ∀ j, j < dv1 → s.V j = V0 j

theorem krylovLoop_holds (ho : OrtOk o G) (V0 : Cols X) (dv1 bs e : ℕ) (hb : 1 ≤ bs) (he : e ≤ P.maxBasisSize) :
    ∀ (fuel i m : ℕ) (s : St X), e - i ≤ fuel → i ≤ e → 1 ≤ m ∨ e ≤ i → m ≤ bs → KInv P o G V0 dv1 bs i s →
      Holds (krylovLoop P o bs e fuel i m s) (fun t => KInv P o G V0 dv1 bs e t)
  | 0, i, m, s, hf, hi, hm, hm', hs => by
    have : i = e := by omega
    subst this
    exact hs
  | fuel + 1, i, m, s, hf, hi, hm, hm', hs => by
    unfold krylovLoop
    dsimp only
    by_cases h : i < e
    · rw [if_pos h]
      generalize hmm : min m (e - i) = m'
      have hlo := hs.lo
      have hm1 : 1 ≤ m' ∧ m' ≤ bs ∧ i + m' ≤ e := by omega
      refine (shiftMatvec_holds m' (i - bs) i s (by omega) (by omega) hs.full).bind ?_
      rintro s1 ⟨-, l1, v1, f1, w1, p1, -⟩
      refine (ortho_holds ho i (i + m') s1 (by omega) (by omega) f1
        (ho.congr _ _ _ (fun j hj => (v1 j (Or.inl hj)).symm) hs.good)).bind ?_
      rintro ⟨s2, r2⟩ ⟨w2, l2, -, a2, b2, v2, f2, g2, -, -⟩
      dsimp only at w2 l2 a2 b2 v2 f2 g2 ⊢
      refine (larnv_holds (i + m' - r2) r2 s2 (by omega)).bind ?_
      rintro s3 ⟨w3, l3, -, v3, n3⟩
      have f3 : ∀ j, j < i + m' → (s3.V j).isSome := by
        intro j hj
        by_cases hj' : j < r2
        · rw [v3 j (Or.inl hj')]; exact f2 j hj
        · have := n3 (j - r2) (by omega)
          rw [show r2 + (j - r2) = j by omega] at this
          rw [this]; rfl
      refine (ortho_holds ho r2 (i + m') s3 (by omega) (by omega) f3
        (ho.congr _ _ _ (fun j hj => (v3 j (Or.inl hj)).symm) g2)).bind ?_
      rintro ⟨s4, r4⟩ ⟨w4, l4, -, a4, b4, v4, f4, g4, -, -⟩
      dsimp only at w4 l4 a4 b4 v4 f4 g4 ⊢
      by_cases hr : r4 ≠ i + m'
      · rw [if_pos hr]; trivial
      · rw [if_neg hr]
        have hr : r4 = i + m' := by omega
        subst hr
        have hV : ∀ j, j < i → s4.V j = s.V j := by
          intro j hj
          rw [v4 j (by omega), v3 j (by omega), v2 j (by omega), v1 j (by omega)]
        apply krylovLoop_holds ho V0 dv1 bs e hb he fuel (i + m') m' s4 (by omega) (by omega) (by omega) (by omega)
        refine ⟨by omega, f4, g4, ?_, ?_, ?_⟩
        · intro j hj
          rw [hV j (by omega), w4, w3, w2]
          by_cases hj' : j < i - bs
          · rw [w1 j (Or.inl hj'), hs.prod j hj']
          · rw [p1 j (by omega) (by omega)]
        · rw [l4, l3, l2, l1, hs.log, range_append_map]
          congr 1; omega
        · intro j hj
          rw [hV j (by omega), hs.keep j hj]
    · rw [if_neg h]
      have : i = e := by omega
      subst this
      exact hs

theorem blockKrylov_holds (ho : OrtOk o G) (hb : 1 ≤ P.maxBlockSize) (dv1 e : ℕ) (s : St X) (h : dv1 < e)
    (he : e ≤ P.maxBasisSize) (hf : ∀ j, j < dv1 → (s.V j).isSome) (hG : G s.V dv1)
    (hp : ∀ j, j < dv1 → s.W j = (s.V j).map o.A) (hl : s.wlog = List.range dv1) :
    Holds (blockKrylov P o dv1 e s) (fun t => (∀ j, j < e → (t.V j).isSome) ∧ G t.V e ∧
      (∀ j, j < e → t.W j = (t.V j).map o.A) ∧ t.wlog = List.range e ∧ (∀ j, j < dv1 → t.V j = s.V j)) := by
  unfold blockKrylov
  rw [if_neg (by omega)]
  dsimp only
  generalize hbs : (if e - dv1 ≤ P.maxBlockSize then 1 else P.maxBlockSize) = bs
  have hbs' : 1 ≤ bs ∧ dv1 + bs ≤ e := by split_ifs at hbs <;> omega
  refine (larnv_holds bs dv1 s (by omega)).bind ?_
  rintro s1 ⟨w1, l1, -, v1, n1⟩
  have f1 : ∀ j, j < dv1 + bs → (s1.V j).isSome := by
    intro j hj
    by_cases hj' : j < dv1
    · rw [v1 j (Or.inl hj')]; exact hf j hj'
    · have := n1 (j - dv1) (by omega)
      rw [show dv1 + (j - dv1) = j by omega] at this
      rw [this]; rfl
  refine (ortho_holds ho dv1 (dv1 + bs) s1 (by omega) (by omega) f1
    (ho.congr _ _ _ (fun j hj => (v1 j (Or.inl hj)).symm) hG)).bind ?_
  rintro ⟨s2, r2⟩ ⟨w2, l2, -, a2, b2, v2, f2, g2, -, -⟩
  dsimp only at w2 l2 a2 b2 v2 f2 g2 ⊢
  by_cases hr : r2 ≠ dv1 + bs
  · rw [if_pos hr]; trivial
  · rw [if_neg hr]
    have hr : r2 = dv1 + bs := by omega
    subst hr
    have hV : ∀ j, j < dv1 → s2.V j = s.V j := by
      intro j hj
      rw [v2 j (by omega), v1 j (by omega)]
    refine (krylovLoop_holds ho s.V dv1 bs e hbs'.1 he (e - dv1) (dv1 + bs) bs s2 (by omega) hbs'.2 (by omega)
      (le_refl _) ⟨le_refl _, f2, g2, ?_, ?_, hV⟩).bind ?_
    · intro j hj
      rw [w2, w1, hV j (by omega), hp j (by omega)]
    · rw [l2, l1, hl]
      congr 1; omega
    · intro s3 hs3
      refine (matvec_holds bs (e - bs) s3 (by omega) (fun j hj => hs3.full j (by omega))).mono ?_
      rintro t ⟨v, -, l, w, p⟩
      refine ⟨?_, ?_, ?_, ?_, ?_⟩
      · rw [v]; exact hs3.full
      · rw [v]; exact hs3.good
      · intro j hj
        rw [v]
        by_cases hj' : j < e - bs
        · rw [w j (Or.inl hj'), hs3.prod j hj']
        · exact p j (by omega) (by omega)
      · rw [l, hs3.log, range_append_map]
        congr 1; omega
      · rw [v]; exact hs3.keep

theorem copyGuesses_holds (guess : ℕ → X) : ∀ (cnt : ℕ) (s : St X), cnt ≤ P.maxBasisSize →
    Holds (copyGuesses P guess cnt s) (fun t => t.W = s.W ∧ t.wlog = s.wlog ∧ t.seed = s.seed ∧
      (∀ j, j < cnt → t.V j = some (guess j)) ∧ (∀ j, cnt ≤ j → t.V j = s.V j))
  | 0, s, h => ⟨rfl, rfl, rfl, fun j hj => absurd hj (by omega), fun _ _ => rfl⟩
  | cnt + 1, s, h => by
    unfold copyGuesses
    refine (copyGuesses_holds guess cnt s (by omega)).bind ?_
    rintro t ⟨a, b, c, d, e⟩
    rw [if_pos (by omega)]
    refine ⟨a, b, c, ?_, ?_⟩
    · intro j hj
      dsimp only
      by_cases hj' : j = cnt
      · simp [hj']
      · rw [if_neg hj']; exact d j (by omega)
    · intro j hj
      dsimp only
      rw [if_neg (by omega)]; exact e j (by omega)

/-- Everything about a successful construction. -/
structure Built (P : Par) (o : Kernels X) (G : Cols X → ℕ → Prop) (guess : ℕ → X) (r : Res X) : Prop where
  guesses : ∀ j, j < used P → r.raw j = some (guess j)
  randoms : ∀ k, k < randoms P → r.raw (used P + k) = some (o.rnd k)
  next : r.nextGuess = P.numOrthoConst + used P
  left : r.numGuesses = P.initSize - used P
  rank : r.rank ≤ used P + Init.randoms P
  ortho : 0 < used P + Init.randoms P → ∃ V', o.ort r.raw 0 (used P + Init.randoms P) = some (V', r.rank) ∧ ∀ j, j < r.rank → r.V j = V' j
  size : r.basisSize = if P.mode = .krylov then min P.minRestartSize (P.n - P.numOrthoConst) else r.rank
  full : ∀ j, j < r.basisSize → (r.V j).isSome
  good : G r.V r.basisSize
  prod : ∀ j, j < r.basisSize → r.W j = (r.V j).map o.A
  log : r.wlog = List.range (max r.rank r.basisSize)

theorem initBasis_holds (ho : OrtOk o G) (guess : ℕ → X) (hb : 1 ≤ P.maxBlockSize)
    (h1 : used P + randoms P ≤ P.maxBasisSize) (h2 : min P.minRestartSize (P.n - P.numOrthoConst) ≤ P.maxBasisSize) :
    Holds (initBasis P o guess) (Built P o G guess) := by
  unfold initBasis
  refine (copyGuesses_holds guess (used P) _ (by omega)).bind ?_
  rintro s1 ⟨w1, l1, e1, g1, -⟩
  dsimp only at w1 l1 e1
  refine (larnv_holds (randoms P) (used P) s1 (by omega)).bind ?_
  rintro s2 ⟨w2, l2, e2, v2, n2⟩
  have f2 : ∀ j, j < used P + randoms P → (s2.V j).isSome := by
    intro j hj
    by_cases hj' : j < used P
    · rw [v2 j (Or.inl hj'), g1 j hj']; rfl
    · have := n2 (j - used P) (by omega)
      rw [show used P + (j - used P) = j by omega] at this
      rw [this]; rfl
  have hg : ∀ j, j < used P → s2.V j = some (guess j) := fun j hj => by rw [v2 j (Or.inl hj), g1 j hj]
  have hr : ∀ k, k < randoms P → s2.V (used P + k) = some (o.rnd k) := fun k hk => by
    have := n2 k hk
    rw [e1] at this
    simpa using this
  dsimp only
  refine (ortho_holds ho 0 (used P + randoms P) s2 (by omega) (by omega) f2 (ho.zero _)).bind ?_
  rintro ⟨s3, r3⟩ ⟨w3, l3, -, -, b3, v3, f3, g3, o3, q3⟩
  dsimp only at w3 l3 b3 v3 f3 g3 o3 ⊢
  refine (matvec_holds r3 0 s3 (by omega) (fun j hj => f3 j (by omega))).bind ?_
  rintro s4 ⟨v4, -, l4, -, p4⟩
  have hl4 : s4.wlog = List.range r3 := by
    rw [l4, l3, l2, l1]; simp
  by_cases hm : P.mode = .krylov
  · rw [if_pos hm]
    generalize he : min P.minRestartSize (P.n - P.numOrthoConst) = e at h2
    by_cases hlt : r3 < e
    · refine (blockKrylov_holds ho hb r3 e s4 hlt h2 (fun j hj => by rw [v4]; exact f3 j (by omega)) (by rw [v4]; exact g3)
        (fun j hj => by rw [v4]; exact p4 j (by omega) (by omega)) hl4).bind ?_
      rintro s5 ⟨f5, g5, p5, l5, k5⟩
      refine ⟨hg, hr, rfl, rfl, b3, ?_, ?_, f5, g5, p5, ?_⟩
      · intro hpos
        exact ⟨s3.V, o3 hpos, fun j hj => by dsimp only at hj ⊢; rw [k5 j hj, v4]⟩
      · dsimp only; rw [if_pos hm, he]
      · dsimp only; rw [l5]; congr 1; omega
    · have : blockKrylov P o r3 e s4 = .ok s4 := by unfold blockKrylov; rw [if_pos (by omega)]
      rw [this]
      refine ⟨hg, hr, rfl, rfl, b3, ?_, ?_, ?_, ?_, ?_, ?_⟩
      · intro hpos
        exact ⟨s3.V, o3 hpos, fun j hj => by rw [v4]⟩
      · dsimp only; rw [if_pos hm, he]
      · intro j hj
        dsimp only at hj ⊢
        rw [v4]; exact f3 j (by omega)
      · dsimp only; rw [v4]; exact ho.mono _ _ _ (by omega) g3
      · intro j hj
        dsimp only at hj ⊢
        rw [v4]; exact p4 j (by omega) (by omega)
      · dsimp only; rw [hl4]; congr 1; omega
  · rw [if_neg hm]
    refine ⟨hg, hr, rfl, rfl, b3, ?_, ?_, ?_, ?_, ?_, ?_⟩
    · intro hpos
      exact ⟨s3.V, o3 hpos, fun j hj => by rw [v4]⟩
    · dsimp only; rw [if_neg hm]
    · intro j hj
      dsimp only at hj ⊢
      rw [v4]; exact f3 j (by omega)
    · dsimp only; rw [v4]; exact g3
    · intro j hj
      dsimp only at hj ⊢
      rw [v4]; exact p4 j (by omega) (by omega)
    · dsimp only; rw [hl4]; congr 1; omega

end Verif.Init
