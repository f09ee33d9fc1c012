import Verif.Proofs.MainIterStop

set_option linter.unusedSimpArgs false
set_option linter.unusedVariables false

/-! What the main iteration hands back. -/

namespace Verif.Main
open Verif Verif.Spec Verif.Props

theorem leading_le : ∀ (l : List Flag), leading l ≤ l.length
  | [] => Nat.le_refl _
  | f :: fs => by
    unfold leading
    split
    · have := leading_le fs
      simp only [List.length_cons]
      omega
    · exact Nat.zero_le _

theorem leading_get : ∀ (l : List Flag) (t : ℕ), t < leading l → ∃ f, l[t]? = some f ∧ f ≠ .unconverged
  | [], t, h => by simp [leading] at h
  | f :: fs, t, h => by
    unfold leading at h
    split at h
    · rename_i hf
      cases t with
      | zero => exact ⟨f, rfl, hf⟩
      | succ t =>
        obtain ⟨g, h1, h2⟩ := leading_get fs t (by omega)
        exact ⟨g, by simpa using h1, h2⟩
    · omega

theorem leading_verify {v : ℕ → Flag} {m t : ℕ} (h : t < leading ((List.range m).map v)) : v t ≠ .unconverged := by
  obtain ⟨f, h1, h2⟩ := leading_get _ _ h
  have := leading_le ((List.range m).map v)
  simp only [List.length_map, List.length_range] at this
  rw [List.getElem?_map, List.getElem?_range (by omega)] at h1
  cases h1
  exact h2

/-- The candidates copied behind the locked pairs. -/
theorem copyBack_spec (P : Par) (wrong : ℕ → Bool) : ∀ (m i nc : ℕ) (out : ℕ → Entry), nc ≤ P.numEvals →
    nc ≤ (copyBack P wrong m i nc out).1 ∧ (copyBack P wrong m i nc out).1 ≤ P.numEvals ∧
    (∀ t, t < nc → (copyBack P wrong m i nc out).2 t = out t) ∧
    (∀ t, (copyBack P wrong m i nc out).1 ≤ t → (copyBack P wrong m i nc out).2 t = out t) ∧
    (∀ t, nc ≤ t → t < (copyBack P wrong m i nc out).1 → ∃ j, i ≤ j ∧ j < i + m ∧ (copyBack P wrong m i nc out).2 t = .ritz j ∧
      ¬ (P.side = true ∧ wrong j = true)) := by
  intro m
  induction m with
  | zero => intro i nc out h; exact ⟨Nat.le_refl _, h, fun _ _ => rfl, fun _ _ => rfl, fun t h1 h2 => absurd h2 (by simp [copyBack]; omega)⟩
  | succ m ih =>
    intro i nc out h
    unfold copyBack
    split_ifs with h1 h2
    · obtain ⟨a1, a2, a3, a4, a5⟩ := ih (i + 1) nc out h
      refine ⟨a1, a2, a3, a4, fun t t1 t2 => ?_⟩
      obtain ⟨j, j1, j2, j3⟩ := a5 t t1 t2
      exact ⟨j, by omega, by omega, j3⟩
    · obtain ⟨a1, a2, a3, a4, a5⟩ := ih (i + 1) (nc + 1) (fun t => if t = nc then .ritz i else out t) (by omega)
      refine ⟨by omega, a2, fun t ht => ?_, fun t ht => ?_, fun t t1 t2 => ?_⟩
      · rw [a3 t (by omega), if_neg (by omega)]
      · rw [a4 t ht, if_neg (by omega)]
      · by_cases hq : t = nc
        · refine ⟨i, Nat.le_refl _, by omega, ?_, h2⟩
          rw [hq, a3 nc (by omega), if_pos rfl]
        · obtain ⟨j, j1, j2, j3⟩ := a5 t (by omega) t2
          exact ⟨j, by omega, by omega, j3⟩
    · exact ⟨Nat.le_refl _, h, fun _ _ => rfl, fun _ _ => rfl, fun t t1 t2 => absurd t2 (by dsimp only; omega)⟩

/-- What is handed back at the end.  `src v`: the final verification answered `v`. -/
inductive Final (P : Par) (src : (ℕ → Flag) → Prop) (s : St) : Prop
  /-- A limit was found at the test of the outer loop. -/
  | limit : s.numRet = 0 → s.ret = PRIMME_MAIN_ITER_FAILURE → (∀ t, s.out t = if t < s.numLocked then .locked else .untouched) → Final P src s
  /-- With locking, nothing is added to the locked pairs. -/
  | all : P.locking = true → s.numRet = 0 → s.ret = (if s.numLocked = P.numEvals ∨ s.wholeSpace = true then 0 else PRIMME_MAIN_ITER_FAILURE) →
      (P.numEvals ≤ s.numLocked ∨ s.basisSize = 0) →
      (∀ t, s.out t = if t < s.numLocked then .locked else .untouched) → Final P src s
  /-- With locking, candidates follow the locked pairs. -/
  | some : P.locking = true → s.ret = (if s.numLocked = P.numEvals ∨ s.wholeSpace = true then 0 else PRIMME_MAIN_ITER_FAILURE) →
      s.numLocked < P.numEvals → s.numLocked ≤ s.numRet → s.numRet ≤ P.numEvals →
      (∀ t, t < s.numLocked → s.out t = .locked) →
      (∀ t, s.numLocked ≤ t → t < s.numRet → ∃ j, j < s.basisSize ∧ s.out t = .ritz j) →
      (∀ t, s.numRet ≤ t → s.out t = .untouched) → Final P src s
  /-- Without locking. -/
  | plain (v : ℕ → Flag) (cnt : ℕ) : P.locking = false → src v → cnt ≤ P.numEvals → s.initSize = leading ((List.range cnt).map v) →
      s.numRet = P.numEvals → s.ret = (if P.numEvals ≤ s.initSize then 0 else PRIMME_MAIN_ITER_FAILURE) →
      (∀ t, s.out t = if t < P.numEvals then (if t < s.basisSize then .ritz t else .stale) else .untouched) → Final P src s

/-- What holds on the way. -/
structure Ledger (P : Par) (src : (ℕ → Flag) → Prop) (s : St) : Prop where
  hard : P.locking = true → s.initSize = s.numLocked
  soft : s.initSize ≤ P.numEvals
  conv : P.locking = true → s.pc = .restart ∨ s.pc = .finish → s.numConverged = s.numLocked
  fresh : s.pc ≠ .done → s.numRet = 0 ∧ s.ret = PRIMME_MAIN_ITER_FAILURE ∧ s.out = fun _ => .untouched
  final : s.pc = .done → Final P src s

theorem Final.mono {P : Par} {src src' : (ℕ → Flag) → Prop} {s : St} (h : Final P src s) (hm : ∀ v, src v → src' v) : Final P src' s := by
  cases h with
  | limit a b c => exact .limit a b c
  | all a b c d e => exact .all a b c d e
  | some a b c d e f g h => exact .some a b c d e f g h
  | plain v cnt a b c d e f g => exact .plain v cnt a (hm v b) c d e f g

theorem step_ledger {P : Par} {a : Ans} {src : (ℕ → Flag) → Prop} {s s' : St} (ha : a.Ok) (hP : Cfg P) (h : Inv P s) (hL : Ledger P src s)
    (hsrc : src a.verify) (e : step P a s = .ok s') : Ledger P src s' := by
  by_cases hd : s.pc = .done
  · have : s' = s := by
      unfold step at e
      rw [hd] at e
      cases hf : a.fail <;> rw [hf] at e <;> simp at e <;> exact e.symm
    rw [this]; exact hL
  obtain ⟨f1, f2, f3⟩ := hL.fresh hd
  unfold step at e
  cases hfail : a.fail with
  | some c =>
    rw [hfail] at e
    dsimp only at e
    rw [if_neg hd] at e
    cases e
  | none =>
    rw [hfail] at e
    dsimp only at e
    cases hpc : s.pc with
    | outer =>
      rw [hpc] at e
      dsimp only at e
      unfold outerStep at e
      split_ifs at e
      · cases e
        exact ⟨fun _ => rfl, h.locked, fun _ _ => rfl, fun _ => ⟨f1, f2, f3⟩, fun w => by cases w⟩
      · cases e
        exact ⟨hL.hard, hL.soft, fun _ w => (by rcases w with w | w <;> cases w), fun w => absurd rfl w, fun _ => .limit f1 f2 (fun t => rfl)⟩
    | restart =>
      rw [hpc] at e
      dsimp only at e
      split_ifs at e
      · cases e
        exact ⟨hL.hard, hL.soft, fun _ w => (by rcases w with w | w <;> cases w), fun _ => ⟨f1, f2, f3⟩, fun w => by cases w⟩
      · cases e
        exact ⟨hL.hard, hL.soft, fun w _ => hL.conv w (Or.inl hpc), fun _ => ⟨f1, f2, f3⟩, fun w => by cases w⟩
    | inner =>
      rw [hpc] at e
      dsimp only at e
      split_ifs at e with hc
      · have t := turn_turned hP h hpc hc.1 e
        obtain ⟨k1, _, _, _, _, k6, k7, k8, k9⟩ := t.kept
        have hpc' : s'.pc = .post ∨ s'.pc = .inner := by
          rcases t.pc with w | ⟨w, _⟩
          · exact Or.inl w
          · exact Or.inr w
        refine ⟨fun w => by rw [k6, k1]; exact hL.hard w, by rw [k6]; exact hL.soft, fun _ w => ?_, fun _ => by rw [k7, k8, k9]; exact ⟨f1, f2, f3⟩, fun w => ?_⟩
        · rcases hpc' with q | q <;> rw [q] at w <;> rcases w with w | w <;> cases w
        · rcases hpc' with q | q <;> rw [q] at w <;> cases w
      · cases e
        exact ⟨hL.hard, hL.soft, fun _ w => (by rcases w with w | w <;> cases w), fun _ => ⟨f1, f2, f3⟩, fun w => by cases w⟩
    | post =>
      rw [hpc] at e
      dsimp only at e
      obtain ⟨s'', e', _, s1, q, hcase⟩ := after_cases (a := a) ha hP h hpc
      rw [e] at e'
      cases e'
      obtain ⟨c1, c2, c3, c4⟩ := q.same.results
      have c5 := q.same.locked
      rcases hcase with ⟨_, rfl⟩ | ⟨_, _, r, k, m, x, _, hR, rfl, u1, u2, u3, _⟩
      · refine ⟨fun w => ?_, ?_, fun _ w => (by rcases w with w | w <;> cases w), fun _ => ?_, fun w => by cases w⟩
        · show s1.initSize = s1.numLocked
          rw [c1, c5]; exact hL.hard w
        · show s1.initSize ≤ _
          rw [c1]; exact hL.soft
        · show s1.numRet = 0 ∧ s1.ret = _ ∧ s1.out = _
          rw [c2, c3, c4]; exact ⟨f1, f2, f3⟩
      · refine ⟨fun w => hR.convLocked w, hR.conv, fun w _ => hR.convLocked w, fun _ => ?_, fun w => by cases w⟩
        show s1.numRet = 0 ∧ s1.ret = _ ∧ s1.out = _
        rw [c2, c3, c4]; exact ⟨f1, f2, f3⟩
    | finish =>
      rw [hpc] at e
      dsimp only at e
      have hh := h.here
      unfold AtPc at hh
      rw [hpc] at hh
      obtain ⟨h1, h2⟩ := hh
      split_ifs at e with hl
      · cases e
        have hcv := hL.conv hl (Or.inr hpc)
        unfold finishLocking
        dsimp only
        by_cases hc : P.numEvals ≤ s.numConverged ∨ s.basisSize = 0
        · rw [if_pos hc]
          refine ⟨hL.hard, hL.soft, fun _ w => (by rcases w with w | w <;> cases w), fun w => absurd rfl w, fun _ => ?_⟩
          refine .all hl f1 ?_ ?_ (fun t => rfl)
          · dsimp only; rw [hcv]
          · dsimp only; rw [← hcv]; exact hc
        · rw [if_neg hc]
          obtain ⟨b1, b2, b3, b4, b5⟩ := copyBack_spec P a.wrong s.basisSize 0 s.numConverged (fun t => if t < s.numLocked then .locked else .untouched) h2
          refine ⟨hL.hard, hL.soft, fun _ w => (by rcases w with w | w <;> cases w), fun w => absurd rfl w, fun _ => ?_⟩
          refine .some hl ?_ ?_ ?_ b2 ?_ ?_ ?_
          · dsimp only; rw [hcv]
          · dsimp only; omega
          · dsimp only; omega
          · intro t ht
            dsimp only at ht ⊢
            rw [b3 t (by omega), if_pos ht]
          · intro t t1 t2
            dsimp only at t1 t2 ⊢
            obtain ⟨j, _, j2, j3, _⟩ := b5 t (by omega) t2
            exact ⟨j, by omega, j3⟩
          · intro t t1
            dsimp only at t1 ⊢
            rw [b4 t t1, if_neg (by omega)]
      · have hl' : P.locking = false := by simpa using hl
        rcases finishPlain_cases e with ⟨_, _, rfl⟩ | ⟨hw, _, hws, rfl⟩
        · have hcnt : (if within P s = true then s.numConverged else P.numEvals) ≤ P.numEvals := by split <;> omega
          have hle := leading_le ((List.range (if within P s = true then s.numConverged else P.numEvals)).map a.verify)
          simp only [List.length_map, List.length_range] at hle
          refine ⟨fun w => absurd w hl, by dsimp only; omega, fun _ w => (by rcases w with w | w <;> cases w), fun w => absurd rfl w, fun _ => ?_⟩
          exact .plain a.verify _ hl' hsrc hcnt rfl rfl rfl (fun t => rfl)
        · exact ⟨fun w => absurd w hl, hL.soft, fun w => absurd w hl, fun _ => ⟨f1, f2, f3⟩, fun w => by cases w⟩
    | done => exact absurd hpc hd

theorem start_ledger {P : Par} {b g next products : ℕ} : Ledger P (fun _ => False) (start P b g next products) :=
  ⟨fun _ => rfl, Nat.zero_le _, fun _ w => (by rcases w with w | w <;> cases w), fun _ => ⟨rfl, rfl, rfl⟩, fun w => by cases w⟩

theorem Ledger.mono {P : Par} {src src' : (ℕ → Flag) → Prop} {s : St} (h : Ledger P src s) (hm : ∀ v, src v → src' v) : Ledger P src' s :=
  ⟨h.hard, h.soft, h.conv, h.fresh, fun w => (h.final w).mono hm⟩

theorem run_ledger {P : Par} {a : ℕ → Ans} {s : St} (hP : Cfg P) (ha : ∀ k, (a k).Ok) (h : Inv P s) (hL : Ledger P (fun _ => False) s) :
    ∀ k s', run P a k s = .ok s' → Ledger P (fun v => ∃ j, j < k ∧ v = (a j).verify) s' := by
  intro k
  induction k with
  | zero => intro s' e; cases e; exact hL.mono (fun v w => w.elim)
  | succ k ih =>
    intro s' e
    unfold run at e
    cases e1 : run P a k s with
    | ub => rw [e1] at e; cases e
    | err c => rw [e1] at e; cases e
    | ok s1 =>
      rw [e1, Outcome.bind_ok] at e
      have hi : Inv P s1 := by
        rcases run_inv hP ha h k with ⟨t, e', hi⟩ | ⟨c, e', _⟩
        · rw [e1] at e'; cases e'; exact hi
        · rw [e1] at e'; cases e'
      refine step_ledger (ha k) hP hi ((ih s1 e1).mono ?_) ⟨k, by omega, rfl⟩ e
      rintro v ⟨j, h1, h2⟩
      exact ⟨j, by omega, h2⟩

end Verif.Main
