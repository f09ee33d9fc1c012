import Verif.Model.Ortho
import Verif.Spec.Ortho
import Mathlib.Algebra.Module.Basic
import Mathlib.Tactic.Linarith
import Mathlib.Tactic.Abel
import Mathlib.Tactic.Ring

/-! Lemmas for C21. -/

set_option linter.unusedVariables false
set_option linter.unusedSimpArgs false
set_option linter.unusedSectionVars false

namespace Verif.Ortho
open Verif Verif.Spec.Ortho

section general
variable {K X : Type} [Field K] [LinearOrder K] (o : Kern K X) (g : Cfg K) (prev locked : List X)

theorem max_pos : 1 ≤ g.maxNumOrthos := by unfold Cfg.maxNumOrthos; split_ifs <;> omega

theorem judge_accepted (c d : Cur K X) (h : judge o g c = .accepted d) :
    ∃ s0 s1 t, c.s0 = some s0 ∧ o.sqrt (o.ip c.x c.x) = some s1 ∧ ¬ s1 ≤ g.eps * s0 ∧ o.inv s1 = some t ∧
      d = { c with x := o.scal t c.x, diag := if c.updateR then s1 else c.diag } := by
  unfold judge at h
  split at h
  · rename_i s0 s1 e0 e1
    by_cases h1 : s1 ≤ g.eps * s0
    · rw [if_pos h1] at h; cases h
    · rw [if_neg h1] at h
      by_cases h2 : s1 ≤ g.tol * s0 ∨ (g.prim = false ∧ c.nOrth < g.maxNumOrthos)
      · rw [if_pos h2] at h; cases h
      · rw [if_neg h2] at h
        dsimp only at h
        cases hi : o.inv s1 with
        | none => rw [hi] at h; cases h
        | some t =>
          rw [hi] at h
          injection h with h
          refine ⟨s0, s1, t, e0, e1, h1, hi, ?_⟩
          rw [← h]
          rcases c with ⟨x, s0', nO, r, u, rc, lc, dg, sd⟩
          cases u <;> rfl
  · cases h

theorem judge_failed (c d : Cur K X) : judge o g c ≠ .failed d := by
  intro h
  unfold judge at h
  split at h
  · rename_i s0 s1 e0 e1
    by_cases h1 : s1 ≤ g.eps * s0
    · rw [if_pos h1] at h; cases h
    · rw [if_neg h1] at h
      by_cases h2 : s1 ≤ g.tol * s0 ∨ (g.prim = false ∧ c.nOrth < g.maxNumOrthos)
      · rw [if_pos h2] at h; cases h
      · rw [if_neg h2] at h
        dsimp only at h
        cases hi : o.inv s1 with
        | none => rw [hi] at h; cases h
        | some t => rw [hi] at h; cases h
  · cases h

/-- The vector is to be replaced, with the reason, or it goes through another pass. -/
theorem judge_again (c d : Cur K X) (h : judge o g c = .again d) :
    (d.nOrth = g.maxNumOrthos ∧ d.x = c.x ∧ d.rand = c.rand ∧ d.seed = c.seed ∧ d.updateR = c.updateR ∧ d.rcol = c.rcol ∧
      d.lcol = c.lcol ∧ (c.updateR = false → d.diag = c.diag) ∧
      (c.s0 = none ∨ o.sqrt (o.ip c.x c.x) = none ∨ ∃ s0 s1, c.s0 = some s0 ∧ o.sqrt (o.ip c.x c.x) = some s1 ∧
        (s1 ≤ g.eps * s0 ∨ o.inv s1 = none ∧ ¬ s1 ≤ g.eps * s0))) ∨
    (∃ s0 s1, c.s0 = some s0 ∧ o.sqrt (o.ip c.x c.x) = some s1 ∧ ¬ s1 ≤ g.eps * s0 ∧
      (s1 ≤ g.tol * s0 ∨ (g.prim = false ∧ c.nOrth < g.maxNumOrthos)) ∧ d = { c with s0 := some s1 }) := by
  unfold judge at h
  split at h
  · rename_i s0 s1 e0 e1
    by_cases h1 : s1 ≤ g.eps * s0
    · rw [if_pos h1] at h
      injection h with h; subst h
      exact Or.inl ⟨rfl, rfl, rfl, rfl, rfl, rfl, rfl, fun _ => rfl, Or.inr (Or.inr ⟨s0, s1, e0, e1, Or.inl h1⟩)⟩
    · rw [if_neg h1] at h
      by_cases h2 : s1 ≤ g.tol * s0 ∨ (g.prim = false ∧ c.nOrth < g.maxNumOrthos)
      · rw [if_pos h2] at h
        injection h with h; subst h
        exact Or.inr ⟨s0, s1, e0, e1, h1, h2, rfl⟩
      · rw [if_neg h2] at h
        dsimp only at h
        cases hi : o.inv s1 with
        | some t => rw [hi] at h; cases h
        | none =>
          rw [hi] at h
          injection h with h; subst h
          refine Or.inl ⟨rfl, ?_, ?_, ?_, ?_, ?_, ?_, ?_, Or.inr (Or.inr ⟨s0, s1, e0, e1, Or.inr ⟨hi, h1⟩⟩)⟩ <;>
            cases hu : c.updateR <;> simp [hu]
  · rename_i hx
    injection h with h; subst h
    refine Or.inl ⟨rfl, rfl, rfl, rfl, rfl, rfl, rfl, fun _ => rfl, ?_⟩
    cases e0 : c.s0 with
    | none => exact Or.inl rfl
    | some s0 =>
      cases e1 : o.sqrt (o.ip c.x c.x) with
      | none => exact Or.inr (Or.inl rfl)
      | some s1 => exact absurd e1 (hx _ _ e0)

/-- The beginning of a turn. -/
theorem refresh_cases (c : Cur K X) :
    (c.nOrth < g.maxNumOrthos ∧ refresh o g c = (c, true)) ∨
    (g.maxNumOrthos ≤ c.nOrth ∧ maxNumRandoms ≤ c.rand ∧
      refresh o g c = ({ c with diag := if c.updateR then 0 else c.diag, updateR := false }, false)) ∨
    (g.maxNumOrthos ≤ c.nOrth ∧ c.rand < maxNumRandoms ∧
      refresh o g c = ({ c with x := o.rnd c.seed, seed := c.seed + 1, rand := c.rand + 1, nOrth := 0,
                                diag := if c.updateR then 0 else c.diag, updateR := false }, true)) := by
  unfold refresh
  by_cases h1 : c.nOrth ≥ g.maxNumOrthos
  · rw [if_pos h1]
    dsimp only
    by_cases h2 : c.rand ≥ maxNumRandoms
    · refine Or.inr (Or.inl ⟨h1, h2, ?_⟩)
      rcases c with ⟨x, s0, nO, r, u, rc, lc, dg, sd⟩
      cases u <;> simp_all
    · refine Or.inr (Or.inr ⟨h1, by omega, ?_⟩)
      rcases c with ⟨x, s0, nO, r, u, rc, lc, dg, sd⟩
      cases u <;> simp_all
  · rw [if_neg h1]
    exact Or.inl ⟨by omega, rfl⟩

/-- What a turn does to the counters. -/
theorem turn_again (c c' : Cur K X) (hn : c.nOrth ≤ g.maxNumOrthos)
    (h : turn o g prev locked c = .again c') :
    c'.nOrth ≤ g.maxNumOrthos ∧ 1 ≤ c'.nOrth ∧
      ((c.nOrth < g.maxNumOrthos ∧ c'.rand = c.rand ∧ c.nOrth < c'.nOrth ∧ c'.seed = c.seed) ∨
        (c.nOrth = g.maxNumOrthos ∧ c.rand < maxNumRandoms ∧ c'.rand = c.rand + 1 ∧ c'.seed = c.seed + 1)) := by
  have hm := max_pos g
  have key : ∀ d : Cur K X, d.nOrth < g.maxNumOrthos → judge o g (project o prev locked d) = .again c' →
      c'.nOrth ≤ g.maxNumOrthos ∧ d.nOrth < c'.nOrth ∧ c'.rand = d.rand ∧ c'.seed = d.seed := by
    intro d hd hj
    have hp1 : (project o prev locked d).nOrth = d.nOrth + 1 := rfl
    have hp2 : (project o prev locked d).rand = d.rand := rfl
    have hp3 : (project o prev locked d).seed = d.seed := rfl
    rcases judge_again o g _ _ hj with ⟨a, -, b, e, -⟩ | ⟨s0, s1, -, -, -, -, rfl⟩
    · exact ⟨by omega, by omega, by omega, by omega⟩
    · dsimp only; exact ⟨by omega, by omega, hp2, hp3⟩
  unfold turn at h
  rcases refresh_cases o g c with ⟨h1, h2⟩ | ⟨h1, h2, h3⟩ | ⟨h1, h2, h3⟩
  · rw [h2] at h
    dsimp only at h
    obtain ⟨a, b, d, e⟩ := key _ h1 h
    exact ⟨a, by omega, Or.inl ⟨by omega, d, b, e⟩⟩
  · rw [h3] at h; cases h
  · rw [h3] at h
    dsimp only at h
    obtain ⟨a, b, d, e⟩ := key _ (by dsimp only; omega) h
    dsimp only at b d e
    exact ⟨a, by omega, Or.inr ⟨by omega, by omega, by omega, by omega⟩⟩

/-- What an accepting turn does. -/
theorem turn_accepted (c d : Cur K X) (h : turn o g prev locked c = .accepted d) :
    (c.nOrth < g.maxNumOrthos ∧ judge o g (project o prev locked c) = .accepted d) ∨
    (g.maxNumOrthos ≤ c.nOrth ∧ c.rand < maxNumRandoms ∧ judge o g (project o prev locked
      { c with x := o.rnd c.seed, seed := c.seed + 1, rand := c.rand + 1, nOrth := 0,
               diag := if c.updateR then 0 else c.diag, updateR := false }) = .accepted d) := by
  unfold turn at h
  rcases refresh_cases o g c with ⟨h1, h2⟩ | ⟨h1, h2, h3⟩ | ⟨h1, h2, h3⟩
  · rw [h2] at h; exact Or.inl ⟨h1, h⟩
  · rw [h3] at h; cases h
  · rw [h3] at h; exact Or.inr ⟨h1, h2, h⟩

theorem turn_failed (c d : Cur K X) (h : turn o g prev locked c = .failed d) :
    g.maxNumOrthos ≤ c.nOrth ∧ maxNumRandoms ≤ c.rand ∧
      d = { c with diag := if c.updateR then 0 else c.diag, updateR := false } := by
  unfold turn at h
  rcases refresh_cases o g c with ⟨h1, h2⟩ | ⟨h1, h2, h3⟩ | ⟨h1, h2, h3⟩
  · rw [h2] at h; exact absurd h (judge_failed o g _ _)
  · rw [h3] at h; injection h with h; exact ⟨h1, h2, h.symm⟩
  · rw [h3] at h; exact absurd h (judge_failed o g _ _)

/-- Turns left at most. -/
def budget (c : Cur K X) : ℕ := (maxNumRandoms - c.rand) * g.maxNumOrthos + (g.maxNumOrthos - c.nOrth)

theorem column_terminates : ∀ (fuel : ℕ) (c : Cur K X), c.nOrth ≤ g.maxNumOrthos → budget g c < fuel →
    ∃ r, column o g prev locked fuel c = some r
  | 0, c, hn, hb => absurd hb (by omega)
  | fuel + 1, c, hn, hb => by
    unfold column
    cases ht : turn o g prev locked c with
    | accepted d => exact ⟨_, rfl⟩
    | failed d => exact ⟨_, rfl⟩
    | again d =>
      dsimp only
      obtain ⟨a, b, e⟩ := turn_again o g prev locked c d hn ht
      apply column_terminates fuel d a
      have hm := max_pos g
      unfold budget at hb ⊢
      rcases e with ⟨e1, e2, e3, -⟩ | ⟨e1, e2, e3, -⟩
      · rw [e2]; omega
      · rw [e3]
        have : maxNumRandoms - c.rand = maxNumRandoms - (c.rand + 1) + 1 := by omega
        rw [this, Nat.add_mul] at hb
        omega

theorem start_budget (s : St K X) (i : ℕ) : (start g locked i s).nOrth ≤ g.maxNumOrthos ∧
    budget g (start g locked i s) < turns g := by
  refine ⟨Nat.zero_le _, ?_⟩
  unfold budget turns start maxNumRandoms
  dsimp only
  omega

theorem columns_terminate : ∀ (cnt i : ℕ) (s : St K X), ∃ t, columns o g locked cnt i s = some t
  | 0, i, s => ⟨s, rfl⟩
  | cnt + 1, i, s => by
    unfold columns
    obtain ⟨⟨c, ok⟩, hc⟩ := column_terminates o g ((List.range i).map s.V) locked _ _
      (start_budget g locked s i).1 (start_budget g locked s i).2
    rw [hc]
    dsimp only
    cases ok with
    | true => rw [if_pos rfl]; exact columns_terminate cnt (i + 1) _
    | false => exact ⟨_, rfl⟩

/-- Number of random vectors. -/
theorem column_seed : ∀ (fuel : ℕ) (c : Cur K X) (r : Cur K X × Bool), c.nOrth ≤ g.maxNumOrthos → c.rand ≤ maxNumRandoms →
    column o g prev locked fuel c = some r → r.1.seed + c.rand = c.seed + r.1.rand ∧ r.1.rand ≤ maxNumRandoms
  | 0, c, r, hn, hr, h => by cases h
  | fuel + 1, c, r, hn, hr, h => by
    unfold column at h
    cases ht : turn o g prev locked c with
    | again d =>
      rw [ht] at h
      dsimp only at h
      obtain ⟨a, b, e⟩ := turn_again o g prev locked c d hn ht
      have := column_seed fuel d r a (by omega) h
      omega
    | accepted d =>
      rw [ht] at h
      injection h with h
      subst h
      dsimp only
      rcases turn_accepted o g prev locked c d ht with ⟨-, hj⟩ | ⟨-, h2, hj⟩
      · obtain ⟨_, _, _, -, -, -, -, rfl⟩ := judge_accepted o g _ _ hj
        exact ⟨rfl, hr⟩
      · obtain ⟨_, _, _, -, -, -, -, rfl⟩ := judge_accepted o g _ _ hj
        simp only [project]
        omega
    | failed d =>
      rw [ht] at h
      injection h with h
      subst h
      obtain ⟨-, -, rfl⟩ := turn_failed o g prev locked c d ht
      exact ⟨rfl, hr⟩

/-- What the loop over the columns touches. -/
theorem columns_frame : ∀ (cnt i : ℕ) (s t : St K X), s.out = i → columns o g locked cnt i s = some t →
    i ≤ t.out ∧ t.out ≤ i + cnt ∧ (∀ j, j < i → t.V j = s.V j ∧ t.R j = s.R j ∧ t.RL j = s.RL j ∧ t.diag j = s.diag j ∧
      t.replaced j = s.replaced j) ∧
    (∀ j, t.out < j → t.V j = s.V j) ∧ (t.out = i + cnt → t.V (i + cnt) = s.V (i + cnt)) ∧
    t.seed ≤ s.seed + maxNumRandoms * (t.out + 1 - i)
  | 0, i, s, t, hs, h => by
    injection h with h; subst h
    exact ⟨by omega, by omega, fun _ _ => ⟨rfl, rfl, rfl, rfl, rfl⟩, fun _ _ => rfl, fun _ => rfl, by omega⟩
  | cnt + 1, i, s, t, hs, h => by
    unfold columns at h
    obtain ⟨⟨c, ok⟩, hc⟩ := column_terminates o g ((List.range i).map s.V) locked _ _
      (start_budget g locked s i).1 (start_budget g locked s i).2
    rw [hc] at h
    have hsd := column_seed o g _ locked _ _ _ (start_budget g locked s i).1 (Nat.zero_le _) hc
    have e1 : (start g locked i s).seed = s.seed := rfl
    have e2 : (start g locked i s).rand = 0 := rfl
    rw [e1, e2] at hsd
    dsimp only at h hsd
    cases ok with
    | true =>
      rw [if_pos rfl] at h
      obtain ⟨a, b, d, e, f, k⟩ := columns_frame cnt (i + 1) _ t rfl h
      dsimp only at a b d e f k
      refine ⟨by omega, by omega, ?_, ?_, ?_, ?_⟩
      · intro j hj
        have := d j (by omega)
        simpa [show j ≠ i by omega] using this
      · intro j hj
        rw [e j hj, if_neg (by omega)]
      · intro hto
        rw [show i + (cnt + 1) = i + 1 + cnt by omega] at hto ⊢
        rw [f hto, if_neg (by omega)]
      · have : t.out + 1 - i = t.out + 1 - (i + 1) + 1 := by omega
        rw [this, Nat.mul_add]
        omega
    | false =>
      rw [if_neg (by simp)] at h
      injection h with h
      subst h
      dsimp only
      refine ⟨by omega, by omega, ?_, ?_, ?_, ?_⟩
      · intro j hj
        simp [show j ≠ i by omega]
      · intro j hj
        rw [if_neg (by omega)]
      · intro hto; omega
      · rw [hs]
        have : i + 1 - i = 1 := by omega
        rw [this]; omega

end general

section exact
variable {K X : Type} [Field K] [LinearOrder K] [AddCommGroup X] [Module K X] {o : Kern K X}

theorem subAll_eq (ho : Exact o) : ∀ (vs : List X) (as : List K) (x : X), subAll o vs as x = x - combo as vs
  | [], as, x => by cases as <;> simp [subAll, combo]
  | v :: vs, [], x => by simp [subAll, combo]
  | v :: vs, a :: as, x => by
    rw [subAll, subAll_eq ho vs as, ho.sub, combo]
    abel

theorem ip_zero (ho : Exact o) (v : X) : o.ip v 0 = 0 := by
  have := ho.smul v 0 0
  simpa using this

theorem ip_sub (ho : Exact o) (v x y : X) : o.ip v (x - y) = o.ip v x - o.ip v y := by
  have h1 := ho.add v (x - y) y
  rw [sub_add_cancel] at h1
  rw [h1]; ring

theorem ip_combo_perp (ho : Exact o) (u : X) : ∀ (as : List K) (L : List X), (∀ v ∈ L, o.ip u v = 0) →
    o.ip u (combo as L) = 0
  | [], L, h => by simp [combo, ip_zero ho]
  | a :: as, [], h => by simp [combo, ip_zero ho]
  | a :: as, v :: vs, h => by
    rw [combo, ho.add, ho.smul, h v (by simp), ip_combo_perp ho u as vs (fun w hw => h w (by simp [hw]))]
    ring

theorem ip_combo_self (ho : Exact o) (u : X) (f : X → K) : ∀ (L : List X), OrthonormalList o.ip L → u ∈ L →
    o.ip u (combo (L.map f) L) = f u
  | [], h, hu => by simp at hu
  | v :: vs, h, hu => by
    rw [List.map_cons, combo, ho.add, ho.smul]
    have hp := List.pairwise_cons.mp h.1
    rcases List.mem_cons.mp hu with rfl | hu'
    · rw [h.2 u (by simp), ip_combo_perp ho u _ vs (fun w hw => hp.1 w hw)]
      ring
    · rw [ip_combo_self ho u f vs ⟨hp.2, fun w hw => h.2 w (by simp [hw])⟩ hu', ho.symm, hp.1 u hu']
      ring

theorem combo_add (L : List X) : ∀ (as bs : List K), as.length = L.length → bs.length = L.length →
    combo (List.zipWith (· + ·) as bs) L = combo as L + combo bs L := by
  induction L with
  | nil => intro as bs ha hb; simp at ha hb; subst ha; subst hb; simp [combo]
  | cons v vs ih =>
    intro as bs ha hb
    cases as with
    | nil => simp at ha
    | cons a as =>
      cases bs with
      | nil => simp at hb
      | cons b bs =>
        rw [List.zipWith_cons_cons, combo, combo, combo, ih as bs (by simpa using ha) (by simpa using hb), add_smul]
        abel

theorem combo_zero (L : List X) : ∀ n, combo (List.replicate n (0 : K)) L = 0 := by
  induction L with
  | nil => intro n; cases n <;> simp [combo, List.replicate_succ]
  | cons v vs ih =>
    intro n
    cases n with
    | zero => simp [combo]
    | succ n => rw [List.replicate_succ, combo, ih]; simp

/-- The part of `x` orthogonal to `prev` and `locked`. -/
def resid (o : Kern K X) (prev locked : List X) (x : X) : X :=
  x - combo (locked.map (fun v => o.ip v x)) locked - combo (prev.map (fun v => o.ip v x)) prev

/-- The vectors already there: orthonormal. -/
structure Base (o : Kern K X) (prev locked : List X) : Prop where
  onPrev : OrthonormalList o.ip prev
  onLocked : OrthonormalList o.ip locked
  cross : ∀ u ∈ prev, ∀ l ∈ locked, o.ip l u = 0

variable {prev locked : List X}

theorem project_x (ho : Exact o) (c : Cur K X) : (project o prev locked c).x = resid o prev locked c.x := by
  unfold project resid
  dsimp only
  rw [subAll_eq ho, subAll_eq ho]

theorem resid_perp (ho : Exact o) (hb : Base o prev locked) (x : X) :
    Perp o.ip prev (resid o prev locked x) ∧ Perp o.ip locked (resid o prev locked x) := by
  unfold resid
  constructor
  · intro u hu
    rw [ip_sub ho, ip_sub ho, ip_combo_self ho u _ prev hb.onPrev hu,
      ip_combo_perp ho u _ locked (fun l hl => by rw [ho.symm]; exact hb.cross u hu l hl)]
    ring
  · intro l hl
    rw [ip_sub ho, ip_sub ho, ip_combo_self ho l _ locked hb.onLocked hl,
      ip_combo_perp ho l _ prev (fun u hu => hb.cross u hu l hl)]
    ring

theorem resid_sum (x : X) :
    x = combo (prev.map (fun v => o.ip v x)) prev + combo (locked.map (fun v => o.ip v x)) locked +
      resid o prev locked x := by
  unfold resid; abel

/-- Invariant of the loop on one column. -/
structure CInv (o : Kern K X) (g : Cfg K) (prev locked : List X) (x0 : X) (c : Cur K X) : Prop where
  le : c.nOrth ≤ g.maxNumOrthos
  lenr : c.rcol.length = prev.length
  lenl : c.lcol.length = locked.length
  upd : c.updateR = true → x0 = combo c.rcol prev + combo c.lcol locked + c.x ∧ c.rand = 0
  rep : g.wantR = true → c.updateR = false → c.diag = 0 ∧ 0 < c.rand ∧
    ∃ w, x0 = combo c.rcol prev + combo c.lcol locked + w ∧ Perp o.ip prev w ∧ Perp o.ip locked w
  perp : 1 ≤ c.nOrth → Perp o.ip prev c.x ∧ Perp o.ip locked c.x

theorem CInv.project (ho : Exact o) (hb : Base o prev locked) {g : Cfg K} {x0 : X} {c : Cur K X}
    (h : CInv o g prev locked x0 c) (hn : c.nOrth < g.maxNumOrthos) :
    CInv o g prev locked x0 (project o prev locked c) := by
  have hx := project_x (prev := prev) (locked := locked) ho c
  refine ⟨?_, ?_, ?_, ?_, ?_, ?_⟩
  · show c.nOrth + 1 ≤ _; omega
  · show (if c.updateR = true then List.zipWith (· + ·) c.rcol (prev.map (fun v => o.ip v c.x)) else c.rcol).length = _
    split_ifs
    · simp [h.lenr]
    · exact h.lenr
  · show (if c.updateR = true then List.zipWith (· + ·) c.lcol (locked.map (fun v => o.ip v c.x)) else c.lcol).length = _
    split_ifs
    · simp [h.lenl]
    · exact h.lenl
  · intro hu
    have hu : c.updateR = true := hu
    obtain ⟨e, r⟩ := h.upd hu
    refine ⟨?_, r⟩
    rw [hx]
    show x0 = combo (if c.updateR = true then List.zipWith (· + ·) c.rcol (prev.map (fun v => o.ip v c.x)) else c.rcol) prev +
      combo (if c.updateR = true then List.zipWith (· + ·) c.lcol (locked.map (fun v => o.ip v c.x)) else c.lcol) locked + _
    rw [if_pos hu, if_pos hu, combo_add _ _ _ h.lenr (by simp), combo_add _ _ _ h.lenl (by simp)]
    have := resid_sum (o := o) (prev := prev) (locked := locked) c.x
    rw [e]
    nth_rw 1 [this]
    abel
  · intro hw hu
    have hu : c.updateR = false := hu
    obtain ⟨d, r, w, e⟩ := h.rep hw hu
    refine ⟨d, r, w, ?_⟩
    show x0 = combo (if c.updateR = true then List.zipWith (· + ·) c.rcol (prev.map (fun v => o.ip v c.x)) else c.rcol) prev +
      combo (if c.updateR = true then List.zipWith (· + ·) c.lcol (locked.map (fun v => o.ip v c.x)) else c.lcol) locked + _ ∧ _
    rw [hu]
    exact e
  · intro _
    rw [hx]
    exact resid_perp ho hb c.x

theorem CInv.fresh {g : Cfg K} {x0 : X} {c : Cur K X} (h : CInv o g prev locked x0 c) (hn : g.maxNumOrthos ≤ c.nOrth) :
    CInv o g prev locked x0 { c with x := o.rnd c.seed, seed := c.seed + 1, rand := c.rand + 1, nOrth := 0,
                                     diag := if c.updateR then 0 else c.diag, updateR := false } := by
  have hm := max_pos g
  refine ⟨Nat.zero_le _, h.lenr, h.lenl, fun hu => (by cases hu), ?_, fun hc => absurd hc (by dsimp only; omega)⟩
  intro hw _
  dsimp only
  cases hu : c.updateR with
  | true => exact ⟨by simp, by omega, c.x, (h.upd hu).1, h.perp (by omega)⟩
  | false =>
    obtain ⟨d, r, w, e⟩ := h.rep hw hu
    exact ⟨by simpa using d, by omega, w, e⟩

/-- An accepted vector. -/
structure Taken (o : Kern K X) (g : Cfg K) (prev locked : List X) (x0 : X) (c : Cur K X) : Prop where
  unit : o.ip c.x c.x = 1
  perp : Perp o.ip prev c.x ∧ Perp o.ip locked c.x
  lenr : c.rcol.length = prev.length
  lenl : c.lcol.length = locked.length
  same : g.wantR = true → c.rand = 0 → x0 = combo c.rcol prev + combo c.lcol locked + c.diag • c.x ∧ 0 < c.diag
  rep : g.wantR = true → 0 < c.rand → c.diag = 0 ∧
    ∃ w, x0 = combo c.rcol prev + combo c.lcol locked + w ∧ Perp o.ip prev w ∧ Perp o.ip locked w

theorem taken_of_judge [IsStrictOrderedRing K] (ho : Exact o) {g : Cfg K} {x0 : X} {c d : Cur K X}
    (h : CInv o g prev locked x0 c) (hn : 1 ≤ c.nOrth) (hj : judge o g c = .accepted d) :
    Taken o g prev locked x0 d := by
  obtain ⟨s0, s1, t, -, e1, -, et, rfl⟩ := judge_accepted o g _ _ hj
  obtain ⟨p1, p2⟩ := ho.sqrt _ _ e1
  have p3 := ho.inv _ _ et
  have hpos : 0 < s1 := by
    rcases lt_or_eq_of_le p1 with h | h
    · exact h
    · rw [← h] at p3; simp at p3
  refine ⟨?_, ⟨?_, ?_⟩, h.lenr, h.lenl, ?_, ?_⟩
  · dsimp only
    rw [ho.scal, ho.smul, ho.symm, ho.smul, ← p2]
    calc t * (t * (s1 * s1)) = (t * s1) * (t * s1) := by ring
      _ = 1 := by rw [p3]; ring
  · intro v hv
    dsimp only
    rw [ho.scal, ho.smul, (h.perp hn).1 v hv, mul_zero]
  · intro v hv
    dsimp only
    rw [ho.scal, ho.smul, (h.perp hn).2 v hv, mul_zero]
  · intro hw hr
    dsimp only at hr ⊢
    cases hu : c.updateR with
    | true =>
      rw [if_pos rfl, ho.scal, smul_smul, mul_comm, p3, one_smul]
      exact ⟨(h.upd hu).1, hpos⟩
    | false => have := (h.rep hw hu).2.1; omega
  · intro hw hr
    dsimp only at hr ⊢
    cases hu : c.updateR with
    | true => have := (h.upd hu).2; omega
    | false =>
      obtain ⟨a, b, e⟩ := h.rep hw hu
      exact ⟨by simpa using a, e⟩

theorem column_taken [IsStrictOrderedRing K] (ho : Exact o) (hb : Base o prev locked) (g : Cfg K) (x0 : X) :
    ∀ (fuel : ℕ) (c d : Cur K X), CInv o g prev locked x0 c → column o g prev locked fuel c = some (d, true) →
      Taken o g prev locked x0 d
  | 0, c, d, h, hc => by cases hc
  | fuel + 1, c, d, h, hc => by
    unfold column at hc
    have hm := max_pos g
    cases ht : turn o g prev locked c with
    | failed e => rw [ht] at hc; simp at hc
    | accepted e =>
      rw [ht] at hc
      injection hc with hc
      injection hc with hc
      subst hc
      rcases turn_accepted o g prev locked c e ht with ⟨h1, hj⟩ | ⟨h1, h2, hj⟩
      · exact taken_of_judge ho (h.project ho hb h1) (by show 1 ≤ c.nOrth + 1; omega) hj
      · exact taken_of_judge ho ((h.fresh h1).project ho hb (by dsimp only; omega)) (by show 1 ≤ 0 + 1; omega) hj
    | again e =>
      rw [ht] at hc
      dsimp only at hc
      refine column_taken ho hb g x0 fuel e d ?_ hc
      have key : ∀ p : Cur K X, CInv o g prev locked x0 p → 1 ≤ p.nOrth → judge o g p = .again e →
          CInv o g prev locked x0 e := by
        intro p hp hp1 hj
        rcases judge_again o g _ _ hj with ⟨a1, a2, a3, a4, a5, a6, a7, a8, -⟩ | ⟨s0, s1, -, -, -, -, rfl⟩
        · refine ⟨by omega, by rw [a6]; exact hp.lenr, by rw [a7]; exact hp.lenl, ?_, ?_, ?_⟩
          · intro hu; rw [a6, a7, a2, a3]; exact hp.upd (by rw [← a5]; exact hu)
          · intro hw hu
            have hu' : p.updateR = false := by rw [← a5]; exact hu
            rw [a6, a7, a3, a8 hu']; exact hp.rep hw hu'
          · intro _; rw [a2]; exact hp.perp hp1
        · exact ⟨hp.le, hp.lenr, hp.lenl, hp.upd, hp.rep, hp.perp⟩
      unfold turn at ht
      rcases refresh_cases o g c with ⟨h1, h2⟩ | ⟨h1, h2, h3⟩ | ⟨h1, h2, h3⟩
      · rw [h2] at ht
        exact key _ (h.project ho hb h1) (by show 1 ≤ c.nOrth + 1; omega) ht
      · rw [h3] at ht; cases ht
      · rw [h3] at ht
        exact key _ ((h.fresh h1).project ho hb (by dsimp only; omega)) (by show 1 ≤ 0 + 1; omega) ht

theorem start_inv (g : Cfg K) (s : St K X) (i : ℕ) (hp : prev.length = i) :
    CInv o g prev locked (s.V i) (start g locked i s) := by
  refine ⟨Nat.zero_le _, by simp [start, hp], by simp [start], ?_, ?_, fun h => absurd h (by simp [start])⟩
  · intro _
    simp only [start]
    rw [combo_zero, combo_zero]
    simp
  · intro hw hu
    simp only [start] at hu
    rw [hw] at hu; cases hu

theorem on_list_iff (ho : Exact o) (V : ℕ → X) : ∀ k, OrthonormalList o.ip ((List.range k).map V) ↔ Orthonormal o.ip V k
  | 0 => ⟨fun _ i j hi => absurd hi (by omega), fun _ => ⟨by simp, by simp⟩⟩
  | k + 1 => by
    have ih := on_list_iff ho V k
    rw [List.range_succ, List.map_append]
    constructor
    · intro h i j hi hj
      have h1 : Orthonormal o.ip V k := ih.mp ⟨(List.pairwise_append.mp h.1).1, fun v hv => h.2 v (List.mem_append_left _ hv)⟩
      have hx := (List.pairwise_append.mp h.1).2.2
      by_cases hik : i = k
      · by_cases hjk : j = k
        · subst hik; subst hjk
          rw [if_pos rfl]; exact h.2 _ (by simp)
        · rw [if_neg (by omega), ho.symm]
          subst hik
          exact hx (V j) (List.mem_map.mpr ⟨j, by simp; omega, rfl⟩) (V i) (by simp)
      · by_cases hjk : j = k
        · rw [if_neg (by omega)]
          subst hjk
          exact hx (V i) (List.mem_map.mpr ⟨i, by simp; omega, rfl⟩) (V j) (by simp)
        · exact h1 i j (by omega) (by omega)
    · intro h
      have h1 := ih.mpr (fun i j hi hj => h i j (by omega) (by omega))
      constructor
      · refine List.pairwise_append.mpr ⟨h1.1, by simp, ?_⟩
        intro u hu v hv
        simp only [List.mem_map, List.mem_range, List.map_cons, List.map_nil, List.mem_singleton] at hu hv
        obtain ⟨i, hi, rfl⟩ := hu
        subst hv
        rw [h i k (by omega) (by omega), if_neg (by omega)]
      · intro v hv
        rw [List.mem_append] at hv
        rcases hv with hv | hv
        · exact h1.2 v hv
        · simp at hv; subst hv
          rw [h k k (by omega) (by omega), if_pos rfl]

theorem map_range_congr {α : Type} (f g : ℕ → α) (k : ℕ) (h : ∀ j, j < k → f j = g j) :
    (List.range k).map f = (List.range k).map g :=
  List.map_congr_left (fun j hj => h j (by simpa using hj))

/-- What is known of an accepted column. -/
structure Fact (o : Kern K X) (g : Cfg K) (locked : List X) (V0 : ℕ → X) (t : St K X) (j : ℕ) : Prop where
  lenr : (t.R j).length = j
  lenl : (t.RL j).length = locked.length
  same : g.wantR = true → t.replaced j = false →
    V0 j = combo (t.R j) ((List.range j).map t.V) + combo (t.RL j) locked + t.diag j • t.V j ∧ 0 < t.diag j
  rep : g.wantR = true → t.replaced j = true → t.diag j = 0 ∧
    ∃ w, V0 j = combo (t.R j) ((List.range j).map t.V) + combo (t.RL j) locked + w ∧
      (∀ k, k < j → o.ip (t.V k) w = 0) ∧ ∀ l ∈ locked, o.ip l w = 0

theorem columns_exact [IsStrictOrderedRing K] (ho : Exact o) (g : Cfg K) (hl : OrthonormalList o.ip locked) :
    ∀ (cnt i : ℕ) (s t : St K X), s.out = i → Orthonormal o.ip s.V i → (∀ j, j < i → ∀ l ∈ locked, o.ip l (s.V j) = 0) →
      columns o g locked cnt i s = some t →
      Orthonormal o.ip t.V t.out ∧ (∀ j, j < t.out → ∀ l ∈ locked, o.ip l (t.V j) = 0) ∧
        ∀ j, i ≤ j → j < t.out → Fact o g locked s.V t j
  | 0, i, s, t, hs, h1, h2, h => by
    injection h with h; subst h
    exact ⟨by rw [hs]; exact h1, by rw [hs]; exact h2, fun j hj hj' => absurd hj' (by omega)⟩
  | cnt + 1, i, s, t, hs, h1, h2, h => by
    unfold columns at h
    obtain ⟨⟨c, ok⟩, hc⟩ := column_terminates o g ((List.range i).map s.V) locked _ _
      (start_budget g locked s i).1 (start_budget g locked s i).2
    rw [hc] at h
    dsimp only at h
    cases ok with
    | false =>
      rw [if_neg (by simp)] at h
      injection h with h
      subst h
      dsimp only
      rw [hs]
      refine ⟨?_, ?_, fun j hj hj' => absurd hj' (by omega)⟩
      · intro a b ha hb
        dsimp only
        rw [if_neg (show a ≠ i by omega), if_neg (show b ≠ i by omega)]
        exact h1 a b ha hb
      · intro j hj
        rw [if_neg (by omega)]; exact h2 j hj
    | true =>
      rw [if_pos rfl] at h
      have hb : Base o ((List.range i).map s.V) locked := by
        refine ⟨(on_list_iff ho s.V i).mpr h1, hl, ?_⟩
        intro u hu l hl'
        simp only [List.mem_map, List.mem_range] at hu
        obtain ⟨j, hj, rfl⟩ := hu
        exact h2 j hj l hl'
      have tk := column_taken ho hb g (s.V i) _ _ _ (start_inv g s i (by simp)) hc
      have hperp : ∀ k, k < i → o.ip (s.V k) c.x = 0 := fun k hk =>
        tk.perp.1 _ (List.mem_map.mpr ⟨k, by simpa using hk, rfl⟩)
      have hon : Orthonormal o.ip (fun j => if j = i then c.x else s.V j) (i + 1) := by
        intro a b ha hb
        dsimp only
        by_cases hai : a = i
        · by_cases hbi : b = i
          · rw [if_pos hai, if_pos hbi, if_pos (by omega)]; exact tk.unit
          · rw [if_pos hai, if_neg hbi, if_neg (by omega), ho.symm]; exact hperp b (by omega)
        · by_cases hbi : b = i
          · rw [if_neg hai, if_pos hbi, if_neg (by omega)]; exact hperp a (by omega)
          · rw [if_neg hai, if_neg hbi]; exact h1 a b (by omega) (by omega)
      have hlk : ∀ j, j < i + 1 → ∀ l ∈ locked, o.ip l ((fun j => if j = i then c.x else s.V j) j) = 0 := by
        intro j hj l hl'
        dsimp only
        by_cases hji : j = i
        · rw [if_pos hji]; exact tk.perp.2 l hl'
        · rw [if_neg hji]; exact h2 j (by omega) l hl'
      obtain ⟨r1, r2, r3⟩ := columns_exact ho g hl cnt (i + 1) _ t rfl hon hlk h
      refine ⟨r1, r2, ?_⟩
      intro j hj hj'
      by_cases hji : j = i
      · subst hji
        obtain ⟨-, -, f, -⟩ := columns_frame o g locked cnt (j + 1) _ t rfl h
        obtain ⟨f1, f2, f3, f4, f5⟩ := f j (by omega)
        dsimp only at f1 f2 f3 f4 f5
        rw [if_pos rfl] at f1 f2 f3 f4 f5
        have hm : (List.range j).map t.V = (List.range j).map s.V := by
          apply map_range_congr
          intro k hk
          rw [(f k (by omega)).1]
          dsimp only
          rw [if_neg (by omega)]
        refine ⟨by rw [f2]; simpa using tk.lenr, by rw [f3]; exact tk.lenl, ?_, ?_⟩
        · intro hw hr
          rw [f5] at hr
          rw [f1, f2, f3, f4, hm]
          exact tk.same hw (by simpa using hr)
        · intro hw hr
          rw [f5] at hr
          rw [f2, f3, f4, hm]
          obtain ⟨a, w, b, d, e⟩ := tk.rep hw (by simpa using hr)
          refine ⟨a, w, b, ?_, e⟩
          intro k hk
          rw [(f k (by omega)).1]
          dsimp only
          rw [if_neg (by omega)]
          exact d _ (List.mem_map.mpr ⟨k, by simpa using hk, rfl⟩)
      · have := r3 j (by omega) hj'
        refine ⟨this.lenr, this.lenl, ?_, ?_⟩
        · have h := this.same
          dsimp only at h
          rwa [if_neg hji] at h
        · have h := this.rep
          dsimp only at h
          rwa [if_neg hji] at h

/-! Which vectors are replaced. -/

theorem combo_map_zero (L : List X) (f : X → K) (h : ∀ v ∈ L, f v = 0) : combo (L.map f) L = 0 := by
  induction L with
  | nil => simp [combo]
  | cons v vs ih =>
    rw [List.map_cons, combo, h v (by simp), ih (fun w hw => h w (by simp [hw]))]
    simp

theorem resid_of_perp (x : X) (h1 : Perp o.ip prev x) (h2 : Perp o.ip locked x) : resid o prev locked x = x := by
  unfold resid
  rw [combo_map_zero _ _ h1, combo_map_zero _ _ h2]
  simp

theorem zipWith_zero (L : List X) (f : X → K) (h : ∀ v ∈ L, f v = 0) : ∀ (as : List K), as.length = L.length →
    List.zipWith (· + ·) as (L.map f) = as := by
  induction L with
  | nil => intro as ha; simp at ha; simp [ha]
  | cons v vs ih =>
    intro as ha
    cases as with
    | nil => simp at ha
    | cons a as =>
      rw [List.map_cons, List.zipWith_cons_cons, h v (by simp), ih (fun w hw => h w (by simp [hw])) as (by simpa using ha)]
      simp

theorem zipWith_replicate (L : List X) (f : X → K) :
    List.zipWith (· + ·) (List.replicate L.length 0) (L.map f) = L.map f := by
  induction L with
  | nil => simp
  | cons v vs ih => simp [List.replicate_succ, ih]

/-- The part of `x` outside the span of the vectors already there is no more than `eps` times `x`. -/
def Negligible (o : Kern K X) (g : Cfg K) (prev locked : List X) (x : X) : Prop :=
  ∃ a b, o.sqrt (o.ip x x) = some a ∧ o.sqrt (o.ip (resid o prev locked x) (resid o prev locked x)) = some b ∧ b ≤ g.eps * a

theorem column_rand (g : Cfg K) : ∀ (fuel : ℕ) (c d : Cur K X) (ok : Bool),
    column o g prev locked fuel c = some (d, ok) → c.rand ≤ d.rand ∧ (c.nOrth ≥ g.maxNumOrthos → 0 < d.rand)
  | 0, c, d, ok, h => by cases h
  | fuel + 1, c, d, ok, h => by
    unfold column at h
    unfold turn at h
    rcases refresh_cases o g c with ⟨h1, h2⟩ | ⟨h1, h2, h3⟩ | ⟨h1, h2, h3⟩
    · rw [h2] at h
      dsimp only at h
      have e : (project o prev locked c).rand = c.rand := rfl
      cases hj : judge o g (project o prev locked c) with
      | failed x => exact absurd hj (judge_failed o g _ _)
      | accepted x =>
        rw [hj] at h
        obtain ⟨_, _, _, -, -, -, -, rfl⟩ := judge_accepted o g _ _ hj
        injection h with h; injection h with h; subst h
        exact ⟨le_refl _, fun hx => absurd hx (by omega)⟩
      | again x =>
        rw [hj] at h
        have := column_rand g fuel x d ok h
        have : x.rand = c.rand := by
          rcases judge_again o g _ _ hj with ⟨-, -, a, -⟩ | ⟨s0, s1, -, -, -, -, rfl⟩
          · rw [a]; rfl
          · rfl
        exact ⟨by omega, fun hx => absurd hx (by omega)⟩
    · rw [h3] at h
      injection h with h; injection h with h; subst h
      exact ⟨le_refl _, fun _ => by dsimp only; unfold maxNumRandoms at h2; omega⟩
    · rw [h3] at h
      dsimp only at h
      generalize hp : project o prev locked _ = p at h
      have e : p.rand = c.rand + 1 := by rw [← hp]; rfl
      cases hj : judge o g p with
      | failed x => exact absurd hj (judge_failed o g _ _)
      | accepted x =>
        rw [hj] at h
        obtain ⟨_, _, _, -, -, -, -, rfl⟩ := judge_accepted o g _ _ hj
        injection h with h; injection h with h; subst h
        exact ⟨by dsimp only; omega, fun hx => by dsimp only; omega⟩
      | again x =>
        rw [hj] at h
        have := column_rand g fuel x d ok h
        have : x.rand = p.rand := by
          rcases judge_again o g _ _ hj with ⟨-, -, a, -⟩ | ⟨s0, s1, -, -, -, -, rfl⟩
          · rw [a]
          · rfl
        exact ⟨by omega, fun hx => by omega⟩

/-- The outcome of a column that needs no replacement. -/
structure Direct (o : Kern K X) (g : Cfg K) (prev locked : List X) (x0 : X) (d : Cur K X) : Prop where
  rand : d.rand = 0
  r : g.wantR = true → d.rcol = prev.map (fun v => o.ip v x0)
  l : g.wantR = true → d.lcol = locked.map (fun v => o.ip v x0)

variable [IsStrictOrderedRing K]

/-- Later passes on a vector already orthogonal. -/
theorem column_later (ho : Exact o) (hd : Definite o) (hb : Base o prev locked) (g : Cfg K) (he : 0 ≤ g.eps) (he1 : g.eps < 1)
    (ht : g.tol < 1) (x0 : X) (b : K) (hbs : o.sqrt (o.ip (resid o prev locked x0) (resid o prev locked x0)) = some b)
    (hbp : 0 < b) : ∀ (fuel : ℕ) (c d : Cur K X) (ok : Bool), c.nOrth < g.maxNumOrthos → 1 ≤ c.nOrth → c.s0 = some b →
      c.x = resid o prev locked x0 → Direct o g prev locked x0 c → c.updateR = g.wantR → c.rcol.length = prev.length →
      c.lcol.length = locked.length →
      column o g prev locked fuel c = some (d, ok) → ok = true ∧ Direct o g prev locked x0 d
  | 0, c, d, ok, _, _, _, _, _, _, _, _, h => by cases h
  | fuel + 1, c, d, ok, h1, h2, h3, h4, h5, h6, l1, l2, h => by
    unfold column at h
    unfold turn at h
    rcases refresh_cases o g c with ⟨_, hr⟩ | ⟨hx, _, _⟩ | ⟨hx, _, _⟩
    swap; · omega
    swap; · omega
    rw [hr] at h
    dsimp only at h
    have hp := resid_perp ho hb x0
    have px : (project o prev locked c).x = resid o prev locked x0 := by
      rw [project_x ho, h4, resid_of_perp _ hp.1 hp.2]
    have ps : (project o prev locked c).s0 = some b := by
      show (if c.nOrth + 1 = 1 then _ else c.s0) = _
      rw [if_neg (by omega), h3]
    have pn : (project o prev locked c).nOrth = c.nOrth + 1 := rfl
    have pr : (project o prev locked c).rcol = c.rcol := by
      show (if c.updateR = true then List.zipWith (· + ·) c.rcol (prev.map (fun v => o.ip v c.x)) else c.rcol) = _
      split_ifs
      · rw [h4]; exact zipWith_zero prev _ hp.1 _ l1
      · rfl
    have pl : (project o prev locked c).lcol = c.lcol := by
      show (if c.updateR = true then List.zipWith (· + ·) c.lcol (locked.map (fun v => o.ip v c.x)) else c.lcol) = _
      split_ifs
      · rw [h4]; exact zipWith_zero locked _ hp.2 _ l2
      · rfl
    have prnd : (project o prev locked c).rand = c.rand := rfl
    have pu : (project o prev locked c).updateR = c.updateR := rfl
    generalize project o prev locked c = p at h px ps pn pr pl prnd pu
    have hlt : g.eps * b < b := by nlinarith
    have hlt2 : g.tol * b < b := by nlinarith
    have hdir : Direct o g prev locked x0 p := ⟨by rw [prnd]; exact h5.rand, by rw [pr]; exact h5.r, by rw [pl]; exact h5.l⟩
    cases hj : judge o g p with
    | failed x => exact absurd hj (judge_failed o g _ _)
    | accepted x =>
      rw [hj] at h
      obtain ⟨_, _, _, -, -, -, -, rfl⟩ := judge_accepted o g _ _ hj
      injection h with h; injection h with h h'; subst h
      exact ⟨h'.symm, hdir.rand, hdir.r, hdir.l⟩
    | again x =>
      rw [hj] at h
      dsimp only at h
      rcases judge_again o g _ _ hj with ⟨-, -, -, -, -, -, -, -, hc⟩ | ⟨s0, s1, e0, e1, -, e3, rfl⟩
      · exfalso
        rw [ps, px, hbs] at hc
        rcases hc with hc | hc | ⟨s0, s1, e0, e1, hc⟩
        · cases hc
        · cases hc
        · injection e0 with e0; injection e1 with e1; subst e0; subst e1
          rcases hc with hc | hc
          · linarith
          · obtain ⟨t, ht⟩ := hd.inv_some b (by linarith)
            rw [ht] at hc; cases hc.1
      · rw [ps] at e0; rw [px, hbs] at e1
        injection e0 with e0; injection e1 with e1; subst e0; subst e1
        rcases e3 with e3 | ⟨e3, e4⟩
        · linarith
        · exact column_later ho hd hb g he he1 ht x0 b hbs hbp fuel { p with s0 := some b } d ok e4 (by dsimp only; omega) rfl px
            ⟨hdir.rand, hdir.r, hdir.l⟩ (by dsimp only; rw [pu, h6]) (by dsimp only; rw [pr, l1]) (by dsimp only; rw [pl, l2]) h

theorem column_first (ho : Exact o) (hd : Definite o) (hb : Base o prev locked) (g : Cfg K) (he : 0 ≤ g.eps) (he1 : g.eps < 1)
    (ht : g.tol < 1) (s : St K X) (i : ℕ) (hi : prev.length = i) (fuel : ℕ) (d : Cur K X) (ok : Bool)
    (h : column o g prev locked fuel (start g locked i s) = some (d, ok)) :
    (Negligible o g prev locked (s.V i) → 0 < d.rand) ∧
    (¬ Negligible o g prev locked (s.V i) → ok = true ∧ Direct o g prev locked (s.V i) d) := by
  obtain ⟨a, ha⟩ := hd.sqrt_some _ (hd.nonneg (s.V i))
  obtain ⟨b, hbs⟩ := hd.sqrt_some _ (hd.nonneg (resid o prev locked (s.V i)))
  have ha0 := (ho.sqrt _ _ ha).1
  have hb0 := (ho.sqrt _ _ hbs).1
  have hneg : Negligible o g prev locked (s.V i) ↔ b ≤ g.eps * a := by
    constructor
    · rintro ⟨a', b', h1, h2, h3⟩
      rw [ha] at h1; rw [hbs] at h2
      injection h1 with h1; injection h2 with h2; subst h1; subst h2; exact h3
    · intro h; exact ⟨a, b, ha, hbs, h⟩
  cases fuel with
  | zero => cases h
  | succ fuel =>
  unfold column at h
  unfold turn at h
  have hm := max_pos g
  have hst : (start g locked i s).nOrth = 0 := rfl
  rcases refresh_cases o g (start g locked i s) with ⟨_, hr⟩ | ⟨hx, _, _⟩ | ⟨hx, _, _⟩
  swap; · omega
  swap; · omega
  rw [hr] at h
  dsimp only at h
  have px : (project o prev locked (start g locked i s)).x = resid o prev locked (s.V i) := project_x ho _
  have ps : (project o prev locked (start g locked i s)).s0 = some a := by
    show (if 0 + 1 = 1 then o.sqrt (o.ip (s.V i) (s.V i)) else some 0) = _
    rw [if_pos rfl, ha]
  have pn : (project o prev locked (start g locked i s)).nOrth = 1 := rfl
  have pr : g.wantR = true → (project o prev locked (start g locked i s)).rcol = prev.map (fun v => o.ip v (s.V i)) := by
    intro hw
    show (if g.wantR = true then List.zipWith (· + ·) (List.replicate i 0) (prev.map (fun v => o.ip v (s.V i))) else List.replicate i 0) = _
    rw [if_pos hw, ← hi, zipWith_replicate]
  have pl : g.wantR = true → (project o prev locked (start g locked i s)).lcol = locked.map (fun v => o.ip v (s.V i)) := by
    intro hw
    show (if g.wantR = true then List.zipWith (· + ·) (List.replicate locked.length 0) (locked.map (fun v => o.ip v (s.V i))) else List.replicate locked.length 0) = _
    rw [if_pos hw, zipWith_replicate]
  have lr : (project o prev locked (start g locked i s)).rcol.length = prev.length := by
    show (if g.wantR = true then List.zipWith (· + ·) (List.replicate i 0) (prev.map (fun v => o.ip v (s.V i))) else
      List.replicate i 0).length = _
    split_ifs <;> simp [hi]
  have ll : (project o prev locked (start g locked i s)).lcol.length = locked.length := by
    show (if g.wantR = true then List.zipWith (· + ·) (List.replicate locked.length 0) (locked.map (fun v => o.ip v (s.V i))) else
      List.replicate locked.length 0).length = _
    split_ifs <;> simp
  have prnd : (project o prev locked (start g locked i s)).rand = 0 := rfl
  have pu : (project o prev locked (start g locked i s)).updateR = g.wantR := rfl
  generalize project o prev locked (start g locked i s) = p at h px ps pn pr pl lr ll prnd pu
  rw [hneg]
  cases hj : judge o g p with
  | failed x => exact absurd hj (judge_failed o g _ _)
  | accepted x =>
    rw [hj] at h
    obtain ⟨s0, s1, t, e0, e1, e2, e3, rfl⟩ := judge_accepted o g _ _ hj
    rw [ps] at e0; rw [px, hbs] at e1
    injection e0 with e0; injection e1 with e1; subst e0; subst e1
    injection h with h; injection h with h h'; subst h
    exact ⟨fun hc => absurd hc e2, fun _ => ⟨h'.symm, prnd, pr, pl⟩⟩
  | again x =>
    rw [hj] at h
    dsimp only at h
    rcases judge_again o g _ _ hj with ⟨q1, q2, q3, q4, q5, q6, q7, q8, hc⟩ | ⟨s0, s1, e0, e1, e2, e3, rfl⟩
    · refine ⟨fun _ => (column_rand g fuel x d ok h).2 (by omega), fun hn => ?_⟩
      exfalso
      rw [ps, px, hbs] at hc
      rcases hc with hc | hc | ⟨s0, s1, e0, e1, hc⟩
      · cases hc
      · cases hc
      · injection e0 with e0; injection e1 with e1; subst e0; subst e1
        rcases hc with hc | hc
        · exact hn hc
        · have : 0 ≤ g.eps * a := mul_nonneg he ha0
          obtain ⟨t, ht⟩ := hd.inv_some b (by intro hz; rw [hz] at hn; exact hn this)
          rw [ht] at hc; cases hc.1
    · rw [ps] at e0; rw [px, hbs] at e1
      injection e0 with e0; injection e1 with e1; subst e0; subst e1
      refine ⟨fun hc => absurd hc e2, fun _ => ?_⟩
      have hbp : 0 < b := by
        have : 0 ≤ g.eps * a := mul_nonneg he ha0
        exact lt_of_le_of_lt this (not_le.mp e2)
      have hmm : 1 < g.maxNumOrthos := by unfold Cfg.maxNumOrthos; split_ifs <;> omega
      exact column_later ho hd hb g he he1 ht (s.V i) b hbs hbp fuel { p with s0 := some b } d ok (by dsimp only; omega) (by dsimp only; omega) rfl px
        ⟨prnd, pr, pl⟩ pu lr ll h

theorem columns_definite (ho : Exact o) (hd : Definite o) (g : Cfg K) (he : 0 ≤ g.eps) (he1 : g.eps < 1)
    (ht : g.tol < 1) (hl : OrthonormalList o.ip locked) :
    ∀ (cnt i : ℕ) (s t : St K X), s.out = i → Orthonormal o.ip s.V i → (∀ j, j < i → ∀ l ∈ locked, o.ip l (s.V j) = 0) →
      columns o g locked cnt i s = some t →
      (∀ j, i ≤ j → j < t.out → (t.replaced j = true ↔ Negligible o g ((List.range j).map t.V) locked (s.V j)) ∧
        (g.wantR = true → t.replaced j = false → t.R j = ((List.range j).map t.V).map (fun v => o.ip v (s.V j)) ∧
          t.RL j = locked.map (fun v => o.ip v (s.V j)))) ∧
      (t.out < i + cnt → Negligible o g ((List.range t.out).map t.V) locked (s.V t.out))
  | 0, i, s, t, hs, h1, h2, h => by
    injection h with h; subst h
    exact ⟨fun j hj hj' => absurd hj' (by omega), fun hc => absurd hc (by omega)⟩
  | cnt + 1, i, s, t, hs, h1, h2, h => by
    unfold columns at h
    obtain ⟨⟨c, ok⟩, hc⟩ := column_terminates o g ((List.range i).map s.V) locked _ _
      (start_budget g locked s i).1 (start_budget g locked s i).2
    rw [hc] at h
    dsimp only at h
    have hb : Base o ((List.range i).map s.V) locked := by
      refine ⟨(on_list_iff ho s.V i).mpr h1, hl, ?_⟩
      intro u hu l hl'
      simp only [List.mem_map, List.mem_range] at hu
      obtain ⟨j, hj, rfl⟩ := hu
      exact h2 j hj l hl'
    obtain ⟨k1, k2⟩ := column_first ho hd hb g he he1 ht s i (by simp) _ _ _ hc
    cases ok with
    | false =>
      rw [if_neg (by simp)] at h
      injection h with h
      subst h
      dsimp only
      rw [hs]
      refine ⟨fun j hj hj' => absurd hj' (by omega), fun _ => ?_⟩
      by_contra hn
      rw [map_range_congr _ s.V i (fun j hj => if_neg (by omega))] at hn
      have := (k2 hn).1
      cases this
    | true =>
      rw [if_pos rfl] at h
      have tk := column_taken ho hb g (s.V i) _ _ _ (start_inv g s i (by simp)) hc
      have hperp : ∀ k, k < i → o.ip (s.V k) c.x = 0 := fun k hk =>
        tk.perp.1 _ (List.mem_map.mpr ⟨k, by simpa using hk, rfl⟩)
      have hon : Orthonormal o.ip (fun j => if j = i then c.x else s.V j) (i + 1) := by
        intro a b ha hb
        dsimp only
        by_cases hai : a = i
        · by_cases hbi : b = i
          · rw [if_pos hai, if_pos hbi, if_pos (by omega)]; exact tk.unit
          · rw [if_pos hai, if_neg hbi, if_neg (by omega), ho.symm]; exact hperp b (by omega)
        · by_cases hbi : b = i
          · rw [if_neg hai, if_pos hbi, if_neg (by omega)]; exact hperp a (by omega)
          · rw [if_neg hai, if_neg hbi]; exact h1 a b (by omega) (by omega)
      have hlk : ∀ j, j < i + 1 → ∀ l ∈ locked, o.ip l ((fun j => if j = i then c.x else s.V j) j) = 0 := by
        intro j hj l hl'
        dsimp only
        by_cases hji : j = i
        · rw [if_pos hji]; exact tk.perp.2 l hl'
        · rw [if_neg hji]; exact h2 j (by omega) l hl'
      obtain ⟨r1, r2⟩ := columns_definite ho hd g he he1 ht hl cnt (i + 1) _ t rfl hon hlk h
      obtain ⟨fa, -, f, -⟩ := columns_frame o g locked cnt (i + 1) _ t rfl h
      constructor
      · intro j hj hj'
        by_cases hji : j = i
        · subst hji
          obtain ⟨f1, f2, f3, f4, f5⟩ := f j (by omega)
          dsimp only at f1 f2 f3 f4 f5
          rw [if_pos rfl] at f1 f2 f3 f4 f5
          have hm : (List.range j).map t.V = (List.range j).map s.V := by
            apply map_range_congr
            intro k hk
            rw [(f k (by omega)).1]
            dsimp only
            rw [if_neg (by omega)]
          rw [hm, f5, f2, f3]
          refine ⟨⟨fun hr => ?_, fun hn => by simpa using k1 hn⟩, fun hw hr => ?_⟩
          · by_contra hn
            have := (k2 hn).2.rand
            simp at hr; omega
          · have hn : ¬ Negligible o g ((List.range j).map s.V) locked (s.V j) := by
              intro hn
              have := k1 hn
              simp at hr; omega
            exact ⟨(k2 hn).2.r hw, (k2 hn).2.l hw⟩
        · have := r1 j (by omega) hj'
          dsimp only at this
          rwa [if_neg hji] at this
      · intro hc'
        have := r2 (by omega)
        dsimp only at this
        rwa [if_neg (by omega)] at this

theorem resid_eq (V : ℕ → X) (j : ℕ) (x : X) : resid o ((List.range j).map V) locked x = remainder o.ip locked V j x := by
  unfold resid remainder
  rw [List.map_map]
  rfl

end exact

end Verif.Ortho
