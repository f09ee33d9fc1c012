import Verif.Model.Prepare
import Mathlib.Tactic.SplitIfs

/-! Invariants of the model of `prepare_candidates`. -/

namespace Verif.Prepare
open Verif Verif.Restart

/-- The requirements of one call: sizes, and what the first `bn` positions of the block hold. -/
structure Pre (P : Par) (J : Job) (bn : ℕ) (flags : List Flag) (iev xr : Arr) (nrm : Norms) : Prop where
  fits : J.basisSize ≤ flags.length
  old : bn ≤ J.avail
  block : J.avail ≤ P.maxBlockSize
  room : J.xrOn = true → J.avail ≤ J.cols
  wanted : 0 < J.remained → J.avail + J.numConverged ≤ P.numEvals + 1
  sided : P.side = true → P.locking = true
  here : ∀ k, k < bn → ∃ i b, iev k = some i ∧ i < J.basisSize ∧ nrm k = some (i, b) ∧ (J.xrOn = true → xr k = some i)
  incr : ∀ k l i j, k < l → l < bn → iev k = some i → iev l = some j → i < j

/-- Unconverged pairs that may be left out of the block: those on the wrong side of the shift, and those
that the pairs handed over by the caller (the first `bn` entries of `iev`) jump over. -/
def Excused (P : Par) (a : Ans) (bn : ℕ) (iev : Arr) (i : ℕ) : Prop :=
  (P.side = true ∧ a.wrong i = true) ∨
    ((∃ k j, k < bn ∧ iev k = some j ∧ i < j) ∧ ∀ k, k < bn → iev k ≠ some i)

/-- Invariant of the loops; `m` pairs of the round are still to be visited, from position `blki` on. `ex`
are pairs that need not be in the block. -/
structure Inv (P : Par) (J : Job) (a : Ans) (ex : ℕ → Prop) (f0 : List Flag) (m blki : ℕ) (s : St) : Prop where
  len : s.flags.length = f0.length
  fits : J.basisSize ≤ f0.length
  le : s.bs ≤ blki
  top : blki + m ≤ J.avail
  room : (s.bs : Int) + m ≤ s.maxBlock
  cap : s.maxBlock ≤ J.avail
  wanted : 0 < J.remained → s.maxBlock + s.recent + J.numConverged ≤ P.numEvals + 1
  recent : s.recent ≤ J.remained
  counted : s.recent = s.counted.length
  next : s.next ≤ J.basisSize
  block : ∀ k, k < s.bs → ∃ i b, s.iev k = some i ∧ i < s.next ∧ s.flags[i]? = some .unconverged ∧
    s.nrm k = some (i, b) ∧ (J.xrOn = true → s.xr k = some i)
  incr : ∀ k l i j, k < l → l < s.bs → s.iev k = some i → s.iev l = some j → i < j
  pend : ∀ k, blki ≤ k → k < blki + m → ∃ i b, s.iev k = some i ∧ s.next ≤ i ∧ i < J.basisSize ∧
    s.nrm k = some (i, b) ∧ (J.xrOn = true → s.xr k = some i)
  pincr : ∀ k l i j, blki ≤ k → k < l → l < blki + m → s.iev k = some i → s.iev l = some j → i < j
  done : ∀ i ∈ s.counted, i < s.next ∧ eligible P J.numLocked i = true ∧ ∃ f, s.flags[i]? = some f ∧ f ≠ .unconverged ∧
    ∃ r t, a.check r t = f
  sorted : s.counted.Pairwise (· < ·)
  frame : ∀ i, s.next ≤ i → s.flags[i]? = f0[i]?
  exact : s.maxBlock = if s.recent = 0 then (J.avail : Int) else min (J.avail : Int) ((P.numEvals : Int) + 1 - s.recent - J.numConverged)
  cover : ∀ i, i < s.next → s.flags[i]? = some .unconverged → (∃ k, k < s.bs ∧ s.iev k = some i) ∨ ex i
  pcover : ∀ k j i, blki ≤ k → k < blki + m → s.iev k = some j → s.next ≤ i → i < j → s.flags[i]? = some .unconverged →
    (∃ l, blki ≤ l ∧ l < k ∧ s.iev l = some i) ∨ ex i

section
variable {P : Par} {J : Job} {a : Ans} {f0 : List Flag} {ex : ℕ → Prop}

theorem set_other {l : List Flag} {i j : ℕ} {f : Flag} (h : i ≠ j) : (l.set i f)[j]? = l[j]? := by
  rw [List.getElem?_set]; simp [h]

theorem set_same {l : List Flag} {i : ℕ} {f : Flag} (h : i < l.length) : (l.set i f)[i]? = some f := by
  rw [List.getElem?_set]; simp [h]

theorem visit_inv (hs : J.avail ≤ P.maxBlockSize) (hc : J.xrOn = true → J.avail ≤ J.cols)
    (hside : P.side = true → P.locking = true) (hex : ∀ i, P.side = true → a.wrong i = true → ex i) {m blki : ℕ} {s : St} (f : Flag) (hf : ∃ r t, a.check r t = f) (h : Inv P J a ex f0 (m + 1) blki s) :
    ∃ s', visit P J a f blki s = .ok s' ∧ Inv P J a ex f0 m (blki + 1) s' ∧ s.next < s'.next := by
  obtain ⟨i, b, e1, e2, e3, e4, e5⟩ := h.pend blki (Nat.le_refl _) (by omega)
  have htop := h.top
  have hroom := h.room
  have hlen : i < s.flags.length := by have := h.len; have := h.fits; omega
  have hrd : rd P.maxBlockSize s.iev blki = .ok i := by
    unfold rd; rw [if_pos (by omega)]; simp [e1]
  have hrn : rdN P.maxBlockSize s.nrm blki = .ok (i, b) := by
    unfold rdN; rw [if_pos (by omega)]; simp [e4]
  have hblock : ∀ k, k < s.bs → ∃ i' b, s.iev k = some i' ∧ i' < i + 1 ∧ (s.flags.set i f)[i']? = some .unconverged ∧
      s.nrm k = some (i', b) ∧ (J.xrOn = true → s.xr k = some i') := by
    intro k hk
    obtain ⟨i', b', q1, q2, q3, q4, q5⟩ := h.block k hk
    exact ⟨i', b', q1, by omega, by rw [set_other (by omega)]; exact q3, q4, q5⟩
  have hpend : ∀ k, blki + 1 ≤ k → k < blki + 1 + m → ∃ i' b, s.iev k = some i' ∧ i + 1 ≤ i' ∧ i' < J.basisSize ∧
      s.nrm k = some (i', b) ∧ (J.xrOn = true → s.xr k = some i') := by
    intro k hk1 hk2
    obtain ⟨i', b', q1, q2, q3, q4, q5⟩ := h.pend k (by omega) (by omega)
    have := h.pincr blki k i i' (Nat.le_refl _) (by omega) (by omega) e1 q1
    exact ⟨i', b', q1, by omega, q3, q4, q5⟩
  have hpincr : ∀ k l i j, blki + 1 ≤ k → k < l → l < blki + 1 + m → s.iev k = some i → s.iev l = some j → i < j :=
    fun k l i j h1 h2 h3 h4 h5 => h.pincr k l i j (by omega) h2 (by omega) h4 h5
  have hdone : ∀ i' ∈ s.counted, i' < i + 1 ∧ eligible P J.numLocked i' = true ∧
      ∃ g, (s.flags.set i f)[i']? = some g ∧ g ≠ .unconverged ∧ ∃ r t, a.check r t = g := by
    intro i' hi
    obtain ⟨q1, q2, g, q3, q4⟩ := h.done i' hi
    exact ⟨by omega, q2, g, by rw [set_other (by omega)]; exact q3, q4⟩
  have hframe : ∀ i', i + 1 ≤ i' → (s.flags.set i f)[i']? = f0[i']? := by
    intro i' hi
    rw [set_other (by omega)]
    exact h.frame i' (by omega)
  have hle := h.le
  have hcover : ∀ (bs' : ℕ) (iev' : Arr), s.bs ≤ bs' → (∀ k, k < s.bs → iev' k = s.iev k) →
      (f = .unconverged → (∃ k, k < bs' ∧ iev' k = some i) ∨ ex i) → ∀ j, j < i + 1 →
      (s.flags.set i f)[j]? = some .unconverged → (∃ k, k < bs' ∧ iev' k = some j) ∨ ex j := by
    intro bs' iev' w1 w2 w3 j hj hu
    by_cases hji : j = i
    · subst hji
      rw [set_same hlen] at hu
      exact w3 (Option.some.inj hu)
    · rw [set_other (by omega)] at hu
      by_cases hjn : j < s.next
      · rcases h.cover j hjn hu with ⟨k, hk1, hk2⟩ | he
        · exact Or.inl ⟨k, by omega, by rw [w2 k hk1]; exact hk2⟩
        · exact Or.inr he
      · rcases h.pcover blki i j (Nat.le_refl _) (by omega) e1 (by omega) (by omega) hu with ⟨l, hl1, hl2, _⟩ | he
        · omega
        · exact Or.inr he
  have hpcover : ∀ k j t, blki + 1 ≤ k → k < blki + 1 + m → s.iev k = some j → i + 1 ≤ t → t < j →
      (s.flags.set i f)[t]? = some .unconverged → (∃ l, blki + 1 ≤ l ∧ l < k ∧ s.iev l = some t) ∨ ex t := by
    intro k j t hk1 hk2 hk3 ht1 ht2 hu
    rw [set_other (by omega)] at hu
    rcases h.pcover k j t (by omega) (by omega) hk3 (by omega) ht2 hu with ⟨l, hl1, hl2, hl3⟩ | he
    · by_cases hlb : l = blki
      · subst hlb; rw [e1] at hl3; cases hl3; omega
      · exact Or.inl ⟨l, by omega, hl2, hl3⟩
    · exact Or.inr he
  -- a pair that is only passed over
  have hskip : (f = .unconverged → ex i) → Inv P J a ex f0 m (blki + 1) { s with flags := s.flags.set i f, next := i + 1 } :=
    fun hfx => ⟨by simp [h.len], h.fits, by dsimp only; omega, by omega, by dsimp only; omega, h.cap, h.wanted, h.recent, h.counted,
      by dsimp only; omega, hblock, h.incr, hpend, hpincr, hdone, h.sorted, hframe, h.exact,
      hcover s.bs s.iev (Nat.le_refl _) (fun _ _ => rfl) (fun q => Or.inr (hfx q)), hpcover⟩
  unfold visit
  simp only [hrd, hrn, Outcome.bind_ok]
  rw [if_pos hlen]
  by_cases c1 : P.side = true ∧ a.wrong i = true
  · simp only [c1, and_self, if_true]
    exact ⟨_, rfl, hskip (fun _ => hex i c1.1 c1.2), by dsimp only; omega⟩
  · rw [if_neg c1]
    by_cases c2 : f ≠ .unconverged ∧ s.recent < J.remained ∧ eligible P J.numLocked i = true
    · rw [if_pos c2]
      unfold count
      have hev : ¬ (¬ P.locking = true ∧ P.numEvals ≤ i) := by
        rintro ⟨q1, q2⟩
        have hel := c2.2.2
        unfold eligible at hel
        have hns : P.side = false := by
          cases hsd : P.side
          · rfl
          · exact absurd (hside hsd) q1
        rw [hns, Bool.or_false, decide_eq_true_eq] at hel
        omega
      rw [if_neg hev]
      refine ⟨_, rfl, ?_, by dsimp only; omega⟩
      have hw := h.wanted (by omega)
      have hcap := h.cap
      exact ⟨by simp [h.len], h.fits, by dsimp only; omega, by omega, by dsimp only; push_cast; omega,
        by dsimp only; push_cast; omega, fun _ => by dsimp only; push_cast; omega, by dsimp only; omega,
        by dsimp only; rw [h.counted]; simp, by dsimp only; omega, hblock, h.incr, hpend, hpincr,
        by
          intro j hj
          rcases List.mem_append.1 hj with hj | hj
          · exact hdone j hj
          · rw [List.mem_singleton] at hj
            subst hj
            exact ⟨by dsimp only; omega, c2.2.2, f, set_same hlen, c2.1, hf⟩,
        by
          dsimp only
          rw [List.pairwise_append]
          refine ⟨h.sorted, by simp, ?_⟩
          intro x hx y hy
          rw [List.mem_singleton] at hy
          subst hy
          have := (h.done x hx).1
          omega,
        hframe, by
          have hx := h.exact
          dsimp only
          rw [if_neg (by omega), hx]
          split_ifs <;> push_cast <;> omega,
        hcover s.bs s.iev (Nat.le_refl _) (fun _ _ => rfl) (fun q => absurd q c2.1), hpcover⟩
    · rw [if_neg c2]
      by_cases c3 : f = .unconverged
      · rw [if_pos c3]
        have hbs : s.bs < P.maxBlockSize := by omega
        have hcols : J.xrOn = true → blki < J.cols ∧ s.bs < J.cols := fun q => by have := hc q; omega
        have key : ∀ xr' : Arr, (J.xrOn = true → xr' = fun t => if t = s.bs then s.xr blki else s.xr t) →
            Inv P J a ex f0 m (blki + 1) { s with
              flags := s.flags.set i f
              nrm := fun t => if t = s.bs then some (i, b) else s.nrm t
              iev := fun t => if t = s.bs then some i else s.iev t
              xr := xr', bs := s.bs + 1, next := i + 1 } := by
          intro xr' hx
          refine ⟨by simp [h.len], h.fits, by dsimp only; omega, by omega, by dsimp only; push_cast; omega, h.cap, h.wanted, h.recent,
            h.counted, by dsimp only; omega, ?_, ?_, ?_, ?_, hdone, h.sorted, hframe, h.exact, ?_, ?_⟩
          · intro k hk
            dsimp only at hk ⊢
            by_cases hkb : k = s.bs
            · subst hkb
              refine ⟨i, b, by simp, by omega, by rw [set_same hlen, c3], by simp, fun q => ?_⟩
              rw [hx q]; simp [e5 q]
            · obtain ⟨i', b', q1, q2, q3, q4, q5⟩ := hblock k (by omega)
              refine ⟨i', b', by simp [hkb, q1], q2, q3, by simp [hkb, q4], fun q => ?_⟩
              rw [hx q]; simp [hkb, q5 q]
          · intro k l i1 j1 hkl hl h1 h2
            dsimp only at hl h1 h2
            have hk : k ≠ s.bs := by omega
            rw [if_neg hk] at h1
            by_cases hlb : l = s.bs
            · rw [if_pos hlb] at h2
              cases h2
              obtain ⟨i', b', q1, q2, _⟩ := h.block k (by omega)
              rw [h1] at q1
              cases q1
              omega
            · rw [if_neg hlb] at h2
              exact h.incr k l i1 j1 hkl (by omega) h1 h2
          · intro k hk1 hk2
            dsimp only
            have hk : k ≠ s.bs := by omega
            obtain ⟨i', b', q1, q2, q3, q4, q5⟩ := hpend k hk1 hk2
            refine ⟨i', b', by simp [hk, q1], q2, q3, by simp [hk, q4], fun q => ?_⟩
            rw [hx q]; simp [hk, q5 q]
          · intro k l i1 j1 hk hkl hl h1 h2
            dsimp only at h1 h2
            rw [if_neg (by omega)] at h1 h2
            exact hpincr k l i1 j1 hk hkl hl h1 h2
          · refine hcover (s.bs + 1) _ (by omega) ?_ (fun _ => Or.inl ⟨s.bs, by omega, by simp⟩)
            intro k hk
            dsimp only
            rw [if_neg (by omega)]
          · intro k j t hk1 hk2 hk3 ht1 ht2 hu
            dsimp only at hk3
            rw [if_neg (by omega)] at hk3
            rcases hpcover k j t hk1 hk2 hk3 ht1 ht2 hu with ⟨l, hl1, hl2, hl3⟩ | he
            · exact Or.inl ⟨l, hl1, hl2, by dsimp only; rw [if_neg (by omega)]; exact hl3⟩
            · exact Or.inr he
        unfold keep
        rw [if_pos hbs]
        by_cases hx : J.xrOn = true
        · rw [if_pos hx, if_pos (hcols hx)]
          exact ⟨_, rfl, key _ (fun _ => rfl), by dsimp only; omega⟩
        · rw [if_neg hx]
          exact ⟨_, rfl, key _ (fun q => absurd q hx), by dsimp only; omega⟩
      · rw [if_neg c3]
        exact ⟨_, rfl, hskip (fun q => absurd q c3), by dsimp only; omega⟩

theorem visits_inv (hs : J.avail ≤ P.maxBlockSize) (hc : J.xrOn = true → J.avail ≤ J.cols)
    (hside : P.side = true → P.locking = true) (hex : ∀ i, P.side = true → a.wrong i = true → ex i) (r : ℕ) : ∀ (m i blki : ℕ) (s : St), Inv P J a ex f0 m blki s →
    ∃ s', visits P J a r m i blki s = .ok s' ∧ Inv P J a ex f0 0 (blki + m) s' ∧ s.next ≤ s'.next ∧
      (0 < m → s.next < s'.next) ∧ s'.reset = s.reset := by
  intro m
  induction m with
  | zero => intro i blki s h; exact ⟨s, rfl, h, Nat.le_refl _, by omega, rfl⟩
  | succ m ih =>
    intro i blki s h
    have hr := h.room
    unfold visits
    rw [if_pos (by omega)]
    obtain ⟨s1, e1, h1, n1⟩ := visit_inv (a := a) hs hc hside hex (a.check r i) ⟨r, i, rfl⟩ h
    obtain ⟨s2, e2, h2, n2, _, q2⟩ := ih (i + 1) (blki + 1) s1 h1
    refine ⟨s2, by rw [e1]; exact e2, ?_, by omega, fun _ => by omega, ?_⟩
    · rw [show blki + (m + 1) = blki + 1 + m by omega]; exact h2
    · rw [q2]
      have : ∀ (s s1 : St), visit P J a (a.check r i) blki s = .ok s1 → s1.reset = s.reset := by
        intro s s1 e
        unfold visit at e
        cases hrd : rd P.maxBlockSize s.iev blki with
        | ok ip =>
          cases hrn : rdN P.maxBlockSize s.nrm blki with
          | ok v =>
            simp only [hrd, hrn, Outcome.bind_ok] at e
            unfold count keep at e
            split_ifs at e <;> cases e <;> rfl
          | err c => simp [hrd, hrn] at e
          | ub => simp [hrd, hrn] at e
        | err c => simp [hrd] at e
        | ub => simp [hrd] at e
      exact this s s1 e1

theorem cands_spec (flags : List Flag) (mb : Int) (hmb : mb ≤ P.maxBlockSize) : ∀ (m i blki : ℕ) (iev : Arr),
    i + m ≤ flags.length → ∃ iev' blki', cands P flags mb m i blki iev = .ok (iev', blki') ∧
      blki ≤ blki' ∧ (blki < blki' → (blki' : Int) ≤ mb) ∧ (∀ k, k < blki → iev' k = iev k) ∧
      (∀ k, blki ≤ k → k < blki' → ∃ j, iev' k = some j ∧ i ≤ j ∧ j < i + m ∧ flags[j]? = some .unconverged) ∧
      (∀ k l x y, blki ≤ k → k < l → l < blki' → iev' k = some x → iev' l = some y → x < y) ∧
      ((blki' : Int) < mb → ∀ j, i ≤ j → j < i + m → flags[j]? = some .unconverged →
        ∃ k, blki ≤ k ∧ k < blki' ∧ iev' k = some j) ∧
      (∀ k x j, blki ≤ k → k < blki' → iev' k = some x → i ≤ j → j < x → flags[j]? = some .unconverged →
        ∃ l, blki ≤ l ∧ l < k ∧ iev' l = some j) := by
  intro m
  induction m with
  | zero =>
    intro i blki iev _
    exact ⟨iev, blki, rfl, Nat.le_refl _, by omega, fun _ _ => rfl, by omega, by omega, by omega, by omega⟩
  | succ m ih =>
    intro i blki iev hlen
    unfold cands
    by_cases hb : (blki : Int) < mb
    · rw [if_pos hb]
      have hi : i < flags.length := by omega
      have hget : flags[i]? = some flags[i] := List.getElem?_eq_getElem hi
      rw [hget]
      dsimp only
      by_cases hu : flags[i] = .unconverged
      · rw [if_pos hu]
        have hw : wr P.maxBlockSize iev blki i = .ok (fun t => if (t : Int) = blki then some i else iev t) := by
          unfold wr; rw [if_pos (by omega)]
        rw [hw, Outcome.bind_ok]
        obtain ⟨iev', blki', e, h1, h2, h3, h4, h5, h6, h7⟩ := ih (i + 1) (blki + 1)
          (fun t => if (t : Int) = blki then some i else iev t) (by omega)
        have hat : iev' blki = some i := by
          have := h3 blki (by omega)
          rw [if_pos rfl] at this
          exact this
        refine ⟨iev', blki', e, by omega, ?_, ?_, ?_, ?_, ?_, ?_⟩
        · intro _
          by_cases hq : blki + 1 < blki'
          · exact h2 hq
          · omega
        · intro k hk
          rw [h3 k (by omega)]
          rw [if_neg (by omega)]
        · intro k hk1 hk2
          by_cases hkb : k = blki
          · subst hkb
            exact ⟨i, hat, by omega, by omega, by rw [hget, hu]⟩
          · obtain ⟨j, q1, q2, q3, q4⟩ := h4 k (by omega) hk2
            exact ⟨j, q1, by omega, by omega, q4⟩
        · intro k l x y hk hkl hl hx hy
          by_cases hkb : k = blki
          · subst hkb
            rw [hat] at hx
            cases hx
            obtain ⟨j, q1, q2, _⟩ := h4 l (by omega) hl
            rw [hy] at q1
            cases q1
            omega
          · exact h5 k l x y (by omega) hkl hl hx hy
        · intro hlt j hj1 hj2 hj3
          by_cases hji : j = i
          · subst hji; exact ⟨blki, by omega, by omega, hat⟩
          · obtain ⟨k, q1, q2, q3⟩ := h6 hlt j (by omega) (by omega) hj3
            exact ⟨k, by omega, q2, q3⟩
        · intro k x j hk1 hk2 hx hj1 hj2 hj3
          by_cases hkb : k = blki
          · subst hkb
            rw [hat] at hx
            cases hx
            omega
          · by_cases hji : j = i
            · subst hji; exact ⟨blki, by omega, by omega, hat⟩
            · obtain ⟨l, q1, q2, q3⟩ := h7 k x j (by omega) hk2 hx (by omega) hj2 hj3
              exact ⟨l, by omega, q2, q3⟩
      · rw [if_neg hu]
        obtain ⟨iev', blki', e, h1, h2, h3, h4, h5, h6, h7⟩ := ih (i + 1) blki iev (by omega)
        refine ⟨iev', blki', e, h1, h2, h3, ?_, h5, ?_, ?_⟩
        · intro k hk1 hk2
          obtain ⟨j, q1, q2, q3, q4⟩ := h4 k hk1 hk2
          exact ⟨j, q1, by omega, by omega, q4⟩
        · intro hlt j hj1 hj2 hj3
          have hji : j ≠ i := by
            rintro rfl
            rw [hget] at hj3
            exact hu (Option.some.inj hj3)
          exact h6 hlt j (by omega) (by omega) hj3
        · intro k x j hk1 hk2 hx hj1 hj2 hj3
          have hji : j ≠ i := by
            rintro rfl
            rw [hget] at hj3
            exact hu (Option.some.inj hj3)
          exact h7 k x j hk1 hk2 hx (by omega) hj2 hj3
    · rw [if_neg hb]
      exact ⟨iev, blki, rfl, Nat.le_refl _, by omega, fun _ _ => rfl, by omega, by omega, by omega, by omega⟩

/-- What a call leaves behind, besides the invariant: either all the wanted pairs are found, or the block
is full, or there is no unconverged pair after the last one visited. -/
def Full (J : Job) (s : St) : Prop :=
  J.remained ≤ s.recent ∨ (s.bs : Int) = s.maxBlock ∨
    ∀ i, s.next ≤ i → i < J.basisSize → s.flags[i]? ≠ some .unconverged

theorem rounds_inv (hs : J.avail ≤ P.maxBlockSize) (hc : J.xrOn = true → J.avail ≤ J.cols)
    (hside : P.side = true → P.locking = true) (hex : ∀ i, P.side = true → a.wrong i = true → ex i) : ∀ (fuel r bn : ℕ) (s : St),
    Inv P J a ex f0 bn s.bs s → J.basisSize - s.next + (if bn = 0 then 2 else 1) ≤ fuel →
    ∃ s', rounds P J a fuel r bn s = .ok s' ∧ Inv P J a ex f0 0 s'.bs s' ∧ Full J s' := by
  intro fuel
  induction fuel with
  | zero => intro r bn s h hf; split_ifs at hf <;> omega
  | succ fuel ih =>
    intro r bn s h hf
    unfold rounds
    have htop := h.top
    rw [if_neg (by omega)]
    have h' : Inv P J a ex f0 bn s.bs { s with reset := s.reset || a.bad r } :=
      ⟨h.len, h.fits, h.le, h.top, h.room, h.cap, h.wanted, h.recent, h.counted, h.next, h.block, h.incr, h.pend,
        h.pincr, h.done, h.sorted, h.frame, h.exact, h.cover, h.pcover⟩
    obtain ⟨s1, e1, h1, n1, n1', _⟩ := visits_inv (a := a) hs hc hside hex r bn 0 s.bs _ h'
    dsimp only at n1 n1'
    dsimp only
    rw [e1, Outcome.bind_ok]
    have hmb : s1.maxBlock ≤ P.maxBlockSize := by have := h1.cap; omega
    have hlen1 := h1.len
    have hfit1 := h1.fits
    have hnext1 := h1.next
    obtain ⟨iev', blki', e2, q1, q2, q3, q4, q5, q6, q7⟩ :=
      cands_spec (P := P) s1.flags s1.maxBlock hmb (J.basisSize - s1.next) s1.next s1.bs s1.iev (by omega)
    rw [e2, Outcome.bind_ok]
    dsimp only
    have hle1 := h1.le
    have htop1 := h1.top
    have hroom1 := h1.room
    have hcap1 := h1.cap
    have hcov1 : ∀ i, i < s1.next → s1.flags[i]? = some .unconverged → (∃ k, k < s1.bs ∧ iev' k = some i) ∨ ex i := by
      intro i hi hu
      rcases h1.cover i hi hu with ⟨k, hk1, hk2⟩ | he
      · exact Or.inl ⟨k, hk1, by rw [q3 k hk1]; exact hk2⟩
      · exact Or.inr he
    by_cases hbrk : blki' = s1.bs ∨ J.remained ≤ s1.recent
    · rw [if_pos hbrk]
      refine ⟨_, rfl, ⟨h1.len, h1.fits, Nat.le_refl _, by dsimp only; omega, h1.room, h1.cap, h1.wanted, h1.recent, h1.counted,
        h1.next, ?_, ?_, by omega, by omega, h1.done, h1.sorted, h1.frame, h1.exact, hcov1, by omega⟩, ?_⟩
      · intro k hk
        obtain ⟨i, b, w1, w2⟩ := h1.block k hk
        exact ⟨i, b, by dsimp only; rw [q3 k hk]; exact w1, w2⟩
      · intro k l i j hkl hl hi hj
        dsimp only at hi hj hl
        rw [q3 k (by omega)] at hi
        rw [q3 l hl] at hj
        exact h1.incr k l i j hkl hl hi hj
      · rcases hbrk with hbrk | hbrk
        · by_cases hb : (s1.bs : Int) < s1.maxBlock
          · refine Or.inr (Or.inr ?_)
            intro i hi1 hi2 hi3
            dsimp only at hi1 hi3
            obtain ⟨k, w1, w2, _⟩ := q6 (by rw [hbrk]; exact hb) i hi1 (by omega) hi3
            omega
          · exact Or.inr (Or.inl (by dsimp only; omega))
        · exact Or.inl hbrk
    · rw [if_neg hbrk]
      push Not at hbrk
      have hblt : s1.bs < blki' := by omega
      have hq2 := q2 hblt
      unfold compute
      dsimp only
      rw [if_neg (by
        rintro (w | w | w)
        · omega
        · omega
        · have := hc w.1; omega)]
      rw [Outcome.bind_ok]
      have hinv : Inv P J a ex f0 (blki' - s1.bs) s1.bs { s1 with
          iev := iev'
          xr := fun k => if J.xrOn = true ∧ s1.bs ≤ k ∧ k < blki' then iev' k else s1.xr k
          nrm := fun k => if s1.bs ≤ k ∧ k < blki' then (iev' k).map (fun i => (i, decide (k < blki' - s1.bs))) else s1.nrm k } := by
        refine ⟨h1.len, h1.fits, Nat.le_refl _, by omega, by dsimp only; omega, h1.cap, h1.wanted, h1.recent, h1.counted,
          h1.next, ?_, ?_, ?_, ?_, h1.done, h1.sorted, h1.frame, h1.exact, hcov1, ?_⟩
        · intro k hk
          dsimp only at hk ⊢
          obtain ⟨i, b, w1, w2, w3, w4, w5⟩ := h1.block k hk
          refine ⟨i, b, by rw [q3 k hk]; exact w1, w2, w3, by rw [if_neg (by omega)]; exact w4, fun w => ?_⟩
          rw [if_neg (by omega)]; exact w5 w
        · intro k l i j hkl hl hi hj
          dsimp only at hi hj hl
          rw [q3 k (by omega)] at hi
          rw [q3 l hl] at hj
          exact h1.incr k l i j hkl hl hi hj
        · intro k hk1 hk2
          dsimp only
          have hk3 : k < blki' := by omega
          obtain ⟨j, w1, w2, w3, w4⟩ := q4 k hk1 hk3
          refine ⟨j, decide (k < blki' - s1.bs), w1, w2, by omega, ?_, fun w => ?_⟩
          · rw [if_pos ⟨hk1, hk3⟩, w1]; rfl
          · rw [if_pos ⟨w, hk1, hk3⟩]; exact w1
        · intro k l i j hk hkl hl hi hj
          dsimp only at hi hj
          exact q5 k l i j hk hkl (by omega) hi hj
        · intro k j i hk1 hk2 hk3 hi1 hi2 hu
          exact Or.inl (q7 k j i hk1 (by omega) hk3 hi1 hi2 hu)
      have hge : s1.next < J.basisSize := by
        obtain ⟨j, w1, w2, w3, w4⟩ := q4 s1.bs (Nat.le_refl _) hblt
        omega
      exact ih (r + 1) (blki' - s1.bs) _ hinv (by
        dsimp only
        rw [if_neg (by omega)]
        by_cases hbn : bn = 0
        · rw [if_pos hbn] at hf; omega
        · rw [if_neg hbn] at hf; have := n1' (by omega); omega)

theorem remap_length (b : ℕ) (map : ℕ → ℕ) (flags : List Flag) : (remap b map flags).length = flags.length := by
  simp [remap]

theorem prepare_inv {bn : ℕ} {flags : List Flag} {iev xr : Arr} {nrm : Norms} {reset : Bool}
    (h : Pre P J bn flags iev xr nrm) :
    ∃ s, prepare P J a bn flags iev xr nrm reset = .ok s ∧ Inv P J a (Excused P a bn iev) (remap J.basisSize a.map flags) 0 s.bs s ∧ Full J s := by
  unfold prepare
  rw [if_neg (by have := h.fits; omega)]
  refine rounds_inv h.block h.room h.sided (fun i q1 q2 => Or.inl ⟨q1, q2⟩) (J.basisSize + 2) 0 bn _ ?_ (by dsimp only; split_ifs <;> omega)
  have hold := h.old
  refine ⟨rfl, by rw [remap_length]; exact h.fits, Nat.le_refl _, by dsimp only; omega, by dsimp only; omega,
    by dsimp only; omega, ?_, Nat.zero_le _, rfl, Nat.zero_le _, ?_, ?_, ?_, ?_, by simp, by simp, by simp, by simp, by simp, ?_⟩
  · intro w; have := h.wanted w; dsimp only; omega
  · intro k hk; dsimp only at hk; omega
  · intro k l i j _ hl; dsimp only at hl; omega
  · intro k _ hk
    dsimp only at hk
    obtain ⟨i, b, w1, w2, w3, w4⟩ := h.here k (by omega)
    exact ⟨i, b, w1, Nat.zero_le _, w2, w3, w4⟩
  · intro k l i j _ hkl hl hi hj
    dsimp only at hl
    exact h.incr k l i j hkl (by omega) hi hj
  · intro k j i _ hk hj _ hij hu
    dsimp only at hk hj
    by_cases hin : ∃ l, l < bn ∧ iev l = some i
    · obtain ⟨l, hl1, hl2⟩ := hin
      refine Or.inl ⟨l, Nat.zero_le _, ?_, hl2⟩
      rcases Nat.lt_trichotomy l k with hlk | hlk | hlk
      · exact hlk
      · subst hlk; rw [hj] at hl2; cases hl2; omega
      · have := h.incr k l j i hlk hl1 hj hl2; omega
    · push Not at hin
      exact Or.inr (Or.inr ⟨⟨k, j, by omega, hj, hij⟩, hin⟩)

/-! ### Norms that are raised to the error of the residuals -/

/-- All the norms were raised. -/
def Raised (nrm : Norms) : Prop := ∀ k i b, nrm k = some (i, b) → b = true

theorem visit_floor {f : Flag} {blki : ℕ} {s s' : St} (hq : Raised s.nrm) (e : visit P J a f blki s = .ok s') :
    Raised s'.nrm ∧ s'.maxBlock ≤ s.maxBlock := by
  unfold visit at e
  cases hrd : rd P.maxBlockSize s.iev blki with
  | err c => rw [hrd] at e; cases e
  | ub => rw [hrd] at e; cases e
  | ok ip =>
    cases hrn : rdN P.maxBlockSize s.nrm blki with
    | err c => rw [hrd, hrn] at e; cases e
    | ub => rw [hrd, hrn] at e; cases e
    | ok v =>
      have hv : s.nrm blki = some v := by
        unfold rdN at hrn
        split_ifs at hrn
        cases hb : s.nrm blki with
        | none => rw [hb] at hrn; cases hrn
        | some w => rw [hb] at hrn; cases hrn; rfl
      have hvt : v.2 = true := hq blki v.1 v.2 hv
      simp only [hrd, hrn, Outcome.bind_ok] at e
      unfold count keep at e
      have hmv : Raised (fun t => if t = s.bs then some v else s.nrm t) := by
        intro k i b hk
        dsimp only at hk
        by_cases hkb : k = s.bs
        · rw [if_pos hkb] at hk; cases hk; exact hvt
        · rw [if_neg hkb] at hk; exact hq k i b hk
      split_ifs at e <;> cases e <;> dsimp only <;> first | exact ⟨hq, by omega⟩ | exact ⟨hmv, by omega⟩

theorem visits_floor (r : ℕ) : ∀ (m i blki : ℕ) (s s' : St), Raised s.nrm → visits P J a r m i blki s = .ok s' →
    Raised s'.nrm ∧ s'.maxBlock ≤ s.maxBlock := by
  intro m
  induction m with
  | zero => intro i blki s s' hq e; cases e; exact ⟨hq, Int.le_refl _⟩
  | succ m ih =>
    intro i blki s s' hq e
    unfold visits at e
    by_cases hc : (s.bs : Int) < s.maxBlock
    · rw [if_pos hc] at e
      cases hv : visit P J a (a.check r i) blki s with
      | ok s1 =>
        rw [hv, Outcome.bind_ok] at e
        obtain ⟨h1, h2⟩ := visit_floor hq hv
        obtain ⟨h3, h4⟩ := ih _ _ s1 s' h1 e
        exact ⟨h3, by omega⟩
      | err c => rw [hv] at e; cases e
      | ub => rw [hv] at e; cases e
    · rw [if_neg hc] at e; cases e; exact ⟨hq, Int.le_refl _⟩

theorem cands_cap (flags : List Flag) (mb : Int) : ∀ (m i blki : ℕ) (iev iev' : Arr) (blki' : ℕ),
    cands P flags mb m i blki iev = .ok (iev', blki') → blki < blki' → (blki' : Int) ≤ mb := by
  intro m
  induction m with
  | zero => intro i blki iev iev' blki' e h; cases e; omega
  | succ m ih =>
    intro i blki iev iev' blki' e h
    unfold cands at e
    by_cases hc : (blki : Int) < mb
    · rw [if_pos hc] at e
      cases hg : flags[i]? with
      | none => rw [hg] at e; cases e
      | some f =>
        rw [hg] at e
        dsimp only at e
        by_cases hu : f = .unconverged
        · rw [if_pos hu] at e
          cases hw : wr P.maxBlockSize iev blki i with
          | err c => rw [hw] at e; cases e
          | ub => rw [hw] at e; cases e
          | ok iev2 =>
            rw [hw, Outcome.bind_ok] at e
            by_cases hlt : blki + 1 < blki'
            · exact ih _ _ _ _ _ e hlt
            · omega
        · rw [if_neg hu] at e
          exact ih _ _ _ _ _ e h
    · rw [if_neg hc] at e; cases e; omega

theorem rounds_floor : ∀ (fuel r bn : ℕ) (s s' : St), Raised s.nrm → s.maxBlock ≤ 1 →
    rounds P J a fuel r bn s = .ok s' → Raised s'.nrm := by
  intro fuel
  induction fuel with
  | zero => intro r bn s s' _ _ e; cases e
  | succ fuel ih =>
    intro r bn s s' hq hmb e
    unfold rounds at e
    by_cases hav : J.avail < bn
    · rw [if_pos hav] at e; cases e
    rw [if_neg hav] at e
    dsimp only at e
    cases hv : visits P J a r bn 0 s.bs { s with reset := s.reset || a.bad r } with
    | err c => rw [hv] at e; cases e
    | ub => rw [hv] at e; cases e
    | ok s1 =>
      rw [hv, Outcome.bind_ok] at e
      obtain ⟨h1, hm1⟩ := visits_floor r bn 0 s.bs _ s1 (by dsimp only; exact hq) hv
      dsimp only at hm1
      cases hcd : cands P s1.flags s1.maxBlock (J.basisSize - s1.next) s1.next s1.bs s1.iev with
      | err c => rw [hcd] at e; cases e
      | ub => rw [hcd] at e; cases e
      | ok p =>
        obtain ⟨iev', blki'⟩ := p
        rw [hcd, Outcome.bind_ok] at e
        dsimp only at e
        by_cases hbrk : blki' = s1.bs ∨ J.remained ≤ s1.recent
        · rw [if_pos hbrk] at e; cases e; exact h1
        · rw [if_neg hbrk] at e
          unfold compute at e
          dsimp only at e
          by_cases hbad : J.avail < blki' - s1.bs ∨ P.maxBlockSize < blki' ∨ (J.xrOn = true ∧ J.cols < blki')
          · rw [if_pos hbad] at e; cases e
          · rw [if_neg hbad, Outcome.bind_ok] at e
            refine ih _ _ _ s' ?_ (by dsimp only; omega) e
            intro k i b hk
            dsimp only at hk
            by_cases hkk : s1.bs ≤ k ∧ k < blki'
            · rw [if_pos hkk] at hk
              have := cands_cap _ _ _ _ _ _ _ _ hcd (by omega)
              cases hiv : iev' k with
              | none => rw [hiv] at hk; cases hk
              | some j =>
                rw [hiv] at hk
                simp only [Option.map_some, Option.some.injEq, Prod.mk.injEq] at hk
                rw [← hk.2, decide_eq_true_eq]
                omega
            · rw [if_neg hkk] at hk; exact h1 k i b hk

end

end Verif.Prepare
