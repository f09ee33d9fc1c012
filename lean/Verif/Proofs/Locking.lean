import Verif.Model.Locking
import Verif.Spec.TargetOrder
import Verif.Spec.Perm
import Verif.Props.C18_Permute
import Mathlib.Tactic.Linarith

/-! Helper lemmas for `Verif.Props.C17_Locking`. -/

set_option linter.unusedSectionVars false

namespace Verif.Locking
open Verif Verif.Spec

section arrays
variable {β : Type u}

theorem shiftUp_apply : ∀ (cnt n : Nat) (a : Nat → β) (j : Nat), cnt ≤ n →
    shiftUp n cnt a j = if n - cnt < j ∧ j ≤ n then a (j - 1) else a j := by
  intro cnt
  induction cnt with
  | zero => intro n a j _; simp only [shiftUp]; rw [if_neg (by omega)]
  | succ cnt ih =>
    intro n a j h
    simp only [shiftUp]
    rw [ih (n - 1) _ j (by omega)]
    unfold set
    split_ifs <;> first | rfl | (exfalso; omega) | (congr 1; omega)

theorem insertArr_apply (n i : Nat) (v : β) (a : Nat → β) (j : Nat) (hi : i ≤ n) :
    insertArr n i v a j = if j < i then a j else if j = i then v else if j ≤ n then a (j - 1) else a j := by
  unfold insertArr
  rw [show set (shiftUp n (n - i) a) i v j = if j = i then v else shiftUp n (n - i) a j from rfl,
    shiftUp_apply _ _ _ _ (by omega)]
  by_cases h1 : j = i
  · subst h1; simp
  · rw [if_neg h1, if_neg h1]
    by_cases h2 : j < i
    · rw [if_pos h2, if_neg (by omega)]
    · rw [if_neg h2]
      by_cases h3 : j ≤ n
      · rw [if_pos h3, if_pos (by omega)]
      · rw [if_neg h3, if_neg (by omega)]

theorem insertPos_le (stop : Nat → Bool) (n : Nat) : insertPos stop n ≤ n := by
  induction n with
  | zero => simp [insertPos]
  | succ n ih => unfold insertPos; split <;> omega

theorem insertPos_stop (stop : Nat → Bool) (n : Nat) (h : 0 < insertPos stop n) :
    stop (insertPos stop n - 1) = true := by
  induction n with
  | zero => simp [insertPos] at h
  | succ n ih =>
    unfold insertPos at h ⊢
    split
    · assumption
    · rename_i hs; rw [if_neg hs] at h; exact ih h

theorem insertPos_go (stop : Nat → Bool) (n j : Nat) (h1 : insertPos stop n ≤ j) (h2 : j < n) :
    stop j = false := by
  induction n with
  | zero => omega
  | succ n ih =>
    unfold insertPos at h1
    split at h1
    · omega
    · rename_i hs
      by_cases hj : j = n
      · subst hj; simpa using hs
      · exact ih h1 (by omega)

end arrays

section sorted
variable {K : Type u} {σ : Type v}

/-- Order within runs of equal shifts, for an arbitrary preorder. -/
def RunOrdered (sh : Nat → σ) (rel : σ → K → K → Prop) (n : Nat) (v : Nat → K) : Prop :=
  ∀ i j, i < j → j < n → ∀ s, (∀ k, i ≤ k → k ≤ j → sh k = s) → rel s (v i) (v j)

theorem runOrdered_insert (sh : Nat → σ) (rel : σ → K → K → Prop)
    (htr : ∀ s x y z, rel s x y → rel s y z → rel s x z)
    (htot : ∀ s x y, rel s x y ∨ rel s y x)
    (n : Nat) (v : Nat → K) (new : K) (stop : Nat → Bool)
    (hstop : ∀ j, j < n → (stop j = true ↔ (sh j ≠ sh n ∨ rel (sh n) (v j) new)))
    (h : RunOrdered sh rel n v) :
    RunOrdered sh rel (n + 1) (insertArr n (insertPos stop n) new v) := by
  intro a b hab hbn s hs
  have hile := insertPos_le stop n
  have hst := insertPos_stop stop n
  have hgo := insertPos_go stop n
  generalize hi : insertPos stop n = i at *
  have hshi : ∀ j, i ≤ j → j ≤ n → sh j = sh n := by
    intro j h1 h2
    by_cases hj : j = n
    · rw [hj]
    · have h3 := hgo j h1 (by omega)
      by_contra hc
      have := (hstop j (by omega)).2 (Or.inl hc)
      rw [h3] at this; exact absurd this (by simp)
  have hgt : ∀ j, i ≤ j → j < n → rel (sh n) new (v j) := by
    intro j h1 h2
    have h3 := hgo j h1 h2
    rcases htot (sh n) new (v j) with h | h
    · exact h
    · have := (hstop j h2).2 (Or.inr h)
      rw [h3] at this; exact absurd this (by simp)
  rw [insertArr_apply _ _ _ _ _ hile, insertArr_apply _ _ _ _ _ hile]
  by_cases hai : a < i
  · rw [if_pos hai]
    by_cases hbi : b < i
    · rw [if_pos hbi]
      exact h a b hab (by omega) s hs
    · rw [if_neg hbi]
      by_cases hbe : b = i
      · rw [if_pos hbe]
        subst hbe
        have h4 := (hstop (b - 1) (by omega)).1 (hst (by omega))
        have h5 := hs b (by omega) (by omega)
        have h6 := hs (b - 1) (by omega) (by omega)
        have h7 := hshi b (by omega) (by omega)
        have h8 : rel s (v (b - 1)) new := by
          rcases h4 with h4 | h4
          · exact absurd (by rw [h6, ← h7, h5]) h4
          · rw [← h7, h5] at h4; exact h4
        by_cases hab1 : a = b - 1
        · rw [hab1]; exact h8
        · exact htr _ _ _ _ (h a (b - 1) (by omega) (by omega) s
            (fun k h1 h2 => hs k h1 (by omega))) h8
      · rw [if_neg hbe, if_pos (by omega)]
        by_cases hab1 : a = b - 1
        · omega
        · exact h a (b - 1) (by omega) (by omega) s (fun k h1 h2 => hs k h1 (by omega))
  · rw [if_neg hai, if_neg (show ¬ b < i by omega), if_neg (show ¬ b = i by omega), if_pos (show b ≤ n by omega)]
    by_cases hae : a = i
    · rw [if_pos hae]
      have h5 := hs a (by omega) (by omega)
      have h7 := hshi a (by omega) (by omega)
      rw [← h5, h7]
      exact hgt (b - 1) (by omega) (by omega)
    · rw [if_neg hae, if_pos (show a ≤ n by omega)]
      have h5 := hs a (by omega) (by omega)
      have h7 := hshi a (by omega) (by omega)
      refine h (a - 1) (b - 1) (by omega) (by omega) s ?_
      intro k h1 h2
      rw [hshi k (by omega) (by omega), ← h7, h5]

end sorted

section target
variable {K : Type u} [Field K] [LinearOrder K]

theorem precedes_trans (t : Target) (s x y z : K) (h1 : Precedes t s x y) (h2 : Precedes t s y z) :
    Precedes t s x z := by
  unfold Precedes at *
  cases t <;> simp only at * <;> first | exact le_trans h1 h2 | exact le_trans h2 h1

theorem precedes_total (t : Target) (s x y : K) : Precedes t s x y ∨ Precedes t s y x := by
  unfold Precedes
  cases t <;> simp only <;> exact le_total _ _

theorem shiftAt_eq (s : K) (ss : List K) (k : Nat) : shiftOf (s :: ss) k = some (shiftAt s ss k) := by
  unfold shiftOf shiftAt
  by_cases h : k < (s :: ss).length
  · rw [if_pos h]
    have : min ss.length k = k := by simp only [List.length_cons] at h; omega
    simp only [this, List.getElem?_eq_getElem h]
  · rw [if_neg h]
    have : min ss.length k = ss.length := by simp only [List.length_cons] at h; omega
    simp only [this]
    rw [List.getLast?_eq_getElem?]
    simp

/-- The shift relevant for position `k`; a constant for the extreme targets. -/
def effShift (t : Target) (shifts : List K) (k : Nat) : Option K :=
  match t with
  | .smallest | .largest => some 0
  | _ => shiftOf shifts k

theorem effShift_some (t : Target) (shifts : List K) (h : Extreme t ∨ shifts ≠ []) (k : Nat) :
    ∃ s, effShift t shifts k = some s := by
  unfold effShift
  split
  · exact ⟨0, rfl⟩
  · exact ⟨0, rfl⟩
  · rename_i h1 h2
    rcases h with h | h
    · rcases h with h | h
      · exact absurd h h1
      · exact absurd h h2
    · cases shifts with
      | nil => exact absurd rfl h
      | cons s ss => exact ⟨_, shiftAt_eq s ss k⟩

/-- `Precedes` lifted to optional shifts. -/
def precedesO (t : Target) (s : Option K) (x y : K) : Prop :=
  Precedes t (s.getD 0) x y

theorem stopTest_spec (t : Target) (shifts : List K) (hs : Extreme t ∨ shifts ≠ []) (n : Nat)
    (new : K) (ev : Nat → K) :
    ∃ stop, stopTest t shifts 0 n new ev = .ok stop ∧
      ∀ j, stop j = true ↔
        (effShift t shifts j ≠ effShift t shifts n ∨ precedesO t (effShift t shifts n) (ev j) new) := by
  have key : ∀ (s : K) (ss : List K) (a b : Nat),
      shiftAt s ss a ≠ shiftAt s ss b ↔ shiftOf (s :: ss) a ≠ shiftOf (s :: ss) b := by
    intro s ss a b
    rw [shiftAt_eq, shiftAt_eq]; simp
  have hext : ¬ Extreme t → shifts ≠ [] := fun h => hs.resolve_left h
  cases t with
  | smallest => exact ⟨_, rfl, by intro j; simp [effShift, precedesO, Precedes]⟩
  | largest => exact ⟨_, rfl, by intro j; simp [effShift, precedesO, Precedes]⟩
  | closest_geq =>
    cases shifts with
    | nil => exact absurd rfl (hext (by unfold Extreme; simp))
    | cons s ss =>
      refine ⟨_, rfl, ?_⟩
      intro j
      simp only [Bool.or_eq_true, decide_eq_true_eq, Nat.zero_add, effShift, precedesO, Precedes,
        shiftAt_eq, Option.getD_some, ne_eq, Option.some.injEq, ge_iff_le]
  | closest_leq =>
    cases shifts with
    | nil => exact absurd rfl (hext (by unfold Extreme; simp))
    | cons s ss =>
      refine ⟨_, rfl, ?_⟩
      intro j
      simp only [Bool.or_eq_true, decide_eq_true_eq, Nat.zero_add, effShift, precedesO, Precedes,
        shiftAt_eq, Option.getD_some, ne_eq, Option.some.injEq, ge_iff_le]
  | closest_abs =>
    cases shifts with
    | nil => exact absurd rfl (hext (by unfold Extreme; simp))
    | cons s ss =>
      refine ⟨_, rfl, ?_⟩
      intro j
      simp only [Bool.or_eq_true, decide_eq_true_eq, Nat.zero_add, effShift, precedesO, Precedes,
        shiftAt_eq, Option.getD_some, ne_eq, Option.some.injEq, ge_iff_le]
  | largest_abs =>
    cases shifts with
    | nil => exact absurd rfl (hext (by unfold Extreme; simp))
    | cons s ss =>
      refine ⟨_, rfl, ?_⟩
      intro j
      simp only [Bool.or_eq_true, decide_eq_true_eq, Nat.zero_add, effShift, precedesO, Precedes,
        shiftAt_eq, Option.getD_some, ne_eq, Option.some.injEq]

theorem runOrdered_iff (t : Target) (shifts : List K) (n : Nat) (v : Nat → K) :
    RunOrdered (effShift t shifts) (precedesO t) n v → Ordered t shifts n v := by
  intro h i j hij hjn
  by_cases hx : Extreme t
  · left
    refine ⟨hx, ?_⟩
    rcases hx with rfl | rfl
    · exact h i j hij hjn (some 0) (fun _ _ _ => rfl)
    · exact h i j hij hjn (some 0) (fun _ _ _ => rfl)
  · right
    refine ⟨hx, ?_⟩
    intro s hs
    have := h i j hij hjn (some s) (by
      intro k h1 h2
      have := hs k h1 h2
      unfold effShift
      cases t <;> simp_all [Extreme])
    exact this

end target

section loop
variable {K V : Type u} [Field K] [LinearOrder K]

/-- The state describes the accepted pairs `acc` (in order of acceptance). -/
structure Good (t : Target) (shifts : List K) (acc : List (Cand K V)) (s : LState K V) : Prop where
  len : s.numLocked = acc.length
  vec : ∀ i (h : i < acc.length), s.vecs i = acc[i].vec
  perm : IsPermOn acc.length s.perm
  data : ∀ i, i < acc.length → ∃ h : s.perm i < acc.length,
    s.evals i = acc[s.perm i].val ∧ s.norms i = acc[s.perm i].norm ∧ s.flags i = acc[s.perm i].flag
  ord : RunOrdered (effShift t shifts) (precedesO t) acc.length s.evals
  run : ∀ i, i < acc.length → effShift t shifts (s.perm i) = effShift t shifts i

theorem isPermOn_insert (n i : Nat) (p : Nat → Nat) (hi : i ≤ n) (h : IsPermOn n p) :
    IsPermOn (n + 1) (insertArr n i n p) := by
  have hval : ∀ j, j < n + 1 → insertArr n i n p j = if j < i then p j else if j = i then n else p (j - 1) := by
    intro j hj
    rw [insertArr_apply _ _ _ _ _ hi]
    split
    · rfl
    · split
      · rfl
      · rw [if_pos (by omega)]
  constructor
  · intro j hj
    rw [hval j hj]
    split
    · have := h.1 j (by omega); omega
    · split
      · omega
      · have := h.1 (j - 1) (by omega); omega
  · intro a b ha hb hab
    rw [hval a ha, hval b hb] at hab
    have ra : a < n → p a < n := h.1 a
    have rb : b < n → p b < n := h.1 b
    have ra1 : a - 1 < n → p (a - 1) < n := h.1 (a - 1)
    have rb1 : b - 1 < n → p (b - 1) < n := h.1 (b - 1)
    by_cases a1 : a < i
    · rw [if_pos a1] at hab
      by_cases b1 : b < i
      · rw [if_pos b1] at hab; exact h.2 a b (by omega) (by omega) hab
      · rw [if_neg b1] at hab
        by_cases b2 : b = i
        · rw [if_pos b2] at hab; have := ra (by omega); omega
        · rw [if_neg b2] at hab
          have := h.2 a (b - 1) (by omega) (by omega) hab; omega
    · rw [if_neg a1] at hab
      by_cases a2 : a = i
      · rw [if_pos a2] at hab
        by_cases b1 : b < i
        · rw [if_pos b1] at hab; have := rb (by omega); omega
        · rw [if_neg b1] at hab
          by_cases b2 : b = i
          · omega
          · rw [if_neg b2] at hab; have := rb1 (by omega); omega
      · rw [if_neg a2] at hab
        by_cases b1 : b < i
        · rw [if_pos b1] at hab
          have := h.2 (a - 1) b (by omega) (by omega) hab; omega
        · rw [if_neg b1] at hab
          by_cases b2 : b = i
          · rw [if_pos b2] at hab; have := ra1 (by omega); omega
          · rw [if_neg b2] at hab
            have := h.2 (a - 1) (b - 1) (by omega) (by omega) hab; omega

/-- One insertion: if slot `n = acc.length` of the vectors already holds the new vector, sorting the
new pair in gives a good state for `acc ++ [c]`, and later slots are untouched. -/
theorem insertionSort_good (t : Target) (shifts : List K) (hs : Extreme t ∨ shifts ≠ [])
    (acc : List (Cand K V)) (s : LState K V) (c : Cand K V)
    (hg : Good t shifts acc { s with numLocked := acc.length })
    (hn : s.numLocked = acc.length + 1) (hv : s.vecs acc.length = c.vec) :
    ∃ s', insertionSort t shifts 0 c.val c.norm c.flag acc.length s = .ok s' ∧
      Good t shifts (acc ++ [c]) s' ∧ s'.numLocked = s.numLocked ∧ s'.vecs = s.vecs ∧
      (∀ j, acc.length < j → s'.norms j = s.norms j) ∧
      (∀ j, acc.length < j → s'.evals j = s.evals j) := by
  obtain ⟨stop, hst, hspec⟩ := stopTest_spec t shifts hs acc.length c.val s.evals
  have hile := insertPos_le stop acc.length
  have hord := runOrdered_insert (effShift t shifts) (precedesO t)
    (fun s x y z => precedes_trans t _ x y z) (fun s x y => precedes_total t _ x y)
    acc.length s.evals c.val stop (fun j _ => hspec j) hg.ord
  have hgo := insertPos_go stop acc.length
  have hshi : ∀ j, insertPos stop acc.length ≤ j → j ≤ acc.length →
      effShift t shifts j = effShift t shifts acc.length := by
    intro j h1 h2
    by_cases hj : j = acc.length
    · rw [hj]
    · have h3 := hgo j h1 (by omega)
      by_contra hc
      have := (hspec j).2 (Or.inl hc)
      rw [h3] at this; exact absurd this (by simp)
  have hperm : IsPermOn acc.length s.perm := hg.perm
  have hrun : ∀ i, i < acc.length → effShift t shifts (s.perm i) = effShift t shifts i := hg.run
  have hdata : ∀ i, i < acc.length → ∃ h : s.perm i < acc.length,
    s.evals i = acc[s.perm i].val ∧ s.norms i = acc[s.perm i].norm ∧ s.flags i = acc[s.perm i].flag :=
      hg.data
  unfold insertionSort
  rw [hst]
  refine ⟨_, rfl, ?_, rfl, rfl, ?_, ?_⟩
  · generalize hi : insertPos stop acc.length = i at *
    have hlen : (acc ++ [c]).length = acc.length + 1 := by simp
    refine ⟨by simp [hn], ?_, ?_, ?_, ?_, ?_⟩
    · intro k hk
      by_cases h : k < acc.length
      · rw [List.getElem_append_left h]
        exact hg.vec k h
      · have : k = acc.length := by omega
        subst this
        simpa using hv
    · rw [hlen]; exact isPermOn_insert _ _ _ hile hperm
    · intro k hk
      rw [hlen] at hk
      have hp : insertArr acc.length i acc.length s.perm k < (acc ++ [c]).length := by
        rw [hlen]; exact (isPermOn_insert _ _ _ hile hperm).1 k hk
      refine ⟨hp, ?_⟩
      simp only [insertArr_apply _ _ _ _ _ hile] at hp ⊢
      by_cases h1 : k < i
      · simp only [if_pos h1] at hp ⊢
        obtain ⟨hh, hd⟩ := hdata k (by omega)
        rw [List.getElem_append_left hh]
        exact hd
      · simp only [if_neg h1] at hp ⊢
        by_cases h2 : k = i
        · simp [if_pos h2]
        · simp only [if_neg h2, if_pos (show k ≤ acc.length by omega)] at hp ⊢
          obtain ⟨hh, hd⟩ := hdata (k - 1) (by omega)
          rw [List.getElem_append_left hh]
          exact hd
    · rw [hlen]; exact hord
    · intro k hk
      rw [hlen] at hk
      simp only [insertArr_apply _ _ _ _ _ hile]
      by_cases h1 : k < i
      · rw [if_pos h1]; exact hrun k (by omega)
      · rw [if_neg h1]
        by_cases h2 : k = i
        · rw [if_pos h2, hshi k (by omega) (by omega)]
        · rw [if_neg h2, if_pos (by omega), hrun (k - 1) (by omega), hshi (k - 1) (by omega) (by omega),
            hshi k (by omega) (by omega)]
  · intro j hj
    simp only
    rw [insertArr_apply _ _ _ _ _ hile, if_neg (by omega), if_neg (by omega), if_neg (by omega)]
  · intro j hj
    simp only
    rw [insertArr_apply _ _ _ _ _ hile, if_neg (by omega), if_neg (by omega), if_neg (by omega)]

/-- Accepted pairs: those whose flag says converged. -/
def accepted (cs : List (Cand K V)) : List (Cand K V) := cs.filter (fun c => c.flag ≠ UNCONVERGED)

theorem writeCands_spec : ∀ (cs : List (Cand K V)) (base : Nat) (s : LState K V),
    (writeCands base cs s).evals = s.evals ∧ (writeCands base cs s).flags = s.flags ∧
    (writeCands base cs s).perm = s.perm ∧ (writeCands base cs s).numLocked = s.numLocked ∧
    (∀ j, j < base → (writeCands base cs s).norms j = s.norms j ∧ (writeCands base cs s).vecs j = s.vecs j) ∧
    (∀ q (h : q < cs.length), (writeCands base cs s).norms (base + q) = cs[q].norm ∧
      (writeCands base cs s).vecs (base + q) = cs[q].vec) := by
  intro cs
  induction cs with
  | nil => intro base s; simp [writeCands]
  | cons c cs ih =>
    intro base s
    obtain ⟨h1, h2, h3, h4, h5, h6⟩ := ih (base + 1)
      { s with norms := set s.norms base c.norm, vecs := set s.vecs base c.vec }
    simp only [writeCands]
    refine ⟨h1, h2, h3, h4, ?_, ?_⟩
    · intro j hj
      have := h5 j (by omega)
      simp only [set, if_neg (show ¬ j = base by omega)] at this
      exact this
    · intro q hq
      cases q with
      | zero =>
        have := h5 base (by omega)
        simp only [set, if_true] at this
        simpa using this
      | succ q =>
        have := h6 q (by simpa using hq)
        rw [show base + (q + 1) = base + 1 + q by omega]
        simpa using this

theorem writeEvals_spec : ∀ (cs : List (Cand K V)) (numEvals base j : Nat) (ev : Nat → K),
    base + j + cs.length ≤ numEvals →
    (writeEvals numEvals base cs j ev).2 = cs.map (fun c => c.flag) ∧
    (∀ i, i < base + j → (writeEvals numEvals base cs j ev).1 i = ev i) ∧
    (∀ i (h : i < (accepted cs).length),
      (writeEvals numEvals base cs j ev).1 (base + j + i) = (accepted cs)[i].val) := by
  intro cs
  induction cs with
  | nil => intro numEvals base j ev _; simp [writeEvals, accepted]
  | cons c cs ih =>
    intro numEvals base j ev hle
    simp only [List.length_cons] at hle
    by_cases hf : c.flag ≠ UNCONVERGED
    · obtain ⟨h1, h2, h3⟩ := ih numEvals base (j + 1) (set ev (base + j) c.val) (by omega)
      simp only [writeEvals, if_pos (show c.flag ≠ UNCONVERGED ∧ base + j < numEvals from ⟨hf, by omega⟩)]
      refine ⟨by simp [h1], ?_, ?_⟩
      · intro i hi
        rw [h2 i (by omega)]
        simp only [set, if_neg (show ¬ i = base + j by omega)]
      · have hacc : accepted (c :: cs) = c :: accepted cs := by
          unfold accepted; rw [List.filter_cons_of_pos (by simpa using hf)]
        intro i hi
        simp only [hacc] at hi ⊢
        cases i with
        | zero =>
          rw [h2 _ (by omega)]
          simp [set]
        | succ i =>
          rw [show base + j + (i + 1) = base + (j + 1) + i by omega]
          simpa using h3 i (by simpa using hi)
    · obtain ⟨h1, h2, h3⟩ := ih numEvals base j ev (by omega)
      simp only [writeEvals, if_neg (show ¬ (c.flag ≠ UNCONVERGED ∧ base + j < numEvals) from fun h => hf h.1)]
      have hf' : c.flag = UNCONVERGED := by simpa using hf
      refine ⟨by simp [h1, hf'], h2, ?_⟩
      have hacc : accepted (c :: cs) = accepted cs := by
        unfold accepted; rw [List.filter_cons_of_neg (by simpa using hf')]
      intro i hi
      simp only [hacc] at hi ⊢
      exact h3 i hi

theorem lockLoop_good (t : Target) (shifts : List K) (hs : Extreme t ∨ shifts ≠ []) (numEvals base : Nat) :
    ∀ (cs : List (Cand K V)) (q : Nat) (acc : List (Cand K V)) (s : LState K V),
      Good t shifts acc s → acc.length ≤ base + q → acc.length + cs.length ≤ numEvals →
      (∀ i (h : i < cs.length), s.norms (base + q + i) = cs[i].norm ∧ s.vecs (base + q + i) = cs[i].vec) →
      (∀ i (h : i < (accepted cs).length), s.evals (acc.length + i) = (accepted cs)[i].val) →
      ∃ s', lockLoop t shifts numEvals base (cs.map (fun c => c.flag)) q s = .ok s' ∧
        Good t shifts (acc ++ accepted cs) s' := by
  intro cs
  induction cs with
  | nil =>
    intro q acc s hg _ _ _ _
    exact ⟨s, rfl, by simpa [accepted] using hg⟩
  | cons c cs ih =>
    intro q acc s hg hq hle hnv hev
    simp only [List.length_cons] at hle
    simp only [List.map_cons, lockLoop]
    have h0 := hnv 0 (by simp)
    simp only [Nat.add_zero, List.getElem_cons_zero] at h0
    have htail : ∀ i (h : i < cs.length), s.norms (base + (q + 1) + i) = cs[i].norm ∧
        s.vecs (base + (q + 1) + i) = cs[i].vec := by
      intro i h
      have := hnv (i + 1) (by simpa using h)
      rw [show base + (q + 1) + i = base + q + (i + 1) by omega]
      simpa using this
    by_cases hf : c.flag ≠ UNCONVERGED
    · have hacc : accepted (c :: cs) = c :: accepted cs := by
        unfold accepted; rw [List.filter_cons_of_pos (by simpa using hf)]
      simp only [hacc] at hev ⊢
      have hlen := hg.len
      rw [if_pos ⟨hf, by omega⟩]
      have he0 := hev 0 (by simp)
      simp only [Nat.add_zero, List.getElem_cons_zero] at he0
      rw [← hlen] at he0
      obtain ⟨s', h1, h2, h3, h4, h5, h6⟩ := insertionSort_good t shifts hs acc
        { s with
          norms := set s.norms s.numLocked (s.norms (base + q))
          vecs := set s.vecs s.numLocked (s.vecs (base + q))
          numLocked := s.numLocked + 1 } c
        (by
          refine ⟨rfl, ?_, hg.perm, ?_, hg.ord, hg.run⟩
          · intro i hi
            simp only [set, if_neg (show ¬ i = s.numLocked by omega)]
            exact hg.vec i hi
          · intro i hi
            simp only [set, if_neg (show ¬ i = s.numLocked by omega)]
            exact hg.data i hi)
        (by simp [hlen])
        (by simp [set, hlen, h0.2])
      simp only [he0, h0.1]
      simp only [hlen, h0.1] at h1
      rw [hlen]
      rw [h1]
      simp only [Outcome.bind_ok]
      obtain ⟨s'', h7, h8⟩ := ih (q + 1) (acc ++ [c]) s' h2 (by simp; omega) (by simp; omega)
        (by
          intro i h
          rw [h5 _ (by omega), h4]
          simp only [set, if_neg (show ¬ base + (q + 1) + i = s.numLocked by omega)]
          exact htail i h)
        (by
          intro i h
          rw [h6 _ (by simp; omega)]
          have := hev (i + 1) (by simpa using h)
          simp only [List.length_append, List.length_singleton]
          rw [show acc.length + 1 + i = acc.length + (i + 1) by omega]
          simpa using this)
      exact ⟨s'', h7, by simpa using h8⟩
    · have hf' : c.flag = UNCONVERGED := by simpa using hf
      have hacc : accepted (c :: cs) = accepted cs := by
        unfold accepted; rw [List.filter_cons_of_neg (by simpa using hf')]
      rw [if_neg (fun h => hf h.1)]
      simp only [hacc] at hev ⊢
      exact ih (q + 1) acc s hg (by omega) (by omega) htail hev

theorem lockPhase_good (t : Target) (shifts : List K) (hs : Extreme t ∨ shifts ≠ []) (numEvals : Nat)
    (cs acc : List (Cand K V)) (s : LState K V) (hg : Good t shifts acc s)
    (hfit : cs.length ≤ numEvals - acc.length) :
    ∃ s', lockPhase t shifts numEvals cs s = .ok s' ∧ Good t shifts (acc ++ accepted cs) s' := by
  by_cases hc0 : cs = []
  · subst hc0
    refine ⟨s, ?_, by simpa [accepted] using hg⟩
    unfold lockPhase
    simp [writeCands, writeEvals, lockLoop]
  have hpos : 0 < cs.length := List.length_pos_iff.2 hc0
  unfold lockPhase
  rw [if_pos (by rw [hg.len]; exact hfit)]
  obtain ⟨w1, w2, w3, w4, w5, w6⟩ := writeCands_spec cs s.numLocked s
  have hlen := hg.len
  obtain ⟨e1, e2, e3⟩ := writeEvals_spec cs numEvals s.numLocked 0 (writeCands s.numLocked cs s).evals
    (by omega)
  simp only
  rw [e1]
  refine lockLoop_good t shifts hs numEvals s.numLocked cs 0 acc _ ?_ (by omega) (by omega) ?_ ?_
  · refine ⟨by simp only [w4]; exact hlen, ?_, by simpa [w3] using hg.perm, ?_, ?_, ?_⟩
    · intro i hi
      simp only
      rw [(w5 i (by omega)).2]
      exact hg.vec i hi
    · intro i hi
      simp only
      obtain ⟨hh, hd⟩ := hg.data i hi
      refine ⟨by rw [w3]; exact hh, ?_⟩
      rw [e2 i (by omega), (w5 i (by omega)).1, w1, w2]
      simp only [w3]
      exact hd
    · intro i j hij hj s' hs'
      simp only
      rw [e2 i (by omega), e2 j (by omega), w1]
      exact hg.ord i j hij hj s' hs'
    · intro i hi
      simp only
      rw [w3]
      exact hg.run i hi
  · intro i hi
    simpa using w6 i hi
  · intro i hi
    simp only
    rw [← hlen]
    simpa using e3 i hi

theorem good_init (t : Target) (shifts : List K) (e r : Nat → K) (f : Nat → Int) (v : Nat → V) :
    Good t shifts [] (initState e r f v) := by
  refine ⟨rfl, ?_, ⟨?_, ?_⟩, ?_, ?_, ?_⟩
  · intro i h; exact absurd h (by simp)
  · intro i h; exact absurd h (by simp)
  · intro i j h; exact absurd h (by simp)
  · intro i h; exact absurd h (by simp)
  · intro i j _ h; exact absurd h (by simp)
  · intro i h; exact absurd h (by simp)

theorem lockRun_good (t : Target) (shifts : List K) (hs : Extreme t ∨ shifts ≠ []) (numEvals : Nat) :
    ∀ (phases : List (List (Cand K V))) (acc : List (Cand K V)) (s s' : LState K V),
      Good t shifts acc s → acc.length ≤ numEvals → lockRun t shifts numEvals phases s = .ok s' →
      Good t shifts (acc ++ accepted phases.flatten) s' ∧
        (acc ++ accepted phases.flatten).length ≤ numEvals := by
  intro phases
  induction phases with
  | nil =>
    intro acc s s' hg hle h
    simp only [lockRun, Outcome.ok.injEq] at h
    subst h
    simpa [accepted] using ⟨hg, hle⟩
  | cons c cs ih =>
    intro acc s s' hg hle h
    simp only [lockRun] at h
    by_cases hfit : c.length ≤ numEvals - acc.length
    · obtain ⟨s1, h1, h2⟩ := lockPhase_good t shifts hs numEvals c acc s hg hfit
      rw [h1] at h
      simp only [Outcome.bind_ok] at h
      have hl : (accepted c).length ≤ c.length := List.length_filter_le _ _
      have := ih (acc ++ accepted c) s1 s' h2 (by simp; omega) h
      have he : accepted (c ++ cs.flatten) = accepted c ++ accepted cs.flatten := by
        unfold accepted; exact List.filter_append ..
      simpa [he] using this
    · unfold lockPhase at h
      rw [if_neg (by rw [hg.len]; exact hfit)] at h
      simp at h

end loop

end Verif.Locking
