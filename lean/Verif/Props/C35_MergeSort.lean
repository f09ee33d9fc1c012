import Verif.Model.Correction
import Mathlib.Tactic.Linarith
import Mathlib.Algebra.Order.Ring.Rat
import Mathlib.Algebra.Order.Field.Rat
import Mathlib.Data.List.Perm.Basic

/-!
# C35 — merging locked and basis Ritz values
-/

set_option linter.unusedSectionVars false

namespace Verif.Props
open Verif Verif.Correction

variable {K : Type u} [Field K] [LinearOrder K]

/-- Order of the values for the extreme targets. -/
def C35_before (t : Target) (a b : K) : Prop :=
  match t with
  | .smallest => a ≤ b
  | _ => b ≤ a

/-- The Ritz values whose flag is `UNCONVERGED`, in order. -/
def C35_unconverged (ritz : List (K × Bool)) : List K :=
  (ritz.filter (fun r => r.2)).map (fun r => r.1)

theorem C35_takeFirst_iff (t : Target) (ht : t = .smallest ∨ t = .largest) (a b : K) :
    takeFirst t a b = true ↔ C35_before t a b := by
  rcases ht with rfl | rfl <;> simp [takeFirst, C35_before]

theorem C35_merge_aux (t : Target) (ht : t = .smallest ∨ t = .largest) :
    ∀ (k count room : Nat) (locked : List K) (ritz : List (K × Bool)),
    locked.length + ritz.length = k →
    locked.Pairwise (C35_before t) → (ritz.map (fun r => r.1)).Pairwise (C35_before t) →
    ∃ vs il, merge t k count room locked ritz = .ok (vs, il) ∧
      vs.Perm (locked ++ ritz.map (fun r => r.1)) ∧ vs.Pairwise (C35_before t) ∧
      il.length = min room (C35_unconverged ritz).length ∧
      il.Pairwise (· < ·) ∧
      (∀ b (h : b < il.length), count ≤ il[b] ∧
        vs[il[b] - count]? = (C35_unconverged ritz)[b]?) := by
  have htot : ∀ a b : K, C35_before t a b ∨ C35_before t b a := by
    intro a b
    rcases ht with rfl | rfl
    · exact le_total a b
    · exact le_total b a
  have htr : ∀ a b c : K, C35_before t a b → C35_before t b c → C35_before t a c := by
    intro a b c
    rcases ht with rfl | rfl
    · exact le_trans
    · exact fun h1 h2 => le_trans h2 h1
  intro k
  induction k with
  | zero =>
    intro count room locked ritz hk _ _
    have h1 : locked = [] := by apply List.eq_nil_of_length_eq_zero; omega
    have h2 : ritz = [] := by apply List.eq_nil_of_length_eq_zero; omega
    subst h1; subst h2
    exact ⟨[], [], rfl, by simp, by simp, by simp [C35_unconverged], by simp, by simp⟩
  | succ k ih =>
    intro count room locked ritz hk hl hr
    -- the step that merges a Ritz value
    have ritzCase : ∀ (r : K × Bool) (rs : List (K × Bool)), ritz = r :: rs →
        (∀ x ∈ locked, C35_before t r.1 x) →
        ∃ vs il, (if room > 0 ∧ r.2 = true then
          match merge t k (count + 1) (room - 1) locked rs with
          | .ok (vs, il) => Outcome.ok (r.1 :: vs, count :: il)
          | .err c => Outcome.err c
          | .ub => Outcome.ub
        else
          match merge t k (count + 1) room locked rs with
          | .ok (vs, il) => Outcome.ok (r.1 :: vs, il)
          | .err c => Outcome.err c
          | .ub => Outcome.ub) = .ok (vs, il) ∧
          vs.Perm (locked ++ ritz.map (fun r => r.1)) ∧ vs.Pairwise (C35_before t) ∧
          il.length = min room (C35_unconverged ritz).length ∧
          il.Pairwise (· < ·) ∧
          (∀ b (h : b < il.length), count ≤ il[b] ∧
            vs[il[b] - count]? = (C35_unconverged ritz)[b]?) := by
      intro r rs hrs hmin
      subst hrs
      simp only [List.map_cons, List.pairwise_cons] at hr
      simp only [List.length_cons] at hk
      have hall : ∀ (vs : List K), vs.Perm (locked ++ rs.map (fun r => r.1)) →
          vs.Pairwise (C35_before t) → (r.1 :: vs).Pairwise (C35_before t) := by
        intro vs hp hs
        rw [List.pairwise_cons]
        refine ⟨?_, hs⟩
        intro x hx
        have := hp.mem_iff.1 hx
        rcases List.mem_append.1 this with h | h
        · exact hmin x h
        · exact hr.1 x h
      have hperm : ∀ (vs : List K), vs.Perm (locked ++ rs.map (fun r => r.1)) →
          (r.1 :: vs).Perm (locked ++ (r :: rs).map (fun r => r.1)) := by
        intro vs hp
        exact (List.Perm.cons r.1 hp).trans (by simpa using List.perm_middle.symm)
      by_cases hc : room > 0 ∧ r.2 = true
      · rw [if_pos hc]
        obtain ⟨vs, il, h1, h2, h3, h4, h5, h6⟩ := ih (count + 1) (room - 1) locked rs (by omega) hl hr.2
        rw [h1]
        have hu : C35_unconverged (r :: rs) = r.1 :: C35_unconverged rs := by
          unfold C35_unconverged; rw [List.filter_cons_of_pos (by simpa using hc.2)]; rfl
        refine ⟨_, _, rfl, hperm vs h2, hall vs h2 h3, ?_, ?_, ?_⟩
        · rw [hu]; simp only [List.length_cons, h4]; omega
        · rw [List.pairwise_cons]
          refine ⟨?_, h5⟩
          intro x hx
          obtain ⟨b, hb, rfl⟩ := List.getElem_of_mem hx
          have := (h6 b hb).1; omega
        · intro b hb
          cases b with
          | zero => simp [hu]
          | succ b =>
            have hb' : b < il.length := by simpa using hb
            obtain ⟨g1, g2⟩ := h6 b hb'
            simp only [List.getElem_cons_succ, hu, List.getElem?_cons_succ]
            refine ⟨by omega, ?_⟩
            rw [← g2]
            rw [show il[b] - count = (il[b] - (count + 1)) + 1 by omega]
            simp
      · rw [if_neg hc]
        obtain ⟨vs, il, h1, h2, h3, h4, h5, h6⟩ := ih (count + 1) room locked rs (by omega) hl hr.2
        rw [h1]
        refine ⟨_, _, rfl, hperm vs h2, hall vs h2 h3, ?_, h5, ?_⟩
        · by_cases hr2 : r.2 = true
          · have : room = 0 := by by_contra h; exact hc ⟨by omega, hr2⟩
            subst this; simp [h4]
          · have hu : C35_unconverged (r :: rs) = C35_unconverged rs := by
              unfold C35_unconverged; rw [List.filter_cons_of_neg (by simpa using hr2)]
            rw [hu, h4]
        · intro b hb
          obtain ⟨g1, g2⟩ := h6 b hb
          refine ⟨by omega, ?_⟩
          rw [show il[b] - count = (il[b] - (count + 1)) + 1 by omega]
          simp only [List.getElem?_cons_succ]
          rw [g2]
          by_cases hr2 : r.2 = true
          · have : room = 0 := by by_contra h; exact hc ⟨by omega, hr2⟩
            subst this; rw [h4] at hb; simp at hb
          · have hu : C35_unconverged (r :: rs) = C35_unconverged rs := by
              unfold C35_unconverged; rw [List.filter_cons_of_neg (by simpa using hr2)]
            rw [hu]
    -- the step that merges a locked value
    have lockCase : ∀ (l : K) (ls : List K), locked = l :: ls →
        (∀ x ∈ ritz.map (fun r => r.1), C35_before t l x) →
        ∃ vs il, (match merge t k (count + 1) room ls ritz with
          | .ok (vs, il) => Outcome.ok (l :: vs, il)
          | .err c => Outcome.err c
          | .ub => Outcome.ub) = .ok (vs, il) ∧
          vs.Perm (locked ++ ritz.map (fun r => r.1)) ∧ vs.Pairwise (C35_before t) ∧
          il.length = min room (C35_unconverged ritz).length ∧
          il.Pairwise (· < ·) ∧
          (∀ b (h : b < il.length), count ≤ il[b] ∧
            vs[il[b] - count]? = (C35_unconverged ritz)[b]?) := by
      intro l ls hls hmin
      subst hls
      simp only [List.pairwise_cons] at hl
      simp only [List.length_cons] at hk
      obtain ⟨vs, il, h1, h2, h3, h4, h5, h6⟩ := ih (count + 1) room ls ritz (by omega) hl.2 hr
      rw [h1]
      refine ⟨_, _, rfl, by simpa using h2, ?_, h4, h5, ?_⟩
      · rw [List.pairwise_cons]
        refine ⟨?_, h3⟩
        intro x hx
        have := h2.mem_iff.1 hx
        rcases List.mem_append.1 this with h | h
        · exact hl.1 x h
        · exact hmin x h
      · intro b hb
        obtain ⟨g1, g2⟩ := h6 b hb
        refine ⟨by omega, ?_⟩
        rw [show il[b] - count = (il[b] - (count + 1)) + 1 by omega]
        simp only [List.getElem?_cons_succ]
        exact g2
    cases locked with
    | nil =>
      cases ritz with
      | nil => simp at hk
      | cons r rs =>
        simp only [merge]
        exact ritzCase r rs rfl (by simp)
    | cons l ls =>
      cases ritz with
      | nil =>
        simp only [merge]
        exact lockCase l ls rfl (by simp)
      | cons r rs =>
        simp only [merge]
        have hl' := hl
        have hr' := hr
        simp only [List.pairwise_cons] at hl'
        simp only [List.map_cons, List.pairwise_cons] at hr'
        by_cases htf : takeFirst t r.1 l = true
        · rw [if_pos htf]
          have hb := (C35_takeFirst_iff t ht _ _).1 htf
          refine ritzCase r rs rfl ?_
          intro x hx
          rcases List.mem_cons.1 hx with rfl | hx
          · exact hb
          · exact htr _ _ _ hb (hl'.1 x hx)
        · rw [if_neg htf]
          have hb : C35_before t l r.1 := by
            rcases htot l r.1 with h | h
            · exact h
            · exact absurd ((C35_takeFirst_iff t ht _ _).2 h) htf
          rw [if_pos ((C35_takeFirst_iff t ht _ _).2 hb)]
          refine lockCase l ls rfl ?_
          intro x hx
          simp only [List.map_cons, List.mem_cons] at hx
          rcases hx with rfl | hx
          · exact hb
          · exact htr _ _ _ hb (hr'.1 x hx)

/-- For every pair of lists in target order and every assignment of flags: the merged list is a
rearrangement of locked and basis values in target order, and `ilev` lists, in increasing order, a
position for each of the first `blockSize` unconverged Ritz values (all of them if there are fewer),
position `ilev[b]` holding the value of the `b`-th unconverged Ritz pair. -/
theorem C35_merge_is_sorted_and_indices_match (t : Target) (ht : t = .smallest ∨ t = .largest)
    (locked : List K) (ritz : List (K × Bool)) (blockSize : Nat)
    (hl : locked.Pairwise (C35_before t)) (hr : (ritz.map (fun r => r.1)).Pairwise (C35_before t)) :
    ∃ sorted ilev, mergeSort t locked ritz blockSize = .ok (sorted, ilev) ∧
      sorted.Perm (locked ++ ritz.map (fun r => r.1)) ∧ sorted.Pairwise (C35_before t) ∧
      ilev.length = min blockSize (C35_unconverged ritz).length ∧ ilev.Pairwise (· < ·) ∧
      (∀ b (h : b < ilev.length), ∃ x, sorted[ilev[b]]? = some x ∧ (C35_unconverged ritz)[b]? = some x) := by
  obtain ⟨vs, il, h1, h2, h3, h4, h5, h6⟩ :=
    C35_merge_aux t ht (locked.length + ritz.length) 0 blockSize locked ritz rfl hl hr
  refine ⟨vs, il, h1, h2, h3, h4, h5, ?_⟩
  intro b hb
  have hbu : b < (C35_unconverged ritz).length := by omega
  have := (h6 b hb).2
  simp only [Nat.sub_zero] at this
  exact ⟨_, by rw [this]; exact List.getElem?_eq_getElem hbu, List.getElem?_eq_getElem hbu⟩

/-- If the block has more vectors than there are unconverged Ritz values, some entries of `ilev` are
never written although the caller reads all `blockSize` of them: the block must only contain
unconverged pairs. -/
theorem C35_short_flags_leave_ilev_unset (t : Target) (ht : t = .smallest ∨ t = .largest)
    (locked : List K) (ritz : List (K × Bool)) (blockSize : Nat)
    (hl : locked.Pairwise (C35_before t)) (hr : (ritz.map (fun r => r.1)).Pairwise (C35_before t))
    (hfew : (C35_unconverged ritz).length < blockSize) :
    ∃ sorted ilev, mergeSort t locked ritz blockSize = .ok (sorted, ilev) ∧ ilev.length < blockSize := by
  obtain ⟨vs, il, h1, _, _, h4, _⟩ :=
    C35_merge_is_sorted_and_indices_match t ht locked ritz blockSize hl hr
  exact ⟨vs, il, h1, by omega⟩

/-! Non-vacuity. -/
example : mergeSort .smallest [1, 4, 9] [((2 : Rat), false), (3, true), (4, true), (10, true)] 2 =
    .ok ([1, 2, 3, 4, 4, 9, 10], [2, 3]) := by decide +kernel
example : ([1, 4, 9] : List Rat).Pairwise (C35_before .smallest) := by
  show List.Pairwise (fun a b => a ≤ b) _; decide +kernel
example : mergeSort .largest [9, 4, 1] [((10 : Rat), true), (2, false), (2, true)] 3 =
    .ok ([10, 9, 4, 2, 2, 1], [0, 4]) := by decide +kernel

end Verif.Props
