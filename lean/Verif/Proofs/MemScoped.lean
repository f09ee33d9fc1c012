import Verif.Proofs.MemFrames
import Verif.Spec.Scoped

/-! Disciplined functions never hand a dangling pointer to `Num_free`. -/

namespace Verif.MemFrames

/-- The pointers of the variables `own` are NULL or distinct blocks recorded in frame `f`. -/
def Owns (own : List Nat) (f : Frame) (env : Nat → Nat) : Prop :=
  (∀ x ∈ own, env x = 0 ∨ ∃ r ∈ f.recs, r.p = env x) ∧
  (∀ x ∈ own, ∀ y ∈ own, x ≠ y → env x = env y → env x = 0)

theorem popFrame_top {L0 base f g front s} (h : Good L0 base (f :: g :: front) s) :
    ∃ s' g', popFrame s = some (0, s') ∧ Good L0 base (g' :: front) s' ∧ s'.env = s.env ∧
      g.recs ⊆ g'.recs ∧ (f.keep = true → f.recs ⊆ g'.recs) := by
  obtain ⟨h1, h2⟩ := h
  by_cases hk : f.keep = true
  · refine ⟨{ s with frames := { g with recs := transfer f.recs g.recs } :: (front ++ base) },
      { g with recs := transfer f.recs g.recs }, ?_, ⟨rfl, ?_⟩, rfl, ?_, ?_⟩
    · simp only [popFrame, h1, List.cons_append, hk]
    · apply Inv.frames
      refine h2.perm ?_
      rw [allRecs_cons, allRecs_cons, allRecs_cons, ← List.append_assoc]
      exact (transfer_perm _ _).symm.append_right _
    · intro x hx
      exact (transfer_perm _ _).mem_iff.2 (List.mem_append_right _ hx)
    · intro _ x hx
      exact (transfer_perm _ _).mem_iff.2 (List.mem_append_left _ hx)
  · have hk' : f.keep = false := by simpa using hk
    rw [allRecs_cons] at h2
    obtain ⟨s', g1, g2, g3, _⟩ := freeAll_spec L0 f.recs _ _
      (h2.frames ({ f with recs := [] } :: (g :: front ++ base)))
    have henv : ∀ rs (t t' : St), freeAll rs t = some t' → t'.env = t.env := by
      intro rs
      induction rs with
      | nil => intro t t' e; simp only [freeAll, Option.some.injEq] at e; rw [e]
      | cons r rs ih =>
        intro t t' e
        simp only [freeAll, free] at e
        split_ifs at e <;> simp only at e <;> split_ifs at e <;>
          (have := ih _ _ e; simpa using this)
    have e1 : popCleanFrame s = some s' := by
      simp only [popCleanFrame, h1, List.cons_append]; exact g1
    refine ⟨{ s' with frames := g :: (front ++ base) }, g, ?_, ⟨rfl, g2.frames _⟩,
      by simpa using henv _ _ _ g1, fun _ h => h, fun hc => by simp [hk'] at hc⟩
    simp only [popFrame, h1, List.cons_append, hk', e1]

theorem scoped_run {o : MallocOracle} (ho : ∀ i, o.recd i = true) (L0 : Nat → Bool) (base : List Frame)
    {own : List Nat} {p : Prog} (hp : Scoped own p) :
    ∀ (f : Frame) (front : List Frame) (s : St), Good L0 base (f :: front) s → Owns own f s.env →
    ∃ c s' f', run o p s = .fin c s' ∧ Good L0 base (f' :: front) s' ∧
      (c = 0 → ∀ y, y ∉ p.vars → s'.env y = s.env y) := by
  induction hp with
  | ret own c => intro f front s h _; exact ⟨c, s, f, rfl, h, fun _ _ _ => rfl⟩
  | keep _ ih =>
    intro f front s h hown
    have h1 := h.1
    simp only [run, keepFrame, h1, List.cons_append]
    obtain ⟨c, s', f', e1, e2, e3⟩ := ih { f with keep := true } front
      { s with frames := { f with keep := true } :: (front ++ base) }
      ⟨rfl, (h.2.perm (by simp [allRecs_cons])).frames _⟩ hown
    exact ⟨c, s', f', e1, e2, fun hc => e3 hc⟩
  | @malloc own x pos k hx _ ih =>
    intro f front s h hown
    have hpush : Good L0 base (⟨[], false⟩ :: f :: front) { s with frames := ⟨[], false⟩ :: s.frames } := by
      refine ⟨by simp [h.1], ?_⟩
      exact (h.2.perm (by simp [allRecs_cons])).frames _
    obtain ⟨c, s1, f1, e1, e2, e3⟩ := numMalloc_spec ho hpush x pos
    simp only [run, e1]
    by_cases hc : c ≠ 0
    · simp only [if_pos hc]
      obtain ⟨s2, a1, a2, a3⟩ := popCleanFrame_spec e2
      rw [a1]
      exact ⟨c, _, f, rfl, ⟨by simp [a2], a3.frames _⟩, fun h0 => absurd h0 hc⟩
    · simp only [if_neg hc]
      obtain ⟨s2, g', a1, a2, a3, a4, a5⟩ := popFrame_top e2
      rw [a1]
      simp only [ne_eq, not_true_eq_false, if_false]
      have hown' : Owns (x :: own) g' s2.env := by
        rw [a3]
        rcases e3 with ⟨_, e3⟩ | ⟨e3f, e3⟩
        · rw [e3]
          constructor
          · intro y hy
            by_cases hyx : y = x
            · left; simp [setEnv, hyx]
            · rcases List.mem_cons.1 hy with rfl | hy
              · exact absurd rfl hyx
              · rcases hown.1 y hy with h0 | ⟨r, hr, er⟩
                · left; simp [setEnv, hyx, h0]
                · right; exact ⟨r, a4 hr, by simp [setEnv, hyx, er]⟩
          · intro y hy z hz hyz he
            by_cases hyx : y = x
            · simp [setEnv, hyx]
            · by_cases hzx : z = x
              · rw [he]; simp [setEnv, hzx]
              · have hy' : y ∈ own := by rcases List.mem_cons.1 hy with h | h; exact absurd h hyx; exact h
                have hz' : z ∈ own := by rcases List.mem_cons.1 hz with h | h; exact absurd h hzx; exact h
                simp only [setEnv, hyx, hzx, if_false] at he ⊢
                exact hown.2 y hy' z hz' hyz he
        · rw [e3]
          have hf1 : f1.recs ⊆ g'.recs := a5 (by rw [e3f])
          constructor
          · intro y hy
            by_cases hyx : y = x
            · right
              refine ⟨⟨s.next + 1, s.next⟩, hf1 ?_, by simp [setEnv, hyx]⟩
              rw [e3f]; simp
            · rcases List.mem_cons.1 hy with rfl | hy
              · exact absurd rfl hyx
              · rcases hown.1 y hy with h0 | ⟨r, hr, er⟩
                · left; simp [setEnv, hyx, h0]
                · right; exact ⟨r, a4 hr, by simp [setEnv, hyx, er]⟩
          · intro y hy z hz hyz he
            have hlt := h.2.envlt
            by_cases hyx : y = x
            · by_cases hzx : z = x
              · exact absurd (hyx.trans hzx.symm) hyz
              · simp only [setEnv, hyx, hzx, if_true, if_false] at he
                have := hlt z; omega
            · by_cases hzx : z = x
              · simp only [setEnv, hyx, hzx, if_true, if_false] at he
                have := hlt y; omega
              · have hy' : y ∈ own := by rcases List.mem_cons.1 hy with h | h; exact absurd h hyx; exact h
                have hz' : z ∈ own := by rcases List.mem_cons.1 hz with h | h; exact absurd h hzx; exact h
                simp only [setEnv, hyx, hzx, if_false] at he ⊢
                exact hown.2 y hy' z hz' hyz he
      obtain ⟨c', s3, f3, b1, b2, b3⟩ := ih g' front s2 a2 hown'
      refine ⟨c', s3, f3, b1, b2, fun hc' => ?_⟩
      intro y hy
      simp only [Prog.vars, List.mem_append, List.mem_singleton, not_or] at hy
      rw [b3 hc' y hy.2, a3]
      rcases e3 with ⟨_, e3⟩ | ⟨_, e3⟩ <;> rw [e3] <;> simp [setEnv, hy.1]
  | @free own x k hx _ ih =>
    intro f front s h hown
    have hpush : Good L0 base (⟨[], false⟩ :: f :: front) { s with frames := ⟨[], false⟩ :: s.frames } := by
      refine ⟨by simp [h.1], ?_⟩
      exact (h.2.perm (by simp [allRecs_cons])).frames _
    simp only [run, numFree]
    rcases hown.1 x hx with h0 | ⟨r, hr, er⟩
    · -- NULL pointer
      rw [if_pos h0]
      simp only [ne_eq, not_true_eq_false, if_false]
      obtain ⟨s2, g', a1, a2, a3, a4, a5⟩ := popFrame_top hpush
      rw [a1]
      simp only [ne_eq, not_true_eq_false, if_false]
      obtain ⟨c', s3, f3, b1, b2, b3⟩ := ih g' front s2 a2 (by
        rw [a3]
        constructor
        · intro y hy
          rcases hown.1 y (List.mem_filter.1 hy).1 with h0 | ⟨r, hr, er⟩
          · exact Or.inl h0
          · exact Or.inr ⟨r, a4 hr, er⟩
        · intro y hy z hz
          exact hown.2 y (List.mem_filter.1 hy).1 z (List.mem_filter.1 hz).1)
      refine ⟨c', s3, f3, b1, b2, fun hc' => ?_⟩
      intro y hy
      simp only [Prog.vars, List.nil_append] at hy
      rw [b3 hc' y hy, a3]
    · by_cases h0 : s.env x = 0
      · -- cannot be: recorded pointers are not NULL
        exact absurd h0 (by
          rw [← er]
          exact h.2.pos _ (mem_addrs_p (by rw [allRecs_cons]; exact List.mem_append_left _ hr)))
      rw [if_neg h0]
      have hmem : r ∈ allRecs (f :: front) := by rw [allRecs_cons]; exact List.mem_append_left _ hr
      have hlive : s.live (s.env x) = true := (h.2.live _).2 (Or.inr (er ▸ mem_addrs_p hmem))
      rw [if_neg (by simp [hlive])]
      obtain ⟨q, rs', u1, u2, u3⟩ := unlink_some ⟨r, hr, er⟩
      have hinv : Inv L0 (q :: allRecs ({ f with recs := rs' } :: front)) s := by
        refine h.2.perm ?_
        rw [allRecs_cons, allRecs_cons]
        exact u3.append_right _
      obtain ⟨g1, g2, g3, g4, g5⟩ := hinv.release
      rw [u2] at g1 g3 g5
      have f1 : deregisterAlloc (s.env x) { s with frames := ⟨[], false⟩ :: s.frames } =
          some { s with frames := ⟨[], false⟩ :: { f with recs := rs' } :: (front ++ base), live := fun b => if b = q.self then false else s.live b } := by
        simp [deregisterAlloc, unlinkFrames, unlink, h.1, u1, free, g2]
      rw [f1]
      have f2 : free (s.env x) { s with frames := ⟨[], false⟩ :: { f with recs := rs' } :: (front ++ base), live := fun b => if b = q.self then false else s.live b } =
          some { s with frames := ⟨[], false⟩ :: { f with recs := rs' } :: (front ++ base), live := fun b => if b = s.env x then false else if b = q.self then false else s.live b } := by
        simp [free, g1, g3]
      simp only [f2, ne_eq, not_true_eq_false, if_false]
      have hgood : Good L0 base (⟨[], false⟩ :: { f with recs := rs' } :: front)
          { s with frames := ⟨[], false⟩ :: { f with recs := rs' } :: (front ++ base), live := fun b => if b = s.env x then false else if b = q.self then false else s.live b } := by
        refine ⟨rfl, ?_⟩
        have := g5 { s with frames := ⟨[], false⟩ :: { f with recs := rs' } :: (front ++ base), live := fun b => if b = s.env x then false else if b = q.self then false else s.live b } ?_ rfl rfl
        · exact this.perm (by simp [allRecs_cons])
        · intro a; dsimp only; by_cases x1 : a = s.env x <;> by_cases x2 : a = q.self <;> simp [x1, x2]
      obtain ⟨s2, g', a1, a2, a3, a4, a5⟩ := popFrame_top hgood
      rw [a1]
      simp only [not_true_eq_false, if_false]
      obtain ⟨c', s3, f3, b1, b2, b3⟩ := ih g' front s2 a2 (by
        rw [a3]
        constructor
        · intro y hy
          obtain ⟨hy1, hy2⟩ := List.mem_filter.1 hy
          have hyx : y ≠ x := by simpa using hy2
          rcases hown.1 y hy1 with h0' | ⟨r', hr', er'⟩
          · exact Or.inl h0'
          · right
            refine ⟨r', a4 ?_, er'⟩
            rcases List.mem_cons.1 (u3.mem_iff.1 hr') with rfl | hm
            · exfalso
              exact h0 (hown.2 x hx y hy1 (Ne.symm hyx) (by rw [← u2, er']))
            · exact hm
        · intro y hy z hz
          exact hown.2 y (List.mem_filter.1 hy).1 z (List.mem_filter.1 hz).1)
      refine ⟨c', s3, f3, b1, b2, fun hc' => ?_⟩
      intro y hy
      simp only [Prog.vars, List.nil_append] at hy
      rw [b3 hc' y hy, a3]
  | @call own callee k _ hdis _ ihc ihk =>
    intro f front s h hown
    have hpush : Good L0 base (⟨[], false⟩ :: f :: front) { s with frames := ⟨[], false⟩ :: s.frames } := by
      refine ⟨by simp [h.1], ?_⟩
      exact (h.2.perm (by simp [allRecs_cons])).frames _
    obtain ⟨c, s1, f1, e1, e2, e3⟩ := ihc _ _ _ hpush ⟨by simp, by simp⟩
    simp only [run, e1]
    by_cases hc : c ≠ 0
    · simp only [if_pos hc]
      obtain ⟨s2, a1, a2, a3⟩ := popCleanFrame_spec e2
      rw [a1]
      exact ⟨c, _, f, rfl, ⟨by simp [a2], a3.frames _⟩, fun h0 => absurd h0 hc⟩
    · simp only [if_neg hc]
      have hc0 : c = 0 := by simpa using hc
      obtain ⟨s2, g', a1, a2, a3, a4, a5⟩ := popFrame_top e2
      rw [a1]
      simp only [ne_eq, not_true_eq_false, if_false]
      have henv : ∀ y, y ∉ callee.vars → s2.env y = s.env y := fun y hy => by
        rw [a3]; exact e3 hc0 y hy
      have hown' : Owns own g' s2.env := by
        constructor
        · intro y hy
          rw [henv y (fun hm => hdis y hm hy)]
          rcases hown.1 y hy with h0 | ⟨r, hr, er⟩
          · exact Or.inl h0
          · exact Or.inr ⟨r, a4 hr, er⟩
        · intro y hy z hz
          rw [henv y (fun hm => hdis y hm hy), henv z (fun hm => hdis z hm hz)]
          exact hown.2 y hy z hz
      obtain ⟨c', s3, f3, b1, b2, b3⟩ := ihk g' front s2 a2 hown'
      refine ⟨c', s3, f3, b1, b2, fun hc' => ?_⟩
      intro y hy
      simp only [Prog.vars, List.mem_append, not_or] at hy
      rw [b3 hc' y hy.2, henv y hy.1]

end Verif.MemFrames
