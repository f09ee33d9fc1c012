import Verif.Model.MemFrames
import Mathlib.Data.List.Perm.Basic
import Mathlib.Data.List.Nodup
import Mathlib.Tactic.Common

/-! Invariant of the memory frame machinery. -/

namespace Verif.MemFrames

def allRecs (fs : List Frame) : List Rec := fs.flatMap (fun f => f.recs)

def addrs (R : List Rec) : List Nat := R.flatMap (fun r => [r.self, r.p])

theorem addrs_perm {R R' : List Rec} (h : R.Perm R') : (addrs R).Perm (addrs R') :=
  List.Perm.flatMap_right _ h

theorem addrs_cons (r : Rec) (R : List Rec) : addrs (r :: R) = r.self :: r.p :: addrs R := by
  simp [addrs]

theorem addrs_append (R R' : List Rec) : addrs (R ++ R') = addrs R ++ addrs R' := by
  simp [addrs]

theorem mem_addrs_p {r : Rec} {R : List Rec} (h : r ∈ R) : r.p ∈ addrs R := by
  simp only [addrs, List.mem_flatMap]; exact ⟨r, h, by simp⟩

/-- Invariant: the tracked blocks `R` are distinct and live, they and the blocks of `L0` are the only
live ones, and the client's non-dangling pointers are tracked blocks. -/
structure Inv (L0 : Nat → Bool) (R : List Rec) (s : St) : Prop where
  nodup : (addrs R).Nodup
  live : ∀ a, s.live a = true ↔ (L0 a = true ∨ a ∈ addrs R)
  disj : ∀ a ∈ addrs R, L0 a = false
  lt : ∀ a, s.live a = true → a < s.next
  pos : ∀ a ∈ addrs R, a ≠ 0
  nextpos : 0 < s.next
  env : ∀ x, s.env x ≠ 0 → s.live (s.env x) = true → ∃ r ∈ R, r.p = s.env x
  envlt : ∀ x, s.env x < s.next

theorem Inv.perm {L0 R R' s} (h : Inv L0 R s) (hp : R.Perm R') : Inv L0 R' s where
  nodup := (addrs_perm hp).nodup_iff.1 h.nodup
  live a := by rw [h.live a, (addrs_perm hp).mem_iff]
  disj a ha := h.disj a ((addrs_perm hp).mem_iff.2 ha)
  lt := h.lt
  pos a ha := h.pos a ((addrs_perm hp).mem_iff.2 ha)
  nextpos := h.nextpos
  env x hx hl := by
    obtain ⟨r, hr, e⟩ := h.env x hx hl
    exact ⟨r, hp.mem_iff.1 hr, e⟩
  envlt := h.envlt

theorem Inv.frames {L0 R s} (h : Inv L0 R s) (fs : List Frame) : Inv L0 R { s with frames := fs } where
  nodup := h.nodup
  live := h.live
  disj := h.disj
  lt := h.lt
  pos := h.pos
  nextpos := h.nextpos
  env := h.env
  envlt := h.envlt

/-- Releasing one tracked block together with its record. -/
theorem Inv.release {L0 r R s} (h : Inv L0 (r :: R) s) :
    s.live r.p = true ∧ s.live r.self = true ∧ r.p ≠ r.self ∧ r.p ≠ 0 ∧
    ∀ s', (∀ a, s'.live a = if a = r.p ∨ a = r.self then false else s.live a) →
      s'.next = s.next → s'.env = s.env → Inv L0 R s' := by
  have hnd := h.nodup
  rw [addrs_cons] at hnd
  simp only [List.nodup_cons, List.mem_cons, not_or] at hnd
  obtain ⟨⟨h1, h2⟩, h3, h4⟩ := hnd
  have mself : r.self ∈ addrs (r :: R) := by simp [addrs_cons]
  have mp : r.p ∈ addrs (r :: R) := by simp [addrs_cons]
  refine ⟨(h.live _).2 (Or.inr mp), (h.live _).2 (Or.inr mself), fun e => h1 e.symm, h.pos _ mp, ?_⟩
  intro s' hl hn he
  have hlive : ∀ a, s'.live a = true ↔ (L0 a = true ∨ a ∈ addrs R) := by
    intro a
    rw [hl a]
    by_cases ha : a = r.p ∨ a = r.self
    · rw [if_pos ha]
      constructor
      · intro hf; simp at hf
      · rintro (h0 | hm)
        · rcases ha with rfl | rfl
          · rw [h.disj _ mp] at h0; simp at h0
          · rw [h.disj _ mself] at h0; simp at h0
        · rcases ha with rfl | rfl
          · exact absurd hm h3
          · exact absurd hm h2
    · rw [if_neg ha, h.live a, addrs_cons]
      simp only [not_or] at ha
      simp only [List.mem_cons]
      constructor
      · rintro (h0 | h0 | h0 | h0)
        · exact Or.inl h0
        · exact absurd h0 ha.2
        · exact absurd h0 ha.1
        · exact Or.inr h0
      · rintro (h0 | h0)
        · exact Or.inl h0
        · exact Or.inr (Or.inr (Or.inr h0))
  have hsub : ∀ a, s'.live a = true → s.live a = true := by
    intro a ha
    rw [hl a] at ha
    by_cases hc : a = r.p ∨ a = r.self
    · rw [if_pos hc] at ha; simp at ha
    · rw [if_neg hc] at ha; exact ha
  refine ⟨h4, hlive, ?_, ?_, ?_, by rw [hn]; exact h.nextpos, ?_, ?_⟩
  · intro a ha; exact h.disj a (by rw [addrs_cons]; simp [ha])
  · intro a ha; rw [hn]; exact h.lt a (hsub a ha)
  · intro a ha; exact h.pos a (by rw [addrs_cons]; simp [ha])
  · intro x hx hlx
    rw [he] at hx hlx ⊢
    obtain ⟨q, hq, e⟩ := h.env x hx (hsub _ hlx)
    rcases List.mem_cons.1 hq with rfl | hq
    · rw [hl, if_pos (Or.inl e.symm)] at hlx; simp at hlx
    · exact ⟨q, hq, e⟩
  · intro x; rw [he, hn]; exact h.envlt x

theorem freeAll_spec (L0 : Nat → Bool) : ∀ (rs R : List Rec) (s : St), Inv L0 (rs ++ R) s →
    ∃ s', freeAll rs s = some s' ∧ Inv L0 R s' ∧ s'.frames = s.frames ∧ s'.calls = s.calls := by
  intro rs
  induction rs with
  | nil => intro R s h; exact ⟨s, rfl, h, rfl, rfl⟩
  | cons r rs ih =>
    intro R s h
    obtain ⟨h1, h2, h3, h4, h5⟩ := Inv.release (show Inv L0 (r :: (rs ++ R)) s from h)
    have e1 : free r.p s = some { s with live := fun b => if b = r.p then false else s.live b } := by
      simp [free, h1]
    have e2 : free r.self { s with live := fun b => if b = r.p then false else s.live b } =
        some { s with live := fun b => if b = r.self then false else if b = r.p then false else s.live b } := by
      simp [free, h2, Ne.symm h3]
    have hinv := h5 { s with live := fun b => if b = r.self then false else if b = r.p then false else s.live b }
      (by intro a; dsimp only; by_cases x1 : a = r.self <;> by_cases x2 : a = r.p <;> simp [x1, x2]) rfl rfl
    obtain ⟨s', g1, g2, g3, g4⟩ := ih R _ hinv
    refine ⟨s', ?_, g2, g3, g4⟩
    simp only [freeAll, if_neg h4, e1, e2, g1]

theorem transfer_perm : ∀ (rs dst : List Rec), (transfer rs dst).Perm (rs ++ dst) := by
  intro rs
  induction rs with
  | nil => intro dst; exact List.Perm.refl _
  | cons r rs ih =>
    intro dst
    exact (ih (r :: dst)).trans List.perm_middle

theorem allRecs_cons (f : Frame) (fs : List Frame) : allRecs (f :: fs) = f.recs ++ allRecs fs := by
  simp [allRecs]

theorem unlink_some {p : Nat} : ∀ {rs : List Rec}, (∃ r ∈ rs, r.p = p) →
    ∃ q rs', unlink p rs = some (q, rs') ∧ q.p = p ∧ rs.Perm (q :: rs') := by
  intro rs
  induction rs with
  | nil => rintro ⟨r, hr, _⟩; simp at hr
  | cons r rs ih =>
    rintro ⟨r', hr', e⟩
    by_cases h : r.p = p
    · exact ⟨r, rs, by simp [unlink, h], h, List.Perm.refl _⟩
    · have : ∃ r ∈ rs, r.p = p := by
        rcases List.mem_cons.1 hr' with rfl | hm
        · exact absurd e h
        · exact ⟨r', hm, e⟩
      obtain ⟨q, rs', h1, h2, h3⟩ := ih this
      exact ⟨q, r :: rs', by simp [unlink, h, h1], h2, (h3.cons r).trans (List.Perm.swap _ _ _)⟩

theorem unlink_none {p : Nat} : ∀ {rs : List Rec}, (¬ ∃ r ∈ rs, r.p = p) → unlink p rs = none := by
  intro rs
  induction rs with
  | nil => intro _; rfl
  | cons r rs ih =>
    intro h
    have h1 : r.p ≠ p := fun e => h ⟨r, by simp, e⟩
    have h2 : ¬ ∃ r ∈ rs, r.p = p := fun ⟨q, hq, e⟩ => h ⟨q, by simp [hq], e⟩
    simp [unlink, h1, ih h2]

theorem unlinkFrames_some {p : Nat} (base : List Frame) : ∀ {fs : List Frame},
    (∃ r ∈ allRecs fs, r.p = p) →
    ∃ q fs', unlinkFrames p (fs ++ base) = some (q, fs' ++ base) ∧ q.p = p ∧
      (allRecs fs).Perm (q :: allRecs fs') ∧ fs'.length = fs.length ∧
      List.Forall₂ (fun g' g => g'.recs ⊆ g.recs ∧ g'.keep = g.keep) fs' fs := by
  intro fs
  induction fs with
  | nil => rintro ⟨r, hr, _⟩; simp [allRecs] at hr
  | cons f fs ih =>
    rintro ⟨r, hr, e⟩
    by_cases hf : ∃ r ∈ f.recs, r.p = p
    · obtain ⟨q, rs', h1, h2, h3⟩ := unlink_some hf
      refine ⟨q, { f with recs := rs' } :: fs, by simp [unlinkFrames, h1], h2, ?_, rfl,
        List.Forall₂.cons ⟨fun y hy => h3.mem_iff.2 (List.mem_cons_of_mem _ hy), rfl⟩
          (List.forall₂_same.2 (fun _ _ => ⟨fun _ h => h, rfl⟩))⟩
      rw [allRecs_cons, allRecs_cons]
      exact h3.append_right _
    · have hm : ∃ r ∈ allRecs fs, r.p = p := by
        rw [allRecs_cons] at hr
        rcases List.mem_append.1 hr with h | h
        · exact absurd ⟨r, h, e⟩ hf
        · exact ⟨r, h, e⟩
      obtain ⟨q, fs', h1, h2, h3, h4, h5⟩ := ih hm
      refine ⟨q, f :: fs', by simp [unlinkFrames, unlink_none hf, h1], h2, ?_, by simp [h4],
        List.Forall₂.cons ⟨fun _ h => h, rfl⟩ h5⟩
      rw [allRecs_cons, allRecs_cons]
      exact (h3.append_left _).trans List.perm_middle

/-- The frames of `fs'` are those of `fs` with some records removed. -/
def Shrink (fs' fs : List Frame) : Prop :=
  List.Forall₂ (fun g' g => g'.recs ⊆ g.recs ∧ g'.keep = g.keep) fs' fs

theorem Shrink.refl (fs : List Frame) : Shrink fs fs := by
  induction fs with
  | nil => exact List.Forall₂.nil
  | cons f fs ih => exact List.Forall₂.cons ⟨fun _ h => h, rfl⟩ ih

theorem Shrink.trans : ∀ {a b c : List Frame}, Shrink a b → Shrink b c → Shrink a c := by
  intro a b c h1
  induction h1 generalizing c with
  | nil => intro h2; exact h2
  | cons h _ ih =>
    intro h2
    cases h2 with
    | cons h' t' => exact List.Forall₂.cons ⟨fun _ hx => h'.1 (h.1 hx), h.2.trans h'.2⟩ (ih t')

theorem Shrink.length {a b : List Frame} (h : Shrink a b) : a.length = b.length := h.length_eq

theorem Shrink.allRecs {a b : List Frame} (h : Shrink a b) : allRecs a ⊆ allRecs b := by
  induction h with
  | nil => exact fun _ h => h
  | cons h _ ih =>
    rw [allRecs_cons, allRecs_cons]
    intro x hx
    rcases List.mem_append.1 hx with h1 | h1
    · exact List.mem_append_left _ (h.1 h1)
    · exact List.mem_append_right _ (ih h1)

/-- State described by a non-empty list of frames in front of the fixed frames `base`. -/
def Good (L0 : Nat → Bool) (base front : List Frame) (s : St) : Prop :=
  s.frames = front ++ base ∧ Inv L0 (allRecs front) s

theorem popCleanFrame_spec {L0 base f front s} (h : Good L0 base (f :: front) s) :
    ∃ s', popCleanFrame s = some s' ∧ s'.frames = { f with recs := [] } :: (front ++ base) ∧
      Inv L0 (allRecs front) s' := by
  obtain ⟨h1, h2⟩ := h
  rw [allRecs_cons] at h2
  obtain ⟨s', g1, g2, g3, _⟩ := freeAll_spec L0 f.recs (allRecs front) _
    (h2.frames ({ f with recs := [] } :: (front ++ base)))
  refine ⟨s', ?_, g3, g2⟩
  simp only [popCleanFrame, h1, List.cons_append]
  exact g1

theorem popFrame_spec {L0 base f g front s} (h : Good L0 base (f :: g :: front) s) :
    ∃ s' g', popFrame s = some (0, s') ∧ Good L0 base (g' :: front) s' := by
  obtain ⟨h1, h2⟩ := h
  by_cases hk : f.keep = true
  · refine ⟨{ s with frames := { g with recs := transfer f.recs g.recs } :: (front ++ base) },
      { g with recs := transfer f.recs g.recs }, ?_, rfl, ?_⟩
    · simp only [popFrame, h1, List.cons_append, hk]
    · apply Inv.frames
      refine h2.perm ?_
      rw [allRecs_cons, allRecs_cons, allRecs_cons, ← List.append_assoc]
      exact (transfer_perm _ _).symm.append_right _
  · have hk' : f.keep = false := by simpa using hk
    obtain ⟨s', e1, e2, e3⟩ := popCleanFrame_spec (base := base) ⟨h1, h2⟩
    refine ⟨{ s' with frames := g :: (front ++ base) }, g, ?_, rfl, e3.frames _⟩
    simp only [popFrame, h1, List.cons_append, hk', e1]

theorem malloc_inv {L0 R s} (h : Inv L0 R s) :
    Inv (fun a => L0 a) R { s with calls := s.calls + 1 } :=
  ⟨h.nodup, h.live, h.disj, h.lt, h.pos, h.nextpos, h.env, h.envlt⟩

theorem numMalloc_spec {o : MallocOracle} (ho : ∀ i, o.recd i = true) {L0 base f front s}
    (h : Good L0 base (f :: front) s) (x : Nat) (pos : Bool) :
    ∃ c s' f', numMalloc o x pos s = .fin c s' ∧ Good L0 base (f' :: front) s' ∧
      ((f' = f ∧ s'.env = setEnv s.env x 0) ∨
       (f' = ⟨⟨s.next + 1, s.next⟩ :: f.recs, true⟩ ∧ s'.env = setEnv s.env x s.next)) := by
  obtain ⟨h1, h2⟩ := h
  have hnull : ∀ (c : Nat), Inv L0 (allRecs (f :: front)) { s with env := setEnv s.env x 0, calls := c } := by
    intro c
    refine ⟨h2.nodup, h2.live, h2.disj, h2.lt, h2.pos, h2.nextpos, ?_, ?_⟩
    · intro y hy hl
      simp only [setEnv] at hy hl ⊢
      by_cases hyx : y = x
      · simp [hyx] at hy
      · simp only [hyx, if_false] at hy hl ⊢
        exact h2.env y hy hl
    · intro y
      simp only [setEnv]
      by_cases hyx : y = x
      · simp [hyx, h2.nextpos]
      · simp only [hyx, if_false]; exact h2.envlt y
  unfold numMalloc
  by_cases hp : pos = false
  · rw [if_pos hp]
    exact ⟨_, _, f, rfl, ⟨h1, hnull s.calls⟩, Or.inl ⟨rfl, rfl⟩⟩
  · rw [if_neg hp]
    by_cases hd : o.data s.calls = true
    · have hne : s.next ≠ 0 := by have := h2.nextpos; omega
      have hne1 : s.next + 1 ≠ 0 := by omega
      simp only [malloc, hd, if_true, hne, if_false, keepFrame, h1, List.cons_append, registerAlloc, ho, hne1]
      refine ⟨_, _, ⟨⟨s.next + 1, s.next⟩ :: f.recs, true⟩, rfl, ⟨rfl, ?_⟩, Or.inr ⟨rfl, rfl⟩⟩
      have hnl : s.live s.next = false := by
        by_contra hc; have := h2.lt s.next (by simpa using hc); omega
      have hnl1 : s.live (s.next + 1) = false := by
        by_contra hc; have := h2.lt (s.next + 1) (by simpa using hc); omega
      have hm0 : s.next ∉ addrs (allRecs (f :: front)) := fun hm => by
        have := (h2.live s.next).2 (Or.inr hm); rw [hnl] at this; simp at this
      have hm1 : s.next + 1 ∉ addrs (allRecs (f :: front)) := fun hm => by
        have := (h2.live (s.next + 1)).2 (Or.inr hm); rw [hnl1] at this; simp at this
      have hL0 : L0 s.next = false := by
        by_contra hc; have := (h2.live s.next).2 (Or.inl (by simpa using hc)); rw [hnl] at this; simp at this
      have hL1 : L0 (s.next + 1) = false := by
        by_contra hc; have := (h2.live (s.next + 1)).2 (Or.inl (by simpa using hc)); rw [hnl1] at this; simp at this
      have hR : allRecs ((⟨⟨s.next + 1, s.next⟩ :: f.recs, true⟩ : Frame) :: front) =
          ⟨s.next + 1, s.next⟩ :: allRecs (f :: front) := by simp [allRecs_cons]
      rw [hR]
      refine ⟨?_, ?_, ?_, ?_, ?_, by dsimp only; omega, ?_, ?_⟩
      · rw [addrs_cons]
        simp only [List.nodup_cons, List.mem_cons, not_or]
        exact ⟨⟨by omega, hm1⟩, hm0, h2.nodup⟩
      · intro a
        dsimp only
        rw [addrs_cons]
        simp only [List.mem_cons]
        by_cases ha1 : a = s.next + 1
        · simp [ha1]
        · by_cases ha0 : a = s.next
          · simp [ha0]
          · simp only [ha1, ha0, if_false, false_or]; exact h2.live a
      · intro a ha
        rw [addrs_cons] at ha
        simp only [List.mem_cons] at ha
        rcases ha with rfl | rfl | ha
        · exact hL1
        · exact hL0
        · exact h2.disj a ha
      · intro a ha
        dsimp only at ha ⊢
        by_cases ha1 : a = s.next + 1
        · omega
        · by_cases ha0 : a = s.next
          · omega
          · simp only [ha1, ha0, if_false] at ha
            have := h2.lt a ha; omega
      · intro a ha
        rw [addrs_cons] at ha
        simp only [List.mem_cons] at ha
        rcases ha with rfl | rfl | ha
        · omega
        · exact hne
        · exact h2.pos a ha
      · intro y hy hl
        simp only [setEnv] at hy hl ⊢
        by_cases hyx : y = x
        · exact ⟨_, List.mem_cons_self .., by simp [hyx]⟩
        · simp only [hyx, if_false] at hy hl ⊢
          have hlt := h2.envlt y
          rw [if_neg (by omega), if_neg (by omega)] at hl
          obtain ⟨r, hr, e⟩ := h2.env y hy hl
          exact ⟨r, List.mem_cons_of_mem _ hr, e⟩
      · intro y
        simp only [setEnv]
        by_cases hyx : y = x
        · simp only [hyx, if_true]; omega
        · simp only [hyx, if_false]; have := h2.envlt y; omega
    · simp only [malloc, hd]
      exact ⟨_, _, f, rfl, ⟨h1, hnull _⟩, Or.inl ⟨rfl, rfl⟩⟩

theorem numFree_spec {L0 base front s} (h : Good L0 base front s) (x : Nat) :
    numFree x s = .clientBug ∨
    ∃ s' front', numFree x s = .fin 0 s' ∧ Good L0 base front' s' ∧ Shrink front' front := by
  obtain ⟨h1, h2⟩ := h
  unfold numFree
  by_cases h0 : s.env x = 0
  · rw [if_pos h0]; exact Or.inr ⟨s, front, rfl, ⟨h1, h2⟩, Shrink.refl _⟩
  · rw [if_neg h0]
    by_cases hl : s.live (s.env x) = false
    · rw [if_pos hl]; exact Or.inl rfl
    · rw [if_neg hl]
      right
      obtain ⟨q, fs', e1, e2, e3, _, e4⟩ := unlinkFrames_some base (h2.env x h0 (by simpa using hl))
      have hinv := h2.perm e3
      obtain ⟨g1, g2, g3, g4, g5⟩ := hinv.release
      rw [e2] at g1 g3 g5
      have f1 : deregisterAlloc (s.env x) s = some { s with frames := fs' ++ base, live := fun b => if b = q.self then false else s.live b } := by
        simp [deregisterAlloc, h1, e1, free, g2]
      rw [f1]
      have f2 : free (s.env x) { s with frames := fs' ++ base, live := fun b => if b = q.self then false else s.live b } =
          some { s with frames := fs' ++ base, live := fun b => if b = s.env x then false else if b = q.self then false else s.live b } := by
        simp [free, g1, g3]
      simp only [f2]
      refine ⟨_, fs', rfl, ⟨rfl, ?_⟩, e4⟩
      refine g5 _ ?_ rfl rfl
      intro a
      dsimp only
      by_cases x1 : a = s.env x <;> by_cases x2 : a = q.self <;> simp [x1, x2]

/-- Every function run inside of a frame keeps the invariant, whatever it does, and never makes the
machinery fail; it only removes records from the frames below its own. -/
theorem run_spec {o : MallocOracle} (ho : ∀ i, o.recd i = true) (L0 : Nat → Bool) (base : List Frame) :
    ∀ (p : Prog) (f : Frame) (front : List Frame) (s : St), Good L0 base (f :: front) s →
    run o p s = .clientBug ∨
    ∃ c s' f' front', run o p s = .fin c s' ∧ Good L0 base (f' :: front') s' ∧
      Shrink front' front := by
  intro p
  induction p with
  | ret c => intro f front s h; exact Or.inr ⟨c, s, f, front, rfl, h, Shrink.refl _⟩
  | keep k ih =>
    intro f front s h
    have h1 := h.1
    simp only [run, keepFrame, h1, List.cons_append]
    exact ih { f with keep := true } front _ ⟨rfl, (h.2.perm (by simp [allRecs_cons])).frames _⟩
  | numMalloc x pos =>
    intro f front s h
    obtain ⟨c, s', f', e1, e2, _⟩ := numMalloc_spec ho h x pos
    exact Or.inr ⟨c, s', f', front, e1, e2, Shrink.refl _⟩
  | numFree x =>
    intro f front s h
    rcases numFree_spec h x with e | ⟨s', fr, e1, e2, e3⟩
    · exact Or.inl e
    · cases e3 with
      | cons _ t => exact Or.inr ⟨0, s', _, _, e1, e2, t⟩
  | chk callee k ihc ihk =>
    intro f front s h
    have hpush : Good L0 base (⟨[], false⟩ :: f :: front) { s with frames := ⟨[], false⟩ :: s.frames } := by
      refine ⟨by simp [h.1], ?_⟩
      exact (h.2.perm (by simp [allRecs_cons])).frames _
    simp only [run]
    rcases ihc _ _ _ hpush with e | ⟨c, s1, f1, fr1, e1, e2, e3⟩
    · rw [e]; exact Or.inl rfl
    · rw [e1]
      cases e3 with
      | @cons g1 _ fr1 _ e3h e3' =>
        by_cases hc : c ≠ 0
        · simp only [if_pos hc]
          obtain ⟨s2, a1, a2, a3⟩ := popCleanFrame_spec e2
          rw [a1]
          refine Or.inr ⟨c, _, g1, fr1, rfl, ⟨by simp [a2], a3.frames _⟩, e3'⟩
        · simp only [if_neg hc]
          obtain ⟨s2, g2, a1, a2⟩ := popFrame_spec e2
          rw [a1]
          simp only [ne_eq, not_true_eq_false, if_false]
          rcases ihk g2 fr1 s2 a2 with b | ⟨c', s3, f3, fr3, b1, b2, b3⟩
          · exact Or.inl b
          · exact Or.inr ⟨c', s3, f3, fr3, b1, b2, Shrink.trans b3 e3'⟩

end Verif.MemFrames
