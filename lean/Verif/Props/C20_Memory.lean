import Verif.Proofs.MemScoped

/-!
# C20 — no leak and no double free on any path
-/

namespace Verif.Props
open Verif.MemFrames

/-- The heap a call starts with: some blocks `live0`, all below `next0`. -/
def C20_heap0 (live0 : Nat → Bool) (next0 : Nat) : Prop :=
  0 < next0 ∧ ∀ a, live0 a = true → a < next0

theorem C20_driver_setup {o : MallocOracle} (ho : ∀ i, o.recd i = true) {live0 : Nat → Bool} {next0 : Nat}
    (h0 : C20_heap0 live0 next0) :
    Good (fun a => live0 a || decide (a = next0) || decide (a = next0 + 1))
      [⟨[⟨next0 + 1, next0⟩], false⟩] [⟨[], false⟩]
      { pushFrame o (start live0 next0) with
        frames := ⟨[], false⟩ :: (pushFrame o (start live0 next0)).frames } ∧
    (∀ a, (pushFrame o (start live0 next0)).live a =
      (live0 a || decide (a = next0) || decide (a = next0 + 1))) := by
  obtain ⟨hp, hlt⟩ := h0
  have hne : next0 ≠ 0 := by omega
  have hne1 : next0 + 1 ≠ 0 := by omega
  have hlive : ∀ a, (pushFrame o (start live0 next0)).live a =
      (live0 a || decide (a = next0) || decide (a = next0 + 1)) := by
    intro a
    simp only [pushFrame, malloc, start, ho, if_true, hne, hne1, if_false]
    by_cases x1 : a = next0 + 1 <;> by_cases x2 : a = next0 <;> simp [x1, x2]
  have hnext : (pushFrame o (start live0 next0)).next = next0 + 2 := by
    simp [pushFrame, malloc, start, ho, hne]
  have henv : (pushFrame o (start live0 next0)).env = fun _ => 0 := by
    simp [pushFrame, malloc, start, ho, hne]
  have hfr : (pushFrame o (start live0 next0)).frames = [⟨[⟨next0 + 1, next0⟩], false⟩] := by
    simp [pushFrame, malloc, start, ho, hne]
  refine ⟨⟨?_, ?_⟩, hlive⟩
  · rw [hfr]; rfl
  · refine ⟨by simp [allRecs, addrs], ?_, by simp [allRecs, addrs], ?_, by simp [allRecs, addrs], ?_, ?_, ?_⟩
    · intro a; simp only [hlive]; simp [allRecs, addrs]
    · intro a ha
      simp only [hlive, Bool.or_eq_true, decide_eq_true_eq] at ha
      simp only [hnext]
      rcases ha with (ha | ha) | ha
      · have := hlt a ha; omega
      · omega
      · omega
    · simp only [hnext]; omega
    · intro x hx; rw [henv] at hx; simp at hx
    · intro x; rw [henv, hnext]; simp

theorem C20_driver_ends {o : MallocOracle} (ho : ∀ i, o.recd i = true) {live0 : Nat → Bool} {next0 : Nat}
    (h0 : C20_heap0 live0 next0) (body : Prog) :
    driver o body (start live0 next0) = .clientBug ∨
    ∃ c s, driver o body (start live0 next0) = .fin c s ∧
      (c = 0 → ∀ a, s.live a = live0 a) ∧
      (c ≠ 0 → ∀ a, s.live a = (live0 a || decide (a = next0) || decide (a = next0 + 1))) := by
  obtain ⟨hg, hlive⟩ := C20_driver_setup ho h0
  obtain ⟨hp, hlt⟩ := h0
  have hn0 : live0 next0 = false := by
    by_contra hc; have := hlt next0 (by simpa using hc); omega
  have hn1 : live0 (next0 + 1) = false := by
    by_contra hc; have := hlt (next0 + 1) (by simpa using hc); omega
  unfold driver
  rcases run_spec ho _ _ body _ _ _ hg with e | ⟨c, s1, f1, fr1, e1, e2, e3⟩
  · left; simp only [e]
  · right
    have hfr1 : fr1 = [] := by cases e3; rfl
    subst hfr1
    simp only [e1]
    by_cases hc : c ≠ 0
    · simp only [if_pos hc]
      obtain ⟨s2, a1, a2, a3⟩ := popCleanFrame_spec e2
      rw [a1]
      have hl2 : ∀ a, s2.live a = (live0 a || decide (a = next0) || decide (a = next0 + 1)) := by
        intro a
        have := a3.live a
        simp only [allRecs, List.flatMap_nil, addrs, List.not_mem_nil, or_false] at this
        exact Bool.eq_iff_iff.2 this
      simp only [List.nil_append] at a2
      by_cases hk : f1.keep = true
      · simp only [popFrame, a2, hk]
        exact ⟨c, _, rfl, fun h => absurd h hc, fun _ => hl2⟩
      · have hk' : f1.keep = false := by simpa using hk
        simp only [popFrame, a2, hk', popCleanFrame, freeAll]
        exact ⟨c, _, rfl, fun h => absurd h hc, fun _ => hl2⟩
    · simp only [if_neg hc]
      -- everything reachable from here: the records of the body's frame and of the context's frame
      obtain ⟨h1, h2⟩ := e2
      simp only [List.cons_append, List.nil_append] at h1
      have hall : Inv live0 ((transfer f1.recs [⟨next0 + 1, next0⟩])) s1 ∧
          Inv live0 (f1.recs ++ [⟨next0 + 1, next0⟩]) s1 := by
        have hR : allRecs [f1] = f1.recs := by simp [allRecs]
        rw [hR] at h2
        have hinv : Inv live0 (f1.recs ++ [⟨next0 + 1, next0⟩]) s1 := by
          have hd0 : next0 ∉ addrs f1.recs := fun hm => by
            have := h2.disj _ hm; simp at this
          have hd1 : next0 + 1 ∉ addrs f1.recs := fun hm => by
            have := h2.disj _ hm; simp at this
          have ha : addrs (f1.recs ++ [⟨next0 + 1, next0⟩]) = addrs f1.recs ++ [next0 + 1, next0] := by
            rw [addrs_append]; simp [addrs]
          refine ⟨?_, ?_, ?_, h2.lt, ?_, h2.nextpos, ?_, h2.envlt⟩
          · rw [ha, List.nodup_append]
            refine ⟨h2.nodup, by simp, ?_⟩
            intro a ha' b hb
            simp only [List.mem_cons, List.not_mem_nil, or_false] at hb
            rintro rfl
            rcases hb with rfl | rfl
            · exact hd1 ha'
            · exact hd0 ha'
          · intro a
            rw [ha, h2.live a]
            simp only [Bool.or_eq_true, decide_eq_true_eq, List.mem_append, List.mem_cons,
              List.not_mem_nil, or_false]
            tauto
          · intro a hm
            rw [ha] at hm
            simp only [List.mem_append, List.mem_cons, List.not_mem_nil, or_false] at hm
            rcases hm with hm | rfl | rfl
            · have := h2.disj a hm
              simp only [Bool.or_eq_false_iff] at this
              exact this.1.1
            · exact hn1
            · exact hn0
          · intro a hm
            rw [ha] at hm
            simp only [List.mem_append, List.mem_cons, List.not_mem_nil, or_false] at hm
            rcases hm with hm | rfl | rfl
            · exact h2.pos a hm
            · omega
            · omega
          · intro x hx hl
            obtain ⟨r, hr, e⟩ := h2.env x hx hl
            exact ⟨r, List.mem_append_left _ hr, e⟩
        exact ⟨hinv.perm (transfer_perm _ _).symm, hinv⟩
      have hend : ∀ s, Inv live0 [] s → ∀ a, s.live a = live0 a := by
        intro s h a
        have := h.live a
        simp only [addrs, List.flatMap_nil, List.not_mem_nil, or_false] at this
        exact Bool.eq_iff_iff.2 this
      by_cases hk : f1.keep = true
      · obtain ⟨s', g1, g2, g3, _⟩ := freeAll_spec live0 (transfer f1.recs [⟨next0 + 1, next0⟩]) []
          { s1 with frames := [⟨[], false⟩] } (by simpa using hall.1.frames _)
        refine ⟨0, { s' with frames := [] }, ?_, fun _ => hend s' g2, fun h => absurd rfl h⟩
        simp only [popFrame, h1, hk, ne_eq, not_true_eq_false, if_false, popCleanFrame]
        rw [g1]
      · have hk' : f1.keep = false := by simpa using hk
        obtain ⟨s', g1, g2, g3, _⟩ := freeAll_spec live0 f1.recs [⟨next0 + 1, next0⟩]
          { s1 with frames := [{ f1 with recs := [] }, ⟨[⟨next0 + 1, next0⟩], false⟩] } (hall.2.frames _)
        obtain ⟨s'', k1, k2, k3, _⟩ := freeAll_spec live0 [⟨next0 + 1, next0⟩] []
          { s' with frames := [⟨[], false⟩] } (by simpa using g2.frames _)
        refine ⟨0, { s'' with frames := [] }, ?_, fun _ => hend s'' k2, fun h => absurd rfl h⟩
        simp only [popFrame, h1, hk', popCleanFrame]
        rw [hk'] at g1
        rw [g1]
        simp only [ne_eq, not_true_eq_false, if_false]
        rw [k1]

/-- **Success.**  Whatever the tree of internal calls, wherever data allocations fail inside of it
(and are recovered by the caller returning 0 in the end) and whatever it keeps or forgets to free: when the
driver returns 0, exactly the blocks that were allocated before the call are allocated after it, and the
machinery never released a block twice.

`_partial`: (a) assumes that the small blocks of the machinery itself can be allocated
(`ho`; see `C20_record_failure_violated`) and (b) covers return code 0; for failures see
`C20_driver_error_leaks_context_violated`. -/
theorem C20_success_leaves_heap_unchanged_partial (o : MallocOracle) (ho : ∀ i, o.recd i = true)
    (live0 : Nat → Bool) (next0 : Nat) (h0 : C20_heap0 live0 next0) (body : Prog) (s : St)
    (hr : driver o body (start live0 next0) = .fin 0 s) : ∀ a, s.live a = live0 a := by
  rcases C20_driver_ends ho h0 body with e | ⟨c, s', e, h1, _⟩
  · rw [e] at hr; cases hr
  · rw [e] at hr; cases hr; exact h1 rfl

/-- **Failure.**  When the driver returns an error code, from any point of any call tree, all blocks the
call tree allocated have been released exactly once — but the two blocks of the context (its frame and
the record tracking it) are still allocated: `CHKERRVAL` leaves `ctx.mm` at the frame of the block it
leaves, so `primme_free_context` pops that one instead of the context's. -/
theorem C20_driver_error_leaks_context_violated (o : MallocOracle) (ho : ∀ i, o.recd i = true)
    (live0 : Nat → Bool) (next0 : Nat) (h0 : C20_heap0 live0 next0) (body : Prog) (c : Int) (hc : c ≠ 0) (s : St)
    (hr : driver o body (start live0 next0) = .fin c s) :
    ∀ a, s.live a = true ↔ (live0 a = true ∨ a = next0 ∨ a = next0 + 1) := by
  rcases C20_driver_ends ho h0 body with e | ⟨c', s', e, _, h2⟩
  · rw [e] at hr; cases hr
  · rw [e] at hr; cases hr
    intro a
    rw [h2 hc a]
    simp [or_assoc]

/-- The machinery itself never fails: no call tree makes it release a block twice or lose track of a
block; the only possible misuse is a client freeing a pointer it has already freed. -/
theorem C20_machinery_never_fails_partial (o : MallocOracle) (ho : ∀ i, o.recd i = true)
    (live0 : Nat → Bool) (next0 : Nat) (h0 : C20_heap0 live0 next0) (body : Prog) :
    driver o body (start live0 next0) ≠ .ub := by
  rcases C20_driver_ends ho h0 body with e | ⟨c, s', e, _⟩ <;> rw [e] <;> simp

/-- … and functions that free only what they allocated, at most once, never misuse it: the driver
terminates normally for every disciplined call tree and every pattern of allocation failures. -/
theorem C20_disciplined_calls_terminate_partial (o : MallocOracle) (ho : ∀ i, o.recd i = true)
    (live0 : Nat → Bool) (next0 : Nat) (h0 : C20_heap0 live0 next0) (body : Prog) (hb : Scoped [] body) :
    ∃ c s, driver o body (start live0 next0) = .fin c s := by
  rcases C20_driver_ends ho h0 body with e | ⟨c, s', e, _⟩
  · exfalso
    obtain ⟨hg, _⟩ := C20_driver_setup ho h0
    obtain ⟨c, s', f', e1, _⟩ := scoped_run ho _ _ hb _ _ _ hg ⟨by simp, by simp⟩
    unfold driver at e
    simp only [e1] at e
    split_ifs at e <;> split at e <;> (try split_ifs at e) <;> (try split at e) <;> (try split_ifs at e) <;>
      (try split at e) <;> simp at e
  · exact ⟨c, s', e⟩

/-- A failing internal call leaves no block behind: every block that is live after a `CHKERR` whose callee
returned an error was live, and tracked by a frame of the caller, before.  (States are described by the
frames being consistent: tracked blocks are distinct and live, nothing else is live but `L0`;
`C20_driver_setup` shows that the state in which the driver calls the solver is one.) -/
theorem C20_failed_call_releases_everything (o : MallocOracle) (ho : ∀ i, o.recd i = true)
    (L0 : Nat → Bool) (base : List Frame) (f : Frame) (front : List Frame) (s : St) (hg : Good L0 base (f :: front) s)
    (callee : Prog) (c : Int) (s1 : St)
    (hcallee : run o callee { s with frames := ⟨[], false⟩ :: s.frames } = .fin c s1) (hc : c ≠ 0) :
    ∃ s2, run o (.chk callee (.ret 0)) s = .fin c s2 ∧ ∀ a, s2.live a = true → s.live a = true := by
  have hpush : Good L0 base (⟨[], false⟩ :: f :: front) { s with frames := ⟨[], false⟩ :: s.frames } := by
    refine ⟨by simp [hg.1], ?_⟩
    exact (hg.2.perm (by simp [allRecs_cons])).frames _
  rcases run_spec ho L0 base callee _ _ _ hpush with e | ⟨c', s1', f1, fr1, e1, e2, e3⟩
  · rw [e] at hcallee; cases hcallee
  · rw [e1] at hcallee; cases hcallee
    obtain ⟨s2, a1, a2, a3⟩ := popCleanFrame_spec e2
    refine ⟨{ s2 with frames := s2.frames.tail }, by simp [run, e1, hc, a1], ?_⟩
    intro a ha
    rcases (a3.live a).1 ha with h | h
    · exact (hg.2.live a).2 (Or.inl h)
    · refine (hg.2.live a).2 (Or.inr ?_)
      simp only [addrs, List.mem_flatMap] at h ⊢
      obtain ⟨r, hr, ha⟩ := h
      exact ⟨r, Shrink.allRecs e3 hr, ha⟩

/-- If the record of an allocation cannot be allocated, `Num_malloc` reports success anyway and the
disciplined `Num_free` of that block runs into undefined behaviour. -/
theorem C20_record_failure_violated :
    ∃ (o : MallocOracle) (body : Prog), Scoped [] body ∧
      driver o body (start (fun _ => false) 1) = .ub := by
  refine ⟨⟨fun _ => true, fun i => decide (i < 2)⟩,
    .chk (.numMalloc 0 true) (.chk (.numFree 0) (.ret 0)), ?_, ?_⟩
  · exact .malloc (by simp) (.free (by simp) (.ret _ _))
  · rfl

/-! Non-vacuity: a call tree with nested calls, a failing allocation in the middle and outstanding
blocks, in both outcomes. -/

def C20_example : Prog :=
  .chk (.numMalloc 0 true) (.chk (.numMalloc 1 true)
    (.chk (.chk (.numMalloc 2 true) (.chk (.numMalloc 3 true) (.chk (.numFree 2) (.chk (.numFree 3) (.ret 0)))))
      (.chk (.numFree 1) (.chk (.numFree 0) (.ret 0)))))

theorem C20_example_scoped : Scoped [] C20_example :=
  .malloc (by simp) (.malloc (by simp) (.call
    (.malloc (by simp) (.malloc (by simp) (.free (by simp) (.free (by simp) (.ret _ _)))))
    (by simp [Prog.vars]) (.free (by simp) (.free (by simp) (.ret _ _)))))

/-- The code the example ends with. -/
def C20_code : Res → Option Int
  | .fin c _ => some c
  | _ => none

example : C20_code (driver ⟨fun _ => true, fun _ => true⟩ C20_example (start (fun a => decide (a = 3)) 5)) =
    some 0 := by decide
example : C20_code (driver ⟨fun i => decide (i ≠ 8), fun _ => true⟩ C20_example
    (start (fun a => decide (a = 3)) 5)) = some (-2) := by decide
example : C20_heap0 (fun a => decide (a = 3)) 5 := ⟨by omega, by intro a h; simp at h; omega⟩

end Verif.Props
