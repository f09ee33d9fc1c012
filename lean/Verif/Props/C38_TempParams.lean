import Verif.Model.TempParams
import Verif.Proofs.Monitor
import Mathlib.Algebra.Order.Field.Rat
import Mathlib.Tactic.NormNum

/-!
# C38: temporary changes of user parameters are undone
-/

set_option linter.unusedSectionVars false
set_option linter.unusedSimpArgs false
set_option linter.unusedVariables false

namespace Verif.Props
open Verif.Mon Verif.Spec

private theorem chk_fst {c : Int} {a : Aim} {rest : Aim × Int} (h : rest.1 = a) : (chk c a rest).1 = a := by
  unfold chk; split
  · rfl
  · exact h

private theorem chk_snd (c : Int) (a : Aim) (rest : Aim × Int) (l : List Int)
    (h : rest.2 = (l.find? (· ≠ 0)).getD 0) : (chk c a rest).2 = (((c :: l).find? (· ≠ 0)).getD 0) := by
  unfold chk
  by_cases hc : c = 0
  · simp [hc] at h ⊢; exact h
  · simp [hc]

/-- **C38**, harmonic extraction: whatever fails on the way, and whatever the target, the target and the
address of the shifts are afterwards what they were. -/
theorem C38_harmonic (k : HarmCodes) (local0 basisSize : Nat) (a : Aim) :
    (harm k local0 basisSize a).1 = a := by
  unfold harm
  split
  · rfl
  · exact chk_fst (chk_fst (chk_fst (chk_fst (chk_fst (chk_fst (chk_fst (chk_fst (chk_fst (chk_fst rfl)))))))))

/-- In between the projected problem is solved for the inverted target at the shift zero: nothing else about
what the inner routine would do matters.  The inverse of a shifted value is largest for the value closest
from above, smallest for the closest from below, and largest in absolute value for the closest. -/
theorem C38_harmonic_inner (k : HarmCodes) (rr : Aim → Int) (local0 basisSize : Nat) (a : Aim) (t : Target)
    (ht : (a.target, t) ∈ [(Target.closest_geq, Target.largest), (Target.closest_leq, Target.smallest),
      (Target.closest_abs, Target.largest_abs)])
    (h : rr ⟨t, local0⟩ = k.rr ⟨t, local0⟩) :
    harm { k with rr := rr } local0 basisSize a = harm k local0 basisSize a := by
  have e : invertedTarget a.target = t := by
    simp only [List.mem_cons, Prod.mk.injEq, List.not_mem_nil, or_false] at ht
    rcases ht with ⟨h1, h2⟩ | ⟨h1, h2⟩ | ⟨h1, h2⟩ <;> rw [h1, h2] <;> rfl
  unfold harm
  simp only [e, h]

/-- The first failure is the code returned, and 0 if there is none. -/
theorem C38_harmonic_code (k : HarmCodes) (local0 basisSize : Nat) (hb : basisSize ≠ 0) (a : Aim) :
    (harm k local0 basisSize a).2 =
      (([k.mallocWork, k.mallocPivots, k.factor, k.solve, k.rr ⟨invertedTarget a.target, local0⟩, k.back,
        k.freePivots, k.ortho, k.product, k.freeWork].find? (· ≠ 0)).getD 0) := by
  unfold harm
  rw [if_neg hb]
  exact chk_snd _ _ _ _ (chk_snd _ _ _ _ (chk_snd _ _ _ _ (chk_snd _ _ _ _ (chk_snd _ _ _ _ (chk_snd _ _ _ _
    (chk_snd _ _ _ _ (chk_snd _ _ _ _ (chk_snd _ _ _ _ (chk_snd _ _ _ _ rfl)))))))))

/-- Every case: the inner routine failing with -1 leaves the target `closest_abs` with the user's shifts, and
the failure is handed on. -/
example : harm ⟨0, 0, 0, 0, fun a => if a = ⟨.largest_abs, 9⟩ then -1 else 0, 0, 0, 0, 0, 0⟩ 9 4
    ⟨.closest_abs, 5⟩ = (⟨.closest_abs, 5⟩, -1) := by decide

section
variable {K : Type} [Field K] [LinearOrder K] [IsStrictOrderedRing K] {V : Type}

/-- **C38**, norm of the matrix around the convergence test for the normal equations: it is what it was,
except when the user's test fails (`C38_test_violated`). -/
theorem C38_normal_test_partial (env : Env K) (user : ConvTest K V) (eps : Option K) (f316 : K)
    (eval : Option K) (evec : Option V) (rNorm : Option K) (isConv : Int) (e : Eig K) (v : Sv K)
    (h : eps = none ∨ (testNormal env user eps f316 eval evec rNorm isConv e v).2.2 ≠ some 1) :
    (testNormal env user eps f316 eval evec rNorm isConv e v).1.aNorm = v.aNorm := by
  cases eps with
  | none => rfl
  | some x =>
    rcases h with h | h
    · cases h
    revert h
    unfold testNormal callTest
    dsimp only
    split_ifs <;> simp

/-- The same for the augmented operator. -/
theorem C38_augmented_test_partial (env : Env K) (user : ConvTest K V) (halves : V → V × V)
    (eval : Option K) (evec : Option V) (rNorm : Option K) (e : Eig K) (v : Sv K)
    (h : (testAugmented env user halves eval evec rNorm e v).2.2 ≠ some 1) :
    (testAugmented env user halves eval evec rNorm e v).1.aNorm = v.aNorm := by
  revert h
  unfold testAugmented callTest
  dsimp only
  split_ifs <;> simp

/-- When the user's test reports an error the estimate of the norm stays in the user's structure: a structure
without a norm comes back with one. -/
theorem C38_test_violated : ∃ (env : Env ℚ) (user : ConvTest ℚ Unit) (e : Eig ℚ) (v : Sv ℚ),
    v.aNorm = 0 ∧ (∀ s l r n op w, (user s l r n op w).1 = w) ∧
    (testNormal env user (some 0) 3 (some 4) (some ()) (some 1) 0 e v).1.aNorm = 5 ∧
    (testAugmented env user (fun _ => ((), ())) (some 4) (some ()) (some 1) e v).1.aNorm = 25 :=
  ⟨⟨fun x => x / 5, 1, id, fun _ => true⟩, fun _ _ _ _ _ w => (w, 0, 7),
    ⟨⟨0, 0, 0, 0, 0, 0, 0, 0, 0, 0, 0, 0, 0, 0, 0, 0⟩, 1, false, 0, 25, 0⟩,
    ⟨0, ⟨0, 0, 0, 0, 0, 0, 0, 0, 0, 0, 0, 0, 0, 0, 0, 0⟩, 1, .AtA⟩,
    rfl, fun _ _ _ _ _ _ => rfl, by decide +kernel, by decide +kernel⟩

/-- A case of the test theorems: the norm the user's test sees is 5, and 0 is back afterwards. -/
example : testNormal (V := Unit) (⟨fun x => x / 5, 1, id, fun _ => true⟩ : Env ℚ)
    (fun _ _ _ _ _ w => (w, if w.aNorm = 5 then 1 else 0, 0)) (some 0) 3 (some 4) (some ()) (some 1) 0
    ⟨⟨0, 0, 0, 0, 0, 0, 0, 0, 0, 0, 0, 0, 0, 0, 0, 0⟩, 1, false, 0, 25, 0⟩
    ⟨0, ⟨0, 0, 0, 0, 0, 0, 0, 0, 0, 0, 0, 0, 0, 0, 0, 0⟩, 1, .AtA⟩ =
    (⟨0, ⟨0, 0, 0, 0, 0, 0, 0, 0, 0, 0, 0, 0, 0, 0, 0, 0⟩, 1, .AtA⟩, 1, none) := by decide +kernel

/-- **C38**, statistics around the monitor: whichever of the three monitors runs and whatever it is told, if it
reports no failure the statistics are what they were before. -/
theorem C38_monitor_partial (env : Env K) (user : Option (Monitor K)) (a : EigReport K) (e : Eig K) (v w : Sv K)
    (h : single env user a e v = .ok (w, 0) ∨ stage1 env user a e v = .ok (w, 0) ∨
      stage2 env user a e v = .ok (w, 0)) : w.stats = v.stats := by
  have key : ∀ (r : SvReport K) (ii : Int) (ls : K), deliver env user r ii ls e v = (w, 0) →
      w.stats = v.stats := by
    intro r ii ls
    unfold deliver
    dsimp only
    split_ifs
    · intro h; simp at h
    · intro h; rw [← (Prod.mk.inj h).1]
  have bnd : ∀ {α : Type} {x : Outcome α} {f : α → Outcome (Sv K × Int)} {y : Sv K × Int},
      (x >>= f) = .ok y → ∃ z, f z = .ok y := by
    intro α x f y h
    cases x with
    | ok z => exact ⟨z, h⟩
    | err c => simp at h
    | ub => simp at h
  rcases h with h | h | h
  · unfold single at h
    split at h
    · exact absurd (Outcome.ok.inj h) (by simp)
    · obtain ⟨_, h⟩ := bnd h
      obtain ⟨_, h⟩ := bnd h
      exact key _ _ _ (Outcome.ok.inj h)
  · unfold stage1 at h
    split at h
    · rw [(Prod.mk.inj (Outcome.ok.inj h)).1]
    split at h
    · exact absurd (Outcome.ok.inj h) (by simp)
    split at h
    · exact absurd h (by simp)
    · obtain ⟨_, h⟩ := bnd h
      obtain ⟨_, h⟩ := bnd h
      obtain ⟨_, h⟩ := bnd h
      obtain ⟨_, h⟩ := bnd h
      exact key _ _ _ (Outcome.ok.inj h)
  · unfold stage2 at h
    split at h
    · exact absurd (Outcome.ok.inj h) (by simp)
    · obtain ⟨_, h⟩ := bnd h
      exact key _ _ _ (Outcome.ok.inj h)

end

/-- When the user's monitor asks to stop, the statistics of the running eigensolver stay in the structure, and
the driver adds them once more on the way out (src/svds/primme_svds_c.c:883): 10 products with the
operator, that is 20 with the matrix, are returned as 40. -/
theorem C38_monitor_violated : ∃ (user : Monitor ℚ) (a : EigReport ℚ) (e : Eig ℚ) (v w : Sv ℚ),
    (∀ R s, (user R s).1 = s) ∧ v.stats.numMatvecs = 0 ∧ e.stats.numMatvecs = 10 ∧
    single ⟨id, 1, id, fun _ => true⟩ (some user) a e v = .ok (w, 1) ∧ w.stats.numMatvecs = 20 ∧
    (w.stats.add e.stats).numMatvecs = 40 :=
  ⟨fun _ s => (s, 1), textOnly "stop" .message,
    ⟨⟨0, 0, 10, 0, 0, 0, 0, 0, 0, 0, 0, 0, 0, 0, 0, 0⟩, 1, false, 0, 25, 0⟩,
    ⟨0, ⟨0, 0, 0, 0, 0, 0, 0, 0, 0, 0, 0, 0, 0, 0, 0, 0⟩, 1, .AtA⟩, _,
    fun _ _ => rfl, rfl, rfl, rfl, rfl, rfl⟩

/-- A monitor that succeeds sees 20 products and leaves none behind. -/
example : single ⟨id, 1, id, fun _ => true⟩
    (some (fun _ (s : Sv ℚ) => (s, if s.stats.numMatvecs = 20 then 0 else 1)))
    (textOnly "go" .message) ⟨⟨0, 0, 10, 0, 0, 0, 0, 0, 0, 0, 0, 0, 0, 0, 0, 0⟩, 1, false, 0, 25, 0⟩
    ⟨0, ⟨0, 0, 0, 0, 0, 0, 0, 0, 0, 0, 0, 0, 0, 0, 0, 0⟩, 1, .AtA⟩ =
    .ok (⟨0, ⟨0, 0, 0, 0, 0, 0, 0, 0, 0, 0, 0, 0, 0, 0, 0, 0⟩, 1, .AtA⟩, 0) := by rfl

end Verif.Props
