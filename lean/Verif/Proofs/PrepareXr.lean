import Verif.Model.Prepare
import Mathlib.Tactic.SplitIfs

/-! The choice of the block does not depend on what the columns of the block hold. -/

namespace Verif.Prepare
open Verif Verif.Restart

theorem keep_xr {P : Par} {J : Job} {blki ip : ℕ} {v : ℕ × Bool} {s r : St} (x : Arr) (h : keep P J blki ip v s = .ok r) :
    ∃ y, keep P J blki ip v { s with xr := x } = .ok { r with xr := y } := by
  unfold keep at h ⊢
  dsimp only
  split_ifs at h ⊢ with h1 h2 h3
  · cases h; exact ⟨_, rfl⟩
  · cases h; exact ⟨_, rfl⟩

theorem count_xr {P : Par} {J : Job} {ip : ℕ} {s r : St} (x : Arr) (h : count P J ip s = .ok r) :
    ∃ y, count P J ip { s with xr := x } = .ok { r with xr := y } := by
  unfold count at h ⊢
  split_ifs at h ⊢ with h1
  cases h; exact ⟨_, rfl⟩

theorem visit_xr {P : Par} {J : Job} {a : Ans} {f : Flag} {blki : ℕ} {s r : St} (x : Arr) (h : visit P J a f blki s = .ok r) :
    ∃ y, visit P J a f blki { s with xr := x } = .ok { r with xr := y } := by
  unfold visit at h ⊢
  dsimp only
  cases h1 : Restart.rd P.maxBlockSize s.iev blki with
  | ub => rw [h1] at h; cases h
  | err c => rw [h1] at h; cases h
  | ok ip =>
    rw [h1, Outcome.bind_ok] at h
    rw [Outcome.bind_ok]
    cases h2 : rdN P.maxBlockSize s.nrm blki with
    | ub => rw [h2] at h; cases h
    | err c => rw [h2] at h; cases h
    | ok v =>
      rw [h2, Outcome.bind_ok] at h
      rw [Outcome.bind_ok]
      dsimp only at h ⊢
      split_ifs at h ⊢ with c1 c2 c3 c4
      · cases h; exact ⟨_, rfl⟩
      · exact count_xr x h
      · exact keep_xr x h
      · cases h; exact ⟨_, rfl⟩

theorem visits_xr {P : Par} {J : Job} {a : Ans} {r : ℕ} : ∀ (m i blki : ℕ) (s t : St) (x : Arr), visits P J a r m i blki s = .ok t →
    ∃ y, visits P J a r m i blki { s with xr := x } = .ok { t with xr := y } := by
  intro m
  induction m with
  | zero => intro i blki s t x h; cases h; exact ⟨_, rfl⟩
  | succ m ih =>
    intro i blki s t x h
    unfold visits at h ⊢
    dsimp only
    split_ifs at h ⊢ with c
    · cases hv : visit P J a (a.check r i) blki s with
      | ub => rw [hv] at h; cases h
      | err c => rw [hv] at h; cases h
      | ok u =>
        rw [hv, Outcome.bind_ok] at h
        obtain ⟨y, hy⟩ := visit_xr x hv
        rw [hy, Outcome.bind_ok]
        exact ih _ _ _ _ y h
    · cases h; exact ⟨_, rfl⟩

theorem compute_xr {P : Par} {J : Job} {blki : ℕ} {s r : St} (x : Arr) (h : compute P J blki s = .ok r) :
    ∃ y, compute P J blki { s with xr := x } = .ok { r with xr := y } := by
  unfold compute at h ⊢
  split_ifs at h ⊢
  cases h; exact ⟨_, rfl⟩

theorem rounds_xr {P : Par} {J : Job} {a : Ans} : ∀ (fuel r bn : ℕ) (s t : St) (x : Arr), rounds P J a fuel r bn s = .ok t →
    ∃ y, rounds P J a fuel r bn { s with xr := x } = .ok { t with xr := y } := by
  intro fuel
  induction fuel with
  | zero => intro r bn s t x h; cases h
  | succ fuel ih =>
    intro r bn s t x h
    unfold rounds at h ⊢
    split_ifs at h ⊢ with c
    dsimp only at h ⊢
    cases hv : visits P J a r bn 0 s.bs { s with reset := s.reset || a.bad r } with
    | ub => rw [hv] at h; cases h
    | err c => rw [hv] at h; cases h
    | ok u =>
      rw [hv, Outcome.bind_ok] at h
      obtain ⟨y, hy⟩ := visits_xr _ _ _ _ _ x hv
      dsimp only at hy
      rw [hy, Outcome.bind_ok]
      dsimp only
      cases hc : cands P u.flags u.maxBlock (J.basisSize - u.next) u.next u.bs u.iev with
      | ub => rw [hc] at h; cases h
      | err c => rw [hc] at h; cases h
      | ok w =>
        obtain ⟨iev, blki⟩ := w
        rw [hc, Outcome.bind_ok] at h
        rw [Outcome.bind_ok]
        dsimp only at h ⊢
        split_ifs at h ⊢ with c2
        · cases h; exact ⟨_, rfl⟩
        · cases hco : compute P J blki { u with iev := iev } with
          | ub => rw [hco] at h; cases h
          | err c => rw [hco] at h; cases h
          | ok q =>
            rw [hco, Outcome.bind_ok] at h
            obtain ⟨z, hz⟩ := compute_xr y hco
            dsimp only at hz
            rw [hz, Outcome.bind_ok]
            exact ih _ _ _ _ z h

/-- The result, apart from the columns, does not depend on the columns. -/
theorem prepare_xr {P : Par} {J : Job} {a : Ans} {bn : ℕ} {flags : List Flag} {iev xr : Arr} {nrm : Norms} {reset : Bool} {t : St}
    (x : Arr) (h : prepare P J a bn flags iev xr nrm reset = .ok t) :
    ∃ y, prepare P J a bn flags iev x nrm reset = .ok { t with xr := y } := by
  unfold prepare at h ⊢
  split_ifs at h ⊢
  exact rounds_xr _ _ _ _ _ x h

end Verif.Prepare
