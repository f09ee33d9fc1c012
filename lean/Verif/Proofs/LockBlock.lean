import Verif.Model.LockBlock
import Verif.Proofs.Combine
import Verif.Proofs.Restart

/-!
# Proofs about what a restart with locking leaves
-/

namespace Verif.Lock
open Verif Verif.Comb
open Verif.Pract (turns turns_inv)

variable {F : Type} [RCLike F]

/-- A merge of the candidates `i`, …, `ip - 1` and of the columns `left + j`, …, `left + nf - 1`. -/
inductive Merged (left ip nf : ℕ) : ℕ → ℕ → List ℕ → Prop
  | done {i j : ℕ} : i = ip → j = nf → Merged left ip nf i j []
  | cand {i j : ℕ} {ms : List ℕ} : i < ip → Merged left ip nf (i + 1) j ms → Merged left ip nf i j (i :: ms)
  | fail {i j : ℕ} {ms : List ℕ} : j < nf → Merged left ip nf i (j + 1) ms → Merged left ip nf i j ((left + j) :: ms)

theorem Merged.bound {left ip nf i j : ℕ} {ms : List ℕ} (h : Merged left ip nf i j ms) (hl : ip ≤ left) :
    ∀ v ∈ ms, (v < left → v < ip) ∧ (left ≤ v → v < left + nf) := by
  induction h with
  | done _ _ => intro v hv; cases hv
  | cand hi _ ih =>
    intro v hv
    rcases List.mem_cons.1 hv with rfl | hv
    · exact ⟨fun _ => hi, fun h => by omega⟩
    · exact ih v hv
  | fail hj _ ih =>
    intro v hv
    rcases List.mem_cons.1 hv with rfl | hv
    · exact ⟨fun h => by omega, fun _ => by omega⟩
    · exact ih v hv

theorem Merged.none {left ip nf i j : ℕ} {ms : List ℕ} (h : Merged left ip nf i j ms) (hj : nf ≤ j) :
    ms = List.range' i (ip - i) := by
  induction h with
  | done h1 _ => rw [h1]; simp
  | @cand i j ms hi _ ih =>
    rw [ih hj, show ip - i = (ip - (i + 1)) + 1 by omega, List.range'_succ]
  | fail hj' _ _ => omega

theorem take_cases {b : ℕ} {p : Restart.Arr} {left : Int} {ip : ℕ} {failed : List ℕ} {i j : ℕ} {tk : Bool}
    (h : Restart.mergeTake b p left ip failed i j = .ok tk) (hc : i < ip ∨ j < failed.length) :
    (tk = true → i < ip) ∧ (tk = false → j < failed.length) := by
  unfold Restart.mergeTake at h
  by_cases hi : i < ip
  · rw [if_pos hi] at h
    refine ⟨fun _ => hi, fun htk => ?_⟩
    by_cases hj : failed.length ≤ j
    · rw [if_pos hj] at h
      rw [htk] at h
      cases h
    · omega
  · rw [if_neg hi] at h
    cases h
    exact ⟨fun h => Bool.noConfusion h, fun _ => by omega⟩

/-- The merge, and the norms of the block that go with it. -/
theorem merge_spec {b : ℕ} {p : Restart.Arr} {left ip : ℕ} {failed : List ℕ} (hipl : ip ≤ left) (mb n : Int)
    (old rn : ℕ → ℝ) : ∀ (fuel i j k : ℕ) (q : Restart.Arr) (r : Restart.Arr × ℕ) (z : ℕ → ℝ),
    i ≤ ip → j ≤ failed.length → fuel = (ip - i) + (failed.length - j) →
    Restart.mergeLoop b p (left : Int) ip failed fuel i j k q = .ok r →
    ∃ ms, Merged left ip failed.length i j ms ∧ ms.length = fuel ∧
      (∀ t, r.1 t = if k ≤ t ∧ t < k + fuel then ms[t - k]? else q t) ∧
      ∃ z', mergeNorms b p (left : Int) ip failed mb n old rn fuel i j k z = .ok z' ∧
        (∀ t v, k ≤ t → t < k + fuel → (t : Int) < mb → ms[t - k]? = some v →
          z' t = if v < left then (if (v : Int) < n then old v else z t) else rn (failed.getD (v - left) 0)) ∧
        (∀ t, t < k ∨ k + fuel ≤ t ∨ mb ≤ t → z' t = z t) := by
  intro fuel
  induction fuel with
  | zero =>
    intro i j k q r z h1 h2 h3 h
    unfold Restart.mergeLoop at h
    cases h
    refine ⟨[], .done (by omega) (by omega), rfl, ?_, z, rfl, ?_, fun _ _ => rfl⟩
    · intro t; rw [if_neg (by omega)]
    · intro t v h h'; omega
  | succ fuel ih =>
    intro i j k q r z h1 h2 h3 h
    unfold Restart.mergeLoop at h
    have hc : i < ip ∨ j < failed.length := by omega
    rw [if_pos hc] at h
    unfold mergeNorms
    rw [if_pos hc]
    cases htk : Restart.mergeTake b p (left : Int) ip failed i j with
    | ub => rw [htk] at h; cases h
    | err _ => rw [htk] at h; cases h
    | ok tk =>
      obtain ⟨c1, c2⟩ := take_cases htk hc
      rw [htk, Outcome.bind_ok] at h
      rw [Outcome.bind_ok]
      cases tk with
      | true =>
        have hi := c1 rfl
        rw [if_pos rfl] at h ⊢
        cases hw : Restart.wr b q (k : Int) i with
        | ub => rw [hw] at h; cases h
        | err _ => rw [hw] at h; cases h
        | ok q1 =>
          rw [hw, Outcome.bind_ok] at h
          have hq1 : ∀ t, q1 t = if t = k then some i else q t := by
            intro t
            unfold Restart.wr at hw
            split at hw
            · cases hw
              simp only [Nat.cast_inj]
            · cases hw
          obtain ⟨ms, m1, m2, m3, z', m4, m5, m6⟩ := ih (i + 1) j (k + 1) q1 r
            (if (k : Int) < mb ∧ (i : Int) < n then fun t => if t = k then old i else z t else z) (by omega) h2 (by omega) h
          refine ⟨i :: ms, .cand hi m1, by simp [m2], ?_, z', m4, ?_, ?_⟩
          · intro t
            rw [m3 t, hq1]
            by_cases htk : t = k
            · subst htk; rw [if_neg (by omega), if_pos rfl, if_pos (by omega)]; simp
            · by_cases hr : k + 1 ≤ t ∧ t < k + 1 + fuel
              · rw [if_pos hr, if_pos (by omega), show t - k = (t - (k + 1)) + 1 by omega, List.getElem?_cons_succ]
              · rw [if_neg hr, if_neg htk, if_neg (by omega)]
          · intro t v t1 t2 t3 hv
            by_cases htk : t = k
            · subst htk
              rw [Nat.sub_self, List.getElem?_cons_zero] at hv
              cases hv
              rw [m6 t (by omega)]
              rw [if_pos (show i < left by omega)]
              by_cases hn : (i : Int) < n
              · rw [if_pos (show (t : Int) < mb ∧ (i : Int) < n from ⟨t3, hn⟩), if_pos hn, if_pos rfl]
              · rw [if_neg (show ¬((t : Int) < mb ∧ (i : Int) < n) by omega), if_neg hn]
            · rw [show t - k = (t - (k + 1)) + 1 by omega, List.getElem?_cons_succ] at hv
              rw [m5 t v (by omega) (by omega) t3 hv]
              split_ifs <;> first | rfl | simp [htk]
          · intro t ht
            rw [m6 t (by omega)]
            split_ifs with h7
            · exact if_neg (by omega)
            · rfl
      | false =>
        have hj := c2 rfl
        rw [if_neg (by simp)] at h ⊢
        rw [if_pos (by omega)] at h
        cases hw : Restart.wr b q (k : Int) ((left : Int).toNat + j) with
        | ub => rw [hw] at h; cases h
        | err _ => rw [hw] at h; cases h
        | ok q1 =>
          rw [hw, Outcome.bind_ok] at h
          have hq1 : ∀ t, q1 t = if t = k then some (left + j) else q t := by
            intro t
            unfold Restart.wr at hw
            split at hw
            · cases hw
              simp only [Nat.cast_inj, Int.toNat_natCast]
            · cases hw
          obtain ⟨ms, m1, m2, m3, z', m4, m5, m6⟩ := ih i (j + 1) (k + 1) q1 r
            (if (k : Int) < mb then fun t => if t = k then rn (failed.getD j 0) else z t else z) h1 (by omega) (by omega) h
          refine ⟨(left + j) :: ms, .fail hj m1, by simp [m2], ?_, z', m4, ?_, ?_⟩
          · intro t
            rw [m3 t, hq1]
            by_cases htk : t = k
            · subst htk; rw [if_neg (by omega), if_pos rfl, if_pos (by omega)]; simp
            · by_cases hr : k + 1 ≤ t ∧ t < k + 1 + fuel
              · rw [if_pos hr, if_pos (by omega), show t - k = (t - (k + 1)) + 1 by omega, List.getElem?_cons_succ]
              · rw [if_neg hr, if_neg htk, if_neg (by omega)]
          · intro t v t1 t2 t3 hv
            by_cases htk : t = k
            · subst htk
              rw [Nat.sub_self, List.getElem?_cons_zero] at hv
              cases hv
              rw [m6 t (by omega), if_neg (show ¬ left + j < left by omega), if_pos t3, if_pos rfl, Nat.add_sub_cancel_left]
            · rw [show t - k = (t - (k + 1)) + 1 by omega, List.getElem?_cons_succ] at hv
              rw [m5 t v (by omega) (by omega) t3 hv]
              split_ifs <;> first | rfl | simp [htk]
          · intro t ht
            rw [m6 t (by omega)]
            split_ifs with h7
            · exact if_neg (by omega)
            · rfl

/-- The call is well formed: the output is behind the columns kept, and the alternative source behind all the columns. -/
structure Fits (c : Cols F) (np ip : ℕ) (ms : List ℕ) : Prop where
  io0 : c.io0 = 0
  inc : c.p.Pairwise (· < ·)
  lt : ∀ s ∈ c.p, s < np
  xd : c.xd = c.x + c.p.length
  xo : c.xo = c.x + np
  ipx : ip ≤ c.x
  merged : Merged c.x ip c.p.length 0 0 ms
  pd : ∀ t < c.nd, c.pd t = ms[t]?
  long : c.nd ≤ ms.length
  no : c.nd ≤ c.no
  noip : c.no ≤ ip

/-- The array is one of those moved. -/
def Moved (c : Cols F) (arr : Arr) : Prop := arr = .V ∨ arr = .W ∨ (arr = .BV ∧ c.hasB = true)

instance (c : Cols F) (arr : Arr) : Decidable (Moved c arr) := by unfold Moved; infer_instance

theorem le_get {l : List ℕ} (h : l.Pairwise (· < ·)) : ∀ {i : ℕ} (hi : i < l.length), i ≤ l[i] := by
  intro i
  induction i with
  | zero => intro _; exact Nat.zero_le _
  | succ i ih =>
    intro hi
    have h1 := ih (by omega)
    have h2 := List.pairwise_iff_getElem.1 h i (i + 1) (by omega) hi (by omega)
    omega

theorem getD_get {l : List ℕ} {i : ℕ} (hi : i < l.length) : l.getD i 0 = l[i] := by simp [hi]

/-- The columns after one turn of `own`. -/
theorem exec_own_mem (c : Cols F) (M k m : ℕ) (w : Work F) (id : Option ℕ) (i s : ℕ) (a : Arr) (col r : ℕ) :
    (exec M c k m w (.own id i s)).mem a col r =
      if Moved c a ∧ col = c.x + i ∧ k ≤ r ∧ r < k + m then w.mem a (c.x + s) r else w.mem a col r := by
  have key : (exec M c k m w (.own id i s)).mem = move .W (c.x + s) (c.x + i) k m
      (if c.hasB then move .BV (c.x + s) (c.x + i) k m (move .V (c.x + s) (c.x + i) k m w.mem)
        else move .V (c.x + s) (c.x + i) k m w.mem) := by
    cases id <;> rfl
  rw [key]
  unfold Moved
  by_cases hB : c.hasB = true
  · rw [if_pos hB]
    cases a <;> simp [move, hB]
  · rw [if_neg hB]
    cases a <;> simp [move, hB]

theorem exec_own_V (c : Cols F) (M k m : ℕ) (w : Work F) (id : Option ℕ) (i s : ℕ) (a : Arr) (r : ℕ) :
    (exec M c k m w (.own id i s)).mem a (c.x + s) r = w.mem a (c.x + s) r := by
  rw [exec_own_mem]
  split_ifs <;> rfl

/-- All the turns for one block of rows. -/
theorem plan_spec {c : Cols F} {np ip : ℕ} (hio : c.io0 = 0) (inc : c.p.Pairwise (· < ·)) (hlt : ∀ s ∈ c.p, s < np)
    (hxo : c.xo = c.x + np) (hip : ip ≤ c.x) (hno : c.nd ≤ c.no) (hnoip : c.no ≤ ip) {M : ℕ} (hM : 0 < M) :
    ∀ (fuel i id io : ℕ) (ms : List ℕ), (id < c.nd → Merged c.x ip c.p.length io i ms) → (∀ t, id + t < c.nd → c.pd (id + t) = ms[t]?) →
      c.nd ≤ id + ms.length → i ≤ c.p.length → io ≤ id → (c.p.length - i) + (c.nd - id) < fuel →
      ∃ moves, plan c fuel i id io = .ok moves ∧ ∀ (k m : ℕ) (w : Work F),
        (∀ a col r, (moves.foldl (exec M c k m) w).mem a col r =
          if Moved c a ∧ c.x + i ≤ col ∧ col < c.x + c.p.length ∧ k ≤ r ∧ r < k + m
          then w.mem a (c.x + c.p.getD (col - c.x) 0) r else w.mem a col r) ∧
        (∀ t < c.nd, ∀ r < m,
          (t < id → (moves.foldl (exec M c k m) w).X0 t r = w.X0 t r ∧ (moves.foldl (exec M c k m) w).R0 t r = w.R0 t r ∧
            (c.hasB = true → (moves.foldl (exec M c k m) w).BX0 t r = w.BX0 t r)) ∧
          (id ≤ t → ∀ v, ms[t - id]? = some v →
            (v < c.x → (moves.foldl (exec M c k m) w).X0 t r = w.mem .V (c.xo + v) (k + r) ∧
              (moves.foldl (exec M c k m) w).R0 t r = w.mem .W (c.xo + v) (k + r) ∧
              (c.hasB = true → (moves.foldl (exec M c k m) w).BX0 t r = w.mem .BV (c.xo + v) (k + r))) ∧
            (c.x ≤ v → (moves.foldl (exec M c k m) w).X0 t r = w.mem .V (c.x + c.p.getD (v - c.x) 0) (k + r) ∧
              (moves.foldl (exec M c k m) w).R0 t r = w.mem .W (c.x + c.p.getD (v - c.x) 0) (k + r) -
                c.evals (c.p.getD (v - c.x) 0) *
                  w.mem (if c.hasB then .BV else .V) (c.x + c.p.getD (v - c.x) 0) (k + r) ∧
              (c.hasB = true → (moves.foldl (exec M c k m) w).BX0 t r =
                w.mem .BV (c.x + c.p.getD (v - c.x) 0) (k + r))))) := by
  intro fuel
  induction fuel with
  | zero => intro i id io ms _ _ _ _ _ h; omega
  | succ fuel ih =>
    intro i id io ms hm hpd hlen hi hle hf
    unfold plan
    by_cases hend : c.p.length ≤ i ∧ c.nd ≤ id
    · rw [if_pos hend]
      refine ⟨[], rfl, fun k m w => ⟨fun a col r => ?_, fun t ht r hr => ⟨fun _ => ⟨rfl, rfl, fun _ => rfl⟩, fun h => by omega⟩⟩⟩
      rw [if_neg (by omega)]
      rfl
    · rw [if_neg hend]
      -- a turn that takes a column of `x`
      have own : ∀ ms', i < c.p.length → (id + 1 < c.nd → Merged c.x ip c.p.length io (i + 1) ms') →
          (∀ t, id + 1 + t < c.nd → c.pd (id + 1 + t) = ms'[t]?) → c.nd ≤ id + 1 + ms'.length →
          (id < c.nd → ms = (c.x + i) :: ms') →
          ∃ moves, (match c.p[i]? with
            | none => (Outcome.ub : Outcome (List Move))
            | some s => do
              let r ← plan c fuel (i + 1) (id + 1) io
              .ok (.own (if id < c.nd then some id else none) i s :: r)) = .ok moves ∧ ∀ (k m : ℕ) (w : Work F),
            (∀ a col r, (moves.foldl (exec M c k m) w).mem a col r =
              if Moved c a ∧ c.x + i ≤ col ∧ col < c.x + c.p.length ∧ k ≤ r ∧ r < k + m
              then w.mem a (c.x + c.p.getD (col - c.x) 0) r else w.mem a col r) ∧
            (∀ t < c.nd, ∀ r < m,
              (t < id → (moves.foldl (exec M c k m) w).X0 t r = w.X0 t r ∧ (moves.foldl (exec M c k m) w).R0 t r = w.R0 t r ∧
                (c.hasB = true → (moves.foldl (exec M c k m) w).BX0 t r = w.BX0 t r)) ∧
              (id ≤ t → ∀ v, ms[t - id]? = some v →
                (v < c.x → (moves.foldl (exec M c k m) w).X0 t r = w.mem .V (c.xo + v) (k + r) ∧
                  (moves.foldl (exec M c k m) w).R0 t r = w.mem .W (c.xo + v) (k + r) ∧
                  (c.hasB = true → (moves.foldl (exec M c k m) w).BX0 t r = w.mem .BV (c.xo + v) (k + r))) ∧
                (c.x ≤ v → (moves.foldl (exec M c k m) w).X0 t r = w.mem .V (c.x + c.p.getD (v - c.x) 0) (k + r) ∧
                  (moves.foldl (exec M c k m) w).R0 t r = w.mem .W (c.x + c.p.getD (v - c.x) 0) (k + r) -
                    c.evals (c.p.getD (v - c.x) 0) *
                      w.mem (if c.hasB then .BV else .V) (c.x + c.p.getD (v - c.x) 0) (k + r) ∧
                  (c.hasB = true → (moves.foldl (exec M c k m) w).BX0 t r =
                    w.mem .BV (c.x + c.p.getD (v - c.x) 0) (k + r))))) := by
        intro ms' hi' hm' hpd' hlen' hms
        obtain ⟨moves, e, h⟩ := ih (i + 1) (id + 1) io ms' hm' hpd' hlen' (by omega) (by omega) (by omega)
        rw [List.getElem?_eq_getElem hi']
        dsimp only
        rw [e, Outcome.bind_ok]
        refine ⟨_, rfl, fun k m w => ?_⟩
        rw [List.foldl_cons]
        obtain ⟨h1, h2⟩ := h k m (exec M c k m w (.own (if id < c.nd then some id else none) i c.p[i]))
        have hpi : c.p.getD i 0 = c.p[i] := getD_get hi'
        have hfar : ∀ col, c.x + i + 1 ≤ col → ∀ a r,
            (exec M c k m w (.own (if id < c.nd then some id else none) i c.p[i])).mem a col r = w.mem a col r := by
          intro col hcol a r
          rw [exec_own_mem, if_neg (by omega)]
        have hge : ∀ j, i < j → j < c.p.length → i + 1 ≤ c.p.getD j 0 := by
          intro j h1 h2
          have := le_get inc h2
          rw [getD_get h2]
          omega
        refine ⟨?_, ?_⟩
        · intro a col r
          rw [h1]
          by_cases hc : Moved c a ∧ c.x + (i + 1) ≤ col ∧ col < c.x + c.p.length ∧ k ≤ r ∧ r < k + m
          · have := hge (col - c.x) (by omega) (by omega)
            rw [if_pos hc, hfar _ (by omega), if_pos ⟨hc.1, by omega, hc.2.2⟩]
          · rw [if_neg hc, exec_own_mem]
            by_cases hc2 : Moved c a ∧ col = c.x + i ∧ k ≤ r ∧ r < k + m
            · rw [if_pos hc2, if_pos ⟨hc2.1, by omega, by omega, hc2.2.2⟩, hc2.2.1, Nat.add_sub_cancel_left, hpi]
            · rw [if_neg hc2, if_neg]
              rintro ⟨g1, g2, g3, g4⟩
              by_cases g5 : col = c.x + i
              · exact hc2 ⟨g1, g5, g4⟩
              · exact hc ⟨g1, by omega, g3, g4⟩
        · intro t ht r hr
          obtain ⟨h3, h4⟩ := h2 t ht r hr
          have hset : t ≠ id →
              (exec M c k m w (.own (if id < c.nd then some id else none) i c.p[i])).X0 t r = w.X0 t r ∧
              (exec M c k m w (.own (if id < c.nd then some id else none) i c.p[i])).R0 t r = w.R0 t r ∧
              (c.hasB = true → (exec M c k m w (.own (if id < c.nd then some id else none) i c.p[i])).BX0 t r = w.BX0 t r) := by
            intro hne
            by_cases hid : id < c.nd
            · rw [if_pos hid]
              refine ⟨?_, ?_, fun hB => ?_⟩
              · simp only [exec, setCol]; rw [if_neg hne]
              · simp only [exec, setCol]; rw [if_neg hne]
              · simp only [exec]; rw [if_pos hB]; exact if_neg hne
            · rw [if_neg hid]
              exact ⟨rfl, rfl, fun _ => rfl⟩
          refine ⟨?_, ?_⟩
          · intro hti
            obtain ⟨f1, f2, f3⟩ := h3 (by omega)
            obtain ⟨g1, g2, g3⟩ := hset (by omega)
            exact ⟨f1.trans g1, f2.trans g2, fun hB => (f3 hB).trans (g3 hB)⟩
          · intro hti v hv
            by_cases heq : t = id
            · subst heq
              have hms' := hms ht
              rw [hms', Nat.sub_self, List.getElem?_cons_zero] at hv
              cases hv
              refine ⟨fun h => by omega, fun _ => ?_⟩
              obtain ⟨f1, f2, f3⟩ := h3 (by omega)
              rw [Nat.add_sub_cancel_left, hpi]
              have hV : ∀ a r, (exec M c k m w (.own (some t) i c.p[i])).mem a (c.x + c.p[i]) r = w.mem a (c.x + c.p[i]) r :=
                fun a r => exec_own_V c M k m w (some t) i c.p[i] a r
              refine ⟨?_, ?_, fun hB => ?_⟩
              · rw [f1, if_pos ht, ← hV]
                simp [exec, setCol]
              · rw [f2, if_pos ht, ← hV .W, ← hV (if c.hasB = true then .BV else .V)]
                have : (exec M c k m w (.own (some t) i c.p[i])).R0 t r = residual M m (c.evals c.p[i])
                    (fun r => (exec M c k m w (.own (some t) i c.p[i])).mem (if c.hasB then .BV else .V) (c.x + c.p[i]) (k + r))
                    (fun r => (exec M c k m w (.own (some t) i c.p[i])).mem .W (c.x + c.p[i]) (k + r)) (w.R0 t) r := by
                  simp [exec, setCol]
                rw [this, residual_eq hM _ _ _ _ hr]
              · rw [f3 hB, if_pos ht, ← hV]
                simp [exec, setCol, hB]
            · have hms' := hms (by omega)
              rw [hms', show t - id = (t - (id + 1)) + 1 by omega, List.getElem?_cons_succ] at hv
              obtain ⟨f1, f2⟩ := h4 (by omega) v hv
              have hm' := hm' (by omega)
              have hmem : ∀ v ∈ ms', _ := hm'.bound hip
              have hvb := hmem v (List.mem_of_getElem? hv)
              refine ⟨fun hvx => ?_, fun hvx => ?_⟩
              · obtain ⟨g1, g2, g3⟩ := f1 hvx
                have hnp : i < np := lt_of_le_of_lt (le_get inc hi') (hlt _ (List.getElem_mem hi'))
                have hcol : c.x + i + 1 ≤ c.xo + v := by omega
                exact ⟨g1.trans (hfar _ hcol _ _), g2.trans (hfar _ hcol _ _), fun hB => (g3 hB).trans (hfar _ hcol _ _)⟩
              · obtain ⟨g1, g2, g3⟩ := f2 hvx
                have hvl : v - c.x < c.p.length := by have := hvb.2 hvx; omega
                -- the next ones come later in the list
                have hlater : i + 1 ≤ v - c.x := by
                  clear * - hm' hv hvx hip
                  generalize t - (id + 1) = tt at hv
                  generalize hii : i + 1 = ii at hm' ⊢
                  clear hii
                  induction hm' generalizing tt with
                  | done _ _ => cases hv
                  | cand h1 _ ih =>
                    cases tt with
                    | zero => rw [List.getElem?_cons_zero] at hv; cases hv; omega
                    | succ tt => exact ih tt (by simpa using hv)
                  | fail h1 _ ih =>
                    cases tt with
                    | zero => rw [List.getElem?_cons_zero] at hv; cases hv; omega
                    | succ tt => have := ih tt (by simpa using hv); omega
                have hcol : c.x + i + 1 ≤ c.x + c.p.getD (v - c.x) 0 := by
                  have := hge (v - c.x) (by omega) hvl
                  omega
                refine ⟨g1.trans (hfar _ hcol _ _), ?_, fun hB => (g3 hB).trans (hfar _ hcol _ _)⟩
                rw [g2, hfar _ hcol, hfar _ hcol]
      by_cases hid : id < c.nd
      · have hp := hpd 0 (by omega)
        have hm := hm hid
        cases hm with
        | done h1 h2 => simp at hlen; omega
        | @cand _ _ ms' h1 h2 =>
          rw [if_pos ⟨hid, by omega⟩]
          rw [Nat.add_zero, List.getElem?_cons_zero] at hp
          rw [hp]
          dsimp only
          rw [Outcome.bind_ok, hio, Nat.add_zero, if_pos (by simp)]
          obtain ⟨moves, e, h⟩ := ih i (id + 1) (io + 1) ms' (fun _ => h2)
            (by
              intro t ht
              have := hpd (t + 1) (by omega)
              rwa [List.getElem?_cons_succ, show id + (t + 1) = id + 1 + t by omega] at this)
            (by simp at hlen; omega) hi (by omega) (by omega)
          rw [e, Outcome.bind_ok]
          refine ⟨_, rfl, fun k m w => ?_⟩
          rw [List.foldl_cons]
          obtain ⟨g1, g2⟩ := h k m (exec M c k m w (.other id io))
          refine ⟨g1, ?_⟩
          intro t ht r hr
          obtain ⟨h3, h4⟩ := g2 t ht r hr
          have hset : t ≠ id → (exec M c k m w (.other id io)).X0 t r = w.X0 t r ∧
              (exec M c k m w (.other id io)).R0 t r = w.R0 t r ∧
              (c.hasB = true → (exec M c k m w (.other id io)).BX0 t r = w.BX0 t r) := by
            intro hne
            refine ⟨?_, ?_, fun hB => ?_⟩
            · simp only [exec, setCol]; rw [if_neg hne]
            · simp only [exec, setCol]; rw [if_neg hne]
            · simp only [exec]; rw [if_pos hB]; exact if_neg hne
          refine ⟨fun hti => ?_, fun hti v hv => ?_⟩
          · obtain ⟨f1, f2, f3⟩ := h3 (by omega)
            obtain ⟨k1, k2, k3⟩ := hset (by omega)
            exact ⟨f1.trans k1, f2.trans k2, fun hB => (f3 hB).trans (k3 hB)⟩
          · by_cases heq : t = id
            · subst heq
              rw [Nat.sub_self, List.getElem?_cons_zero] at hv
              cases hv
              refine ⟨fun _ => ?_, fun h => by omega⟩
              obtain ⟨f1, f2, f3⟩ := h3 (by omega)
              refine ⟨f1.trans ?_, f2.trans ?_, fun hB => (f3 hB).trans ?_⟩
              · simp [exec, setCol]
              · simp [exec, setCol]
              · simp [exec, setCol, hB]
            · rw [show t - id = (t - (id + 1)) + 1 by omega, List.getElem?_cons_succ] at hv
              exact h4 (by omega) v hv
        | @fail _ _ ms' h1 h2 =>
          rw [Nat.add_zero, List.getElem?_cons_zero] at hp
          rw [if_pos ⟨hid, by omega⟩, hp]
          have hne : io < c.x + i := by
            omega
          dsimp only
          rw [Outcome.bind_ok, hio, Nat.add_zero, if_neg (by simp; omega)]
          exact own ms' h1 (fun _ => h2)
            (by
              intro t ht
              have := hpd (t + 1) (by omega)
              rwa [List.getElem?_cons_succ, show id + (t + 1) = id + 1 + t by omega] at this)
            (by simp at hlen; omega) (fun _ => rfl)
      · rw [if_neg (show ¬(id < c.nd ∧ io < c.no) by omega), Outcome.bind_ok]
        simp only [Bool.false_eq_true, if_false]
        exact own [] (by omega) (fun h => by omega) (fun t ht => by omega) (by omega) (fun h => by omega)

/-- The columns afterwards: the columns of `x` kept, in order, and behind them the columns of the output. -/
def fin (c : Cols F) (mem : Store F) : Store F := fun a col r =>
  if Moved c a ∧ c.x ≤ col ∧ col < c.xd then mem a (c.x + c.p.getD (col - c.x) 0) r
  else if Moved c a ∧ c.xd ≤ col ∧ col < c.xd + c.nd then
    if (c.pd (col - c.xd)).getD 0 < c.x then mem a (c.xo + (c.pd (col - c.xd)).getD 0) r
    else if a = .W then
      mem .W (c.x + c.p.getD ((c.pd (col - c.xd)).getD 0 - c.x) 0) r -
        c.evals (c.p.getD ((c.pd (col - c.xd)).getD 0 - c.x) 0) *
          mem (if c.hasB then .BV else .V) (c.x + c.p.getD ((c.pd (col - c.xd)).getD 0 - c.x) 0) r
    else mem a (c.x + c.p.getD ((c.pd (col - c.xd)).getD 0 - c.x) 0) r
  else mem a col r

theorem fin_eq (c : Cols F) (mem mem' : Store F) (r : ℕ) (h : ∀ a col, mem a col r = mem' a col r) (a : Arr) (col : ℕ) :
    fin c mem a col r = fin c mem' a col r := by
  unfold fin
  simp only [h]

theorem put_V (arr : Arr) (xd nd k m : ℕ) (X : ℕ → ℕ → F) (mem : Store F) (a : Arr) (col r : ℕ) :
    put ⟨some (arr, xd), 0, nd⟩ k m X mem a col r =
      if a = arr ∧ xd ≤ col ∧ col < xd + nd ∧ k ≤ r ∧ r < k + m then X (col - xd) (r - k) else mem a col r := by
  unfold put
  simp

/-- A block of rows. -/
theorem turn_eq {c : Cols F} {np ip : ℕ} {ms : List ℕ} (hf : Fits c np ip ms) {M : ℕ} (hM : 0 < M) :
    ∃ moves, plan c (c.p.length + c.nd + 1) 0 0 0 = .ok moves ∧ ∀ (junk : ℕ → ℕ → F) (mem : Store F) (k m : ℕ) (a : Arr)
      (col r : ℕ), turn M c moves junk mem (k, m) a col r = if k ≤ r ∧ r < k + m then fin c mem a col r else mem a col r := by
  obtain ⟨moves, e, h⟩ := plan_spec hf.io0 hf.inc hf.lt hf.xo hf.ipx hf.no hf.noip hM (c.p.length + c.nd + 1) 0 0 0 ms
    (fun _ => hf.merged) (fun t ht => by rw [Nat.zero_add]; exact hf.pd t (by omega)) (by have := hf.long; omega) (by omega)
    (by omega) (by omega)
  refine ⟨moves, e, fun junk mem k m a col r => ?_⟩
  obtain ⟨h1, h2⟩ := h k m ⟨mem, junk, junk, junk⟩
  have hxd := hf.xd
  unfold turn
  dsimp only
  generalize hw : moves.foldl (exec M c k m) ⟨mem, junk, junk, junk⟩ = w at h1 h2
  by_cases hr : k ≤ r ∧ r < k + m
  swap
  · rw [if_neg hr]
    have hm : ∀ a col, w.mem a col r = mem a col r := fun a col => by rw [h1, if_neg (by tauto)]
    by_cases hB : c.hasB = true
    · rw [if_pos hB, put_V, if_neg (by tauto), put_V, if_neg (by tauto), put_V, if_neg (by tauto), hm]
    · rw [if_neg hB, put_V, if_neg (by tauto), put_V, if_neg (by tauto), hm]
  · rw [if_pos hr]
    have hkr : k + (r - k) = r := by omega
    by_cases hc : c.xd ≤ col ∧ col < c.xd + c.nd
    swap
    · have hm : put ⟨some (.W, c.xd), 0, c.nd⟩ k m w.R0 (if c.hasB = true then put ⟨some (.BV, c.xd), 0, c.nd⟩ k m w.BX0
          (put ⟨some (.V, c.xd), 0, c.nd⟩ k m w.X0 w.mem) else put ⟨some (.V, c.xd), 0, c.nd⟩ k m w.X0 w.mem) a col r =
            w.mem a col r := by
        by_cases hB : c.hasB = true
        · rw [if_pos hB, put_V, if_neg (by tauto), put_V, if_neg (by tauto), put_V, if_neg (by tauto)]
        · rw [if_neg hB, put_V, if_neg (by tauto), put_V, if_neg (by tauto)]
      rw [hm, h1]
      unfold fin
      by_cases hx : Moved c a ∧ c.x ≤ col ∧ col < c.xd
      · rw [if_pos ⟨hx.1, by omega, by omega, hr⟩, if_pos hx]
      · rw [if_neg (by rintro ⟨g1, g2, g3, _⟩; exact hx ⟨g1, by omega, by omega⟩), if_neg hx, if_neg (by tauto)]
    · have hlen := hf.long
      have ht : col - c.xd < c.nd := by omega
      have hpd := hf.pd (col - c.xd) ht
      rw [List.getElem?_eq_getElem (show col - c.xd < ms.length by omega)] at hpd
      obtain ⟨_, h4⟩ := h2 (col - c.xd) ht (r - k) (by omega)
      obtain ⟨h5, h6⟩ := h4 (by omega) ms[col - c.xd] (by rw [Nat.sub_zero, List.getElem?_eq_getElem (by omega)])
      simp only [hkr] at h5 h6
      unfold fin
      rw [if_neg (show ¬(Moved c a ∧ c.x ≤ col ∧ col < c.xd) by omega), hpd, Option.getD_some]
      have hold : ¬ Moved c a → w.mem a col r = mem a col r := fun hn => by rw [h1, if_neg (by tauto)]
      by_cases hv : ms[col - c.xd] < c.x
      · obtain ⟨f1, f2, f3⟩ := h5 hv
        rw [if_pos hv]
        by_cases hB : c.hasB = true
        · rw [if_pos hB]
          cases a <;> simp only [put_V, Moved, hB, hc, hr, reduceCtorEq, false_and, true_and, and_self, if_true, if_false, or_true,
            true_or, or_false, false_or, and_true, Arr.other.injEq] <;>
            first | exact f1 | exact f2 | exact f3 hB | exact hold (by simp [Moved])
        · rw [if_neg hB]
          cases a <;> simp only [put_V, Moved, hB, hc, hr, reduceCtorEq, false_and, true_and, and_self, if_true, if_false, or_true,
            true_or, or_false, false_or, and_true, and_false, Arr.other.injEq] <;>
            first | exact f1 | exact f2 | exact hold (by simp [Moved, hB])
      · obtain ⟨f1, f2, f3⟩ := h6 (by omega)
        rw [if_neg hv]
        by_cases hB : c.hasB = true
        · rw [if_pos hB]
          rw [if_pos hB] at f2
          cases a <;> simp only [put_V, Moved, hB, hc, hr, reduceCtorEq, false_and, true_and, and_self, if_true, if_false, or_true,
            true_or, or_false, false_or, and_true, Arr.other.injEq] <;>
            first | exact f1 | exact f2 | exact f3 hB | exact hold (by simp [Moved])
        · rw [if_neg hB]
          rw [if_neg hB] at f2
          cases a <;> simp only [put_V, Moved, hB, hc, hr, reduceCtorEq, false_and, true_and, and_self, if_true, if_false, or_true,
            true_or, or_false, false_or, and_true, and_false, Arr.other.injEq] <;>
            first | exact f1 | exact f2 | exact hold (by simp [Moved, hB])

theorem copyCols_eq (arr : Arr) (src dst n m : ℕ) (hd : dst ≤ src) (mem : Store F) (a : Arr) (col r : ℕ) :
    copyCols arr src dst n m mem a col r =
      if a = arr ∧ dst ≤ col ∧ col < dst + n ∧ r < m then mem arr (src + (col - dst)) r else mem a col r := by
  unfold copyCols
  induction n generalizing a col with
  | zero => rw [if_neg (by omega)]; rfl
  | succ n ih =>
    rw [List.range_succ, List.foldl_append, List.foldl_cons, List.foldl_nil]
    rw [show ∀ (mem : Store F) (s d : ℕ), move arr s d 0 m mem a col r =
      if a = arr ∧ col = d ∧ 0 ≤ r ∧ r < 0 + m then mem arr s r else mem a col r from fun _ _ _ => rfl]
    by_cases hc : a = arr ∧ col = dst + n ∧ 0 ≤ r ∧ r < 0 + m
    · rw [if_pos hc, ih, if_neg (by omega), if_pos ⟨hc.1, by omega, by omega, by omega⟩, hc.2.1, Nat.add_sub_cancel_left]
    · rw [if_neg hc, ih]
      by_cases h2 : a = arr ∧ dst ≤ col ∧ col < dst + n ∧ r < m
      · rw [if_pos h2, if_pos ⟨h2.1, h2.2.1, by omega, h2.2.2.2⟩]
      · rw [if_neg h2, if_neg]
        rintro ⟨g1, g2, g3, g4⟩
        by_cases g5 : col = dst + n
        · exact hc ⟨g1, g5, by omega, by omega⟩
        · exact h2 ⟨g1, g2, by omega, g4⟩

/-- `compute_residual_columns` does not fail, and what it leaves. -/
theorem columns_eq {c : Cols F} {np ip : ℕ} {ms : List ℕ} (hf : Fits c np ip ms) {M : ℕ} (hM : 0 < M) :
    ∃ moves, (if c.p.length = 0 then Outcome.ok [] else plan c (c.p.length + c.nd + 1) 0 0 0) = .ok moves ∧
      ∀ (junk : ℕ → ℕ → F) (mV : ℕ) (mem : Store F) (a : Arr) (col r : ℕ), columns M mV c moves junk mem a col r =
        if r < mV then fin c mem a col r else mem a col r := by
  by_cases h0 : c.p.length = 0
  · rw [if_pos h0]
    refine ⟨[], rfl, fun junk mV mem a col r => ?_⟩
    unfold columns
    rw [if_pos h0]
    have hxd := hf.xd
    have hxo := hf.xo
    have hno := hf.no
    have hnoip := hf.noip
    have hipx := hf.ipx
    rw [min_eq_right hno]
    have hms := hf.merged.none (by omega)
    rw [Nat.sub_zero] at hms
    have hpd : ∀ t < c.nd, c.pd t = some t := by
      intro t ht
      rw [hf.pd t ht, hms, List.getElem?_eq_getElem (by rw [List.length_range']; omega), List.getElem_range']
      rw [Nat.zero_add, Nat.one_mul]
    unfold fin
    rw [if_neg (show ¬(Moved c a ∧ c.x ≤ col ∧ col < c.xd) by omega)]
    by_cases hc : c.xd ≤ col ∧ col < c.xd + c.nd
    · rw [hpd (col - c.xd) (by omega), Option.getD_some, if_pos (show col - c.xd < c.x by omega)]
      by_cases hB : c.hasB = true
      · rw [if_pos hB]
        cases a <;> simp [copyCols_eq, Moved, hB, hc, show c.xd ≤ c.xo by omega]
      · rw [if_neg hB]
        cases a <;> simp [copyCols_eq, Moved, hB, hc, show c.xd ≤ c.xo by omega]
    · rw [if_neg (show ¬(Moved c a ∧ c.xd ≤ col ∧ col < c.xd + c.nd) by tauto), ite_self]
      by_cases hB : c.hasB = true
      · rw [if_pos hB, copyCols_eq _ _ _ _ _ (by omega), if_neg (by tauto), copyCols_eq _ _ _ _ _ (by omega), if_neg (by tauto),
          copyCols_eq _ _ _ _ _ (by omega), if_neg (by tauto)]
      · rw [if_neg hB, copyCols_eq _ _ _ _ _ (by omega), if_neg (by tauto), copyCols_eq _ _ _ _ _ (by omega), if_neg (by tauto)]
  · rw [if_neg h0]
    obtain ⟨moves, e, h⟩ := turn_eq hf hM
    refine ⟨moves, e, fun junk mV mem => ?_⟩
    unfold columns
    rw [if_neg h0]
    refine turns_inv (mQ := mV) hM _ (fun i (s : Store F) => ∀ a col r, s a col r = if r < i then fin c mem a col r else mem a col r)
      ?_ mem (by intro a col r; rw [if_neg (by omega)])
    intro i m s _ hs a col r
    rw [h]
    by_cases hr : i ≤ r ∧ r < i + m
    · rw [if_pos hr, if_pos hr.2]
      refine fin_eq c s mem r (fun a col => ?_) a col
      rw [hs, if_neg (by omega)]
    · rw [if_neg hr, hs]
      by_cases h3 : r < i
      · rw [if_pos h3, if_pos (by omega)]
      · rw [if_neg h3, if_neg (by omega)]

end Verif.Lock
