import Verif.Model.Operators
import Verif.Spec.Operators

/-!
# Lemmas on the conversion wrappers
-/

set_option linter.unusedSectionVars false
set_option linter.unusedSimpArgs false

namespace Verif.Ops

variable {V : Type}

theorem divmod_ld {j i ld : ℕ} (h : i < ld) : (j * ld + i) / ld = j ∧ (j * ld + i) % ld = i := by
  constructor
  · rw [Nat.add_comm, Nat.add_mul_div_right _ _ (by omega), Nat.div_eq_of_lt h, Nat.zero_add]
  · rw [Nat.add_comm, Nat.add_mul_mod_self_right, Nat.mod_eq_of_lt h]

theorem patch_in (d : ℕ → V) (off m n ld : ℕ) (a : ℕ → ℕ → V) {i j : ℕ} (hi : i < m) (hj : j < n)
    (hld : m ≤ ld) : patch d off m n ld a (off + j * ld + i) = a i j := by
  have e : off + j * ld + i - off = j * ld + i := by omega
  obtain ⟨h1, h2⟩ := divmod_ld (j := j) (i := i) (ld := ld) (by omega)
  unfold patch
  rw [e, h1, h2, if_pos ⟨by omega, hj, hi⟩]

theorem patch_out (d : ℕ → V) (off m n ld : ℕ) (a : ℕ → ℕ → V) (k : ℕ)
    (h : ∀ i < m, ∀ j < n, k ≠ off + j * ld + i) : patch d off m n ld a k = d k := by
  unfold patch
  rw [if_neg]
  rintro ⟨h1, h2, h3⟩
  refine h _ h3 _ h2 ?_
  have := Nat.div_add_mod (k - off) ld
  rw [Nat.mul_comm] at this
  omega

theorem patch_congr (d : ℕ → V) (off m n ld : ℕ) (a b : ℕ → ℕ → V)
    (h : ∀ i < m, ∀ j < n, a i j = b i j) : patch d off m n ld a = patch d off m n ld b := by
  funext k
  unfold patch
  split_ifs with hc
  · exact h _ hc.2.2 _ hc.2.1
  · rfl

theorem store_same (h : Heap V) (p : Ptr) (m n ld : ℕ) (a : ℕ → ℕ → V) (b : Block V)
    (hb : h.blocks p.blk = some b) :
    (store h p m n ld a).blocks p.blk = some ⟨b.ty, b.size, patch b.data p.off m n ld a⟩ := by
  unfold store
  simp [hb]

theorem store_other (h : Heap V) (p : Ptr) (m n ld : ℕ) (a : ℕ → ℕ → V) {b : ℕ} (hb : b ≠ p.blk) :
    (store h p m n ld a).blocks b = h.blocks b := by
  unfold store
  simp [hb]

theorem store_next (h : Heap V) (p : Ptr) (m n ld : ℕ) (a : ℕ → ℕ → V) :
    (store h p m n ld a).next = h.next := rfl

theorem alloc_new (env : Env V) (h : Heap V) (ty : Prec) (size : ℕ) :
    (alloc env h ty size).1.blocks h.next = some ⟨ty, size, fun _ => env.garbage⟩ := by
  simp [alloc]

theorem alloc_other (env : Env V) (h : Heap V) (ty : Prec) (size : ℕ) {b : ℕ} (hb : b ≠ h.next) :
    (alloc env h ty size).1.blocks b = h.blocks b := by
  simp [alloc, hb]

theorem free_ok (h : Heap V) (p : Ptr) (b : Block V) (hb : h.blocks p.blk = some b) (ho : p.off = 0) :
    free h p = .ok { h with blocks := fun b => if b = p.blk then none else h.blocks b } := by
  unfold free
  rw [hb]
  simp [ho]

theorem valid_of_holds {h : Heap V} {p : Ptr} {ty : Prec} {m n ld : ℕ} {b : Block V}
    (hh : Holds h p ty m n ld b) : valid h p ty m n ld = true := by
  obtain ⟨h1, h2, h3, h4⟩ := hh
  unfold valid
  split_ifs with h0
  · rfl
  · rw [h1]
    have := h4 (by omega) (by omega)
    simp [h2, h3, this]

theorem entry_eq (env : Env V) {h : Heap V} {p : Ptr} {b : Block V} (hb : h.blocks p.blk = some b)
    (ld i j : ℕ) : entry env h p ld i j = b.data (p.off + j * ld + i) := by
  unfold entry
  rw [hb]

/-- A freshly allocated array holds the matrix it was allocated for. -/
theorem fits_new (m n : ℕ) : 0 < m → 0 < n → 0 + (n - 1) * m + m ≤ m * n := by
  intro _ hn
  obtain ⟨k, rfl⟩ := Nat.exists_eq_add_of_lt hn
  rw [Nat.mul_comm m]
  simp only [Nat.zero_add, Nat.add_sub_cancel]
  rw [Nat.add_mul]
  omega

theorem castNew_same (env : Env V) (h : Heap V) (x : Ptr) (m n ldx : ℕ) (t : Prec) (c : Bool)
    (ha : env.avail t = true) : castNew env h x m n ldx t t c = .ok (h, x, ldx) := by
  unfold castNew
  simp [ha]

theorem castNew_alloc (env : Env V) (h : Heap V) (x : Ptr) (m n ldx : ℕ) (xt yt : Prec)
    (ha : env.avail yt = true) (ht : xt ≠ yt) :
    castNew env h x m n ldx xt yt false =
      .ok ((alloc env h yt (m * n)).1, ⟨h.next, 0⟩, m) := by
  unfold castNew
  simp [ha, ht, alloc]

theorem castNew_copy (env : Env V) (h : Heap V) (x : Ptr) (m n ldx : ℕ) (xt yt : Prec)
    (ha : env.avail yt = true) (ht : xt ≠ yt) (bx : Block V) (hx : Holds h x xt m n ldx bx)
    (hn : x.blk ≠ h.next) :
    ∃ h' d, castNew env h x m n ldx xt yt true = .ok (h', ⟨h.next, 0⟩, m) ∧
      h'.next = h.next + 1 ∧
      h'.blocks h.next = some ⟨yt, m * n, d⟩ ∧
      (∀ i < m, ∀ j < n, d (j * m + i) = env.conv xt yt (bx.data (x.off + j * ldx + i))) ∧
      (∀ b, b ≠ h.next → h'.blocks b = h.blocks b) := by
  by_cases h0 : m = 0 ∨ n = 0
  · refine ⟨(alloc env h yt (m * n)).1, fun _ => env.garbage, ?_, rfl, alloc_new _ _ _ _, ?_, ?_⟩
    · unfold castNew
      simp [ha, ht, alloc, copyT, h0]
    · intro i hi j hj; omega
    · intro b hb; exact alloc_other _ _ _ _ hb
  · have hxa : Holds (alloc env h yt (m * n)).1 x xt m n ldx bx := by
      obtain ⟨h1, h2⟩ := hx
      exact ⟨by rw [alloc_other _ _ _ _ hn]; exact h1, h2⟩
    have hya : Holds (alloc env h yt (m * n)).1 ⟨h.next, 0⟩ yt m n m
        ⟨yt, m * n, fun _ => env.garbage⟩ :=
      ⟨alloc_new _ _ _ _, rfl, Nat.le_refl m, fits_new m n⟩
    refine ⟨store (alloc env h yt (m * n)).1 ⟨h.next, 0⟩ m n m
        (fun i j => env.conv xt yt (entry env (alloc env h yt (m * n)).1 x ldx i j)),
      _, ?_, rfl, store_same _ ⟨h.next, 0⟩ _ _ _ _ ⟨yt, m * n, fun _ => env.garbage⟩
        (alloc_new _ _ _ _), ?_, ?_⟩
    · have hne : x ≠ ⟨h.next, 0⟩ := by
        intro hc; exact hn (by rw [hc])
      have hva := valid_of_holds hxa
      have hvb := valid_of_holds hya
      have hc : copyT env (alloc env h yt (m * n)).1 x xt m n ldx ⟨h.next, 0⟩ yt m =
          .ok (store (alloc env h yt (m * n)).1 ⟨h.next, 0⟩ m n m
            (fun i j => env.conv xt yt (entry env (alloc env h yt (m * n)).1 x ldx i j))) := by
        unfold copyT
        rw [if_neg ht, if_neg h0, if_neg hne, if_pos ⟨hn, hva, hvb⟩]
      unfold castNew
      rw [if_neg (by simp [ha]), if_neg ht]
      have : (alloc env h yt (m * n)) = ((alloc env h yt (m * n)).1, ⟨h.next, 0⟩) := rfl
      rw [this]
      dsimp only
      rw [if_pos rfl, hc]
    · intro i hi j hj
      have e : j * m + i = 0 + j * m + i := by omega
      dsimp only
      rw [e, patch_in _ _ _ _ _ _ hi hj (Nat.le_refl m), entry_eq env hxa.1]
    · intro b hb
      rw [store_other _ _ _ _ _ _ (by exact hb), alloc_other _ _ _ _ hb]

theorem total_in (env : Env V) {m n : ℕ} (a : Fin m → Fin n → V) (i : Fin m) (j : Fin n) :
    total env a i j = a i j := by
  unfold total
  rw [dif_pos ⟨i.2, j.2⟩]

theorem callUser_ok (env : Env V) {mV mW n : ℕ}
    (f : (Fin mV → Fin n → V) → (Fin mW → Fin n → V) × Int) (ty : Prec) (h : Heap V) (x : Ptr)
    (ldx : ℕ) (y : Ptr) (ldy : ℕ) (bx by_ : Block V) (hx : Holds h x ty mV n ldx bx)
    (hy : Holds h y ty mW n ldy by_) (hne : x.blk ≠ y.blk) :
    callUser env f ty h x ldx y ldy =
      .ok (store h y mW n ldy (total env (f fun i j => bx.data (x.off + j * ldx + i)).1),
        ⟨x, y, ldx, ldy, fun i j => bx.data (x.off + j * ldx + i)⟩,
        (f fun i j => bx.data (x.off + j * ldx + i)).2) := by
  unfold callUser
  rw [if_pos ⟨valid_of_holds hx, valid_of_holds hy, hne⟩]
  have : (fun (i : Fin mV) (j : Fin n) => entry env h x ldx i j) =
      fun (i : Fin mV) (j : Fin n) => bx.data (x.off + j * ldx + i) := by
    funext i j
    exact entry_eq env hx.1 _ _ _
  simp only [this]

theorem wrote_patch (b : Block V) (off m n ld : ℕ) (a a' : ℕ → ℕ → V) (hld : m ≤ ld)
    (h : ∀ i < m, ∀ j < n, a i j = a' i j) :
    Wrote b ⟨b.ty, b.size, patch b.data off m n ld a⟩ off m n ld a' := by
  refine ⟨rfl, rfl, ?_, ?_⟩
  · intro i hi j hj
    rw [← h i hi j hj]
    exact patch_in _ _ _ _ _ _ hi hj hld
  · intro k hk
    exact patch_out _ _ _ _ _ _ _ hk

theorem product_spec (env : Env V) (sc op : Prec) {mV mW n : ℕ}
    (f : (Fin mV → Fin n → V) → (Fin mW → Fin n → V) × Int)
    (h : Heap V) (v : Ptr) (ldV : ℕ) (w : Ptr) (ldW : ℕ) (bv bw : Block V)
    (hv : Holds h v sc mV n ldV bv) (hw : Holds h w sc mW n ldW bw) (hvw : v.blk ≠ w.blk)
    (hwf : ∀ b, h.next ≤ b → h.blocks b = none)
    (hsc : env.avail sc = true) (hop : env.avail op = true)
    (hok : (f fun i j => convIf env sc op (bv.data (v.off + j * ldV + i))).2 = 0) :
    ∃ h' seen bw', product env sc op op f h v ldV w ldW = .ok (h', seen) ∧
      seen.x = (fun (i : Fin mV) (j : Fin n) => convIf env sc op (bv.data (v.off + j * ldV + i))) ∧
      (sc = op → seen.inp = v ∧ seen.ldIn = ldV ∧ seen.out = w ∧ seen.ldOut = ldW) ∧
      h'.blocks w.blk = some bw' ∧
      Wrote bw bw' w.off mW n ldW (fun i j => convIf env op sc (total env (f seen.x).1 i j)) ∧
      (∀ b, b ≠ w.blk → h'.blocks b = h.blocks b) := by
  have hvn : v.blk < h.next := by
    by_contra hc
    have := hwf v.blk (by omega)
    rw [hv.1] at this; exact absurd this (by simp)
  have hwn : w.blk < h.next := by
    by_contra hc
    have := hwf w.blk (by omega)
    rw [hw.1] at this; exact absurd this (by simp)
  by_cases ht : sc = op
  · subst ht
    have hid : (fun (i : Fin mV) (j : Fin n) => convIf env sc sc (bv.data (v.off + j * ldV + i))) =
        fun (i : Fin mV) (j : Fin n) => bv.data (v.off + j * ldV + i) := by
      funext i j; unfold convIf; rw [if_pos rfl]
    rw [hid] at hok
    refine ⟨store h w mW n ldW (total env (f fun i j => bv.data (v.off + j * ldV + i)).1),
      ⟨v, w, ldV, ldW, fun i j => bv.data (v.off + j * ldV + i)⟩, _, ?_, hid.symm,
      fun _ => ⟨rfl, rfl, rfl, rfl⟩, store_same _ _ _ _ _ _ _ hw.1, ?_, ?_⟩
    · unfold product
      rw [castNew_same _ _ _ _ _ _ _ _ hsc]
      simp only [Outcome.bind_ok]
      rw [castNew_same _ _ _ _ _ _ _ _ hsc]
      simp only [Outcome.bind_ok]
      rw [callUser_ok env f sc h v ldV w ldW bv bw hv hw hvw]
      simp only [Outcome.bind_ok]
      rw [if_neg (by simp [hok])]
      unfold castInto copyT
      simp [hsc]
    · refine wrote_patch _ _ _ _ _ _ _ hw.2.2.1 ?_
      intro i _ j _
      unfold convIf
      rw [if_pos rfl]
    · intro b hb
      exact store_other _ _ _ _ _ _ hb
  · obtain ⟨h1, d, e1, n1, b1, d1, o1⟩ := castNew_copy env h v mV n ldV sc op hop ht bv hv (by omega)
    have hx : (fun (i : Fin mV) (j : Fin n) => d (0 + j * mV + i)) =
        fun (i : Fin mV) (j : Fin n) => convIf env sc op (bv.data (v.off + j * ldV + i)) := by
      funext i j
      unfold convIf
      rw [if_neg ht, ← d1 i i.2 j j.2]
      congr 1
      omega
    -- second allocation
    let h2 := (alloc env h1 op (mW * n)).1
    have a2 : ∀ b, b ≠ h.next + 1 → h2.blocks b = h1.blocks b := by
      intro b hb
      exact alloc_other _ _ _ _ (by rw [n1]; exact hb)
    have w2 : h2.blocks (h.next + 1) = some ⟨op, mW * n, fun _ => env.garbage⟩ := by
      have := alloc_new env h1 op (mW * n)
      rw [n1] at this
      exact this
    have hv0 : Holds h2 ⟨h.next, 0⟩ op mV n mV ⟨op, mV * n, d⟩ :=
      ⟨by rw [a2 _ (by dsimp only; omega)]; exact b1, rfl, Nat.le_refl _, fits_new mV n⟩
    have hw0 : Holds h2 ⟨h.next + 1, 0⟩ op mW n mW ⟨op, mW * n, fun _ => env.garbage⟩ :=
      ⟨w2, rfl, Nat.le_refl _, fits_new mW n⟩
    let out := (f fun i j => d (0 + j * mV + i)).1
    let h3 := store h2 ⟨h.next + 1, 0⟩ mW n mW (total env out)
    have b3 : h3.blocks (h.next + 1) =
        some ⟨op, mW * n, patch (fun _ => env.garbage) 0 mW n mW (total env out)⟩ :=
      store_same h2 ⟨h.next + 1, 0⟩ mW n mW _ _ w2
    have o3 : ∀ b, b ≠ h.next + 1 → h3.blocks b = h2.blocks b := by
      intro b hb
      exact store_other _ _ _ _ _ _ (by exact hb)
    have hw0' : Holds h3 ⟨h.next + 1, 0⟩ op mW n mW
        ⟨op, mW * n, patch (fun _ => env.garbage) 0 mW n mW (total env out)⟩ :=
      ⟨b3, rfl, Nat.le_refl _, fits_new mW n⟩
    have hw3 : Holds h3 w sc mW n ldW bw := by
      refine ⟨?_, hw.2⟩
      rw [o3 _ (by omega), a2 _ (by omega), o1 _ (by omega)]
      exact hw.1
    -- copy back
    have hback : ∃ h4 bw', castInto env h3 ⟨h.next + 1, 0⟩ mW n mW op w ldW sc = .ok h4 ∧
        h4.blocks w.blk = some bw' ∧
        Wrote bw bw' w.off mW n ldW (fun i j => convIf env op sc (total env out i j)) ∧
        (∀ b, b ≠ w.blk → h4.blocks b = h3.blocks b) := by
      by_cases h0 : mW = 0 ∨ n = 0
      · refine ⟨h3, bw, ?_, hw3.1, ⟨rfl, rfl, fun i hi j hj => by omega, fun _ _ => rfl⟩, fun _ _ => rfl⟩
        unfold castInto copyT
        simp [hsc, h0, Ne.symm ht]
      · refine ⟨_, _, ?_, store_same h3 w mW n ldW
            (fun i j => env.conv op sc (entry env h3 ⟨h.next + 1, 0⟩ mW i j)) _ hw3.1, ?_, ?_⟩
        · unfold castInto copyT
          rw [if_neg (by simp [hsc]), if_neg (Ne.symm ht), if_neg h0, if_neg, if_pos]
          · exact ⟨by dsimp only; omega, valid_of_holds hw0', valid_of_holds hw3⟩
          · intro hc
            have : w.blk = h.next + 1 := by rw [← hc]
            omega
        · refine wrote_patch _ _ _ _ _ _ _ hw.2.2.1 ?_
          intro i hi j hj
          unfold convIf
          rw [if_neg (Ne.symm ht), entry_eq env b3]
          dsimp only
          rw [patch_in _ _ _ _ _ _ hi hj (Nat.le_refl _)]
        · intro b hb
          exact store_other _ _ _ _ _ _ hb
    obtain ⟨h4, bw', e4, bw4, wr4, o4⟩ := hback
    have f1 : free h4 ⟨h.next, 0⟩ =
        .ok { h4 with blocks := fun b => if b = h.next then none else h4.blocks b } := by
      refine free_ok _ _ ⟨op, mV * n, d⟩ ?_ rfl
      rw [o4 _ (by dsimp only; omega), o3 _ (by dsimp only; omega), a2 _ (by dsimp only; omega)]
      exact b1
    have f2 : free { h4 with blocks := fun b => if b = h.next then none else h4.blocks b }
        ⟨h.next + 1, 0⟩ = .ok { h4 with blocks := fun b => if b = h.next + 1 then none else
          if b = h.next then none else h4.blocks b } := by
      refine free_ok _ _ ⟨op, mW * n, patch (fun _ => env.garbage) 0 mW n mW (total env out)⟩ ?_ rfl
      dsimp only
      rw [if_neg (by omega), o4 _ (by omega)]
      exact b3
    refine ⟨{ h4 with blocks := fun b => if b = h.next + 1 then none else
          if b = h.next then none else h4.blocks b },
      ⟨⟨h.next, 0⟩, ⟨h.next + 1, 0⟩, mV, mW, fun i j => d (0 + j * mV + i)⟩, bw', ?_, ?_,
      fun hc => absurd hc ht, ?_, ?_, ?_⟩
    · unfold product
      rw [e1]
      simp only [Outcome.bind_ok]
      rw [castNew_alloc env h1 w mW n ldW sc op hop ht, n1]
      simp only [Outcome.bind_ok]
      rw [callUser_ok env f op h2 ⟨h.next, 0⟩ mV ⟨h.next + 1, 0⟩ mW _ _ hv0 hw0
        (by dsimp only; omega)]
      simp only [Outcome.bind_ok]
      rw [if_neg]
      · rw [e4]
        simp only [Outcome.bind_ok]
        rw [if_pos, f1]
        · simp only [Outcome.bind_ok]
          rw [if_pos, f2]
          · rfl
          · intro hc
            have : w.blk = h.next + 1 := by rw [hc]
            omega
        · intro hc
          have : v.blk = h.next := by rw [hc]
          omega
      · rw [hx, hok]; simp
    · exact hx
    · dsimp only
      rw [if_neg (by omega), if_neg (by omega)]
      exact bw4
    · exact wr4
    · intro b hb
      dsimp only
      by_cases hb1 : b = h.next + 1
      · rw [if_pos hb1, hb1, hwf _ (by omega)]
      · rw [if_neg hb1]
        by_cases hb2 : b = h.next
        · rw [if_pos hb2, hb2, hwf _ (by omega)]
        · rw [if_neg hb2, o4 b hb, o3 b hb1, a2 b hb1, o1 b hb2]

theorem precond_spec (env : Env V) (sc op : Prec) {m n : ℕ}
    (f : (Fin m → Fin n → V) → (Fin m → Fin n → V) × Int)
    (s : St V) (v : Ptr) (ldV : ℕ) (w : Ptr) (ldW : ℕ) (bv bw : Block V)
    (hn : 0 < n)
    (hv : Holds s.heap v sc m n ldV bv) (hw : Holds s.heap w sc m n ldW bw) (hvw : v.blk ≠ w.blk)
    (hwf : ∀ b, s.heap.next ≤ b → s.heap.blocks b = none)
    (hsc : env.avail sc = true) (hop : env.avail op = true)
    (hok : (f fun i j => convIf env sc op (bv.data (v.off + j * ldV + i))).2 = 0) :
    ∃ s' seen bw', applyPreconditioner env sc op true f s v ldV w ldW = .ok (s', some seen) ∧
      seen.x = (fun (i : Fin m) (j : Fin n) => convIf env sc op (bv.data (v.off + j * ldV + i))) ∧
      (sc = op → seen.inp = v ∧ seen.ldIn = ldV ∧ seen.out = w ∧ seen.ldOut = ldW) ∧
      s'.heap.blocks w.blk = some bw' ∧
      Wrote bw bw' w.off m n ldW (fun i j => convIf env op sc (total env (f seen.x).1 i j)) ∧
      (∀ b, b ≠ w.blk → s'.heap.blocks b = s.heap.blocks b) := by
  have hvn : v.blk < s.heap.next := by
    by_contra hc
    have := hwf v.blk (by omega)
    rw [hv.1] at this; exact absurd this (by simp)
  have hwn : w.blk < s.heap.next := by
    by_contra hc
    have := hwf w.blk (by omega)
    rw [hw.1] at this; exact absurd this (by simp)
  generalize hh : s.heap = h at *
  by_cases ht : sc = op
  · subst ht
    have hid : (fun (i : Fin m) (j : Fin n) => convIf env sc sc (bv.data (v.off + j * ldV + i))) =
        fun (i : Fin m) (j : Fin n) => bv.data (v.off + j * ldV + i) := by
      funext i j; unfold convIf; rw [if_pos rfl]
    rw [hid] at hok
    refine ⟨⟨store h w m n ldW (total env (f fun i j => bv.data (v.off + j * ldV + i)).1),
      { s.stats with numPreconds := s.stats.numPreconds + n }, s.trace ++ [.precond n]⟩,
      ⟨v, w, ldV, ldW, fun i j => bv.data (v.off + j * ldV + i)⟩, _, ?_, hid.symm,
      fun _ => ⟨rfl, rfl, rfl, rfl⟩, store_same _ _ _ _ _ _ _ hw.1, ?_, ?_⟩
    · unfold applyPreconditioner
      rw [if_neg (by omega), if_pos rfl, hh, castNew_same _ _ _ _ _ _ _ _ hsc]
      simp only [Outcome.bind_ok]
      rw [castNew_same _ _ _ _ _ _ _ _ hsc]
      simp only [Outcome.bind_ok]
      rw [callUser_ok env f sc h v ldV w ldW bv bw hv hw hvw]
      simp only [Outcome.bind_ok]
      rw [if_neg (by simp [hok])]
      unfold castDestroy
      simp [hsc]
    · refine wrote_patch _ _ _ _ _ _ _ hw.2.2.1 ?_
      intro i _ j _
      unfold convIf
      rw [if_pos rfl]
    · intro b hb
      exact store_other _ _ _ _ _ _ hb
  · obtain ⟨h1, d, e1, n1, b1, d1, o1⟩ := castNew_copy env h v m n ldV sc op hop ht bv hv (by omega)
    have hx : (fun (i : Fin m) (j : Fin n) => d (0 + j * m + i)) =
        fun (i : Fin m) (j : Fin n) => convIf env sc op (bv.data (v.off + j * ldV + i)) := by
      funext i j
      unfold convIf
      rw [if_neg ht, ← d1 i i.2 j j.2]
      congr 1
      omega
    let h2 := (alloc env h1 op (m * n)).1
    have a2 : ∀ b, b ≠ h.next + 1 → h2.blocks b = h1.blocks b := by
      intro b hb
      exact alloc_other _ _ _ _ (by rw [n1]; exact hb)
    have w2 : h2.blocks (h.next + 1) = some ⟨op, m * n, fun _ => env.garbage⟩ := by
      have := alloc_new env h1 op (m * n)
      rw [n1] at this
      exact this
    have hv0 : Holds h2 ⟨h.next, 0⟩ op m n m ⟨op, m * n, d⟩ :=
      ⟨by rw [a2 _ (by dsimp only; omega)]; exact b1, rfl, Nat.le_refl _, fits_new m n⟩
    have hw0 : Holds h2 ⟨h.next + 1, 0⟩ op m n m ⟨op, m * n, fun _ => env.garbage⟩ :=
      ⟨w2, rfl, Nat.le_refl _, fits_new m n⟩
    let out := (f fun i j => d (0 + j * m + i)).1
    let h3 := store h2 ⟨h.next + 1, 0⟩ m n m (total env out)
    have b3 : h3.blocks (h.next + 1) =
        some ⟨op, m * n, patch (fun _ => env.garbage) 0 m n m (total env out)⟩ :=
      store_same h2 ⟨h.next + 1, 0⟩ m n m _ _ w2
    have o3 : ∀ b, b ≠ h.next + 1 → h3.blocks b = h2.blocks b := by
      intro b hb
      exact store_other _ _ _ _ _ _ (by exact hb)
    -- the converted input is released first
    have f1 : free h3 ⟨h.next, 0⟩ =
        .ok { h3 with blocks := fun b => if b = h.next then none else h3.blocks b } := by
      refine free_ok _ _ ⟨op, m * n, d⟩ ?_ rfl
      rw [o3 _ (by dsimp only; omega), a2 _ (by dsimp only; omega)]
      exact b1
    let h4 : Heap V := { h3 with blocks := fun b => if b = h.next then none else h3.blocks b }
    have b4 : h4.blocks (h.next + 1) =
        some ⟨op, m * n, patch (fun _ => env.garbage) 0 m n m (total env out)⟩ := by
      show (if h.next + 1 = h.next then none else h3.blocks (h.next + 1)) = _
      rw [if_neg (by omega)]; exact b3
    have hw0' : Holds h4 ⟨h.next + 1, 0⟩ op m n m
        ⟨op, m * n, patch (fun _ => env.garbage) 0 m n m (total env out)⟩ :=
      ⟨b4, rfl, Nat.le_refl _, fits_new m n⟩
    have hw4 : Holds h4 w sc m n ldW bw := by
      refine ⟨?_, hw.2⟩
      show (if w.blk = h.next then none else h3.blocks w.blk) = _
      rw [if_neg (by omega), o3 _ (by omega), a2 _ (by omega), o1 _ (by omega)]
      exact hw.1
    have hback : ∃ h5 bw', copyT env h4 ⟨h.next + 1, 0⟩ op m n m w sc ldW = .ok h5 ∧
        h5.blocks w.blk = some bw' ∧
        Wrote bw bw' w.off m n ldW (fun i j => convIf env op sc (total env out i j)) ∧
        (∀ b, b ≠ w.blk → h5.blocks b = h4.blocks b) := by
      by_cases h0 : m = 0 ∨ n = 0
      · refine ⟨h4, bw, ?_, hw4.1, ⟨rfl, rfl, fun i hi j hj => by omega, fun _ _ => rfl⟩, fun _ _ => rfl⟩
        unfold copyT
        simp [h0, Ne.symm ht]
      · refine ⟨_, _, ?_, store_same h4 w m n ldW
            (fun i j => env.conv op sc (entry env h4 ⟨h.next + 1, 0⟩ m i j)) _ hw4.1, ?_, ?_⟩
        · unfold copyT
          rw [if_neg (Ne.symm ht), if_neg h0, if_neg, if_pos]
          · exact ⟨by dsimp only; omega, valid_of_holds hw0', valid_of_holds hw4⟩
          · intro hc
            have : w.blk = h.next + 1 := by rw [← hc]
            omega
        · refine wrote_patch _ _ _ _ _ _ _ hw.2.2.1 ?_
          intro i hi j hj
          unfold convIf
          rw [if_neg (Ne.symm ht), entry_eq env b4]
          dsimp only
          rw [patch_in _ _ _ _ _ _ hi hj (Nat.le_refl _)]
        · intro b hb
          exact store_other _ _ _ _ _ _ hb
    obtain ⟨h5, bw', e5, bw5, wr5, o5⟩ := hback
    have f2 : free h5 ⟨h.next + 1, 0⟩ =
        .ok { h5 with blocks := fun b => if b = h.next + 1 then none else h5.blocks b } := by
      refine free_ok _ _ ⟨op, m * n, patch (fun _ => env.garbage) 0 m n m (total env out)⟩ ?_ rfl
      dsimp only
      rw [o5 _ (by omega)]
      exact b4
    refine ⟨⟨{ h5 with blocks := fun b => if b = h.next + 1 then none else h5.blocks b },
      { s.stats with numPreconds := s.stats.numPreconds + n }, s.trace ++ [.precond n]⟩,
      ⟨⟨h.next, 0⟩, ⟨h.next + 1, 0⟩, m, m, fun i j => d (0 + j * m + i)⟩, bw', ?_, hx,
      fun hc => absurd hc ht, ?_, wr5, ?_⟩
    · unfold applyPreconditioner
      rw [if_neg (by omega), if_pos rfl, hh, e1]
      simp only [Outcome.bind_ok]
      rw [castNew_alloc env h1 w m n ldW sc op hop ht, n1]
      simp only [Outcome.bind_ok]
      rw [callUser_ok env f op h2 ⟨h.next, 0⟩ m ⟨h.next + 1, 0⟩ m _ _ hv0 hw0
        (by dsimp only; omega)]
      simp only [Outcome.bind_ok]
      rw [if_neg]
      · rw [if_pos, f1]
        · simp only [Outcome.bind_ok]
          have : castDestroy env h4 ⟨h.next + 1, 0⟩ m n m op w ldW sc =
              .ok { h5 with blocks := fun b => if b = h.next + 1 then none else h5.blocks b } := by
            unfold castDestroy
            rw [if_neg (by simp [hsc]), if_neg (Ne.symm ht), e5]
            dsimp only
            rw [if_neg, f2]
            intro hc
            have : w.blk = h.next + 1 := by rw [← hc]
            omega
          rw [this]
          rfl
        · intro hc
          have : v.blk = h.next := by rw [hc]
          omega
      · rw [hx, hok]; simp
    · dsimp only
      rw [if_neg (by omega)]
      exact bw5
    · intro b hb
      dsimp only
      by_cases hb1 : b = h.next + 1
      · rw [if_pos hb1, hb1, hwf _ (by omega)]
      · rw [if_neg hb1, o5 b hb]
        show (if b = h.next then none else h3.blocks b) = _
        by_cases hb2 : b = h.next
        · rw [if_pos hb2, hb2, hwf _ (by omega)]
        · rw [if_neg hb2, o3 b hb1, a2 b hb1, o1 b hb2]

end Verif.Ops
