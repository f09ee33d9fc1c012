/-
# C32 — Broadcast delivers the root's data
-/
import Verif.Model.Broadcast
import Verif.Spec.Broadcast
import Mathlib.Algebra.BigOperators.Fin
import Mathlib.Data.Fin.VecNotation
import Mathlib.Data.Nat.Log
import Mathlib.Tactic.Ring

namespace Verif.Props

open Verif Verif.Bcast Verif.Spec

set_option linter.unusedSimpArgs false
set_option linter.unusedSectionVars false

variable {p : ℕ} {B T U : Type}

/-- `through` applied to a function which gives every process `v` at `k`. -/
theorem through_at (c : Conv B T) (f : Collective p T) (count : ℕ) (bufs : Fin (p + 1) → ℕ → B)
    (i : Fin (p + 1)) (k : ℕ) (hk : k < count) :
    through c f count bufs i k = c.ofT (f count (fun i k => c.toT (bufs i k)) i k) := by
  simp [through, hk]

/-- With several processes, after a broadcast every process — the root too — holds the root's data converted
to the type of the communication function in use and back, whether `broadcastReal` is given or emulated. -/
theorem C32_broadcast_value [AddCommMonoid U] (zero : B) (cb : Conv B T) (cs : Conv B U)
    (hz : cs.toT zero = 0) (bcast : Option (Collective p T)) (sum : Collective p U)
    (hb : ∀ f, bcast = some f → IsBroadcast f) (hs : bcast = none → IsGlobalSum sum)
    (hp : 0 < p) (count : ℕ) (bufs : Fin (p + 1) → ℕ → B) (i : Fin (p + 1)) (k : ℕ) (hk : k < count) :
    broadcastAll zero cb cs bcast sum count bufs i k
      = if bcast.isSome then cb.ofT (cb.toT (bufs 0 k)) else cs.ofT (cs.toT (bufs 0 k)) := by
  have hp1 : ¬ (p + 1 = 1) := by omega
  unfold broadcastAll
  rw [if_neg hp1]
  cases bcast with
  | some f =>
    simp only [Option.isSome_some, if_true]
    rw [through_at _ _ _ _ _ _ hk, hb f rfl _ _ _ _ hk]
  | none =>
    simp only [Option.isSome_none]
    unfold globalSumAll
    rw [if_neg hp1, through_at _ _ _ _ _ _ hk, hs rfl _ _ _ _ hk]
    rw [Finset.sum_eq_single (0 : Fin (p + 1))]
    · simp
    · intro q _ hq
      simp [hq, hk, hz]
    · intro h; exact absurd (Finset.mem_univ _) h

/-- **C32.** After a broadcast every process holds process 0's data: for every number of processes (also
one), every data, with `broadcastReal` or emulated with `globalSumReal`, when the type of the communication
function represents the root's data (in particular when no conversion is made). -/
theorem C32_delivers_root [AddCommMonoid U] (zero : B) (cb : Conv B T) (cs : Conv B U)
    (hz : cs.toT zero = 0) (bcast : Option (Collective p T)) (sum : Collective p U)
    (hb : ∀ f, bcast = some f → IsBroadcast f) (hs : bcast = none → IsGlobalSum sum)
    (count : ℕ) (bufs : Fin (p + 1) → ℕ → B)
    (hrb : bcast.isSome → ∀ k < count, cb.ofT (cb.toT (bufs 0 k)) = bufs 0 k)
    (hrs : bcast.isSome = false → ∀ k < count, cs.ofT (cs.toT (bufs 0 k)) = bufs 0 k)
    (i : Fin (p + 1)) (k : ℕ) (hk : k < count) :
    broadcastAll zero cb cs bcast sum count bufs i k = bufs 0 k := by
  rcases Nat.eq_zero_or_pos p with hp | hp
  · subst hp
    have : i = 0 := Fin.ext (by omega)
    subst this
    simp [broadcastAll]
  · rw [C32_broadcast_value zero cb cs hz bcast sum hb hs hp count bufs i k hk]
    cases h : bcast.isSome with
    | true => rw [if_pos rfl]; exact hrb h k hk
    | false => simp only [Bool.false_eq_true, if_false]; exact hrs h k hk

/-- Nothing beyond the broadcast elements is touched. -/
theorem C32_frame (zero : B) (cb : Conv B T) (cs : Conv B U) (bcast : Option (Collective p T))
    (sum : Collective p U) (count : ℕ) (bufs : Fin (p + 1) → ℕ → B) (i : Fin (p + 1)) (k : ℕ)
    (hk : count ≤ k) : broadcastAll zero cb cs bcast sum count bufs i k = bufs i k := by
  have : ¬ k < count := by omega
  unfold broadcastAll globalSumAll
  cases bcast <;> split_ifs <;> simp [through, this]

/-- Whatever the conversions lose, all the processes end with the same data. -/
theorem C32_processes_agree [AddCommMonoid U] (zero : B) (cb : Conv B T) (cs : Conv B U)
    (hz : cs.toT zero = 0) (bcast : Option (Collective p T)) (sum : Collective p U)
    (hb : ∀ f, bcast = some f → IsBroadcast f) (hs : bcast = none → IsGlobalSum sum)
    (count : ℕ) (bufs : Fin (p + 1) → ℕ → B) (i j : Fin (p + 1)) (k : ℕ) (hk : k < count) :
    broadcastAll zero cb cs bcast sum count bufs i k = broadcastAll zero cb cs bcast sum count bufs j k := by
  rcases Nat.eq_zero_or_pos p with hp | hp
  · subst hp
    have : i = j := Fin.ext (by omega)
    rw [this]
  · rw [C32_broadcast_value zero cb cs hz bcast sum hb hs hp count bufs i k hk,
      C32_broadcast_value zero cb cs hz bcast sum hb hs hp count bufs j k hk]

/-- The contracts are satisfiable: three processes, an ordinary sum and no `broadcastReal`. -/
example : broadcastAll (p := 2) (T := ℤ) (0 : ℤ) ⟨id, id⟩ ⟨id, id⟩ none
    (fun _ b _ k => ∑ q, b q k) 2 (fun i k => 10 * (i : ℕ) + k + 5) 2 1 = 6 := by
  refine (C32_delivers_root (U := ℤ) 0 ⟨id, id⟩ ⟨id, id⟩ rfl none _ (by simp) (fun _ _ _ _ _ _ => rfl) 2 _
    (by simp) (fun _ _ _ => rfl) 2 1 (by decide)).trans ?_
  decide

/-! ## Integers sent through a floating point type -/

/-- An integer with at most `prec` bits survives the conversion. -/
theorem C32_small_integers_exact (prec n : ℕ) (h : n < 2 ^ prec) : roundInt prec n = n := by
  simp [roundInt, h]

/-- **C32, refuted for lossy types.** `broadcast_iprimme` sends indices with the type of the user's function.
With a half precision function the index 2049, with a float function 16777217, arrive as another index — also
on the process which sent them. -/
theorem C32_lossy_type_violated :
    (∀ i : Fin 2, broadcastAll (p := 1) (U := ℕ) (0 : ℕ) ⟨roundInt 11, id⟩ ⟨id, id⟩
      (some (fun _ b _ k => b 0 k)) (fun _ b _ k => ∑ q, b q k) 1 (fun _ _ => 2049) i 0 = 2048)
    ∧ (∀ i : Fin 2, broadcastAll (p := 1) (T := ℕ) (U := ℕ) (0 : ℕ) ⟨id, id⟩ ⟨roundInt 24, id⟩
      none (fun _ b _ k => ∑ q, b q k) 1 (fun _ _ => 16777217) i 0 = 16777216) := by
  decide +kernel

/-- **C32, refuted: a successful `broadcastReal` may be reported as failed.** The manual lets the function
leave the error flag alone on success for the other callbacks, whose flags start at zero; here the flag starts
with whatever the stack holds, and any non-zero value ends the run with `PRIMME_USER_FAILURE`. -/
theorem C32_uninitialised_code_violated (initial : Int) (h : initial ≠ 0) :
    broadcastCode initial none = -41 := by
  simp [broadcastCode, h]

/-- A function which always stores its code is handled correctly. -/
theorem C32_stored_code (initial code : Int) : broadcastCode initial (some code) = 0 ↔ code = 0 := by
  by_cases h : code = 0 <;> simp [broadcastCode, h]

/-! ## The solution of the projected problem is the same everywhere -/

section Projected

variable {R : Type}

theorem room_mul (c n : ℕ) (hc : 0 < c) : n ≤ c * room c n ∧ c * room c n < n + c := by
  unfold room
  have h1 := Nat.div_add_mod (n + c - 1) c
  have h2 := Nat.mod_lt (n + c - 1) hc
  constructor <;> omega

theorem getM_ext (c n off : ℕ) (b b' : ℕ → R) (o : ℕ → ℕ → ℕ → R)
    (h : ∀ k, c * off ≤ k → k < c * (off + n * n) → b k = b' k) :
    getM c n off b o = getM c n off b' o := by
  funext i j t
  unfold getM
  split_ifs with hc
  · obtain ⟨hi, hj, ht⟩ := hc
    apply h
    · have : c * off ≤ c * (off + i + j * n) := Nat.mul_le_mul (Nat.le_refl _) (by omega)
      omega
    · have h1 : i + j * n + 1 ≤ n * n := by
        have : (j + 1) * n ≤ n * n := Nat.mul_le_mul_right n hj
        have h2 : (j + 1) * n = j * n + n := by ring
        omega
      have h2 : c * (off + i + j * n + 1) ≤ c * (off + n * n) := Nat.mul_le_mul (Nat.le_refl _) (by omega)
      have h3 : c * (off + i + j * n + 1) = c * (off + i + j * n) + c := by ring
      omega
  · rfl

theorem getM_putM (c n off : ℕ) (A o : ℕ → ℕ → ℕ → R) (buf : ℕ → R) (i j t : ℕ)
    (hi : i < n) (hj : j < n) (ht : t < c) : getM c n off (putM c n off A buf) o i j t = A i j t := by
  unfold getM
  rw [if_pos ⟨hi, hj, ht⟩]
  have h1 : i + j * n + 1 ≤ n * n := by
    have : (j + 1) * n ≤ n * n := Nat.mul_le_mul_right n hj
    have h2 : (j + 1) * n = j * n + n := by ring
    omega
  have e : c * (off + i + j * n) + t = c * off + (c * (i + j * n) + t) := by ring
  have hlt : c * (i + j * n) + t < c * (n * n) := by
    have h2 : c * (i + j * n + 1) ≤ c * (n * n) := Nat.mul_le_mul (Nat.le_refl _) h1
    have h3 : c * (i + j * n + 1) = c * (i + j * n) + c := by ring
    omega
  unfold putM
  have e3 : c * (off + n * n) = c * off + c * (n * n) := by ring
  rw [e, if_pos ⟨by omega, by omega⟩]
  have e2 : c * off + (c * (i + j * n) + t) - c * off = t + c * (i + j * n) := by omega
  rw [e2]
  have hc : 0 < c := by omega
  have d : (t + c * (i + j * n)) / c = i + n * j := by
    rw [Nat.add_mul_div_left _ _ hc, Nat.div_eq_of_lt ht]; ring
  have m : (t + c * (i + j * n)) % c = t := by
    rw [Nat.add_mul_mod_self_left, Nat.mod_eq_of_lt ht]
  rw [d, m, Nat.add_mul_mod_self_left, Nat.mod_eq_of_lt hi, Nat.add_mul_div_left _ _ (by omega),
    Nat.div_eq_of_lt hi, Nat.zero_add]

theorem putM_out (c n off : ℕ) (A : ℕ → ℕ → ℕ → R) (buf : ℕ → R) (k : ℕ)
    (h : k < c * off ∨ c * (off + n * n) ≤ k) : putM c n off A buf k = buf k := by
  unfold putM; rw [if_neg (by omega)]

theorem putV_out (c m off : ℕ) (v : ℕ → R) (buf : ℕ → R) (k : ℕ)
    (h : k < c * off ∨ c * off + m ≤ k) : putV c m off v buf k = buf k := by
  unfold putV; rw [if_neg (by omega)]

theorem putZero_out (z : R) (c i : ℕ) (buf : ℕ → R) (k : ℕ)
    (h : k < c * i ∨ c * i + c ≤ k) : putZero z c i buf k = buf k := by
  unfold putZero; rw [if_neg (by omega)]

theorem getV_putV (c m off : ℕ) (v o : ℕ → R) (buf : ℕ → R) (i : ℕ) (hi : i < m) :
    getV c m off (putV c m off v buf) o i = v i := by
  unfold getV putV
  rw [if_pos hi, if_pos ⟨by omega, by omega⟩]
  congr 1; omega

/-- What `solve_H_brcast` is for: the parts present are equal, in their first `n` rows, columns and values. -/
def SameProj (c n : ℕ) (fV fU fL fS : Bool) (P Q : Proj R) : Prop :=
  (fV → ∀ i < n, ∀ j < n, ∀ t < c, P.hVecs i j t = Q.hVecs i j t)
  ∧ (fU → ∀ i < n, ∀ j < n, ∀ t < c, P.hU i j t = Q.hU i j t)
  ∧ (fL → ∀ i < n, P.hVals i = Q.hVals i)
  ∧ (fS → ∀ i < n, P.hSVals i = Q.hSVals i)

/-- Entries of a matrix part lie in its room. -/
theorem entry_bounds (c n off i j t : ℕ) (hi : i < n) (hj : j < n) (ht : t < c) :
    c * off ≤ c * (off + i + j * n) + t ∧ c * (off + i + j * n) + t < c * (off + n * n) := by
  have h1 : i + j * n + 1 ≤ n * n := by
    have : (j + 1) * n ≤ n * n := Nat.mul_le_mul_right n hj
    have h2 : (j + 1) * n = j * n + n := by ring
    omega
  have h2 : c * (off + i + j * n + 1) ≤ c * (off + n * n) := Nat.mul_le_mul (Nat.le_refl _) (by omega)
  have h3 : c * (off + i + j * n + 1) = c * (off + i + j * n) + c := by ring
  have : c * off ≤ c * (off + i + j * n) := Nat.mul_le_mul (Nat.le_refl _) (by omega)
  omega

theorem stepM_below (c n off : ℕ) (f : Bool) (A : ℕ → ℕ → ℕ → R) (b : ℕ → R) (k : ℕ) (h : k < c * off) :
    (if f then putM c n off A b else b) k = b k := by
  cases f
  · rfl
  · exact putM_out _ _ _ _ _ _ (Or.inl h)

theorem stepV_below (zero : R) (c n off : ℕ) (hr : 0 < room c n) (f : Bool) (v : ℕ → R) (b : ℕ → R) (k : ℕ)
    (h : k < c * off) :
    (if f then putV c n off v (putZero zero c (off + room c n - 1) b) else b) k = b k := by
  cases f
  · rfl
  · have : c * off ≤ c * (off + room c n - 1) := Nat.mul_le_mul (Nat.le_refl _) (by omega)
    refine (putV_out _ _ _ _ _ _ (Or.inl h)).trans (putZero_out _ _ _ _ _ (Or.inl (by omega)))

/-- Unpacking what was packed gives the same parts back, whatever the buffer and the old parts were; only the
packed part of the buffer matters. -/
theorem unpack_pack (zero : R) (c n : ℕ) (hc : 0 < c) (hn : 0 < n) (fV fU fL fS : Bool) (P old : Proj R)
    (buf buf' : ℕ → R)
    (hbuf : ∀ k < c * (layout c n fV fU fL fS).total, buf' k = pack zero c n fV fU fL fS P buf k) :
    SameProj c n fV fU fL fS (unpack c n fV fU fL fS buf' old) P := by
  obtain ⟨hr1, hr2⟩ := room_mul c n hc
  have hr0 : 0 < room c n := by
    rcases Nat.eq_zero_or_pos (room c n) with h | h
    · rw [h] at hr1; omega
    · exact h
  have mono : ∀ {x y : ℕ}, x ≤ y → c * x ≤ c * y := fun h => Nat.mul_le_mul (Nat.le_refl _) h
  refine ⟨?_, ?_, ?_, ?_⟩
  · rintro rfl i hi j hj t ht
    have hb := (entry_bounds c n 0 i j t hi hj ht).2
    have hg := getM_putM c n 0 P.hVecs old.hVecs buf i j t hi hj ht
    simp only [unpack, if_true]
    unfold getM at hg ⊢
    rw [if_pos ⟨hi, hj, ht⟩] at hg ⊢
    rw [← hg]
    have l1 := Nat.lt_of_lt_of_le hb (mono (x := 0 + n * n) (y := (layout c n true fU fL fS).oU)
      (by simp [layout]))
    have l2 := Nat.lt_of_lt_of_le hb (mono (x := 0 + n * n) (y := (layout c n true fU fL fS).oVals)
      (by simp [layout]))
    have l3 := Nat.lt_of_lt_of_le hb (mono (x := 0 + n * n) (y := (layout c n true fU fL fS).oSVals)
      (by simp only [layout, if_true]; omega))
    have l4 := Nat.lt_of_lt_of_le hb (mono (x := 0 + n * n) (y := (layout c n true fU fL fS).total)
      (by simp only [layout, if_true]; omega))
    rw [hbuf _ l4]
    unfold pack
    try dsimp only
    rw [stepV_below _ _ _ _ hr0 _ _ _ _ l3, stepV_below _ _ _ _ hr0 _ _ _ _ l2,
      stepM_below _ _ _ _ _ _ _ l1]
    simp
  · rintro rfl i hi j hj t ht
    have hb := (entry_bounds c n (layout c n fV true fL fS).oU i j t hi hj ht).2
    have hg := getM_putM c n (layout c n fV true fL fS).oU P.hU old.hU
      (if fV then putM c n 0 P.hVecs buf else buf) i j t hi hj ht
    simp only [unpack, if_true]
    unfold getM at hg ⊢
    rw [if_pos ⟨hi, hj, ht⟩] at hg ⊢
    rw [← hg]
    have l2 := Nat.lt_of_lt_of_le hb (mono (y := (layout c n fV true fL fS).oVals) (by simp [layout]))
    have l3 := Nat.lt_of_lt_of_le hb (mono (y := (layout c n fV true fL fS).oSVals)
      (by simp only [layout, if_true]; omega))
    have l4 := Nat.lt_of_lt_of_le hb (mono (y := (layout c n fV true fL fS).total)
      (by simp only [layout, if_true]; omega))
    rw [hbuf _ l4]
    unfold pack
    try dsimp only
    rw [stepV_below _ _ _ _ hr0 _ _ _ _ l3, stepV_below _ _ _ _ hr0 _ _ _ _ l2]
    simp
  · rintro rfl i hi
    have hb : c * (layout c n fV fU true fS).oVals + i < c * ((layout c n fV fU true fS).oVals + room c n) := by
      rw [Nat.mul_add]; omega
    have l3 := Nat.lt_of_lt_of_le hb (mono (y := (layout c n fV fU true fS).oSVals) (by simp [layout]))
    have l4 := Nat.lt_of_lt_of_le hb (mono (y := (layout c n fV fU true fS).total)
      (by simp only [layout, if_true]; omega))
    simp only [unpack, if_true, getV, if_pos hi]
    rw [hbuf _ l4]
    unfold pack
    try dsimp only
    rw [stepV_below _ _ _ _ hr0 _ _ _ _ l3, if_pos rfl]
    exact (by simpa [getV, hi] using getV_putV c n _ P.hVals old.hVals _ i hi)
  · rintro rfl i hi
    have hb : c * (layout c n fV fU fL true).oSVals + i < c * ((layout c n fV fU fL true).oSVals + room c n) := by
      rw [Nat.mul_add]; omega
    have l4 := Nat.lt_of_lt_of_le hb (mono (y := (layout c n fV fU fL true).total) (by simp [layout]))
    simp only [unpack, if_true, getV, if_pos hi]
    rw [hbuf _ l4]
    unfold pack
    try dsimp only
    rw [if_pos rfl]
    exact (by simpa [getV, hi] using getV_putV c n _ P.hSVals old.hSVals _ i hi)

/-- **C32.** After the exchange of the solution of the projected problem every process holds, in its first `n`
rows, columns and values, what process 0 held: for every number of processes, basis size, real or complex
arithmetic, any choice of parts, both kinds of broadcast and any previous contents, when the communication
type represents the root's numbers. -/
theorem C32_projected_solution [AddCommMonoid U] (zero : R) (c n : ℕ) (hc : 0 < c)
    (fV fU fL fS : Bool) (cb : Conv R T) (cs : Conv R U) (hz : cs.toT zero = 0)
    (bcast : Option (Collective p T)) (sum : Collective p U)
    (hb : ∀ f, bcast = some f → IsBroadcast f) (hs : bcast = none → IsGlobalSum sum)
    (hrb : bcast.isSome → ∀ x, cb.ofT (cb.toT x) = x)
    (hrs : bcast.isSome = false → ∀ x, cs.ofT (cs.toT x) = x)
    (fresh : Fin (p + 1) → ℕ → R) (ps : Fin (p + 1) → Proj R) (i : Fin (p + 1)) :
    SameProj c n fV fU fL fS (solveHBrcast zero c n fV fU fL fS cb cs bcast sum fresh ps i) (ps 0) := by
  unfold solveHBrcast
  by_cases hn : n = 0
  · subst hn; exact ⟨by simp, by simp, by simp, by simp⟩
  rw [if_neg hn]
  apply unpack_pack zero c n hc (by omega) fV fU fL fS (ps 0) (ps i) (fresh 0)
  intro k hk
  try dsimp only
  rw [C32_delivers_root zero cb cs hz bcast sum hb hs _ _ (fun h k _ => hrb h _) (fun h k _ => hrs h _) i k hk,
    if_pos rfl]

/-- Entries outside the first `n` rows and columns, and absent parts, keep their values on every process. -/
theorem C32_projected_frame (zero : R) (c n : ℕ) (fV fU fL fS : Bool) (cb : Conv R T) (cs : Conv R U)
    (bcast : Option (Collective p T)) (sum : Collective p U) (fresh : Fin (p + 1) → ℕ → R)
    (ps : Fin (p + 1) → Proj R) (i : Fin (p + 1)) (a b t : ℕ) :
    let Q := solveHBrcast zero c n fV fU fL fS cb cs bcast sum fresh ps i
    (fV = false ∨ n ≤ a ∨ n ≤ b → Q.hVecs a b t = (ps i).hVecs a b t)
    ∧ (fU = false ∨ n ≤ a ∨ n ≤ b → Q.hU a b t = (ps i).hU a b t)
    ∧ (fL = false ∨ n ≤ a → Q.hVals a = (ps i).hVals a)
    ∧ (fS = false ∨ n ≤ a → Q.hSVals a = (ps i).hSVals a) := by
  try dsimp only
  unfold solveHBrcast
  by_cases hn : n = 0
  · simp [hn]
  rw [if_neg hn]
  refine ⟨?_, ?_, ?_, ?_⟩
  · rintro (rfl | h | h)
    · simp [unpack]
    all_goals cases fV <;> simp only [unpack, if_true, getM] <;> (try rfl) <;> rw [if_neg (by omega)]
  · rintro (rfl | h | h)
    · simp [unpack]
    all_goals cases fU <;> simp only [unpack, if_true, getM] <;> (try rfl) <;> rw [if_neg (by omega)]
  · rintro (rfl | h)
    · simp [unpack]
    · cases fL <;> simp only [unpack, if_true, getV] <;> (try rfl) <;> rw [if_neg (by omega)]
  · rintro (rfl | h)
    · simp [unpack]
    · cases fS <;> simp only [unpack, if_true, getV] <;> (try rfl) <;> rw [if_neg (by omega)]

/-- Every number of the buffer that is sent was written by the root before: complex arithmetic and an odd
number of values do not send an uninitialised imaginary part.  `none` stands for an uninitialised number. -/
theorem C32_nothing_uninitialised (zero : R) (c n : ℕ) (hc : 0 < c) (hn : 0 < n) (fV fU fL fS : Bool)
    (P : Proj R) (k : ℕ) (hk : k < c * (layout c n fV fU fL fS).total) :
    (pack (some zero) c n fV fU fL fS
      ⟨fun i j t => some (P.hVecs i j t), fun i j t => some (P.hU i j t), fun i => some (P.hVals i),
        fun i => some (P.hSVals i)⟩ (fun _ => none) k).isSome := by
  obtain ⟨hr1, hr2⟩ := room_mul c n hc
  have hr0 : 0 < room c n := by
    rcases Nat.eq_zero_or_pos (room c n) with h | h
    · rw [h] at hr1; omega
    · exact h
  -- a vector part initialises its whole room
  have hV : ∀ (f : Bool) (off : ℕ) (v : ℕ → R) (b : ℕ → Option R),
      (∀ k < c * off, (b k).isSome) → ∀ k < c * (off + if f then room c n else 0),
      ((if f then putV c n off (fun i => some (v i)) (putZero (some zero) c (off + room c n - 1) b) else b)
        k).isSome := by
    intro f off v b hb k hk
    cases f
    · exact hb k (by simpa using hk)
    · simp only [if_true] at hk ⊢
      unfold putV
      split_ifs with h1
      · rfl
      · unfold putZero
        split_ifs with h2
        · rfl
        · have e1 : c * (off + room c n - 1) + c = c * (off + room c n) := by
            have : off + room c n = (off + room c n - 1) + 1 := by omega
            calc c * (off + room c n - 1) + c = c * ((off + room c n - 1) + 1) := by ring
              _ = c * (off + room c n) := by rw [← this]
          have e2 : c * (off + room c n) = c * off + c * room c n := by ring
          exact hb k (by omega)
  have hM : ∀ (f : Bool) (off : ℕ) (A : ℕ → ℕ → ℕ → R) (b : ℕ → Option R),
      (∀ k < c * off, (b k).isSome) → ∀ k < c * (off + if f then n * n else 0),
      ((if f then putM c n off (fun i j t => some (A i j t)) b else b) k).isSome := by
    intro f off A b hb k hk
    cases f
    · exact hb k (by simpa using hk)
    · simp only [if_true] at hk ⊢
      unfold putM
      split_ifs with h1
      · rfl
      · exact hb k (by omega)
  unfold pack
  try dsimp only
  refine hV fS _ P.hSVals _ (fun k hk => ?_) k hk
  refine hV fL _ P.hVals _ (fun k hk => ?_) k hk
  refine hM fU _ P.hU _ (fun k hk => ?_) k hk
  refine hM fV 0 P.hVecs _ (fun k hk => by simp at hk) k ?_
  simpa [layout] using hk

/-- Three vectors in complex arithmetic on two processes: the room of the values is two scalars. -/
example : (layout 2 3 true false true true).total = 9 + 2 + 2 ∧
    ((solveHBrcast (p := 1) (T := ℤ) (U := ℤ) (0 : ℤ) 2 3 true false true true ⟨id, id⟩ ⟨id, id⟩ none
      (fun _ b _ k => ∑ q, b q k) (fun _ _ => 77)
      (fun i => ⟨fun a b t => 100 * (i : ℕ) + 10 * a + 5 * b + t, fun _ _ _ => 0, fun a => 50 * (i : ℕ) + a,
        fun a => 7 * (i : ℕ) + a⟩)) 1).hVals 2 = 2 := by decide +kernel

end Projected

end Verif.Props
