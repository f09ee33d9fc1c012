import Verif.Proofs.Pack

/-!
# C31: the packed exchange of the projected matrix
-/

namespace Verif.Props
open Verif.Mat

variable {α : Type*}

/-- Packing: the entries of the upper triangle of an `n`-column block (column `i` holds the rows
`0..i+i0`) are stored one column after the other, column `i` from position `i(i+1)/2 + i*i0` on; the length
reported is `n(n+1)/2 + n*i0`; nothing is written beyond it. -/
theorem C31_pack (m n ldx i0 : ℕ) (x y : ℕ → α) (h : n ≤ m) :
    (packTri m n ldx i0 x y).1 = 0 ∧
    (packTri m n ldx i0 x y).2.1 = n * (n + 1) / 2 + n * i0 ∧
    (∀ i < n, ∀ j ≤ i + i0,
      (packTri m n ldx i0 x y).2.2 (i * (i + 1) / 2 + i * i0 + j) = x (i * ldx + j)) ∧
    (∀ a, n * (n + 1) / 2 + n * i0 ≤ a → (packTri m n ldx i0 x y).2.2 a = y a) := by
  have e : packTri m n ldx i0 x y = (0, (packLoop x ldx i0 n 0 (triOff i0 0) y).1,
      (packLoop x ldx i0 n 0 (triOff i0 0) y).2) := by
    unfold packTri
    rw [if_neg (by omega), triOff_zero]
  obtain ⟨h1, h2, h3⟩ := packLoop_spec x ldx i0 n 0 y
  rw [Nat.zero_add] at h1 h2 h3
  rw [e]
  exact ⟨rfl, h1, fun i hi j hj => h2 i (by omega) hi j hj, fun a ha => h3 a (Or.inr ha)⟩

/-- Unpacking is the inverse: the packed values go back to the upper triangle, and no other entry of the
matrix (lower triangle, padding rows, other columns) is written. -/
theorem C31_unpack (m n i0 ldy : ℕ) (x y : ℕ → α) (h : n ≤ m) (hld : n + i0 ≤ ldy) :
    (unpackTri m n i0 ldy x y).1 = 0 ∧
    (∀ i < n, ∀ j ≤ i + i0,
      (unpackTri m n i0 ldy x y).2 (i * ldy + j) = x (i * (i + 1) / 2 + i * i0 + j)) ∧
    (∀ a, (∀ i < n, ∀ j ≤ i + i0, a ≠ i * ldy + j) → (unpackTri m n i0 ldy x y).2 a = y a) := by
  have e : unpackTri m n i0 ldy x y = (0, unpackLoop x ldy i0 n (triOff i0 n) y) := by
    unfold unpackTri
    rw [if_neg (by omega), triOff_total]
  obtain ⟨h1, h2⟩ := unpackLoop_spec x ldy i0 n y hld
  rw [e]
  exact ⟨rfl, h1, h2⟩

/-- Packing and unpacking into the same matrix changes nothing. -/
theorem C31_round_trip (m n i0 ld : ℕ) (x y : ℕ → α) (h : n ≤ m) (hld : n + i0 ≤ ld) :
    (unpackTri m n i0 ld (packTri m n ld i0 x y).2.2 x).2 = x := by
  obtain ⟨-, -, p3, -⟩ := C31_pack m n ld i0 x y h
  obtain ⟨-, u2, u3⟩ := C31_unpack m n i0 ld (packTri m n ld i0 x y).2.2 x h hld
  funext a
  by_cases ha : ∀ i < n, ∀ j ≤ i + i0, a ≠ i * ld + j
  · exact u3 a ha
  · push Not at ha
    obtain ⟨i, hi, j, hj, rfl⟩ := ha
    rw [u2 i hi j hj, p3 i hi j hj]

variable [CommRing α]

/-- The entry `(i,j)` of `X'Y` for the whole distributed bases: the sum over all processes and all their
rows. -/
def C31_entry (conj : α → α) (ps : List (Proc α)) (i j : ℕ) : α :=
  (ps.map fun p => ∑ r ∈ Finset.range p.rows, conj (p.X r i) * p.Y r j).sum

/-- Every process holds the upper triangle of the leading `k x k` part of `X'Y`. -/
def C31_HoldsUpper (conj : α → α) (ldZ k : ℕ) (ps : List (Proc α)) : Prop :=
  ∀ p ∈ ps, ∀ j < k, ∀ i ≤ j, p.Z (j * ldZ + i) = C31_entry conj ps i j

/-- Every process holds the leading `k x k` part of `X'Y`. -/
def C31_HoldsFull (conj : α → α) (ldZ k : ℕ) (ps : List (Proc α)) : Prop :=
  ∀ p ∈ ps, ∀ j < k, ∀ i < k, p.Z (j * ldZ + i) = C31_entry conj ps i j

theorem C31_entry_map (conj : α → α) (ps : List (Proc α)) (f : Proc α → Proc α)
    (hf : ∀ p ∈ ps, (f p).rows = p.rows ∧ (f p).X = p.X ∧ (f p).Y = p.Y) (i j : ℕ) :
    C31_entry conj (ps.map f) i j = C31_entry conj ps i j := by
  unfold C31_entry
  rw [List.map_map]
  congr 1
  refine List.map_congr_left ?_
  intro p hp
  obtain ⟨h1, h2, h3⟩ := hf p hp
  simp only [Function.comp, h1, h2, h3]

theorem C31_gemm (conj : α → α) (p : Proc α) (m n xc yc off ldZ : ℕ) (hm : m ≤ ldZ) :
    (∀ j < n, ∀ i < m, (gemmCN conj p m n xc yc off ldZ).Z (off + j * ldZ + i) =
      localDot conj p (xc + i) (yc + j)) ∧
    (∀ a, (∀ j < n, ∀ i < m, a ≠ off + j * ldZ + i) →
      (gemmCN conj p m n xc yc off ldZ).Z a = p.Z a) := by
  have key : ∀ j i, i < m → (j * ldZ + i) / ldZ = j ∧ (j * ldZ + i) % ldZ = i := by
    intro j i hi
    have hi' : i < ldZ := by omega
    constructor
    · rw [Nat.add_comm, Nat.add_mul_div_right _ _ (by omega), Nat.div_eq_of_lt hi', Nat.zero_add]
    · rw [Nat.add_comm, Nat.add_mul_mod_self_right, Nat.mod_eq_of_lt hi']
  refine ⟨?_, ?_⟩
  · intro j hj i hi
    obtain ⟨k1, k2⟩ := key j i hi
    have e : off + j * ldZ + i - off = j * ldZ + i := by omega
    unfold gemmCN
    dsimp only
    rw [e, k1, k2, if_pos ⟨by omega, hj, hi⟩]
  · intro a ha
    unfold gemmCN
    dsimp only
    rw [if_neg]
    rintro ⟨h1, h2, h3⟩
    refine ha _ h2 _ h3 ?_
    have := Nat.div_add_mod (a - off) ldZ
    rw [Nat.mul_comm] at this
    omega

theorem C31_sum (bs : List (ℕ → α)) (a : ℕ) : sumBufs bs a = (bs.map (fun b => b a)).sum := rfl

theorem C31_exchange_upper (numCols blockSize ldZ : ℕ) (hld : numCols + blockSize ≤ ldZ)
    (ps : List (Proc α)) :
    ∀ q ∈ projectExchange numCols blockSize ldZ true ps, ∃ p ∈ ps,
      q.rows = p.rows ∧ q.X = p.X ∧ q.Y = p.Y ∧
      (∀ j, numCols ≤ j → j < numCols + blockSize → ∀ i ≤ j,
        q.Z (j * ldZ + i) = (ps.map fun p => p.Z (j * ldZ + i)).sum) ∧
      (∀ a, (∀ j, numCols ≤ j → j < numCols + blockSize → ∀ i ≤ j, a ≠ j * ldZ + i) →
        q.Z a = p.Z a) := by
  intro q hq
  unfold projectExchange at hq
  simp only [if_true] at hq
  obtain ⟨p, hp, rfl⟩ := List.mem_map.1 hq
  refine ⟨p, hp, rfl, rfl, rfl, ?_, ?_⟩
  · intro j h1 h2 i hi
    obtain ⟨-, u2, -⟩ := C31_unpack (numCols + blockSize) blockSize numCols ldZ
      (sumBufs (ps.map fun p => (packTri (numCols + blockSize) blockSize ldZ numCols
        (fun a => p.Z (ldZ * numCols + a)) (fun _ => 0)).2.2))
      (fun a => p.Z (ldZ * numCols + a)) (by omega) (by omega)
    have ej : j = numCols + (j - numCols) := by omega
    have ea : j * ldZ + i = ldZ * numCols + ((j - numCols) * ldZ + i) := by
      conv_lhs => rw [ej, Nat.add_mul]
      rw [Nat.mul_comm numCols ldZ]
      omega
    have eb : j * ldZ + i - ldZ * numCols = (j - numCols) * ldZ + i := by omega
    dsimp only
    rw [if_pos (by omega), eb, u2 (j - numCols) (by omega) i (by omega), C31_sum, List.map_map]
    congr 1
    refine List.map_congr_left ?_
    intro p' _
    obtain ⟨-, -, p3, -⟩ := C31_pack (numCols + blockSize) blockSize ldZ numCols
      (fun a => p'.Z (ldZ * numCols + a)) (fun _ => 0) (by omega)
    simp only [Function.comp]
    rw [p3 (j - numCols) (by omega) i (by omega), ea]
  · intro a ha
    obtain ⟨-, -, u3⟩ := C31_unpack (numCols + blockSize) blockSize numCols ldZ
      (sumBufs (ps.map fun p => (packTri (numCols + blockSize) blockSize ldZ numCols
        (fun a => p.Z (ldZ * numCols + a)) (fun _ => 0)).2.2))
      (fun a => p.Z (ldZ * numCols + a)) (by omega) (by omega)
    dsimp only
    split_ifs with hc
    · rw [u3 _ (fun i hi j hj h => ?_)]
      · congr 1; omega
      · refine ha (numCols + i) (by omega) (by omega) j (by omega) ?_
        rw [Nat.add_mul, Nat.mul_comm numCols ldZ]
        omega
    · rfl

theorem C31_sum_single (ps : List (Proc α)) (h : ps.length ≤ 1) (p : Proc α) (hp : p ∈ ps)
    (f : Proc α → α) : (ps.map f).sum = f p := by
  match ps, h with
  | [q], _ =>
    rw [List.mem_singleton] at hp
    subst hp
    simp

/-- `update_projection` with a symmetric (Hermitian) projected matrix: if every process holds the upper
triangle of `X'Y` for the first `numCols` columns, then after the call every process holds it for
`numCols + blockSize` columns, for any number of processes and any distribution of the rows. -/
theorem C31_update_symmetric (conj : α → α) (numCols blockSize ldZ : ℕ)
    (hld : numCols + blockSize ≤ ldZ) (ps : List (Proc α))
    (h : C31_HoldsUpper conj ldZ numCols ps) :
    C31_HoldsUpper conj ldZ (numCols + blockSize)
      (updateProjection conj numCols blockSize ldZ true ps) := by
  unfold updateProjection
  by_cases hb : blockSize = 0
  · rw [if_pos hb, hb]; exact h
  rw [if_neg hb]
  have hloc : ∀ p : Proc α, projectLocal conj numCols blockSize ldZ true p =
      gemmCN conj p (numCols + blockSize) blockSize 0 numCols (ldZ * numCols) ldZ := fun p => rfl
  have hsame : ∀ p ∈ ps, (projectLocal conj numCols blockSize ldZ true p).rows = p.rows ∧
      (projectLocal conj numCols blockSize ldZ true p).X = p.X ∧
      (projectLocal conj numCols blockSize ldZ true p).Y = p.Y := fun p _ => ⟨rfl, rfl, rfl⟩
  have hnew : ∀ p : Proc α, ∀ j, numCols ≤ j → j < numCols + blockSize → ∀ i ≤ j,
      (projectLocal conj numCols blockSize ldZ true p).Z (j * ldZ + i) = localDot conj p i j := by
    intro p j h1 h2 i hi
    obtain ⟨g1, -⟩ := C31_gemm conj p (numCols + blockSize) blockSize 0 numCols (ldZ * numCols) ldZ hld
    have := g1 (j - numCols) (by omega) i (by omega)
    have ej : j = numCols + (j - numCols) := by omega
    have ea : j * ldZ + i = ldZ * numCols + (j - numCols) * ldZ + i := by
      conv_lhs => rw [ej, Nat.add_mul]
      rw [Nat.mul_comm numCols ldZ]
    rw [hloc, ea, this, Nat.zero_add, ← ej]
  have hold : ∀ p : Proc α, ∀ j < numCols, ∀ i ≤ j,
      (projectLocal conj numCols blockSize ldZ true p).Z (j * ldZ + i) = p.Z (j * ldZ + i) := by
    intro p j h1 i hi
    obtain ⟨-, g2⟩ := C31_gemm conj p (numCols + blockSize) blockSize 0 numCols (ldZ * numCols) ldZ hld
    rw [hloc, g2]
    intro j' _ i' _
    have : (j + 1) * ldZ ≤ numCols * ldZ := Nat.mul_le_mul_right _ h1
    rw [Nat.add_mul, Nat.mul_comm numCols] at this
    omega
  dsimp only
  rw [List.length_map]
  by_cases hl : ps.length > 1
  · rw [if_pos hl]
    intro q hq j hj i hi
    have hent : C31_entry conj (projectExchange numCols blockSize ldZ true
        (ps.map (projectLocal conj numCols blockSize ldZ true))) i j = C31_entry conj ps i j := by
      unfold projectExchange
      simp only [if_true]
      refine (C31_entry_map conj (ps.map _) _ ?_ i j).trans (C31_entry_map _ _ _ hsame i j)
      intro p _
      exact ⟨rfl, rfl, rfl⟩
    rw [hent]
    obtain ⟨p, hp, -, -, -, e1, e2⟩ := C31_exchange_upper numCols blockSize ldZ hld _ q hq
    obtain ⟨p0, hp0, rfl⟩ := List.mem_map.1 hp
    by_cases hj' : numCols ≤ j
    · rw [e1 j hj' hj i hi, List.map_map]
      unfold C31_entry
      congr 1
      refine List.map_congr_left ?_
      intro p1 _
      exact hnew p1 j hj' hj i hi
    · rw [e2 _ (fun j' h1 h2 i' _ => ?_), hold p0 j (by omega) i hi]
      · exact h p0 hp0 j (by omega) i hi
      · have : (j + 1) * ldZ ≤ j' * ldZ := Nat.mul_le_mul_right _ (by omega)
        rw [Nat.add_mul] at this
        omega
  · rw [if_neg hl]
    intro q hq j hj i hi
    rw [C31_entry_map _ _ _ hsame]
    obtain ⟨p0, hp0, rfl⟩ := List.mem_map.1 hq
    by_cases hj' : numCols ≤ j
    · rw [hnew p0 j hj' hj i hi]
      exact (C31_sum_single ps (by omega) p0 hp0 (fun p => localDot conj p i j)).symm
    · rw [hold p0 j (by omega) i hi]
      exact h p0 hp0 j (by omega) i hi

/-- Consequently a projected matrix built block by block from nothing is the upper triangle of `X'Y` on
every process, however the columns were split into blocks. -/
theorem C31_built_blockwise (conj : α → α) (ldZ : ℕ) (blocks : List ℕ) (ps : List (Proc α))
    (hld : blocks.sum ≤ ldZ) :
    C31_HoldsUpper conj ldZ blocks.sum
      (blocks.foldl (fun (st : ℕ × List (Proc α)) b =>
        (st.1 + b, updateProjection conj st.1 b ldZ true st.2)) (0, ps)).2 := by
  have gen : ∀ (bs : List ℕ) (k : ℕ) (qs : List (Proc α)), k + bs.sum ≤ ldZ →
      C31_HoldsUpper conj ldZ k qs →
      C31_HoldsUpper conj ldZ (k + bs.sum)
        (bs.foldl (fun (st : ℕ × List (Proc α)) b =>
          (st.1 + b, updateProjection conj st.1 b ldZ true st.2)) (k, qs)).2 := by
    intro bs
    induction bs with
    | nil => intro k qs _ h; simpa using h
    | cons b bs ih =>
      intro k qs hk h
      rw [List.sum_cons] at hk ⊢
      rw [List.foldl_cons, ← Nat.add_assoc]
      exact ih (k + b) _ (by omega) (C31_update_symmetric conj k b ldZ (by omega) qs h)
  have := gen blocks 0 ps (by omega) (fun p _ j hj => by omega)
  rwa [Nat.zero_add] at this

theorem C31_divmod {j i ld : ℕ} (h : i < ld) : (j * ld + i) / ld = j ∧ (j * ld + i) % ld = i := by
  constructor
  · rw [Nat.add_comm, Nat.add_mul_div_right _ _ (by omega), Nat.div_eq_of_lt h, Nat.zero_add]
  · rw [Nat.add_comm, Nat.add_mul_mod_self_right, Nat.mod_eq_of_lt h]

theorem C31_exchange_full (numCols blockSize ldZ : ℕ) (hld : numCols + blockSize ≤ ldZ)
    (ps : List (Proc α)) :
    ∀ q ∈ projectExchange numCols blockSize ldZ false ps, ∃ p ∈ ps,
      q.rows = p.rows ∧ q.X = p.X ∧ q.Y = p.Y ∧
      (∀ j < numCols + blockSize, ∀ i < numCols + blockSize,
        q.Z (j * ldZ + i) = if j < numCols ∧ i < numCols then p.Z (j * ldZ + i)
          else (ps.map fun p => p.Z (j * ldZ + i)).sum) := by
  intro q hq
  unfold projectExchange at hq
  simp only [Bool.false_eq_true, if_false] at hq
  obtain ⟨p, hp, rfl⟩ := List.mem_map.1 hq
  refine ⟨p, hp, rfl, rfl, rfl, ?_⟩
  intro j hj i hi
  dsimp only
  unfold scatterRect
  by_cases hjc : j < numCols
  · by_cases hic : i < numCols
    · rw [if_pos (show j < numCols ∧ i < numCols from ⟨hjc, hic⟩), if_neg, if_neg]
      · rintro ⟨h1, -⟩
        have : (j + 1) * ldZ ≤ numCols * ldZ := Nat.mul_le_mul_right _ hjc
        rw [Nat.add_mul, Nat.mul_comm numCols] at this
        omega
      · rintro ⟨h1, h2, h3⟩
        have hj1 : 1 ≤ j := by
          rcases Nat.eq_zero_or_pos j with h0 | h0
          · rw [h0, Nat.zero_mul] at h1; omega
          · exact h0
        have e : j * ldZ + i - numCols = (j - 1) * ldZ + (ldZ + i - numCols) := by
          have : j * ldZ = (j - 1) * ldZ + ldZ := by
            conv_lhs => rw [show j = j - 1 + 1 by omega, Nat.add_mul, Nat.one_mul]
          omega
        rw [e, (C31_divmod (by omega)).2] at h3
        omega
    · have e : j * ldZ + i - numCols = j * ldZ + (i - numCols) := by omega
      have hd := C31_divmod (j := j) (i := i - numCols) (ld := ldZ) (by omega)
      rw [if_neg (show ¬ (j < numCols ∧ i < numCols) by omega), e, hd.1, hd.2, if_pos ⟨by omega, hjc, by omega⟩, C31_sum, List.map_map]
      congr 1
      refine List.map_congr_left ?_
      intro p' _
      simp only [Function.comp]
      unfold gatherRect
      have hd2 := C31_divmod (j := j) (i := i - numCols) (ld := blockSize) (by omega)
      have e2 : (numCols + blockSize) * blockSize + j * blockSize + (i - numCols) -
          (numCols + blockSize) * blockSize = j * blockSize + (i - numCols) := by omega
      rw [if_neg (by omega), e2, hd2.1, hd2.2]
      congr 1
      omega
  · have ej : j = numCols + (j - numCols) := by omega
    have ea : j * ldZ = ldZ * numCols + (j - numCols) * ldZ := by
      conv_lhs => rw [ej, Nat.add_mul]
      rw [Nat.mul_comm numCols ldZ]
    have e : j * ldZ + i - ldZ * numCols = (j - numCols) * ldZ + i := by omega
    have hd := C31_divmod (j := j - numCols) (i := i) (ld := ldZ) (by omega)
    rw [if_neg (show ¬ (j < numCols ∧ i < numCols) by omega), if_neg]
    · rw [if_pos ⟨by omega, by rw [e, hd.1]; omega, by rw [e, hd.2]; omega⟩, e, hd.1, hd.2, C31_sum,
        List.map_map]
      congr 1
      refine List.map_congr_left ?_
      intro p' _
      simp only [Function.comp]
      unfold gatherRect
      have hd2 := C31_divmod (j := j - numCols) (i := i) (ld := numCols + blockSize) (by omega)
      have : (j - numCols + 1) * (numCols + blockSize) ≤ blockSize * (numCols + blockSize) :=
        Nat.mul_le_mul_right _ (by omega)
      rw [Nat.add_mul, Nat.mul_comm blockSize] at this
      rw [if_pos (by omega), hd2.1, hd2.2]
      congr 1
      omega
    · rintro ⟨h1, h2, h3⟩
      by_cases hic : numCols ≤ i
      · have e' : j * ldZ + i - numCols = j * ldZ + (i - numCols) := by omega
        rw [e', (C31_divmod (by omega)).1] at h2
        omega
      · have e' : j * ldZ + i - numCols = (j - 1) * ldZ + (ldZ + i - numCols) := by
          have : j * ldZ = (j - 1) * ldZ + ldZ := by
            conv_lhs => rw [show j = j - 1 + 1 by omega, Nat.add_mul, Nat.one_mul]
          omega
        rw [e', (C31_divmod (by omega)).2] at h3
        omega

/-- `update_projection` with a projected matrix that is not Hermitian (harmonic or refined `Q'V`): the new
columns and the new rows are completed on every process, and the old part is kept. -/
theorem C31_update_full (conj : α → α) (numCols blockSize ldZ : ℕ)
    (hld : numCols + blockSize ≤ ldZ) (ps : List (Proc α))
    (h : C31_HoldsFull conj ldZ numCols ps) :
    C31_HoldsFull conj ldZ (numCols + blockSize)
      (updateProjection conj numCols blockSize ldZ false ps) := by
  unfold updateProjection
  by_cases hb : blockSize = 0
  · rw [if_pos hb, hb]; exact h
  rw [if_neg hb]
  have hsame : ∀ p ∈ ps, (projectLocal conj numCols blockSize ldZ false p).rows = p.rows ∧
      (projectLocal conj numCols blockSize ldZ false p).X = p.X ∧
      (projectLocal conj numCols blockSize ldZ false p).Y = p.Y := fun p _ => ⟨rfl, rfl, rfl⟩
  have hloc : ∀ p : Proc α, ∀ j < numCols + blockSize, ∀ i < numCols + blockSize,
      (projectLocal conj numCols blockSize ldZ false p).Z (j * ldZ + i) =
        if j < numCols ∧ i < numCols then p.Z (j * ldZ + i) else localDot conj p i j := by
    intro p j hj i hi
    have hl : projectLocal conj numCols blockSize ldZ false p =
      gemmCN conj (gemmCN conj p (numCols + blockSize) blockSize 0 numCols (ldZ * numCols) ldZ)
        blockSize numCols numCols 0 numCols ldZ := rfl
    obtain ⟨a1, a2⟩ := C31_gemm conj p (numCols + blockSize) blockSize 0 numCols (ldZ * numCols) ldZ hld
    obtain ⟨b1, b2⟩ := C31_gemm conj
      (gemmCN conj p (numCols + blockSize) blockSize 0 numCols (ldZ * numCols) ldZ)
      blockSize numCols numCols 0 numCols ldZ (by omega)
    rw [hl]
    by_cases hjc : j < numCols
    · by_cases hic : i < numCols
      · rw [if_pos ⟨hjc, hic⟩, b2, a2]
        · intro j' _ i' _
          have : (j + 1) * ldZ ≤ numCols * ldZ := Nat.mul_le_mul_right _ hjc
          rw [Nat.add_mul, Nat.mul_comm numCols] at this
          omega
        · intro j' hj' i' hi' hc
          have e : numCols + j' * ldZ + i' = j' * ldZ + (numCols + i') := by omega
          rw [e] at hc
          have h1 := C31_divmod (j := j) (i := i) (ld := ldZ) (by omega)
          have h2 := C31_divmod (j := j') (i := numCols + i') (ld := ldZ) (by omega)
          rw [hc, h2.2] at h1
          omega
      · have e : j * ldZ + i = numCols + j * ldZ + (i - numCols) := by omega
        rw [if_neg (by omega), e, b1 j hjc (i - numCols) (by omega)]
        have e2 : numCols + (i - numCols) = i := by omega
        rw [e2, Nat.zero_add]
        rfl
    · have ej : j = numCols + (j - numCols) := by omega
      have ea : j * ldZ + i = ldZ * numCols + (j - numCols) * ldZ + i := by
        conv_lhs => rw [ej, Nat.add_mul]
        rw [Nat.mul_comm numCols ldZ]
      rw [if_neg (by omega), b2]
      · rw [ea, a1 (j - numCols) (by omega) i hi, Nat.zero_add, ← ej]
      · intro j' hj' i' hi' hc
        have e : numCols + j' * ldZ + i' = j' * ldZ + (numCols + i') := by omega
        rw [e] at hc
        have h1 := C31_divmod (j := j) (i := i) (ld := ldZ) (by omega)
        have h2 := C31_divmod (j := j') (i := numCols + i') (ld := ldZ) (by omega)
        rw [hc, h2.1] at h1
        omega
  dsimp only
  rw [List.length_map]
  by_cases hl : ps.length > 1
  · rw [if_pos hl]
    intro q hq j hj i hi
    have hent : C31_entry conj (projectExchange numCols blockSize ldZ false
        (ps.map (projectLocal conj numCols blockSize ldZ false))) i j = C31_entry conj ps i j := by
      unfold projectExchange
      simp only [Bool.false_eq_true, if_false]
      refine (C31_entry_map conj (ps.map _) _ ?_ i j).trans (C31_entry_map _ _ _ hsame i j)
      intro p _
      exact ⟨rfl, rfl, rfl⟩
    rw [hent]
    obtain ⟨p, hp, -, -, -, e1⟩ := C31_exchange_full numCols blockSize ldZ hld _ q hq
    obtain ⟨p0, hp0, rfl⟩ := List.mem_map.1 hp
    rw [e1 j hj i hi]
    by_cases hc : j < numCols ∧ i < numCols
    · rw [if_pos hc, hloc p0 j hj i hi, if_pos hc]
      exact h p0 hp0 j hc.1 i hc.2
    · rw [if_neg hc, List.map_map]
      unfold C31_entry
      congr 1
      refine List.map_congr_left ?_
      intro p1 _
      simp only [Function.comp]
      rw [hloc p1 j hj i hi, if_neg hc]
      rfl
  · rw [if_neg hl]
    intro q hq j hj i hi
    rw [C31_entry_map _ _ _ hsame]
    obtain ⟨p0, hp0, rfl⟩ := List.mem_map.1 hq
    rw [hloc p0 j hj i hi]
    by_cases hc : j < numCols ∧ i < numCols
    · rw [if_pos hc]
      exact h p0 hp0 j hc.1 i hc.2
    · rw [if_neg hc]
      exact (C31_sum_single ps (by omega) p0 hp0 (fun p => localDot conj p i j)).symm

/-- A case: two processes, two rows and one row, blocks of 1 and 2 columns, leading dimension 4. -/
example : C31_HoldsUpper (fun a => a) 4 3
    (([1, 2] : List ℕ).foldl (fun (st : ℕ × List (Proc ℤ)) b =>
        (st.1 + b, updateProjection (fun a => a) st.1 b 4 true st.2))
      (0, [⟨2, fun r c => r + c, fun r c => 2 * r - c, fun _ => 7⟩,
        ⟨1, fun _ c => c, fun _ c => 3 * c, fun _ => 8⟩])).2 :=
  C31_built_blockwise _ 4 [1, 2] _ (by decide)

/-- A case for the full version: the hypothesis holds trivially at the start, and the second call extends it. -/
example : C31_HoldsFull (fun a => a) 4 3
    (updateProjection (fun a => a) 1 2 4 false (updateProjection (fun a => a) 0 1 4 false
      [(⟨2, fun r c => r + c, fun r c => 2 * r - c, fun _ => 7⟩ : Proc ℤ),
        ⟨1, fun _ c => c, fun _ c => 3 * c, fun _ => 8⟩])) :=
  C31_update_full _ 1 2 4 (by decide) _
    (C31_update_full _ 0 1 4 (by decide) _ (fun p _ j hj => absurd hj (Nat.not_lt_zero j)))

end Verif.Props
