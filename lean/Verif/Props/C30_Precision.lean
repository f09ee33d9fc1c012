import Verif.Proofs.Operators

/-!
# C30: precision conversion around callbacks
-/

set_option linter.unusedSectionVars false

namespace Verif.Props
open Verif Verif.Ops

variable {V : Type}

/-- The matrix product.  `V(:, basisSize : basisSize+n)` and `W(:, basisSize : basisSize+n)` are `m x n` blocks
of two arrays in working precision `sc`; the operator is declared in precision `op`.  When the user's function
reports no error: it is given the entries of `V` converted to `op`; the entries of its result, converted back,
are exactly what is written to `W`; no other array and no other entry of `W` is changed and no temporary is
left; and with `op = sc` it works directly on `V` and `W` (no copy). -/
theorem C30_matrix_product (env : Env V) (sc op : Prec) {m n : ℕ}
    (f : (Fin m → Fin n → V) → (Fin m → Fin n → V) × Int) (s : St V)
    (v : Ptr) (ldV : ℕ) (w : Ptr) (ldW basisSize : ℕ) (bv bw : Block V) (hn : 0 < n)
    (hv : Holds s.heap (columnsAt v ldV basisSize) sc m n ldV bv)
    (hw : Holds s.heap (columnsAt w ldW basisSize) sc m n ldW bw) (hvw : v.blk ≠ w.blk)
    (hwf : ∀ b, s.heap.next ≤ b → s.heap.blocks b = none)
    (hsc : env.avail sc = true) (hop : env.avail op = true)
    (hok : (f fun i j => convIf env sc op
      (bv.data ((columnsAt v ldV basisSize).off + j * ldV + i))).2 = 0) :
    ∃ s' seen bw', matrixMatvec env sc op f s v ldV w ldW basisSize = .ok (s', some seen) ∧
      (∀ i j, seen.x i j = convIf env sc op (bv.data (v.off + ldV * basisSize + j * ldV + i))) ∧
      (sc = op → seen.inp = columnsAt v ldV basisSize ∧ seen.ldIn = ldV ∧
        seen.out = columnsAt w ldW basisSize ∧ seen.ldOut = ldW) ∧
      s'.heap.blocks w.blk = some bw' ∧
      Wrote bw bw' (w.off + ldW * basisSize) m n ldW
        (fun i j => convIf env op sc (total env (f seen.x).1 i j)) ∧
      (∀ b, b ≠ w.blk → s'.heap.blocks b = s.heap.blocks b) := by
  obtain ⟨h', seen, bw', e, h1, h2, h3, h4, h5⟩ := product_spec env sc op f s.heap
    (columnsAt v ldV basisSize) ldV (columnsAt w ldW basisSize) ldW bv bw hv hw hvw hwf hsc hop hok
  refine ⟨⟨h', { s.stats with numMatvecs := s.stats.numMatvecs + n }, s.trace ++ [.matrix n]⟩,
    seen, bw', ?_, ?_, h2, h3, h4, h5⟩
  · unfold matrixMatvec
    rw [if_neg (by omega), if_neg (by have := hv.2.2.1; have := hw.2.2.1; omega), e]
    rfl
  · intro i j
    rw [h1]
    rfl

/-- The preconditioner: the same contract. -/
theorem C30_preconditioner (env : Env V) (sc op : Prec) {m n : ℕ}
    (f : (Fin m → Fin n → V) → (Fin m → Fin n → V) × Int)
    (s : St V) (v : Ptr) (ldV : ℕ) (w : Ptr) (ldW : ℕ) (bv bw : Block V)
    (hn : 0 < n)
    (hv : Holds s.heap v sc m n ldV bv) (hw : Holds s.heap w sc m n ldW bw) (hvw : v.blk ≠ w.blk)
    (hwf : ∀ b, s.heap.next ≤ b → s.heap.blocks b = none)
    (hsc : env.avail sc = true) (hop : env.avail op = true)
    (hok : (f fun i j => convIf env sc op (bv.data (v.off + j * ldV + i))).2 = 0) :
    ∃ s' seen bw', applyPreconditioner env sc op true f s v ldV w ldW = .ok (s', some seen) ∧
      (∀ i j, seen.x i j = convIf env sc op (bv.data (v.off + j * ldV + i))) ∧
      (sc = op → seen.inp = v ∧ seen.ldIn = ldV ∧ seen.out = w ∧ seen.ldOut = ldW) ∧
      s'.heap.blocks w.blk = some bw' ∧
      Wrote bw bw' w.off m n ldW (fun i j => convIf env op sc (total env (f seen.x).1 i j)) ∧
      (∀ b, b ≠ w.blk → s'.heap.blocks b = s.heap.blocks b) := by
  obtain ⟨s', seen, bw', e, h1, h2⟩ := precond_spec env sc op f s v ldV w ldW bv bw hn hv hw hvw hwf
    hsc hop hok
  refine ⟨s', seen, bw', e, ?_, h2⟩
  intro i j
  rw [h1]

/-- The mass matrix product, when both products are declared with the same type (the missing part: different
types, refuted below). -/
theorem C30_mass_product_partial (env : Env V) (sc op : Prec) {m n : ℕ}
    (f : (Fin m → Fin n → V) → (Fin m → Fin n → V) × Int) (s : St V)
    (v : Ptr) (ldV : ℕ) (w : Ptr) (ldW basisSize : ℕ) (bv bw : Block V) (hn : 0 < n)
    (hv : Holds s.heap (columnsAt v ldV basisSize) sc m n ldV bv)
    (hw : Holds s.heap (columnsAt w ldW basisSize) sc m n ldW bw) (hvw : v.blk ≠ w.blk)
    (hwf : ∀ b, s.heap.next ≤ b → s.heap.blocks b = none)
    (hsc : env.avail sc = true) (hop : env.avail op = true)
    (hok : (f fun i j => convIf env sc op
      (bv.data ((columnsAt v ldV basisSize).off + j * ldV + i))).2 = 0) :
    ∃ s' seen bw', massMatrixMatvec env sc op op f s v ldV w ldW basisSize = .ok (s', some seen) ∧
      (∀ i j, seen.x i j = convIf env sc op (bv.data (v.off + ldV * basisSize + j * ldV + i))) ∧
      (sc = op → seen.inp = columnsAt v ldV basisSize ∧ seen.ldIn = ldV ∧
        seen.out = columnsAt w ldW basisSize ∧ seen.ldOut = ldW) ∧
      s'.heap.blocks w.blk = some bw' ∧
      Wrote bw bw' (w.off + ldW * basisSize) m n ldW
        (fun i j => convIf env op sc (total env (f seen.x).1 i j)) ∧
      (∀ b, b ≠ w.blk → s'.heap.blocks b = s.heap.blocks b) := by
  obtain ⟨h', seen, bw', e, h1, h2, h3, h4, h5⟩ := product_spec env sc op f s.heap
    (columnsAt v ldV basisSize) ldV (columnsAt w ldW basisSize) ldW bv bw hv hw hvw hwf hsc hop hok
  refine ⟨⟨h', { s.stats with numMatvecs := s.stats.numMatvecs + n }, s.trace ++ [.mass n]⟩,
    seen, bw', ?_, ?_, h2, h3, h4, h5⟩
  · unfold massMatrixMatvec
    rw [if_neg (by omega), if_neg (by have := hv.2.2.1; have := hw.2.2.1; omega), e]
    rfl
  · intro i j
    rw [h1]
    rfl

/-- A double precision solver whose mass matrix product is declared in double precision and whose matrix
product in another type fails in every call of the mass matrix product, with "function unavailable", although
the user's function reported success and the same solver with both types double succeeds. -/
theorem C30_mass_product_fails_violated (env : Env V) (sc op : Prec) (hne : op ≠ sc) {m n : ℕ}
    (f : (Fin m → Fin n → V) → (Fin m → Fin n → V) × Int) (s : St V)
    (v : Ptr) (ldV : ℕ) (w : Ptr) (ldW basisSize : ℕ) (bv bw : Block V) (hm : 0 < m) (hn : 0 < n)
    (hv : Holds s.heap (columnsAt v ldV basisSize) sc m n ldV bv)
    (hw : Holds s.heap (columnsAt w ldW basisSize) sc m n ldW bw) (hvw : v.blk ≠ w.blk)
    (hsc : env.avail sc = true)
    (hok : (f fun i j => bv.data ((columnsAt v ldV basisSize).off + j * ldV + i)).2 = 0) :
    massMatrixMatvec env sc op sc f s v ldV w ldW basisSize = .err PRIMME_FUNCTION_UNAVAILABLE := by
  unfold massMatrixMatvec
  rw [if_neg (by omega), if_neg (by have := hv.2.2.1; have := hw.2.2.1; omega)]
  unfold product
  rw [castNew_same _ _ _ _ _ _ _ _ hsc]
  simp only [Outcome.bind_ok]
  rw [castNew_same _ _ _ _ _ _ _ _ hsc]
  simp only [Outcome.bind_ok]
  rw [callUser_ok env f sc s.heap _ ldV _ ldW bv bw hv hw hvw]
  simp only [Outcome.bind_ok]
  rw [if_neg (by rw [hok]; simp)]
  have : ∀ h : Heap V, castInto env h (columnsAt w ldW basisSize) m n ldW op
      (columnsAt w ldW basisSize) ldW sc = .err PRIMME_FUNCTION_UNAVAILABLE := by
    intro h
    unfold castInto copyT
    simp [hsc, hne, show ¬ (m = 0 ∨ n = 0) by omega]
  rw [this]
  rfl

/-- A heap for the cases: `V` (block 0) and `W` (block 1) are 3 x 4 arrays of doubles. -/
def C30_heap : Heap ℤ :=
  { blocks := fun b => if b = 0 then some ⟨.double, 12, fun k => 10 * k⟩
      else if b = 1 then some ⟨.double, 12, fun _ => 0⟩ else none
    next := 2 }

def C30_env : Env ℤ := ⟨fun t => t ≠ .half, fun _ t x => if t = .float then x / 4 * 4 else x, -1⟩

def C30_state : St ℤ := ⟨C30_heap, zeroCounters, []⟩

/-- The opposite combination, a float mass matrix product with a double matrix product: the float result is
read as doubles. -/
theorem C30_mass_product_misread_violated :
    (match massMatrixMatvec (m := 2) (n := 2) C30_env .double .double .float (fun x => (x, 0)) C30_state
      ⟨0, 0⟩ 3 ⟨1, 0⟩ 3 1 with | .ub => true | _ => false) = true := by decide

/-- A case of the product theorems: rows 0,1 of columns 1,2; double to float conversion rounds to multiples of
four. -/
example : ∃ s' seen bw', matrixMatvec (m := 2) (n := 2) C30_env .double .float (fun x => (x, 0)) C30_state
      ⟨0, 0⟩ 3 ⟨1, 0⟩ 3 1 = .ok (s', some seen) ∧
      (∀ i j, seen.x i j = convIf C30_env .double .float (10 * (3 + j * 3 + i))) ∧
      s'.heap.blocks 1 = some bw' := by
  obtain ⟨s', seen, bw', h1, h2, -, h3, -⟩ := C30_matrix_product (m := 2) (n := 2) C30_env .double .float
    (fun x => (x, 0)) C30_state ⟨0, 0⟩ 3 ⟨1, 0⟩ 3 1 ⟨.double, 12, fun k => 10 * k⟩
    ⟨.double, 12, fun _ => 0⟩ (by decide) ⟨rfl, rfl, by decide, by decide⟩
    ⟨rfl, rfl, by decide, by decide⟩ (by decide)
    (by
      intro b hb
      have hb' : 2 ≤ b := hb
      show (if b = 0 then _ else if b = 1 then _ else none) = none
      rw [if_neg (by omega), if_neg (by omega)])
    rfl rfl rfl
  refine ⟨s', seen, bw', h1, fun i j => ?_, h3⟩
  rw [h2]
  revert i j
  decide

/-- The convergence test with its type equal to the working type: the user's function sees the vector itself
and nothing is copied (the missing part: another type, refuted below). -/
theorem C30_convergence_test_partial (env : Env V) (sc : Prec) {m : ℕ} (h : Heap V) (evec : Ptr)
    (b : Block V) (hv : Holds h evec sc m 1 m b) (hsc : env.avail sc = true) :
    convTest env sc sc (m := m) h evec true =
      .ok (h, some (evec, fun i j => b.data (evec.off + j * m + i))) := by
  unfold convTest
  rw [if_pos rfl, castNew_same _ _ _ _ _ _ _ _ hsc]
  simp only [Outcome.bind_ok]
  rw [if_pos (valid_of_holds hv), if_neg (by simp)]
  simp only [Outcome.bind_ok]
  congr 4
  funext i j
  exact entry_eq env hv.1 _ _ _

/-- A convergence test declared in another type is nevertheless given the vector in working precision: reading
it in the declared type is undefined, for every vector of at least one entry. -/
theorem C30_convergence_test_violated (env : Env V) (sc op : Prec) (hne : sc ≠ op) {m : ℕ} (hm : 0 < m)
    (h : Heap V) (evec : Ptr) (b : Block V) (hv : Holds h evec sc m 1 m b)
    (hfresh : evec.blk ≠ h.next) (hop : env.avail op = true) :
    convTest env sc op (m := m) h evec true = .ub := by
  obtain ⟨h', d, e, -, -, -, o⟩ := castNew_copy env h evec m 1 m sc op hop hne b hv hfresh
  unfold convTest
  rw [if_pos rfl, e]
  simp only [Outcome.bind_ok]
  rw [if_neg]
  unfold valid
  rw [if_neg (by omega), o _ hfresh, hv.1]
  simp [hv.2.1, hne]

example : convTest (m := 3) C30_env .double .float C30_heap ⟨0, 3⟩ true = .ub :=
  C30_convergence_test_violated _ _ _ (by decide) (by decide) _ _ ⟨.double, 12, fun k => 10 * k⟩
    ⟨rfl, rfl, by decide, by decide⟩ (by decide) rfl

/-- The embedded eigensolver calls the reductions of a singular value problem with their declared type if that
is the working type or was also set on the embedded structure. -/
theorem C30_embedded_reduction_type_partial (sc declared : Prec) (embedded : Option Prec)
    (h : embedded = some declared ∨ embedded = none ∧ declared = sc) :
    embeddedReduceType sc embedded = declared := by
  unfold embeddedReduceType
  rcases h with h | ⟨h1, h2⟩
  · rw [h]; rfl
  · rw [h1, h2]; rfl

/-- Otherwise the user's `globalSumReal`, declared with `globalSumReal_type` in the singular value structure, is
called with numbers of another type. -/
theorem C30_embedded_reduction_type_violated (sc declared : Prec) (h : declared ≠ sc) :
    embeddedReduceType sc none ≠ declared := by
  unfold embeddedReduceType
  exact fun hc => h hc.symm

end Verif.Props
