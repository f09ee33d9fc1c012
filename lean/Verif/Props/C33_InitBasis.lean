import Verif.Proofs.InitBasis
import Verif.Props.C08_CheckInput
import Mathlib.Algebra.Field.Rat
import Mathlib.Algebra.Order.Ring.Rat

/-!
# C33 — Initial basis construction

The initial search space consumes the user's initial guesses in order, its size never exceeds
`maxBasisSize` or the free dimension, and filling it with a block Krylov sequence computes the product of
each column exactly once.

The parameters are those of a structure accepted by the input check.  The block orthogonalisation is
any routine with the contract `OrtOk`, and random vectors are arbitrary.
-/

set_option linter.unusedSectionVars false
set_option linter.unusedVariables false

namespace Verif.Props
open Verif Verif.Init Verif.Eigs

variable {K : Type} [Field K] [LinearOrder K] [IsStrictOrderedRing K] {X : Type}

/-- Consequences of the input check on the sizes. -/
theorem C33_sizes (meps : K) (a : Arrays) (s : EP K) (hs : checkInput meps a s = 0) (hE : 0 < s.i .numEvals) :
    0 ≤ s.i .n ∧ 0 ≤ s.i .numOrthoConst ∧ s.i .numOrthoConst ≤ s.i .n ∧ 0 ≤ s.i .minRestartSize ∧ 0 < s.i .maxBlockSize ∧
    0 ≤ s.i .initSize ∧ (s.i .n ≤ s.i .maxBasisSize ∨
      s.i .minRestartSize + s.i .restartingParams_maxPrevRetain < s.i .maxBasisSize) ∧
    0 ≤ s.i .restartingParams_maxPrevRetain := by
  rw [C08_accepts_iff] at hs
  simp only [Doc.checks, List.forall_mem_cons] at hs
  omega

/-- The number of guesses taken at once, in terms of the public parameters. -/
def C33_taken (s : EP K) : Int :=
  min (s.i .n - s.i .numOrthoConst)
    (min (if s.i .locking = 0 then s.i .maxBasisSize else s.i .minRestartSize) (s.i .initSize))

theorem C33_used (meps : K) (a : Arrays) (s : EP K) (hs : checkInput meps a s = 0) (hE : 0 < s.i .numEvals) :
    (used (ofParams s) : Int) = C33_taken s := by
  obtain ⟨h1, h2, h3, h4, h5, h6, h7, h8⟩ := C33_sizes meps a s hs hE
  unfold used C33_taken
  by_cases hl : s.i .locking = 0
  · simp only [ofParams, hl]
    simp
    omega
  · simp only [ofParams, hl]
    simp
    omega

/-- The sizes for which the arrays are large enough: those of any accepted input, except that in mode "user" a block
may be larger than the largest basis. -/
def C33_fits (s : EP K) : Prop :=
  s.i .initBasisMode = 3 → s.i .maxBlockSize ≤ s.i .maxBasisSize ∨ s.i .n ≤ s.i .maxBasisSize

theorem C33_room (meps : K) (a : Arrays) (s : EP K) (hs : checkInput meps a s = 0) (hE : 0 < s.i .numEvals)
    (hu : C33_fits s) : used (ofParams s) + randoms (ofParams s) ≤ (ofParams s).maxBasisSize ∧
      used (ofParams s) + randoms (ofParams s) ≤ (s.i .n).toNat - (s.i .numOrthoConst).toNat := by
  obtain ⟨h1, h2, h3, h4, h5, h6, h7, h8⟩ := C33_sizes meps a s hs hE
  have hused := C33_used meps a s hs hE
  unfold C33_taken at hused
  have hr : randoms (ofParams s) = min ((s.i .n).toNat - (s.i .numOrthoConst).toNat - used (ofParams s))
      (if s.i .initBasisMode = 3 then (s.i .maxBlockSize).toNat - used (ofParams s) else
        if s.i .initBasisMode = 2 then (s.i .minRestartSize).toNat - used (ofParams s) else 0) := by
    unfold randoms
    simp only [ofParams]
    by_cases ha : s.i .initBasisMode = 3
    · simp [ha]
    · by_cases hb : s.i .initBasisMode = 2
      · simp [hb]
      · simp [ha, hb]
  rw [hr]
  have hM : (ofParams s).maxBasisSize = (s.i .maxBasisSize).toNat := rfl
  rw [hM]
  unfold C33_fits at hu
  generalize used (ofParams s) = u at *
  constructor
  · split_ifs at hused ⊢ <;> omega
  · clear hu h7
    split_ifs at hused ⊢ <;> omega

theorem C33_built (meps : K) (a : Arrays) (s : EP K) (hs : checkInput meps a s = 0) (hE : 0 < s.i .numEvals)
    (o : Kernels X) (Orthonormal : Cols X → ℕ → Prop) (ho : OrtOk o Orthonormal) (guess : ℕ → X) (hu : C33_fits s) :
    Holds (initBasis (ofParams s) o guess) (Built (ofParams s) o Orthonormal guess) := by
  obtain ⟨h1, h2, h3, h4, h5, h6, h7, h8⟩ := C33_sizes meps a s hs hE
  exact initBasis_holds (P := ofParams s) ho guess (by simp only [ofParams]; omega) (C33_room meps a s hs hE hu).1
    (by simp only [ofParams]; omega)

/-- Memory safety: everything read was written before and lies inside the arrays, unless the mode is
"user" and a block is larger than the largest basis (see `C33_safe_violated`). -/
theorem C33_safe_partial (meps : K) (a : Arrays) (s : EP K) (hs : checkInput meps a s = 0) (hE : 0 < s.i .numEvals)
    (o : Kernels X) (Orthonormal : Cols X → ℕ → Prop) (ho : OrtOk o Orthonormal) (guess : ℕ → X) (hu : C33_fits s) :
    initBasis (ofParams s) o guess ≠ .ub := by
  intro h
  have := C33_built meps a s hs hE o Orthonormal ho guess hu
  rw [h] at this
  exact this

theorem C33_built_of_ok (meps : K) (a : Arrays) (s : EP K) (hs : checkInput meps a s = 0) (hE : 0 < s.i .numEvals)
    (o : Kernels X) (Orthonormal : Cols X → ℕ → Prop) (ho : OrtOk o Orthonormal) (guess : ℕ → X) (hu : C33_fits s)
    (r : Res X) (hr : initBasis (ofParams s) o guess = .ok r) : Built (ofParams s) o Orthonormal guess r := by
  have := C33_built meps a s hs hE o Orthonormal ho guess hu
  rw [hr] at this
  exact this

/-- The guesses are taken in the order given, from the first on; what is announced as left for later, the
position of the next one and the number of them, are exactly the rest. -/
theorem C33_guesses_in_order (meps : K) (a : Arrays) (s : EP K) (hs : checkInput meps a s = 0) (hE : 0 < s.i .numEvals)
    (o : Kernels X) (Orthonormal : Cols X → ℕ → Prop) (ho : OrtOk o Orthonormal) (guess : ℕ → X) (hu : C33_fits s)
    (r : Res X) (hr : initBasis (ofParams s) o guess = .ok r) :
    (∀ j : ℕ, (j : Int) < C33_taken s → r.raw j = some (guess j)) ∧
    (r.nextGuess : Int) = s.i .numOrthoConst + C33_taken s ∧
    (r.numGuesses : Int) = s.i .initSize - C33_taken s := by
  have hb := C33_built_of_ok meps a s hs hE o Orthonormal ho guess hu r hr
  have hused := C33_used meps a s hs hE
  obtain ⟨h1, h2, h3, h4, h5, h6, h7, h8⟩ := C33_sizes meps a s hs hE
  have hle : C33_taken s ≤ s.i .initSize := by unfold C33_taken; omega
  refine ⟨fun j hj => hb.guesses j (by omega), ?_, ?_⟩
  · rw [hb.next]
    have : (ofParams s).numOrthoConst = (s.i .numOrthoConst).toNat := rfl
    omega
  · rw [hb.left]
    have : (ofParams s).initSize = (s.i .initSize).toNat := rfl
    omega

/-- The basis starts with what the orthogonalisation made of the guesses followed by the random vectors, in
full, if the Krylov sequence is not used, or locking is, or the guesses fit in the size after a restart. -/
theorem C33_guesses_kept_partial (meps : K) (a : Arrays) (s : EP K) (hs : checkInput meps a s = 0)
    (hE : 0 < s.i .numEvals) (o : Kernels X) (Orthonormal : Cols X → ℕ → Prop) (ho : OrtOk o Orthonormal) (guess : ℕ → X)
    (hu : C33_fits s) (r : Res X) (hr : initBasis (ofParams s) o guess = .ok r)
    (hk : s.i .initBasisMode = 2 ∨ s.i .initBasisMode = 3 ∨ s.i .locking ≠ 0 ∨ s.i .initSize ≤ s.i .minRestartSize)
    (hpos : 0 < C33_taken s) :
    ∃ (V' : Cols X) (e : ℕ), C33_taken s ≤ e ∧ o.ort r.raw 0 e = some (V', r.rank) ∧ r.rank ≤ r.basisSize ∧
      (∀ j, j < r.rank → r.V j = V' j) := by
  have hb := C33_built_of_ok meps a s hs hE o Orthonormal ho guess hu r hr
  have hused := C33_used meps a s hs hE
  obtain ⟨h1, h2, h3, h4, h5, h6, h7, h8⟩ := C33_sizes meps a s hs hE
  obtain ⟨V', hV, hV'⟩ := hb.ortho (by omega)
  refine ⟨V', _, ?_, hV, ?_, hV'⟩
  · omega
  · rw [hb.size]
    by_cases hm : (ofParams s).mode = .krylov
    · rw [if_pos hm]
      have hr0 : randoms (ofParams s) = 0 := by
        unfold randoms; rw [hm]; simp
      have h9 := hb.rank
      rw [hr0] at h9
      have hmm : s.i .initBasisMode ≠ 2 ∧ s.i .initBasisMode ≠ 3 := by
        constructor <;> intro hc <;> simp [ofParams, hc] at hm
      have e1 : (ofParams s).minRestartSize = (s.i .minRestartSize).toNat := rfl
      have e2 : (ofParams s).n = (s.i .n).toNat := rfl
      have e3 : (ofParams s).numOrthoConst = (s.i .numOrthoConst).toNat := rfl
      rw [e1, e2, e3]
      unfold C33_taken at hused
      split_ifs at hused <;> omega
    · rw [if_neg hm]

/-- The size: never more than `maxBasisSize` or than the dimension free of constraints. -/
theorem C33_size (meps : K) (a : Arrays) (s : EP K) (hs : checkInput meps a s = 0) (hE : 0 < s.i .numEvals)
    (o : Kernels X) (Orthonormal : Cols X → ℕ → Prop) (ho : OrtOk o Orthonormal) (guess : ℕ → X) (hu : C33_fits s)
    (r : Res X) (hr : initBasis (ofParams s) o guess = .ok r) :
    (r.basisSize : Int) ≤ s.i .maxBasisSize ∧ (r.basisSize : Int) ≤ s.i .n - s.i .numOrthoConst := by
  have hb := C33_built_of_ok meps a s hs hE o Orthonormal ho guess hu r hr
  have hused := C33_used meps a s hs hE
  obtain ⟨h1, h2, h3, h4, h5, h6, h7, h8⟩ := C33_sizes meps a s hs hE
  have h9 := hb.rank
  have e1 : (ofParams s).minRestartSize = (s.i .minRestartSize).toNat := rfl
  have e2 : (ofParams s).n = (s.i .n).toNat := rfl
  have e3 : (ofParams s).numOrthoConst = (s.i .numOrthoConst).toNat := rfl
  rw [hb.size]
  split_ifs with hm
  · rw [e1, e2, e3]
    omega
  · have := C33_room meps a s hs hE hu
    have e4 : (ofParams s).maxBasisSize = (s.i .maxBasisSize).toNat := rfl
    rw [e4] at this
    clear hused
    omega

/-- The basis is orthonormal and the products are those of its columns. -/
theorem C33_products (meps : K) (a : Arrays) (s : EP K) (hs : checkInput meps a s = 0) (hE : 0 < s.i .numEvals)
    (o : Kernels X) (Orthonormal : Cols X → ℕ → Prop) (ho : OrtOk o Orthonormal) (guess : ℕ → X) (hu : C33_fits s)
    (r : Res X) (hr : initBasis (ofParams s) o guess = .ok r) :
    Orthonormal r.V r.basisSize ∧ ∀ j, j < r.basisSize → ∃ x, r.V j = some x ∧ r.W j = some (o.A x) := by
  have hb := C33_built_of_ok meps a s hs hE o Orthonormal ho guess hu r hr
  refine ⟨hb.good, fun j hj => ?_⟩
  obtain ⟨x, hx⟩ := Option.isSome_iff_exists.mp (hb.full j hj)
  exact ⟨x, hx, by rw [hb.prod j hj, hx]; rfl⟩

/-- One product per column: the columns of `W` are written from the first to the last, each once, and as many as the
basis or, if it was larger, the set of guesses has. -/
theorem C33_each_column_once (meps : K) (a : Arrays) (s : EP K) (hs : checkInput meps a s = 0) (hE : 0 < s.i .numEvals)
    (o : Kernels X) (Orthonormal : Cols X → ℕ → Prop) (ho : OrtOk o Orthonormal) (guess : ℕ → X) (hu : C33_fits s)
    (r : Res X) (hr : initBasis (ofParams s) o guess = .ok r) :
    r.wlog = List.range (max r.rank r.basisSize) :=
  (C33_built_of_ok meps a s hs hE o Orthonormal ho guess hu r hr).log

/-! ### Concrete cases -/

/-- A structure over the rationals with the given sizes. -/
def C33_store (numEvals maxBasis minRestart maxBlock initSize locking mode : Int) : EP ℚ where
  i := fun f => match f with
    | .n => 100 | .nLocal => 100 | .numProcs => 1 | .numEvals => numEvals | .maxBasisSize => maxBasis
    | .minRestartSize => minRestart | .maxBlockSize => maxBlock | .initSize => initSize | .locking => locking
    | .initBasisMode => mode | .ldevecs => 100 | .ldOPs => 100 | _ => 0
  d := fun _ => 0
  p := fun f => match f with | .matrixMatvec => 1 | _ => 0
  addr := fun _ => 0
  seed := fun _ => 0

/-- Vectors are numbers, the product adds 100, random vectors are numbered from 50 and the
orthogonalisation adds 1000. -/
def C33_kernels : Kernels ℕ where
  A := fun x => x + 100
  rnd := fun k => 50 + k
  ort := fun V b e => some (fun j => if b ≤ j ∧ j < e then (V j).map (· + 1000) else V j, e)

theorem C33_kernels_ok : OrtOk C33_kernels (fun V k => ∀ j, j < k → ∀ x, V j = some x → 1000 ≤ x) := by
  refine ⟨fun V V' k h h' j hj x hx => h' j hj x (by rw [h j hj, hx]), fun V k k' hk h j hj => h j (by omega),
    fun _ j hj => absurd hj (by omega), ?_⟩
  intro V b1 e V' r hb hf hr
  simp only [C33_kernels, Option.some.injEq, Prod.mk.injEq] at hr
  obtain ⟨rfl, rfl⟩ := hr
  refine ⟨by omega, le_refl _, fun j hj => if_neg (by omega), fun j hj => ?_, fun h j hj x hx => ?_⟩
  · dsimp only
    split_ifs
    · simpa using hf j hj
    · exact hf j hj
  · dsimp only at hx
    split_ifs at hx with hc
    · simp only [Option.map_eq_some_iff] at hx
      obtain ⟨y, -, rfl⟩ := hx
      omega
    · exact h j (by omega) x hx

/-- What can be seen of a result. -/
def C33_seen (x : Outcome (Res ℕ)) : Option (List (Option ℕ) × List (Option ℕ) × List ℕ × List ℕ) :=
  match x with
  | .ok r => some ((List.range r.basisSize).map r.V, (List.range r.basisSize).map r.W,
      [r.basisSize, r.nextGuess, r.numGuesses, r.rank], r.wlog)
  | _ => none

/-- A case that meets the hypotheses: three guesses (numbers 0, 1, 2), Krylov sequence in blocks of two up to size 8. -/
example : checkInput 0 ⟨false, false, false⟩ (C33_store 5 12 8 2 3 0 1) = 0 ∧ C33_fits (C33_store 5 12 8 2 3 0 1) ∧
    C33_seen (initBasis (ofParams (C33_store 5 12 8 2 3 0 1)) C33_kernels id) =
      some ([some 1000, some 1001, some 1002, some 1050, some 1051, some 2150, some 2151, some 3250],
        [some 1100, some 1101, some 1102, some 1150, some 1151, some 2250, some 2251, some 3350], [8, 3, 0, 3],
        [0, 1, 2, 3, 4, 5, 6, 7]) :=
  ⟨by decide +kernel, by unfold C33_fits; decide, by decide +kernel⟩

/-- The same with locking: restart size 4, six guesses, of which two are left. -/
example : checkInput 0 ⟨false, false, false⟩ (C33_store 6 12 4 2 6 1 2) = 0 ∧
    C33_seen (initBasis (ofParams (C33_store 6 12 4 2 6 1 2)) C33_kernels id) =
      some ([some 1000, some 1001, some 1002, some 1003], [some 1100, some 1101, some 1102, some 1103], [4, 4, 2, 4],
        [0, 1, 2, 3]) :=
  ⟨by decide +kernel, by decide +kernel⟩

/-- Guesses are lost: without locking and with a Krylov start, eight guesses are accepted (the limit is `maxBasisSize`),
their products are computed, nothing is left for later, and yet only the first four are in the basis. -/
theorem C33_guesses_kept_violated :
    checkInput 0 ⟨false, false, false⟩ (C33_store 2 10 4 1 8 0 1) = 0 ∧
    ∃ r, initBasis (ofParams (C33_store 2 10 4 1 8 0 1)) C33_kernels id = .ok r ∧
      r.rank = 8 ∧ r.basisSize = 4 ∧ r.numGuesses = 0 ∧ r.wlog.length = 8 :=
  ⟨by decide +kernel, _, rfl, by decide +kernel, by decide +kernel, by decide +kernel, by decide +kernel⟩

/-- Memory beyond the basis is written: in mode "user", with blocks of twenty and at most ten vectors in the basis, which
the input check accepts, whatever the routines underneath do. -/
theorem C33_safe_violated (o : Kernels X) (guess : ℕ → X) :
    checkInput 0 ⟨false, false, false⟩ (C33_store 2 10 5 20 0 0 3) = 0 ∧
    initBasis (ofParams (C33_store 2 10 5 20 0 0 3)) o guess = .ub :=
  ⟨by decide +kernel, rfl⟩

end Verif.Props
