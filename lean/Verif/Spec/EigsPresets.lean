import Verif.Spec.EigsLabels
import Mathlib.Data.Rat.Defs

/-!
# What the manual says about the preset methods

Transcribed from /repo/readme.txt:4261-4523 ("Preset Methods") and from the enumeration
`primme_preset_method`, include/primme_eigs.h:256-273.
-/

namespace Verif.Eigs.Doc
open Verif.Members Verif.Eigs

/-- The published methods: the numbers `PRIMME_DEFAULT_METHOD` (0) to
`PRIMME_LOBPCG_OrthoBasis_Window` (15), include/primme_eigs.h:256-273. -/
def Published (m : Int) : Prop := 0 ≤ m ∧ m ≤ 15

/-- The method parameters: the only integral members that choosing a method is allowed to touch.
Everything else (sizes, number of values, target, limits, printing, statistics, ...) describes the
problem or the run. -/
def methodParameters : List IF :=
  [.dynamicMethodSwitch, .locking, .maxBasisSize, .minRestartSize, .maxBlockSize, .initBasisMode,
   .ldevecs, .projectionParams_projection, .restartingParams_maxPrevRetain,
   .correctionParams_precondition, .correctionParams_robustShifts,
   .correctionParams_maxInnerIterations, .correctionParams_projectors_LeftQ,
   .correctionParams_projectors_LeftX, .correctionParams_projectors_RightQ,
   .correctionParams_projectors_RightX, .correctionParams_projectors_SkewQ,
   .correctionParams_projectors_SkewX, .correctionParams_convTest]

/-- What a preset is documented to set, as a function of the members before the call.  `i` are the
integral members before the call. -/
structure Preset where
  /-- the documented settings the code makes as documented -/
  kept : List (IF × Int)
  /-- the documented settings the code does not make as documented (see the departures proved in
  `C39`) -/
  other : List (IF × Int)

/-- The block size a method works with: "the default is 1". -/
def block (i : IF → Int) : Int := if i .maxBlockSize = 0 then 1 else i .maxBlockSize

/-- `GD_plusK`: "maxPrevRetain = 2 if maxBlockSize is 1 and numEvals > 1; otherwise it sets
maxPrevRetain to maxBlockSize". -/
def plusKRetain (i : IF → Int) : Int :=
  if block i = 1 ∧ i .numEvals > 1 then 2 else block i

/-- `LeftQ = precondition` (as a truth value); `hasPrec`: an `applyPreconditioner` was given, which is
the documented default of `precondition`. -/
def leftQ (hasPrec : Bool) (i : IF → Int) : Int :=
  if i .correctionParams_precondition = -1 then (if hasPrec then 1 else 0)
  else if i .correctionParams_precondition ≠ 0 then 1 else 0

def jdqmrCommon (hasPrec : Bool) (i : IF → Int) : List (IF × Int) :=
  [(.correctionParams_maxInnerIterations, -1),
   (.correctionParams_projectors_LeftQ, leftQ hasPrec i),
   (.correctionParams_projectors_LeftX, 1), (.correctionParams_projectors_RightQ, 0),
   (.correctionParams_projectors_RightX, 0), (.correctionParams_projectors_SkewQ, 0)]

/-- The table of readme.txt:4290-4523. -/
def preset (hasPrec : Bool) (m : Int) (i : IF → Int) : Preset :=
  if m = 4 then    -- PRIMME_Arnoldi
    ⟨[(.restartingParams_maxPrevRetain, 0), (.correctionParams_precondition, 0),
      (.correctionParams_maxInnerIterations, 0)],
     [(.locking, 0)]⟩
  else if m = 5 then    -- PRIMME_GD
    ⟨[(.restartingParams_maxPrevRetain, 0), (.correctionParams_robustShifts, 1),
      (.correctionParams_maxInnerIterations, 0), (.correctionParams_projectors_RightX, 0),
      (.correctionParams_projectors_SkewX, 0)],
     [(.locking, 0)]⟩
  else if m = 6 then    -- PRIMME_GD_plusK
    ⟨[(.correctionParams_maxInnerIterations, 0), (.correctionParams_projectors_RightX, 0),
      (.correctionParams_projectors_SkewX, 0)],
     [(.locking, 0), (.restartingParams_maxPrevRetain, plusKRetain i)]⟩
  else if m = 7 ∨ m = 3 then    -- PRIMME_GD_Olsen_plusK, PRIMME_DEFAULT_MIN_MATVECS
    ⟨[(.correctionParams_maxInnerIterations, 0), (.correctionParams_projectors_RightX, 1),
      (.correctionParams_projectors_SkewX, 0)],
     [(.locking, 0), (.restartingParams_maxPrevRetain, plusKRetain i)]⟩
  else if m = 8 then    -- PRIMME_JD_Olsen_plusK
    ⟨[(.correctionParams_maxInnerIterations, 0), (.correctionParams_robustShifts, 1),
      (.correctionParams_projectors_RightX, 1), (.correctionParams_projectors_SkewX, 1)],
     [(.locking, 0), (.restartingParams_maxPrevRetain, plusKRetain i)]⟩
  else if m = 9 then    -- PRIMME_RQI
    ⟨[(.locking, 1), (.restartingParams_maxPrevRetain, 0), (.correctionParams_robustShifts, 1),
      (.correctionParams_maxInnerIterations, -1), (.correctionParams_projectors_LeftQ, 1),
      (.correctionParams_projectors_LeftX, 1), (.correctionParams_projectors_RightQ, 0),
      (.correctionParams_projectors_RightX, 1), (.correctionParams_projectors_SkewQ, 0),
      (.correctionParams_projectors_SkewX, 0), (.correctionParams_convTest, 0)], []⟩
  else if m = 10 then    -- PRIMME_JDQR
    ⟨[(.locking, 1), (.restartingParams_maxPrevRetain, 1), (.correctionParams_robustShifts, 0),
      (.correctionParams_projectors_LeftQ, 0), (.correctionParams_projectors_LeftX, 1),
      (.correctionParams_projectors_RightQ, 1), (.correctionParams_projectors_RightX, 1),
      (.correctionParams_projectors_SkewQ, 1), (.correctionParams_projectors_SkewX, 1),
      (.correctionParams_convTest, 0)],
     [(.correctionParams_maxInnerIterations, if i .correctionParams_maxInnerIterations = 0 then 10
        else i .correctionParams_maxInnerIterations)]⟩
  else if m = 11 ∨ (m = 2 ∧ i .target ≠ 0 ∧ i .target ≠ 1) then    -- PRIMME_JDQMR
    ⟨jdqmrCommon hasPrec i ++
      [(.correctionParams_projectors_SkewX, 1), (.correctionParams_convTest, 3)],
     [(.locking, 0), (.restartingParams_maxPrevRetain,
        if i .restartingParams_maxPrevRetain = 0 then 1 else i .restartingParams_maxPrevRetain)]⟩
  else if m = 12 ∨ m = 2 then    -- PRIMME_JDQMR_ETol
    ⟨jdqmrCommon hasPrec i ++ [(.correctionParams_convTest, 2)],
     [(.locking, 0), (.correctionParams_projectors_SkewX, 1), (.restartingParams_maxPrevRetain,
        if i .restartingParams_maxPrevRetain = 0 then 1 else i .restartingParams_maxPrevRetain)]⟩
  else if m = 13 then    -- PRIMME_STEEPEST_DESCENT
    ⟨[(.locking, 1), (.maxBasisSize, i .numEvals * 2), (.minRestartSize, i .numEvals),
      (.maxBlockSize, i .numEvals), (.restartingParams_maxPrevRetain, 0),
      (.correctionParams_robustShifts, 0), (.correctionParams_maxInnerIterations, 0),
      (.correctionParams_projectors_RightX, 1), (.correctionParams_projectors_SkewX, 0)], []⟩
  else if m = 14 then    -- PRIMME_LOBPCG_OrthoBasis
    ⟨[(.maxBasisSize, i .numEvals * 3), (.minRestartSize, i .numEvals),
      (.maxBlockSize, i .numEvals), (.restartingParams_maxPrevRetain, i .numEvals),
      (.correctionParams_robustShifts, 0), (.correctionParams_maxInnerIterations, 0),
      (.correctionParams_projectors_RightX, 1), (.correctionParams_projectors_SkewX, 0)],
     [(.locking, 0)]⟩
  else if m = 15 then    -- PRIMME_LOBPCG_OrthoBasis_Window
    ⟨[(.correctionParams_robustShifts, 0), (.correctionParams_maxInnerIterations, 0),
      (.correctionParams_projectors_RightX, 1), (.correctionParams_projectors_SkewX, 0)],
     [(.locking, 0), (.maxBasisSize, block i * 3), (.minRestartSize, block i),
      (.restartingParams_maxPrevRetain, block i)]⟩
  else if m = 1 ∨ m = 0 then    -- PRIMME_DYNAMIC, PRIMME_DEFAULT_METHOD
    ⟨jdqmrCommon hasPrec i ++ [(.dynamicMethodSwitch, 1),
      (.correctionParams_convTest, if i .target = 0 ∨ i .target = 1 then 2 else 3)],
     [(.locking, 0), (.correctionParams_projectors_SkewX, 1), (.restartingParams_maxPrevRetain,
        if i .restartingParams_maxPrevRetain = 0 then 1 else i .restartingParams_maxPrevRetain)]⟩
  else ⟨[], []⟩

end Verif.Eigs.Doc
