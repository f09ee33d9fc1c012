import Verif.Spec.R
import Verif.Model.RSvds

/-!
# What `svds` of the R package promises

Transcribed from the documentation comments of R/R/svds.R (36-190); the parameters that can be named and what they stand
for are those of the manual (`Py.Doc.svdsMembers`, and `Py.Doc.eigsMembers` for the solver of each stage).
-/

namespace Verif.R.Doc
open Verif.Members

variable {K V : Type} [Field K] [LinearOrder K] [FloorRing K]

/-- What the value of an option means for a member of the singular value solver. -/
inductive SvdsMeans : Member Svds.IF Svds.DF Svds.PF → RVal K → Val K → Prop where
  | int (f : Svds.IF) (v : Int) : SvdsMeans (.i f) (.int [v]) (.int v)
  | whole (f : Svds.IF) (v : Int) (h : -2 ^ 31 < v ∧ v < 2 ^ 31) : SvdsMeans (.i f) (.real [(v : K)]) (.int v)
  | name (f : Svds.IF) (s : String) (v : Int) (h : constantInfo Svds.constTable s = .ok v) :
      SvdsMeans (.i f) (.str [s]) (.int v)
  | real (f : Svds.DF) (x : K) : SvdsMeans (.d f) (.real [x]) (.dbl x)
  | fromInt (f : Svds.DF) (v : Int) : SvdsMeans (.d f) (.int [v]) (.dbl (v : K))
  | seed (w : List Int) (h : w.length = 4) : SvdsMeans .seed (.int w) (.seed fun k => w[k])

/-- The dimensions of the problem: those of the matrix, or the options `m` and `n` when the operator is a function. -/
def Dims (a : RSvdsArgs K V) (M N : Nat) : Prop :=
  (∃ x, a.A = .mat x ∧ x.rows = M ∧ x.cols = N) ∨
  (a.A = .fn ∧ (a.opts.exact "m" = .int [(M : Int)] ∨ a.opts.exact "m" = .real [(M : K)]) ∧
    (a.opts.exact "n" = .int [(N : Int)] ∨ a.opts.exact "n" = .real [(N : K)]))

/-- The names of `which`, svds.R:50-55, and the constant of the manual. -/
def svdsWhich : List (String × Int) := [("L", 0), ("S", 1)]

/-- Pairs of arrays of vectors, left and right, as documented: both, or one of them, the other one being the product with
the operator (`A x` for left vectors, the adjoint for right ones). -/
inductive Pairs (mul adj : Py.Arr V → Option (Py.Arr V)) : RVecs V → RVecs V → RVecs V → RVecs V → Prop where
  | none : Pairs mul adj .null .null .null .null
  | both (u v : Py.Arr V) : Pairs mul adj (.mat u) (.mat v) (.mat u) (.mat v)
  | left (u v : Py.Arr V) (h : adj u = some v) : Pairs mul adj (.mat u) .null (.mat u) (.mat v)
  | right (u v : Py.Arr V) (h : mul v = some u) : Pairs mul adj .null (.mat v) (.mat u) (.mat v)

/-- The options of `svds` other than `method`, svds.R:101-131, with the member of the manual each one names (`none`:
the manual has no such member of the singular value solver). -/
def svdsOptions : List (String × Option (Member Svds.IF Svds.DF Svds.PF)) :=
  [("aNorm", some (.d .aNorm)), ("maxBlockSize", some (.i .maxBlockSize)), ("printLevel", some (.i .printLevel)),
   ("locking", some (.i .locking)), ("maxBasisSize", some (.i .maxBasisSize)), ("minRestartSize", none),
   ("maxMatvecs", some (.i .maxMatvecs)), ("iseed", some .seed)]

/-- The options with a list, svds.R:129-130. -/
def svdsStages : List String := ["primmeStage1", "primmeStage2"]

/-- The names of `method`, svds.R:119-126. -/
def svdsMethods : List String := ["primme_svds_normalequation", "primme_svds_augmented", "primme_svds_hybrid"]

/-- The elements of `stats`, svds.R:92-98, with the member each one reports. -/
def svdsStats : List (String × Member Svds.IF Svds.DF Svds.PF) :=
  [("numMatvecs", .i .stats_numMatvecs), ("numPreconds", .i .stats_numPreconds), ("elapsedTime", .d .stats_elapsedTime),
   ("timeMatvec", .d .stats_timeMatvec), ("timePrecond", .d .stats_timePrecond), ("timeOrtho", .d .stats_timeOrtho),
   ("estimateANorm", .d .aNorm)]

end Verif.R.Doc
