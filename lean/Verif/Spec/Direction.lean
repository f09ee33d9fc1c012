import Mathlib.Analysis.InnerProductSpace.Basic

/-!
# Documented corrections and projectors

From the manual, `correctionParams.projectors`: `Q` are the constraints and converged vectors, `x` the vector being improved,
`r` its residual, `M` the preconditioner; with a mass matrix `B`, `bQ` and `bx` are the products with it (without, `bQ = Q` and
`bx = x`).
-/

namespace Verif.Spec.Dir

variable {F V : Type} [RCLike F] [NormedAddCommGroup V] [InnerProductSpace F V]

/-- `(I - bQ Q*) v` for `k` columns. -/
noncomputable def proj (F : Type) [RCLike F] [InnerProductSpace F V] (k : ℕ) (Q bQ : ℕ → V) (v : V) : V :=
  v - ∑ j ∈ Finset.range k, inner F (Q j) v • bQ j

/-- `w = (I - H (Q* H)⁻¹ Q*) v` for `k` columns: `w` differs from `v` in a combination of the `H`, and is orthogonal to the `Q`. -/
def Skew (F : Type) [RCLike F] [InnerProductSpace F V] (k : ℕ) (Q H : ℕ → V) (v w : V) : Prop :=
  (∃ c : ℕ → F, w = v - ∑ j ∈ Finset.range k, c j • H j) ∧ ∀ j < k, inner F (Q j) w = 0

/-- Table of the correction `D` when `maxInnerIterations` is 0; `err` is the estimation of the error of the value.  The last
combination is an error. -/
def Davidson (F : Type) [RCLike F] [InnerProductSpace F V] (RightX SkewX : Bool) (M : V → V) (x bx r : V) (err : ℝ) (D : V) :
    Prop :=
  match RightX, SkewX with
  | false, false => D = M r
  | true, false => D = M (r - (err : F) • bx)
  | true, true => Skew F 1 (fun _ => x) (fun _ => M bx) (M r) D
  | false, true => False

/-- Left projectors `P_Q P_X`. -/
noncomputable def left (F : Type) [RCLike F] [InnerProductSpace F V] (LeftQ LeftX : Bool) (k : ℕ) (Q bQ : ℕ → V) (x bx v : V) :
    V :=
  let w := if LeftX then proj F 1 (fun _ => x) (fun _ => bx) v else v
  if LeftQ then proj F k Q bQ w else w

/-- A right projector, for `Q` or for `x`; `H` is `M` applied to `bQ`. -/
def Right (F : Type) [RCLike F] [InnerProductSpace F V] (right skew : Bool) (k : ℕ) (Q bQ H : ℕ → V) (v w : V) : Prop :=
  match right, skew with
  | false, _ => w = v
  | true, false => w = proj F k Q bQ v
  | true, true => Skew F k Q H v w

end Verif.Spec.Dir
