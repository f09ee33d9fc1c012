import Mathlib.Algebra.Order.Field.Basic
import Mathlib.Algebra.Module.Basic

/-!
# Specification of an orthonormal factorisation

Vectors are elements of a module over the field of scalars, `ip` is the inner product.
-/

namespace Verif.Spec.Ortho

variable {K X : Type} [Field K] [AddCommGroup X] [Module K X]

/-- `Σ a_k v_k`. -/
def combo : List K → List X → X
  | a :: as, v :: vs => a • v + combo as vs
  | _, _ => 0

/-- The vectors `V 0 … V (k-1)` are orthonormal. -/
def Orthonormal (ip : X → X → K) (V : ℕ → X) (k : ℕ) : Prop :=
  ∀ i j, i < k → j < k → ip (V i) (V j) = if i = j then 1 else 0

/-- A list of vectors is orthonormal. -/
def OrthonormalList (ip : X → X → K) (L : List X) : Prop :=
  L.Pairwise (fun u v => ip u v = 0) ∧ ∀ v ∈ L, ip v v = 1

/-- Every vector of `L` is orthogonal to `x`. -/
def Perp (ip : X → X → K) (L : List X) (x : X) : Prop := ∀ v ∈ L, ip v x = 0

/-- What is left of `x` once its components along `V 0 … V (j-1)` and along the locked vectors are removed. -/
def remainder (ip : X → X → K) (locked : List X) (V : ℕ → X) (j : ℕ) (x : X) : X :=
  x - combo (locked.map (fun l => ip l x)) locked -
    combo ((List.range j).map (fun k => ip (V k) x)) ((List.range j).map V)

end Verif.Spec.Ortho
