import Verif.Model.SvdsTest
import Verif.Spec.Monitor

/-!
# What the user's convergence test for triplets is asked
-/

namespace Verif.Spec

open Verif.Mon Finset

section
variable {K : Type} [Field K] [LinearOrder K] [IsStrictOrderedRing K] {V : Type}

/-- The routine asks the user's test about the given value, vectors, residual norm and operator, showing it
the structure `seen`; the answer is the user's, and the routine fails exactly when the user does. -/
def Asks (f : ConvTest K V → Tested K) (sval : K) (left right : Option V) (norm : K) (op : Op)
    (seen : Sv K) : Prop :=
  ∀ user : ConvTest K V, (f user).2.1 = (user sval left right norm op seen).2.1 ∧
    ((f user).2.2 = some 1 ↔ (user sval left right norm op seen).2.2 ≠ 0)

/-- The norm shown to the user's test: their own if given, else the estimate, which is the square root of
the eigensolver's for the normal equations. -/
def IsNormShown (op : Op) (mine estimate shown : K) : Prop :=
  (0 < mine → shown = mine) ∧ (mine ≤ 0 → 0 ≤ shown ∧
    match op with
    | .AtA | .AAt => shown * shown = estimate
    | .augmented => shown = estimate
    | .none => False)

/-- `s` and `ρ` are the singular value and the residual norm of the normalised vectors: with `p`, `q` of
length one in the directions of `u` and `v`, `s = p'Aq` and `ρ² = |Aq - sp|² + |A'p - sq|²`. -/
def IsTripletResidual {m n : Nat} (a : Fin m → Fin n → K) (u : Fin m → K) (v : Fin n → K) (s ρ : K) : Prop :=
  ∃ (p : Fin m → K) (q : Fin n → K) (nu nv : K), 0 < nu ∧ 0 < nv ∧ (∀ i, u i = nu * p i) ∧
    (∀ j, v j = nv * q j) ∧ ∑ i, p i * p i = 1 ∧ ∑ j, q j * q j = 1 ∧
    s = ∑ i, p i * ∑ j, a i j * q j ∧ 0 ≤ ρ ∧
    ρ * ρ = ∑ i, ((∑ j, a i j * q j) - s * p i) * ((∑ j, a i j * q j) - s * p i) +
      ∑ j, ((∑ i, a i j * p i) - s * q j) * ((∑ i, a i j * p i) - s * q j)

end

end Verif.Spec
