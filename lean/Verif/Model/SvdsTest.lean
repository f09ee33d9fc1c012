import Verif.Model.TempParams
import Mathlib.Algebra.BigOperators.Ring.Finset
import Mathlib.Algebra.BigOperators.Group.Finset.Basic
import Mathlib.Data.Fintype.BigOperators

/-!
# The default convergence test for singular triplets

`compute_resNorm` and `default_convTestFun` of src/svds/primme_svds_c.c.  Simplifications: real scalars in
exact arithmetic, and one process (`globalSum` adds the parts of the vectors; see `Broadcast.lean` and
`Operators.lean` for the collectives).
-/

namespace Verif.Mon

open Finset

section
variable {K : Type} [Field K] [LinearOrder K] [IsStrictOrderedRing K] {m n : Nat}

/-- Dot product, `Num_dot`. -/
def dot {k : Nat} (x y : Fin k → K) : K := ∑ i, x i * y i

/-- What the user's `matrixMatvec` computes for the matrix `a` (no transpose). -/
def mulV (a : Fin m → Fin n → K) (v : Fin n → K) : Fin m → K := fun i => ∑ j, a i j * v j

/-- And with the transpose. -/
def mulT (a : Fin m → Fin n → K) (u : Fin m → K) : Fin n → K := fun j => ∑ i, a i j * u i

/-- `compute_resNorm`, src/svds/primme_svds_c.c:1512-1572; `none` stands for the huge number given when
`u'Av` is negative. -/
def resNorm (sqrt : K → K) (a : Fin m → Fin n → K) (u : Fin m → K) (v : Fin n → K) : Option K :=
  let Atu := mulT a u
  let Av := mulV a v
  let ip0 := sqrt (dot v v)
  let ip1 := sqrt (dot u u)
  let sval := dot u Av / ip0 / ip1
  if sval < 0 then none
  else
    let Atu : Fin n → K := fun j => 1 / ip1 * Atu j
    let Atu : Fin n → K := fun j => Atu j + -sval / ip0 * v j
    let Av : Fin m → K := fun i => 1 / ip0 * Av i
    let Av : Fin m → K := fun i => Av i + -sval / ip1 * u i
    some (sqrt (dot Atu Atu + dot Av Av))

/-- `max(primme_svds->eps, MACHINE_EPSILON * 3.16) * aNorm`. -/
def tolerance (eps macheps f316 aNorm : K) : K := max eps (macheps * f316) * aNorm

/-- `default_convTestFun`, src/svds/primme_svds_c.c:1594-1621: the answer. -/
def defaultTest (sqrt : K → K) (a : Fin m → Fin n → K) (eps macheps f316 : K) (left : Option (Fin m → K))
    (right : Option (Fin n → K)) (rNorm : K) (op : Op) (v : Sv K) : Bool :=
  let isConv := decide (rNorm < tolerance eps macheps f316 v.aNorm)
  if isConv = true ∧ op = .augmented then
    match left, right with
    | some u, some w => match resNorm sqrt a u w with
      | some r => decide (r < tolerance eps macheps f316 v.aNorm)
      | none => false
    | _, _ => isConv
  else isConv

end

end Verif.Mon
