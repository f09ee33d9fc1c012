/-!
# Common types of the model
-/

namespace Verif

/-- Result of a C routine: normal completion with the new values of everything it may write, an
error return (the non-zero code), or undefined behaviour / failed assertion. -/
inductive Outcome (α : Type u) where
  | ok (a : α)
  | err (code : Int)
  | ub
  deriving DecidableEq, Repr

namespace Outcome
def bind (x : Outcome α) (f : α → Outcome β) : Outcome β :=
  match x with
  | ok a => f a
  | err c => err c
  | ub => ub
instance : Monad Outcome where
  pure := ok
  bind := bind
@[simp] theorem pure_eq (a : α) : (pure a : Outcome α) = ok a := rfl
@[simp] theorem bind_ok (a : α) (f : α → Outcome β) : (ok a >>= f) = f a := rfl
@[simp] theorem bind_err (c : Int) (f : α → Outcome β) : ((err c : Outcome α) >>= f) = err c := rfl
@[simp] theorem bind_ub (f : α → Outcome β) : ((ub : Outcome α) >>= f) = ub := rfl
end Outcome

/-- `primme_target`, include/primme_eigs.h:47-54, in order of their numerical values 0..5. -/
inductive Target where
  | smallest | largest | closest_geq | closest_leq | closest_abs | largest_abs
  deriving DecidableEq, Repr

/-- Numerical value of a `primme_target` constant. -/
def Target.code : Target → Int
  | .smallest => 0 | .largest => 1 | .closest_geq => 2 | .closest_leq => 3
  | .closest_abs => 4 | .largest_abs => 5

/-- Error codes of include/primme.h:116-123. -/
def PRIMME_UNEXPECTED_FAILURE : Int := -1
def PRIMME_MALLOC_FAILURE : Int := -2
def PRIMME_MAIN_ITER_FAILURE : Int := -3
def PRIMME_LAPACK_FAILURE : Int := -40
def PRIMME_USER_FAILURE : Int := -41
def PRIMME_ORTHO_CONST_FAILURE : Int := -42
def PRIMME_PARALLEL_FAILURE : Int := -43
def PRIMME_FUNCTION_UNAVAILABLE : Int := -44

end Verif
