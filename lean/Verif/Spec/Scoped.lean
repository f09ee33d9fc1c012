import Verif.Model.MemFrames

/-!
# Disciplined use of allocations

`Scoped own p`: the function `p` frees only variables it allocated itself (currently `own`), each at most
once, and the functions it calls do the same with variables of their own.  It may return at any point,
with any code, with allocations still outstanding.  All functions of the library that allocate with
`Num_malloc_*` have this shape (allocate, work, free, with `CHKERR` returns anywhere in between).
-/

namespace Verif.MemFrames

/-- The variables a function assigns. -/
def Prog.vars : Prog → List Nat
  | .ret _ => []
  | .keep k => k.vars
  | .chk f k => f.vars ++ k.vars
  | .numMalloc x _ => [x]
  | .numFree _ => []

inductive Scoped : List Nat → Prog → Prop where
  | ret (own : List Nat) (c : Int) : Scoped own (.ret c)
  | keep {own : List Nat} {k : Prog} : Scoped own k → Scoped own (.keep k)
  | malloc {own : List Nat} {x : Nat} {pos : Bool} {k : Prog} :
      x ∉ own → Scoped (x :: own) k → Scoped own (.chk (.numMalloc x pos) k)
  | free {own : List Nat} {x : Nat} {k : Prog} :
      x ∈ own → Scoped (own.filter (fun y => decide (y ≠ x))) k → Scoped own (.chk (.numFree x) k)
  | call {own : List Nat} {f k : Prog} :
      Scoped [] f → (∀ x ∈ f.vars, x ∉ own) → Scoped own k → Scoped own (.chk f k)

end Verif.MemFrames
