/-!
# Flat memory

Shared by the models of the routines that move matrices around in memory.  A buffer is an address
range `[0, size)` together with its contents.  Reading or writing outside of the range is undefined
behaviour in C; in the model it is the outcome `none`.
-/

namespace Verif.Mem

/-- A C array: `size` elements; `data a` is the element at offset `a` (meaningless for
`a ≥ size`; every model operation checks the range before touching it). -/
structure Buf (α : Type u) where
  size : Nat
  data : Nat → α

/-- `Num_copy_Sprimme(m, &x[src], 1, &x[dst], 1, ctx)` inside one array
(src/linalg/blaslapack.c, wrapper of BLAS `copy`).  Out of range accesses and overlapping
(non-identical) operands are undefined (BLAS forbids aliasing), hence `none`.
A copy of zero elements touches nothing. -/
def copyIn (m src dst : Nat) (b : Buf α) : Option (Buf α) :=
  if m = 0 then some b
  else if src + m ≤ b.size ∧ dst + m ≤ b.size ∧ (src + m ≤ dst ∨ dst + m ≤ src) then
    some { b with data := fun a => if dst ≤ a ∧ a < dst + m then b.data (src + (a - dst)) else b.data a }
  else none

/-- `Num_copy_Sprimme(m, &x[src], 1, work, 1, ctx)`: copy out to a separate work buffer of
`m` elements. -/
def copyOut (m src : Nat) (b : Buf α) : Option (Nat → α) :=
  if m = 0 then some b.data
  else if src + m ≤ b.size then some (fun r => b.data (src + r))
  else none

/-- `Num_copy_Sprimme(m, work, 1, &x[dst], 1, ctx)`: copy back from a separate work buffer. -/
def copyBack (m dst : Nat) (w : Nat → α) (b : Buf α) : Option (Buf α) :=
  if m = 0 then some b
  else if dst + m ≤ b.size then
    some { b with data := fun a => if dst ≤ a ∧ a < dst + m then w (a - dst) else b.data a }
  else none

end Verif.Mem
