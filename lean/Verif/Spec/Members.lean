/-!
# What setting and getting a parameter should mean

A parameter structure is a valuation of its members; a label names one member.  `Members.put` is the
intended effect of writing a value through a label and `Members.reads` the intended result of reading
it.  Nothing here refers to the implementation.
-/

namespace Verif.Members

/-- C types of integral members: `PRIMME_INT`, `int` and enumerations. -/
inductive CType where
  | clong | cint | cenum
  deriving DecidableEq, Repr

/-- A member of the structure: integral, floating point, pointer, the four-word seed, or an embedded
structure (only its address can be handed out). -/
inductive Member (IF DF PF : Type) where
  | i (f : IF) | d (f : DF) | p (f : PF) | seed | sub (k : Nat)
  deriving DecidableEq, Repr

/-- Contents of a parameter structure.  `D` is the type of `double` values; pointers are numbers, 0
is `NULL`; `addr k` is the address of the `k`-th embedded structure. -/
structure Store (IF DF PF D : Type) where
  i : IF → Int
  d : DF → D
  p : PF → Nat
  seed : Fin 4 → Int
  addr : Nat → Nat

/-- What the `void *value` argument designates: a `PRIMME_INT`, four of them, a `double`, or, for
pointer members, the pointer itself. -/
inductive Val (D : Type) where
  | int (v : Int) | dbl (x : D) | ptr (a : Nat) | seed (s : Fin 4 → Int)

/-- Range of a 64-bit `PRIMME_INT`. -/
def isLong (v : Int) : Prop := -2 ^ 63 ≤ v ∧ v < 2 ^ 63

/-- The values a member of the given C type can hold. -/
def CType.holds : CType → Int → Prop
  | .clong, v => isLong v
  | .cint, v => -2 ^ 31 ≤ v ∧ v < 2 ^ 31
  | .cenum, v => 0 ≤ v ∧ v < 2 ^ 32

variable {IF DF PF D : Type} [DecidableEq IF] [DecidableEq DF] [DecidableEq PF]

/-- `v` is a value of the type of member `m` that it can hold. -/
def fits (ct : IF → CType) : Member IF DF PF → Val D → Prop
  | .i f, .int v => (ct f).holds v
  | .d _, .dbl _ => True
  | .p _, .ptr _ => True
  | .seed, .seed s => ∀ k, isLong (s k)
  | _, _ => False

/-- The structure after member `m` takes the value `v`; all other members keep theirs. -/
def put (s : Store IF DF PF D) : Member IF DF PF → Val D → Store IF DF PF D
  | .i f, .int v => { s with i := fun g => if g = f then v else s.i g }
  | .d f, .dbl x => { s with d := fun g => if g = f then x else s.d g }
  | .p f, .ptr a => { s with p := fun g => if g = f then a else s.p g }
  | .seed, .seed w => { s with seed := w }
  | _, _ => s

/-- The value of member `m`. -/
def reads (s : Store IF DF PF D) : Member IF DF PF → Val D
  | .i f => .int (s.i f)
  | .d f => .dbl (s.d f)
  | .p f => .ptr (s.p f)
  | .seed => .seed s.seed
  | .sub k => .ptr (s.addr k)

/-- The type and arity under which a member is accessed. -/
inductive PType where
  | int | double | pointer | string
  deriving DecidableEq, Repr

end Verif.Members
