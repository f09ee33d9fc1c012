import Verif.Model.Basic
import Verif.Model.Members

/-!
# The Fortran 77 interface

Model of src/eigs/primme_f77.c and src/svds/primme_svds_f77.c.  A Fortran program holds the parameter
structure in a variable with the size of a pointer (the handle) and passes every argument by reference; a
callback receives the structure itself.  A routine called with arguments of other kinds, or with another
number of them, than its C definition has is undefined behaviour.
The C functions behind the interface are the fields of `Lib`.  Not modelled: the name mangling
(`AS_FORTRAN`), the display routines' output, the width of integers.
-/

namespace Verif.Fortran
open Verif

/-- What an actual argument refers to: a handle variable, a parameter structure (as received by a
callback), an integer variable, or a variable with a value. -/
inductive Arg (V : Type) where
  | handle (h : Nat)
  | struct (a : Nat)
  | integer (v : Int)
  | value (v : V)

/-- Kinds of arguments. -/
inductive Kind where
  | handle | struct | integer | value
  deriving DecidableEq, Repr

/-- Kind of an argument. -/
def Arg.kind {V : Type} : Arg V → Kind
  | .handle _ => .handle
  | .struct _ => .struct
  | .integer _ => .integer
  | .value _ => .value

/-- The routines; without and with `svds` in their names.  There is no `get_prec_shift` for the singular
value problem.  `solve` is `dprimme_f77`, `dprimme_svds_f77` and variants. -/
inductive Routine where
  | initialize | free | display | setMethod | setMember | getMember | topGetMember
  | getPrecShift | topGetPrecShift | solve
  deriving DecidableEq, Repr

/-- The C functions.  A structure is of type `S` and values of type `V`.  `set` and `get` are the member
functions, `setMethod` takes the list of the presets, `shift s k` is `ShiftsForPreconditioner[k]`,
`ub` out of the array. -/
structure Lib (S V : Type) where
  init : S
  set : S → Int → V → Outcome (Int × S)
  get : S → Int → Outcome (Int × Option V)
  setMethod : List Int → S → Outcome (Int × S)
  shift : S → Int → Outcome V
  solve : S → Outcome (Int × S)

/-- Memory: the handle variables (0 is `NULL`) and the structures in the heap. -/
structure World (S : Type) where
  handles : Nat → Nat
  heap : Nat → Option S

/-- What a call leaves for the caller: the error code and the value written. -/
structure Ret (V : Type) where
  ierr : Option Int
  value : Option V
  deriving DecidableEq

variable {S V : Type}

/-- Assignment to a handle variable. -/
def World.setHandle (w : World S) (h a : Nat) : World S :=
  { w with handles := fun g => if g = h then a else w.handles g }

/-- Assignment to a structure. -/
def World.put (w : World S) (a : Nat) (s : Option S) : World S :=
  { w with heap := fun b => if b = a then s else w.heap b }

/-- Use of the structure at an address: undefined when there is none. -/
def World.load (w : World S) (a : Nat) : Outcome S :=
  if a = 0 then .ub
  else match w.heap a with
    | some s => .ok s
    | none => .ub

/-- `primme_initialize_f77`, primme_f77.c:70-75 and primme_svds_f77.c:53-57; `m` is the answer of
`malloc`. -/
def create (lib : Lib S V) (m : Option Nat) (h : Nat) (w : World S) : World S :=
  match m with
  | some a => (w.setHandle h a).put a (some lib.init)
  | none => w.setHandle h 0

/-- `primme_free_f77`, primme_f77.c:80-85 and primme_svds_f77.c:71-75. -/
def release (h : Nat) (w : World S) : Outcome (World S) :=
  if w.handles h = 0 then .ok (w.setHandle h 0)
  else match w.heap (w.handles h) with
    | some _ => .ok ((w.put (w.handles h) none).setHandle h 0)
    | none => .ub

/-- A function that changes the structure of a handle and gives a code. -/
def update (h : Nat) (w : World S) (f : S → Outcome (Int × S)) : Outcome (World S × Ret V) :=
  w.load (w.handles h) >>= fun s => f s >>= fun r =>
    .ok (w.put (w.handles h) (some r.2), ⟨some r.1, none⟩)

/-- `primme_get_member` on the structure at an address. -/
def fetch (lib : Lib S V) (a : Nat) (l : Int) (w : World S) : Outcome (World S × Ret V) :=
  w.load a >>= fun s => lib.get s (Members.castEnum l) >>= fun r => .ok (w, ⟨some r.1, r.2⟩)

/-- `primme_get_prec_shift_f77`, primme_f77.c:168-171. -/
def precShift (lib : Lib S V) (a : Nat) (i : Int) (w : World S) : Outcome (World S × Ret V) :=
  w.load a >>= fun s => lib.shift s (i - 1) >>= fun v => .ok (w, ⟨none, some v⟩)

/-- The routines of primme_f77.c:56-201 as they are defined. -/
def callEigs (lib : Lib S V) (m : Option Nat) (r : Routine) (args : List (Arg V)) (w : World S) :
    Outcome (World S × Ret V) :=
  match r, args with
  | .initialize, [.handle h] => .ok (create lib m h w, ⟨none, none⟩)
  | .free, [.handle h] => release h w >>= fun w => .ok (w, ⟨none, none⟩)
  | .display, [.handle h] => w.load (w.handles h) >>= fun _ => .ok (w, ⟨none, none⟩)
  | .setMethod, [.handle h, .integer k, .integer _] => update h w (lib.setMethod [k])
  | .setMember, [.handle h, .integer l, .value v, .integer _] =>
    update h w (fun s => lib.set s (Members.castEnum l) v)
  | .getMember, [.struct a, .integer l, .value _, .integer _] => fetch lib a l w
  | .topGetMember, [.handle h, .integer l, .value _, .integer _] => fetch lib (w.handles h) l w
  | .getPrecShift, [.struct a, .integer i, .value _] => precShift lib a i w
  | .topGetPrecShift, [.handle h, .integer i, .value _] => precShift lib (w.handles h) i w
  | .solve, [.value _, .value _, .value _, .handle h, .integer _] => update h w lib.solve
  | _, _ => .ub

/-- The routines of primme_svds_f77.c:45-93 as they are defined. -/
def callSvds (lib : Lib S V) (m : Option Nat) (r : Routine) (args : List (Arg V)) (w : World S) :
    Outcome (World S × Ret V) :=
  match r, args with
  | .initialize, [.handle h] => .ok (create lib m h w, ⟨none, none⟩)
  | .free, [.handle h] => release h w >>= fun w => .ok (w, ⟨none, none⟩)
  | .display, [.handle h] => w.load (w.handles h) >>= fun _ => .ok (w, ⟨none, none⟩)
  | .setMethod, [.integer k, .integer k1, .integer k2, .handle h, .integer _] =>
    update h w (lib.setMethod [k, k1, k2])
  | .setMember, [.handle h, .integer l, .value v, .integer _] =>
    update h w (fun s => lib.set s (Members.castEnum l) v)
  | .getMember, [.struct a, .integer l, .value _, .integer _] => fetch lib a l w
  | .topGetMember, [.handle h, .integer l, .value _, .integer _] => fetch lib (w.handles h) l w
  | .solve, [.value _, .value _, .value _, .handle h, .integer _] => update h w lib.solve
  | _, _ => .ub

end Verif.Fortran
