import Verif.Model.Members
import Mathlib.Algebra.Order.Field.Basic

/-!
# The Python module: setting and reading parameters

`Python/primme.pyx` reaches the parameter structures only through `primme_member_info`,
`primme_set_member`, `primme_get_member` and `primme_constant_info`.  The body of `eigsh` (and of `svds`)
before the call of the library is a sequence of tests that may raise and of assignments of parameters; it is
modelled as a list of `Step`s executed from left to right.

Simplifications: Python values are integers, floats, character strings, or other objects known by their
address; conversions of integers to `double` are exact; reference counts are not modelled.
-/

namespace Verif.Py
open Verif.Members

/-- Python exceptions raised on the modelled paths.  `primme c` is `PrimmeError(c)` (or `PrimmeSvdsError`). -/
inductive Exc where
  | value | type | overflow | attribute | unbound | key | generic | primme (code : Int)
  deriving DecidableEq, Repr

/-- Outcome of Python code: a value, an exception, or undefined behaviour of the C level below. -/
inductive Res (α : Type) where
  | ok (a : α) | raise (e : Exc) | ub
  deriving DecidableEq, Repr

/-- Sequencing. -/
def Res.bind {α β : Type} (x : Res α) (f : α → Res β) : Res β :=
  match x with
  | .ok a => f a
  | .raise e => .raise e
  | .ub => .ub

/-- Values given to a parameter. -/
inductive PVal (K : Type) where
  | int (v : Int) | flt (x : K) | str (s : String) | obj (a : Nat)
  deriving DecidableEq, Repr

/-- The Python level: `trunc` is `int(x)` of a float and `box v` the address of the object holding `v`. -/
structure Env (K : Type) where
  trunc : K → Int
  box : PVal K → Nat

/-- The tables of one of the two libraries (`primme_*` or `primme_svds_*`). -/
structure Tables (IF DF PF : Type) where
  names : List (String × Int)
  types : List (Int × PType × Nat)
  setter : List (Int × SetEntry IF DF PF)
  getter : List (Int × GetEntry IF DF PF)
  consts : List (String × Int)

variable {K : Type} [Field K] {IF DF PF : Type} [DecidableEq IF] [DecidableEq DF] [DecidableEq PF]

/-- `<void*>value`: the address of the object. -/
def addrOf (E : Env K) : PVal K → Nat
  | .obj a => a
  | v => E.box v

/-- `v_int = value` after names of constants were translated, primme.pyx:178-184 and 951-957: `np.int64_t` from a
Python object (`__Pyx_PyNumber_IntOrLong` in the generated primme.c calls `int(x)` for floats). -/
def toInt (E : Env K) (consts : List (String × Int)) : PVal K → Res Int
  | .int v => if -2 ^ 63 ≤ v ∧ v < 2 ^ 63 then .ok v else .raise .overflow
  | .flt x => if -2 ^ 63 ≤ E.trunc x ∧ E.trunc x < 2 ^ 63 then .ok (E.trunc x) else .raise .overflow
  | .str s => match constantInfo consts s with
    | .ok v => .ok v
    | _ => .raise .value
  | .obj _ => .raise .type

/-- `v_double = value`, primme.pyx:188 and 961. -/
def toDouble : PVal K → Res K
  | .int v => .ok (v : K)
  | .flt x => .ok x
  | _ => .raise .type

/-- The end of `__primme_params_set`: `r = primme_set_member(…); if r != 0: raise Exception(…)`. -/
def store (T : Tables IF DF PF) (s : Store IF DF PF K) (l : Int) (v : Val K) : Res (Store IF DF PF K) :=
  match setMember T.setter s l v with
  | .ok (r, t) => if r ≠ 0 then .raise .generic else .ok t
  | .err _ => .ub
  | .ub => .ub

/-- `__primme_params_set`, primme.pyx:162-192, and `__primme_svds_params_set`, 935-965. -/
def paramsSet (T : Tables IF DF PF) (E : Env K) (s : Store IF DF PF K) (field : String) (v : PVal K) :
    Res (Store IF DF PF K) :=
  match memberInfo T.names T.types (some 0) (some (some field)) with
  | .ok (some l, _, ty, arity) =>
    if arity ≠ 1 then .raise .value
    else match ty with
      | .pointer => store T s l (.ptr (addrOf E v))
      | .int => (toInt E T.consts v).bind fun x => store T s l (.int x)
      | .double => (toDouble v).bind fun x => store T s l (.dbl x)
      | _ => .raise .value
  | .ok (none, _, _, _) => .ub
  | .err _ => .raise .value
  | .ub => .ub

/-- `primme_params_set_pointer` and `primme_params_set_doubles`, primme.pyx:194-210, and the `svds` versions,
967-983, with the asserted conditions that hold for the constant names used; the return code is not looked at
(`assert(r == 0, "…")` asserts a pair, which is always true). -/
def paramsRaw (T : Tables IF DF PF) (s : Store IF DF PF K) (field : String) (a : Nat) : Res (Store IF DF PF K) :=
  match memberInfo T.names T.types (some 0) (some (some field)) with
  | .ok (some l, _, _, _) => match setMember T.setter s l (.ptr a) with
    | .ok (_, t) => .ok t
    | _ => .ub
  | .ok (none, _, _, _) => .ub
  | .err _ => .ok s
  | .ub => .ub

/-- What `__primme_params_get` returns: a number or an object. -/
inductive Got (K : Type) where
  | int (v : Int) | flt (x : K) | obj (a : Nat) | shifts (a : Nat) (len : Nat) | empty
  deriving DecidableEq, Repr

/-- `__primme_params_get`, primme.pyx:98-131.  `block` is `__current_block_size` and `isObj a` says that `a` is the
address of a Python object: `<object>v_pvoid` of anything else (in particular of `NULL`) is undefined. -/
def paramsGet (T : Tables IF DF PF) (isObj : Nat → Bool) (block : Int) (s : Store IF DF PF K) (field : String) :
    Res (Got K) :=
  match memberInfo T.names T.types (some 0) (some (some field)) with
  | .ok (some l, _, ty, arity) =>
    if field = "ShiftsForPreconditioner" then
      if block < 0 then .raise .value
      else if block = 0 then .ok .empty
      else match getMember T.getter s l with
        | .ok (.ptr a) => .ok (.shifts a block.toNat)
        | _ => .ub
    else if arity ≠ 1 then .raise .value
    else match ty, getMember T.getter s l with
      | .int, .ok (.int v) => .ok (.int v)
      | .double, .ok (.dbl x) => .ok (.flt x)
      | .pointer, .ok (.ptr a) => if isObj a then .ok (.obj a) else .ub
      | .string, _ => .raise .value
      | _, _ => .ub
  | .ok (none, _, _, _) => .ub
  | .err _ => .raise .value
  | .ub => .ub

/-- One statement before the call of the library, on a state `S` that contains the parameters. -/
inductive Step (K S : Type) where
  /-- `if not b: raise e` -/
  | need (b : Bool) (e : Exc)
  /-- `__primme_params_set(PP, field, v)` -/
  | set (field : String) (v : PVal K)
  /-- the same inside `try: … except: raise ValueError(…)`, primme.pyx:570-574 and 1366-1370 -/
  | extra (field : String) (v : PVal K)
  /-- `primme_params_set_pointer` or `primme_params_set_doubles` -/
  | raw (field : String) (a : Nat)
  /-- `primme_set_method` -/
  | act (g : S → S)

/-- How the two setters act on the state. -/
structure Setters (K S : Type) where
  set : S → String → PVal K → Res S
  raw : S → String → Nat → Res S

variable {S : Type}

/-- One statement. -/
def Step.exec (P : Setters K S) (s : S) : Step K S → Res S
  | .need b e => if b then .ok s else .raise e
  | .set f v => P.set s f v
  | .extra f v => match P.set s f v with
    | .ok t => .ok t
    | .raise _ => .raise .value
    | .ub => .ub
  | .raw f a => P.raw s f a
  | .act g => .ok (g s)

/-- The statements in order. -/
def run (P : Setters K S) : List (Step K S) → S → Res S
  | [], s => .ok s
  | x :: r, s => (x.exec P s).bind (run P r)

/-- `a[0:e]` of a sequence of length `k`: how many elements. -/
def sliceLen (k : Nat) (e : Int) : Nat := if 0 ≤ e then min e.toNat k else ((k : Int) + e).toNat

end Verif.Py
