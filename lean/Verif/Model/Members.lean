import Verif.Model.Basic
import Verif.Spec.Members

/-!
# Interpreters of the label tables

The C functions `primme_get_member`, `primme_set_member`, `primme_member_info`,
`primme_constant_info` and `primme_enum_member_info` (and their `primme_svds_` counterparts) are
`switch` statements or sequences of string comparisons.  `tools/gen_tables.py` transcribes their
cases into tables; this file gives the meaning of one case.
-/

namespace Verif.Members

/-- A case of `primme_get_member` (src/eigs/primme_interface.c:776-1050): `*(PRIMME_INT*)value = f`,
`*(double*)value = f`, `*(ptr_v*)value = f` (also `v->xxx = f` for function pointers, where `v` is
`value` seen as a union), the loop over `iseed`, or the address of an embedded structure. -/
inductive GetEntry (IF DF PF : Type) where
  | int (f : IF) | dbl (f : DF) | ptr (f : PF) | seed | sub (k : Nat)
  deriving DecidableEq, Repr

/-- A case of `primme_set_member` (src/eigs/primme_interface.c:1070-1366):
`long`: `f = *(PRIMME_INT*)value`; `intChecked`: `if (*(PRIMME_INT*)value > INT_MAX) return 1; else
f = (int)*(PRIMME_INT*)value`; `enum`: `f = (primme_xxx)*(PRIMME_INT*)value`; `dbl`:
`f = *(double*)value`; `ptr`: `f = (ptr_v)value`; `seed`: the loop over `iseed`; `reject`:
`return 1`. -/
inductive SetEntry (IF DF PF : Type) where
  | long (f : IF) | intChecked (f : IF) | enum (f : IF) | dbl (f : DF) | ptr (f : PF) | seed | reject
  deriving DecidableEq, Repr

/-- `(int)v` for a 64-bit `v`: reduction modulo 2^32 to the signed range (implementation defined in
C, this is what every supported compiler does). -/
def castInt (v : Int) : Int := (v + 2 ^ 31) % 2 ^ 32 - 2 ^ 31

/-- `(enum)v` for a 64-bit `v`; the enumerations have no negative constant, so their underlying type
is `unsigned int`. -/
def castEnum (v : Int) : Int := v % 2 ^ 32

/-- `INT_MAX`. -/
def INT_MAX : Int := 2 ^ 31 - 1

/-- `case` selection of a `switch` over labels: the entry of the matching label. -/
def select {α : Type} (t : List (Int × α)) (label : Int) : Option α :=
  match t with
  | [] => none
  | (l, a) :: r => if l = label then some a else select r label

variable {IF DF PF D : Type} [DecidableEq IF] [DecidableEq DF] [DecidableEq PF]

/-- Assignment to an integral member. -/
def Store.setI (s : Store IF DF PF D) (f : IF) (v : Int) : Store IF DF PF D :=
  { s with i := fun g => if g = f then v else s.i g }

/-- `primme_set_member` interpreting its table.  The result is the return code and the structure.
`ub`: the designated object does not have the type the case reads through the `void *`. -/
def setMember (t : List (Int × SetEntry IF DF PF)) (s : Store IF DF PF D) (label : Int) (v : Val D) :
    Outcome (Int × Store IF DF PF D) :=
  match select t label with
  | none => .ok (1, s)
  | some .reject => .ok (1, s)
  | some (.long f) => match v with
    | .int x => .ok (0, s.setI f x)
    | _ => .ub
  | some (.intChecked f) => match v with
    | .int x => if x > INT_MAX then .ok (1, s) else .ok (0, s.setI f (castInt x))
    | _ => .ub
  | some (.enum f) => match v with
    | .int x => .ok (0, s.setI f (castEnum x))
    | _ => .ub
  | some (.dbl f) => match v with
    | .dbl x => .ok (0, { s with d := fun g => if g = f then x else s.d g })
    | _ => .ub
  | some (.ptr f) => match v with
    | .ptr a => .ok (0, { s with p := fun g => if g = f then a else s.p g })
    | _ => .ub
  | some .seed => match v with
    | .seed w => .ok (0, { s with seed := w })
    | _ => .ub

/-- `primme_get_member` interpreting its table: the value written through `value`, or the error code
1 with nothing written. -/
def getMember (t : List (Int × GetEntry IF DF PF)) (s : Store IF DF PF D) (label : Int) :
    Outcome (Val D) :=
  match select t label with
  | none => .err 1
  | some (.int f) => .ok (.int (s.i f))
  | some (.dbl f) => .ok (.dbl (s.d f))
  | some (.ptr f) => .ok (.ptr (s.p f))
  | some .seed => .ok (.seed s.seed)
  | some (.sub k) => .ok (.ptr (s.addr k))

/-- State of `primme_member_info` between `IF_IS` lines: the label argument (`none`: the pointer is
`NULL`), the name argument (`none`: the pointer is `NULL`; `some none`: it points to `NULL`), and the
flag `set`. -/
structure InfoSt where
  label : Option Int
  name : Option (Option String)
  set : Bool
  deriving DecidableEq, Repr

/-- One `IF_IS(F, O)` line, src/eigs/primme_interface.c:1401-1407. -/
def infoStep (st : InfoSt) (e : String × Int) : InfoSt :=
  if st.name = some (some e.1) ∨ st.label = some e.2 then
    { label := st.label.map (fun _ => e.2), name := st.name.map (fun _ => some e.1), set := true }
  else st

/-- `primme_member_info`, src/eigs/primme_interface.c:1388-1628: the label and name afterwards with
the type and arity; `err 1` when nothing was found; `ub`: the final `switch (*label)` dereferences a
`NULL` label pointer. -/
def memberInfo (names : List (String × Int)) (types : List (Int × PType × Nat))
    (label : Option Int) (name : Option (Option String)) :
    Outcome (Option Int × Option (Option String) × PType × Nat) :=
  if label = none ∧ (name = none ∨ name = some none) then .err 1
  else
    let st := names.foldl infoStep { label := label, name := name, set := false }
    if st.set = false then .err 1
    else match st.label with
      | none => .ub
      | some l => match select types l with
        | none => .err 1
        | some (ty, ar) => .ok (st.label, st.name, ty, ar)

/-- `primme_constant_info`, src/eigs/primme_interface.c:1647-1720: the first line whose text equals
the given name. -/
def constantInfo : List (String × Int) → String → Outcome Int
  | [], _ => .err 1
  | (s, v) :: r, name => if s = name then .ok v else constantInfo r name

/-- The `IF_IS` lines of one case of `primme_enum_member_info`,
src/eigs/primme_interface.c:1750-1755: the first line matching by value or by name. -/
def enumScan : List (String × Int) → Int → Option String → Option (Int × String)
  | [], _, _ => none
  | (s, v) :: r, value, name =>
    if value = v ∨ name = some s then some (v, s) else enumScan r value name

/-- `primme_enum_member_info`, src/eigs/primme_interface.c:1743-1835, called with two valid pointers
whose contents are `value` and `name` (`none`: `NULL`).  Result: return code and the two contents
afterwards. -/
def enumMemberInfo (t : List (Int × List (String × Int))) (label value : Int)
    (name : Option String) : Int × Int × Option String :=
  if (0 ≤ value ∧ name ≠ none) ∨ (value < 0 ∧ name = none) then (-1, value, name)
  else match select t label with
    | none => (-2, value, name)
    | some l => match enumScan l value name with
      | none => (-2, value, name)
      | some (v, s) => (0, v, some s)

end Verif.Members
