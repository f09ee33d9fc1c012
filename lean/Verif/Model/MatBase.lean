import Verif.Model.RBase

/-!
# The MATLAB interface: values, structs of options, and setting parameters

`Matlab/primme_eigs.m` collects the options of the library in a struct and gives its fields, one after the other, to
`primme_mex('primme_set_member', …)` of `Matlab/primme_mex.cpp`.

Simplifications: `NaN` and infinite numbers are not modelled; all numeric classes hold numbers of `K`; structs inside the
struct of options hold only numbers; an error of MATLAB or a C++ exception is `raise`; the release of memory and arrays on
GPUs are not modelled; the address of a copy of a function handle is the address of the handle.
-/

namespace Verif.Mat
open Verif.Members Verif.Py

/-- MATLAB values: real and complex arrays of numbers (for the latter, the real parts), character vectors, function
handles, structs of numbers, and anything else (logicals, cells). -/
inductive MVal (K : Type) where
  | num (rows cols : Nat) (l : List K) | complex (rows cols : Nat) (re : List K) | str (s : String) | fn (a : Nat)
  | struct (l : List (String × K)) | other
  deriving DecidableEq, Repr

variable {K : Type}

/-- One number. -/
def MVal.one (x : K) : MVal K := .num 1 1 [x]

/-- The fields of a struct, in order. -/
abbrev Fields (α : Type) := List (String × α)

/-- `isfield(s, nm)` and `s.nm`. -/
def Fields.get {α : Type} : Fields α → String → Option α
  | [], _ => none
  | e :: r, nm => if e.1 = nm then some e.2 else Fields.get r nm

/-- `s.nm = v`: the field is replaced where it is, or added at the end. -/
def Fields.set {α : Type} : Fields α → String → α → Fields α
  | [], nm, v => [(nm, v)]
  | e :: r, nm, v => if e.1 = nm then (nm, v) :: r else e :: Fields.set r nm v

/-- `rmfield(s, nm)`. -/
def Fields.del {α : Type} (l : Fields α) (nm : String) : Fields α := l.filter fun e => e.1 ≠ nm

/-- `for i=1:numel(names) opts.(names{i}) = opts0.(names{i})`, primme_eigs.m:316-319. -/
def Fields.merge {α : Type} (l o : Fields α) : Fields α := o.foldl (fun s e => s.set e.1 e.2) l

/-- The number in a scalar (its real part). -/
def scalar : MVal K → Option K
  | .num 1 1 [x] => some x
  | .complex 1 1 [x] => some x
  | _ => none

/-- `isnumeric`. -/
def isNumeric : MVal K → Bool
  | .num .. => true
  | .complex .. => true
  | _ => false

variable [Field K] [LinearOrder K] [FloorRing K]

/-- `(int)mxGetScalar(a)`: the first element; the conversion of a number out of the range of `int`, and the element of an
empty array, are undefined. -/
def firstInt : List K → Res Int
  | [] => .ub
  | x :: _ => if -(2 ^ 31) - 1 < x ∧ x < 2 ^ 31 then .ok (R.trunc x) else .ub

/-- `mxArrayToConstant`, primme_mex.cpp:646-663, and `mxArrayToConstantSvds`, 665-682. -/
def asInt (consts : List (String × Int)) : MVal K → Res Int
  | .str s => match constantInfo consts s with
    | .ok v => .ok v
    | _ => .raise .value
  | .num _ _ l => firstInt l
  | .complex _ _ l => firstInt l
  | _ => .raise .value

/-- `copy_mxArray(a, &v, 1, 1, 1)` to a double, primme_mex.cpp:186-207 and 212-269. -/
def asDouble : MVal K → Res K
  | .num 1 1 [x] => .ok x
  | _ => .raise .value

/-- The test of dimensions of `copy_mxArray` for a vector of `m` elements, primme_mex.cpp:219-227. -/
def isVector (rows cols m : Nat) : Bool := (rows = 1 ∧ cols = m) ∨ (rows = m ∧ cols = 1)

/-- `copy_mxArray(a, iseed, 4, 1, 4)`, primme_mex.cpp:766-771: conversions to `int64_t` out of range are undefined. -/
def asSeed : MVal K → Res (List Int)
  | .num r c l => if isVector r c 4 then
      if ∀ x ∈ l, -(2 ^ 63) - 1 < x ∧ x < 2 ^ 63 then .ok (l.map R.trunc) else .ub
    else .raise .value
  | _ => .raise .value

/-- The vector of target shifts, primme_mex.cpp:773-782: an array without elements must be a row or a column to pass the
test of dimensions. -/
def asShifts : MVal K → Res (List K)
  | .num r c l => if isVector r c (r * c) then .ok l else .raise .value
  | _ => .raise .value

variable {IF DF PF : Type} [DecidableEq IF] [DecidableEq DF] [DecidableEq PF]

/-- What distinguishes the setters of the two libraries: the labels of the seed, of the shifts and of the device, the
labels of functions with the member their handle is kept in, the forbidden labels, the members the shifts and the device
are kept in, and the addresses of the copies of the shifts, of the device and of strings. -/
structure MKind (IF DF PF : Type) where
  T : Tables IF DF PF
  seed : Int
  shifts : Int
  comm : Int
  handles : List (Int × PF)
  forbidden : List Int
  count : IF
  array : PF
  commInfo : PF
  heap : Nat
  device : Nat
  text : Nat

/-- `mexFunction_primme_set_member`, primme_mex.cpp:749-905, and `mexFunction_primme_svds_set_member`. -/
def setMemberM (P : MKind IF DF PF) (s : R.RState IF DF PF K) (nm : String) (v : MVal K) :
    Res (R.RState IF DF PF K) :=
  match memberInfo P.T.names P.T.types (some 0) (some (some nm)) with
  | .ok (some l, _, ty, arity) =>
    if l = P.seed then
      (asSeed v).bind fun w => if h : w.length = 4 then
        .ok { s with params := put s.params .seed (.seed fun k => w[k]) } else .raise .value
    else if l = P.shifts then
      (asShifts v).bind fun w => .ok
        ⟨put (put s.params (.p P.array) (.ptr P.heap)) (.i P.count) (.int w.length), w⟩
    else match P.handles.lookup l with
      | some f => match v with
        | .fn a => .ok { s with params := put s.params (.p f) (.ptr a) }
        | _ => .raise .value
      | none =>
        if l = P.comm then match v with
          | .num .. | .complex .. | .str _ => .ok { s with params := put s.params (.p P.commInfo) (.ptr P.device) }
          | _ => .raise .value
        else if l ∈ P.forbidden then .raise .value
        else if arity ≠ 1 then .raise .value
        else match ty with
          | .int => (asInt P.T.consts v).bind fun x =>
            (store P.T s.params l (.int x)).bind fun t => .ok { s with params := t }
          | .double => (asDouble v).bind fun x => (store P.T s.params l (.dbl x)).bind fun t => .ok { s with params := t }
          | .string => match v with
            | .str _ => (store P.T s.params l (.ptr P.text)).bind fun t => .ok { s with params := t }
            | _ => (store P.T s.params l (.ptr 0)).bind fun t => .ok { s with params := t }
          | .pointer => .raise .value
  | .ok (none, _, _, _) => .ub
  | .err _ => .raise .value
  | .ub => .ub

/-- The labels and values `primme_set_members` goes through, primme_eigs.m:768-785: the fields in order, those of a struct
with its name and an underscore before theirs. -/
def settings : Fields (MVal K) → List (String × MVal K)
  | [] => []
  | (nm, .struct l) :: r => l.map (fun e => (nm ++ "_" ++ e.1, .one e.2)) ++ settings r
  | e :: r => e :: settings r

/-- `primme_set_members`, primme_eigs.m:752-786. -/
def setAllM (P : MKind IF DF PF) : List (String × MVal K) → R.RState IF DF PF K → Res (R.RState IF DF PF K)
  | [], s => .ok s
  | e :: r, s => (setMemberM P s e.1 e.2).bind (setAllM P r)

end Verif.Mat
