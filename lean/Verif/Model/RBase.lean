import Verif.Model.PyBase
import Mathlib.Algebra.Order.Round

/-!
# The R package: values, lists of options, and setting and reading parameters

`R/R/eigs.R` and `R/R/svds.R` collect the options of the library in a list and then give them, one after the other, to
the functions of `R/src/primmeR.cpp` that reach the parameter structures.

Simplifications: `NA` and `NaN` given by the user are not modelled (an `NA` made by a conversion is); logical vectors
are vectors of the integers 0 and 1; conversions of integers to `double` are exact; an R condition or a C++ exception is
`raise`; the release of memory is not modelled.
-/

namespace Verif.R
open Verif.Members Verif.Py

/-- R values: `NULL`, vectors of integers (or logicals), of doubles and of strings, and anything else. -/
inductive RVal (K : Type) where
  | null | int (l : List Int) | real (l : List K) | str (l : List String) | other
  deriving DecidableEq, Repr

/-- A list of options. -/
abbrev Opts (K : Type) := List (String × RVal K)

variable {K : Type}

/-- `opts[[nm]]`: the first element of that name, `NULL` when there is none. -/
def Opts.exact : Opts K → String → RVal K
  | [], _ => .null
  | e :: r, nm => if e.1 = nm then e.2 else Opts.exact r nm

/-- `nm` is a proper beginning of `s`. -/
def isPartial (nm s : String) : Bool := nm.toList.isPrefixOf s.toList && (nm != s)

/-- `opts$nm` (`R_subset3` of R): the first element of that name, otherwise the element whose name begins with `nm` if
there is exactly one. -/
def Opts.dollar (l : Opts K) (nm : String) : RVal K :=
  if nm ∈ l.map Prod.fst then l.exact nm
  else match l.filter (fun e => isPartial nm e.1) with
    | [e] => e.2
    | _ => .null

/-- `opts$nm <- NULL`: the first element of that name goes. -/
def Opts.drop : Opts K → String → Opts K
  | [], _ => []
  | e :: r, nm => if e.1 = nm then r else e :: Opts.drop r nm

/-- `opts$nm <- v` for `v` other than `NULL`: the first element of that name is replaced, or `v` is added at the end. -/
def Opts.put : Opts K → String → RVal K → Opts K
  | [], nm, v => [(nm, v)]
  | e :: r, nm, v => if e.1 = nm then (nm, v) :: r else e :: Opts.put r nm v

variable [Field K] [LinearOrder K] [FloorRing K]

/-- Truncation towards zero. -/
def trunc (x : K) : Int := if 0 ≤ x then ⌊x⌋ else ⌈x⌉

/-- Conversion of a double to an integer of R: `NA`, which is the smallest `int`, when it does not fit. -/
def toRInt (x : K) : Int := if -(2 ^ 31) < x ∧ x < 2 ^ 31 then trunc x else -2 ^ 31

/-- `.is.wholenumber`, eigs.R:442-444, on a vector of length one (a longer vector of doubles is an error of `&&`, and the
longer vectors of integers that pass are errors later). -/
def whole : RVal K → Bool
  | .int [_] => true
  | .real [x] => decide (|x - (round x : Int)| < 1 / 2 ^ 26)
  | _ => false

/-- The number in a vector of length one. -/
def number : RVal K → Option K
  | .int [v] => some v
  | .real [x] => some x
  | _ => none

/-- `TYPEOF(value) == STRSXP ? primme_constant_info(as<std::string>(value)) : as<int>(value)`, primmeR.cpp:423-433 and
958-968. -/
def asInt (consts : List (String × Int)) : RVal K → Res Int
  | .int [v] => .ok v
  | .real [x] => .ok (toRInt x)
  | .str [s] => match constantInfo consts s with
    | .ok v => .ok v
    | _ => .raise .value
  | _ => .raise .value

/-- `as<double>(value)`. -/
def asDouble : RVal K → Res K
  | .int [v] => .ok (v : K)
  | .real [x] => .ok x
  | _ => .raise .value

/-- `as<IntegerVector>(value)`. -/
def asInts : RVal K → Res (List Int)
  | .int l => .ok l
  | .real l => .ok (l.map toRInt)
  | _ => .raise .value

/-- `as<NumericVector>(value)`. -/
def asDoubles : RVal K → Res (List K)
  | .int l => .ok (l.map fun v => (v : K))
  | .real l => .ok l
  | _ => .raise .value

variable {IF DF PF : Type} [DecidableEq IF] [DecidableEq DF] [DecidableEq PF]

/-- What distinguishes the setters of the two libraries: the labels of the seed and of the shifts, the forbidden labels,
the members the shifts are kept in, and the address of the array the shifts are copied to. -/
structure Kind (IF DF PF : Type) where
  T : Tables IF DF PF
  seed : Int
  shifts : Int
  forbidden : List Int
  count : IF
  array : PF
  heap : Nat

/-- A parameter structure and the contents of the array of its target shifts. -/
structure RState (IF DF PF K : Type) where
  params : Store IF DF PF K
  shifts : List K

/-- `primme_set_member_rcpp`, primmeR.cpp:366-453, and `primme_svds_set_member_rcpp`, 889-978. -/
def setMemberR (P : Kind IF DF PF) (s : RState IF DF PF K) (nm : String) (v : RVal K) : Res (RState IF DF PF K) :=
  match memberInfo P.T.names P.T.types (some 0) (some (some nm)) with
  | .ok (some l, _, ty, arity) =>
    if l = P.seed then
      (asInts v).bind fun w => if h : w.length = 4 then
        .ok { s with params := put s.params .seed (.seed fun k => w[k]) } else .raise .value
    else if l = P.shifts then
      (asDoubles v).bind fun w => .ok
        ⟨put (put s.params (.p P.array) (.ptr P.heap)) (.i P.count) (.int w.length), w⟩
    else if l ∈ P.forbidden then .raise .value
    else if arity ≠ 1 then .raise .value
    else match ty with
      | .int => (asInt P.T.consts v).bind fun x => (store P.T s.params l (.int x)).bind fun t => .ok { s with params := t }
      | .double => (asDouble v).bind fun x => (store P.T s.params l (.dbl x)).bind fun t => .ok { s with params := t }
      | _ => .raise .value
  | .ok (none, _, _, _) => .ub
  | .err _ => .raise .value
  | .ub => .ub

/-- `for (x in names(opts)) .primme_set_member(x, opts[[x]], primme)`, eigs.R:361-362. -/
def setAll (P : Kind IF DF PF) (opts : Opts K) : List String → RState IF DF PF K → Res (RState IF DF PF K)
  | [], s => .ok s
  | x :: r, s => (setMemberR P s x (opts.exact x)).bind (setAll P opts r)

/-- What a read of a parameter returns: numbers. -/
inductive Got (K : Type) where
  | int (v : Int) | real (x : K)
  deriving DecidableEq, Repr

/-- `primme_get_member_rcpp` for the members with one number, primmeR.cpp:292-363: integers are cut to 32 bits. -/
def getNumber (P : Kind IF DF PF) (s : Store IF DF PF K) (nm : String) : Res (Got K) :=
  match memberInfo P.T.names P.T.types (some 0) (some (some nm)) with
  | .ok (some l, _, ty, arity) =>
    if l = P.seed ∨ l = P.shifts ∨ l ∈ P.forbidden ∨ arity ≠ 1 then .raise .value
    else match ty, getMember P.T.getter s l with
      | .int, .ok (.int v) => .ok (.int (castInt v))
      | .double, .ok (.dbl x) => .ok (.real x)
      | .int, .err _ => .raise .value
      | .double, .err _ => .raise .value
      | .int, _ => .ub
      | .double, _ => .ub
      | _, _ => .raise .value
  | .ok (none, _, _, _) => .ub
  | .err _ => .raise .value
  | .ub => .ub

end Verif.R
