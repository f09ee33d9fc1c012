import Verif.Model.Fortran

/-!
# What the Fortran interface should do

The signatures of the manual (readme.txt) and the session in C that a Fortran session stands for.
-/

namespace Verif.Fortran.Spec
open Verif

/-- Signatures in readme.txt:1278-2065.  `primme_display_params_f77` is not documented; its entry is the
signature used in the examples. -/
def documentedEigs : Routine → List Kind
  | .initialize => [.handle]
  | .free => [.handle]
  | .display => [.handle]
  | .setMethod => [.integer, .handle, .integer]
  | .setMember => [.handle, .integer, .value]
  | .getMember => [.struct, .integer, .value]
  | .topGetMember => [.handle, .integer, .value]
  | .getPrecShift => [.struct, .integer, .value]
  | .topGetPrecShift => [.handle, .integer, .value]
  | .solve => [.value, .value, .value, .handle, .integer]

/-- Signatures in readme.txt:5676-6345; `none`: there is no such routine. -/
def documentedSvds : Routine → Option (List Kind)
  | .initialize => some [.handle, .integer]
  | .free => some [.handle, .integer]
  | .display => some [.handle]
  | .setMethod => some [.integer, .integer, .integer, .handle, .integer]
  | .setMember => some [.handle, .integer, .value, .integer]
  | .getMember => some [.struct, .integer, .value, .integer]
  | .topGetMember => some [.handle, .integer, .value, .integer]
  | .getPrecShift => none
  | .topGetPrecShift => none
  | .solve => some [.value, .value, .value, .handle, .integer]

/-- A step of a session in C on one structure.  `shift i` asks for the shift of the `i`-th vector,
counted from 1. -/
inductive Op (V : Type) where
  | setMethod (ks : List Int)
  | set (l : Int) (v : V)
  | get (l : Int)
  | shift (i : Int)
  | solve

variable {S V : Type}

/-- The same step in C. -/
def step (lib : Lib S V) (s : S) : Op V → Outcome (S × Ret V)
  | .setMethod ks => lib.setMethod ks s >>= fun r => .ok (r.2, ⟨some r.1, none⟩)
  | .set l v => lib.set s l v >>= fun r => .ok (r.2, ⟨some r.1, none⟩)
  | .get l => lib.get s l >>= fun r => .ok (s, ⟨some r.1, r.2⟩)
  | .shift i => lib.shift s (i - 1) >>= fun v => .ok (s, ⟨none, some v⟩)
  | .solve => lib.solve s >>= fun r => .ok (r.2, ⟨some r.1, none⟩)

/-- A session in C. -/
def session (lib : Lib S V) (s : S) : List (Op V) → Outcome (S × List (Ret V))
  | [] => .ok (s, [])
  | o :: os => step lib s o >>= fun r => session lib r.1 os >>= fun q => .ok (q.1, r.2 :: q.2)

/-- Labels, and any other `int` that is not negative, are unchanged by the conversion to the enumeration. -/
def Op.Sane : Op V → Prop
  | .set l _ => 0 ≤ l ∧ l < 2 ^ 31
  | .get l => 0 ≤ l ∧ l < 2 ^ 31
  | _ => True

end Verif.Fortran.Spec
