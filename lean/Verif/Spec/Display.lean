import Verif.Model.Display

/-!
# What a display of the parameters should say

Written from the manual ("Display all printable settings of primme") in terms of the published labels and names
(`Spec/EigsLabels`, `Spec/SvdsLabels`) and of the constants that `primme_constant_info` gives.
-/

namespace Verif.Spec
open Verif.Members Verif.Display

variable {IF DF PF D : Type}

/-- What is printed describes the member `m`: the number itself, a constant whose published value is that of the member, the
words of the seed, or the leading entries of the array. -/
def Shows (consts : List (String × Int)) (mem : Nat → List D) (s : Store IF DF PF D) (m : Member IF DF PF) : Shown D → Prop
  | .int z => reads s m = .int z
  | .dbl x => reads s m = .dbl x
  | .const c => ∃ z, constantInfo consts c = .ok z ∧ reads s m = .int z
  | .ints l => ∃ w, reads s m = .seed w ∧ l = [w 0, w 1, w 2, w 3]
  | .dbls l => ∃ a, reads s m = .ptr a ∧ a ≠ 0 ∧ l <+: mem a

/-- A row tells a member by its published name and what it has. -/
def Honest (api : List (Int × String)) (labels : List (Int × String × Member IF DF PF)) (consts : List (String × Int))
    (mem : Nat → List D) (s : Store IF DF PF D) (name : String) (v : Shown D) : Prop :=
  ∃ l nm m, (l, name) ∈ api ∧ (l, nm, m) ∈ labels ∧ Shows consts mem s m v

/-- The settings of the eigensolver that can be printed: numbers, enumerations and the seed, not the addresses, the types of the
user's functions and the statistics. -/
def eigsSettings : List (Int × String × Member Eigs.IF Eigs.DF Eigs.PF) :=
  Eigs.labels.filter (fun e => e.1 ∉ [3, 5, 7, 13, 15, 81, 86] && !(55 ≤ e.1 && e.1 ≤ 78) && (match e.2.2 with
    | .p _ => false
    | .sub _ => false
    | _ => true))

/-- The same for the singular value solver. -/
def svdsSettings : List (Int × String × Member Svds.IF Svds.DF Svds.PF) :=
  Svds.labels.filter (fun e => e.1 ∉ [6, 8, 15, 17, 56, 59] && !(39 ≤ e.1 && e.1 ≤ 54) && (match e.2.2 with
    | .p _ => false
    | .sub _ => false
    | _ => true))

end Verif.Spec
