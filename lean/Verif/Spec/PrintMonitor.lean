import Verif.Model.PrintMonitor
import Verif.Spec.Monitor

/-!
# The lines the manual promises

Written from the description of `printLevel` in doc/source/appendix.rst:486-550 and
doc/source/appendixsvds.rst:376-418, without reference to the routines that print.
-/

namespace Verif.Spec

open Verif.Mon Verif.Print

section
variable {K : Type}

/-- What a line can be about, named after the keys `$1` to `$10` of the manual. -/
structure Keys (K : Type) where
  converged : Int
  index : Int
  value : K
  norm : K
  matvecs : Int
  outerIts : Int
  time : K
  blockIndex : Int
  linear : K
  stage : Int

/-- `OUT $6 conv $1 blk $8 MV $5 Sec $7 EV $3 |r| $4` -/
def outText (k : Keys K) : Line K :=
  [.word "OUT", .int k.outerIts, .word "conv", .int k.converged, .word "blk", .int k.blockIndex, .word "MV",
    .int k.matvecs, .word "Sec", .num k.time, .word "EV", .num k.value, .word "|r|", .num k.norm]

/-- `INN MV $5 Sec $7 Eval $3 Lin|r| $9 EV|r| $4` -/
def innText (k : Keys K) : Line K :=
  [.word "INN", .word "MV", .int k.matvecs, .word "Sec", .num k.time, .word "Eval", .num k.value,
    .word "Lin|r|", .num k.linear, .word "EV|r|", .num k.norm]

/-- `#Converged $1 eval[ $2 ]= $3 norm $4 Mvecs $5 Time $7` -/
def convergedText (k : Keys K) : Line K :=
  [.word "#Converged", .int k.converged, .word "eval[", .int k.index, .word "]=", .num k.value, .word "norm",
    .num k.norm, .word "Mvecs", .int k.matvecs, .word "Time", .num k.time]

/-- `#Lock epair[ $1 ]= $3 norm $4 Mvecs $5 Time $7` -/
def lockText (k : Keys K) : Line K :=
  [.word "#Lock", .word "epair[", .int k.converged, .word "]=", .num k.value, .word "norm", .num k.norm,
    .word "Mvecs", .int k.matvecs, .word "Time", .num k.time]

/-- `OUT $6 conv $1 blk $8 MV $5 Sec $7 SV $3 |r| $4 stage $10` -/
def svdsOutText (k : Keys K) : Line K :=
  [.word "OUT", .int k.outerIts, .word "conv", .int k.converged, .word "blk", .int k.blockIndex, .word "MV",
    .int k.matvecs, .word "Sec", .num k.time, .word "SV", .num k.value, .word "|r|", .num k.norm,
    .word "stage", .int k.stage]

/-- `INN MV $5 Sec $7 Sval $3 Lin|r| $9 SV|r| $4 stage $10` -/
def svdsInnText (k : Keys K) : Line K :=
  [.word "INN", .word "MV", .int k.matvecs, .word "Sec", .num k.time, .word "Sval", .num k.value,
    .word "Lin|r|", .num k.linear, .word "SV|r|", .num k.norm, .word "stage", .int k.stage]

/-- `#Converged $1 sval[ $2 ]= $3 norm $4 Mvecs $5 Time $7 stage $10` -/
def svdsConvergedText (k : Keys K) : Line K :=
  [.word "#Converged", .int k.converged, .word "sval[", .int k.index, .word "]=", .num k.value, .word "norm",
    .num k.norm, .word "Mvecs", .int k.matvecs, .word "Time", .num k.time, .word "stage", .int k.stage]

/-- The field number `n` of a line, counted from one as `awk` does. -/
def field (n : Nat) (l : Line K) : Option (Tok K) := l[n - 1]?

/-- The lines that begin with a word, as `grep` selects them. -/
def beginning (w : String) (ls : List (Line K)) : List (Line K) :=
  ls.filter (fun l => match l with
    | .word s :: _ => s == w
    | _ => false)

end

end Verif.Spec
