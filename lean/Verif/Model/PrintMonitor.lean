import Verif.Model.Monitor

/-!
# What the default monitors print

`default_monitor` of src/eigs/primme_c.c, `default_monitor_svds` of src/svds/primme_svds_c.c and the macros
`PRINTFALLCTX`, `PRINTFALL` and `PRINTF` of src/include/common.h with the function `monitor_report` of
src/eigs/auxiliary_eigs.c behind them.

Simplifications: a printed line is the list of its fields, the words between blanks; the digits of a number
are not modelled; the assertions are compiled out (`NDEBUG`), so a NULL pointer matters where it is read.
-/

namespace Verif.Print

open Verif.Mon

/-- A field of a printed line. -/
inductive Tok (K : Type) where
  | word (s : String)
  | int (z : Int)
  | num (x : K)
  deriving DecidableEq, Repr

abbrev Line (K : Type) := List (Tok K)

/-- The fields of `primme_params` (or `primme_svds_params`) that the default monitor reads. -/
structure Par (K : Type) where
  outputFile : Bool
  procID : Int
  printLevel : Int
  locking : Bool
  numOuterIterations : Int
  numMatvecs : Int
  elapsedTime : K

section
variable {K : Type}

/-- `*p`. -/
def get {α : Type} (p : Option α) : Outcome α :=
  match p with
  | none => .ub
  | some a => .ok a

/-- How an eigenvalue is printed for Hermitian problems, the first argument of `KIND` in
src/eigs/primme_c.c:642. -/
def plain (x : K) : Line K := [.num x]

/-- How an eigenvalue is printed for normal problems: the real part, the imaginary part and `i`,
src/eigs/primme_c.c:642-648. -/
def cartesian (re im : K → K) (x : K) : Line K := [.num (re x), .num (im x), .word "i"]

/-- The line for the member `i` of the block, src/eigs/primme_c.c:638-651. -/
def outLine (ev : K → Line K) (p : Par K) (a : EigReport K) (found : Int) (i : Nat) : Outcome (Line K) := do
  let k ← deref a.iblock i
  let x ← deref a.basisEvals k
  let y ← deref a.basisNorms k
  .ok ([.word "OUT", .int p.numOuterIterations, .word "conv", .int found, .word "blk", .int i, .word "MV",
    .int p.numMatvecs, .word "Sec", .num p.elapsedTime, .word "EV"] ++ ev x ++ [.word "|r|", .num y])

/-- `case primme_event_outer_iteration`, src/eigs/primme_c.c:622-653. -/
def onOuter (ev : K → Line K) (p : Par K) (a : EigReport K) : Outcome (List (Line K)) :=
  if p.printLevel ≥ 3 then do
    let found ← get (if p.locking then a.numLocked else a.numConverged)
    let n ← get a.blockSize
    collect n.toNat (outLine ev p a found)
  else .ok []

/-- `case primme_event_inner_iteration`, src/eigs/primme_c.c:654-667. -/
def onInner (ev : K → Line K) (p : Par K) (a : EigReport K) : Outcome (List (Line K)) :=
  if p.printLevel ≥ 4 then do
    let k ← deref a.iblock 0
    let x ← deref a.basisEvals k
    let z ← get a.lsRes
    let y ← deref a.basisNorms k
    .ok [[.word "INN", .word "MV", .int p.numMatvecs, .word "Sec", .num p.elapsedTime, .word "Eval"] ++ ev x ++
      [.word "Lin|r|", .num z, .word "EV|r|", .num y]]
  else .ok []

/-- `case primme_event_converged`, src/eigs/primme_c.c:668-682. -/
def onConverged (ev : K → Line K) (p : Par K) (a : EigReport K) : Outcome (List (Line K)) :=
  if (¬ p.locking ∧ p.printLevel ≥ 2) ∨ (p.locking ∧ p.printLevel ≥ 5) then do
    let n ← get a.numConverged
    let k ← deref a.iblock 0
    let x ← deref a.basisEvals k
    let y ← deref a.basisNorms k
    .ok [[.word "#Converged", .int n, .word "eval[", .int k, .word "]="] ++ ev x ++
      [.word "norm", .num y, .word "Mvecs", .int p.numMatvecs, .word "Time", .num p.elapsedTime]]
  else .ok []

/-- `case primme_event_locked`, src/eigs/primme_c.c:683-698. -/
def onLocked (ev : K → Line K) (p : Par K) (a : EigReport K) : Outcome (List (Line K)) :=
  if p.printLevel ≥ 2 then do
    let n ← get a.numLocked
    let x ← deref a.lockedEvals (n - 1)
    let y ← deref a.lockedNorms (n - 1)
    let f ← deref a.lockedFlags (n - 1)
    .ok [[.word "Lock", .word "epair[", .int (n - 1), .word "]="] ++ ev x ++
      [.word "norm", .num y, .word "Mvecs", .int p.numMatvecs, .word "Time", .num p.elapsedTime,
        .word "Flag", .int f]]
  else .ok []

/-- `case primme_event_message`, src/eigs/primme_c.c:699-705.  The text is one field here. -/
def onMessage (p : Par K) (msg : Option String) : Outcome (List (Line K)) :=
  if p.printLevel ≥ 2 then do
    let m ← get msg
    .ok [[.word m]]
  else .ok []

variable [Zero K] [LT K] [DecidableLT K]

/-- `case primme_event_profile`, src/eigs/primme_c.c:706-714.  The text is one field here. -/
def onProfile (p : Par K) (msg : Option String) (time : Option K) : Outcome (List (Line K)) :=
  if p.printLevel ≥ 2 then do
    let t ← get time
    if t < 0 then
      if p.printLevel ≥ 3 then do
        let m ← get msg
        .ok [[.word "entering", .word "in", .word m, .word "proc", .int p.procID]]
      else .ok []
    else do
      let m ← get msg
      .ok [[.word "time", .num t, .word "for", .word m, .word "proc", .int p.procID]]
  else .ok []

/-- `default_monitor`, src/eigs/primme_c.c:602-721: the lines it prints.  It always sets `*err` to zero. -/
def eigs (ev : K → Line K) (p : Par K) (a : EigReport K) : Outcome (List (Line K)) :=
  if p.outputFile ∧ (p.procID = 0 ∨ a.event = .profile) then
    match a.event with
    | .outer => onOuter ev p a
    | .inner => onInner ev p a
    | .converged => onConverged ev p a
    | .locked => onLocked ev p a
    | .message => onMessage p a.msg
    | .profile => onProfile p a.msg a.time
    | .restart => .ok []
    | .reset => .ok []
  else .ok []

/-- `monitor_report`, src/eigs/auxiliary_eigs.c:64-82, with the default monitor: a time of at least -1/2
(here: not negative, or `entering`) is a profile event, any other is a message. -/
def report (ev : K → Line K) (p : Par K) (text : String) (time : Option K) : Outcome (List (Line K)) :=
  match time with
  | some t => eigs ev p { textOnly text .profile with time := some t }
  | none => eigs ev p (textOnly text .message)

/-- `PRINTFALLCTX`, src/include/common.h:304-313, and `PRINTFALL`, line 330: the time is -1. -/
def printAll (ev : K → Line K) (p : Par K) (level : Int) (text : String) : Outcome (List (Line K)) :=
  if level ≤ p.printLevel then report ev p text none else .ok []

/-- `PRINTF`, src/include/common.h:347. -/
def printf (ev : K → Line K) (p : Par K) (level : Int) (text : String) : Outcome (List (Line K)) :=
  if p.procID = 0 then printAll ev p level text else .ok []

/-- The message of `CHKERR` for a call that returned the code `code`, src/include/common.h:484-494. -/
def onError (ev : K → Line K) (p : Par K) (code : Int) (text : String) : Outcome (List (Line K)) :=
  if code ≠ 0 then printAll ev p 1 text else .ok []

/-- Read a cell of an array allocated for a report of the singular value solver; a cell never written has
no value. -/
def cell (l : List (Option K)) (i : Int) : Outcome K := do
  let c ← deref (some ⟨l, 0⟩) i
  get c

/-- The line for the member `i` of the block, src/svds/primme_svds_c.c:1801-1806. -/
def svdsOutLine (p : Par K) (a : SvReport K) (i : Nat) : Outcome (Line K) := do
  let k ← deref a.iblock i
  let x ← cell a.basisSvals k
  let y ← cell a.basisNorms k
  .ok [.word "OUT", .int p.numOuterIterations, .word "conv", .int a.numConverged, .word "blk", .int i,
    .word "MV", .int p.numMatvecs, .word "Sec", .num p.elapsedTime, .word "SV", .num x, .word "|r|", .num y,
    .word "stage", .int (a.stage + 1)]

/-- `case primme_event_outer_iteration`, src/svds/primme_svds_c.c:1795-1809. -/
def svdsOuter (p : Par K) (a : SvReport K) : Outcome (List (Line K)) :=
  if p.printLevel ≥ 3 then collect a.blockSize.toNat (svdsOutLine p a) else .ok []

/-- `case primme_event_inner_iteration`, src/svds/primme_svds_c.c:1810-1820. -/
def svdsInner (p : Par K) (a : SvReport K) : Outcome (List (Line K)) :=
  if p.printLevel ≥ 4 then do
    let k ← deref a.iblock 0
    let x ← cell a.basisSvals k
    let z ← get a.lsRes
    let y ← cell a.basisNorms k
    .ok [[.word "INN", .word "MV", .int p.numMatvecs, .word "Sec", .num p.elapsedTime, .word "Sval", .num x,
      .word "Lin|r|", .num z, .word "SV|r|", .num y, .word "stage", .int (a.stage + 1)]]
  else .ok []

/-- `case primme_event_converged`, src/svds/primme_svds_c.c:1825-1833. -/
def svdsConverged (p : Par K) (a : SvReport K) : Outcome (List (Line K)) :=
  if (a.stage = 0 ∧ p.printLevel ≥ 2) ∨ p.printLevel ≥ 5 then do
    let k ← deref a.iblock 0
    let x ← cell a.basisSvals k
    let y ← cell a.basisNorms k
    .ok [[.word "#Converged", .int a.numConverged, .word "sval[", .int k, .word "]=", .num x, .word "norm",
      .num y, .word "Mvecs", .int p.numMatvecs, .word "Time", .num p.elapsedTime, .word "stage",
      .int (a.stage + 1)]]
  else .ok []

/-- `case primme_event_locked`, src/svds/primme_svds_c.c:1834-1843. -/
def svdsLocked (p : Par K) (a : SvReport K) : Outcome (List (Line K)) :=
  if p.printLevel ≥ 2 then do
    let x ← cell a.lockedSvals (a.numLocked - 1)
    let y ← cell a.lockedNorms (a.numLocked - 1)
    let f ← deref a.lockedFlags (a.numLocked - 1)
    .ok [[.word "Lock", .word "striplet[", .int (a.numLocked - 1), .word "]=", .num x, .word "norm", .num y,
      .word "Mvecs", .int p.numMatvecs, .word "Time", .num p.elapsedTime, .word "Flag", .int f,
      .word "stage", .int (a.stage + 1)]]
  else .ok []

/-- `case primme_event_profile`, src/svds/primme_svds_c.c:1851-1859.  The text is one field here. -/
def svdsProfile (p : Par K) (msg : Option String) (t : K) : Outcome (List (Line K)) :=
  if p.printLevel ≥ 3 ∧ t < 0 then do
    let m ← get msg
    .ok [[.word "entering", .word "in", .word m, .word "proc", .int p.procID]]
  else if p.printLevel ≥ 2 ∧ ¬ t < 0 then do
    let m ← get msg
    .ok [[.word "time", .word "for", .word m, .word ":", .num t, .word "proc", .int p.procID]]
  else .ok []

/-- `default_monitor_svds`, src/svds/primme_svds_c.c:1775-1864: the lines it prints.  The case
`primme_event_message`, lines 1844-1850, is that of the eigensolver's monitor. -/
def svds (p : Par K) (a : SvReport K) : Outcome (List (Line K)) :=
  if p.outputFile ∧ (p.procID = 0 ∨ a.event = .profile) then
    match a.event with
    | .outer => svdsOuter p a
    | .inner => svdsInner p a
    | .converged => svdsConverged p a
    | .locked => svdsLocked p a
    | .message => onMessage p a.msg
    | .profile => svdsProfile p a.msg a.time
    | .restart => .ok []
    | .reset => .ok []
  else .ok []

end

end Verif.Print
