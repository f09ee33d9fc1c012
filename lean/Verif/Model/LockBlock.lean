import Verif.Model.Combine
import Verif.Model.Restart

/-!
# What a restart with locking leaves: the pairs that could not be locked and the next block

`compute_residual_columns` (src/eigs/restart.c:2464-2541) and the part of `restart_locking_Sprimme` that puts the pairs that
failed the last test back into the basis and prepares the next block (restart.c:997-1123), after the combinations of
`Verif.Model.Combine` and with the bookkeeping of `Verif.Model.Restart`.

Scalars are exact; the rows are distributed over processes and every process has its arrays (`Verif.Comb.Store`).  All the
arrays of the calls have the leading dimension `ldV`, which is not modelled.  Allocation failures are not modelled.
-/

namespace Verif.Lock
open Verif Verif.Comb
open Verif.Pract (turns)

variable {F : Type} [RCLike F]

/-- Arguments of `compute_residual_columns`, restart.c:2464-2469, for the only call (1051-1056): `x`, `xo` and `xd` are columns
of `V`, `Ax`, `ro` and `rd` the same columns of `W`, and `Bx`, `Bxo` and `Bxd` of `BV` when there is one.  `p` has the `n`
columns to be kept. -/
structure Cols (F : Type) where
  hasB : Bool
  evals : ℕ → F
  x : ℕ
  p : List ℕ
  xo : ℕ
  no : ℕ
  io0 : ℕ
  xd : ℕ
  nd : ℕ
  pd : Restart.Arr

/-- One turn of the loop over columns. -/
inductive Move where
  /-- Column `io` of `xo` goes to column `id` of the output (2493-2503). -/
  | other (id io : ℕ)
  /-- Column `s` of `x` goes to column `i` of `x`, and to column `id` of the output, if given (2504-2525). -/
  | own (id : Option ℕ) (i s : ℕ)
  deriving DecidableEq, Repr

/-- `for (i=id=io=0; i < n || id < nd; id++)`, restart.c:2491-2528: which columns go where.  The values in the columns play no
part in this, and the loop is the same for every block of rows.  The assertion at 2505 fails, or `p` is read beyond its end, or
`pd` is read where it has not been written: undefined.  `fuel` bounds the number of turns. -/
def plan (c : Cols F) : ℕ → ℕ → ℕ → ℕ → Outcome (List Move)
  | 0, _, _, _ => .ub
  | fuel + 1, i, id, io =>
    if c.p.length ≤ i ∧ c.nd ≤ id then .ok []
    else do
      let other ← if id < c.nd ∧ io < c.no then
          match c.pd id with
          | some v => Outcome.ok (decide (v = io + c.io0))
          | none => .ub
        else .ok false
      if other then do
        let r ← plan c fuel i (id + 1) (io + 1)
        .ok (.other id io :: r)
      else match c.p[i]? with
        | none => .ub
        | some s => do
          let r ← plan c fuel (i + 1) (id + 1) io
          .ok (.own (if id < c.nd then some id else none) i s :: r)

/-- The arrays and the workspace (column, row of the block). -/
structure Work (F : Type) where
  mem : Store F
  X0 : ℕ → ℕ → F
  BX0 : ℕ → ℕ → F
  R0 : ℕ → ℕ → F

/-- `Num_copy_matrix(&x[src*ldx + k], m, 1, ldx, &x[dst*ldx + k], ldx)`. -/
def move (arr : Arr) (src dst k m : ℕ) (mem : Store F) : Store F := fun a col r =>
  if a = arr ∧ col = dst ∧ k ≤ r ∧ r < k + m then mem arr src r else mem a col r

/-- A column of the workspace is replaced. -/
def setCol (id : ℕ) (f : ℕ → F) (X : ℕ → ℕ → F) : ℕ → ℕ → F := fun j r => if j = id then f r else X j r

/-- One turn for the rows from `k` on, `m` of them, restart.c:2491-2528. -/
def exec (M : ℕ) (c : Cols F) (k m : ℕ) (w : Work F) : Move → Work F
  | .other id io =>
    { w with
      X0 := setCol id (fun r => w.mem .V (c.xo + io) (k + r)) w.X0
      BX0 := if c.hasB then setCol id (fun r => w.mem .BV (c.xo + io) (k + r)) w.BX0 else w.BX0
      R0 := setCol id (fun r => w.mem .W (c.xo + io) (k + r)) w.R0 }
  | .own id i s =>
    let mem1 := move .V (c.x + s) (c.x + i) k m w.mem
    let mem2 := if c.hasB then move .BV (c.x + s) (c.x + i) k m mem1 else mem1
    let mem := move .W (c.x + s) (c.x + i) k m mem2
    match id with
    | none => { w with mem := mem }
    | some id =>
      { mem := mem
        X0 := setCol id (fun r => mem .V (c.x + s) (k + r)) w.X0
        BX0 := if c.hasB then setCol id (fun r => mem .BV (c.x + s) (k + r)) w.BX0 else w.BX0
        R0 := setCol id (residual M m (c.evals s) (fun r => mem (if c.hasB then .BV else .V) (c.x + s) (k + r))
          (fun r => mem .W (c.x + s) (k + r)) (w.R0 id)) w.R0 }

/-- A block of rows, restart.c:2491-2535; the workspace begins with any contents. -/
def turn (M : ℕ) (c : Cols F) (moves : List Move) (junk : ℕ → ℕ → F) (mem : Store F) (b : ℕ × ℕ) : Store F :=
  let w := moves.foldl (exec M c b.1 b.2) ⟨mem, junk, junk, junk⟩
  let m1 := put ⟨some (.V, c.xd), 0, c.nd⟩ b.1 b.2 w.X0 w.mem
  let m2 := if c.hasB then put ⟨some (.BV, c.xd), 0, c.nd⟩ b.1 b.2 w.BX0 m1 else m1
  put ⟨some (.W, c.xd), 0, c.nd⟩ b.1 b.2 w.R0 m2

/-- `Num_copy_matrix(&x[src*ldx], m, n, ldx, &x[dst*ldx], ldx)`: the columns one after the other (src/linalg/auxiliary.c; when
the columns are contiguous it is `memmove`, which gives the same when `dst <= src`). -/
def copyCols (arr : Arr) (src dst n m : ℕ) (mem : Store F) : Store F :=
  (List.range n).foldl (fun mem j => move arr (src + j) (dst + j) 0 m mem) mem

/-- `compute_residual_columns`, restart.c:2464-2541, on a process with `mV` rows. -/
def columns (M mV : ℕ) (c : Cols F) (moves : List Move) (junk : ℕ → ℕ → F) (mem : Store F) : Store F :=
  if c.p.length = 0 then
    let k := min c.no c.nd
    let m1 := copyCols .V c.xo c.xd k mV mem
    let m2 := if c.hasB then copyCols .BV c.xo c.xd k mV m1 else m1
    copyCols .W c.xo c.xd k mV m2
  else (turns M mV).foldl (turn M c moves junk) mem

/-- `blockNorms` in the merge of the candidates and of the pairs that failed, restart.c:1003-1028; see
`Verif.Restart.mergeLoop`.  `old` is `blockNorms0`, `rn` are the norms of the pairs packed, `n` is `sizeBlockNorms`, `mb` is
`maxBlockSize`. -/
def mergeNorms (b : ℕ) (p : Restart.Arr) (left : Int) (ip : ℕ) (failed : List ℕ) (mb n : Int) (old rn : ℕ → ℝ) :
    ℕ → ℕ → ℕ → ℕ → (ℕ → ℝ) → Outcome (ℕ → ℝ)
  | 0, _, _, _, z => .ok z
  | fuel + 1, i, j, k, z =>
    if i < ip ∨ j < failed.length then do
      let takeCand ← Restart.mergeTake b p left ip failed i j
      if takeCand then
        mergeNorms b p left ip failed mb n old rn fuel (i + 1) j (k + 1)
          (if (k : Int) < mb ∧ (i : Int) < n then fun t => if t = k then old i else z t else z)
      else
        mergeNorms b p left ip failed mb n old rn fuel i (j + 1) (k + 1)
          (if (k : Int) < mb then fun t => if t = k then rn (failed.getD j 0) else z t else z)
    else .ok z

/-- "Update H", restart.c:1113-1118: first columns, then rows, in place. -/
def gatherH (left np : ℕ) (f : List ℕ) (H : ℕ → ℕ → F) : ℕ → ℕ → F :=
  let H1 := (List.range f.length).foldl
    (fun H j => fun i c => if c = left + j ∧ i < left + np then H i (left + f.getD j 0) else H i c) H
  (List.range f.length).foldl
    (fun H j => fun i c => if i = left + j ∧ c < left + f.length then H (left + f.getD j 0) c else H i c) H1

/-- "Update VtBV", restart.c:1092-1110: `k` is `nLocked`, `iV` the order of the columns. -/
def gatherG (k : ℕ) (iV : List ℕ) (G : ℕ → ℕ → F) : ℕ → ℕ → F := fun i j =>
  if k ≤ j ∧ j < k + iV.length then
    if i < k then G i (k + iV.getD (j - k) 0)
    else if i < k + iV.length then G (k + iV.getD (i - k) 0) (k + iV.getD (j - k) 0)
    else G i j
  else G i j

/-- What the solver has after the restart with locking. -/
structure After (F : Type) where
  s : Restart.Locked
  mem : ℕ → Store F
  /-- `hVals` -/
  vals : ℕ → F
  blockNorms : ℕ → ℝ
  H : ℕ → ℕ → F
  VtBV : ℕ → ℕ → F

/-- The arrays and the options of a restart. -/
structure Before (F : Type) where
  M : ℕ
  /-- Number of processes and rows on each. -/
  procs : ℕ
  rows : ℕ → ℕ
  hasBV : Bool
  /-- `orth == primme_orth_explicit_I`; `VtBV` is given. -/
  explicit : Bool
  /-- The coefficient vectors: row, column (restart.c:340-372: retained vectors are among them). -/
  hVecs : ℕ → ℕ → F
  hVals : ℕ → F
  mem : ℕ → Store F
  /-- `numOrthoConst` -/
  q : ℕ
  err : ℝ
  VtBV : ℕ → ℕ → F
  junk : ℕ → ℕ → F
  blockNorms : ℕ → ℝ

/-- `restart_locking_Sprimme`, restart.c:832-1187, as called by `restart_Sprimme` (restart.c:224-372), with the vectors.  The
locking itself, restart.c:1135-1173, is in `Verif.Model.Locking`.  `hVals` and `hVecs` are permuted at 914-917 and compacted at
1083-1087. -/
noncomputable def restart (P : Restart.Par) (o : Restart.Answers) (b nl : ℕ) (flags : List Conv.Flag) (g : Int) (a : Before F) :
    Outcome (After F) := do
  let fl := Restart.recount P nl 0 nl (flags.take b)
  let flags := fl.1 ++ flags.drop b
  let nc := fl.2
  let rs := (Restart.sizes P b nl nc g).1
  let s ← Restart.lockingRestart P o.check b flags nc nl rs o.retained
  let pn ← Restart.packLoop P b nl s.left ((min nc P.numEvals : ℕ) - nl) (flags.take b) 0 0 0 (fun _ => none)
  let left := s.left.toNat
  let h : ℕ → ℕ → F := fun k c => a.hVecs k ((pn.1 c).getD 0)
  let vals : ℕ → F := fun c => a.hVals ((pn.1 c).getD 0)
  let sz := Restart.lockBlock P rs o.retained nc nl
  let mb := max 0 (min sz.1 ((P.maxBasisSize : Int) - (s.left + pn.2) - o.retained - nc + nl))
  let u := auxUpdate a.M a.procs a.rows (lockArgs a.hasBV a.explicit b h vals left pn.2 sz.2.toNat (nl + a.q)) a.junk a.mem a.err
    (nl + a.q) a.VtBV
  let old : ℕ → ℝ := fun i => if i < sz.2.toNat then u.toRes.Rn i else a.blockNorms i
  let norms ← mergeNorms b pn.1 s.left rs.toNat s.failed mb sz.2 old u.norms (rs.toNat + s.failed.length) 0 0 0 old
  let c : Cols F := { hasB := a.hasBV, evals := fun i => vals (left + i), x := left, p := s.failed, xo := left + pn.2,
                      no := sz.2.toNat, io0 := 0, xd := left + s.failed.length, nd := mb.toNat, pd := s.hVecsPerm }
  let moves ← if s.failed.length = 0 then Outcome.ok [] else plan c (s.failed.length + mb.toNat + 1) 0 0 0
  .ok { s := s
        mem := fun p => columns a.M (a.rows p) c moves a.junk (u.toRes.mem p)
        vals := fun i => if left ≤ i ∧ i < left + s.failed.length then vals (left + s.failed.getD (i - left) 0) else vals i
        blockNorms := norms
        H := if a.explicit then gatherH left pn.2 s.failed u.toRes.H else u.toRes.H
        VtBV := if a.explicit then
            gatherG (nl + a.q) ((Restart.passedIdx 0 s.packed).map (· + left) ++ List.range left ++ s.failed.map (· + left)) u.VtBV
          else u.VtBV }

end Verif.Lock
