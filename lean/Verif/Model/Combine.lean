import Verif.Model.PractProj

/-!
# Combinations of the basis, residual vectors and their norms

`Num_update_VWXR_Sprimme` (src/eigs/auxiliary_eigs_normal.c:155-388), `Num_aux_update_VWXR_Sprimme`
(src/eigs/restart.c:1233-1295) and the four places that call them: both restarts, the choice of candidates and the copy of
the last candidates.

Scalars are exact.  The rows of the arrays are distributed over processes.  Every process has its arrays, indexed by array,
column and row: the outputs may be columns of the inputs, as in the calls of the solver.  All the pointers into an array have
its leading dimension and point to the start of a column (so they do in the calls, main_iter.c:1666 and 1783), hence leading
dimensions are not modelled.  `M` is `PRIMME_BLOCK_SIZE`.  Allocation failures, times and operation counts are not modelled.
-/

open scoped ComplexConjugate

namespace Verif.Comb
open Verif.Pract (turns)

variable {F : Type} [RCLike F]

/-- Arrays of the solver. -/
inductive Arr where
  | V | W | BV | evecs | Bevecs | other (n : ℕ)
  deriving DecidableEq

/-- The arrays of a process: array, column, row. -/
abbrev Store (F : Type) := Arr → ℕ → ℕ → F

/-- An output: where its first column goes (`none` for `NULL`) and the range of columns of `h` it is made of, `b` included
and `e` not. -/
structure Out where
  loc : Option (Arr × ℕ)
  b : ℕ
  e : ℕ

/-- An output that is not wanted. -/
def Out.no : Out := ⟨none, 0, 0⟩

/-- Arguments of `Num_update_VWXR_Sprimme`, auxiliary_eigs_normal.c:155-172; `h k j` is row `k` of column `j`.  `Rnorms`,
`rnorms` and `xnorms` tell whether these pointers are given; `G` and `H` are the orders of these matrices, if given. -/
structure Args (F : Type) where
  hasBV : Bool
  nV : ℕ
  h : ℕ → ℕ → F
  hVals : ℕ → F
  X0 : Out
  X1 : Out
  X2 : Out
  Wo : Out
  R : Out
  Rnorms : Bool
  BX0 : Out
  BX1 : Out
  BX2 : Out
  rnorms : Bool
  nrb : ℕ
  nre : ℕ
  G : Option ℕ
  H : Option ℕ
  xnorms : Bool
  nxb : ℕ
  nxe : ℕ

/-- `INT_MAX`. -/
def intMax : ℕ := 2147483647

/-- `nXb = INT_MAX; nXe = 0; if (c && b < e) nXb = min(nXb, b), nXe = max(nXe, e); ... nXe = max(nXe, nXb)`,
auxiliary_eigs_normal.c:190-222: the columns a workspace holds. -/
def columns (l : List (Bool × ℕ × ℕ)) : ℕ × ℕ :=
  let r := l.foldl (fun r x => if x.1 && x.2.1 < x.2.2 then (min r.1 x.2.1, max r.2 x.2.2) else r) (intMax, 0)
  (r.1, max r.2 r.1)

/-- Columns of `V*h`, auxiliary_eigs_normal.c:193-201. -/
def columnsX (a : Args F) : ℕ × ℕ := columns
  [(a.X0.loc.isSome, a.X0.b, a.X0.e), (a.X1.loc.isSome, a.X1.b, a.X1.e), (a.X2.loc.isSome, a.X2.b, a.X2.e),
   (a.R.loc.isSome && !a.hasBV, a.R.b, a.R.e), (a.G.isSome, 0, a.G.getD 0), (a.H.isSome, 0, a.H.getD 0),
   (a.rnorms && !a.hasBV, a.nrb, a.nre), (a.xnorms, a.nxb, a.nxe)]

/-- Columns of `W*h`, auxiliary_eigs_normal.c:203-207. -/
def columnsY (a : Args F) : ℕ × ℕ := columns
  [(a.Wo.loc.isSome, a.Wo.b, a.Wo.e), (a.R.loc.isSome, a.R.b, a.R.e), (a.rnorms, a.nrb, a.nre),
   (a.H.isSome, 0, a.H.getD 0)]

/-- Columns of `BV*h`, auxiliary_eigs_normal.c:209-217. -/
def columnsBX (a : Args F) : ℕ × ℕ := columns (if a.hasBV then
  [(a.BX0.loc.isSome, a.BX0.b, a.BX0.e), (a.BX1.loc.isSome, a.BX1.b, a.BX1.e), (a.BX2.loc.isSome, a.BX2.b, a.BX2.e),
   (a.R.loc.isSome, a.R.b, a.R.e), (a.G.isSome, 0, a.G.getD 0), (a.rnorms, a.nrb, a.nre)] else [])

/-- A workspace with the columns `c`: column `j` of the product, row of the block.  What lies outside is anything (`junk`). -/
def work (c : ℕ × ℕ) (junk : ℕ → ℕ → F) (f : ℕ → ℕ → F) : ℕ → ℕ → F :=
  fun j r => if c.1 ≤ j ∧ j < c.2 then f j r else junk j r

/-- `Num_copy_matrix(&X[ldX*(b-nXb)], m, e-b, ldX, &X0[i], ldX0)`, for instance auxiliary_eigs_normal.c:259-261: the rows from
`i` on, `m` of them, of the output. -/
def put (o : Out) (i m : ℕ) (src : ℕ → ℕ → F) (mem : Store F) : Store F := fun arr col r =>
  match o.loc with
  | some l => if arr = l.1 ∧ l.2 ≤ col ∧ col < l.2 + (o.e - o.b) ∧ i ≤ r ∧ r < i + m
      then src (o.b + (col - l.2)) (r - i) else mem arr col r
  | none => mem arr col r

/-- `Num_compute_residuals_Sprimme`, auxiliary_eigs_normal.c:69-98, one column: `r` begins with any contents; it may be the
array `Ax` itself, as every element is read before it is written and only once. -/
def residual (M m : ℕ) (eval : F) (Bx Ax : ℕ → F) (r : ℕ → F) : ℕ → F :=
  (turns M m).foldl (fun r b i => if b.1 ≤ i ∧ i < b.1 + b.2 then Ax i + -eval * Bx i else r i) r

/-- `REAL_PART(Num_dot(m, x, 1, x, 1))`. -/
def square (m : ℕ) (x : ℕ → F) : ℝ := ∑ r ∈ Finset.range m, RCLike.re (conj (x r) * x r)

/-- What a process has: arrays, squares of norms and products so far. -/
structure St (F : Type) where
  mem : Store F
  Rn : ℕ → ℝ
  rn : ℕ → ℝ
  xn : ℕ → ℝ
  G : ℕ → ℕ → F
  H : ℕ → ℕ → F

/-- One turn of the loop over blocks of rows, auxiliary_eigs_normal.c:252-342: rows from `b.1` on, `b.2` of them. -/
def step (M : ℕ) (a : Args F) (junk : ℕ → ℕ → F) (s : St F) (b : ℕ × ℕ) : St F :=
  let cx := columnsX a
  let cy := columnsY a
  let cb := columnsBX a
  let X := work cx junk fun j r => ∑ k ∈ Finset.range a.nV, s.mem .V k (b.1 + r) * a.h k j
  let mem1 := put a.X2 b.1 b.2 X (put a.X1 b.1 b.2 X (put a.X0 b.1 b.2 X s.mem))
  let Y := work cy junk fun j r => ∑ k ∈ Finset.range a.nV, mem1 .W k (b.1 + r) * a.h k j
  let mem2 := put a.Wo b.1 b.2 Y mem1
  let BX := if a.hasBV then work cb junk fun j r => ∑ k ∈ Finset.range a.nV, mem2 .BV k (b.1 + r) * a.h k j else junk
  let mem3 := put a.BX2 b.1 b.2 BX (put a.BX1 b.1 b.2 BX (put a.BX0 b.1 b.2 BX mem2))
  let beta : F := if b.1 = 0 then 0 else 1
  let Bx := if a.hasBV then BX else X
  let first := if a.hasBV then cb.1 else cx.1
  let Rc : ℕ → ℕ → F := fun j => residual M b.2 (a.hVals j) (Bx j) (Y j) (junk j)
  { mem := put a.R b.1 b.2 Rc mem3
    Rn := fun c => if a.R.loc.isSome && a.Rnorms then s.Rn c + square b.2 (Rc (a.R.b + c)) else s.Rn c
    rn := fun c => if a.rnorms then s.rn c + square b.2
      (residual M b.2 (a.hVals (a.nrb + c)) (Bx (a.nrb + c)) (Y (a.nrb + c)) (Y (a.nrb + c))) else s.rn c
    xn := fun c => if a.xnorms then s.xn c + square b.2 (X (a.nxb + c)) else s.xn c
    G := fun p q => if a.G.isSome then
      (∑ r ∈ Finset.range b.2, conj (X (cx.1 + p) r) * Bx (first + q) r) + beta * s.G p q else s.G p q
    H := fun p q => if a.H.isSome then
      (∑ r ∈ Finset.range b.2, conj (X (cx.1 + p) r) * Y (cy.1 + q) r) + beta * s.H p q else s.H p q }

/-- One process: auxiliary_eigs_normal.c:246-342. -/
def local' (M mV : ℕ) (a : Args F) (junk : ℕ → ℕ → F) (mem : Store F) : St F :=
  (turns M mV).foldl (step M a junk) ⟨mem, fun _ => 0, fun _ => 0, fun _ => 0, fun _ _ => 0, fun _ _ => 0⟩

/-- What the call leaves: the arrays of the processes, the norms and the products summed over the processes. -/
structure Res (F : Type) where
  mem : ℕ → Store F
  Rn : ℕ → ℝ
  rn : ℕ → ℝ
  xn : ℕ → ℝ
  G : ℕ → ℕ → F
  H : ℕ → ℕ → F

/-- `Num_update_VWXR_Sprimme` on `P` processes with `rows p` rows, auxiliary_eigs_normal.c:155-388. -/
noncomputable def update (M P : ℕ) (rows : ℕ → ℕ) (a : Args F) (junk : ℕ → ℕ → F) (mem : ℕ → Store F) : Res F :=
  let loc := fun p => local' M (rows p) a junk (mem p)
  { mem := fun p => (loc p).mem
    Rn := fun c => Real.sqrt (∑ p ∈ Finset.range P, (loc p).Rn c)
    rn := fun c => Real.sqrt (∑ p ∈ Finset.range P, (loc p).rn c)
    xn := fun c => Real.sqrt (∑ p ∈ Finset.range P, (loc p).xn c)
    G := fun i j => ∑ p ∈ Finset.range P, (loc p).G i j
    H := fun i j => ∑ p ∈ Finset.range P, (loc p).H i j }

/-- What `Num_aux_update_VWXR_Sprimme` leaves besides. -/
structure AuxRes (F : Type) where
  toRes : Res F
  /-- `rnorms`. -/
  norms : ℕ → ℝ
  /-- `VtBV`: row, column. -/
  VtBV : ℕ → ℕ → F

/-- `Num_aux_update_VWXR_Sprimme`, restart.c:1233-1295.  `k` is `evecsSize`; `VtBV` is given when `a.G` is; `err` is
`estimateResidualError`.  Process zero computes the products and broadcasts them. -/
noncomputable def auxUpdate (M P : ℕ) (rows : ℕ → ℕ) (a : Args F) (junk : ℕ → ℕ → F) (mem : ℕ → Store F) (err : ℝ) (k : ℕ)
    (VtBV : ℕ → ℕ → F) : AuxRes F :=
  let u := update M P rows a junk mem
  { toRes := u
    norms := fun c => if c < a.nre - a.nrb then max (u.rn c) err else u.rn c
    VtBV := match a.G with
      | none => VtBV
      | some n => fun i j =>
        let G : ℕ → ℕ → F := fun i j => if k ≤ i ∧ i < k + n ∧ k ≤ j ∧ j < k + n then u.G (i - k) (j - k) else VtBV i j
        if i < k ∧ k ≤ j ∧ j < k + (a.X0.e - a.X0.b) then
          ∑ l ∈ Finset.range a.nV, G i (k + l) * a.h l (j - k) else G i j }

/-- The call in `restart_soft_locking_Sprimme`, restart.c:692-705: `rs` is `*restartSize`, `nc` is `*numConverged`, `n` is
`*ievSize`, `q` is `numOrthoConst`; `explicit` tells whether `VtBV` is there. -/
def softArgs (hasBV explicit : Bool) (basisSize : ℕ) (h : ℕ → ℕ → F) (hVals : ℕ → F) (rs nc n q : ℕ) : Args F where
  hasBV := hasBV
  nV := basisSize
  h := h
  hVals := hVals
  X0 := ⟨some (.V, 0), 0, rs⟩
  X1 := ⟨some (.V, rs), nc, nc + n⟩
  X2 := ⟨some (.evecs, q), 0, nc⟩
  Wo := ⟨some (.W, 0), 0, rs⟩
  R := ⟨some (.W, rs), nc, nc + n⟩
  Rnorms := true
  BX0 := if hasBV then ⟨some (.BV, 0), 0, rs⟩ else ⟨none, 0, rs⟩
  BX1 := if hasBV then ⟨some (.BV, rs), nc, nc + n⟩ else ⟨none, nc, nc + n⟩
  BX2 := if hasBV then ⟨some (.Bevecs, q), 0, nc⟩ else ⟨none, 0, nc⟩
  rnorms := false
  nrb := 0
  nre := 0
  G := if explicit then some rs else none
  H := if explicit then some rs else none
  xnorms := false
  nxb := 0
  nxe := 0

/-- The call in `restart_locking_Sprimme`, restart.c:931-945: `left + packed` is `*restartSize`, `q` is
`*numLocked + numOrthoConst`, `n` is `sizeBlockNorms`. -/
def lockArgs (hasBV explicit : Bool) (basisSize : ℕ) (h : ℕ → ℕ → F) (hVals : ℕ → F) (left packed n q : ℕ) : Args F where
  hasBV := hasBV
  nV := basisSize
  h := h
  hVals := hVals
  X0 := ⟨some (.V, 0), 0, left + packed⟩
  X1 := ⟨some (.V, left + packed), 0, n⟩
  X2 := ⟨some (.evecs, q), left, left + packed⟩
  Wo := ⟨some (.W, 0), 0, left + packed⟩
  R := ⟨some (.W, left + packed), 0, n⟩
  Rnorms := true
  BX0 := if hasBV then ⟨some (.BV, 0), 0, left + packed⟩ else ⟨none, 0, left + packed⟩
  BX1 := if hasBV then ⟨some (.BV, left + packed), 0, n⟩ else ⟨none, 0, n⟩
  BX2 := if hasBV then ⟨some (.Bevecs, q), left, left + packed⟩ else ⟨none, left, left + packed⟩
  rnorms := true
  nrb := left
  nre := left + packed
  G := if explicit then some (left + packed) else none
  H := if explicit then some (left + packed) else none
  xnorms := false
  nxb := 0
  nxe := 0

/-- The call in `prepare_candidates`, main_iter.c:1668-1682, with the pointers of main_iter.c:557 (`computeXR`) and 983 (not):
`d` is `*blockSize`, `n` is `blockNormsSize`, `h` and `hVals` those of the candidates.  The norms of the residuals are those
at `Rnorms` or `rnorms`, which are the same array. -/
def candArgs (hasBV computeXR : Bool) (basisSize : ℕ) (h : ℕ → ℕ → F) (hVals : ℕ → F) (d n : ℕ) : Args F where
  hasBV := hasBV
  nV := basisSize
  h := h
  hVals := hVals
  X0 := if computeXR then ⟨some (.V, basisSize + d), 0, n⟩ else Out.no
  X1 := Out.no
  X2 := Out.no
  Wo := Out.no
  R := if computeXR then ⟨some (.W, basisSize + d), 0, n⟩ else Out.no
  Rnorms := computeXR
  BX0 := if computeXR && hasBV then ⟨some (.BV, basisSize + d), 0, n⟩ else Out.no
  BX1 := Out.no
  BX2 := Out.no
  rnorms := true
  nrb := 0
  nre := if computeXR then 0 else n
  G := none
  H := none
  xnorms := hasBV
  nxb := 0
  nxe := if hasBV then n else 0

/-- The call in `copy_back_candidates`, main_iter.c:1786-1800: `h` and `hVals` from the pair `i` on, `q` is `numConverged`. -/
def copyArgs (hasBV : Bool) (basisSize : ℕ) (h : ℕ → ℕ → F) (hVals : ℕ → F) (q n : ℕ) : Args F where
  hasBV := hasBV
  nV := basisSize
  h := h
  hVals := hVals
  X0 := ⟨some (.evecs, q), 0, n⟩
  X1 := Out.no
  X2 := Out.no
  Wo := Out.no
  R := Out.no
  Rnorms := false
  BX0 := Out.no
  BX1 := Out.no
  BX2 := Out.no
  rnorms := true
  nrb := 0
  nre := n
  G := none
  H := none
  xnorms := false
  nxb := 0
  nxe := 0

/-- The norms of the candidates' residuals after main_iter.c:1684-1688, which raise those smaller than
`stats.estimateResidualError`; `d` is `*blockSize`, `n` is `blockNormsSize`, and the candidates' norms are those from `d` to
`d + n`. -/
noncomputable def raise (d n : ℕ) (err : ℝ) (norms : ℕ → ℝ) (i : ℕ) : ℝ :=
  if d ≤ i ∧ i < n then max (norms i) err else norms i

/-- `stats.estimateBNorm` and `stats.estimateInvBNorm` after main_iter.c:1693-1700; `xn` from `XNorms[*blockSize]` on.  They
start at `-HUGE_VAL`, here `⊥`. -/
noncomputable def estimates (n : ℕ) (xn : ℕ → ℝ) (e : WithBot ℝ × WithBot ℝ) : WithBot ℝ × WithBot ℝ :=
  (List.range n).foldl (fun e i => (max e.1 ((1 / xn i : ℝ) : WithBot ℝ), max e.2 ((xn i : ℝ) : WithBot ℝ))) e

end Verif.Comb
