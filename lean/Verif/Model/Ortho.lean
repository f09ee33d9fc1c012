import Verif.Model.Basic
import Mathlib.Data.List.Range
import Mathlib.Algebra.Order.Field.Basic
import Mathlib.Algebra.Module.Basic

/-!
# Gram-Schmidt orthogonalisation with random replacement

Model of `Bortho_gen_Sprimme` (src/eigs/ortho.c:123-361) and of the return code of `ortho_Sprimme`
(ortho.c:363-372) and `Bortho_local_Sprimme` (ortho.c:395-416).

The arithmetic on vectors is given by an arbitrary set of kernels `Kern`: nothing forces them to be
exact, so what is proved without the contract `Exact` holds in floating point.  `sqrt a = none` and
`inv a = none` stand for results that are not finite.  Left out: the failure of the user's products and
reductions (the call returns at once, `CHKERR`), and the counters of inner products (C29).
-/

namespace Verif.Ortho
open Verif

/-- Vector kernels used by the routine. -/
structure Kern (K X : Type) where
  /-- `v' * B * x`: `B` applied to `x`, then `Num_gemv_ddh` or `Num_dot`, then the global sum. -/
  ip : X → X → K
  /-- One term of `Num_gemv_dhd`: `y - a*v`. -/
  sub : X → K → X → X
  /-- `Num_scal`. -/
  scal : K → X → X
  sqrt : K → Option K
  inv : K → Option K
  /-- `k`-th vector of `Num_larnv` since the beginning of the call. -/
  rnd : ℕ → X

/-- Settings: `maxNumOrthos` (3 or 7, ortho.c:134), whether `primme` is not `NULL`, `tol` (ortho.c:151),
`eps_orth` (ortho.c:182-183) and whether `R` or `RLocked` is given. -/
structure Cfg (K : Type) where
  prim : Bool
  tol : K
  eps : K
  wantR : Bool

/-- ortho.c:134. -/
def Cfg.maxNumOrthos {K : Type} (c : Cfg K) : ℕ := if c.prim then 3 else 7

/-- ortho.c:137. -/
def maxNumRandoms : ℕ := 10

variable {K X : Type} [Field K] [LinearOrder K]

/-- State of the work on one column: the vector, `s0` (`none`: not finite), the counters of orthogonalisations and
randomisations, `updateR`, the entries accumulated for `R` above the diagonal and for `RLocked`, `R[i,i]`,
and the number of random vectors drawn. -/
structure Cur (K X : Type) where
  x : X
  s0 : Option K
  nOrth : ℕ
  rand : ℕ
  updateR : Bool
  rcol : List K
  lcol : List K
  diag : K
  seed : ℕ

/-- Result of one turn of the loop: go on, the vector is accepted, or the limit of randomisations. -/
inductive Turn (K X : Type)
  | again (c : Cur K X)
  | accepted (c : Cur K X)
  | failed (c : Cur K X)

/-- `x - Σ a_k * v_k`. -/
def subAll (o : Kern K X) : List X → List K → X → X
  | v :: vs, a :: as, x => subAll o vs as (o.sub x a v)
  | _, _, x => x

/-- ortho.c:204-224: replacement by a random vector after `maxNumOrthos` passes; `none` when there were
too many. -/
def refresh (o : Kern K X) (g : Cfg K) (c : Cur K X) : Cur K X × Bool :=
  if c.nOrth ≥ g.maxNumOrthos then
    let c := if c.updateR then { c with diag := 0, updateR := false } else c
    if c.rand ≥ maxNumRandoms then (c, false)
    else ({ c with x := o.rnd c.seed, seed := c.seed + 1, rand := c.rand + 1, nOrth := 0 }, true)
  else (c, true)

/-- ortho.c:226-284: one pass against the locked vectors and the previous columns. -/
def project (o : Kern K X) (prev locked : List X) (c : Cur K X) : Cur K X :=
  let n := c.nOrth + 1
  let ov := prev.map (fun v => o.ip v c.x)
  let ol := locked.map (fun v => o.ip v c.x)
  let s0 := if n = 1 then o.sqrt (o.ip c.x c.x) else c.s0
  { c with
    nOrth := n
    s0 := s0
    rcol := if c.updateR then List.zipWith (· + ·) c.rcol ov else c.rcol
    lcol := if c.updateR then List.zipWith (· + ·) c.lcol ol else c.lcol
    x := subAll o prev ov (subAll o locked ol c.x) }

/-- ortho.c:286-323: what is done with the result of a pass. -/
def judge (o : Kern K X) (g : Cfg K) (c : Cur K X) : Turn K X :=
  match c.s0, o.sqrt (o.ip c.x c.x) with
  | some s0, some s1 =>
    if s1 ≤ g.eps * s0 then .again { c with nOrth := g.maxNumOrthos }
    else if s1 ≤ g.tol * s0 ∨ (g.prim = false ∧ c.nOrth < g.maxNumOrthos) then .again { c with s0 := some s1 }
    else
      let c := if c.updateR then { c with diag := s1 } else c
      match o.inv s1 with
      | some t => .accepted { c with x := o.scal t c.x }
      | none => .again { c with nOrth := g.maxNumOrthos }
  | _, _ => .again { c with nOrth := g.maxNumOrthos }

/-- One turn of the loop of ortho.c:203-324. -/
def turn (o : Kern K X) (g : Cfg K) (prev locked : List X) (c : Cur K X) : Turn K X :=
  match refresh o g c with
  | (c, false) => .failed c
  | (c, true) => judge o g (project o prev locked c)

/-- The loop; `none` when it has not ended after `fuel` turns.  The boolean tells a vector accepted
from the limit of randomisations. -/
def column (o : Kern K X) (g : Cfg K) (prev locked : List X) : ℕ → Cur K X → Option (Cur K X × Bool)
  | 0, _ => none
  | fuel + 1, c =>
    match turn o g prev locked c with
    | .again c => column o g prev locked fuel c
    | .accepted c => some (c, true)
    | .failed c => some (c, false)

/-- Number of turns that suffices for a column. -/
def turns (g : Cfg K) : ℕ := (maxNumRandoms + 1) * g.maxNumOrthos + 1

/-- State of the whole call.  `R` and `RL` hold one column per vector of the range, without the
diagonal of `R`, which is in `diag`. -/
structure St (K X : Type) where
  V : ℕ → X
  R : ℕ → List K
  RL : ℕ → List K
  diag : ℕ → K
  seed : ℕ
  out : ℕ
  /-- Statement only: which columns were replaced by random vectors. -/
  replaced : ℕ → Bool

/-- ortho.c:190-201: start of a column. -/
def start (g : Cfg K) (locked : List X) (i : ℕ) (s : St K X) : Cur K X where
  x := s.V i
  s0 := some 0
  nOrth := 0
  rand := 0
  updateR := g.wantR
  rcol := List.replicate i 0
  lcol := List.replicate locked.length 0
  diag := 0
  seed := s.seed

/-- Columns `i … i+cnt-1`, ortho.c:189-326. -/
def columns (o : Kern K X) (g : Cfg K) (locked : List X) : ℕ → ℕ → St K X → Option (St K X)
  | 0, _, s => some s
  | cnt + 1, i, s =>
    match column o g ((List.range i).map s.V) locked (turns g) (start g locked i s) with
    | none => none
    | some (c, ok) =>
      let s := { s with
        V := fun j => if j = i then c.x else s.V j
        R := fun j => if j = i then c.rcol else s.R j
        RL := fun j => if j = i then c.lcol else s.RL j
        diag := fun j => if j = i then c.diag else s.diag j
        seed := c.seed
        replaced := fun j => if j = i then decide (0 < c.rand) else s.replaced j }
      if ok then columns o g locked cnt (i + 1) { s with out := i + 1 } else some s

/-- `Bortho_gen_Sprimme` on the columns `b1 … b2` of `V`. -/
def bortho (o : Kern K X) (g : Cfg K) (locked : List X) (b1 b2 : ℕ) (V : ℕ → X) : Option (St K X) :=
  columns o g locked (b2 + 1 - b1) b1
    { V := V, R := fun _ => [], RL := fun _ => [], diag := fun _ => 0, seed := 0, out := b1, replaced := fun _ => false }

/-- Return value of `ortho_Sprimme` and `Bortho_local_Sprimme`. -/
def code (b2 : ℕ) (s : St K X) : Int := if s.out = b2 + 1 then 0 else -3

/-- Exact arithmetic: vectors form a space over the scalars, `ip` is symmetric and linear, and the kernels
compute what they say.  Complex scalars are left out. -/
structure Exact [AddCommGroup X] [Module K X] (o : Kern K X) : Prop where
  add : ∀ v x y, o.ip v (x + y) = o.ip v x + o.ip v y
  smul : ∀ v (a : K) x, o.ip v (a • x) = a * o.ip v x
  symm : ∀ x y, o.ip x y = o.ip y x
  sub : ∀ x a v, o.sub x a v = x - a • v
  scal : ∀ t x, o.scal t x = t • x
  sqrt : ∀ a r, o.sqrt a = some r → 0 ≤ r ∧ r * r = a
  inv : ∀ a t, o.inv a = some t → t * a = 1

/-- Besides, the inner product is positive, and square roots and inverses are finite where they exist. -/
structure Definite (o : Kern K X) : Prop where
  nonneg : ∀ x, 0 ≤ o.ip x x
  sqrt_some : ∀ a, 0 ≤ a → ∃ r, o.sqrt a = some r
  inv_some : ∀ a, a ≠ 0 → ∃ t, o.inv a = some t

end Verif.Ortho
