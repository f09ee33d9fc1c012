import Mathlib.Algebra.Module.Basic
import Mathlib.Algebra.Field.Basic

/-!
# The inner solver

Model of `inner_solve_Sprimme` of src/eigs/inner_solve.c:129-660 (lines cited below): QMR on a block of correction equations whose columns stop at
different iterations.  Columns that have stopped are moved behind the active ones by permutations of the arrays; `p` keeps the original index
of the column at each position.

The arrays of vectors (`g`, `d`, `delta`, `r`, `x`, `sol`, the projectors, `shift`, `xKinvBx`) are indexed by position.  The arrays of scalars are
indexed by the original column, `p[i]`, except that the inner products write `sigma_prev`, `Theta` and `rho` by position; the model keeps this.

Simplifications: no mass matrix (`B = I`, `Bx = x`), leading dimensions equal to the local size, exact arithmetic in a field, kernels and
communication do not fail.  The scalars used only by the adaptive stopping test (`Beta_prev`, `Delta_prev`, `Psi_prev`, `Gamma_prev`, `Phi_prev`,
`eval_prev`, `eres_updated`, `tau_init`, `eval`) are the abstract `mem`, since each of them is read and written by the test of its own column only.
-/

namespace Verif.Inner

/-- What moves with a column: `shift`, `xKinvBx`, `g`, `d`, `delta`, `r`, `sol`. -/
structure Vecs (K V : Type) where
  shift : K
  xk : K
  g : V
  d : V
  delta : V
  r : V
  sol : V

/-- The scalars of an original column. -/
structure Loc (K M : Type) where
  alpha : K
  rhoPrev : K
  tauPrev : K
  tau : K
  thetaPrev : K
  gamma : K
  eta : K
  mem : M

/-- The operators and tests.  `mul s x v`: `(I - x x')(I - Q Q')(A - s) v`, the second projector always the same (apply_projected_matrix,
inner_solve.c:838-890).  `prec k xr v`: the preconditioner with the right projectors (720-742).  `broken sigma rho`: the tests of
lines 322-323 and 337-340.  `second`: the tests of lines 426-590, with the new `mem`. -/
structure Ops (K V M : Type) where
  mul : K → Option V → V → V
  prec : K → Option (V × V) → V → V
  dot : V → V → K
  sqrt : K → K
  broken : K → K → Bool
  second : ℕ → (shift dotSol sigma rhoPrev tauPrev tau gamma eta : K) → M → Bool × M

/-- `RprojectorX`: absent, `x` itself, or `KinvBx` (setup_JD_projectors, correction.c:966-990). -/
inductive Right where
  | none
  | same
  | kinv
  deriving DecidableEq

/-- Which projectors with `x` there are.  `LprojectorX` is `x` itself (correction.c:919-938). -/
structure Cfg where
  leftX : Bool
  right : Right
  deriving DecidableEq

/-- State of the solver. -/
structure St (K V M : Type) where
  /-- `blockSize`: the active columns. -/
  b : ℕ
  /-- `p`. -/
  p : ℕ → ℕ
  vec : ℕ → Vecs K V
  x : ℕ → V
  /-- `KinvBx`. -/
  rx : ℕ → V
  sigma : ℕ → K
  theta : ℕ → K
  rho : ℕ → K
  loc : ℕ → Loc K M
  /-- Products with the matrix. -/
  prods : ℕ

section
variable {α : Type}

/-- `a[i] = v`. -/
def put (a : ℕ → α) (i : ℕ) (v : α) : ℕ → α := fun k => if k = i then v else a k

/-- `for (i = 0; i < n; i++) a[p[i]] = f(i, a[p[i]])`. -/
def forCols (p : ℕ → ℕ) (f : ℕ → α → α) : ℕ → (ℕ → α) → ℕ → α
  | 0, a => a
  | n + 1, a => put (forCols p f n a) (p n) (f n (forCols p f n a (p n)))

/-- The first position below `n` with the value `v`. -/
def findPos (p : ℕ → ℕ) (v : ℕ) : ℕ → Option ℕ
  | 0 => none
  | n + 1 => match findPos p v n with
    | some j => some j
    | none => if p n = v then some n else none

/-- `perm_set_value_on_pos`, inner_solve.c:913-925: `none` is the return value -1. -/
def setPos (p : ℕ → ℕ) (v pos n : ℕ) : Option (ℕ → ℕ) :=
  match findPos p v n with
  | some j => some (put (put p j (p pos)) pos v)
  | none => none

/-- The permutation `p0` and the count `conv` of a loop over the columns that calls `perm_set_value_on_pos` for the ones that stop,
inner_solve.c:319-361, 424-593: state after the first `k` columns of `n`. -/
def mark (stop : ℕ → Bool) (n : ℕ) : ℕ → Option ((ℕ → ℕ) × ℕ)
  | 0 => some (id, 0)
  | k + 1 => match mark stop n k with
    | some (p0, conv) =>
      if stop k then (setPos p0 k (n - (conv + 1)) n).map fun q => (q, conv + 1) else some (p0, conv)
    | none => none

/-- `permute_vecs`: column `i` of the result is column `p0[i]`, for the first `n`; `C40`-`C44` cover the function itself. -/
def permuted (p0 : ℕ → ℕ) (n : ℕ) (a : ℕ → α) : ℕ → α := fun i => if i < n then a (p0 i) else a i

/-- Applied several times. -/
def permutedTimes (p0 : ℕ → ℕ) (n : ℕ) : ℕ → (ℕ → α) → ℕ → α
  | 0, a => a
  | k + 1, a => permuted p0 n (permutedTimes p0 n k a)

end

variable {K V M : Type} [Field K] [AddCommGroup V] [Module K V]

/-- How many of the calls of `permute_vecs` of inner_solve.c:364-374 hit the array `x`: the one for `x`, the one for `LprojectorX`, which is `x`, and
the one for `RprojectorX` if it is `x`. -/
def timesX (c : Cfg) : ℕ := 1 + (if c.leftX then 1 else 0) + if c.right = .same then 1 else 0

/-- "Apply permutation p0 and shrink blockSize", inner_solve.c:363-377 and 594-607. -/
def shrink (c : Cfg) (p0 : ℕ → ℕ) (conv : ℕ) (s : St K V M) : St K V M :=
  { s with p := permuted p0 s.b s.p, vec := permuted p0 s.b s.vec, x := permutedTimes p0 s.b (timesX c) s.x
           rx := if c.right = .kinv then permuted p0 s.b s.rx else s.rx, b := s.b - conv }

/-- `LprojectorX` of position `i`. -/
def left (c : Cfg) (x : V) : Option V := if c.leftX then some x else none

/-- `x` and `RprojectorX` of position `i`. -/
def right (c : Cfg) (x rx : V) : Option (V × V) :=
  match c.right with
  | .none => none
  | .same => some (x, x)
  | .kinv => some (x, rx)

/-- The product of position `i`, inner_solve.c:311-314. -/
def product (o : Ops K V M) (c : Cfg) (s : St K V M) (i : ℕ) : V := o.mul (s.vec i).shift (left c (s.x i)) (s.vec i).d

/-- `sigma_prev` after the inner products, inner_solve.c:315-316. -/
def sigmaOf (o : Ops K V M) (c : Cfg) (s : St K V M) : ℕ → K :=
  fun k => if k < s.b then o.dot (s.vec k).d (product o c s k) else s.sigma k

/-- Whether position `i` stops at the first check. -/
def stop1 (o : Ops K V M) (c : Cfg) (s : St K V M) (i : ℕ) : Bool := o.broken (sigmaOf o c s (s.p i)) (s.loc (s.p i)).rhoPrev

/-- First half of an iteration, inner_solve.c:311-361: product, `sigma`, `alpha`, the new `g`; a column that stops in the first iteration gets
its residual as solution. -/
def half1 (o : Ops K V M) (c : Cfg) (t : ℕ) (s : St K V M) : St K V M :=
  { s with
    sigma := sigmaOf o c s
    loc := forCols s.p (fun i l => { l with alpha := l.rhoPrev / sigmaOf o c s (s.p i) }) s.b s.loc
    vec := fun i => if i < s.b then
        if stop1 o c s i then (if t = 0 then { s.vec i with sol := (s.vec i).r } else s.vec i)
        else { s.vec i with g := (s.vec i).g - ((s.loc (s.p i)).rhoPrev / sigmaOf o c s (s.p i)) • product o c s i }
      else s.vec i
    prods := s.prods + s.b }

/-- `Theta` after the inner products, inner_solve.c:381-382. -/
def thetaOf (o : Ops K V M) (s : St K V M) : ℕ → K := fun k => if k < s.b then o.dot (s.vec k).g (s.vec k).g else s.theta k

/-- `Theta[p[i]] = sqrt(Theta[p[i]]) / tau_prev[p[i]]`, inner_solve.c:385. -/
def thetaNew (o : Ops K V M) (s : St K V M) (i : ℕ) : K := o.sqrt (thetaOf o s (s.p i)) / (s.loc (s.p i)).tauPrev

/-- `c`, inner_solve.c:386. -/
def cosOf (o : Ops K V M) (th : K) : K := 1 / o.sqrt (1 + th * th)

/-- The scalars of a column in the second half, inner_solve.c:385-390. -/
def scalars (o : Ops K V M) (th : K) (l : Loc K M) : Loc K M :=
  { l with tau := l.tauPrev * th * cosOf o th, gamma := cosOf o th * cosOf o th * l.thetaPrev * l.thetaPrev
           eta := l.alpha * cosOf o th * cosOf o th }

/-- The vectors of a column in the second half, inner_solve.c:392-418. -/
def advance (l : Loc K M) (v : Vecs K V) : Vecs K V :=
  { v with delta := l.gamma • v.delta + l.eta • v.d, sol := (l.gamma • v.delta + l.eta • v.d) + v.sol }

/-- The second check of a column, inner_solve.c:424-592. -/
def test2 (o : Ops K V M) (t : ℕ) (v : Vecs K V) (sigma : K) (l : Loc K M) : Bool × M :=
  o.second t v.shift (o.dot v.sol v.sol) sigma l.rhoPrev l.tauPrev l.tau l.gamma l.eta l.mem

/-- Scalars of position `i` after lines 385-390. -/
def locHalf (o : Ops K V M) (s : St K V M) (i : ℕ) : Loc K M := scalars o (thetaNew o s i) (s.loc (s.p i))

/-- Vectors of position `i` after lines 392-418. -/
def vecHalf (o : Ops K V M) (s : St K V M) (i : ℕ) : Vecs K V := advance (locHalf o s i) (s.vec i)

/-- Whether position `i` stops at the second check. -/
def stop2 (o : Ops K V M) (t : ℕ) (s : St K V M) (i : ℕ) : Bool := (test2 o t (vecHalf o s i) (s.sigma (s.p i)) (locHalf o s i)).1

/-- Second part of an iteration, inner_solve.c:381-593. -/
def half2 (o : Ops K V M) (t : ℕ) (s : St K V M) : St K V M :=
  { s with
    theta := forCols s.p (fun i _ => thetaNew o s i) s.b (thetaOf o s)
    loc := forCols s.p (fun i _ => { locHalf o s i with
      mem := (test2 o t (vecHalf o s i) (s.sigma (s.p i)) (locHalf o s i)).2 }) s.b s.loc
    vec := fun i => if i < s.b then vecHalf o s i else s.vec i }

/-- The preconditioned residual of position `i`, inner_solve.c:611-614. -/
def precond (o : Ops K V M) (c : Cfg) (s : St K V M) (i : ℕ) : V := o.prec (s.vec i).xk (right c (s.x i) (s.rx i)) (s.vec i).g

/-- `rho` after the inner products, inner_solve.c:616-617. -/
def rhoOf (o : Ops K V M) (c : Cfg) (s : St K V M) : ℕ → K :=
  fun k => if k < s.b then o.dot (s.vec k).g (precond o c s k) else s.rho k

/-- Last part of an iteration, inner_solve.c:609-634: the next direction. -/
def half3 (o : Ops K V M) (c : Cfg) (s : St K V M) : St K V M :=
  { s with
    rho := rhoOf o c s
    loc := forCols s.p (fun i l => { l with rhoPrev := rhoOf o c s (s.p i), tauPrev := l.tau, thetaPrev := s.theta (s.p i) }) s.b s.loc
    vec := fun i => if i < s.b then
        { s.vec i with d := precond o c s i + (rhoOf o c s (s.p i) / (s.loc (s.p i)).rhoPrev) • (s.vec i).d }
      else s.vec i }

/-- After the second check, inner_solve.c:594-634. -/
def finish2 (o : Ops K V M) (c : Cfg) (maxIts t : ℕ) (s : St K V M) : Option (St K V M) :=
  (mark (stop2 o t s) s.b s.b).map fun q =>
    let s2 := shrink c q.1 q.2 (half2 o t s)
    if s2.b = 0 then s2 else if t + 1 < maxIts then half3 o c s2 else s2

/-- One iteration, inner_solve.c:309-638. -/
def body (o : Ops K V M) (c : Cfg) (maxIts t : ℕ) (s : St K V M) : Option (St K V M) :=
  match mark (stop1 o c s) s.b s.b with
  | none => none
  | some q =>
    let s1 := shrink c q.1 q.2 (half1 o c t s)
    if s1.b = 0 then some s1 else finish2 o c maxIts t s1

/-- The loop: the state before iteration `t`; it stays when no column is active. -/
def runAt (o : Ops K V M) (c : Cfg) (maxIts : ℕ) (s : St K V M) : ℕ → Option (St K V M)
  | 0 => some s
  | t + 1 => match runAt o c maxIts s t with
    | none => none
    | some s => if s.b = 0 then some s else body o c maxIts t s

/-- What the caller provides for a column: `shift`, `xKinvBx`, `r`, `x`, `KinvBx`, `rnorm` and the data of the stopping test. -/
structure Input (K V M : Type) where
  shift : K
  xk : K
  r : V
  x : V
  rx : V
  rnorm : K
  mem : M

/-- The vectors before the loop, inner_solve.c:271-293: `sol = delta = 0`, `g = r`, `d` the preconditioned residual. -/
def initVecs (o : Ops K V M) (c : Cfg) (a : Input K V M) : Vecs K V where
  shift := a.shift
  xk := a.xk
  g := a.r
  d := o.prec a.xk (right c a.x a.rx) a.r
  delta := 0
  r := a.r
  sol := 0

/-- The scalars before the loop, inner_solve.c:205-207, 280-289. -/
def initLoc (o : Ops K V M) (c : Cfg) (a : Input K V M) : Loc K M where
  alpha := 0
  rhoPrev := o.dot a.r (o.prec a.xk (right c a.x a.rx) a.r)
  tauPrev := a.rnorm
  tau := 0
  thetaPrev := 0
  gamma := 0
  eta := 0
  mem := a.mem

/-- State before the loop; `junk` fills the arrays that are not initialised. -/
def init (o : Ops K V M) (c : Cfg) (junk : K) (B : ℕ) (a : ℕ → Input K V M) : St K V M where
  b := B
  p := id
  vec i := initVecs o c (a i)
  x i := (a i).x
  rx i := (a i).rx
  sigma _ := junk
  theta _ := junk
  rho _ := junk
  loc i := initLoc o c (a i)
  prods := 0

/-- The solver with at most `maxIts` iterations. -/
def solve (o : Ops K V M) (c : Cfg) (junk : K) (maxIts B : ℕ) (a : ℕ → Input K V M) : Option (St K V M) :=
  runAt o c maxIts (init o c junk B a) maxIts

/-- The conversion to `int` of a 64-bit value, as gcc and clang do it. -/
def toInt32 (a : Int) : Int := (a + 2 ^ 31) % 2 ^ 32 - 2 ^ 31

/-- `maxIterations`, inner_solve.c:252-268. -/
def maxIterations (maxMatvecs numMatvecs maxInner : Int) : Int :=
  let m := if 0 < maxMatvecs then toInt32 (maxMatvecs - numMatvecs) else 2 ^ 31 - 1
  if 0 < maxInner then min maxInner m else m

end Verif.Inner
