import Verif.Model.InnerSolve

/-!
# Specification: the quasi-minimal residual method on one correction equation

The textbook recurrences for a single column, without blocks and permutations.  `Ops` provides the operators and the stopping tests.
-/

namespace Verif.Spec.Qmr
open Verif.Inner

variable {K V M : Type} [Field K] [AddCommGroup V] [Module K V]

/-- A single equation and how far its solution has got. -/
structure Column (K V M : Type) where
  vec : Vecs K V
  loc : Loc K M
  sigma : K
  theta : K
  done : Bool

/-- Before the first iteration. -/
def start (o : Ops K V M) (c : Cfg) (junk : K) (a : Input K V M) : Column K V M where
  vec := { shift := a.shift, xk := a.xk, g := a.r, d := o.prec a.xk (right c a.x a.rx) a.r, delta := 0, r := a.r, sol := 0 }
  loc := { alpha := 0, rhoPrev := o.dot a.r (o.prec a.xk (right c a.x a.rx) a.r), tauPrev := a.rnorm, tau := 0, thetaPrev := 0
           gamma := 0, eta := 0, mem := a.mem }
  sigma := junk
  theta := junk
  done := false

/-- Product, step length and new residual; stops on a breakdown, with the residual as solution if nothing has been computed yet. -/
def first (o : Ops K V M) (c : Cfg) (t : ℕ) (a : Input K V M) (s : Column K V M) : Column K V M :=
  if s.done then s
  else
    let w := o.mul s.vec.shift (if c.leftX then some a.x else none) s.vec.d
    let sigma := o.dot s.vec.d w
    if o.broken sigma s.loc.rhoPrev then
      { s with done := true, vec := { s.vec with sol := if t = 0 then s.vec.r else s.vec.sol } }
    else
      { s with sigma := sigma, loc := { s.loc with alpha := s.loc.rhoPrev / sigma }
               vec := { s.vec with g := s.vec.g - (s.loc.rhoPrev / sigma) • w } }

/-- The smoothing step, the new solution, and the stopping test. -/
def second (o : Ops K V M) (t : ℕ) (s : Column K V M) : Column K V M :=
  if s.done then s
  else
    let theta := o.sqrt (o.dot s.vec.g s.vec.g) / s.loc.tauPrev
    let cs := 1 / o.sqrt (1 + theta * theta)
    let tau := s.loc.tauPrev * theta * cs
    let gamma := cs * cs * s.loc.thetaPrev * s.loc.thetaPrev
    let eta := s.loc.alpha * cs * cs
    let delta := gamma • s.vec.delta + eta • s.vec.d
    let sol := delta + s.vec.sol
    let r := o.second t s.vec.shift (o.dot sol sol) s.sigma s.loc.rhoPrev s.loc.tauPrev tau gamma eta s.loc.mem
    { s with theta := theta, loc := { s.loc with tau := tau, gamma := gamma, eta := eta, mem := r.2 }
             vec := { s.vec with delta := delta, sol := sol }, done := r.1 }

/-- The next direction. -/
def third (o : Ops K V M) (c : Cfg) (a : Input K V M) (s : Column K V M) : Column K V M :=
  if s.done then s
  else
    let w := o.prec s.vec.xk (right c a.x a.rx) s.vec.g
    let rho := o.dot s.vec.g w
    { s with loc := { s.loc with rhoPrev := rho, tauPrev := s.loc.tau, thetaPrev := s.theta }
             vec := { s.vec with d := w + (rho / s.loc.rhoPrev) • s.vec.d } }

/-- The column before iteration `t` of at most `maxIts`. -/
def before (o : Ops K V M) (c : Cfg) (junk : K) (maxIts : ℕ) (a : Input K V M) : ℕ → Column K V M
  | 0 => start o c junk a
  | t + 1 =>
    let s := second o t (first o c t a (before o c junk maxIts a t))
    if t + 1 < maxIts then third o c a s else s

/-- The column in the middle of iteration `t`. -/
def amid (o : Ops K V M) (c : Cfg) (junk : K) (maxIts : ℕ) (a : Input K V M) (t : ℕ) : Column K V M :=
  first o c t a (before o c junk maxIts a t)

/-- The solution of the equation on its own. -/
def solution (o : Ops K V M) (c : Cfg) (junk : K) (maxIts : ℕ) (a : Input K V M) : V := (before o c junk maxIts a maxIts).vec.sol

end Verif.Spec.Qmr
