import Verif.Model.InnerSolve
import Mathlib.Analysis.InnerProductSpace.Basic

/-!
# The numbers of the inner solver

The projected operators and the stopping test of `inner_solve_Sprimme`, src/eigs/inner_solve.c, that `Verif.Model.InnerSolve` takes as given,
in exact arithmetic.  Vectors are elements of a real inner product space: for complex matrices the inner product is the real part, which is
what `Num_dist_dots_real` computes, and every scalar of the solver is real.

Simplifications: no mass matrix (`B = I`), so `normBx` is 1; `touch` is constant during a call, as the factors computed from it are.
-/

namespace Verif.Inner

/-- The scalars of a column used by the stopping test, inner_solve.c:173-190: the recurrences, `eval_prev`, `eres_updated` and `eval_updated`,
and the constants `eval` and `tau_init`. -/
structure Est where
  Delta : ℝ
  Beta : ℝ
  Phi : ℝ
  Psi : ℝ
  Gamma : ℝ
  evalPrev : ℝ
  eres : ℝ
  evalUpd : ℝ
  eval : ℝ
  tauInit : ℝ

/-- Before the loop, inner_solve.c:205-207, 281, 287-288. -/
def Est.start (eval rnorm : ℝ) : Est := ⟨0, 0, 0, 0, 0, eval, 0, eval, eval, rnorm⟩

/-- What the stopping test depends on besides: whether it is adaptive, `target`, the tolerances and factors (inner_solve.c:209-250) and
the convergence test of the user on a value and a norm. -/
structure Goal where
  adaptive : Bool
  target : Int
  lTol : ℝ
  lFac : ℝ
  eTol : ℝ
  eFac : ℝ
  conv : ℝ → ℝ → Bool

/-- The recurrences and the estimates, inner_solve.c:446-488. -/
noncomputable def Est.update (shift dotSol sigma rhoPrev tau gamma eta : ℝ) (m : Est) : Est :=
  let Delta := gamma * m.Delta + eta * rhoPrev
  let Beta := m.Beta - Delta
  let Phi := gamma * gamma * m.Phi + eta * eta * sigma
  let Psi := gamma * m.Psi + gamma * m.Phi
  let Gamma := m.Gamma + 2 * Psi + Phi
  let norm := 1 + dotSol
  let evalUpd := shift + (m.eval - shift + 2 * Beta + Gamma) / norm
  let eres2 := tau * tau / norm + (m.eval - shift + Beta) * (m.eval - shift + Beta) / norm -
    (evalUpd - shift) * (evalUpd - shift)
  { m with Delta := Delta, Beta := Beta, Phi := Phi, Psi := Psi, Gamma := Gamma, evalUpd := evalUpd
           eres := if eres2 < 0 then √(tau * tau / norm) else √eres2 }

open Classical in
/-- The tests of a column, inner_solve.c:425-592: whether it stops, and its scalars. -/
noncomputable def stopping (G : Goal) (t : ℕ) (shift dotSol sigma rhoPrev tauPrev tau gamma eta : ℝ) (m : Est) : Bool × Est :=
  if |rhoPrev| = 0 then (true, m)
  else if 0 < t ∧ tau < G.lTol then (true, m)
  else if G.adaptive then
    let e := m.update shift dotSol sigma rhoPrev tau gamma eta
    if 0 < t ∧ (tauPrev ≤ e.eres ∨ m.eres ≤ tau) then (true, e)
    else if G.target = 0 ∧ m.evalPrev < e.evalUpd then (true, e)
    else if G.target = 1 ∧ e.evalUpd < m.evalPrev then (true, e)
    else if G.target = 4 ∧ m.tauInit + e.eres < |m.eval - e.evalUpd| then (true, e)
    else if 0 < t ∧ e.eres < G.eTol * m.tauInit then (true, e)
    else if 0 < t ∧ G.conv e.evalUpd (min (tau / G.lFac) (e.eres / G.eFac)) = true then (true, e)
    else (false, { e with evalPrev := e.evalUpd })
  else (decide (0 < t) && G.conv m.eval (tau / G.lFac * √t), m)

/-- What the monitor is told about an inner iteration, inner_solve.c:557-567 and 584-590: `basisEvals[0]`, `basisNorms[0]` and `LSRes`. -/
def report (G : Goal) (rnorm : ℝ) (l : Loc ℝ Est) : ℝ × ℝ × ℝ :=
  if G.adaptive then (l.mem.evalUpd, l.mem.eres, l.tau) else (l.mem.eval, rnorm, l.tau)

variable {V : Type} [NormedAddCommGroup V] [InnerProductSpace ℝ V]

/-- `apply_skew_projector`, inner_solve.c:773-812: `v - Qhat inv(Q'Qhat) Q'v`; `msolve` is `MSolve` (the identity when there is no `Mfact`). -/
noncomputable def skewProject (Q Qhat : ℕ → V) (n : ℕ) (msolve : (ℕ → ℝ) → ℕ → ℝ) (v : V) : V :=
  v - ∑ j ∈ Finset.range n, msolve (fun i => inner ℝ (Q i) v) j • Qhat j

/-- `apply_projected_matrix`, inner_solve.c:838-890.  For a block of one column with both projectors the code appends `x` to `Q`
(correction.c:894-903), which is the same for `x` orthogonal to `Q`. -/
noncomputable def projectedMatrix (A : V → V) (Q : ℕ → V) (nQ : ℕ) (shift : ℝ) (X : Option V) (v : V) : V :=
  let w := skewProject Q Q nQ id (A v - shift • v)
  match X with
  | none => w
  | some x => skewProject (fun _ => x) (fun _ => x) 1 id w

/-- `apply_projected_preconditioner`, inner_solve.c:711-742; the matrix of the second projector is the number `xKinvBx`. -/
noncomputable def projectedPrec (Kinv : V → V) (Q Qhat : ℕ → V) (nQ : ℕ) (msolve : (ℕ → ℝ) → ℕ → ℝ) (xk : ℝ) (X : Option (V × V)) (v : V) :
    V :=
  let w := skewProject Q Qhat nQ msolve (Kinv v)
  match X with
  | none => w
  | some (x, rx) => skewProject (fun _ => x) (fun _ => rx) 1 (fun b j => b j / xk) w

/-- Right projector for the converged vectors: `sizeRprojectorQ`, `RprojectorQ` and the solver with the factors of `Q'Qhat`. -/
structure RightQ (V : Type) where
  n : ℕ
  Qhat : ℕ → V
  msolve : (ℕ → ℝ) → ℕ → ℝ

/-- The operators of a call: matrix, preconditioner, converged vectors with the size of the left projector, right projector and test;
`eps` is the machine precision of inner_solve.c:337-340. -/
noncomputable def innerOps (A Kinv : V → V) (Q : ℕ → V) (nL : ℕ) (R : RightQ V) (eps : ℝ) (G : Goal) : Ops ℝ V Est where
  mul := projectedMatrix A Q nL
  prec := projectedPrec Kinv Q R.Qhat R.n R.msolve
  dot u v := inner ℝ u v
  sqrt := Real.sqrt
  broken sigma rho := by
    classical
    exact decide (sigma = 0) || decide (|rho / sigma| < eps) || decide (1 / eps < |rho / sigma|)
  second := stopping G

/-- What `solve_correction` passes for the pair `(lam, x)` with its residual, correction.c:398-400, 445-452: `xk` and `rx` are `xKinvBx` and `KinvBx`. -/
noncomputable def callFor (A : V → V) (x : V) (lam shift xk : ℝ) (rx : V) : Input ℝ V Est where
  shift := shift
  xk := xk
  r := A x - lam • x
  x := x
  rx := rx
  rnorm := ‖A x - lam • x‖
  mem := Est.start lam ‖A x - lam • x‖

end Verif.Inner
