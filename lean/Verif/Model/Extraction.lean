import Verif.Model.Rayleigh
import Mathlib.Analysis.RCLike.Basic

/-!
# The refined and the harmonic extraction, in exact arithmetic

What the main iteration keeps beside the basis, its products and the projected matrix (`Verif.Model.Rayleigh`) with
`primme_proj_refined` and `primme_proj_harmonic`: the factors `Q` and `R` of `(A - tau I) V` and the singular values of `R`.
There is no mass matrix with these extractions (`-39`).  `orth = primme_orth_implicit_I`, so that there are no Gram matrices.
Arithmetic is exact; the orthogonalisation of the columns of `Q`, the singular value decomposition, the linear systems and
the eigensolver for small matrices are arguments, with the contracts stated where they are used.
-/

namespace Verif.Extraction
open Verif Verif.Rayleigh Finset

variable {𝕜 E : Type} [RCLike 𝕜] [AddCommGroup E] [Module 𝕜 E]

/-- State of the projected problem. -/
structure XSt (𝕜 E : Type) extends St 𝕜 E where
  Q : ℕ → E
  /-- Row, column. -/
  R : ℕ → ℕ → 𝕜
  hSVals : ℕ → ℝ
  /-- `targetShifts[targetShiftIndex]` -/
  tau : ℝ
  /-- Left singular vectors of `R`. -/
  hU : ℕ → ℕ → 𝕜
  /-- `hVecsRot`: the first coefficient vectors in terms of the right singular vectors of `R`. -/
  rot : ℕ → ℕ → 𝕜
  /-- `numArbitraryVecs`: how many coefficient vectors are not singular vectors. -/
  arb : ℕ

/-- What `ortho_block_Sprimme` hands back in `update_Q_Sprimme`: the columns that are new in `Q` and in `R`. -/
structure Qr (𝕜 E : Type) where
  q : ℕ → E
  r : ℕ → ℕ → 𝕜

/-- `update_Q_Sprimme`, src/eigs/update_W.c:79-113, for the columns from `b0` on, `m` of them. -/
def updateQ (s : XSt 𝕜 E) (b0 m : ℕ) (tau : ℝ) (o : Qr 𝕜 E) : XSt 𝕜 E :=
  { s with
    Q := fun c => if b0 ≤ c ∧ c < b0 + m then o.q (c - b0) else s.Q c
    R := fun k c => if b0 ≤ c ∧ c < b0 + m then o.r k (c - b0)
      else if b0 ≤ k ∧ k < b0 + m ∧ c < b0 then 0 else s.R k c
    tau := tau }

/-- The columns given to `ortho_block_Sprimme`: `W - BV*target` (update_W.c:95-101), here with `V` for `BV`. -/
def shifted (s : St 𝕜 E) (tau : ℝ) (c : ℕ) : E := s.W c - (tau : 𝕜) • s.V c

/-- Adding `m` vectors to the basis, before the projected problem is solved: src/eigs/main_iter.c:695, 801-832 (and 1130-1160, 460-478). -/
def extend (ip : E → E → 𝕜) (A : E → E) (s : XSt 𝕜 E) (m : ℕ) (v : ℕ → E) (o : Qr 𝕜 E) : XSt 𝕜 E :=
  updateQ { s with toSt := expand ip A id s.toSt m v ⟨s.hVecs, s.hVals⟩ } s.b m s.tau o

/-- The shift of the first factorisation, `primme->targetShifts[0]` (src/eigs/main_iter.c:461-467): read whenever the projection is not
Rayleigh-Ritz, whatever the target.  `none` is a null pointer. -/
def firstShift (projection : Int) (shifts : Option (ℕ → ℝ)) : Outcome (Option ℝ) :=
  if projection = 1 then .ok none
  else match shifts with
    | some f => .ok (some (f 0))
    | none => .ub

/-- What `Num_gesvd_Sprimme` hands back; the singular values descend. -/
structure Svd (𝕜 : Type) where
  u : ℕ → ℕ → 𝕜
  sv : ℕ → ℝ
  v : ℕ → ℕ → 𝕜

/-- The values: `x_i'*H*x_i`, real part (src/eigs/solve_projection.c:505-512 and 655-662). -/
def quotients (s : St 𝕜 E) (vecs : ℕ → ℕ → 𝕜) (j : ℕ) : 𝕜 :=
  ((RCLike.re (quad s.b s.H (fun k => vecs k j) (fun k => vecs k j)) : ℝ) : 𝕜)

/-- The order of the singular values, solve_projection.c:637-651: reversed for the three targets closest to a shift. -/
def reversed (closest : Bool) (b j : ℕ) : ℕ := if closest then b - 1 - j else j

/-- `solve_H_Ref_Sprimme`, solve_projection.c:572-667, without Gram matrices, and `numArbitraryVecs = 0` (src/eigs/main_iter.c:489, 852
and src/eigs/restart.c:1898). -/
def solveRef (closest : Bool) (s : XSt 𝕜 E) (d : Svd 𝕜) : XSt 𝕜 E :=
  let vecs := fun i j => d.v i (reversed closest s.b j)
  { s with
    hVecs := vecs
    hSVals := fun j => d.sv (reversed closest s.b j)
    hVals := quotients s.toSt vecs
    hU := fun i j => d.u i (reversed closest s.b j)
    arb := 0 }

/-- What the kernels hand back in `solve_H_Harm_Sprimme` (solve_projection.c:428-512): the matrix `g` of the eigenproblem, of which
the upper triangle is read (457-462), its eigenpairs in the order of the target (480), the solution `x` of `R x = y` (489-491), and
its orthogonalisation `vecs` with the coefficients `t` (493). -/
structure Harm (𝕜 : Type) where
  g : ℕ → ℕ → 𝕜
  y : ℕ → ℕ → 𝕜
  mu : ℕ → 𝕜
  x : ℕ → ℕ → 𝕜
  t : ℕ → ℕ → 𝕜
  vecs : ℕ → ℕ → 𝕜

/-- `solve_H_Harm_Sprimme`, solve_projection.c:428-515. -/
def solveHarm (s : XSt 𝕜 E) (d : Harm 𝕜) : XSt 𝕜 E :=
  { s with hVecs := d.vecs, hVals := quotients s.toSt d.vecs }

/-- One cluster in `prepare_vecs_Sprimme` (solve_projection.c:943-988): Rayleigh-Ritz with the coefficient vectors from `a` up to, but
not including, `c`.  Which clusters is decided from the singular values (902-934); here any that begins after the vectors that are
arbitrary already. -/
def prepare (s : XSt 𝕜 E) (a c : ℕ) (e : Eig 𝕜) : XSt 𝕜 E :=
  { s with
    hVecs := fun i j => if a ≤ j ∧ j < c then ∑ k ∈ range (c - a), s.hVecs i (a + k) * e.vecs k (j - a) else s.hVecs i j
    hVals := fun j => if a ≤ j ∧ j < c then e.vals (j - a) else s.hVals j
    rot := fun i j => if s.arb ≤ j ∧ j < c then
        if a ≤ j ∧ a ≤ i ∧ i < c then e.vecs (i - a) (j - a) else if i = j then 1 else 0
      else s.rot i j
    arb := c }

/-- The matrix of which `e` are the eigenpairs: `hVecs(:,a:c-1)'*H*hVecs(:,a:c-1)` (solve_projection.c:963-967). -/
def clusterH (s : XSt 𝕜 E) (a : ℕ) (i j : ℕ) : 𝕜 := quad s.b s.H (fun k => s.hVecs k (a + i)) (fun k => s.hVecs k (a + j))

/-- A restart before the projected problem is solved, when the factors are computed anew: `restart_Sprimme` for the vectors, and
`restart_refined` (src/eigs/restart.c:1860-1891, the target has changed or a reset is due) or `restart_harmonic` (restart.c:2283-2314). -/
def rebuild (s : XSt 𝕜 E) (prev : ℕ → ℕ → 𝕜) (r : Restart.Result) (nl : ℕ) (tau : ℝ) (o : Qr 𝕜 E) : XSt 𝕜 E :=
  updateQ { s with toSt := { Rayleigh.restart s.toSt prev r ⟨fun _ _ => 0, fun _ => 0⟩ nl with
                             H := fun i j => quad s.b s.H (newCoef s.toSt prev r i) (newCoef s.toSt prev r j) } }
    0 r.basisSize.toNat tau o

/-- The loop `for (i = i0; i < n; i++) if (p[i] != i) j = i + 1`, starting with `j = i0` (src/eigs/main_iter.c:1056-1057 with `i0 = 0`;
src/eigs/restart.c:2124-2125). -/
def lastMoved (p : ℕ → ℕ) (i0 n : ℕ) : ℕ :=
  (List.range n).foldl (fun j i => if i0 ≤ i ∧ p i ≠ i then i + 1 else j) i0

/-- Before a restart the pairs are put in another order, `iwork` (src/eigs/main_iter.c:1030-1059). -/
def arrange (s : XSt 𝕜 E) (p : ℕ → ℕ) : XSt 𝕜 E :=
  { s with
    hVecs := fun i j => s.hVecs i (p j)
    hVals := fun j => s.hVals (p j)
    rot := fun i j => if p j < s.arb then s.rot i (p j) else if i = p j then 1 else 0
    arb := max s.arb (lastMoved p 0 s.b) }

/-! ## Restarts that keep the factors: `restart_refined`, src/eigs/restart.c:1901-2160, without Gram matrices -/

/-- `hVecsPerm[i]` -/
def place (r : Restart.Result) (i : ℕ) : ℕ := (r.hVecsPerm i).getD 0

/-- `restartPerm0[i]`, restart.c:1903-1909. -/
def source (r : Restart.Result) (i : ℕ) : ℕ := (r.restartPerm (place r i)).getD 0

/-- `nRegular`, restart.c:1960: how many vectors are not retained ones. -/
def regular (r : Restart.Result) : ℕ := r.basisSize.toNat - r.retained.toNat

/-- `newNumArbitraryVecs`, restart.c:1916-1921. -/
def newArb (s : XSt 𝕜 E) (r : Restart.Result) : ℕ := ((List.range (regular r)).filter (fun i => source r i < s.arb)).length

/-- `mhVecsRot0`, restart.c:1961-1962. -/
def height (s : XSt 𝕜 E) (r : Restart.Result) : ℕ := (List.range (regular r)).foldl (fun m i => max m (source r i + 1)) s.arb

/-- `hVecsRot0` before it is orthogonalised, restart.c:1965-1985. -/
def rot0 (s : XSt 𝕜 E) (r : Restart.Result) (k i : ℕ) : 𝕜 :=
  if i < newArb s r then if k < s.arb then s.rot k (source r i) * (s.hSVals k : 𝕜) else 0
  else if k = source r i then (s.hSVals k : 𝕜) else 0

/-- What `Bortho_local` hands back: for `hVecsRot0` (restart.c:1992-1993) `z` and `t`, and for the retained vectors (2021-2023) `q`
and `rr`. -/
structure Keep (𝕜 : Type) where
  z : ℕ → ℕ → 𝕜
  t : ℕ → ℕ → 𝕜
  q : ℕ → ℕ → 𝕜
  rr : ℕ → ℕ → 𝕜

/-- `hU` after `hU = [hU*hVecsRot0 RPrevhVecs]` and the orthogonalisation, restart.c:1995-2023. -/
def keepU (s : XSt 𝕜 E) (r : Restart.Result) (o : Keep 𝕜) (l i : ℕ) : 𝕜 :=
  if i < regular r then ∑ k ∈ range (height s r), s.hU l k * o.z k i else o.q l (i - regular r)

/-- `R*prevhVecs`, restart.c:1951-1955. -/
def prevR (s : XSt 𝕜 E) (prev : ℕ → ℕ → 𝕜) (l m : ℕ) : 𝕜 := ∑ k ∈ range s.b, s.R l k * prev m k

/-- `R` with its columns in the order of the target, restart.c:1987-2046. -/
def keepR (s : XSt 𝕜 E) (r : Restart.Result) (o : Keep 𝕜) (k i : ℕ) : 𝕜 :=
  if i < regular r then
    if newArb s r ≤ i ∧ s.arb ≤ source r i then if k = i then (s.hSVals (source r i) : 𝕜) else 0
    else if k < regular r then o.t k i else 0
  else if (s.arb : Int) ≤ r.indexPrev0 ∧ k < regular r then 0 else o.rr k (i - regular r)

/-- `invhVecsPerm`, restart.c:2102-2107. -/
def unplace (r : Restart.Result) (c : ℕ) : ℕ := ((List.range r.basisSize.toNat).find? (fun i => place r i == c)).getD 0

/-- `numArbitraryVecs` after the restart, restart.c:2123-2130. -/
def keepArb (s : XSt 𝕜 E) (r : Restart.Result) : ℕ :=
  if (s.arb : Int) ≤ r.indexPrev0 then lastMoved (place r) (newArb s r) r.basisSize.toNat else r.basisSize.toNat

/-- A restart that keeps the factors; `d` is the singular value decomposition of `R` (restart.c:2087-2090). -/
def keep (closest : Bool) (s : XSt 𝕜 E) (prev : ℕ → ℕ → 𝕜) (r : Restart.Result) (nl : ℕ) (o : Keep 𝕜) (d : Svd 𝕜) : XSt 𝕜 E :=
  let n := r.basisSize.toNat
  let v := fun i j => d.v i (reversed closest n j)
  { toSt := { Rayleigh.restart s.toSt prev r ⟨fun _ _ => 0, fun _ => 0⟩ nl with
              H := fun i j => quad s.b s.H (newCoef s.toSt prev r i) (newCoef s.toSt prev r j)
              hVecs := fun i j => if j < keepArb s r then if i = place r j then 1 else 0 else v i j
              hVals := fun j => newVal s.toSt r (place r j) }
    Q := fun c => ∑ l ∈ range s.b, keepU s r o l c • s.Q l
    R := fun k c => keepR s r o k (unplace r c)
    hSVals := fun j => d.sv (reversed closest n j)
    tau := s.tau
    hU := fun i j => d.u i (reversed closest n j)
    rot := fun i j => if i < n ∧ j < keepArb s r then star (v j i) else 0
    arb := keepArb s r }

end Verif.Extraction
