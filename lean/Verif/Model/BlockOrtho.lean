import Verif.Model.Basic
import Mathlib.Algebra.Order.Field.Basic
import Mathlib.Algebra.Module.Basic
import Mathlib.Algebra.BigOperators.Group.Finset.Basic

/-!
# Block orthogonalisation

Model of `Bortho_block_gen_Sprimme` (src/eigs/ortho.c:497-803) when `VLtBVL` is given
(`orth = primme_orth_explicit_I`), with `Num_ortho_kernel` (ortho.c:963-1075), `decomposition`
(ortho.c:1097-1137), `rank_estimation` (ortho.c:1165-1181) and `update_cholesky_Sprimme`
(ortho.c:1200-1221).

Matrices are functions of a row and a column.  Scalars are real (an ordered field) and arithmetic is
exact, except for the square root, about which only what `Contract` says is used.  Left out: values that
are not finite, failures of the user's functions, the loop over chunks of rows of `Num_ortho_kernel` (its
operations work row by row; C46 has the kernels), the copies made by the broadcasts, the counters.
`b2` is one past the last column, as after `b2++` (ortho.c:510).
-/

namespace Verif.BlockOrtho
open Verif Finset

/-- Kernels: `ip v x` is `v' * B * x` after the global sum; `chol n H` is `Num_potrf` on the upper triangle
of `H`, `none` when `info` is not zero; `eig n H` are the eigenvectors (columns) and the eigenvalues that
`decomposition` returns, `Num_heev` of `-H` with the signs changed back (ortho.c:1121-1133). -/
structure Kern (K X : Type) where
  ip : X → X → K
  sqrt : K → K
  chol : ℕ → (ℕ → ℕ → K) → Option (ℕ → ℕ → K)
  eig : ℕ → (ℕ → ℕ → K) → (ℕ → ℕ → K) × (ℕ → K)

/-- Arguments.  `top` is `MACHINE_MAX`, `eps` is `eps_orth`, `maxRank` the largest size of the basis. -/
structure Par (K : Type) where
  numLocked : ℕ
  b1 : ℕ
  b2 : ℕ
  maxRank : ℕ
  eps : K
  top : K

/-- `b2 - b1`. -/
def Par.k {K : Type} (p : Par K) : ℕ := p.b2 - p.b1

/-- `nVL`, ortho.c:586. -/
def Par.nVL {K : Type} (p : Par K) : ℕ := p.numLocked + p.b1

/-- State of the call: the columns of `V`, `VLtBVL` (`G`), the rows of `R` above the diagonal block (`R`), the
diagonal block (`r`) and `RLocked` (`RL`), with columns counted from `b1`, and what a turn leaves for the
next one: `VLtBVLdA` (`a`), `Y`, `D` and `Yortho`. -/
structure St (K X : Type) where
  V : ℕ → X
  G : ℕ → ℕ → K
  R : ℕ → ℕ → K
  RL : ℕ → ℕ → K
  r : ℕ → ℕ → K
  a : ℕ → ℕ → K
  Y : ℕ → ℕ → K
  D : ℕ → K
  yortho : Bool

variable {K X : Type} [Field K] [LinearOrder K] [AddCommGroup X] [Module K X]

/-- `[locked V]`. -/
def basis (p : Par K) (locked V : ℕ → X) (j : ℕ) : X :=
  if j < p.numLocked then locked j else V (j - p.numLocked)

/-- Substitution with the upper triangle of `F`: the first `n` entries of `z` with `F' * z = b`, or of the
columns `z` with `z * F = b` (`Num_trsm` "L" "U" "C" and `Num_trsm_hd` "R" "U" "N"). -/
def fwd {M : Type} [AddCommGroup M] [Module K M] (F : ℕ → ℕ → K) (b : ℕ → M) : ℕ → ℕ → M
  | 0 => fun _ => 0
  | n + 1 => fun i => if i = n then (F n n)⁻¹ • (b n - ∑ l ∈ range n, F l n • fwd F b n l) else fwd F b n i

/-- Substitution with the upper triangle of `F`, from the last entry: `F * z = b` with `n` entries
(`Num_trsm` "L" "U" "N"). -/
def back (F : ℕ → ℕ → K) (n : ℕ) (b : ℕ → K) (i : ℕ) : K :=
  fwd (fun l i => F (n - 1 - i) (n - 1 - l)) (fun i => b (n - 1 - i)) n (n - 1 - i)

/-- `X - [locked V]*A`, ortho.c:1016-1027. -/
def project (p : Par K) (locked : ℕ → X) (s : St K X) (c : ℕ) : X :=
  s.V (p.b1 + c) - ∑ j ∈ range p.numLocked, s.a j c • locked j -
    ∑ j ∈ range p.b1, s.a (p.numLocked + j) c • s.V j

/-- Columns of `X` after `Num_ortho_kernel`: `X*Y/D` or `X/Y`, ortho.c:974-989, 1006-1012, 1029-1038. -/
def columns (p : Par K) (locked : ℕ → X) (s : St K X) (c : ℕ) : X :=
  if s.yortho then ∑ i ∈ range p.k, (s.Y i c * (1 / s.D c)) • project p locked s i
  else if p.k = 1 then ((1 / s.Y 0 0) * (1 / s.D 0)) • project p locked s 0
  else fwd s.Y (project p locked s) p.k c

/-- `Num_ortho_kernel` with `D` and `Y`: the columns `b1 … b2-1` of `V` are replaced. -/
def apply (p : Par K) (locked : ℕ → X) (s : St K X) : St K X :=
  { s with V := fun j => if p.b1 ≤ j ∧ j < p.b2 then columns p locked s (j - p.b1) else s.V j }

/-- `A = [locked V(0:b2-1)]' * B * V(b1:b2-1)`, stored in the columns of `VLtBVL`, ortho.c:1041-1068. -/
def gram (o : Kern K X) (p : Par K) (locked : ℕ → X) (s : St K X) : St K X :=
  { s with G := fun j c =>
      if p.nVL ≤ c ∧ c < p.numLocked + p.b2 ∧ j < p.numLocked + p.b2
      then o.ip (basis p locked s.V j) (s.V (c - p.numLocked)) else s.G j c }

/-- Whether `rank_estimation` takes column `i`, ortho.c:1170-1177. -/
def colOk (o : Kern K X) (n : ℕ) (G : ℕ → ℕ → K) (i : ℕ) : Prop :=
  0 < G i i ∧ ∀ j < i, |G j i| ≤ 8 / 10 / (n : K) * o.sqrt (G i i * G j j)

instance (o : Kern K X) (n : ℕ) (G : ℕ → ℕ → K) (i : ℕ) : Decidable (colOk o n G i) := by
  unfold colOk; infer_instance

/-- The loop of `rank_estimation` on `cnt` columns from `i`. -/
def rankFrom (o : Kern K X) (n : ℕ) (G : ℕ → ℕ → K) : ℕ → ℕ → ℕ
  | 0, i => i
  | cnt + 1, i => if colOk o n G i then rankFrom o n G cnt (i + 1) else i

/-- `rank_estimation`, ortho.c:1165-1181. -/
def rankEst (o : Kern K X) (G : ℕ → ℕ → K) (n0 n1 n : ℕ) : ℕ := rankFrom o n G (n1 - n0) n0

/-- ortho.c:654-662: the norms of the new columns are close to one. -/
def normsOk (p : Par K) (G : ℕ → ℕ → K) : Prop :=
  ∀ i < p.k, |G (p.nVL + i) (p.nVL + i) - 1| < 8 / 10

instance (p : Par K) (G : ℕ → ℕ → K) : Decidable (normsOk p G) := by unfold normsOk; infer_instance

/-- One turn of the loop of ortho.c:670-675.  The entry looked at is row `i`, and the column cleared is
column `numLocked + i`, as in the code. -/
def overflow1 (p : Par K) (G : ℕ → ℕ → K) (i : ℕ) : ℕ → ℕ → K :=
  if G i (p.nVL + i) < p.top then G
  else fun j c =>
    if j = i ∧ c = p.nVL + i then p.top
    else if c = p.numLocked + i ∧ j < p.numLocked + i then 0 else G j c

/-- ortho.c:667-676. -/
def overflow (p : Par K) (G : ℕ → ℕ → K) : ℕ → ℕ → ℕ → K
  | 0 => G
  | n + 1 => overflow1 p (overflow p G n) n

/-- Columns of `f' \ A(0:nVL-1,:)`, ortho.c:684-687. -/
def half (p : Par K) (f G : ℕ → ℕ → K) (c : ℕ) : ℕ → K := fwd f (fun j => G j (p.nVL + c)) p.nVL

/-- `C`, ortho.c:682-689. -/
def schur (p : Par K) (f G : ℕ → ℕ → K) (i j : ℕ) : K :=
  G (p.nVL + i) (p.nVL + j) - ∑ l ∈ range p.nVL, half p f G i l * half p f G j l

/-- `N`, ortho.c:693-697. -/
def scale (o : Kern K X) (p : Par K) (f G : ℕ → ℕ → K) (i : ℕ) : K := o.sqrt (max |schur p f G i i| p.eps)

/-- `C` after ortho.c:698-699: only the upper triangle is divided. -/
def scaled (o : Kern K X) (p : Par K) (f G : ℕ → ℕ → K) (i j : ℕ) : K :=
  if i ≤ j then schur p f G i j / (scale o p f G i * scale o p f G j) else schur p f G i j

/-- `decomposition`, ortho.c:1097-1137: `Y`, `evals` and `Yortho`. -/
def decomp (o : Kern K X) (n : ℕ) (H : ℕ → ℕ → K) : (ℕ → ℕ → K) × (ℕ → K) × Bool :=
  match o.chol n H with
  | some U => (U, fun _ => 1, false)
  | none => ((o.eig n H).1, (o.eig n H).2, true)

/-- ortho.c:667-772: the part of a turn after the test. -/
def reduce (o : Kern K X) (p : Par K) (f : ℕ → ℕ → K) (s : St K X) : St K X :=
  let G := overflow p s.G p.k
  let a := fun j c => back f p.nVL (half p f G c) j
  let N := scale o p f G
  let d := decomp o p.k (scaled o p f G)
  let Y := d.1
  let D := fun i => o.sqrt (max (d.2.1 i) (p.eps * (p.k : K)))
  let r1 := fun i c => s.r i c * N i
  let C := fun i c =>
    if d.2.2 then ∑ l ∈ range p.k, Y l i * r1 l c
    else ∑ l ∈ range p.k, if i ≤ l then Y i l * r1 l c else 0
  { V := s.V
    G := G
    R := fun j c => s.R j c + ∑ i ∈ range p.k, a (p.numLocked + j) i * s.r i c
    RL := fun j c => s.RL j c + ∑ i ∈ range p.k, a j i * s.r i c
    r := fun i c => D i * C i c
    a := a
    Y := fun i j => if d.2.2 then Y i j / N i else Y i j * N j
    D := D
    yortho := d.2.2 }

/-- Loop of ortho.c:612-773, `cnt` turns from number `its`.  The boolean tells the exit through `break`. -/
def loop (o : Kern K X) (p : Par K) (locked : ℕ → X) (f : ℕ → ℕ → K) :
    ℕ → ℕ → ℕ → St K X → St K X × Bool
  | 0, _, _, s => (s, false)
  | cnt + 1, its, plus1, s =>
    let s := gram o p locked (if its = 0 then s else apply p locked s)
    if rankEst o s.G p.nVL (p.numLocked + p.b2) p.maxRank = p.numLocked + p.b2 then
      if plus1 ≤ its then
        if normsOk p s.G then (s, true)
        else loop o p locked f cnt (its + 1) plus1 (reduce o p f s)
      else loop o p locked f cnt (its + 1) (min (its + 1) plus1) (reduce o p f s)
    else loop o p locked f cnt (its + 1) plus1 (reduce o p f s)

/-- State before the loop, ortho.c:552-578. -/
def start (V : ℕ → X) (G : ℕ → ℕ → K) : St K X where
  V := V
  G := G
  R := fun _ _ => 0
  RL := fun _ _ => 0
  r := fun i c => if i = c then 1 else 0
  a := fun _ _ => 0
  Y := fun _ _ => 0
  D := fun _ => 0
  yortho := true

/-- `update_cholesky_Sprimme`, ortho.c:1200-1221; `none` when `potrf` fails. -/
def updateChol (o : Kern K X) (G f : ℕ → ℕ → K) (n0 n : ℕ) : Option (ℕ → ℕ → K) :=
  let A := fun c => fwd f (fun j => G j (n0 + c)) n0
  (o.chol (n - n0) (fun i j => G (n0 + i) (n0 + j) - ∑ l ∈ range n0, A i l * A j l)).map fun U i j =>
    if j < n0 ∨ n ≤ j then f i j
    else if i < n0 then A (j - n0) i
    else U (i - n0) (j - n0)

/-- What the call gives back: `b2_out`, the final state, the new Cholesky factor and (statement only)
whether the loop ended with `break`. -/
structure Result (K X : Type) where
  out : ℕ
  s : St K X
  f : ℕ → ℕ → K
  stopped : Bool

/-- `Bortho_block_gen_Sprimme` with `VLtBVL`, for `b1 < b2`. -/
def bortho (o : Kern K X) (p : Par K) (locked V : ℕ → X) (G f : ℕ → ℕ → K) : Outcome (Result K X) :=
  let q := loop o p locked f 5 0 5 (start V G)
  let n := rankEst o q.1.G p.nVL (p.numLocked + p.b2) p.maxRank
  match updateChol o q.1.G f p.nVL n with
  | none => .err PRIMME_LAPACK_FAILURE
  | some f' => .ok ⟨n - p.numLocked, q.1, f', q.2⟩

end Verif.BlockOrtho
