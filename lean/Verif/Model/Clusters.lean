import Mathlib.Analysis.Real.Sqrt
import Mathlib.Data.List.Basic

/-!
# The clusters of the refined extraction

The loop of `prepare_vecs_Sprimme`, src/eigs/solve_projection.c:841-986, which decides which coefficient vectors are replaced
by Rayleigh-Ritz in their span.

Simplifications: a column of `hVecs` together with its value is an arbitrary object, `ans j k` is what Rayleigh-Ritz on the cluster
that begins at `j` puts in column `k` (the arithmetic of it is `Extraction.prepare`); the test of two neighbours (926-936) is an
arbitrary function `far` of the first index and of the columns read, and `separated` is this test with real numbers.  `flags` is the
predicate `unc` (unconverged), true everywhere without flags.
-/

namespace Verif.Clusters

variable {C : Type}

/-- The columns that the test of the vectors `i-1` and `i` can read in the cluster that begins at `j`, solve_projection.c:926-934:
`hVals[i-1]`, `hVals[i]` and the last components of the columns `j` to `i-1`. -/
def window (col : ℕ → C) (j i : ℕ) : List C := (List.range' j (i + 1 - j)).map col

/-- The eligible pairs from `j` up to, but not including, `i`, solve_projection.c:898-901. -/
def count (unc : ℕ → Bool) (j i : ℕ) : ℕ := ((List.range' j (i - j)).filter unc).length

/-- The loop over `i`, solve_projection.c:912-937: the first `i` that passes the test. -/
def scan (far : ℕ → List C → Bool) (col : ℕ → C) (b j i : ℕ) : ℕ :=
  if i < b then if far j (window col j i) then i else scan far col b j (i + 1) else i
  termination_by b - i

/-- `candidates`, `i`, `j`, `*arbitraryVecs`, the columns, and the clusters on which Rayleigh-Ritz was done. -/
structure St (C : Type) where
  cand : ℕ
  i : ℕ
  j : ℕ
  arb : ℕ
  col : ℕ → C
  cl : List (ℕ × ℕ)

structure Job (C : Type) where
  b : ℕ
  i0 : ℕ
  blockSize : ℕ
  unc : ℕ → Bool
  rrForAll : Bool
  far : ℕ → List C → Bool
  ans : ℕ → ℕ → C

/-- The Rayleigh-Ritz step, solve_projection.c:947-982.  `someCandidate` is set by the body of the loop over `i`, whatever the
flags. -/
def refine (J : Job C) (s : St C) (j i : ℕ) : St C :=
  if 1 < i - j ∧ ((j + 1 < J.b) ∨ J.rrForAll = true) then
    { s with i := i, j := j, arb := i, cl := s.cl ++ [(j, i)],
             col := fun k => if j ≤ k ∧ k < i then J.ans j k else s.col k }
  else { s with i := i, j := j }

theorem refine_i (J : Job C) (s : St C) (j i : ℕ) : (refine J s j i).i = i ∧ (refine J s j i).j = j := by
  unfold refine; split <;> exact ⟨rfl, rfl⟩

theorem le_scan (far : ℕ → List C → Bool) (col : ℕ → C) (b j i : ℕ) : i ≤ scan far col b j i := by
  fun_induction scan far col b j i <;> omega

/-- The loop, solve_projection.c:890-983. -/
def loop (J : Job C) (s : St C) : St C :=
  if s.j < J.b ∧ s.cand < J.blockSize then
    let j := max s.j s.i
    let cand := s.cand + count J.unc s.j s.i
    if J.blockSize ≤ cand then { s with cand := cand, j := j }
    else loop J (refine J { s with cand := cand } j (min (scan J.far s.col J.b j (j + 1)) J.b))
  else s
  termination_by (J.b - s.j) + (J.b - s.i)
  decreasing_by
    rename_i h1 h2
    obtain ⟨e1, e2⟩ := refine_i J { s with cand := s.cand + count J.unc s.j s.i } (max s.j s.i)
      (min (scan J.far s.col J.b (max s.j s.i) (max s.j s.i + 1)) J.b)
    have := le_scan J.far s.col J.b (max s.j s.i) (max s.j s.i + 1)
    rw [e1, e2]
    omega

/-- `prepare_vecs_Sprimme` with the refined extraction, solve_projection.c:841-986; with another extraction, an empty basis or an empty
block it returns at once (854-873). -/
def prepareVecs (refined : Bool) (J : Job C) (arb : ℕ) (col : ℕ → C) : St C :=
  if refined = false ∨ J.b = 0 ∨ J.blockSize = 0 then ⟨0, arb, J.i0, arb, col, []⟩
  else loop J ⟨0, min arb J.b, J.i0, arb, col, []⟩

/-! ## The test with real numbers -/

/-- What the test reads besides the columns: the singular values, the number of them, `MACHINE_EPSILON`, the norm of the matrix, `eps`
and the smallest residual norm, if there is one (`HUGE_VAL` otherwise). -/
structure Test where
  b : ℕ
  sv : ℕ → ℝ
  machEps : ℝ
  aNorm : ℝ
  eps : ℝ
  smallest : Option ℝ

/-- `aNorm` and `eps`, solve_projection.c:875-888: from the parameter `aNorm`, the estimate `est` of the norm, `maxConvTol`, the
smallest residual norm and `machineEpsOrth`. -/
noncomputable def mkTest (b : ℕ) (sv : ℕ → ℝ) (machEps epsOrth aNorm est maxConvTol : ℝ) (smallest : Option ℝ) : Test where
  b := b
  sv := sv
  machEps := machEps
  aNorm := if aNorm ≤ 0 then est else aNorm
  eps := max (6.28 * epsOrth) (if 0 < maxConvTol then maxConvTol else match smallest with
    | some r => r / 10
    | none => 0)
  smallest := smallest

open Classical in
/-- solve_projection.c:926-936, for the cluster that begins at `j`; a column is its value and the absolute value of its last
component. -/
noncomputable def separated (T : Test) (j : ℕ) (w : List (ℝ × ℝ)) : Bool :=
  let i := j + w.length - 1
  match w.getLast?, w.dropLast.getLast? with
  | some x, some y =>
    let minDiff := √2 * T.sv (T.b - 1) * T.machEps / (T.aNorm * T.eps / |x.1 - y.1|)
    let ip := ((w.dropLast.map (fun c => c.2 ^ 2)).sum)
    decide (minDiff ≤ |T.sv i - T.sv (i - 1)| ∧ (match T.smallest with
      | none => True
      | some r => ip = 0 ∨ r / T.aNorm / 3.16 ≤ √ip))
  | _, _ => false

end Verif.Clusters
