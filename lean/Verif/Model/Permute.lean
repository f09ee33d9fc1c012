import Verif.Model.Mem

/-!
# `permute_vecs_Sprimme` and `permute_vecs_iprimme`

Model of src/linalg/auxiliary.c:716-793 and 797-870.
-/

namespace Verif.Permute
open Verif.Mem

/-- Update one entry of the local copy of the permutation (`perm[i] = v`). -/
def upd (p : Nat → Nat) (i v : Nat) : Nat → Nat := fun j => if j = i then v else p j

/-- The debug-mode check of `perm_` (src/linalg/auxiliary.c:733-742, 809-816): every entry is in
range, and after marking `perm[perm_[t]] = 1` every mark is set. -/
def permCheck (n : Nat) (perm_ : Nat → Nat) : Bool :=
  (List.range n).all (fun t => decide (perm_ t < n)) &&
  (List.range n).all (fun t => (List.range n).any (fun s => perm_ s == t))

/-- Inner loop, src/linalg/auxiliary.c:767-779: `while (perm[destinationIndex] != currentIndex)`
followed by the copy from the buffer.  `cur` = currentIndex, `dst` = destinationIndex, `w` = rwork.
`fuel` bounds the number of iterations; running out of fuel is `none`, so a result `some _` means
that the C loop stops.  An index `perm[dst] ≥ n` is out of range: `none`. -/
def cycle (m n ld cur : Nat) (w : Nat → α) :
    Nat → Nat → Buf α → (Nat → Nat) → Option (Buf α × (Nat → Nat))
  | 0, _, _, _ => none
  | fuel + 1, dst, b, p =>
    if p dst ≠ cur then
      if p dst < n then do
        let b ← copyIn m (p dst * ld) (dst * ld) b
        cycle m n ld cur w fuel (p dst) b (upd p dst dst)
      else none
    else do
      let b ← copyBack m (dst * ld) w b
      pure (b, upd p dst dst)

/-- Outer loop, src/linalg/auxiliary.c:751-783.  The skip loop (lines 754-756) and the
`while (1)` are merged: both advance `currentIndex` by one until it reaches `n`. -/
def outer (m n ld : Nat) : Nat → Nat → Buf α → (Nat → Nat) → Option (Buf α × (Nat → Nat))
  | 0, _, b, p => some (b, p)
  | k + 1, cur, b, p =>
    -- invariant of the call: `cur + (k + 1) = n`, i.e. `currentIndex < n`
    if p cur = cur then outer m n ld k (cur + 1) b p
    else do
      let w ← copyOut m (cur * ld) b
      let (b, p) ← cycle m n ld cur w n cur b p
      outer m n ld k (cur + 1) b p

/-- `permute_vecs_Sprimme(vecs, m, n, ld, perm_, ctx)`, src/linalg/auxiliary.c:716-793.
`none` is a failed assertion (lines 733-742 and 786-787), an out of range access or a loop that
does not stop.  Allocation failures of the two work arrays are left out (see `Verif.Model.Frames`).
The input permutation is copied (lines 746-747), so it is not modified. -/
def permuteVecs (m n ld : Nat) (vecs : Buf α) (perm_ : Nat → Nat) : Option (Buf α) :=
  if permCheck n perm_ then do
    let (b, p) ← outer m n ld n 0 vecs perm_
    if (List.range n).all (fun i => p i == i) then some b else none
  else none

/-- `permute_vecs_iprimme(vecs, n, perm_, ctx)`, src/linalg/auxiliary.c:797-870: the same
algorithm on scalars (`m = ld = 1`, the copies being plain assignments). -/
def permuteInts (n : Nat) (vecs : Buf α) (perm_ : Nat → Nat) : Option (Buf α) :=
  permuteVecs 1 n 1 vecs perm_

end Verif.Permute
