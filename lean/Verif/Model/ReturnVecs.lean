import Verif.Model.Permute

/-!
# The way of the eigenvectors into the caller's array

Model of the parts of src/eigs/primme_c.c:375-414 and src/eigs/main_iter.c:1355-1357 that deal with the layout of `evecs`.  Rounding by
the conversion of types is left out: the elements have one type.
-/

namespace Verif.ReturnVecs
open Verif.Mem Verif.Permute

variable {α : Type u}

/-- `Num_matrix_astype_Sprimme(evecs, nLocal, cols, ldevecs, evecs_type, &evecs0, &ldevecs0, …, 1 /* alloc */, 1, ctx)`
(primme_c.c:383-389, auxiliary.c:79-142): the array itself if its type is the working precision (`cast = false`), and otherwise
a new array of `cols` columns stored one after the other, with the leading dimension `nLocal`. -/
def castIn (cast : Bool) (nLocal cols ldevecs : Nat) (e : Buf α) : Buf α × Nat :=
  if cast then (⟨cols * nLocal, fun a => e.data (a / nLocal * ldevecs + a % nLocal)⟩, nLocal) else (e, ldevecs)

/-- What the main iteration writes: column `numOrthoConst + j` becomes `v j`, for `j < k` (restart.c:1118-1160, main_iter.c:1285-1286,
1778-1824, all with the argument `ldevecs` of the function). -/
def store (numOrthoConst nLocal k ld : Nat) (v : Nat → Nat → α) (b : Buf α) : Buf α :=
  { b with data := fun a =>
      if a % ld < nLocal ∧ numOrthoConst ≤ a / ld ∧ a / ld < numOrthoConst + k then v (a / ld - numOrthoConst) (a % ld) else b.data a }

/-- `permute_vecs_Sprimme(&x[off], m, n, ld, perm, ctx)`. -/
def permuteAt (off m n ld : Nat) (b : Buf α) (perm : Nat → Nat) : Option (Buf α) := do
  let o ← permuteVecs m n ld ⟨b.size - off, fun a => b.data (off + a)⟩ perm
  some ⟨b.size, fun a => if off ≤ a then o.data (a - off) else b.data a⟩

/-- main_iter.c:1355-1357.  The array has the leading dimension that the function was given, but the code uses that of the
structure, `ldStruct`. -/
def finalPermute (numOrthoConst nLocal initSize ldStruct : Nat) (b : Buf α) (perm : Nat → Nat) : Option (Buf α) :=
  permuteAt (numOrthoConst * ldStruct) nLocal initSize ldStruct b perm

/-- `Num_copy_matrix_astype_Sprimme(evecs0, 0, numOrthoConst, nLocal, numRet, ldevecs0, …, evecs, 0, numOrthoConst, ldevecs, …)`,
primme_c.c:403-405; nothing happens when both are the same array. -/
def castOut (cast : Bool) (numOrthoConst nLocal numRet ld ldevecs : Nat) (b e : Buf α) : Buf α :=
  if cast then
    { e with data := fun a =>
        if a % ldevecs < nLocal ∧ numOrthoConst ≤ a / ldevecs ∧ a / ldevecs < numOrthoConst + numRet then b.data (a / ldevecs * ld + a % ldevecs)
        else e.data a }
  else b

/-- From the caller's array to the caller's array.  `none`: an access out of range. -/
def deliver (cast : Bool) (numOrthoConst nLocal cols k initSize numRet ldevecs : Nat) (v : Nat → Nat → α) (perm : Nat → Nat) (e : Buf α) :
    Option (Buf α) := do
  let b := castIn cast nLocal cols ldevecs e
  let b' ← finalPermute numOrthoConst nLocal initSize ldevecs (store numOrthoConst nLocal k b.2 v b.1) perm
  some (castOut cast numOrthoConst nLocal numRet b.2 ldevecs b' e)

end Verif.ReturnVecs
