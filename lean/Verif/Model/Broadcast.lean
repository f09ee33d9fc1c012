/-
# Broadcasts across the processes

`broadcast_Tprimme` and its largest user, the exchange of the solution of the projected problem.  The state
is the tuple of the buffers of all the processes; the user's communication functions are arbitrary functions
of the tuple of buffers they receive.
-/
import Mathlib.Algebra.BigOperators.Group.Finset.Basic
import Mathlib.Data.Fintype.Basic

namespace Verif.Bcast

/-- Conversion between the type of a buffer, `B`, and the type with which a user's function is called, `T`:
the element conversions of `Num_matrix_astype`, src/linalg/auxiliary.c:79-142.  When both types are the same
the function returns the same pointer, which is the pair of identities. -/
structure Conv (B T : Type) where
  toT : B → T
  ofT : T → B

/-- A communication function of the user, `broadcastReal` or `globalSumReal`: from the number of elements and
the buffers of all the processes to the buffers of all the processes (src/include/primme_eigs.h, members
`broadcastReal` and `globalSumReal`; a collective call is modelled as one step of all the processes). -/
abbrev Collective (p : ℕ) (T : Type) := ℕ → (Fin (p + 1) → ℕ → T) → Fin (p + 1) → ℕ → T

/-- Cast, call and copy back: src/eigs/auxiliary_eigs.c:445-459 with `broadcastReal` and 408-419 with
`globalSumReal`.  Only the first `count` elements are cast and copied back. -/
def through {p : ℕ} {B T : Type} (c : Conv B T) (f : Collective p T) (count : ℕ)
    (bufs : Fin (p + 1) → ℕ → B) : Fin (p + 1) → ℕ → B :=
  let got := f count (fun i k => c.toT (bufs i k))
  fun i k => if k < count then c.ofT (got i k) else bufs i k

/-- `globalSum_Tprimme`, src/eigs/auxiliary_eigs.c:391-427: nothing to do for a single process; an absent
`globalSumReal` with several processes is refused by the input check. -/
def globalSumAll {p : ℕ} {B T : Type} (c : Conv B T) (sum : Collective p T) (count : ℕ)
    (bufs : Fin (p + 1) → ℕ → B) : Fin (p + 1) → ℕ → B :=
  if p + 1 = 1 then bufs else through c sum count bufs

/-- `broadcast_Tprimme`, src/eigs/auxiliary_eigs.c:429-473, without the time and counters: nothing for a
single process (436-438), `broadcastReal` when it is set (442-459), and otherwise all processes but the first
zero their buffers (461-463) and the buffers are added up (464). -/
def broadcastAll {p : ℕ} {B T U : Type} (zero : B) (cb : Conv B T) (cs : Conv B U)
    (bcast : Option (Collective p T)) (sum : Collective p U) (count : ℕ)
    (bufs : Fin (p + 1) → ℕ → B) : Fin (p + 1) → ℕ → B :=
  if p + 1 = 1 then bufs
  else match bcast with
    | some f => through cb f count bufs
    | none => globalSumAll cs sum count
        (fun i k => if i ≠ 0 then (if k < count then zero else bufs i k) else bufs i k)

/-- The return of a call of `broadcastReal`, src/eigs/auxiliary_eigs.c:433,451-452: `int ierr;` is declared
without a value (`initial` is what the stack holds), the user's function may store a code in it, and a
non-zero value makes the broadcast return `PRIMME_USER_FAILURE` (-41). -/
def broadcastCode (initial : Int) (stored : Option Int) : Int :=
  if stored.getD initial ≠ 0 then -41 else 0

/-- The conversion of an integer of magnitude `n` to a binary floating point type with `prec` significant bits
(11 for half, 24 for float, 53 for double), rounding to nearest and ties to even, and back.  The conversion
is the one `Num_copy_matrix_astype_iprimme` makes, src/linalg/auxiliary.c:148-200, when `broadcast_iprimme`
passes integers to a function of another type. -/
def roundInt (prec n : ℕ) : ℕ :=
  if n < 2 ^ prec then n
  else
    let e := Nat.log2 n + 1 - prec
    let q := n / 2 ^ e
    let r := n % 2 ^ e
    if 2 * r < 2 ^ e ∨ (2 * r = 2 ^ e ∧ q % 2 = 0) then q * 2 ^ e else (q + 1) * 2 ^ e

/-! ## The solution of the projected problem -/

/-- What a process knows of the solution of the projected problem: coefficient vectors, left vectors, values
and singular values, each possibly absent (a null pointer).  A scalar is `c` reals (1 for real, 2 for complex
arithmetic), given by the last argument. -/
structure Proj (R : Type) where
  hVecs : ℕ → ℕ → ℕ → R
  hU : ℕ → ℕ → ℕ → R
  hVals : ℕ → R
  hSVals : ℕ → R

/-- `Num_copy_matrix` of an `n × n` matrix of scalars to a buffer at scalar offset `off`, with leading
dimension `n`, in reals. -/
def putM {R : Type} (c n off : ℕ) (A : ℕ → ℕ → ℕ → R) (buf : ℕ → R) : ℕ → R :=
  fun k => if c * off ≤ k ∧ k < c * (off + n * n) then
      A ((k - c * off) / c % n) ((k - c * off) / c / n) ((k - c * off) % c)
    else buf k

/-- `Num_copy_matrix_Rprimme` of `m` reals to a buffer at scalar offset `off`. -/
def putV {R : Type} (c m off : ℕ) (v : ℕ → R) (buf : ℕ → R) : ℕ → R :=
  fun k => if c * off ≤ k ∧ k < c * off + m then v (k - c * off) else buf k

/-- `rwork0[i] = 0.0` for a scalar. -/
def putZero {R : Type} (zero : R) (c i : ℕ) (buf : ℕ → R) : ℕ → R :=
  fun k => if c * i ≤ k ∧ k < c * i + c then zero else buf k

/-- The copy back of an `n × n` matrix of scalars from offset `off`. -/
def getM {R : Type} (c n off : ℕ) (buf : ℕ → R) (old : ℕ → ℕ → ℕ → R) : ℕ → ℕ → ℕ → R :=
  fun i j t => if i < n ∧ j < n ∧ t < c then buf (c * (off + i + j * n) + t) else old i j t

/-- The copy back of `m` reals from offset `off`. -/
def getV {R : Type} (c m off : ℕ) (buf : ℕ → R) (old : ℕ → R) : ℕ → R :=
  fun i => if i < m then buf (c * off + i) else old i

/-- The number of scalars with room for `n` reals: `(basisSize + c - 1) / c`. -/
def room (c n : ℕ) : ℕ := (n + c - 1) / c

/-- Offsets in scalars of the four parts and the total, src/eigs/solve_projection.c:671-676 (and the same
increments at 686,696,707,723): a part takes room only when its pointer is not null. -/
structure Layout where
  oU : ℕ
  oVals : ℕ
  oSVals : ℕ
  total : ℕ

/-- The layout for the flags of `hVecs`, `hU`, `hVals` and `hSVals`. -/
def layout (c n : ℕ) (fV fU fL fS : Bool) : Layout :=
  let a := if fV then n * n else 0
  let b := a + if fU then n * n else 0
  let d := b + if fL then room c n else 0
  let e := d + if fS then room c n else 0
  ⟨a, b, d, e⟩

/-- The packing on process 0, src/eigs/solve_projection.c:680-724 (Hermitian case), in the order of the
code. -/
def pack {R : Type} (zero : R) (c n : ℕ) (fV fU fL fS : Bool) (P : Proj R) (buf : ℕ → R) : ℕ → R :=
  let L := layout c n fV fU fL fS
  let b := if fV then putM c n 0 P.hVecs buf else buf
  let b := if fU then putM c n L.oU P.hU b else b
  let b := if fL then putV c n L.oVals P.hVals (putZero zero c (L.oVals + room c n - 1) b) else b
  if fS then putV c n L.oSVals P.hSVals (putZero zero c (L.oSVals + room c n - 1) b) else b

/-- The unpacking on every process, src/eigs/solve_projection.c:733-768. -/
def unpack {R : Type} (c n : ℕ) (fV fU fL fS : Bool) (buf : ℕ → R) (old : Proj R) : Proj R :=
  let L := layout c n fV fU fL fS
  { hVecs := if fV then getM c n 0 buf old.hVecs else old.hVecs
    hU := if fU then getM c n L.oU buf old.hU else old.hU
    hVals := if fL then getV c n L.oVals buf old.hVals else old.hVals
    hSVals := if fS then getV c n L.oSVals buf old.hSVals else old.hSVals }

/-- `solve_H_brcast_Sprimme`, src/eigs/solve_projection.c:657-773: quick exit for an empty basis, a fresh
buffer on every process with arbitrary contents `fresh`, packing on process 0 only, the broadcast of all the
reals of the buffer and unpacking everywhere.  Not modelled: the code path of non-Hermitian problems, where
the values are scalars. -/
def solveHBrcast {p : ℕ} {R T U : Type} (zero : R) (c n : ℕ) (fV fU fL fS : Bool) (cb : Conv R T)
    (cs : Conv R U) (bcast : Option (Collective p T)) (sum : Collective p U)
    (fresh : Fin (p + 1) → ℕ → R) (ps : Fin (p + 1) → Proj R) : Fin (p + 1) → Proj R :=
  if n = 0 then ps
  else
    let total := c * (layout c n fV fU fL fS).total
    let packed : Fin (p + 1) → ℕ → R := fun i =>
      if i = 0 then pack zero c n fV fU fL fS (ps i) (fresh i) else fresh i
    let got := broadcastAll zero cb cs bcast sum total packed
    fun i => unpack c n fV fU fL fS (got i) (ps i)

end Verif.Bcast
