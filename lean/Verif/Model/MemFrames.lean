import Mathlib.Data.List.Basic

/-!
# Memory frames

Model of src/linalg/memman.c and of the macros `MEM_PUSH_FRAME`, `MEM_POP_FRAME`, `CHKERR`,
`CHKERRVAL` (src/include/common.h:246-283, 484-494, 569-578), of `Num_malloc_Sprimme` and
`Num_free_Sprimme` (src/linalg/blaslapack.c:94-138), and of the way the driver creates and destroys
its context (`primme_get_context`, `primme_free_context`, src/eigs/auxiliary_eigs.c:94-160, and
`Xprimme_aux_Sprimme`, src/eigs/primme_c.c:158-243).

The release build (`NDEBUG`) is modelled: `assert` is absent, so a failing assertion shows as the
undefined behaviour that follows it.

Simplifications:
* addresses are natural numbers handed out in increasing order and never reused; 0 is NULL;
* the linked list of `primme_alloc` records of a frame is a list, most recent record first; every
  record is itself a heap block (`self`);
* the execution of a function is given by the sequence of the memory related commands it performs
  (`Prog`); as theorems quantify over all of them, every data dependent branch is covered.
-/

namespace Verif.MemFrames

/-- `primme_alloc`, src/include/memman.h:42-50. -/
structure Rec where
  /-- address of the record itself -/
  self : Nat
  /-- the tracked block, `p` -/
  p : Nat
  deriving DecidableEq, Repr

/-- `primme_frame`, src/include/memman.h:52-58; `prev` is the rest of the stack of frames. -/
structure Frame where
  recs : List Rec
  keep : Bool
  deriving DecidableEq, Repr

/-- Heap, stack of frames reachable from `ctx.mm` (top first), the client's pointer variables and the
number of allocation attempts so far. -/
structure St where
  live : Nat → Bool
  next : Nat
  frames : List Frame
  env : Nat → Nat
  calls : Nat

/-- Which allocation attempts succeed: `data i` for the blocks the client asks for, `recd i` for the
small blocks of the frame machinery; `i` is the number of attempts so far. -/
structure MallocOracle where
  data : Nat → Bool
  recd : Nat → Bool

/-- How a function ends.  `clientBug`: the client handed `Num_free` a pointer that is not live (it freed
it before).  `ub`: the frame machinery itself freed a block twice, did not find a live block in its
records, or used a missing frame. -/
inductive Res where
  | fin (code : Int) (s : St)
  | clientBug
  | ub

/-- `malloc`, returning the new address, or 0 on failure. -/
def malloc (ok : Bool) (s : St) : Nat × St :=
  if ok then
    (s.next, { s with live := fun a => if a = s.next then true else s.live a, next := s.next + 1,
                      calls := s.calls + 1 })
  else (0, { s with calls := s.calls + 1 })

/-- `free` of a block; `none` if it is not live. -/
def free (a : Nat) (s : St) : Option St :=
  if s.live a then some { s with live := fun b => if b = a then false else s.live b } else none

/-- The loop of `Mem_pop_clean_frame`, memman.c:176-181. -/
def freeAll : List Rec → St → Option St
  | [], s => some s
  | r :: rs, s =>
    match (if r.p = 0 then some s else free r.p s) with
    | none => none
    | some s1 =>
      match free r.self s1 with
      | none => none
      | some s2 => freeAll rs s2

/-- `Mem_pop_clean_frame`, memman.c:172-184. -/
def popCleanFrame (s : St) : Option St :=
  match s.frames with
  | [] => some s
  | f :: fs => freeAll f.recs { s with frames := { f with recs := [] } :: fs }

/-- The loop transferring the records to the previous frame, memman.c:124-129. -/
def transfer : List Rec → List Rec → List Rec
  | [], dst => dst
  | r :: rs, dst => transfer rs (r :: dst)

/-- `Mem_pop_frame`, memman.c:100-161: returned code and new state. -/
def popFrame (s : St) : Option (Int × St) :=
  match s.frames with
  | [] => some (0, s)
  | f :: fs =>
    match f.keep, fs with
    | true, [] =>
      if f.recs = [] then some (-1, s)
      else match popCleanFrame s with
        | none => none
        | some s' => some (0, { s' with frames := [] })
    | true, g :: gs => some (0, { s with frames := { g with recs := transfer f.recs g.recs } :: gs })
    | false, fs =>
      match popCleanFrame s with
      | none => none
      | some s' => some (0, { s' with frames := fs })

/-- `Mem_keep_frame`, memman.c:195-201. -/
def keepFrame (s : St) : Option St :=
  match s.frames with
  | [] => none
  | f :: fs => some { s with frames := { f with keep := true } :: fs }

/-- `Mem_register_alloc`, memman.c:215-230.  The record is allocated inside of its own `CHKERR`; a
failure is reported by the return value. -/
def registerAlloc (o : MallocOracle) (p : Nat) (s : St) : Option (Int × St) :=
  match s.frames with
  | [] => none
  | f :: fs =>
    let (a, s1) := malloc (o.recd s.calls) s
    if a = 0 then some (-2, s1)
    else some (0, { s1 with frames := { f with recs := ⟨a, p⟩ :: f.recs } :: fs })

/-- Search of memman.c:250-261 in the records of one frame: the record found and the list without it. -/
def unlink (p : Nat) : List Rec → Option (Rec × List Rec)
  | [] => none
  | r :: rs =>
    if r.p = p then some (r, rs)
    else match unlink p rs with
      | none => none
      | some (q, rs') => some (q, r :: rs')

/-- The same search over all frames, from the top. -/
def unlinkFrames (p : Nat) : List Frame → Option (Rec × List Frame)
  | [] => none
  | f :: fs =>
    match unlink p f.recs with
    | some (q, rs) => some (q, { f with recs := rs } :: fs)
    | none => match unlinkFrames p fs with
      | none => none
      | some (q, fs') => some (q, f :: fs')

/-- `Mem_deregister_alloc`, memman.c:242-270; `none` if the pointer is not registered (the assertion
of line 265 fails and `a` is NULL in line 266). -/
def deregisterAlloc (p : Nat) (s : St) : Option St :=
  match unlinkFrames p s.frames with
  | none => none
  | some (q, fs) => free q.self { s with frames := fs }

/-- The memory related commands a function performs. -/
inductive Prog where
  /-- `return code` -/
  | ret (code : Int)
  /-- `Mem_keep_frame(ctx)` -/
  | keep (k : Prog)
  /-- `CHKERR(callee(..., ctx));` followed by the rest of the function -/
  | chk (callee : Prog) (k : Prog)
  /-- the body of `Num_malloc_Sprimme(n, &x, ctx)`; `pos` is `n > 0` -/
  | numMalloc (x : Nat) (pos : Bool)
  /-- the body of `Num_free_Sprimme(x, ctx)` -/
  | numFree (x : Nat)
  deriving DecidableEq, Repr

def setEnv (env : Nat → Nat) (x v : Nat) : Nat → Nat := fun y => if y = x then v else env y

/-- Body of `Num_malloc_Sprimme`, blaslapack.c:94-116.  The value returned by `Mem_register_alloc` is
ignored, as in line 112. -/
def numMalloc (o : MallocOracle) (x : Nat) (pos : Bool) (s : St) : Res :=
  if pos = false then .fin 0 { s with env := setEnv s.env x 0 }
  else
    let (p, s1) := malloc (o.data s.calls) s
    if p = 0 then .fin (-2) { s1 with env := setEnv s1.env x 0 }
    else
      match keepFrame { s1 with env := setEnv s1.env x p } with
      | none => .ub
      | some s2 =>
        match registerAlloc o p s2 with
        | none => .ub
        | some (_, s3) => .fin 0 s3

/-- Body of `Num_free_Sprimme`, blaslapack.c:127-142. -/
def numFree (x : Nat) (s : St) : Res :=
  if s.env x = 0 then .fin 0 s
  else if s.live (s.env x) = false then .clientBug
  else
    match deregisterAlloc (s.env x) s with
    | none => .ub
    | some s1 =>
      match free (s.env x) s1 with
      | none => .ub
      | some s2 => .fin 0 s2

/-- Execution of the commands of a function.  `chk` is `CHKERR`, common.h:484-494: push a frame
(`MEM_PUSH_FRAME`, 246-248); run the callee; on error free everything in the frame and return the code
(the callee's frame disappears with the block); otherwise pop the frame (`MEM_POP_FRAME`, 272-283). -/
def run (o : MallocOracle) : Prog → St → Res
  | .ret c, s => .fin c s
  | .keep k, s =>
    match keepFrame s with
    | none => .ub
    | some s' => run o k s'
  | .numMalloc x pos, s => numMalloc o x pos s
  | .numFree x, s => numFree x s
  | .chk f k, s =>
    match run o f { s with frames := ⟨[], false⟩ :: s.frames } with
    | .clientBug => .clientBug
    | .ub => .ub
    | .fin c s1 =>
      if c ≠ 0 then
        match popCleanFrame s1 with
        | none => .ub
        | some s2 => .fin c { s2 with frames := s2.frames.tail }
      else
        match popFrame s1 with
        | none => .ub
        | some (rc, s2) =>
          if rc ≠ 0 then
            match popCleanFrame s2 with
            | none => .ub
            | some s3 => .fin (-1) { s3 with frames := s3.frames.tail }
          else run o k s2

/-- `Mem_push_frame`, memman.c:63-89: allocate a frame and a record that tracks the frame itself. -/
def pushFrame (o : MallocOracle) (s : St) : St :=
  let (f, s1) := malloc (o.recd s.calls) s
  if f = 0 then s1
  else
    let (a, s2) := malloc (o.recd s1.calls) s1
    if a = 0 then (match free f s2 with | some s3 => s3 | none => s2)
    else { s2 with frames := ⟨[⟨a, f⟩], false⟩ :: s2.frames }

/-- `Xprimme_aux_Sprimme`, primme_c.c:158-236, as far as memory is concerned: create the context
(auxiliary_eigs.c:133), run the wrapper inside of `CHKERRVAL` (common.h:569-578) and pop the context's
frame (auxiliary_eigs.c:152).  After an error `CHKERRVAL` leaves `ctx.mm` pointing at the frame of the
block it has just left; the model keeps that (empty) frame on the stack, which is what happens if the
stack slot still holds its old contents. -/
def driver (o : MallocOracle) (body : Prog) (s : St) : Res :=
  let s0 := pushFrame o s
  match run o body { s0 with frames := ⟨[], false⟩ :: s0.frames } with
  | .clientBug => .clientBug
  | .ub => .ub
  | .fin c s1 =>
    if c ≠ 0 then
      match popCleanFrame s1 with
      | none => .ub
      | some s2 =>
        match popFrame s2 with
        | none => .ub
        | some (_, s3) => .fin c s3
    else
      match popFrame s1 with
      | none => .ub
      | some (rc, s2) =>
        if rc ≠ 0 then
          match popCleanFrame s2 with
          | none => .ub
          | some s3 => match popFrame s3 with
            | none => .ub
            | some (_, s4) => .fin (-1) s4
        else
          match popFrame s2 with
          | none => .ub
          | some (_, s3) => .fin 0 s3

/-- A process that has only the blocks of `l0` on the heap and no context. -/
def start (live0 : Nat → Bool) (next0 : Nat) : St :=
  { live := live0, next := next0, frames := [], env := fun _ => 0, calls := 0 }

end Verif.MemFrames
