import Verif.Spec.Fortran
import Verif.Spec.Enumerators
import Verif.Model.FortranTables
import Verif.Props.C01_EigsMembers
import Verif.Props.C04_SvdsMembers

/-!
# C50 — The Fortran interface

The constants of the Fortran headers are those of the C headers, and a Fortran session does what the same session
in C does.  Refuted: one constant of the Fortran 77 header is misspelt, and several routines do not have the arguments
that the manual gives.
-/

set_option linter.unusedSimpArgs false

namespace Verif.Props
open Verif Verif.Fortran Verif.Fortran.Spec Verif.Spec Verif.Members

/-! ## Constants -/

/-- Enumerators without a Fortran constant: the label that means an error, two events, the ways to orthogonalise and
the types of members. -/
def C50_absent : List String := ["PRIMME_invalid_label", "PRIMME_SVDS_invalid_label", "primme_event_message",
  "primme_event_profile", "primme_orth_default", "primme_orth_implicit_I", "primme_orth_explicit_I", "primme_int",
  "primme_double", "primme_pointer", "primme_string"]

/-- The constants of the Fortran 90 headers are the C enumerators, except for those of `C50_absent`, with their values. -/
theorem C50_f90_partial (e : String × Int) :
    (e ∈ f90Eigs ↔ e ∈ eigsEnumerators ∧ e.1 ∉ C50_absent) ∧ (e ∈ f90Svds ↔ e ∈ svdsEnumerators ∧ e.1 ∉ C50_absent) := by
  have h1 : f90Eigs.drop 105 ++ f90Eigs.take 105 = eigsEnumerators.filter (fun e => !(C50_absent.contains e.1)) := by
    decide +kernel
  have h2 : (f90Svds.drop 66).take 3 ++ (f90Svds.take 4 ++ (f90Svds.drop 69 ++ (f90Svds.drop 4).take 62)) =
      svdsEnumerators.filter (fun e => !(C50_absent.contains e.1)) := by decide +kernel
  have h3 : f90Svds = f90Svds.take 4 ++ ((f90Svds.drop 4).take 62 ++ ((f90Svds.drop 66).take 3 ++ f90Svds.drop 69)) := by
    decide +kernel
  have key : ∀ l : List (String × Int), e ∈ l.filter (fun e => !(C50_absent.contains e.1)) ↔ e ∈ l ∧ e.1 ∉ C50_absent := by
    intro l
    rw [List.mem_filter]
    simp
  constructor
  · rw [← key, ← h1]
    conv_lhs => rw [← List.take_append_drop 105 f90Eigs]
    rw [List.mem_append, List.mem_append]
    exact or_comm
  · rw [← key, ← h2]
    conv_lhs => rw [h3]
    simp only [List.mem_append]
    constructor
    · rintro (h | h | h | h)
      · exact .inr (.inl h)
      · exact .inr (.inr (.inr h))
      · exact .inl h
      · exact .inr (.inr (.inl h))
    · rintro (h | h | h | h)
      · exact .inr (.inr (.inl h))
      · exact .inl h
      · exact .inr (.inr (.inr h))
      · exact .inr (.inl h)

/-- The constants of the Fortran 77 headers are those of the Fortran 90 headers, except for one name. -/
theorem C50_f77_partial (e : String × Int) :
    (e ∈ f77Eigs ↔ (e ∈ f90Eigs ∧ e.1 ≠ "PRIMME_ShiftsForPreconditioner") ∨ e = ("PRIMME_ShiftForPreconditioner", 40)) ∧
    (e ∈ f77Svds ↔ e ∈ f90Svds) := by
  have h1 : f77Eigs = f90Eigs.map (fun e =>
      if e.1 = "PRIMME_ShiftsForPreconditioner" then ("PRIMME_ShiftForPreconditioner", e.2) else e) := by decide +kernel
  have h2 : f77Svds = f90Svds := by decide +kernel
  have h3 : ∀ e ∈ f90Eigs, e.1 = "PRIMME_ShiftsForPreconditioner" → e.2 = 40 := by decide +kernel
  have h4 : ("PRIMME_ShiftsForPreconditioner", 40) ∈ f90Eigs := by decide +kernel
  refine ⟨?_, by rw [h2]⟩
  rw [h1, List.mem_map]
  constructor
  · rintro ⟨a, ha, rfl⟩
    by_cases hn : a.1 = "PRIMME_ShiftsForPreconditioner"
    · right
      rw [if_pos hn, h3 a ha hn]
    · left
      rw [if_neg hn]
      exact ⟨ha, hn⟩
  · rintro (⟨he, hn⟩ | rfl)
    · exact ⟨e, he, if_neg hn⟩
    · exact ⟨_, h4, if_pos rfl⟩

/-- Refutation: with the Fortran 77 header the shifts for the preconditioner cannot be asked for by the name of their
label, and no Fortran header names a way to orthogonalise, although `PRIMME_orth` can be set. -/
theorem C50_names_violated :
    (("PRIMME_ShiftsForPreconditioner", 40) ∈ eigsEnumerators ∧ (∀ e ∈ f77Eigs, e.1 ≠ "PRIMME_ShiftsForPreconditioner") ∧
      ("PRIMME_ShiftForPreconditioner", 40) ∈ f77Eigs ∧ ∀ e ∈ eigsEnumerators, e.1 ≠ "PRIMME_ShiftForPreconditioner") ∧
    (("primme_orth_explicit_I", 2) ∈ eigsEnumerators ∧ ("PRIMME_orth", 33) ∈ f77Eigs ∧ ("PRIMME_orth", 33) ∈ f90Eigs ∧
      ∀ e ∈ f77Eigs ++ f90Eigs, e.1 ≠ "primme_orth_explicit_I") := by
  refine ⟨⟨?_, ?_, ?_, ?_⟩, ?_, ?_, ?_, ?_⟩ <;> decide +kernel

/-! ## Sessions -/

variable {S V : Type}

/-- The Fortran call of a step, from the program that has the handle `h`; `any` is the contents of variables that are
only written. -/
def C50_callEigs (h : Nat) (any : V) : Op V → Routine × List (Arg V)
  | .setMethod ks => (.setMethod, [.handle h, .integer (ks.headD 0), .integer 0])
  | .set l v => (.setMember, [.handle h, .integer l, .value v, .integer 0])
  | .get l => (.topGetMember, [.handle h, .integer l, .value any, .integer 0])
  | .shift i => (.topGetPrecShift, [.handle h, .integer i, .value any])
  | .solve => (.solve, [.value any, .value any, .value any, .handle h, .integer 0])

/-- The steps there are for eigenvalue problems: one preset. -/
def C50_opEigs : Op V → Prop
  | .setMethod ks => ks.length = 1
  | _ => True

/-- The Fortran call of a step of a singular value problem. -/
def C50_callSvds (h : Nat) (any : V) : Op V → Routine × List (Arg V)
  | .setMethod ks => (.setMethod, [.integer (ks.getD 0 0), .integer (ks.getD 1 0), .integer (ks.getD 2 0), .handle h, .integer 0])
  | .set l v => (.setMember, [.handle h, .integer l, .value v, .integer 0])
  | .get l => (.topGetMember, [.handle h, .integer l, .value any, .integer 0])
  | .shift i => (.topGetPrecShift, [.handle h, .integer i, .value any])
  | .solve => (.solve, [.value any, .value any, .value any, .handle h, .integer 0])

/-- The steps there are for singular value problems: three presets and no shifts. -/
def C50_opSvds : Op V → Prop
  | .setMethod ks => ks.length = 3
  | .shift _ => False
  | _ => True

/-- A sequence of calls. -/
def C50_run (call : Routine → List (Arg V) → World S → Outcome (World S × Ret V)) :
    List (Routine × List (Arg V)) → World S → Outcome (World S × List (Ret V))
  | [], w => .ok (w, [])
  | c :: cs, w => call c.1 c.2 w >>= fun r => C50_run call cs r.1 >>= fun q => .ok (q.1, r.2 :: q.2)

theorem C50_cast {l : Int} (h : 0 ≤ l ∧ l < 2 ^ 31) : castEnum l = l := by
  unfold castEnum
  exact Int.emod_eq_of_lt h.1 (by have := h.2; omega)

/-- A structure behind a handle. -/
def C50_Holds (w : World S) (h a : Nat) (s : S) : Prop := w.handles h = a ∧ a ≠ 0 ∧ w.heap a = some s

theorem C50_load {w : World S} {h a : Nat} {s : S} (H : C50_Holds w h a s) : w.load (w.handles h) = .ok s := by
  obtain ⟨h1, h2, h3⟩ := H
  unfold World.load
  rw [h1, if_neg h2, h3]

theorem C50_put_holds {w : World S} {h a : Nat} {s : S} (H : C50_Holds w h a s) (s' : S) :
    C50_Holds (w.put a (some s')) h a s' := by
  refine ⟨H.1, H.2.1, ?_⟩
  show (if a = a then _ else _) = _
  rw [if_pos rfl]

theorem C50_put_put (w : World S) (a : Nat) (x y : Option S) : (w.put a x).put a y = w.put a y := by
  unfold World.put
  congr 1
  funext b
  by_cases hb : b = a
  · simp [hb]
  · simp [hb]

theorem C50_put_self {w : World S} {h a : Nat} {s : S} (H : C50_Holds w h a s) : w.put a (some s) = w := by
  unfold World.put
  cases w with
  | mk hs hp =>
    congr 1
    funext b
    by_cases hb : b = a
    · have := H.2.2
      subst hb
      simp only [if_true]
      exact this.symm
    · simp [hb]

/-- One step in Fortran is the step in C on the structure behind the handle; nothing else changes. -/
theorem C50_step (lib : Lib S V) (m : Option Nat) (any : V) {w : World S} {h a : Nat} {s : S} (H : C50_Holds w h a s)
    (o : Op V) (ho : C50_opEigs o) (hs : o.Sane) :
    callEigs lib m (C50_callEigs h any o).1 (C50_callEigs h any o).2 w =
      (Spec.step lib s o >>= fun r => .ok (w.put a (some r.1), r.2)) := by
  have hl := C50_load H
  have h1 := H.1
  cases o with
  | setMethod ks =>
    obtain ⟨k, rfl⟩ := List.length_eq_one_iff.1 ho
    show (w.load (w.handles h) >>= _) = _
    rw [hl, h1]
    simp only [Outcome.bind_ok, Spec.step, List.headD]
    cases lib.setMethod [k] s <;> rfl
  | set l v =>
    show (w.load (w.handles h) >>= _) = _
    rw [hl, h1, C50_cast hs]
    simp only [Outcome.bind_ok, Spec.step]
    cases lib.set s l v <;> rfl
  | get l =>
    show (w.load (w.handles h) >>= _) = _
    rw [hl, C50_cast hs]
    simp only [Outcome.bind_ok, Spec.step]
    cases lib.get s l with
    | ok r => simp only [Outcome.bind_ok]; rw [C50_put_self H]
    | err e => rfl
    | ub => rfl
  | shift i =>
    show (w.load (w.handles h) >>= _) = _
    rw [hl]
    simp only [Outcome.bind_ok, Spec.step]
    cases lib.shift s (i - 1) with
    | ok r => simp only [Outcome.bind_ok]; rw [C50_put_self H]
    | err e => rfl
    | ub => rfl
  | solve =>
    show (w.load (w.handles h) >>= _) = _
    rw [hl, h1]
    simp only [Outcome.bind_ok, Spec.step]
    cases lib.solve s <;> rfl

theorem C50_stepSvds (lib : Lib S V) (m : Option Nat) (any : V) {w : World S} {h a : Nat} {s : S} (H : C50_Holds w h a s)
    (o : Op V) (ho : C50_opSvds o) (hs : o.Sane) :
    callSvds lib m (C50_callSvds h any o).1 (C50_callSvds h any o).2 w =
      (Spec.step lib s o >>= fun r => .ok (w.put a (some r.1), r.2)) := by
  have hl := C50_load H
  have h1 := H.1
  cases o with
  | setMethod ks =>
    obtain ⟨k, k1, k2, rfl⟩ : ∃ k k1 k2, ks = [k, k1, k2] := by
      match ks, ho with
      | [k, k1, k2], _ => exact ⟨k, k1, k2, rfl⟩
    show (w.load (w.handles h) >>= _) = _
    rw [hl, h1]
    simp only [Outcome.bind_ok, Spec.step]
    show (lib.setMethod [k, k1, k2] s >>= _) = _
    cases lib.setMethod [k, k1, k2] s <;> rfl
  | set l v =>
    show (w.load (w.handles h) >>= _) = _
    rw [hl, h1, C50_cast hs]
    simp only [Outcome.bind_ok, Spec.step]
    cases lib.set s l v <;> rfl
  | get l =>
    show (w.load (w.handles h) >>= _) = _
    rw [hl, C50_cast hs]
    simp only [Outcome.bind_ok, Spec.step]
    cases lib.get s l with
    | ok r => simp only [Outcome.bind_ok]; rw [C50_put_self H]
    | err e => rfl
    | ub => rfl
  | shift i => exact ho.elim
  | solve =>
    show (w.load (w.handles h) >>= _) = _
    rw [hl, h1]
    simp only [Outcome.bind_ok, Spec.step]
    cases lib.solve s <;> rfl

theorem C50_steps (lib : Lib S V) (call : Routine → List (Arg V) → World S → Outcome (World S × Ret V))
    (args : Op V → Routine × List (Arg V)) (P : Op V → Prop) {h a : Nat}
    (hstep : ∀ (w : World S) (s : S), C50_Holds w h a s → ∀ o, P o →
      call (args o).1 (args o).2 w = (Spec.step lib s o >>= fun r => .ok (w.put a (some r.1), r.2)))
    (os : List (Op V)) : ∀ (w : World S) (s : S), C50_Holds w h a s → (∀ o ∈ os, P o) →
      C50_run call (os.map args) w = (Spec.session lib s os >>= fun q => .ok (w.put a (some q.1), q.2)) := by
  induction os with
  | nil =>
    intro w s H _
    show Outcome.ok (w, []) = Outcome.ok (w.put a (some s), [])
    rw [C50_put_self H]
  | cons o os ih =>
    intro w s H hP
    show (call (args o).1 (args o).2 w >>= _) = _
    rw [hstep w s H o (hP o List.mem_cons_self)]
    cases hr : Spec.step lib s o with
    | err e => simp only [Spec.session, hr, Outcome.bind_err]
    | ub => simp only [Spec.session, hr, Outcome.bind_ub]
    | ok r =>
      simp only [Spec.session, hr, Outcome.bind_ok]
      rw [ih (w.put a (some r.1)) r.1 (C50_put_holds H r.1) (fun o ho => hP o (List.mem_cons_of_mem _ ho))]
      cases hq : Spec.session lib r.1 os with
      | err e => simp only [Outcome.bind_err]
      | ub => simp only [Outcome.bind_ub]
      | ok q => simp only [Outcome.bind_ok, C50_put_put]

/-- What a whole session leaves: the structure is gone, its handle is `NULL`, and every other handle and structure is as
before. -/
def C50_final (w : World S) (h a : Nat) : World S := (w.put a none).setHandle h 0

theorem C50_whole (lib : Lib S V) (call : Option Nat → Routine → List (Arg V) → World S → Outcome (World S × Ret V))
    (args : Op V → Routine × List (Arg V)) (P : Op V → Prop) {w : World S} {h a : Nat} (ha : a ≠ 0)
    (hinit : call (some a) .initialize [.handle h] w = .ok (create lib (some a) h w, ⟨none, none⟩))
    (hfree : ∀ m w, call m .free [.handle h] w = (release h w >>= fun w => .ok (w, ⟨none, none⟩)))
    (hstep : ∀ (w : World S) (s : S), C50_Holds w h a s → ∀ o, P o →
      call none (args o).1 (args o).2 w = (Spec.step lib s o >>= fun r => .ok (w.put a (some r.1), r.2)))
    (os : List (Op V)) (hP : ∀ o ∈ os, P o) :
    (call (some a) .initialize [.handle h] w >>= fun r => C50_run (call none) (os.map args) r.1 >>= fun q =>
        call none .free [.handle h] q.1 >>= fun f => .ok (f.1, q.2)) =
      (Spec.session lib lib.init os >>= fun q => .ok (C50_final w h a, q.2)) := by
  rw [hinit]
  simp only [Outcome.bind_ok]
  have H : C50_Holds (create lib (some a) h w) h a lib.init := by
    refine ⟨?_, ha, ?_⟩
    · show (if h = h then a else _) = a
      rw [if_pos rfl]
    · show (if a = a then _ else _) = _
      rw [if_pos rfl]
  rw [C50_steps lib (call none) args P hstep os _ _ H hP]
  cases hq : Spec.session lib lib.init os with
  | err e => simp only [Outcome.bind_err]
  | ub => simp only [Outcome.bind_ub]
  | ok q =>
    simp only [Outcome.bind_ok, hfree]
    have H' := C50_put_holds H q.1
    have e : release h ((create lib (some a) h w).put a (some q.1)) =
        .ok ((((create lib (some a) h w).put a (some q.1)).put a none).setHandle h 0) := by
      unfold release
      rw [H'.1, if_neg ha, H'.2.2]
    rw [e]
    simp only [Outcome.bind_ok]
    rw [C50_put_put]
    congr 2
    unfold C50_final create World.setHandle World.put
    congr 1
    · funext g
      by_cases hg : g = h
      · simp [hg]
      · simp [hg]
    · funext b
      by_cases hb : b = a
      · simp [hb]
      · simp [hb]

/-- A Fortran program that initialises a structure, sets parameters, solves, reads members and frees the structure gets
what the same program in C gets, whatever the library does; after it the handle is `NULL` and nothing else in memory has
changed. -/
theorem C50_session (lib : Lib S V) (any : V) (w : World S) (h a : Nat) (ha : a ≠ 0) (os : List (Op V))
    (ho : ∀ o ∈ os, C50_opEigs o ∧ o.Sane) :
    (callEigs lib (some a) .initialize [.handle h] w >>= fun r =>
        C50_run (callEigs lib none) (os.map (C50_callEigs h any)) r.1 >>= fun q =>
        callEigs lib none .free [.handle h] q.1 >>= fun f => .ok (f.1, q.2)) =
      (Spec.session lib lib.init os >>= fun q => .ok (C50_final w h a, q.2)) :=
  C50_whole lib (callEigs lib) (C50_callEigs h any) (fun o => C50_opEigs o ∧ o.Sane) ha rfl (fun _ _ => rfl)
    (fun _ _ H o hp => C50_step lib none any H o hp.1 hp.2) os ho

/-- The same for singular value problems. -/
theorem C50_sessionSvds (lib : Lib S V) (any : V) (w : World S) (h a : Nat) (ha : a ≠ 0) (os : List (Op V))
    (ho : ∀ o ∈ os, C50_opSvds o ∧ o.Sane) :
    (callSvds lib (some a) .initialize [.handle h] w >>= fun r =>
        C50_run (callSvds lib none) (os.map (C50_callSvds h any)) r.1 >>= fun q =>
        callSvds lib none .free [.handle h] q.1 >>= fun f => .ok (f.1, q.2)) =
      (Spec.session lib lib.init os >>= fun q => .ok (C50_final w h a, q.2)) :=
  C50_whole lib (callSvds lib) (C50_callSvds h any) (fun o => C50_opSvds o ∧ o.Sane) ha rfl (fun _ _ => rfl)
    (fun _ _ H o hp => C50_stepSvds lib none any H o hp.1 hp.2) os ho

/-- Inside a callback, `primme_get_member_f77` and `primme_get_prec_shift_f77` on the structure received give what the
routines for the main program give on the handle. -/
theorem C50_callback (lib : Lib S V) (m : Option Nat) (any : V) (w : World S) (h a : Nat) (hh : w.handles h = a) (l i : Int) :
    callEigs lib m .getMember [.struct a, .integer l, .value any, .integer 0] w =
      callEigs lib m .topGetMember [.handle h, .integer l, .value any, .integer 0] w ∧
    callEigs lib m .getPrecShift [.struct a, .integer i, .value any] w =
      callEigs lib m .topGetPrecShift [.handle h, .integer i, .value any] w ∧
    callSvds lib m .getMember [.struct a, .integer l, .value any, .integer 0] w =
      callSvds lib m .topGetMember [.handle h, .integer l, .value any, .integer 0] w := by
  subst hh
  exact ⟨rfl, rfl, rfl⟩

/-- The first position of the shifts is 1. -/
theorem C50_shift (lib : Lib S V) (m : Option Nat) (any : V) {w : World S} {h a : Nat} {s : S} (H : C50_Holds w h a s)
    (shifts : List V) (hsh : ∀ k : Int, lib.shift s k = if h : 0 ≤ k ∧ k.toNat < shifts.length then .ok shifts[k.toNat] else .ub)
    (i : Nat) (hi : i < shifts.length) :
    callEigs lib m .topGetPrecShift [.handle h, .integer (i + 1), .value any] w = .ok (w, ⟨none, some shifts[i]⟩) := by
  have hl := C50_load H
  show (w.load (w.handles h) >>= _) = _
  rw [hl]
  simp only [Outcome.bind_ok]
  have e : ((i : Int) + 1 - 1) = (i : Int) := by omega
  rw [e, hsh, dif_pos ⟨by omega, by simpa using hi⟩]
  rfl

/-! ## Signatures -/

/-- The routines of the manual that have other arguments in the library. -/
def C50_otherEigs : List Routine := [.setMethod, .setMember, .getMember, .topGetMember]

/-- Likewise for singular value problems. -/
def C50_otherSvds : List Routine := [.initialize, .free]

/-- The arguments refer to live structures. -/
def C50_live (w : World S) : Arg V → Prop
  | .handle h => ∃ s, C50_Holds w h (w.handles h) s
  | .struct a => a ≠ 0 ∧ ∃ s, w.heap a = some s
  | _ => True

/-- The C functions themselves are well defined. -/
def C50_total (lib : Lib S V) : Prop :=
  (∀ s l v, lib.set s l v ≠ .ub) ∧ (∀ s l, lib.get s l ≠ .ub) ∧ (∀ ks s, lib.setMethod ks s ≠ .ub) ∧
    (∀ s k, lib.shift s k ≠ .ub) ∧ (∀ s, lib.solve s ≠ .ub)

theorem C50_bind_ne {α β : Type} {x : Outcome α} {f : α → Outcome β} (hx : x ≠ .ub) (hf : ∀ a, f a ≠ .ub) :
    (x >>= f) ≠ .ub := by
  cases x with
  | ok a => exact hf a
  | err e => intro h; cases h
  | ub => exact (hx rfl).elim

theorem C50_release_ne {w : World S} {h : Nat} {s : S} (H : C50_Holds w h (w.handles h) s) : release h w ≠ .ub := by
  unfold release
  rw [if_neg H.2.1, H.2.2]
  intro e; cases e

theorem C50_struct_load {w : World S} {a : Nat} {s : S} (ha : a ≠ 0) (hs : w.heap a = some s) : w.load a = .ok s := by
  unfold World.load
  rw [if_neg ha, hs]

theorem C50_kinds1 {args : List (Arg V)} {k : Kind} (h : args.map Arg.kind = [k]) : ∃ x, args = [x] ∧ x.kind = k := by
  match args, h with
  | [x], h => exact ⟨x, rfl, by simpa using h⟩

theorem C50_kinds3 {args : List (Arg V)} {k1 k2 k3 : Kind} (h : args.map Arg.kind = [k1, k2, k3]) :
    ∃ x y z, args = [x, y, z] ∧ x.kind = k1 ∧ y.kind = k2 ∧ z.kind = k3 := by
  match args, h with
  | [x, y, z], h =>
    simp only [List.map_cons, List.map_nil, List.cons.injEq, and_true] at h
    exact ⟨x, y, z, rfl, h⟩

theorem C50_kinds4 {args : List (Arg V)} {k1 k2 k3 k4 : Kind} (h : args.map Arg.kind = [k1, k2, k3, k4]) :
    ∃ x y z t, args = [x, y, z, t] ∧ x.kind = k1 ∧ y.kind = k2 ∧ z.kind = k3 ∧ t.kind = k4 := by
  match args, h with
  | [x, y, z, t], h =>
    simp only [List.map_cons, List.map_nil, List.cons.injEq, and_true] at h
    exact ⟨x, y, z, t, rfl, h⟩

theorem C50_kinds5 {args : List (Arg V)} {k1 k2 k3 k4 k5 : Kind} (h : args.map Arg.kind = [k1, k2, k3, k4, k5]) :
    ∃ x y z t u, args = [x, y, z, t, u] ∧ x.kind = k1 ∧ y.kind = k2 ∧ z.kind = k3 ∧ t.kind = k4 ∧ u.kind = k5 := by
  match args, h with
  | [x, y, z, t, u], h =>
    simp only [List.map_cons, List.map_nil, List.cons.injEq, and_true] at h
    exact ⟨x, y, z, t, u, rfl, h⟩

theorem C50_handle {x : Arg V} (h : x.kind = .handle) : ∃ v, x = .handle v := by
  cases x <;> first | exact ⟨_, rfl⟩ | cases h

theorem C50_structArg {x : Arg V} (h : x.kind = .struct) : ∃ v, x = .struct v := by
  cases x <;> first | exact ⟨_, rfl⟩ | cases h

theorem C50_integer {x : Arg V} (h : x.kind = .integer) : ∃ v, x = .integer v := by
  cases x <;> first | exact ⟨_, rfl⟩ | cases h

theorem C50_value {x : Arg V} (h : x.kind = .value) : ∃ v, x = .value v := by
  cases x <;> first | exact ⟨_, rfl⟩ | cases h

theorem C50_update_ne {w : World S} {h : Nat} {s : S} (H : C50_Holds w h (w.handles h) s)
    {f : S → Outcome (Int × S)} (hf : ∀ s, f s ≠ .ub) : (update h w f : Outcome (World S × Ret V)) ≠ .ub := by
  unfold update
  rw [C50_load H]
  simp only [Outcome.bind_ok]
  exact C50_bind_ne (hf s) (fun _ e => by cases e)

theorem C50_fetch_ne (lib : Lib S V) {w : World S} {a : Nat} {s : S} (ha : a ≠ 0) (hs : w.heap a = some s) (l : Int)
    (hf : ∀ s l, lib.get s l ≠ .ub) : fetch lib a l w ≠ .ub := by
  unfold fetch
  rw [C50_struct_load ha hs]
  simp only [Outcome.bind_ok]
  exact C50_bind_ne (hf _ _) (fun _ e => by cases e)

theorem C50_precShift_ne (lib : Lib S V) {w : World S} {a : Nat} {s : S} (ha : a ≠ 0) (hs : w.heap a = some s) (l : Int)
    (hf : ∀ s l, lib.shift s l ≠ .ub) : precShift lib a l w ≠ .ub := by
  unfold precShift
  rw [C50_struct_load ha hs]
  simp only [Outcome.bind_ok]
  exact C50_bind_ne (hf _ _) (fun _ e => by cases e)

/-- A call written as in the manual is well defined, except for the routines above. -/
theorem C50_signatures_partial (lib : Lib S V) (hlib : C50_total lib) (m : Option Nat) (w : World S) (r : Routine)
    (args : List (Arg V)) (hlive : ∀ x ∈ args, C50_live w x) (hr : r ∉ C50_otherEigs)
    (hk : args.map Arg.kind = documentedEigs r) : callEigs lib m r args w ≠ .ub := by
  obtain ⟨_, _, _, hshift, hsolve⟩ := hlib
  cases r with
  | «initialize» =>
    obtain ⟨x, rfl, hx⟩ := C50_kinds1 hk
    obtain ⟨h, rfl⟩ := C50_handle hx
    intro e; cases e
  | free =>
    obtain ⟨x, rfl, hx⟩ := C50_kinds1 hk
    obtain ⟨h, rfl⟩ := C50_handle hx
    obtain ⟨s, H⟩ := hlive _ List.mem_cons_self
    exact C50_bind_ne (C50_release_ne H) (fun _ e => by cases e)
  | display =>
    obtain ⟨x, rfl, hx⟩ := C50_kinds1 hk
    obtain ⟨h, rfl⟩ := C50_handle hx
    obtain ⟨s, H⟩ := hlive _ List.mem_cons_self
    show (w.load (w.handles h) >>= _) ≠ _
    rw [C50_load H]
    intro e; cases e
  | setMethod => exact (hr (by decide)).elim
  | setMember => exact (hr (by decide)).elim
  | getMember => exact (hr (by decide)).elim
  | topGetMember => exact (hr (by decide)).elim
  | getPrecShift =>
    obtain ⟨x, y, z, rfl, hx, hy, hz⟩ := C50_kinds3 hk
    obtain ⟨a, rfl⟩ := C50_structArg hx
    obtain ⟨i, rfl⟩ := C50_integer hy
    obtain ⟨v, rfl⟩ := C50_value hz
    obtain ⟨ha, s, hs⟩ := hlive _ List.mem_cons_self
    exact C50_precShift_ne lib ha hs i hshift
  | topGetPrecShift =>
    obtain ⟨x, y, z, rfl, hx, hy, hz⟩ := C50_kinds3 hk
    obtain ⟨h, rfl⟩ := C50_handle hx
    obtain ⟨i, rfl⟩ := C50_integer hy
    obtain ⟨v, rfl⟩ := C50_value hz
    obtain ⟨s, H⟩ := hlive _ List.mem_cons_self
    exact C50_precShift_ne lib H.2.1 H.2.2 i hshift
  | solve =>
    obtain ⟨x, y, z, t, u, rfl, hx, hy, hz, ht, hu⟩ := C50_kinds5 hk
    obtain ⟨x, rfl⟩ := C50_value hx
    obtain ⟨y, rfl⟩ := C50_value hy
    obtain ⟨z, rfl⟩ := C50_value hz
    obtain ⟨h, rfl⟩ := C50_handle ht
    obtain ⟨i, rfl⟩ := C50_integer hu
    obtain ⟨s, H⟩ := hlive (.handle h) (by simp)
    exact C50_update_ne H hsolve

/-- The same for singular value problems. -/
theorem C50_signaturesSvds_partial (lib : Lib S V) (hlib : C50_total lib) (m : Option Nat) (w : World S) (r : Routine)
    (args : List (Arg V)) (hlive : ∀ x ∈ args, C50_live w x) (hr : r ∉ C50_otherSvds)
    (hk : some (args.map Arg.kind) = documentedSvds r) : callSvds lib m r args w ≠ .ub := by
  obtain ⟨hset, hget, hmethod, _, hsolve⟩ := hlib
  cases r with
  | «initialize» => exact (hr (by decide)).elim
  | free => exact (hr (by decide)).elim
  | display =>
    obtain ⟨x, rfl, hx⟩ := C50_kinds1 (Option.some.inj hk)
    obtain ⟨h, rfl⟩ := C50_handle hx
    obtain ⟨s, H⟩ := hlive _ List.mem_cons_self
    show (w.load (w.handles h) >>= _) ≠ _
    rw [C50_load H]
    intro e; cases e
  | setMethod =>
    obtain ⟨x, y, z, t, u, rfl, hx, hy, hz, ht, hu⟩ := C50_kinds5 (Option.some.inj hk)
    obtain ⟨x, rfl⟩ := C50_integer hx
    obtain ⟨y, rfl⟩ := C50_integer hy
    obtain ⟨z, rfl⟩ := C50_integer hz
    obtain ⟨h, rfl⟩ := C50_handle ht
    obtain ⟨i, rfl⟩ := C50_integer hu
    obtain ⟨s, H⟩ := hlive (.handle h) (by simp)
    exact C50_update_ne H (hmethod _)
  | setMember =>
    obtain ⟨x, y, z, t, rfl, hx, hy, hz, ht⟩ := C50_kinds4 (Option.some.inj hk)
    obtain ⟨h, rfl⟩ := C50_handle hx
    obtain ⟨i, rfl⟩ := C50_integer hy
    obtain ⟨v, rfl⟩ := C50_value hz
    obtain ⟨j, rfl⟩ := C50_integer ht
    obtain ⟨s, H⟩ := hlive _ List.mem_cons_self
    exact C50_update_ne H (fun s => hset s _ v)
  | getMember =>
    obtain ⟨x, y, z, t, rfl, hx, hy, hz, ht⟩ := C50_kinds4 (Option.some.inj hk)
    obtain ⟨a, rfl⟩ := C50_structArg hx
    obtain ⟨i, rfl⟩ := C50_integer hy
    obtain ⟨v, rfl⟩ := C50_value hz
    obtain ⟨j, rfl⟩ := C50_integer ht
    obtain ⟨ha, s, hs⟩ := hlive _ List.mem_cons_self
    exact C50_fetch_ne lib ha hs i hget
  | topGetMember =>
    obtain ⟨x, y, z, t, rfl, hx, hy, hz, ht⟩ := C50_kinds4 (Option.some.inj hk)
    obtain ⟨h, rfl⟩ := C50_handle hx
    obtain ⟨i, rfl⟩ := C50_integer hy
    obtain ⟨v, rfl⟩ := C50_value hz
    obtain ⟨j, rfl⟩ := C50_integer ht
    obtain ⟨s, H⟩ := hlive _ List.mem_cons_self
    exact C50_fetch_ne lib H.2.1 H.2.2 i hget
  | getPrecShift => cases hk
  | topGetPrecShift => cases hk
  | solve =>
    obtain ⟨x, y, z, t, u, rfl, hx, hy, hz, ht, hu⟩ := C50_kinds5 (Option.some.inj hk)
    obtain ⟨x, rfl⟩ := C50_value hx
    obtain ⟨y, rfl⟩ := C50_value hy
    obtain ⟨z, rfl⟩ := C50_value hz
    obtain ⟨h, rfl⟩ := C50_handle ht
    obtain ⟨i, rfl⟩ := C50_integer hu
    obtain ⟨s, H⟩ := hlive (.handle h) (by simp)
    exact C50_update_ne H hsolve

/-- Refutation: with the arguments of the manual, `primme_set_method_f77` takes the preset for the handle, and the
routines for members store their error code through an argument that was not passed. -/
theorem C50_signatures_violated (lib : Lib S V) (m : Option Nat) (w : World S) (args : List (Arg V)) :
    (∀ r ∈ C50_otherEigs, args.map Arg.kind = documentedEigs r → callEigs lib m r args w = .ub) ∧
    (∀ r ∈ C50_otherSvds, some (args.map Arg.kind) = documentedSvds r → callSvds lib m r args w = .ub) := by
  constructor
  · intro r hr hk
    cases r with
    | setMethod =>
      obtain ⟨x, y, z, rfl, hx, hy, hz⟩ := C50_kinds3 hk
      obtain ⟨i, rfl⟩ := C50_integer hx
      rfl
    | setMember =>
      obtain ⟨x, y, z, rfl, hx, hy, hz⟩ := C50_kinds3 hk
      cases x <;> cases y <;> cases z <;> rfl
    | getMember =>
      obtain ⟨x, y, z, rfl, hx, hy, hz⟩ := C50_kinds3 hk
      cases x <;> cases y <;> cases z <;> rfl
    | topGetMember =>
      obtain ⟨x, y, z, rfl, hx, hy, hz⟩ := C50_kinds3 hk
      cases x <;> cases y <;> cases z <;> rfl
    | _ => exact absurd hr (by decide)
  · intro r hr hk
    cases r with
    | «initialize» =>
      have hlen : args.length = 2 := by
        have := congrArg List.length (Option.some.inj hk)
        simpa using this
      match args, hlen with
      | [x, y], _ => cases x <;> rfl
    | free =>
      have hlen : args.length = 2 := by
        have := congrArg List.length (Option.some.inj hk)
        simpa using this
      match args, hlen with
      | [x, y], _ => cases x <;> rfl
    | _ => exact absurd hr (by decide)

/-- Refutation: when there is no memory the initialisation reports nothing, and the next routine uses the `NULL` handle. -/
theorem C50_memory_violated (lib : Lib S V) (m : Option Nat) (w : World S) (h : Nat) (l : Int) (v : V) :
    ∃ w', callEigs lib none .initialize [.handle h] w = .ok (w', ⟨none, none⟩) ∧
      callEigs lib m .setMember [.handle h, .integer l, .value v, .integer 0] w' = .ub := by
  refine ⟨w.setHandle h 0, rfl, ?_⟩
  show ((w.setHandle h 0).load ((w.setHandle h 0).handles h) >>= _) = _
  have : (w.setHandle h 0).handles h = 0 := if_pos rfl
  rw [this]
  rfl

/-! ## The member functions behind the interface -/

/-- The library with the member functions of C01 and anything else. -/
def C50_eigsLib {D : Type} (init : Store Eigs.IF Eigs.DF Eigs.PF D)
    (setMethod : List Int → Store Eigs.IF Eigs.DF Eigs.PF D → Outcome (Int × Store Eigs.IF Eigs.DF Eigs.PF D))
    (shift : Store Eigs.IF Eigs.DF Eigs.PF D → Int → Outcome (Val D))
    (solve : Store Eigs.IF Eigs.DF Eigs.PF D → Outcome (Int × Store Eigs.IF Eigs.DF Eigs.PF D)) :
    Lib (Store Eigs.IF Eigs.DF Eigs.PF D) (Val D) where
  init := init
  set := fun s l v => setMember Eigs.setTable s l v
  get := fun s l => match getMember Eigs.getTable s l with
    | .ok v => .ok (0, some v)
    | .err e => .ok (e, none)
    | .ub => .ub
  setMethod := setMethod
  shift := shift
  solve := solve

/-- A value set from Fortran with the constant of the header is read back from Fortran: for every constant of the
Fortran 90 header that is a label, and every value its member can hold, except the labels of C01. -/
theorem C50_roundtrip_partial {D : Type} (init : Store Eigs.IF Eigs.DF Eigs.PF D) (sm sh so) (m : Option Nat)
    {w : World (Store Eigs.IF Eigs.DF Eigs.PF D)} {h a : Nat} {s : Store Eigs.IF Eigs.DF Eigs.PF D} (H : C50_Holds w h a s)
    (l : Int) (nm : String) (mem : Member Eigs.IF Eigs.DF Eigs.PF) (v any : Val D) (hl : (l, nm, mem) ∈ Eigs.labels)
    (hs : nm ∉ C01_noSetter) (hg : nm ∉ C01_noGetter) (hv : fits Eigs.ctype mem v) :
    ∃ w', callEigs (C50_eigsLib init sm sh so) m .setMember [.handle h, .integer l, .value v, .integer 0] w =
        .ok (w', ⟨some 0, none⟩) ∧
      callEigs (C50_eigsLib init sm sh so) m .topGetMember [.handle h, .integer l, .value any, .integer 0] w' =
        .ok (w', ⟨some 0, some v⟩) := by
  have hrange : ∀ e ∈ Eigs.labels, 0 ≤ e.1 ∧ e.1 < 2 ^ 31 := by decide +kernel
  obtain ⟨s', h1, h2, -, -⟩ := C01_set_then_get_partial s l nm mem v hl hs hg hv
  have H' := C50_put_holds H s'
  refine ⟨w.put a (some s'), ?_, ?_⟩
  · have := C50_step (C50_eigsLib init sm sh so) m any H (.set l v) trivial (hrange _ hl)
    rw [show callEigs (C50_eigsLib init sm sh so) m .setMember [.handle h, .integer l, .value v, .integer 0] w = _ from this]
    show ((setMember Eigs.setTable s l v >>= _) >>= _) = _
    rw [h1]
    rfl
  · have := C50_step (C50_eigsLib init sm sh so) m any H' (.get l) trivial (hrange _ hl)
    rw [show callEigs (C50_eigsLib init sm sh so) m .topGetMember [.handle h, .integer l, .value any, .integer 0] _ = _ from this]
    have e : (C50_eigsLib init sm sh so).get s' l = .ok (0, some v) := by
      simp only [C50_eigsLib, h2]
    show (((C50_eigsLib init sm sh so).get s' l >>= _) >>= _) = _
    rw [e]
    simp only [Outcome.bind_ok]
    rw [C50_put_put]

/-- Non-vacuity: a session that sets `maxBasisSize` (label 23) to 40 and asks for it. -/
example : Spec.session (C50_eigsLib (D := Int) ⟨fun _ => 0, fun _ => 0, fun _ => 0, fun _ => 0, fun _ => 0⟩
      (fun _ s => .ok (0, s)) (fun _ _ => .ub) (fun s => .ok (0, s))) ⟨fun _ => 0, fun _ => 0, fun _ => 0, fun _ => 0, fun _ => 0⟩
      [.set 23 (.int 40), .get 23] =
    .ok (put ⟨fun _ => 0, fun _ => 0, fun _ => 0, fun _ => 0, fun _ => 0⟩ (.i .maxBasisSize) (.int 40),
      [⟨some 0, none⟩, ⟨some 0, some (.int 40)⟩]) ∧
    (∀ o ∈ ([.set 23 (.int 40), .get 23] : List (Op (Val Int))), C50_opEigs o ∧ o.Sane) := by
  refine ⟨rfl, ?_⟩
  intro o ho
  simp only [List.mem_cons, List.not_mem_nil, or_false] at ho
  rcases ho with rfl | rfl
  · exact ⟨trivial, by show (0:Int) ≤ 23 ∧ (23:Int) < 2 ^ 31; omega⟩
  · exact ⟨trivial, by show (0:Int) ≤ 23 ∧ (23:Int) < 2 ^ 31; omega⟩

/-- Non-vacuity: a live handle. -/
example : C50_Holds (⟨fun _ => 7, fun _ => some ()⟩ : World Unit) 3 7 () := ⟨rfl, by decide, rfl⟩

end Verif.Props
