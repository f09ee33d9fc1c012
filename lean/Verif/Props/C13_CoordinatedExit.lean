import Verif.Model.Driver
import Mathlib.Algebra.Field.Rat
import Mathlib.Algebra.Order.Field.Rat

/-!
# C13: coordinated exit
-/

set_option linter.unusedSectionVars false

namespace Verif.Props
open Verif.Eigs Verif.Members

variable {K : Type} [Field K] [LinearOrder K]

/-- `coordinated_exit`: when no process carries the parallel failure code itself (the solver never
produces it), either no process failed and all go on, or every process returns, each with a non-zero
code — its own if it failed. -/
theorem C13_coordinated (rets : List Int) (h : ∀ r ∈ rets, r ≠ -43) :
    (coordinatedExit rets = none ↔ ∀ r ∈ rets, r = 0) ∧
    (∀ fates, coordinatedExit rets = some fates →
      fates.length = rets.length ∧
      ∀ i (hi : i < rets.length) (hf : i < fates.length),
        ∃ c, fates[i] = .returns c ∧ c ≠ 0 ∧ (rets[i] ≠ 0 → c = rets[i]) ∧
          (rets[i] = 0 → c = -43)) := by
  have h1 : rets.any (· == -43) = false := by
    rw [List.any_eq_false]
    intro r hr
    simpa using h r hr
  unfold coordinatedExit
  rw [h1]
  simp only [Bool.false_eq_true, if_false]
  constructor
  · by_cases h2 : rets.any (· ≠ 0) = true
    · rw [if_pos h2]
      simp only [reduceCtorEq, false_iff]
      intro hall
      obtain ⟨r, hr, hr0⟩ := List.any_eq_true.1 h2
      simp [hall r hr] at hr0
    · rw [if_neg h2]
      simp only [true_iff]
      intro r hr
      by_contra hne
      exact h2 (List.any_eq_true.2 ⟨r, hr, by simpa using hne⟩)
  · intro fates hf
    split_ifs at hf
    obtain rfl := Option.some.inj hf
    refine ⟨by simp, ?_⟩
    intro i hi hfi
    rw [List.getElem_map]
    refine ⟨_, rfl, ?_, ?_, ?_⟩
    · split_ifs with hz
      · exact hz
      · omega
    · intro hz; rw [if_pos hz]
    · intro hz; rw [if_neg (by simpa using hz)]

/-- An incoherent configuration is answered by all processes with the same non-zero code. -/
theorem C13_incoherent_all_return (H : Hashing K) (meps : K) (main final : List Int)
    (ps : List (EP K × Args)) (h : coherence H (ps.map (·.1)) ≠ 0) :
    parallelRun H meps main final ps =
      ps.map fun _ => Fate.returns (coherence H (ps.map (·.1))) := by
  cases ps with
  | nil => simp [coherence] at h
  | cons p ps =>
    unfold parallelRun
    generalize hc : coherence H ((p :: ps).map (·.1)) = c at h ⊢
    unfold coordinatedExit
    by_cases h43 : c = -43
    · subst h43
      have : (List.map (fun _ => (-43 : Int)) (p :: ps)).any (· == -43) = true := by simp
      rw [if_pos this]
      simp
    · have h1 : (List.map (fun _ => c) (p :: ps)).any (· == -43) = false := by
        rw [List.any_eq_false]
        intro r hr
        obtain ⟨_, _, rfl⟩ := List.mem_map.1 hr
        simpa using h43
      have h2 : (List.map (fun _ => c) (p :: ps)).any (· ≠ 0) = true := by simp [h]
      rw [h1, if_neg (by simp), if_pos h2]
      simp [h]

/-- Full claim: a failure on one process makes every process return a non-zero code.

Proved for every run in which the input checks of the processes agree on whether there is an error; the
case where they do not is refuted below. -/
theorem C13_all_or_none_partial (H : Hashing K) (meps : K) (main : List Int)
    (ps : List (EP K × Args)) (hlen : main.length = ps.length) (hmain : ∀ r ∈ main, r ≠ -43)
    (hlocal : ∀ p ∈ ps, ∀ q ∈ ps, checkInput meps p.2.arrays p.1 ≠ 0 →
      checkInput meps q.2.arrays q.1 ≠ 0)
    (final : List Int) (hfinal : final = ps.map fun _ => 0) :
    let fates := parallelRun H meps main final ps
    fates.length = ps.length ∧
    ((∀ f ∈ fates, f = .returns 0) ∨ ∀ f ∈ fates, ∃ c, f = .returns c ∧ c ≠ 0) ∧
    ((∀ f ∈ fates, f = .returns 0) ↔ ps = [] ∨ coherence H (ps.map (·.1)) = 0 ∧
      (∀ p ∈ ps, checkInput meps p.2.arrays p.1 = 0) ∧ ∀ r ∈ main, r = 0) := by
  intro fates
  by_cases hc : coherence H (ps.map (·.1)) = 0
  · have h0 : coordinatedExit (ps.map fun _ => coherence H (ps.map (·.1))) = none := by
      rw [(C13_coordinated _ (by intro r hr; obtain ⟨_, _, rfl⟩ := List.mem_map.1 hr; rw [hc]; decide)).1]
      intro r hr
      obtain ⟨_, _, rfl⟩ := List.mem_map.1 hr
      exact hc
    have hf : fates = (if (ps.map fun p => checkInput meps p.2.arrays p.1).any (· ≠ 0) then
        (ps.map fun p => checkInput meps p.2.arrays p.1).map
          fun c => if c ≠ 0 then Fate.returns c else .blocked
      else match coordinatedExit main with
        | some fates => fates
        | none => final.map .returns) := by
      show parallelRun H meps main final ps = _
      unfold parallelRun
      rw [h0]
      rfl
    by_cases hl : (ps.map fun p => checkInput meps p.2.arrays p.1).any (· ≠ 0) = true
    · rw [if_pos hl] at hf
      obtain ⟨c, hcm, hcne⟩ := List.any_eq_true.1 hl
      obtain ⟨p, hp, rfl⟩ := List.mem_map.1 hcm
      have hall : ∀ q ∈ ps, checkInput meps q.2.arrays q.1 ≠ 0 :=
        fun q hq => hlocal p hp q hq (by simpa using hcne)
      have hfa : ∀ f ∈ fates, ∃ c, f = .returns c ∧ c ≠ 0 := by
        intro f hfm
        rw [hf] at hfm
        obtain ⟨c, hcm, rfl⟩ := List.mem_map.1 hfm
        obtain ⟨q, hq, rfl⟩ := List.mem_map.1 hcm
        exact ⟨_, if_pos (hall q hq), hall q hq⟩
      refine ⟨by rw [hf]; simp, Or.inr hfa, ?_⟩
      constructor
      · intro h
        have hm : (if checkInput meps p.2.arrays p.1 ≠ 0 then
            Fate.returns (checkInput meps p.2.arrays p.1) else .blocked) ∈ fates := by
          rw [hf]; exact List.mem_map.2 ⟨_, hcm, rfl⟩
        have := h _ hm
        rw [if_pos (hall p hp)] at this
        exact absurd (Fate.returns.inj this) (hall p hp)
      · rintro (rfl | ⟨-, h, -⟩)
        · exact absurd hp (by simp)
        · exact absurd (h p hp) (hall p hp)
    · rw [if_neg hl] at hf
      have hz : ∀ p ∈ ps, checkInput meps p.2.arrays p.1 = 0 := by
        intro p hp
        by_contra hne
        exact hl (List.any_eq_true.2 ⟨_, List.mem_map.2 ⟨p, hp, rfl⟩, by simpa using hne⟩)
      obtain ⟨c1, c2⟩ := C13_coordinated main hmain
      cases hm : coordinatedExit main with
      | none =>
        rw [hm] at hf
        have hf' : fates = ps.map fun _ => Fate.returns 0 := by
          rw [hf, hfinal]; simp
        have hall : ∀ f ∈ fates, f = .returns 0 := by
          intro f hfm
          rw [hf'] at hfm
          obtain ⟨_, _, rfl⟩ := List.mem_map.1 hfm
          rfl
        exact ⟨by rw [hf']; simp, Or.inl hall,
          ⟨fun _ => Or.inr ⟨hc, hz, c1.1 hm⟩, fun _ => hall⟩⟩
      | some fs =>
        rw [hm] at hf
        obtain ⟨l1, l2⟩ := c2 fs hm
        have hfs : fates = fs := hf
        have hall : ∀ f ∈ fates, ∃ c, f = .returns c ∧ c ≠ 0 := by
          intro f hfm
          rw [hfs] at hfm
          obtain ⟨i, hi, rfl⟩ := List.mem_iff_getElem.1 hfm
          obtain ⟨c, hc1, hc2, -, -⟩ := l2 i (by omega) hi
          exact ⟨c, hc1, hc2⟩
        refine ⟨by rw [hfs, l1, hlen], Or.inr hall, ?_⟩
        constructor
        · intro h
          left
          by_contra hne
          have hpos : 0 < fs.length := by
            rw [l1, hlen]; exact List.length_pos_iff.2 hne
          have hmem : fs[0] ∈ fates := by rw [hfs]; exact List.getElem_mem hpos
          obtain ⟨c, e1, e2⟩ := hall _ hmem
          rw [h _ hmem] at e1
          exact e2 (Fate.returns.inj e1).symm
        · rintro (rfl | ⟨-, -, h⟩)
          · intro f hfm
            rw [hfs] at hfm
            have : fs.length = 0 := by rw [l1, hlen]; rfl
            rw [List.eq_nil_of_length_eq_zero this] at hfm
            exact absurd hfm (by simp)
          · exact absurd (c1.2 h) (by rw [hm]; simp)
  · have hf := C13_incoherent_all_return H meps main final ps hc
    have hf' : fates = ps.map fun _ => Fate.returns (coherence H (ps.map (·.1))) := hf
    have hall : ∀ f ∈ fates, ∃ c, f = .returns c ∧ c ≠ 0 := by
      intro f hfm
      rw [hf'] at hfm
      obtain ⟨_, _, rfl⟩ := List.mem_map.1 hfm
      exact ⟨_, rfl, hc⟩
    refine ⟨by rw [hf']; simp, Or.inr hall, ?_⟩
    constructor
    · intro h
      left
      by_contra hne
      obtain ⟨p, hp⟩ := List.exists_mem_of_ne_nil ps hne
      have hmem : Fate.returns (coherence H (ps.map (·.1))) ∈ fates := by
        rw [hf']; exact List.mem_map.2 ⟨p, hp, rfl⟩
      exact hc (Fate.returns.inj (h _ hmem))
    · rintro (rfl | ⟨h, -⟩)
      · simp [coherence] at hc
      · exact absurd h hc

/-! ### When do processes that agree pass the coherence check? -/

/-- Processes holding the same values of the compared members, one of them with number 0, pass the
check — if the broadcast returns the hash values unchanged. -/
theorem C13_agreeing_processes_pass_partial (H : Hashing K) (ps : List (EP K)) (root : EP K)
    (hroot : ps.filter (fun s => s.i .procID = 0) = [root])
    (hI : ∀ s ∈ ps, ∀ f ∈ coherentI, s.i f = root.i f)
    (hD : ∀ s ∈ ps, ∀ f ∈ coherentD, s.d f = root.d f)
    (hxI : ∀ f ∈ coherentI, H.xfer (H.hashI f (root.i f)) = H.hashI f (root.i f))
    (hxD : ∀ f ∈ coherentD, H.xfer (H.hashD f (root.d f)) = H.hashD f (root.d f)) :
    coherence H ps = 0 := by
  unfold coherence
  have hfind : ps.find? (fun s => s.i .procID = 0) = some root := by
    rw [← List.head?_filter, hroot]; rfl
  rw [hroot, hfind]
  have : ps.all (agrees H root) = true := by
    rw [List.all_eq_true]
    intro s hs
    unfold agrees
    rw [Bool.and_eq_true, List.all_eq_true, List.all_eq_true]
    exact ⟨fun f hf => by rw [hI s hs f hf, hxI f hf]; simp,
      fun f hf => by rw [hD s hs f hf, hxD f hf]; simp⟩
  simp [this]

/-- A hash that the processes compute differently is always noticed, on every process. -/
theorem C13_difference_detected (H : Hashing K) (hx : ∀ h, H.xfer h = h) (ps : List (EP K))
    (root : EP K) (hroot : ps.filter (fun s => s.i .procID = 0) = [root]) (s : EP K) (hs : s ∈ ps)
    (f : IF) (hf : f ∈ coherentI) (hne : H.hashI f (s.i f) ≠ H.hashI f (root.i f)) :
    coherence H ps = -43 := by
  unfold coherence
  have hfind : ps.find? (fun s => s.i .procID = 0) = some root := by
    rw [← List.head?_filter, hroot]; rfl
  rw [hroot, hfind]
  have : ps.all (agrees H root) = false := by
    rw [List.all_eq_false]
    refine ⟨s, hs, ?_⟩
    unfold agrees
    rw [Bool.and_eq_true, List.all_eq_true]
    rintro ⟨h, -⟩
    have := h f hf
    rw [hx] at this
    exact hne (by simpa using this)
  simp [this]

/-- Broadcasting the hash as a floating point number is not faithful: whatever the text that is hashed
(file name, line and expression depend on the build), there is a finite non-negative value of the
compared member whose hash is a signalling NaN pattern; with a broadcast in another precision than
`float` (double is the default of `dprimme`) every process then sees a difference, although all agree. -/
theorem C13_hash_transport_violated (str : List Nat) :
    ∃ lo hi, lo < 2 ^ 32 ∧ hi < 0x7ff00000 ∧
      quiet (hashCall str lo hi) ≠ hashCall str lo hi := by
  unfold hashCall
  generalize hashPrefix str = H
  generalize hB : (H * 33 + 0) % 2 ^ 32 * 33 % 2 ^ 32 = B
  have hBlt : B < 4294967296 := by rw [← hB]; exact Nat.mod_lt _ (by decide)
  have key : ∃ hi, hi < 0x7ff00000 ∧ ((B + hi) % 4294967296 % 2147483648 = 0x7fb00000 ∨
      (B + hi) % 4294967296 % 2147483648 = 0x7f900000) := by
    clear hB
    by_cases h1 : B % 2147483648 ≤ 0x7fb00000
    · exact ⟨0x7fb00000 - B % 2147483648, by omega, by omega⟩
    · exact ⟨0x7f900000 + 2147483648 - B % 2147483648, by omega, by omega⟩
  obtain ⟨hi, h1, h2⟩ := key
  refine ⟨0, hi, by decide, h1, ?_⟩
  have e : ((H * 33 + 0) % 2 ^ 32 * 33 + hi) % 2 ^ 32 = (B + hi) % 4294967296 := by
    rw [← hB]; omega
  rw [e]
  generalize (B + hi) % 4294967296 = q at h2
  unfold quiet
  dsimp only
  have e1 : q / 2 ^ 23 % 2 ^ 8 = 255 := by omega
  have e2 : q % 2 ^ 23 ≠ 0 ∧ q % 2 ^ 23 < 2 ^ 22 := by omega
  rw [if_pos ⟨e1, e2⟩]
  omega

/-! ### Cases, and where the claim fails -/

/-- A process of a two-process run: order 100, 50 rows each. -/
def C13_proc (pid rows : Int) : EP Rat :=
  setP (setP (((((((((((((initParams (0 : Rat) 0 id).setI .n 100).setI .numProcs 2).setI
    .procID pid).setI .nLocal rows).setI .ldevecs 100).setI .ldOPs 101).setI .maxBasisSize 15).setI
    .minRestartSize 6).setI .maxBlockSize 1).setI .projectionParams_projection 1).setI
    .locking 0).setI .restartingParams_maxPrevRetain 1) .matrixMatvec 1) .globalSumReal 1

def C13_hashing : Hashing Rat := ⟨fun _ v => v.toNat, fun _ _ => 7, fun h => h⟩

/-- Two agreeing processes solve. -/
example : parallelRun C13_hashing (0 : Rat) [0, 0] [0, 0]
    [(C13_proc 0 50, ⟨false, false, false, false⟩), (C13_proc 1 50, ⟨false, false, false, false⟩)] =
    [.returns 0, .returns 0] := by decide +kernel

/-- One process fails inside the solver: the other returns -43. -/
example : parallelRun C13_hashing (0 : Rat) [0, -2] [0, 0]
    [(C13_proc 0 50, ⟨false, false, false, false⟩), (C13_proc 1 50, ⟨false, false, false, false⟩)] =
    [.returns (-43), .returns (-2)] := by decide +kernel

/-- The input check is not coordinated: with 101 local rows on the second process only, that process
returns -5 and the first goes on into the solver, where it waits for a process that has left. -/
theorem C13_local_check_violated : ∃ ps : List (EP Rat × Args), ps.length = 2 ∧
    coherence C13_hashing (ps.map (·.1)) = 0 ∧
    parallelRun C13_hashing (0 : Rat) [0, 0] [0, 0] ps = [.blocked, .returns (-5)] :=
  ⟨[(C13_proc 0 50, ⟨false, false, false, false⟩), (C13_proc 1 101, ⟨false, false, false, false⟩)],
    rfl, by decide +kernel, by decide +kernel⟩

/-- A missing array on one process only has the same effect. -/
theorem C13_local_array_violated : ∃ ps : List (EP Rat × Args), ps.length = 2 ∧
    parallelRun C13_hashing (0 : Rat) [0, 0] [0, 0] ps = [.returns (-30), .blocked] :=
  ⟨[(C13_proc 0 50, ⟨true, false, false, false⟩), (C13_proc 1 50, ⟨false, false, false, false⟩)],
    rfl, by decide +kernel⟩

/-- The code exchanged by `coordinated_exit` is stored in a variable of the working precision, but the
user's sum is entitled to numbers of its declared type: with single-precision arithmetic and a double
precision sum the callback reads and writes 8 bytes at a 4-byte object. The sizes fit exactly when the
declared type is at most the working precision. -/
theorem C13_exit_buffer_violated : ∃ work sumType : Int, 1 ≤ work ∧ work ≤ 4 ∧ 1 ≤ sumType ∧
    sumType ≤ 4 ∧ (exitBuffer work sumType).1 < (exitBuffer work sumType).2 :=
  ⟨2, 3, by decide⟩

theorem C13_exit_buffer_partial (work sumType : Int) (h : 1 ≤ sumType) (h4 : work ≤ 4)
    (hle : sumType ≤ work) : (exitBuffer work sumType).2 ≤ (exitBuffer work sumType).1 := by
  unfold exitBuffer realBytes
  dsimp only
  split_ifs <;> omega

end Verif.Props
