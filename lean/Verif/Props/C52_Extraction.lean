import Verif.Props.C48_Accuracy
import Verif.Props.C08_CheckInput
import Verif.Proofs.ExtractionNext
import Mathlib.Tactic.NormNum
import Mathlib.Tactic.FinCases

set_option linter.unusedSectionVars false
set_option linter.unusedSimpArgs false
set_option linter.unusedVariables false

/-!
# C52: the extraction is the one the manual describes, in exact arithmetic

For the Rayleigh-Ritz extraction the promise (the residual is orthogonal to the search space) is `C47_offered_partial`.  Here are the
refined and the harmonic extraction.
-/

namespace Verif.Props
open Verif Verif.Restart Verif.Spec Verif.Rayleigh Verif.Extraction Finset Module

section
variable {𝕜 E : Type} [RCLike 𝕜] [AddCommGroup E] [Module 𝕜 E]

/-- The extraction asked for; `refined true` with a target closest to a shift, `refined false` with another target. -/
inductive C52_Mode
  | refined (closest : Bool)
  | harmonic

/-- The projected problem is solved; the kernels answer as they are there to do. -/
inductive C52_Solve (ip : E → E → 𝕜) : C52_Mode → XSt 𝕜 E → XSt 𝕜 E → Prop
  | refined (closest : Bool) (s : XSt 𝕜 E) (d : Svd 𝕜) (hd : IsSvd s.b s.R d.u d.sv d.v) (ho : Descending s.b d.sv) :
      C52_Solve ip (.refined closest) s (solveRef closest s d)
  | harmonic (s : XSt 𝕜 E) (d : Harm 𝕜) (hd : HarmOk ip s d) : C52_Solve ip .harmonic s (solveHarm s d)

/-- States that a run can reach, in exact arithmetic, with the places `cut` between which the coefficient vectors have not been
mixed since the projected problem was solved, and the places `good` whose values have been computed for their vectors.  As in
`C47_Reach`; a restart computes the factors anew (`soft` without locking, `hard` with it), or, with the refined extraction, keeps them
(`keepSoft`, `keepHard`).  In that case the kernels answer as they are there to do, and the singular values beyond the arbitrary vectors
are different from each other. -/
inductive C52_Reach (P : Par) (ip : E → E → 𝕜) (A : E → E) (M : C52_Mode) : XSt 𝕜 E → (ℕ → Prop) → (ℕ → Prop) → Prop
  | start (s : XSt 𝕜 E) (hb : s.b = 0) (hl : s.locked = []) (hc : Spec.Orthonormal ip id s.cons) (ha : s.arb = 0) :
      C52_Reach P ip A M s (fun _ => True) (fun _ => True)
  | grow (s : XSt 𝕜 E) (cut good : ℕ → Prop) (m : ℕ) (v : ℕ → E) (o : Qr 𝕜 E) (s' : XSt 𝕜 E) (hs : C52_Reach P ip A M s cut good)
      (hv : C47_New ip id s.toSt m v) (hq : IsQr ip s.b m s.Q (fun j => off (𝕜 := 𝕜) A s.tau (v j)) o.q o.r)
      (he : C52_Solve ip M (extend ip A s m v o) s') : C52_Reach P ip A M s' (fun _ => True) (fun _ => True)
  | cluster (s : XSt 𝕜 E) (cut good : ℕ → Prop) (a c : ℕ) (e : Eig 𝕜) (hs : C52_Reach P ip A M s cut good) (hm : M ≠ .harmonic)
      (ha : s.arb ≤ a) (hac : a ≤ c) (hcb : c ≤ s.b) (he : IsEigenbasis (c - a) (sym (clusterH s a)) e.vecs e.vals) :
      C52_Reach P ip A M (prepare s a c e) (fun k => cut k ∧ ¬ (a < k ∧ k < c)) (fun j => good j ∨ (a ≤ j ∧ j < c))
  | arrange (s : XSt 𝕜 E) (cut good : ℕ → Prop) (p : ℕ → ℕ) (hs : C52_Reach P ip A M s cut good) (hlt : ∀ j < s.b, p j < s.b)
      (hinj : ∀ i < s.b, ∀ j < s.b, p i = p j → i = j) :
      C52_Reach P ip A M (arrange s p) (fun k => cut k ∧ ∀ j < k, p j < k) (fun j => good (p j))
  | soft (s : XSt 𝕜 E) (cut good : ℕ → Prop) (a : Answers) (flags : List Conv.Flag) (ievSize : Int) (iev : Arr) (r : Result)
      (prev : ℕ → ℕ → 𝕜) (tau : ℝ) (o : Qr 𝕜 E) (s' : XSt 𝕜 E) (hs : C52_Reach P ip A M s cut good) (hg : ∀ j < s.b, good j)
      (h : C22_Plain P a s.b flags 0)
      (hr : Restart.restart P a s.b 0 flags ievSize iev 0 = .ok r) (hp : Retained s.toSt r prev)
      (hq : IsQr ip 0 r.basisSize.toNat s.Q (fun j => off (𝕜 := 𝕜) A tau (comb s.b s.V (newCoef s.toSt prev r j))) o.q o.r)
      (he : C52_Solve ip M (rebuild s prev r 0 tau o) s') : C52_Reach P ip A M s' (fun _ => True) (fun _ => True)
  | hard (s : XSt 𝕜 E) (cut good : ℕ → Prop) (a : Answers) (flags : List Conv.Flag) (ievSize : Int) (iev : Arr) (g : Int) (r : Result)
      (prev : ℕ → ℕ → 𝕜) (tau : ℝ) (o : Qr 𝕜 E) (s' : XSt 𝕜 E) (hs : C52_Reach P ip A M s cut good) (hg : ∀ j < s.b, good j)
      (h : C22_Hard P a s.b s.locked.length flags g)
      (hr : Restart.restart P a s.b s.locked.length flags ievSize iev g = .ok r)
      (hbef : C22_Before (C22_chosen P s.b s.locked.length flags) r) (hp : Retained s.toSt r prev)
      (hq : IsQr ip 0 r.basisSize.toNat s.Q (fun j => off (𝕜 := 𝕜) A tau (comb s.b s.V (newCoef s.toSt prev r j))) o.q o.r)
      (he : C52_Solve ip M (rebuild s prev r s.locked.length tau o) s') : C52_Reach P ip A M s' (fun _ => True) (fun _ => True)
  | keepSoft (s : XSt 𝕜 E) (cut good : ℕ → Prop) (a : Answers) (flags : List Conv.Flag) (ievSize : Int) (iev : Arr) (r : Result)
      (prev : ℕ → ℕ → 𝕜) (o : Keep 𝕜) (closest : Bool) (d : Svd 𝕜) (hM : M = .refined closest) (hs : C52_Reach P ip A M s cut good)
      (hg : ∀ j < s.b, good j) (h : C22_Plain P a s.b flags 0)
      (hr : Restart.restart P a s.b 0 flags ievSize iev 0 = .ok r) (hp : Retained s.toSt r prev) (ho : KeepOk s r prev o)
      (hd : IsSvd r.basisSize.toNat (keepR s r o) d.u d.sv d.v) (hdo : Descending r.basisSize.toNat d.sv)
      (hgap : ∀ k, keepArb s r ≤ k → k ≤ Extraction.regular r → 0 < k → k < r.basisSize.toNat →
        d.sv (reversed closest r.basisSize.toNat (k - 1)) ≠ d.sv (reversed closest r.basisSize.toNat k)) :
      C52_Reach P ip A M (keep closest s prev r 0 o d) (fun k => k = 0 ∨ keepArb s r ≤ k) (fun j => j < Extraction.regular r)
  | keepHard (s : XSt 𝕜 E) (cut good : ℕ → Prop) (a : Answers) (flags : List Conv.Flag) (ievSize : Int) (iev : Arr) (g : Int) (r : Result)
      (prev : ℕ → ℕ → 𝕜) (o : Keep 𝕜) (closest : Bool) (d : Svd 𝕜) (hM : M = .refined closest) (hs : C52_Reach P ip A M s cut good)
      (hg : ∀ j < s.b, good j) (h : C22_Hard P a s.b s.locked.length flags g)
      (hr : Restart.restart P a s.b s.locked.length flags ievSize iev g = .ok r)
      (hbef : C22_Before (C22_chosen P s.b s.locked.length flags) r) (hp : Retained s.toSt r prev) (ho : KeepOk s r prev o)
      (hd : IsSvd r.basisSize.toNat (keepR s r o) d.u d.sv d.v) (hdo : Descending r.basisSize.toNat d.sv)
      (hgap : ∀ k, keepArb s r ≤ k → k ≤ Extraction.regular r → 0 < k → k < r.basisSize.toNat →
        d.sv (reversed closest r.basisSize.toNat (k - 1)) ≠ d.sv (reversed closest r.basisSize.toNat k)) :
      C52_Reach P ip A M (keep closest s prev r s.locked.length o d) (fun k => k = 0 ∨ keepArb s r ≤ k) (fun j => j < Extraction.regular r)

/-- What holds in every reachable state. -/
structure C52_Inv (ip : E → E → 𝕜) (A : E → E) (M : C52_Mode) (s : XSt 𝕜 E) (cut good : ℕ → Prop) : Prop where
  plain : Plain ip A s.toSt
  fac : Fac ip s
  solved : Solved s.toSt good
  ref : ∀ closest, M = .refined closest → ∃ v, Rot s v ∧ Graded closest s.b s.hSVals ∧ Sep s cut v
  harm : M = .harmonic → cut 1 → 0 < s.b →
    ∃ mu : 𝕜, ∀ i < s.b, ip (off (𝕜 := 𝕜) A s.tau (s.V i)) (ritz s.toSt 0 - mu • off (𝕜 := 𝕜) A s.tau (ritz s.toSt 0)) = 0

theorem C52_solve_inv (ip : E → E → 𝕜) (A : E → E) (M : C52_Mode) (hip : IsInner ip) (hA : IsHermitian ip A) (s s' : XSt 𝕜 E)
    (h : Plain ip A s.toSt) (hf : Fac ip s) (he : C52_Solve ip M s s') : C52_Inv ip A M s' (fun _ => True) (fun _ => True) := by
  cases he with
  | refined closest _ d hd ho =>
    refine ⟨⟨h.orth, h.prod, h.mass, h.proj, h.out, h.others, h.locked⟩, ⟨hf.orth, hf.mul⟩,
      solveRef_solved hip hA closest s h d hd, ?_, ?_⟩
    · intro c hM
      cases hM
      have hrot := solveRef_rot closest s d hd
      refine ⟨_, hrot, graded_reversed closest s.b d.sv hd.nonneg ho, fun k _ => rot_sep _ _ hrot k (Or.inr (Nat.zero_le k))⟩
    · intro hM; cases hM
  | harmonic _ d hd =>
    refine ⟨⟨h.orth, h.prod, h.mass, h.proj, h.out, h.others, h.locked⟩, ⟨hf.orth, hf.mul⟩,
      solveHarm_solved hip hA s h d hd.orth, ?_, ?_⟩
    · intro c hM; cases hM
    · intro _ _ hb
      change 0 < s.b at hb
      obtain ⟨h1, h2⟩ := harm_first hip hA s d hd hb
      refine ⟨d.mu 0, fun i hi => ?_⟩
      have h3 := harm_pair hip hA s h hf d hd 0 hb i hi
      rw [h1] at h3
      have h4 : off (𝕜 := 𝕜) A s.tau (d.t 0 0 • ritz (solveHarm s d).toSt 0) = d.t 0 0 • off (𝕜 := 𝕜) A s.tau (ritz (solveHarm s d).toSt 0) := by
        unfold off
        rw [hA.smul, smul_sub, smul_comm]
      rw [h4, smul_comm, ← smul_sub, hip.smul] at h3
      exact (mul_eq_zero.1 h3).resolve_left h2

/-- Without locking the bookkeeping of a restart is what the factors need. -/
theorem C52_tail_without_locking (P : Par) (o : Answers) (b : ℕ) (flags : List Conv.Flag) (ievSize : Int) (iev : Arr)
    (r : Result) (h : C22_Plain P o b flags 0) (hmin : P.numEvals ≤ P.minRestartSize)
    (hr : Restart.restart P o b 0 flags ievSize iev 0 = .ok r) : Tail r := by
  have hpl := C47_plan_without_locking P o b flags ievSize iev r h hmin hr
  have hnum := C22_numbering_without_locking P o b flags ievSize iev r h hmin hr
  have hbef := C22_before_without_locking P o b flags ievSize iev r h hmin hr
  obtain ⟨r', e, h1, h2, hnl, h4, h5, h6, h7, h8, h9, h10, h11, h12, _⟩ := restart_soft P o b flags ievSize iev 0 h.soft
    (by rw [h.len]; exact h.fits) (by rw [h.len]; exact h.wanted) h.fits h.clean h.guesses_nonneg h.possible
  rw [hr] at e
  cases e
  have hFsub : (C22_front P b r.flags).Sublist (List.range b) := accepted_sublist _ _ _ _
  change ∀ t, r.restartPerm t = (C22_front P b r.flags ++ others b (C22_front P b r.flags))[t]? at h4
  generalize C22_front P b r.flags = F at *
  have htail := others_tail b F r.indexPrev.toNat hFsub (by omega) (fun c hc => by have := hbef c hc; omega)
  have hreg : Extraction.regular r = r.indexPrev.toNat := by unfold Extraction.regular; omega
  constructor
  · intro m hm
    rw [hreg]
    refine h5 _ _ ?_
    rw [h4, List.getElem?_append_right (by omega), show r.indexPrev.toNat + m - F.length = (r.indexPrev.toNat - F.length) + m by omega]
    exact htail.2 m (by omega)
  · have hsrc : ∀ i < Extraction.regular r, source r i = i := by
      intro i hi
      obtain ⟨t, t1, t2, t3⟩ := hnum i (by omega)
      unfold source place
      rw [t2, Option.getD_some, t3, Option.getD_some]
    intro i j hij hj
    rw [hsrc i (by omega), hsrc j hj]
    exact hij

/-- With locking too. -/
theorem C52_tail_with_locking (P : Par) (o : Answers) (b nl : ℕ) (flags : List Conv.Flag) (ievSize : Int) (iev : Arr)
    (g : Int) (r : Result) (h : C22_Hard P o b nl flags g) (hr : Restart.restart P o b nl flags ievSize iev g = .ok r) : Tail r := by
  obtain ⟨r', kept, e, k1, k2, k3, k4, k5, k6, k7, -⟩ := C22_order_with_locking P o b nl flags ievSize iev g h
  rw [hr] at e
  cases e
  have hret := (restart_locking_prev P o b nl flags ievSize iev g r h.hard (by rw [h.len]; exact h.fits) h.locked
    h.fits h.guesses_nonneg h.possible hr)
  have hrr : r.retained = o.retained := by obtain ⟨i1, i2, i3, i4⟩ := hret; omega
  have hreg : Extraction.regular r = kept.length := by unfold Extraction.regular; omega
  constructor
  · intro m hm
    rw [hreg]
    exact k7 m (by omega)
  · have hsrc : ∀ i < kept.length, some (source r i) = kept[i]? := by
      intro i hi
      obtain ⟨c, c1, c2, c3⟩ := k3 i hi
      unfold source place
      rw [c2, Option.getD_some, c3, List.getElem?_eq_getElem hi, Option.getD_some]
    intro i j hij hj
    rw [hreg] at hj
    have e1 := hsrc i (by omega)
    have e2 := hsrc j hj
    rw [List.getElem?_eq_getElem (by omega)] at e1
    rw [List.getElem?_eq_getElem hj] at e2
    rw [Option.some.inj e1, Option.some.inj e2]
    exact List.pairwise_iff_getElem.1 k1 i j _ hj hij

theorem C52_keep_inv (ip : E → E → 𝕜) (A : E → E) (hip : IsInner ip) (hA : IsHermitian ip A) (closest : Bool) (s : XSt 𝕜 E)
    (cut good : ℕ → Prop) (ih : C52_Inv ip A (.refined closest) s cut good) (hg : ∀ j < s.b, good j) (r : Result) (nl : ℕ)
    (hpl : Plan r s.b nl) (ht : Tail r) (prev : ℕ → ℕ → 𝕜) (hp : Retained s.toSt r prev) (o : Keep 𝕜) (ho : KeepOk s r prev o) (d : Svd 𝕜)
    (hd : IsSvd r.basisSize.toNat (keepR s r o) d.u d.sv d.v) (hdo : Descending r.basisSize.toNat d.sv)
    (hgap : ∀ k, keepArb s r ≤ k → k ≤ Extraction.regular r → 0 < k → k < r.basisSize.toNat →
      d.sv (reversed closest r.basisSize.toNat (k - 1)) ≠ d.sv (reversed closest r.basisSize.toNat k)) :
    C52_Inv ip A (.refined closest) (keep closest s prev r nl o d) (fun k => k = 0 ∨ keepArb s r ≤ k) (fun j => j < Extraction.regular r) := by
  obtain ⟨v, hrot, hgr, -⟩ := ih.ref closest rfl
  have hpn := plain_restart hip hA ih.plain ih.solved hpl hp hg ⟨fun _ _ => 0, fun _ => 0⟩
  have hrot' := next_rot hpl ht v hrot ih.solved.vecs o ho hp closest hgr d hd hdo hgap
  refine ⟨⟨hpn.orth, hpn.prod, hpn.mass, hpn.proj, hpn.out, hpn.others, hpn.locked⟩,
    keep_fac hpl ht hip hA ih.plain ih.fac v hrot ih.solved.vecs o ho hp closest d,
    next_solved hpl ht v hrot ih.solved.vecs o ho hp closest hgr d hd hdo hgap (fun j hj => ih.solved.quot j hj (hg j hj)), ?_, ?_⟩
  · intro c hM
    cases hM
    exact ⟨_, hrot', next_graded hpl ht v hrot ih.solved.vecs o ho hp closest hgr d hd hdo hgap, rot_sep _ _ hrot'⟩
  · intro hM; cases hM

theorem C52_inv (P : Par) (hmin : P.locking = false → P.numEvals ≤ P.minRestartSize) (ip : E → E → 𝕜) (A : E → E) (hip : IsInner ip)
    (hA : IsHermitian ip A) (M : C52_Mode) (s : XSt 𝕜 E) (cut good : ℕ → Prop) (h : C52_Reach P ip A M s cut good) :
    C52_Inv ip A M s cut good := by
  induction h with
  | start s hb hl hc ha =>
    refine ⟨⟨?_, ?_, ?_, ?_, ?_, ?_, ?_⟩, ⟨?_, ?_⟩, ⟨?_, ?_⟩, ?_, ?_⟩
    · intro i hi; rw [hb] at hi; omega
    · intro i hi; rw [hb] at hi; omega
    · intro i hi; rw [hb] at hi; omega
    · intro i hi; rw [hb] at hi; omega
    · intro x hx i hi; rw [hb] at hi; omega
    · rw [hl]; simpa using hc
    · intro p hp; rw [hl] at hp; cases hp
    · intro i hi; rw [hb] at hi; omega
    · intro i hi; rw [hb] at hi; omega
    · intro i hi; rw [hb] at hi; omega
    · intro i hi; rw [hb] at hi; omega
    · intro c _
      refine ⟨fun _ _ => 0, ⟨⟨?_, ?_, ?_, ?_⟩, by omega, ?_, ?_, ?_⟩, ?_, ?_⟩
      · intro i hi; omega
      · intro i hi; omega
      · intro i hi; omega
      · intro i hi; omega
      · intro i hi; omega
      · intro i hi; omega
      · intro i hi; omega
      · intro i hi; omega
      · intro k _ i hi; omega
    · intro _ _ h0; rw [hb] at h0; omega
  | grow s cut good m v o s' hs hv hq he ih =>
    exact C52_solve_inv ip A M hip hA _ s' (plain_expand hip hA s.toSt ih.plain m v _ hv.orth hv.basis hv.out)
      (fac_extend hip hA s ih.plain ih.fac m v o hq) he
  | cluster s cut good a c e hs hm ha hac hcb he ih =>
    refine ⟨⟨ih.plain.orth, ih.plain.prod, ih.plain.mass, ih.plain.proj, ih.plain.out, ih.plain.others, ih.plain.locked⟩,
      ⟨ih.fac.orth, ih.fac.mul⟩, prepare_solved hip hA s ih.plain ih.solved a c e hac hcb he, fun cl hM => ?_, fun hM => absurd hM hm⟩
    obtain ⟨v, h1, h2, h3⟩ := ih.ref cl hM
    exact ⟨v, prepare_rot s v h1 a c e hac hcb ha, h2, prepare_sep s cut v h3 a c e hcb⟩
  | arrange s cut good p hs hlt hinj ih =>
    refine ⟨⟨ih.plain.orth, ih.plain.prod, ih.plain.mass, ih.plain.proj, ih.plain.out, ih.plain.others, ih.plain.locked⟩,
      ⟨ih.fac.orth, ih.fac.mul⟩, arrange_solved s ih.solved p hlt hinj, fun cl hM => ?_, fun hM hc hb => ?_⟩
    · obtain ⟨v, h1, h2, h3⟩ := ih.ref cl hM
      exact ⟨v, arrange_rot s v h1 p hlt hinj, h2, arrange_sep s cut v h3 p hlt hinj⟩
    · obtain ⟨mu, hmu⟩ := ih.harm hM hc.1 hb
      have h0 : p 0 = 0 := by have := hc.2 0 Nat.one_pos; omega
      refine ⟨mu, fun i hi => ?_⟩
      have : ritz (arrange s p).toSt 0 = ritz s.toSt 0 := by
        change comb s.b s.V (fun k => s.hVecs k (p 0)) = _
        rw [h0]; rfl
      rw [this]
      exact hmu i hi
  | soft s cut good a flags ievSize iev r prev tau o s' hs hg h hr hp hq he ih =>
    have hpl := C47_plan_without_locking P a s.b flags ievSize iev r h (hmin h.soft) hr
    have hpn := plain_restart hip hA ih.plain ih.solved hpl hp hg ⟨fun _ _ => 0, fun _ => 0⟩
    refine C52_solve_inv ip A M hip hA _ s' hpn (fac_update hip _ 0 _ tau o (Nat.zero_add _).symm ?_ ?_ ⟨hq.orth, ?_, ?_⟩) he
    · intro i hi; omega
    · intro i hi; omega
    · intro i hi; omega
    · intro j hj
      refine Eq.trans ?_ (hq.mul j hj)
      rw [Nat.zero_add]
      change comb s.b s.W _ - (tau : 𝕜) • comb s.b s.V _ = _
      rw [plain_W hA s.toSt ih.plain]; rfl
  | hard s cut good a flags ievSize iev g r prev tau o s' hs hg h hr hbef hp hq he ih =>
    have hpl := C47_plan_with_locking P a s.b s.locked.length flags ievSize iev g r h hr hbef
    have hpn := plain_restart hip hA ih.plain ih.solved hpl hp hg ⟨fun _ _ => 0, fun _ => 0⟩
    refine C52_solve_inv ip A M hip hA _ s' hpn (fac_update hip _ 0 _ tau o (Nat.zero_add _).symm ?_ ?_ ⟨hq.orth, ?_, ?_⟩) he
    · intro i hi; omega
    · intro i hi; omega
    · intro i hi; omega
    · intro j hj
      refine Eq.trans ?_ (hq.mul j hj)
      rw [Nat.zero_add]
      change comb s.b s.W _ - (tau : 𝕜) • comb s.b s.V _ = _
      rw [plain_W hA s.toSt ih.plain]; rfl
  | keepSoft s cut good a flags ievSize iev r prev o closest d hM hs hg h hr hp ho hd hdo hgap ih =>
    subst hM
    exact C52_keep_inv ip A hip hA closest s cut good ih hg r 0 (C47_plan_without_locking P a s.b flags ievSize iev r h (hmin h.soft) hr)
      (C52_tail_without_locking P a s.b flags ievSize iev r h (hmin h.soft) hr) prev hp o ho d hd hdo hgap
  | keepHard s cut good a flags ievSize iev g r prev o closest d hM hs hg h hr hbef hp ho hd hdo hgap ih =>
    subst hM
    exact C52_keep_inv ip A hip hA closest s cut good ih hg r s.locked.length
      (C47_plan_with_locking P a s.b s.locked.length flags ievSize iev g r h hr hbef)
      (C52_tail_with_locking P a s.b s.locked.length flags ievSize iev g r h hr) prev hp o ho d hd hdo hgap

/-- In exact arithmetic, in any run with the refined or the harmonic extraction, every pair offered has a vector of norm one, its
Rayleigh quotient as value (if the value is one of those that have been computed for their vectors) and `A x - value x` as residual vector, and the vectors offered are orthogonal to each other, to the
constraints and to the locked vectors; and the locked pairs are of this kind too. -/
theorem C52_offered_partial (P : Par) (hmin : P.locking = false → P.numEvals ≤ P.minRestartSize) (ip : E → E → 𝕜) (A : E → E)
    (hip : IsInner ip) (hA : IsHermitian ip A) (M : C52_Mode) (s : XSt 𝕜 E) (cut good : ℕ → Prop) (h : C52_Reach P ip A M s cut good) :
    (∀ j < s.b, good j → IsRitz ip A id (ritz s.toSt j) (s.hVals j) (resid s.toSt j)) ∧
    (∀ j < s.b, resid s.toSt j = A (ritz s.toSt j) - s.hVals j • ritz s.toSt j) ∧
    (∀ i < s.b, ∀ j < s.b, ip (ritz s.toSt i) (ritz s.toSt j) = if i = j then 1 else 0) ∧
    (∀ x ∈ s.cons ++ s.locked.map Locked.x, ∀ j < s.b, ip x (ritz s.toSt j) = 0) ∧
    Spec.Orthonormal ip id (s.cons ++ s.locked.map Locked.x) ∧ ∀ p ∈ s.locked, IsRitz ip A id p.x p.value p.res := by
  have hi := C52_inv P hmin ip A hip hA M s cut good h
  exact ⟨fun j hj hg => offered hip hA s.toSt hi.plain hi.solved j hj hg,
    fun j _ => by unfold resid ritzW ritzBV; rw [plain_W hA s.toSt hi.plain, plain_BV s.toSt hi.plain]; rfl,
    fun i h1 j h2 => offered_orth hip hA s.toSt hi.plain hi.solved i j h1 h2,
    fun x hx j _ => plain_out hip s.toSt hi.plain x hx _, hi.plain.others, hi.plain.locked⟩

/-- In exact arithmetic, in any run, what is kept beside the basis belongs to it: `Q` has orthonormal columns and `(A - tau) V = Q R`
with the current shift. -/
theorem C52_factors_partial (P : Par) (hmin : P.locking = false → P.numEvals ≤ P.minRestartSize) (ip : E → E → 𝕜) (A : E → E)
    (hip : IsInner ip) (hA : IsHermitian ip A) (M : C52_Mode) (s : XSt 𝕜 E) (cut good : ℕ → Prop) (h : C52_Reach P ip A M s cut good) :
    (∀ i < s.b, ∀ j < s.b, ip (s.V i) (s.V j) = if i = j then 1 else 0) ∧
    (∀ i < s.b, ∀ j < s.b, ip (s.Q i) (s.Q j) = if i = j then 1 else 0) ∧
    ∀ c < s.b, off (𝕜 := 𝕜) A s.tau (s.V c) = ∑ k ∈ range s.b, s.R k c • s.Q k := by
  have hi := C52_inv P hmin ip A hip hA M s cut good h
  refine ⟨hi.plain.orth, hi.fac.orth, fun c hc => ?_⟩
  have := hi.fac.mul c hc
  unfold shifted at this
  rw [hi.plain.prod c hc] at this
  exact this

/-- The singular values bound what the shifted operator does to the search space. -/
theorem C52_bounds_partial (P : Par) (hmin : P.locking = false → P.numEvals ≤ P.minRestartSize) (ip : E → E → 𝕜) (A : E → E)
    (hip : IsInner ip) (hA : IsHermitian ip A) (s : XSt 𝕜 E) (cut good : ℕ → Prop) (h : C52_Reach P ip A (.refined true) s cut good)
    (k : ℕ) (hkb : k < s.b) :
    (cut k → ∀ z, InSpace (𝕜 := 𝕜) s.b s.V z → (∀ j < k, ip (ritz s.toSt j) z = 0) →
      s.hSVals k ^ 2 * sq ip z ≤ sq ip (off (𝕜 := 𝕜) A s.tau z)) ∧
    (cut (k + 1) → ∀ j ≤ k, sq ip (off (𝕜 := 𝕜) A s.tau (ritz s.toSt j)) ≤ s.hSVals k ^ 2) := by
  have hi := C52_inv P hmin ip A hip hA _ s cut good h
  obtain ⟨v, hrot, hgr, hsep⟩ := hi.ref true rfl
  have href : Ref s cut := ⟨s.hU, v, hrot.svd, ascending_of_graded _ _ hrot.svd.nonneg hgr, hsep⟩
  constructor
  · rintro hk z ⟨c, rfl⟩ hz
    have e1 : ip (comb s.b s.V c) (comb s.b s.V c) = dotc s.b c c := plain_ip hip s.toSt hi.plain c c
    have e2 := off_ip hip hA s hi.plain hi.fac c c
    have := ref_lower s cut href hi.solved.vecs k hk hkb c (fun j hj => by
      rw [← hz j hj]; exact (plain_ip hip s.toSt hi.plain _ c).symm)
    unfold Spec.sq
    rw [← e1, ← e2] at this
    exact this
  · intro hk j hj
    have e2 := off_ip hip hA s hi.plain hi.fac (fun l => s.hVecs l j) (fun l => s.hVecs l j)
    have := ref_upper s cut href hi.solved.vecs k hk hkb j hj
    unfold Spec.sq ritz
    rw [← e2] at this
    exact this

/-- With the refined extraction and a target closest to a shift: a vector that has not been mixed with others is what the manual says,
a unit vector of the search space for which `(A - tau) x` is smallest, among those orthogonal to the vectors before it. -/
theorem C52_refined_partial (P : Par) (hmin : P.locking = false → P.numEvals ≤ P.minRestartSize) (ip : E → E → 𝕜) (A : E → E)
    (hip : IsInner ip) (hA : IsHermitian ip A) (s : XSt 𝕜 E) (cut good : ℕ → Prop) (h : C52_Reach P ip A (.refined true) s cut good)
    (k : ℕ) (hkb : k < s.b) (hk : cut k) (hk' : cut (k + 1)) :
    InSpace (𝕜 := 𝕜) s.b s.V (ritz s.toSt k) ∧ ∀ z, InSpace (𝕜 := 𝕜) s.b s.V z → sq ip z = 1 → (∀ j < k, ip (ritz s.toSt j) z = 0) →
      sq ip (off (𝕜 := 𝕜) A s.tau (ritz s.toSt k)) ≤ sq ip (off (𝕜 := 𝕜) A s.tau z) := by
  obtain ⟨h1, h2⟩ := C52_bounds_partial P hmin ip A hip hA s cut good h k hkb
  refine ⟨⟨_, rfl⟩, fun z hz hu ho => ?_⟩
  have := h1 hk z hz ho
  rw [hu, mul_one] at this
  exact le_trans (h2 hk' k (le_refl k)) this

/-- The first place is never mixed with anything before it. -/
theorem C52_cut_zero (P : Par) (ip : E → E → 𝕜) (A : E → E) (M : C52_Mode) (s : XSt 𝕜 E) (cut good : ℕ → Prop)
    (h : C52_Reach P ip A M s cut good) : cut 0 := by
  induction h with
  | cluster s cut good a c e hs hm ha hac hcb he ih => exact ⟨ih, fun hh => absurd hh.1 (Nat.not_lt_zero a)⟩
  | arrange s cut good p hs hlt hinj ih => exact ⟨ih, fun j hj => absurd hj (Nat.not_lt_zero j)⟩
  | keepSoft => exact Or.inl rfl
  | keepHard => exact Or.inl rfl
  | _ => trivial

/-- In particular the first vector offered, right after the projected problem has been solved, is the best unit vector of the whole
search space. -/
theorem C52_first_partial (P : Par) (hmin : P.locking = false → P.numEvals ≤ P.minRestartSize) (ip : E → E → 𝕜) (A : E → E)
    (hip : IsInner ip) (hA : IsHermitian ip A) (s : XSt 𝕜 E) (cut good : ℕ → Prop) (h : C52_Reach P ip A (.refined true) s cut good)
    (hb : 0 < s.b) (h1 : cut 1) (z : E) (hz : InSpace (𝕜 := 𝕜) s.b s.V z) (hu : sq ip z = 1) :
    sq ip (off (𝕜 := 𝕜) A s.tau (ritz s.toSt 0)) ≤ sq ip (off (𝕜 := 𝕜) A s.tau z) :=
  (C52_refined_partial P hmin ip A hip hA s cut good h 0 hb (C52_cut_zero P ip A _ s cut good h) h1).2 z hz hu
    (fun j hj => absurd hj (Nat.not_lt_zero j))

/-- With the harmonic extraction the first vector offered satisfies the condition of the manual with some value `tau + 1/mu`:
`x - mu (A - tau) x` is orthogonal to `(A - tau) V`. -/
theorem C52_harmonic_partial (P : Par) (hmin : P.locking = false → P.numEvals ≤ P.minRestartSize) (ip : E → E → 𝕜) (A : E → E)
    (hip : IsInner ip) (hA : IsHermitian ip A) (s : XSt 𝕜 E) (cut good : ℕ → Prop) (h : C52_Reach P ip A .harmonic s cut good) (hb : 0 < s.b) (hc : cut 1) :
    ∃ mu : 𝕜, ∀ z, InSpace (𝕜 := 𝕜) s.b s.V z →
      ip (off (𝕜 := 𝕜) A s.tau z) (ritz s.toSt 0 - mu • off (𝕜 := 𝕜) A s.tau (ritz s.toSt 0)) = 0 := by
  have hi := C52_inv P hmin ip A hip hA _ s cut good h
  obtain ⟨mu, hmu⟩ := hi.harm rfl hc hb
  refine ⟨mu, ?_⟩
  rintro z ⟨c, rfl⟩
  rw [off_self hA hip]
  change ip (comb s.b s.V c) _ = 0
  rw [ip_comb_left hip]
  refine sum_eq_zero fun k hk => ?_
  rw [← off_self hA hip, hmu k (mem_range.1 hk), mul_zero]

end

/-! ## Accuracy -/

section
variable {𝕜 E : Type} [RCLike 𝕜] [NormedAddCommGroup E] [InnerProductSpace 𝕜 E] [FiniteDimensional 𝕜 E]

/-- No value is a ghost with these extractions either: take any of the pairs, locked or offered, with values between `a` and `b`; the
operator has at least as many eigenvalues, with multiplicity, between `a - d` and `b + d`, where `d` is the root of the sum of
the squares of their residual norms. -/
theorem C52_count_partial (P : Par) (hmin : P.locking = false → P.numEvals ≤ P.minRestartSize) (T : E →ₗ[𝕜] E) (hT : T.IsSymmetric)
    (n : ℕ) (hn : finrank 𝕜 E = n) (M : C52_Mode) (s : XSt 𝕜 E) (cut good : ℕ → Prop) (h : C52_Reach P (inner 𝕜) T M s cut good) (hg : ∀ j < s.b, good j)
    (l : List (Locked 𝕜 E)) (hl : l.Sublist (C48_pairs s.toSt)) (a b d : ℝ)
    (hv : ∀ p ∈ l, a ≤ RCLike.re p.value ∧ RCLike.re p.value ≤ b) (hd : d = Real.sqrt ((l.map (fun p => ‖p.res‖ ^ 2)).sum)) :
    l.length ≤ (univ.filter fun i : Fin n => a - d ≤ hT.eigenvalues hn i ∧ hT.eigenvalues hn i ≤ b + d).card := by
  obtain ⟨h1, -, h2, h3, h4, h5⟩ := C52_offered_partial P hmin _ _ C48_inner (C48_hermitian T hT) M s cut good h
  refine C48_count_list T hT n hn l (fun p hp => ?_) (List.Pairwise.sublist hl ?_) a b d hv hd
  · rcases List.mem_append.1 (hl.subset hp) with hp | hp
    · exact h5 p hp
    · obtain ⟨j, hj, rfl⟩ := List.mem_map.1 hp
      exact h1 j (List.mem_range.1 hj) (hg j (List.mem_range.1 hj))
  · unfold C48_pairs
    rw [List.pairwise_append]
    refine ⟨?_, ?_, ?_⟩
    · have := (List.pairwise_append.1 h4.2).2.1
      exact List.pairwise_map.1 this
    · rw [List.pairwise_map]
      refine List.Pairwise.imp_of_mem ?_ List.pairwise_lt_range
      intro a c ha hc hac
      have := h2 a (List.mem_range.1 ha) c (List.mem_range.1 hc)
      rwa [if_neg (by omega)] at this
    · intro p hp q hq
      obtain ⟨j, hj, rfl⟩ := List.mem_map.1 hq
      exact h3 p.x (List.mem_append_right _ (List.mem_map_of_mem hp)) j (List.mem_range.1 hj)

end

/-! ## Two dimensions -/

/-- The plane. -/
def C52_ip (x y : ℝ × ℝ) : ℝ := x.1 * y.1 + x.2 * y.2

theorem C52_ip_inner : IsInner C52_ip :=
  ⟨fun x y z => by simp [C52_ip]; ring, fun c x y => by simp [C52_ip]; ring, fun x y => by simp [C52_ip]; ring⟩

/-- The operator with the rows `(a, b)` and `(b, c)`. -/
def C52_op (a b c : ℝ) (x : ℝ × ℝ) : ℝ × ℝ := (a * x.1 + b * x.2, b * x.1 + c * x.2)

theorem C52_op_hermitian (a b c : ℝ) : IsHermitian C52_ip (C52_op a b c) :=
  ⟨fun x y => by ext <;> simp [C52_op] <;> ring, fun k x => by ext <;> simp [C52_op] <;> ring,
    fun x y => by simp [C52_op, C52_ip]; ring⟩

noncomputable def C52_empty : XSt ℝ (ℝ × ℝ) :=
  { b := 0, V := fun _ => 0, W := fun _ => 0, BV := fun _ => 0, H := fun _ _ => 0, hVecs := fun _ _ => 0, hVals := fun _ => 0,
    cons := [], locked := [], Q := fun _ => 0, R := fun _ _ => 0, hSVals := fun _ => 0, tau := 0,
    hU := fun _ _ => 0, rot := fun _ _ => 0, arb := 0 }

def C52_unit (i : ℕ) : ℝ × ℝ := if i = 0 then (1, 0) else (0, 1)
def C52_delta (i j : ℕ) : ℝ := if i = j then 1 else 0
def C52_two (j : ℕ) : ℝ := if j = 0 then 1 else 2

/-- The whole plane as search space of the operator with eigenvalues 1 and 2. -/
noncomputable def C52_plane : XSt ℝ (ℝ × ℝ) :=
  extend C52_ip (C52_op 1 0 2) C52_empty 2 C52_unit ⟨C52_unit, fun i j => C52_delta i j * C52_two j⟩
def C52_svd : Svd ℝ := ⟨fun i j => C52_delta i (1 - j), fun j => C52_two (1 - j), fun i j => C52_delta i (1 - j)⟩

theorem C52_plane_new : C47_New C52_ip id C52_empty.toSt 2 C52_unit := by
  refine ⟨?_, ?_, ?_⟩
  · intro i hi j hj
    rcases (by omega : i = 0 ∨ i = 1) with rfl | rfl <;> rcases (by omega : j = 0 ∨ j = 1) with rfl | rfl <;>
      simp [C52_unit, C52_ip]
  · intro i hi; exact absurd hi (Nat.not_lt_zero i)
  · intro x hx; cases hx

theorem C52_plane_qr : IsQr C52_ip C52_empty.b 2 C52_empty.Q (fun j => off (𝕜 := ℝ) (C52_op 1 0 2) C52_empty.tau (C52_unit j)) C52_unit
    (fun i j => C52_delta i j * C52_two j) := by
  refine ⟨?_, ?_, ?_⟩
  · exact C52_plane_new.orth
  · intro i hi; exact absurd hi (Nat.not_lt_zero i)
  · intro j hj
    rcases (by omega : j = 0 ∨ j = 1) with rfl | rfl <;>
      simp [C52_empty, sum_range_succ, C52_unit, C52_delta, C52_two, off, C52_op]

theorem C52_plane_R (i j : ℕ) (hj : j < 2) : C52_plane.R i j = C52_delta i j * C52_two j := by
  simp [C52_plane, extend, updateQ, C52_empty, hj]
  omega

theorem C52_plane_svd : IsSvd C52_plane.b C52_plane.R C52_svd.u C52_svd.sv C52_svd.v := by
  have hb : C52_plane.b = 2 := rfl
  rw [hb]
  refine ⟨?_, ?_, ?_, ?_⟩
  · intro i hi j hj
    rcases (by omega : i = 0 ∨ i = 1) with rfl | rfl <;> rcases (by omega : j = 0 ∨ j = 1) with rfl | rfl <;>
      simp [C52_svd, sum_range_succ, C52_delta]
  · intro i hi j hj
    rcases (by omega : i = 0 ∨ i = 1) with rfl | rfl <;> rcases (by omega : j = 0 ∨ j = 1) with rfl | rfl <;>
      simp [C52_svd, sum_range_succ, C52_delta]
  · intro j hj
    rcases (by omega : j = 0 ∨ j = 1) with rfl | rfl <;> simp [C52_svd, C52_two]
  · intro i hi j hj
    rw [sum_range_succ, sum_range_succ, sum_range_zero, C52_plane_R _ _ (by omega), C52_plane_R _ _ (by omega)]
    rcases (by omega : i = 0 ∨ i = 1) with rfl | rfl <;> rcases (by omega : j = 0 ∨ j = 1) with rfl | rfl <;>
      simp [C52_svd, C52_delta, C52_two]

theorem C52_plane_desc : Descending C52_plane.b C52_svd.sv := by
  intro i hi j hj hij
  change i < 2 at hi
  change j < 2 at hj
  rcases (by omega : i = 0 ∨ i = 1) with rfl | rfl <;> rcases (by omega : j = 0 ∨ j = 1) with rfl | rfl <;>
    simp [C52_svd, C52_two] at *

theorem C52_plane_reach (P : Par) (closest : Bool) :
    C52_Reach P C52_ip (C52_op 1 0 2) (.refined closest) (solveRef closest C52_plane C52_svd) (fun _ => True) (fun _ => True) :=
  C52_Reach.grow C52_empty _ _ 2 C52_unit _ _ (C52_Reach.start _ rfl rfl ⟨fun x hx => (by cases hx), List.Pairwise.nil⟩ rfl)
    C52_plane_new C52_plane_qr (C52_Solve.refined closest _ C52_svd C52_plane_svd C52_plane_desc)

theorem C52_plane_ritz (closest : Bool) : ritz (solveRef closest C52_plane C52_svd).toSt 0 = if closest then (1, 0) else (0, 1) := by
  unfold ritz comb
  have hb : (solveRef closest C52_plane C52_svd).toSt.b = 2 := rfl
  rw [hb]
  cases closest <;> simp [sum_range_succ, solveRef, C52_plane, extend, updateQ, expand, C52_empty, C52_svd, reversed, C52_delta, C52_unit]

/-- The case of the refined extraction is not empty: the plane, shift zero, where the first vector is the eigenvector of 1. -/
example (P : Par) : C52_Reach P C52_ip (C52_op 1 0 2) (.refined true) (solveRef true C52_plane C52_svd) (fun _ => True) (fun _ => True) ∧
    (solveRef true C52_plane C52_svd).b = 2 ∧ ritz (solveRef true C52_plane C52_svd).toSt 0 = (1, 0) :=
  ⟨C52_plane_reach P true, rfl, by rw [C52_plane_ritz]; rfl⟩

/-- With another target (`primme_largest_abs`) the order is not reversed, and the first vector of the refined extraction is the one
for which `(A - tau) x` is largest, not smallest as the manual says. -/
theorem C52_order_violated (P : Par) :
    ∃ (s : XSt ℝ (ℝ × ℝ)) (cut good : ℕ → Prop) (z : ℝ × ℝ), C52_Reach P C52_ip (C52_op 1 0 2) (.refined false) s cut good ∧ cut 1 ∧ 0 < s.b ∧
      InSpace (𝕜 := ℝ) s.b s.V z ∧ sq C52_ip z = 1 ∧
      sq C52_ip (off (𝕜 := ℝ) (C52_op 1 0 2) s.tau z) < sq C52_ip (off (𝕜 := ℝ) (C52_op 1 0 2) s.tau (ritz s.toSt 0)) := by
  refine ⟨_, _, _, (1, 0), C52_plane_reach P false, trivial, Nat.zero_lt_two, ⟨fun k => if k = 0 then 1 else 0, ?_⟩, ?_, ?_⟩
  · have hb : (solveRef false C52_plane C52_svd).toSt.b = 2 := rfl
    rw [hb]
    simp [sum_range_succ, solveRef, C52_plane, extend, updateQ, expand, C52_empty, C52_unit]
  · simp [Spec.sq, C52_ip]
  · rw [C52_plane_ritz]
    have : (solveRef false C52_plane C52_svd).tau = 0 := rfl
    rw [this]
    simp [Spec.sq, C52_ip, off, C52_op]
    norm_num

/-! ## Three dimensions, and a restart that keeps the factors -/

/-- The space. -/
def C52_ip3 (x y : ℝ × ℝ × ℝ) : ℝ := x.1 * y.1 + x.2.1 * y.2.1 + x.2.2 * y.2.2

/-- The operator with eigenvalues 1, 5 and 9. -/
def C52_op3 (x : ℝ × ℝ × ℝ) : ℝ × ℝ × ℝ := (x.1, 5 * x.2.1, 9 * x.2.2)

noncomputable def C52_empty3 : XSt ℝ (ℝ × ℝ × ℝ) :=
  { b := 0, V := fun _ => 0, W := fun _ => 0, BV := fun _ => 0, H := fun _ _ => 0, hVecs := fun _ _ => 0, hVals := fun _ => 0,
    cons := [], locked := [], Q := fun _ => 0, R := fun _ _ => 0, hSVals := fun _ => 0, tau := 0,
    hU := fun _ _ => 0, rot := fun _ _ => 0, arb := 0 }

def C52_unit3 (i : ℕ) : ℝ × ℝ × ℝ := (if i = 0 then 1 else 0, if i = 1 then 1 else 0, if i = 2 then 1 else 0)
def C52_val3 (j : ℕ) : ℝ := 1 + 4 * j
noncomputable def C52_space : XSt ℝ (ℝ × ℝ × ℝ) :=
  extend C52_ip3 C52_op3 C52_empty3 3 C52_unit3 ⟨C52_unit3, fun i j => C52_delta i j * C52_val3 j⟩
def C52_svd3 : Svd ℝ := ⟨fun i j => C52_delta i (2 - j), fun j => C52_val3 (2 - j), fun i j => C52_delta i (2 - j)⟩

theorem C52_space_R (i j : ℕ) (hj : j < 3) : C52_space.R i j = C52_delta i j * C52_val3 j := by
  simp [C52_space, extend, updateQ, C52_empty3, hj]

theorem C52_space_reach (P : Par) :
    C52_Reach P C52_ip3 C52_op3 (.refined true) (solveRef true C52_space C52_svd3) (fun _ => True) (fun _ => True) := by
  have h3 : ∀ i < 3, i = 0 ∨ i = 1 ∨ i = 2 := by intro i hi; omega
  have ho : ∀ i < 3, ∀ j < 3, C52_ip3 (C52_unit3 i) (C52_unit3 j) = if i = j then 1 else 0 := by
    intro i hi j hj
    rcases h3 i hi with rfl | rfl | rfl <;> rcases h3 j hj with rfl | rfl | rfl <;> simp [C52_unit3, C52_ip3]
  refine C52_Reach.grow C52_empty3 _ _ 3 C52_unit3 _ _ (C52_Reach.start _ rfl rfl ⟨fun x hx => (by cases hx), List.Pairwise.nil⟩ rfl)
    ⟨ho, ?_, ?_⟩ ⟨ho, ?_, ?_⟩ (C52_Solve.refined true _ C52_svd3 ⟨?_, ?_, ?_, ?_⟩ ?_)
  · intro i hi; exact absurd hi (Nat.not_lt_zero i)
  · intro x hx; cases hx
  · intro i hi; exact absurd hi (Nat.not_lt_zero i)
  · intro j hj
    rcases h3 j hj with rfl | rfl | rfl <;>
      simp [C52_empty3, sum_range_succ, C52_unit3, C52_delta, C52_val3, off, C52_op3] <;> norm_num
  · intro i hi j hj
    change i < 3 at hi
    change j < 3 at hj
    change ∑ k ∈ range 3, _ = _
    rcases h3 i hi with rfl | rfl | rfl <;> rcases h3 j hj with rfl | rfl | rfl <;> simp [C52_svd3, sum_range_succ, C52_delta]
  · intro i hi j hj
    change i < 3 at hi
    change j < 3 at hj
    change ∑ k ∈ range 3, _ = _
    rcases h3 i hi with rfl | rfl | rfl <;> rcases h3 j hj with rfl | rfl | rfl <;> simp [C52_svd3, sum_range_succ, C52_delta]
  · intro j hj
    simp only [C52_svd3, C52_val3]; positivity
  · intro i hi j hj
    change i < 3 at hi
    change j < 3 at hj
    change ∑ k ∈ range 3, C52_space.R i k * _ = _
    rw [sum_congr rfl (fun k hk => by rw [C52_space_R i k (mem_range.1 hk)])]
    rcases h3 i hi with rfl | rfl | rfl <;> rcases h3 j hj with rfl | rfl | rfl <;>
      simp [C52_svd3, sum_range_succ, C52_delta, C52_val3]
  · intro i hi j hj hij
    change i < 3 at hi
    change j < 3 at hj
    rcases h3 i hi with rfl | rfl | rfl <;> rcases h3 j hj with rfl | rfl | rfl <;>
      simp [C52_svd3, C52_val3] at *

/-- One value wanted; the basis holds three vectors, and a restart keeps one and a previous one. -/
def C52_keepPar : Par := ⟨100, 1, 0, 3, 1, 1, 1, false, false⟩
def C52_keepFlags : List Conv.Flag := [.unconverged, .unconverged, .unconverged]
def C52_keepAns : Answers := ⟨1, fun _ => false, fun _ => .unconverged⟩
def C52_keepR : Result := C47_result (Restart.restart C52_keepPar C52_keepAns 3 0 C52_keepFlags 1 (fun _ => none) 0)
noncomputable def C52_keepPrev (_ k : ℕ) : ℝ := if k = 1 then 3 / 5 else if k = 2 then 4 / 5 else 0
noncomputable def C52_keepO : Keep ℝ :=
  ⟨fun _ _ => 1, fun _ _ => 1, fun k _ => if k = 1 then 5 / 13 else if k = 2 then 12 / 13 else 0, fun k _ => if k = 1 then 39 / 5 else 0⟩
noncomputable def C52_keepD : Svd ℝ := ⟨fun i j => C52_delta i (1 - j), fun j => if j = 0 then 39 / 5 else 1, fun i j => C52_delta i (1 - j)⟩

/-- The state before the restart. -/
noncomputable def C52_full : XSt ℝ (ℝ × ℝ × ℝ) := solveRef true C52_space C52_svd3
/-- The state after it. -/
noncomputable def C52_kept : XSt ℝ (ℝ × ℝ × ℝ) := keep true C52_full C52_keepPrev C52_keepR 0 C52_keepO C52_keepD

theorem C52_keep_sizes : C52_keepR.basisSize = 2 ∧ C52_keepR.retained = 1 ∧ C52_keepR.indexPrev = 1 ∧ C52_keepR.indexPrev0 = 1 ∧
    C52_keepR.hVecsPerm 0 = some 0 ∧ C52_keepR.hVecsPerm 1 = some 1 ∧ C52_keepR.restartPerm 0 = some 0 ∧
    C52_keepR.restartPerm 1 = some 1 := by decide +kernel

theorem C52_keep_counts : Extraction.regular C52_keepR = 1 ∧ place C52_keepR 0 = 0 ∧ place C52_keepR 1 = 1 ∧ source C52_keepR 0 = 0 ∧
    newArb C52_full C52_keepR = 0 ∧ height C52_full C52_keepR = 1 ∧ keepArb C52_full C52_keepR = 0 := by
  obtain ⟨h1, h2, h3, h4, h5, h6, h7, h8⟩ := C52_keep_sizes
  have a : C52_full.arb = 0 := rfl
  have r1 : Extraction.regular C52_keepR = 1 := by unfold Extraction.regular; rw [h1, h2]; rfl
  have p0 : place C52_keepR 0 = 0 := by unfold place; rw [h5]; rfl
  have p1 : place C52_keepR 1 = 1 := by unfold place; rw [h6]; rfl
  have s0 : source C52_keepR 0 = 0 := by unfold source; rw [p0, h7]; rfl
  have n0 : newArb C52_full C52_keepR = 0 := by unfold newArb; rw [r1, a]; rfl
  refine ⟨r1, p0, p1, s0, n0, ?_, ?_⟩
  · unfold height; rw [r1, a]
    simp [s0]
  · unfold keepArb
    rw [a, h4, if_pos (by decide), n0, h1]
    simp [lastMoved, List.range_succ, p0, p1]

theorem C52_full_values (i j : ℕ) (hi : i < 3) (hj : j < 3) : C52_full.hVecs i j = C52_delta i j ∧ C52_full.hSVals j = C52_val3 j ∧
    C52_full.hU i j = C52_delta i j ∧ C52_full.R i j = C52_delta i j * C52_val3 j := by
  have hb : C52_space.b = 3 := rfl
  have e : 2 - (3 - 1 - j) = j := by omega
  refine ⟨?_, ?_, ?_, C52_space_R i j hj⟩ <;> simp [C52_full, solveRef, C52_svd3, reversed, hb, e]

theorem C52_keepR_values (k i : ℕ) (hk : k < 2) (hi : i < 2) : Extraction.keepR C52_full C52_keepR C52_keepO k i =
    if k = i then if i = 0 then 1 else 39 / 5 else 0 := by
  obtain ⟨h1, h2, h3, h4, h5, h6, h7, h8⟩ := C52_keep_sizes
  obtain ⟨r1, p0, p1, s0, n0, g1, g2⟩ := C52_keep_counts
  have a : C52_full.arb = 0 := rfl
  unfold Extraction.keepR
  rw [r1, n0, a, h4]
  rcases (by omega : i = 0 ∨ i = 1) with rfl | rfl <;> rcases (by omega : k = 0 ∨ k = 1) with rfl | rfl <;>
    simp [s0, (C52_full_values 0 0 (by omega) (by omega)).2.1, C52_val3, C52_keepO]

theorem C52_keepU_values (l : ℕ) (hl : l < 3) : Extraction.keepU C52_full C52_keepR C52_keepO l 0 = C52_delta l 0 := by
  obtain ⟨r1, p0, p1, s0, n0, g1, g2⟩ := C52_keep_counts
  unfold Extraction.keepU
  rw [r1, g1, if_pos (by omega), sum_range_one, (C52_full_values l 0 hl (by omega)).2.2.1]
  simp [C52_keepO]

theorem C52_kept_reach : C52_Reach C52_keepPar C52_ip3 C52_op3 (.refined true) C52_kept (fun k => k = 0 ∨ keepArb C52_full C52_keepR ≤ k)
    (fun j => j < Extraction.regular C52_keepR) := by
  have hh : C22_Plain C52_keepPar C52_keepAns 3 C52_keepFlags 0 :=
    ⟨rfl, by decide +kernel, by decide +kernel, by decide +kernel,
      fun i h1 h2 => absurd (Nat.lt_of_lt_of_le h2 (by decide +kernel : C52_keepPar.numEvals ≤ 3)) (by omega),
      by decide +kernel, by unfold Possible RetainOk; decide +kernel⟩
  obtain ⟨r, e, _⟩ := C22_order_without_locking C52_keepPar C52_keepAns 3 C52_keepFlags 1 (fun _ => none) 0 hh
  have hr : C52_keepR = r := by unfold C52_keepR; rw [e]; rfl
  rw [← hr] at e
  obtain ⟨h1, h2, h3, h4, h5, h6, h7, h8⟩ := C52_keep_sizes
  obtain ⟨r1, p0, p1, s0, n0, g1, g2⟩ := C52_keep_counts
  have hb : C52_full.b = 3 := rfl
  have t2 : C52_keepR.basisSize.toNat = 2 := by rw [h1]; rfl
  have t1 : C52_keepR.retained.toNat = 1 := by rw [h2]; rfl
  have hl : ∀ l < 3, l = 0 ∨ l = 1 ∨ l = 2 := by intro i hi; omega
  refine C52_Reach.keepSoft C52_full _ _ C52_keepAns C52_keepFlags 1 (fun _ => none) C52_keepR C52_keepPrev C52_keepO true C52_keepD rfl
    (C52_space_reach _) (fun _ _ => trivial) hh e ⟨?_, ?_⟩ ⟨?_, ?_, ?_, ?_, ?_, ?_, ?_⟩ ?_ ?_ ?_
  · rw [t1]
    intro m hm m' hm'
    change ∑ k ∈ range 3, _ = _
    rw [if_pos (by omega)]
    simp [sum_range_succ, C52_keepPrev]; norm_num
  · intro m hm v hv hx
    rw [h4] at hx
    have : v = 0 := by omega
    subst this
    change ∑ k ∈ range 3, star (C52_full.hVecs k 0) * _ = _
    rw [sum_congr rfl (fun k hk => by rw [(C52_full_values k 0 (mem_range.1 hk) (by omega)).1])]
    simp [sum_range_succ, C52_keepPrev, C52_delta]
  · rw [r1, g1]
    intro i hi j hj
    rw [if_pos (by omega)]
    simp [dotc, C52_keepO]
  · rw [r1, g1]
    intro k hk i hi
    obtain rfl : k = 0 := by omega
    obtain rfl : i = 0 := by omega
    rw [sum_range_one]
    unfold rot0
    rw [n0, if_neg (by omega), s0, if_pos rfl, (C52_full_values 0 0 (by omega) (by omega)).2.1]
    simp [C52_keepO, C52_val3]
  · rw [r1]; intro i hi l hl' h; omega
  · intro i hi; exact ⟨1, one_pos, by simp [C52_keepO]⟩
  · rw [t1]
    intro i hi j hj
    rw [if_pos (by omega)]
    change ∑ k ∈ range 3, _ = _
    simp [sum_range_succ, C52_keepO]; norm_num
  · rw [r1, t1]
    intro i hi j hj
    obtain rfl : i = 0 := by omega
    change ∑ k ∈ range 3, star (Extraction.keepU C52_full C52_keepR C52_keepO k 0) * _ = _
    rw [sum_congr rfl (fun k hk => by rw [C52_keepU_values k (mem_range.1 hk)])]
    simp [sum_range_succ, C52_delta, C52_keepO]
  · rw [r1, t1]
    intro l hl' m hm
    rw [sum_range_one, sum_range_one, C52_keepU_values l hl']
    change ∑ k ∈ range 3, C52_full.R l k * _ = _
    rw [sum_congr rfl (fun k hk => by rw [(C52_full_values l k hl' (mem_range.1 hk)).2.2.2])]
    rcases hl l hl' with rfl | rfl | rfl <;> simp [sum_range_succ, C52_delta, C52_keepO, C52_val3, C52_keepPrev] <;> norm_num
  · rw [t2]
    have h2' : ∀ l < 2, l = 0 ∨ l = 1 := by intro i hi; omega
    refine ⟨?_, ?_, ?_, ?_⟩
    · intro i hi j hj
      rcases h2' i hi with rfl | rfl <;> rcases h2' j hj with rfl | rfl <;> simp [C52_keepD, sum_range_succ, C52_delta]
    · intro i hi j hj
      rcases h2' i hi with rfl | rfl <;> rcases h2' j hj with rfl | rfl <;> simp [C52_keepD, sum_range_succ, C52_delta]
    · intro j hj
      rcases h2' j hj with rfl | rfl <;> simp [C52_keepD]; norm_num
    · intro i hi j hj
      rw [sum_range_succ, sum_range_one, C52_keepR_values i 0 hi (by omega), C52_keepR_values i 1 hi (by omega)]
      rcases h2' i hi with rfl | rfl <;> rcases h2' j hj with rfl | rfl <;> simp [C52_keepD, C52_delta]
  · rw [t2]
    intro i hi j hj hij
    rcases (by omega : i = 0 ∨ i = 1) with rfl | rfl <;> rcases (by omega : j = 0 ∨ j = 1) with rfl | rfl <;> simp [C52_keepD] at *
    norm_num
  · rw [t2, r1]
    intro k _ hk h0 _
    obtain rfl : k = 1 := by omega
    simp [C52_keepD, reversed]; norm_num

/-- The case of a restart that keeps the factors is not empty. -/
example : C52_Reach C52_keepPar C52_ip3 C52_op3 (.refined true) C52_kept (fun k => k = 0 ∨ keepArb C52_full C52_keepR ≤ k)
    (fun j => j < Extraction.regular C52_keepR) ∧ C52_keepPar.numEvals ≤ C52_keepPar.minRestartSize ∧ C52_kept.b = 2 ∧
    Extraction.regular C52_keepR = 1 :=
  ⟨C52_kept_reach, by decide, by change C52_keepR.basisSize.toNat = 2; rw [C52_keep_sizes.1]; rfl, C52_keep_counts.1⟩

/-- The value of a retained vector after a restart that keeps the factors is not its Rayleigh quotient (a comment in the code says so):
here the quotient is 189/25, and the value 5. -/
theorem C52_retained_violated :
    ∃ (P : Par) (s : XSt ℝ (ℝ × ℝ × ℝ)) (cut good : ℕ → Prop), C52_Reach P C52_ip3 C52_op3 (.refined true) s cut good ∧ s.b = 2 ∧
      s.hVals 1 = 5 ∧ C52_ip3 (ritz s.toSt 1) (ritz s.toSt 1) = 1 ∧ C52_ip3 (ritz s.toSt 1) (C52_op3 (ritz s.toSt 1)) = 189 / 25 := by
  obtain ⟨h1, h2, h3, h4, h5, h6, h7, h8⟩ := C52_keep_sizes
  obtain ⟨r1, p0, p1, s0, n0, g1, g2⟩ := C52_keep_counts
  have t2 : C52_keepR.basisSize.toNat = 2 := by rw [h1]; rfl
  have hb : C52_kept.b = 2 := t2
  have hV : ∀ i < 3, C52_full.V i = C52_unit3 i := by
    intro i hi
    simp [C52_full, solveRef, C52_space, extend, updateQ, expand, C52_empty3]
    omega
  have hcol : column C52_keepR 1 = some (.prev 0) := by decide +kernel
  have hx : ritz C52_kept.toSt 1 = (0, 3 / 5, 4 / 5) := by
    unfold ritz comb
    have hv : ∀ k < 2, C52_kept.hVecs k 1 = C52_delta k 1 := by
      intro k hk
      change (if 1 < keepArb C52_full C52_keepR then if k = place C52_keepR 1 then (1 : ℝ) else 0
        else C52_keepD.v k (reversed true C52_keepR.basisSize.toNat 1)) = _
      rw [g2, if_neg (by omega), t2]
      simp [C52_keepD, reversed]
    have hV1 : C52_kept.V 1 = (0, 3 / 5, 4 / 5) := by
      change comb 3 C52_full.V (newCoef C52_full.toSt C52_keepPrev C52_keepR 1) = _
      unfold newCoef
      rw [hcol]
      unfold comb
      rw [sum_congr rfl (fun k hk => by rw [hV k (mem_range.1 hk)])]
      simp [sum_range_succ, coef, C52_keepPrev, C52_unit3]
    dsimp only
    rw [hb, sum_congr rfl (fun k hk => by rw [hv k (mem_range.1 hk)])]
    simp [sum_range_succ, C52_delta, hV1]
  refine ⟨C52_keepPar, C52_kept, _, _, C52_kept_reach, hb, ?_, ?_, ?_⟩
  · change newVal C52_full.toSt C52_keepR (place C52_keepR 1) = 5
    rw [p1]
    unfold newVal
    rw [h8]
    simp [C52_full, solveRef, quotients, quad, sym, C52_space, extend, updateQ, expand, C52_empty3, sum_range_succ, C52_svd3, reversed,
      C52_delta, C52_ip3, C52_op3, C52_unit3]
  · rw [hx]; simp [C52_ip3]; norm_num
  · rw [hx]; simp [C52_ip3, C52_op3]; norm_num

/-! ## One vector and the harmonic condition -/

noncomputable def C52_line : XSt ℝ (ℝ × ℝ) :=
  extend C52_ip (C52_op 3 4 0) C52_empty 1 (fun _ => (1, 0)) ⟨fun _ => (3 / 5, 4 / 5), fun _ _ => 5⟩
noncomputable def C52_harm : Harm ℝ := ⟨fun _ _ => 3 / 25, fun _ _ => 1, fun _ => 3 / 25, fun _ _ => 1 / 5, fun _ _ => 1 / 5, fun _ _ => 1⟩

theorem C52_line_reach (P : Par) : C52_Reach P C52_ip (C52_op 3 4 0) .harmonic (solveHarm C52_line C52_harm) (fun _ => True) (fun _ => True) := by
  refine C52_Reach.grow C52_empty _ _ 1 (fun _ => (1, 0)) ⟨fun _ => (3 / 5, 4 / 5), fun _ _ => 5⟩ _
    (C52_Reach.start _ rfl rfl ⟨fun x hx => (by cases hx), List.Pairwise.nil⟩ rfl) ⟨?_, ?_, ?_⟩ ⟨?_, ?_, ?_⟩ (C52_Solve.harmonic _ C52_harm ?_)
  · intro i hi j hj
    rw [if_pos (by omega)]; simp [C52_ip]
  · intro i hi; exact absurd hi (Nat.not_lt_zero i)
  · intro x hx; cases hx
  · intro i hi j hj
    rw [if_pos (by omega)]; simp [C52_ip]; norm_num
  · intro i hi; exact absurd hi (Nat.not_lt_zero i)
  · intro j hj
    simp [C52_empty, sum_range_succ, off, C52_op]
    norm_num
  · have hb : (extend C52_ip (C52_op 3 4 0) C52_empty 1 (fun _ => (1, 0)) ⟨fun _ => (3 / 5, 4 / 5), fun _ _ => (5 : ℝ)⟩).b = 1 := rfl
    have hR : (extend C52_ip (C52_op 3 4 0) C52_empty 1 (fun _ => (1, 0)) ⟨fun _ => (3 / 5, 4 / 5), fun _ _ => (5 : ℝ)⟩).R 0 0 = 5 := rfl
    have hQ : (extend C52_ip (C52_op 3 4 0) C52_empty 1 (fun _ => (1, 0)) ⟨fun _ => (3 / 5, 4 / 5), fun _ _ => (5 : ℝ)⟩).Q 0 = (3 / 5, 4 / 5) := rfl
    have hV : (extend C52_ip (C52_op 3 4 0) C52_empty 1 (fun _ => (1, 0)) ⟨fun _ => (3 / 5, 4 / 5), fun _ _ => (5 : ℝ)⟩).V 0 = (1, 0) := rfl
    refine ⟨?_, ?_, ⟨?_, ?_, ?_⟩, ?_, ?_, ?_, ?_⟩ <;> simp only [hb, Nat.lt_one_iff, forall_eq, sum_range_one, mulv, hR, hQ, hV]
    · intro z hz
      simpa using hz
    · simp [C52_harm, C52_ip]; norm_num
    · simp [C52_harm]
    · simp [C52_harm, sym]
    · simp
    · simp [C52_harm]
    · intro i hi j hj
      rw [hb] at *
      rw [if_pos (by omega)]
      simp [C52_harm, sum_range_one]
    · simp [C52_harm]
    · omega

/-- With the harmonic extraction the value returned is the Rayleigh quotient: the residual of the pair is not orthogonal to
`(A - tau) V`, which is what the manual says. -/
theorem C52_harmonic_violated (P : Par) :
    ∃ (s : XSt ℝ (ℝ × ℝ)) (cut good : ℕ → Prop), C52_Reach P C52_ip (C52_op 3 4 0) .harmonic s cut good ∧ 0 < s.b ∧
      C52_ip (off (𝕜 := ℝ) (C52_op 3 4 0) s.tau (s.V 0)) (resid s.toSt 0) = 16 := by
  refine ⟨_, _, _, C52_line_reach P, Nat.zero_lt_one, ?_⟩
  simp [resid, ritzW, ritzBV, sym, comb, solveHarm, quotients, quad, C52_line, C52_harm, extend, updateQ, expand, C52_empty, C52_op, C52_ip, off]
  norm_num

/-! ## Targets without shifts -/

/-- An input with the given projection, an extremal target, no mass matrix and no shifts. -/
def C52_input (projection : Int) : Eigs.EP ℚ where
  i f := match f with
    | .n | .nLocal | .ldevecs | .ldOPs => 100
    | .maxBasisSize => 15
    | .minRestartSize => 6
    | .numProcs | .maxBlockSize | .numEvals => 1
    | .projectionParams_projection => projection
    | _ => 0
  d _ := 0
  p f := match f with
    | .targetShifts | .massMatrixMatvec => 0
    | _ => 1
  seed _ := 0
  addr _ := 0

/-- The input check accepts the refined and the harmonic extraction with an extremal target and no shifts; the first factorisation then
reads the first shift through a null pointer. -/
theorem C52_target_violated (projection : Int) (hp : projection = 2 ∨ projection = 3) :
    ∃ s : Eigs.EP ℚ, s.i .projectionParams_projection = projection ∧ s.i .target = 0 ∧ s.p .massMatrixMatvec = 0 ∧
      Eigs.checkInput (1 / 2 ^ 53) ⟨false, false, false⟩ s = 0 ∧
      ∀ f : ℕ → ℝ, firstShift (s.i .projectionParams_projection) (if s.p .targetShifts = 0 then none else some f) = .ub := by
  refine ⟨C52_input projection, rfl, rfl, rfl, ?_, fun f => ?_⟩
  · rcases hp with rfl | rfl <;> decide +kernel
  · rcases hp with rfl | rfl <;> rfl

end Verif.Props
