import Verif.Proofs.Monitor
import Mathlib.Algebra.Order.Field.Rat
import Mathlib.Analysis.Real.Sqrt
import Mathlib.Tactic.NormNum

/-!
# C36: monitor reports describe the run

Specification: `Spec/Monitor.lean`.
-/

set_option linter.unusedSectionVars false
set_option linter.unusedSimpArgs false
set_option linter.unusedVariables false

namespace Verif.Props
open Verif.Mon Verif.Spec

section
variable {K : Type} [Field K] [LinearOrder K] [IsStrictOrderedRing K]

/-- **C36** for the eigenvalue monitor: at every place where the solver reports the arrays given have the
announced lengths and hold the values, norms and states of the pairs, and the block is part of the
basis.  The numbers announced are right also where no array is given, except in the adaptive inner
iterations (`C36_adaptive_violated`). -/
theorem C36_eigs_partial (r : Run K) (site : Site) (hv : Valid r site) :
    EigTells (r.report site) (about r site) ∧
    (site ≠ .innerAdaptive → Counts (r.report site) (about r site)) := by
  refine ⟨eigTells hv, ?_⟩
  intro hs
  have hl1 := leading_length hv.evals
  have hl2 := leading_length hv.resNorms
  have h1 := hv.vals
  have h2 := hv.norms
  cases site <;> first
    | exact absurd rfl hs
    | (constructor <;> simp [Run.report, about, passOn, textOnly, hl1, hl2, h1, h2])

/-- **C36** for the singular value monitor in one stage with the normal equations: at every place where the
eigensolver reports (but the adaptive inner iterations) the user's monitor is called with arrays of the
announced lengths holding for every pair its own singular value and residual norm, with the running
statistics, and afterwards the statistics are what they were. -/
theorem C36_single_partial (env : Env K) (hs : IsSqrt env.sqrt) (ha : ∀ k, env.alloc k = true) (r : Run K)
    (site : Site) (hv : Valid r site) (hsite : site ≠ .innerAdaptive) (e : Eig K) (v : Sv K)
    (hop : v.method = .AtA ∨ v.method = .AAt) :
    ∃ R, Reports (fun u => single env u (r.report site) e v) R
        { v with stats := running v.stats e.stats } v.stats ∧
      Tells v.method env.cast R (about r site) ∧
      Describes v.method env.cast R.basisSvals R.basisNorms (about r site).basis ∧
      Describes v.method env.cast R.lockedSvals R.lockedNorms (about r site).locked ∧ R.stage = 0 := by
  obtain ⟨ht, hc⟩ := C36_eigs_partial r site hv
  have hc := hc hsite
  generalize hA : about r site = A at *
  generalize r.report site = a at *
  have hR := single_eq ha ht hop (e := e)
  have hd1 := describes_cast (c := env.cast) (describes_map hs hop A.basis)
  have hd2 := describes_cast (c := env.cast) (describes_map hs hop A.locked)
  refine ⟨_, by rw [hR]; exact deliver_reports env _ _ _ e v, ?_, hd1, hd2, rfl⟩
  constructor
  · exact hc.basisSize
  · simp [cooked, singleReport]
  · simp [cooked, singleReport]
  · exact hc.numLocked
  · simp [cooked, singleReport]
  · simp [cooked, singleReport]
  · show Gives a.basisFlags (a.basisSize.getD 0) A.basisFlags
    rw [hc.basisSize]; exact ht.basisFlags
  · show Gives a.lockedFlags (a.numLocked.getD 0) A.lockedFlags
    rw [hc.numLocked]; exact ht.lockedFlags
  · exact ht.block
  · show ∀ x ∈ A.block, 0 ≤ x ∧ x < a.basisSize.getD 0
    rw [hc.basisSize]; exact ht.inBasis
  · exact describes_values hd1
  · exact describes_values hd2
  · exact ht.event
  · intro n hn
    show a.numConverged.getD 0 = n
    rw [ht.numConverged n hn]; rfl

/-- **C36** in the first of two stages: the user's monitor is called with arrays of the announced lengths,
in which the locked pairs stand in front of the basis; every pair has its own singular value and state,
every locked pair its own norm, and so have the pairs of the basis as long as nothing is locked.  Missing:
the norms of the basis when something is locked (`C36_stage1_norms_violated`) and the size of the block
when a pair is locked (`C36_stage1_locked_violated`). -/
theorem C36_stage1_partial (env : Env K) (hs : IsSqrt env.sqrt) (ha : ∀ k, env.alloc k = true) (r : Run K)
    (site : Site) (hv : Valid r site) (e : Eig K) (v : Sv K) (hop : v.method = .AtA ∨ v.method = .AAt)
    (hshown : ¬ ((about r site).event = .converged ∧ e.locking = true ∧ e.printLevel ≤ 4)) :
    ∃ R, Reports (fun u => stage1 env u (r.report site) e v) R
        { v with stats := running v.stats e.stats } v.stats ∧ R.stage = 0 ∧
      (site ≠ .locked → Tells v.method env.cast R (about r site).asConverged) ∧
      (site = .locked → Tells v.method env.cast R { (about r site).asConverged with block := [] } ∧
        deref R.iblock 0 = .ok ((r.numLocked : Int) - 1)) ∧
      Describes v.method env.cast R.basisSvals R.basisNorms (about r site).locked ∧
      ((about r site).locked = [] →
        Describes v.method env.cast R.basisSvals R.basisNorms (about r site).basis) := by
  have ht := eigTells hv
  have hn : (about r site).event = .locked → (about r site).locked ≠ [] ∧ (about r site).block = [] := by
    intro h
    cases site <;> simp only [about] at h <;> try (exact absurd h (by decide))
    refine ⟨?_, rfl⟩
    intro h0
    have h1 := congrArg List.length h0
    have h2 := hv.newest rfl
    simp [about, leading_length hv.evals, leading_length hv.resNorms] at h1
    omega
  have hk : site = .locked → (about r site).locked.length = r.numLocked := by
    rintro rfl
    simp [about, leading_length hv.evals, leading_length hv.resNorms]
  have hsl : site = .locked ↔ (about r site).event = .locked := by
    cases site <;> simp [about]
  rw [Ne, hsl]
  have hk' : (about r site).event = .locked → (about r site).locked.length = r.numLocked :=
    fun h => hk (hsl.2 h)
  clear hk hsl
  generalize about r site = A at *
  generalize r.report site = a at *
  obtain ⟨block, b2, b3, hR⟩ := stage1_eq ha ht hn hop hshown
  have hvals : Values v.method env.cast
      ((((A.locked ++ A.basis).map (fun x => svalOf env x.1)).map some).map (Option.map env.cast))
      (A.locked ++ A.basis) := by
    intro i p hp
    obtain ⟨k1, k2⟩ := svalOf_spec hs p.1
    refine ⟨svalOf env p.1, entry (entry_map hp), k1, ?_⟩
    rcases hop with h | h <;> rw [h] <;> exact k2
  have hf1 : A.locked.length = A.lockedFlags.length := by have := ht.lockedFlags.1; omega
  have hf2 : A.basis.length = A.basisFlags.length := by have := ht.basisFlags.1; omega
  have hg1 := given_eq ht.basis
  have hg2 := given_eq ht.locked
  refine ⟨_, by rw [hR]; exact deliver_reports env _ _ _ e v, rfl, ?_, ?_, ?_, ?_⟩
  · intro hne
    constructor
    · simp [cooked, stage1Report, About.asConverged, hg1, hg2]; omega
    · simp [cooked, stage1Report, About.asConverged]
    · simp [cooked, stage1Report, About.asConverged]
    · rfl
    · rfl
    · rfl
    · exact gives_list _ (by simp [cooked, stage1Report, About.asConverged, hg1, hg2]; omega)
    · exact gives_none rfl
    · simp only [About.asConverged, if_neg hne]; exact b2 hne
    · simp only [About.asConverged, if_neg hne]
      intro x hx
      rw [List.mem_map] at hx
      obtain ⟨y, hy, rfl⟩ := hx
      have := ht.inBasis y hy
      simp [cooked, stage1Report, hg1, hg2]; omega
    · exact hvals
    · intro i p hp; simp [About.asConverged] at hp
    · simp [cooked, stage1Report, About.asConverged, ht.event]
    · intro n hn'
      show a.numConverged.getD _ = n
      rw [ht.numConverged n hn']; rfl
  · intro hl
    obtain ⟨b4, b5⟩ := b3 hl
    refine ⟨?_, by rw [← hk' hl]; exact b5⟩
    constructor
    · simp [cooked, stage1Report, About.asConverged, hg1, hg2]; omega
    · simp [cooked, stage1Report, About.asConverged]
    · simp [cooked, stage1Report, About.asConverged]
    · rfl
    · rfl
    · rfl
    · exact gives_list _ (by simp [cooked, stage1Report, About.asConverged, hg1, hg2]; omega)
    · exact gives_none rfl
    · refine ⟨by simpa [cooked, stage1Report] using b4, ?_, ?_⟩
      · refine ⟨by simp, ?_⟩
        simp [cooked, stage1Report, b4]
      · simp [cooked, stage1Report, b4, leading]
    · intro x hx; simp at hx
    · exact hvals
    · intro i p hp; simp [About.asConverged] at hp
    · simp [cooked, stage1Report, About.asConverged, ht.event]
    · intro n hn'
      show a.numConverged.getD _ = n
      rw [ht.numConverged n hn']; rfl
  · intro i p hp
    have hi := (List.getElem?_eq_some_iff.1 hp).1
    obtain ⟨k1, k2⟩ := svalOf_spec hs p.1
    refine ⟨svalOf env p.1, normOver (svalOf env p.1) p.2, ?_, ?_, ⟨k1, ?_⟩, ?_⟩
    · exact entry (entry_map (entry_left hp))
    · exact entry (entry_left (entry_map hp))
    · rcases hop with h | h <;> rw [h] <;> exact k2
    · intro h0
      rcases hop with h | h <;> rw [h] <;> exact normOver_spec k1 h0
  · intro h0 i p hp
    obtain ⟨k1, k2⟩ := svalOf_spec hs p.1
    refine ⟨svalOf env p.1, normOver (svalOf env p.1) p.2, ?_, ?_, ⟨k1, ?_⟩, ?_⟩
    · simp [cooked, stage1Report, h0, List.getElem?_map, hp]
    · have : (A.basis.zip A.basis)[i]? = some (p, p) := by
        rw [List.getElem?_zip_eq_some]; exact ⟨hp, hp⟩
      simp [cooked, stage1Report, h0, List.getElem?_map, this]
    · rcases hop with h | h <;> rw [h] <;> exact k2
    · intro h0
      rcases hop with h | h <;> rw [h] <;> exact normOver_spec k1 h0

/-- With locking and a low print level the convergence of a pair is not reported in the first stage; nothing
is changed. -/
theorem C36_stage1_quiet (env : Env K) (user : Option (Monitor K)) (r : Run K) (b : Nat) (e : Eig K) (v : Sv K)
    (hl : e.locking = true) (hp : e.printLevel ≤ 4) :
    stage1 env user (r.report (.converged b)) e v = .ok (v, 0) := by
  unfold stage1
  rw [if_pos ⟨rfl, hl, hp⟩]

/-- **C36** in the second stage: the user's monitor is called with arrays of the announced lengths, in which the
triplets already found stand in front of the locked ones, with their norms and marked converged; every
pair has its own state and, as long as the eigenvalues of the augmented problem are not negative, its
own singular value.  Missing: the norms of the pairs of this stage (`C36_stage2_norms_violated`) and the
values of negative eigenvalues (`C36_stage2_sign_violated`). -/
theorem C36_stage2_partial (env : Env K) (ha : ∀ k, env.alloc k = true) (r : Run K) (site : Site)
    (hv : Valid r site) (e : Eig K) (v : Sv K) (h1 : r.evals.off = v.numSvals - e.numEvals)
    (h2 : r.resNorms.off = v.numSvals - e.numEvals)
    (hpos : ∀ p ∈ (about r site).basis ++ (found r site ++ (about r site).locked), 0 ≤ p.1) :
    ∃ R, Reports (fun u => stage2 env u (r.report site) e v) R
        { v with stats := running v.stats e.stats } v.stats ∧ R.stage = 1 ∧
      Tells .augmented env.cast R ((about r site).after (found r site)) ∧
      ∀ (i : Nat) (p : K × K), (found r site)[i]? = some p →
        R.lockedNorms[i]? = some (some (env.cast p.2)) := by
  have ht := eigTells hv
  obtain ⟨lw, hlw1, hlw2, hlw3, hk, hR⟩ := stage2_eq ha hv h1 h2
  clear h1 h2
  generalize found r site = F at *
  generalize about r site = A at *
  generalize r.report site = a at *
  have hf1 : A.locked.length = A.lockedFlags.length := by have := ht.lockedFlags.1; omega
  have hg1 := given_eq ht.basis
  refine ⟨_, by rw [hR]; exact deliver_reports env _ _ _ e v, rfl, ?_, ?_⟩
  · constructor
    · simp [cooked, stage2Report, About.after, hg1]
    · simp [cooked, stage2Report, About.after]
    · simp [cooked, stage2Report, About.after]
    · exact hk
    · simp [cooked, stage2Report, About.after]
    · simp [cooked, stage2Report, About.after, hlw1]
    · show Gives a.basisFlags (given a.basisEvals a.basisSize : Nat) A.basisFlags
      rw [hg1]; exact ht.basisFlags
    · refine gives_list _ ?_
      show lockedOf a e v = _
      rw [hk]; simp [hf1]
    · exact ht.block
    · show ∀ x ∈ A.block, 0 ≤ x ∧ x < (given a.basisEvals a.basisSize : Nat)
      rw [hg1]; exact ht.inBasis
    · intro i p hp
      have := hpos p (List.mem_append_left _ (List.mem_of_getElem? hp))
      exact ⟨p.1, entry (entry_map hp), this, (abs_of_nonneg this).symm⟩
    · intro i p hp
      have := hpos p (List.mem_append_right _ (List.mem_of_getElem? hp))
      exact ⟨p.1, entry (entry_map hp), this, (abs_of_nonneg this).symm⟩
    · exact ht.event
    · intro n hn
      show a.numConverged.getD 0 = n
      rw [ht.numConverged n hn]; rfl
  · intro i p hp
    exact entry (hlw2 i p hp)

/-- A run with a locked pair and a pair in the basis. -/
def C36_run : Run K :=
  { hVals := [1], basisNorms := [1], flags := [0], iev := [0], basisSize := 1, blockSize := 1,
    numConverged := 1, evals := ⟨[4, 0], 0⟩, resNorms := ⟨[1, 0], 0⟩, lockedFlags := [2, 0],
    numLocked := 1, evalr := 1, resr := 1, numIts := 3, tau := 1 }

theorem C36_run_valid (site : Site) (h : ∀ b, site ≠ .converged (b + 1)) :
    Valid (C36_run (K := K)) site where
  vals := by simp [C36_run]
  norms := by simp [C36_run]
  flags := by simp [C36_run]
  block := by simp [C36_run]
  inBasis := by simp [C36_run]
  evals := by simp [C36_run, Readable]
  resNorms := by simp [C36_run, Readable]
  lockedFlags := by simp [C36_run]
  newest := by simp [C36_run]
  member := by
    intro b hb
    cases b with
    | zero => simp [C36_run]
    | succ b => exact absurd hb (h b)
  tau := by simp [C36_run]

/-- In the first stage, with one locked pair of singular value 2 and one pair in the basis with singular value
1 and residual norm 1, the norm reported for the latter is 1/2: it is divided by the other pair's
value (src/svds/primme_svds_c.c:2093 uses `i`, the position in the basis, where `j` is meant). -/
theorem C36_stage1_norms_violated (env : Env K) (hs : IsSqrt env.sqrt) (ha : ∀ k, env.alloc k = true)
    (hc : env.cast = id) (e : Eig K) (v : Sv K) (hm : v.method = .AtA) (R : SvReport K) (seen : Sv K)
    (st : Stats K) (hR : Reports (fun u => stage1 env u (C36_run.report .outer) e v) R seen st) :
    ¬ Describes .AtA id R.basisSvals R.basisNorms (about C36_run .outer).asConverged.basis := by
  intro h
  have h4 := svalOf_spec hs 4
  have h1 := svalOf_spec hs 1
  have e4 : svalOf env 4 = 2 := by
    have a4 : |(4 : K)| = 4 := abs_of_pos (by norm_num)
    rw [a4] at h4
    rcases mul_self_eq_mul_self_iff.1 (show svalOf env 4 * svalOf env 4 = 2 * 2 by
      rw [h4.2]; norm_num) with h | h
    · exact h
    · have := h4.1; rw [h] at this; linarith
  have e1 : svalOf env 1 = 1 := by
    rw [abs_one] at h1
    rcases mul_self_eq_one_iff.1 h1.2 with h | h
    · exact h
    · have := h1.1; rw [h] at this; linarith
  obtain ⟨block, _, _, hE⟩ := stage1_eq (e := e) (v := v) ha
    (eigTells (C36_run_valid (K := K) .outer (by simp))) (by simp [about]) (Or.inl hm) (by simp [about])
  rw [hE] at hR
  have hu := reports_unique hR (deliver_reports env _ _ _ e v)
  obtain ⟨σ, ρ, k1, k2, k3, k4⟩ := h 1 (1, 1) (by simp [about, About.asConverged, C36_run, leading])
  rw [hu] at k1 k2
  simp [cooked, stage1Report, hc, about, C36_run, leading] at k1 k2
  subst k1; subst k2
  have := k4 (by rw [e1]; norm_num)
  unfold IsNormOf normOver at this
  rw [e1, e4] at this
  norm_num at this

/-- In the first stage a pair that is locked is reported as converged with a block of size 0, where the manual
announces a block of size 1 with the pair's position. -/
theorem C36_stage1_locked_violated (env : Env K) (ha : ∀ k, env.alloc k = true) (r : Run K)
    (hv : Valid r .locked) (e : Eig K) (v : Sv K) (hop : v.method = .AtA ∨ v.method = .AAt)
    (R : SvReport K) (seen : Sv K) (st : Stats K)
    (hR : Reports (fun u => stage1 env u (r.report .locked) e v) R seen st) :
    R.event = .converged ∧ R.blockSize = 0 := by
  obtain ⟨block, _, h, hE⟩ := stage1_eq (e := e) (v := v) ha (eigTells hv) (by
    intro _
    refine ⟨?_, rfl⟩
    intro h0
    have h1 := congrArg List.length h0
    have h2 := hv.newest rfl
    simp [about, leading_length hv.evals, leading_length hv.resNorms] at h1
    omega) hop (by simp [about])
  rw [hE] at hR
  have hu := reports_unique hR (deliver_reports env _ _ _ e v)
  rw [hu]
  exact ⟨rfl, rfl⟩

/-- In a single stage with the augmented operator no singular value is ever written into the arrays given to
the monitor: it reads uninitialised memory (src/svds/primme_svds_c.c:1951-1965). -/
theorem C36_augmented_values_violated (env : Env K) (ha : ∀ k, env.alloc k = true) (r : Run K)
    (site : Site) (hv : Valid r site) (e : Eig K) (v : Sv K) (hop : v.method = .augmented)
    (R : SvReport K) (seen : Sv K) (st : Stats K)
    (hR : Reports (fun u => single env u (r.report site) e v) R seen st) :
    (∀ x ∈ R.basisSvals, x = none) ∧ (∀ x ∈ R.lockedSvals, x = none) ∧
      R.basisSvals.length = (about r site).basis.length := by
  rw [single_aug_eq ha (eigTells hv) hop] at hR
  have hu := reports_unique hR (deliver_reports env _ _ _ e v)
  rw [hu]
  simp [cooked, singleReport]

/-- And the norms are divided by the square root of two, where the norm of the triplet is that of the pair
times the square root of two (as in `convTestFunAug` and in what is returned at the end): a report
is right only for a zero norm. -/
theorem C36_augmented_norms_violated (env : Env K) (h2 : env.root2 * env.root2 = 2)
    (ha : ∀ k, env.alloc k = true) (hc : env.cast = id) (r : Run K) (site : Site) (hv : Valid r site)
    (e : Eig K) (v : Sv K) (hop : v.method = .augmented) (R : SvReport K) (seen : Sv K) (st : Stats K)
    (hR : Reports (fun u => single env u (r.report site) e v) R seen st) (i : Nat) (p : K × K)
    (hp : (about r site).basis[i]? = some p) (h0 : p.2 ≠ 0) :
    ∃ ρ, R.basisNorms[i]? = some (some ρ) ∧ ∀ σ, ¬ IsNormOf .augmented σ p.2 ρ := by
  rw [single_aug_eq ha (eigTells hv) hop] at hR
  have hu := reports_unique hR (deliver_reports env _ _ _ e v)
  rw [hu]
  refine ⟨p.2 / env.root2, by simp [cooked, singleReport, hp, hc], ?_⟩
  rintro σ ⟨_, h⟩
  have hne : env.root2 ≠ 0 := by rintro hz; rw [hz] at h2; norm_num at h2
  rw [div_mul_div_comm, h2] at h
  have hpos : 0 < p.2 * p.2 := mul_self_pos.2 h0
  rw [div_eq_iff (by norm_num)] at h
  linarith

/-- In the second stage, too, the norms of the pairs are divided by the square root of two. -/
theorem C36_stage2_norms_violated (env : Env K) (h2 : env.root2 * env.root2 = 2)
    (ha : ∀ k, env.alloc k = true) (hc : env.cast = id) (r : Run K) (site : Site) (hv : Valid r site)
    (e : Eig K) (v : Sv K) (h1 : r.evals.off = v.numSvals - e.numEvals)
    (h1' : r.resNorms.off = v.numSvals - e.numEvals) (R : SvReport K) (seen : Sv K) (st : Stats K)
    (hR : Reports (fun u => stage2 env u (r.report site) e v) R seen st) (i : Nat) (p : K × K)
    (hp : (about r site).basis[i]? = some p) (h0 : p.2 ≠ 0) :
    ∃ ρ, R.basisNorms[i]? = some (some ρ) ∧ ∀ σ, ¬ IsNormOf .augmented σ p.2 ρ := by
  obtain ⟨lw, _, _, _, _, hE⟩ := stage2_eq (env := env) ha hv h1 h1'
  rw [hE] at hR
  have hu := reports_unique hR (deliver_reports env _ _ _ e v)
  rw [hu]
  refine ⟨p.2 / env.root2, by simp [cooked, stage2Report, hp, hc], ?_⟩
  rintro σ ⟨_, h⟩
  rw [div_mul_div_comm, h2] at h
  have hpos : 0 < p.2 * p.2 := mul_self_pos.2 h0
  rw [div_eq_iff (by norm_num)] at h
  linarith

/-- And a negative eigenvalue of the augmented problem is handed on as a negative singular value. -/
theorem C36_stage2_sign_violated (env : Env K) (ha : ∀ k, env.alloc k = true) (hc : env.cast = id)
    (r : Run K) (site : Site) (hv : Valid r site) (e : Eig K) (v : Sv K)
    (h1 : r.evals.off = v.numSvals - e.numEvals) (h1' : r.resNorms.off = v.numSvals - e.numEvals)
    (R : SvReport K) (seen : Sv K) (st : Stats K)
    (hR : Reports (fun u => stage2 env u (r.report site) e v) R seen st) (i : Nat) (p : K × K)
    (hp : (about r site).basis[i]? = some p) (h0 : p.1 < 0) :
    ∃ σ, R.basisSvals[i]? = some (some σ) ∧ σ < 0 := by
  obtain ⟨lw, _, _, _, _, hE⟩ := stage2_eq (env := env) ha hv h1 h1'
  rw [hE] at hR
  have hu := reports_unique hR (deliver_reports env _ _ _ e v)
  rw [hu]
  exact ⟨p.1, by simp [cooked, stage2Report, hp, hc], h0⟩

/-- In the adaptive inner iterations the number of locked pairs is announced as -1, and so is the number of
converged pairs (src/eigs/inner_solve.c:555), to the eigenvalue monitor and to the singular value
monitor in a single stage. -/
theorem C36_adaptive_violated (env : Env K) (ha : ∀ k, env.alloc k = true) (r : Run K)
    (hv : Valid r .innerAdaptive) (e : Eig K) (v : Sv K) (hop : v.method = .AtA ∨ v.method = .AAt)
    (R : SvReport K) (seen : Sv K) (st : Stats K)
    (hR : Reports (fun u => single env u (r.report .innerAdaptive) e v) R seen st) :
    (r.report .innerAdaptive).numLocked = some (-1) ∧ (r.report .innerAdaptive).numConverged = some (-1) ∧
      R.numLocked = -1 ∧ R.numConverged = -1 := by
  rw [single_eq ha (eigTells hv) hop] at hR
  have hu := reports_unique hR (deliver_reports env _ _ _ e v)
  rw [hu]
  exact ⟨rfl, rfl, rfl, rfl⟩

/-- At an outer iteration the eigensolver gives no number of inner iterations, as the manual says, but the
singular value monitor is given one, 0, together with a linear system residual of 0. -/
theorem C36_inner_given_violated (env : Env K) (ha : ∀ k, env.alloc k = true) (r : Run K)
    (hv : Valid r .outer) (e : Eig K) (v : Sv K) (hop : v.method = .AtA ∨ v.method = .AAt)
    (R : SvReport K) (seen : Sv K) (st : Stats K)
    (hR : Reports (fun u => single env u (r.report .outer) e v) R seen st) :
    (r.report .outer).innerIts = none ∧ (r.report .outer).lsRes = none ∧ R.innerIts = some 0 ∧
      R.lsRes = some (env.cast 0) := by
  rw [single_eq ha (eigTells hv) hop] at hR
  have hu := reports_unique hR (deliver_reports env _ _ _ e v)
  rw [hu]
  have h1 : ¬ (0 ≤ (-1 : K)) := by norm_num
  have h2 : ¬ ((1 : K) ≤ 0) := by norm_num
  simp [cooked, Run.report, passOn, h1, h2]

/-- After a failed allocation the monitor is not called, nothing is changed and the failure is handed on. -/
theorem C36_no_memory (env : Env K) (k : Nat) (hk : k < 4) (ha : env.alloc k = false)
    (user : Option (Monitor K)) (a : EigReport K) (e : Eig K) (v : Sv K) :
    single env user a e v = .ok (v, 1) ∧ stage2 env user a e v = .ok (v, 1) ∧
    (¬ (a.event = .converged ∧ e.locking = true ∧ e.printLevel ≤ 4) → stage1 env user a e v = .ok (v, 1)) := by
  have h : ¬ (env.alloc 0 = true ∧ env.alloc 1 = true ∧ env.alloc 2 = true ∧ env.alloc 3 = true) := by
    rintro ⟨h0, h1, h2, h3⟩
    have : k = 0 ∨ k = 1 ∨ k = 2 ∨ k = 3 := by omega
    rcases this with rfl | rfl | rfl | rfl <;> simp_all
  refine ⟨?_, ?_, ?_⟩
  · unfold single; rw [if_pos h]
  · unfold stage2; rw [if_pos (by rintro ⟨h0, h1, h2, h3, _⟩; exact h ⟨h0, h1, h2, h3⟩)]
  · intro hc
    unfold stage1; rw [if_neg hc, if_pos h]

end

/-- The real numbers, with the monitor's type that of the solver. -/
noncomputable def C36_env : Env ℝ := ⟨Real.sqrt, Real.sqrt 2, id, fun _ => true⟩

theorem C36_env_sqrt : IsSqrt C36_env.sqrt :=
  fun x hx => ⟨Real.sqrt_nonneg x, Real.mul_self_sqrt hx⟩

theorem C36_env_root2 : C36_env.root2 * C36_env.root2 = 2 := Real.mul_self_sqrt (by norm_num)

/-- A structure with method `op` for three singular values, two of them found before a second stage of
one. -/
def C36_sv (op : Op) : Sv ℝ :=
  ⟨5, ⟨3, 1, 40, 0, 7, 0, 9, 0, 0, 1, 0, 0, 0, 0, 0, 0⟩, 3, op⟩

def C36_eig : Eig ℝ := ⟨⟨2, 1, 10, 0, 1, 0, 1, 0, 0, 1, 0, 0, 0, 0, 0, 0⟩, 3, false, 5, 0, 25⟩

/-- The theorem for the single stage at an outer iteration with a basis pair and a locked pair; the
monitor sees 60 products. -/
example : ∃ R, Reports (fun u => single C36_env u (C36_run.report .outer) C36_eig (C36_sv .AtA)) R
    { C36_sv .AtA with stats := running (C36_sv .AtA).stats C36_eig.stats } (C36_sv .AtA).stats ∧
    R.basisSvals.length = 1 ∧ R.lockedSvals.length = 1 ∧
    (running (C36_sv .AtA).stats C36_eig.stats).numMatvecs = 60 := by
  obtain ⟨R, h1, h2, _⟩ := C36_single_partial C36_env C36_env_sqrt (fun _ => rfl) C36_run .outer
    (C36_run_valid _ (by simp)) (by simp) C36_eig (C36_sv .AtA) (Or.inl rfl)
  refine ⟨R, h1, ?_, ?_, rfl⟩
  · rw [h2.svals]; simp [about, C36_run]
  · rw [h2.lockedSvals]; simp [about, C36_run, leading]

/-- The theorem for the first stage. -/
example : ∃ R, Reports (fun u => stage1 C36_env u (C36_run.report .outer) C36_eig (C36_sv .AtA)) R
    { C36_sv .AtA with stats := running (C36_sv .AtA).stats C36_eig.stats } (C36_sv .AtA).stats ∧
    R.basisSvals.length = 2 ∧
    ¬ Describes .AtA id R.basisSvals R.basisNorms (about C36_run .outer).asConverged.basis := by
  obtain ⟨R, h1, _, h2, _⟩ := C36_stage1_partial C36_env C36_env_sqrt (fun _ => rfl) C36_run .outer
    (C36_run_valid _ (by simp)) C36_eig (C36_sv .AtA) (Or.inl rfl) (by simp [about])
  refine ⟨R, h1, ?_, C36_stage1_norms_violated C36_env C36_env_sqrt (fun _ => rfl) rfl _ _ rfl R _ _ h1⟩
  rw [(h2 (by simp)).svals]; simp [about, About.asConverged, C36_run, leading]

/-- A run of a second stage after two triplets have been found. -/
def C36_second : Run ℝ :=
  { hVals := [1], basisNorms := [1], flags := [0], iev := [0], basisSize := 1, blockSize := 1,
    numConverged := 1, evals := ⟨[7, 6, 4], 2⟩, resNorms := ⟨[3, 2, 1], 2⟩, lockedFlags := [2],
    numLocked := 1, evalr := 1, resr := 1, numIts := 3, tau := 1 }

theorem C36_second_valid : Valid C36_second .outer where
  vals := by simp [C36_second]
  norms := by simp [C36_second]
  flags := by simp [C36_second]
  block := by simp [C36_second]
  inBasis := by simp [C36_second]
  evals := by simp [C36_second, Readable]
  resNorms := by simp [C36_second, Readable]
  lockedFlags := by simp [C36_second]
  newest := by simp [C36_second]
  member := by intro b hb; simp at hb
  tau := by simp [C36_second]

/-- The theorem for the second stage: three locked triplets, two of them found before; and the norm of the
pair in the basis is wrong. -/
example : ∃ R, Reports (fun u => stage2 C36_env u (C36_second.report .outer) { C36_eig with numEvals := 1 }
      (C36_sv .AtA)) R
    { C36_sv .AtA with stats := running (C36_sv .AtA).stats C36_eig.stats } (C36_sv .AtA).stats ∧
    R.lockedSvals.length = 3 ∧ R.lockedNorms[1]? = some (some 2) ∧
    ∃ ρ, R.basisNorms[0]? = some (some ρ) ∧ ∀ σ, ¬ IsNormOf .augmented σ 1 ρ := by
  obtain ⟨R, h1, _, h2, h3⟩ := C36_stage2_partial C36_env (fun _ => rfl) C36_second .outer
    C36_second_valid { C36_eig with numEvals := 1 } (C36_sv .AtA)
    (by simp [C36_second, C36_sv]) (by simp [C36_second, C36_sv])
    (by simp [about, found, C36_second, leading])
  refine ⟨R, h1, ?_, h3 1 (6, 2) (by simp [found, C36_second]),
    C36_stage2_norms_violated C36_env C36_env_root2 (fun _ => rfl) rfl C36_second .outer C36_second_valid
      _ _ (by simp [C36_second, C36_sv]) (by simp [C36_second, C36_sv]) R _ _ h1 0 (1, 1)
      (by simp [about, C36_second]) (by norm_num)⟩
  rw [h2.lockedSvals]; simp [about, About.after, found, C36_second, leading]

/-- The single stage with the augmented operator makes a report, with nothing in it. -/
example : ∃ R seen st, Reports (fun u => single C36_env u (C36_run.report .outer) C36_eig
    (C36_sv .augmented)) R seen st ∧ R.basisSvals = [none] := by
  have h := single_aug_eq (env := C36_env) (e := C36_eig) (v := C36_sv .augmented) (fun _ => rfl)
    (eigTells (C36_run_valid (K := ℝ) .outer (by simp))) rfl
  refine ⟨_, _, _, by rw [h]; exact deliver_reports _ _ _ _ _ _, ?_⟩
  simp [cooked, singleReport, about, C36_run]

end Verif.Props
