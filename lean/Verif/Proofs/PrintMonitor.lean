import Verif.Proofs.Monitor
import Verif.Spec.PrintMonitor

/-!
# Lemmas about the default monitors
-/

set_option linter.unusedSectionVars false

namespace Verif.Print

open Verif.Mon Verif.Spec

section
variable {K : Type} [Field K] [LinearOrder K] [IsStrictOrderedRing K]

/-- The number of pairs announced as found. -/
def foundOf (p : Par K) (r : Run K) : Int := if p.locking then r.numLocked else r.numConverged

/-- The line of the member `i` of the block for the pair `q`. -/
def outOf (ev : K → Line K) (p : Par K) (found : Int) (i : Nat) (q : K × K) : Line K :=
  [.word "OUT", .int p.numOuterIterations, .word "conv", .int found, .word "blk", .int i, .word "MV",
    .int p.numMatvecs, .word "Sec", .num p.elapsedTime, .word "EV"] ++ ev q.1 ++ [.word "|r|", .num q.2]

/-- A member of the block is a pair of the basis. -/
theorem block_pair {r : Run K} {site : Site} (hv : Valid r site) {x : Int} (hx : x ∈ (about r site).block) :
    ∃ q, (about r site).basis[x.toNat]? = some q := by
  have h := (eigTells hv).inBasis x hx
  exact ⟨_, List.getElem?_eq_getElem (by omega)⟩

/-- Reading the pair of a member of the block. -/
theorem read_pair {r : Run K} {site : Site} (hv : Valid r site) {x : Int} (hx : x ∈ (about r site).block)
    {q : K × K} (hq : (about r site).basis[x.toNat]? = some q) :
    deref (r.report site).basisEvals x = .ok q.1 ∧ deref (r.report site).basisNorms x = .ok q.2 := by
  have ht := eigTells hv
  have h := ht.inBasis x hx
  have := deref_pair ht.basis hq
  rwa [Int.toNat_of_nonneg h.1] at this

theorem outer_lines (ev : K → Line K) {p : Par K} {r : Run K} (hv : Valid r .outer)
    (hf : p.outputFile = true) (h0 : p.procID = 0) (h3 : 3 ≤ p.printLevel) :
    ∃ ls, eigs ev p (r.report .outer) = .ok ls ∧ ls.length = r.blockSize ∧
      ∀ (i : Nat) (x : Int), (about r .outer).block[i]? = some x → ∃ q,
        (about r .outer).basis[x.toNat]? = some q ∧ ls[i]? = some (outOf ev p (foundOf p r) i q) := by
  have ht := eigTells hv
  have hlen : (about r .outer).block.length = r.blockSize := by
    have := hv.block
    simp [about]; omega
  have hstep : ∀ i, i < r.blockSize → ∃ x q, (about r .outer).block[i]? = some x ∧
      (about r .outer).basis[x.toNat]? = some q ∧
      outLine ev p (r.report .outer) (foundOf p r) i = .ok (outOf ev p (foundOf p r) i q) := by
    intro i hi
    have hx : (about r .outer).block[i]? = some ((about r .outer).block[i]'(by omega)) :=
      List.getElem?_eq_getElem _
    have hm := List.mem_of_getElem? hx
    obtain ⟨q, hq⟩ := block_pair hv hm
    obtain ⟨e1, e2⟩ := read_pair hv hm hq
    refine ⟨_, q, hx, hq, ?_⟩
    unfold outLine
    rw [gives_deref ht.block hx, Outcome.bind_ok, e1, Outcome.bind_ok, e2, Outcome.bind_ok]
    rfl
  obtain ⟨ls, h1, h2, h4⟩ := collect_spec r.blockSize (outLine ev p (r.report .outer) (foundOf p r)) (by
    intro i hi
    obtain ⟨x, q, _, _, h⟩ := hstep i hi
    exact ⟨_, h⟩)
  refine ⟨ls, ?_, h2, ?_⟩
  · have e : eigs ev p (r.report .outer) = onOuter ev p (r.report .outer) := if_pos ⟨hf, Or.inl h0⟩
    rw [e]
    unfold onOuter
    rw [if_pos h3]
    have e' : get (if p.locking = true then (r.report .outer).numLocked else (r.report .outer).numConverged)
        = .ok (foundOf p r) := by
      unfold foundOf
      split <;> rfl
    rw [e', Outcome.bind_ok]
    exact h1
  · intro i x hx
    have hi : i < r.blockSize := by
      have := (List.getElem?_eq_some_iff.1 hx).1
      omega
    obtain ⟨x', q, hx', hq, ho⟩ := hstep i hi
    rw [hx] at hx'
    cases hx'
    obtain ⟨a, ha, ha'⟩ := h4 i hi
    rw [ho] at ha'
    cases ha'
    exact ⟨q, hq, ha⟩

/-- Reading a cell of a list that describes pairs. -/
theorem cell_some {l : List (Option K)} {i : Int} (h0 : 0 ≤ i) {x : K} (h : l[i.toNat]? = some (some x)) :
    cell l i = .ok x := by
  unfold cell deref Ptr.read
  have e : (0 : Int) + i = i := by omega
  dsimp only
  rw [e, if_pos h0, h]
  rfl

/-- Reading a cell never written. -/
theorem cell_none {l : List (Option K)} {i : Int} (h : ∀ x ∈ l, x = none) : cell l i = .ub := by
  unfold cell deref Ptr.read
  dsimp only
  split
  · rename_i h1
    split at h1
    · rfl
    · rfl
  · rename_i a h1
    split at h1
    · have := h a (List.mem_of_getElem? h1)
      rw [this]; rfl
    · cases h1

theorem svds_outer_lines {op : Op} {cast : K → K} {R : SvReport K} {a : About K} {p : Par K}
    (ht : Tells op cast R a) (hd : Describes op cast R.basisSvals R.basisNorms a.basis)
    (he : a.event = .outer) (hf : p.outputFile = true) (h0 : p.procID = 0) (h3 : 3 ≤ p.printLevel) :
    ∃ ls, svds p R = .ok ls ∧ ls.length = a.block.length ∧
      ∀ (i : Nat) (x : Int), a.block[i]? = some x → ∃ q σ ρ, a.basis[x.toNat]? = some q ∧
        IsSvalOf op σ q.1 ∧ (σ ≠ 0 → IsNormOf op σ q.2 ρ) ∧
        ls[i]? = some (svdsOutText ⟨R.numConverged, x, cast σ, cast ρ, p.numMatvecs, p.numOuterIterations,
          p.elapsedTime, i, 0, R.stage + 1⟩) := by
  have hb := ht.block
  have hstep : ∀ i, i < a.block.length → ∃ x q σ ρ, a.block[i]? = some x ∧ a.basis[x.toNat]? = some q ∧
      IsSvalOf op σ q.1 ∧ (σ ≠ 0 → IsNormOf op σ q.2 ρ) ∧
      svdsOutLine p R i = .ok (svdsOutText ⟨R.numConverged, x, cast σ, cast ρ, p.numMatvecs,
        p.numOuterIterations, p.elapsedTime, i, 0, R.stage + 1⟩) := by
    intro i hi
    have hx : a.block[i]? = some (a.block[i]'(by omega)) := List.getElem?_eq_getElem _
    have hm := ht.inBasis _ (List.mem_of_getElem? hx)
    have hq : a.basis[(a.block[i]'(by omega)).toNat]? = some _ :=
      List.getElem?_eq_getElem (by have := ht.basisSize; omega)
    obtain ⟨σ, ρ, d1, d2, d3, d4⟩ := hd _ _ hq
    refine ⟨_, _, σ, ρ, hx, hq, d3, d4, ?_⟩
    unfold svdsOutLine
    rw [gives_deref hb hx, Outcome.bind_ok, cell_some hm.1 d1, Outcome.bind_ok, cell_some hm.1 d2,
      Outcome.bind_ok]
    rfl
  obtain ⟨ls, h1, h2, h4⟩ := collect_spec a.block.length (svdsOutLine p R) (by
    intro i hi
    obtain ⟨x, q, σ, ρ, _, _, _, _, h⟩ := hstep i hi
    exact ⟨_, h⟩)
  refine ⟨ls, ?_, h2, ?_⟩
  · unfold svds
    rw [if_pos ⟨hf, Or.inl h0⟩, ht.event, he]
    dsimp only
    unfold svdsOuter
    rw [if_pos h3]
    have : R.blockSize.toNat = a.block.length := by have := hb.1; omega
    rw [this]
    exact h1
  · intro i x hx
    have hi := (List.getElem?_eq_some_iff.1 hx).1
    obtain ⟨x', q, σ, ρ, hx', hq, d3, d4, ho⟩ := hstep i hi
    rw [hx] at hx'
    cases hx'
    obtain ⟨b, hb1, hb2⟩ := h4 i hi
    rw [ho] at hb2
    cases hb2
    exact ⟨q, σ, ρ, hq, d3, d4, hb1⟩

theorem svds_converged_line {op : Op} {cast : K → K} {R : SvReport K} {a : About K} {p : Par K}
    (ht : Tells op cast R a) (hd : Describes op cast R.basisSvals R.basisNorms a.basis)
    (he : a.event = .converged) (hf : p.outputFile = true) (h0 : p.procID = 0)
    (h2 : (R.stage = 0 ∧ 2 ≤ p.printLevel) ∨ 5 ≤ p.printLevel) {x : Int} (hx : a.block[0]? = some x) :
    ∃ q σ ρ, a.basis[x.toNat]? = some q ∧ IsSvalOf op σ q.1 ∧ (σ ≠ 0 → IsNormOf op σ q.2 ρ) ∧
      svds p R = .ok [svdsConvergedText ⟨R.numConverged, x, cast σ, cast ρ, p.numMatvecs,
        p.numOuterIterations, p.elapsedTime, 0, 0, R.stage + 1⟩] := by
  have hm := ht.inBasis _ (List.mem_of_getElem? hx)
  have hq : a.basis[x.toNat]? = some _ := List.getElem?_eq_getElem (by have := ht.basisSize; omega)
  obtain ⟨σ, ρ, d1, d2, d3, d4⟩ := hd _ _ hq
  refine ⟨_, σ, ρ, hq, d3, d4, ?_⟩
  unfold svds
  rw [if_pos ⟨hf, Or.inl h0⟩, ht.event, he]
  dsimp only
  unfold svdsConverged
  have hx' := gives_deref ht.block hx
  rw [if_pos h2, show deref R.iblock 0 = .ok x from hx', Outcome.bind_ok, cell_some hm.1 d1, Outcome.bind_ok,
    cell_some hm.1 d2, Outcome.bind_ok]
  rfl

end

end Verif.Print
