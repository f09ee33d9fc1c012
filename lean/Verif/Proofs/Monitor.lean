import Verif.Spec.Monitor
import Mathlib.Tactic.Ring
import Mathlib.Tactic.Linarith
import Mathlib.Tactic.SplitIfs

/-! # Lemmas about the reports -/

set_option linter.unusedSectionVars false
set_option linter.unusedSimpArgs false
set_option linter.unusedVariables false

namespace Verif.Mon
open Verif.Spec

theorem collect_spec {α : Type} : ∀ (n : Nat) (f : Nat → Outcome α), (∀ i, i < n → ∃ a, f i = .ok a) →
    ∃ l, collect n f = .ok l ∧ l.length = n ∧ ∀ i, i < n → ∃ a, l[i]? = some a ∧ f i = .ok a := by
  intro n
  induction n with
  | zero => intro f _; exact ⟨[], rfl, rfl, by intro i hi; omega⟩
  | succ n ih =>
    intro f h
    obtain ⟨l, h1, h2, h3⟩ := ih f (fun i hi => h i (by omega))
    obtain ⟨a, ha⟩ := h n (by omega)
    refine ⟨l ++ [a], ?_, by simp [h2], ?_⟩
    · simp [collect, h1, ha]
    · intro i hi
      rcases Nat.lt_or_ge i n with hin | hin
      · obtain ⟨b, hb1, hb2⟩ := h3 i hin
        exact ⟨b, by rw [List.getElem?_append_left (by omega)]; exact hb1, hb2⟩
      · have : i = n := by omega
        subst this
        exact ⟨a, by rw [List.getElem?_append_right (by omega)]; simp [h2], ha⟩

theorem leading_length {α : Type} {p : Ptr α} {n : Nat} (h : Readable p n) :
    (leading p n).length = n := by
  obtain ⟨_, h2⟩ := h
  unfold leading
  simp
  omega

theorem deref_leading {α : Type} {p : Ptr α} {n i : Nat} (h : Readable p n) (hi : i < n) :
    ∃ a, deref (some p) i = .ok a ∧ (leading p n)[i]? = some a := by
  obtain ⟨h1, h2⟩ := h
  have hlt : p.off.toNat + i < p.arr.length := by omega
  refine ⟨p.arr[p.off.toNat + i], ?_, ?_⟩
  · unfold deref Ptr.read
    have e1 : 0 ≤ p.off + (i : Int) := by omega
    have e2 : (p.off + (i : Int)).toNat = p.off.toNat + i := by omega
    dsimp only
    rw [if_pos e1, e2, List.getElem?_eq_getElem hlt]
  · unfold leading
    rw [List.getElem?_take_of_lt hi, List.getElem?_drop, List.getElem?_eq_getElem hlt]

/-- Entry of a zip. -/
theorem zip_get {α β : Type} {l : List α} {m : List β} {i : Nat} {p : α × β}
    (h : (l.zip m)[i]? = some p) : l[i]? = some p.1 ∧ m[i]? = some p.2 := by
  rw [List.getElem?_zip_eq_some] at h
  exact h

section
variable {K : Type} [Field K] [LinearOrder K] [IsStrictOrderedRing K]

theorem svalOf_spec {env : Env K} (hs : IsSqrt env.sqrt) (x : K) :
    0 ≤ svalOf env x ∧ svalOf env x * svalOf env x = |x| := hs _ (abs_nonneg x)

theorem normOver_spec {σ r : K} (h0 : 0 ≤ σ) (h : σ ≠ 0) : normOver σ r * σ = r := by
  have : 0 < σ := lt_of_le_of_ne h0 (Ne.symm h)
  unfold normOver
  rw [if_pos this, div_mul_cancel₀ _ h]

theorem entry {c : K → K} {l : List K} {i : Nat} {x : K} (h : l[i]? = some x) :
    ((l.map some).map (Option.map c))[i]? = some (some (c x)) := by
  rw [List.getElem?_map, List.getElem?_map, h]; rfl

theorem entry_map {α β : Type} {f : α → β} {l : List α} {i : Nat} {x : α} (h : l[i]? = some x) :
    (l.map f)[i]? = some (f x) := by
  rw [List.getElem?_map, h]; rfl

theorem entry_left {α : Type} {l m : List α} {i : Nat} {x : α} (h : l[i]? = some x) :
    (l ++ m)[i]? = some x := by
  rw [List.getElem?_append_left (List.getElem?_eq_some_iff.1 h).1, h]

theorem describes_cast {op : Op} {c : K → K} {s w : List (Option K)} {ps : List (K × K)}
    (h : Describes op id s w ps) :
    Describes op c (s.map (Option.map c)) (w.map (Option.map c)) ps := by
  intro i p hp
  obtain ⟨σ, ρ, h1, h2, h3, h4⟩ := h i p hp
  exact ⟨σ, ρ, by rw [List.getElem?_map, h1]; rfl, by rw [List.getElem?_map, h2]; rfl, h3, h4⟩

theorem values_cast {op : Op} {c : K → K} {s : List (Option K)} {ps : List (K × K)}
    (h : Values op id s ps) : Values op c (s.map (Option.map c)) ps := by
  intro i p hp
  obtain ⟨σ, h1, h3⟩ := h i p hp
  exact ⟨σ, by rw [List.getElem?_map, h1]; rfl, h3⟩

theorem describes_values {op : Op} {c : K → K} {s w : List (Option K)} {ps : List (K × K)}
    (h : Describes op c s w ps) : Values op c s ps := by
  intro i p hp
  obtain ⟨σ, ρ, h1, h2, h3, h4⟩ := h i p hp
  exact ⟨σ, h1, h3⟩

/-- The report as the user sees it. -/
def cooked (env : Env K) (r : SvReport K) (innerIts : Int) (lsRes : K) : SvReport K :=
  { r with
      basisSvals := r.basisSvals.map (Option.map env.cast)
      basisNorms := r.basisNorms.map (Option.map env.cast)
      lockedSvals := r.lockedSvals.map (Option.map env.cast)
      lockedNorms := r.lockedNorms.map (Option.map env.cast)
      innerIts := if 0 ≤ innerIts then some innerIts else none
      lsRes := if 0 ≤ lsRes then some (env.cast lsRes) else none }

theorem add_running (a b : Stats K) : a.add b = running a b := by
  unfold Stats.add running
  simp [mul_comm]

theorem deliver_reports (env : Env K) (r : SvReport K) (innerIts : Int) (lsRes : K) (e : Eig K) (v : Sv K) :
    Reports (fun u => .ok (deliver env u r innerIts lsRes e v)) (cooked env r innerIts lsRes)
      { v with stats := running v.stats e.stats } v.stats := by
  intro user
  rw [← add_running]
  have hd : deliver env (some user) r innerIts lsRes e v =
      if (user (cooked env r innerIts lsRes) { v with stats := v.stats.add e.stats }).2 = 0 then
        ({ (user (cooked env r innerIts lsRes) { v with stats := v.stats.add e.stats }).1 with
          stats := v.stats }, 0)
      else ((user (cooked env r innerIts lsRes) { v with stats := v.stats.add e.stats }).1, 1) := by
    unfold deliver callMonitor
    dsimp only
    rw [show ({ r with
      basisSvals := r.basisSvals.map (Option.map env.cast)
      basisNorms := r.basisNorms.map (Option.map env.cast)
      lockedSvals := r.lockedSvals.map (Option.map env.cast)
      lockedNorms := r.lockedNorms.map (Option.map env.cast)
      innerIts := if 0 ≤ innerIts then some innerIts else none
      lsRes := if 0 ≤ lsRes then some (env.cast lsRes) else none } : SvReport K) =
        cooked env r innerIts lsRes from rfl]
    by_cases h : (user (cooked env r innerIts lsRes) { v with stats := v.stats.add e.stats }).2 = 0
    · simp [h]
    · simp [h]
  by_cases h : (user (cooked env r innerIts lsRes) { v with stats := v.stats.add e.stats }).2 = 0
  · refine ⟨_, by dsimp only; rw [hd, if_pos h, if_pos h], fun _ => rfl⟩
  · refine ⟨_, by dsimp only; rw [hd, if_neg h, if_neg h], fun h' => absurd h' h⟩

theorem gives_leading {α : Type} {q : Ptr α} {n : Nat} (h : Readable q n) :
    Gives (some q) (n : Int) (leading q n) := ⟨by rw [leading_length h], by simpa using h, by simp⟩

theorem readable_zero {α : Type} {l : List α} {n : Nat} (h : n ≤ l.length) :
    Readable (⟨l, 0⟩ : Ptr α) n := ⟨by simp, by simpa using h⟩

theorem gives_take {α : Type} {l : List α} {n : Nat} (h : n ≤ l.length) :
    Gives (some ⟨l, 0⟩) (n : Int) (l.take n) := by
  have := gives_leading (readable_zero h)
  simpa [leading] using this

theorem gives_none {α : Type} {n : Int} (h : n = 0) : Gives (none : Option (Ptr α)) n [] := ⟨h, rfl⟩

theorem eigTells {r : Run K} {site : Site} (hv : Valid r site) :
    EigTells (r.report site) (about r site) := by
  have hb := hv.vals
  have hl1 := leading_length hv.evals
  have hl2 := leading_length hv.resNorms
  have hz : ((r.hVals.take r.basisSize).zip (r.basisNorms.take r.basisSize)).length = r.basisSize := by
    simp; have := hv.norms; omega
  have hy : ((leading r.evals r.numLocked).zip (leading r.resNorms r.numLocked)).length = r.numLocked := by
    simp [hl1, hl2]
  cases site with
  | outer =>
    constructor
    · refine Or.inr ⟨_, _, rfl, rfl, ?_, ?_, ?_, ?_⟩ <;> simp only [about, hz]
      · rfl
      · exact readable_zero hv.vals
      · exact readable_zero hv.norms
      · simp [leading]
    · refine Or.inr ⟨_, _, rfl, rfl, ?_, ?_, ?_, ?_⟩ <;> simp only [about, hy]
      · rfl
      · exact hv.evals
      · exact hv.resNorms
    · simp only [about, hz]; exact gives_take hv.flags
    · simp only [about, hy]; exact gives_take hv.lockedFlags
    · exact gives_take hv.block
    · simp only [about, hz]; exact hv.inBasis
    · rfl
    · intro n hn; exact hn
  | converged b =>
    have hm := hv.member b rfl
    constructor
    · refine Or.inr ⟨_, _, rfl, rfl, ?_, ?_, ?_, ?_⟩ <;> simp only [about, hz]
      · rfl
      · exact readable_zero hv.vals
      · exact readable_zero hv.norms
      · simp [leading]
    · exact Or.inl ⟨rfl, rfl, rfl⟩
    · simp only [about, hz]; exact gives_take hv.flags
    · exact gives_none (by simp [about])
    · have := hv.block
      have hR : Readable (⟨r.iev, (b : Int)⟩ : Ptr Int) 1 := ⟨by simp, by simp; omega⟩
      have := gives_leading hR
      simpa [leading, about, Run.report, passOn] using this
    · simp only [about, hz]
      intro x hx
      apply hv.inBasis
      rw [List.mem_take_iff_getElem] at hx
      obtain ⟨i, hi, rfl⟩ := hx
      rw [List.mem_take_iff_getElem]
      simp at hi
      exact ⟨b + i, by simp; omega, by simp⟩
    · rfl
    · intro n hn; exact hn
  | locked =>
    constructor
    · exact Or.inl ⟨rfl, rfl, rfl⟩
    · refine Or.inr ⟨_, _, rfl, rfl, ?_, ?_, ?_, ?_⟩ <;> simp only [about, hy]
      · rfl
      · exact hv.evals
      · exact hv.resNorms
    · exact gives_none (by simp [about])
    · simp only [about, hy]; exact gives_take hv.lockedFlags
    · exact gives_none (by simp [Run.report, passOn])
    · intro x hx; simp [about] at hx
    · rfl
    · intro n hn; simp [about] at hn
  | inner =>
    constructor
    · exact Or.inr ⟨_, _, rfl, rfl, rfl, readable_zero (by simp [about]), readable_zero (by simp [about]),
        by simp [leading, about]⟩
    · exact Or.inl ⟨rfl, rfl, rfl⟩
    · exact gives_take (l := [0]) (n := 1) (by simp)
    · exact gives_none (by simp [about])
    · exact gives_take (l := [0]) (n := 1) (by simp)
    · intro x hx; simp [about] at hx; subst hx; simp [about]
    · rfl
    · intro n hn; simp [about] at hn
  | innerAdaptive =>
    constructor
    · exact Or.inr ⟨_, _, rfl, rfl, rfl, readable_zero (by simp [about]), readable_zero (by simp [about]),
        by simp [leading, about]⟩
    · exact Or.inl ⟨rfl, rfl, rfl⟩
    · exact gives_take (l := [0]) (n := 1) (by simp)
    · exact gives_none (by simp [about])
    · exact gives_take (l := [0]) (n := 1) (by simp)
    · intro x hx; simp [about] at hx; subst hx; simp [about]
    · rfl
    · intro n hn; simp [about] at hn
  | message t =>
    constructor
    · exact Or.inl ⟨rfl, rfl, rfl⟩
    · exact Or.inl ⟨rfl, rfl, rfl⟩
    · exact gives_none (by simp [about])
    · exact gives_none (by simp [about])
    · exact gives_none (by simp [Run.report, textOnly])
    · intro x hx; simp [about] at hx
    · rfl
    · intro n hn; simp [about] at hn
  | profile t =>
    constructor
    · exact Or.inl ⟨rfl, rfl, rfl⟩
    · exact Or.inl ⟨rfl, rfl, rfl⟩
    · exact gives_none (by simp [about])
    · exact gives_none (by simp [about])
    · exact gives_none (by simp [Run.report, textOnly])
    · intro x hx; simp [about] at hx
    · rfl
    · intro n hn; simp [about] at hn

theorem given_eq {p : Option (Ptr K)} {q : Option (Ptr K)} {n : Option Int} {l : List (K × K)}
    (h : p = none ∧ q = none ∧ l = [] ∨ ∃ x y, p = some x ∧ q = some y ∧ n = some (l.length : Int) ∧
      Readable x l.length ∧ Readable y l.length ∧ (leading x l.length).zip (leading y l.length) = l) :
    given p n = l.length := by
  rcases h with ⟨rfl, _, rfl⟩ | ⟨x, y, rfl, _, rfl, _⟩
  · rfl
  · simp [given]

/-- Reading the value of the i-th pair. -/
theorem deref_pair {p : Option (Ptr K)} {q : Option (Ptr K)} {n : Option Int} {l : List (K × K)}
    (h : p = none ∧ q = none ∧ l = [] ∨ ∃ x y, p = some x ∧ q = some y ∧ n = some (l.length : Int) ∧
      Readable x l.length ∧ Readable y l.length ∧ (leading x l.length).zip (leading y l.length) = l)
    {i : Nat} {a : K × K} (ha : l[i]? = some a) : deref p i = .ok a.1 ∧ deref q i = .ok a.2 := by
  rcases h with ⟨_, _, rfl⟩ | ⟨x, y, rfl, rfl, _, h1, h2, h3⟩
  · simp at ha
  · have hi : i < l.length := (List.getElem?_eq_some_iff.1 ha).1
    rw [← h3] at ha
    obtain ⟨e1, e2⟩ := zip_get ha
    obtain ⟨u, hu, hu'⟩ := deref_leading h1 hi
    obtain ⟨w, hw, hw'⟩ := deref_leading h2 hi
    rw [hu'] at e1; rw [hw'] at e2
    cases e1; cases e2
    exact ⟨hu, hw⟩

/-- A loop over the pairs of a list. -/
theorem collect_list {α β : Type} (l : List α) (f : Nat → Outcome β) (h : α → β)
    (hf : ∀ i a, l[i]? = some a → f i = .ok (h a)) : collect l.length f = .ok (l.map h) := by
  obtain ⟨m, h1, h2, h3⟩ := collect_spec l.length f (by
    intro i hi
    exact ⟨_, hf i _ (List.getElem?_eq_getElem hi)⟩)
  rw [h1]
  congr 1
  apply List.ext_getElem?
  intro i
  rcases Nat.lt_or_ge i l.length with hi | hi
  · obtain ⟨b, hb1, hb2⟩ := h3 i hi
    have := hf i _ (List.getElem?_eq_getElem hi)
    rw [hb2] at this
    cases this
    rw [hb1, List.getElem?_map, List.getElem?_eq_getElem hi]; rfl
  · rw [List.getElem?_eq_none (by omega), List.getElem?_eq_none (by simp; omega)]

/-- Reading the i-th entry of what a pointer gives. -/
theorem gives_deref {α : Type} {p : Option (Ptr α)} {n : Int} {l : List α} (h : Gives p n l) {i : Nat}
    {a : α} (ha : l[i]? = some a) : deref p i = .ok a := by
  obtain ⟨h1, h2⟩ := h
  cases p with
  | none => dsimp only at h2; subst h2; simp at ha
  | some q =>
    obtain ⟨h2, h3⟩ := h2
    have hi : i < l.length := (List.getElem?_eq_some_iff.1 ha).1
    obtain ⟨u, hu, hu'⟩ := deref_leading h2 (i := i) (by omega)
    rw [h3, ha] at hu'
    cases hu'
    exact hu

theorem gives_list {α : Type} (l : List α) {n : Int} (h : n = l.length) : Gives (some ⟨l, 0⟩) n l := by
  subst h
  have := gives_take (l := l) (n := l.length) (by omega)
  simpa using this

/-- One set of pairs of the single stage monitor. -/
theorem single_arrays {env : Env K} {op : Op} (hop : op = .AtA ∨ op = .AAt) (b : Bool)
    {p : Option (Ptr K)} {q : Option (Ptr K)} {n : Option Int} {l : List (K × K)}
    (h : p = none ∧ q = none ∧ l = [] ∨ ∃ x y, p = some x ∧ q = some y ∧ n = some (l.length : Int) ∧
      Readable x l.length ∧ Readable y l.length ∧ (leading x l.length).zip (leading y l.length) = l) :
    singleArrays env op b p q n = .ok (l.map (fun a => some (svalOf env a.1)),
      l.map (fun a => some (normOver (svalOf env a.1) a.2))) := by
  have e1 := collect_list l (fun i => do let x ← deref p i; .ok (some (svalOf env x)))
    (fun a => some (svalOf env a.1)) (by
      intro i a ha
      rw [(deref_pair h ha).1]; rfl)
  have e2 := collect_list l (fun i => do
      let x ← deref p i
      let y ← deref q i
      .ok (some (normOver (svalOf env x) y))) (fun a => some (normOver (svalOf env a.1) a.2)) (by
      intro i a ha
      rw [(deref_pair h ha).1, (deref_pair h ha).2]; rfl)
  rcases hop with rfl | rfl <;>
  · unfold singleArrays
    simp only [given_eq h]
    rw [e1, e2]; rfl

theorem describes_map {env : Env K} (hs : IsSqrt env.sqrt) {op : Op} (hop : op = .AtA ∨ op = .AAt)
    (l : List (K × K)) :
    Describes op id (l.map (fun a => some (svalOf env a.1)))
      (l.map (fun a => some (normOver (svalOf env a.1) a.2))) l := by
  intro i p hp
  obtain ⟨k1, k2⟩ := svalOf_spec hs p.1
  refine ⟨svalOf env p.1, normOver (svalOf env p.1) p.2, by rw [List.getElem?_map, hp]; rfl,
    by rw [List.getElem?_map, hp]; rfl, ⟨k1, ?_⟩, ?_⟩
  · rcases hop with rfl | rfl <;> exact k2
  · intro h0
    rcases hop with rfl | rfl <;> exact normOver_spec k1 h0

/-- The singular values in the first stage. -/
theorem stage1Svals_eq {env : Env K} {a : EigReport K} {A : About K} (ht : EigTells a A) :
    stage1Svals env a = .ok ((A.locked ++ A.basis).map (fun x => svalOf env x.1)) := by
  have e1 := collect_list A.locked (fun i => do let x ← deref a.lockedEvals i; .ok (svalOf env x))
    (fun x => svalOf env x.1) (by intro i x hx; rw [(deref_pair ht.locked hx).1]; rfl)
  have e2 := collect_list A.basis (fun i => do let x ← deref a.basisEvals i; .ok (svalOf env x))
    (fun x => svalOf env x.1) (by intro i x hx; rw [(deref_pair ht.basis hx).1]; rfl)
  unfold stage1Svals
  rw [given_eq ht.locked, given_eq ht.basis, e1, e2]
  simp

/-- The norms in the first stage: those of the basis are divided by the value at the same position of the
joined list. -/
theorem stage1Norms_eq {env : Env K} {a : EigReport K} {A : About K} (ht : EigTells a A) :
    stage1Norms ((A.locked ++ A.basis).map (fun x => svalOf env x.1)) a =
      .ok (A.locked.map (fun x => normOver (svalOf env x.1) x.2) ++
        (A.basis.zip (A.locked ++ A.basis)).map (fun x => normOver (svalOf env x.2.1) x.1.2)) := by
  have hd : ∀ (i : Nat) (x : K × K), (A.locked ++ A.basis)[i]? = some x →
      deref (some ⟨(A.locked ++ A.basis).map (fun x => svalOf env x.1), 0⟩) i = .ok (svalOf env x.1) := by
    intro i x hx
    refine gives_deref (gives_list _ rfl) ?_
    rw [List.getElem?_map, hx]; rfl
  have e1 := collect_list A.locked (fun i => do
      let y ← deref a.lockedNorms i
      let x ← deref (some ⟨(A.locked ++ A.basis).map (fun x => svalOf env x.1), 0⟩) i
      .ok (normOver x y)) (fun x => normOver (svalOf env x.1) x.2) (by
      intro i x hx
      have hi := (List.getElem?_eq_some_iff.1 hx).1
      rw [(deref_pair ht.locked hx).2, hd i x (by rw [List.getElem?_append_left hi]; exact hx)]; rfl)
  have e2 := collect_list (A.basis.zip (A.locked ++ A.basis)) (fun i => do
      let y ← deref a.basisNorms i
      let x ← deref (some ⟨(A.locked ++ A.basis).map (fun x => svalOf env x.1), 0⟩) i
      .ok (normOver x y)) (fun x => normOver (svalOf env x.2.1) x.1.2) (by
      intro i x hx
      obtain ⟨h1, h2⟩ := zip_get hx
      rw [(deref_pair ht.basis h1).2, hd i x.2 h2]; rfl)
  have hlen : (A.basis.zip (A.locked ++ A.basis)).length = A.basis.length := by simp
  rw [hlen] at e2
  unfold stage1Norms
  rw [given_eq ht.locked, given_eq ht.basis, e1, e2]
  rfl

theorem stage1Flags_eq {a : EigReport K} {A : About K} (ht : EigTells a A) :
    stage1Flags a = .ok (A.lockedFlags ++ A.basisFlags) := by
  have e1 := collect_list A.lockedFlags (fun i => deref a.lockedFlags i) id (by
    intro i x hx; exact gives_deref ht.lockedFlags hx)
  have e2 := collect_list A.basisFlags (fun i => flagAt a.basisFlags i) id (by
      intro i x hx
      have := gives_deref ht.basisFlags hx
      cases hf : a.basisFlags with
      | none => rw [hf] at this; simp [deref] at this
      | some p => rw [hf] at this; exact this)
  have h1 : A.locked.length = A.lockedFlags.length := by have := ht.lockedFlags.1; omega
  have h2 : A.basis.length = A.basisFlags.length := by have := ht.basisFlags.1; omega
  unfold stage1Flags
  rw [given_eq ht.locked, given_eq ht.basis, h1, h2, e1, e2]
  simp

/-- The block in the first stage: the entries announced are the shifted ones; after locking a pair the
first entry is its position. -/
theorem stage1Block_eq {a : EigReport K} {A : About K} (ht : EigTells a A)
    (hn : A.event = .locked → A.locked ≠ [] ∧ A.block = []) :
    ∃ l, stage1Block a A.locked.length = .ok l ∧
      (A.event ≠ .locked →
        Gives (some ⟨l, 0⟩) (a.blockSize.getD 0) (A.block.map (· + (A.locked.length : Int)))) ∧
      (A.event = .locked → a.blockSize.getD 0 = 0 ∧
        deref (some ⟨l, 0⟩) 0 = .ok ((A.locked.length : Int) - 1)) := by
  have hlen := ht.block.1
  have hl : shifted a.iblock a.blockSize A.locked.length =
      .ok (A.block.map (· + (A.locked.length : Int))) := by
    have hb := ht.block
    cases hi : a.iblock with
    | none => rw [hi] at hb; rw [hb.2]; rfl
    | some p =>
      cases hs : a.blockSize with
      | none =>
        rw [hs] at hlen
        have : A.block = [] := List.length_eq_zero_iff.1 (by simpa using hlen.symm)
        rw [this]; rfl
      | some n =>
        have := collect_list A.block (fun i => do
          let x ← deref (some p) i; .ok (x + (A.locked.length : Int))) (· + (A.locked.length : Int)) (by
            intro i x hx
            rw [hi] at hb
            rw [gives_deref hb hx]; rfl)
        rw [hs] at hlen
        have e : n.toNat = A.block.length := by simp at hlen; omega
        unfold shifted
        simp only [e]
        exact this
  have hsize : max 1 ((a.blockSize.getD 0).toNat) = max 1 A.block.length := by
    rw [hlen]; simp
  by_cases he : A.event = .locked
  · obtain ⟨h1, h2⟩ := hn he
    refine ⟨[(A.locked.length : Int) - 1], ?_, fun h => absurd he h, fun _ => ⟨?_, rfl⟩⟩
    · have hk : a.numLocked = some (A.locked.length : Int) := by
        rcases ht.locked with ⟨_, _, h⟩ | ⟨x, y, _, _, h, _⟩
        · exact absurd h h1
        · exact h
      unfold stage1Block
      simp only [hl, hsize]
      rw [ht.event, he, hk, h2]
      simp
    · rw [hlen, h2]; rfl
  · refine ⟨A.block.map (· + (A.locked.length : Int)) ++
      List.replicate (max 1 A.block.length - A.block.length) 0, ?_, fun _ => ?_, fun h => absurd h he⟩
    · unfold stage1Block
      simp only [hl, hsize]
      rw [ht.event]
      simp [he]
    · refine ⟨by simp [hlen], ?_, ?_⟩
      · refine ⟨by simp, ?_⟩
        rw [hlen]; simp
      · unfold leading
        rw [hlen]; simp

/-- Pairs in front of a pointer and after it, together. -/
theorem zip_front {α β : Type} {p : Ptr α} {q : Ptr β} {k n : Nat} (hp : p.off = k) (hq : q.off = k)
    (h1 : Readable p n) (h2 : Readable q n) :
    (p.arr.take k).zip (q.arr.take k) ++ (leading p n).zip (leading q n) =
      (leading (p.back k) (k + n)).zip (leading (q.back k) (k + n)) := by
  have e1 : (p.off - (k : Int)).toNat = 0 := by omega
  have e2 : (q.off - (k : Int)).toNat = 0 := by omega
  have f1 : p.off.toNat = k := by omega
  have f2 : q.off.toNat = k := by omega
  obtain ⟨_, g1⟩ := h1
  obtain ⟨_, g2⟩ := h2
  unfold leading Ptr.back
  dsimp only
  rw [e1, e2, f1, f2, List.drop_zero, List.drop_zero, List.take_add, List.take_add,
    List.zip_append (by simp; omega)]

theorem readable_back {α : Type} {p : Ptr α} {k n : Nat} (hp : p.off = k) (h : Readable p n) :
    Readable (p.back k) (k + n) := by
  obtain ⟨_, g⟩ := h
  unfold Readable Ptr.back
  dsimp only
  constructor <;> omega

/-- The arrays of the second stage where the locked pairs are given. -/
theorem stage2Arrays_locked {env : Env K} {a : EigReport K} {A : About K} {e : Eig K} {v : Sv K}
    (ht : EigTells a A) {p q : Ptr K} (hp : a.lockedEvals = some p) (hq : a.lockedNorms = some q)
    {k n : Nat} (hn : a.numLocked = some (n : Int)) (hA : A.locked = (leading p n).zip (leading q n))
    (h1 : Readable p n) (h2 : Readable q n) (hk : v.numSvals - e.numEvals = k) (hpk : p.off = k)
    (hqk : q.off = k) :
    ∃ lw, stage2Arrays env a e v = .ok
      ((A.basis.map (·.1), A.basis.map (fun x => x.2 / env.root2)),
        (((p.arr.take k).zip (q.arr.take k) ++ A.locked).map (·.1), lw),
        ((p.arr.take k).zip (q.arr.take k)).map (fun _ => 2) ++ A.lockedFlags) ∧
      lw = ((p.arr.take k).zip (q.arr.take k)).map (·.2) ++ A.locked.map (fun x => x.2 / env.root2) ∧
      lockedOf a e v = k + n := by
  have hext : extraOf a e v = k := by unfold extraOf; rw [hp, hn]; simpa using hk
  have hlk : lockedOf a e v = k + n := by
    unfold lockedOf; rw [hext, hp, hn]; simp; omega
  have hF : ((p.arr.take k).zip (q.arr.take k)).length = k := by
    obtain ⟨_, g1⟩ := h1; obtain ⟨_, g2⟩ := h2
    simp; omega
  have hAl : A.locked.length = n := by rw [hA]; simp [leading_length h1, leading_length h2]
  have hfl : A.lockedFlags.length = n := by have := ht.lockedFlags.1; omega
  have hL : ((p.arr.take k).zip (q.arr.take k) ++ A.locked).length = k + n := by
    rw [List.length_append, hF, hAl]
  have hz := zip_front hpk hqk h1 h2
  rw [← hA] at hz
  have hd : ∀ (i : Nat) (x : K × K), ((p.arr.take k).zip (q.arr.take k) ++ A.locked)[i]? = some x →
      deref (some (p.back k)) i = .ok x.1 ∧ deref (some (q.back k)) i = .ok x.2 := by
    intro i x hx
    have hi : i < k + n := by rw [← hL]; exact (List.getElem?_eq_some_iff.1 hx).1
    rw [hz] at hx
    obtain ⟨g1, g2⟩ := zip_get hx
    obtain ⟨u, hu, hu'⟩ := deref_leading (readable_back hpk h1) hi
    obtain ⟨w, hw, hw'⟩ := deref_leading (readable_back hqk h2) hi
    rw [hu'] at g1; rw [hw'] at g2
    cases g1; cases g2
    exact ⟨hu, hw⟩
  have e1 := collect_list A.basis (fun i => deref a.basisEvals i) (·.1) (by
    intro i x hx; exact (deref_pair ht.basis hx).1)
  have e2 := collect_list A.basis (fun i => do let y ← deref a.basisNorms i; .ok (y / env.root2))
    (fun x => x.2 / env.root2) (by intro i x hx; rw [(deref_pair ht.basis hx).2]; rfl)
  have e3 := collect_list ((p.arr.take k).zip (q.arr.take k) ++ A.locked)
    (fun i => deref (a.lockedEvals.map (·.back (extraOf a e v))) i) (·.1) (by
      intro i x hx; rw [hp, hext]; exact (hd i x hx).1)
  have e4 : collect (k + n) (fun i => do
      let y ← deref (a.lockedNorms.map (·.back (extraOf a e v))) i
      .ok (if (i : Int) < extraOf a e v then y else y / env.root2)) =
      .ok (((p.arr.take k).zip (q.arr.take k)).map (·.2) ++ A.locked.map (fun x => x.2 / env.root2)) := by
    have := collect_list (((p.arr.take k).zip (q.arr.take k)).map (·.2) ++
        A.locked.map (fun x => x.2 / env.root2)) (fun i => do
      let y ← deref (a.lockedNorms.map (·.back (extraOf a e v))) i
      .ok (if (i : Int) < extraOf a e v then y else y / env.root2)) id (by
      intro i y hy
      rw [hq, hext]
      rcases Nat.lt_or_ge i k with hi | hi
      · rw [List.getElem?_append_left (by simpa [hF] using hi), List.getElem?_map] at hy
        cases hx : ((p.arr.take k).zip (q.arr.take k))[i]? with
        | none => rw [hx] at hy; simp at hy
        | some x =>
          rw [hx] at hy
          have := (hd i x (entry_left hx)).2
          simp only [Option.map_some] at hy ⊢
          rw [this]
          cases hy
          simp [hi]
      · rw [List.getElem?_append_right (by rw [List.length_map, hF]; exact hi), List.getElem?_map,
          List.length_map, hF] at hy
        cases hx : A.locked[i - k]? with
        | none => rw [hx] at hy; simp at hy
        | some x =>
          rw [hx] at hy
          have := (hd i x (by rw [List.getElem?_append_right (by omega), hF]; exact hx)).2
          simp only [Option.map_some] at hy ⊢
          rw [this]
          cases hy
          have : ¬ ((i : Int) < k) := by omega
          simp [this])
    have hlen : (((p.arr.take k).zip (q.arr.take k)).map (·.2) ++
        A.locked.map (fun x => x.2 / env.root2)).length = k + n := by
      rw [List.length_append, List.length_map, List.length_map, hF, hAl]
    rw [hlen] at this
    rw [this]; simp
  have e5 : collect (k + n) (fun i => if (i : Int) < extraOf a e v then .ok 2
      else deref a.lockedFlags (i - extraOf a e v)) =
      .ok (((p.arr.take k).zip (q.arr.take k)).map (fun _ => 2) ++ A.lockedFlags) := by
    have := collect_list (((p.arr.take k).zip (q.arr.take k)).map (fun _ => (2 : Int)) ++ A.lockedFlags)
      (fun i => if (i : Int) < extraOf a e v then .ok 2 else deref a.lockedFlags (i - extraOf a e v)) id (by
      intro i y hy
      rw [hext]
      rcases Nat.lt_or_ge i k with hi | hi
      · rw [List.getElem?_append_left (by rw [List.length_map, hF]; exact hi), List.getElem?_map] at hy
        cases hx : ((p.arr.take k).zip (q.arr.take k))[i]? with
        | none => rw [hx] at hy; simp at hy
        | some x =>
          rw [hx] at hy
          cases hy
          simp [hi]
      · rw [List.getElem?_append_right (by rw [List.length_map, hF]; exact hi),
          List.length_map, hF] at hy
        have hlt : ¬ ((i : Int) < k) := by omega
        rw [if_neg hlt, show ((i : Int) - (k : Int)) = ((i - k : Nat) : Int) by omega]
        exact gives_deref ht.lockedFlags hy)
    have hlen : (((p.arr.take k).zip (q.arr.take k)).map (fun _ => (2 : Int)) ++ A.lockedFlags).length =
        k + n := by
      rw [List.length_append, List.length_map, hF, hfl]
    rw [hlen] at this
    rw [this]; simp
  have hto : (lockedOf a e v).toNat = k + n := by omega
  rw [hL] at e3
  refine ⟨_, ?_, rfl, hlk⟩
  unfold stage2Arrays
  rw [given_eq ht.basis, hto, e1, Outcome.bind_ok, e2, Outcome.bind_ok, e3, Outcome.bind_ok, e4,
    Outcome.bind_ok, e5]
  rfl

/-- The arrays of the second stage where the locked pairs are not given. -/
theorem stage2Arrays_none {env : Env K} {a : EigReport K} {A : About K} {e : Eig K} {v : Sv K}
    (ht : EigTells a A) (hp : a.lockedEvals = none) :
    stage2Arrays env a e v = .ok
      ((A.basis.map (·.1), A.basis.map (fun x => x.2 / env.root2)), ([], []), []) ∧
    lockedOf a e v = 0 := by
  have hext : extraOf a e v = 0 := by unfold extraOf; rw [hp]; simp
  have hlk : lockedOf a e v = 0 := by unfold lockedOf; rw [hext, hp]; simp
  have e1 := collect_list A.basis (fun i => deref a.basisEvals i) (·.1) (by
    intro i x hx; exact (deref_pair ht.basis hx).1)
  have e2 := collect_list A.basis (fun i => do let y ← deref a.basisNorms i; .ok (y / env.root2))
    (fun x => x.2 / env.root2) (by intro i x hx; rw [(deref_pair ht.basis hx).2]; rfl)
  refine ⟨?_, hlk⟩
  unfold stage2Arrays
  rw [given_eq ht.basis, hlk, e1, Outcome.bind_ok, e2, Outcome.bind_ok]
  rfl

/-- There is only one report a routine can make. -/
theorem reports_unique {f : Option (Monitor K) → Outcome (Sv K × Int)} {R R' : SvReport K} {s s' : Sv K}
    {t t' : Stats K} (h : Reports f R s t) (h' : Reports f R' s' t') : R = R' := by
  classical
  obtain ⟨v, h1, _⟩ := h (fun Q x => (x, if Q = R then 1 else 0))
  obtain ⟨v', h2, _⟩ := h' (fun Q x => (x, if Q = R then 1 else 0))
  by_contra hne
  rw [h1] at h2
  have h3 := congrArg (fun o => match o with | Outcome.ok (a : Sv K × Int) => a.2 | _ => 0) h2
  dsimp only at h3
  simp [Ne.symm hne] at h3

/-- The call made by the single stage monitor. -/
theorem single_eq {env : Env K} (ha : ∀ k, env.alloc k = true) {a : EigReport K} {A : About K}
    (ht : EigTells a A) {e : Eig K} {v : Sv K} (hop : v.method = .AtA ∨ v.method = .AAt) :
    (fun u => single env u a e v) = fun u => .ok (deliver env u (singleReport a
      (A.basis.map (fun a => some (svalOf env a.1)),
        A.basis.map (fun a => some (normOver (svalOf env a.1) a.2)))
      (A.locked.map (fun a => some (svalOf env a.1)),
        A.locked.map (fun a => some (normOver (svalOf env a.1) a.2))))
      (a.innerIts.getD 0) (a.lsRes.getD 0) e v) := by
  have hb := single_arrays (env := env) hop true ht.basis
  have hl := single_arrays (env := env) hop false ht.locked
  funext u
  unfold single
  rw [if_neg (by simp [ha]), hb, hl]
  rfl

/-- The call made by the single stage monitor for the augmented operator. -/
theorem single_aug_eq {env : Env K} (ha : ∀ k, env.alloc k = true) {a : EigReport K} {A : About K}
    (ht : EigTells a A) {e : Eig K} {v : Sv K} (hop : v.method = .augmented) :
    (fun u => single env u a e v) = fun u => .ok (deliver env u (singleReport a
      (List.replicate A.basis.length none, A.basis.map (fun a => some (a.2 / env.root2)))
      (List.replicate A.locked.length none, A.locked.map (fun a => some (a.2 / env.root2))))
      (a.innerIts.getD 0) (a.lsRes.getD 0) e v) := by
  have key : ∀ (b : Bool) (p q : Option (Ptr K)) (n : Option Int) (l : List (K × K)),
      (p = none ∧ q = none ∧ l = [] ∨ ∃ x y, p = some x ∧ q = some y ∧ n = some (l.length : Int) ∧
      Readable x l.length ∧ Readable y l.length ∧ (leading x l.length).zip (leading y l.length) = l) →
      singleArrays env .augmented b p q n =
        .ok (List.replicate l.length none, l.map (fun a => some (a.2 / env.root2))) := by
    intro b p q n l h
    have e2 := collect_list l (fun i => do let y ← deref q i; .ok (some (y / env.root2)))
      (fun a => some (a.2 / env.root2)) (by
        intro i a ha
        rw [(deref_pair h ha).2]; rfl)
    unfold singleArrays
    simp only [given_eq h]
    rcases h with ⟨_, rfl, rfl⟩ | ⟨x, y, _, rfl, _⟩
    · cases b <;> rfl
    · simp only [Option.isNone_some, Bool.and_false, if_false_left, Bool.false_eq_true, if_false]
      rw [e2]; rfl
  funext u
  unfold single
  rw [if_neg (by simp [ha]), hop, key _ _ _ _ _ ht.basis, key _ _ _ _ _ ht.locked]
  rfl

/-- The call made by the monitor of the first stage. -/
theorem stage1_eq {env : Env K} (ha : ∀ k, env.alloc k = true) {a : EigReport K} {A : About K}
    (ht : EigTells a A) (hn : A.event = .locked → A.locked ≠ [] ∧ A.block = []) {e : Eig K} {v : Sv K}
    (hop : v.method = .AtA ∨ v.method = .AAt)
    (hshown : ¬ (A.event = .converged ∧ e.locking = true ∧ e.printLevel ≤ 4)) :
    ∃ block,
      (A.event ≠ .locked →
        Gives (some ⟨block, 0⟩) (a.blockSize.getD 0) (A.block.map (· + (A.locked.length : Int)))) ∧
      (A.event = .locked → a.blockSize.getD 0 = 0 ∧
        deref (some ⟨block, 0⟩) 0 = .ok ((A.locked.length : Int) - 1)) ∧
    (fun u => stage1 env u a e v) = fun u => .ok (deliver env u (stage1Report a
        ((A.locked ++ A.basis).map (fun x => svalOf env x.1))
        (A.locked.map (fun x => normOver (svalOf env x.1) x.2) ++
          (A.basis.zip (A.locked ++ A.basis)).map (fun x => normOver (svalOf env x.2.1) x.1.2))
        (A.lockedFlags ++ A.basisFlags) block) (a.innerIts.getD 0) (a.lsRes.getD 0) e v) := by
  obtain ⟨block, b1, b2, b3⟩ := stage1Block_eq ht hn
  refine ⟨block, b2, b3, ?_⟩
  funext u
  unfold stage1
  rw [if_neg (by rw [ht.event]; exact hshown), if_neg (by simp [ha]), if_neg (fun h => h hop),
        stage1Svals_eq ht, Outcome.bind_ok, stage1Norms_eq ht, Outcome.bind_ok, stage1Flags_eq ht,
        Outcome.bind_ok, given_eq ht.locked, b1]
  rfl

/-- The call made by the monitor of the second stage. -/
theorem stage2_eq {env : Env K} (ha : ∀ k, env.alloc k = true) {r : Run K} {site : Site}
    (hv : Valid r site) {e : Eig K} {v : Sv K} (h1 : r.evals.off = v.numSvals - e.numEvals)
    (h2 : r.resNorms.off = v.numSvals - e.numEvals) :
    ∃ lw, lw.length = (found r site ++ (about r site).locked).length ∧
      (∀ (i : Nat) (p : K × K), (found r site)[i]? = some p → lw[i]? = some p.2) ∧
      (∀ (i : Nat) (p : K × K), (about r site).locked[i]? = some p →
        lw[(found r site).length + i]? = some (p.2 / env.root2)) ∧
      lockedOf (r.report site) e v = ((found r site ++ (about r site).locked).length : Nat) ∧
      (fun u => stage2 env u (r.report site) e v) = fun u => .ok (deliver env u
        (stage2Report (r.report site) e v
          (((about r site).basis.map (·.1), (about r site).basis.map (fun x => x.2 / env.root2)),
            ((found r site ++ (about r site).locked).map (·.1), lw),
            (found r site).map (fun _ => 2) ++ (about r site).lockedFlags))
        ((r.report site).innerIts.getD 0) ((r.report site).lsRes.getD 0) e v) := by
  have ht := eigTells hv
  obtain ⟨lw, ha2, hlw1, hlw2, hlw3, hk⟩ : ∃ lw, stage2Arrays env (r.report site) e v = .ok
      (((about r site).basis.map (·.1), (about r site).basis.map (fun x => x.2 / env.root2)),
        ((found r site ++ (about r site).locked).map (·.1), lw),
        (found r site).map (fun _ => 2) ++ (about r site).lockedFlags) ∧
      lw.length = (found r site ++ (about r site).locked).length ∧
      (∀ (i : Nat) (p : K × K), (found r site)[i]? = some p → lw[i]? = some p.2) ∧
      (∀ (i : Nat) (p : K × K), (about r site).locked[i]? = some p →
        lw[(found r site).length + i]? = some (p.2 / env.root2)) ∧
      lockedOf (r.report site) e v = ((found r site ++ (about r site).locked).length : Nat) := by
    have hoff := hv.evals.1
    obtain ⟨k, hk⟩ : ∃ k : Nat, r.evals.off = k := ⟨r.evals.off.toNat, by omega⟩
    have hF : ((r.evals.arr.take k).zip (r.resNorms.arr.take k)).length = k := by
      obtain ⟨_, g1⟩ := hv.evals; obtain ⟨_, g2⟩ := hv.resNorms
      simp; omega
    have hlist : ∀ site, (site = .outer ∨ site = .locked) →
        found r site = (r.evals.arr.take k).zip (r.resNorms.arr.take k) := by
      rintro site (rfl | rfl) <;>
      · have e1 : r.evals.off.toNat = k := by omega
        have e2 : r.resNorms.off.toNat = k := by omega
        simp [found, e1, e2]
    have hcase : ∀ site, EigTells (r.report site) (about r site) →
        (r.report site).lockedEvals = some r.evals → (r.report site).lockedNorms = some r.resNorms →
        (r.report site).numLocked = some (r.numLocked : Int) →
        (about r site).locked = (leading r.evals r.numLocked).zip (leading r.resNorms r.numLocked) →
        found r site = (r.evals.arr.take k).zip (r.resNorms.arr.take k) →
        ∃ lw, stage2Arrays env (r.report site) e v = .ok
          (((about r site).basis.map (·.1), (about r site).basis.map (fun x => x.2 / env.root2)),
            ((found r site ++ (about r site).locked).map (·.1), lw),
            (found r site).map (fun _ => 2) ++ (about r site).lockedFlags) ∧
          lw.length = (found r site ++ (about r site).locked).length ∧
          (∀ (i : Nat) (p : K × K), (found r site)[i]? = some p → lw[i]? = some p.2) ∧
      (∀ (i : Nat) (p : K × K), (about r site).locked[i]? = some p →
        lw[(found r site).length + i]? = some (p.2 / env.root2)) ∧
          lockedOf (r.report site) e v = ((found r site ++ (about r site).locked).length : Nat) := by
      intro site ht a1 a2 a3 a4 a5
      obtain ⟨lw, c1, c2, c3⟩ := stage2Arrays_locked (env := env) ht a1 a2 a3 a4 hv.evals hv.resNorms
        (k := k) (v := v) (e := e) (by omega) (by omega) (by omega)
      rw [a5]
      refine ⟨lw, c1, by rw [c2]; simp, ?_, ?_, ?_⟩
      · intro i p hp
        rw [c2]
        exact entry_left (entry_map hp)
      · intro i p hp
        rw [c2, List.getElem?_append_right (by simp), List.length_map, Nat.add_sub_cancel_left]
        exact entry_map hp
      · rw [c3, List.length_append, hF, a4]
        simp [leading_length hv.evals, leading_length hv.resNorms]
    have hother : ∀ site, EigTells (r.report site) (about r site) →
        (r.report site).lockedEvals = none → (about r site).locked = [] → (about r site).lockedFlags = [] →
        found r site = [] →
        ∃ lw, stage2Arrays env (r.report site) e v = .ok
          (((about r site).basis.map (·.1), (about r site).basis.map (fun x => x.2 / env.root2)),
            ((found r site ++ (about r site).locked).map (·.1), lw),
            (found r site).map (fun _ => 2) ++ (about r site).lockedFlags) ∧
          lw.length = (found r site ++ (about r site).locked).length ∧
          (∀ (i : Nat) (p : K × K), (found r site)[i]? = some p → lw[i]? = some p.2) ∧
      (∀ (i : Nat) (p : K × K), (about r site).locked[i]? = some p →
        lw[(found r site).length + i]? = some (p.2 / env.root2)) ∧
          lockedOf (r.report site) e v = ((found r site ++ (about r site).locked).length : Nat) := by
      intro site ht a1 a2 a3 a4
      obtain ⟨c1, c2⟩ := stage2Arrays_none (env := env) (e := e) (v := v) ht a1
      rw [a2, a3, a4]
      exact ⟨[], c1, rfl, by intro i p hp; simp at hp, by intro i p hp; simp at hp, c2⟩
    cases site with
    | outer => exact hcase _ ht rfl rfl rfl rfl (hlist _ (Or.inl rfl))
    | locked => exact hcase _ ht rfl rfl rfl rfl (hlist _ (Or.inr rfl))
    | converged b => exact hother _ ht rfl rfl rfl rfl
    | inner => exact hother _ ht rfl rfl rfl rfl
    | innerAdaptive => exact hother _ ht rfl rfl rfl rfl
    | message t => exact hother _ ht rfl rfl rfl rfl
    | profile t => exact hother _ ht rfl rfl rfl rfl
  refine ⟨lw, hlw1, hlw2, hlw3, hk, ?_⟩
  funext u
  unfold stage2
  rw [if_neg (by simp [ha]), ha2]
  rfl

end

end Verif.Mon
