import Verif.Model.SvdsParams
import Verif.Spec.SvdsDoc
import Verif.Proofs.EigsParams

/-!
# Lemmas about the configuration of the singular value solver
-/

namespace Verif.Svds
open Verif.Members Verif.Eigs

set_option linter.unusedSectionVars false
set_option linter.unusedSimpArgs false
variable {K : Type} [Field K] [LinearOrder K]

@[simp] theorem svI_i (s : SV K) (f g : Svds.IF) (v : Int) :
    (s.setI f v).i g = if g = f then v else s.i g := rfl
@[simp] theorem svI_d (s : SV K) (f : Svds.IF) (v : Int) : (s.setI f v).d = s.d := rfl
@[simp] theorem svI_p (s : SV K) (f : Svds.IF) (v : Int) : (s.setI f v).p = s.p := rfl
@[simp] theorem svI_seed (s : SV K) (f : Svds.IF) (v : Int) : (s.setI f v).seed = s.seed := rfl

/-- The end of `primme_svds_set_method`: the eigensolver presets of the stages. -/
def presetStages (m1 m2 : Int) (s : SP K) : SP K :=
  let s := { s with st1 := (setMethod m1 s.st1).2 }
  if s.sv.i .methodStage2 ≠ 0 then
    { s with st2 := (setMethod (if m2 = 0 ∧ s.sv.i .target ≠ 0 then 11 else m2) s.st2).2 }
  else s

/-- `primme_svds_set_defaults` in closed form. -/
def svdsDefaults (e : SEnv K) (s : SP K) : SP K :=
  if s.sv.i .method = 0 then
    svdsDefaultsBody e (presetStages 0 0 (svdsDefaultsBody e { s with sv := chooseOps 0 s.sv }))
  else svdsDefaultsBody e s

/-- `primme_svds_set_method` in closed form. -/
def svdsMethod (e : SEnv K) (m m1 m2 : Int) (s : SP K) : SP K :=
  presetStages m1 m2 (svdsDefaults e { s with sv := chooseOps m s.sv })

theorem chooseOps_preset {m : Int} (v : SV K) (h : 0 ≤ m ∧ m ≤ 3) :
    ((chooseOps m v).i .method, (chooseOps m v).i .methodStage2) =
      Doc.presetOps m (v.i .m) (v.i .n) := by
  unfold chooseOps Doc.presetOps
  rcases (by omega : m = 0 ∨ m = 1 ∨ m = 2 ∨ m = 3) with rfl | rfl | rfl | rfl <;> simp

theorem chooseOps_frame (m : Int) (v : SV K) {f : Svds.IF} (h1 : f ≠ .method)
    (h2 : f ≠ .methodStage2) : (chooseOps m v).i f = v.i f := by
  unfold chooseOps
  simp only
  split_ifs <;> simp [h1, h2]

theorem chooseOps_rest (m : Int) (v : SV K) :
    (chooseOps m v).d = v.d ∧ (chooseOps m v).p = v.p ∧ (chooseOps m v).seed = v.seed := by
  unfold chooseOps
  simp only
  split_ifs <;> simp

theorem chooseOps_ne {m : Int} (v : SV K) (h : 0 ≤ m ∧ m ≤ 3) :
    (chooseOps m v).i .method ≠ 0 := by
  have := congrArg Prod.fst (chooseOps_preset v h)
  simp only at this
  rw [this]
  unfold Doc.presetOps
  split_ifs <;> simp

theorem body_sv (e : SEnv K) (s : SP K) : (svdsDefaultsBody e s).sv = s.sv := by
  unfold svdsDefaultsBody
  simp only
  split_ifs <;> rfl

theorem presetStages_sv (m1 m2 : Int) (s : SP K) : (presetStages m1 m2 s).sv = s.sv := by
  unfold presetStages
  simp only
  split_ifs <;> rfl

theorem presetStages_call (m1 m2 : Int) (s : SP K) (k : Nat) :
    (match callMethod (k + 2) m1 s.st1 with
      | none => none
      | some (_, p) =>
        let s := { s with st1 := p }
        let m2 := if m2 = 0 ∧ s.sv.i .target ≠ 0 then 11 else m2
        if s.sv.i .methodStage2 ≠ 0 then
          match callMethod (k + 2) m2 s.st2 with
          | none => none
          | some (_, p) => some { s with st2 := p }
        else some s) = some (presetStages m1 m2 s) := by
  rw [callMethod_total]
  unfold presetStages
  simp only
  split
  · rw [callMethod_total]
  · rfl

theorem callDefaults_of_ne (e : SEnv K) (k : Nat) (s : SP K) (h : s.sv.i .method ≠ 0) :
    callSvdsDefaults e (k + 1) s = some (svdsDefaultsBody e s) := by
  unfold callSvdsDefaults; rw [if_neg h]

theorem callMethod_of_ne (e : SEnv K) (k : Nat) (m m1 m2 : Int) (s : SP K)
    (h : (chooseOps m s.sv).i .method ≠ 0) :
    callSvdsMethod e (k + 3) m m1 m2 s =
      some (presetStages m1 m2 (svdsDefaultsBody e { s with sv := chooseOps m s.sv })) := by
  unfold callSvdsMethod
  rw [callDefaults_of_ne e (k + 1) _ h]
  exact presetStages_call m1 m2 _ k

theorem callDefaults_total' (e : SEnv K) (k : Nat) (s : SP K) :
    callSvdsDefaults e (k + 4) s = some (svdsDefaults e s) := by
  unfold callSvdsDefaults svdsDefaults
  by_cases h : s.sv.i .method = 0
  · rw [if_pos h, if_pos h, callMethod_of_ne e k 0 0 0 s (chooseOps_ne _ (by omega))]
  · rw [if_neg h, if_neg h]

theorem callMethod_total' (e : SEnv K) (k : Nat) (m m1 m2 : Int) (s : SP K) :
    callSvdsMethod e (k + 5) m m1 m2 s = some (svdsMethod e m m1 m2 s) := by
  unfold callSvdsMethod svdsMethod
  rw [callDefaults_total' e k]
  exact presetStages_call m1 m2 _ (k + 2)

theorem svdsDefaults_sv (e : SEnv K) (s : SP K) : (svdsDefaults e s).sv =
    if s.sv.i .method = 0 then chooseOps 0 s.sv else s.sv := by
  unfold svdsDefaults
  split_ifs with h
  · rw [body_sv, presetStages_sv, body_sv]
  · rw [body_sv]

theorem ite_i (c : Prop) [Decidable c] (a b : EP K) (g : Eigs.IF) :
    (if c then a else b).i g = if c then a.i g else b.i g := by split_ifs <;> rfl
theorem ite_d (c : Prop) [Decidable c] (a b : EP K) (g : Eigs.DF) :
    (if c then a else b).d g = if c then a.d g else b.d g := by split_ifs <;> rfl
theorem ite_p (c : Prop) [Decidable c] (a b : EP K) (g : Eigs.PF) :
    (if c then a else b).p g = if c then a.p g else b.p g := by split_ifs <;> rfl
theorem setP_i (s : EP K) (f : Eigs.PF) (v : Nat) : (setP s f v).i = s.i := rfl
theorem setP_d (s : EP K) (f : Eigs.PF) (v : Nat) : (setP s f v).d = s.d := rfl
theorem setP_p (s : EP K) (f g : Eigs.PF) (v : Nat) :
    (setP s f v).p g = if g = f then v else s.p g := rfl

/-- What `copy_params_from_svds` gives the structure of a stage. -/
theorem copyParams_spec (e : SEnv K) (v : SV K) (op : Int) (b : Bool) (p : EP K) (hop : isOp op) :
    (copyParams e v op b p).i .n = opSize op (v.i .m) (v.i .n) ∧
    (copyParams e v op b p).i .numEvals = v.i .numSvals ∧
    (copyParams e v op b p).d .eps = v.d .eps ∧
    (copyParams e v op b p).i .initSize = v.i .initSize ∧
    (copyParams e v op b p).i .numOrthoConst = v.i .numOrthoConst ∧
    (copyParams e v op b p).i .maxMatvecs = v.i .maxMatvecs ∧
    (copyParams e v op b p).i .printLevel = v.i .printLevel := by
  unfold copyParams
  simp only [ite_i, ite_d, ite_p, setI_i, setI_d, setI_p, setD_i, setD_d, setD_p, setP_i, setP_d,
    setP_p, reduceCtorEq, if_false, if_true, ite_self, hop, and_self]

theorem copyParams_target (e : SEnv K) (v : SV K) (op : Int) (b : Bool) (p : EP K) :
    (copyParams e v op b p).i .target =
      (if v.i .target = 0 then 1 else if v.i .target = 1 then (if op = 3 then 2 else 0)
      else if v.i .target = 2 then 4 else p.i .target) ∧
    (v.i .target = 2 → (copyParams e v op b p).i .numTargetShifts = v.i .numTargetShifts) := by
  unfold copyParams
  refine ⟨?_, fun h => ?_⟩
  · simp only [ite_i, setI_i, setD_i, setP_i, reduceCtorEq, if_false, if_true, ite_self]
  · simp only [ite_i, setI_i, setD_i, setP_i, reduceCtorEq, if_false, if_true, ite_self, h]
    norm_num

theorem copyParams_rows (e : SEnv K) (v : SV K) (op : Int) (b : Bool) (p : EP K) :
    (copyParams e v op b p).i .nLocal =
      if isOp op ∧ p.i .nLocal = -1 ∧ (op = 1 ∨ v.i .mLocal ≠ -1) ∧ (op = 2 ∨ v.i .nLocal ≠ -1) then
        opSize op (v.i .mLocal) (v.i .nLocal) else p.i .nLocal := by
  unfold copyParams
  simp only [ite_i, ite_d, ite_p, setI_i, setI_d, setI_p, setD_i, setD_d, setD_p, setP_i, setP_d,
    setP_p, reduceCtorEq, if_false, if_true, ite_self]

theorem copyParams_knobs (e : SEnv K) (v : SV K) (op : Int) (b : Bool) (p : EP K) :
    (v.i .maxBasisSize > 0 → (copyParams e v op b p).i .maxBasisSize = v.i .maxBasisSize) ∧
    (v.i .maxBlockSize > 0 → (copyParams e v op b p).i .maxBlockSize = v.i .maxBlockSize) ∧
    (v.i .locking ≥ 0 → (copyParams e v op b p).i .locking = v.i .locking) ∧
    (v.i .precondition ≥ 0 →
      (copyParams e v op b p).i .correctionParams_precondition = v.i .precondition) := by
  unfold copyParams
  refine ⟨fun h => ?_, fun h => ?_, fun h => ?_, fun h => ?_⟩ <;>
  simp only [ite_i, ite_d, ite_p, setI_i, setI_d, setI_p, setD_i, setD_d, setD_p, setP_i, setP_d,
    setP_p, reduceCtorEq, if_false, if_true, ite_self, h]

end Verif.Svds
