import Mathlib.Logic.Basic
import Verif.Proofs.Driver
import Verif.Spec.Driver
/-
Each register getter and setter of the driver as an explicit function of the bus.
-/
set_option linter.unusedSectionVars false
set_option autoImplicit false
namespace Mlx.Proofs
open Mlx Mlx.Spec F32Ops
variable {F σ ER EW : Type} [F32Ops F]

theorem driverGet_eq (env : Env σ ER EW) (d : Driver F σ) (f : CtrlField) (hf : f ≠ .stepMode) :
    driverGet env f hf d = match (regRead env.bus d.bus d.addr 0x800D#16).2 with
      | .ok w => (sawControl { d with bus := (regRead env.bus d.bus d.addr 0x800D#16).1 } w, .ok (f.valueIn w))
      | .error e => ({ d with bus := (regRead env.bus d.bus d.addr 0x800D#16).1 }, .err (.i2cWriteRead e)) := by
  have hv := fun w => get_valueIn f w
  cases f with
  | stepMode => exact absurd rfl hf
  | useSubpages =>
    exact ctrlGetter_eq env d (fun r => .ok r.useSubpages) _
      (fun w => by rw [Res.ok.inj (hv w)]) _ rfl
  | dataHold =>
    exact ctrlGetter_eq env d (fun r => .ok r.dataHold) _ (fun w => by rw [Res.ok.inj (hv w)]) _ rfl
  | subpageRepeat =>
    exact ctrlGetter_eq env d (fun r => .ok r.subpageRepeat) _ (fun w => by rw [Res.ok.inj (hv w)]) _ rfl
  | subpage => exact ctrlGetter_eq env d ControlReg.subpage _ subpage_val _ rfl
  | frameRate => exact ctrlGetter_eq env d ControlReg.frameRate _ frameRate_val _ rfl
  | resolution => exact ctrlGetter_eq env d ControlReg.resolution _ resolution_val _ rfl
  | accessPattern => exact ctrlGetter_eq env d ControlReg.accessPattern _ accessPattern_val _ rfl

theorem driverSet_eq (env : Env σ ER EW) (d : Driver F σ) (f : CtrlField) (hf : f ≠ .stepMode) (v : f.Val) :
    driverSet env f hf v d =
      match (regRead env.bus d.bus d.addr 0x800D#16).2 with
      | .error e => ({ d with bus := (regRead env.bus d.bus d.addr 0x800D#16).1 }, .err (.i2cWriteRead e))
      | .ok w =>
        let s' := (regRead env.bus d.bus d.addr 0x800D#16).1
        if f.code (f.valueIn w) = f.code v then (sawControl { d with bus := s' } w, .ok ())
        else
          let w' := (f.set ⟨w⟩ v).raw
          ({ sawControl d w' with bus := (regWrite env.bus s' d.addr 0x800D#16 w').1 },
            match (regWrite env.bus s' d.addr 0x800D#16 w').2 with
            | none => .ok ()
            | some e => .err (.i2cWrite e)) := by
  have hv := fun w => get_valueIn f w
  have hcode : ∀ w, f.code (f.valueIn w) = f.code v ↔ f.valueIn w = v :=
    fun w => ⟨code_inj f _ _, fun h => by rw [h]⟩
  cases f with
  | stepMode => exact absurd rfl hf
  | useSubpages =>
    refine (ctrlSetter_eq env d (fun r => .ok r.useSubpages) ControlReg.setUseSubpages _
      (fun w => by rw [Res.ok.inj (hv w)]) v).trans ?_
    cases (regRead env.bus d.bus d.addr 0x800D#16).2 with
    | error e => rfl
    | ok w => exact if_congr (hcode w).symm rfl rfl
  | dataHold =>
    refine (ctrlSetter_eq env d (fun r => .ok r.dataHold) ControlReg.setDataHold _
      (fun w => by rw [Res.ok.inj (hv w)]) v).trans ?_
    cases (regRead env.bus d.bus d.addr 0x800D#16).2 with
    | error e => rfl
    | ok w => exact if_congr (hcode w).symm rfl rfl
  | subpageRepeat =>
    refine (ctrlSetter_eq env d (fun r => .ok r.subpageRepeat) ControlReg.setSubpageRepeat _
      (fun w => by rw [Res.ok.inj (hv w)]) v).trans ?_
    cases (regRead env.bus d.bus d.addr 0x800D#16).2 with
    | error e => rfl
    | ok w => exact if_congr (hcode w).symm rfl rfl
  | subpage =>
    refine (ctrlSetter_eq env d ControlReg.subpage ControlReg.setSubpage _ subpage_val v).trans ?_
    cases (regRead env.bus d.bus d.addr 0x800D#16).2 with
    | error e => rfl
    | ok w => exact if_congr (hcode w).symm rfl rfl
  | frameRate =>
    refine (ctrlSetter_eq env d ControlReg.frameRate ControlReg.setFrameRate _ frameRate_val v).trans ?_
    cases (regRead env.bus d.bus d.addr 0x800D#16).2 with
    | error e => rfl
    | ok w => exact if_congr (hcode w).symm rfl rfl
  | resolution =>
    refine (ctrlSetter_eq env d ControlReg.resolution ControlReg.setResolution _ resolution_val v).trans ?_
    cases (regRead env.bus d.bus d.addr 0x800D#16).2 with
    | error e => rfl
    | ok w => exact if_congr (hcode w).symm rfl rfl
  | accessPattern =>
    refine (ctrlSetter_eq env d ControlReg.accessPattern ControlReg.setAccessPattern _ accessPattern_val v).trans ?_
    cases (regRead env.bus d.bus d.addr 0x800D#16).2 with
    | error e => rfl
    | ok w => exact if_congr (hcode w).symm rfl rfl

theorem setOverwrite_eq (env : Env σ ER EW) (d : Driver F σ) (v : Bool) :
    Driver.setOverwriteEnabled env v d =
      match (regRead env.bus d.bus d.addr 0x8000#16).2 with
      | .error e => ({ d with bus := (regRead env.bus d.bus d.addr 0x8000#16).1 }, .err (.i2cWriteRead e))
      | .ok w =>
        let s' := (regRead env.bus d.bus d.addr 0x8000#16).1
        if w.getLsbD 4 = v then ({ d with bus := s' }, .ok ())
        else
          let w' := (StatusReg.setOverwriteEnabled ⟨w⟩ v).raw
          ({ d with bus := (regWrite env.bus s' d.addr 0x8000#16 w').1 },
            match (regWrite env.bus s' d.addr 0x8000#16 w').2 with
            | none => .ok ()
            | some e => .err (.i2cWrite e)) := by
  unfold Driver.setOverwriteEnabled Driver.setStatusField
  rw [dm_bind, statusRegister_eq]
  cases (regRead env.bus d.bus d.addr 0x8000#16).2 with
  | error e => rfl
  | ok w =>
    have h4 : (⟨w⟩ : StatusReg).overwriteEnabled = w.getLsbD 4 :=
      mask_test (mask := StatusReg.overwriteMask) (by decide) (by decide) w
    simp only
    rw [dm_bind]
    simp only [DM.lift, h4]
    by_cases h : w.getLsbD 4 = v
    · rw [if_pos h]
      simp only [h, ne_eq, not_true_eq_false, if_false]
      rfl
    · rw [if_neg h]
      simp only [ne_eq, h, not_false_eq_true, if_true]
      rw [setStatusRegister_eq]
      rfl

end Mlx.Proofs
