import Verif.Spec.Ram
import Verif.Spec.Register
/-
Which driver methods read and write which documented control register field.
-/
set_option autoImplicit false
namespace Mlx.Spec
open Mlx
variable {F σ ER EW : Type} [F32Ops F]

/-- The driver's getter for a control register field (there is none for step mode). -/
def driverGet (env : Env σ ER EW) : (f : CtrlField) → f ≠ .stepMode → DM F σ ER EW f.Val
  | .useSubpages, _ => Driver.subpagesEnabled env
  | .stepMode, h => absurd rfl h
  | .dataHold, _ => Driver.dataHoldEnabled env
  | .subpageRepeat, _ => Driver.subpageRepeat env
  | .subpage, _ => Driver.selectedSubpage env
  | .frameRate, _ => Driver.frameRate env
  | .resolution, _ => Driver.resolution env
  | .accessPattern, _ => Driver.getAccessPattern env

/-- The driver's setter for a control register field. -/
def driverSet (env : Env σ ER EW) : (f : CtrlField) → f ≠ .stepMode → f.Val → DM F σ ER EW Unit
  | .useSubpages, _, v => Driver.setUseSubpages env v
  | .stepMode, h, _ => absurd rfl h
  | .dataHold, _, v => Driver.setDataHold env v
  | .subpageRepeat, _, v => Driver.setSubpageRepeat env v
  | .subpage, _, v => Driver.setSubpage env v
  | .frameRate, _, v => Driver.setFrameRate env v
  | .resolution, _, v => Driver.setResolution env v
  | .accessPattern, _, v => Driver.setAccessPattern env v

/-- The settings the driver caches are those of the control word `w`: the access pattern, and the resolution
correction relative to the resolution of the calibration. -/
def Caches (d : Driver F σ) (w : Word) : Prop :=
  d.accessPattern = CtrlField.accessPattern.valueIn w ∧
  d.resCorr = resolutionCorrection d.calib.resolution (CtrlField.resolution.valueIn w)

/-- The conversion of a frame to temperatures with the settings of a driver: raw pixel bytes `px` and readings
`ram` of subpage `sp`, drawn over `dest`. -/
def toTemperatures (m : Mode) (d : Driver F σ) (sp : Subpage) (dest : List F) (px : List Byte) (ram : RamData) :
    Res (Err ER EW) (F × List F) :=
  rawPixelsToTemperatures m d.calib d.emissivity d.reflected d.resCorr px ram sp d.accessPattern
    (d.calib.cam.pixelsInSubpage sp d.accessPattern) dest

/-- The conversion of a frame to an uncompensated infrared image with the settings of a driver. -/
def toRawImage (m : Mode) (d : Driver F σ) (sp : Subpage) (dest : List F) (px : List Byte) (ram : RamData) :
    Res (Err ER EW) (F × List F) :=
  rawPixelsToIrData m d.calib d.emissivity d.resCorr px ram sp d.accessPattern
    (d.calib.cam.pixelsInSubpage sp d.accessPattern) dest

/-- The transactions before the last succeeded, and the last one failed with error `e`. -/
def FailsAtEnd (ts : List (Txn ER EW)) (e : Err ER EW) : Prop :=
  ∃ init last, ts = init ++ [last] ∧ (∀ t ∈ init, t.succeeded = true) ∧ last.error = some e

/-- The subpage named in a status word: bit 0. -/
def statusSubpage (w : Word) : Subpage := if w.getLsbD 0 then .one else .zero

/-- `dest'` and `d'` are the outcome of converting the frame read by the transactions `frame`, of the subpage
named in the status word `w`: the frame was read completely, `dest'` is its conversion to temperatures with the
settings of `d`, drawn over `dest`, the ambient temperature is the one of this frame, and apart from the bus and
the pixel buffer `d'` is `d`. -/
def Converted (env : Env σ ER EW) (d : Driver F (σ × List (Txn ER EW))) (dest : List F) (w : Word)
    (frame : List (Txn ER EW)) (d' : Driver F (σ × List (Txn ER EW))) (dest' : List F) : Prop :=
  ∃ rs px ram tA,
    d.calib.cam.collectRanges env.mode (statusSubpage w) d.accessPattern env.height = .ok rs ∧
    FrameRead d.addr d.calib.cam rs (statusSubpage w) d.pixelBuf frame px ram ∧
    toTemperatures (ER := ER) (EW := EW) env.mode d (statusSubpage w) dest px ram = .ok (tA, dest') ∧
    d'.ambientTemp = some tA ∧
    d' = { d with bus := d'.bus, pixelBuf := px, ambient := some tA }

/-- `w'` is `w` except for the bits in `bits`. -/
def OnlyBits (bits : Nat → Prop) (w w' : Word) : Prop :=
  ∀ i, ¬ bits i → w'.getLsbD i = w.getLsbD i

end Mlx.Spec
