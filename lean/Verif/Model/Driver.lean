import Verif.Model.Bus
/-
Model of `driver.rs`: `CameraDriver` and all its public methods.
-/
set_option autoImplicit false
namespace Mlx
open F32Ops

/-- `CameraDriver` (`driver.rs:53-87`). The field `bus` is the state of the bus; its behaviour and the const
generic `HEIGHT` are in `Env`. -/
structure Driver (F σ : Type) where
  bus : σ
  addr : Byte
  calib : Calib F
  pixelBuf : List Byte
  resCorr : F
  ambient : Option F
  emissivity : F
  accessPattern : AccessPattern
  reflected : Option F

/-- What a driver is compiled and connected with: overflow mode, `HEIGHT`, the bus implementation. -/
structure Env (σ ER EW : Type) where
  mode : Mode
  height : Nat
  bus : Bus σ ER EW

/-- A `&mut self` method returning `Result<α, Error<I2C>>`: the driver afterwards (also when it fails) and
the outcome. -/
def DM (F σ ER EW α : Type) : Type := Driver F σ → Driver F σ × Res (Err ER EW) α

namespace DM
variable {F σ ER EW α β : Type}

/-- Sequencing with `?`. -/
def bind (x : DM F σ ER EW α) (f : α → DM F σ ER EW β) : DM F σ ER EW β := fun d =>
  match x d with
  | (d', .ok a) => f a d'
  | (d', .err e) => (d', .err e)
  | (d', .panic) => (d', .panic)

instance : Monad (DM F σ ER EW) where
  pure a := fun d => (d, .ok a)
  bind := DM.bind

/-- Lift an outcome that does not touch the driver. -/
def lift (r : Res (Err ER EW) α) : DM F σ ER EW α := fun d => (d, r)

/-- Assign fields of `self`. -/
def modify (f : Driver F σ → Driver F σ) : DM F σ ER EW Unit := fun d => (f d, .ok ())

end DM

variable {F σ ER EW : Type} [F32Ops F]

namespace Driver

/-- `new_with_calibration` (`driver.rs:109-137`): the bus state afterwards, and the driver (which owns that
bus) or the error. `bufSize` is the const generic `BUFFER_SIZE`. -/
def newWithCalibration (b : Bus σ ER EW) (bufSize : Nat) (s : σ) (addr : Byte) (c : Calib F) :
    σ × Res (Err ER EW) (Driver F σ) :=
  match readControl b s addr with
  | (s', .err e) => (s', .err e)
  | (s', .panic) => (s', .panic)
  | (s', .ok control) =>
    (s', do
      let res ← control.resolution
      let ap ← control.accessPattern
      .ok { bus := s', addr := addr, calib := c, pixelBuf := List.replicate bufSize 0#8,
            resCorr := resolutionCorrection c.resolution res, ambient := none,
            emissivity := c.emissivity.getD (lit 1), accessPattern := ap, reflected := none })

/-- `new` (`driver.rs:96-103`) for a calibration type `C` with decoder `fromData` and trait implementation
`toCalib`. -/
def new {C : Type} (fromData : List Byte → Res LibErr C) (toCalib : C → Calib F)
    (b : Bus σ ER EW) (bufSize : Nat) (s : σ) (addr : Byte) : σ × Res (Err ER EW) (Driver F σ) :=
  match calibFromI2c fromData b s addr with
  | (s', .err e) => (s', .err e)
  | (s', .panic) => (s', .panic)
  | (s', .ok c) => newWithCalibration b bufSize s' addr (toCalib c)

/-- `Mlx90640Driver::new` (`lib.rs:95-100`, `driver.rs:96-103`). -/
def new640 (m : Mode) (b : Bus σ ER EW) (s : σ) (addr : Byte) : σ × Res (Err ER EW) (Driver F σ) :=
  new (Mlx90640.fromData (F := F) m) Mlx90640.Calibration.toCalib b (Mlx90640.numPixels * 2) s addr

/-- `Mlx90641Driver::new` (`lib.rs:103-108`, `driver.rs:96-103`). -/
def new641 (m : Mode) (b : Bus σ ER EW) (s : σ) (addr : Byte) : σ × Res (Err ER EW) (Driver F σ) :=
  new (Mlx90641.fromData (F := F) m) Mlx90641.Calibration.toCalib b (Mlx90641.numPixels * 2) s addr

variable (env : Env σ ER EW)

/-- `status_register` (`driver.rs:139-142`). -/
def statusRegister : DM F σ ER EW StatusReg := fun d =>
  let (s', r) := readStatus env.bus d.bus d.addr
  ({ d with bus := s' }, r)

/-- `set_status_register` (`driver.rs:144-146`). -/
def setStatusRegister (r : StatusReg) : DM F σ ER EW Unit := fun d =>
  let (s', o) := writeStatus env.bus d.bus d.addr r
  ({ d with bus := s' }, o)

/-- `update_control_register` (`driver.rs:148-154`). -/
def updateControlRegister (r : ControlReg) : DM F σ ER EW Unit := do
  let res ← DM.lift r.resolution
  DM.modify fun d => { d with resCorr := resolutionCorrection d.calib.resolution res }
  let ap ← DM.lift r.accessPattern
  DM.modify fun d => { d with accessPattern := ap }

/-- The transaction of `control_register` (`driver.rs:157`). -/
def rawControlRegister : DM F σ ER EW ControlReg := fun d =>
  let (s', r) := readControl env.bus d.bus d.addr
  ({ d with bus := s' }, r)

/-- `control_register` (`driver.rs:156-161`). -/
def controlRegister : DM F σ ER EW ControlReg := do
  let r ← rawControlRegister env
  updateControlRegister r
  pure r

/-- The transaction of `set_control_register` (`driver.rs:165`). -/
def rawSetControlRegister (r : ControlReg) : DM F σ ER EW Unit := fun d =>
  let (s', o) := writeControl env.bus d.bus d.addr r
  ({ d with bus := s' }, o)

/-- `set_control_register` (`driver.rs:163-167`): the cache is updated before the write. -/
def setControlRegister (r : ControlReg) : DM F σ ER EW Unit := do
  updateControlRegister r
  rawSetControlRegister env r

/-- `set_register_field!` for the status register (`driver.rs:16-38`). -/
def setStatusField {α : Type} [DecidableEq α] (get : StatusReg → Res (Err ER EW) α)
    (set : StatusReg → α → StatusReg) (v : α) : DM F σ ER EW Unit := do
  let current ← statusRegister env
  let old ← DM.lift (get current)
  if old ≠ v then setStatusRegister env (set current v) else pure ()

/-- `set_register_field!` for the control register (`driver.rs:16-38`). -/
def setControlField {α : Type} [DecidableEq α] (get : ControlReg → Res (Err ER EW) α)
    (set : ControlReg → α → ControlReg) (v : α) : DM F σ ER EW Unit := do
  let current ← controlRegister env
  let old ← DM.lift (get current)
  if old ≠ v then setControlRegister env (set current v) else pure ()

/-- `last_measured_subpage` (`driver.rs:170-172`). -/
def lastMeasuredSubpage : DM F σ ER EW Subpage := do
  let r ← statusRegister env
  DM.lift r.lastUpdatedSubpage

/-- `data_available` (`driver.rs:175-182`). -/
def dataAvailable : DM F σ ER EW (Option Subpage) := do
  let r ← statusRegister env
  if r.newData then do
    let s ← DM.lift r.lastUpdatedSubpage
    pure (some s)
  else pure none

/-- `reset_data_available` (`driver.rs:188-192`). -/
def resetDataAvailable : DM F σ ER EW Unit := do
  let r ← statusRegister env
  setStatusRegister env r.resetNewData

/-- `overwrite_enabled` (`driver.rs:197-199`). -/
def overwriteEnabled : DM F σ ER EW Bool := do
  let r ← statusRegister env
  pure r.overwriteEnabled

/-- `set_overwrite_enabled` (`driver.rs:201-205`). -/
def setOverwriteEnabled (v : Bool) : DM F σ ER EW Unit :=
  setStatusField env (fun r => .ok r.overwriteEnabled) StatusReg.setOverwriteEnabled v

/-- `subpages_enabled` (`driver.rs:210-212`). -/
def subpagesEnabled : DM F σ ER EW Bool := do
  let r ← controlRegister env
  pure r.useSubpages

/-- `set_use_subpages` (`driver.rs:214-218`). -/
def setUseSubpages (v : Bool) : DM F σ ER EW Unit :=
  setControlField env (fun r => .ok r.useSubpages) ControlReg.setUseSubpages v

/-- `data_hold_enabled` (`driver.rs:224-226`). -/
def dataHoldEnabled : DM F σ ER EW Bool := do
  let r ← controlRegister env
  pure r.dataHold

/-- `set_data_hold` (`driver.rs:228-232`). -/
def setDataHold (v : Bool) : DM F σ ER EW Unit :=
  setControlField env (fun r => .ok r.dataHold) ControlReg.setDataHold v

/-- `subpage_repeat` (`driver.rs:240-242`). -/
def subpageRepeat : DM F σ ER EW Bool := do
  let r ← controlRegister env
  pure r.subpageRepeat

/-- `set_subpage_repeat` (`driver.rs:244-248`). -/
def setSubpageRepeat (v : Bool) : DM F σ ER EW Unit :=
  setControlField env (fun r => .ok r.subpageRepeat) ControlReg.setSubpageRepeat v

/-- `selected_subpage` (`driver.rs:256-258`). -/
def selectedSubpage : DM F σ ER EW Subpage := do
  let r ← controlRegister env
  DM.lift r.subpage

/-- `set_subpage` (`driver.rs:260-265`). -/
def setSubpage (v : Subpage) : DM F σ ER EW Unit :=
  setControlField env ControlReg.subpage ControlReg.setSubpage v

/-- `frame_rate` (`driver.rs:270-272`). -/
def frameRate : DM F σ ER EW FrameRate := do
  let r ← controlRegister env
  DM.lift r.frameRate

/-- `set_frame_rate` (`driver.rs:274-279`). -/
def setFrameRate (v : FrameRate) : DM F σ ER EW Unit :=
  setControlField env ControlReg.frameRate ControlReg.setFrameRate v

/-- `resolution` (`driver.rs:285-287`). -/
def resolution : DM F σ ER EW Resolution := do
  let r ← controlRegister env
  DM.lift r.resolution

/-- `set_resolution` (`driver.rs:289-294`). -/
def setResolution (v : Resolution) : DM F σ ER EW Unit :=
  setControlField env ControlReg.resolution ControlReg.setResolution v

/-- `access_pattern` (`driver.rs:300-302`). -/
def getAccessPattern : DM F σ ER EW AccessPattern := do
  let r ← controlRegister env
  DM.lift r.accessPattern

/-- `set_access_pattern` (`driver.rs:304-309`). -/
def setAccessPattern (v : AccessPattern) : DM F σ ER EW Unit :=
  setControlField env ControlReg.accessPattern ControlReg.setAccessPattern v

/-- `effective_emissivity` (`driver.rs:316-318`). -/
def effectiveEmissivity (d : Driver F σ) : F := d.emissivity

/-- `override_emissivity` (`driver.rs:325-327`). -/
def overrideEmissivity (v : F) (d : Driver F σ) : Driver F σ := { d with emissivity := v }

/-- `use_default_emissivity` (`driver.rs:333-336`). -/
def useDefaultEmissivity (d : Driver F σ) : Driver F σ :=
  { d with emissivity := d.calib.emissivity.getD (lit 1) }

/-- `reflected_temperature` (`driver.rs:343-345`). -/
def reflectedTemperature (d : Driver F σ) : Option F := d.reflected

/-- `set_reflected_temperature` (`driver.rs:353-355`). -/
def setReflectedTemperature (v : Option F) (d : Driver F σ) : Driver F σ := { d with reflected := v }

/-- `ambient_temperature` (`driver.rs:369-371`). -/
def ambientTemp (d : Driver F σ) : Option F := d.ambient

/-- `height` (`driver.rs:374-377`) and `width` (`driver.rs:380-382`). -/
def heightOf (d : Driver F σ) : Nat := d.calib.cam.height
def widthOf (d : Driver F σ) : Nat := d.calib.cam.width

/-- `read_ram` (`driver.rs:384-392`). -/
def readRam (sp : Subpage) : DM F σ ER EW RamData := fun d =>
  let (s', buf', r) := Mlx.readRam env.mode d.calib.cam env.height env.bus d.bus d.addr
    d.accessPattern sp d.pixelBuf
  ({ d with bus := s', pixelBuf := buf' }, r)

/-- Methods with a `destination: &mut [f32]` argument return the driver, the destination and the outcome. -/
abbrev ImageResult (F σ ER EW α : Type) := Driver F σ × List F × Res (Err ER EW) α

/-- `generate_raw_image_subpage_to` (`driver.rs:394-415`). -/
def generateRawImageSubpageTo (sp : Subpage) (dest : List F) (d : Driver F σ) :
    ImageResult F σ ER EW Unit :=
  match readRam env sp d with
  | (d, .err e) => (d, dest, .err e)
  | (d, .panic) => (d, dest, .panic)
  | (d, .ok ram) =>
    match rawPixelsToIrData (ε := Err ER EW) env.mode d.calib d.emissivity d.resCorr d.pixelBuf ram sp
        d.accessPattern (d.calib.cam.pixelsInSubpage sp d.accessPattern) dest with
    | .err e => (d, dest, .err e)
    | .panic => (d, dest, .panic)
    | .ok (tA, dest') => ({ d with ambient := some tA }, dest', .ok ())

/-- `generate_image_subpage_to` (`driver.rs:417-439`). -/
def generateImageSubpageTo (sp : Subpage) (dest : List F) (d : Driver F σ) :
    ImageResult F σ ER EW Unit :=
  match readRam env sp d with
  | (d, .err e) => (d, dest, .err e)
  | (d, .panic) => (d, dest, .panic)
  | (d, .ok ram) =>
    match rawPixelsToTemperatures (ε := Err ER EW) env.mode d.calib d.emissivity d.reflected d.resCorr
        d.pixelBuf ram sp d.accessPattern (d.calib.cam.pixelsInSubpage sp d.accessPattern) dest with
    | .err e => (d, dest, .err e)
    | .panic => (d, dest, .panic)
    | .ok (tA, dest') => ({ d with ambient := some tA }, dest', .ok ())

/-- `generate_image_to` (`driver.rs:445-451`). -/
def generateImageTo (dest : List F) (d : Driver F σ) : ImageResult F σ ER EW Unit :=
  match lastMeasuredSubpage env d with
  | (d, .err e) => (d, dest, .err e)
  | (d, .panic) => (d, dest, .panic)
  | (d, .ok sp) => generateImageSubpageTo env sp dest d

/-- `generate_image_if_ready` (`driver.rs:459-498`). -/
def generateImageIfReady (dest : List F) (d : Driver F σ) : ImageResult F σ ER EW Bool :=
  match statusRegister env d with
  | (d, .err e) => (d, dest, .err e)
  | (d, .panic) => (d, dest, .panic)
  | (d, .ok status) =>
    if status.newData then
      match status.lastUpdatedSubpage (ε := Err ER EW) with
      | .err e => (d, dest, .err e)
      | .panic => (d, dest, .panic)
      | .ok sp =>
        match readRam env sp d with
        | (d, .err e) => (d, dest, .err e)
        | (d, .panic) => (d, dest, .panic)
        | (d, .ok ram) =>
          match rawPixelsToTemperatures (ε := Err ER EW) env.mode d.calib d.emissivity d.reflected
              d.resCorr d.pixelBuf ram sp d.accessPattern
              (d.calib.cam.pixelsInSubpage sp d.accessPattern) dest with
          | .err e => (d, dest, .err e)
          | .panic => (d, dest, .panic)
          | .ok (tA, dest') =>
            match setStatusRegister env status.resetNewData { d with ambient := some tA } with
            | (d, .ok ()) => (d, dest', .ok true)
            | (d, .err e) => (d, dest', .err e)
            | (d, .panic) => (d, dest', .panic)
    else (d, dest, .ok false)

/-- The polling loop of `synchronize` (`driver.rs:512-515`), entered with a status that has no new data:
at most `fuel` polls; `ok true` when a poll saw new data, `ok false` when the fuel is used up (the real loop
goes on). -/
def pollStatus : Nat → DM F σ ER EW Bool
  | 0 => pure false
  | fuel + 1 => do
    let r ← statusRegister env
    if r.newData then pure true else pollStatus fuel

/-- `synchronize` (`driver.rs:505-517`). The loop condition is also evaluated on the value just written. -/
def synchronize (fuel : Nat) : DM F σ ER EW Bool := do
  let r ← statusRegister env
  let r := ((r.resetNewData).setOverwriteEnabled true).setStartMeasurement
  setStatusRegister env r
  if r.newData then pure true else pollStatus env fuel

end Driver

/-- Every public method of `CameraDriver` that takes `&mut self` (`driver.rs:170-517`). Destinations are
arguments. `synchronize` carries the number of polls after which it is observed. -/
inductive Op (F : Type) where
  | lastMeasuredSubpage
  | dataAvailable
  | resetDataAvailable
  | overwriteEnabled
  | setOverwriteEnabled (v : Bool)
  | subpagesEnabled
  | setUseSubpages (v : Bool)
  | dataHoldEnabled
  | setDataHold (v : Bool)
  | subpageRepeat
  | setSubpageRepeat (v : Bool)
  | selectedSubpage
  | setSubpage (v : Subpage)
  | frameRate
  | setFrameRate (v : FrameRate)
  | resolution
  | setResolution (v : Resolution)
  | accessPattern
  | setAccessPattern (v : AccessPattern)
  | overrideEmissivity (v : F)
  | useDefaultEmissivity
  | setReflectedTemperature (v : Option F)
  | generateRawImageSubpageTo (sp : Subpage) (dest : List F)
  | generateImageSubpageTo (sp : Subpage) (dest : List F)
  | generateImageTo (dest : List F)
  | generateImageIfReady (dest : List F)
  | synchronize (fuel : Nat)

/-- Forget the value returned. -/
def discard {F σ ER EW α : Type} (r : Driver F σ × Res (Err ER EW) α) :
    Driver F σ × Res (Err ER EW) Unit :=
  (r.1, match r.2 with | .ok _ => .ok () | .err e => .err e | .panic => .panic)

/-- Forget the value returned and the destination. -/
def discardImage {F σ ER EW α : Type} (r : Driver F σ × List F × Res (Err ER EW) α) :
    Driver F σ × Res (Err ER EW) Unit :=
  discard (r.1, r.2.2)

/-- One method call (`driver.rs:170-517`): the driver afterwards and whether it succeeded. -/
def Op.exec (env : Env σ ER EW) : Op F → Driver F σ → Driver F σ × Res (Err ER EW) Unit
  | .lastMeasuredSubpage, d => discard (Driver.lastMeasuredSubpage env d)
  | .dataAvailable, d => discard (Driver.dataAvailable env d)
  | .resetDataAvailable, d => discard (Driver.resetDataAvailable env d)
  | .overwriteEnabled, d => discard (Driver.overwriteEnabled env d)
  | .setOverwriteEnabled v, d => discard (Driver.setOverwriteEnabled env v d)
  | .subpagesEnabled, d => discard (Driver.subpagesEnabled env d)
  | .setUseSubpages v, d => discard (Driver.setUseSubpages env v d)
  | .dataHoldEnabled, d => discard (Driver.dataHoldEnabled env d)
  | .setDataHold v, d => discard (Driver.setDataHold env v d)
  | .subpageRepeat, d => discard (Driver.subpageRepeat env d)
  | .setSubpageRepeat v, d => discard (Driver.setSubpageRepeat env v d)
  | .selectedSubpage, d => discard (Driver.selectedSubpage env d)
  | .setSubpage v, d => discard (Driver.setSubpage env v d)
  | .frameRate, d => discard (Driver.frameRate env d)
  | .setFrameRate v, d => discard (Driver.setFrameRate env v d)
  | .resolution, d => discard (Driver.resolution env d)
  | .setResolution v, d => discard (Driver.setResolution env v d)
  | .accessPattern, d => discard (Driver.getAccessPattern env d)
  | .setAccessPattern v, d => discard (Driver.setAccessPattern env v d)
  | .overrideEmissivity v, d => (d.overrideEmissivity v, .ok ())
  | .useDefaultEmissivity, d => (d.useDefaultEmissivity, .ok ())
  | .setReflectedTemperature v, d => (d.setReflectedTemperature v, .ok ())
  | .generateRawImageSubpageTo sp dest, d => discardImage (Driver.generateRawImageSubpageTo env sp dest d)
  | .generateImageSubpageTo sp dest, d => discardImage (Driver.generateImageSubpageTo env sp dest d)
  | .generateImageTo dest, d => discardImage (Driver.generateImageTo env dest d)
  | .generateImageIfReady dest, d => discardImage (Driver.generateImageIfReady env dest d)
  | .synchronize fuel, d => discard (Driver.synchronize env fuel d)

/-- A history of calls, going on after every outcome (a superset of what a program can do). -/
def runOps (env : Env σ ER EW) (ops : List (Op F)) (d : Driver F σ) : Driver F σ :=
  ops.foldl (fun d op => (op.exec env d).1) d

end Mlx
