import Verif.Spec.Driver
/-
Vocabulary for histories of driver calls.
-/
set_option autoImplicit false
namespace Mlx.Spec
open Mlx
variable {F σ ER EW : Type}

/-- The three methods that only change settings of the driver itself. -/
def isLocal : Op F → Bool
  | .overrideEmissivity _ | .useDefaultEmissivity | .setReflectedTemperature _ => true
  | _ => false

/-- The four methods that make images. -/
def isImage : Op F → Bool
  | .generateRawImageSubpageTo .. | .generateImageSubpageTo .. | .generateImageTo _ | .generateImageIfReady _ => true
  | _ => false

/-- The setters of control register fields. -/
def setsControl : Op F → Bool
  | .setUseSubpages _ | .setDataHold _ | .setSubpageRepeat _ | .setSubpage _ | .setFrameRate _
  | .setResolution _ | .setAccessPattern _ => true
  | _ => false

/-- The methods that read the control register: its getters and setters. -/
def usesControl : Op F → Bool
  | .subpagesEnabled | .dataHoldEnabled | .subpageRepeat | .selectedSubpage | .frameRate | .resolution
  | .accessPattern => true
  | op => setsControl op

/-- The emissivity in effect after a history, starting from `e`; `default` is the calibration's. -/
def emissivityAfter (default : F) : List (Op F) → F → F
  | [], e => e
  | .overrideEmissivity v :: ops, _ => emissivityAfter default ops v
  | .useDefaultEmissivity :: ops, _ => emissivityAfter default ops default
  | _ :: ops, e => emissivityAfter default ops e

/-- The reflected temperature set after a history, starting from `r`. -/
def reflectedAfter : List (Op F) → Option F → Option F
  | [], r => r
  | .setReflectedTemperature v :: ops, _ => reflectedAfter ops v
  | _ :: ops, r => reflectedAfter ops r

/-- One read-modify-write in the transactions of a call: the first transaction receives `w` from `reg`, one
later transaction writes `w'` to `reg`, all others are reads, and none in between covers `reg`. -/
def ReadModifyWrite (addr : Byte) (reg w w' : Word) (ts : List (Txn ER EW)) : Prop :=
  ∃ we mid post, ts = .readReg addr reg (.ok w) :: mid ++ .writeReg addr reg w' we :: post ∧
    (∀ t ∈ mid, t.isWrite = false ∧ ¬ t.covers reg) ∧ (∀ t ∈ post, t.isWrite = false)

/-- The transactions of one driver call: all to the same I²C address; either only reads, or one
read-modify-write, of the status register changing at most bits 3, 4 and 5 (new data, overwrite, start), or of the
control register changing at most the bits of one documented field. -/
def CallTrace (addr : Byte) (ts : List (Txn ER EW)) : Prop :=
  (∀ t ∈ ts, t.addr = addr) ∧
  ((∀ t ∈ ts, t.isWrite = false) ∨
   (∃ w w', ReadModifyWrite addr 0x8000#16 w w' ts ∧ OnlyBits (fun i => i = 3 ∨ i = 4 ∨ i = 5) w w') ∨
   (∃ w w' f, ReadModifyWrite addr 0x800D#16 w w' ts ∧ OnlyBits (CtrlField.Covers f) w w'))

/-- The call `op` of the driver `d`, with transactions `ts`, read a whole frame, the ambient temperature of which is `tA`:
the reads of a frame, for the last two methods preceded by reading the status register, which names the subpage (and, for
the last one, announces new data and is followed by a write to that register). -/
def MeasuredBy [F32Ops F] (env : Env σ ER EW) (d : Driver F (σ × List (Txn ER EW))) (op : Op F) (ts : List (Txn ER EW))
    (tA : F) : Prop :=
  ∃ sp rs frame px ram dest', d.calib.cam.collectRanges env.mode sp d.accessPattern env.height = .ok rs ∧
    FrameRead d.addr d.calib.cam rs sp d.pixelBuf frame px ram ∧
    match op with
    | .generateRawImageSubpageTo sp' dest => sp' = sp ∧ ts = frame ∧
      toRawImage (ER := ER) (EW := EW) env.mode d sp dest px ram = .ok (tA, dest')
    | .generateImageSubpageTo sp' dest => sp' = sp ∧ ts = frame ∧
      toTemperatures (ER := ER) (EW := EW) env.mode d sp dest px ram = .ok (tA, dest')
    | .generateImageTo dest => ∃ w, statusSubpage w = sp ∧ ts = .readReg d.addr 0x8000#16 (.ok w) :: frame ∧
      toTemperatures (ER := ER) (EW := EW) env.mode d sp dest px ram = .ok (tA, dest')
    | .generateImageIfReady dest => ∃ w w' we, w.getLsbD 3 = true ∧ statusSubpage w = sp ∧
      ts = .readReg d.addr 0x8000#16 (.ok w) :: frame ++ [.writeReg d.addr 0x8000#16 w' we] ∧
      toTemperatures (ER := ER) (EW := EW) env.mode d sp dest px ram = .ok (tA, dest')
    | _ => False

/-- The call `op` of the driver `d`, with transactions `ts` and result `r`, made no image: it is none of the four
methods, or reading failed, or it panicked, or it found that there is no new data. -/
def NoImage (d : Driver F (σ × List (Txn ER EW))) (op : Op F) (ts : List (Txn ER EW)) (r : Res (Err ER EW) Unit) : Prop :=
  isImage op = false ∨ (∃ e, r = .err (.i2cWriteRead e)) ∨ r = .panic ∨
  ∃ dest w, op = .generateImageIfReady dest ∧ ts = [.readReg d.addr 0x8000#16 (.ok w)] ∧ w.getLsbD 3 = false

/-- None of the calls makes an image. -/
def NoImages [F32Ops F] (env : Env (σ × List (Txn ER EW)) ER EW) : List (Op F) → Driver F (σ × List (Txn ER EW)) → Prop
  | [], _ => True
  | op :: ops, d =>
    (∃ ts, (op.exec env d).1.bus.2 = d.bus.2 ++ ts ∧ NoImage d op ts (op.exec env d).2) ∧
    NoImages env ops (op.exec env d).1

/-- `d` was made by one of the crate's constructors, on the recorded bus `b`, in environment `env`. -/
def Constructed [F32Ops F] (m : Mode) (b : Bus σ ER EW) (s : σ × List (Txn ER EW)) (addr : Byte) (env : Env σ ER EW)
    (d : Driver F (σ × List (Txn ER EW))) : Prop :=
  (env = ⟨m, 24, b⟩ ∧ ∃ s', Driver.new640 m (recorded b) s addr = (s', .ok d)) ∨
  (env = ⟨m, 12, b⟩ ∧ ∃ s', Driver.new641 m (recorded b) s addr = (s', .ok d))

/-- What C45 and C46 say about the three methods that convert a frame unconditionally. -/
def FailsCleanly (d : Driver F (σ × List (Txn ER EW))) (dest : List F)
    (out : Driver.ImageResult F (σ × List (Txn ER EW)) ER EW Unit) : Prop :=
  ∃ ts, out.1.bus.2 = d.bus.2 ++ ts ∧ (∀ t ∈ ts, t.isWrite = false) ∧
    ((∃ t ∈ ts, t.succeeded = false) → ∃ e, out.2.2 = .err e) ∧
    (∀ e, out.2.2 = .err e → FailsAtEnd ts e ∧ (∃ e', e = .i2cWriteRead e') ∧ out.2.1 = dest ∧
      out.1.ambientTemp = d.ambientTemp)

/-- How a call with the longer destination `dest ++ extra` (result `long`) relates to the same call with `dest` (result
`short`): same driver (hence the same bus traffic, cached values and ambient temperature), same outcome; the first
`dest.length` elements are the same; nothing is resized; and if `dest` already has room for `n` pixels, `extra` is
untouched. -/
def Prolongs {α : Type} (n : Nat) (dest extra : List F) (short long : Driver.ImageResult F σ ER EW α) : Prop :=
  long.1 = short.1 ∧ long.2.2 = short.2.2 ∧ short.2.1.length = dest.length ∧
    ∃ tail, tail.length = extra.length ∧ long.2.1 = short.2.1 ++ tail ∧ (n ≤ dest.length → tail = extra)

end Mlx.Spec
