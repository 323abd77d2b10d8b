import Verif.Spec.Driver
import Verif.Spec.History
/-
Vocabulary for devices with memory.
-/
set_option autoImplicit false
namespace Mlx.Spec
open Mlx
variable {F σ ER EW : Type} [F32Ops F]

/-- The raw pixel bytes `px` hold, for every pixel of the subpage, the word stored for it in the memory `M`. -/
def HoldsFrame (cam : Cam) (sp : Subpage) (ap : AccessPattern) (M : Word → Word) (px : List Byte) : Prop :=
  ∀ i, i < cam.numPixels → (cam.pixelsInSubpage sp ap)[i]? = some true →
    ∃ address, PixelAt cam sp i address ∧ px[2 * i]? = some (hiByte (M address)) ∧
      px[2 * i + 1]? = some (loByte (M address))

/-- A call that failed to write the control register. -/
def ControlWriteFailed (op : Op F) (outcome : Res (Err ER EW) Unit) : Prop :=
  setsControl op = true ∧ ∃ e, outcome = .err (.i2cWrite e)

/-- No call of the history failed to write the control register. -/
def NoControlWriteFailed (env : Env σ ER EW) : List (Op F) → Driver F σ → Prop
  | [], _ => True
  | op :: ops, d => ¬ ControlWriteFailed op (op.exec env d).2 ∧ NoControlWriteFailed env ops (op.exec env d).1

/-- A bus whose writes are never acknowledged, with a simple camera on it. -/
def readOnlyBus : Bus SimpleCamera Unit Unit := { simpleBus with write := fun s _ _ => (s, some ()) }

/-- A camera that measures on: after `wait` more transactions its memory becomes `next`. -/
structure UpdatingCamera where
  now : SimpleCamera
  next : Word → Word
  wait : Nat

/-- One transaction later. -/
def UpdatingCamera.tick (c : UpdatingCamera) (now : SimpleCamera) : UpdatingCamera :=
  { c with now := if c.wait = 1 then { now with mem := c.next } else now, wait := c.wait - 1 }

/-- A bus with a camera that measures on. Each transaction is answered consistently; the memory changes between
transactions only. -/
def updatingBus : Bus UpdatingCamera Unit Unit where
  writeRead c addr out buf :=
    let r := simpleBus.writeRead c.now addr out buf
    (c.tick r.1, r.2)
  write c addr out :=
    let r := simpleBus.write c.now addr out
    (c.tick r.1, r.2)
  length_eq c addr out buf := simpleBus.length_eq c.now addr out buf

end Mlx.Spec

namespace Mlx.Spec
open Mlx
variable {F σ ER EW : Type}

/-- What a combined transaction does and returns does not depend on the old contents of the caller's buffer (a
failed one may leave anything in it). -/
def BufferBlind (b : Bus σ ER EW) : Prop :=
  ∀ s addr out (buf buf' : List Byte), buf.length = buf'.length →
    (b.writeRead s addr out buf).1 = (b.writeRead s addr out buf').1 ∧
    (b.writeRead s addr out buf).2.2 = (b.writeRead s addr out buf').2.2 ∧
    ((b.writeRead s addr out buf).2.2 = none →
      (b.writeRead s addr out buf).2.1 = (b.writeRead s addr out buf').2.1)

/-- Two drivers that differ at most in the contents of their pixel buffers. -/
def SameButPixels (d d' : Driver F σ) : Prop :=
  d' = { d with pixelBuf := d'.pixelBuf } ∧ d.pixelBuf.length = d'.pixelBuf.length

/-- Two results of an image method: drivers that differ at most in the contents of their pixel buffers, the same
destination and the same outcome. -/
def SameImage {α : Type} (r r' : Driver.ImageResult F σ ER EW α) : Prop :=
  SameButPixels r.1 r'.1 ∧ r.2 = r'.2

/-- The driver without the recorder. -/
def forget (d : Driver F (σ × List (Txn ER EW))) : Driver F σ :=
  { bus := d.bus.1, addr := d.addr, calib := d.calib, pixelBuf := d.pixelBuf, resCorr := d.resCorr,
    ambient := d.ambient, emissivity := d.emissivity, accessPattern := d.accessPattern, reflected := d.reflected }

end Mlx.Spec
