import Verif.Spec.Heard
import Verif.Spec.Thermometer
import Verif.Spec.Usual
/-
Raw and thermal images of which nothing is known but what was heard; cameras whose amplifiers have drifted.
-/
set_option autoImplicit false
namespace Mlx.Spec
open Mlx
variable {F : Type} [F32Ops F]

/-- The two kinds of images. -/
inductive ImageKind
  | raw
  | thermal
  deriving DecidableEq

/-- The documented value of a pixel in an image of the kind; pixels whose rounding errors are known to be small (C71, C97); and a
bound for these errors. -/
noncomputable def ImageKind.value : ImageKind → PixelInputs → ℝ
  | .raw, p => p.signal
  | .thermal, p => p.temperature
def ImageKind.Good : ImageKind → PixelInputs → Prop
  | .raw, p => p.Evaluable
  | .thermal, p => p.Usual
noncomputable def ImageKind.error : ImageKind → PixelInputs → ℝ
  | .raw, p => p.signalError
  | .thermal, _ => 0.6

/-- An image was made: some driver was constructed by `construct` on some bus and some calls were made, after which it had the
emissivity `em` and the reflected temperature `refl`; then one of the image methods turned `dest` into `dest'`, an image of subpage
`sp`, and left the ambient temperature `tA`; and `V` is as heard. -/
def Taken (construct : {σ ER EW : Type} → Mode → Bus σ ER EW → σ → Byte → σ × Res (Err ER EW) (Driver F σ)) (height : Nat)
    (kind : ImageKind) (V : Word → Word) (em : F) (refl : Option F) (sp : Subpage) (dest dest' : List F) (tA : Option F) : Prop :=
  ∃ (σ ER EW : Type) (m : Mode) (b : Bus σ ER EW) (s s' : σ × List (Txn ER EW)) (addr : Byte) (d d1 d' : Driver F (σ × List (Txn ER EW)))
      (ops : List (Op F)),
    construct m (recorded b) s addr = (s', .ok d) ∧ d1 = runOps (recordedEnv ⟨m, height, b⟩) ops d ∧
    d1.effectiveEmissivity = em ∧ d1.reflectedTemperature = refl ∧ AsHeard addr d'.bus.2 V ∧ d'.ambientTemp = tA ∧
    match kind with
    | .raw => Driver.generateRawImageSubpageTo (recordedEnv ⟨m, height, b⟩) sp dest d1 = (d', dest', .ok ())
    | .thermal =>
      Driver.generateImageSubpageTo (recordedEnv ⟨m, height, b⟩) sp dest d1 = (d', dest', .ok ()) ∨
      sp = statusSubpage (V 0x8000#16) ∧ Driver.generateImageTo (recordedEnv ⟨m, height, b⟩) dest d1 = (d', dest', .ok ()) ∨
      sp = statusSubpage (V 0x8000#16) ∧ Driver.generateImageIfReady (recordedEnv ⟨m, height, b⟩) dest d1 = (d', dest', .ok true)

/-- Where a camera type keeps its readings: base-emitter voltage and PTAT voltage of the temperature sensor, supply voltage, gain,
and the compensation pixel of a subpage; pixels are from 0x0400 to before `pixelsEnd`. -/
structure FrameMap where
  vbe : Word
  ptat : Word
  vdd : Word
  gain : Word
  cp : Subpage → Word
  pixelsEnd : Nat

def layout640 : FrameMap where
  vbe := 0x0700#16
  ptat := 0x0720#16
  vdd := 0x072A#16
  gain := 0x070A#16
  cp := fun | .zero => 0x0708#16 | .one => 0x0728#16
  pixelsEnd := 0x0700

def layout641 : FrameMap where
  vbe := 0x0580#16
  ptat := 0x05A0#16
  vdd := 0x05AA#16
  gain := 0x058A#16
  cp := fun | .zero => 0x0588#16 | .one => 0x05A8#16
  pixelsEnd := 0x0580

/-- The words at `a` and `b`, as signed numbers, are in the same ratio in both memories. -/
def SameRatio (V W : Word → Word) (a b : Word) : Prop := (V a).toInt * (W b).toInt = (W a).toInt * (V b).toInt

/-- The same camera (EEPROM) with the same settings (control register) at the same supply voltage. -/
structure SameCamera (f : FrameMap) (V W : Word → Word) : Prop where
  eeprom : ∀ a : Word, 0x2400 ≤ a.toNat → a.toNat < 0x2740 → W a = V a
  control : W 0x800D#16 = V 0x800D#16
  supply : W f.vdd = V f.vdd

/-- Two frames of the same camera between which its amplifiers have drifted: all pixels and the compensation pixel are in the same
ratio to the gain reading, and so are the two voltages of the temperature sensor to each other. -/
structure Drifted (f : FrameMap) (sp : Subpage) (V W : Word → Word) : Prop extends SameCamera f V W where
  pixels : ∀ a : Word, 0x0400 ≤ a.toNat → a.toNat < f.pixelsEnd → SameRatio V W a f.gain
  compensation : SameRatio V W (f.cp sp) f.gain
  gains : V f.gain ≠ 0#16 ∧ W f.gain ≠ 0#16
  sensor : SameRatio V W f.ptat f.vbe
  sensors : ¬ (V f.ptat = 0#16 ∧ V f.vbe = 0#16) ∧ ¬ (W f.ptat = 0#16 ∧ W f.vbe = 0#16)

/-- Two frames of the same camera with the same readings, other than those of pixels and compensation pixels. -/
structure SameReadings (f : FrameMap) (V W : Word → Word) : Prop extends SameCamera f V W where
  gain : W f.gain = V f.gain
  vbe : W f.vbe = V f.vbe
  ptat : W f.ptat = V f.ptat

/-- The difference of the raw values of the pixel at `a` in two frames with the same readings, compensated for gain and thermal
gradient. -/
noncomputable def rawDifference (t : Calib ℝ) (f : FrameMap) (a : Word) (sp : Subpage) (V W : Word → Word) : ℝ :=
  t.gain / (V f.gain).toInt *
    (((V a).toInt - (W a).toInt) - t.tgc.getD 0 * ((V (f.cp sp)).toInt - (W (f.cp sp)).toInt))

end Mlx.Spec
