import Verif.Spec.Object
import Verif.Spec.Thermometer
import Verif.Model.Driver
/-
Images of a camera computed with binary32 numbers: how near they are to the documented function of the camera's memory.
-/
set_option autoImplicit false
namespace Mlx.Spec
open Mlx F32Ops

/-- Everything about a pixel that its documented temperature depends on: the table of parameters, the control word, the
frame-wide readings, the emissivity, the reflected temperature (if the user gives one), what is subtracted from the ambient
temperature if not, the subpage, the raw value, and the parameters of the pixel. -/
structure PixelInputs where
  table : Calib ℝ
  control : Word
  readings : RamData
  emissivity : ℝ
  given : Option ℝ
  heating : ℝ
  subpage : Subpage
  raw : Int
  offset : Int
  alpha : ℝ
  kV : ℝ
  kTa : ℝ
  comp : ℝ
  kSTo : ℝ

namespace PixelInputs
variable (p : PixelInputs)

/-- The documented signal, sensitivity, ambient temperature, temperature of the surroundings, radiation, and temperature. -/
noncomputable def signal : ℝ :=
  pixelSignal p.table p.control p.readings p.emissivity p.subpage p.raw p.offset p.kV p.kTa p.comp
noncomputable def sensitivity : ℝ := Datasheet.sensitivity p.table p.readings p.subpage p.alpha
noncomputable def ambient : ℝ := Datasheet.ambient p.table p.readings
noncomputable def surroundings : ℝ := p.given.getD (p.ambient - p.heating)
noncomputable def radiation : ℝ := Datasheet.reflected p.ambient p.surroundings p.emissivity
noncomputable def temperature : ℝ :=
  pixelTemperature p.table p.control p.readings p.emissivity p.given p.heating p.subpage p.raw p.offset p.alpha p.kV p.kTa
    p.comp p.kSTo

/-- The frame can be evaluated (C71). -/
structure Evaluable : Prop where
  readable : Readable p.table (correction p.table p.control) p.readings
  emissivity : 1 / 2 ^ 20 ≤ |p.emissivity| ∧ |p.emissivity| ≤ 2 ^ 20

/-- Sensor and surroundings are warmer than 200 K. -/
structure Warm : Prop where
  sensor : 200 ≤ p.ambient + 273.15
  surroundings : 200 ≤ p.surroundings + 273.15 ∧ p.surroundings + 273.15 ≤ 2 ^ 11

/-- Bound of the error of the signal (C71). -/
noncomputable def signalError : ℝ :=
  compensatedError p.table (correction p.table p.control) p.emissivity p.readings p.subpage (pattern p.control) p.raw p.offset
    p.kV p.kTa p.comp

/-- Relative errors of signal, sensitivity and radiation (C74). -/
noncomputable def relativeSignalError : ℝ := p.signalError / (p.sensitivity * p.radiation)
noncomputable def relativeSensitivityError : ℝ := sensitivityError p.table p.readings p.subpage p.alpha
noncomputable def relativeRadiationError (δ : ℝ) : ℝ :=
  reflectedError δ p.emissivity p.ambient (ambientError p.table p.readings) p.surroundings
    (surroundingsError (ambientError p.table p.readings) p.given)

/-- The temperature of the pixel can be computed (C74). -/
def Measurable (δ : ℝ) : Prop :=
  Spec.Measurable p.signal p.sensitivity p.radiation p.kSTo p.relativeSignalError p.relativeSensitivityError
    (p.relativeRadiationError δ) δ

/-- All conditions of C74. -/
def Computable (δ : ℝ) : Prop := p.Evaluable ∧ p.Warm ∧ p.Measurable δ

/-- Bound of the error of the temperature (C74). -/
noncomputable def temperatureError (δ : ℝ) : ℝ :=
  objectError p.signal p.sensitivity p.radiation p.kSTo p.relativeSignalError p.relativeSensitivityError
    (p.relativeRadiationError δ) δ

end PixelInputs

/-- The inputs for pixel `i` of subpage `sp` of an MLX90640 with memory `M`. -/
noncomputable def Mlx90640Memory.pixel (M : Word → Word) (em : ℝ) (given : Option ℝ) (sp : Subpage) (i : Nat) : PixelInputs :=
  let E := eepromOf M
  { table := Ee640.calibration E, control := M 0x800D#16, readings := Mlx90640Memory.readings M sp, emissivity := em,
    given := given, heating := 8, subpage := sp, raw := (M (BitVec.ofNat 16 (0x0400 + i))).toInt, offset := Ee640.offset E i,
    alpha := Ee640.alpha E i, kV := Ee640.kV E i, kTa := Ee640.kTa E i, comp := Mlx90640Memory.comp M i,
    kSTo := (signedAt (E 0x243D) 8 8 : ℝ) / 2 ^ (bitsAt (E 0x243F) 0 4 + 8) }

/-- The inputs for pixel `i` of subpage `sp` of an MLX90641 with memory `M`, the EEPROM holding the values `D`. -/
noncomputable def Mlx90641Memory.pixel (M : Word → Word) (D : Nat → BitVec 11) (em : ℝ) (given : Option ℝ) (sp : Subpage)
    (i : Nat) : PixelInputs :=
  { table := Ee641.calibration D, control := M 0x800D#16, readings := Mlx90641Memory.readings M sp, emissivity := em,
    given := given, heating := 5, subpage := sp, raw := (M (Mlx90641Memory.address sp i)).toInt,
    offset := Ee641.offset D sp i, alpha := Ee641.alpha D i, kV := Ee641.kV D i, kTa := Ee641.kTa D i, comp := 0,
    kSTo := ((D 0x2437).toInt : ℝ) / 2 ^ (D 0x2434).toNat }

variable {F : Type} [F32Ops F] [Binary32 F]

/-- `new` is `old` with the measured pixels replaced: where `good` holds, by a number within `err` of `value`. -/
def DrawnNear (measured : Nat → Prop) (good : Nat → Prop) (value err : Nat → ℝ) (old new : List F) : Prop :=
  new.length = old.length ∧ ∀ i,
    (measured i → good i → i < old.length → ∃ v, new[i]? = some v ∧ Within v (value i) (err i)) ∧
    (¬ measured i → new[i]? = old[i]?)

/-- The ambient temperature that an image method leaves behind. -/
def NearAmbient {σ : Type} (t : Calib ℝ) (r : RamData) (d' : Driver F σ) : Prop :=
  Plausible t r → ∃ tA, d'.ambientTemp = some tA ∧ Within tA (Datasheet.ambient t r) (ambientError t r)

end Mlx.Spec
